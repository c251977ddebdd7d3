import Verif.Spec.Queue
/-!
# Calls made one after another, some of them given up: what a user has in mind

A call sends a command and waits for the answer to that very command. It may be given up: nothing comes within the time limit, or the wait is
interrupted by an exception. The command stays with the device, which may still execute it, and its answer may still come in while a later call
is waiting; that later call goes on waiting for its own.
-/

namespace Verif.Spec.Queue
open Verif.Spec

/-- One wait for a response: the device executes some commands (`Op.finish`), then the `pick`-th oldest response is read. When there is no such
response the wait runs into the time limit. -/
structure Round where
  work : List (Nat × Bool)
  pick : Nat

/-- A call: its command, how its waits go, and the exception that interrupts it after these (if the answer did not come before). -/
structure Call where
  cmd : Req
  rounds : List Round
  interrupt : PyErr

/-- How a call ends: with the answer to its command, given up with an exception, or refused. -/
inductive Heard (A : Type) where
  | told (a : A)
  | gaveUp (e : PyErr)
  | refused
  deriving DecidableEq, Repr

variable {δ A : Type}

/-- The device executes some commands. -/
def works (dev : Device δ) (limit : Nat) (hear : Req → Answer → A) (s : State δ A) (work : List (Nat × Bool)) : State δ A :=
  work.foldl (fun s x => step dev limit hear s (.finish x.1 x.2)) s

/-- Wait for the answer to command number `own`. -/
def waitFor (dev : Device δ) (limit : Nat) (hear : Req → Answer → A) (own : Nat) (e : PyErr) :
    State δ A → List Round → Heard A × State δ A
  | s, [] => (.gaveUp e, s)
  | s, r :: rs =>
    let s1 := works dev limit hear s r.work
    let s2 := step dev limit hear s1 (.receive r.pick)
    match s1.done[r.pick]? with
    | none => (.gaveUp .ioError, s2)
    | some (t, c, ans) => if t = own then (.told (hear c ans), s2) else waitFor dev limit hear own e s2 rs

/-- One call. -/
def call (dev : Device δ) (limit : Nat) (hear : Req → Answer → A) (s : State δ A) (c : Call) : Heard A × State δ A :=
  if limit ≤ s.tickets.length then (.refused, s)
  else waitFor dev limit hear s.next c.interrupt (step dev limit hear s (.send c.cmd)) c.rounds

/-- One call after the other. -/
def calls (dev : Device δ) (limit : Nat) (hear : Req → Answer → A) : State δ A → List Call → List (Heard A) × State δ A
  | s, [] => ([], s)
  | s, c :: cs =>
    let r := call dev limit hear s c
    let rest := calls dev limit hear r.2 cs
    (r.1 :: rest.1, rest.2)

/-- The state each call starts in satisfies `P`. -/
def Throughout (dev : Device δ) (limit : Nat) (hear : Req → Answer → A) (P : State δ A → Prop) : State δ A → List Call → Prop
  | _, [] => True
  | s, c :: cs => P s ∧ Throughout dev limit hear P (call dev limit hear s c).2 cs

/-- No command is outstanding whose number differs from the next one by a multiple of the limit. -/
def Distinct (limit : Nat) (s : State δ A) : Prop := ∀ t ∈ s.tickets, t % limit ≠ s.next % limit

/-- Every outstanding command is one of the `limit - 1` sent last. -/
def Recent (limit : Nat) (s : State δ A) : Prop := ∀ t ∈ s.tickets, s.next < t + limit

end Verif.Spec.Queue
