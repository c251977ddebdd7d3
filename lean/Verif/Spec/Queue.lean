import Verif.Spec.Device
/-!
# Several commands outstanding together: what a user has in mind

Commands are numbered as they are accepted. The device works on the accepted commands in any order; finished commands are reported in any
order; the report of a command is what the device answered to that very command. Nothing here knows about packet numbers, request blocks or
memory.
-/

namespace Verif.Spec.Queue
open Verif.Spec

/-- One thing that happens. -/
inductive Op where
  /-- the user sends a command -/
  | send (c : Req)
  /-- the device executes the `i`-th oldest of the commands it did not execute yet. `direct`: the driver lets the device read and write
  the user's buffers (`SG_FLAG_DIRECT_IO`) instead of copying them when the command is written and its response read -/
  | finish (i : Nat) (direct : Bool)
  /-- the user processes one response: the `i`-th oldest of those waiting to be read -/
  | receive (i : Nat)
  deriving DecidableEq, Repr

/-- What the user observes: a command was accepted and given the next number; a command was refused; the callback of command `t` was told
`a`; there was nothing to receive. -/
inductive Ev (A : Type) where
  | accepted (t : Nat)
  | refused
  | told (t : Nat) (a : A)
  | nothing
  deriving DecidableEq, Repr

structure State (δ A : Type) where
  dev : δ
  /-- how many commands have been accepted -/
  next : Nat
  /-- accepted, not executed yet -/
  waiting : List (Nat × Req)
  /-- executed, not reported yet -/
  done : List (Nat × Req × Answer)
  log : List (Ev A)

variable {δ A : Type}

def State.init (k : δ) : State δ A := ⟨k, 0, [], [], []⟩

/-- The numbers of the outstanding commands: executed first. -/
def State.tickets (s : State δ A) : List Nat := s.done.map Prod.fst ++ s.waiting.map Prod.fst

/-- `limit` commands may be outstanding; `hear c ans` is what the sender of `c` is told when the device answered `ans`. -/
def step (dev : Device δ) (limit : Nat) (hear : Req → Answer → A) (s : State δ A) : Op → State δ A
  | .send c =>
    if limit ≤ s.tickets.length then { s with log := s.log ++ [.refused] }
    else { s with next := s.next + 1, waiting := s.waiting ++ [(s.next, c)], log := s.log ++ [.accepted s.next] }
  | .finish i _ =>
    match s.waiting[i]? with
    | none => s
    | some (t, c) =>
      { s with dev := (dev s.dev (asked c)).2, waiting := s.waiting.eraseIdx i, done := s.done ++ [(t, c, (dev s.dev (asked c)).1)] }
  | .receive i =>
    match s.done[i]? with
    | none => { s with log := s.log ++ [.nothing] }
    | some (t, c, ans) => { s with done := s.done.eraseIdx i, log := s.log ++ [.told t (hear c ans)] }

def runFrom (dev : Device δ) (limit : Nat) (hear : Req → Answer → A) (s : State δ A) (ops : List Op) : State δ A :=
  ops.foldl (step dev limit hear) s

def run (dev : Device δ) (limit : Nat) (hear : Req → Answer → A) (k : δ) (ops : List Op) : State δ A :=
  runFrom dev limit hear (State.init k) ops

/-- No command is accepted while another is outstanding whose number differs from its own by a multiple of the limit. -/
def NoWrap (dev : Device δ) (limit : Nat) (hear : Req → Answer → A) (s : State δ A) : List Op → Prop
  | [] => True
  | op :: ops =>
    (match op with
      | .send _ => s.tickets.length < limit → ∀ t ∈ s.tickets, t % limit ≠ s.next % limit
      | _ => True) ∧ NoWrap dev limit hear (step dev limit hear s op) ops

/-- The device executes in the order of sending, and responses are read in the order of execution. -/
def InOrder : Op → Prop
  | .send _ => True
  | .finish i _ => i = 0
  | .receive i => i = 0

/-- The commands sent in a history. -/
def Sends (cmds : Req → Prop) : Op → Prop
  | .send c => cmds c
  | _ => True

end Verif.Spec.Queue
