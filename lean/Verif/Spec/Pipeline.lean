import Verif.Spec.Device
/-!
# Commands sent ahead: what a user sees when the system completes every command while it is being sent

The user may send commands with a callback, wait for all that are outstanding, and execute a command and have its result. Every accepted
command is executed by the device at once. Nothing here knows about packet numbers, request blocks or memory.
-/

namespace Verif.Spec.Pipeline
open Verif.Spec

/-- One thing the user does: `send` a command with a callback, `call` (execute a command and have its result), `wait` for the callbacks. -/
inductive Op where
  | send (c : Req)
  | call (c : Req)
  | wait

/-- What the user observes. Accepted commands are numbered. -/
inductive Ev (A R : Type) where
  /-- `send` accepted a command -/
  | accepted (t : Nat)
  /-- `send` or `call` raised because the queue is full -/
  | refused
  /-- the callback of command `t` was called with `a` -/
  | told (t : Nat) (a : A)
  /-- `call` returned, or raised, `r` -/
  | returned (t : Nat) (r : R)
  /-- `wait` returned -/
  | waited
  /-- another exception -/
  | raised (e : PyErr)
  deriving DecidableEq

/-- A command that was sent and whose callback was not called yet. -/
structure Entry where
  t : Nat
  cmd : Req
  ans : Answer

variable {δ A R : Type}

structure State (δ A R : Type) where
  dev : δ
  /-- how many commands have been accepted -/
  next : Nat
  /-- the youngest first -/
  out : List Entry
  log : List (Ev A R)

def State.init (k : δ) : State δ A R := ⟨k, 0, [], []⟩

/-- The commands remembered when the next one is accepted: one that is still outstanding after `limit` further ones is forgotten. -/
def keep (limit : Nat) (s : State δ A R) : List Entry := s.out.filter (fun e => e.t + limit ≠ s.next)

/-- `hear c ans` is what the callback of `c` is told when the device answered `ans`, `ret c ans` the result of executing `c`. -/
def step (dev : Device δ) (limit : Nat) (hear : Req → Answer → A) (ret : Req → Answer → R) (s : State δ A R) : Op → State δ A R
  | .send c =>
    if limit ≤ s.out.length then { s with log := s.log ++ [.refused] }
    else ⟨(dev s.dev (asked c)).2, s.next + 1, ⟨s.next, c, (dev s.dev (asked c)).1⟩ :: keep limit s, s.log ++ [.accepted s.next]⟩
  | .call c =>
    if limit ≤ s.out.length then { s with log := s.log ++ [.refused] }
    else ⟨(dev s.dev (asked c)).2, s.next + 1, keep limit s, s.log ++ [.returned s.next (ret c (dev s.dev (asked c)).1)]⟩
  | .wait => { s with out := [], log := s.log ++ s.out.map (fun e => .told e.t (hear e.cmd e.ans)) ++ [.waited] }

def runFrom (dev : Device δ) (limit : Nat) (hear : Req → Answer → A) (ret : Req → Answer → R) (s : State δ A R) (ops : List Op) :
    State δ A R := ops.foldl (step dev limit hear ret) s

def run (dev : Device δ) (limit : Nat) (hear : Req → Answer → A) (ret : Req → Answer → R) (k : δ) (ops : List Op) : State δ A R :=
  runFrom dev limit hear ret (State.init k) ops

/-- The commands given to `send` and `call`. -/
def Gives (cmds : Req → Prop) : Op → Prop
  | .send c => cmds c
  | .call c => cmds c
  | .wait => True

/-- The memory of a command never overlaps that of a command outstanding when it is accepted: `apart t c t' c'` is to say so of commands `c` and
`c'` with the numbers `t` and `t'`. -/
def Fresh (apart : Nat → Req → Nat → Req → Prop) (dev : Device δ) (limit : Nat) (hear : Req → Answer → A) (ret : Req → Answer → R)
    (s : State δ A R) : List Op → Prop
  | [] => True
  | op :: ops =>
    (match op with
      | .send c => ∀ e ∈ keep limit s, apart e.t e.cmd s.next c
      | .call c => ∀ e ∈ keep limit s, apart e.t e.cmd s.next c
      | .wait => True) ∧ Fresh apart dev limit hear ret (step dev limit hear ret s op) ops

/-! ## Reading a history -/

/-- The answers a device gives to commands executed one after the other. -/
def answers (dev : Device δ) : δ → List Req → List Answer
  | _, [] => []
  | k, c :: cs => (dev k (asked c)).1 :: answers dev (dev k (asked c)).2 cs

/-- The device after executing commands one after the other. -/
def after (dev : Device δ) : δ → List Req → δ
  | k, [] => k
  | k, c :: cs => after dev (dev k (asked c)).2 cs

/-- The command an operation gives to the executer. -/
def given : Op → Option Req
  | .send c => some c
  | .call c => some c
  | .wait => none

/-- Whether an event is the reply to such an operation, and whether the command was accepted. -/
def reply : Ev A R → Option Bool
  | .accepted _ => some true
  | .returned _ _ => some true
  | .refused => some false
  | _ => none

/-- The commands accepted, in order, according to what the user did and saw. -/
def taken (ops : List Op) (log : List (Ev A R)) : List Req :=
  ((ops.filterMap given).zip (log.filterMap reply)).filterMap (fun p => if p.2 then some p.1 else none)

/-- The number of the command whose callback an event is about. -/
def toldOf : Ev A R → Option Nat
  | .told t _ => some t
  | _ => none

/-- At most `room` commands are given between one `wait` and the next; `left` more may be given now. -/
def Bursts (room : Nat) : Nat → List Op → Prop
  | _, [] => True
  | _, .wait :: ops => Bursts room room ops
  | 0, _ :: _ => False
  | left + 1, _ :: ops => Bursts room left ops

end Verif.Spec.Pipeline
