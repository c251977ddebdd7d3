import Verif.Spec.Pipeline
/-!
# Commands sent ahead: what a user sees when the system remembers only the command sent last

As `Spec/Pipeline`: every accepted command is executed by the device at once, but only the answer to the command accepted last can be had, and only once.
Nothing here knows about packet numbers, request blocks or memory.
-/

namespace Verif.Spec.Latest
open Verif.Spec Verif.Spec.Pipeline

variable {δ A R : Type}

/-- The callbacks called by `wait`, those still outstanding afterwards, and what `wait` does in the end. -/
def waiting (hear : Req → Answer → A) (next : Nat) : List Entry → List (Ev A R) × List Entry
  | [] => ([.waited], [])
  | e :: rest =>
    if e.t + 1 = next then
      ([.told e.t (hear e.cmd e.ans), if rest.isEmpty then .waited else .raised .attribute], rest)
    else ([.raised .attribute], e :: rest)

def step (dev : Device δ) (limit : Nat) (hear : Req → Answer → A) (ret : Req → Answer → R) (s : State δ A R) : Op → State δ A R
  | .wait => { s with out := (waiting (R := R) hear s.next s.out).2, log := s.log ++ (waiting hear s.next s.out).1 }
  | op => Pipeline.step dev limit hear ret s op

def runFrom (dev : Device δ) (limit : Nat) (hear : Req → Answer → A) (ret : Req → Answer → R) (s : State δ A R) (ops : List Op) :
    State δ A R := ops.foldl (step dev limit hear ret) s

def run (dev : Device δ) (limit : Nat) (hear : Req → Answer → A) (ret : Req → Answer → R) (k : δ) (ops : List Op) : State δ A R :=
  runFrom dev limit hear ret (State.init k) ops

/-- Every `send` is followed by a `wait` at once. -/
def Paired : List Op → Prop
  | [] => True
  | .send _ :: .wait :: ops => Paired ops
  | .send _ :: _ => False
  | _ :: ops => Paired ops

end Verif.Spec.Latest
