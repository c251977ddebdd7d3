import Verif.Spec.Latest
import Verif.Spec.PipelineFaults
/-!
# Commands sent ahead when the system remembers only the command given to it last, on a way that can fail
-/

namespace Verif.Spec.Latest
open Verif.Spec Verif.Spec.Pipeline

variable {δ A R : Type}

/-- As `Latest.step`, but the system may fail at a command (with the error `err`). The command it failed at is then the one given to it last. -/
def fstep (err : PyErr) (dev : Device δ) (limit : Nat) (hear : Req → Answer → A) (ret : Req → Answer → R) (s : State δ A R) : FOp δ → State δ A R
  | (op, none) => step dev limit hear ret s op
  | (.wait, some _) => step dev limit hear ret s .wait
  | (.send _, some g) => failed err limit s g
  | (.call _, some g) => failed err limit s g

def frunFrom (err : PyErr) (dev : Device δ) (limit : Nat) (hear : Req → Answer → A) (ret : Req → Answer → R) (s : State δ A R) (ops : List (FOp δ)) :
    State δ A R := ops.foldl (fstep err dev limit hear ret) s

def frun (err : PyErr) (dev : Device δ) (limit : Nat) (hear : Req → Answer → A) (ret : Req → Answer → R) (k : δ) (ops : List (FOp δ)) : State δ A R :=
  frunFrom err dev limit hear ret (State.init k) ops

end Verif.Spec.Latest
