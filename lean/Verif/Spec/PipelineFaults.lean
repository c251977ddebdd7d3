import Verif.Spec.Pipeline
/-!
# Commands sent ahead on a way that can fail

As `Verif.Spec.Pipeline`, but the system may fail while a command is being given to it. `send` and `call` then raise the system's error. Whatever the failing
call did to the device is part of the failure: it may have been executed, wholly, in part, or not at all. Commands that were not refused are numbered, failing
ones too.
-/

namespace Verif.Spec.Pipeline
open Verif.Spec

variable {δ A R : Type}

/-- One thing the user does; `some g` if the system fails at it and leaves the device as `g` says. (`wait` does not ask the system for anything.) -/
abbrev FOp (δ : Type) := Op × Option (δ → δ)

/-- The system fails at a command with the error `err`. -/
def failed (err : PyErr) (limit : Nat) (s : State δ A R) (g : δ → δ) : State δ A R :=
  if limit ≤ s.out.length then { s with log := s.log ++ [.refused] }
  else ⟨g s.dev, s.next + 1, keep limit s, s.log ++ [.raised err]⟩

def fstep (dev : Device δ) (limit : Nat) (hear : Req → Answer → A) (ret : Req → Answer → R) (s : State δ A R) : FOp δ → State δ A R
  | (op, none) => step dev limit hear ret s op
  | (.wait, some _) => step dev limit hear ret s .wait
  | (.send _, some g) => failed .asiOs limit s g
  | (.call _, some g) => failed .asiOs limit s g

def frunFrom (dev : Device δ) (limit : Nat) (hear : Req → Answer → A) (ret : Req → Answer → R) (s : State δ A R) (ops : List (FOp δ)) :
    State δ A R := ops.foldl (fstep dev limit hear ret) s

def frun (dev : Device δ) (limit : Nat) (hear : Req → Answer → A) (ret : Req → Answer → R) (k : δ) (ops : List (FOp δ)) : State δ A R :=
  frunFrom dev limit hear ret (State.init k) ops

/-! ## Reading a history -/

/-- The device's answers to commands given to it one after the other; none to those that failed. -/
def fanswers (dev : Device δ) : δ → List (Req × Option (δ → δ)) → List (Option Answer)
  | _, [] => []
  | k, (c, none) :: cs => some (dev k (asked c)).1 :: fanswers dev (dev k (asked c)).2 cs
  | k, (_, some g) :: cs => none :: fanswers dev (g k) cs

/-- The device after that. -/
def fafter (dev : Device δ) : δ → List (Req × Option (δ → δ)) → δ
  | k, [] => k
  | k, (c, none) :: cs => fafter dev (dev k (asked c)).2 cs
  | k, (_, some g) :: cs => fafter dev (g k) cs

/-- The command an operation gives to the executer. -/
def fgiven (op : FOp δ) : Option (Req × Option (δ → δ)) := (given op.1).map (fun c => (c, op.2))

/-- Whether an event is the reply to such an operation, and whether the command got past the queue; `err` is the system's error. -/
def freply (err : PyErr) : Ev A R → Option Bool
  | .accepted _ => some true
  | .returned _ _ => some true
  | .raised e => if e = err then some true else none
  | .refused => some false
  | _ => none

/-- The commands that got past the queue, in order, according to what the user did and saw. -/
def tried (err : PyErr) (ops : List (FOp δ)) (log : List (Ev A R)) : List (Req × Option (δ → δ)) :=
  ((ops.filterMap fgiven).zip (log.filterMap (freply err))).filterMap (fun p => if p.2 then some p.1 else none)

end Verif.Spec.Pipeline
