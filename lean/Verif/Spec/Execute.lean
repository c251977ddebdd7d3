import Verif.ExecuterGen
import Verif.Spec.Device
import Verif.Spec.Coroutine
import Verif.Platform.Common
/-! # Specification: executing commands against a device -/

namespace Verif.Spec

open Verif.Executer Verif.Coroutine Verif.ExecuterGen Verif.Platform

variable {C Q K D E R Gp T ω δ : Type}

/-- What `sync_wait` hands to its caller: a value (`none`: nothing was ever yielded, or no plain value), or an exception. -/
def answer : Final (Frame C Q K D R Gp) (W Q K D E ω) (Val D E R) (Exn E) T → Except (Exn E) (Option (Val D E R))
  | .returned (some (.plain v)) _ => .ok (some v)
  | .returned _ _ => .ok none
  | .raised e _ => .error e

/-- The world after `sync_wait`. -/
def world : Final (Frame C Q K D R Gp) (W Q K D E ω) (Val D E R) (Exn E) T → W Q K D E ω
  | .returned _ w => w
  | .raised _ w => w

/-- What a command makes of the outcome of its request: the device's error unchanged, or the decoded data. -/
def decoded (cmd : Command C D R) : Except (Exn E) (Option D) → Except (Exn E) (Option (Val D E R))
  | .error e => .error e
  | .ok d =>
    match cmd.decode d with
    | .ok r => .ok (some (.obj r))
    | .error e => .error (.py e)

/-- `sync_wait(cmd.execute(executer))` for one command after the other, exceptions being caught by the caller. -/
inductive RunAll (M : Machine (Frame C Q K D R Gp) (W Q K D E ω) (Val D E R) (Exn E) T) :
    List (Command C D R) → W Q K D E ω → List (Except (Exn E) (Option (Val D E R))) → W Q K D E ω → Prop
  | nil (w) : RunAll M [] w [] w
  | cons {c cs w f as w'} : SyncWait M (.execute c) w f → RunAll M cs (world f) as w' → RunAll M (c :: cs) w (answer f :: as) w'

/-- The same commands given to the device directly: each request that can be built reaches the device once, as asked; `out` is what
the platform makes of the device's answer. -/
def askAll (dev : Device δ) (out : Req → Answer → Except (Exn E) (Option D)) :
    List (Command Req D R) → δ → List (Except (Exn E) (Option (Val D E R))) × δ
  | [], k => ([], k)
  | c :: cs, k =>
    match c.request with
    | .error e => let r := askAll dev out cs k; (.error (.py e) :: r.1, r.2)
    | .ok q => let r := askAll dev out cs (dev k (asked q)).2; (decoded c (out q (dev k (asked q)).1) :: r.1, r.2)

end Verif.Spec
