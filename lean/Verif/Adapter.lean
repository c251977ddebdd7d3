import Verif.ExecuterGen
/-!
# Model of `CommandExecuterAdapter` with `sync_call` as its wrapper

`CommandExecuterAdapter(executer, sync_call)` (src/infi/asi/__init__.py:162-179): its `call` is an ordinary function that runs the executer's
`call` to its end, so a command's `execute` that is given the adapter yields the finished result where it would have yielded a generator.
-/

namespace Verif.Adapter

open Verif.Executer Verif.Coroutine Verif.ExecuterGen

/-- The objects the driver meets when `execute` is given the adapter. -/
inductive Frame (C D E R : Type) where
  /-- `execute` (cdb/*.py), not started; after `yield executer.call(...)`; after the last yield -/
  | execute (c : Command C D R)
  | executeGot (c : Command C D R)
  | executeEnd
  /-- a generator that has ended -/
  | ended
  /-- an object that is not a generator: it has no `send` -/
  | value (v : Val D E R)

variable {C Q K D E R Gp T ω : Type} [DecidableEq K]

/-- How `sync_call(executer.call, command)` ends. -/
abbrev Called (C Q K D E R Gp T ω : Type) := Final (ExecuterGen.Frame C Q K D R Gp) (W Q K D E ω) (Val D E R) (Exn E) T

/-- `yield executer.call(q)` within `execute`, `executer` being the adapter (__init__.py:168-169): the call ends, then its result is yielded; an
exception comes out of `executer.call` itself. `sync_wait` returns the last object yielded, whatever it is. -/
def yieldCalled (c : Command C D R) : Called C Q K D E R Gp T ω → W Q K D E ω × Out (Frame C D E R) (Val D E R) (Exn E) T
  | .raised e w => (w, .raises e)
  | .returned none w => (w, .yields (.plain .none) (.executeGot c))
  | .returned (some (.plain v)) w => (w, .yields (.plain v) (.executeGot c))
  | .returned (some (.exc e)) w => (w, .yields (.exc e) (.executeGot c))
  | .returned (some (.gen _)) w => (w, .yields (.gen .ended) (.executeGot c))
  | .returned (some (.tok t)) w => (w, .yields (.tok t) (.executeGot c))

/-- Resuming `execute` given the adapter; `call q w` is what `sync_call(executer.call, q)` does in world `w`. Resuming an object that has no
`send` or `throw` is an `AttributeError` (sync_adapter.py:22, 24). -/
def resume (call : C → W Q K D E ω → Called C Q K D E R Gp T ω) (f : Frame C D E R) (i : Inp (Val D E R) (Exn E)) (w : W Q K D E ω) :
    W Q K D E ω × Out (Frame C D E R) (Val D E R) (Exn E) T :=
  match f, i with
  | .value _, _ => (w, .raises (.py .attribute))
  | _, .throw e => (w, .raises e)
  | .execute c, .send _ =>
    match c.request with
    | .error e => (w, .raises (.py e))
    | .ok q => yieldCalled c (call q w)
  | .executeGot c, .send (.data d) =>
    match c.decode d with
    | .error e => (w, .raises (.py e))
    | .ok r => (w, .yields (.plain (.obj r)) .executeEnd)
  | .executeGot _, .send _ => (w, .raises (.py .typeError))
  | .executeEnd, .send _ => (w, .ret)
  | .ended, .send _ => (w, .ret)

/-- `execute` given the adapter, as run by `sync_wait`. -/
def machine (P : Plat Gp Q K D E R T ω) (call : C → W Q K D E ω → Called C Q K D E R Gp T ω) :
    Machine (Frame C D E R) (W Q K D E ω) (Val D E R) (Exn E) T where
  none := .none
  resume := resume call
  await t w := ({ w with os := (P.await t w.os).1 }, (P.await t w.os).2)

/-- `call` is what `sync_call(executer.call, q)` does: `adapter.call(q)` (__init__.py:168-169). Where that does not end nothing is said. -/
def WrapsCall (P : Plat Gp Q K D E R T ω) (prepare : C → Nat → Py Q) (call : C → W Q K D E ω → Called C Q K D E R Gp T ω) : Prop :=
  ∀ q w f, SyncCall (ExecuterGen.machine P prepare) (fun w => (w, .ok (.call q))) w f → call q w = f

/-- `adapter.send(command, callback)` (__init__.py:171-172). -/
def AdaptedSend (P : Plat Gp Q K D E R T ω) (prepare : C → Nat → Py Q) (q : C) (cb : Option (Option K)) (w : W Q K D E ω)
    (f : Called C Q K D E R Gp T ω) : Prop :=
  SyncCall (ExecuterGen.machine P prepare) (fun w => (w, .ok (.send q cb))) w f

/-- `adapter.wait()` (__init__.py:177-178). -/
def AdaptedWait (P : Plat Gp Q K D E R T ω) (prepare : C → Nat → Py Q) (w : W Q K D E ω) (f : Called C Q K D E R Gp T ω) : Prop :=
  SyncCall (ExecuterGen.machine P prepare) (fun w => (w, .ok .wait)) w f

/-- `adapter.is_queue_full()` (__init__.py:174-175): `executer.is_queue_full` is not a generator function, it returns a bool. -/
def AdaptedIsQueueFull (P : Plat Gp Q K D E R T ω) (call : C → W Q K D E ω → Called C Q K D E R Gp T ω) (w : W Q K D E ω)
    (f : Final (Frame C D E R) (W Q K D E ω) (Val D E R) (Exn E) T) : Prop :=
  SyncCall (machine P call) (fun w => (w, .ok (.value (.bool (isQueueFull w.st))))) w f

end Verif.Adapter
