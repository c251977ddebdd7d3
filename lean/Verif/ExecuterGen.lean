import Verif.Executer
import Verif.Coroutine
/-!
# The generators of `CommandExecuterBase` and of the commands' `execute`

`Verif.Executer` models `call`, `send`, `wait` and `_process_pending_response` as functions. Here they are what they are in the code:
generator functions, written as the resumable machines of `Verif.Coroutine`, one constructor of `Frame` per place where the
function is suspended. The platform's `_os_send` and `_os_receive` are generators too, given by an arbitrary machine.

Callbacks are named by `Option K`. Every running coroutine has one name of its own (`none` unless several coroutines are in flight at
once): it is the name of the local function `my_cb` of the `call` it is in, which appends to that call's list `result`.

Simplification: callbacks other than a call's own are recorded, they neither raise nor re-enter the executer.
-/

namespace Verif.ExecuterGen

open Verif.Executer Verif.Coroutine

/-- The plain values that pass through `yield`. -/
inductive Val (D E R : Type) where
  | none
  | num (n : Int)
  | bool (b : Bool)
  | raw (b : Bytes)
  /-- the pair `(result, packet_id)` of `_os_receive` -/
  | resp (o : Outcome D E) (packetId : Nat)
  /-- the data `call` yields -/
  | data (d : Option D)
  /-- what `execute` yields last -/
  | obj (r : R)

/-- A command object as its `execute` method sees it: how the request is built (`create_datagram` and the arguments of
`SCSIReadCommand` / `SCSIWriteCommand`), and how the result is made from the data received. -/
structure Command (C D R : Type) where
  request : Py C
  decode : Option D → Py R

/-- A platform's `_os_send` and `_os_receive` generators. They may read the executer's state (`_get_os_data`), not change it. -/
structure Plat (Gp Q K D E R T ω : Type) where
  resume : Gp → Inp (Val D E R) (Exn E) → St Q (Option K) → ω → ω × Out Gp (Val D E R) (Exn E) T
  await : T → ω → ω × Except (Exn E) (Inp (Val D E R) (Exn E))
  sendGen : Q → Gp
  recvGen : Gp

/-- The places where the generator functions are suspended. -/
inductive Frame (C Q K D R Gp : Type) where
  /-- `execute`, not started; after `yield executer.call(...)`; after the last yield (cdb/*.py) -/
  | execute (c : Command C D R)
  | executeGot (c : Command C D R)
  | executeEnd
  /-- `call` (__init__.py:77-91): not started; after line 82 or 85; after line 91 -/
  | call (c : C)
  | callLoop
  | callEnd
  /-- `send` (__init__.py:99-110): not started; after line 107 -/
  | send (c : C) (cb : Option (Option K))
  | sendTry (packetIndex : Nat)
  /-- `_process_pending_response` (__init__.py:123-138): not started; after line 125; after line 127; after line 138 -/
  | process
  | processEmpty
  | processGot
  | processEnd
  /-- `wait` (__init__.py:112-114): not started or after line 114 (the same) -/
  | wait
  /-- a generator of the platform -/
  | os (g : Gp)

/-- The world: the executer, the operating system, the callbacks invoked so far (except those named `none`), and for every name the list
`result` of the running `call` (what the callback of that name was called with since the `call` began). -/
structure W (Q K D E ω : Type) where
  st : St Q (Option K)
  os : ω
  fired : List (Option K × CbArgs D E)
  box : Option K → List (CbArgs D E)

variable {C Q K D E R Gp T ω : Type} [DecidableEq K]

/-- The lists `result`, with the one of the `call` named `k` replaced. -/
def setBox (box : Option K → List (CbArgs D E)) (k : Option K) (l : List (CbArgs D E)) : Option K → List (CbArgs D E) :=
  fun j => if j = k then l else box j

abbrev Yield (C Q K D E R Gp T : Type) := Yld (Frame C Q K D R Gp) (Val D E R) (Exn E) T
abbrev Result (C Q K D E R Gp T : Type) := Out (Frame C Q K D R Gp) (Val D E R) (Exn E) T

/-- What a platform's generator yields, as seen by the driver. -/
def liftYld : Yld Gp (Val D E R) (Exn E) T → Yield C Q K D E R Gp T
  | .plain v => .plain v
  | .exc e => .exc e
  | .gen g => .gen (.os g)
  | .tok t => .tok t

def liftOut : Out Gp (Val D E R) (Exn E) T → Result C Q K D E R Gp T
  | .yields y g => .yields (liftYld y) (.os g)
  | .ret => .ret
  | .raises e => .raises e

/-- `execute` up to its first yield: the request is built and `executer.call(...)` yielded. -/
def resumeExecute (c : Command C D R) (w : W Q K D E ω) : W Q K D E ω × Result C Q K D E R Gp T :=
  match c.request with
  | .error e => (w, .raises (.py e))
  | .ok q => (w, .yields (.gen (.call q)) (.executeGot c))

/-- `execute` once `call` has delivered: the result is made and yielded. -/
def resumeExecuteGot (c : Command C D R) (d : Option D) (w : W Q K D E ω) : W Q K D E ω × Result C Q K D E R Gp T :=
  match c.decode d with
  | .error e => (w, .raises (.py e))
  | .ok r => (w, .yields (.plain (.obj r)) .executeEnd)

/-- `call` at the head of its loop and after it (__init__.py:84-91). -/
def resumeCallLoop (own : Option K) (w : W Q K D E ω) : W Q K D E ω × Result C Q K D E R Gp T :=
  match w.box own with
  | [] => (w, .yields (.gen .process) .callLoop)
  | a :: _ =>
    match a.exc with
    | some e => (w, .raises (.dev e))
    | none => (w, .yields (.plain (.data a.data)) .callEnd)

/-- `send` up to its yield (__init__.py:100-107). -/
def resumeSend (P : Plat Gp Q K D E R T ω) (prepare : C → Nat → Py Q) (c : C) (cb : Option (Option K)) (w : W Q K D E ω) :
    W Q K D E ω × Result C Q K D E R Gp T :=
  match nextPacketIndex w.st with
  | .error e => (w, .raises (.py e))
  | .ok (i, s1) =>
    match prepare c i with
    | .error e => ({ w with st := s1 }, .raises (.py e))
    | .ok q => ({ w with st := { s1 with pending := Dict.set s1.pending i (q, cb) } }, .yields (.gen (.os (P.sendGen q))) (.sendTry i))

/-- The `except` clause of `send` (__init__.py:108-110). -/
def resumeSendExcept (i : Nat) (e : Exn E) (w : W Q K D E ω) : W Q K D E ω × Result C Q K D E R Gp T :=
  match Dict.get w.st.pending i with
  | none => (w, .raises (.py .keyError))
  | some _ => ({ w with st := { w.st with pending := Dict.erase w.st.pending i } }, .raises e)

/-- `_process_pending_response` once `_os_receive` has delivered (__init__.py:129-138). -/
def resumeProcessGot (o : Outcome D E) (j : Nat) (w : W Q K D E ω) : W Q K D E ω × Result C Q K D E R Gp T :=
  match Dict.get w.st.pending j with
  | none => (w, .raises (.py .asiInternal))
  | some (_, cb) =>
    let s' := { w.st with pending := Dict.erase w.st.pending j }
    match cb with
    | none => ({ w with st := s' }, .raises (.py .typeError))
    | some k =>
      ({ w with st := s', box := setBox w.box k (w.box k ++ [cbArgs o]),
                fired := match k with | none => w.fired | some k => w.fired ++ [(some k, cbArgs o)] },
        .yields (.plain (.bool true)) .processEnd)

/-- Resuming a generator of the coroutine named `own`. A value of the wrong kind at a place that unpacks it is a `TypeError`. -/
def resume (P : Plat Gp Q K D E R T ω) (prepare : C → Nat → Py Q) (own : Option K) (f : Frame C Q K D R Gp) (i : Inp (Val D E R) (Exn E))
    (w : W Q K D E ω) : W Q K D E ω × Result C Q K D E R Gp T :=
  match f, i with
  | .os g, i => ({ w with os := (P.resume g i w.st w.os).1 }, liftOut (P.resume g i w.st w.os).2)
  | .sendTry i, .throw e => resumeSendExcept i e w
  | _, .throw e => (w, .raises e)
  | .execute c, .send _ => resumeExecute c w
  | .executeGot c, .send (.data d) => resumeExecuteGot c d w
  | .executeGot _, .send _ => (w, .raises (.py .typeError))
  | .executeEnd, .send _ => (w, .ret)
  | .call c, .send _ => ({ w with box := setBox w.box own [] }, .yields (.gen (.send c (some own))) .callLoop)
  | .callLoop, .send _ => resumeCallLoop own w
  | .callEnd, .send _ => (w, .ret)
  | .send c cb, .send _ => resumeSend P prepare c cb w
  | .sendTry _, .send _ => (w, .ret)
  | .process, .send _ =>
    if isQueueEmpty w.st then (w, .yields (.plain (.bool false)) .processEmpty)
    else (w, .yields (.gen (.os P.recvGen)) .processGot)
  | .processEmpty, .send _ => (w, .yields (.gen (.os P.recvGen)) .processGot)
  | .processGot, .send (.resp o j) => resumeProcessGot o j w
  | .processGot, .send _ => (w, .raises (.py .typeError))
  | .processEnd, .send _ => (w, .ret)
  | .wait, .send _ => if isQueueEmpty w.st then (w, .ret) else (w, .yields (.gen .process) .wait)

/-- All generators together, as run by the coroutine named `own`. -/
def machine (P : Plat Gp Q K D E R T ω) (prepare : C → Nat → Py Q) (own : Option K := none) :
    Machine (Frame C Q K D R Gp) (W Q K D E ω) (Val D E R) (Exn E) T where
  none := .none
  resume := resume P prepare own
  await t w := ({ w with os := (P.await t w.os).1 }, (P.await t w.os).2)

/-- The platform's generators alone, in a fixed state of the executer. -/
def Plat.machine (P : Plat Gp Q K D E R T ω) (s : St Q (Option K)) : Machine Gp ω (Val D E R) (Exn E) T where
  none := .none
  resume g i w := P.resume g i s w
  await := P.await

end Verif.ExecuterGen
