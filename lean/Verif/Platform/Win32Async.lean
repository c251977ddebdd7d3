import Verif.Platform.Generators
/-!
# Model of the Windows executer on an asynchronous file (win32.py:136-171, 369-373)

`Win32CommandExecuter` on a `Win32AsyncFile`: `ioctl` is a generator function there, so `_os_send` yields a generator, which yields the
token of the overlapped request.

An overlapped structure and its event are created together for every request and are named by one number, the event handle.
`CreateEventW` is taken to succeed, with a handle never used before (handles are never closed in the code).
-/

namespace Verif.Platform.Win32
open Verif.Executer Verif.ExecuterGen Verif.Coroutine

/-- What `DeviceIoControl` with an overlapped structure returns: FALSE with `ERROR_IO_PENDING`; TRUE, the request is already completed;
FALSE with another error. -/
inductive Started where
  | pending
  | completed
  | failed
  deriving DecidableEq, Repr

/-- The operating system: an overlapped `DeviceIoControl` on the block at an address; and `GetOverlappedResult`: the success it returns and
the number of bytes it stores. It may have to wait, so it may change the world. -/
structure IoManager (κ : Type) where
  deviceIoControl : (code blockAddr size overlapped : Nat) → World κ → Started × World κ
  getOverlappedResult : (overlapped : Nat) → World κ → (Bool × Nat) × World κ

/-- The executer's world: memory and operating system, `incoming_packets` (the last appended first), and the next event handle. -/
structure AsyncWorld (κ : Type) where
  world : World κ
  incoming : List Spt
  events : Nat

/-- Where the generators are suspended: `_os_send` (win32.py:369-373) before and after its yield; `Win32AsyncFile.ioctl` (162-171) before
and after its yield; `_os_receive` (375-387) before and after the one yield it reaches. -/
inductive AsyncGen where
  | send (h : Spt)
  | sent (h : Spt)
  | ioctl (h : Spt)
  | ioctlEnd
  | recv
  | recvEnd

variable {S R K κ : Type}

/-- The generators. The token is the event handle (win32.py:168); every other result of `DeviceIoControl`, success included, is raised as
`AsiWin32OSError` (170-171). -/
def asyncResume (a : Abi) (parse : Bytes → Py (Option S)) (io : IoManager κ) (g : AsyncGen)
    (i : Inp (Val (Option Bytes) (DevErr S) R) (Exn (DevErr S))) (_ : St Spt (Option K)) (w : AsyncWorld κ) :
    AsyncWorld κ × Out AsyncGen (Val (Option Bytes) (DevErr S) R) (Exn (DevErr S)) Nat :=
  match g, i with
  | _, .throw e => (w, .raises e)
  | .send h, .send _ => (w, .yields (.gen (.ioctl h)) (.sent h))
  | .ioctl h, .send _ =>
    match io.deviceIoControl ioctlCode h.blockAddr (sptSize a) w.events { w.world with mem := h.install w.world.mem } with
    | (.pending, w') => ({ w with world := w', events := w.events + 1 }, .yields (.tok w.events) .ioctlEnd)
    | (_, w') => ({ w with world := w', events := w.events + 1 }, .raises (.py .asiOs))
  | .ioctlEnd, .send _ => (w, .ret)
  | .sent h, .send _ => ({ w with incoming := h :: w.incoming }, .ret)
  | .recv, .send _ =>
    match w.incoming with
    | [] => (w, .raises (.py .indexError))
    | h :: r =>
      match classify a parse h w.world.mem with
      | .ok o => ({ w with incoming := r }, .yields (.plain (.resp o h.packetId)) .recvEnd)
      | .error e => ({ w with incoming := r }, .raises (.py e))
  | .recvEnd, .send _ => (w, .ret)

/-- `WinAsyncIOToken.get_result` (win32.py:146-150): the success of `GetOverlappedResult` is not looked at. -/
def getResult (io : IoManager κ) (event : Nat) (w : AsyncWorld κ) :
    AsyncWorld κ × Except (Exn (DevErr S)) (Inp (Val (Option Bytes) (DevErr S) R) (Exn (DevErr S))) :=
  let r := io.getOverlappedResult event w.world
  ({ w with world := r.2 }, .ok (.send (.num r.1.2)))

def asyncPlat (a : Abi) (parse : Bytes → Py (Option S)) (io : IoManager κ) :
    Plat AsyncGen Spt K (Option Bytes) (DevErr S) R Nat (AsyncWorld κ) where
  resume := asyncResume a parse io
  await := getResult io
  sendGen := .send
  recvGen := .recv

end Verif.Platform.Win32
