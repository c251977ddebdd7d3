import Verif.Props.Windows
import Verif.Platform.Win32Async
import Verif.ReactorShared
import Verif.Spec.Execute
/-!
# Specification: overlapped requests to a device, and serving several commands one at a time

The I/O manager keeps every overlapped request it is given until the device serves it; the device serves the requests in flight in any order
it likes, at any time it likes, one at a time.
-/

namespace Verif.Spec
open Verif.Platform Verif.Platform.Win32 Verif.ExecuterGen Verif.Executer

variable {δ S R K : Type}

/-- The device, the requests in flight (overlapped structure, address of the block) and the served ones (and whether they succeeded). -/
structure IoKernel (δ : Type) where
  dev : δ
  flying : List (Nat × Nat)
  landed : List (Nat × Bool)

/-- `sizeof` the request block. -/
def blockSize (b : Bool) : Nat := if b then 311 else 299

/-- The device serves one request in flight; this is what the port driver does for a synchronous request. -/
def land (b : Bool) (dev : Device δ) (p : Nat × Nat) (w : World (IoKernel δ)) : World (IoKernel δ) :=
  let r := (sptDevice b dev).ioctl 0x4D014 p.2 (blockSize b) { mem := w.mem, kernel := w.kernel.dev }
  { mem := r.2.mem,
    kernel := { dev := r.2.kernel, flying := w.kernel.flying.erase p, landed := (p.1, r.1.isOk) :: w.kernel.landed } }

/-- The world after waiting for a request: served if it was still in flight. -/
def landNow (b : Bool) (dev : Device δ) (ov : Nat) (w : World (IoKernel δ)) : World (IoKernel δ) :=
  match w.kernel.flying.find? (·.1 == ov) with
  | some p => land b dev p w
  | none => w

/-- The I/O manager: every request for the right code and size is put in flight; `GetOverlappedResult` waits for it if need be. -/
def ioDevice (b : Bool) (dev : Device δ) : IoManager (IoKernel δ) where
  deviceIoControl code addr size ov w :=
    if code ≠ 0x4D014 ∨ size ≠ blockSize b then (.failed, w)
    else (.pending, { w with kernel := { w.kernel with flying := w.kernel.flying ++ [(ov, addr)] } })
  getOverlappedResult ov w :=
    (((landNow b dev ov w).kernel.landed.lookup ov == some true, blockSize b), landNow b dev ov w)

/-- What may happen while the reactor is not looking: a request in flight is served. Its event is signalled then. Waiting may
time out at any time. -/
def ioKernel (b : Bool) (dev : Device δ) : ReactorShared.Kernel (W Spt K (Option Bytes) (DevErr S) (AsyncWorld (IoKernel δ))) (Exn (DevErr S)) Nat where
  advance w w' := ∃ p ∈ w.os.world.kernel.flying, w' = { w with os := { w.os with world := land b dev p w.os.world } }
  signalled t w := t ∈ w.os.world.kernel.landed.map Prod.fst
  waitRaises _ e := e = .py .asiOs

end Verif.Spec
