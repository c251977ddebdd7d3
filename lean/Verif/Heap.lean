import Verif.Spec.Heap
import Verif.Props.Queue
/-!
# Who owns the memory that the sg driver writes to

The executer of linux.py gives the sg driver the addresses of the data and sense buffers of a command (linux.py:148-165). They are kept alive by
`pending_packets`: the entry has the `SGIO` object (__init__.py:104), which has the buffers as attributes. (Other references are gone once `send` is
over: `os_data` is one of its local variables.) When the entry goes, by the response (129), by the bare `except` of `send` (107-109) or by another
entry under the same number (104), the buffers go, and `malloc` may hand out their memory again.

Simplified: the memory of the Python objects themselves, of exceptions' tracebacks (which may delay the release) and of the buffers that
`from_string` makes for a response (linux.py:205-210) is left out.
-/

namespace Verif.Heap
open Verif.Executer Verif.Platform Verif.Platform.Linux Verif.Spec Verif.Spec.Heap

variable {S δ : Type}

/-- The memory of a request object: `source_buffer`, `sense_buffer`, `command_buffer` and, if there is one, `data_buffer` (linux.py:148-165, 179-203). -/
def places (h : Handle) : List (Nat × Nat) :=
  [(h.blockAddr, h.block.length), (h.senseAddr, h.senseInit.length), (h.cmdAddr, h.cmd.length)] ++
    match h.data with
    | some (x, d) => [(x, d.length)]
    | none => []

/-- The process: the executer with its driver, and the other objects of the program. -/
structure Proc (δ S : Type) where
  live : Live δ S
  objs : List Obj

def Proc.init (limit : Nat) (m : Mem) (k : δ) : Proc δ S := ⟨Live.init limit m k, []⟩

/-- The memory in use: that of the pending request objects and that of the program's objects. -/
def Proc.used (s : Proc δ S) : List (Nat × Nat) :=
  s.live.ex.pending.flatMap (fun e => places e.2.1) ++ s.objs.map (fun o => (o.addr, o.bytes.length))

/-- `_os_send` (linux.py:225-226) with an exception that comes after the write: in `gevent_friendly` (__init__.py:227-236), which sleeps after every
call to the operating system, or from a signal handler. -/
def sendThen {κ : Type} (k : SgDriver κ) (interrupted : Bool) (h : Handle) (w : World κ) : Py Unit × World κ :=
  match sgSend k h w with
  | (.ok (), w') => (if interrupted then .error (.other 0) else .ok (), w')
  | (.error e, w') => (.error e, w')

/-- One thing that happens. -/
def Proc.step (l : Bool) (parse : Bytes → Py (Option S)) (dev : Device δ) (tmo : Int) (room : Nat) (s : Proc δ S) : Act → Proc δ S
  | .send c al interrupted =>
    let r := Executer.send (prepare (lp64 l) (fun _ => al) tmo c) (sendThen (sgQueue l room 0) interrupted) (some s.live.next) s.live.ex s.live.world
    match r.out with
    | .ok () => { s with live := ⟨r.st, r.os, s.live.next + 1, s.live.log ++ [.accepted s.live.next]⟩ }
    | .error _ => { s with live := ⟨r.st, r.os, s.live.next, s.live.log ++ [.refused]⟩ }
  | .finish i direct => { s with live := { s.live with world := sgFinish l dev i direct s.live.world } }
  | .receive i =>
    let r := process (sgReceive (lp64 l) parse (sgQueue l room i)) s.live.ex s.live.world
    match r.fired with
    | some (t, a) => { s with live := ⟨r.st, r.os, s.live.next, s.live.log ++ [.told t a]⟩ }
    | none => { s with live := ⟨r.st, r.os, s.live.next, s.live.log ++ [.nothing]⟩ }
  | .make x => ⟨{ s.live with world := { s.live.world with mem := writeMem s.live.world.mem x.addr x.bytes } }, objects s.objs (.make x)⟩
  | .drop i => { s with objs := objects s.objs (.drop i) }

def Proc.run (l : Bool) (parse : Bytes → Py (Option S)) (dev : Device δ) (tmo : Int) (room : Nat) (s : Proc δ S) (acts : List Act) : Proc δ S :=
  acts.foldl (Proc.step l parse dev tmo room) s

/-- What `malloc` promises: the pieces it hands out for one request are apart and below the end of memory, and nothing it hands out is in use. -/
def Fresh (s : Proc δ S) : Act → Prop
  | .send c al _ => Separate 64 (regions al c 88) ∧ ∀ r ∈ regions al c 88, ∀ u ∈ s.used, Apart r u
  | .make x => ∀ u ∈ s.used, Apart (x.addr, x.bytes.length) u
  | _ => True

/-- `malloc` keeps its promise throughout. -/
def Allocates (l : Bool) (parse : Bytes → Py (Option S)) (dev : Device δ) (tmo : Int) (room : Nat) : Proc δ S → List Act → Prop
  | _, [] => True
  | s, act :: acts => Fresh s act ∧ Allocates l parse dev tmo room (Proc.step l parse dev tmo room s act) acts

/-- A command the request block has room for (`cmd_len` is a byte, `dxfer_len` an int, linux.py:119-142). -/
def Fits : Act → Prop
  | .send c _ _ => c.cdb.length ≤ 255 ∧ dataSize c < 2 ^ 32
  | _ => True

/-- The request whose header is `raw` has its buffers in use: a pending request object has that header as its block, its sense buffer where the
header says, and its data buffer, if it has one, where the header says. -/
def Owned (l : Bool) (s : Proc δ S) (raw : Bytes) : Prop :=
  ∃ e ∈ s.live.ex.pending, e.2.1.block = raw ∧ e.2.1.senseAddr = sgSensePtr l raw ∧ ∀ x d, e.2.1.data = some (x, d) → x = word l raw 16 8

end Verif.Heap
