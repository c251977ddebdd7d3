import Verif.Platform.Linux
/-!
# Model of the Solaris executer (solaris.py:74-236)

The `ioctl` works on a ctypes copy of the block, which is read back (solaris.py:198-204).
-/

namespace Verif.Platform.Solaris
open Verif.Executer

/-- `SCSICMD._fields_` (solaris.py:102-116) -/
def decl : Decls :=
  [("uscsi_flags", c_int), ("uscsi_status", c_short), ("uscsi_timeout", c_short), ("uscsi_cdb", c_void_p),
   ("uscsi_bufaddr", c_void_p), ("uscsi_buflen", c_ulong), ("uscsi_resid", c_ulong), ("uscsi_cdblen", c_ubyte),
   ("uscsi_rqlen", c_ubyte), ("uscsi_rqstatus", c_ubyte), ("uscsi_rqresid", c_ubyte), ("uscsi_rqbuf", c_void_p),
   ("uscsi_path_instance", c_ulong)]

/-- The slot of a field. -/
def fld (a : Abi) (nm : String) : Slot := slot (layout a none decl) nm

/-- `sizeof(SCSICMD)` -/
def size (a : Abi) : Nat := sizeOf a none decl

/-- `SENSE_SIZE` (solaris.py:98) -/
def senseSize : Nat := 0xFF

/-- `USCSI_DEFAULT_FLAGS` (solaris.py:100): `USCSI_REASON | USCSI_DIAGNOSE | USCSI_RQENABLE` (solaris.py:75, 84, 89) -/
def defaultFlags : Nat := 0x00200000 ||| 0x00000002 ||| 0x00010000

/-- `USCSICMD` (solaris.py:95-96) -/
def uscsiCmd : Nat := (0x04 <<< 8) ||| 201

/-- `set_data_buffer` (solaris.py:132-139) -/
def setDataBuffer (a : Abi) (buf : Option (Nat × Nat)) (raw : Bytes) : Bytes :=
  match buf with
  | some (addr, sz) => store a (fld a "uscsi_buflen") sz (store a (fld a "uscsi_bufaddr") addr raw)
  | none => store a (fld a "uscsi_buflen") 0 (store a (fld a "uscsi_bufaddr") 0 raw)

/-- `SCSICMD.create` (solaris.py:152-173) with `init_sense_buffer` (122-125) and `init_command_buffer` (127-130). -/
def create (a : Abi) (al : Alloc) (c : Req) (timeout : Int) : Handle :=
  let raw := zeros (size a)
  let raw := store a (fld a "uscsi_rqbuf") al.sense raw
  let raw := store a (fld a "uscsi_rqlen") senseSize raw
  let raw := store a (fld a "uscsi_cdb") al.cmd raw
  let raw := store a (fld a "uscsi_cdblen") c.cdb.length raw
  let raw := store a (fld a "uscsi_timeout") timeout raw
  let (raw, data) :=
    match c with
    | .read _ len =>
      if len > 0 then
        (setDataBuffer a (some (al.data, len.toNat)) (store a (fld a "uscsi_flags") ((0x08 ||| defaultFlags : Nat) : Int) raw),
          some (al.data, zeros len.toNat))
      else
        (setDataBuffer a none (store a (fld a "uscsi_flags") ((0x00 ||| defaultFlags : Nat) : Int) raw), none)
    | .write _ d =>
      (setDataBuffer a (some (al.data, d.length)) (store a (fld a "uscsi_flags") ((0x00 ||| defaultFlags : Nat) : Int) raw),
        some (al.data, d))
  { blockAddr := al.block, block := raw, senseAddr := al.sense, senseInit := zeros senseSize, cmdAddr := al.cmd,
    cmd := c.cdb, data := data }

variable {S κ K : Type}

/-- The executer's world; `buffer` is the attribute `self.buffer` (absent before the first send). -/
structure SolWorld (κ : Type) where
  world : World κ
  buffer : Option Bytes

/-- `fcntl.ioctl(fd, USCSICMD, buffer)` on a writable buffer: fails with `IOError`, or hands back the updated buffer. -/
structure TargetDriver (κ : Type) where
  ioctl : (code : Nat) → Bytes → World κ → Py Bytes × World κ

/-- `_os_prepare_to_send` (solaris.py:193-194) -/
def prepare (a : Abi) (alloc : Nat → Alloc) (timeout : Int) (c : Req) (packetIndex : Nat) : Py Handle :=
  .ok (create a (alloc packetIndex) c timeout)

/-- `_os_send` (solaris.py:196-205). `create_string_buffer(self.buffer)` appends a NUL byte. -/
def osSend (k : TargetDriver κ) (h : Handle) (w : SolWorld κ) : Py Unit × SolWorld κ :=
  match k.ioctl uscsiCmd (h.block ++ [0]) { w.world with mem := h.install w.world.mem } with
  | (.error e, w') => (.error e, { world := w', buffer := some h.block })
  | (.ok raw, w') => (.ok (), { world := w', buffer := some raw })

/-- `data` of a successful command (solaris.py:228-230). -/
def successData (a : Abi) (m : Mem) : Option Handle → Py (Option Bytes)
  | none => .error .attribute
  | some h =>
    let request := readMem m h.blockAddr h.block.length
    if (load a (fld a "uscsi_flags") request % 2 ^ 32).toNat &&& 8 ≠ 0 ∧ load a (fld a "uscsi_buflen") request ≠ 0 then
      match h.dataRaw m with
      | .ok d => .ok (some d)
      | .error e => .error e
    else .ok none

/-- `_handle_raw_response` (solaris.py:207-232). The packet number is always 0; `request` is `_get_os_data(0)`.
`x & 0xFF` of a (possibly negative) Python integer is its remainder modulo 256; the reason code (line 213) only goes into a
message. -/
def handleRawResponse (a : Abi) (parse : Bytes → Py (Option S)) (request : Option Handle) (m : Mem) (raw : Bytes) :
    Py (Outcome (Option Bytes) (DevErr S) × Nat) :=
  if raw.length < size a then .error .valueError
  else
    let status := (load a (fld a "uscsi_status") raw % 256).toNat
    if status &&& 2 ≠ 0 then
      match checkCondition parse (readMem m (load a (fld a "uscsi_rqbuf") raw).toNat senseSize) with
      | .ok e => .ok (.exc e, 0)
      | .error e => .error e
    else if status ≠ 0 then .ok (.exc .scsi, 0)
    else if load a (fld a "uscsi_rqstatus") raw ≠ 0 then .ok (.exc .scsi, 0)
    else
      match successData a m request with
      | .ok d => .ok (.data d, 0)
      | .error e => .error e

/-- `_os_receive` (solaris.py:234-236) -/
def osReceive (a : Abi) (parse : Bytes → Py (Option S)) (s : St Handle K) (w : SolWorld κ) :
    Py (Outcome (Option Bytes) (DevErr S) × Nat) × SolWorld κ :=
  match w.buffer with
  | none => (.error .attribute, w)
  | some raw => (handleRawResponse a parse (getOsData s 0) w.world.mem raw, w)

end Verif.Platform.Solaris
