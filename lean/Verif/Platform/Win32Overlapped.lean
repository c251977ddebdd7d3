import Verif.Platform.Layout
/-!
# What `Win32AsyncFile` builds for the operating system, and the handles it opens (win32.py:112-179)

`struct.pack` in native mode as the library documents it: every item at the next multiple of its size, the gaps filled with zeros, no
padding at the end; `P` takes a pointer (negative numbers in two's complement), `L` an unsigned `long`.
-/

namespace Verif.Platform.Win32

/-- The format characters used (win32.py:138, 175). -/
inductive Item where
  | P
  | L
  deriving DecidableEq, Repr

def Item.size (a : Abi) : Item → Nat
  | .P => a.ptr
  | .L => a.long

/-- One item; numbers that do not fit raise `struct.error` (`OverflowError` for `P` in some versions). -/
def packItem (a : Abi) : Item → Int → Py Bytes
  | .P, v =>
    if -(2 ^ (8 * a.ptr - 1)) ≤ v ∧ v < 256 ^ a.ptr then .ok (native a a.ptr (v % 256 ^ a.ptr).toNat) else .error .structError
  | .L, v => if 0 ≤ v ∧ v < 256 ^ a.long then .ok (native a a.long v.toNat) else .error .structError

/-- The items behind what is already packed. -/
def packInto (a : Abi) : Bytes → List (Item × Int) → Py Bytes
  | acc, [] => .ok acc
  | acc, (f, v) :: r =>
    match packItem a f v with
    | .ok b => packInto a (acc ++ zeros (alignUp acc.length (f.size a) - acc.length) ++ b) r
    | .error e => .error e

def structPack (a : Abi) (items : List (Item × Int)) : Py Bytes := packInto a [] items

/-- `c_buffer(bytes)`: a copy with a NUL behind it. -/
def cBuffer (bs : Bytes) : Bytes := bs ++ [0]

/-- `overlapped_struct_from_event` (win32.py:136-138) -/
def overlapped (a : Abi) (event : Int) : Py Bytes :=
  match structPack a [(.P, 0), (.P, 0), (.L, 0), (.L, 0), (.P, event)] with
  | .ok bs => .ok (cBuffer bs)
  | .error e => .error e

/-- The array of handles that `WaitForMultipleObjects` passes (win32.py:173-176). -/
def eventArray (a : Abi) (events : List Int) : Py Bytes :=
  match structPack a (events.map fun e => (Item.P, e)) with
  | .ok bs => .ok (cBuffer bs)
  | .error e => .error e

/-- A handle as `kernel32.CreateEventW` and `CreateFileW` return it (win32.py:118, 159): ctypes takes the result for a C `int`. -/
def returned (h : Nat) : Int := toSigned 4 (h % 2 ^ 32)

/-! ## Handles -/

/-- A `Win32File`, or a `Win32AsyncFile`: its handle, -1 once closed. -/
structure FileObj where
  async : Bool
  handle : Int
  deriving DecidableEq, Repr

/-- The handles the process has open, and the file objects made so far. -/
structure Process where
  table : List Nat
  files : List FileObj
  deriving DecidableEq, Repr

/-- What a program does with files; `ioctl` is what the executer calls for every command. -/
inductive FileOp where
  | open (async : Bool)
  | ioctl (file : Nat)
  | close (file : Nat)
  deriving DecidableEq, Repr

/-- What comes of it, as far as handles are concerned. -/
inductive Did where
  | opened
  | created (event : Nat)
  | nothing
  | closed
  | raised
  deriving DecidableEq, Repr

/-- One operation. `create` is how the operating system finds a handle, given those in use; `none`: there is none to be had.

* `Win32File.__init__` (win32.py:114-120) raises if `CreateFileW` gives `INVALID_HANDLE_VALUE`; `Win32AsyncFile.__init__` (153-156) adds a
  flag only.
* `Win32File.ioctl` (129-134) opens nothing. `Win32AsyncFile.ioctl` (158-171) creates an event every time, open or closed; whether
  `CreateEventW` gave NULL is not looked at: `created 0`. Nothing in the module closes an event.
* `close` (122-127). -/
def fileOp (create : List Nat → Option Nat) (op : FileOp) (p : Process) : Did × Process :=
  match op with
  | .open async =>
    match create p.table with
    | some h => (.opened, { table := h :: p.table, files := p.files ++ [{ async, handle := (h : Int) }] })
    | none => (.raised, p)
  | .ioctl i =>
    match p.files[i]? with
    | some ⟨true, _⟩ =>
      match create p.table with
      | some h => (.created h, { p with table := h :: p.table })
      | none => (.created 0, p)
    | some ⟨false, _⟩ => (.nothing, p)
    | none => (.raised, p)
  | .close i =>
    match p.files[i]? with
    | some ⟨async, h⟩ =>
      if h = -1 then (.nothing, p)
      else if h.toNat ∈ p.table then (.closed, { table := p.table.erase h.toNat, files := p.files.set i ⟨async, -1⟩ })
      else (.raised, p)
    | none => (.raised, p)

/-- A program. -/
def fileOps (create : List Nat → Option Nat) : List FileOp → Process → List Did × Process
  | [], p => ([], p)
  | op :: r, p =>
    let (d, p') := fileOp create op p
    let (ds, p'') := fileOps create r p'
    (d :: ds, p'')

end Verif.Platform.Win32
