import Verif.Base
/-!
# ctypes structures, raw blocks and memory

What the four platform modules use of `ctypes`: structure layout (`_fields_`, `_pack_`), reading and assigning integer
fields of a structure placed over a string buffer (`Structure.from_buffer`), `create_string_buffer`, `cast(buf, c_void_p)`,
`string_at`, `memset`.  This is a model of the library as documented (CPython `Modules/_ctypes`): a field is placed at the
next multiple of its alignment, `_pack_ = p` caps every alignment at `p`, the size is rounded up to the largest alignment,
and assigning an integer keeps its low bytes without any range check.
-/

namespace Verif.Platform

/-- The C data model: byte order, size of a pointer, size of `long`. -/
structure Abi where
  little : Bool
  ptr : Nat
  long : Nat
  deriving DecidableEq, Repr

/-- 64-bit Unix (LP64). -/
def lp64 (little : Bool) : Abi := { little, ptr := 8, long := 8 }
/-- 64-bit Windows (LLP64). -/
def win64 : Abi := { little := true, ptr := 8, long := 4 }
/-- 32-bit Windows. -/
def win32 : Abi := { little := true, ptr := 4, long := 4 }

/-- The ctypes used by the sources: fixed-size integers (`c_ubyte`, `c_ushort`, `c_short`, `c_int`, `c_uint`, `c_ulonglong`),
`c_ulong`, `c_void_p` and arrays of `c_ubyte`. -/
inductive CType where
  | int (size : Nat) (signed : Bool)
  | ulong
  | ptr
  | bytes (n : Nat)
  deriving DecidableEq, Repr

namespace CType
/-- `sizeof` -/
def size (a : Abi) : CType → Nat
  | int n _ => n
  | ulong => a.long
  | ptr => a.ptr
  | bytes n => n

/-- Natural alignment: integers and pointers at multiples of their size, byte arrays anywhere. -/
def align (a : Abi) : CType → Nat
  | int n _ => n
  | ulong => a.long
  | ptr => a.ptr
  | bytes _ => 1

def signed : CType → Bool
  | int _ s => s
  | _ => false
end CType

def c_ubyte : CType := .int 1 false
def c_short : CType := .int 2 true
def c_ushort : CType := .int 2 false
def c_int : CType := .int 4 true
def c_uint : CType := .int 4 false
def c_ulonglong : CType := .int 8 false
def c_ulong : CType := .ulong
def c_void_p : CType := .ptr

/-- A `_fields_` list. -/
abbrev Decls := List (String × CType)

/-- A placed field. -/
structure Slot where
  name : String
  off : Nat
  size : Nat
  signed : Bool
  deriving DecidableEq, Repr

/-- Alignment used for a field under `_pack_` (`none`: natural). -/
def fieldAlign (a : Abi) (pack : Option Nat) (t : CType) : Nat :=
  match pack with
  | none => t.align a
  | some p => min p (t.align a)

/-- The next multiple of `al` at or after `n` (`al = 0` leaves `n` alone). -/
def alignUp (n al : Nat) : Nat := if n % al = 0 then n else n + (al - n % al)

/-- Placement of the fields, starting at offset `o`. -/
def place (a : Abi) (pack : Option Nat) : Nat → Decls → List Slot
  | _, [] => []
  | o, (nm, t) :: r =>
    let off := alignUp o (fieldAlign a pack t)
    { name := nm, off := off, size := t.size a, signed := t.signed } :: place a pack (off + t.size a) r

/-- End of the last field. -/
def placeEnd (a : Abi) (pack : Option Nat) : Nat → Decls → Nat
  | o, [] => o
  | o, (_, t) :: r => placeEnd a pack (alignUp o (fieldAlign a pack t) + t.size a) r

/-- The largest alignment of a field (at least 1). -/
def maxAlign (a : Abi) (pack : Option Nat) : Decls → Nat
  | [] => 1
  | (_, t) :: r => max (fieldAlign a pack t) (maxAlign a pack r)

/-- The layout of a structure. -/
def layout (a : Abi) (pack : Option Nat) (d : Decls) : List Slot := place a pack 0 d

/-- `sizeof` of a structure. -/
def sizeOf (a : Abi) (pack : Option Nat) (d : Decls) : Nat := alignUp (placeEnd a pack 0 d) (maxAlign a pack d)

/-- The slot of a field; the sources only name declared fields (the default is never used, as the layout tables proved in
`Props.Layout` list every field). -/
def slot (l : List Slot) (nm : String) : Slot :=
  match l.find? (fun s => s.name == nm) with
  | some s => s
  | none => { name := nm, off := 0, size := 0, signed := false }

/-! ## Raw blocks -/

/-- Native byte order: `n` bytes of `v`. -/
def native (a : Abi) (n v : Nat) : Bytes := if a.little then (be n v).reverse else be n v

def nativeNat (a : Abi) (bs : Bytes) : Nat := if a.little then beNat bs.reverse else beNat bs

/-- Replace bytes `off .. off + new.length - 1`. -/
def splice (raw : Bytes) (off : Nat) (new : Bytes) : Bytes :=
  raw.mapIdx (fun i b => if off ≤ i ∧ i < off + new.length then new[i - off]?.getD b else b)

/-- Reading an integer field of a structure over `raw`. -/
def load (a : Abi) (s : Slot) (raw : Bytes) : Int :=
  let v := nativeNat a (slice raw s.off (s.off + s.size))
  if s.signed then toSigned s.size v else (v : Int)

/-- Assigning an integer field: the low bytes are kept, no range check. -/
def store (a : Abi) (s : Slot) (v : Int) (raw : Bytes) : Bytes :=
  splice raw s.off (native a s.size (v % 256 ^ s.size).toNat)

/-- Assigning element `i` of a byte array field. -/
def storeAt (s : Slot) (i : Nat) (b : UInt8) (raw : Bytes) : Bytes := splice raw (s.off + i) [b]

/-! ## Memory -/

/-- Flat byte-addressed memory. -/
abbrev Mem := Nat → UInt8

/-- `string_at(addr, n)` / `buffer.raw` of an `n` byte buffer at `addr`. -/
def readMem (m : Mem) (addr n : Nat) : Bytes := (List.range n).map (fun i => m (addr + i))

/-- Writing a byte string at `addr`. -/
def writeMem (m : Mem) (addr : Nat) (bs : Bytes) : Mem :=
  fun x => if addr ≤ x ∧ x < addr + bs.length then bs[x - addr]?.getD 0 else m x

/-- A ctypes string buffer: its address and its size. -/
structure Buf where
  addr : Nat
  size : Nat
  deriving DecidableEq, Repr

/-- `buffer.raw` -/
def Buf.raw (b : Buf) (m : Mem) : Bytes := readMem m b.addr b.size

/-- Where the allocator places the buffers of one request. -/
structure Alloc where
  block : Nat
  sense : Nat
  cmd : Nat
  data : Nat
  deriving DecidableEq, Repr

end Verif.Platform
