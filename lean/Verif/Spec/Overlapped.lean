import Verif.Spec.CLayout
/-!
# What Windows expects of an overlapped request, and what is expected of a program that opens handles

Independent of the code modelled.
-/

namespace Verif.Spec

/-- The number in bytes with the least significant first. -/
def littleEndian : List UInt8 → Nat
  | [] => 0
  | b :: r => b.toNat + 256 * littleEndian r

/-- `OVERLAPPED` (minwinbase.h): `ULONG_PTR Internal, InternalHigh; DWORD Offset, OffsetHigh; HANDLE hEvent`. `DWORD` is `unsigned long`,
`ULONG_PTR` has the size of a pointer. -/
def OVERLAPPED : CDecl :=
  [("Internal", .size_t), ("InternalHigh", .size_t), ("Offset", .long), ("OffsetHigh", .long), ("hEvent", .pointer)]

/-- The memory holds a structure with these values, in the order of the declaration: it is large enough, and wherever the compiler puts a
field, its value is there. -/
def HoldsStruct (d : DataModel) (decl : CDecl) (values : List Nat) (raw : List UInt8) : Prop :=
  ∀ fields, Natural d 0 decl fields →
    (∀ n, IsSizeof d decl fields n → n ≤ raw.length) ∧
    ∀ (k : Nat) nm off size, fields[k]? = some (nm, off, size) → values[k]? = some (littleEndian ((raw.drop off).take size))

/-- The memory holds an array of pointers. -/
def HoldsPointers (d : DataModel) (values : List Nat) (raw : List UInt8) : Prop :=
  values.length * d.pointer ≤ raw.length ∧
  ∀ (k : Nat) v, values[k]? = some v → v = littleEndian ((raw.drop (k * d.pointer)).take d.pointer)

/-- Handles of a Windows process: "64-bit versions of Windows use 32-bit handles for interoperability […] it is safe to truncate the
handle […] or sign-extend the handle". So the upper half of a 64-bit handle repeats the sign of the lower one. -/
def IsHandle (d : DataModel) (h : Nat) : Prop := h < 2 ^ 31 ∨ (256 ^ d.pointer - 2 ^ 31 ≤ h ∧ h < 256 ^ d.pointer)

/-- `CTL_CODE` (devioctl.h, quoted in win32.py:259-260) -/
def CTL_CODE (deviceType function method access : Nat) : Nat :=
  (deviceType <<< 16) ||| (access <<< 14) ||| (function <<< 2) ||| method

/-- The operating system never gives the null handle, nor one that is in use. -/
def FreshHandles (create : List Nat → Option Nat) : Prop := ∀ t h, create t = some h → h ≠ 0 ∧ h ∉ t

/-- A system on which a process may have `limit` handles open, and gets them if it has fewer. -/
structure Limited (limit : Nat) (create : List Nat → Option Nat) : Prop where
  fresh : FreshHandles create
  gives : ∀ t, t.length < limit → ∃ h, create t = some h
  refuses : ∀ t, limit ≤ t.length → create t = none

end Verif.Spec
