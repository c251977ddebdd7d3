import Verif.Base

/-!
# The `infi.instruct` layer: declared binary structures

`infi.instruct` is a dependency of the library and its source is not in `/repo`; this file models the part of it
that the declarations in `/repo/src/infi/asi` rely on.  Two styles are used there:

* `Struct` with a sequential `_fields_` list (e.g. `cdb/read.py:48-64`): `Decl`, `pack`, `unpack`;
* `Buffer` with fields at given positions (e.g. `cdb/log_sense.py:9-16`): `Ref`, `packAt`, `Ref.read`.

What a bit field (or a positional unsigned field) does with a value that does not fit is not visible from `/repo`.
It is therefore a parameter, `Lib.enc`, about which only this is assumed: values that fit are stored unchanged, and
whatever is stored fits.  All theorems are proved for every `Lib`.
-/

namespace Verif

/-- How the library stores an integer in a `w`-bit field.  Unknown for values that do not fit: it may raise
(any error) or store anything that fits. -/
structure Lib where
  enc : Nat → Int → Py Nat
  enc_ok : ∀ (w : Nat) (v : Nat), v < 2 ^ w → enc w (v : Int) = .ok v
  enc_lt : ∀ w v n, enc w v = .ok n → n < 2 ^ w

/-- A library that refuses values that do not fit. -/
def Lib.strict : Lib where
  enc w v := if 0 ≤ v ∧ v < 2 ^ w then .ok v.toNat else .error .structError
  enc_ok w v h := by
    have h' : (v : Int) < 2 ^ w := by exact_mod_cast h
    simp [h']
  enc_lt w v n h := by
    split at h
    · rename_i hv
      cases h
      have : ((v.toNat : Nat) : Int) < ((2 ^ w : Nat) : Int) := by
        rw [Int.toNat_of_nonneg hv.1]; push_cast; exact hv.2
      exact_mod_cast this
    · cases h

/-- A library that drops the bits that do not fit. -/
def Lib.truncating : Lib where
  enc w v := .ok (v % 2 ^ w).toNat
  enc_ok w v h := by
    have h' : (v : Int) < 2 ^ w := by exact_mod_cast h
    simp [Int.emod_eq_of_lt (Int.natCast_nonneg v) h']
  enc_lt w v n h := by
    cases h
    have hp : (0 : Int) < 2 ^ w := Int.pow_pos (by decide)
    have h1 := Int.emod_lt_of_pos v hp
    have h0 := Int.emod_nonneg v (Int.ne_of_gt hp)
    have : (((v % 2 ^ w).toNat : Nat) : Int) < ((2 ^ w : Nat) : Int) := by
      rw [Int.toNat_of_nonneg h0]; push_cast; exact h1
    exact_mod_cast this

/-! ## Sequential structures (`Struct`, `_fields_`) -/

/-- Members of a `BitFields(...)` group, least significant bit first. -/
inductive BitDecl where
  /-- `BitField(name, w, default)` / `BitFlag(name, default)` -/
  | field (name : String) (w : Nat) (dflt : Option Int)
  /-- `BitPadding(w)` -/
  | pad (w : Nat)

/-- Members of a `_fields_` list. -/
inductive Decl where
  /-- `UBInt8/16/32/64(name)`: `n` bytes, big-endian, unsigned -/
  | uint (name : String) (n : Nat)
  /-- `BitFields(...)`: first member in the least significant bits of the first byte -/
  | bits (l : List BitDecl)
  /-- `Padding(n)`, `BytePadding(n)` -/
  | pad (n : Nat)
  /-- `ConstField(...)`, or a nested structure with fixed value such as `Field("control", Control, DEFAULT_CONTROL)` -/
  | const (bs : Bytes)

/-- Attribute values of a structure object. -/
abbrev Attrs := List (String × Int)

def BitDecl.width : BitDecl → Nat
  | .field _ w _ => w
  | .pad w => w

def bitsWidth : List BitDecl → Nat
  | [] => 0
  | d :: r => d.width + bitsWidth r

/-- Value of an attribute when packing: the assigned one, otherwise the declared default. -/
def attr (env : Attrs) (name : String) (dflt : Option Int) : Py Int :=
  match env.lookup name with
  | some v => .ok v
  | none => match dflt with
    | some v => .ok v
    | none => .error .attribute

/-- The number stored in a bit group. -/
def packBits (L : Lib) (env : Attrs) : List BitDecl → Py Nat
  | [] => .ok 0
  | .pad w :: r => do
    let x ← packBits L env r
    .ok (x * 2 ^ w)
  | .field name w d :: r => do
    let v ← attr env name d
    let a ← L.enc w v
    let x ← packBits L env r
    .ok (a + x * 2 ^ w)

/-- Little-endian encoding: the byte order of a `BitFields` group longer than one byte. -/
def le : (n : Nat) → Nat → Bytes
  | 0, _ => []
  | n + 1, v => byte (v % 256) :: le n (v / 256)

def leNat : Bytes → Nat
  | [] => 0
  | b :: bs => b.toNat + 256 * leNat bs

/-- `UBIntN`: `struct.pack` raises for values that do not fit. -/
def packUInt (n : Nat) (v : Int) : Py Bytes :=
  if 0 ≤ v ∧ v < 256 ^ n then .ok (be n v.toNat) else .error .structError

def packDecl (L : Lib) (env : Attrs) : Decl → Py Bytes
  | .uint name n => do
    let v ← attr env name none
    packUInt n v
  | .bits l => do
    let x ← packBits L env l
    .ok (le (bitsWidth l / 8) x)
  | .pad n => .ok (zeros n)
  | .const bs => .ok bs

/-- `Struct.write_to_string`. -/
def pack (L : Lib) (env : Attrs) : List Decl → Py Bytes
  | [] => .ok []
  | d :: r => do
    let a ← packDecl L env d
    let b ← pack L env r
    .ok (a ++ b)

/-- Values of the members of a bit group. -/
def unpackBits : List BitDecl → Nat → List (String × Nat)
  | [], _ => []
  | .pad w :: r, x => unpackBits r (x / 2 ^ w)
  | .field name w _ :: r, x => (name, x % 2 ^ w) :: unpackBits r (x / 2 ^ w)

def Decl.size : Decl → Nat
  | .uint _ n => n
  | .bits l => bitsWidth l / 8
  | .pad n => n
  | .const bs => bs.length

def structSize : List Decl → Nat
  | [] => 0
  | d :: r => d.size + structSize r

/-- `Struct.create_from_string`: values of the named members and the remaining input.  A constant member must
have its value. -/
def unpack : List Decl → Bytes → Py (List (String × Nat) × Bytes)
  | [], bs => .ok ([], bs)
  | d :: r, bs =>
    if bs.length < d.size then .error .truncated
    else do
      let hd := bs.take d.size
      let vals ← (match d with
        | .uint name _ => .ok [(name, beNat hd)]
        | .bits l => .ok (unpackBits l (leNat hd))
        | .pad _ => .ok []
        | .const c => if hd = c then .ok [] else .error .instruct : Py (List (String × Nat)))
      let (vs, rest) ← unpack r (bs.drop d.size)
      .ok (vals ++ vs, rest)

/-! ## Positional structures (`Buffer`) -/

/-- `bytes_ref[lo:hi]` and `bytes_ref[i].bits[lo:hi]` -/
inductive Ref where
  | bytes (lo hi : Nat)
  | bits (i lo hi : Nat)
  deriving DecidableEq, Repr

def Ref.width : Ref → Nat
  | .bytes lo hi => 8 * (hi - lo)
  | .bits _ lo hi => hi - lo

/-- One past the last byte used. -/
def Ref.stop : Ref → Nat
  | .bytes _ hi => hi
  | .bits i _ _ => i + 1

/-- Extend a buffer with zero bytes up to length `n`. -/
def grow (buf : Bytes) (n : Nat) : Bytes := buf ++ zeros (n - buf.length)

/-- Replace bits `lo .. hi-1` of a byte. -/
def setBits (b : UInt8) (lo hi v : Nat) : UInt8 :=
  byte (b.toNat / 2 ^ hi * 2 ^ hi + v % 2 ^ (hi - lo) * 2 ^ lo + b.toNat % 2 ^ lo)

/-- Replace `buf[lo:hi]`. -/
def setRange (buf : Bytes) (lo hi : Nat) (bs : Bytes) : Bytes := buf.take lo ++ bs ++ buf.drop hi

/-- Store a value that fits. -/
def Ref.write (buf : Bytes) (v : Nat) : Ref → Bytes
  | .bytes lo hi => setRange (grow buf hi) lo hi (be (hi - lo) v)
  | .bits i lo hi => (grow buf (i + 1)).set i (setBits ((grow buf (i + 1)).getD i 0) lo hi v)

/-- Unsigned value at a reference; an error when the input is too short. -/
def Ref.read (buf : Bytes) : Ref → Py Nat
  | .bytes lo hi => if buf.length < hi then .error .truncated else .ok (beNat (slice buf lo hi))
  | .bits i lo hi => if buf.length < i + 1 then .error .truncated else .ok (getBits (buf.getD i 0) lo hi)

/-- `Buffer.pack` of integer fields: each field is stored at its place, in declaration order, into a buffer that
grows as needed; the name is carried for readability only. -/
def packAt (L : Lib) : List (String × Ref × Int) → Bytes → Py Bytes
  | [], buf => .ok buf
  | (_, r, v) :: fs, buf => do
    let n ← L.enc r.width v
    packAt L fs (r.write buf n)

/-! ## Requests -/

/-- What a command hands to the executer: `SCSIReadCommand(command, max_response_length)` or
`SCSIWriteCommand(command, data)` (`__init__.py:48-56`). -/
inductive Req where
  | read (cdb : Bytes) (len : Int)
  | write (cdb data : Bytes)
  deriving DecidableEq, Repr

def Req.cdb : Req → Bytes
  | .read c _ => c
  | .write c _ => c

/-- Python `a // b` (raises on zero, rounds towards minus infinity). -/
def pyDiv (a b : Int) : Py Int := if b = 0 then .error .zeroDivision else .ok (Int.fdiv a b)

/-- Python `a % b` (raises on zero, has the sign of the divisor). -/
def pyMod (a b : Int) : Py Int := if b = 0 then .error .zeroDivision else .ok (Int.fmod a b)

end Verif
