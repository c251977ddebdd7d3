import Verif.Instruct
/-!
# Unpacking `Buffer` classes

`infi.instruct.buffer` is external. What the response classes use of it:

* `be_uint_field` / `be_int_field` / `uint_field` at a position: `UField`, `unpackFields`. A field that finds fewer bytes than it needs
  raises (`truncated`). Whether a whole-byte `be_int_field` without `sign=` is read as two's complement is not visible from `/repo`:
  it is the parameter `sg`. Bit fields are zero-extended.
* `bytearray_field` / `str_field` over a byte range: a Python slice, cut short at the end of the input.
* `list_field(where, type, n)`: `n` elements one after the other, each starting where the one before ended (`unpackN`); without `n`,
  elements until the range is used up (`unpackAll`). An element's size is what its `unpack` returns: the end of its last field.
  An element that consumes nothing would make the library loop or stop; the model stops.
-/

namespace Verif.Parse

deriving instance DecidableEq for Except

/-- An integer field of a `Buffer` class. -/
inductive UField where
  /-- `be_uint_field`, `uint_field` -/
  | u (name : String) (r : Ref)
  /-- `be_int_field` without `sign=` -/
  | i (name : String) (r : Ref)
  deriving Repr

def UField.name : UField → String
  | .u n _ => n
  | .i n _ => n

def UField.ref : UField → Ref
  | .u _ r => r
  | .i _ r => r

/-- The value of a `be_int_field` over `r` whose bits are `v`. -/
def intValue (sg : Bool) (r : Ref) (v : Nat) : Int :=
  match r with
  | .bytes lo hi => if sg then toSigned (hi - lo) v else (v : Int)
  | .bits _ _ _ => (v : Int)

def UField.value (sg : Bool) (buf : Bytes) : UField → Py Int
  | .u _ r => do
    let v ← r.read buf
    .ok (v : Int)
  | .i _ r => do
    let v ← r.read buf
    .ok (intValue sg r v)

/-- Unpacking the integer fields of a class. -/
def unpackFields (sg : Bool) : List UField → Bytes → Py (List (String × Int))
  | [], _ => .ok []
  | f :: fs, buf => do
    let v ← f.value sg buf
    let r ← unpackFields sg fs buf
    .ok ((f.name, v) :: r)

/-- End of the last integer field: the size that `unpack` returns. -/
def fieldsEnd : List UField → Nat
  | [] => 0
  | f :: fs => max f.ref.stop (fieldsEnd fs)

/-- The value of an unpacked attribute (the model only asks for declared ones). -/
def get (attrs : List (String × Int)) (name : String) : Int := (attrs.lookup name).getD 0

variable {α : Type}

/-- `n` consecutive elements; `elem` returns an element and the number of bytes it used. -/
def unpackN (elem : Bytes → Py (α × Nat)) : (n : Nat) → Bytes → Py (List α × Nat)
  | 0, _ => .ok ([], 0)
  | n + 1, buf => do
    let (x, k) ← elem buf
    let (xs, ks) ← unpackN elem n (buf.drop k)
    .ok (x :: xs, k + ks)

/-- Elements until the range is used up. -/
def unpackAll (elem : Bytes → Py (α × Nat)) (buf : Bytes) : Py (List α) :=
  if buf = [] then .ok []
  else
    match elem buf with
    | .error e => .error e
    | .ok (x, k) =>
      if _h : k = 0 ∨ buf = [] then .ok [x]
      else
        match unpackAll elem (buf.drop k) with
        | .error e => .error e
        | .ok xs => .ok (x :: xs)
termination_by buf.length
decreasing_by
  simp only [List.length_drop]
  have : 0 < buf.length := List.length_pos_iff.2 (fun hb => _h (.inr hb))
  omega

/-- A one-byte element (`uint8`, `b_uint8`). -/
def elemU8 (buf : Bytes) : Py (Nat × Nat) :=
  match buf with
  | [] => .error .truncated
  | b :: _ => .ok (b.toNat, 1)

/-- An `n`-byte unsigned element (`b_uint16`, `b_uint64`). -/
def elemUInt (n : Nat) (buf : Bytes) : Py (Nat × Nat) :=
  if buf.length < n then .error .truncated else .ok (beNat (buf.take n), n)

end Verif.Parse
