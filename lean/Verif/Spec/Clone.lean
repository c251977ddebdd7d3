import Verif.Spec.Client
import Verif.Spec.Disk
/-!
# Specification: programs that use several disks, and the copy of a disk

The disks are arrays of bytes; an operation is on one of them. A copy goes block by block, as many at a time as the program likes.
-/

namespace Verif.Spec.Clone
open Verif.Spec Verif.Spec.Disk

/-- An operation on one of the arrays; the others stay as they are. -/
def OnArrays {ι : Type} (g : ι → Geometry) (x : ι × Op) (m : ι → Contents) (r : Reply) (m' : ι → Contents) : Prop :=
  x.2.run (g x.1) (m x.1) = (r, m' x.1) ∧ ∀ j, j ≠ x.1 → m' j = m j

/-- Where a copying program is. -/
inductive Stage where
  | start
  | reading (lba last size : Nat)
  | writing (lba last size : Nat) (data : Bytes)

/-- How many blocks are next, `n` at a time. -/
def chunk (n lba last : Nat) : Nat := min n (last + 1 - lba)

/-- The copy of the first array (`false`) to the second (`true`): how many blocks there are and how large, and then read and write. It ends with the sense data of
the first operation that fails. -/
def copyArray (n : Nat) : Client Stage (Bool × Op) Reply (Except (Nat × Nat × Nat) Unit) where
  ask
    | .start => (false, .bigCapacity)
    | .reading lba last _ => (false, .read lba (chunk n lba last))
    | .writing lba _ _ data => (true, .write lba data)
  next s r :=
    match s, r with
    | _, .failed key asc ascq => .inr (.error (key, asc, ascq))
    | .start, .capacity last size => .inl (.reading 0 last size)
    | .reading lba last size, .data bs => .inl (.writing lba last size bs)
    | .writing lba last size _, .done =>
      if last < lba + chunk n lba last then .inr (.ok ()) else .inl (.reading (lba + chunk n lba last) last size)
    | _, _ => .inr (.error (0, 0, 0))

/-- The first `k` bytes of `a`, the rest of `b`. -/
def upTo (k : Nat) (a b : Contents) : Contents := fun x => if x < k then a x else b x

end Verif.Spec.Clone
