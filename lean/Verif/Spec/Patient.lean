import Verif.Spec.Client
import Verif.Spec.SharedDisk
/-!
# Specification: commands that are repeated while there is a unit attention

A unit attention says that something happened; the command it is the answer to was not carried out (SAM-5 5.14). A program that wants the command carried out gives it
again. The disk is that of `Spec.SharedDisk`.
-/

namespace Verif.Spec.Patient
open Verif.Spec Verif.Spec.SharedDisk

/-- The disk, and what the other hosts do before each command of ours. -/
abbrev World := State × List (List (Nat × Deed))

/-- The disk when our next command arrives. -/
def met (g : Disk.Geometry) (k : World) : State := others g k.1 (k.2.headD [])

/-- A unit attention was taken, and that is all. -/
def told (g : Disk.Geometry) (k : World) : World := ({ met g k with lun := { (met g k).lun with attention := none } }, k.2.tail)

/-- The operation is carried out once: the first time there is no unit attention. `j` were there before. -/
inductive Once (g : Disk.Geometry) (op : Op) : World → Reply → World → Nat → Prop
  | now {k r s} : (met g k).lun.attention = none → op.run g (met g k) = (r, s) → Once g op k r (s, k.2.tail) 0
  | later {k r k' j} : (met g k).lun.attention ≠ none → Once g op (told g k) r k' j → Once g op k r k' (j + 1)

/-- The same, counting the unit attentions. -/
def Performed (g : Disk.Geometry) (op : Op) (x : World × Nat) (r : Reply) (x' : World × Nat) : Prop := ∃ j, Once g op x.1 r x'.1 j ∧ x'.2 = x.2 + j

variable {σ C α A : Type}

/-- The program that gives a command again while the answer says so. -/
def patient (again : α → Bool) (p : Client σ C α A) : Client σ C α A where
  ask := p.ask
  next s r := if again r then .inl s else p.next s r

end Verif.Spec.Patient
