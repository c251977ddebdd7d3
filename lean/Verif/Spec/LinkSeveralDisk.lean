import Verif.Spec.LinkSeveral
import Verif.Spec.Link
/-!
# Specification: a disk with a way for each user, each of which can fail
-/

namespace Verif.Spec.LinkSeveral
open Verif.Spec.Disk Verif.Spec.Link

/-- The disk, and for every way which of the next commands on it fail. -/
structure Ways where
  contents : Contents
  faults : Nat → List (Option Fault)

/-- A command on way `i` fares as `unreliable` says; the other ways are not concerned. -/
def ways (g : Geometry) : Nat → Linked Ways := fun i s q =>
  let r := unreliable g ⟨s.contents, s.faults i⟩ q
  (r.1, ⟨r.2.contents, fun j => if j = i then r.2.faults else s.faults j⟩)

/-- The driver reports the fault as one, in whichever of the three statuses. -/
def Shown (f : Fault) : Prop := ¬ (f.status = 0 ∧ f.host = 0 ∧ f.driver.toNat % 16 = 0)

end Verif.Spec.LinkSeveral
