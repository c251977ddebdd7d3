import Verif.Spec.Journal
/-!
# Specification: a disk that loses power in the middle of a command

The disk of `Spec.Durable`, which loses power between commands, can now lose it while a command is carried out. Then some of the blocks the command writes are on the medium
and others are not, as the disk likes; a block is on the medium as a whole or not at all. The command ends with the unit attention 6/29/00.
-/

namespace Verif.Spec.Torn
open Verif.Spec.Disk Verif.Spec.Durable

structure State where
  disk : Durable.State
  /-- for the next command, the one after it, ...: whether power is lost while it is carried out, and if so, which blocks are on the medium as they would be seen after the
  command. Then it is not lost any more. -/
  tears : List (Option (Nat → Bool))

/-- Power was lost: `before` is the disk before the command, `after` the disk if the power had lasted. -/
def tear (g : Geometry) (before after : Durable.State) (which : Nat → Bool) : Durable.State :=
  let m : Contents := fun x => if which (x / g.size) then after.seen x else before.medium x
  { before with medium := m, seen := m, attention := false }

def torn (g : Geometry) : Device State := fun s q =>
  match s.tears.headD none with
  | none => ((cached g s.disk q).1, { disk := (cached g s.disk q).2, tears := s.tears.tail })
  | some which => (failed 6 0x29 0, { disk := tear g s.disk.next (cached g s.disk q).2 which, tears := s.tears.tail })

/-- The program that replaces the data: it looks where the data is, writes the other slot (`true` is the second), and then the head. -/
inductive Phase where
  | look
  | fill (slot : Bool)
  | point (slot : Bool)

/-- After updates with these data, of which some ended (`true`) and some were interrupted: what is found is the data of one of them, or what was there at first, and every
later one was interrupted. -/
def Latest (first : Bytes) (updates : List (Bytes × Bool)) (found : Bytes) : Prop :=
  ∃ done since, updates = done ++ since ∧ (∀ u ∈ since, u.2 = false) ∧ found = (done.getLast?.map (·.1)).getD first

end Verif.Spec.Torn
