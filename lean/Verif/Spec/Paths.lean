import Verif.Spec.Client
import Verif.Spec.Disk
/-!
# Specification: a disk with several target ports, one of which is active

The disk of `Spec.Disk` behind a controller with asymmetric logical unit access (SPC-4 5.15): it can be reached by several paths. Commands are carried out by the path that is
active. The others answer NOT READY, LOGICAL UNIT NOT ACCESSIBLE, TARGET PORT IN STANDBY STATE (2/04/0B) and do nothing. The controller makes another path the active one when
it likes.
-/

namespace Verif.Spec.Paths
open Verif.Spec Verif.Spec.Disk

structure State where
  contents : Contents
  active : Nat
  /-- before the next command, the one after it, ...: whether another path becomes the active one. Then it remains. -/
  moves : List (Option Nat)

/-- When the next command arrives. -/
def State.next (s : State) : State := { s with active := (s.moves.headD none).getD s.active, moves := s.moves.tail }

/-- The disk by one of its paths. -/
def path (g : Geometry) (i : Nat) : Device State := fun s q =>
  if i = s.next.active then ((disk g s.contents q).1, { s.next with contents := (disk g s.contents q).2 }) else (failed 2 0x04 0x0B, s.next)

/-- There are `n` paths. -/
def State.Among (n : Nat) (s : State) : Prop := s.active < n ∧ ∀ i, some i ∈ s.moves → i < n

/-- How many times the active path changes. -/
def State.changes (s : State) : Nat := s.moves.countP (·.isSome)

/-- The path to try after `i`. -/
def turn (n i : Nat) : Nat := if i + 1 < n then i + 1 else 0

variable {σ C α A : Type}

/-- The program that tries the next path while the answer says so. -/
def failover (n : Nat) (again : α → Bool) (p : Client σ C α A) : Client (σ × Nat) (Nat × C) α A where
  ask x := (x.2, p.ask x.1)
  next x r :=
    if again r then .inl (x.1, turn n x.2)
    else match p.next x.1 r with
      | .inl s => .inl (s, x.2)
      | .inr a => .inr a

end Verif.Spec.Paths
