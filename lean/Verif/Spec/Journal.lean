import Verif.Spec.Client
import Verif.Spec.Durable
/-!
# Specification: data kept in two slots

Data is kept on the disk of `Spec.Durable` in one of two slots; one block says in which. To replace the data, the new data is written to the other slot, and then that
block. The program may be stopped at any time, and the disk may lose power at any time.
-/

namespace Verif.Spec.Journal
open Verif.Spec.Disk Verif.Spec.Durable

structure Layout where
  /-- the block that says in which slot the data is -/
  head : Nat
  /-- the first block of either slot -/
  slot : Bool → Nat
  /-- the number of blocks of a slot -/
  length : Nat
  /-- what the head says -/
  mark : Bool → Bytes

/-- The places are on the disk and do not overlap. -/
structure Layout.Fits (g : Geometry) (l : Layout) : Prop where
  head : l.head < g.blocks
  slot : ∀ b, l.slot b + l.length ≤ g.blocks
  apart : ∀ b, l.slot b + l.length ≤ l.slot (!b) ∨ l.slot (!b) + l.length ≤ l.slot b
  outside : ∀ b, l.head + 1 ≤ l.slot b ∨ l.slot b + l.length ≤ l.head
  nonempty : 0 < l.length
  mark : ∀ b, (l.mark b).length = g.size
  differ : l.mark false ≠ l.mark true

/-- An array of bytes that has the data in slot `b`. -/
def Has (g : Geometry) (l : Layout) (x : Contents) (b : Bool) (data : Bytes) : Prop :=
  readAt x (l.head * g.size) g.size = l.mark b ∧ readAt x (l.slot b * g.size) (l.length * g.size) = data

/-- The data is in slot `b`, with and without what is in the cache. -/
def Stands (g : Geometry) (l : Layout) (k : State) (b : Bool) (data : Bytes) : Prop := Has g l k.medium b data ∧ Has g l k.seen b data

/-- The steps of the program that replaces the data. -/
inductive Step where
  | fill
  | point

variable {σ C α A : Type}

/-- The program, stopped after `i + 1` commands if it has not ended before. -/
def cut (p : Client σ C α A) : Client (σ × Nat) C α (Option A) where
  ask s := p.ask s.1
  next s r := match p.next s.1 r, s.2 with
    | .inr a, _ => .inr (some a)
    | .inl _, 0 => .inr none
    | .inl s', i + 1 => .inl (s', i)

end Verif.Spec.Journal
