import Verif.Spec.Disk
/-!
# Specification: computers that share a disk, and a lock kept on it

Any number of computers issue commands to one disk, in any order. A lock is a block of the disk that holds either a pattern that means "free" or the
mark of the computer that holds the lock.
-/

namespace Verif.Spec.Cluster

open Verif.Spec.Disk (Geometry Op)

/-- A computer and its way to execute commands. `disk` is the disk as this computer's kernel finds it; `attach` is the same computer when the disk has
changed in the meantime. -/
structure Host (δ C R : Type) where
  State : Type
  attach : State → δ → State
  disk : State → δ
  runs : C → State → R → State → Prop

variable {δ C R : Type}

/-- The states of all computers with one of them replaced. -/
def put {S : Nat → Type} (w : (h : Nat) → S h) (h : Nat) (s : S h) : (k : Nat) → S k := fun k => if e : k = h then e ▸ s else w k

/-- Commands are executed one after the other, each by one of the computers, all on the same disk. -/
inductive Runs (hosts : Nat → Host δ C R) : ((h : Nat) → (hosts h).State) → δ → List (Nat × C) → List R → ((h : Nat) → (hosts h).State) → δ → Prop
  | nil (w m) : Runs hosts w m [] [] w m
  | cons {w m h c rest a s' as w' m'} : (hosts h).runs c ((hosts h).attach (w h) m) a s' →
      Runs hosts (put w h s') ((hosts h).disk s') rest as w' m' → Runs hosts w m ((h, c) :: rest) (a :: as) w' m'

/-! ## A lock -/

structure Lock where
  /-- the block -/
  lba : Nat
  free : Bytes
  mark : Nat → Bytes

/-- What a computer does: it tries to take the lock, it gives it back, or it does something else. -/
inductive Move where
  | acquire
  | release
  | other
  deriving DecidableEq

/-- Taking the lock exchanges "free" for the own mark; giving it back writes "free" or exchanges the own mark for it; nothing else touches the block. -/
def Lock.Means (l : Lock) (g : Geometry) (h : Nat) : Move → Op → Prop
  | .acquire, op => op = .exchange l.lba l.free (l.mark h)
  | .release, op => op = .write l.lba l.free ∨ op = .exchange l.lba (l.mark h) l.free
  | .other, op => op.Spares g l.lba 1

/-- A lock that can work: the block exists, the patterns are one block long, no mark means "free". -/
structure Lock.Proper (l : Lock) (g : Geometry) : Prop where
  inside : l.lba + 1 ≤ g.blocks
  free : l.free.length = g.size
  mark : ∀ h, (l.mark h).length = g.size
  differ : ∀ h, l.mark h ≠ l.free

/-- A computer made a move and its command returned (or raised an error). -/
structure Event where
  host : Nat
  move : Move
  returned : Bool
  deriving DecidableEq

/-- Who believes to hold the lock after an event: whoever's attempt returned, until they give it back. -/
def beliefs (b : Nat → Bool) (e : Event) : Nat → Bool := fun k =>
  if k = e.host then
    match e.move with
    | .acquire => b k || e.returned
    | .release => false
    | .other => b k
  else b k

/-- Who believes to hold the lock after a history (oldest event first); nobody in the beginning. -/
def believes (hist : List Event) : Nat → Bool := hist.foldl beliefs fun _ => false

/-- Only a computer that believes to hold the lock gives it back. -/
def Honest (hist : List Event) : Prop :=
  ∀ before e later, hist = before ++ e :: later → e.move = .release → believes before e.host = true

/-- The lock works: at every time at most one computer believes to hold it, and an attempt to take it succeeds just if nobody does. -/
def Exclusive (hist : List Event) : Prop :=
  (∀ before later, hist = before ++ later → ∀ h k, believes before h = true → believes before k = true → h = k) ∧
  ∀ before e later, hist = before ++ e :: later → e.move = .acquire → (e.returned = true ↔ ∀ k, believes before k = false)

end Verif.Spec.Cluster
