import Verif.Spec.Cluster
/-!
# Specification: computers that update a block of a shared disk without a lock

Each computer reads the block, computes what it should become, and exchanges the one for the other with COMPARE AND WRITE; if the block has changed in the meantime
it begins again. Nobody waits for anybody.
-/

namespace Verif.Spec.Cluster

variable {δ C R σ E : Type}

/-- A computer goes on with its program, or executes some other command. -/
inductive Turn (C : Type) where
  | go (h : Nat)
  | aside (h : Nat) (c : C)

/-- Computers take turns. Each runs a program: its state says which command is next, the result of the command says what the next state is and what is to be said about
it. The list of what is said has the commands of the programs only. -/
inductive Turns (hosts : Nat → Host δ C R) (ask : Nat → σ → C) (next : σ → R → σ × E) :
    ((h : Nat) → (hosts h).State) → (Nat → σ) → δ → List (Turn C) → List (Nat × E) → ((h : Nat) → (hosts h).State) → (Nat → σ) → δ → Prop
  | nil (w s m) : Turns hosts ask next w s m [] [] w s m
  | go {w s m h rest a v es w' s' m'} : (hosts h).runs (ask h (s h)) ((hosts h).attach (w h) m) a v →
      Turns hosts ask next (put w h v) (fun k => if k = h then (next (s h) a).1 else s k) ((hosts h).disk v) rest es w' s' m' →
      Turns hosts ask next w s m (.go h :: rest) ((h, (next (s h) a).2) :: es) w' s' m'
  | aside {w s m h c rest a v es w' s' m'} : (hosts h).runs c ((hosts h).attach (w h) m) a v →
      Turns hosts ask next (put w h v) s ((hosts h).disk v) rest es w' s' m' → Turns hosts ask next w s m (.aside h c :: rest) es w' s' m'

/-- What a computer's program has done: it has read the block, it was told that its exchange was done, it was told that the block is not what it was, or something else
went wrong. -/
inductive Did where
  | looked
  | updated
  | missed
  | failed
  deriving DecidableEq

/-- The block after a history, each computer `h` applying its own function `change h` when it is told that it did. -/
def applied (change : Nat → Bytes → Bytes) (block : Bytes) (es : List (Nat × Did)) : Bytes :=
  es.foldl (fun b e => if e.2 = .updated then change e.1 b else b) block

/-- How often computer `h` was told that the block is not what it was. -/
def misses (h : Nat) (es : List (Nat × Did)) : Nat := es.countP fun e => e.1 = h ∧ e.2 = .missed

/-- How often others were told that they changed it. -/
def byOthers (h : Nat) (es : List (Nat × Did)) : Nat := es.countP fun e => e.1 ≠ h ∧ e.2 = .updated

end Verif.Spec.Cluster
