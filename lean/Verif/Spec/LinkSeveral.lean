import Verif.Spec.Several
import Verif.Spec.LinkQueue
/-!
# Several users of one device, on ways that can fail

As `Spec.Several`, but every user has a way of their own to the device, on which commands and answers can get lost: the driver may not take a command, and it reports
errors of the host adapter and its own besides the device's answer (`Spec.LinkQueue`).
-/

namespace Verif.Spec.LinkSeveral
open Verif.Spec Verif.Spec.Link
open Verif.Spec.Several (Turn Turn.key Before)

/-- What the users observe, in the order of time: who, doing what, saw what. -/
abbrev Entry (A : Type) := Nat × LinkQueue.Op × LinkQueue.Ev A

variable {δ A : Type}

/-- The device works on the commands one after the other: the answers, and the state it is left in. -/
def serial (dev : Nat → Linked δ) (k : δ) : List Turn → List (Nat × Nat × Req × Report) × δ
  | [] => ([], k)
  | (i, t, c) :: r =>
    let rest := serial dev (dev i k (asked c)).2 r
    ((i, t, c, (dev i k (asked c)).1) :: rest.1, rest.2)

/-- The commands `told` says are over. -/
def toldKey : Entry A → Option (Nat × Nat)
  | (i, _, .told t _) => some (i, t)
  | _ => none

/-- The commands that were accepted. -/
def acceptedKey : Entry A → Option (Nat × Nat)
  | (i, _, .accepted t) => some (i, t)
  | _ => none

/-- The users' observations are explained by `order`; `hear c r` is what the sender of `c` is told when the driver
reports `r`; `dev i` is the device on the way of user `i`. -/
structure Linear (dev : Nat → Linked δ) (k : δ) (hear : Req → Report → A) (log : List (Entry A)) (order : List Turn) : Prop where
  /-- nothing is executed twice -/
  once : (order.map Turn.key).Nodup
  /-- every user's commands have numbers of their own -/
  numbers : (log.filterMap acceptedKey).Nodup
  /-- only commands that the driver took are executed, as they were sent -/
  sent : ∀ i t c, (i, t, c) ∈ order → (i, .send c true, .accepted t) ∈ log
  /-- every command is over at most once -/
  over : (log.filterMap toldKey).Nodup
  /-- and then its sender is told what the driver reported about it in its turn -/
  told : ∀ i op t a, (i, op, .told t a) ∈ log → ∃ c ans, (i, t, c, ans) ∈ (serial dev k order).1 ∧ a = hear c ans
  /-- a command that was over when another one was sent comes before it -/
  time : ∀ l1 l2 i t j op u, log = l1 ++ (j, op, .accepted u) :: l2 → (i, t) ∈ l1.filterMap toldKey → (j, u) ∈ order.map Turn.key →
    Before order (i, t) (j, u)

/-! ## Ideal users -/

/-- One device, a queue (`Spec/LinkQueue`) for every user, and the order in which the device worked. -/
structure State (δ A : Type) where
  dev : δ
  user : Nat → LinkQueue.State δ A
  log : List (Entry A)
  order : List Turn

def State.init (k : δ) : State δ A := ⟨k, fun _ => LinkQueue.State.init k, [], []⟩

/-- User `i` does `op` (or the device works on one of their commands) on the device as everybody left it. -/
def step (dev : Nat → Linked δ) (limit : Nat) (hear : Req → Report → A) (s : State δ A) (x : Nat × LinkQueue.Op) : State δ A :=
  let a := { s.user x.1 with dev := s.dev }
  let b := LinkQueue.step (dev x.1) limit hear a x.2
  { dev := b.dev,
    user := fun j => if j = x.1 then b else s.user j,
    log := s.log ++ (b.log.drop a.log.length).map (fun e => (x.1, x.2, e)),
    order := s.order ++ (match x.2 with
      | .finish n _ => (a.waiting[n]?.toList).map fun e => (x.1, e.1, e.2)
      | _ => []) }

def runFrom (dev : Nat → Linked δ) (limit : Nat) (hear : Req → Report → A) (s : State δ A) (ops : List (Nat × LinkQueue.Op)) : State δ A :=
  ops.foldl (step dev limit hear) s

def run (dev : Nat → Linked δ) (limit : Nat) (hear : Req → Report → A) (k : δ) (ops : List (Nat × LinkQueue.Op)) : State δ A :=
  runFrom dev limit hear (State.init k) ops

/-- No user's command is given to the driver while another one of theirs is outstanding whose number differs from its own by a multiple of the limit. -/
def NoWrap (dev : Nat → Linked δ) (limit : Nat) (hear : Req → Report → A) (s : State δ A) : List (Nat × LinkQueue.Op) → Prop
  | [] => True
  | x :: ops =>
    (match x.2 with
      | .send _ _ => (s.user x.1).tickets.length < limit → ∀ t ∈ (s.user x.1).tickets, t % limit ≠ (s.user x.1).next % limit
      | _ => True) ∧ NoWrap dev limit hear (step dev limit hear s x) ops

/-- Nobody sends a command while another one of theirs is outstanding. -/
def OneEach (dev : Nat → Linked δ) (limit : Nat) (hear : Req → Report → A) (s : State δ A) : List (Nat × LinkQueue.Op) → Prop
  | [] => True
  | x :: ops =>
    (match x.2 with
      | .send _ _ => (s.user x.1).tickets = []
      | _ => True) ∧ OneEach dev limit hear (step dev limit hear s x) ops

end Verif.Spec.LinkSeveral
