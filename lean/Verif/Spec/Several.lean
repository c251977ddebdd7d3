import Verif.Spec.Queue
/-!
# Several users of one device

Any number of users (threads, processes, hosts), each with an executer of their own, in front of one device.  `Linear` is
what they may rely on together: there is one order of all executed commands, in which the device worked on them one after
the other, that gives every user the answers they were told and in which no command comes before one that was over when it was sent
(linearizability, Herlihy and Wing 1990, for users that may have several commands outstanding).
-/

namespace Verif.Spec.Several
open Verif.Spec

/-- What the users observe, in the order of time: who, doing what, saw what. -/
abbrev Entry (A : Type) := Nat × Queue.Op × Queue.Ev A

/-- A command in the order of execution: user, the number it has among the commands of that user, command. -/
abbrev Turn := Nat × Nat × Req

variable {δ A : Type}

/-- The device works on the commands one after the other: the answers, and the state it is left in. -/
def serial (dev : Device δ) (k : δ) : List Turn → List (Nat × Nat × Req × Answer) × δ
  | [] => ([], k)
  | (i, t, c) :: r =>
    let rest := serial dev (dev k (asked c)).2 r
    ((i, t, c, (dev k (asked c)).1) :: rest.1, rest.2)

def Turn.key (x : Turn) : Nat × Nat := (x.1, x.2.1)

/-- The commands `told` says are over. -/
def toldKey : Entry A → Option (Nat × Nat)
  | (i, _, .told t _) => some (i, t)
  | _ => none

/-- The commands that were accepted. -/
def acceptedKey : Entry A → Option (Nat × Nat)
  | (i, _, .accepted t) => some (i, t)
  | _ => none

/-- `x` comes before `y`. -/
def Before (order : List Turn) (x y : Nat × Nat) : Prop :=
  ∃ o1 o2, order = o1 ++ o2 ∧ x ∈ o1.map Turn.key ∧ y ∈ o2.map Turn.key

/-- The users' observations are explained by `order`; `hear c ans` is what the sender of `c` is told when the device answered
`ans`. -/
structure Linear (dev : Device δ) (k : δ) (hear : Req → Answer → A) (log : List (Entry A)) (order : List Turn) : Prop where
  /-- nothing is executed twice -/
  once : (order.map Turn.key).Nodup
  /-- every user's commands have numbers of their own -/
  numbers : (log.filterMap acceptedKey).Nodup
  /-- only commands that were accepted are executed, as they were sent -/
  sent : ∀ i t c, (i, t, c) ∈ order → (i, .send c, .accepted t) ∈ log
  /-- every command is over at most once -/
  over : (log.filterMap toldKey).Nodup
  /-- and then its sender is told what the device answered to it in its turn -/
  told : ∀ i op t a, (i, op, .told t a) ∈ log → ∃ c ans, (i, t, c, ans) ∈ (serial dev k order).1 ∧ a = hear c ans
  /-- a command that was over when another one was sent comes before it -/
  time : ∀ l1 l2 i t j op u, log = l1 ++ (j, op, .accepted u) :: l2 → (i, t) ∈ l1.filterMap toldKey → (j, u) ∈ order.map Turn.key →
    Before order (i, t) (j, u)

/-! ## Ideal users -/

/-- One device, a queue (`Spec/Queue`) for every user, and the order in which the device worked. -/
structure State (δ A : Type) where
  dev : δ
  user : Nat → Queue.State δ A
  log : List (Entry A)
  order : List Turn

def State.init (k : δ) : State δ A := ⟨k, fun _ => Queue.State.init k, [], []⟩

/-- User `i` does `op` (or the device works on one of their commands) on the device as everybody left it. -/
def step (dev : Device δ) (limit : Nat) (hear : Req → Answer → A) (s : State δ A) (x : Nat × Queue.Op) : State δ A :=
  let a := { s.user x.1 with dev := s.dev }
  let b := Queue.step dev limit hear a x.2
  { dev := b.dev,
    user := fun j => if j = x.1 then b else s.user j,
    log := s.log ++ (b.log.drop a.log.length).map (fun e => (x.1, x.2, e)),
    order := s.order ++ (match x.2 with
      | .finish n _ => (a.waiting[n]?.toList).map fun e => (x.1, e.1, e.2)
      | _ => []) }

def runFrom (dev : Device δ) (limit : Nat) (hear : Req → Answer → A) (s : State δ A) (ops : List (Nat × Queue.Op)) : State δ A :=
  ops.foldl (step dev limit hear) s

def run (dev : Device δ) (limit : Nat) (hear : Req → Answer → A) (k : δ) (ops : List (Nat × Queue.Op)) : State δ A :=
  runFrom dev limit hear (State.init k) ops

/-- No user's command is accepted while another one of theirs is outstanding whose number differs from its own by a multiple of the limit. -/
def NoWrap (dev : Device δ) (limit : Nat) (hear : Req → Answer → A) (s : State δ A) : List (Nat × Queue.Op) → Prop
  | [] => True
  | x :: ops =>
    (match x.2 with
      | .send _ => (s.user x.1).tickets.length < limit → ∀ t ∈ (s.user x.1).tickets, t % limit ≠ (s.user x.1).next % limit
      | _ => True) ∧ NoWrap dev limit hear (step dev limit hear s x) ops

/-- Nobody sends a command while another one of theirs is outstanding. -/
def OneEach (dev : Device δ) (limit : Nat) (hear : Req → Answer → A) (s : State δ A) : List (Nat × Queue.Op) → Prop
  | [] => True
  | x :: ops =>
    (match x.2 with
      | .send _ => (s.user x.1).tickets = []
      | _ => True) ∧ OneEach dev limit hear (step dev limit hear s x) ops

end Verif.Spec.Several
