import Verif.Threads
/-!
# What threads sharing an executer may rely on, and under which schedules
-/

namespace Verif.Threads
open Verif.Executer

variable {P X : Type}

/-- What the caller should get when the device answers `o`: the data, or the error. -/
def due : Outcome P X → Final P X
  | .data p => .returned (some p)
  | .exc x => .failed x

/-- Histories in which every state satisfies `ok`. -/
inductive Steps (ok : State P X → Prop) : State P X → State P X → Prop
  | refl (s : State P X) : ok s → Steps ok s s
  | step {s s' s'' : State P X} : Steps ok s s' → Step s' s'' → ok s'' → Steps ok s s''

/-- Command `t` has packet number `pid` and its response was not taken out of the table yet. -/
inductive Uses (s : State P X) (pid t : Nat) : Prop
  | numbered (g : Nat) : s.pc g = .numbered t pid → Uses s pid t
  | registered (g : Nat) : s.pc g = .registered t pid → Uses s pid t
  | failing (g : Nat) : s.pc g = .failing t pid → Uses s pid t
  | waiting : (pid, t) ∈ s.waiting → Uses s pid t
  | ready (o : Outcome P X) : (o, pid, t) ∈ s.ready → Uses s pid t
  | got (g : Nat) (u : Nat) (o : Outcome P X) : s.pc g = .got u o pid t → Uses s pid t
  | decoded (g : Nat) (u : Nat) (o : Outcome P X) : s.pc g = .decoded u o pid t → Uses s pid t

/-- No two commands in use have the same packet number. -/
def Distinct (s : State P X) : Prop := ∀ pid t t', Uses s pid t → Uses s pid t' → t = t'

/-- One thread at a time is in a call, as with a lock around `call`. -/
def Locked (s : State P X) : Prop := ∀ g g', s.pc g ≠ .idle → s.pc g' ≠ .idle → g = g'

/-- In `_next_packet_index`. -/
def Pc.taking : Pc P X → Prop
  | .checked => True
  | .took _ => True
  | .adding _ _ => True
  | _ => False

/-- One thread at a time is in `_next_packet_index`, as with a lock in there. -/
def NumbersLocked (s : State P X) : Prop := ∀ g g', (s.pc g).taking → (s.pc g').taking → g = g'

/-- Every command in use is among the last `max_queue_size` that got a number. -/
def Recent (s : State P X) : Prop := ∀ pid t, Uses s pid t → s.next ≤ t + s.ex.maxq

/-- Nobody's wait for a response ran into the time limit. -/
def Patient (s : State P X) : Prop := ∀ g t, (g, some t, .raised .ioError) ∉ s.log

/-- Every call ended in the way it should: with nothing sent, refused or because the driver did not take the command; given up after waiting in vain, or with the device's answer to its own
command; nothing was sent, answered or told twice. -/
structure Right (s : State P X) : Prop where
  ended : ∀ g ot f, (g, ot, f) ∈ s.log → (ot = none ∧ (f = .raised .nameError ∨ f = .raised .ioError)) ∨
    ∃ t, ot = some t ∧ (g, t) ∈ s.sent ∧ (f = .raised .ioError ∨ ∃ o, (t, o) ∈ s.answers ∧ f = due o)
  onceSent : (s.sent.map Prod.snd).Nodup
  onceAnswered : (s.answers.map Prod.fst).Nodup
  onceEnded : (s.log.filterMap fun e => e.2.1).Nodup

/-- A command that was sent is at the device, can be read, is in the hands of a thread, or its call has its result. -/
inductive Somewhere (s : State P X) (t : Nat) : Prop
  | device (pid : Nat) : (pid, t) ∈ s.waiting → Somewhere s t
  | unread (o : Outcome P X) (pid : Nat) : (o, pid, t) ∈ s.ready → Somewhere s t
  | got (g u : Nat) (o : Outcome P X) (pid : Nat) : s.pc g = .got u o pid t → Somewhere s t
  | decoded (g u : Nat) (o : Outcome P X) (pid : Nat) : s.pc g = .decoded u o pid t → Somewhere s t
  | popped (g u : Nat) (o : Outcome P X) : s.pc g = .popped u t o → Somewhere s t
  | delivered (a : CbArgs P X) : (t, a) ∈ s.results → Somewhere s t

end Verif.Threads
