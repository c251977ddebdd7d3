import Verif.Spec.Threads
set_option linter.unusedSimpArgs false
/-!
# The invariant behind C86
-/

namespace Verif.Threads
open Verif.Executer

variable {P X : Type}

theorem get_set_same {α : Type} (d : Dict α) (k : Nat) (v : α) : Dict.get (Dict.set d k v) k = some v := by
  induction d with
  | nil => simp [Dict.set, Dict.get]
  | cons e d ih =>
    obtain ⟨k', v'⟩ := e
    by_cases h : k' = k
    · simp [Dict.set, Dict.get, h]
    · simp [Dict.set, Dict.get, h, ih]

theorem get_set_other {α : Type} (d : Dict α) (k k' : Nat) (v : α) (h : k' ≠ k) : Dict.get (Dict.set d k v) k' = Dict.get d k' := by
  induction d with
  | nil => simp [Dict.set, Dict.get, Ne.symm h]
  | cons e d ih =>
    obtain ⟨k₁, v₁⟩ := e
    by_cases h₁ : k₁ = k
    · subst h₁
      simp [Dict.set, Dict.get, Ne.symm h]
    · simp [Dict.set, Dict.get, h₁, ih]

theorem get_erase_other {α : Type} (d : Dict α) (k k' : Nat) (h : k' ≠ k) : Dict.get (Dict.erase d k) k' = Dict.get d k' := by
  induction d with
  | nil => rfl
  | cons e d ih =>
    obtain ⟨k₁, v₁⟩ := e
    by_cases h₁ : k₁ = k
    · subst h₁
      simp [Dict.erase, Dict.get, Ne.symm h]
    · simp [Dict.erase, Dict.get, h₁, ih]

theorem eq_of_nodup {α β : Type} {f : α → β} {l : List α} (h : (l.map f).Nodup) {x y : α} (hx : x ∈ l) (hy : y ∈ l) (e : f x = f y) : x = y := by
  induction l with
  | nil => cases hx
  | cons a l ih =>
    simp only [List.map_cons, List.nodup_cons, List.mem_map, not_exists, not_and] at h
    rcases List.mem_cons.1 hx with rfl | hx' <;> rcases List.mem_cons.1 hy with rfl | hy'
    · rfl
    · exact absurd e.symm (h.1 y hy')
    · exact absurd e (h.1 x hx')
    · exact ih h.2 hx' hy'

theorem eraseIdx_split {α β : Type} {f : α → β} {l : List α} (h : (l.map f).Nodup) {i : Nat} {x : α} (hi : l[i]? = some x) :
    (∀ y ∈ l, y = x ∨ y ∈ l.eraseIdx i) ∧ (∀ y ∈ l.eraseIdx i, y ∈ l ∧ f y ≠ f x) := by
  induction l generalizing i with
  | nil => simp at hi
  | cons a l ih =>
    simp only [List.map_cons, List.nodup_cons, List.mem_map, not_exists, not_and] at h
    cases i with
    | zero =>
      simp only [List.getElem?_cons_zero, Option.some.injEq] at hi
      subst hi
      simp only [List.eraseIdx_cons_zero, List.mem_cons]
      exact ⟨fun _ h => h, fun y hy => ⟨.inr hy, h.1 y hy⟩⟩
    | succ i =>
      simp only [List.getElem?_cons_succ] at hi
      obtain ⟨h1, h2⟩ := ih h.2 hi
      simp only [List.eraseIdx_cons_succ, List.mem_cons]
      constructor
      · rintro y (rfl | hy)
        · exact .inr (.inl rfl)
        · rcases h1 y hy with rfl | hy'
          · exact .inl rfl
          · exact .inr (.inr hy')
      · rintro y (rfl | hy)
        · exact ⟨.inl rfl, fun e => h.1 x (List.mem_of_getElem? hi) e.symm⟩
        · exact ⟨.inr (h2 y hy).1, (h2 y hy).2⟩

/-- Where a command is. -/
inductive Place where
  | nowhere
  | sending (g : Nat)
  | device
  | unread
  | held (g : Nat)
  | called (g : Nat)
  | delivered
  deriving DecidableEq

/-- The device has answered it. -/
def Place.answered : Place → Prop
  | .nowhere | .sending _ | .device => False
  | _ => True

/-- It was sent. -/
def Place.sent : Place → Prop
  | .nowhere | .sending _ => False
  | _ => True

/-- The command of the call a thread is in, once it was sent. -/
def Pc.own : Pc P X → Option Nat
  | .loop t | .entered t | .polling t | .reading t => some t
  | .got t _ _ _ | .decoded t _ _ _ => some t
  | .popped t _ _ => some t
  | _ => none

/-- The command a thread is sending, with its packet number. -/
def Pc.sends : Pc P X → Option (Nat × Nat)
  | .numbered t r | .registered t r | .failing t r => some (r, t)
  | _ => none

/-- The response a thread has in its hands: packet number and command. -/
def Pc.holds : Pc P X → Option (Nat × Nat)
  | .got _ _ pid t | .decoded _ _ pid t => some (pid, t)
  | _ => none

/-- The command whose callback a thread is about to call. -/
def Pc.calls : Pc P X → Option (Nat × Outcome P X)
  | .popped _ k o => some (k, o)
  | _ => none

/-- Command `t` is in the table of pending packets under number `pid`. -/
def Reg (s : State P X) (pid t : Nat) : Prop :=
  (∃ g, s.pc g = .registered t pid ∨ s.pc g = .failing t pid) ∨ (pid, t) ∈ s.waiting ∨ (∃ o, (o, pid, t) ∈ s.ready) ∨ ∃ g, (s.pc g).holds = some (pid, t)

structure Inv (s : State P X) (pl : Nat → Place) : Prop where
  later : ∀ t, s.next ≤ t → pl t = .nowhere
  sending : ∀ g r t, (s.pc g).sends = some (r, t) → pl t = .sending g
  waiting : ∀ pid t, (pid, t) ∈ s.waiting → pl t = .device
  waitingOnce : (s.waiting.map Prod.snd).Nodup
  ready : ∀ o pid t, (o, pid, t) ∈ s.ready → pl t = .unread ∧ (t, o) ∈ s.answers
  readyOnce : (s.ready.map fun e => e.2.2).Nodup
  held : ∀ g pid t, (s.pc g).holds = some (pid, t) → pl t = .held g
  got : ∀ g u o pid t, s.pc g = .got u o pid t → (t, o) ∈ s.answers ∧ ∀ p, o = .data p → s.buf t = p
  decoded : ∀ g u o pid t, s.pc g = .decoded u o pid t → (t, o) ∈ s.answers
  called : ∀ g k o, (s.pc g).calls = some (k, o) → pl k = .called g ∧ (k, o) ∈ s.answers
  results : ∀ t a, (t, a) ∈ s.results → pl t = .delivered ∧ ∃ o, (t, o) ∈ s.answers ∧ a = cbArgs o
  reg : ∀ pid t, Reg s pid t → Dict.get s.ex.pending pid = some (t, some t)
  answered : ∀ t o, (t, o) ∈ s.answers → (pl t).answered
  onceAnswered : (s.answers.map Prod.fst).Nodup
  own : ∀ g t, (s.pc g).own = some t → (g, t) ∈ s.sent
  openCall : ∀ g t, (s.pc g).own = some t → t ∉ s.log.filterMap fun e => e.2.1
  sentPlace : ∀ g t, (g, t) ∈ s.sent → (pl t).sent
  onceSent : (s.sent.map Prod.snd).Nodup
  backDevice : ∀ t, pl t = .device → ∃ pid, (pid, t) ∈ s.waiting
  backUnread : ∀ t, pl t = .unread → ∃ o pid, (o, pid, t) ∈ s.ready
  backHeld : ∀ t g, pl t = .held g → ∃ pid, (s.pc g).holds = some (pid, t)
  backCalled : ∀ t g, pl t = .called g → ∃ o, (s.pc g).calls = some (t, o)
  backDelivered : ∀ t, pl t = .delivered → ∃ a, (t, a) ∈ s.results
  ended : ∀ g ot f, (g, ot, f) ∈ s.log → (ot = none ∧ (f = .raised .nameError ∨ f = .raised .ioError)) ∨
    ∃ t, ot = some t ∧ (g, t) ∈ s.sent ∧ (f = .raised .ioError ∨ ∃ o, (t, o) ∈ s.answers ∧ f = due o)
  onceEnded : (s.log.filterMap fun e => e.2.1).Nodup

theorem inv_init (limit : Nat) (blank : Nat → P) : Inv (State.init limit blank : State P X) fun _ => .nowhere := by
  constructor <;> simp [State.init, Reg, Pc.sends, Pc.holds, Pc.calls, Pc.own]

theorem goes_pc (s : State P X) (g : Nat) (c : Pc P X) (g' : Nat) : (s.goes g c).pc g' = if g' = g then c else s.pc g' := rfl

/-- A thread goes on within its call without touching anything. -/
theorem Inv.moves {s : State P X} {pl : Nat → Place} (h : Inv s pl) {g : Nat} {c : Pc P X} (hn : ∀ t r, c ≠ .registered t r ∧ c ≠ .failing t r)
    (hs : (s.pc g).sends = c.sends) (hh : (s.pc g).holds = c.holds) (hc : (s.pc g).calls = c.calls) (ho : (s.pc g).own = c.own)
    (hg : ∀ u o pid t, c = .got u o pid t → (t, o) ∈ s.answers ∧ ∀ p, o = .data p → s.buf t = p)
    (hd : ∀ u o pid t, c = .decoded u o pid t → (t, o) ∈ s.answers) : Inv (s.goes g c) pl := by
  have e : ∀ {α : Type} (f : Pc P X → α), f (s.pc g) = f c → ∀ g', f ((s.goes g c).pc g') = f (s.pc g') := by
    intro α f hf g'
    rw [goes_pc]
    split
    · rename_i hg'; rw [hg', hf]
    · rfl
  exact {
    later := h.later
    sending := fun g' r t => by rw [e _ hs]; exact h.sending g' r t
    waiting := h.waiting
    waitingOnce := h.waitingOnce
    ready := h.ready
    readyOnce := h.readyOnce
    held := fun g' r t => by rw [e _ hh]; exact h.held g' r t
    got := fun g' u o pid t => by
      rw [goes_pc]
      split
      · exact hg u o pid t
      · exact h.got g' u o pid t
    decoded := fun g' u o pid t => by
      rw [goes_pc]
      split
      · exact hd u o pid t
      · exact h.decoded g' u o pid t
    called := fun g' k o => by rw [e _ hc]; exact h.called g' k o
    results := h.results
    reg := fun pid t hr => by
      refine h.reg pid t ?_
      rcases hr with ⟨g', hr⟩ | hr | hr | ⟨g', hr⟩
      · rw [goes_pc] at hr
        split at hr
        · exact hr.elim (fun e => absurd e (hn _ _).1) (fun e => absurd e (hn _ _).2)
        · exact .inl ⟨g', hr⟩
      · exact .inr (.inl hr)
      · exact .inr (.inr (.inl hr))
      · rw [e _ hh] at hr; exact .inr (.inr (.inr ⟨g', hr⟩))
    answered := h.answered
    onceAnswered := h.onceAnswered
    own := fun g' t => by rw [e _ ho]; exact h.own g' t
    openCall := fun g' t => by rw [e _ ho]; exact h.openCall g' t
    sentPlace := h.sentPlace
    onceSent := h.onceSent
    backDevice := h.backDevice
    backUnread := h.backUnread
    backHeld := fun t g' hp => by rw [e _ hh]; exact h.backHeld t g' hp
    backCalled := fun t g' hp => by rw [e _ hc]; exact h.backCalled t g' hp
    backDelivered := h.backDelivered
    ended := h.ended
    onceEnded := h.onceEnded }

/-- Command `t` is somewhere else now. -/
def moved (pl : Nat → Place) (t : Nat) (p : Place) : Nat → Place := fun u => if u = t then p else pl u

theorem moved_same (pl : Nat → Place) (t : Nat) (p : Place) : moved pl t p t = p := by simp [moved]
theorem moved_other (pl : Nat → Place) {t u : Nat} (p : Place) (h : u ≠ t) : moved pl t p u = pl u := by simp [moved, h]

theorem uses_reg {s : State P X} {pid t : Nat} (h : Reg s pid t) : Uses s pid t := by
  rcases h with ⟨g, h⟩ | h | ⟨o, h⟩ | ⟨g, h⟩
  · exact h.elim (.registered g) (.failing g)
  · exact .waiting h
  · exact .ready o h
  · cases hp : s.pc g <;> rw [hp] at h <;> simp only [Pc.holds, reduceCtorEq, Option.some.injEq, Prod.mk.injEq] at h
    · obtain ⟨rfl, rfl⟩ := h; exact .got g _ _ hp
    · obtain ⟨rfl, rfl⟩ := h; exact .decoded g _ _ hp

/-- The next number is stored. -/
theorem Inv.stores {s : State P X} {pl : Nat → Place} (h : Inv s pl) {g r v : Nat} (hg : s.pc g = .adding r v) :
    Inv { s.goes g (.numbered s.next r) with ex := { s.ex with index := (v + 1) % s.ex.maxq }, next := s.next + 1 }
      (moved pl s.next (.sending g)) := by
  have hnow := h.later s.next (Nat.le_refl _)
  constructor <;> simp only [goes_pc, State.goes]
  all_goals grind [moved, Inv, Reg, Pc.sends, Pc.holds, Pc.calls, Pc.own, Place.sent, Place.answered]

/-- It is put into the table of pending packets. -/
theorem Inv.registers {s : State P X} {pl : Nat → Place} (h : Inv s pl) (hd : Distinct s) {g t r : Nat} (hg : s.pc g = .numbered t r) :
    Inv { s.goes g (.registered t r) with ex := { s.ex with pending := Dict.set s.ex.pending r (t, some t) } } pl := by
  have hu : Uses s r t := .numbered g hg
  have hr : ∀ pid u, Reg s pid u → pid = r → u = t := fun pid u h e => by subst e; exact hd _ _ _ (uses_reg h) hu
  have hs := h.sending g r t (by rw [hg]; rfl)
  constructor <;> simp only [goes_pc, State.goes]
  all_goals grind [moved, Inv, Reg, Pc.sends, Pc.holds, Pc.calls, Pc.own, Place.sent, Place.answered, get_set_same, get_set_other]

/-- It is written. -/
theorem Inv.writes {s : State P X} {pl : Nat → Place} (h : Inv s pl) {g t r : Nat} (hg : s.pc g = .registered t r) :
    Inv { s.goes g (.loop t) with waiting := s.waiting ++ [(r, t)], sent := s.sent ++ [(g, t)] } (moved pl t .device) := by
  have hs := h.sending g r t (by rw [hg]; rfl)
  constructor <;> simp only [goes_pc, State.goes]
  all_goals grind [moved, Inv, Reg, Pc.sends, Pc.holds, Pc.calls, Pc.own, Place.sent, Place.answered]

/-- The driver does not take it. -/
theorem Inv.fails {s : State P X} {pl : Nat → Place} (h : Inv s pl) {g t r : Nat} (hg : s.pc g = .registered t r) :
    Inv (s.goes g (.failing t r)) pl := by
  constructor <;> simp only [goes_pc, State.goes]
  all_goals grind [moved, Inv, Reg, Pc.sends, Pc.holds, Pc.calls, Pc.own, Place.sent, Place.answered]

/-- It is taken out of the table again. -/
theorem Inv.unregisters {s : State P X} {pl : Nat → Place} (h : Inv s pl) (hd : Distinct s) {g t r : Nat} (hg : s.pc g = .failing t r) :
    Inv { s.ends g none (.raised .ioError) with ex := { s.ex with pending := Dict.erase s.ex.pending r } } (moved pl t .nowhere) := by
  have hs := h.sending g r t (by rw [hg]; rfl)
  have hu : Uses s r t := .failing g hg
  have hr : ∀ pid u, Reg s pid u → pid = r → u = t := fun pid u h e => by subst e; exact hd _ _ _ (uses_reg h) hu
  constructor <;> simp only [goes_pc, State.goes, State.ends]
  all_goals grind [moved, Inv, Reg, Pc.sends, Pc.holds, Pc.calls, Pc.own, Place.sent, Place.answered, get_erase_other]

/-- A call ends. -/
theorem Inv.ends {s : State P X} {pl : Nat → Place} (h : Inv s pl) {g t : Nat} {f : Final P X} (hg : (s.pc g).own = some t)
    (hh : (s.pc g).holds = none) (hc : (s.pc g).calls = none)
    (hf : f = .raised .ioError ∨ ∃ o, (t, o) ∈ s.answers ∧ f = due o) : Inv (s.ends g (some t) f) pl := by
  have hu : ∀ g', (g', t) ∈ s.sent → g' = g := fun g' hg' => congrArg Prod.fst (eq_of_nodup h.onceSent hg' (h.own g t hg) rfl)
  constructor <;> simp only [goes_pc, State.goes, State.ends]
  all_goals grind [moved, Inv, Reg, Pc.sends, Pc.holds, Pc.calls, Pc.own, Place.sent, Place.answered]

/-- A call that got no number ends. -/
theorem Inv.refuses {s : State P X} {pl : Nat → Place} (h : Inv s pl) {g : Nat} (hg : s.pc g = .start) :
    Inv (s.ends g none (.raised .nameError)) pl := by
  constructor <;> simp only [goes_pc, State.goes, State.ends]
  all_goals grind [moved, Inv, Reg, Pc.sends, Pc.holds, Pc.calls, Pc.own, Place.sent, Place.answered]

/-- A response is read. -/
theorem Inv.reads {s : State P X} {pl : Nat → Place} (h : Inv s pl) {g t i : Nat} {o : Outcome P X} {pid t' : Nat} (hg : s.pc g = .reading t)
    (hi : s.ready[i]? = some (o, pid, t')) :
    Inv { s.goes g (.got t o pid t') with ready := s.ready.eraseIdx i, buf := filled s.buf o t' } (moved pl t' (.held g)) := by
  have hm : (o, pid, t') ∈ s.ready := List.mem_of_getElem? hi
  obtain ⟨h1, h2⟩ := eraseIdx_split h.readyOnce hi
  obtain ⟨h3, h4⟩ := h.ready _ _ _ hm
  have hgot : ∀ g' u o₁ pid₁ t₁, (if g' = g then Pc.got t o pid t' else s.pc g') = Pc.got u o₁ pid₁ t₁ →
      (t₁, o₁) ∈ s.answers ∧ ∀ p, o₁ = .data p → filled s.buf o t' t₁ = p := by
    intro g' u o₁ pid₁ t₁ he
    split at he
    · cases he
      refine ⟨h4, ?_⟩
      rintro p rfl
      simp [filled]
    · obtain ⟨h5, h6⟩ := h.got g' u o₁ pid₁ t₁ he
      refine ⟨h5, fun p hp => ?_⟩
      have hne : t₁ ≠ t' := by
        rintro rfl
        have := h.held g' pid₁ t₁ (by rw [he]; rfl)
        rw [h3] at this; cases this
      cases o with
      | exc x => exact h6 p hp
      | data q => simp only [filled, hne, if_false]; exact h6 p hp
  constructor <;> simp only [goes_pc, State.goes]
  case got => exact hgot
  all_goals grind [moved, Inv, Reg, Pc.sends, Pc.holds, Pc.calls, Pc.own, Place.sent, Place.answered, filled]

/-- A response is taken out of the table. -/
theorem Inv.pops {s : State P X} {pl : Nat → Place} (h : Inv s pl) (hd : Distinct s) {g t : Nat} {o : Outcome P X} {pid t' : Nat}
    (hg : s.pc g = .decoded t o pid t') :
    Inv { s.goes g (.popped t t' o) with ex := { s.ex with pending := Dict.erase s.ex.pending pid } } (moved pl t' (.called g)) := by
  have hp := h.held g pid t' (by rw [hg]; rfl)
  have ha := h.decoded g _ _ _ _ hg
  have hu : Uses s pid t' := .decoded g _ _ hg
  have hr : ∀ pid' u, Reg s pid' u → pid' = pid → u = t' := fun pid u h e => by subst e; exact hd _ _ _ (uses_reg h) hu
  constructor <;> simp only [goes_pc, State.goes]
  all_goals grind [moved, Inv, Reg, Pc.sends, Pc.holds, Pc.calls, Pc.own, Place.sent, Place.answered, get_erase_other]

/-- A callback is called. -/
theorem Inv.callsBack {s : State P X} {pl : Nat → Place} (h : Inv s pl) {g t k : Nat} {o : Outcome P X} (hg : s.pc g = .popped t k o) :
    Inv { s.goes g (.loop t) with results := s.results ++ [(k, cbArgs o)] } (moved pl k .delivered) := by
  obtain ⟨hp, ha⟩ := h.called g k o (by rw [hg]; rfl)
  constructor <;> simp only [goes_pc, State.goes]
  all_goals grind [moved, Inv, Reg, Pc.sends, Pc.holds, Pc.calls, Pc.own, Place.sent, Place.answered]

/-- The device answers. -/
theorem Inv.answers' {s : State P X} {pl : Nat → Place} (h : Inv s pl) {i pid t : Nat} {o : Outcome P X} (hi : s.waiting[i]? = some (pid, t)) :
    Inv { s with waiting := s.waiting.eraseIdx i, ready := s.ready ++ [(o, pid, t)], answers := s.answers ++ [(t, o)] } (moved pl t .unread) := by
  have hm : (pid, t) ∈ s.waiting := List.mem_of_getElem? hi
  obtain ⟨h1, h2⟩ := eraseIdx_split h.waitingOnce hi
  have h3 := h.waiting _ _ hm
  constructor <;> simp only
  all_goals grind [moved, Inv, Reg, Pc.sends, Pc.holds, Pc.calls, Pc.own, Place.sent, Place.answered]

theorem mem_of_lookup {α : Type} {l : List (Nat × α)} {t : Nat} {a : α} (h : l.lookup t = some a) : (t, a) ∈ l := by
  induction l with
  | nil => cases h
  | cons e l ih =>
    obtain ⟨k, b⟩ := e
    simp only [List.lookup] at h
    split at h
    · rename_i hk
      simp only [beq_iff_eq] at hk
      cases h; subst hk
      exact List.mem_cons_self
    · exact List.mem_cons_of_mem _ (ih h)

theorem due_cbArgs (o : Outcome P X) : finalOf (cbArgs o) = due o := by cases o <;> rfl

/-- What `_handle_raw_response` makes of a response is the outcome of the command it answers. -/
theorem Inv.decode_eq {s : State P X} {pl : Nat → Place} (h : Inv s pl) {g t : Nat} {o : Outcome P X} {pid t' : Nat}
    (hg : s.pc g = .got t o pid t') : decode s o pid = .ok o := by
  have hr := h.reg pid t' (.inr (.inr (.inr ⟨g, by rw [hg]; rfl⟩)))
  cases o with
  | exc x => rfl
  | data p =>
    simp only [decode, getOsData, hr, Option.map_some]
    rw [(h.got g _ _ _ _ hg).2 p rfl]

/-- The invariant is kept as long as packet numbers are distinct. -/
theorem Inv.step {s s' : State P X} {pl : Nat → Place} (h : Inv s pl) (hd : Distinct s) (hs : Step s s') : ∃ pl', Inv s' pl' := by
  cases hs with
  | refused hg hq => exact ⟨_, h.refuses hg⟩
  | begin hg => exact ⟨_, h.moves (by simp) (by rw [hg]; rfl) (by rw [hg]; rfl) (by rw [hg]; rfl) (by rw [hg]; rfl) (by simp) (by simp)⟩
  | check hg hq => exact ⟨_, h.moves (by simp) (by rw [hg]; rfl) (by rw [hg]; rfl) (by rw [hg]; rfl) (by rw [hg]; rfl) (by simp) (by simp)⟩
  | take hg => exact ⟨_, h.moves (by simp) (by rw [hg]; rfl) (by rw [hg]; rfl) (by rw [hg]; rfl) (by rw [hg]; rfl) (by simp) (by simp)⟩
  | add hg => exact ⟨_, h.moves (by simp) (by rw [hg]; rfl) (by rw [hg]; rfl) (by rw [hg]; rfl) (by rw [hg]; rfl) (by simp) (by simp)⟩
  | store hg => exact ⟨_, h.stores hg⟩
  | register hg => exact ⟨_, h.registers hd hg⟩
  | write hg => exact ⟨_, h.writes hg⟩
  | fail hg => exact ⟨_, h.fails hg⟩
  | unregister hg _ => exact ⟨_, h.unregisters hd hg⟩
  | missing hg hr =>
    have := h.reg _ _ (.inl ⟨_, .inr hg⟩)
    rw [this] at hr; cases hr
  | finish hg hr =>
    obtain ⟨-, o, ho, rfl⟩ := h.results _ _ (mem_of_lookup hr)
    exact ⟨_, h.ends (by rw [hg]; rfl) (by rw [hg]; rfl) (by rw [hg]; rfl) (.inr ⟨o, ho, due_cbArgs o⟩)⟩
  | enter hg _ => exact ⟨_, h.moves (by simp) (by rw [hg]; rfl) (by rw [hg]; rfl) (by rw [hg]; rfl) (by rw [hg]; rfl) (by simp) (by simp)⟩
  | poll hg => exact ⟨_, h.moves (by simp) (by rw [hg]; rfl) (by rw [hg]; rfl) (by rw [hg]; rfl) (by rw [hg]; rfl) (by simp) (by simp)⟩
  | readable hg _ => exact ⟨_, h.moves (by simp) (by rw [hg]; rfl) (by rw [hg]; rfl) (by rw [hg]; rfl) (by rw [hg]; rfl) (by simp) (by simp)⟩
  | timeout hg _ => exact ⟨_, h.ends (by rw [hg]; rfl) (by rw [hg]; rfl) (by rw [hg]; rfl) (.inl rfl)⟩
  | read hg hi => exact ⟨_, h.reads hg hi⟩
  | decode hg hr =>
    rw [h.decode_eq hg] at hr; cases hr
    exact ⟨_, h.moves (by simp) (by rw [hg]; rfl) (by rw [hg]; rfl) (by rw [hg]; rfl) (by rw [hg]; rfl) (by simp)
      (by intro u o pid t he; cases he; exact (h.got _ _ _ _ _ hg).1)⟩
  | spoilt hg hr => rw [h.decode_eq hg] at hr; cases hr
  | pop hg hr =>
    have := h.reg _ _ (.inr (.inr (.inr ⟨_, by rw [hg]; rfl⟩)))
    rw [this] at hr; cases hr
    exact ⟨_, h.pops hd hg⟩
  | stray hg hr =>
    have := h.reg _ _ (.inr (.inr (.inr ⟨_, by rw [hg]; rfl⟩)))
    rw [this] at hr; cases hr
  | callback hg => exact ⟨_, h.callsBack hg⟩
  | answer hi => exact ⟨_, h.answers' hi⟩

theorem Steps.last {ok : State P X → Prop} {s s' : State P X} (h : Steps ok s s') : ok s' := by
  cases h with
  | refl hk => exact hk
  | step _ _ hk => exact hk

theorem inv_steps {limit : Nat} {blank : Nat → P} {ok : State P X → Prop} (hok : ∀ s pl, Inv s pl → ok s → Distinct s) {s : State P X}
    (hs : Steps ok (State.init limit blank) s) : ∃ pl, Inv s pl := by
  induction hs with
  | refl _ => exact ⟨_, inv_init limit blank⟩
  | step hs hst hk ih =>
    obtain ⟨pl, h⟩ := ih
    exact h.step (hok _ _ h hs.last) hst

theorem Inv.right {s : State P X} {pl : Nat → Place} (h : Inv s pl) : Right s := ⟨h.ended, h.onceSent, h.onceAnswered, h.onceEnded⟩

theorem Inv.somewhere {s : State P X} {pl : Nat → Place} (h : Inv s pl) {g t : Nat} (hs : (g, t) ∈ s.sent) : Somewhere s t := by
  have := h.sentPlace g t hs
  cases hp : pl t with
  | nowhere => rw [hp] at this; exact this.elim
  | sending _ => rw [hp] at this; exact this.elim
  | device => obtain ⟨pid, h⟩ := h.backDevice t hp; exact .device pid h
  | unread => obtain ⟨o, pid, h⟩ := h.backUnread t hp; exact .unread o pid h
  | held g' =>
    obtain ⟨pid, h⟩ := h.backHeld t g' hp
    cases hc : s.pc g' <;> rw [hc] at h <;> simp only [Pc.holds, reduceCtorEq, Option.some.injEq, Prod.mk.injEq] at h
    · obtain ⟨rfl, rfl⟩ := h; exact .got _ _ _ _ hc
    · obtain ⟨rfl, rfl⟩ := h; exact .decoded _ _ _ _ hc
  | called g' =>
    obtain ⟨o, h⟩ := h.backCalled t g' hp
    cases hc : s.pc g' <;> rw [hc] at h <;> simp only [Pc.calls, reduceCtorEq, Option.some.injEq, Prod.mk.injEq] at h
    obtain ⟨rfl, rfl⟩ := h; exact .popped _ _ _ hc
  | delivered => obtain ⟨a, h⟩ := h.backDelivered t hp; exact .delivered a h

end Verif.Threads
