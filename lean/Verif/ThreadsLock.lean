import Verif.ThreadsLemmas
import Verif.ExecuterLemmas
set_option linter.unusedSimpArgs false
/-!
# What locks give (C86)
-/

namespace Verif.Threads
open Verif.Executer

variable {P X : Type}

theorem keys_set_nodup {α : Type} {d : Dict α} {k : Nat} {v : α} (h : (Dict.keys d).Nodup) : (Dict.keys (Dict.set d k v)).Nodup := by
  rw [Dict.keys_set]
  split
  · exact h
  · rename_i hk
    exact List.nodup_append.2 ⟨h, by simp, by simp only [List.mem_singleton]; rintro a ha b rfl rfl; exact hk ha⟩

theorem mem_keys_set {α : Type} {d : Dict α} {k : Nat} {v : α} {k' : Nat} (h : k' ∈ Dict.keys (Dict.set d k v)) : k' = k ∨ k' ∈ Dict.keys d := by
  rw [Dict.keys_set] at h
  split at h
  · exact .inr h
  · rcases List.mem_append.1 h with h | h
    · exact .inr h
    · exact .inl (List.mem_singleton.1 h)

theorem keys_erase_nodup {α : Type} {d : Dict α} {k : Nat} (h : (Dict.keys d).Nodup) : (Dict.keys (Dict.erase d k)).Nodup :=
  ((Dict.erase_keys_sublist d k).map _).nodup h

theorem mem_keys_erase {α : Type} {d : Dict α} {k : Nat} (hn : (Dict.keys d).Nodup) {k' : Nat} (h : k' ∈ Dict.keys (Dict.erase d k)) :
    k' ≠ k ∧ k' ∈ Dict.keys d := by
  induction d with
  | nil => cases h
  | cons e d ih =>
    obtain ⟨k₁, v₁⟩ := e
    simp only [Dict.keys, List.map_cons, List.nodup_cons] at hn
    by_cases h₁ : k₁ = k
    · subst h₁
      simp only [Dict.erase, if_true] at h
      exact ⟨fun e => hn.1 (e ▸ h), List.mem_cons_of_mem _ h⟩
    · simp only [Dict.erase, h₁, if_false, Dict.keys, List.map_cons, List.mem_cons] at h ⊢
      rcases h with rfl | h
      · exact ⟨h₁, .inl rfl⟩
      · exact ⟨(ih hn.2 h).1, .inr (ih hn.2 h).2⟩

/-- What is in the table of pending packets is in use. -/
structure Table (s : State P X) : Prop where
  keys : (Dict.keys s.ex.pending).Nodup
  used : ∀ pid, pid ∈ Dict.keys s.ex.pending → ∃ t, Reg s pid t

theorem table_init (limit : Nat) (blank : Nat → P) : Table (State.init limit blank : State P X) := ⟨by simp [State.init, St.init, Dict.keys], by simp [State.init, St.init, Dict.keys]⟩

theorem Table.mono {s s' : State P X} (h : Table s) (he : s'.ex.pending = s.ex.pending) (hr : ∀ pid t, Reg s pid t → Reg s' pid t) : Table s' :=
  ⟨by rw [he]; exact h.keys, fun pid hp => by rw [he] at hp; obtain ⟨t, ht⟩ := h.used pid hp; exact ⟨t, hr pid t ht⟩⟩

theorem Table.step {s s' : State P X} {pl : Nat → Place} (ht : Table s) (h : Inv s pl) (hs : Step s s') : Table s' := by
  cases hs with
  | @register g t r hg =>
    refine ⟨keys_set_nodup ht.keys, fun pid hp => ?_⟩
    rcases mem_keys_set hp with rfl | hp
    · exact ⟨t, .inl ⟨g, .inl (by simp [State.goes])⟩⟩
    · obtain ⟨t, hr⟩ := ht.used pid hp
      refine ⟨t, ?_⟩
      simp only [Reg, State.goes] at hr ⊢
      grind [Pc.holds]
  | pop hg hr =>
    refine ⟨keys_erase_nodup ht.keys, fun pid hp => ?_⟩
    obtain ⟨h1, h2⟩ := mem_keys_erase ht.keys hp
    obtain ⟨t, hr⟩ := ht.used pid h2
    refine ⟨t, ?_⟩
    simp only [Reg, State.goes] at hr ⊢
    grind [Pc.holds]
  | missing hg hr =>
    have := h.reg _ _ (.inl ⟨_, .inr hg⟩)
    rw [this] at hr; cases hr
  | @unregister g t r v hg hr =>
    refine ⟨keys_erase_nodup ht.keys, fun pid hp => ?_⟩
    obtain ⟨h1, h2⟩ := mem_keys_erase ht.keys hp
    obtain ⟨t, hr⟩ := ht.used pid h2
    refine ⟨t, ?_⟩
    simp only [Reg, State.goes, State.ends] at hr ⊢
    grind [Pc.holds]
  | spoilt hg hr => rw [h.decode_eq hg] at hr; cases hr
  | stray hg hr =>
    have := h.reg _ _ (.inr (.inr (.inr ⟨_, by rw [hg]; rfl⟩)))
    rw [this] at hr; cases hr
  | answer hi =>
    refine ht.mono rfl ?_
    obtain ⟨h1, h2⟩ := eraseIdx_split h.waitingOnce hi
    intro pid t hr
    simp only [Reg] at hr ⊢
    grind
  | read hg hi =>
    refine ht.mono rfl ?_
    obtain ⟨h1, h2⟩ := eraseIdx_split h.readyOnce hi
    intro pid t hr
    simp only [Reg, State.goes] at hr ⊢
    grind [Pc.holds]
  | _ =>
    refine ht.mono rfl ?_
    intro pid t hr
    simp only [Reg, State.goes, State.ends] at hr ⊢
    grind [Pc.holds]

/-! ## A lock around `call` -/

theorem uses_iff {s : State P X} {pid t : Nat} : Uses s pid t ↔ (∃ g, (s.pc g).sends = some (pid, t)) ∨ (pid, t) ∈ s.waiting ∨
    (∃ o, (o, pid, t) ∈ s.ready) ∨ ∃ g, (s.pc g).holds = some (pid, t) := by
  constructor
  · rintro (⟨g, h⟩ | ⟨g, h⟩ | ⟨g, h⟩ | h | ⟨o, h⟩ | ⟨g, u, o, h⟩ | ⟨g, u, o, h⟩)
    · exact .inl ⟨g, by rw [h]; rfl⟩
    · exact .inl ⟨g, by rw [h]; rfl⟩
    · exact .inl ⟨g, by rw [h]; rfl⟩
    · exact .inr (.inl h)
    · exact .inr (.inr (.inl ⟨o, h⟩))
    · exact .inr (.inr (.inr ⟨g, by rw [h]; rfl⟩))
    · exact .inr (.inr (.inr ⟨g, by rw [h]; rfl⟩))
  · rintro (⟨g, h⟩ | h | ⟨o, h⟩ | ⟨g, h⟩)
    · cases hp : s.pc g <;> rw [hp] at h <;> simp only [Pc.sends, reduceCtorEq, Option.some.injEq, Prod.mk.injEq] at h
      · obtain ⟨rfl, rfl⟩ := h; exact .numbered g hp
      · obtain ⟨rfl, rfl⟩ := h; exact .registered g hp
      · obtain ⟨rfl, rfl⟩ := h; exact .failing g hp
    · exact .waiting h
    · exact .ready o h
    · exact uses_reg (.inr (.inr (.inr ⟨g, h⟩)))

/-- The command of the call a thread is in, once it has a number. -/
def Pc.cmd (c : Pc P X) : Option Nat := c.own.or (c.sends.map Prod.snd)

/-- Command `t` is outstanding. -/
def Active (s : State P X) (t : Nat) : Prop :=
  (∃ pid g, (s.pc g).sends = some (pid, t)) ∨ (∃ pid, (pid, t) ∈ s.waiting) ∨ (∃ pid o, (o, pid, t) ∈ s.ready) ∨
  (∃ pid g, (s.pc g).holds = some (pid, t)) ∨ ∃ g o, (s.pc g).calls = some (t, o)

/-- Every outstanding command is that of a call that still goes on. -/
def Going (s : State P X) : Prop := ∀ t, Active s t → ∃ g, (s.pc g).cmd = some t

theorem going_init (limit : Nat) (blank : Nat → P) : Going (State.init limit blank : State P X) := by
  rintro t (⟨_, _, h⟩ | ⟨_, h⟩ | ⟨_, _, h⟩ | ⟨_, _, h⟩ | ⟨_, _, h⟩) <;> cases h

theorem Inv.not_delivered {s : State P X} {pl : Nat → Place} (h : Inv s pl) {t : Nat} (ha : Active s t) : pl t ≠ .delivered := by
  rcases ha with ⟨_, _, e⟩ | ⟨_, e⟩ | ⟨_, _, e⟩ | ⟨_, _, e⟩ | ⟨_, _, e⟩
  · rw [h.sending _ _ _ e]; simp
  · rw [h.waiting _ _ e]; simp
  · rw [(h.ready _ _ _ e).1]; simp
  · rw [h.held _ _ _ e]; simp
  · rw [(h.called _ _ _ e).1]; simp

/-- A step that ends no call. -/
theorem Going.next {s s' : State P X} (h : Going s) {g : Nat} (hc : ∀ g' t, (s.pc g').cmd = some t → (s'.pc g').cmd = some t)
    (ha : ∀ t, Active s' t → Active s t ∨ (s'.pc g).cmd = some t) : Going s' := by
  intro t ht
  rcases ha t ht with ht | ht
  · obtain ⟨g', hg'⟩ := h t ht
    exact ⟨g', hc g' t hg'⟩
  · exact ⟨g, ht⟩

theorem Going.step {s s' : State P X} {pl : Nat → Place} (hgo : Going s) (h : Inv s pl) (hs : Step s s') (hp : Patient s') : Going s' := by
  cases hs with
  | missing hg hr =>
    have := h.reg _ _ (.inl ⟨_, .inr hg⟩)
    rw [this] at hr; cases hr
  | @unregister g t r v hg hr =>
    have hs := h.sending g r t (by rw [hg]; rfl)
    intro u hu
    have hu' : Active s u := by
      simp only [Active, State.goes, State.ends] at hu ⊢
      grind [Pc.cmd, Pc.own, Pc.sends, Pc.holds, Pc.calls]
    obtain ⟨g', hg'⟩ := hgo u hu'
    refine ⟨g', ?_⟩
    have hne : g' ≠ g := by
      rintro rfl
      rw [hg] at hg'
      cases hg'
      rcases hu with ⟨p, g₁, e⟩ | ⟨p, e⟩ | ⟨p, o, e⟩ | ⟨p, g₁, e⟩ | ⟨g₁, o, e⟩
      · by_cases e1 : g₁ = g'
        · subst e1; simp [State.ends, State.goes, Pc.sends] at e
        · simp only [State.ends, State.goes, e1, if_false] at e
          rw [h.sending _ _ _ e] at hs; cases hs; exact e1 rfl
      · rw [h.waiting _ _ e] at hs; cases hs
      · rw [(h.ready _ _ _ e).1] at hs; cases hs
      · by_cases e1 : g₁ = g'
        · subst e1; simp [State.ends, State.goes, Pc.holds] at e
        · simp only [State.ends, State.goes, e1, if_false] at e
          rw [h.held _ _ _ e] at hs; cases hs
      · by_cases e1 : g₁ = g'
        · subst e1; simp [State.ends, State.goes, Pc.calls] at e
        · simp only [State.ends, State.goes, e1, if_false] at e
          rw [(h.called _ _ _ e).1] at hs; cases hs
    simp [State.ends, State.goes, hne, hg']
  | @fail g t r hg =>
    refine hgo.next (g := g) ?_ ?_
    · intro g' t ht; simp only [State.goes] at *; grind [Pc.cmd, Pc.own, Pc.sends]
    · intro t ht; simp only [Active, State.goes] at *; grind [Pc.cmd, Pc.own, Pc.sends, Pc.holds, Pc.calls]
  | spoilt hg hr => rw [h.decode_eq hg] at hr; cases hr
  | stray hg hr =>
    have := h.reg _ _ (.inr (.inr (.inr ⟨_, by rw [hg]; rfl⟩)))
    rw [this] at hr; cases hr
  | @timeout g t hg _ => exact absurd (by simp [State.ends]) (hp g t)
  | @finish g t a hg hr =>
    have hd := (h.results _ _ (mem_of_lookup hr)).1
    intro u hu
    have hu' : Active s u := by
      simp only [Active, State.goes, State.ends] at hu ⊢
      grind [Pc.cmd, Pc.own, Pc.sends, Pc.holds, Pc.calls]
    obtain ⟨g', hg'⟩ := hgo u hu'
    refine ⟨g', ?_⟩
    have hne : g' ≠ g := by
      rintro rfl
      rw [hg] at hg'
      cases hg'
      exact h.not_delivered hu' hd
    simp [State.ends, State.goes, hne, hg']
  | @refused g hg hq =>
    intro u hu
    have hu' : Active s u := by
      simp only [Active, State.goes, State.ends] at hu ⊢
      grind [Pc.cmd, Pc.own, Pc.sends, Pc.holds, Pc.calls]
    obtain ⟨g', hg'⟩ := hgo u hu'
    refine ⟨g', ?_⟩
    have hne : g' ≠ g := by
      rintro rfl
      rw [hg] at hg'
      cases hg'
    simp [State.ends, State.goes, hne, hg']
  | @pop g t o pid t' q k hg hr =>
    have := h.reg _ _ (.inr (.inr (.inr ⟨_, by rw [hg]; rfl⟩)))
    rw [this] at hr; cases hr
    have hh : (s.pc g).holds = some (pid, t') := by rw [hg]; rfl
    refine hgo.next (g := g) ?_ ?_
    · intro g' t ht; simp only [State.goes] at *; grind [Pc.cmd, Pc.own, Pc.sends]
    · intro t ht; simp only [Active, State.goes] at *; grind [Pc.cmd, Pc.own, Pc.sends, Pc.holds, Pc.calls]
  | @answer i pid t o hi =>
    have hm := List.mem_of_getElem? hi
    have hsub : ∀ x ∈ s.waiting.eraseIdx i, x ∈ s.waiting := fun x hx => (List.eraseIdx_sublist _ _).subset hx
    refine hgo.next (g := 0) (fun _ _ h => h) ?_
    intro t ht; simp only [Active] at *; grind
  | @read g t i o pid t' hg hi =>
    have hm := List.mem_of_getElem? hi
    have hsub : ∀ x ∈ s.ready.eraseIdx i, x ∈ s.ready := fun x hx => (List.eraseIdx_sublist _ _).subset hx
    refine hgo.next (g := g) ?_ ?_
    · intro g' t ht; simp only [State.goes] at *; grind [Pc.cmd, Pc.own, Pc.sends]
    · intro t ht; simp only [Active, State.goes] at *; grind [Pc.cmd, Pc.own, Pc.sends, Pc.holds, Pc.calls]
  | @begin g hg =>
    refine hgo.next (g := g) ?_ ?_
    · intro g' t ht; simp only [State.goes] at *; grind [Pc.cmd, Pc.own, Pc.sends]
    · intro t ht; simp only [Active, State.goes] at *; grind [Pc.cmd, Pc.own, Pc.sends, Pc.holds, Pc.calls]
  | @check g hg hq =>
    refine hgo.next (g := g) ?_ ?_
    · intro g' t ht; simp only [State.goes] at *; grind [Pc.cmd, Pc.own, Pc.sends]
    · intro t ht; simp only [Active, State.goes] at *; grind [Pc.cmd, Pc.own, Pc.sends, Pc.holds, Pc.calls]
  | @take g hg =>
    refine hgo.next (g := g) ?_ ?_
    · intro g' t ht; simp only [State.goes] at *; grind [Pc.cmd, Pc.own, Pc.sends]
    · intro t ht; simp only [Active, State.goes] at *; grind [Pc.cmd, Pc.own, Pc.sends, Pc.holds, Pc.calls]
  | @add g r hg =>
    refine hgo.next (g := g) ?_ ?_
    · intro g' t ht; simp only [State.goes] at *; grind [Pc.cmd, Pc.own, Pc.sends]
    · intro t ht; simp only [Active, State.goes] at *; grind [Pc.cmd, Pc.own, Pc.sends, Pc.holds, Pc.calls]
  | @store g r v hg =>
    refine hgo.next (g := g) ?_ ?_
    · intro g' t ht; simp only [State.goes] at *; grind [Pc.cmd, Pc.own, Pc.sends]
    · intro t ht; simp only [Active, State.goes] at *; grind [Pc.cmd, Pc.own, Pc.sends, Pc.holds, Pc.calls]
  | @register g t r hg =>
    refine hgo.next (g := g) ?_ ?_
    · intro g' t ht; simp only [State.goes] at *; grind [Pc.cmd, Pc.own, Pc.sends]
    · intro t ht; simp only [Active, State.goes] at *; grind [Pc.cmd, Pc.own, Pc.sends, Pc.holds, Pc.calls]
  | @write g t r hg =>
    refine hgo.next (g := g) ?_ ?_
    · intro g' t ht; simp only [State.goes] at *; grind [Pc.cmd, Pc.own, Pc.sends]
    · intro t ht; simp only [Active, State.goes] at *; grind [Pc.cmd, Pc.own, Pc.sends, Pc.holds, Pc.calls]
  | @enter g t hg hr =>
    refine hgo.next (g := g) ?_ ?_
    · intro g' t ht; simp only [State.goes] at *; grind [Pc.cmd, Pc.own, Pc.sends]
    · intro t ht; simp only [Active, State.goes] at *; grind [Pc.cmd, Pc.own, Pc.sends, Pc.holds, Pc.calls]
  | @poll g t hg =>
    refine hgo.next (g := g) ?_ ?_
    · intro g' t ht; simp only [State.goes] at *; grind [Pc.cmd, Pc.own, Pc.sends]
    · intro t ht; simp only [Active, State.goes] at *; grind [Pc.cmd, Pc.own, Pc.sends, Pc.holds, Pc.calls]
  | @readable g t hg hr =>
    refine hgo.next (g := g) ?_ ?_
    · intro g' t ht; simp only [State.goes] at *; grind [Pc.cmd, Pc.own, Pc.sends]
    · intro t ht; simp only [Active, State.goes] at *; grind [Pc.cmd, Pc.own, Pc.sends, Pc.holds, Pc.calls]
  | @decode g t o o' pid t' hg hr =>
    refine hgo.next (g := g) ?_ ?_
    · intro g' t ht; simp only [State.goes] at *; grind [Pc.cmd, Pc.own, Pc.sends]
    · intro t ht; simp only [Active, State.goes] at *; grind [Pc.cmd, Pc.own, Pc.sends, Pc.holds, Pc.calls]
  | @callback g t k o hg =>
    refine hgo.next (g := g) ?_ ?_
    · intro g' t ht; simp only [State.goes] at *; grind [Pc.cmd, Pc.own, Pc.sends]
    · intro t ht; simp only [Active, State.goes] at *; grind [Pc.cmd, Pc.own, Pc.sends, Pc.holds, Pc.calls]

theorem Going.uses {s : State P X} (hgo : Going s) {pid t : Nat} (h : Uses s pid t) : ∃ g, (s.pc g).cmd = some t := by
  refine hgo t ?_
  rcases uses_iff.1 h with ⟨g, h⟩ | h | ⟨o, h⟩ | ⟨g, h⟩
  · exact .inl ⟨pid, g, h⟩
  · exact .inr (.inl ⟨pid, h⟩)
  · exact .inr (.inr (.inl ⟨pid, o, h⟩))
  · exact .inr (.inr (.inr (.inl ⟨pid, g, h⟩)))

/-- With a lock around `call` packet numbers are distinct. -/
theorem Going.distinct {s : State P X} (hgo : Going s) (hl : Locked s) : Distinct s := by
  intro pid t t' h h'
  obtain ⟨g, hg⟩ := hgo.uses h
  obtain ⟨g', hg'⟩ := hgo.uses h'
  have hi : ∀ g t, (s.pc g).cmd = some t → s.pc g ≠ .idle := by
    rintro g t h e; rw [e] at h; cases h
  have : g = g' := hl g g' (hi _ _ hg) (hi _ _ hg')
  subst this
  rw [hg] at hg'; cases hg'; rfl

/-- The thread has seen that its call has no result yet. -/
def Pc.looking : Pc P X → Option Nat
  | .entered t | .polling t | .reading t | .got t _ _ _ | .decoded t _ _ _ | .popped t _ _ => some t
  | _ => none

/-- Calls that look for responses have no result. -/
def Lacking (s : State P X) : Prop := ∀ g t, (s.pc g).looking = some t → s.results.lookup t = none

theorem lacking_init (limit : Nat) (blank : Nat → P) : Lacking (State.init limit blank : State P X) := by
  intro g t h
  cases h

theorem Lacking.step {s s' : State P X} (hk : Lacking s) (hl : Locked s) (hs : Step s s') : Lacking s' := by
  cases hs with
  | @callback g t k o hg =>
    intro g' u hu
    by_cases he : g' = g
    · subst he; simp [State.goes, Pc.looking] at hu
    · simp only [State.goes, he, if_false] at hu
      have := hl g' g (by intro e; rw [e] at hu; cases hu) (by rw [hg]; simp)
      exact absurd this he
  | _ =>
    intro g' u hu
    simp only [State.goes, State.ends] at hu ⊢
    have := hk g' u
    grind [Pc.looking]

/-- When a call begins under the lock, nothing is pending. -/
theorem empty_of_start {s : State P X} (ht : Table s) (hgo : Going s) (hl : Locked s) {g : Nat} (hg : s.pc g = .start) : s.ex.pending = [] := by
  cases hp : s.ex.pending with
  | nil => rfl
  | cons e d =>
    obtain ⟨t, hr⟩ := ht.used e.1 (by rw [hp]; exact List.mem_cons_self)
    obtain ⟨g', hg'⟩ := hgo.uses (uses_reg hr)
    have : g' = g := hl g' g (by intro h; rw [h] at hg'; cases hg') (by rw [hg]; simp)
    subst this
    rw [hg] at hg'; cases hg'

/-- All of it, for histories with a lock around `call` and no timeouts. -/
theorem locked_steps {limit : Nat} {blank : Nat → P} {s : State P X} (hs : Steps (fun s => Locked s ∧ Patient s) (State.init limit blank) s) :
    (∃ pl, Inv s pl) ∧ Table s ∧ Going s ∧ Lacking s ∧ s.ex.maxq = limit ∧ (0 < limit → ∀ g, (g, none, .raised .nameError) ∉ s.log) := by
  induction hs with
  | refl _ =>
    exact ⟨⟨_, inv_init limit blank⟩, table_init limit blank, going_init limit blank, lacking_init limit blank, rfl, fun _ g h => by cases h⟩
  | step hs hst hk ih =>
    obtain ⟨⟨pl, h⟩, h1, h2, h3, h4, h5⟩ := ih
    refine ⟨h.step (h2.distinct hs.last.1) hst, h1.step h hst, h2.step h hst hk.2, h3.step hs.last.1 hst, ?_, ?_⟩
    · cases hst <;> exact h4
    · intro hpos
      have h6 := h5 hpos
      cases hst with
      | refused hg hq =>
        rw [h4] at hq
        have := empty_of_start h1 h2 hs.last.1 hg
        rw [this] at hq
        simp only [List.length_nil] at hq
        omega
      | unregister _ _ =>
        intro g hm
        simp only [State.ends, List.mem_append, List.mem_singleton, Prod.mk.injEq, Final.raised.injEq, reduceCtorEq, and_false, or_false] at hm
        exact h6 g hm
      | missing _ _ =>
        intro g hm
        simp only [State.ends, List.mem_append, List.mem_singleton, Prod.mk.injEq, Final.raised.injEq, reduceCtorEq, and_false, or_false] at hm
        exact h6 g hm
      | finish _ _ => intro g hm; simp only [State.ends, List.mem_append, List.mem_singleton, Prod.mk.injEq, reduceCtorEq, false_and, and_false, or_false] at hm; exact h6 g hm
      | timeout _ _ => intro g hm; simp only [State.ends, List.mem_append, List.mem_singleton, Prod.mk.injEq, reduceCtorEq, false_and, and_false, or_false] at hm; exact h6 g hm
      | spoilt _ _ => intro g hm; simp only [State.ends, List.mem_append, List.mem_singleton, Prod.mk.injEq, reduceCtorEq, false_and, and_false, or_false] at hm; exact h6 g hm
      | stray _ _ => intro g hm; simp only [State.ends, List.mem_append, List.mem_singleton, Prod.mk.injEq, reduceCtorEq, false_and, and_false, or_false] at hm; exact h6 g hm
      | _ => exact h6

/-! ## A lock in `_next_packet_index` -/

/-- Packet numbers are the counts of the commands, modulo the size of the queue. -/
structure Counted (s : State P X) : Prop where
  index : s.ex.index = s.next % s.ex.maxq
  took : ∀ g r, s.pc g = .took r → r = s.ex.index
  adding : ∀ g r v, s.pc g = .adding r v → r = s.ex.index ∧ v = s.ex.index
  uses : ∀ pid t, Uses s pid t → pid = t % s.ex.maxq

theorem counted_init (limit : Nat) (blank : Nat → P) : Counted (State.init limit blank : State P X) := by
  refine ⟨by simp [State.init, St.init], by simp [State.init], by simp [State.init], ?_⟩
  intro pid t h
  rcases uses_iff.1 h with ⟨_, h⟩ | h | ⟨_, h⟩ | ⟨_, h⟩ <;> cases h

theorem Counted.next {s s' : State P X} (h : Counted s) (hi : s'.ex.index = s.ex.index) (hm : s'.ex.maxq = s.ex.maxq) (hn : s'.next = s.next)
    (ht : ∀ g r, s'.pc g = .took r → r = s.ex.index) (ha : ∀ g r v, s'.pc g = .adding r v → r = s.ex.index ∧ v = s.ex.index)
    (hu : ∀ pid t, Uses s' pid t → Uses s pid t) : Counted s' :=
  ⟨by rw [hi, hm, hn]; exact h.index, fun g r e => by rw [hi]; exact ht g r e, fun g r v e => by rw [hi]; exact ha g r v e,
    fun pid t e => by rw [hm]; exact h.uses pid t (hu pid t e)⟩

theorem Counted.step {s s' : State P X} {pl : Nat → Place} (hc : Counted s) (h : Inv s pl) (hl : NumbersLocked s) (hs : Step s s') : Counted s' := by
  have h1 := hc.took
  have h2 := hc.adding
  cases hs with
  | missing hg hr =>
    have := h.reg _ _ (.inl ⟨_, .inr hg⟩)
    rw [this] at hr; cases hr
  | @fail g t r hg =>
    refine hc.next rfl rfl rfl ?_ ?_ ?_
    · simp only [State.goes, State.ends]; grind
    · simp only [State.goes, State.ends]; grind
    · intro pid' t' h'; simp only [uses_iff, State.goes, State.ends] at *; grind [Pc.sends, Pc.holds]
  | @unregister g t r v hg hr =>
    refine hc.next rfl rfl rfl ?_ ?_ ?_
    · simp only [State.goes, State.ends]; grind
    · simp only [State.goes, State.ends]; grind
    · intro pid' t' h'; simp only [uses_iff, State.goes, State.ends] at *; grind [Pc.sends, Pc.holds]
  | spoilt hg hr => rw [h.decode_eq hg] at hr; cases hr
  | stray hg hr =>
    have := h.reg _ _ (.inr (.inr (.inr ⟨_, by rw [hg]; rfl⟩)))
    rw [this] at hr; cases hr
  | @answer i pid t o hi =>
    have hm := List.mem_of_getElem? hi
    have hsub : ∀ x ∈ s.waiting.eraseIdx i, x ∈ s.waiting := fun x hx => (List.eraseIdx_sublist _ _).subset hx
    refine hc.next rfl rfl rfl h1 h2 ?_
    intro pid' t' h'; simp only [uses_iff] at *; grind
  | @read g t i o pid t' hg hi =>
    have hm := List.mem_of_getElem? hi
    have hsub : ∀ x ∈ s.ready.eraseIdx i, x ∈ s.ready := fun x hx => (List.eraseIdx_sublist _ _).subset hx
    refine hc.next rfl rfl rfl ?_ ?_ ?_
    · simp only [State.goes]; grind
    · simp only [State.goes]; grind
    · intro pid' t' h'; simp only [uses_iff, State.goes] at *; grind [Pc.sends, Pc.holds]
  | @store g r v hg =>
    obtain ⟨e1, e2⟩ := hc.adding g r v hg
    have hsolo : ∀ g', (s.pc g').taking → g' = g := fun g' h => hl g' g h (by rw [hg]; trivial)
    refine ⟨?_, ?_, ?_, ?_⟩
    · simp only
      rw [e2, hc.index, Nat.mod_add_mod]
    · intro g' r' e
      simp only [State.goes] at e
      split at e
      · cases e
      · exact absurd (hsolo g' (by rw [e]; trivial)) (by assumption)
    · intro g' r' v' e
      simp only [State.goes] at e
      split at e
      · cases e
      · exact absurd (hsolo g' (by rw [e]; trivial)) (by assumption)
    · intro pid t h'
      have : Uses s pid t ∨ (pid = r ∧ t = s.next) := by
        simp only [uses_iff, State.goes] at *; grind [Pc.sends, Pc.holds]
      rcases this with h' | ⟨rfl, rfl⟩
      · exact hc.uses pid t h'
      · exact e1.trans hc.index
  | @refused g hg hq =>
    refine hc.next rfl rfl rfl ?_ ?_ ?_
    · simp only [State.goes, State.ends]; grind
    · simp only [State.goes, State.ends]; grind
    · intro pid' t' h'; simp only [uses_iff, State.goes, State.ends] at *; grind [Pc.sends, Pc.holds]
  | @finish g t a hg hr =>
    refine hc.next rfl rfl rfl ?_ ?_ ?_
    · simp only [State.goes, State.ends]; grind
    · simp only [State.goes, State.ends]; grind
    · intro pid' t' h'; simp only [uses_iff, State.goes, State.ends] at *; grind [Pc.sends, Pc.holds]
  | @timeout g t hg hr =>
    refine hc.next rfl rfl rfl ?_ ?_ ?_
    · simp only [State.goes, State.ends]; grind
    · simp only [State.goes, State.ends]; grind
    · intro pid' t' h'; simp only [uses_iff, State.goes, State.ends] at *; grind [Pc.sends, Pc.holds]
  | @begin g hg =>
    refine hc.next rfl rfl rfl ?_ ?_ ?_
    · simp only [State.goes, State.ends]; grind
    · simp only [State.goes, State.ends]; grind
    · intro pid' t' h'; simp only [uses_iff, State.goes, State.ends] at *; grind [Pc.sends, Pc.holds]
  | @check g hg hq =>
    refine hc.next rfl rfl rfl ?_ ?_ ?_
    · simp only [State.goes, State.ends]; grind
    · simp only [State.goes, State.ends]; grind
    · intro pid' t' h'; simp only [uses_iff, State.goes, State.ends] at *; grind [Pc.sends, Pc.holds]
  | @take g hg =>
    refine hc.next rfl rfl rfl ?_ ?_ ?_
    · simp only [State.goes, State.ends]; grind
    · simp only [State.goes, State.ends]; grind
    · intro pid' t' h'; simp only [uses_iff, State.goes, State.ends] at *; grind [Pc.sends, Pc.holds]
  | @add g r hg =>
    refine hc.next rfl rfl rfl ?_ ?_ ?_
    · simp only [State.goes, State.ends]; grind
    · simp only [State.goes, State.ends]; grind
    · intro pid' t' h'; simp only [uses_iff, State.goes, State.ends] at *; grind [Pc.sends, Pc.holds]
  | @register g t r hg =>
    refine hc.next rfl rfl rfl ?_ ?_ ?_
    · simp only [State.goes, State.ends]; grind
    · simp only [State.goes, State.ends]; grind
    · intro pid' t' h'; simp only [uses_iff, State.goes, State.ends] at *; grind [Pc.sends, Pc.holds]
  | @write g t r hg =>
    refine hc.next rfl rfl rfl ?_ ?_ ?_
    · simp only [State.goes, State.ends]; grind
    · simp only [State.goes, State.ends]; grind
    · intro pid' t' h'; simp only [uses_iff, State.goes, State.ends] at *; grind [Pc.sends, Pc.holds]
  | @enter g t hg hr =>
    refine hc.next rfl rfl rfl ?_ ?_ ?_
    · simp only [State.goes, State.ends]; grind
    · simp only [State.goes, State.ends]; grind
    · intro pid' t' h'; simp only [uses_iff, State.goes, State.ends] at *; grind [Pc.sends, Pc.holds]
  | @poll g t hg =>
    refine hc.next rfl rfl rfl ?_ ?_ ?_
    · simp only [State.goes, State.ends]; grind
    · simp only [State.goes, State.ends]; grind
    · intro pid' t' h'; simp only [uses_iff, State.goes, State.ends] at *; grind [Pc.sends, Pc.holds]
  | @readable g t hg hr =>
    refine hc.next rfl rfl rfl ?_ ?_ ?_
    · simp only [State.goes, State.ends]; grind
    · simp only [State.goes, State.ends]; grind
    · intro pid' t' h'; simp only [uses_iff, State.goes, State.ends] at *; grind [Pc.sends, Pc.holds]
  | @decode g t o o' pid t' hg hr =>
    refine hc.next rfl rfl rfl ?_ ?_ ?_
    · simp only [State.goes, State.ends]; grind
    · simp only [State.goes, State.ends]; grind
    · intro pid' t' h'; simp only [uses_iff, State.goes, State.ends] at *; grind [Pc.sends, Pc.holds]
  | @pop g t o pid t' q k hg hr =>
    refine hc.next rfl rfl rfl ?_ ?_ ?_
    · simp only [State.goes, State.ends]; grind
    · simp only [State.goes, State.ends]; grind
    · intro pid' t' h'; simp only [uses_iff, State.goes, State.ends] at *; grind [Pc.sends, Pc.holds]
  | @callback g t k o hg =>
    refine hc.next rfl rfl rfl ?_ ?_ ?_
    · simp only [State.goes, State.ends]; grind
    · simp only [State.goes, State.ends]; grind
    · intro pid' t' h'; simp only [uses_iff, State.goes, State.ends] at *; grind [Pc.sends, Pc.holds]

theorem Inv.uses_lt {s : State P X} {pl : Nat → Place} (h : Inv s pl) {pid t : Nat} (hu : Uses s pid t) : t < s.next := by
  refine Nat.lt_of_not_le fun hle => ?_
  have hp := h.later t hle
  rcases uses_iff.1 hu with ⟨_, e⟩ | e | ⟨_, e⟩ | ⟨_, e⟩
  · rw [h.sending _ _ _ e] at hp; cases hp
  · rw [h.waiting _ _ e] at hp; cases hp
  · rw [(h.ready _ _ _ e).1] at hp; cases hp
  · rw [h.held _ _ _ e] at hp; cases hp

theorem mod_window {a b n q : Nat} (ha : a < n) (hb : b < n) (ha' : n ≤ a + q) (hb' : n ≤ b + q) (h : a % q = b % q) : a = b := by
  rcases Nat.lt_trichotomy a b with hlt | he | hlt
  · have h1 : (b - a) % q = 0 := Nat.sub_mod_eq_zero_of_mod_eq h.symm
    rw [Nat.mod_eq_of_lt (by omega)] at h1
    omega
  · exact he
  · have h1 : (a - b) % q = 0 := Nat.sub_mod_eq_zero_of_mod_eq h
    rw [Nat.mod_eq_of_lt (by omega)] at h1
    omega

theorem Counted.distinct {s : State P X} {pl : Nat → Place} (hc : Counted s) (h : Inv s pl) (hr : Recent s) : Distinct s := by
  intro pid t t' hu hu'
  exact mod_window (h.uses_lt hu) (h.uses_lt hu') (hr _ _ hu) (hr _ _ hu') ((hc.uses _ _ hu).symm.trans (hc.uses _ _ hu'))

theorem numbered_steps {limit : Nat} {blank : Nat → P} {s : State P X} (hs : Steps (fun s => NumbersLocked s ∧ Recent s) (State.init limit blank) s) :
    (∃ pl, Inv s pl) ∧ Counted s := by
  induction hs with
  | refl _ => exact ⟨⟨_, inv_init limit blank⟩, counted_init limit blank⟩
  | step hs hst hk ih =>
    obtain ⟨⟨pl, h⟩, h1⟩ := ih
    exact ⟨h.step (h1.distinct h hs.last.2) hst, h1.step h hs.last.1 hst⟩

end Verif.Threads
