import Verif.Reactor
import Verif.Props.Coroutine
import Verif.ExecuterLemmas
/-!
# Theorems about the asynchronous reactor: C13, C14
-/
set_option linter.unusedSimpArgs false

namespace Verif.Reactor
open Verif.Coroutine
open Verif.Executer (Dict)

variable {G σ V E T : Type}

/-! ## Running alone, cut into pieces at the I/O tokens -/

/-- From a runnable configuration, `n` I/Os later the coroutine is done with result `r`. -/
inductive IoRun (M : Machine G σ V E T) : Cfg G σ V E T → Nat → Option (Yld G V E T) → σ → Prop
  | done {cfg r s} : AsyncLoop M cfg (.done r s) → IoRun M cfg 0 r s
  | io {cfg t cfg' s' i n r s} : AsyncLoop M cfg (.blocked t cfg') → M.await t cfg'.st = (s', .ok i) →
      IoRun M { cfg' with args := i, st := s' } n r s → IoRun M cfg (n + 1) r s

/-- A yield of an I/O token. -/
def isTok : Nat × Yld G V E T → Bool
  | (_, .tok _) => true
  | _ => false

/-- The number of I/Os in a trace of yields. -/
def ios (tr : List (Nat × Yld G V E T)) : Nat := (tr.filter isTok).length

theorem asyncLoop_det {M : Machine G σ V E T} {cfg o o'} (h : AsyncLoop M cfg o) (h' : AsyncLoop M cfg o') : o = o' := by
  induction h generalizing o' with
  | done => cases h'; rfl
  | fail h => cases h' with
    | fail h2 => rw [h] at h2; cases h2; rfl
    | blocked h2 => rw [h] at h2; cases h2
    | step h2 => rw [h] at h2; cases h2
  | blocked h => cases h' with
    | fail h2 => rw [h] at h2; cases h2
    | blocked h2 => rw [h] at h2; cases h2; rfl
    | step h2 => rw [h] at h2; cases h2
  | step h _ ih => cases h' with
    | fail h2 => rw [h] at h2; cases h2
    | blocked h2 => rw [h] at h2; cases h2
    | step h2 hl => rw [h] at h2; cases h2; exact ih hl

theorem nextStep_io {M : Machine G σ V E T} {g rest args result s t c} (h : nextStep M g rest args result s = .io t c) :
    c.result = some (.tok t) := by
  unfold nextStep at h
  split at h
  · split at h <;> simp_all
    obtain ⟨rfl, rfl⟩ := h; rfl
  · cases h
  · unfold unwind at h; split at h <;> cases h

theorem asyncLoop_blocked {M : Machine G σ V E T} {cfg t cfg'} (h : AsyncLoop M cfg (.blocked t cfg')) :
    cfg'.result = some (.tok t) := by
  generalize ho : AsyncOut.blocked t cfg' = o at h
  induction h with
  | done => cases ho
  | fail => cases ho
  | blocked h => cases ho; exact nextStep_io h
  | step _ _ ih => exact ih ho

theorem ioRun_step {M : Machine G σ V E T} {g rest args result s c n r s'}
    (h : nextStep M g rest args result s = .cont c) (hr : IoRun M c n r s') :
    IoRun M ⟨g :: rest, args, result, s⟩ n r s' := by
  cases hr with
  | done hd => exact .done (.step h hd)
  | io hb hw hn => exact .io (.step h hb) hw hn

/-- A synchronous run, seen as pieces between I/Os. -/
theorem ioRun_of_trace {M : Machine G σ V E T} (hio : ∀ t s e, (M.await t s).2 ≠ .error e) {c c' : Cfg G σ V E T} {tr}
    (h : YieldTrace M c tr c') (hc : c'.stack = []) : IoRun M c (ios tr) c'.result c'.st := by
  induction h with
  | refl c =>
    obtain ⟨stack, args, result, st⟩ := c
    simp only at hc
    subst hc
    exact .done (.done ..)
  | @step g rest args result s c tr c' h ht ih =>
    have ih := ih hc
    have hios : ∀ o : Out G V E T, ios (yieldOf rest.length o ++ tr) = ios (yieldOf 0 o) + ios tr := by
      intro o
      cases o with
      | ret => simp [ios, yieldOf]
      | raises e => simp [ios, yieldOf]
      | yields y g' => cases y <;> simp [ios, isTok, yieldOf, List.filter_cons]; omega
    rw [hios]
    cases hr : M.resume g args s with
    | mk s1 o =>
      simp only [syncStep] at h
      cases hn : nextStep M g rest args result s with
      | fail s2 e => rw [hn] at h; cases h
      | cont c2 =>
        rw [hn] at h; cases h
        have hz : ios (yieldOf 0 o) = 0 := by
          simp only [nextStep, hr] at hn
          cases o with
          | ret => rfl
          | raises e => rfl
          | yields y g' => cases y <;> first | rfl | cases hn
        simp only [hz, Nat.zero_add]
        exact ioRun_step hn ih
      | io t c2 =>
        rw [hn] at h
        have ho : ∃ g', o = .yields (.tok t) g' := by
          simp only [nextStep, hr] at hn
          cases o with
          | ret => cases hn
          | raises e => simp only [unwind] at hn; cases rest <;> cases hn
          | yields y g' => cases y <;> cases hn; exact ⟨_, rfl⟩
        obtain ⟨g', rfl⟩ := ho
        simp only [handleSync] at h
        cases hw : M.await t c2.st with
        | mk s2 a =>
          cases a with
          | error e => exact (hio t c2.st e (by rw [hw])).elim
          | ok i =>
            simp only [hw] at h
            cases h
            rw [Nat.add_comm]
            exact .io (.blocked hn) hw ih

/-! ## The reactor's invariant -/

section
variable (M : Machine G σ V E T) (r : Nat → Option (Yld G V E T)) (s : Nat → σ)

/-- Coroutine of command `c` waits for an I/O and needs `n` I/Os to finish (with what it returns when run alone). -/
def Blocked (c : Nat) (cfg : Cfg G σ V E T) (n : Nat) : Prop :=
  ∃ t s' i n', cfg.result = some (.tok t) ∧ M.await t cfg.st = (s', .ok i) ∧ n = n' + 1 ∧
    IoRun M { cfg with args := i, st := s' } n' (r c) (s c)

/-- Commands in `todo` are runnable, all others blocked. -/
def Ent (todo : List Nat) (c : Nat) (cfg : Cfg G σ V E T) (n : Nat) : Prop :=
  if c ∈ todo then IoRun M cfg n (r c) (s c) else Blocked M r s c cfg n

inductive All (P : Nat → Cfg G σ V E T → Nat → Prop) : Dict (Cfg G σ V E T) → Nat → Prop
  | nil : All P [] 0
  | cons {c cfg n d m} : P c cfg n → All P d m → All P ((c, cfg) :: d) (n + m)

theorem All.imp {P P' : Nat → Cfg G σ V E T → Nat → Prop} {d m} (h : All P d m)
    (hi : ∀ c cfg n, c ∈ Dict.keys d → P c cfg n → P' c cfg n) : All P' d m := by
  induction h with
  | nil => exact .nil
  | cons h _ ih =>
    exact .cons (hi _ _ _ (by simp [Dict.keys]) h)
      (ih fun c cfg n hm => hi c cfg n (by simp only [Dict.keys, List.map_cons, List.mem_cons]; exact .inr hm))

theorem All.get {P : Nat → Cfg G σ V E T → Nat → Prop} {d m c cfg} (h : All P d m) (hg : Dict.get d c = some cfg) :
    ∃ n m', P c cfg n ∧ m = n + m' ∧ All P (Dict.erase d c) m' ∧
      ∀ {P' : Nat → Cfg G σ V E T → Nat → Prop} {cfg' n'}, P' c cfg' n' →
        (∀ c2 cfg2 n2, c2 ∈ Dict.keys (Dict.erase d c) → P c2 cfg2 n2 → P' c2 cfg2 n2) →
        All P' (Dict.set d c cfg') (n' + m') := by
  induction h with
  | nil => simp [Dict.get] at hg
  | @cons c' cfg0 n d m hp hall ih =>
    by_cases hc : c' = c
    · subst hc
      simp only [Dict.get, if_true, Option.some.injEq] at hg
      subst hg
      refine ⟨n, m, hp, rfl, by simpa [Dict.erase] using hall, ?_⟩
      intro P' cfg' n' hp' hi
      simp only [Dict.set, if_true]
      exact .cons hp' (hall.imp fun c2 cfg2 n2 hm h2 => hi c2 cfg2 n2 (by simpa [Dict.erase] using hm) h2)
    · simp only [Dict.get, hc, if_false] at hg
      obtain ⟨n1, m1, h1, rfl, h3, h4⟩ := ih hg
      refine ⟨n1, n + m1, h1, by omega, ?_, ?_⟩
      · simp only [Dict.erase, hc, if_false]; exact .cons hp h3
      · intro P' cfg' n' hp' hi
        simp only [Dict.set, hc, if_false]
        have e : n' + (n + m1) = n + (n' + m1) := by omega
        rw [e]
        refine .cons (hi _ _ _ ?_ hp) (h4 hp' fun c2 cfg2 n2 hm h2 => hi c2 cfg2 n2 ?_ h2)
        · simp [Dict.erase, hc, Dict.keys]
        · simp only [Dict.erase, hc, if_false, Dict.keys, List.map_cons, List.mem_cons]
          exact .inr hm

theorem All.zero {todo d} (h : All (Ent M r s todo) d 0) (ht : todo = []) : d = [] := by
  generalize hz : 0 = z at h
  cases h with
  | nil => rfl
  | @cons c cfg n d m hp _ =>
    subst ht
    simp only [Ent, List.not_mem_nil, if_false] at hp
    obtain ⟨_, _, _, n', _, _, rfl, _⟩ := hp
    omega

/-- Every finished command has the result (and world) of running alone. -/
def ResOk (res : Dict (Option (Yld G V E T) × σ)) : Prop := ∀ c v, Dict.get res c = some v → v = (r c, s c)
end

theorem dict_get_set {α : Type} (d : Dict α) (k k' : Nat) (v : α) :
    Dict.get (Dict.set d k v) k' = if k = k' then some v else Dict.get d k' := by
  induction d with
  | nil => simp [Dict.set, Dict.get]
  | cons p d ih =>
    obtain ⟨k0, v0⟩ := p
    by_cases h : k0 = k
    · subst h
      simp only [Dict.set, if_true, Dict.get]
      split <;> rfl
    · simp only [Dict.set, h, if_false, Dict.get, ih]
      by_cases h2 : k0 = k'
      · subst h2; simp [Ne.symm h]
      · simp [h2]

theorem dict_mem_keys_set {α : Type} (d : Dict α) (k k' : Nat) (v : α) :
    k' ∈ Dict.keys (Dict.set d k v) ↔ k' = k ∨ k' ∈ Dict.keys d := by
  rw [Dict.keys_set]
  split
  · constructor
    · exact .inr
    · rintro (rfl | h) <;> assumption
  · simp [or_comm]

theorem dict_nodup_set {α : Type} (d : Dict α) (k : Nat) (v : α) (h : (Dict.keys d).Nodup) :
    (Dict.keys (Dict.set d k v)).Nodup := by
  rw [Dict.keys_set]
  split
  · exact h
  · rename_i hk
    rw [List.nodup_append]
    exact ⟨h, by simp, by intro x hx y hy e; simp at hy; exact hk (hy ▸ e ▸ hx)⟩

theorem dict_keys_erase {α : Type} (d : Dict α) (k : Nat) (h : (Dict.keys d).Nodup) :
    Dict.keys (Dict.erase d k) = (Dict.keys d).erase k := by
  induction d with
  | nil => simp [Dict.erase, Dict.keys]
  | cons p r ih =>
    obtain ⟨k', v⟩ := p
    simp only [Dict.keys, List.map_cons, List.nodup_cons] at h
    by_cases hk : k' = k
    · subst hk; simp [Dict.erase, Dict.keys]
    · simp only [Dict.erase, hk, if_false]
      show k' :: Dict.keys (Dict.erase r k) = (k' :: Dict.keys r).erase k
      rw [ih h.2, List.erase_cons_tail (by simpa using hk)]

theorem dict_get_erase {α : Type} (d : Dict α) (k k' : Nat) (h : (Dict.keys d).Nodup) :
    Dict.get (Dict.erase d k) k' = if k = k' then none else Dict.get d k' := by
  induction d with
  | nil => simp [Dict.erase, Dict.get]
  | cons p d ih =>
    obtain ⟨k0, v0⟩ := p
    simp only [Dict.keys, List.map_cons, List.nodup_cons] at h
    by_cases h1 : k0 = k
    · subst h1
      simp only [Dict.erase, if_true, Dict.get]
      split
      · subst k0
        rw [Dict.get_none_iff]; exact h.1
      · rfl
    · simp only [Dict.erase, h1, if_false, Dict.get, ih h.2]
      by_cases h2 : k0 = k'
      · subst h2; simp; intro e; exact absurd e.symm h1
      · simp [h2]

theorem dict_get_of_mem {α : Type} {d : Dict α} {k : Nat} (h : k ∈ Dict.keys d) : ∃ v, Dict.get d k = some v := by
  cases hg : Dict.get d k with
  | none => exact absurd h ((Dict.get_none_iff _ _).1 hg)
  | some v => exact ⟨v, rfl⟩

section
variable {M : Machine G σ V E T} {r : Nat → Option (Yld G V E T)} {s : Nat → σ}

theorem forLoop_sound {cs : List Nat} {st st' : St G σ V E T} (h : ForLoop M cs st st') : ∀ {m}, cs.Nodup →
    (Dict.keys st.coroutines).Nodup → All (Ent M r s cs) st.coroutines m → ResOk r s st.results →
    All (Ent M r s []) st'.coroutines m ∧ ResOk r s st'.results ∧ (Dict.keys st'.coroutines).Nodup ∧
    (∀ c, (c ∈ Dict.keys st'.coroutines ∨ c ∈ Dict.keys st'.results) ↔
      (c ∈ Dict.keys st.coroutines ∨ c ∈ Dict.keys st.results)) ∧
    (∀ c, c ∉ cs → Dict.get st'.coroutines c = Dict.get st.coroutines c ∧
      Dict.get st'.results c = Dict.get st.results c) := by
  induction h with
  | nil st => intro m _ hk ha hr; exact ⟨ha, hr, hk, fun _ => Iff.rfl, fun _ _ => ⟨rfl, rfl⟩⟩
  | @done c cs st st' cfg r0 s0 hg hl _ ih =>
    intro m hn hk ha hr
    rw [List.nodup_cons] at hn
    obtain ⟨n, m', hp, rfl, he, _⟩ := ha.get hg
    have hmem : c ∈ Dict.keys st.coroutines := by
      by_cases hh : c ∈ Dict.keys st.coroutines
      · exact hh
      · rw [(Dict.get_none_iff _ _).2 hh] at hg; cases hg
    simp only [Ent, List.mem_cons, true_or, if_true] at hp
    have hn0 : n = 0 ∧ r0 = r c ∧ s0 = s c := by
      cases hp with
      | done hd => have := asyncLoop_det hl hd; cases this; exact ⟨rfl, rfl, rfl⟩
      | io hb => have := asyncLoop_det hl hb; cases this
    obtain ⟨rfl, rfl, rfl⟩ := hn0
    have hek := dict_keys_erase st.coroutines c hk
    have hcn : c ∉ Dict.keys (Dict.erase st.coroutines c) := by
      rw [hek, hk.mem_erase_iff]; simp
    have := ih (m := m') hn.2
      (by show (Dict.keys (Dict.erase st.coroutines c)).Nodup
          rw [hek]; exact hk.sublist List.erase_sublist)
      (he.imp fun c2 cfg2 n2 hm h2 => by
        have hne : c2 ≠ c := fun e => hcn (e ▸ hm)
        simpa [Ent, hne] using h2)
      (by
        intro c2 v hv
        rw [dict_get_set] at hv
        split at hv
        · rename_i e; subst e; cases hv; rfl
        · exact hr c2 v hv)
    obtain ⟨h1, h2, h3, h4, h5⟩ := this
    refine ⟨by simpa using h1, h2, h3, ?_, ?_⟩
    · intro c2
      rw [h4 c2, dict_mem_keys_set]
      show (c2 ∈ Dict.keys (Dict.erase st.coroutines c) ∨ _) ↔ _
      rw [hek, hk.mem_erase_iff]
      by_cases e : c2 = c
      · subst e; simp [hmem]
      · simp [e]
    · intro c2 hc2
      simp only [List.mem_cons, not_or] at hc2
      obtain ⟨a, b⟩ := h5 c2 hc2.2
      rw [a, b, dict_get_erase _ _ _ hk, dict_get_set]
      have : ¬ c = c2 := fun e => hc2.1 e.symm
      simp [this]
  | @blocked c cs st st' cfg t cfg' hg hl _ ih =>
    intro m hn hk ha hr
    rw [List.nodup_cons] at hn
    obtain ⟨n, m', hp, rfl, he, hset⟩ := ha.get hg
    have hmem : c ∈ Dict.keys st.coroutines := by
      by_cases hh : c ∈ Dict.keys st.coroutines
      · exact hh
      · rw [(Dict.get_none_iff _ _).2 hh] at hg; cases hg
    simp only [Ent, List.mem_cons, true_or, if_true] at hp
    have hb : Blocked M r s c cfg' n := by
      cases hp with
      | done hd => have := asyncLoop_det hl hd; cases this
      | io hb hw hr =>
        have := asyncLoop_det hl hb; cases this
        exact ⟨t, _, _, _, asyncLoop_blocked hl, hw, rfl, hr⟩
    have hek := dict_keys_erase st.coroutines c hk
    have hcn : c ∉ Dict.keys (Dict.erase st.coroutines c) := by
      rw [hek, hk.mem_erase_iff]; simp
    have hall : All (Ent M r s cs) (Dict.set st.coroutines c cfg') (n + m') :=
      hset (P' := Ent M r s cs) (by simp only [Ent, hn.1, if_false]; exact hb) (fun c2 cfg2 n2 hm h2 => by
        have hne : c2 ≠ c := fun e => hcn (e ▸ hm)
        simpa [Ent, hne] using h2)
    obtain ⟨h1, h2, h3, h4, h5⟩ := ih hn.2 (dict_nodup_set _ _ _ hk) hall hr
    refine ⟨h1, h2, h3, ?_, ?_⟩
    · intro c2
      rw [h4 c2]
      show (c2 ∈ Dict.keys (Dict.set st.coroutines c cfg') ∨ _) ↔ _
      rw [dict_mem_keys_set]
      constructor
      · rintro ((rfl | a) | b)
        · exact .inl hmem
        · exact .inl a
        · exact .inr b
      · rintro (a | b)
        · exact .inl (.inr a)
        · exact .inr b
    · intro c2 hc2
      simp only [List.mem_cons, not_or] at hc2
      obtain ⟨a, b⟩ := h5 c2 hc2.2
      rw [a, b, dict_get_set]
      have : ¬ c = c2 := fun e => hc2.1 e.symm
      simp [this]

theorem forLoop_progress (cs : List Nat) : ∀ {st : St G σ V E T} {m}, cs.Nodup →
    (Dict.keys st.coroutines).Nodup → All (Ent M r s cs) st.coroutines m → (∀ c ∈ cs, c ∈ Dict.keys st.coroutines) →
    ∃ st', ForLoop M cs st st' := by
  induction cs with
  | nil => intro st m _ _ _ _; exact ⟨st, .nil st⟩
  | cons c cs ih =>
    intro st m hn hk ha hin
    rw [List.nodup_cons] at hn
    obtain ⟨cfg, hg⟩ := dict_get_of_mem (hin c (List.mem_cons_self ..))
    obtain ⟨n, m', hp, rfl, he, hset⟩ := ha.get hg
    simp only [Ent, List.mem_cons, true_or, if_true] at hp
    have hek := dict_keys_erase st.coroutines c hk
    have hcn : c ∉ Dict.keys (Dict.erase st.coroutines c) := by
      rw [hek, hk.mem_erase_iff]; simp
    have himp : ∀ c2 cfg2 n2, c2 ∈ Dict.keys (Dict.erase st.coroutines c) → Ent M r s (c :: cs) c2 cfg2 n2 →
        Ent M r s cs c2 cfg2 n2 := by
      intro c2 cfg2 n2 hm h2
      have hne : c2 ≠ c := fun e => hcn (e ▸ hm)
      simpa [Ent, hne] using h2
    generalize hrc : r c = rc at hp
    generalize hsc : s c = sc at hp
    cases hp with
    | done hd =>
      obtain ⟨st', h⟩ := ih (st := ⟨Dict.erase st.coroutines c, Dict.set st.results c (rc, sc)⟩) (m := m') hn.2
        (by show (Dict.keys (Dict.erase st.coroutines c)).Nodup
            rw [hek]; exact hk.sublist List.erase_sublist)
        (he.imp himp)
        (by
          intro c2 hc2
          show c2 ∈ Dict.keys (Dict.erase st.coroutines c)
          rw [hek, hk.mem_erase_iff]
          exact ⟨fun e => hn.1 (e ▸ hc2), hin c2 (List.mem_cons_of_mem _ hc2)⟩)
      exact ⟨st', .done hg hd h⟩
    | @io _ t cfg' s' i n' _ _ hb hw hr =>
      have hB : Blocked M r s c cfg' (n' + 1) := ⟨t, _, _, _, asyncLoop_blocked hb, hw, rfl, by rw [hrc, hsc]; exact hr⟩
      obtain ⟨st', h⟩ := ih (st := ⟨Dict.set st.coroutines c cfg', st.results⟩) (m := n' + 1 + m') hn.2
        (dict_nodup_set _ _ _ hk)
        (hset (P' := Ent M r s cs) (by simp only [Ent, hn.1, if_false]; exact hB) himp)
        (by
          intro c2 hc2
          show c2 ∈ Dict.keys (Dict.set st.coroutines c cfg')
          rw [dict_mem_keys_set]
          exact .inr (hin c2 (List.mem_cons_of_mem _ hc2)))
      exact ⟨st', .blocked hg hb h⟩

/-- The invariant between iterations: `m` I/Os remain. -/
structure Inv (r : Nat → Option (Yld G V E T)) (s : Nat → σ) (M : Machine G σ V E T) (cmds : List Nat)
    (st : St G σ V E T) (m : Nat) : Prop where
  nodup : (Dict.keys st.coroutines).Nodup
  all : All (Ent M r s []) st.coroutines m
  res : ResOk r s st.results
  cover : ∀ c ∈ cmds, c ∈ Dict.keys st.coroutines ∨ c ∈ Dict.keys st.results

theorem wait_sound {cmds : List Nat} {st : St G σ V E T} {m k c : Nat} {d : Dict (Cfg G σ V E T)}
    (h : Inv r s M cmds st m) (hw : WaitForEvents M st.coroutines k c d) :
    ∃ m', m = m' + 1 ∧ (Dict.keys d).Nodup ∧ All (Ent M r s [c]) d m' ∧
      (∀ x, x ∈ Dict.keys d ↔ x ∈ Dict.keys st.coroutines) ∧ c ∈ Dict.keys st.coroutines ∧
      (∀ x, x ≠ c → Dict.get d x = Dict.get st.coroutines x) := by
  obtain ⟨hk, ht, ha⟩ := hw
  rename_i cfg t s' i
  obtain ⟨hg, _⟩ := Dict.get_erase_of_getElem _ h.nodup k c cfg hk
  obtain ⟨n, m', hp, rfl, he, hset⟩ := h.all.get hg
  simp only [Ent, List.not_mem_nil, if_false] at hp
  obtain ⟨t', s'', i', n', h1, h2, rfl, h3⟩ := hp
  rw [ht] at h1; cases h1
  rw [ha] at h2; cases h2
  have hmem : c ∈ Dict.keys st.coroutines := by
    by_cases hh : c ∈ Dict.keys st.coroutines
    · exact hh
    · rw [(Dict.get_none_iff _ _).2 hh] at hg; cases hg
  have hcn : c ∉ Dict.keys (Dict.erase st.coroutines c) := by
    rw [dict_keys_erase _ _ h.nodup, h.nodup.mem_erase_iff]; simp
  refine ⟨n' + m', by omega, dict_nodup_set _ _ _ h.nodup,
    hset (P' := Ent M r s [c]) (by simp only [Ent, List.mem_singleton, if_true]; exact h3) ?_, ?_, hmem, ?_⟩
  · intro c2 cfg2 n2 hm h2
    have hne : c2 ≠ c := fun e => hcn (e ▸ hm)
    simpa [Ent, hne] using h2
  · intro x
    rw [dict_mem_keys_set]
    constructor
    · rintro (rfl | a)
      · exact hmem
      · exact a
    · exact .inr
  · intro x hx
    rw [dict_get_set]
    have : ¬ c = x := fun e => hx e.symm
    simp [this]

theorem step_sound {cmds : List Nat} {st st' : St G σ V E T} {m k c : Nat} (h : Inv r s M cmds st m)
    (hs : Step M st k c st') : ∃ m', m = m' + 1 ∧ Inv r s M cmds st' m' ∧
      ∀ x, x ≠ c → Dict.get st'.coroutines x = Dict.get st.coroutines x ∧ Dict.get st'.results x = Dict.get st.results x := by
  obtain ⟨d, hw, hf⟩ := hs
  obtain ⟨m', rfl, hnd, hall, hkeys, hmem, hoth⟩ := wait_sound h hw
  obtain ⟨h1, h2, h3, h4, h5⟩ := forLoop_sound (r := r) (s := s) hf (by simp) hnd hall h.res
  refine ⟨m', rfl, ⟨h3, h1, h2, ?_⟩, ?_⟩
  · intro x hx
    rw [h4 x]
    rcases h.cover x hx with a | a
    · exact .inl ((hkeys x).2 a)
    · exact .inr a
  · intro x hx
    obtain ⟨a, b⟩ := h5 x (by simpa using hx)
    exact ⟨a.trans (hoth x hx), b⟩

theorem step_progress {cmds : List Nat} {st : St G σ V E T} {m k : Nat} (h : Inv r s M cmds st m)
    (hk : k < st.coroutines.length) : ∃ c st', Step M st k c st' := by
  have hq : st.coroutines[k]? = some (st.coroutines[k]) := List.getElem?_eq_getElem hk
  generalize st.coroutines[k] = p at hq
  obtain ⟨c, cfg⟩ := p
  obtain ⟨hg, _⟩ := Dict.get_erase_of_getElem _ h.nodup k c cfg hq
  obtain ⟨n, m', hp, _, _, _⟩ := h.all.get hg
  simp only [Ent, List.not_mem_nil, if_false] at hp
  obtain ⟨t, s', i, n', h1, h2, _, h3⟩ := hp
  have hw : WaitForEvents M st.coroutines k c _ := .mk hq h1 h2
  obtain ⟨m2, _, hnd, hall, hkeys, hmem, _⟩ := wait_sound h hw
  obtain ⟨st', hf⟩ := forLoop_progress [c] (st := ⟨_, st.results⟩) (by simp) hnd hall
    (by intro x hx; simp at hx; subst hx; exact (hkeys _).2 hmem)
  exact ⟨c, st', _, hw, hf⟩

theorem initial_inv (gen : Nat → G) (world : Nat → σ) (n : Nat → Nat) (cmds : List Nat) (hn : cmds.Nodup)
    (hrun : ∀ c ∈ cmds, IoRun M (start M (gen c) (world c)) (n c) (r c) (s c)) :
    (Dict.keys (initial M gen world cmds).coroutines) = cmds ∧
    All (Ent M r s cmds) (initial M gen world cmds).coroutines ((cmds.map n).foldr (· + ·) 0) := by
  have hform : ∀ (l : List Nat) (d : Dict (Cfg G σ V E T)), l.Nodup → (∀ c ∈ l, c ∉ Dict.keys d) →
      l.foldl (fun d c => Dict.set d c (start M (gen c) (world c))) d = d ++ l.map (fun c => (c, start M (gen c) (world c))) := by
    intro l
    induction l with
    | nil => intro d _ _; simp
    | cons c l ih =>
      intro d hl hd
      rw [List.nodup_cons] at hl
      rw [List.foldl_cons, Dict.set_fresh _ _ _ (hd c (List.mem_cons_self ..)), ih _ hl.2]
      · simp
      · intro c2 hc2 hm
        simp only [Dict.keys, List.map_append, List.mem_append, List.map_cons, List.map_nil, List.mem_singleton] at hm
        rcases hm with hm | rfl
        · exact hd c2 (List.mem_cons_of_mem _ hc2) hm
        · exact hl.1 hc2
  have heq : (initial M gen world cmds).coroutines = cmds.map (fun c => (c, start M (gen c) (world c))) := by
    simp only [initial]
    rw [hform cmds [] hn (by simp [Dict.keys])]; simp
  rw [heq]
  refine ⟨by simp [Dict.keys, Function.comp_def], ?_⟩
  have : ∀ l : List Nat, (∀ c ∈ l, c ∈ cmds) →
      All (Ent M r s cmds) (l.map (fun c => (c, start M (gen c) (world c)))) ((l.map n).foldr (· + ·) 0) := by
    intro l
    induction l with
    | nil => intro _; exact .nil
    | cons c l ih =>
      intro hl
      simp only [List.map_cons, List.foldr_cons]
      refine .cons ?_ (ih fun x hx => hl x (List.mem_cons_of_mem _ hx))
      have := hl c (List.mem_cons_self ..)
      simp only [Ent, this, if_true]
      exact hrun c this
  exact this cmds fun _ h => h

theorem reach_inv {gen : Nat → G} {world : Nat → σ} {ni : Nat → Nat} {cmds : List Nat} (hn : cmds.Nodup)
    (hrun : ∀ c ∈ cmds, IoRun M (start M (gen c) (world c)) (ni c) (r c) (s c)) {n st}
    (h : Reach M gen world cmds n st) :
    ∃ m, n + m = (cmds.map ni).foldr (· + ·) 0 ∧ Inv r s M cmds st m := by
  induction h with
  | first hf =>
    obtain ⟨hk, ha⟩ := initial_inv gen world ni cmds hn hrun
    obtain ⟨h1, h2, h3, h4, _⟩ := forLoop_sound (r := r) (s := s) hf hn (by rw [hk]; exact hn) ha
      (by intro c v hv; simp [initial, Dict.get] at hv)
    exact ⟨_, Nat.zero_add _, ⟨h3, h1, h2, fun c hc => (h4 c).2 (.inl (by rw [hk]; exact hc))⟩⟩
  | next _ _ hs ih =>
    obtain ⟨m, hm, hi⟩ := ih
    obtain ⟨m', rfl, hi', _⟩ := step_sound hi hs
    exact ⟨m', by omega, hi'⟩

end

/-! ## The properties -/

/-- What each command does when run alone by the synchronous driver: trace `tr c`, result `r c`, final world `s c`. -/
def RunsAlone (M : Machine G σ V E T) (gen : Nat → G) (world : Nat → σ) (cmds : List Nat)
    (tr : Nat → List (Nat × Yld G V E T)) (r : Nat → Option (Yld G V E T)) (s : Nat → σ) : Prop :=
  ∀ c ∈ cmds, ∃ args, YieldTrace M (start M (gen c) (world c)) (tr c) ⟨[], args, r c, s c⟩

theorem runsAlone_ioRun {M : Machine G σ V E T} (hio : ∀ t s e, (M.await t s).2 ≠ .error e) {gen world cmds tr r s}
    (h : RunsAlone M gen world cmds tr r s) :
    ∀ c ∈ cmds, IoRun M (start M (gen c) (world c)) (ios (tr c)) (r c) (s c) := by
  intro c hc
  obtain ⟨args, ht⟩ := h c hc
  exact ioRun_of_trace hio ht rfl

/-- **C13.** For distinct commands, each of which finishes when run alone, and any order in which the operating system
signals completions: whenever `wait_for` returns, it returns, in argument order, exactly what each command returns (and
leaves the world each command leaves) when run alone by `sync_wait`. (`get_result` of Windows tokens never raises:
win32.py:146-150.) -/
theorem C13 (M : Machine G σ V E T) (hio : ∀ t s e, (M.await t s).2 ≠ .error e) (gen : Nat → G) (world : Nat → σ)
    (cmds : List Nat) (hn : cmds.Nodup) (tr : Nat → List (Nat × Yld G V E T)) (r : Nat → Option (Yld G V E T))
    (s : Nat → σ) (h : RunsAlone M gen world cmds tr r s) (n : Nat) (rs : List (Option (Option (Yld G V E T) × σ)))
    (hw : WaitFor M gen world cmds n rs) : rs = cmds.map (fun c => some (r c, s c)) := by
  obtain ⟨st, hr, hd, rfl⟩ := hw
  obtain ⟨m, _, hi⟩ := reach_inv (r := r) (s := s) hn (runsAlone_ioRun hio h) hr
  apply List.map_congr_left
  intro c hc
  rcases hi.cover c hc with hcov | hcov
  · rw [hd] at hcov; simp [Dict.keys] at hcov
  · obtain ⟨v, hv⟩ := dict_get_of_mem hcov
    rw [hv, hi.res c v hv]

/-- **C14.** Under the same conditions, whatever has been signalled so far: as long as commands are pending, every pending
event may be signalled next and `wait_for` then continues, resuming only the signalled command (all others stay exactly
as they were); and nothing is pending any more exactly when as many events were signalled as the commands perform I/Os
when run alone, in total. So every schedule ends, after exactly that many events. -/
theorem C14 (M : Machine G σ V E T) (hio : ∀ t s e, (M.await t s).2 ≠ .error e) (gen : Nat → G) (world : Nat → σ)
    (cmds : List Nat) (hn : cmds.Nodup) (tr : Nat → List (Nat × Yld G V E T)) (r : Nat → Option (Yld G V E T))
    (s : Nat → σ) (h : RunsAlone M gen world cmds tr r s) :
    (∃ st, Reach M gen world cmds 0 st) ∧
    ∀ n st, Reach M gen world cmds n st →
      (∀ k, k < st.coroutines.length → ∃ c st', Step M st k c st') ∧
      (∀ k c st', Step M st k c st' → (∃ cfg, st.coroutines[k]? = some (c, cfg)) ∧
        ∀ x, x ≠ c → Dict.get st'.coroutines x = Dict.get st.coroutines x ∧
          Dict.get st'.results x = Dict.get st.results x) ∧
      n ≤ (cmds.map (fun c => ios (tr c))).foldr (· + ·) 0 ∧
      (st.coroutines = [] ↔ n = (cmds.map (fun c => ios (tr c))).foldr (· + ·) 0) := by
  have hrun := runsAlone_ioRun hio h
  constructor
  · obtain ⟨hk, ha⟩ := initial_inv gen world (fun c => ios (tr c)) cmds hn hrun
    obtain ⟨st, hst⟩ := forLoop_progress cmds hn (by rw [hk]; exact hn) ha (by intro c hc; rw [hk]; exact hc)
    exact ⟨st, .first hst⟩
  · intro n st hr
    obtain ⟨m, hm, hi⟩ := reach_inv (r := r) (s := s) (ni := fun c => ios (tr c)) hn hrun hr
    refine ⟨fun k hk => step_progress hi hk, ?_, by omega, ?_⟩
    · intro k c st' hs
      refine ⟨?_, (step_sound hi hs).choose_spec.2.2⟩
      obtain ⟨d, hw, _⟩ := hs
      obtain ⟨hk, _⟩ := hw
      exact ⟨_, hk⟩
    · constructor
      · intro hd
        have hall := hi.all
        rw [hd] at hall
        cases hall
        omega
      · intro hn'
        have : m = 0 := by omega
        subst this
        exact All.zero M r s hi.all rfl

/-- Two commands, each performing one I/O whose result it then yields, meet the hypotheses. -/
def ioDemo : Machine Nat Nat Nat String Unit where
  none := 0
  resume g i s :=
    match g, i with
    | 0, _ => (s, .yields (.tok ()) 1)
    | 1, .send v => (s, .yields (.plain v) 2)
    | _, _ => (s, .ret)
  await _ s := (s + 1, .ok (.send (10 * s)))

example : RunsAlone ioDemo (fun _ => 0) (fun c => c) [5, 6] (fun c => [(0, .tok ()), (0, .plain (10 * c))])
    (fun c => some (.plain (10 * c))) (fun c => c + 1) :=
  fun c _ => ⟨_, .step rfl (.step rfl (.step rfl (.refl _)))⟩

end Verif.Reactor
