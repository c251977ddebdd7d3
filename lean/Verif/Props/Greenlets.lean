import Verif.Greenlets
import Verif.Props.Reactor
import Verif.Props.Queue
set_option linter.unusedSimpArgs false
set_option linter.unusedSectionVars false
/-!
# C68: greenlets sharing an executer
-/

namespace Verif.Greenlets
open Verif.Executer
open Verif.Reactor (dict_get_set dict_get_erase dict_keys_erase)
open Verif.Platform.Linux (perm_eraseIdx map_eraseIdx)

variable {P X : Type}

/-- The response a greenlet has read but not processed: packet number, call, outcome. -/
def held : Phase P X → Option (Nat × Nat × Outcome P X)
  | .holding _ o pid t' => some (pid, t', o)
  | _ => none

/-- The call a greenlet is in. -/
def inside : Phase P X → Option Nat
  | .idle => none
  | .loop t => some t
  | .reading t => some t
  | .holding t _ _ _ => some t

/-- The packet number the next command gets is not in use. -/
def Fresh (s : State P X) : Prop := s.ex.index ∉ Dict.keys s.ex.pending

/-- Histories in which no packet number is given to a command while another outstanding one has it (no call begins with a used packet number, unless the queue is full). -/
inductive Calm (patched : Bool) (fails : PyErr → Prop) : State P X → State P X → Prop
  | refl (s : State P X) : Calm patched fails s s
  | step {s s' s'' : State P X} : Step patched fails s s' → (s.ex.pending.length < s.ex.maxq → s'.next ≠ s.next → Fresh s) → Calm patched fails s' s'' → Calm patched fails s s''

/-- Answered and not processed. -/
def answered (s : State P X) : List (Nat × Nat × Outcome P X) := s.ready.map (fun e => (e.2.1, e.2.2, e.1)) ++ s.phases.filterMap held

/-- Sent and not processed: packet number and call. -/
def flight (s : State P X) : List (Nat × Nat) := s.waiting ++ (answered s).map (fun e => (e.1, e.2.1))

structure Inv (fails : PyErr → Prop) (s : State P X) : Prop where
  keys : ((flight s).map Prod.fst).Perm (Dict.keys s.ex.pending)
  nodup : ((flight s).map Prod.fst).Nodup
  get : ∀ e ∈ flight s, Dict.get s.ex.pending e.1 = some (e, some e.2)
  places : ((flight s).map Prod.snd ++ s.results.map Prod.fst).Perm s.accepted
  once : s.accepted.Nodup
  old : ∀ t ∈ s.accepted, t < s.next
  answers : ((answered s).map (fun e => e.2.1) ++ s.results.map Prod.fst).Perm (s.answers.map Prod.fst)
  said : ∀ e ∈ answered s, (e.2.1, e.2.2) ∈ s.answers
  told : ∀ e ∈ s.results, ∃ o, (e.1, o) ∈ s.answers ∧ e.2 = expectArgs o
  inCall : ∀ (g : Nat) (p : Phase P X) (t : Nat), s.phases[g]? = some p → inside p = some t → t ∈ s.accepted
  log : ∀ e ∈ s.log, ((e.2.2 = .raised .nameError ∨ ∃ x, fails x ∧ e.2.2 = .raised x) ∧ e.2.1 ∉ s.accepted ∧ e.2.1 < s.next) ∨ (e.2.2 = .raised .ioError ∧ e.2.1 ∈ s.accepted) ∨
    ∃ o, (e.2.1, o) ∈ s.answers ∧ e.2.2 = finalOf (expectArgs o)

theorem cbArgs_eq {D E : Type} (o : Outcome D E) : cbArgs o = expectArgs o := by cases o <;> rfl

theorem set_perm {α : Type} {l : List α} {i : Nat} {x : α} (h : l[i]? = some x) (y : α) : (l.set i y).Perm (y :: l.eraseIdx i) := by
  induction l generalizing i with
  | nil => simp at h
  | cons z l ih =>
    cases i with
    | zero => simp
    | succ i =>
      simp only [List.getElem?_cons_succ] at h
      simp only [List.set_cons_succ, List.eraseIdx_cons_succ]
      exact ((ih h).cons z).trans (List.Perm.swap y z _)

/-- The held responses when a greenlet that held none goes on to hold none. -/
theorem held_none {l : List (Phase P X)} {g : Nat} {p : Phase P X} (h : l[g]? = some p) (q : Phase P X) (hp : held p = none) (hq : held q = none) :
    ((l.set g q).filterMap held).Perm (l.filterMap held) := by
  have h1 := (set_perm h q).filterMap held
  have h2 := (perm_eraseIdx h).filterMap held
  simp only [List.filterMap_cons, hp, hq] at h1 h2
  exact h1.trans h2.symm

theorem held_take {l : List (Phase P X)} {g : Nat} {p : Phase P X} (h : l[g]? = some p) (q : Phase P X) {x : Nat × Nat × Outcome P X} (hp : held p = none)
    (hq : held q = some x) : ((l.set g q).filterMap held).Perm (x :: l.filterMap held) := by
  have h1 := (set_perm h q).filterMap held
  have h2 := (perm_eraseIdx h).filterMap held
  simp only [List.filterMap_cons, hp, hq] at h1 h2
  exact h1.trans (h2.symm.cons x)

theorem held_drop {l : List (Phase P X)} {g : Nat} {p : Phase P X} (h : l[g]? = some p) (q : Phase P X) {x : Nat × Nat × Outcome P X} (hp : held p = some x)
    (hq : held q = none) : (l.filterMap held).Perm (x :: (l.set g q).filterMap held) := by
  have h1 := (set_perm h q).filterMap held
  have h2 := (perm_eraseIdx h).filterMap held
  simp only [List.filterMap_cons, hp, hq] at h1 h2
  exact h2.trans (h1.symm.cons x)

theorem inCall_set {l : List (Phase P X)} {acc : List Nat} {g : Nat} {q : Phase P X}
    (h : ∀ (g : Nat) (p : Phase P X) (t : Nat), l[g]? = some p → inside p = some t → t ∈ acc) (hq : ∀ t, inside q = some t → t ∈ acc) :
    ∀ (g' : Nat) (p : Phase P X) (t : Nat), (l.set g q)[g']? = some p → inside p = some t → t ∈ acc := by
  intro g' p t hg hp
  rw [List.getElem?_set] at hg
  split at hg
  · split at hg
    · simp only [Option.some.injEq] at hg; subst hg; exact hq t hp
    · cases hg
  · exact h g' p t hg hp

theorem init_held (n : Nat) : (List.replicate n (Phase.idle : Phase P X)).filterMap held = [] := by
  induction n with
  | zero => rfl
  | succ n ih => rw [List.replicate_succ, List.filterMap_cons]; exact ih

theorem inv_init {fails : PyErr → Prop} (limit n : Nat) : Inv fails (State.init limit n : State P X) := by
  have hf : flight (State.init limit n : State P X) = [] := by simp [flight, answered, State.init, init_held]
  have ha : answered (State.init limit n : State P X) = [] := by simp [answered, State.init, init_held]
  refine ⟨?_, ?_, ?_, ?_, ?_, ?_, ?_, ?_, ?_, ?_, ?_⟩
  · rw [hf]; exact List.Perm.refl _
  · rw [hf]; exact List.nodup_nil
  · rw [hf]; intro e he; cases he
  · rw [hf]; exact List.Perm.refl _
  · exact List.nodup_nil
  · intro t ht; cases ht
  · rw [ha]; exact List.Perm.refl _
  · rw [ha]; intro e he; cases he
  · intro e he; cases he
  · intro g p t hg hp
    simp only [State.init, List.getElem?_replicate] at hg
    split at hg
    · simp only [Option.some.injEq] at hg; subst hg; cases hp
    · cases hg
  · intro e he; cases he

/-- Greenlets that only move on within their calls. -/
theorem inv_move {fails : PyErr → Prop} {s s' : State P X} (h : Inv fails s) (hex : s'.ex = s.ex) (hw : s'.waiting = s.waiting) (ha : (answered s').Perm (answered s))
    (hnext : s'.next = s.next) (hres : s'.results = s.results) (hacc : s'.accepted = s.accepted) (hans : s'.answers = s.answers)
    (hin : ∀ (g : Nat) (p : Phase P X) (t : Nat), s'.phases[g]? = some p → inside p = some t → t ∈ s.accepted)
    (hlog : ∀ e ∈ s'.log, ((e.2.2 = .raised .nameError ∨ ∃ x, fails x ∧ e.2.2 = .raised x) ∧ e.2.1 ∉ s.accepted ∧ e.2.1 < s.next) ∨ (e.2.2 = .raised .ioError ∧ e.2.1 ∈ s.accepted) ∨
      ∃ o, (e.2.1, o) ∈ s.answers ∧ e.2.2 = finalOf (expectArgs o)) : Inv fails s' := by
  have hf : (flight s').Perm (flight s) := by
    unfold flight
    rw [hw]
    exact List.Perm.append_left _ (ha.map _)
  refine ⟨?_, ?_, ?_, ?_, ?_, ?_, ?_, ?_, ?_, ?_, ?_⟩
  · rw [hex]; exact (hf.map _).trans h.keys
  · exact (hf.map Prod.fst).symm.nodup h.nodup
  · rw [hex]; intro e he; exact h.get e (hf.mem_iff.1 he)
  · rw [hres, hacc]; exact ((hf.map _).append_right _).trans h.places
  · rw [hacc]; exact h.once
  · rw [hacc, hnext]; exact h.old
  · rw [hres, hans]; exact ((ha.map _).append_right _).trans h.answers
  · rw [hans]; intro e he; exact h.said e (ha.mem_iff.1 he)
  · rw [hres, hans]; exact h.told
  · rw [hacc]; exact hin
  · rw [hacc, hans, hnext]; exact hlog

theorem inv_step {patched : Bool} {fails : PyErr → Prop} {s s' : State P X} (h : Inv fails s) (hs : Step patched fails s s') (hfresh : s.ex.pending.length < s.ex.maxq → s'.next ≠ s.next → Fresh s) : Inv fails s' := by
  cases hs with
  | @call g hg hr hout =>
    have hfull : ¬ s.ex.pending.length ≥ s.ex.maxq := by
      intro hf
      simp [sent, Executer.send, nextPacketIndex, hf] at hout
    have hfresh : Fresh s := hfresh (by omega) (by simp)
    have hsent : sent s = ⟨.ok (), { s.ex with index := (s.ex.index + 1) % s.ex.maxq, pending := s.ex.pending ++ [(s.ex.index, ((s.ex.index, s.next), some s.next))] }, s.waiting ++ [(s.ex.index, s.next)]⟩ := by
      simp only [sent, Executer.send, nextPacketIndex, hfull, if_false, osSend, if_true]
      rw [Dict.set_fresh _ _ _ hfresh]
    have ha : (answered { s with ex := (sent s).st, waiting := (sent s).os, next := s.next + 1, phases := s.phases.set g (.loop s.next), accepted := s.accepted ++ [s.next] }).Perm (answered s) := List.Perm.append_left _ (held_none hg (.loop s.next) rfl rfl)
    have hf : (flight { s with ex := (sent s).st, waiting := (sent s).os, next := s.next + 1, phases := s.phases.set g (.loop s.next), accepted := s.accepted ++ [s.next] }).Perm ((s.ex.index, s.next) :: flight s) := by
      unfold flight
      refine (List.Perm.append_left _ (ha.map _)).trans ?_
      simp only [hsent, List.append_assoc, List.singleton_append]
      exact List.perm_middle
    have hnot : s.ex.index ∉ (flight s).map Prod.fst := fun hm => hfresh (h.keys.mem_iff.1 hm)
    have hnew : s.next ∉ s.accepted := fun hm => Nat.lt_irrefl _ (h.old _ hm)
    refine ⟨?_, ?_, ?_, ?_, ?_, ?_, ?_, ?_, ?_, ?_, ?_⟩
    · refine (hf.map _).trans ?_
      simp only [hsent, List.map_cons, Dict.keys, List.map_append, List.map_nil]
      exact (h.keys.cons _).trans (List.perm_append_comm (l₁ := [s.ex.index]))
    · exact (hf.map Prod.fst).symm.nodup (by simp only [List.map_cons, List.nodup_cons]; exact ⟨hnot, h.nodup⟩)
    · intro e he
      simp only [hsent]
      rw [← Dict.set_fresh _ _ _ hfresh, dict_get_set]
      replace he := hf.mem_iff.1 he
      simp only [List.mem_cons] at he
      rcases he with rfl | he
      · rw [if_pos rfl]
      · rw [if_neg (fun (heq : s.ex.index = e.1) => hnot (heq ▸ List.mem_map_of_mem he))]
        exact h.get e he
    · refine ((hf.map Prod.snd).append_right _).trans ?_
      simp only [List.map_cons, List.cons_append]
      exact (h.places.cons _).trans (List.perm_append_comm (l₁ := [s.next]))
    · show (s.accepted ++ [s.next]).Nodup
      rw [List.nodup_append]
      exact ⟨h.once, by simp, by intro x hx y hy e; simp only [List.mem_singleton] at hy; exact hnew (hy ▸ e ▸ hx)⟩
    · intro t ht
      simp only [List.mem_append, List.mem_singleton] at ht
      show t < s.next + 1
      rcases ht with ht | rfl
      · exact Nat.lt_succ_of_lt (h.old t ht)
      · exact Nat.lt_succ_self _
    · exact ((ha.map _).append_right _).trans h.answers
    · intro e he; exact h.said e (ha.mem_iff.1 he)
    · exact h.told
    · refine inCall_set (acc := s.accepted ++ [s.next]) (fun g p t hg hp => List.mem_append_left _ (h.inCall g p t hg hp)) ?_
      intro t ht
      simp only [inside, Option.some.injEq] at ht
      subst ht; simp
    · intro e he
      rcases h.log e he with ⟨h1, h2, h3⟩ | ⟨h1, h2⟩ | h1
      · refine .inl ⟨h1, ?_, Nat.lt_succ_of_lt h3⟩
        simp only [List.mem_append, List.mem_singleton, not_or]
        exact ⟨h2, by omega⟩
      · exact .inr (.inl ⟨h1, List.mem_append_left _ h2⟩)
      · exact .inr (.inr h1)
  | @refused g e hg hr hout =>
    have hsent : sent s = ⟨.error .nameError, s.ex, s.waiting⟩ := by
      by_cases hfull : s.ex.pending.length ≥ s.ex.maxq
      · simp only [sent, Executer.send, nextPacketIndex, hfull, if_true]
      · simp [sent, Executer.send, nextPacketIndex, hfull, osSend] at hout
    have he : e = .nameError := by rw [hsent] at hout; simpa using hout.symm
    subst he
    rw [hsent]
    refine ⟨h.keys, h.nodup, h.get, h.places, h.once, fun t ht => Nat.lt_succ_of_lt (h.old t ht), h.answers, h.said, h.told, h.inCall, ?_⟩
    intro e he
    simp only [List.mem_append, List.mem_singleton] at he
    rcases he with he | rfl
    · rcases h.log e he with ⟨h1, h2, h3⟩ | h1
      · exact .inl ⟨h1, h2, Nat.lt_succ_of_lt h3⟩
      · exact .inr h1
    · exact .inl ⟨.inl rfl, fun hm => Nat.lt_irrefl _ (h.old _ hm), Nat.lt_succ_self _⟩
  | @unsent g e e' hg hr hfe hout =>
    have hst : (unsent e s).out = .error e' → (e' = .nameError ∨ fails e') ∧ (unsent e s).st.pending = s.ex.pending ∧ (unsent e s).os = s.waiting := by
      by_cases hfull : s.ex.pending.length ≥ s.ex.maxq
      · simp only [unsent, Executer.send, nextPacketIndex, hfull, if_true]
        intro he
        simp only [Except.error.injEq] at he
        exact ⟨.inl he.symm, trivial, trivial⟩
      · have hfr : Fresh s := hfresh (by omega) (by simp)
        simp only [unsent, Executer.send, nextPacketIndex, hfull, if_false]
        intro he
        simp only [Except.error.injEq] at he
        refine ⟨.inr (he ▸ hfe), ?_, trivial⟩
        rw [Dict.set_fresh _ _ _ hfr, Dict.erase_append_fresh _ _ _ hfr]
    obtain ⟨hx, hp, hw⟩ := hst hout
    rw [hw]
    refine ⟨?_, h.nodup, ?_, h.places, h.once, fun t ht => Nat.lt_succ_of_lt (h.old t ht), h.answers, h.said, h.told, h.inCall, ?_⟩
    · simp only [hp]; exact h.keys
    · simp only [hp]; exact h.get
    intro e he
    simp only [List.mem_append, List.mem_singleton] at he
    rcases he with he | rfl
    · rcases h.log e he with ⟨h1, h2, h3⟩ | h1
      · exact .inl ⟨h1, h2, Nat.lt_succ_of_lt h3⟩
      · exact .inr h1
    · refine .inl ⟨?_, fun hm => Nat.lt_irrefl _ (h.old _ hm), Nat.lt_succ_self _⟩
      rcases hx with rfl | hx
      · exact .inl rfl
      · exact .inr ⟨_, hx, rfl⟩
  | @finish g t a hg hr hres =>
    refine inv_move h rfl rfl (List.Perm.append_left _ (held_none hg .idle rfl rfl)) rfl rfl rfl rfl
      (inCall_set h.inCall (by intro t ht; cases ht)) ?_
    intro e he
    simp only [List.mem_append, List.mem_singleton] at he
    rcases he with he | rfl
    · exact h.log e he
    · obtain ⟨o, ho, ha⟩ := h.told _ hres
      simp only at ha ho
      exact .inr (.inr ⟨o, ho, by rw [ha]⟩)
  | @poll g t hg hr hres =>
    refine inv_move h rfl rfl (List.Perm.append_left _ (held_none hg (.reading t) rfl rfl)) rfl rfl rfl rfl
      (inCall_set h.inCall ?_) h.log
    intro t' ht
    exact h.inCall g _ t' hg ht
  | @read g t i o pid t' hg hr hready =>
    refine inv_move h rfl rfl ?_ rfl rfl rfl rfl (inCall_set h.inCall ?_) h.log
    · unfold answered
      simp only
      refine (List.Perm.append_left _ (held_take hg (.holding t o pid t') (x := (pid, t', o)) rfl rfl)).trans ?_
      refine List.perm_middle.trans ?_
      refine List.Perm.trans ?_ (((perm_eraseIdx hready).map (fun e => (e.2.1, e.2.2, e.1))).append_right _).symm
      exact List.Perm.refl _
    · intro t' ht
      exact h.inCall g _ t' hg ht
  | @timeout g t hg hr hready =>
    refine inv_move h rfl rfl (List.Perm.append_left _ (held_none hg .idle rfl rfl)) rfl rfl rfl rfl
      (inCall_set h.inCall (by intro t ht; cases ht)) ?_
    intro e he
    simp only [List.mem_append, List.mem_singleton] at he
    rcases he with he | rfl
    · exact h.log e he
    · exact .inr (.inl ⟨rfl, h.inCall g _ t hg rfl⟩)
  | @handle g t o pid t' k a hg hr hfired =>
    have hdrop := held_drop hg (.loop t) (x := (pid, t', o)) rfl rfl
    have hmem : (pid, t', o) ∈ answered s := List.mem_append_right _ (hdrop.mem_iff.2 List.mem_cons_self)
    have hmemf : (pid, t') ∈ flight s := List.mem_append_right _ (List.mem_map.2 ⟨_, hmem, rfl⟩)
    have hget := h.get _ hmemf
    simp only at hget
    have hh : handled s o pid = ⟨.ok true, some (t', cbArgs o), { s.ex with pending := Dict.erase s.ex.pending pid }, ()⟩ := by
      simp only [handled, process, hget]
    rw [hh] at hfired
    simp only [Option.some.injEq, Prod.mk.injEq] at hfired
    obtain ⟨rfl, rfl⟩ := hfired
    have ha : (answered s).Perm ((pid, t', o) :: answered { s with ex := (handled s o pid).st, results := s.results ++ [(t', cbArgs o)], phases := s.phases.set g (.loop t) }) := by
      unfold answered
      exact (List.Perm.append_left _ hdrop).trans List.perm_middle
    have hf : (flight s).Perm ((pid, t') :: flight { s with ex := (handled s o pid).st, results := s.results ++ [(t', cbArgs o)], phases := s.phases.set g (.loop t) }) := by
      unfold flight
      refine (List.Perm.append_left _ (ha.map _)).trans ?_
      exact List.perm_middle
    have hkn : (Dict.keys s.ex.pending).Nodup := h.keys.nodup h.nodup
    have hnd := (hf.map Prod.fst).nodup h.nodup
    simp only [List.map_cons, List.nodup_cons] at hnd
    refine ⟨?_, hnd.2, ?_, ?_, h.once, h.old, ?_, ?_, ?_, ?_, h.log⟩
    · simp only [hh]
      rw [dict_keys_erase _ _ hkn]
      have := (((hf.map Prod.fst).symm.trans h.keys).erase pid)
      simp only [List.map_cons, List.erase_cons_head, hh] at this
      exact this
    · intro e he
      simp only [hh]
      rw [dict_get_erase _ _ _ hkn, if_neg (fun (heq : pid = e.1) => hnd.1 (heq ▸ List.mem_map_of_mem he))]
      exact h.get e (hf.mem_iff.2 (List.mem_cons_of_mem _ he))
    · refine List.Perm.trans ?_ h.places
      refine List.Perm.trans ?_ ((hf.map Prod.snd).append_right _).symm
      simp only [List.map_append, List.map_cons, List.map_nil, List.cons_append, ← List.append_assoc]
      exact (List.perm_append_comm (l₂ := [t']))
    · refine List.Perm.trans ?_ h.answers
      refine List.Perm.trans ?_ ((ha.map (fun e => e.2.1)).append_right _).symm
      simp only [List.map_append, List.map_cons, List.map_nil, List.cons_append, ← List.append_assoc]
      exact (List.perm_append_comm (l₂ := [t']))
    · intro e he; exact h.said e (ha.mem_iff.2 (List.mem_cons_of_mem _ he))
    · intro e he
      simp only [List.mem_append, List.mem_singleton] at he
      rcases he with he | rfl
      · exact h.told e he
      · exact ⟨o, h.said _ hmem, cbArgs_eq o⟩
    · refine inCall_set h.inCall ?_
      intro t' ht
      exact h.inCall g _ t' hg ht
  | @stray g t o pid t' e hg hr hout =>
    have hdrop := held_drop hg .idle (x := (pid, t', o)) rfl rfl
    have hmem : (pid, t', o) ∈ answered s := List.mem_append_right _ (hdrop.mem_iff.2 List.mem_cons_self)
    have hmemf : (pid, t') ∈ flight s := List.mem_append_right _ (List.mem_map.2 ⟨_, hmem, rfl⟩)
    have hget := h.get _ hmemf
    simp only at hget
    simp [handled, process, hget] at hout
  | @answer i pid t o hi =>
    have hperm := perm_eraseIdx hi
    have ha : (answered { s with waiting := s.waiting.eraseIdx i, ready := s.ready ++ [(o, pid, t)], answers := s.answers ++ [(t, o)] }).Perm
        ((pid, t, o) :: answered s) := by
      unfold answered
      simp only [List.map_append, List.map_cons, List.map_nil, List.append_assoc, List.singleton_append]
      exact List.perm_middle
    have hf : (flight { s with waiting := s.waiting.eraseIdx i, ready := s.ready ++ [(o, pid, t)], answers := s.answers ++ [(t, o)] }).Perm (flight s) := by
      unfold flight
      refine (List.Perm.append_left _ (ha.map _)).trans ?_
      simp only [List.map_cons]
      exact List.perm_middle.trans (hperm.append_right _).symm
    refine ⟨(hf.map _).trans h.keys, (hf.map Prod.fst).symm.nodup h.nodup, fun e he => h.get e (hf.mem_iff.1 he),
      ((hf.map _).append_right _).trans h.places, h.once, h.old, ?_, ?_, ?_, h.inCall, ?_⟩
    · refine ((ha.map _).append_right _).trans ?_
      simp only [List.map_cons, List.cons_append, List.map_append, List.map_nil]
      exact (h.answers.cons t).trans (List.perm_append_comm (l₁ := [t]))
    · intro e he
      replace he := ha.mem_iff.1 he
      simp only [List.mem_cons] at he
      rcases he with rfl | he
      · simp
      · exact List.mem_append_left _ (h.said e he)
    · intro e he
      obtain ⟨o', ho, heq⟩ := h.told e he
      exact ⟨o', List.mem_append_left _ ho, heq⟩
    · intro e he
      rcases h.log e he with h1 | h1 | ⟨o', ho, heq⟩
      · exact .inl h1
      · exact .inr (.inl h1)
      · exact .inr (.inr ⟨o', List.mem_append_left _ ho, heq⟩)

theorem inv_calm {patched : Bool} {fails : PyErr → Prop} {s s' : State P X} (h : Inv fails s) (hs : Calm patched fails s s') : Inv fails s' := by
  induction hs with
  | refl s => exact h
  | step h1 h2 _ ih => exact ih (inv_step h h1 h2)

/-- What a greenlet should be told when the device answers its command. -/
def due : Outcome P X → Final P X
  | .data d => .returned (some d)
  | .exc e => .failed e

theorem final_due (o : Outcome P X) : finalOf (expectArgs o) = due o := by cases o <;> rfl

/-- A place where the command of call `t` can be. -/
inductive Place (s : State P X) (t : Nat) : Prop
  | atDevice : t ∈ s.waiting.map Prod.snd → Place s t
  | unread : (∃ o pid, (o, pid, t) ∈ s.ready) → Place s t
  | heldBy (g t' : Nat) (o : Outcome P X) (pid : Nat) : s.phases[g]? = some (.holding t' o pid t) → Place s t
  | delivered : (∃ a, (t, a) ∈ s.results) → Place s t

theorem held_mem {l : List (Phase P X)} {x : Nat × Nat × Outcome P X} (h : x ∈ l.filterMap held) :
    ∃ (g t : Nat), l[g]? = some (Phase.holding t x.2.2 x.1 x.2.1) := by
  obtain ⟨p, hp, hx⟩ := List.mem_filterMap.1 h
  obtain ⟨g, hg⟩ := List.mem_iff_getElem?.1 hp
  cases p with
  | holding t o pid t' => simp only [held, Option.some.injEq] at hx; subst hx; exact ⟨g, t, hg⟩
  | _ => cases hx

theorem place_of {fails : PyErr → Prop} {s : State P X} (h : Inv fails s) {t : Nat} (ht : t ∈ s.accepted) : Place s t := by
  have := h.places.mem_iff.2 ht
  simp only [flight, List.map_append, List.mem_append] at this
  rcases this with (h1 | h1) | h1
  · exact .atDevice h1
  · simp only [answered, List.map_append, List.mem_append, List.map_map, List.mem_map, Function.comp_def] at h1
    rcases h1 with ⟨e, he, rfl⟩ | ⟨e, he, rfl⟩
    · exact .unread ⟨e.1, e.2.1, he⟩
    · obtain ⟨g, t, hg⟩ := held_mem he
      exact .heldBy g t _ _ hg
  · obtain ⟨e, he, rfl⟩ := List.mem_map.1 h1
    exact .delivered ⟨e.2, he⟩

/-- **C68 (partial: calls that time out are allowed for; `C68_false` shows they occur with every command answered; packet numbers must not come
round to commands still outstanding, cf. C14).** Any number of greenlets use one executer, switching wherever the executer lets them. However they
are scheduled and in whatever order the device answers: a call that ends was refused without anything having been sent (full queue, or the write to the driver
raised), or timed out, or ends with what the device answered to the command of this very call. No command is answered twice, none disappears: at every moment
each command sent is at the device, unread, in the hands of a greenlet or delivered, and in one of these places only. -/
theorem C68_partial (patched : Bool) (fails : PyErr → Prop) (limit n : Nat) (s : State P X) (hs : Calm patched fails (State.init limit n) s) :
    (∀ (g t : Nat) (f : Final P X), (g, t, f) ∈ s.log →
      ((f = .raised .nameError ∨ ∃ e, fails e ∧ f = .raised e) ∧ t ∉ s.accepted) ∨ (f = .raised .ioError ∧ t ∈ s.accepted) ∨ ∃ o, (t, o) ∈ s.answers ∧ f = due o) ∧
    (s.answers.map Prod.fst).Nodup ∧ (∀ t ∈ s.answers.map Prod.fst, t ∈ s.accepted) ∧
    (∀ t ∈ s.accepted, Place s t) ∧
    (s.waiting.map Prod.snd ++ s.ready.map (fun e => e.2.2) ++ (s.phases.filterMap held).map (fun e => e.2.1) ++ s.results.map Prod.fst).Nodup := by
  have h := inv_calm (inv_init limit n) hs
  have hn : ((flight s).map Prod.snd ++ s.results.map Prod.fst).Nodup := h.places.symm.nodup h.once
  have hsub : ((answered s).map (fun e => e.2.1) ++ s.results.map Prod.fst).Sublist ((flight s).map Prod.snd ++ s.results.map Prod.fst) := by
    refine List.Sublist.append ?_ (List.Sublist.refl _)
    simp only [flight, List.map_append, List.map_map, Function.comp_def]
    exact List.sublist_append_right _ _
  refine ⟨?_, ?_, ?_, fun t ht => place_of h ht, ?_⟩
  · intro g t f hf
    rcases h.log _ hf with ⟨h1, h2, _⟩ | h1 | ⟨o, ho, h1⟩
    · exact .inl ⟨h1, h2⟩
    · exact .inr (.inl h1)
    · exact .inr (.inr ⟨o, ho, by rw [← final_due]; exact h1⟩)
  · exact h.answers.nodup (hsub.nodup hn)
  · intro t ht
    exact h.places.mem_iff.1 (hsub.subset (h.answers.mem_iff.2 ht))
  · simp only [flight, answered, List.map_append, List.map_map, Function.comp_def, List.append_assoc] at hn ⊢
    exact hn

theorem sent_maxq (s : State P X) : (sent s).st.maxq = s.ex.maxq := by
  by_cases hfull : s.ex.pending.length ≥ s.ex.maxq
  · simp only [sent, Executer.send, nextPacketIndex, hfull, if_true]
  · simp only [sent, Executer.send, nextPacketIndex, hfull, if_false, osSend, if_true]

theorem unsent_maxq (e : PyErr) (s : State P X) : (unsent e s).st.maxq = s.ex.maxq := by
  by_cases hfull : s.ex.pending.length ≥ s.ex.maxq
  · simp only [unsent, Executer.send, nextPacketIndex, hfull, if_true]
  · simp only [unsent, Executer.send, nextPacketIndex, hfull, if_false]

theorem maxq_calm {patched : Bool} {fails : PyErr → Prop} {s s' : State P X} (hs : Calm patched fails s s') : s'.ex.maxq = s.ex.maxq := by
  induction hs with
  | refl => rfl
  | step h1 _ _ ih =>
    rw [ih]
    cases h1 with
    | call hg hr hout => exact sent_maxq _
    | refused hg hr hout => exact sent_maxq _
    | unsent hg hr hf hout => exact unsent_maxq _ _
    | handle hg hr hf => simp only [handled, process]; split <;> (try split) <;> rfl
    | stray hg hr hf => simp only [handled, process]; split <;> (try split) <;> rfl
    | _ => rfl

/-- **C68 (calls while the queue is full).** A greenlet that begins a call while as many commands are outstanding as the queue holds, read but
unprocessed ones included, gets a `NameError` (the name `AsiRequestQueueFullError` is missing from `__init__.py`) and nothing is sent; with fewer
outstanding the command is sent. In particular with a queue of one command (the ioctl executer's default) any call made while another greenlet is
between its two switches fails. -/
theorem C68_queue_full (patched : Bool) (fails : PyErr → Prop) (limit n : Nat) (s : State P X) (hs : Calm patched fails (State.init limit n) s) :
    ((limit ≤ s.waiting.length + s.ready.length + (s.phases.filterMap held).length) → (sent s).out = .error .nameError ∧ (sent s).os = s.waiting) ∧
    ((s.waiting.length + s.ready.length + (s.phases.filterMap held).length < limit) →
      (sent s).out = .ok () ∧ (sent s).os = s.waiting ++ [(s.ex.index, s.next)]) := by
  have h := inv_calm (inv_init limit n) hs
  have hm : s.ex.maxq = limit := (maxq_calm hs).trans rfl
  have hl : s.ex.pending.length = s.waiting.length + s.ready.length + (s.phases.filterMap held).length := by
    have := h.keys.length_eq
    simp only [List.length_map, Dict.keys, flight, answered, List.length_append] at this
    omega
  constructor
  · intro hf
    have : s.ex.pending.length ≥ s.ex.maxq := by omega
    simp only [sent, Executer.send, nextPacketIndex, this, if_true, and_self]
  · intro hf
    have : ¬ s.ex.pending.length ≥ s.ex.maxq := by omega
    simp only [sent, Executer.send, nextPacketIndex, this, if_false, osSend, if_true, and_self]

/-- **C68 (the driver does not take a command).** A call whose write raises `e` ends with `e` (a `NameError` when the queue is full); the commands outstanding are as they were, at the
device and in the executer. -/
theorem C68_unsent (patched : Bool) (fails : PyErr → Prop) (limit n : Nat) (s : State P X) (hs : Calm patched fails (State.init limit n) s) (e : PyErr) (g : Nat)
    (hg : s.phases[g]? = some .idle) (hr : Runs patched s g) (he : fails e)
    (hfresh : s.waiting.length + s.ready.length + (s.phases.filterMap held).length < limit → Fresh s) :
    ∃ s', Step patched fails s s' ∧ s'.ex.pending = s.ex.pending ∧ s'.waiting = s.waiting ∧ s'.ready = s.ready ∧ s'.results = s.results ∧ s'.phases = s.phases ∧
      s'.log = s.log ++ [(g, s.next, .raised (if s.waiting.length + s.ready.length + (s.phases.filterMap held).length < limit then e else .nameError))] := by
  have h := inv_calm (inv_init limit n) hs
  have hm : s.ex.maxq = limit := (maxq_calm hs).trans rfl
  have hl : s.ex.pending.length = s.waiting.length + s.ready.length + (s.phases.filterMap held).length := by
    have := h.keys.length_eq
    simp only [List.length_map, Dict.keys, flight, answered, List.length_append] at this
    omega
  rw [← hl, ← hm] at hfresh ⊢
  by_cases hfull : s.ex.pending.length ≥ s.ex.maxq
  · have hu : unsent e s = ⟨.error .nameError, s.ex, s.waiting⟩ := by
      simp only [unsent, Executer.send, nextPacketIndex, hfull, if_true]
    have ho : (unsent e s).out = .error .nameError := by rw [hu]
    refine ⟨_, Step.unsent hg hr he ho, ?_⟩
    rw [hu, if_neg (by omega)]
    exact ⟨rfl, rfl, rfl, rfl, rfl, rfl⟩
  · have hf := hfresh (by omega)
    have hu : unsent e s = ⟨.error e, { s.ex with index := (s.ex.index + 1) % s.ex.maxq }, s.waiting⟩ := by
      simp only [unsent, Executer.send, nextPacketIndex, hfull, if_false]
      rw [Dict.set_fresh _ _ _ hf, Dict.erase_append_fresh _ _ _ hf]
    have ho : (unsent e s).out = .error e := by rw [hu]
    refine ⟨_, Step.unsent hg hr he ho, ?_⟩
    rw [hu, if_pos (by omega)]
    exact ⟨rfl, rfl, rfl, rfl, rfl, rfl⟩

/-- One greenlet at a time is in a call. -/
def Solo (s : State P X) : Prop :=
  ∀ (g g' : Nat) (p p' : Phase P X), s.phases[g]? = some p → s.phases[g']? = some p' → inside p ≠ none → inside p' ≠ none → g = g'

/-- Histories in which one greenlet at a time is in a call and packet numbers are fresh. -/
inductive Alone (patched : Bool) (fails : PyErr → Prop) : State P X → State P X → Prop
  | refl (s : State P X) : Solo s → Alone patched fails s s
  | step {s s' s'' : State P X} : Solo s → Step patched fails s s' → (s.ex.pending.length < s.ex.maxq → s'.next ≠ s.next → Fresh s) → Alone patched fails s' s'' → Alone patched fails s s''

theorem Alone.calm {patched : Bool} {fails : PyErr → Prop} {s s' : State P X} (h : Alone patched fails s s') : Calm patched fails s s' := by
  induction h with
  | refl => exact .refl _
  | step _ h1 h2 _ ih => exact .step h1 h2 ih

theorem Alone.solo {patched : Bool} {fails : PyErr → Prop} {s s' : State P X} (h : Alone patched fails s s') : Solo s' := by
  induction h with
  | refl _ h => exact h
  | step _ _ _ _ ih => exact ih

/-- Whoever is reading has no result. -/
def Lacking (s : State P X) : Prop := ∀ (g t : Nat), s.phases[g]? = some (.reading t) → ∀ a, (t, a) ∉ s.results

theorem lacking_set {s : State P X} {g : Nat} {q : Phase P X} {l : List (Nat × CbArgs P X)} (h : Lacking s) (hl : l = s.results)
    (hq : ∀ t, q = .reading t → ∀ a, (t, a) ∉ s.results) :
    ∀ (g' t : Nat), (s.phases.set g q)[g']? = some (.reading t) → ∀ a, (t, a) ∉ l := by
  intro g' t hg
  rw [hl]
  rw [List.getElem?_set] at hg
  split at hg
  · split at hg
    · simp only [Option.some.injEq] at hg; exact hq t hg
    · cases hg
  · exact h g' t hg

theorem lacking_alone {patched : Bool} {fails : PyErr → Prop} {s s' : State P X} (h : Lacking s) (hs : Alone patched fails s s') : Lacking s' := by
  induction hs with
  | refl => exact h
  | step hsolo h1 _ _ ih =>
    apply ih
    cases h1 with
    | call hg hr hout => exact lacking_set h rfl (by intro t ht; cases ht)
    | refused hg hr hout => exact h
    | unsent hg hr hf hout => exact h
    | finish hg hr hres => exact lacking_set h rfl (by intro t ht; cases ht)
    | poll hg hr hres => exact lacking_set h rfl (by intro t ht; cases ht; exact hres)
    | read hg hr hres => exact lacking_set h rfl (by intro t ht; cases ht)
    | timeout hg hr hres => exact lacking_set h rfl (by intro t ht; cases ht)
    | stray hg hr hres => exact lacking_set h rfl (by intro t ht; cases ht)
    | answer hi => exact h
    | @handle g t o pid t' k a hg hr hfired =>
      intro g' t'' hg'
      simp only [List.getElem?_set] at hg'
      split at hg'
      · split at hg'
        · cases hg'
        · cases hg'
      · rename_i hne
        exact absurd (hsolo g g' _ _ hg hg' (by simp [inside]) (by simp [inside])) hne

/-- **C68 (no sharing at a time).** As long as only one greenlet at a time is in a call, a call times out only if the device has not answered its
command. -/
theorem C68_alone (patched : Bool) (fails : PyErr → Prop) (limit n : Nat) (s : State P X) (hs : Alone patched fails (State.init limit n) s) (g t : Nat)
    (hg : s.phases[g]? = some (.reading t)) (hr : s.ready = []) : t ∈ s.waiting.map Prod.snd := by
  have hinv := inv_calm (inv_init limit n) hs.calm
  have hlack : Lacking s := lacking_alone (by
    intro g t hg
    simp only [State.init, List.getElem?_replicate] at hg
    split at hg <;> cases hg) hs
  cases place_of hinv (hinv.inCall g _ t hg rfl) with
  | atDevice h => exact h
  | unread h => obtain ⟨o, pid, h⟩ := h; rw [hr] at h; cases h
  | heldBy g' t' o pid h =>
    have := hs.solo g g' _ _ hg h (by simp [inside]) (by simp [inside])
    subst this
    rw [hg] at h; cases h
  | delivered h => obtain ⟨a, h⟩ := h; exact absurd h (hlack g t hg a)

/-- The state two greenlets are in after both sent a command and each read the other's response. -/
def crossed (a b : P) : State P X :=
  ⟨⟨[(0, ((0, 0), some 0))], 2, 15⟩, [], [], 2, [(1, ⟨some b, none⟩)], [.reading 0, .holding 1 (.data a) 0 0], [0, 1], [(1, .data b), (0, .data a)], []⟩

theorem runs_of {patched : Bool} {s : State P X} {g : Nat} (h : ∀ (g' t : Nat), s.phases[g']? ≠ some (.reading t)) : Runs patched s g :=
  .inr fun g' t _ => h g' t

theorem not_reading {p q : Phase P X} (hp : ∀ t, p ≠ .reading t) (hq : ∀ t, q ≠ .reading t) (g' t : Nat) : ([p, q] : List (Phase P X))[g']? ≠ some (.reading t) := by
  match g' with
  | 0 => simpa using hp t
  | 1 => simpa using hq t
  | g' + 2 => simp

theorem crossed_reachable (patched : Bool) (fails : PyErr → Prop) (a b : P) : Calm patched fails (State.init 15 2) (crossed a b : State P X) := by
  have idle : ∀ t, (Phase.idle : Phase P X) ≠ .reading t := by intro t h; cases h
  have loop : ∀ t' t, (Phase.loop t' : Phase P X) ≠ .reading t := by intro t' t h; cases h
  have hold : ∀ t' o pid t'' t, (Phase.holding t' o pid t'' : Phase P X) ≠ .reading t := by intro t' o pid t'' t h; cases h
  refine .step (Step.call (g := 0) rfl (runs_of (not_reading idle idle)) rfl) (fun _ _ => by simp [Fresh, State.init, St.init, Dict.keys]) ?_
  refine .step (Step.call (g := 1) rfl (runs_of (not_reading (loop 0) idle)) rfl)
    (fun _ _ => by simp [Fresh, State.init, St.init, Dict.keys, sent, Executer.send, nextPacketIndex, osSend, Dict.set]) ?_
  refine .step (Step.answer (i := 1) (pid := 1) (t := 1) (o := .data b) rfl) (fun _ h => absurd rfl h) ?_
  refine .step (Step.answer (i := 0) (pid := 0) (t := 0) (o := .data a) rfl) (fun _ h => absurd rfl h) ?_
  refine .step (Step.poll (g := 0) (t := 0) rfl (runs_of (not_reading (loop 0) (loop 1))) (fun a h => nomatch h)) (fun _ h => absurd rfl h) ?_
  refine .step (Step.read (g := 0) (t := 0) (i := 0) (o := .data b) (pid := 1) (t' := 1) rfl (.inr ?_) rfl) (fun _ h => absurd rfl h) ?_
  · intro g' t hne
    match g' with
    | 0 => exact absurd rfl hne
    | 1 => intro h; cases h
    | g' + 2 => intro h; cases h
  refine .step (Step.poll (g := 1) (t := 1) rfl (runs_of (not_reading (hold 0 _ _ _) (loop 1))) (fun a h => nomatch h)) (fun _ h => absurd rfl h) ?_
  refine .step (Step.read (g := 1) (t := 1) (i := 0) (o := .data a) (pid := 0) (t' := 0) rfl (.inr ?_) rfl) (fun _ h => absurd rfl h) ?_
  · intro g' t hne
    match g' with
    | 0 => intro h; cases h
    | 1 => exact absurd rfl hne
    | g' + 2 => intro h; cases h
  refine .step (Step.handle (g := 0) (t := 0) (o := .data b) (pid := 1) (t' := 1) (k := 1) (a := ⟨some b, none⟩) rfl
    (runs_of (not_reading (hold 0 _ _ _) (hold 1 _ _ _))) rfl) (fun _ h => absurd rfl h) ?_
  refine .step (Step.poll (g := 0) (t := 0) rfl (runs_of (not_reading (loop 0) (hold 1 _ _ _))) ?_) (fun _ h => absurd rfl h) ?_
  · intro c h
    simp only [List.mem_append, List.mem_singleton, Prod.mk.injEq] at h
    rcases h with h | ⟨h, _⟩
    · cases h
    · cases h
  exact .refl _

/-- Greenlet 0 waits for a response nobody is going to send, or has given up. -/
structure Lost (s : State P X) : Prop where
  next : s.next = 2
  waiting : s.waiting = []
  ready : s.ready = []
  log : (s.phases[0]? = some (.reading 0) ∧ ∀ t f, (0, t, f) ∉ s.log) ∨ (s.phases[0]? = some .idle ∧ (0, 0, .raised .ioError) ∈ s.log ∧ ∀ t f, (0, t, f) ∈ s.log → t = 0 ∧ f = .raised .ioError)

theorem next_steps {patched : Bool} {fails : PyErr → Prop} {s s' : State P X} (h : Steps patched fails s s') : s.next ≤ s'.next := by
  induction h with
  | refl => exact Nat.le_refl _
  | step h1 _ ih =>
    refine Nat.le_trans ?_ ih
    cases h1 <;> first | exact Nat.le_refl _ | exact Nat.le_succ _

theorem lost_other {s s' : State P X} (h : Lost s) {g : Nat} {q : Phase P X} (hp : ∃ p, s.phases[g]? = some p ∧ p ≠ .idle ∧ ∀ t, p ≠ .reading t)
    (hnext : s'.next = s.next) (hw : s'.waiting = s.waiting) (hr : s'.ready = s.ready) (hph : s'.phases = s.phases.set g q)
    (hlog : s'.log = s.log ∨ ∃ t f, s'.log = s.log ++ [(g, t, f)]) : Lost s' := by
  obtain ⟨p, hg, hi, hn⟩ := hp
  have hg0 : g ≠ 0 := by
    rintro rfl
    rcases h.log with ⟨h1, _⟩ | ⟨h1, _⟩
    · rw [hg] at h1; exact hn 0 (by simpa using h1)
    · rw [hg] at h1; exact hi (by simpa using h1)
  have hph0 : s'.phases[0]? = s.phases[0]? := by rw [hph, List.getElem?_set_ne hg0]
  have hl : ∀ t f, (0, t, f) ∈ s'.log ↔ (0, t, f) ∈ s.log := by
    intro t f
    rcases hlog with hlog | ⟨t', f', hlog⟩
    · rw [hlog]
    · rw [hlog]
      simp only [List.mem_append, List.mem_singleton, Prod.mk.injEq]
      constructor
      · rintro (h | ⟨h, _⟩)
        · exact h
        · exact absurd h.symm hg0
      · exact .inl
  refine ⟨hnext.trans h.next, hw.trans h.waiting, hr.trans h.ready, ?_⟩
  rw [hph0]
  rcases h.log with ⟨h1, h2⟩ | ⟨h1, h2, h3⟩
  · exact .inl ⟨h1, fun t f hm => h2 t f ((hl t f).1 hm)⟩
  · exact .inr ⟨h1, (hl _ _).2 h2, fun t f hm => h3 t f ((hl t f).1 hm)⟩

theorem lost_step {patched : Bool} {fails : PyErr → Prop} {s s' : State P X} (h : Lost s) (hs : Step patched fails s s') (hn : s'.next ≤ 2) : Lost s' := by
  have hnext := h.next
  cases hs with
  | call hg hr hout => simp only at hn; omega
  | refused hg hr hout => simp only at hn; omega
  | unsent hg hr hf hout => simp only at hn; omega
  | finish hg hr hres => exact lost_other h ⟨_, hg, by simp, by simp⟩ rfl rfl rfl rfl (.inr ⟨_, _, rfl⟩)
  | poll hg hr hres => exact lost_other h ⟨_, hg, by simp, by simp⟩ rfl rfl rfl rfl (.inl rfl)
  | read hg hr hready => rw [h.ready] at hready; simp at hready
  | @timeout g t hg hr hready =>
    by_cases hg0 : g = 0
    · subst hg0
      rcases h.log with ⟨h1, h2⟩ | ⟨h1, _⟩
      · rw [hg] at h1
        simp only [Option.some.injEq, Phase.reading.injEq] at h1
        subst h1
        have hlen : 0 < s.phases.length := (List.getElem?_eq_some_iff.1 hg).1
        refine ⟨h.next, h.waiting, h.ready, .inr ⟨?_, by simp, ?_⟩⟩
        · simp [hlen]
        · intro t f hm
          simp only [List.mem_append, List.mem_singleton, Prod.mk.injEq] at hm
          rcases hm with hm | ⟨_, h3, h4⟩
          · exact absurd hm (h2 t f)
          · exact ⟨h3, h4⟩
      · rw [hg] at h1; cases h1
    · have hl : ∀ t' f, (0, t', f) ∈ s.log ++ [(g, t, Final.raised PyErr.ioError)] ↔ (0, t', f) ∈ s.log := by
        intro t' f
        simp only [List.mem_append, List.mem_singleton, Prod.mk.injEq]
        constructor
        · rintro (h | ⟨h, _⟩)
          · exact h
          · exact absurd h.symm hg0
        · exact .inl
      refine ⟨h.next, h.waiting, h.ready, ?_⟩
      simp only [List.getElem?_set_ne hg0]
      rcases h.log with ⟨h1, h2⟩ | ⟨h1, h2, h3⟩
      · exact .inl ⟨h1, fun t f hm => h2 t f ((hl t f).1 hm)⟩
      · exact .inr ⟨h1, (hl _ _).2 h2, fun t f hm => h3 t f ((hl t f).1 hm)⟩
  | handle hg hr hfired => exact lost_other h ⟨_, hg, by simp, by simp⟩ rfl rfl rfl rfl (.inl rfl)
  | stray hg hr hout => exact lost_other h ⟨_, hg, by simp, by simp⟩ rfl rfl rfl rfl (.inr ⟨_, _, rfl⟩)
  | answer hi => rw [h.waiting] at hi; simp at hi

theorem lost_steps {patched : Bool} {fails : PyErr → Prop} {s s' : State P X} (h : Lost s) (hs : Steps patched fails s s') (hn : s'.next = 2) : Lost s' := by
  induction hs with
  | refl => exact h
  | step h1 h2 ih =>
    have := next_steps h2
    exact ih (lost_step h h1 (by omega)) hn

/-- **C68 as one would state it is false**, whether or not `time.sleep` and `select` are patched: two greenlets make a call each, the device answers
both commands, and the first greenlet's call can only end with the `IOError` of a timeout: each greenlet reads the other's response, and the
first then waits to read another one, which will not come (unless further commands are sent), though its own is in the hands of the second greenlet.
It does so end, and without patching all other greenlets stand still for the 60 seconds it takes. -/
theorem C68_false (patched : Bool) (fails : PyErr → Prop) (a b : P) :
    ∃ s : State P X, Calm patched fails (State.init 15 2) s ∧ s.accepted = [0, 1] ∧ (0, .data a) ∈ s.answers ∧ (1, .data b) ∈ s.answers ∧
      s.phases[0]? = some (.reading 0) ∧
      (∃ s', Step patched fails s s' ∧ (0, 0, .raised .ioError) ∈ s'.log) ∧
      (∀ s', Steps patched fails s s' → s'.next = s.next → ∀ t f, (0, t, f) ∈ s'.log → t = 0 ∧ f = .raised .ioError) ∧
      (patched = false → ∀ g, g ≠ 0 → ¬ Runs patched s g) := by
  refine ⟨crossed a b, crossed_reachable patched fails a b, rfl, by simp [crossed], by simp [crossed], rfl, ?_, ?_, ?_⟩
  · refine ⟨_, Step.timeout (g := 0) (t := 0) rfl (.inr ?_) rfl, by simp⟩
    intro g' t hne
    match g' with
    | 0 => exact absurd rfl hne
    | 1 => intro h; cases h
    | g' + 2 => intro h; cases h
  · intro s' hs hn t f hm
    have := lost_steps (⟨rfl, rfl, rfl, .inl ⟨rfl, by intro t f h; cases h⟩⟩ : Lost (crossed a b : State P X)) hs hn
    rcases this.log with ⟨_, h2⟩ | ⟨_, _, h3⟩
    · exact absurd hm (h2 t f)
    · exact h3 t f hm
  · rintro rfl g hg (h | h)
    · cases h
    · exact h 0 0 (Ne.symm hg) rfl

/-- The histories `C68_alone` is about include ones that answer: one greenlet calls, the device answers, the greenlet is told. -/
example (d : P) : ∃ s : State P X, Alone false (fun _ => False) (State.init 15 2) s ∧ (0, 0, .returned (some d)) ∈ s.log := by
  have hsolo : ∀ (s : State P X), s.phases[1]? = some .idle → s.phases.length = 2 → Solo s := by
    intro s h1 h2 g g' p p' hg hg' hp hp'
    have l1 := (List.getElem?_eq_some_iff.1 hg).1
    have l2 := (List.getElem?_eq_some_iff.1 hg').1
    have n1 : g ≠ 1 := by rintro rfl; rw [h1] at hg; cases hg; exact hp rfl
    have n2 : g' ≠ 1 := by rintro rfl; rw [h1] at hg'; cases hg'; exact hp' rfl
    omega
  have runs : ∀ (s : State P X), s.phases[1]? = some .idle → s.phases.length = 2 → Runs false s 0 := by
    intro s h1 h2
    refine .inr fun g' t hne hg => ?_
    have l1 := (List.getElem?_eq_some_iff.1 hg).1
    have : g' = 1 := by omega
    subst this
    rw [h1] at hg; cases hg
  refine ⟨_, .step (hsolo _ rfl rfl) (Step.call (g := 0) rfl (runs _ rfl rfl) rfl) (fun _ _ => by simp [Fresh, State.init, St.init, Dict.keys])
    (.step (hsolo _ rfl rfl) (Step.answer (i := 0) (pid := 0) (t := 0) (o := .data d) rfl) (fun _ h => absurd rfl h)
    (.step (hsolo _ rfl rfl) (Step.poll (g := 0) (t := 0) rfl (runs _ rfl rfl) (fun a h => nomatch h)) (fun _ h => absurd rfl h)
    (.step (hsolo _ rfl rfl) (Step.read (g := 0) (t := 0) (i := 0) (o := .data d) (pid := 0) (t' := 0) rfl (runs _ rfl rfl) rfl) (fun _ h => absurd rfl h)
    (.step (hsolo _ rfl rfl) (Step.handle (g := 0) (t := 0) (o := .data d) (pid := 0) (t' := 0) (k := 0) (a := ⟨some d, none⟩) rfl (runs _ rfl rfl) rfl)
      (fun _ h => absurd rfl h)
    (.step (hsolo _ rfl rfl) (Step.finish (g := 0) (t := 0) (a := ⟨some d, none⟩) rfl (runs _ rfl rfl) (List.mem_append_right _ List.mem_cons_self))
      (fun _ h => absurd rfl h) (.refl _ (hsolo _ rfl rfl))))))), ?_⟩
  exact List.mem_append_right _ List.mem_cons_self

/-- Histories with writes that fail: the first greenlet's command is not taken; the second one is not disturbed. -/
example (d : P) : ∃ s : State P X, Calm false (fun e => e = .ioError) (State.init 15 2) s ∧ s.accepted = [1] ∧
    s.log = [(0, 0, .raised .ioError), (1, 1, .returned (some d))] := by
  have idle : ∀ t, (Phase.idle : Phase P X) ≠ .reading t := by intro t h; cases h
  have runs : ∀ (s : State P X), s.phases[0]? = some .idle → s.phases.length = 2 → Runs false s 1 := by
    intro s h1 h2
    refine .inr fun g' t hne hg => ?_
    have l1 := (List.getElem?_eq_some_iff.1 hg).1
    have : g' = 0 := by omega
    subst this
    rw [h1] at hg; cases hg
  refine ⟨_, .step (Step.unsent (g := 0) (e := .ioError) (e' := .ioError) rfl (runs_of (not_reading idle idle)) rfl rfl)
      (fun _ _ => by simp [Fresh, State.init, St.init, Dict.keys])
    (.step (Step.call (g := 1) rfl (runs _ rfl rfl) rfl)
      (fun _ _ => by simp [Fresh, State.init, St.init, Dict.keys, unsent, Executer.send, nextPacketIndex, Dict.set, Dict.erase])
    (.step (Step.answer (i := 0) (pid := 1) (t := 1) (o := .data d) rfl) (fun _ h => absurd rfl h)
    (.step (Step.poll (g := 1) (t := 1) rfl (runs _ rfl rfl) (fun a h => nomatch h)) (fun _ h => absurd rfl h)
    (.step (Step.read (g := 1) (t := 1) (i := 0) (o := .data d) (pid := 1) (t' := 1) rfl (runs _ rfl rfl) rfl) (fun _ h => absurd rfl h)
    (.step (Step.handle (g := 1) (t := 1) (o := .data d) (pid := 1) (t' := 1) (k := 1) (a := ⟨some d, none⟩) rfl (runs _ rfl rfl) rfl)
      (fun _ h => absurd rfl h)
    (.step (Step.finish (g := 1) (t := 1) (a := ⟨some d, none⟩) rfl (runs _ rfl rfl) (List.mem_append_right _ List.mem_cons_self))
      (fun _ h => absurd rfl h) (.refl _))))))), rfl, rfl⟩

end Verif.Greenlets
