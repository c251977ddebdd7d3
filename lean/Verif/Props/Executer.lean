import Verif.ExecuterLemmas
/-!
# Theorems about the command executer: C01 - C08
-/

set_option linter.unusedSimpArgs false

namespace Verif.Executer

variable {P X Q K D E ω : Type}

/-! ## C01 -/

/-- **C01** (partial: only for histories in which no packet number is reused while in use; see `C01_false`).
For every queue size and every such history of sends, failing sends, completions in any order, stray responses and read
errors, what the user observes is exactly what they would observe from the ideal executer. -/
theorem C01_partial (maxq : Nat) (ops : List (Op P X)) (h : (Sys.init maxq).NoReuse ops) :
    (Sys.run maxq ops).log = (Ideal.run maxq ops).log :=
  (sim_run ops (sim_init maxq) h).log

/-- Bookkeeping invariant of the ideal executer. -/
structure IdealInv (a : Ideal P X) : Prop where
  nodup : a.out.Nodup
  old : ∀ t, t ∈ a.out → t < a.next
  accOld : ∀ t, a.next ≤ t → acceptedCount t a.log = 0
  once : ∀ t, firedCount t a.log + (if t ∈ a.out then 1 else 0) = acceptedCount t a.log
  le : ∀ t, acceptedCount t a.log ≤ 1
  own : ∀ t args, Ev.fired t args ∈ a.log → ∃ o, args = argsFor t o

theorem firedCount_append (t : Nat) (l m : List (Ev P X)) :
    firedCount t (l ++ m) = firedCount t l + firedCount t m := by
  induction l with
  | nil => simp [firedCount]
  | cons e r ih => cases e <;> simp [firedCount, ih] <;> omega

theorem acceptedCount_append (t : Nat) (l m : List (Ev P X)) :
    acceptedCount t (l ++ m) = acceptedCount t l + acceptedCount t m := by
  induction l with
  | nil => simp [acceptedCount]
  | cons e r ih => cases e <;> simp [acceptedCount, ih] <;> omega

theorem idealInv_init (maxq : Nat) : IdealInv (Ideal.init maxq : Ideal P X) := by
  constructor <;> simp [Ideal.init, acceptedCount, firedCount]

theorem idealInv_noise {a : Ideal P X} (h : IdealInv a) (e : Ev P X)
    (he : (∃ t x, e = .refused t x) ∨ ∃ x, e = .raised x) (n : Nat) (hn : a.next ≤ n) :
    IdealInv { a with next := n, log := a.log ++ [e] } := by
  have hf : ∀ t, firedCount t [e] = 0 := by rcases he with ⟨_, _, rfl⟩ | ⟨_, rfl⟩ <;> simp [firedCount]
  have ha : ∀ t, acceptedCount t [e] = 0 := by rcases he with ⟨_, _, rfl⟩ | ⟨_, rfl⟩ <;> simp [acceptedCount]
  refine ⟨h.nodup, fun t ht => Nat.lt_of_lt_of_le (h.old t ht) hn, ?_, ?_, ?_, ?_⟩
  · intro t ht; simp [acceptedCount_append, ha, h.accOld t (Nat.le_trans hn ht)]
  · intro t; simp only [firedCount_append, hf, acceptedCount_append, ha, Nat.add_zero]; exact h.once t
  · intro t; simp only [acceptedCount_append, ha, Nat.add_zero]; exact h.le t
  · intro t args ht
    simp only [List.mem_append, List.mem_singleton] at ht
    rcases ht with ht | ht
    · exact h.own t args ht
    · rcases he with ⟨_, _, rfl⟩ | ⟨_, rfl⟩ <;> cases ht

theorem idealInv_step {a : Ideal P X} (h : IdealInv a) (op : Op P X) : IdealInv (a.step op) := by
  cases op with
  | send p o =>
    simp only [Ideal.step]
    split
    · exact idealInv_noise h _ (.inl ⟨_, _, rfl⟩) _ (by omega)
    split
    · exact idealInv_noise h _ (.inl ⟨_, _, rfl⟩) _ (by omega)
    split
    · exact idealInv_noise h _ (.inl ⟨_, _, rfl⟩) _ (by omega)
    have hnew : a.next ∉ a.out := fun hm => Nat.lt_irrefl _ (h.old _ hm)
    refine ⟨?_, ?_, ?_, ?_, ?_, ?_⟩
    · show (a.out ++ [a.next]).Nodup
      rw [List.nodup_append]
      refine ⟨h.nodup, by simp, ?_⟩
      intro x hx y hy e
      simp at hy
      exact hnew (hy ▸ e ▸ hx)
    · intro t ht
      simp only [List.mem_append, List.mem_singleton] at ht
      show t < a.next + 1
      rcases ht with ht | ht
      · have := h.old t ht; omega
      · omega
    · intro t ht
      simp only at ht
      have : ¬ a.next = t := by omega
      simp [acceptedCount_append, acceptedCount, h.accOld t (by omega), this]
    · intro t
      have := h.once t
      simp only [firedCount_append, acceptedCount_append, firedCount, acceptedCount, List.mem_append,
        List.mem_singleton]
      by_cases ht : a.next = t
      · subst ht; simp [hnew] at this ⊢; omega
      · have ht' : ¬ t = a.next := fun e => ht e.symm
        simp [ht, ht']; omega
    · intro t
      have := h.le t
      simp only [acceptedCount_append, acceptedCount]
      by_cases ht : a.next = t
      · subst ht; have := h.accOld a.next (Nat.le_refl _); simp; omega
      · simp [ht]; omega
    · intro t args ht
      simp at ht
      exact h.own t args ht
  | complete i o =>
    simp only [Ideal.step]
    split
    · rename_i u hu
      have hmem : u ∈ a.out := List.mem_of_getElem? hu
      refine ⟨h.nodup.sublist (List.eraseIdx_sublist ..), fun t ht => h.old t (List.mem_of_mem_eraseIdx ht), ?_, ?_, ?_, ?_⟩
      · intro t ht; simp [acceptedCount_append, acceptedCount, h.accOld t ht]
      · intro t
        have h1 := h.once t
        simp only [firedCount_append, acceptedCount_append, firedCount, acceptedCount]
        have hmm : t ∈ a.out.eraseIdx i ↔ t ∈ a.out ∧ t ≠ u := by
          rw [List.mem_eraseIdx_iff_getElem?]
          constructor
          · rintro ⟨j, hj, hjt⟩
            refine ⟨List.mem_of_getElem? hjt, ?_⟩
            rintro rfl
            obtain ⟨hi1, hi2⟩ := List.getElem?_eq_some_iff.1 hu
            obtain ⟨hj1, hj2⟩ := List.getElem?_eq_some_iff.1 hjt
            exact hj ((List.getElem_inj h.nodup).1 (hj2.trans hi2.symm))
          · rintro ⟨hm, hne⟩
            obtain ⟨j, hj⟩ := List.getElem?_of_mem hm
            refine ⟨j, ?_, hj⟩
            rintro rfl
            rw [hu] at hj
            exact hne (Option.some.inj hj).symm
        by_cases ht : u = t
        · subst ht
          simp [hmem] at h1
          simp [hmm]; omega
        · have ht' : t ≠ u := fun e => ht e.symm
          have hmm' : (t ∈ a.out.eraseIdx i) = (t ∈ a.out) := propext (hmm.trans (and_iff_left ht'))
          simp only [hmm', ht, if_false]
          omega
      · intro t; simp only [acceptedCount_append, acceptedCount, Nat.add_zero]; exact h.le t
      · intro t args ht
        simp only [List.mem_append, List.mem_singleton, Ev.fired.injEq] at ht
        rcases ht with ht | ⟨rfl, rfl⟩
        · exact h.own t args ht
        · exact ⟨o, rfl⟩
    · exact idealInv_noise h _ (.inr ⟨_, rfl⟩) _ (Nat.le_refl _)
  | stray pid o => exact idealInv_noise h _ (.inr ⟨_, rfl⟩) _ (Nat.le_refl _)
  | recvError e => exact idealInv_noise h _ (.inr ⟨_, rfl⟩) _ (Nat.le_refl _)

theorem idealInv_run (maxq : Nat) (ops : List (Op P X)) : IdealInv (Ideal.run maxq ops) := by
  have : ∀ (a : Ideal P X), IdealInv a → IdealInv (ops.foldl Ideal.step a) := by
    induction ops with
    | nil => exact fun _ h => h
    | cons op ops ih => exact fun a h => ih _ (idealInv_step h op)
  exact this _ (idealInv_init maxq)

/-- **C01**, spelled out: in such a history every invoked callback belongs to an accepted command, gets the response the
device produced for that very command, is invoked at most once, and an accepted command whose callback was not invoked
is still held by the device (nothing is lost). -/
theorem C01_own_response_partial (maxq : Nat) (ops : List (Op P X)) (h : (Sys.init maxq).NoReuse ops) :
    (∀ t args, Ev.fired t args ∈ (Sys.run maxq ops).log → ∃ o, args = argsFor t o) ∧
    (∀ t, firedCount t (Sys.run maxq ops).log ≤ 1) ∧
    (∀ t, acceptedCount t (Sys.run maxq ops).log =
      firedCount t (Sys.run maxq ops).log + (if t ∈ (Sys.run maxq ops).dev.map Prod.snd then 1 else 0)) := by
  have hs := sim_run ops (sim_init maxq) h
  have hi := idealInv_run maxq ops
  have hl : (Sys.run maxq ops).log = (Ideal.run maxq ops).log := hs.log
  have ho : (Ideal.run maxq ops).out = (Sys.run maxq ops).dev.map Prod.snd := hs.out
  rw [hl, ← ho]
  refine ⟨hi.own, fun t => ?_, fun t => (hi.once t).symm⟩
  have h1 := hi.once t
  have h2 := hi.le t
  omega

/-- **C01 is false in general**: with two slots, completing the younger command first makes the next send reuse the
packet number of the older one, whose callback is then lost and whose response goes to the newcomer. -/
theorem C01_false : ∃ (ops : List (Op Nat Nat)), (∀ op ∈ ops, NotStray op) ∧
    ∃ t t' p, t ≠ t' ∧ Ev.fired t ⟨some (some t', p), none⟩ ∈ (Sys.run 2 ops).log :=
  ⟨[.send true true, .send true true, .complete 1 (.data 11), .send true true, .complete 0 (.data 10)],
    by simp [NotStray], 2, 0, 10, by decide, by
      simp [Sys.run, Sys.runFrom, Sys.step, Sys.recv, Sys.init, St.init, Executer.send, nextPacketIndex, osSend,
        process, devRecv, Dict.set, Dict.get, Dict.erase, tag, cbArgs]⟩

/-- Ticket `t` was accepted, its callback was not called, and no pending packet has it. -/
structure Gone (t : Nat) (s : Sys P X) : Prop where
  old : t < s.next
  pend : ∀ e ∈ s.ex.pending, e.2.2 ≠ some t
  fired : firedCount t s.log = 0
  accepted : acceptedCount t s.log = 1

theorem mem_set {α : Type} {d : Dict α} {k : Nat} {v : α} {e : Nat × α} (h : e ∈ Dict.set d k v) : e ∈ d ∨ e = (k, v) := by
  induction d with
  | nil => exact .inr (by simpa [Dict.set] using h)
  | cons p r ih =>
    obtain ⟨k', v'⟩ := p
    simp only [Dict.set] at h
    split at h
    · rcases List.mem_cons.1 h with h | h
      · exact .inr h
      · exact .inl (List.mem_cons_of_mem _ h)
    · rcases List.mem_cons.1 h with h | h
      · exact .inl (h ▸ List.mem_cons_self ..)
      · exact (ih h).imp (List.mem_cons_of_mem _) id

theorem mem_erase {α : Type} {d : Dict α} {k : Nat} {e : Nat × α} (h : e ∈ Dict.erase d k) : e ∈ d :=
  (Dict.erase_keys_sublist d k).mem h

theorem get_mem {α : Type} {d : Dict α} {k : Nat} {v : α} (h : Dict.get d k = some v) : (k, v) ∈ d := by
  induction d with
  | nil => cases h
  | cons p r ih =>
    obtain ⟨k', v'⟩ := p
    simp only [Dict.get] at h
    split at h
    · rename_i hk
      cases h
      exact hk ▸ List.mem_cons_self ..
    · exact List.mem_cons_of_mem _ (ih h)

theorem gone_step {t : Nat} {s : Sys P X} (h : Gone t s) (op : Op P X) : Gone t (s.step op) := by
  have hrecv : ∀ op, Gone t (s.recv op) := by
    intro op
    simp only [Sys.recv, process]
    split
    · exact ⟨h.old, h.pend, by simp [firedCount_append, firedCount, h.fired], by simp [acceptedCount_append, acceptedCount, h.accepted]⟩
    · split
      · exact ⟨h.old, h.pend, by simp [firedCount_append, firedCount, h.fired], by simp [acceptedCount_append, acceptedCount, h.accepted]⟩
      · rename_i q cb hg
        split
        · exact ⟨h.old, fun e he => h.pend e (mem_erase he), by simp [firedCount_append, firedCount, h.fired],
            by simp [acceptedCount_append, acceptedCount, h.accepted]⟩
        · rename_i k
          have hk : k ≠ t := fun hk => h.pend _ (get_mem hg) (by rw [hk])
          exact ⟨h.old, fun e he => h.pend e (mem_erase he), by simp [firedCount_append, firedCount, h.fired, hk],
            by simp [acceptedCount_append, acceptedCount, h.accepted]⟩
  cases op with
  | send p o =>
    have hnt : s.next ≠ t := by have := h.old; omega
    have hset : ∀ i e, e ∈ Dict.set s.ex.pending i ((i, s.next), some s.next) → e.2.2 ≠ some t := by
      intro i e he
      rcases mem_set he with he | rfl
      · exact h.pend e he
      · exact fun hh => hnt (Option.some.inj hh)
    have hold : t < s.next + 1 := by have := h.old; omega
    simp only [Sys.step, Executer.send, nextPacketIndex]
    split
    · exact ⟨hold, h.pend, by simp [firedCount_append, firedCount, h.fired], by simp [acceptedCount_append, acceptedCount, h.accepted]⟩
    · rename_i hn
      split at hn
      · cases hn
      · cases hn
        cases p with
        | false => exact ⟨hold, h.pend, by simp [firedCount_append, firedCount, h.fired], by simp [acceptedCount_append, acceptedCount, h.accepted]⟩
        | true =>
          cases o with
          | false =>
            exact ⟨hold, fun e he => hset _ e (mem_erase he), by simp [osSend, firedCount_append, firedCount, h.fired],
              by simp [osSend, acceptedCount_append, acceptedCount, h.accepted]⟩
          | true =>
            exact ⟨hold, fun e he => hset _ e he, by simp [osSend, firedCount_append, firedCount, h.fired],
              by simp [osSend, acceptedCount_append, acceptedCount, h.accepted, hnt]⟩
  | complete i o => exact hrecv _
  | stray pid o => exact hrecv _
  | recvError e => exact hrecv _

theorem gone_run {t : Nat} {s : Sys P X} (h : Gone t s) (ops : List (Op P X)) : Gone t (s.runFrom ops) := by
  induction ops generalizing s with
  | nil => exact h
  | cons op ops ih => exact ih (gone_step h op)

theorem log_grows (s : Sys P X) (ops : List (Op P X)) {e : Ev P X} (h : e ∈ s.log) : e ∈ (s.runFrom ops).log := by
  induction ops generalizing s with
  | nil => exact h
  | cons op ops ih =>
    refine ih _ ?_
    cases op <;> simp only [Sys.step, Sys.recv] <;> exact List.mem_append_left _ h

/-- In a dictionary without repeated keys, storing at a key removes what was there. -/
theorem set_gone {l : List (Nat × Nat)} (hn : (l.map Prod.fst).Nodup) (ht : (l.map Prod.snd).Nodup) {k t u : Nat} (hm : (k, t) ∈ l) (hu : u ≠ t) :
    ∀ e ∈ Dict.set (l.map entry) k ((k, u), some u), e.2.2 ≠ some t := by
  induction l with
  | nil => cases hm
  | cons q l ih =>
    obtain ⟨k', t'⟩ := q
    simp only [List.map_cons, List.nodup_cons] at hn ht
    intro e he
    rw [List.map_cons, show entry (k', t') = (k', ((k', t'), some t')) from rfl, Dict.set] at he
    by_cases hk : k' = k
    · rw [if_pos hk] at he
      have ht' : t' = t := by
        rcases List.mem_cons.1 hm with h | h
        · cases h; rfl
        · exact absurd (List.mem_map.2 ⟨_, h, rfl⟩) (hk ▸ hn.1)
      rcases List.mem_cons.1 he with rfl | he
      · exact fun h => hu (Option.some.inj h)
      · obtain ⟨q, hq, rfl⟩ := List.mem_map.1 he
        intro h
        have h : q.2 = t := Option.some.inj h
        exact ht.1 (List.mem_map.2 ⟨q, hq, h.trans ht'.symm⟩)
    · rw [if_neg hk] at he
      rcases List.mem_cons.1 he with rfl | he
      · intro h
        have h : t' = t := Option.some.inj h
        rcases List.mem_cons.1 hm with h' | h'
        · cases h'; exact hk rfl
        · exact ht.1 (List.mem_map.2 ⟨_, h', h.symm⟩)
      · rcases List.mem_cons.1 hm with h' | h'
        · cases h'; exact absurd rfl hk
        · exact ih hn.2 ht.2 h' e he

/-- The first time a number is reused a command is lost for good, or a stray response is taken for an answer. -/
theorem reuse_loses (ops : List (Op P X)) (s : Sys P X) (a : Ideal P X) (h : Sim s a) (hi : IdealInv a) (hn : ¬ s.NoReuse ops) :
    (∃ t args, Ev.fired t args ∈ (s.runFrom ops).log ∧ ∀ o, args ≠ argsFor t o) ∨ ∃ t, Gone t (s.runFrom ops) := by
  induction ops generalizing s a with
  | nil => exact absurd trivial hn
  | cons op ops ih =>
    have hgo : ∀ hs : Sim (s.step op) (a.step op), ¬ (s.step op).NoReuse ops → _ := fun hs hr => ih _ _ hs (idealInv_step hi op) hr
    cases op with
    | complete i o => exact hgo (sim_recv h _ trivial) fun hr => hn ⟨trivial, hr⟩
    | recvError e => exact hgo (sim_recv h _ trivial) fun hr => hn ⟨trivial, hr⟩
    | stray pid o =>
      by_cases hp : pid ∈ s.dev.map Prod.fst
      · left
        obtain ⟨⟨k, t⟩, hq, rfl⟩ := List.mem_map.1 hp
        obtain ⟨i, hd⟩ := List.getElem?_of_mem hq
        have hpend : s.ex.pending[i]? = some (k, ((k, t), some t)) := by rw [h.pend]; simp [hd, entry]
        have hnd : (Dict.keys s.ex.pending).Nodup := by rw [h.pend, keys_entry]; exact h.nodup
        obtain ⟨hg, _⟩ := Dict.get_erase_of_getElem _ hnd i k _ hpend
        refine ⟨t, cbArgs (tag none o), log_grows (s.step (.stray k o)) ops ?_, ?_⟩
        · simp [Sys.step, Sys.recv, process, devRecv, hg]
        · intro o' he
          cases o <;> cases o' <;> simp [cbArgs, tag, argsFor] at he
      · exact hgo (sim_recv h _ hp) fun hr => hn ⟨hp, hr⟩
    | send p o =>
      by_cases hf : p = true → s.dev.length < s.ex.maxq → s.slotFree
      · exact hgo (sim_send h p o hf) fun hr => hn ⟨hf, hr⟩
      · right
        simp only [Classical.not_imp, Sys.slotFree, Classical.not_not] at hf
        obtain ⟨rfl, hlt, hm⟩ := hf
        obtain ⟨⟨k, t⟩, hq, hk⟩ := List.mem_map.1 hm
        have hk : k = s.ex.index := hk
        subst hk
        have hout : t ∈ a.out := by rw [h.out]; exact List.mem_map.2 ⟨_, hq, rfl⟩
        have hto : t < s.next := by rw [h.next]; exact hi.old t hout
        have honce := hi.once t
        have hle := hi.le t
        simp only [hout, if_true] at honce
        have hdist : (s.dev.map Prod.snd).Nodup := by rw [← h.out]; exact hi.nodup
        have hset := set_gone (u := s.next) h.nodup hdist hq (by omega)
        have hlen : ¬ s.ex.pending.length ≥ s.ex.maxq := by rw [h.pend]; simp; omega
        have hnt : s.next ≠ t := by omega
        refine ⟨t, gone_run ?_ ops⟩
        rw [← h.log] at honce hle
        simp only [Sys.step, Executer.send, nextPacketIndex, if_neg hlen, if_true]
        rw [← h.pend] at hset
        cases o with
        | false =>
          exact ⟨by simpa using by omega, fun e he => hset e (mem_erase he), by simp [osSend, firedCount_append, firedCount]; omega,
            by simp [osSend, acceptedCount_append, acceptedCount]; omega⟩
        | true =>
          exact ⟨by simpa using by omega, fun e he => hset e he, by simp [osSend, firedCount_append, firedCount]; omega,
            by simp [osSend, acceptedCount_append, acceptedCount, hnt]; omega⟩

/-- **C01, the exact condition.** Once the device has answered everything: every accepted command's callback was called exactly once, and with the
response to that command, if and only if no packet number was reused while in use (and no unsolicited response carried a number in use). -/
theorem C01_exact (maxq : Nat) (ops : List (Op P X)) (hdone : (Sys.run maxq ops).dev = []) :
    ((∀ t args, Ev.fired t args ∈ (Sys.run maxq ops).log → ∃ o, args = argsFor t o) ∧
      ∀ t, firedCount t (Sys.run maxq ops).log = acceptedCount t (Sys.run maxq ops).log) ↔
    (Sys.init maxq).NoReuse ops := by
  constructor
  · rintro ⟨h1, h2⟩
    apply Classical.byContradiction
    intro hn
    rcases reuse_loses ops _ _ (sim_init maxq) (idealInv_init maxq) hn with ⟨t, args, hm, ho⟩ | ⟨t, hg⟩
    · obtain ⟨o, rfl⟩ := h1 t args hm
      exact ho o rfl
    · have := h2 t
      have h3 : firedCount t (Sys.run maxq ops).log = 0 := hg.fired
      have h4 : acceptedCount t (Sys.run maxq ops).log = 1 := hg.accepted
      omega
  · intro hn
    obtain ⟨h1, _, h3⟩ := C01_own_response_partial maxq ops hn
    exact ⟨h1, fun t => by rw [h3 t, hdone]; simp⟩

/-- **C01, what reuse costs.** If a packet number is reused while in use and there are no unsolicited responses, some accepted command is lost: whatever happens
afterwards, its callback is never called. -/
theorem C01_lost (maxq : Nat) (ops : List (Op P X)) (hns : ∀ op ∈ ops, NotStray op) (hn : ¬ (Sys.init maxq).NoReuse ops) :
    ∃ t, acceptedCount t (Sys.run maxq ops).log = 1 ∧ ∀ more, firedCount t (Sys.run maxq (ops ++ more)).log = 0 := by
  have key : ∀ (ops : List (Op P X)) (s : Sys P X) (a : Ideal P X), Sim s a → IdealInv a → (∀ op ∈ ops, NotStray op) → ¬ s.NoReuse ops → ∃ t, Gone t (s.runFrom ops) := by
    intro ops
    induction ops with
    | nil => exact fun s a _ _ _ hn => absurd trivial hn
    | cons op ops ih =>
      intro s a h hi hns hn
      by_cases h1 : s.NoReuse [op]
      · exact ih _ _ (sim_step h op [] h1) (idealInv_step hi op) (fun o ho => hns o (List.mem_cons_of_mem _ ho)) fun hr => hn ⟨h1.1, hr⟩
      · have hop := hns op (List.mem_cons_self ..)
        cases op with
        | complete i o => exact absurd ⟨trivial, trivial⟩ h1
        | recvError e => exact absurd ⟨trivial, trivial⟩ h1
        | stray pid o => exact hop.elim
        | send p o =>
          rcases reuse_loses [.send p o] s a h hi h1 with ⟨t, args, hm, ho⟩ | ⟨t, hg⟩
          · have hm' : Ev.fired t args ∈ a.log := by
              rw [← h.log]
              simp only [Sys.runFrom, List.foldl_cons, List.foldl_nil, Sys.step, List.mem_append, List.mem_singleton] at hm
              rcases hm with hm | hm
              · exact hm
              · split at hm <;> cases hm
            obtain ⟨o', rfl⟩ := hi.own t args hm'
            exact absurd rfl (ho o')
          · exact ⟨t, gone_run hg ops⟩
  obtain ⟨t, hg⟩ := key ops _ _ (sim_init maxq) (idealInv_init maxq) hns hn
  refine ⟨t, hg.accepted, fun more => ?_⟩
  have := (gone_run hg more).fired
  simpa [Sys.run, Sys.runFrom, List.foldl_append] using this

/-- `C01_exact` is about something: a history that ends with nothing at the device and has reused a number. -/
example : ¬ (Sys.init 2 : Sys Nat Nat).NoReuse
      [.send true true, .send true true, .complete 1 (.data 11), .send true true, .complete 0 (.data 10), .complete 0 (.data 12)] ∧
    (Sys.run 2 ([.send true true, .send true true, .complete 1 (.data 11), .send true true, .complete 0 (.data 10), .complete 0 (.data 12)] : List (Op Nat Nat))).dev = [] := by
  simp [Sys.NoReuse, Sys.slotFree, Sys.run, Sys.runFrom, Sys.step, Sys.recv, Sys.init, St.init, Executer.send, nextPacketIndex, osSend,
    process, devRecv, Dict.set, Dict.get, Dict.erase, tag, cbArgs]

/-- The hypothesis of `C01_partial` is met by a history with two commands outstanding, out-of-order completion, a
failing send and a stray response. -/
example : (Sys.init 3 : Sys Nat Nat).NoReuse
    [.send true true, .send true true, .complete 1 (.data 5), .send true false, .stray 7 (.data 1),
     .complete 0 (.exc 2)] := by
  simp [Sys.NoReuse, Sys.slotFree, Sys.step, Sys.recv, Sys.init, St.init, Executer.send, nextPacketIndex, osSend,
    process, devRecv, Dict.set, Dict.get, Dict.erase, tag, cbArgs]

/-! ## C02 -/

/-- With at most one slot, or one command at a time, packet numbers are never reused while in use. -/
theorem noReuse_of_serial (ops : List (Op P X)) (hns : ∀ op ∈ ops, NotStray op) (s : Sys P X) (hs : s.Serial ops) :
    s.NoReuse ops := by
  induction ops generalizing s with
  | nil => trivial
  | cons op ops ih =>
    refine ⟨?_, ih (fun o ho => hns o (List.mem_cons_of_mem _ ho)) _ hs.2⟩
    have h1 := hs.1
    have h2 := hns op (List.mem_cons_self ..)
    cases op with
    | send p o => intro _ _; simp only at h1; simp [Sys.slotFree, h1]
    | stray pid o => exact h2.elim
    | complete i o => trivial
    | recvError e => trivial

theorem step_maxq (s : Sys P X) (op : Op P X) : (s.step op).ex.maxq = s.ex.maxq := by
  have hrecv : ∀ op, (s.recv op).ex.maxq = s.ex.maxq := by
    intro op
    simp only [Sys.recv, process]
    split
    · rfl
    · split
      · rfl
      · split <;> rfl
  cases op with
  | send p o =>
    simp only [Sys.step, Executer.send, nextPacketIndex]
    split
    · rfl
    · rename_i h
      split at h
      · cases h
      · cases h
        dsimp only
        split
        · rfl
        · split <;> rfl
  | complete i o => exact hrecv _
  | stray pid o => exact hrecv _
  | recvError e => exact hrecv _

theorem noReuse_of_one (ops : List (Op P X)) (hns : ∀ op ∈ ops, NotStray op) (s : Sys P X) (h1 : s.ex.maxq = 1) :
    s.NoReuse ops := by
  induction ops generalizing s with
  | nil => trivial
  | cons op ops ih =>
    refine ⟨?_, ih (fun o ho => hns o (List.mem_cons_of_mem _ ho)) _ (by rw [step_maxq]; exact h1)⟩
    have h2 := hns op (List.mem_cons_self ..)
    cases op with
    | send p o =>
      intro _ hl
      have : s.dev = [] := by rw [h1] at hl; exact List.length_eq_zero_iff.1 (by omega)
      simp [Sys.slotFree, this]
    | stray pid o => exact h2.elim
    | complete i o => trivial
    | recvError e => trivial

/-- FIFO invariant: packet numbers in use are consecutive (modulo the queue size) and end just before the next one. -/
structure FifoInv (s : Sys P X) : Prop where
  pend : s.ex.pending = s.dev.map entry
  le : s.dev.length ≤ s.ex.maxq
  ring : ∃ base, s.dev.map Prod.fst = (List.range s.dev.length).map (fun j => (base + j) % s.ex.maxq) ∧
    (0 < s.ex.maxq → s.ex.index = (base + s.dev.length) % s.ex.maxq)

theorem fifo_free {s : Sys P X} (h : FifoInv s) (hl : s.dev.length < s.ex.maxq) : s.slotFree := by
  obtain ⟨base, hr, hi⟩ := h.ring
  have hpos : 0 < s.ex.maxq := by omega
  intro hm
  rw [hr, hi hpos, List.mem_map] at hm
  obtain ⟨j, hj, he⟩ := hm
  rw [List.mem_range] at hj
  have : (base + s.dev.length - (base + j)) % s.ex.maxq = 0 := by
    rw [← Nat.sub_mod_eq_zero_of_mod_eq he.symm]
  have h2 : base + s.dev.length - (base + j) = s.dev.length - j := by omega
  rw [h2, Nat.mod_eq_of_lt (by omega)] at this
  omega

theorem fifo_nodup {s : Sys P X} (h : FifoInv s) : (s.dev.map Prod.fst).Nodup := by
  obtain ⟨base, hr, _⟩ := h.ring
  rw [hr, List.nodup_iff_pairwise_ne, List.pairwise_map]
  refine List.Pairwise.imp_of_mem ?_ (List.nodup_range (n := s.dev.length))
  intro a b ha hb hab he
  rw [List.mem_range] at ha hb
  have hle := h.le
  rcases Nat.lt_or_gt_of_ne hab with hlt | hlt
  · have : (base + b - (base + a)) % s.ex.maxq = 0 := Nat.sub_mod_eq_zero_of_mod_eq he.symm
    rw [show base + b - (base + a) = b - a by omega, Nat.mod_eq_of_lt (by omega)] at this
    omega
  · have : (base + a - (base + b)) % s.ex.maxq = 0 := Nat.sub_mod_eq_zero_of_mod_eq he
    rw [show base + a - (base + b) = a - b by omega, Nat.mod_eq_of_lt (by omega)] at this
    omega

theorem fifo_step {s : Sys P X} (h : FifoInv s) (op : Op P X) (hop : Fifo op) : FifoInv (s.step op) := by
  have hlen : s.ex.pending.length = s.dev.length := by rw [h.pend]; simp
  cases op with
  | send p o =>
    obtain ⟨rfl, rfl⟩ := hop
    by_cases hfull : s.ex.maxq ≤ s.ex.pending.length
    · simp only [Sys.step, Executer.send, nextPacketIndex, hfull, ge_iff_le, if_true]
      exact ⟨h.pend, h.le, h.ring⟩
    · have hl : s.dev.length < s.ex.maxq := by omega
      have hk : s.ex.index ∉ Dict.keys s.ex.pending := by rw [h.pend, keys_entry]; exact fifo_free h hl
      simp only [Sys.step, Executer.send, nextPacketIndex, hfull, ge_iff_le, if_false, if_true, osSend,
        Dict.set_fresh _ _ _ hk]
      refine ⟨by simp [h.pend, entry], by simp; omega, ?_⟩
      obtain ⟨base, hr, hi⟩ := h.ring
      have hi' := hi (by omega)
      refine ⟨base, ?_, ?_⟩
      · simp [List.range_succ, hr, hi']
      · intro _
        simp [hi', Nat.add_assoc]
  | complete i o =>
    simp only [Fifo] at hop
    subst hop
    cases hd : s.dev with
    | nil =>
      simp only [Sys.step, Sys.recv, process, devRecv, hd, List.getElem?_nil]
      exact ⟨by simp [h.pend, hd], by simp, ⟨s.ex.index, by simp, fun hp => by
        obtain ⟨base, _, hi⟩ := h.ring
        have := hi hp
        rw [this]; simp⟩⟩
    | cons q r =>
      obtain ⟨pid, t⟩ := q
      have hp : s.ex.pending[0]? = some (pid, ((pid, t), some t)) := by rw [h.pend, hd]; simp [entry]
      have hnd : (Dict.keys s.ex.pending).Nodup := by rw [h.pend, keys_entry]; exact fifo_nodup h
      obtain ⟨hg, he⟩ := Dict.get_erase_of_getElem _ hnd 0 pid _ hp
      simp only [Sys.step, Sys.recv, process, devRecv, hd, List.getElem?_cons_zero, hg, he]
      have hle := h.le
      rw [hd] at hle
      refine ⟨by simp [h.pend, hd], by simp at hle ⊢; omega, ?_⟩
      obtain ⟨base, hr, hi⟩ := h.ring
      rw [hd] at hr hi
      refine ⟨base + 1, ?_, ?_⟩
      · simp only [List.map_cons, List.length_cons, List.range_succ_eq_map, List.map_map] at hr
        simp only [List.cons.injEq] at hr
        simp only [List.eraseIdx_cons_zero]
        rw [hr.2]
        apply List.map_congr_left
        intro j _
        simp only [Function.comp]
        congr 1; omega
      · intro hp
        have := hi hp
        simp only [List.eraseIdx_cons_zero]
        rw [this]
        simp only [List.length_cons]
        congr 1; omega
  | stray pid o => exact hop.elim
  | recvError e =>
    simp only [Sys.step, Sys.recv, process, devRecv]
    exact ⟨h.pend, h.le, h.ring⟩

theorem noReuse_of_fifo (ops : List (Op P X)) (hf : ∀ op ∈ ops, Fifo op) (s : Sys P X) (h : FifoInv s) :
    s.NoReuse ops := by
  induction ops generalizing s with
  | nil => trivial
  | cons op ops ih =>
    have h1 := hf op (List.mem_cons_self ..)
    refine ⟨?_, ih (fun o ho => hf o (List.mem_cons_of_mem _ ho)) _ (fifo_step h op h1)⟩
    cases op with
    | send p o => exact fun _ hl => fifo_free h hl
    | stray pid o => exact h1.elim
    | complete i o => trivial
    | recvError e => trivial

/-- **C02.** If there is only one slot, or commands are issued one at a time, or the device is FIFO and no send fails,
then for every history (of any length) the user observes exactly the ideal executer. -/
theorem C02 (maxq : Nat) (ops : List (Op P X))
    (h : ((∀ op ∈ ops, NotStray op) ∧ (maxq = 1 ∨ (Sys.init maxq).Serial ops)) ∨ (∀ op ∈ ops, Fifo op)) :
    (Sys.run maxq ops).log = (Ideal.run maxq ops).log := by
  apply C01_partial
  rcases h with ⟨hns, rfl | h⟩ | h
  · exact noReuse_of_one ops hns _ rfl
  · exact noReuse_of_serial ops hns _ h
  · exact noReuse_of_fifo ops h _ ⟨rfl, by simp [Sys.init], ⟨0, by simp [Sys.init, St.init]⟩⟩

example : ∀ op ∈ ([.send true true, .send true true, .complete 0 (.data 5), .send true true, .recvError .ioError,
    .complete 0 (.exc 2)] : List (Op Nat Nat)), Fifo op := by simp [Fifo]

example : (Sys.init 4 : Sys Nat Nat).Serial [.send true false, .send true true, .complete 0 (.data 5),
    .send true true] := by
  simp [Sys.Serial, Sys.step, Sys.recv, Sys.init, St.init, Executer.send, nextPacketIndex, osSend,
    process, devRecv, Dict.set, Dict.get, Dict.erase, tag, cbArgs]

/-! ## C03 -/

/-- **C03 (refusal).** `is_queue_full()` is true exactly when at least `max_queue_size` commands are pending, and then
`send` raises and changes neither the executer nor the device, whatever the platform functions would do. -/
theorem C03_refused (prepare : Nat → Py Q) (osSend : Q → ω → Py Unit × ω) (cb : Option K) (s : St Q K) (w : ω)
    (h : isQueueFull s = true) :
    ∃ e, send prepare osSend cb s w = ⟨.error e, s, w⟩ := by
  refine ⟨.nameError, ?_⟩
  have : s.maxq ≤ s.pending.length := by simpa [isQueueFull] using h
  simp [send, nextPacketIndex, this]

example : isQueueFull ({ pending := [(0, (7, some 3)), (1, (8, none))], index := 0, maxq := 2 } : St Nat Nat) = true := by
  decide

theorem isQueueFull_iff (s : St Q K) : isQueueFull s = true ↔ s.maxq ≤ s.pending.length := by simp [isQueueFull]

theorem step_pending_le (s : Sys P X) (op : Op P X) (h : s.ex.pending.length ≤ s.ex.maxq) :
    (s.step op).ex.pending.length ≤ s.ex.maxq := by
  have hrecv : ∀ op, (s.recv op).ex.pending.length ≤ s.ex.maxq := by
    intro op
    simp only [Sys.recv, process]
    split
    · exact h
    · split
      · exact h
      · split <;> exact Nat.le_trans (Dict.length_erase_le _ _) h
  cases op with
  | send p o =>
    by_cases hfull : s.ex.maxq ≤ s.ex.pending.length
    · simp only [Sys.step, Executer.send, nextPacketIndex, hfull, ge_iff_le, if_true]
      exact h
    · simp only [Sys.step, Executer.send, nextPacketIndex, hfull, ge_iff_le, if_false]
      cases p
      · exact h
      · cases o
        · simp only [osSend, if_true]
          exact Nat.le_trans (Dict.length_erase_set_le _ _ _) h
        · simp only [osSend, if_true]
          have := Dict.length_set_le s.ex.pending s.ex.index ((s.ex.index, s.next), some s.next)
          omega
  | complete i o => exact hrecv _
  | stray pid o => exact hrecv _
  | recvError e => exact hrecv _

/-- **C03 (pending list), unconditional**: over every history the executer never lists more than `max_queue_size`
commands as pending, so `is_queue_full()` is true exactly when it lists `max_queue_size`. -/
theorem C03_pending (maxq : Nat) (ops : List (Op P X)) :
    (Sys.run maxq ops).ex.pending.length ≤ maxq ∧
    (isQueueFull (Sys.run maxq ops).ex = true ↔ (Sys.run maxq ops).ex.pending.length = maxq) := by
  have hmax : ∀ (s : Sys P X) ops, (s.runFrom ops).ex.maxq = s.ex.maxq := by
    intro s ops
    induction ops generalizing s with
    | nil => rfl
    | cons op ops ih => exact (ih (s.step op)).trans (step_maxq s op)
  have hle : ∀ (s : Sys P X) ops, s.ex.pending.length ≤ s.ex.maxq → (s.runFrom ops).ex.pending.length ≤ s.ex.maxq := by
    intro s ops
    induction ops generalizing s with
    | nil => exact fun h => h
    | cons op ops ih =>
      intro h
      have h1 := step_pending_le s op h
      have h2 := ih (s.step op) (by rw [step_maxq]; exact h1)
      rw [step_maxq] at h2
      exact h2
  have h1 : (Sys.run maxq ops).ex.pending.length ≤ maxq := hle (Sys.init maxq) ops (by simp [Sys.init, St.init])
  have h2 : (Sys.run maxq ops).ex.maxq = maxq := hmax (Sys.init maxq) ops
  refine ⟨h1, ?_⟩
  rw [isQueueFull_iff, h2]
  omega

/-- **C03** (partial: no packet-number reuse, cf. `C03_false`): at most `max_queue_size` commands are held by the device
and the queue is full exactly when that many are. -/
theorem C03_partial (maxq : Nat) (ops : List (Op P X)) (h : (Sys.init maxq).NoReuse ops) :
    (Sys.run maxq ops).dev.length ≤ maxq ∧
    (isQueueFull (Sys.run maxq ops).ex = true ↔ (Sys.run maxq ops).dev.length = maxq) := by
  have hs := sim_run ops (sim_init maxq) h
  have hp : (Sys.run maxq ops).ex.pending.length = (Sys.run maxq ops).dev.length := by
    have := hs.pend
    show (Sys.runFrom (Sys.init maxq) ops).ex.pending.length = _
    rw [this]; simp [Sys.run]
  have := C03_pending maxq ops
  rw [hp] at this
  exact this

theorem runFrom_append (s : Sys P X) (a b : List (Op P X)) : s.runFrom (a ++ b) = (s.runFrom a).runFrom b := by
  simp [Sys.runFrom, List.foldl_append]

/-- **C03 is false in general**: with `max_queue_size = 2` the number of commands outstanding at the device can be made
as large as one likes. -/
theorem C03_false (n : Nat) : ∃ ops : List (Op Nat Nat), (∀ op ∈ ops, NotStray op) ∧ n < (Sys.run 2 ops).dev.length := by
  suffices h : ∀ n, ∃ ops : List (Op Nat Nat), (∀ op ∈ ops, NotStray op) ∧ n < (Sys.run 2 ops).dev.length ∧
      (Sys.run 2 ops).ex.index = 0 ∧ (Sys.run 2 ops).ex.maxq = 2 ∧
      ∃ v, (Sys.run 2 ops).ex.pending = [(0, v)] by
    obtain ⟨ops, h1, h2, _⟩ := h n
    exact ⟨ops, h1, h2⟩
  intro n
  induction n with
  | zero =>
    refine ⟨[.send true true, .send true true, .complete 1 (.data 0)], by simp [NotStray], ?_⟩
    simp [Sys.run, Sys.runFrom, Sys.step, Sys.recv, Sys.init, St.init, Executer.send, nextPacketIndex, osSend,
        process, devRecv, Dict.set, Dict.get, Dict.erase, tag, cbArgs]
  | succ n ih =>
    obtain ⟨ops, h1, h2, h3, h4, v, h5⟩ := ih
    refine ⟨ops ++ [.send true true, .send true true, .complete ((Sys.run 2 ops).dev.length + 1) (.data 0)], ?_, ?_⟩
    · intro op hop
      simp only [List.mem_append] at hop
      rcases hop with hop | hop
      · exact h1 op hop
      · revert op; simp [NotStray]
    · have hrun : ∀ x, Sys.run 2 (ops ++ x) = (Sys.run 2 ops).runFrom x := fun x => runFrom_append _ _ _
      rw [hrun]
      generalize Sys.run 2 ops = s at *
      obtain ⟨⟨pend, idx, mq⟩, dev, next, log⟩ := s
      simp only at h2 h3 h4 h5
      subst h3 h4 h5
      simp [Sys.runFrom, Sys.step, Sys.recv, Executer.send, nextPacketIndex, osSend,
        process, devRecv, Dict.set, Dict.get, Dict.erase, tag, cbArgs, List.eraseIdx_append]
      rw [if_neg (by omega)]
      simp
      omega

/-! ## C04 -/

/-- **C04** (partial: the failing command's packet number must not be in use, cf. `C04_false`): whenever `send` raises,
the exception is the platform's (or the queue-full one), and the pending commands are exactly those pending before; if
preparing failed, nothing was given to the operating system. -/
theorem C04_partial (prepare : Nat → Py Q) (osSend : Q → ω → Py Unit × ω) (cb : Option K) (s : St Q K) (w : ω) (e : PyErr)
    (hfree : s.index ∉ Dict.keys s.pending) (h : (send prepare osSend cb s w).out = .error e) :
    (send prepare osSend cb s w).st.pending = s.pending ∧
    ((isQueueFull s = true ∧ (send prepare osSend cb s w).os = w) ∨
     (prepare s.index = .error e ∧ (send prepare osSend cb s w).os = w) ∨
     (∃ q, prepare s.index = .ok q ∧ osSend q w = (.error e, (send prepare osSend cb s w).os))) := by
  by_cases hfull : s.maxq ≤ s.pending.length
  · simp [send, nextPacketIndex, hfull, isQueueFull]
  · revert h
    simp only [send, nextPacketIndex, hfull, ge_iff_le, if_false]
    cases hp : prepare s.index with
    | error e' => simp only [Except.error.injEq]; rintro rfl; simp
    | ok q =>
      dsimp only
      rw [Dict.set_fresh _ _ _ hfree, Dict.erase_append_fresh _ _ _ hfree]
      cases ho : osSend q w with
      | mk r w' =>
        cases r with
        | error e' => simp only [Except.error.injEq]; rintro rfl; simp [ho]
        | ok _ => simp

/-- **C04 is false in general**: after an out-of-order completion a failing send silently discards another command's
pending entry: its response then raises an internal error instead of reaching its callback. -/
theorem C04_false : ∃ (ops : List (Op Nat Nat)), (∀ op ∈ ops, NotStray op) ∧
    ∃ t, acceptedCount t (Sys.run 2 ops).log = 1 ∧ firedCount t (Sys.run 2 ops).log = 0 ∧
      t ∉ (Sys.run 2 ops).dev.map Prod.snd ∧ Ev.raised .asiInternal ∈ (Sys.run 2 ops).log :=
  ⟨[.send true true, .send true true, .complete 1 (.data 11), .send true false, .complete 0 (.data 10)],
    by simp [NotStray], 0, by
      simp [Sys.run, Sys.runFrom, Sys.step, Sys.recv, Sys.init, St.init, Executer.send, nextPacketIndex, osSend,
        process, devRecv, Dict.set, Dict.get, Dict.erase, tag, cbArgs, acceptedCount, firedCount]⟩

/-- A failed send uses up a packet number, which alone can lead to reuse (all completions in order here). -/
theorem C04_index_consumed_false : ∃ (ops : List (Op Nat Nat)), (∀ op ∈ ops, NotStray op) ∧
    (∀ op ∈ ops, ∀ i o, op = .complete i o → i = 0) ∧
    ∃ t t' p, t ≠ t' ∧ Ev.fired t ⟨some (some t', p), none⟩ ∈ (Sys.run 3 ops).log :=
  ⟨[.send true true, .send true false, .send false true, .send true true, .complete 0 (.data 10)],
    by simp [NotStray], by simp, 3, 0, 10, by decide, by
      simp [Sys.run, Sys.runFrom, Sys.step, Sys.recv, Sys.init, St.init, Executer.send, nextPacketIndex, osSend,
        process, devRecv, Dict.set, Dict.get, Dict.erase, tag, cbArgs]⟩

/-! ## C05 -/

/-- **C05 (a)**: whenever `wait` returns normally nothing is pending; and with nothing pending it returns at once,
without touching the device. -/
theorem C05_empty (recv : St Q K → ω → Py (Outcome D E × Nat) × ω) (s : St Q K) (w : ω) :
    ((wait recv s w).out = .ok () → (wait recv s w).st.pending = []) ∧
    (s.pending = [] → wait recv s w = ⟨.ok (), [], s, w⟩) := by
  constructor
  · fun_induction wait recv s w with
    | case1 s w h => intro _; simpa [isQueueEmpty] using h
    | case2 s w h e he => simp
    | case3 s w h b hb hlt r ih => exact ih
  · intro h
    rw [wait]
    simp [isQueueEmpty, h]

theorem Dict.keys_erase_of_nodup {α : Type} (d : Dict α) (k : Nat) (hn : (Dict.keys d).Nodup) :
    Dict.keys (Dict.erase d k) = (Dict.keys d).erase k := by
  induction d with
  | nil => simp [Dict.erase, Dict.keys]
  | cons p r ih =>
    obtain ⟨k', v⟩ := p
    simp only [Dict.keys, List.map_cons, List.nodup_cons] at hn
    by_cases h : k' = k
    · subst h; simp [Dict.erase, Dict.keys]
    · simp only [Dict.erase, h, if_false]
      show k' :: Dict.keys (Dict.erase r k) = (k' :: Dict.keys r).erase k
      rw [ih hn.2, List.erase_cons_tail (by simpa using h)]

theorem Dict.get_mem {α : Type} {d : Dict α} {k : Nat} {v : α} (h : Dict.get d k = some v) : (k, v) ∈ d := by
  induction d with
  | nil => simp [Dict.get] at h
  | cons p r ih =>
    obtain ⟨k', v'⟩ := p
    simp only [Dict.get] at h
    split at h
    · simp at h; simp_all
    · exact List.mem_cons_of_mem _ (ih h)

theorem cbArgs_eq (o : Outcome D E) : cbArgs o = expectArgs o := by cases o <;> rfl

/-- Processing one scripted answer to a pending command. -/
theorem process_scripted (s : St Q K) (o : Outcome D E) (pid : Nat) (rest : List (Outcome D E × Nat)) (cbOf : Nat → K)
    (hcb : ∀ k q cb, (k, (q, cb)) ∈ s.pending → cb = some (cbOf k)) (hm : pid ∈ Dict.keys s.pending) :
    process scripted s ((o, pid) :: rest) =
      ⟨.ok true, some (cbOf pid, expectArgs o), { s with pending := Dict.erase s.pending pid }, rest⟩ := by
  cases hg : Dict.get s.pending pid with
  | none => exact absurd hm ((Dict.get_none_iff _ _).1 hg)
  | some v =>
    obtain ⟨q, cb⟩ := v
    have := hcb pid q cb (Dict.get_mem hg)
    subst this
    simp [process, scripted, hg, cbArgs_eq]

theorem mem_of_mem_erase {α : Type} {d : Dict α} {k : Nat} {p : Nat × α} (h : p ∈ Dict.erase d k) : p ∈ d :=
  (Dict.erase_keys_sublist d k).subset h

/-- **C05 (b)**: if the device answers every pending command exactly once, in any order, `wait` consumes exactly those
answers (and nothing of what follows), invokes each command's callback once with the answer to that command, in the
order of the answers, and returns with nothing pending. -/
theorem C05_drains (s : St Q K) (answers rest : List (Outcome D E × Nat)) (cbOf : Nat → K)
    (hn : (Dict.keys s.pending).Nodup)
    (hcb : ∀ k q cb, (k, (q, cb)) ∈ s.pending → cb = some (cbOf k))
    (hperm : (answers.map Prod.snd).Perm (Dict.keys s.pending)) :
    wait scripted s (answers ++ rest) =
      ⟨.ok (), answers.map (fun a => (cbOf a.2, expectArgs a.1)), { s with pending := [] }, rest⟩ := by
  induction answers generalizing s with
  | nil =>
    have h0 : s.pending = [] := by
      have := hperm.symm.eq_nil
      simpa [Dict.keys] using this
    rw [wait]
    obtain ⟨p, i, m⟩ := s
    simp only at h0
    simp [isQueueEmpty, h0]
  | cons a as ih =>
    obtain ⟨o, pid⟩ := a
    have hmem : pid ∈ Dict.keys s.pending := hperm.subset (by simp)
    have hne : isQueueEmpty s = false := by
      simp only [isQueueEmpty, decide_eq_false_iff_not]
      intro h0
      have : s.pending = [] := List.length_eq_zero_iff.1 h0
      rw [this] at hmem
      simp [Dict.keys] at hmem
    have hp := process_scripted s o pid (as ++ rest) cbOf hcb hmem
    have ih' := ih { s with pending := Dict.erase s.pending pid }
      (by rw [Dict.keys_erase_of_nodup _ _ hn]; exact hn.sublist List.erase_sublist)
      (fun k q cb h => hcb k q cb (mem_of_mem_erase h))
      (by
        show (as.map Prod.snd).Perm (Dict.keys (Dict.erase s.pending pid))
        rw [Dict.keys_erase_of_nodup _ _ hn]
        have := hperm.erase pid
        simpa using this)
    rw [wait]
    simp only [hne, List.cons_append]
    split
    · rename_i h; simp at h
    · split
      · rename_i e he; rw [hp] at he; cases he
      · rw [hp]
        dsimp only
        rw [ih']
        simp

/-- The hypotheses of `C05_drains` are met by two pending commands answered in the reverse order. -/
example : wait scripted ({ pending := [(0, (7, some 100)), (1, (8, some 101))], index := 0, maxq := 2 } : St Nat Nat)
      ([(.data 5, 1), (.exc 6, 0)] ++ [(.data 9, 4)] : List (Outcome Nat Nat × Nat)) =
    ⟨.ok (), [(101, ⟨some 5, none⟩), (100, ⟨none, some 6⟩)], { pending := [], index := 0, maxq := 2 }, [(.data 9, 4)]⟩ :=
  C05_drains _ _ _ (fun k => 100 + k) (by decide) (by simp only [List.mem_cons, Prod.mk.injEq, List.not_mem_nil, or_false]; grind) (by decide)

/-! ## C06 -/

/-- The loop of `call` against a scripted device: it delivers the answers `pre` to their owners and then returns its own. -/
theorem callLoop_scripted (s : St Q (Option K)) (pre : List (Outcome D E × Nat)) (o : Outcome D E) (me : Nat)
    (rest : List (Outcome D E × Nat)) (cbOf : Nat → Option K)
    (hn : (Dict.keys s.pending).Nodup)
    (hcb : ∀ k q cb, (k, (q, cb)) ∈ s.pending → cb = some (cbOf k))
    (hme : cbOf me = none) (hmem : me ∈ Dict.keys s.pending)
    (hpren : (pre.map Prod.snd).Nodup)
    (hpre : ∀ a ∈ pre, a.2 ∈ Dict.keys s.pending ∧ cbOf a.2 ≠ none) :
    let r := callLoop scripted s (pre ++ (o, me) :: rest)
    r.out = expectCall o ∧ r.fired = pre.map (fun a => (cbOf a.2, expectArgs a.1)) ∧ r.os = rest ∧
    (∀ k, k ∈ Dict.keys r.st.pending ↔ k ∈ Dict.keys s.pending ∧ k ≠ me ∧ k ∉ pre.map Prod.snd) := by
  induction pre generalizing s with
  | nil =>
    have hp := process_scripted s o me rest cbOf hcb hmem
    dsimp only
    rw [callLoop]
    simp only [List.nil_append]
    split
    · rename_i e he; rw [hp] at he; cases he
    · rw [hp, hme]
      dsimp only
      have hk : ∀ k, k ∈ Dict.keys (Dict.erase s.pending me) ↔ k ∈ Dict.keys s.pending ∧ k ≠ me ∧ k ∉ List.map Prod.snd ([] : List (Outcome D E × Nat)) := by
        intro k
        rw [Dict.keys_erase_of_nodup _ _ hn, hn.mem_erase_iff]
        simp [and_comm]
      cases o with
      | data d => exact ⟨rfl, rfl, rfl, hk⟩
      | exc e => exact ⟨rfl, rfl, rfl, hk⟩
  | cons a as ih =>
    obtain ⟨o', pid⟩ := a
    obtain ⟨hpm, hpc⟩ := hpre (o', pid) (by simp)
    simp only at hpm hpc
    have hne : pid ≠ me := fun e => hpc (e ▸ hme)
    have hp := process_scripted s o' pid (as ++ (o, me) :: rest) cbOf hcb hpm
    simp only [List.map_cons, List.nodup_cons] at hpren
    have hkeys : Dict.keys (Dict.erase s.pending pid) = (Dict.keys s.pending).erase pid := Dict.keys_erase_of_nodup _ _ hn
    have ih' := ih { s with pending := Dict.erase s.pending pid }
      (by show (Dict.keys (Dict.erase s.pending pid)).Nodup
          rw [hkeys]; exact hn.sublist List.erase_sublist)
      (fun k q cb h => hcb k q cb (mem_of_mem_erase h))
      (by show me ∈ Dict.keys (Dict.erase s.pending pid)
          rw [hkeys, hn.mem_erase_iff]; exact ⟨fun e => hne e.symm, hmem⟩)
      hpren.2
      (fun b hb => ⟨by
          show b.2 ∈ Dict.keys (Dict.erase s.pending pid)
          rw [hkeys, hn.mem_erase_iff]
          exact ⟨fun e => hpren.1 (e ▸ List.mem_map_of_mem hb), (hpre b (List.mem_cons_of_mem _ hb)).1⟩,
        (hpre b (List.mem_cons_of_mem _ hb)).2⟩)
    dsimp only at ih' ⊢
    rw [callLoop]
    simp only [List.cons_append]
    split
    · rename_i e he; rw [hp] at he; cases he
    · rw [hp]
      dsimp only
      split
      · rename_i x args heq
        simp only [Option.some.injEq, Prod.mk.injEq] at heq
        exact absurd heq.1 hpc
      · obtain ⟨h1, h2, h3, h4⟩ := ih'
        refine ⟨h1, ?_, h3, ?_⟩
        · simp [h2]
        · intro k
          rw [h4 k]
          show k ∈ Dict.keys (Dict.erase s.pending pid) ∧ _ ↔ _
          rw [hkeys, hn.mem_erase_iff]
          simp only [List.map_cons, List.mem_cons, not_or]
          constructor
          · rintro ⟨⟨a1, a2⟩, a3, a4⟩; exact ⟨a2, a3, a1, a4⟩
          · rintro ⟨a1, a2, a3, a4⟩; exact ⟨⟨a3, a1⟩, a2, a4⟩

/-- **C06** (partial: `call` must not be handed a packet number still in use, as in C01). From any state with any
commands outstanding, if the device first answers any of the others (each at most once) and then this command with `o`,
`call` returns `o`'s data or raises `o`'s error, the others' callbacks are invoked with their own answers in that
order, nothing further is read from the device, and exactly the unanswered others remain outstanding. -/
theorem C06_partial (prepare : Nat → Py Q) (osSend : Q → List (Outcome D E × Nat) → Py Unit × List (Outcome D E × Nat))
    (s : St Q (Option K)) (w : List (Outcome D E × Nat)) (q : Q)
    (pre : List (Outcome D E × Nat)) (o : Outcome D E) (rest : List (Outcome D E × Nat)) (cbOf : Nat → K)
    (hn : (Dict.keys s.pending).Nodup)
    (hcb : ∀ k q cb, (k, (q, cb)) ∈ s.pending → cb = some (some (cbOf k)))
    (hroom : isQueueFull s = false) (hfree : s.index ∉ Dict.keys s.pending)
    (hprep : prepare s.index = .ok q) (hsend : osSend q w = (.ok (), pre ++ (o, s.index) :: rest))
    (hpren : (pre.map Prod.snd).Nodup) (hpre : ∀ a ∈ pre, a.2 ∈ Dict.keys s.pending) :
    let r := call prepare osSend scripted s w
    r.out = expectCall o ∧ r.fired = pre.map (fun a => (some (cbOf a.2), expectArgs a.1)) ∧ r.os = rest ∧
    (∀ k, k ∈ Dict.keys r.st.pending ↔ k ∈ Dict.keys s.pending ∧ k ∉ pre.map Prod.snd) := by
  have hroom' : ¬ s.maxq ≤ s.pending.length := by
    intro h; rw [(isQueueFull_iff s).2 h] at hroom; cases hroom
  have hs : send prepare osSend (some none) s w =
      ⟨.ok (), { s with pending := s.pending ++ [(s.index, (q, some none))], index := (s.index + 1) % s.maxq },
        pre ++ (o, s.index) :: rest⟩ := by
    simp [send, nextPacketIndex, hroom', hprep, hsend, Dict.set_fresh _ _ _ hfree]
  have hk' : Dict.keys (s.pending ++ [(s.index, (q, some (none : Option K)))]) = Dict.keys s.pending ++ [s.index] := by
    simp [Dict.keys]
  have key := callLoop_scripted
    { s with pending := s.pending ++ [(s.index, (q, some (none : Option K)))], index := (s.index + 1) % s.maxq }
    pre o s.index rest (fun k => if k = s.index then none else some (cbOf k))
    (by
      show (Dict.keys (s.pending ++ _)).Nodup
      rw [hk', List.nodup_append]
      exact ⟨hn, by simp, by intro x hx y hy e; simp at hy; exact hfree (hy ▸ e ▸ hx)⟩)
    (by
      intro k q' cb h
      simp only [List.mem_append, List.mem_singleton, Prod.mk.injEq] at h
      rcases h with h | ⟨rfl, -, rfl⟩
      · have hkm : k ∈ Dict.keys s.pending := List.mem_map.2 ⟨_, h, rfl⟩
        have : ¬ k = s.index := fun e => hfree (e ▸ hkm)
        simp only [this, if_false]
        exact hcb k q' cb h
      · simp)
    (by simp)
    (by show s.index ∈ Dict.keys (s.pending ++ _); rw [hk']; simp)
    hpren
    (by
      intro a ha
      have h1 := hpre a ha
      have h2 : ¬ a.2 = s.index := fun e => hfree (e ▸ h1)
      refine ⟨?_, by simp [h2]⟩
      show a.2 ∈ Dict.keys (s.pending ++ _)
      rw [hk']; simp [h1])
  dsimp only at key ⊢
  simp only [call, hs]
  obtain ⟨h1, h2, h3, h4⟩ := key
  refine ⟨h1, ?_, h3, ?_⟩
  · rw [h2]
    apply List.map_congr_left
    intro a ha
    have h2 : ¬ a.2 = s.index := fun e => hfree (e ▸ hpre a ha)
    simp [h2]
  · intro k
    rw [h4 k]
    show k ∈ Dict.keys (s.pending ++ _) ∧ _ ↔ _
    rw [hk']
    simp only [List.mem_append, List.mem_singleton]
    constructor
    · rintro ⟨a | a, b, c⟩
      · exact ⟨a, c⟩
      · exact absurd a b
    · rintro ⟨a, b⟩
      exact ⟨.inl a, fun e => hfree (e ▸ a), b⟩

example : (call (K := Nat) (fun i => .ok (i, 9)) (fun _ _ => (.ok (), [(.data 5, 0)] ++ (.data 6, 1) :: [(.data 7, 9)])) scripted
      ({ pending := [(0, ((0, 8), some (some 100)))], index := 1, maxq := 2 } : St (Nat × Nat) (Option Nat))
      ([] : List (Outcome Nat Nat × Nat))).out = .ok (some 6) :=
  (C06_partial _ _ _ _ (1, 9) [(.data 5, 0)] (.data 6) [(.data 7, 9)] (fun k => 100 + k) (by decide) (by simp; grind)
    (by decide) (by decide) rfl rfl (by decide) (by simp [Dict.keys])).1

/-- Two commands are sent on a fresh executer with two slots and the younger one is answered. -/
def afterTwo : St Nat (Option Nat) :=
  let prepare : Nat → Py Nat := .ok
  let osSend : Nat → List (Outcome Nat Nat × Nat) → Py Unit × List (Outcome Nat Nat × Nat) := fun _ w => (.ok (), w)
  let s1 := send prepare osSend (some (some 100)) (St.init Nat (Option Nat) 2) [(.data 11, 1)]
  let s2 := send prepare osSend (some (some 101)) s1.st s1.os
  (process scripted s2.st s2.os).st

theorem afterTwo_eq : afterTwo = { pending := [(0, (0, some (some 100)))], index := 0, maxq := 2 } := by
  simp [afterTwo, send, nextPacketIndex, St.init, Dict.set, Dict.get, Dict.erase, process, scripted, cbArgs]

/-- **C06 is false in general**: from `afterTwo` a `call` gets the packet number of the older command; when the device answers the older
command with 5 and then this one with 6, `call` returns 5, and the older command's callback is never invoked. -/
theorem C06_false : ¬ ∀ (o1 o2 : Outcome Nat Nat),
    let r := call (fun i => .ok i) (fun _ _ => (.ok (), [(o1, 0), (o2, 0)])) scripted afterTwo ([] : List (Outcome Nat Nat × Nat))
    r.out = expectCall o2 ∧ r.fired = [(some 100, expectArgs o1)] := by
  intro h
  have := (h (.data 5) (.data 6)).1
  rw [afterTwo_eq] at this
  simp [call, send, nextPacketIndex, Dict.set, expectCall] at this
  unfold callLoop at this
  simp [process, scripted, Dict.get, Dict.erase, cbArgs] at this

/-! ## C07 -/

/-- **C07.** Whatever the platform's receive function: if it returns a response whose packet number belongs to no pending
command, an internal error is raised, no callback is invoked and the executer is unchanged. -/
theorem C07 (recv : St Q K → ω → Py (Outcome D E × Nat) × ω) (s : St Q K) (w w' : ω) (o : Outcome D E) (pid : Nat)
    (hr : recv s w = (.ok (o, pid), w')) (hp : pid ∉ Dict.keys s.pending) :
    process recv s w = ⟨.error .asiInternal, none, s, w'⟩ := by
  have := (Dict.get_none_iff _ _).2 hp
  simp [process, hr, this]

example : (process scripted ({ pending := [(0, (7, some 100))], index := 1, maxq := 2 } : St Nat Nat)
    ([(.data 5, 1)] : List (Outcome Nat Nat × Nat))).out = .error .asiInternal := by
  rw [C07 scripted _ _ [] (.data 5) 1 rfl (by decide)]

/-! ## C08 -/

/-- **C08 (a)**: whenever a callback is invoked, the response just received was for its packet and it gets
`(data, None)` if that response is data and `(None, error)` if it is an error. -/
theorem C08_args (recv : St Q K → ω → Py (Outcome D E × Nat) × ω) (s : St Q K) (w : ω) (k : K) (a : CbArgs D E)
    (h : (process recv s w).fired = some (k, a)) :
    ∃ o pid w' q, recv s w = (.ok (o, pid), w') ∧ Dict.get s.pending pid = some (q, some k) ∧
      ((∃ d, o = .data d ∧ a.data = some d ∧ a.exc = none) ∨ (∃ e, o = .exc e ∧ a.data = none ∧ a.exc = some e)) := by
  revert h
  unfold process
  split
  · simp
  · rename_i o pid w' hr
    split
    · simp
    · rename_i q cb hg
      dsimp only
      split
      · simp
      · simp only [Option.some.injEq, Prod.mk.injEq]
        rintro ⟨rfl, rfl⟩
        refine ⟨o, pid, w', q, hr, hg, ?_⟩
        cases o with
        | data d => exact .inl ⟨d, rfl, rfl, rfl⟩
        | exc e => exact .inr ⟨e, rfl, rfl, rfl⟩

/-- The loop of `call` returns normally only with data. -/
theorem C08_callLoop (recv : St Q (Option K) → ω → Py (Outcome D E × Nat) × ω) (s : St Q (Option K)) (w : ω)
    (d : Option D) (h : (callLoop recv s w).out = .ok d) :
    ∃ s' w' w'' q pid d', Processed recv s w s' w' ∧ Dict.get s'.pending pid = some (q, some none) ∧
      recv s' w' = (.ok (.data d', pid), w'') ∧ d = some d' := by
  have key : ∀ (s : St Q (Option K)) w, ∀ b, (process recv s w).out = .ok b → b = true := by
    intro s w b
    unfold process
    split
    · simp
    · split
      · simp
      · dsimp only; split <;> simp
  fun_induction callLoop recv s w with
  | case1 s w e he => cases h
  | case2 s w b hb hlt args hf e hexc => cases h
  | case3 s w b hb hlt args hf hexc =>
    obtain ⟨o, pid, w', q, h1, h2, h3⟩ := C08_args recv s w none args hf
    rcases h3 with ⟨d', rfl, h4, h5⟩ | ⟨e, rfl, h4, h5⟩
    · refine ⟨s, w, w', q, pid, d', .refl .., h2, h1, ?_⟩
      simp only [Except.ok.injEq] at h
      rw [← h, h4]
    · rw [hexc] at h5; cases h5
  | case4 s w b hb hlt hne r ih =>
    obtain ⟨s', w', w'', q, pid, d', h1, h2⟩ := ih h
    have := key s w b hb
    subst this
    exact ⟨s', w', w'', q, pid, d', .step hb h1, h2⟩

/-- **C08 (b)**: against any device, if `call` returns normally (with `d`), then a response was received that is data
(not an error), for a packet whose callback is this call's own, and `d` is that data. -/
theorem C08_call (prepare : Nat → Py Q) (osSend : Q → ω → Py Unit × ω)
    (recv : St Q (Option K) → ω → Py (Outcome D E × Nat) × ω) (s : St Q (Option K)) (w : ω) (d : Option D)
    (h : (call prepare osSend recv s w).out = .ok d) :
    ∃ s' w' w'' q pid d', Dict.get s'.pending pid = some (q, some none) ∧
      recv s' w' = (.ok (.data d', pid), w'') ∧ d = some d' := by
  revert h
  simp only [call]
  split
  · intro h; cases h
  · intro h
    obtain ⟨s', w', w'', q, pid, d', _, h2⟩ := C08_callLoop recv _ _ d h
    exact ⟨s', w', w'', q, pid, d', h2⟩

example : (call (K := Nat) (fun i => .ok i) (fun _ w => (.ok (), w)) scripted
      (St.init Nat (Option Nat) 1) ([(.data 5, 0)] : List (Outcome Nat Nat × Nat))).out = .ok (some 5) :=
  (C06_partial _ _ _ _ 0 [] (.data 5) [] (fun k => k) (by decide) (by simp [St.init])
    (by decide) (by decide) rfl rfl (by decide) (by simp)).1

end Verif.Executer
