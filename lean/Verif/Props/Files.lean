import Verif.Spec.Files
/-!
# C93: a file object acts on the file it was made for, or on none

Proved for all programs on Windows. On Unix `close` keeps the descriptor, so only for programs that leave closed objects alone; otherwise the object acts on whatever
file was given the number since (`C93_exact`, `C93_false`).
-/

namespace Verif.Files

/-- The object closed a file. -/
def Closed (log : List Event) (i : Nat) : Prop := ∃ e ∈ log, e.obj = i ∧ e.closing = true ∧ e.file ≠ none

/-- What holds at all times. -/
structure Inv (st : St) (log : List Event) : Prop where
  known : ∀ n f, st.kernel.table n = some f → f < st.kernel.next
  single : ∀ n n' f, st.kernel.table n = some f → st.kernel.table n' = some f → n = n'
  invalid : st.kernel.table (-1) = none
  live : ∀ (i : Nat) o, st.mine[i]? = some o → ¬ Closed log i → st.kernel.table o.num = some o.file
  dead : ∀ (i : Nat) o, st.mine[i]? = some o → Closed log i → ∀ n, st.kernel.table n ≠ some o.file
  mine : ∀ (i : Nat) o, st.mine[i]? = some o → o.file < st.kernel.next
  distinct : ∀ (i j : Nat) o o', st.mine[i]? = some o → st.mine[j]? = some o' → o.file = o'.file → i = j
  others : Intact st
  apart : ∀ (j j' : Nat) o o', st.others[j]? = some o → st.others[j']? = some o' → o.isOpen = true → o'.isOpen = true → o.file = o'.file → j = j'
  foreign : ∀ (i j : Nat) o o', st.mine[i]? = some o → st.others[j]? = some o' → o'.isOpen = true → o.file ≠ o'.file
  made : ∀ i, Closed log i → i < st.mine.length
  own : Own st log
  once : Once log

/-- The class acts on the open file a number refers to, and closes it. -/
structure Honest (cls : Cls) : Prop where
  use : ∀ n f k, k.table n = some f → cls.use n k = ⟨.ok (), some f, n, k⟩
  close : ∀ n f k, k.table n = some f → n ≠ -1 → ∃ n', cls.close n k = ⟨.ok (), some f, n', k.without n⟩

theorem honest_unix : Honest unixFile :=
  ⟨fun n f k h => by simp [unixFile, h], fun n f k h _ => ⟨n, by simp [unixFile, h]⟩⟩

theorem honest_win32 : Honest win32File :=
  ⟨fun n f k h => by simp [win32File, h], fun n f k h h' => ⟨-1, by simp [win32File, h, h']⟩⟩

/-- The step does something with this object. -/
def Touches (a : Step) (i : Nat) : Prop := a = .use i ∨ a = .close i

/-- A closed object does nothing. -/
def Idle (cls : Cls) (st : St) (i : Nat) : Prop :=
  ∀ o, st.mine[i]? = some o → ((cls.use o.num st.kernel).file = none ∧ (cls.use o.num st.kernel).num = o.num ∧ (cls.use o.num st.kernel).kernel = st.kernel) ∧
    ((cls.close o.num st.kernel).file = none ∧ (cls.close o.num st.kernel).num = o.num ∧ (cls.close o.num st.kernel).kernel = st.kernel)

theorem closed_append (log log' : List Event) (i : Nat) : Closed (log ++ log') i ↔ Closed log i ∨ Closed log' i := by
  simp only [Closed, List.mem_append]
  constructor
  · rintro ⟨e, h | h, r⟩
    · exact .inl ⟨e, h, r⟩
    · exact .inr ⟨e, h, r⟩
  · rintro (⟨e, h, r⟩ | ⟨e, h, r⟩)
    · exact ⟨e, .inl h, r⟩
    · exact ⟨e, .inr h, r⟩

theorem closed_one (e : Event) (i : Nat) : Closed [e] i ↔ e.obj = i ∧ e.closing = true ∧ e.file ≠ none := by
  simp [Closed]

/-- An event in which no file was closed changes nothing about who is closed. -/
theorem closed_harmless (log : List Event) (e : Event) (h : e.closing = false ∨ e.file = none) (i : Nat) : Closed (log ++ [e]) i ↔ Closed log i := by
  rw [closed_append, closed_one]
  constructor
  · rintro (h' | ⟨-, h1, h2⟩)
    · exact h'
    · rcases h with h | h
      · rw [h] at h1; cases h1
      · exact absurd h h2
  · exact .inl

theorem once_append (log : List Event) (e : Event) (h : Once log) (he : Closed log e.obj → e.file = none) : Once (log ++ [e]) := by
  unfold Once at *
  rw [List.pairwise_append]
  refine ⟨h, List.pairwise_singleton _ _, ?_⟩
  intro x hx y hy h1 h2 h3
  rw [List.mem_singleton] at hy
  subst hy
  exact he ⟨x, hx, h3.symm, h1, h2⟩

/-- A step that changes neither the state nor closes anything, of an object that acts on its own file or none. -/
theorem inv_quiet {st : St} {log : List Event} (h : Inv st log) (e : Event) (he : e.closing = false ∨ e.file = none)
    (ho : ∀ f, e.file = some f → ∃ o, st.mine[e.obj]? = some o ∧ o.file = f) (hc : Closed log e.obj → e.file = none) : Inv st (log ++ [e]) where
  known := h.known
  single := h.single
  invalid := h.invalid
  live i o hi hn := h.live i o hi (fun hx => hn ((closed_harmless log e he i).2 hx))
  dead i o hi hn := h.dead i o hi ((closed_harmless log e he i).1 hn)
  mine := h.mine
  distinct := h.distinct
  others := h.others
  apart := h.apart
  foreign := h.foreign
  made i hn := h.made i ((closed_harmless log e he i).1 hn)
  own := by
    intro x hx f hf
    rcases List.mem_append.1 hx with hx | hx
    · exact h.own x hx f hf
    · rw [List.mem_singleton] at hx
      subst hx
      exact ho f hf
  once := once_append log e h.once hc

theorem set_self (l : List Obj) (i : Nat) (o : Obj) (h : l[i]? = some o) : l.set i { o with num := o.num } = l := by
  apply List.ext_getElem?
  intro k
  rw [List.getElem?_set]
  by_cases hk : i = k
  · subst hk
    obtain ⟨hl, -⟩ := List.getElem?_eq_some_iff.1 h
    rw [if_pos rfl, if_pos hl, h]
  · simp [hk]

/-- A new open file, whoever opened it. -/
theorem opening_inv {st : St} {log : List Event} (h : Inv st log) {pick : Pick} (hp : Proper pick) {n : Int} (hn : pick st.kernel.table = some n) :
    Inv { st with kernel := { table := fun x => if x = n then some st.kernel.next else st.kernel.table x, next := st.kernel.next + 1 } } log := by
  obtain ⟨h0, hfree⟩ := hp _ _ hn
  constructor
  · intro m f hf
    simp only at hf ⊢
    split at hf
    · cases hf; omega
    · exact Nat.lt_succ_of_lt (h.known _ _ hf)
  · intro m m' f h1 h2
    simp only at h1 h2
    split at h1 <;> split at h2
    · omega
    · cases h1; have := h.known _ _ h2; omega
    · cases h2; have := h.known _ _ h1; omega
    · exact h.single _ _ _ h1 h2
  · have : (-1 : Int) ≠ n := by omega
    simp only [this, if_false]
    exact h.invalid
  · intro i o hi hc
    have := h.live i o hi hc
    have hne : o.num ≠ n := by intro e; rw [e, hfree] at this; cases this
    simp only [hne, if_false]
    exact this
  · intro i o hi hc m
    simp only
    split
    · intro e; have := h.mine i o hi; rw [Option.some.injEq] at e; omega
    · exact h.dead i o hi hc m
  · intro i o hi
    exact Nat.lt_succ_of_lt (h.mine i o hi)
  · exact h.distinct
  · intro j o hj hopen
    have := h.others j o hj hopen
    have hne : o.num ≠ n := by intro e; rw [e, hfree] at this; cases this
    simp only [hne, if_false]
    exact this
  · exact h.apart
  · exact h.foreign
  · exact h.made
  · exact h.own
  · exact h.once

theorem others_lt {st : St} {log : List Event} (h : Inv st log) (j : Nat) (o : Other) (hj : st.others[j]? = some o) (ho : o.isOpen = true) :
    o.file < st.kernel.next := h.known _ _ (h.others j o hj ho)

/-- One step keeps the invariant, if closed objects are left alone or do nothing. -/
theorem inv_step {cls : Cls} (hcls : Honest cls) {pick : Pick} (hp : Proper pick) {st : St} {log : List Event} (h : Inv st log) (a : Step)
    (ha : ∀ i, Touches a i → Closed log i → Idle cls st i) :
    Inv (step cls pick st a).1 (log ++ (step cls pick st a).2) := by
  cases a with
  | make =>
    simp only [step, Kernel.opening]
    cases hn : pick st.kernel.table with
    | none => simpa using h
    | some n =>
      simp only [List.append_nil]
      have h1 := opening_inv h hp hn
      have hget : ∀ (i : Nat) o, (st.mine ++ [({ num := n, file := st.kernel.next } : Obj)])[i]? = some o →
          st.mine[i]? = some o ∨ (i = st.mine.length ∧ o = { num := n, file := st.kernel.next }) := by
        intro i o hi
        rw [List.getElem?_append] at hi
        split at hi
        · exact .inl hi
        · have : i - st.mine.length = 0 := by
            rcases Nat.eq_zero_or_pos (i - st.mine.length) with e | e
            · exact e
            · rw [List.getElem?_eq_none (by simp only [List.length_singleton]; omega)] at hi; cases hi
          rw [this] at hi
          simp only [List.getElem?_cons_zero, Option.some.injEq] at hi
          exact .inr ⟨by omega, hi.symm⟩
      exact {
        known := h1.known
        single := h1.single
        invalid := h1.invalid
        live := by
          intro i o hi hc
          rcases hget i o hi with hi | ⟨-, rfl⟩
          · exact h1.live i o hi hc
          · simp
        dead := by
          intro i o hi hc
          rcases hget i o hi with hi | ⟨hi, rfl⟩
          · exact h1.dead i o hi hc
          · have := h.made i hc; omega
        mine := by
          intro i o hi
          rcases hget i o hi with hi | ⟨-, rfl⟩
          · exact h1.mine i o hi
          · simp
        distinct := by
          intro i j o o' hi hj he
          rcases hget i o hi with hi | ⟨hi, rfl⟩ <;> rcases hget j o' hj with hj | ⟨hj, rfl⟩
          · exact h.distinct i j o o' hi hj he
          · have := h.mine i o hi; simp only at he; omega
          · have := h.mine j o' hj; simp only at he; omega
          · omega
        others := h1.others
        apart := h1.apart
        foreign := by
          intro i j o o' hi hj ho
          rcases hget i o hi with hi | ⟨hi, rfl⟩
          · exact h.foreign i j o o' hi hj ho
          · have := others_lt h j o' hj ho; simp only; omega
        made := by intro i hc; have := h.made i hc; simp; omega
        own := by
          intro e he f hf
          obtain ⟨o, ho, hof⟩ := h.own e he f hf
          refine ⟨o, ?_, hof⟩
          obtain ⟨hl, -⟩ := List.getElem?_eq_some_iff.1 ho
          simp only
          rw [List.getElem?_append_left hl]
          exact ho
        once := h.once }
  | use i =>
    simp only [step]
    cases hi : st.mine[i]? with
    | none => simpa using h
    | some o =>
      simp only
      by_cases hc : Closed log i
      · obtain ⟨⟨h1, h2, h3⟩, -⟩ := ha i (.inl rfl) hc o hi
        rw [h2, h3, set_self _ _ _ hi]
        exact inv_quiet h _ (.inl rfl) (by simp [h1]) (fun _ => h1)
      · rw [hcls.use _ _ _ (h.live i o hi hc)]
        simp only
        rw [set_self _ _ _ hi]
        refine inv_quiet h _ (.inl rfl) ?_ (fun hx => absurd hx hc)
        intro f hf
        cases hf
        exact ⟨o, hi, rfl⟩
  | close i =>
    simp only [step]
    cases hi : st.mine[i]? with
    | none => simpa using h
    | some o =>
      simp only
      by_cases hc : Closed log i
      · obtain ⟨-, ⟨h1, h2, h3⟩⟩ := ha i (.inr rfl) hc o hi
        rw [h2, h3, set_self _ _ _ hi]
        exact inv_quiet h _ (.inr h1) (by simp [h1]) (fun _ => h1)
      · have ht := h.live i o hi hc
        have hne : o.num ≠ -1 := by intro e; rw [e, h.invalid] at ht; cases ht
        obtain ⟨n', hd⟩ := hcls.close _ _ _ ht hne
        rw [hd]
        simp only
        have hcl : ∀ j, Closed (log ++ [⟨i, true, .ok (), some o.file⟩]) j ↔ Closed log j ∨ j = i := by
          intro j
          rw [closed_append, closed_one]
          simp [eq_comm]
        have hget : ∀ (j : Nat) o', (st.mine.set i { o with num := n' })[j]? = some o' → (j = i ∧ o' = { o with num := n' }) ∨ (j ≠ i ∧ st.mine[j]? = some o') := by
          intro j o' hj
          rw [List.getElem?_set] at hj
          by_cases hji : i = j
          · subst hji
            obtain ⟨hl, -⟩ := List.getElem?_eq_some_iff.1 hi
            simp only [hl, if_true, Option.some.injEq] at hj
            exact .inl ⟨rfl, hj.symm⟩
          · rw [if_neg hji] at hj
            exact .inr ⟨Ne.symm hji, hj⟩
        have hof : ∀ (j : Nat) o', (st.mine.set i { o with num := n' })[j]? = some o' → ∃ o'', st.mine[j]? = some o'' ∧ o''.file = o'.file := by
          intro j o' hj
          rcases hget j o' hj with ⟨rfl, rfl⟩ | ⟨-, hj⟩
          · exact ⟨o, hi, rfl⟩
          · exact ⟨o', hj, rfl⟩
        have hsub : ∀ m f, (st.kernel.without o.num).table m = some f → m ≠ o.num ∧ st.kernel.table m = some f := by
          intro m f hm
          simp only [Kernel.without] at hm
          split at hm
          · cases hm
          · exact ⟨by assumption, hm⟩
        have hsup : ∀ m f, m ≠ o.num → st.kernel.table m = some f → (st.kernel.without o.num).table m = some f := by
          intro m f hm hf
          simp only [Kernel.without, hm, if_false]
          exact hf
        exact {
          known := fun m f hm => h.known _ _ (hsub m f hm).2
          single := fun m m' f h1 h2 => h.single _ _ _ (hsub m f h1).2 (hsub m' f h2).2
          invalid := by
            simp only [Kernel.without]
            split
            · rfl
            · exact h.invalid
          live := by
            intro j o' hj hn
            rcases hget j o' hj with ⟨rfl, rfl⟩ | ⟨hji, hj⟩
            · exact absurd ((hcl j).2 (.inr rfl)) hn
            · have hl := h.live j o' hj (fun hx => hn ((hcl j).2 (.inl hx)))
              refine hsup _ _ ?_ hl
              intro e
              rw [e, ht] at hl
              exact hji (h.distinct j i o' o hj hi (by simpa using hl.symm))
          dead := by
            intro j o' hj hn m hm
            obtain ⟨h1, h2⟩ := hsub m _ hm
            rcases hget j o' hj with ⟨rfl, rfl⟩ | ⟨hji, hj⟩
            · exact h1 (h.single _ _ _ h2 ht)
            · rcases (hcl j).1 hn with hx | hx
              · exact h.dead j o' hj hx m h2
              · exact hji hx
          mine := by
            intro j o' hj
            obtain ⟨o'', h1, h2⟩ := hof j o' hj
            rw [← h2]
            exact h.mine j o'' h1
          distinct := by
            intro j k oj ok hj hk he
            obtain ⟨oj', h1, h2⟩ := hof j oj hj
            obtain ⟨ok', h3, h4⟩ := hof k ok hk
            exact h.distinct j k oj' ok' h1 h3 (by rw [h2, h4, he])
          others := by
            intro j o' hj hop
            have := h.others j o' hj hop
            refine hsup _ _ ?_ this
            intro e
            rw [e, ht] at this
            exact h.foreign i j o o' hi hj hop (by simpa using this)
          apart := h.apart
          foreign := by
            intro j k oj ok hj hk hop
            obtain ⟨oj', h1, h2⟩ := hof j oj hj
            rw [← h2]
            exact h.foreign j k oj' ok h1 hk hop
          made := by
            intro j hn
            rw [List.length_set]
            rcases (hcl j).1 hn with hx | rfl
            · exact h.made j hx
            · exact (List.getElem?_eq_some_iff.1 hi).1
          own := by
            intro e he f hf
            have : ∃ o', st.mine[e.obj]? = some o' ∧ o'.file = f := by
              rcases List.mem_append.1 he with he | he
              · exact h.own e he f hf
              · rw [List.mem_singleton] at he
                subst he
                cases hf
                exact ⟨o, hi, rfl⟩
            obtain ⟨o', h1, h2⟩ := this
            simp only
            by_cases hei : i = e.obj
            · rw [← hei, List.getElem?_set_self (List.getElem?_eq_some_iff.1 hi).1]
              rw [← hei, hi] at h1
              cases h1
              exact ⟨_, rfl, h2⟩
            · rw [List.getElem?_set_ne hei]
              exact ⟨o', h1, h2⟩
          once := once_append _ _ h.once (fun hx => absurd hx hc) }
  | otherOpen =>
    simp only [step, Kernel.opening]
    cases hn : pick st.kernel.table with
    | none => simpa using h
    | some n =>
      simp only [List.append_nil]
      have h1 := opening_inv h hp hn
      have hget : ∀ (i : Nat) o, (st.others ++ [({ num := n, file := st.kernel.next, isOpen := true } : Other)])[i]? = some o →
          st.others[i]? = some o ∨ (i = st.others.length ∧ o = { num := n, file := st.kernel.next, isOpen := true }) := by
        intro i o hi
        rw [List.getElem?_append] at hi
        split at hi
        · exact .inl hi
        · have : i - st.others.length = 0 := by
            rcases Nat.eq_zero_or_pos (i - st.others.length) with e | e
            · exact e
            · rw [List.getElem?_eq_none (by simp only [List.length_singleton]; omega)] at hi; cases hi
          rw [this] at hi
          simp only [List.getElem?_cons_zero, Option.some.injEq] at hi
          exact .inr ⟨by omega, hi.symm⟩
      exact {
        known := h1.known
        single := h1.single
        invalid := h1.invalid
        live := h1.live
        dead := h1.dead
        mine := h1.mine
        distinct := h1.distinct
        others := by
          intro j o hj hop
          rcases hget j o hj with hj | ⟨-, rfl⟩
          · exact h1.others j o hj hop
          · simp
        apart := by
          intro i j o o' hi hj ho ho' he
          rcases hget i o hi with hi | ⟨hi, rfl⟩ <;> rcases hget j o' hj with hj | ⟨hj, rfl⟩
          · exact h.apart i j o o' hi hj ho ho' he
          · have := others_lt h i o hi ho; simp only at he; omega
          · have := others_lt h j o' hj ho'; simp only at he; omega
          · omega
        foreign := by
          intro i j o o' hi hj ho
          rcases hget j o' hj with hj | ⟨hj, rfl⟩
          · exact h.foreign i j o o' hi hj ho
          · have := h.mine i o hi; simp only; omega
        made := h1.made
        own := h1.own
        once := h.once }
  | otherClose j =>
    simp only [step]
    cases hj : st.others[j]? with
    | none => simpa using h
    | some o =>
      simp only
      by_cases hop : o.isOpen = true
      · simp only [hop, if_true, List.append_nil]
        have ht := h.others j o hj hop
        have hget : ∀ (k : Nat) o', (st.others.set j { o with isOpen := false })[k]? = some o' → o'.isOpen = true → k ≠ j ∧ st.others[k]? = some o' := by
          intro k o' hk ho'
          rw [List.getElem?_set] at hk
          by_cases hjk : j = k
          · subst hjk
            obtain ⟨hl, -⟩ := List.getElem?_eq_some_iff.1 hj
            simp only [hl, if_true, Option.some.injEq] at hk
            subst hk
            cases ho'
          · rw [if_neg hjk] at hk
            exact ⟨Ne.symm hjk, hk⟩
        have hsub : ∀ m f, (st.kernel.without o.num).table m = some f → m ≠ o.num ∧ st.kernel.table m = some f := by
          intro m f hm
          simp only [Kernel.without] at hm
          split at hm
          · cases hm
          · exact ⟨by assumption, hm⟩
        have hsup : ∀ m f, m ≠ o.num → st.kernel.table m = some f → (st.kernel.without o.num).table m = some f := by
          intro m f hm hf
          simp only [Kernel.without, hm, if_false]
          exact hf
        exact {
          known := fun m f hm => h.known _ _ (hsub m f hm).2
          single := fun m m' f h1 h2 => h.single _ _ _ (hsub m f h1).2 (hsub m' f h2).2
          invalid := by
            simp only [Kernel.without]
            split
            · rfl
            · exact h.invalid
          live := by
            intro i o' hi hn
            have hl := h.live i o' hi hn
            refine hsup _ _ ?_ hl
            intro e
            rw [e, ht] at hl
            exact h.foreign i j o' o hi hj hop (by simpa using hl.symm)
          dead := fun i o' hi hn m hm => h.dead i o' hi hn m (hsub m _ hm).2
          mine := h.mine
          distinct := h.distinct
          others := by
            intro k o' hk hop'
            obtain ⟨hkj, hk⟩ := hget k o' hk hop'
            have := h.others k o' hk hop'
            refine hsup _ _ ?_ this
            intro e
            rw [e, ht] at this
            exact hkj (h.apart k j o' o hk hj hop' hop (by simpa using this.symm))
          apart := by
            intro k k' ok ok' hk hk' h1 h2 he
            exact h.apart k k' ok ok' (hget k ok hk h1).2 (hget k' ok' hk' h2).2 h1 h2 he
          foreign := by
            intro i k oi ok hi hk h1
            exact h.foreign i k oi ok hi (hget k ok hk h1).2 h1
          made := h.made
          own := h.own
          once := h.once }
      · rw [if_neg hop]
        simpa using h

theorem inv_start {st : St} (h : Start st) : Inv st [] where
  known := h.known
  single := h.single
  invalid := h.invalid
  live := by rw [h.none]; simp
  dead := by rw [h.none]; simp
  mine := by rw [h.none]; simp
  distinct := by rw [h.none]; simp
  others := h.others
  apart j j' o o' h1 h2 h3 h4 h5 := h.apart j j' o o' h1 h2 h3 h4 (h.single _ _ _ (h.others j o h1 h3) (h5 ▸ h.others j' o' h2 h4))
  foreign := by rw [h.none]; simp
  made := by rintro i ⟨e, he, -⟩; cases he
  own := by intro e he; cases he
  once := List.Pairwise.nil

/-! ## Windows -/

/-- A closed object has forgotten its handle. -/
def Forgets (st : St) (log : List Event) : Prop := ∀ (i : Nat) o, st.mine[i]? = some o → Closed log i → o.num = -1

theorem forgets_step {pick : Pick} {st : St} {log : List Event} (h : Inv st log) (hf : Forgets st log) (a : Step) :
    Forgets (step win32File pick st a).1 (log ++ (step win32File pick st a).2) := by
  cases a with
  | make =>
    simp only [step, Kernel.opening]
    cases hn : pick st.kernel.table with
    | none => simpa using hf
    | some n =>
      simp only [List.append_nil]
      intro i o hi hc
      have := h.made i hc
      simp only at hi
      rw [List.getElem?_append_left this] at hi
      exact hf i o hi hc
  | use i =>
    simp only [step]
    cases hi : st.mine[i]? with
    | none => simpa using hf
    | some o =>
      simp only
      have hn : (win32File.use o.num st.kernel).num = o.num := by simp only [win32File]; split <;> rfl
      rw [hn, set_self _ _ _ hi]
      intro j o' hj hc
      exact hf j o' hj ((closed_harmless log _ (.inl rfl) j).1 hc)
  | close i =>
    simp only [step]
    cases hi : st.mine[i]? with
    | none => simpa using hf
    | some o =>
      simp only
      intro j o' hj hc
      simp only at hj
      rw [List.getElem?_set] at hj
      by_cases hij : i = j
      · subst hij
        obtain ⟨hl, -⟩ := List.getElem?_eq_some_iff.1 hi
        simp only [hl, if_true, Option.some.injEq] at hj
        subst hj
        simp only
        by_cases h1 : o.num = -1
        · simp [win32File, h1]
        · by_cases hcl : Closed log i
          · exact absurd (hf i o hi hcl) h1
          · have ht := h.live i o hi hcl
            simp [win32File, h1, ht]
      · rw [if_neg hij] at hj
        refine hf j o' hj ?_
        rcases (closed_append _ _ _).1 hc with hc | hc
        · exact hc
        · exact absurd ((closed_one _ _).1 hc).1 hij
  | otherOpen =>
    simp only [step, Kernel.opening]
    cases hn : pick st.kernel.table with
    | none => simpa using hf
    | some n => simp only [List.append_nil]; exact hf
  | otherClose j =>
    simp only [step]
    cases hj : st.others[j]? with
    | none => simpa using hf
    | some o =>
      simp only
      by_cases hop : o.isOpen = true
      · rw [if_pos hop]; simp only [List.append_nil]; exact hf
      · rw [if_neg hop]; simpa using hf

theorem inv_run_win32 {pick : Pick} (hp : Proper pick) (p : List Step) :
    ∀ (st : St) (log : List Event), Inv st log → Forgets st log → Inv (run win32File pick st p).1 (log ++ (run win32File pick st p).2) := by
  induction p with
  | nil => intro st log h _; simpa [run] using h
  | cons a p ih =>
    intro st log h hf
    simp only [run]
    rw [← List.append_assoc]
    refine ih _ _ (inv_step honest_win32 hp h a ?_) (forgets_step h hf a)
    intro i _ hc o hi
    have hn := hf i o hi hc
    rw [hn]
    simp [win32File, h.invalid]

/-- **C93, Windows**: whatever the program does, with closed objects too, and whatever other code of the process opens and closes in between: a file object acts on the
open file it was made for, on none after it closed that, and the files of others stay open. -/
theorem C93_windows (pick : Pick) (hp : Proper pick) (st : St) (hst : Start st) (p : List Step) :
    let r := run win32File pick st p
    Own r.1 r.2 ∧ Once r.2 ∧ Intact r.1 := by
  intro r
  have h := inv_run_win32 hp p st [] (inv_start hst) (by rintro i o - ⟨e, he, -⟩; cases he)
  exact ⟨h.own, h.once, h.others⟩

/-! ## What the program is told -/

/-- What a method tells, given what happened before. -/
def Tells (log : List Event) (e : Event) : Prop :=
  (e.file ≠ none → e.out = .ok ()) ∧ (e.file = none → (e.out ≠ .ok () ∨ e.closing = true ∧ Closed log e.obj) ∧ Closed log e.obj)

/-- Every event of a log was told properly. -/
def AllTell (log : List Event) : Prop := ∀ pre e post, log = pre ++ e :: post → Tells pre e

theorem append_singleton_cases {α : Type} {log pre post : List α} {e x : α} (h : log ++ [x] = pre ++ e :: post) :
    (pre = log ∧ e = x) ∨ ∃ q, log = pre ++ e :: q := by
  rcases List.eq_nil_or_concat post with rfl | ⟨q, y, rfl⟩
  · have h' : log ++ [x] = pre ++ [e] := h
    obtain ⟨h1, h2⟩ := List.append_inj' h' rfl
    cases h2
    exact .inl ⟨h1.symm, rfl⟩
  · refine .inr ⟨q, ?_⟩
    have h' : log ++ [x] = (pre ++ e :: q) ++ [y] := by rw [h]; simp
    exact (List.append_inj' h' rfl).1

theorem allTell_append {log : List Event} {e : Event} (h : AllTell log) (he : Tells log e) : AllTell (log ++ [e]) := by
  intro pre x post hx
  rcases append_singleton_cases hx with ⟨rfl, rfl⟩ | ⟨q, hq⟩
  · exact he
  · exact h pre x q hq

/-- The class tells what it did. -/
structure Frank (cls : Cls) : Prop where
  use : ∀ n k, k.table n = none → (cls.use n k).file = none ∧ (cls.use n k).out ≠ .ok ()
  close : ∀ n k, k.table n = none → (cls.close n k).file = none ∧ ((cls.close n k).out ≠ .ok () ∨ n = -1)

theorem frank_unix : Frank unixFile :=
  ⟨fun n k h => by simp [unixFile, h], fun n k h => by simp [unixFile, h]⟩

theorem frank_win32 : Frank win32File := by
  refine ⟨fun n k h => by simp [win32File, h], fun n k h => ?_⟩
  by_cases hn : n = -1
  · simp [win32File, hn]
  · simp [win32File, h, hn]

theorem allTell_step {cls : Cls} (hcls : Honest cls) (hfr : Frank cls) {pick : Pick} {st : St} {log : List Event} (h : Inv st log) (hl : AllTell log)
    (a : Step) : AllTell (log ++ (step cls pick st a).2) := by
  have key : ∀ (i : Nat) o, st.mine[i]? = some o → st.kernel.table o.num = none → Closed log i := by
    intro i o hi ht
    refine Classical.byContradiction fun hc => ?_
    have := h.live i o hi hc
    rw [ht] at this
    cases this
  have hne : ∀ n f, st.kernel.table n = some f → n ≠ -1 := by
    intro n f hf e
    rw [e, h.invalid] at hf
    cases hf
  cases a with
  | make => simp only [step, Kernel.opening]; cases pick st.kernel.table <;> simpa using hl
  | otherOpen => simp only [step, Kernel.opening]; cases pick st.kernel.table <;> simpa using hl
  | otherClose j =>
    simp only [step]
    cases st.others[j]? with
    | none => simpa using hl
    | some o => simp only; split <;> simpa using hl
  | use i =>
    simp only [step]
    cases hi : st.mine[i]? with
    | none => simpa using hl
    | some o =>
      simp only
      refine allTell_append hl ?_
      cases ht : st.kernel.table o.num with
      | some f => rw [hcls.use _ _ _ ht]; exact ⟨fun _ => rfl, fun hx => (nomatch hx)⟩
      | none =>
        obtain ⟨h1, h2⟩ := hfr.use _ _ ht
        exact ⟨fun hx => absurd h1 hx, fun _ => ⟨.inl h2, key i o hi ht⟩⟩
  | close i =>
    simp only [step]
    cases hi : st.mine[i]? with
    | none => simpa using hl
    | some o =>
      simp only
      refine allTell_append hl ?_
      cases ht : st.kernel.table o.num with
      | some f =>
        obtain ⟨n', hn'⟩ := hcls.close _ _ _ ht (hne _ _ ht)
        rw [hn']; exact ⟨fun _ => rfl, fun hx => (nomatch hx)⟩
      | none =>
        obtain ⟨h1, h2⟩ := hfr.close _ _ ht
        exact ⟨fun hx => absurd h1 hx, fun _ => ⟨h2.imp id (fun _ => ⟨rfl, key i o hi ht⟩), key i o hi ht⟩⟩

theorem usable_of {log : List Event} (h : AllTell log) : Usable log := by
  intro pre e post hl hx
  obtain ⟨h1, h2⟩ := h pre e post hl
  have hf : e.file ≠ none := by
    intro hf
    obtain ⟨x, hm, hxo, hxc, -⟩ := (h2 hf).2
    rw [hx x hm hxo] at hxc
    cases hxc
  exact ⟨hf, h1 hf⟩

theorem truthful_of {log : List Event} (h : AllTell log) : Truthful log := by
  intro pre e post hl
  obtain ⟨h1, h2⟩ := h pre e post hl
  refine ⟨h1, fun hf => (h2 hf).1.imp id ?_⟩
  rintro ⟨hc, x, hm, hxo, hxc, hxf⟩
  refine ⟨hc, x, hm, hxo, hxc, ?_⟩
  obtain ⟨a, b, rfl⟩ := List.append_of_mem hm
  exact (h a x (b ++ e :: post) (by rw [hl]; simp)).1 hxf

theorem tell_run_win32 {pick : Pick} (hp : Proper pick) (p : List Step) :
    ∀ (st : St) (log : List Event), Inv st log → Forgets st log → AllTell log → AllTell (log ++ (run win32File pick st p).2) := by
  induction p with
  | nil => intro st log _ _ hl; simpa [run] using hl
  | cons a p ih =>
    intro st log h hf hl
    simp only [run]
    rw [← List.append_assoc]
    refine ih _ _ (inv_step honest_win32 hp h a ?_) (forgets_step h hf a) (allTell_step honest_win32 frank_win32 h hl a)
    intro i _ hc o hi
    have hn := hf i o hi hc
    rw [hn]
    simp [win32File, h.invalid]

theorem allTell_nil : AllTell [] := by
  intro pre e post h
  simp at h

/-- **C93, what the program is told, Windows**: whatever it does, an object that was not closed works, and a method that found no file raises, except `close` of an
object that had been closed properly. -/
theorem C93_windows_told (pick : Pick) (hp : Proper pick) (st : St) (hst : Start st) (p : List Step) :
    Usable (run win32File pick st p).2 ∧ Truthful (run win32File pick st p).2 := by
  have h := tell_run_win32 hp p st [] (inv_start hst) (by rintro i o - ⟨e, he, -⟩; cases he) allTell_nil
  exact ⟨usable_of h, truthful_of h⟩

/-- On Windows `close` never raises. -/
theorem C93_windows_close (pick : Pick) (hp : Proper pick) (p : List Step) : ∀ (st : St) (log : List Event), Inv st log → Forgets st log →
    ∀ e ∈ (run win32File pick st p).2, e.closing = true → e.out = .ok () := by
  induction p with
  | nil => intro st log _ _ e he; cases he
  | cons a p ih =>
    intro st log h hf e he hc
    simp only [run] at he
    rcases List.mem_append.1 he with he | he
    · cases a with
      | make => simp only [step] at he; split at he <;> cases he
      | use j =>
        simp only [step] at he
        split at he
        · cases he
        · rw [List.mem_singleton] at he; subst he; cases hc
      | close i =>
        simp only [step] at he
        cases hi : st.mine[i]? with
        | none => rw [hi] at he; cases he
        | some o =>
          rw [hi] at he
          simp only at he
          rw [List.mem_singleton] at he
          subst he
          simp only
          by_cases h1 : o.num = -1
          · simp [win32File, h1]
          · by_cases hcl : Closed log i
            · exact absurd (hf i o hi hcl) h1
            · have ht := h.live i o hi hcl
              simp [win32File, h1, ht]
      | otherOpen => simp only [step] at he; split at he <;> cases he
      | otherClose j =>
        simp only [step] at he
        split at he
        · cases he
        · split at he <;> cases he
    · refine ih _ _ (inv_step honest_win32 hp h a ?_) (forgets_step h hf a) e he hc
      intro i _ hc o hi
      have hn := hf i o hi hc
      rw [hn]
      simp [win32File, h.invalid]

/-- The same from the beginning: a program may close its file objects as often as it likes (the context managers of `executers.py` close on leaving). -/
theorem C93_windows_close_again (pick : Pick) (hp : Proper pick) (st : St) (hst : Start st) (p : List Step) :
    ∀ e ∈ (run win32File pick st p).2, e.closing = true → e.out = .ok () :=
  C93_windows_close pick hp p st [] (inv_start hst) (by rintro i o - ⟨e, he, -⟩; cases he)

/-! ## Unix -/

theorem disciplined_step {cls : Cls} (hcls : Honest cls) {pick : Pick} (hp : Proper pick) {a : Step} {p : List Step} {st : St} {log : List Event}
    (h : Inv st log) (hd : Disciplined (a :: p)) (hl : ∀ i, Closed log i → .use i ∉ a :: p ∧ .close i ∉ a :: p) :
    Inv (step cls pick st a).1 (log ++ (step cls pick st a).2) ∧ Disciplined p ∧
      ∀ i, Closed (log ++ (step cls pick st a).2) i → .use i ∉ p ∧ .close i ∉ p := by
  refine ⟨inv_step hcls hp h a ?_, ?_, ?_⟩
  · rintro i (rfl | rfl) hc
    · exact absurd List.mem_cons_self (hl i hc).1
    · exact absurd List.mem_cons_self (hl i hc).2
  · intro pre post i he
    exact hd (a :: pre) post i (by rw [he]; rfl)
  · intro i hc
    rcases (closed_append _ _ _).1 hc with hc | ⟨e, he, h1, h2, -⟩
    · exact ⟨fun hx => (hl i hc).1 (List.mem_cons_of_mem _ hx), fun hx => (hl i hc).2 (List.mem_cons_of_mem _ hx)⟩
    · have ha : a = .close i := by
        cases a with
        | make => simp only [step] at he; split at he <;> cases he
        | use j =>
          simp only [step] at he
          split at he
          · cases he
          · rw [List.mem_singleton] at he; subst he; cases h2
        | close j =>
          simp only [step] at he
          split at he
          · cases he
          · rw [List.mem_singleton] at he; subst he; rw [← h1]
        | otherOpen => simp only [step] at he; split at he <;> cases he
        | otherClose j =>
          simp only [step] at he
          split at he
          · cases he
          · split at he <;> cases he
      exact hd [] p i (by rw [ha]; rfl)

theorem inv_run_unix {cls : Cls} (hcls : Honest cls) {pick : Pick} (hp : Proper pick) (p : List Step) :
    ∀ (st : St) (log : List Event), Inv st log → Disciplined p → (∀ i, Closed log i → .use i ∉ p ∧ .close i ∉ p) →
      Inv (run cls pick st p).1 (log ++ (run cls pick st p).2) := by
  induction p with
  | nil => intro st log h _ _; simpa [run] using h
  | cons a p ih =>
    intro st log h hd hl
    simp only [run]
    rw [← List.append_assoc]
    obtain ⟨h1, h2, h3⟩ := disciplined_step hcls hp h hd hl
    exact ih _ _ h1 h2 h3

/-- C93, Unix, for programs that leave closed objects alone. Missing: all others, see `C93_exact` and `C93_false`. -/
theorem C93_unix_partial (pick : Pick) (hp : Proper pick) (st : St) (hst : Start st) (p : List Step) (hd : Disciplined p) :
    let r := run unixFile pick st p
    Own r.1 r.2 ∧ Once r.2 ∧ Intact r.1 := by
  intro r
  have h := inv_run_unix honest_unix hp p st [] (inv_start hst) hd (by rintro i ⟨e, he, -⟩; cases he)
  exact ⟨h.own, h.once, h.others⟩

theorem tell_run_unix {pick : Pick} (hp : Proper pick) (p : List Step) : ∀ (st : St) (log : List Event), Inv st log → Disciplined p →
    (∀ i, Closed log i → .use i ∉ p ∧ .close i ∉ p) → AllTell log → AllTell (log ++ (run unixFile pick st p).2) := by
  induction p with
  | nil => intro st log _ _ _ hl; simpa [run] using hl
  | cons a p ih =>
    intro st log h hd hl ht
    simp only [run]
    rw [← List.append_assoc]
    obtain ⟨h1, h2, h3⟩ := disciplined_step honest_unix hp h hd hl
    exact ih _ _ h1 h2 h3 (allTell_step honest_unix frank_unix h ht a)

/-- C93, what the program is told, Unix, for programs that leave closed objects alone. Missing: all others, see `C93_exact` and `C93_false`. -/
theorem C93_unix_told_partial (pick : Pick) (hp : Proper pick) (st : St) (hst : Start st) (p : List Step) (hd : Disciplined p) :
    Usable (run unixFile pick st p).2 ∧ Truthful (run unixFile pick st p).2 := by
  have h := tell_run_unix hp p st [] (inv_start hst) hd (by rintro i ⟨e, he, -⟩; cases he) allTell_nil
  exact ⟨usable_of h, truthful_of h⟩

theorem run_append (cls : Cls) (pick : Pick) (p q : List Step) : ∀ st, run cls pick st (p ++ q) =
    ((run cls pick (run cls pick st p).1 q).1, (run cls pick st p).2 ++ (run cls pick (run cls pick st p).1 q).2) := by
  induction p with
  | nil => intro st; simp [run]
  | cons a p ih => intro st; simp [run, ih, List.append_assoc]

/-- **C93, Unix, exactly**: using or closing an object that closed its file acts on whatever file has its descriptor by then, which is another one; it raises only if no
file has it. -/
theorem C93_exact (pick : Pick) (hp : Proper pick) (st : St) (hst : Start st) (p : List Step) (hd : Disciplined p) (i : Nat) (o : Obj)
    (ho : (run unixFile pick st p).1.mine[i]? = some o) (hc : ∃ e ∈ (run unixFile pick st p).2, e.obj = i ∧ e.closing = true ∧ e.file ≠ none)
    (a : Step) (ha : a = .use i ∨ a = .close i) :
    let now := (run unixFile pick st p).1.kernel.table o.num
    ∃ e, (run unixFile pick st (p ++ [a])).2 = (run unixFile pick st p).2 ++ [e] ∧ e.obj = i ∧ e.file = now ∧
      (e.out = .ok () ↔ now ≠ none) ∧ now ≠ some o.file ∧
      (a = .close i → ∀ n, (run unixFile pick st (p ++ [a])).1.kernel.table n = if n = o.num then none else (run unixFile pick st p).1.kernel.table n) := by
  dsimp only
  have h := inv_run_unix honest_unix hp p st [] (inv_start hst) hd (by rintro i ⟨e, he, -⟩; cases he)
  rw [List.nil_append] at h
  have hdead := h.dead i o ho hc o.num
  rw [run_append]
  generalize run unixFile pick st p = r at *
  rcases ha with rfl | rfl
  · simp only [run, step, ho, List.append_nil]
    refine ⟨_, rfl, rfl, ?_, ?_, hdead, by simp⟩
    · simp only [unixFile]; split <;> simp_all
    · simp only [unixFile]; split <;> simp_all
  · simp only [run, step, ho, List.append_nil]
    refine ⟨_, rfl, rfl, ?_, ?_, hdead, ?_⟩
    · simp only [unixFile]; split <;> simp_all
    · simp only [unixFile]; split <;> simp_all
    · intro _ n
      simp only [unixFile]
      split
      · rfl
      · split <;> simp_all

/-- **C93 is false on Unix**, whatever the system's choice of numbers (as long as it depends on nothing but the numbers in use) and whatever is open: an object is made
and closed, other code opens a file, and the closed object is used and closed once more, as `linux_sg`, `linux_dm`, `solaris` and `aix` do on leaving when the block
closed the file itself. The object writes to the file of the other code and closes it, without an error. -/
theorem C93_false (pick : Pick) (hp : Proper pick) (st : St) (hst : Start st) (n : Int) (hn : pick st.kernel.table = some n) :
    let r := run unixFile pick st [.make, .close 0, .otherOpen, .use 0, .close 0]
    let other : Other := { num := n, file := st.kernel.next + 1, isOpen := true }
    r.1.others = st.others ++ [other] ∧
    r.2 = [⟨0, true, .ok (), some st.kernel.next⟩, ⟨0, false, .ok (), some other.file⟩, ⟨0, true, .ok (), some other.file⟩] ∧
    ¬ Own r.1 r.2 ∧ ¬ Once r.2 ∧ ¬ Intact r.1 := by
  have hfree := (hp _ _ hn).2
  have hback : (fun x => if x = n then none else if x = n then some st.kernel.next else st.kernel.table x) = st.kernel.table := by
    funext x
    by_cases hx : x = n
    · simp [hx, hfree]
    · simp [hx]
  have hr : run unixFile pick st [.make, .close 0, .otherOpen, .use 0, .close 0] =
      ({ kernel := { table := fun x => if x = n then none else (if x = n then some (st.kernel.next + 1) else st.kernel.table x), next := st.kernel.next + 1 + 1 },
         mine := [{ num := n, file := st.kernel.next }], others := st.others ++ [{ num := n, file := st.kernel.next + 1, isOpen := true }] },
       [⟨0, true, .ok (), some st.kernel.next⟩, ⟨0, false, .ok (), some (st.kernel.next + 1)⟩, ⟨0, true, .ok (), some (st.kernel.next + 1)⟩]) := by
    simp [run, step, Kernel.opening, hn, hst.none, unixFile, Kernel.without, hback]
  intro r other
  have hr' : r = _ := hr
  refine ⟨by rw [hr'], by rw [hr'], ?_, ?_, ?_⟩
  · rw [hr']
    intro h
    obtain ⟨o, h1, h2⟩ := h ⟨0, false, .ok (), some (st.kernel.next + 1)⟩ (by simp) _ rfl
    simp only [List.getElem?_cons_zero, Option.some.injEq] at h1
    subst h1
    simp at h2
  · rw [hr']
    simp [Once]
  · rw [hr']
    intro h
    have := h st.others.length { num := n, file := st.kernel.next + 1, isOpen := true } (by simp) rfl
    simp at this

/-! ## The hypotheses can be met -/

theorem lowest_proper (limit : Nat) : Proper (lowest limit) := by
  intro t n h
  simp only [lowest, Option.map_eq_some_iff] at h
  obtain ⟨m, hm, rfl⟩ := h
  have := List.find?_some hm
  exact ⟨Int.natCast_nonneg m, by simpa using this⟩

/-- Standard input, output and error are open, a log file is 3. -/
def login : St :=
  { kernel := { table := fun n => if n = 0 ∨ n = 1 ∨ n = 2 ∨ n = 3 then some n.toNat else none, next := 4 }, mine := [], others := [⟨3, 3, true⟩] }

theorem login_start : Start login := by
  constructor
  · rfl
  · intro n f h
    simp only [login] at h ⊢
    split at h
    · simp only [Option.some.injEq] at h; omega
    · cases h
  · intro n n' f h h'
    simp only [login] at h h'
    split at h <;> split at h'
    · simp only [Option.some.injEq] at h h'; omega
    · cases h'
    · cases h
    · cases h
  · rfl
  · intro j o hj _
    match j, hj with
    | 0, hj => simp only [login, List.getElem?_cons_zero, Option.some.injEq] at hj; subst hj; rfl
  · intro j j' o o' hj hj' _ _ _
    match j, j', hj, hj' with
    | 0, 0, _, _ => rfl

/-- Two devices used in turn, closed once each, while a log file is closed and opened again. -/
def orderly : List Step := [.make, .use 0, .otherClose 0, .make, .use 1, .close 0, .otherOpen, .use 1, .close 1]

theorem orderly_disciplined : Disciplined orderly := by
  intro pre post i h
  have hmem : Step.close i ∈ orderly := by rw [h]; simp
  simp only [orderly, List.mem_cons, Step.close.injEq, reduceCtorEq, List.not_mem_nil, or_false, false_or] at hmem
  rcases hmem with rfl | rfl
  · match pre, h with
    | [_, _, _, _, _], h => simp [orderly] at h; rw [← h.2.2.2.2.2]; decide
    | [_, _, _, _, _, _, _, _], h => simp [orderly] at h
    | [], h | [_], h | [_, _], h | [_, _, _], h | [_, _, _, _], h | [_, _, _, _, _, _], h | [_, _, _, _, _, _, _], h => simp [orderly] at h
    | _ :: _ :: _ :: _ :: _ :: _ :: _ :: _ :: _ :: pre, h => simp [orderly] at h
  · match pre, h with
    | [_, _, _, _, _, _, _, _], h => simp [orderly] at h; rw [h.2.2.2.2.2.2.2.2]; decide
    | [_, _, _, _, _], h => simp [orderly] at h
    | [], h | [_], h | [_, _], h | [_, _, _], h | [_, _, _, _], h | [_, _, _, _, _, _], h | [_, _, _, _, _, _, _], h => simp [orderly] at h
    | _ :: _ :: _ :: _ :: _ :: _ :: _ :: _ :: _ :: pre, h => simp [orderly] at h

example : ((run unixFile (lowest 16) login orderly).2.map (fun e => (e.obj, e.closing, e.file))) =
    [(0, false, some 4), (1, false, some 5), (0, true, some 4), (1, false, some 5), (1, true, some 5)] := by decide

example : Own (run unixFile (lowest 16) login orderly).1 (run unixFile (lowest 16) login orderly).2 :=
  (C93_unix_partial _ (lowest_proper 16) _ login_start _ orderly_disciplined).1

example : Usable (run unixFile (lowest 16) login orderly).2 := (C93_unix_told_partial _ (lowest_proper 16) _ login_start _ orderly_disciplined).1

example : Truthful (run win32File (lowest 16) login [.make, .close 0, .otherOpen, .use 0, .close 0]).2 :=
  (C93_windows_told _ (lowest_proper 16) _ login_start _).2

/-- On Windows the program of `C93_false` harms nobody: the second use raises, the second close does nothing. -/
example : ((run win32File (lowest 16) login [.make, .close 0, .otherOpen, .use 0, .close 0]).2.map (fun e => (e.obj, e.closing, e.file))) =
    [(0, true, some 4), (0, false, none), (0, true, none)] := by decide

example : ¬ Intact (run unixFile (lowest 16) login [.make, .close 0, .otherOpen, .use 0, .close 0]).1 :=
  (C93_false (lowest 16) (lowest_proper 16) login login_start 4 (by decide)).2.2.2.2

end Verif.Files
