import Verif.Platform.Win32AheadFaults
import Verif.Props.Pipeline
set_option linter.unusedSimpArgs false
set_option linter.unusedSectionVars false
/-!
# C115: commands sent ahead on Windows (synchronous file), on a way that can fail
-/

namespace Verif.Platform.Win32
open Verif.Executer Verif.Spec

namespace Ahead

variable {S δ : Type}

/-! ## About the ideal -/

section
variable {A R : Type} {dev : Device δ} {limit : Nat} {hr : Req → Answer → A} {ret : Req → Answer → R}
  {err : PyErr} {P : PyErr → Prop}

/-- The device's state after one more command. -/
def effect (dev : Device δ) (k : δ) : Req × Option (δ → δ) → δ
  | (c, none) => (dev k (asked c)).2
  | (_, some g) => g k

/-- The device's answer to one more command. -/
def says (dev : Device δ) (k : δ) : Req × Option (δ → δ) → Option Answer
  | (c, none) => some (dev k (asked c)).1
  | (_, some _) => none

theorem fafter_snoc (k : δ) (cs : List (Req × Option (δ → δ))) (c : Req × Option (δ → δ)) :
    Pipeline.fafter dev k (cs ++ [c]) = effect dev (Pipeline.fafter dev k cs) c := by
  induction cs generalizing k with
  | nil => obtain ⟨c, _ | g⟩ := c <;> rfl
  | cons d cs ih => obtain ⟨d, _ | g⟩ := d <;> simp only [List.cons_append, Pipeline.fafter, ih]

theorem fanswers_snoc (k : δ) (cs : List (Req × Option (δ → δ))) (c : Req × Option (δ → δ)) :
    Pipeline.fanswers dev k (cs ++ [c]) = Pipeline.fanswers dev k cs ++ [says dev (Pipeline.fafter dev k cs) c] := by
  induction cs generalizing k with
  | nil => obtain ⟨c, _ | g⟩ := c <;> rfl
  | cons d cs ih => obtain ⟨d, _ | g⟩ := d <;> simp only [List.cons_append, Pipeline.fafter, Pipeline.fanswers, ih]

theorem fanswers_length (k : δ) (cs : List (Req × Option (δ → δ))) : (Pipeline.fanswers dev k cs).length = cs.length := by
  induction cs generalizing k with
  | nil => rfl
  | cons d cs ih => obtain ⟨d, _ | g⟩ := d <;> simp only [Pipeline.fanswers, List.length_cons, ih]

/-- Command number `t` was `c`, did not fail, and the device answered `ans`. -/
def FAnswered (dev : Device δ) (k : δ) (cs : List (Req × Option (δ → δ))) (t : Nat) (c : Req) (ans : Answer) : Prop :=
  cs[t]? = some (c, none) ∧ (Pipeline.fanswers dev k cs)[t]? = some (some ans)

theorem FAnswered.snoc {k : δ} {cs : List (Req × Option (δ → δ))} {t : Nat} {c : Req} {ans : Answer} (h : FAnswered dev k cs t c ans)
    (ds : List (Req × Option (δ → δ))) (hd : ds.length ≤ 1) : FAnswered dev k (cs ++ ds) t c ans := by
  obtain ⟨h1, h2⟩ := h
  match ds, hd with
  | [], _ => rw [List.append_nil]; exact ⟨h1, h2⟩
  | [d], _ =>
    have l1 := (List.getElem?_eq_some_iff.1 h1).1
    have l2 := (List.getElem?_eq_some_iff.1 h2).1
    exact ⟨by rw [List.getElem?_append_left l1]; exact h1, by rw [fanswers_snoc, List.getElem?_append_left l2]; exact h2⟩
  | _ :: _ :: _, hd => simp at hd

theorem FAnswered.last (k : δ) (cs : List (Req × Option (δ → δ))) (d : Req) :
    FAnswered dev k (cs ++ [(d, none)]) cs.length d (dev (Pipeline.fafter dev k cs) (asked d)).1 := by
  refine ⟨by simp, ?_⟩
  rw [fanswers_snoc, ← fanswers_length (dev := dev) k cs]
  simp [says]

/-- What has been seen so far fits what the device was asked. -/
structure FPast (err : PyErr) (P : PyErr → Prop) (dev : Device δ) (hr : Req → Answer → A) (ret : Req → Answer → R) (k : δ) (ops : List (Pipeline.FOp δ))
    (s : Pipeline.State δ A R) : Prop where
  replies : (ops.filterMap Pipeline.fgiven).length = (s.log.filterMap (Pipeline.freply err)).length
  next : (Pipeline.tried err ops s.log).length = s.next
  device : s.dev = Pipeline.fafter dev k (Pipeline.tried err ops s.log)
  out : ∀ e ∈ s.out, FAnswered dev k (Pipeline.tried err ops s.log) e.t e.cmd e.ans
  told : ∀ t a, .told t a ∈ s.log → ∃ c ans, FAnswered dev k (Pipeline.tried err ops s.log) t c ans ∧ a = hr c ans
  returned : ∀ t r, .returned t r ∈ s.log → ∃ c ans, FAnswered dev k (Pipeline.tried err ops s.log) t c ans ∧ r = ret c ans
  accepted : ∀ t, .accepted t ∈ s.log → ∃ c ans, FAnswered dev k (Pipeline.tried err ops s.log) t c ans
  raised : ∀ e, .raised e ∈ s.log → P e
  young : ∀ e ∈ s.out, e.t < s.next
  once : (s.log.filterMap Pipeline.toldOf ++ s.out.map Pipeline.Entry.t).Nodup
  before : ∀ t a, .told t a ∈ s.log → t < s.next

theorem tried_snoc {ops : List (Pipeline.FOp δ)} {log : List (Pipeline.Ev A R)}
    (h : (ops.filterMap Pipeline.fgiven).length = (log.filterMap (Pipeline.freply err)).length)
    (op : Pipeline.FOp δ) (evs : List (Pipeline.Ev A R)) :
    Pipeline.tried err (ops ++ [op]) (log ++ evs) = Pipeline.tried err ops log ++ Pipeline.tried err [op] evs := by
  unfold Pipeline.tried
  rw [List.filterMap_append, List.filterMap_append, List.zip_append h, List.filterMap_append]

/-- A reply to a command: what it adds to the past. -/
theorem FPast.reply {k : δ} {ops : List (Pipeline.FOp δ)} {s : Pipeline.State δ A R} (h : FPast err P dev hr ret k ops s) (c : Req)
    (op : Pipeline.Op) (hop : Pipeline.given op = some c) (f : Option (δ → δ)) (ev : Pipeline.Ev A R) (fresh : List Pipeline.Entry) (old : List Pipeline.Entry)
    (hold : old.Sublist s.out) (hrep : Pipeline.freply err ev = some true) (htold : Pipeline.toldOf ev = none)
    (hfresh : fresh = [] ∨ f = none ∧ fresh = [⟨s.next, c, (dev s.dev (asked c)).1⟩])
    (hret : ∀ t r, ev = .returned t r → f = none ∧ t = s.next ∧ r = ret c (dev s.dev (asked c)).1)
    (hacc : ∀ t, ev = .accepted t → f = none ∧ t = s.next) (hraise : ∀ e, ev = .raised e → P e) :
    FPast err P dev hr ret k (ops ++ [(op, f)]) ⟨effect dev s.dev (c, f), s.next + 1, fresh ++ old, s.log ++ [ev]⟩ := by
  have hg : Pipeline.fgiven (op, f) = some (c, f) := by simp [Pipeline.fgiven, hop]
  have ht : Pipeline.tried err (ops ++ [(op, f)]) (s.log ++ [ev]) = Pipeline.tried err ops s.log ++ [(c, f)] := by
    rw [tried_snoc h.replies]
    simp [Pipeline.tried, hg, hrep]
  have hlast : f = none → FAnswered dev k (Pipeline.tried err ops s.log ++ [(c, f)]) s.next c (dev s.dev (asked c)).1 := by
    rintro rfl
    rw [← h.next, h.device]
    exact FAnswered.last k _ c
  have hnt : ∀ t a, ev ≠ .told t a := by rintro t a rfl; simp [Pipeline.toldOf] at htold
  have hkn : (s.log.filterMap Pipeline.toldOf ++ old.map Pipeline.Entry.t).Nodup :=
    h.once.sublist (List.Sublist.append_left (List.Sublist.map _ hold) _)
  have hbefore : ∀ t a, .told t a ∈ s.log ++ [ev] → t < s.next := by
    intro t a hm
    rcases List.mem_append.1 hm with hm | hm
    · exact h.before t a hm
    · exact absurd (List.mem_singleton.1 hm).symm (hnt t a)
  refine ⟨?_, ?_, ?_, ?_, ?_, ?_, ?_, ?_, ?_, ?_, fun t a hm => Nat.lt_succ_of_lt (hbefore t a hm)⟩
  · simp [List.filterMap_append, hg, hrep, h.replies]
  · rw [ht]; simp [h.next]
  · rw [ht, fafter_snoc, ← h.device]
  · rw [ht]
    intro e he
    rcases List.mem_append.1 he with he | he
    · rcases hfresh with rfl | ⟨hf, rfl⟩
      · cases he
      · rw [List.mem_singleton.1 he]; exact hlast hf
    · exact (h.out e (hold.subset he)).snoc _ (by simp)
  · rw [ht]
    intro t a hm
    rcases List.mem_append.1 hm with hm | hm
    · obtain ⟨c', ans, h1, h2⟩ := h.told t a hm
      exact ⟨c', ans, h1.snoc _ (by simp), h2⟩
    · exact absurd (List.mem_singleton.1 hm).symm (hnt t a)
  · rw [ht]
    intro t r hm
    rcases List.mem_append.1 hm with hm | hm
    · obtain ⟨c', ans, h1, h2⟩ := h.returned t r hm
      exact ⟨c', ans, h1.snoc _ (by simp), h2⟩
    · obtain ⟨h1, rfl, h3⟩ := hret t r (List.mem_singleton.1 hm).symm
      exact ⟨c, _, hlast h1, h3⟩
  · rw [ht]
    intro t hm
    rcases List.mem_append.1 hm with hm | hm
    · obtain ⟨c', ans, h1⟩ := h.accepted t hm
      exact ⟨c', ans, h1.snoc _ (by simp)⟩
    · obtain ⟨h1, rfl⟩ := hacc t (List.mem_singleton.1 hm).symm
      exact ⟨c, _, hlast h1⟩
  · intro e hm
    rcases List.mem_append.1 hm with hm | hm
    · exact h.raised e hm
    · exact hraise e (List.mem_singleton.1 hm).symm
  · intro e he
    rcases List.mem_append.1 he with he | he
    · rcases hfresh with rfl | ⟨hf, rfl⟩
      · cases he
      · rw [List.mem_singleton.1 he]; exact Nat.lt_succ_self _
    · exact Nat.lt_succ_of_lt (h.young e (hold.subset he))
  · simp only [List.filterMap_append, List.filterMap_cons, List.filterMap_nil, htold, List.append_nil]
    rcases hfresh with rfl | ⟨hf, rfl⟩
    · exact hkn
    · rw [List.nodup_append] at hkn ⊢
      obtain ⟨n1, n2, n3⟩ := hkn
      refine ⟨n1, ?_, ?_⟩
      · rw [List.cons_append, List.nil_append, List.map_cons, List.nodup_cons]
        refine ⟨?_, n2⟩
        intro hm
        obtain ⟨e, he, het⟩ := List.mem_map.1 hm
        have := h.young e (hold.subset he)
        simp only at het
        omega
      · intro t ht' u hu
        rcases List.mem_cons.1 hu with rfl | hu
        · obtain ⟨a, ha⟩ := told_mem.1 ht'
          have := h.before t a ha
          simp only
          omega
        · exact n3 t ht' u hu

/-- A refusal adds nothing to it. -/
theorem FPast.refused {k : δ} {ops : List (Pipeline.FOp δ)} {s : Pipeline.State δ A R} (h : FPast err P dev hr ret k ops s) (op : Pipeline.FOp δ) (c : Req)
    (hop : Pipeline.given op.1 = some c) : FPast err P dev hr ret k (ops ++ [op]) { s with log := s.log ++ [.refused] } := by
  have ht : Pipeline.tried err (ops ++ [op]) (s.log ++ [.refused]) = Pipeline.tried err ops s.log := by
    rw [tried_snoc h.replies]
    simp [Pipeline.tried, Pipeline.fgiven, hop, Pipeline.freply]
  refine ⟨?_, ?_, ?_, ?_, ?_, ?_, ?_, ?_, h.young, ?_, ?_⟩
  · simp [List.filterMap_append, Pipeline.fgiven, hop, Pipeline.freply, ← h.replies]
  · rw [ht]; exact h.next
  · rw [ht]; exact h.device
  · rw [ht]; exact h.out
  · rw [ht]; intro t a hm; exact h.told t a (by simpa using hm)
  · rw [ht]; intro t r hm; exact h.returned t r (by simpa using hm)
  · rw [ht]; intro t hm; exact h.accepted t (by simpa using hm)
  · intro e hm; exact h.raised e (by simpa using hm)
  · simpa [List.filterMap_append, List.filterMap_cons, Pipeline.toldOf] using h.once
  · intro t a hm; exact h.before t a (by simpa using hm)

theorem fpast_step {k : δ} {ops : List (Pipeline.FOp δ)} {s : Pipeline.State δ A R} (h : FPast .asiOs (· = .asiOs) dev hr ret k ops s) (op : Pipeline.FOp δ) :
    FPast .asiOs (· = .asiOs) dev hr ret k (ops ++ [op]) (Pipeline.fstep dev limit hr ret s op) := by
  have hsub : (Pipeline.keep limit s).Sublist s.out := List.filter_sublist
  have refusal := h.refused op
  have waiting : ∀ f, op = (.wait, f) → FPast .asiOs (· = .asiOs) dev hr ret k (ops ++ [op]) (Pipeline.step dev limit hr ret s .wait) := by
    rintro f rfl
    simp only [Pipeline.step]
    have hf : ∀ l : List Pipeline.Entry, (l.map (fun e => (.told e.t (hr e.cmd e.ans) : Pipeline.Ev A R))).filterMap (Pipeline.freply .asiOs) = [] := by
      intro l; induction l with
      | nil => rfl
      | cons e l ih => rw [List.map_cons, List.filterMap_cons]; exact ih
    have hg : ∀ l : List Pipeline.Entry, (l.map (fun e => (.told e.t (hr e.cmd e.ans) : Pipeline.Ev A R))).filterMap Pipeline.toldOf =
        l.map Pipeline.Entry.t := by
      intro l; induction l with
      | nil => rfl
      | cons e l ih => rw [List.map_cons, List.filterMap_cons]; simp only [Pipeline.toldOf, ih, List.map_cons]
    have ht : Pipeline.tried .asiOs (ops ++ [(.wait, f)]) (s.log ++ s.out.map (fun e => .told e.t (hr e.cmd e.ans)) ++ [.waited]) =
        Pipeline.tried .asiOs ops s.log := by
      rw [List.append_assoc, tried_snoc h.replies]
      simp [Pipeline.tried, Pipeline.fgiven, Pipeline.given, List.filterMap_cons]
    have hm : ∀ {t a}, (.told t a : Pipeline.Ev A R) ∈ s.log ++ s.out.map (fun e => .told e.t (hr e.cmd e.ans)) ++ [.waited] →
        .told t a ∈ s.log ∨ ∃ e ∈ s.out, e.t = t ∧ hr e.cmd e.ans = a := by
      intro t a hm
      simpa using hm
    refine ⟨?_, ?_, ?_, by simp, ?_, ?_, ?_, ?_, by simp, ?_, ?_⟩
    · simp only [List.filterMap_append, hf]
      simp [List.filterMap_cons, Pipeline.fgiven, Pipeline.given, Pipeline.freply, h.replies]
    · rw [ht]; exact h.next
    · rw [ht]; exact h.device
    · rw [ht]
      intro t a ha
      rcases hm ha with ha | ⟨e, he, rfl, rfl⟩
      · exact h.told t a ha
      · exact ⟨e.cmd, e.ans, h.out e he, rfl⟩
    · rw [ht]; intro t r ha; exact h.returned t r (by simpa using ha)
    · rw [ht]; intro t ha; exact h.accepted t (by simpa using ha)
    · intro e ha; exact h.raised e (by simpa using ha)
    · simp only [List.filterMap_append, hg]
      simpa [List.filterMap_cons, Pipeline.toldOf] using h.once
    · intro t a ha
      rcases hm ha with ha | ⟨e, he, rfl, rfl⟩
      · exact h.before t a ha
      · exact h.young e he
  obtain ⟨op, f⟩ := op
  cases op with
  | wait => cases f <;> exact waiting _ rfl
  | send c =>
    cases f with
    | none =>
      simp only [Pipeline.fstep, Pipeline.step]
      split
      · exact refusal c rfl
      · exact h.reply c (.send c) rfl none (.accepted s.next) [⟨s.next, c, (dev s.dev (asked c)).1⟩] _ hsub rfl rfl (.inr ⟨rfl, rfl⟩) (by simp)
          (by rintro t he; cases he; exact ⟨rfl, rfl⟩) (by simp)
    | some g =>
      simp only [Pipeline.fstep, Pipeline.failed]
      split
      · exact refusal c rfl
      · exact h.reply c (.send c) rfl (some g) (.raised .asiOs) [] _ hsub rfl rfl (.inl rfl) (by simp) (by simp) (by rintro e he; cases he; rfl)
  | call c =>
    cases f with
    | none =>
      simp only [Pipeline.fstep, Pipeline.step]
      split
      · exact refusal c rfl
      · exact h.reply c (.call c) rfl none (.returned s.next _) [] _ hsub rfl rfl (.inl rfl) (by rintro t r he; cases he; exact ⟨rfl, rfl, rfl⟩) (by simp)
          (by simp)
    | some g =>
      simp only [Pipeline.fstep, Pipeline.failed]
      split
      · exact refusal c rfl
      · exact h.reply c (.call c) rfl (some g) (.raised .asiOs) [] _ hsub rfl rfl (.inl rfl) (by simp) (by simp) (by rintro e he; cases he; rfl)

theorem fpast_run {k : δ} (ops pre : List (Pipeline.FOp δ)) (s : Pipeline.State δ A R) (h : FPast .asiOs (· = .asiOs) dev hr ret k pre s) :
    FPast .asiOs (· = .asiOs) dev hr ret k (pre ++ ops) (Pipeline.frunFrom dev limit hr ret s ops) := by
  induction ops generalizing pre s with
  | nil => rw [List.append_nil]; exact h
  | cons op ops ih =>
    have := ih _ _ (fpast_step (limit := limit) h op)
    rwa [List.append_assoc] at this

theorem fpast_init {err : PyErr} {P : PyErr → Prop} (k : δ) :
    FPast err P dev hr ret k [] (Pipeline.State.init k : Pipeline.State δ A R) := by
  constructor <;> simp [Pipeline.State.init, Pipeline.tried, Pipeline.fafter]

/-- Nothing is forgotten while not too many commands are given at a time, failing ones included. -/
theorem fkept_run (ops : List (Pipeline.FOp δ)) (left : Nat) (s : Pipeline.State δ A R) (h : Kept limit left s)
    (hb : Pipeline.Bursts limit left (ops.map Prod.fst)) : ∃ left', Kept limit left' (Pipeline.frunFrom dev limit hr ret s ops) := by
  induction ops generalizing left s with
  | nil => exact ⟨left, h⟩
  | cons op ops ih =>
    have hkeep : 0 < left → Pipeline.keep limit s = s.out := by
      intro hl
      refine List.filter_eq_self.2 (fun e he => ?_)
      have := h.young e he
      simp only [decide_eq_true_eq, ne_eq]
      omega
    have waiting : Kept limit limit (Pipeline.step dev limit hr ret s .wait) := by
      refine ⟨Nat.le_refl _, by simp [Pipeline.step], by simp [Pipeline.step], ?_, ?_⟩
      · intro t ht
        right
        rcases h.open' t (by simpa [Pipeline.step] using ht) with hm | ⟨a, ha⟩
        · obtain ⟨e, he, rfl⟩ := List.mem_map.1 hm
          exact ⟨hr e.cmd e.ans, by simp only [Pipeline.step, List.mem_append, List.mem_map]; exact .inl (.inr ⟨e, he, rfl⟩)⟩
        · exact ⟨a, by simp only [Pipeline.step, List.mem_append]; exact .inl (.inl ha)⟩
      · intro hm; exact h.accepted (by simpa [Pipeline.step] using hm)
    -- a command that leaves nothing behind
    have gone : ∀ l k ev, left = l + 1 → (∀ t, ev ≠ .accepted t) → ev ≠ .refused →
        Kept limit l (⟨k, s.next + 1, s.out, s.log ++ [ev]⟩ : Pipeline.State δ A R) := by
      intro l k ev hleft hna hnr
      have hf := h.few
      have hle := h.le
      refine ⟨by omega, ?_, by show s.out.length + l ≤ limit; omega, ?_, ?_⟩
      · intro e he
        have := h.young e he; show s.next + 1 + l ≤ _; omega
      · intro t ht
        rcases List.mem_append.1 ht with ht | ht
        · rcases h.open' t ht with hm | ⟨a, ha⟩
          · exact .inl hm
          · exact .inr ⟨a, List.mem_append_left _ ha⟩
        · exact absurd (List.mem_singleton.1 ht).symm (hna t)
      · intro hm
        rcases List.mem_append.1 hm with hm | hm
        · exact h.accepted hm
        · exact hnr (List.mem_singleton.1 hm).symm
    obtain ⟨op, f⟩ := op
    cases op with
    | wait => cases f <;> exact ih limit _ waiting hb
    | send c =>
      cases left with
      | zero => exact absurd hb (by simp [Pipeline.Bursts])
      | succ left =>
        refine ih left _ ?_ hb
        have hf := h.few
        have hle := h.le
        cases f with
        | some g =>
          simp only [Pipeline.fstep, Pipeline.failed, if_neg (show ¬ limit ≤ s.out.length by omega), hkeep (Nat.succ_pos _)]
          exact gone left _ _ rfl (by simp) (by simp)
        | none =>
          simp only [Pipeline.fstep, Pipeline.step, if_neg (show ¬ limit ≤ s.out.length by omega), hkeep (Nat.succ_pos _)]
          refine ⟨by omega, ?_, by simp only [List.length_cons]; omega, ?_, ?_⟩
          · intro e he
            rcases List.mem_cons.1 he with rfl | he
            · show s.next + 1 + left ≤ s.next + limit; omega
            · have := h.young e he; show s.next + 1 + left ≤ _; omega
          · intro t ht
            simp only [List.mem_append, List.mem_singleton, Pipeline.Ev.accepted.injEq] at ht
            rcases ht with ht | rfl
            · rcases h.open' t ht with hm | ⟨a, ha⟩
              · exact .inl (List.mem_cons_of_mem _ hm)
              · exact .inr ⟨a, List.mem_append_left _ ha⟩
            · exact .inl List.mem_cons_self
          · intro hm; exact h.accepted (by simpa using hm)
    | call c =>
      cases left with
      | zero => exact absurd hb (by simp [Pipeline.Bursts])
      | succ left =>
        refine ih left _ ?_ hb
        have hf := h.few
        have hle := h.le
        cases f with
        | some g =>
          simp only [Pipeline.fstep, Pipeline.failed, if_neg (show ¬ limit ≤ s.out.length by omega), hkeep (Nat.succ_pos _)]
          exact gone left _ _ rfl (by simp) (by simp)
        | none =>
          simp only [Pipeline.fstep, Pipeline.step, if_neg (show ¬ limit ≤ s.out.length by omega), hkeep (Nat.succ_pos _)]
          exact gone left _ _ rfl (by simp) (by simp)

/-- A number that is no longer remembered is never heard of again. -/
theorem fnever_told {t : Nat} (ops : List (Pipeline.FOp δ)) (s : Pipeline.State δ A R) (hlt : t < s.next) (hout : ∀ e ∈ s.out, e.t ≠ t)
    (hno : ∀ a, .told t a ∉ s.log) (a : A) : .told t a ∉ (Pipeline.frunFrom dev limit hr ret s ops).log := by
  induction ops generalizing s with
  | nil => exact hno a
  | cons op ops ih =>
    have hk : ∀ e, e ∈ Pipeline.keep limit s → e ∈ s.out := fun e he => (List.mem_filter.1 he).1
    have hw : ∀ b, .told t b ∉ (Pipeline.step dev limit hr ret s .wait).log := by
      intro b
      simp only [Pipeline.step, List.mem_append, List.mem_map, List.mem_singleton, reduceCtorEq, or_false, not_or, not_exists, not_and]
      refine ⟨hno b, ?_⟩
      intro e he heq
      simp only [Pipeline.Ev.told.injEq] at heq
      exact hout e he heq.1
    obtain ⟨op, f⟩ := op
    refine ih _ ?_ ?_ ?_
    · cases op <;> cases f <;> simp only [Pipeline.fstep, Pipeline.failed, Pipeline.step] <;> (try split) <;>
        first | exact hlt | exact Nat.lt_succ_of_lt hlt
    · cases op <;> cases f <;> simp only [Pipeline.fstep, Pipeline.failed, Pipeline.step] <;> (try split)
      · exact hout
      · intro e he
        rcases List.mem_cons.1 he with rfl | he
        · exact (Nat.ne_of_lt hlt).symm
        · exact hout e (hk e he)
      · exact hout
      · exact fun e he => hout e (hk e he)
      · exact hout
      · exact fun e he => hout e (hk e he)
      · exact hout
      · exact fun e he => hout e (hk e he)
      · simp
      · simp
    · intro b
      cases op with
      | wait => cases f <;> exact hw b
      | send c =>
        cases f <;> simp only [Pipeline.fstep, Pipeline.failed, Pipeline.step] <;> split <;> simpa using hno b
      | call c =>
        cases f <;> simp only [Pipeline.fstep, Pipeline.failed, Pipeline.step] <;> split <;> simpa using hno b

theorem fails_run (fs : List (Req × (δ → δ))) (s : Pipeline.State δ A R) (e : Pipeline.Entry) (hout : s.out = [e]) (hl : 2 ≤ limit)
    (hlt : s.next + fs.length = e.t + limit + 1) (hne : fs ≠ []) (hold : e.t < s.next) :
    Pipeline.frunFrom dev limit hr ret s (fs.map (fun f => (.send f.1, some f.2))) =
      ⟨fs.foldl (fun k f => f.2 k) s.dev, e.t + limit + 1, [], s.log ++ List.replicate fs.length (.raised .asiOs)⟩ := by
  induction fs generalizing s with
  | nil => exact absurd rfl hne
  | cons f fs ih =>
    simp only [List.length_cons] at hlt
    have hs : Pipeline.fstep dev limit hr ret s (.send f.1, some f.2) =
        ⟨f.2 s.dev, s.next + 1, Pipeline.keep limit s, s.log ++ [.raised .asiOs]⟩ := by
      simp only [Pipeline.fstep, Pipeline.failed]
      rw [if_neg (by rw [hout]; simp; omega)]
    cases fs with
    | nil =>
      have hk : Pipeline.keep limit s = [] := by
        simp only [Pipeline.keep, hout]
        simp only [List.length_nil] at hlt
        rw [List.filter_cons, if_neg (by simp; omega)]
        rfl
      simp only [List.length_nil] at hlt
      simp only [Pipeline.frunFrom, List.map_cons, List.map_nil, List.foldl_cons, List.foldl_nil]
      rw [hs, hk]
      simp only [Pipeline.State.mk.injEq, true_and]
      exact ⟨by omega, rfl⟩
    | cons f' fs =>
      have hk : Pipeline.keep limit s = [e] := by
        simp only [Pipeline.keep, hout]
        simp only [List.length_cons] at hlt
        rw [List.filter_cons, if_pos (by simp; omega)]
        rfl
      have := ih ⟨f.2 s.dev, s.next + 1, Pipeline.keep limit s, s.log ++ [.raised .asiOs]⟩ hk (by simp only [List.length_cons] at hlt ⊢; omega) (by simp)
        (Nat.lt_succ_of_lt hold)
      rw [List.map_cons]
      show Pipeline.frunFrom dev limit hr ret (Pipeline.fstep dev limit hr ret s (.send f.1, some f.2)) _ = _
      rw [hs, this]
      simp only [Pipeline.State.mk.injEq, true_and]
      refine ⟨rfl, ?_⟩
      rw [List.append_assoc]
      rfl

end

/-! ## C115 -/

section
variable {b : Bool} {parse : Bytes → Py (Option S)} {dev : Device δ} {alloc : Nat → Alloc} {limit : Nat} {cmds : Req → Prop}
  (hfit : Fits b alloc cmds) (hp : Parses parse dev)
include hfit hp

/-- C115 (exactly what happens): whatever is sent, called and waited for, whatever the device answers and whichever calls of the system fail, the user sees exactly
what the ideal shows. -/
theorem C115_refines (ops : List (LOp δ)) (hops : ∀ op ∈ ops, Pipeline.Gives cmds op.1) (m : Mem) (k : δ)
    (hfr : FFresh b parse dev alloc limit (Pipeline.State.init k) ops) :
    (Live.frun b parse dev alloc limit m k ops).log = (Pipeline.frun dev limit (hear parse) (winOutcome parse) k (ops.map plain)).log ∧
    (Live.frun b parse dev alloc limit m k ops).world.world.kernel =
      (Pipeline.frun dev limit (hear parse) (winOutcome parse) k (ops.map plain)).dev := by
  have h := finv_run hfit hp ops hops _ _ (inv_init (b := b) (parse := parse) (alloc := alloc) (limit := limit) m k) hfr
  exact ⟨h.log, h.dev⟩

/-- C115 (no mix-ups): every command that gets past the queue is given to the system once and in order; a callback that is called is that of a command that did not
fail, gets the device's answer to that command and is called only once; `call` returns or raises the device's answer to its own command, which did not fail;
`send` accepts no command that failed; the only other thing ever raised is the system's error. -/
theorem C115_own (ops : List (LOp δ)) (hops : ∀ op ∈ ops, Pipeline.Gives cmds op.1) (m : Mem) (k : δ)
    (hfr : FFresh b parse dev alloc limit (Pipeline.State.init k) ops) :
    let live := Live.frun b parse dev alloc limit m k ops
    let cs := Pipeline.tried .asiOs (ops.map plain) live.log
    live.world.world.kernel = Pipeline.fafter dev k cs ∧
    (∀ t a, .told t a ∈ live.log →
      ∃ c ans, cs[t]? = some (c, none) ∧ (Pipeline.fanswers dev k cs)[t]? = some (some ans) ∧ a = hear parse c ans) ∧
    (live.log.filterMap Pipeline.toldOf).Nodup ∧
    (∀ t r, .returned t r ∈ live.log →
      ∃ c ans, cs[t]? = some (c, none) ∧ (Pipeline.fanswers dev k cs)[t]? = some (some ans) ∧ r = winOutcome parse c ans) ∧
    (∀ t, .accepted t ∈ live.log → ∃ c, cs[t]? = some (c, none)) ∧
    ∀ e, .raised e ∈ live.log → e = .asiOs := by
  intro live cs
  obtain ⟨hlog, hdev⟩ := C115_refines (limit := limit) hfit hp ops hops m k hfr
  have h := fpast_run (dev := dev) (limit := limit) (hr := hear parse) (ret := winOutcome parse) (ops.map plain) [] _ (fpast_init k)
  simp only [cs, live]
  rw [hdev, hlog]
  refine ⟨h.device, ?_, (List.nodup_append.1 h.once).1, ?_, ?_, h.raised⟩
  · intro t a hm
    obtain ⟨c, ans, ⟨h1, h2⟩, h3⟩ := h.told t a hm
    exact ⟨c, ans, h1, h2, h3⟩
  · intro t r hm
    obtain ⟨c, ans, ⟨h1, h2⟩, h3⟩ := h.returned t r hm
    exact ⟨c, ans, h1, h2, h3⟩
  · intro t hm
    obtain ⟨c, ans, h1, -⟩ := h.accepted t hm
    exact ⟨c, h1⟩

/-- C115 (as far as it holds): as long as at most `limit` commands are given between one `wait` and the next, failing ones included, none is refused and after a
`wait` the callback of every command accepted by `send` has been called. (By `C115_own`, once and with the device's answer to that command.) Missing: more
commands without a `wait` in between, see `C115_false`. -/
theorem C115_partial (ops : List (LOp δ)) (hops : ∀ op ∈ ops, Pipeline.Gives cmds op.1)
    (hb : Pipeline.Bursts limit limit (ops.map Prod.fst ++ [.wait])) (m : Mem) (k : δ)
    (hfr : FFresh b parse dev alloc limit (Pipeline.State.init k) (ops ++ [(.wait, none)])) :
    let live := Live.frun b parse dev alloc limit m k (ops ++ [(.wait, none)])
    (∀ t, .accepted t ∈ live.log → ∃ a, .told t a ∈ live.log) ∧ .refused ∉ live.log := by
  intro live
  obtain ⟨hlog, -⟩ := C115_refines (limit := limit) hfit hp (ops ++ [(.wait, none)])
    (by intro o ho; rcases List.mem_append.1 ho with ho | ho
        · exact hops o ho
        · rw [List.mem_singleton.1 ho]; trivial) m k hfr
  obtain ⟨left, h⟩ := fkept_run (dev := dev) (limit := limit) (hr := hear parse) (ret := winOutcome parse) ((ops ++ [((.wait, none) : LOp δ)]).map plain) limit
    (Pipeline.State.init k)
    ⟨Nat.le_refl _, by simp [Pipeline.State.init], by simp [Pipeline.State.init], by simp [Pipeline.State.init], by simp [Pipeline.State.init]⟩
    (by rw [List.map_map, List.map_append]; exact hb)
  simp only [live]
  rw [hlog]
  refine ⟨?_, h.accepted⟩
  intro t ht
  rcases h.open' t ht with hm | ha
  · have : (Pipeline.frunFrom dev limit (hear parse) (winOutcome parse) (Pipeline.State.init k) ((ops ++ [((.wait, none) : LOp δ)]).map plain)).out = [] := by
      simp only [Pipeline.frunFrom, List.map_append, List.foldl_append]
      rfl
    rw [this] at hm
    cases hm
  · exact ha

omit hfit hp in
/-- A command is sent, then sends fail. -/
def thenFailing (a : Req) (fs : List (Req × Fault δ)) : List (LOp δ) := (.send a, none) :: fs.map (fun f => (.send f.1, some f.2))

/-- C115 fails with every queue size from 2 on: a command is sent with a callback and executed, then as many sends fail as the queue has room for. The user is told
of every failure, but the callback of the command that did not fail is never called, whatever the user does afterwards. -/
theorem C115_false (hl : 2 ≤ limit) (a : Req) (fs : List (Req × Fault δ)) (hfs : fs.length = limit) (more : List (LOp δ))
    (hops : ∀ op ∈ thenFailing a fs ++ more, Pipeline.Gives cmds op.1) (m : Mem) (k : δ)
    (hfr : FFresh b parse dev alloc limit (Pipeline.State.init k) (thenFailing a fs ++ more)) :
    let live := Live.frun b parse dev alloc limit m k (thenFailing a fs ++ more)
    (∀ x, .told 0 x ∉ live.log) ∧
    (more = [(.wait, none)] → live.log = .accepted 0 :: List.replicate limit (.raised .asiOs) ++ [.waited] ∧
      live.world.world.kernel = (fs.foldl (fun k f => f.2.dev k) (dev k (asked a)).2)) := by
  intro live
  obtain ⟨hlog, hdev⟩ := C115_refines (limit := limit) hfit hp _ hops m k hfr
  simp only [live]
  rw [hlog, hdev]
  let s1 : Pipeline.State δ (Told S) (Result S) := ⟨(dev k (asked a)).2, 1, [⟨0, a, (dev k (asked a)).1⟩], [.accepted 0]⟩
  have hs1 : Pipeline.fstep dev limit (hear parse) (winOutcome parse) (Pipeline.State.init k) (.send a, none) = s1 := by
    have : ¬ limit ≤ (Pipeline.State.init k : Pipeline.State δ (Told S) (Result S)).out.length := by simp [Pipeline.State.init]; omega
    simp only [Pipeline.fstep, Pipeline.step, if_neg this]
    rfl
  have hfails := fails_run (dev := dev) (limit := limit) (hr := hear parse) (ret := winOutcome parse) (fs.map (fun f => (f.1, f.2.dev))) s1
    ⟨0, a, (dev k (asked a)).1⟩ rfl hl (by rw [List.length_map, hfs]; show 1 + limit = 0 + limit + 1; omega)
    (by intro he; rw [List.map_eq_nil_iff] at he; rw [he] at hfs; simp at hfs; omega) Nat.one_pos
  have hrun : Pipeline.frun dev limit (hear parse) (winOutcome parse) k
        ((thenFailing a fs ++ more).map plain) =
      Pipeline.frunFrom dev limit (hear parse) (winOutcome parse) ⟨fs.foldl (fun k f => f.2.dev k) (dev k (asked a)).2, 0 + limit + 1, [],
        [.accepted 0] ++ List.replicate limit (.raised .asiOs)⟩ (more.map plain) := by
    rw [List.length_map, hfs, List.foldl_map, List.map_map] at hfails
    rw [← hfails, ← hs1]
    simp only [thenFailing, Pipeline.frun, Pipeline.frunFrom, List.map_append, List.map_cons, List.map_map, List.cons_append, List.foldl_cons, List.foldl_append]
    rfl
  rw [hrun]
  refine ⟨?_, ?_⟩
  · intro x
    refine fnever_told (more.map plain) _ (by simp) (by simp) ?_ x
    intro y hm
    rcases List.mem_append.1 hm with hm | hm
    · simp at hm
    · have := (List.mem_replicate.1 hm).2; cases this
  · rintro rfl
    refine ⟨?_, rfl⟩
    simp [Pipeline.frunFrom, plain, Pipeline.fstep, Pipeline.step]

end

/-! ## Cases -/

/-- Memory that does not overlap for commands less than `limit` apart, and failing calls that keep to the memory of their command, will do. -/
theorem ffresh_of_window {b : Bool} {parse : Bytes → Py (Option S)} {dev : Device δ} {alloc : Nat → Alloc} {limit : Nat} {cmds : Req → Prop}
    (h : ∀ t t' c c', cmds c → cmds c' → t < t' → t' < t + limit → Apart b alloc t c t' c') (ops : List (LOp δ))
    (hops : ∀ op ∈ ops, Pipeline.Gives cmds op.1) (hw : ∀ op ∈ ops, ∀ c f t, op.2 = some f → cmds c → Within b (alloc t) c f)
    (s : Pipeline.State δ (Told S) (Result S)) (hs : ∀ e ∈ s.out, cmds e.cmd ∧ e.t < s.next ∧ s.next ≤ e.t + limit) (hl : 0 < limit) :
    FFresh b parse dev alloc limit s ops := by
  induction ops generalizing s with
  | nil => trivial
  | cons op ops ih =>
    have hk : ∀ e, e ∈ Pipeline.keep limit s → cmds e.cmd ∧ e.t < s.next ∧ s.next < e.t + limit := by
      intro e he
      obtain ⟨h1, h2⟩ := List.mem_filter.1 he
      obtain ⟨h3, h4, h5⟩ := hs e h1
      simp only [decide_eq_true_eq] at h2
      exact ⟨h3, h4, by omega⟩
    have hop := hops op List.mem_cons_self
    have hcm : ∀ c, Pipeline.given op.1 = some c → cmds c := by
      intro c hc
      obtain ⟨o, f⟩ := op
      cases o <;> simp only [Pipeline.given, Option.some.injEq, reduceCtorEq] at hc
      · subst hc; exact hop
      · subst hc; exact hop
    refine ⟨fun c hc => ⟨fun e he => h _ _ _ _ (hk e he).1 (hcm c hc) (hk e he).2.1 (hk e he).2.2,
      fun f hf => hw op List.mem_cons_self c f _ hf (hcm c hc)⟩, ?_⟩
    refine ih (fun o ho => hops o (List.mem_cons_of_mem _ ho)) (fun o ho => hw o (List.mem_cons_of_mem _ ho)) _ ?_
    obtain ⟨o, f⟩ := op
    have hold : ∀ e ∈ Pipeline.keep limit s, cmds e.cmd ∧ e.t < s.next + 1 ∧ s.next + 1 ≤ e.t + limit := by
      intro e he
      obtain ⟨h1, h2, h3⟩ := hk e he
      exact ⟨h1, Nat.lt_succ_of_lt h2, h3⟩
    cases o <;> cases f <;> simp only [plain, Option.map_none, Option.map_some, Pipeline.fstep, Pipeline.failed, Pipeline.step] <;> (try split)
    · exact hs
    · intro e he
      rcases List.mem_cons.1 he with rfl | he
      · exact ⟨hop, Nat.lt_succ_self _, by show s.next + 1 ≤ s.next + limit; omega⟩
      · exact hold e he
    · exact hs
    · exact hold
    · exact hs
    · exact hold
    · exact hs
    · exact hold
    · simp
    · simp

/-- A call that fails before the device hears of it. -/
def lost : Fault Nat := ⟨id, id⟩

/-- A call that fails after the device has executed the command. -/
def late : Fault Nat := ⟨(· + 1), id⟩

/-- A command is sent, two more fail, one of them after it was executed: the callback of the first is lost. -/
def sentAndFailing : List (LOp Nat) :=
  thenFailing (.read [8, 0, 0, 5, 1, 0] 512) [(.read [8, 0, 0, 6, 1, 0] 512, lost), (.read [8, 0, 0, 7, 1, 0] 512, late)] ++ [(.wait, none)]

theorem sentAndFailing_gives : ∀ op ∈ sentAndFailing, Pipeline.Gives oneBlock op.1 := by
  intro o ho
  simp [sentAndFailing, thenFailing] at ho
  rcases ho with rfl | rfl | rfl | rfl <;> simp [Pipeline.Gives, oneBlock]

theorem sentAndFailing_fresh :
    FFresh true (S := Unit) (fun _ => .ok none) counting twoSlots 2 (Pipeline.State.init 0) sentAndFailing :=
  ffresh_of_window twoSlots_apart _ sentAndFailing_gives
    (by
      intro o ho c f t hf hc
      simp [sentAndFailing, thenFailing] at ho
      rcases ho with rfl | rfl | rfl | rfl <;> simp only [Option.some.injEq, reduceCtorEq] at hf
      · subst hf; intro m x _; rfl
      · subst hf; intro m x _; rfl)
    _ (by simp [Pipeline.State.init]) (by decide)

example : (Live.frun true (S := Unit) (fun _ => .ok none) counting twoSlots 2 (fun _ => 0) 0 sentAndFailing).log =
      [.accepted 0, .raised .asiOs, .raised .asiOs, .waited] ∧
    (Live.frun true (S := Unit) (fun _ => .ok none) counting twoSlots 2 (fun _ => 0) 0 sentAndFailing).world.world.kernel = 2 :=
  (C115_false (limit := 2) twoSlots_fits (fun _ _ h => by simp [counting] at h) (Nat.le_refl 2) _ _ rfl [(.wait, none)] sentAndFailing_gives
    (fun _ => 0) 0 sentAndFailing_fresh).2 rfl

/-- A command that is executed and one that fails, ahead of a `wait`, meet the condition of `C115_partial`. -/
example : Pipeline.Bursts 2 2 (([(.send (.read [8, 0, 0, 5, 1, 0] 512), none), (.send (.read [8, 0, 0, 6, 1, 0] 512), some lost)] :
    List (LOp Nat)).map Prod.fst ++ [.wait]) := trivial

end Ahead
end Verif.Platform.Win32
