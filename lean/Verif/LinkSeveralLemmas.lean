import Verif.Spec.LinkSeveral
import Verif.SeveralLemmas
set_option linter.unusedSimpArgs false
/-!
# Ideal users of one device on ways that can fail are linearizable
-/

namespace Verif.Spec.LinkSeveral
open Verif.Spec Verif.Spec.Link
open Verif.Spec.Several (Turn Turn.key Before)

variable {δ A : Type} {dev : Nat → Linked δ} {limit : Nat} {hear : Req → Report → A}

theorem serial_append (k : δ) (o p : List Turn) :
    serial dev k (o ++ p) = ((serial dev k o).1 ++ (serial dev (serial dev k o).2 p).1, (serial dev (serial dev k o).2 p).2) := by
  induction o generalizing k with
  | nil => rfl
  | cons x o ih =>
    obtain ⟨i, t, c⟩ := x
    simp only [List.cons_append, serial, ih]

/-- The state of affairs at any time. -/
structure Good (dev : Nat → Linked δ) (k : δ) (hear : Req → Report → A) (s : State δ A) : Prop where
  lin : Linear dev k hear s.log s.order
  final : s.dev = (serial dev k s.order).2
  /-- a waiting command was accepted and not executed -/
  waiting : ∀ i t c, (t, c) ∈ (s.user i).waiting → (i, .send c true, .accepted t) ∈ s.log ∧ (i, t) ∉ s.order.map Turn.key ∧ t < (s.user i).next
  /-- a finished command got its answer in its turn -/
  done : ∀ i t c ans, (t, c, ans) ∈ (s.user i).done → (i, t, c, ans) ∈ (serial dev k s.order).1
  /-- outstanding commands are different and not over -/
  tickets : ∀ i, (s.user i).tickets.Nodup
  open_ : ∀ i t, t ∈ (s.user i).tickets → (i, t) ∉ s.log.filterMap toldKey
  /-- what is over was executed -/
  told : ∀ x ∈ s.log.filterMap toldKey, x ∈ s.order.map Turn.key
  /-- numbers not given yet -/
  fresh : ∀ i t, (i, t) ∈ s.order.map Turn.key → t < (s.user i).next
  number : ∀ i op t, (i, op, .accepted t) ∈ s.log → t < (s.user i).next

theorem Good.init (k : δ) : Good dev k hear (State.init k) := by
  refine ⟨⟨?_, ?_, ?_, ?_, ?_, ?_⟩, rfl, ?_, ?_, ?_, ?_, ?_, ?_, ?_⟩
  all_goals simp [State.init, LinkQueue.State.init, LinkQueue.State.tickets]

theorem serial_keys (k : δ) (o : List Turn) : (serial dev k o).1.map (fun x => (x.1, x.2.1, x.2.2.1)) = o := by
  induction o generalizing k with
  | nil => rfl
  | cons x o ih => obtain ⟨i, t, c⟩ := x; simp only [serial, List.map_cons, ih]

/-- An event that tells nothing and accepts nothing. -/
theorem Linear.silent {k : δ} {log : List (Entry A)} {order : List Turn} (h : Linear dev k hear log order) (x : Entry A)
    (h1 : toldKey x = none) (h2 : ∀ t, x.2.2 ≠ .accepted t) : Linear dev k hear (log ++ [x]) order := by
  have hfm : (log ++ [x]).filterMap toldKey = log.filterMap toldKey := by simp [h1]
  have hac : (log ++ [x]).filterMap acceptedKey = log.filterMap acceptedKey := by
    obtain ⟨i, op, e⟩ := x
    cases e with
    | accepted t => exact absurd rfl (h2 t)
    | _ => simp [acceptedKey]
  refine ⟨h.once, by rw [hac]; exact h.numbers, fun i t c hm => List.mem_append_left _ (h.sent i t c hm), by rw [hfm]; exact h.over, ?_, ?_⟩
  · intro i op t a hm
    rcases List.mem_append.mp hm with hm | hm
    · exact h.told i op t a hm
    · rw [List.mem_singleton] at hm; subst hm; simp [toldKey] at h1
  · intro l1 l2 i t j op u e hi hj
    rcases List.eq_nil_or_concat l2 with e2 | ⟨l2', y, e2⟩
    · subst e2
      have := (List.append_inj' e rfl).2
      simp only [List.cons.injEq, and_true] at this
      exact absurd (by rw [this]) (h2 u)
    · subst e2
      rw [List.concat_eq_append, ← List.cons_append, ← List.append_assoc] at e
      exact h.time l1 l2' i t j op u (List.append_inj' e rfl).1 hi hj

theorem Good.step {k : δ} {s : State δ A} (h : Good dev k hear s) (x : Nat × LinkQueue.Op) : Good dev k hear (step dev limit hear s x) := by
  obtain ⟨j, op⟩ := x
  cases op with
  | send c taken =>
    by_cases hfull : limit ≤ (s.user j).tickets.length
    · have hq : LinkQueue.step (dev j) limit hear { s.user j with dev := s.dev } (.send c taken) =
          { { s.user j with dev := s.dev } with log := (s.user j).log ++ [.refused] } := by
        have : limit ≤ ({ s.user j with dev := s.dev } : LinkQueue.State δ A).tickets.length := hfull
        simp only [LinkQueue.step, this, if_true]
      have hl : (LinkSeveral.step dev limit hear s (j, .send c taken)).log = s.log ++ [(j, .send c taken, .refused)] := by
        simp only [LinkSeveral.step, hq, Several.drop_append, List.map_cons, List.map_nil]
      have ho : (LinkSeveral.step dev limit hear s (j, .send c taken)).order = s.order := by simp only [LinkSeveral.step, List.append_nil]
      have hd : (LinkSeveral.step dev limit hear s (j, .send c taken)).dev = s.dev := by simp only [LinkSeveral.step, hq]
      have hu : ∀ i, ((LinkSeveral.step dev limit hear s (j, .send c taken)).user i).waiting = (s.user i).waiting ∧
          ((LinkSeveral.step dev limit hear s (j, .send c taken)).user i).done = (s.user i).done ∧
          ((LinkSeveral.step dev limit hear s (j, .send c taken)).user i).next = (s.user i).next := by
        intro i
        simp only [LinkSeveral.step, hq]
        split
        · rename_i e; subst e; exact ⟨rfl, rfl, rfl⟩
        · exact ⟨rfl, rfl, rfl⟩
      have ht : ∀ i, ((LinkSeveral.step dev limit hear s (j, .send c taken)).user i).tickets = (s.user i).tickets := by
        intro i; simp only [LinkQueue.State.tickets, (hu i).1, (hu i).2.1]
      have hfm : (s.log ++ [((j, .send c taken, .refused) : Entry A)]).filterMap toldKey = s.log.filterMap toldKey := by simp [toldKey]
      generalize LinkSeveral.step dev limit hear s (j, .send c taken) = s' at *
      refine ⟨?_, ?_, ?_, ?_, ?_, ?_, ?_, ?_, ?_⟩
      · rw [hl, ho]; exact h.lin.silent _ rfl (by simp)
      · rw [hd, ho]; exact h.final
      · intro i t c' hm
        rw [(hu i).1] at hm
        obtain ⟨a, b, c⟩ := h.waiting i t c' hm
        rw [hl, ho, (hu i).2.2]
        exact ⟨List.mem_append_left _ a, b, c⟩
      · intro i t c' ans hm; rw [(hu i).2.1] at hm; rw [ho]; exact h.done i t c' ans hm
      · intro i; rw [ht]; exact h.tickets i
      · intro i t hm; rw [ht] at hm; rw [hl, hfm]; exact h.open_ i t hm
      · rw [hl, hfm, ho]; exact h.told
      · intro i t hm; rw [ho] at hm; rw [(hu i).2.2]; exact h.fresh i t hm
      · intro i op t hm
        rw [hl] at hm
        rw [(hu i).2.2]
        rcases List.mem_append.mp hm with hm | hm
        · exact h.number i op t hm
        · simp at hm
    · cases taken with
      | false =>
        have hq : LinkQueue.step (dev j) limit hear { s.user j with dev := s.dev } (.send c false) =
            { { s.user j with dev := s.dev } with next := (s.user j).next + 1, log := (s.user j).log ++ [.failed] } := by
          have : ¬ limit ≤ ({ s.user j with dev := s.dev } : LinkQueue.State δ A).tickets.length := hfull
          simp only [LinkQueue.step, this, if_false, if_true]
        have hl : (LinkSeveral.step dev limit hear s (j, .send c false)).log = s.log ++ [(j, .send c false, .failed)] := by
          simp only [LinkSeveral.step, hq, Several.drop_append, List.map_cons, List.map_nil]
        have ho : (LinkSeveral.step dev limit hear s (j, .send c false)).order = s.order := by simp only [LinkSeveral.step, List.append_nil]
        have hd : (LinkSeveral.step dev limit hear s (j, .send c false)).dev = s.dev := by simp only [LinkSeveral.step, hq]
        have hu : ∀ i, ((LinkSeveral.step dev limit hear s (j, .send c false)).user i).waiting = (s.user i).waiting ∧
            ((LinkSeveral.step dev limit hear s (j, .send c false)).user i).done = (s.user i).done ∧
            (s.user i).next ≤ ((LinkSeveral.step dev limit hear s (j, .send c false)).user i).next := by
          intro i
          simp only [LinkSeveral.step, hq]
          split
          · rename_i e; subst e; exact ⟨rfl, rfl, Nat.le_succ _⟩
          · exact ⟨rfl, rfl, Nat.le_refl _⟩
        have ht : ∀ i, ((LinkSeveral.step dev limit hear s (j, .send c false)).user i).tickets = (s.user i).tickets := by
          intro i; simp only [LinkQueue.State.tickets, (hu i).1, (hu i).2.1]
        have hfm : (s.log ++ [((j, .send c false, .failed) : Entry A)]).filterMap toldKey = s.log.filterMap toldKey := by simp [toldKey]
        generalize LinkSeveral.step dev limit hear s (j, .send c false) = s' at *
        refine ⟨?_, ?_, ?_, ?_, ?_, ?_, ?_, ?_, ?_⟩
        · rw [hl, ho]; exact h.lin.silent _ rfl (by simp)
        · rw [hd, ho]; exact h.final
        · intro i t c' hm
          rw [(hu i).1] at hm
          obtain ⟨a, b, c⟩ := h.waiting i t c' hm
          rw [hl, ho]
          exact ⟨List.mem_append_left _ a, b, Nat.lt_of_lt_of_le c (hu i).2.2⟩
        · intro i t c' ans hm; rw [(hu i).2.1] at hm; rw [ho]; exact h.done i t c' ans hm
        · intro i; rw [ht]; exact h.tickets i
        · intro i t hm; rw [ht] at hm; rw [hl, hfm]; exact h.open_ i t hm
        · rw [hl, hfm, ho]; exact h.told
        · intro i t hm; rw [ho] at hm; exact Nat.lt_of_lt_of_le (h.fresh i t hm) (hu i).2.2
        · intro i op t hm
          rw [hl] at hm
          refine Nat.lt_of_lt_of_le ?_ (hu i).2.2
          rcases List.mem_append.mp hm with hm | hm
          · exact h.number i op t hm
          · simp at hm
      | true =>
        have hq : LinkQueue.step (dev j) limit hear { s.user j with dev := s.dev } (.send c true) =
            { { s.user j with dev := s.dev } with
              next := (s.user j).next + 1
              waiting := (s.user j).waiting ++ [((s.user j).next, c)]
              log := (s.user j).log ++ [.accepted (s.user j).next] } := by
          have : ¬ limit ≤ ({ s.user j with dev := s.dev } : LinkQueue.State δ A).tickets.length := hfull
          simp only [LinkQueue.step, this, if_false, reduceCtorEq]
        have hl : (LinkSeveral.step dev limit hear s (j, .send c true)).log = s.log ++ [(j, .send c true, .accepted (s.user j).next)] := by
          simp only [LinkSeveral.step, hq, Several.drop_append, List.map_cons, List.map_nil]
        have ho : (LinkSeveral.step dev limit hear s (j, .send c true)).order = s.order := by simp only [LinkSeveral.step, List.append_nil]
        have hd : (LinkSeveral.step dev limit hear s (j, .send c true)).dev = s.dev := by simp only [LinkSeveral.step, hq]
        have hother : ∀ i, i ≠ j → (LinkSeveral.step dev limit hear s (j, .send c true)).user i = s.user i := by
          intro i e; simp only [LinkSeveral.step, if_neg e]
        have hw : ((LinkSeveral.step dev limit hear s (j, .send c true)).user j).waiting = (s.user j).waiting ++ [((s.user j).next, c)] := by
          simp only [LinkSeveral.step, hq, if_true]
        have hdn : ((LinkSeveral.step dev limit hear s (j, .send c true)).user j).done = (s.user j).done := by
          simp only [LinkSeveral.step, hq, if_true]
        have hn : ((LinkSeveral.step dev limit hear s (j, .send c true)).user j).next = (s.user j).next + 1 := by
          simp only [LinkSeveral.step, hq, if_true]
        have hfm : (s.log ++ [((j, .send c true, .accepted (s.user j).next) : Entry A)]).filterMap toldKey = s.log.filterMap toldKey := by
          simp [toldKey]
        have hne : (j, (s.user j).next) ∉ s.order.map Turn.key := fun hm => absurd (h.fresh j _ hm) (Nat.lt_irrefl _)
        have htk : ((LinkSeveral.step dev limit hear s (j, .send c true)).user j).tickets = (s.user j).tickets ++ [(s.user j).next] := by
          simp only [LinkQueue.State.tickets, hw, hdn, List.map_append, List.map_cons, List.map_nil, List.append_assoc]
        have hlt : ∀ t ∈ (s.user j).tickets, t < (s.user j).next := by
          intro t hm
          simp only [LinkQueue.State.tickets, List.mem_append, List.mem_map] at hm
          rcases hm with ⟨x, hx, e⟩ | ⟨x, hx, e⟩
          · obtain ⟨t', c', ans⟩ := x
            have := h.done j t' c' ans hx
            subst e
            apply h.fresh j
            have := List.mem_map_of_mem (f := fun x : Nat × Nat × Req × Report => (x.1, x.2.1, x.2.2.1)) this
            rw [serial_keys] at this
            exact List.mem_map_of_mem (f := Turn.key) this
          · obtain ⟨t', c'⟩ := x
            subst e
            exact (h.waiting j t' c' hx).2.2
        generalize LinkSeveral.step dev limit hear s (j, .send c true) = s' at *
        refine ⟨?_, ?_, ?_, ?_, ?_, ?_, ?_, ?_, ?_⟩
        · rw [hl, ho]
          have hac : (s.log ++ [((j, .send c true, .accepted (s.user j).next) : Entry A)]).filterMap acceptedKey =
              s.log.filterMap acceptedKey ++ [(j, (s.user j).next)] := by simp [acceptedKey]
          refine ⟨h.lin.once, ?_, fun i t c hm => List.mem_append_left _ (h.lin.sent i t c hm), by rw [hfm]; exact h.lin.over, ?_, ?_⟩
          · rw [hac, List.nodup_append]
            refine ⟨h.lin.numbers, by simp, ?_⟩
            intro a ha b hb e
            rw [List.mem_singleton] at hb
            rw [e, hb, List.mem_filterMap] at ha
            obtain ⟨⟨i, op, ev⟩, hm, hk⟩ := ha
            cases ev with
            | accepted t =>
              simp only [acceptedKey, Option.some.injEq, Prod.mk.injEq] at hk
              obtain ⟨e1, e2⟩ := hk
              subst e1
              have := h.number i op t hm
              omega
            | _ => simp [acceptedKey] at hk
          · intro i op t a hm
            rcases List.mem_append.mp hm with hm | hm
            · exact h.lin.told i op t a hm
            · simp at hm
          · intro l1 l2 i t j' op u e hi hj
            rcases List.eq_nil_or_concat l2 with e2 | ⟨l2', y, e2⟩
            · subst e2
              have := (List.append_inj' e rfl).2
              simp only [List.cons.injEq, and_true, Prod.mk.injEq, LinkQueue.Ev.accepted.injEq] at this
              obtain ⟨e1, -, e3⟩ := this
              rw [← e1, ← e3] at hj
              exact absurd hj hne
            · subst e2
              rw [List.concat_eq_append, ← List.cons_append, ← List.append_assoc] at e
              exact h.lin.time l1 l2' i t j' op u (List.append_inj' e rfl).1 hi hj
        · rw [hd, ho]; exact h.final
        · intro i t c' hm
          rw [hl, ho]
          by_cases e : i = j
          · subst e
            rw [hw] at hm
            rw [hn]
            rcases List.mem_append.mp hm with hm | hm
            · obtain ⟨a, b, c⟩ := h.waiting i t c' hm
              exact ⟨List.mem_append_left _ a, b, by omega⟩
            · simp only [List.mem_singleton, Prod.mk.injEq] at hm
              obtain ⟨e1, e2⟩ := hm
              subst e1; subst e2
              exact ⟨List.mem_append_right _ (List.mem_singleton.mpr rfl), hne, by omega⟩
          · rw [hother i e] at hm ⊢
            obtain ⟨a, b, c⟩ := h.waiting i t c' hm
            exact ⟨List.mem_append_left _ a, b, c⟩
        · intro i t c' ans hm
          rw [ho]
          by_cases e : i = j
          · subst e; rw [hdn] at hm; exact h.done i t c' ans hm
          · rw [hother i e] at hm; exact h.done i t c' ans hm
        · intro i
          by_cases e : i = j
          · subst e
            rw [htk, List.nodup_append]
            refine ⟨h.tickets i, by simp, ?_⟩
            intro a ha b hb
            rw [List.mem_singleton] at hb
            have := hlt a ha
            omega
          · rw [hother i e]; exact h.tickets i
        · intro i t hm
          rw [hl, hfm]
          by_cases e : i = j
          · subst e
            rw [htk] at hm
            rcases List.mem_append.mp hm with hm | hm
            · exact h.open_ i t hm
            · rw [List.mem_singleton] at hm; subst hm
              exact fun hm => hne (h.told _ hm)
          · rw [hother i e] at hm; exact h.open_ i t hm
        · rw [hl, hfm, ho]; exact h.told
        · intro i t hm
          rw [ho] at hm
          by_cases e : i = j
          · subst e; rw [hn]; have := h.fresh i t hm; omega
          · rw [hother i e]; exact h.fresh i t hm
        · intro i op t hm
          rw [hl] at hm
          rcases List.mem_append.mp hm with hm | hm
          · have := h.number i op t hm
            by_cases e : i = j
            · subst e; rw [hn]; omega
            · rw [hother i e]; exact this
          · simp only [List.mem_singleton, Prod.mk.injEq, LinkQueue.Ev.accepted.injEq] at hm
            obtain ⟨e1, -, e3⟩ := hm
            subst e1; subst e3
            rw [hn]; omega
  | finish n direct =>
    cases hw : (s.user j).waiting[n]? with
    | none =>
      have hq : LinkQueue.step (dev j) limit hear { s.user j with dev := s.dev } (.finish n direct) = { s.user j with dev := s.dev } := by
        simp only [LinkQueue.step, hw]
      have hl : (LinkSeveral.step dev limit hear s (j, .finish n direct)).log = s.log := by
        simp only [LinkSeveral.step, hq, List.drop_length, List.map_nil, List.append_nil]
      have ho : (LinkSeveral.step dev limit hear s (j, .finish n direct)).order = s.order := by
        simp only [LinkSeveral.step, hw, Option.toList_none, List.map_nil, List.append_nil]
      have hd : (LinkSeveral.step dev limit hear s (j, .finish n direct)).dev = s.dev := by simp only [LinkSeveral.step, hq]
      have hu : ∀ i, ((LinkSeveral.step dev limit hear s (j, .finish n direct)).user i).waiting = (s.user i).waiting ∧
          ((LinkSeveral.step dev limit hear s (j, .finish n direct)).user i).done = (s.user i).done ∧
          ((LinkSeveral.step dev limit hear s (j, .finish n direct)).user i).next = (s.user i).next := by
        intro i
        simp only [LinkSeveral.step, hq]
        split
        · rename_i e; subst e; exact ⟨rfl, rfl, rfl⟩
        · exact ⟨rfl, rfl, rfl⟩
      have ht : ∀ i, ((LinkSeveral.step dev limit hear s (j, .finish n direct)).user i).tickets = (s.user i).tickets := by
        intro i; simp only [LinkQueue.State.tickets, (hu i).1, (hu i).2.1]
      generalize LinkSeveral.step dev limit hear s (j, .finish n direct) = s' at *
      refine ⟨?_, ?_, ?_, ?_, ?_, ?_, ?_, ?_, ?_⟩
      · rw [hl, ho]; exact h.lin
      · rw [hd, ho]; exact h.final
      · intro i t c' hm
        rw [(hu i).1] at hm
        rw [hl, ho, (hu i).2.2]
        exact h.waiting i t c' hm
      · intro i t c' ans hm; rw [(hu i).2.1] at hm; rw [ho]; exact h.done i t c' ans hm
      · intro i; rw [ht]; exact h.tickets i
      · intro i t hm; rw [ht] at hm; rw [hl]; exact h.open_ i t hm
      · rw [hl, ho]; exact h.told
      · intro i t hm; rw [ho] at hm; rw [(hu i).2.2]; exact h.fresh i t hm
      · intro i op t hm; rw [hl] at hm; rw [(hu i).2.2]; exact h.number i op t hm
    | some tc =>
      obtain ⟨t0, c0⟩ := tc
      have hq : LinkQueue.step (dev j) limit hear { s.user j with dev := s.dev } (.finish n direct) =
          { { s.user j with dev := s.dev } with
            dev := (dev j s.dev (asked c0)).2
            waiting := (s.user j).waiting.eraseIdx n
            done := (s.user j).done ++ [(t0, c0, (dev j s.dev (asked c0)).1)] } := by
        simp only [LinkQueue.step, hw]
      have hl : (LinkSeveral.step dev limit hear s (j, .finish n direct)).log = s.log := by
        simp only [LinkSeveral.step, hq, List.drop_length, List.map_nil, List.append_nil]
      have ho : (LinkSeveral.step dev limit hear s (j, .finish n direct)).order = s.order ++ [(j, t0, c0)] := by
        simp only [LinkSeveral.step, hw, Option.toList_some, List.map_cons, List.map_nil]
      have hd : (LinkSeveral.step dev limit hear s (j, .finish n direct)).dev = (dev j s.dev (asked c0)).2 := by simp only [LinkSeveral.step, hq]
      have hother : ∀ i, i ≠ j → (LinkSeveral.step dev limit hear s (j, .finish n direct)).user i = s.user i := by
        intro i e; simp only [LinkSeveral.step, if_neg e]
      have hw' : ((LinkSeveral.step dev limit hear s (j, .finish n direct)).user j).waiting = (s.user j).waiting.eraseIdx n := by
        simp only [LinkSeveral.step, hq, if_true]
      have hdn : ((LinkSeveral.step dev limit hear s (j, .finish n direct)).user j).done =
          (s.user j).done ++ [(t0, c0, (dev j s.dev (asked c0)).1)] := by
        simp only [LinkSeveral.step, hq, if_true]
      have hn : ((LinkSeveral.step dev limit hear s (j, .finish n direct)).user j).next = (s.user j).next := by
        simp only [LinkSeveral.step, hq, if_true]
      have hmem : (t0, c0) ∈ (s.user j).waiting := List.mem_of_getElem? hw
      obtain ⟨hacc, hnot, hlt⟩ := h.waiting j t0 c0 hmem
      have hser : serial dev k (s.order ++ [(j, t0, c0)]) =
          ((serial dev k s.order).1 ++ [(j, t0, c0, (dev j s.dev (asked c0)).1)], (dev j s.dev (asked c0)).2) := by
        rw [serial_append]; simp only [serial, ← h.final]
      -- the ticket moves from waiting to done
      have hperm : ((LinkSeveral.step dev limit hear s (j, .finish n direct)).user j).tickets.Perm (s.user j).tickets := by
        simp only [LinkQueue.State.tickets, hw', hdn, List.map_append, List.map_cons, List.map_nil, List.append_assoc]
        refine List.Perm.append_left _ ?_
        have hp : (s.user j).waiting.Perm ((t0, c0) :: (s.user j).waiting.eraseIdx n) := by
          obtain ⟨hlen, e⟩ := List.getElem?_eq_some_iff.mp hw
          have h1 : (s.user j).waiting = (s.user j).waiting.take n ++ (t0, c0) :: (s.user j).waiting.drop (n + 1) := by
            rw [← e, List.getElem_cons_drop, List.take_append_drop]
          rw [List.eraseIdx_eq_take_drop_succ]
          rw [h1]
          have e2 : List.take n ((s.user j).waiting.take n ++ (t0, c0) :: (s.user j).waiting.drop (n + 1)) = (s.user j).waiting.take n := by
            rw [← h1]
          have e3 : List.drop (n + 1) ((s.user j).waiting.take n ++ (t0, c0) :: (s.user j).waiting.drop (n + 1)) = (s.user j).waiting.drop (n + 1) := by
            rw [← h1]
          rw [e2, e3]
          exact List.perm_middle
        exact (hp.map Prod.fst).symm
      have hnd : ((s.user j).waiting.map Prod.fst).Nodup := by
        have := h.tickets j
        simp only [LinkQueue.State.tickets] at this
        exact (List.nodup_append.mp this).2.1
      have hleft : ∀ t c, (t, c) ∈ (s.user j).waiting.eraseIdx n → (t, c) ∈ (s.user j).waiting ∧ t ≠ t0 := by
        intro t c hm
        refine ⟨List.mem_of_mem_eraseIdx hm, ?_⟩
        intro e
        subst e
        obtain ⟨hlen, e⟩ := List.getElem?_eq_some_iff.mp hw
        obtain ⟨m, hmlen, hmn, e'⟩ := List.mem_eraseIdx_iff_getElem.mp hm
        have h1 : ((s.user j).waiting.map Prod.fst)[n]'(by simpa using hlen) = ((s.user j).waiting.map Prod.fst)[m]'(by simpa using hmlen) := by
          simp only [List.getElem_map, e, e']
        exact hmn ((List.getElem_inj hnd).mp h1).symm
      generalize LinkSeveral.step dev limit hear s (j, .finish n direct) = s' at *
      refine ⟨?_, ?_, ?_, ?_, ?_, ?_, ?_, ?_, ?_⟩
      · rw [hl, ho]
        refine ⟨?_, h.lin.numbers, ?_, h.lin.over, ?_, ?_⟩
        · rw [List.map_append, List.nodup_append]
          refine ⟨h.lin.once, by simp, ?_⟩
          intro a ha b hb e
          simp only [List.map_cons, List.map_nil, List.mem_singleton, Turn.key] at hb
          rw [e, hb] at ha
          exact hnot ha
        · intro i t c hm
          rcases List.mem_append.mp hm with hm | hm
          · exact h.lin.sent i t c hm
          · simp only [List.mem_singleton, Prod.mk.injEq] at hm
            obtain ⟨e1, e2, e3⟩ := hm
            subst e1; subst e2; subst e3
            exact hacc
        · intro i op t a hm
          obtain ⟨c, ans, h1, h2⟩ := h.lin.told i op t a hm
          exact ⟨c, ans, by rw [hser]; exact List.mem_append_left _ h1, h2⟩
        · intro l1 l2 i t j' op u e hi hj
          rw [List.map_append, List.mem_append] at hj
          rcases hj with hj | hj
          · exact (h.lin.time l1 l2 i t j' op u e hi hj).append _
          · refine ⟨s.order, [(j, t0, c0)], rfl, ?_, hj⟩
            apply h.told
            rw [e, List.filterMap_append]
            exact List.mem_append_left _ hi
      · rw [hd, ho, hser]
      · intro i t c' hm
        rw [hl, ho]
        by_cases e : i = j
        · subst e
          rw [hw'] at hm
          obtain ⟨hm, hne⟩ := hleft t c' hm
          obtain ⟨a, b, c⟩ := h.waiting i t c' hm
          refine ⟨a, ?_, by rw [hn]; exact c⟩
          rw [List.map_append, List.mem_append]
          rintro (hm | hm)
          · exact b hm
          · simp only [List.map_cons, List.map_nil, List.mem_singleton, Turn.key, Prod.mk.injEq, true_and] at hm
            exact hne hm
        · rw [hother i e] at hm ⊢
          obtain ⟨a, b, c⟩ := h.waiting i t c' hm
          refine ⟨a, ?_, c⟩
          rw [List.map_append, List.mem_append]
          rintro (hm | hm)
          · exact b hm
          · simp only [List.map_cons, List.map_nil, List.mem_singleton, Turn.key, Prod.mk.injEq] at hm
            exact e hm.1
      · intro i t c' ans hm
        rw [ho, hser]
        by_cases e : i = j
        · subst e
          rw [hdn] at hm
          rcases List.mem_append.mp hm with hm | hm
          · exact List.mem_append_left _ (h.done i t c' ans hm)
          · simp only [List.mem_singleton, Prod.mk.injEq] at hm
            obtain ⟨e1, e2, e3⟩ := hm
            subst e1; subst e2; subst e3
            exact List.mem_append_right _ (List.mem_singleton.mpr rfl)
        · rw [hother i e] at hm
          exact List.mem_append_left _ (h.done i t c' ans hm)
      · intro i
        by_cases e : i = j
        · subst e; exact hperm.symm.nodup (h.tickets i)
        · rw [hother i e]; exact h.tickets i
      · intro i t hm
        rw [hl]
        by_cases e : i = j
        · subst e; exact h.open_ i t (hperm.mem_iff.mp hm)
        · rw [hother i e] at hm; exact h.open_ i t hm
      · rw [hl, ho]
        intro x hx
        rw [List.map_append]
        exact List.mem_append_left _ (h.told x hx)
      · intro i t hm
        rw [ho, List.map_append, List.mem_append] at hm
        by_cases e : i = j
        · subst e
          rw [hn]
          rcases hm with hm | hm
          · exact h.fresh i t hm
          · simp only [List.map_cons, List.map_nil, List.mem_singleton, Turn.key, Prod.mk.injEq, true_and] at hm
            rw [hm]; exact hlt
        · rw [hother i e]
          rcases hm with hm | hm
          · exact h.fresh i t hm
          · simp only [List.map_cons, List.map_nil, List.mem_singleton, Turn.key, Prod.mk.injEq] at hm
            exact absurd hm.1 e
      · intro i op t hm
        rw [hl] at hm
        by_cases e : i = j
        · subst e; rw [hn]; exact h.number i op t hm
        · rw [hother i e]; exact h.number i op t hm
  | receive n =>
    cases hw : (s.user j).done[n]? with
    | none =>
      have hq : LinkQueue.step (dev j) limit hear { s.user j with dev := s.dev } (.receive n) =
          { { s.user j with dev := s.dev } with log := (s.user j).log ++ [.nothing] } := by
        simp only [LinkQueue.step, hw]
      have hl : (LinkSeveral.step dev limit hear s (j, .receive n)).log = s.log ++ [(j, .receive n, .nothing)] := by
        simp only [LinkSeveral.step, hq, Several.drop_append, List.map_cons, List.map_nil]
      have ho : (LinkSeveral.step dev limit hear s (j, .receive n)).order = s.order := by simp only [LinkSeveral.step, List.append_nil]
      have hd : (LinkSeveral.step dev limit hear s (j, .receive n)).dev = s.dev := by simp only [LinkSeveral.step, hq]
      have hu : ∀ i, ((LinkSeveral.step dev limit hear s (j, .receive n)).user i).waiting = (s.user i).waiting ∧
          ((LinkSeveral.step dev limit hear s (j, .receive n)).user i).done = (s.user i).done ∧
          ((LinkSeveral.step dev limit hear s (j, .receive n)).user i).next = (s.user i).next := by
        intro i
        simp only [LinkSeveral.step, hq]
        split
        · rename_i e; subst e; exact ⟨rfl, rfl, rfl⟩
        · exact ⟨rfl, rfl, rfl⟩
      have ht : ∀ i, ((LinkSeveral.step dev limit hear s (j, .receive n)).user i).tickets = (s.user i).tickets := by
        intro i; simp only [LinkQueue.State.tickets, (hu i).1, (hu i).2.1]
      have hfm : (s.log ++ [((j, .receive n, .nothing) : Entry A)]).filterMap toldKey = s.log.filterMap toldKey := by simp [toldKey]
      generalize LinkSeveral.step dev limit hear s (j, .receive n) = s' at *
      refine ⟨?_, ?_, ?_, ?_, ?_, ?_, ?_, ?_, ?_⟩
      · rw [hl, ho]; exact h.lin.silent _ rfl (by simp)
      · rw [hd, ho]; exact h.final
      · intro i t c' hm
        rw [(hu i).1] at hm
        obtain ⟨a, b, c⟩ := h.waiting i t c' hm
        rw [hl, ho, (hu i).2.2]
        exact ⟨List.mem_append_left _ a, b, c⟩
      · intro i t c' ans hm; rw [(hu i).2.1] at hm; rw [ho]; exact h.done i t c' ans hm
      · intro i; rw [ht]; exact h.tickets i
      · intro i t hm; rw [ht] at hm; rw [hl, hfm]; exact h.open_ i t hm
      · rw [hl, hfm, ho]; exact h.told
      · intro i t hm; rw [ho] at hm; rw [(hu i).2.2]; exact h.fresh i t hm
      · intro i op t hm
        rw [hl] at hm
        rw [(hu i).2.2]
        rcases List.mem_append.mp hm with hm | hm
        · exact h.number i op t hm
        · simp at hm
    | some e0 =>
      obtain ⟨t0, c0, ans0⟩ := e0
      have hq : LinkQueue.step (dev j) limit hear { s.user j with dev := s.dev } (.receive n) =
          { { s.user j with dev := s.dev } with
            done := (s.user j).done.eraseIdx n
            log := (s.user j).log ++ [.told t0 (hear c0 ans0)] } := by
        simp only [LinkQueue.step, hw]
      have hl : (LinkSeveral.step dev limit hear s (j, .receive n)).log = s.log ++ [(j, .receive n, .told t0 (hear c0 ans0))] := by
        simp only [LinkSeveral.step, hq, Several.drop_append, List.map_cons, List.map_nil]
      have ho : (LinkSeveral.step dev limit hear s (j, .receive n)).order = s.order := by simp only [LinkSeveral.step, List.append_nil]
      have hd : (LinkSeveral.step dev limit hear s (j, .receive n)).dev = s.dev := by simp only [LinkSeveral.step, hq]
      have hother : ∀ i, i ≠ j → (LinkSeveral.step dev limit hear s (j, .receive n)).user i = s.user i := by
        intro i e; simp only [LinkSeveral.step, if_neg e]
      have hww : ((LinkSeveral.step dev limit hear s (j, .receive n)).user j).waiting = (s.user j).waiting := by
        simp only [LinkSeveral.step, hq, if_true]
      have hdn : ((LinkSeveral.step dev limit hear s (j, .receive n)).user j).done = (s.user j).done.eraseIdx n := by
        simp only [LinkSeveral.step, hq, if_true]
      have hn : ((LinkSeveral.step dev limit hear s (j, .receive n)).user j).next = (s.user j).next := by
        simp only [LinkSeveral.step, hq, if_true]
      have hmem : (t0, c0, ans0) ∈ (s.user j).done := List.mem_of_getElem? hw
      have hserial := h.done j t0 c0 ans0 hmem
      have hkey : (j, t0) ∈ s.order.map Turn.key := by
        have := List.mem_map_of_mem (f := fun x : Nat × Nat × Req × Report => (x.1, x.2.1, x.2.2.1)) hserial
        rw [serial_keys] at this
        exact List.mem_map_of_mem (f := Turn.key) this
      have htmem : t0 ∈ (s.user j).tickets := by
        simp only [LinkQueue.State.tickets, List.mem_append]
        exact .inl (List.mem_map_of_mem (f := Prod.fst) hmem)
      have hnew := h.open_ j t0 htmem
      have hfm : (s.log ++ [((j, .receive n, .told t0 (hear c0 ans0)) : Entry A)]).filterMap toldKey = s.log.filterMap toldKey ++ [(j, t0)] := by
        simp [toldKey]
      -- the ticket is gone
      have hperm : (s.user j).tickets.Perm (t0 :: ((LinkSeveral.step dev limit hear s (j, .receive n)).user j).tickets) := by
        simp only [LinkQueue.State.tickets, hww, hdn]
        rw [← List.cons_append]
        refine List.Perm.append_right _ ?_
        have hp : (s.user j).done.Perm ((t0, c0, ans0) :: (s.user j).done.eraseIdx n) := by
          obtain ⟨hlen, e⟩ := List.getElem?_eq_some_iff.mp hw
          have h1 : (s.user j).done = (s.user j).done.take n ++ (t0, c0, ans0) :: (s.user j).done.drop (n + 1) := by
            rw [← e, List.getElem_cons_drop, List.take_append_drop]
          rw [List.eraseIdx_eq_take_drop_succ]
          have h2 := (List.perm_middle (a := (t0, c0, ans0)) (l₁ := (s.user j).done.take n) (l₂ := (s.user j).done.drop (n + 1)))
          rw [← h1] at h2
          exact h2
        exact hp.map Prod.fst
      have hnd : (t0 :: ((LinkSeveral.step dev limit hear s (j, .receive n)).user j).tickets).Nodup := hperm.nodup (h.tickets j)
      have hsub : ∀ t ∈ ((LinkSeveral.step dev limit hear s (j, .receive n)).user j).tickets, t ∈ (s.user j).tickets ∧ t ≠ t0 := by
        intro t hm
        refine ⟨hperm.mem_iff.mpr (List.mem_cons_of_mem _ hm), ?_⟩
        intro e; subst e
        exact (List.nodup_cons.mp hnd).1 hm
      generalize LinkSeveral.step dev limit hear s (j, .receive n) = s' at *
      refine ⟨?_, ?_, ?_, ?_, ?_, ?_, ?_, ?_, ?_⟩
      · rw [hl, ho]
        have hac : (s.log ++ [((j, .receive n, .told t0 (hear c0 ans0)) : Entry A)]).filterMap acceptedKey =
            s.log.filterMap acceptedKey := by simp [acceptedKey]
        refine ⟨h.lin.once, by rw [hac]; exact h.lin.numbers, fun i t c hm => List.mem_append_left _ (h.lin.sent i t c hm), ?_, ?_, ?_⟩
        · rw [hfm, List.nodup_append]
          refine ⟨h.lin.over, by simp, ?_⟩
          intro a ha b hb e
          rw [List.mem_singleton] at hb
          rw [e, hb] at ha
          exact hnew ha
        · intro i op t a hm
          rcases List.mem_append.mp hm with hm | hm
          · exact h.lin.told i op t a hm
          · simp only [List.mem_singleton, Prod.mk.injEq, LinkQueue.Ev.told.injEq] at hm
            obtain ⟨e1, -, e3, e4⟩ := hm
            subst e1; subst e3; subst e4
            exact ⟨c0, ans0, hserial, rfl⟩
        · intro l1 l2 i t j' op u e hi hj
          rcases List.eq_nil_or_concat l2 with e2 | ⟨l2', y, e2⟩
          · subst e2
            have := (List.append_inj' e rfl).2
            simp at this
          · subst e2
            rw [List.concat_eq_append, ← List.cons_append, ← List.append_assoc] at e
            exact h.lin.time l1 l2' i t j' op u (List.append_inj' e rfl).1 hi hj
      · rw [hd, ho]; exact h.final
      · intro i t c' hm
        rw [hl, ho]
        by_cases e : i = j
        · subst e
          rw [hww] at hm
          obtain ⟨a, b, c⟩ := h.waiting i t c' hm
          exact ⟨List.mem_append_left _ a, b, by rw [hn]; exact c⟩
        · rw [hother i e] at hm ⊢
          obtain ⟨a, b, c⟩ := h.waiting i t c' hm
          exact ⟨List.mem_append_left _ a, b, c⟩
      · intro i t c' ans hm
        rw [ho]
        by_cases e : i = j
        · subst e; rw [hdn] at hm; exact h.done i t c' ans (List.mem_of_mem_eraseIdx hm)
        · rw [hother i e] at hm; exact h.done i t c' ans hm
      · intro i
        by_cases e : i = j
        · subst e; exact (List.nodup_cons.mp hnd).2
        · rw [hother i e]; exact h.tickets i
      · intro i t hm
        rw [hl, hfm, List.mem_append, List.mem_singleton]
        by_cases e : i = j
        · subst e
          obtain ⟨h1, h2⟩ := hsub t hm
          rintro (h3 | h3)
          · exact h.open_ i t h1 h3
          · simp only [Prod.mk.injEq, true_and] at h3; exact h2 h3
        · rw [hother i e] at hm
          rintro (h3 | h3)
          · exact h.open_ i t hm h3
          · simp only [Prod.mk.injEq] at h3; exact e h3.1
      · rw [hl, hfm, ho]
        intro x hx
        rcases List.mem_append.mp hx with hx | hx
        · exact h.told x hx
        · rw [List.mem_singleton] at hx; rw [hx]; exact hkey
      · intro i t hm
        rw [ho] at hm
        by_cases e : i = j
        · subst e; rw [hn]; exact h.fresh i t hm
        · rw [hother i e]; exact h.fresh i t hm
      · intro i op t hm
        rw [hl] at hm
        have : t < (s.user i).next := by
          rcases List.mem_append.mp hm with hm | hm
          · exact h.number i op t hm
          · simp at hm
        by_cases e : i = j
        · subst e; rw [hn]; exact this
        · rw [hother i e]; exact this

theorem good_runFrom {k : δ} (ops : List (Nat × LinkQueue.Op)) (s : State δ A) (h : Good dev k hear s) :
    Good dev k hear (runFrom dev limit hear s ops) := by
  induction ops generalizing s with
  | nil => exact h
  | cons x ops ih => exact ih _ (h.step x)

theorem good_run (k : δ) (ops : List (Nat × LinkQueue.Op)) : Good dev k hear (run dev limit hear k ops) :=
  good_runFrom ops _ (Good.init k)

end Verif.Spec.LinkSeveral
