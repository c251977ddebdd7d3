import Verif.Spec.Fence
/-!
# Lemmas about fencing

Facts about the unit of `Spec.Fence` alone; the theorems are in `Props/Fencing.lean`.
-/
set_option linter.unusedSimpArgs false

namespace Verif.Spec.Fence

open Verif.Spec.Disk (Geometry Contents good failed disk)
open Verif.Spec.Reservations (Lun Kind Action Verdict Notice Key keyOf refused answerOf actionOf warn enroll unregister changed stillHeld holds holderKey knows act)
open Verif.Spec.SharedDisk (Access permits needs access Op Reply)

theorem lookup_none {l : List (Nat × Key)} {h : Nat} : l.lookup h = none ↔ ∀ r ∈ l, r.1 ≠ h := by
  induction l with
  | nil => simp
  | cons r l ih =>
    obtain ⟨a, k⟩ := r
    by_cases e : a = h
    · subst e; simp [List.lookup_cons]
    · have : (h == a) = false := by simpa using fun x => e x.symm
      simp [List.lookup_cons, this, ih, e]

theorem lookup_some {l : List (Nat × Key)} {h : Nat} {k : Key} (e : l.lookup h = some k) : (h, k) ∈ l := by
  induction l with
  | nil => simp at e
  | cons r l ih =>
    obtain ⟨a, b⟩ := r
    by_cases e' : a = h
    · subst e'; simp [List.lookup_cons] at e; simp [e]
    · have : (h == a) = false := by simpa using fun x => e' x.symm
      simp [List.lookup_cons, this] at e
      exact List.mem_cons_of_mem _ (ih e)

theorem lookup_isSome {l : List (Nat × Key)} {h : Nat} : (l.lookup h).isSome = true ↔ ∃ r ∈ l, r.1 = h := by
  cases e : l.lookup h with
  | none => exact ⟨nofun, fun ⟨r, hr, he⟩ => absurd he (lookup_none.1 e r hr)⟩
  | some k => exact ⟨fun _ => ⟨_, lookup_some e, rfl⟩, fun _ => rfl⟩

/-- One key for each host. -/
def One (l : List (Nat × Key)) : Prop := ∀ r ∈ l, ∀ r' ∈ l, r.1 = r'.1 → r.2 = r'.2

theorem one_iff {u : Lun} : (∀ r ∈ u.keys, keyOf u r.1 = some r.2) ↔ One u.keys := by
  constructor
  · intro h r hr r' hr' e
    have h1 := h r hr
    rw [e, h r' hr'] at h1
    exact (Option.some.inj h1).symm
  · intro h r hr
    cases e : keyOf u r.1 with
    | none => exact absurd rfl (lookup_none.1 e r hr)
    | some k => exact congrArg some (h (r.1, k) (lookup_some e) r hr rfl)

theorem one_filter {l : List (Nat × Key)} (h : One l) (p : Nat × Key → Bool) : One (l.filter p) :=
  fun r hr r' hr' => h r (List.mem_filter.1 hr).1 r' (List.mem_filter.1 hr').1

/-- `Ordered` in terms of the two fields it is about. -/
structure Tidy (keys : List (Nat × Key)) (holder : Option (Nat × Kind)) : Prop where
  one : One keys
  held : ∀ h kind, holder = some (h, kind) → kind.everyRegistrant = false → ∃ r ∈ keys, r.1 = h

theorem ordered_iff {u : Lun} : Ordered u ↔ Tidy u.keys u.holder :=
  ⟨fun h => ⟨one_iff.1 h.one, fun a k e e' => lookup_isSome.1 (h.held a k e e')⟩,
   fun h => ⟨one_iff.2 h.one, fun a k e e' => lookup_isSome.2 (h.held a k e e')⟩⟩

theorem warn_keys (u : Lun) (d : Nat) (w : Notice) (c : Bool) : (warn u d w c).keys = u.keys := by unfold warn; split <;> rfl
theorem warn_holder (u : Lun) (d : Nat) (w : Notice) (c : Bool) : (warn u d w c).holder = u.holder := by unfold warn; split <;> rfl

theorem tidy_still {l : List (Nat × Key)} {o : Option (Nat × Kind)} (h : Tidy l o) (p : Nat × Key → Bool) : Tidy (l.filter p) (stillHeld (l.filter p) o) := by
  refine ⟨one_filter h.one p, ?_⟩
  intro a kind e ek
  unfold stillHeld at e
  split at e
  · cases e
  · rename_i h' kind'
    split at e
    · rename_i hk
      split at e
      · cases e
      · cases e; rw [ek] at hk; cases hk
    · split at e
      · rename_i ha
        cases e
        obtain ⟨r, hr, he⟩ := List.any_eq_true.1 ha
        exact ⟨r, hr, by simpa using he⟩
      · cases e

theorem enroll_holder (u : Lun) (host : Nat) (k : Key) : (enroll u host k).2.holder = u.holder := by
  unfold enroll; repeat' split
  all_goals rfl

theorem tidy_enroll {u : Lun} (h : Tidy u.keys u.holder) (host : Nat) (k : Key) : Tidy (enroll u host k).2.keys (enroll u host k).2.holder := by
  rw [enroll_holder]
  unfold enroll
  split
  · refine ⟨?_, ?_⟩
    · simp only [changed, One, List.mem_map]
      rintro r ⟨a, ha, rfl⟩ r' ⟨b, hb, rfl⟩ e
      by_cases h1 : a.1 = host <;> by_cases h2 : b.1 = host <;> simp only [h1, h2, if_true, if_false] at e ⊢
      · exact absurd e.symm h2
      · exact h.one a ha b hb e
    · intro a kind e ek
      obtain ⟨r, hr, he⟩ := h.held a kind e ek
      refine ⟨_, List.mem_map.2 ⟨r, hr, rfl⟩, ?_⟩
      split
      · rename_i h1; exact h1.symm.trans he
      · exact he
  split
  · rename_i hn _
    have hn : keyOf u host = none := by simpa using hn
    refine ⟨?_, ?_⟩
    · simp only [changed, One, List.mem_append, List.mem_singleton]
      rintro r (hr | rfl) r' (hr' | rfl) e
      · exact h.one r hr r' hr' e
      · exact absurd e (lookup_none.1 hn _ hr)
      · exact absurd e.symm (lookup_none.1 hn _ hr')
      · rfl
    · intro a kind e ek
      obtain ⟨r, hr, he⟩ := h.held a kind e ek
      exact ⟨r, List.mem_append_left _ hr, he⟩
  · exact h

theorem knows_mem {u : Lun} {host : Nat} {key : Key} (h : ¬ ¬ knows u host key = true) : (host, key) ∈ u.keys := by
  have : knows u host key = true := by simpa using h
  simp only [knows, beq_iff_eq] at this
  exact lookup_some this

/-- The records stay in order whatever any host does. -/
theorem act_ordered {u : Lun} (h : Ordered u) (host : Nat) (a : Action) : Ordered (act u host a).2 := by
  rw [ordered_iff] at h ⊢
  have un : Tidy (unregister u host).keys (unregister u host).holder := by
    simp only [unregister, warn_keys, warn_holder, changed]
    exact tidy_still h _
  have none' : ∀ l : List (Nat × Key), One l → Tidy l none := fun l hl => ⟨hl, fun _ _ e => by cases e⟩
  cases a with
  | register old new =>
    simp only [act]
    repeat' split
    all_goals first | exact h | exact un | exact tidy_enroll h _ _
  | registerAnyway new =>
    simp only [act]
    repeat' split
    all_goals first | exact h | exact un | exact tidy_enroll h _ _
  | reserve type key =>
    simp only [act]
    split
    · exact h
    · rename_i hk
      repeat' split
      all_goals first
        | exact h
        | exact ⟨h.one, fun a kind e ek => by cases e; exact ⟨_, knows_mem hk, rfl⟩⟩
  | release type key =>
    simp only [act]
    repeat' split
    all_goals first | exact h | (simp only [warn_keys, warn_holder]; exact none' _ h.one)
  | clear key =>
    simp only [act]
    split
    · exact h
    · simp only [warn_keys, warn_holder, changed]
      exact none' _ (by intro r hr; simp at hr)
  | preempt type key victim abort =>
    simp only [act]
    split
    · exact h
    · rename_i hk
      repeat' split
      all_goals first
        | exact h
        | (simp only [warn_keys, warn_holder, changed]; exact tidy_still h _)
        | skip
      simp only [warn_keys, warn_holder, changed]
      refine ⟨one_filter h.one _, fun a kind e ek => ?_⟩
      cases e
      exact ⟨_, List.mem_filter.2 ⟨knows_mem hk, by simp⟩, rfl⟩

/-! ## The fenced host -/

theorem fenced_iff {b : Nat} {u : Lun} : Fenced b u ↔ (∀ r ∈ u.keys, r.1 ≠ b) ∧ ∃ h kind, u.holder = some (h, kind) ∧ (kind.registrants = true ∨ h ≠ b) := by
  unfold Fenced keyOf
  rw [lookup_none]

/-- What a host that is not registered asks for changes nothing, unless it registers. -/
theorem act_fenced_self {b : Nat} {u : Lun} (h : keyOf u b = none) (a : Action)
    (hr : ∀ old new, a = .register old new → new = 0) (ha : ∀ new, a = .registerAnyway new → new = 0) : (act u b a).2 = u := by
  have kn : ∀ key, knows u b key = false := by intro key; simp [knows, h]
  cases a with
  | register old new => have := hr _ _ rfl; subst this; simp only [act, h]; repeat' split
                        all_goals first | rfl | contradiction
  | registerAnyway new => have := ha _ rfl; subst this; simp [act, h]
  | reserve type key => simp [act, kn]
  | release type key => simp [act, kn]
  | clear key => simp [act, kn]
  | preempt type key victim abort => simp [act, kn]

/-- The conditions of `Keeps` on a service action. -/
def Keep (b host : Nat) : Action → Prop
  | .register _ new | .registerAnyway new => if host = b then new = 0 else new ≠ 0
  | .release _ _ | .clear _ => host = b
  | .preempt _ key victim _ => host = b ∨ key ≠ victim
  | _ => True

theorem keep_of {b host action type key saKey : Nat} {a : Action} (h : Keeps b host (some (.persistentReserveOut action type key saKey)))
    (ha : actionOf action type key saKey = some a) : Keep b host a := by
  simp only [Keeps, ha] at h
  cases a <;> exact h

theorem enroll_fenced {b : Nat} {u : Lun} (h : ∀ r ∈ u.keys, r.1 ≠ b) {host : Nat} (hb : host ≠ b) (k : Key) : ∀ r ∈ (enroll u host k).2.keys, r.1 ≠ b := by
  unfold enroll
  split
  · simp only [changed, List.mem_map]
    rintro r ⟨a, ha, rfl⟩
    split
    · exact hb
    · exact h a ha
  split
  · simp only [changed, List.mem_append, List.mem_singleton]
    rintro r (hr | rfl)
    · exact h r hr
    · exact hb
  · exact h

/-- The fence stays as long as nobody gives it up. -/
theorem act_fenced {b host : Nat} {u : Lun} (ho : Ordered u) (h : Fenced b u) {a : Action} (hk : Keep b host a) : Fenced b (act u host a).2 := by
  by_cases hb : host = b
  · subst hb
    rw [act_fenced_self h.1]
    · exact h
    · rintro old new rfl; simpa [Keep] using hk
    · rintro new rfl; simpa [Keep] using hk
  have ho' := ordered_iff.1 ho
  obtain ⟨h1, ⟨h', kind, h2, h3⟩⟩ := fenced_iff.1 h
  have en : ∀ k, Fenced b (enroll u host k).2 := fun k => fenced_iff.2 ⟨enroll_fenced h1 hb k, h', kind, by rw [enroll_holder]; exact h2, h3⟩
  cases a with
  | register old new =>
    have hn : new ≠ 0 := by simpa [Keep, hb] using hk
    simp only [act, hn, if_false]
    repeat' split
    all_goals first | exact h | exact en _
  | registerAnyway new =>
    have hn : new ≠ 0 := by simpa [Keep, hb] using hk
    simp only [act, hn, if_false]
    exact en _
  | reserve type key =>
    simp only [act, h2]
    repeat' split
    all_goals exact h
  | release type key => exact absurd hk hb
  | clear key => exact absurd hk hb
  | preempt type key victim abort =>
    have hv : key ≠ victim := by simpa [Keep, hb] using hk
    simp only [act]
    split
    · exact h
    rename_i hkn
    split
    · split
      · exact h
      · rw [fenced_iff]
        simp only [warn_keys, warn_holder, changed]
        exact ⟨fun r hr => h1 r (List.mem_filter.1 hr).1, host, _, rfl, .inr hb⟩
    rename_i hhk
    split
    · exact h
    split
    · exact h
    rw [fenced_iff]
    simp only [warn_keys, warn_holder, changed]
    refine ⟨fun r hr => h1 r (List.mem_filter.1 hr).1, h', kind, ?_, h3⟩
    have hmem : (host, key) ∈ u.keys.filter (·.2 != victim) := List.mem_filter.2 ⟨knows_mem hkn, by simpa using hv⟩
    simp only [h2, stillHeld]
    cases hkind : kind.everyRegistrant with
    | true =>
      rw [if_pos rfl, if_neg]
      intro e
      rw [e] at hmem
      simp at hmem
    | false =>
      rw [if_neg (by simp), if_pos]
      obtain ⟨r, hr, he⟩ := ho'.held h' kind h2 hkind
      have hr2 : keyOf u h' = some r.2 := by rw [← he]; exact ho.one r hr
      refine List.any_eq_true.2 ⟨r, List.mem_filter.2 ⟨hr, ?_⟩, by simpa using he⟩
      simp only [holderKey, h2, hkind, Bool.false_eq_true, if_false, hr2, Option.some.injEq] at hhk
      simpa using hhk

/-- Preempting a host while the disk is reserved fences it off. -/
theorem preempt_fences {u : Lun} (ho : Ordered u) (hr : u.holder ≠ none) {b host : Nat} (hb : b ≠ host) {type : Nat} {key victim : Key} {abort : Bool}
    (hv : keyOf u b = some victim) (hkv : key ≠ victim) (hd : (act u host (.preempt type key victim abort)).1 = .done) :
    Fenced b (act u host (.preempt type key victim abort)).2 := by
  have hone := one_iff.1 ho.one
  have gone : ∀ r ∈ u.keys, r.1 = b → r.2 = victim := by
    intro r hr e
    have := ho.one r hr
    rw [e, hv] at this
    exact (Option.some.inj this).symm
  revert hd
  simp only [act]
  split
  · intro h; cases h
  rename_i hkn
  split
  · split
    · intro h; cases h
    · intro _
      rw [fenced_iff]
      simp only [warn_keys, warn_holder, changed]
      refine ⟨fun r hr e => ?_, host, _, rfl, .inr (fun e => hb e.symm)⟩
      obtain ⟨hm, hp⟩ := List.mem_filter.1 hr
      have := gone r hm e
      rw [e, this] at hp
      simp [hb] at hp
  rename_i hhk
  split
  · intro h; cases h
  split
  · intro h; cases h
  intro _
  rw [fenced_iff]
  simp only [warn_keys, warn_holder, changed]
  refine ⟨fun r hr e => ?_, ?_⟩
  · obtain ⟨hm, hp⟩ := List.mem_filter.1 hr
    rw [gone r hm e] at hp
    simp at hp
  obtain ⟨⟨h', kind⟩, h2⟩ := Option.ne_none_iff_exists'.1 hr
  have hmem : (host, key) ∈ u.keys.filter (·.2 != victim) := List.mem_filter.2 ⟨knows_mem hkn, by simpa using hkv⟩
  refine ⟨h', kind, ?_, ?_⟩
  · simp only [h2, stillHeld]
    cases hkind : kind.everyRegistrant with
    | true =>
      rw [if_pos rfl, if_neg]
      intro e
      rw [e] at hmem
      simp at hmem
    | false =>
      rw [if_neg (by simp), if_pos]
      obtain ⟨r, hr, he⟩ := (ordered_iff.1 ho).held h' kind h2 hkind
      have hr2 : keyOf u h' = some r.2 := by rw [← he]; exact ho.one r hr
      refine List.any_eq_true.2 ⟨r, List.mem_filter.2 ⟨hr, ?_⟩, by simpa using he⟩
      simp only [holderKey, h2, hkind, Bool.false_eq_true, if_false, hr2, Option.some.injEq] at hhk
      simpa using hhk
  · by_cases e : h' = b
    · left
      subst e
      cases hkind : kind.everyRegistrant with
      | true => cases kind <;> simp_all [Kind.everyRegistrant, Kind.registrants]
      | false => simp [holderKey, h2, hkind, hv] at hhk
    · exact .inr e

theorem fenced_refused {b : Nat} {u : Lun} (h : Fenced b u) : permits u b .write = false := by
  obtain ⟨h1, h', kind, h2, h3⟩ := h
  have hw : (Access.write == Access.read) = false := by decide
  simp only [permits, h2, hw, Bool.false_and, Bool.false_or]
  cases hk : kind.registrants with
  | true => simp [h1]
  | false =>
    rw [hk] at h3
    simpa using h3

/-! ## The disk -/

theorem disk_keeps (g : Geometry) (m : Contents) (q : OsRequest) (h : needs (Cdb.decode q.cdb q.toDevice) ≠ .write) : (disk g m q).2 = m := by
  unfold disk
  split
  · rfl
  split
  · rfl
  split
  · rename_i task e
    rw [e] at h
    cases task <;> simp only [needs, ne_eq, reduceCtorEq, not_true_eq_false, not_false_eq_true] at h <;> simp only [Disk.perform]
    all_goals first | rfl | (split <;> rfl)
  · rfl

theorem perform_in_keeps (u : Lun) (action n : Nat) : (Reservations.perform u (.persistentReserveIn action n)).2 = u := by
  unfold Reservations.perform
  split <;> first | rfl | contradiction

theorem serve_other {g : Geometry} {h : Nat} {s : State} {q : OsRequest} (ha : s.attention h = none)
    (h1 : ∀ action n, Cdb.decode q.cdb q.toDevice ≠ some (.persistentReserveIn action n))
    (h2 : ∀ action type key saKey, Cdb.decode q.cdb q.toDevice ≠ some (.persistentReserveOut action type key saKey)) :
    serve g h s q = if permits s.lun h (needs (Cdb.decode q.cdb q.toDevice)) then ((disk g s.contents q).1, { s with contents := (disk g s.contents q).2 })
      else (refused, s) := by
  unfold serve
  rw [ha]
  dsimp only
  split
  · exact absurd ‹_› (h1 _ _)
  · exact absurd ‹_› (h2 _ _ _ _)
  · rfl

theorem serve_keeps {g : Geometry} {b h : Nat} {s : State} (q : OsRequest) (ho : Ordered s.lun) (hf : Fenced b s.lun)
    (hk : Keeps b h (Cdb.decode q.cdb q.toDevice)) : Ordered (serve g h s q).2.lun ∧ Fenced b (serve g h s q).2.lun := by
  unfold serve
  split
  · exact ⟨ho, hf⟩
  split
  · exact ⟨ho, hf⟩
  · rename_i e
    rw [e] at hk
    split
    · rename_i a ha
      exact ⟨act_ordered ho h a, act_fenced ho hf (keep_of hk ha)⟩
    · exact ⟨ho, hf⟩
  · split <;> exact ⟨ho, hf⟩

theorem serve_ordered {g : Geometry} {h : Nat} {s : State} (q : OsRequest) (ho : Ordered s.lun) : Ordered (serve g h s q).2.lun := by
  unfold serve
  split
  · exact ho
  split
  · exact ho
  · split
    · exact act_ordered ho h _
    · exact ho
  · split <;> exact ho

/-- Nobody else notices what a fenced host does. -/
theorem serve_fenced {g : Geometry} {b : Nat} {s : State} (q : OsRequest) (hf : Fenced b s.lun) (hk : Keeps b b (Cdb.decode q.cdb q.toDevice)) :
    SameBut b s (serve g b s q).2 := by
  unfold serve
  split
  · exact ⟨rfl, rfl, fun k hk => by simp [heard, hk]⟩
  split
  · exact ⟨rfl, rfl, fun _ _ => rfl⟩
  · rename_i e
    rw [e] at hk
    split
    · rename_i a ha
      have hkeep := keep_of hk ha
      have hu : (act s.lun b a).2 = s.lun := by
        apply act_fenced_self hf.1
        · rintro old new rfl; simpa [Keep] using hkeep
        · rintro new rfl; simpa [Keep] using hkeep
      refine ⟨hu, rfl, fun k hkb => ?_⟩
      have hn : (act s.lun b a).1 = .done → notice s.lun s.lun k a = none := by
        have kn : ∀ key, knows s.lun b key = false := by intro key; simp [knows, hf.1]
        obtain ⟨h', kind, h2, -⟩ := hf.2
        intro hd
        cases a <;> simp_all [act, notice]
      simp only [acts, hu]
      split
      · rename_i hc
        rw [hn hc.2]
        rfl
      · rfl
    · exact ⟨rfl, rfl, fun _ _ => rfl⟩
  · split
    · rename_i hp
      refine ⟨rfl, disk_keeps g _ q fun hw => ?_, fun _ _ => rfl⟩
      rw [hw, fenced_refused hf] at hp
      cases hp
    · exact ⟨rfl, rfl, fun _ _ => rfl⟩

/-- What concerns only one host makes no difference for the others. -/
theorem serve_same {g : Geometry} {b h : Nat} (hb : h ≠ b) {s t : State} (hs : SameBut b s t) (q : OsRequest) :
    (serve g h t q).1 = (serve g h s q).1 ∧ SameBut b (serve g h s q).2 (serve g h t q).2 := by
  obtain ⟨h1, h2, h3⟩ := hs
  obtain ⟨lun, att, m⟩ := s
  obtain ⟨lun', att', m'⟩ := t
  simp only at h1 h2 h3
  subst h1 h2
  unfold serve
  simp only [h3 h hb]
  split
  · refine ⟨rfl, rfl, rfl, fun k hk => ?_⟩
    simp only [heard]
    split
    · rfl
    · exact h3 k hk
  split
  · exact ⟨rfl, rfl, rfl, h3⟩
  · split
    · refine ⟨rfl, rfl, rfl, fun k hk => ?_⟩
      simp only [acts]
      split
      · rw [h3 k hk]
      · exact h3 k hk
    · exact ⟨rfl, rfl, rfl, h3⟩
  · split
    · exact ⟨rfl, rfl, rfl, h3⟩
    · exact ⟨rfl, rfl, rfl, h3⟩

end Verif.Spec.Fence
