import Verif.Spec.Bounds
import Verif.Parse.Lemmas
/-!
# C97: what a device can make a decoder do is bounded by the number of bytes it sends

`C97_ends`: the loops over lists whose elements announce their own sizes end, for all bytes: no element takes nothing. `C97_entries`,
`C97_sense`: a decoded object has at most as many entries as there were bytes, whatever counts and lengths the bytes hold.
-/

namespace Verif.Bounds

open Verif.Parse Verif.Spec.Bounds
open Verif.Commands (Cmd Result)

set_option linter.unusedSimpArgs false

variable {α β : Type}

/-! ## Elements and what they cost -/

theorem bind_ok {γ δ : Type} {x : Py γ} {f : γ → Py δ} {r : δ} (h : (x >>= f) = .ok r) : ∃ y, x = .ok y ∧ f y = .ok r := by
  cases x with
  | error e => cases h
  | ok y => exact ⟨y, rfl, h⟩

theorem map_ok {γ δ : Type} {x : Py γ} {f : γ → δ} {r : δ} (h : x.map f = .ok r) : ∃ y, x = .ok y ∧ f y = r := by
  cases x with
  | error e => cases h
  | ok y => exact ⟨y, rfl, by simpa [Except.map] using h⟩

/-- Fields that were read were there. -/
theorem fields_there (sg : Bool) {fs : List UField} {b : Bytes} {a : List (String × Int)} (h : unpackFields sg fs b = .ok a) :
    fieldsEnd fs ≤ b.length := by
  induction fs generalizing a with
  | nil => exact Nat.zero_le _
  | cons f fs ih =>
    obtain ⟨v, hv, h⟩ := bind_ok h
    obtain ⟨r, hr, _⟩ := bind_ok h
    have := ih hr
    have hs : f.ref.stop ≤ b.length := by
      cases f with
      | u n r =>
        obtain ⟨w, hw, _⟩ := bind_ok hv
        cases r <;> simp only [Ref.read] at hw <;> split at hw <;> first | (simp only [UField.ref, Ref.stop]; omega) | cases hw
      | i n r =>
        obtain ⟨w, hw, _⟩ := bind_ok hv
        cases r <;> simp only [Ref.read] at hw <;> split at hw <;> first | (simp only [UField.ref, Ref.stop]; omega) | cases hw
    simp only [fieldsEnd]
    omega

/-- An element takes at least one byte, and `w` of the bytes that are there. -/
def Paid (w : α → Nat) (elem : Bytes → Py (α × Nat)) : Prop :=
  ∀ b x k, elem b = .ok (x, k) → 0 < k ∧ w x ≤ k ∧ w x ≤ b.length

theorem paid_n {w : α → Nat} {elem : Bytes → Py (α × Nat)} (h : Paid w elem) (n : Nat) :
    ∀ b l k, unpackN elem n b = .ok (l, k) → l.length = n ∧ sum (l.map w) ≤ k ∧ sum (l.map w) ≤ b.length := by
  induction n with
  | zero => intro b l k hl; cases hl; simp [sum]
  | succ n ih =>
    intro b l k hl
    obtain ⟨⟨x, k1⟩, hx, hl⟩ := bind_ok hl
    obtain ⟨⟨xs, ks⟩, hxs, hl⟩ := bind_ok hl
    cases hl
    obtain ⟨h1, h2, h3⟩ := h _ _ _ hx
    obtain ⟨h4, h5, h6⟩ := ih _ _ _ hxs
    rw [List.length_drop] at h6
    simp only [List.length_cons, List.map_cons, sum, List.foldr_cons] at h5 h6 ⊢
    omega

theorem paid_all {w : α → Nat} {elem : Bytes → Py (α × Nat)} (h : Paid w elem) (b : Bytes) (l : List α) (hl : unpackAll elem b = .ok l) :
    sum (l.map w) ≤ b.length := by
  induction hn : b.length using Nat.strongRecOn generalizing b l with
  | ind n ih =>
    rw [unpackAll] at hl
    by_cases hb : b = []
    · rw [if_pos hb] at hl; cases hl; simp [sum]
    · rw [if_neg hb] at hl
      cases he : elem b with
      | error e => rw [he] at hl; cases hl
      | ok p =>
        obtain ⟨x, k⟩ := p
        obtain ⟨h1, h2, h3⟩ := h _ _ _ he
        rw [he] at hl
        simp only at hl
        rw [dif_neg (by rintro (h | h); · omega
                        · exact hb h)] at hl
        cases hr : unpackAll elem (b.drop k) with
        | error e => rw [hr] at hl; cases hl
        | ok xs =>
          rw [hr] at hl
          cases hl
          have hp := List.length_pos_iff.2 hb
          have hd : (b.drop k).length < n := by rw [List.length_drop]; omega
          have := ih _ hd _ _ hr rfl
          rw [List.length_drop] at this
          simp only [List.map_cons, sum, List.foldr_cons] at this ⊢
          omega

theorem paid_size {w : α → Nat} {elem : Bytes → Py (α × Nat)} (h : Paid w elem) (n : Nat) (b : Bytes) (l : List α) (hl : sumSize elem n b = .ok l) :
    sum (l.map w) ≤ b.length := by
  induction n using Nat.strongRecOn generalizing b l with
  | ind n ih =>
    rw [sumSize] at hl
    by_cases hn : n = 0
    · rw [if_pos hn] at hl; cases hl; simp [sum]
    · rw [if_neg hn] at hl
      cases he : elem b with
      | error e => rw [he] at hl; cases hl
      | ok p =>
        obtain ⟨x, k⟩ := p
        obtain ⟨h1, h2, h3⟩ := h _ _ _ he
        rw [he] at hl
        simp only at hl
        rw [if_neg (by omega)] at hl
        cases hr : sumSize elem (n - k) (b.drop k) with
        | error e => rw [hr] at hl; cases hl
        | ok xs =>
          rw [hr] at hl
          cases hl
          have := ih _ (by omega) _ _ hr
          rw [List.length_drop] at this
          simp only [List.map_cons, sum, List.foldr_cons] at this ⊢
          omega

theorem paid_each {γ : Type} {w : α → Nat} {elem : γ → Bytes → Py (α × Nat)} (h : ∀ c, Paid w (elem c)) (cs : List γ) :
    ∀ b l k, Ses.unpackEach elem cs b = .ok (l, k) → sum (l.map w) ≤ b.length := by
  induction cs with
  | nil => intro b l k hl; cases hl; simp [sum]
  | cons c cs ih =>
    intro b l k hl
    obtain ⟨⟨x, k1⟩, hx, hl⟩ := bind_ok hl
    obtain ⟨⟨xs, ks⟩, hxs, hl⟩ := bind_ok hl
    cases hl
    obtain ⟨h1, h2, h3⟩ := h _ _ _ _ hx
    have h6 := ih _ _ _ hxs
    rw [List.length_drop] at h6
    simp only [List.map_cons, sum, List.foldr_cons] at h6 ⊢
    omega

theorem each_length {γ : Type} {elem : γ → Bytes → Py (α × Nat)} (cs : List γ) :
    ∀ b l k, Ses.unpackEach elem cs b = .ok (l, k) → l.length = cs.length := by
  induction cs with
  | nil => intro b l k hl; cases hl; rfl
  | cons c cs ih =>
    intro b l k hl
    obtain ⟨⟨x, k1⟩, hx, hl⟩ := bind_ok hl
    obtain ⟨⟨xs, ks⟩, hxs, hl⟩ := bind_ok hl
    cases hl
    simp [ih _ _ _ hxs]

theorem sum_const (n : Nat) (l : List α) : sum (l.map fun _ => n) = n * l.length := by
  induction l with
  | nil => rfl
  | cons x xs ih => simp only [List.map_cons, sum, List.foldr_cons, List.length_cons] at ih ⊢; rw [ih, Nat.mul_succ]; omega

/-! ## The elements -/

theorem paid_u8 : Paid (fun _ => 1) elemU8 := by
  intro b x k h
  cases b with
  | nil => cases h
  | cons c r => simp only [elemU8, Except.ok.injEq, Prod.mk.injEq] at h; obtain ⟨_, rfl⟩ := h; simp

theorem paid_uint (n : Nat) (hn : 0 < n) : Paid (fun _ => n) (elemUInt n) := by
  intro b x k h
  simp only [elemUInt] at h
  split at h
  · cases h
  · cases h; dsimp only; omega

theorem paid_port (sg : Bool) : Paid (fun _ => 4) (targetPort sg) := by
  intro b x k h
  obtain ⟨a, ha, h⟩ := bind_ok h
  cases h
  have : fieldsEnd targetPortFields ≤ b.length := fields_there sg ha
  have h4 : fieldsEnd targetPortFields = 4 := rfl
  dsimp only
  omega

theorem paid_group (sg : Bool) : Paid (fun g => 1 + g.ports.length) (targetPortGroup sg) := by
  intro b x k h
  obtain ⟨a, ha, h⟩ := bind_ok h
  obtain ⟨⟨ps, n⟩, hp, h⟩ := bind_ok h
  cases h
  have h8 : fieldsEnd targetPortGroupFields ≤ b.length := fields_there sg ha
  have h4 : fieldsEnd targetPortGroupFields = 8 := rfl
  obtain ⟨_, h1, h2⟩ := paid_n (paid_port sg) _ _ _ _ hp
  rw [sum_const] at h1 h2
  rw [List.length_drop] at h2
  dsimp only at *
  omega

theorem paid_full (sg : Bool) : Paid (fun _ => 1) (fullStatus sg) := by
  intro b x k h
  obtain ⟨a, ha, h⟩ := bind_ok h
  obtain ⟨t, ht, h⟩ := bind_ok h
  cases h
  have h8 : fieldsEnd fullStatusFields ≤ b.length := fields_there sg ha
  have h4 : fieldsEnd fullStatusFields = 24 := rfl
  dsimp only
  omega

theorem paid_designator (L : BufLib) : Paid (fun _ => 1) (designator L) := by
  intro b x k h
  obtain ⟨c, _, h⟩ := bind_ok h
  obtain ⟨a, ha, h⟩ := bind_ok h
  obtain ⟨_, _, h⟩ := bind_ok h
  obtain ⟨_, _, h⟩ := bind_ok h
  obtain ⟨_, _, h⟩ := bind_ok h
  cases h
  have h8 : fieldsEnd designatorHeader ≤ b.length := fields_there L.sg ha
  have h4 : fieldsEnd designatorHeader = 4 := rfl
  dsimp only
  omega

theorem paid_enclosure (L : BufLib) : Paid (fun _ => 1) (Ses.enclosureDescriptor L) := by
  intro b x k h
  obtain ⟨a, ha, h⟩ := bind_ok h
  obtain ⟨_, _, h⟩ := bind_ok h
  obtain ⟨_, _, h⟩ := bind_ok h
  obtain ⟨_, _, h⟩ := bind_ok h
  cases h
  have h8 : fieldsEnd Ses.enclosureFields ≤ b.length := fields_there L.sg ha
  have h4 : fieldsEnd Ses.enclosureFields = 4 := rfl
  dsimp only
  omega

theorem paid_header (L : BufLib) : Paid (fun _ => 4) (Ses.typeHeader L) := by
  intro b x k h
  obtain ⟨a, ha, h⟩ := bind_ok h
  cases h
  have h8 : fieldsEnd Ses.typeHeaderFields ≤ b.length := fields_there L.sg ha
  have h4 : fieldsEnd Ses.typeHeaderFields = 4 := rfl
  dsimp only
  omega

theorem paid_status (L : BufLib) (c : Ses.StatusClass) : Paid (fun _ => 1) (Ses.statusElement L c) := by
  intro b x k h
  obtain ⟨a, ha, h⟩ := bind_ok h
  obtain ⟨_, _, h⟩ := bind_ok h
  cases h
  have h8 : fieldsEnd Ses.baseFields ≤ b.length := fields_there L.sg ha
  have h4 : fieldsEnd Ses.baseFields = 1 := rfl
  dsimp only
  omega

theorem paid_statusDescriptor (L : BufLib) (hd : List (String × Int)) : Paid (fun d => 1 + d.individual.length) (Ses.statusDescriptor L hd) := by
  intro b x k h
  obtain ⟨⟨o, k0⟩, ho, h⟩ := bind_ok h
  obtain ⟨⟨l, n⟩, hl, h⟩ := bind_ok h
  cases h
  obtain ⟨_, _, h0⟩ := paid_status L _ _ _ _ ho
  obtain ⟨_, h1, h2⟩ := paid_n (paid_status L _) _ _ _ _ hl
  rw [sum_const] at h1 h2
  rw [List.length_drop] at h2
  rw [slice_length] at h0
  dsimp only at *
  omega

theorem paid_descriptor (L : BufLib) : Paid (fun _ => 4) (Ses.descriptor L) := by
  intro b x k h
  obtain ⟨a, ha, h⟩ := bind_ok h
  cases h
  have h8 : fieldsEnd [.i "descriptor_length" (.bytes 2 4)] ≤ b.length := fields_there L.sg ha
  have h4 : fieldsEnd [.i "descriptor_length" (.bytes 2 4)] = 4 := rfl
  dsimp only
  omega

theorem paid_elementDescriptor (L : BufLib) (hd : List (String × Int)) : Paid (fun d => 1 + d.individual.length) (Ses.elementDescriptor L hd) := by
  intro b x k h
  obtain ⟨⟨o, k0⟩, ho, h⟩ := bind_ok h
  obtain ⟨⟨l, n⟩, hl, h⟩ := bind_ok h
  cases h
  obtain ⟨h3, h4, h0⟩ := paid_descriptor L _ _ _ ho
  obtain ⟨_, h1, h2⟩ := paid_n (paid_descriptor L) _ _ _ _ hl
  rw [sum_const] at h1 h2
  rw [List.length_drop] at h2
  dsimp only at *
  omega

theorem paid_senseDescriptor : Paid (fun _ => 1) Sense.descriptor := by
  intro b x k h
  cases b with
  | nil => cases h
  | cons t r =>
    simp only [Sense.descriptor] at h
    split at h
    · obtain ⟨⟨vs, rest⟩, _, h⟩ := bind_ok h
      simp only at h
      split at h
      · cases h
      · cases h; simp
    · cases r with
      | nil => cases h
      | cons n d =>
        simp only at h
        split at h
        · cases h
        · cases h; simp; omega

/-! ## The loops end -/

theorem all_ends {w : α → Nat} {elem : Bytes → Py (α × Nat)} (h : Paid w elem) (b : Bytes) :
    (∃ l, Reads elem b l ∧ unpackAll elem b = .ok l) ∨ (∃ e, Raises elem b e ∧ unpackAll elem b = .error e) := by
  induction hn : b.length using Nat.strongRecOn generalizing b with
  | ind n ih =>
    rw [unpackAll]
    by_cases hb : b = []
    · subst hb; exact .inl ⟨[], .stop, rfl⟩
    · rw [if_neg hb]
      cases he : elem b with
      | error e => exact .inr ⟨e, .now hb he, rfl⟩
      | ok p =>
        obtain ⟨x, k⟩ := p
        obtain ⟨h1, h2, h3⟩ := h _ _ _ he
        have hp := List.length_pos_iff.2 hb
        simp only
        rw [dif_neg (by rintro (h | h); · omega
                        · exact hb h)]
        rcases ih (b.drop k).length (by rw [List.length_drop]; omega) _ rfl with ⟨l, hl, hl'⟩ | ⟨e, hl, hl'⟩
        · exact .inl ⟨x :: l, .next hb he hl, by rw [hl']⟩
        · exact .inr ⟨e, .later hb he hl, by rw [hl']⟩

theorem size_ends {w : α → Nat} {elem : Bytes → Py (α × Nat)} (h : Paid w elem) (n : Nat) (b : Bytes) :
    (∃ l, ReadsSize elem n b l ∧ sumSize elem n b = .ok l) ∨ (∃ e, RaisesSize elem n b e ∧ sumSize elem n b = .error e) := by
  induction n using Nat.strongRecOn generalizing b with
  | ind n ih =>
    rw [sumSize]
    by_cases hn : n = 0
    · subst hn; exact .inl ⟨[], .stop, rfl⟩
    · rw [if_neg hn]
      cases he : elem b with
      | error e => exact .inr ⟨e, .now hn he, rfl⟩
      | ok p =>
        obtain ⟨x, k⟩ := p
        obtain ⟨h1, h2, h3⟩ := h _ _ _ he
        simp only
        rw [if_neg (by omega)]
        rcases ih (n - k) (by omega) (b.drop k) with ⟨l, hl, hl'⟩ | ⟨e, hl, hl'⟩
        · exact .inl ⟨x :: l, .next hn he hl, by rw [hl']⟩
        · exact .inr ⟨e, .later hn he hl, by rw [hl']⟩

/-- **C97.** The loops over device-chosen lists end, for all bytes, and end as the model says (which has a guard against elements that take
nothing): page numbers and bytes, designators, target port groups, full status descriptors (elements as long as there are bytes), LUNs and sense
descriptors (elements up to an announced length). -/
theorem C97_ends (L : BufLib) (sg : Bool) :
    (∀ b, (∃ l, Reads elemU8 b l ∧ unpackAll elemU8 b = .ok l) ∨ (∃ e, Raises elemU8 b e ∧ unpackAll elemU8 b = .error e)) ∧
    (∀ b, (∃ l, Reads (designator L) b l ∧ unpackAll (designator L) b = .ok l) ∨
      (∃ e, Raises (designator L) b e ∧ unpackAll (designator L) b = .error e)) ∧
    (∀ b, (∃ l, Reads (targetPortGroup sg) b l ∧ unpackAll (targetPortGroup sg) b = .ok l) ∨
      (∃ e, Raises (targetPortGroup sg) b e ∧ unpackAll (targetPortGroup sg) b = .error e)) ∧
    (∀ b, (∃ l, Reads (fullStatus sg) b l ∧ unpackAll (fullStatus sg) b = .ok l) ∨
      (∃ e, Raises (fullStatus sg) b e ∧ unpackAll (fullStatus sg) b = .error e)) ∧
    (∀ n b, (∃ l, ReadsSize (elemUInt 8) n b l ∧ sumSize (elemUInt 8) n b = .ok l) ∨
      (∃ e, RaisesSize (elemUInt 8) n b e ∧ sumSize (elemUInt 8) n b = .error e)) ∧
    (∀ n b, (∃ l, ReadsSize Sense.descriptor n b l ∧ sumSize Sense.descriptor n b = .ok l) ∨
      (∃ e, RaisesSize Sense.descriptor n b e ∧ sumSize Sense.descriptor n b = .error e)) :=
  ⟨all_ends paid_u8, all_ends (paid_designator L), all_ends (paid_group sg), all_ends (paid_full sg), size_ends (paid_uint 8 (by omega)),
   size_ends paid_senseDescriptor⟩

/-- An element that takes nothing makes such a loop endless: it has no end of either kind. -/
theorem endless {elem : Bytes → Py (α × Nat)} {b : Bytes} {x : α} (hb : b ≠ []) (h : elem b = .ok (x, 0)) :
    (¬ ∃ l, Reads elem b l) ∧ ¬ ∃ e, Raises elem b e := by
  constructor
  · rintro ⟨l, hl⟩
    induction l with
    | nil => cases hl; exact hb rfl
    | cons y ys ih =>
      cases hl with
      | next _ he hr =>
        rw [h] at he
        cases he
        exact ih hr
  · rintro ⟨e, he⟩
    generalize hc : b = c at he
    have key : ∀ c e, Raises elem c e → c = b → False := by
      intro c e hr
      refine Raises.rec (motive_1 := fun _ _ _ => True) (motive_2 := fun c e _ => c = b → False) ?_ ?_ ?_ ?_ hr
      · trivial
      · intros; trivial
      · intro c e _ he hc; subst hc; rw [h] at he; cases he
      · intro c y k e _ he _ ih hc
        subst hc
        rw [h] at he
        cases he
        exact ih rfl
    exact key c e he hc.symm

/-! ## The number of entries -/

theorem length_of_sum {n : Nat} {l : List α} {m : Nat} (hn : 0 < n) (h : sum (l.map fun _ => n) ≤ m) : l.length ≤ m := by
  rw [sum_const] at h
  exact Nat.le_trans (Nat.le_mul_of_pos_left _ hn) h

theorem unpack_rest (d : List Decl) {b rest : Bytes} {vs : List (String × Nat)} (h : Verif.unpack d b = .ok (vs, rest)) :
    rest.length ≤ b.length := by
  induction d generalizing b vs with
  | nil => cases h; exact Nat.le_refl _
  | cons d ds ih =>
    simp only [Verif.unpack] at h
    split at h
    · cases h
    · obtain ⟨v, _, h⟩ := bind_ok h
      obtain ⟨⟨vs', r⟩, hr, h⟩ := bind_ok h
      cases h
      have := ih hr
      rw [List.length_drop] at this
      omega

theorem luns_bound {alloc : Int} {allow : Bool} {b : Bytes} {r : ReportLunsResult} (h : reportLuns alloc allow (some b) = .ok r) :
    entries (.luns r) ≤ b.length := by
  unfold reportLuns at h
  split at h
  · obtain ⟨d, hd, h⟩ := bind_ok h
    cases h
    obtain ⟨⟨at', rest⟩, ha, hd⟩ := bind_ok hd
    obtain ⟨items, hi, hd⟩ := bind_ok hd
    obtain ⟨luns, hl, hd⟩ := bind_ok hd
    cases hd
    have h1 := unpack_rest _ ha
    have h2 := paid_size (paid_uint 8 (by omega)) _ _ _ hi
    rw [sum_const] at h2
    have hl : luns.length = items.length := by
      unfold normalizeLuns at hl
      cases allow with
      | true => cases hl; simp
      | false => obtain ⟨_, _, hl⟩ := bind_ok (f := fun _ => .ok (items.map (· >>> 48))) (x := checkLuns items) hl; cases hl; simp
    simp only [entries]
    omega
  · obtain ⟨_, _, h⟩ := bind_ok h
    cases h
    exact Nat.zero_le _

theorem groups_bound {sg : Bool} {fmt : Int} {b : Bytes} {r : TargetPortGroups} (h : rtpg sg fmt b = .ok r) : entries (.groups r) ≤ b.length := by
  unfold rtpg at h
  split at h
  · obtain ⟨a, _, h⟩ := bind_ok h
    obtain ⟨l, hl, h⟩ := bind_ok h
    cases h
    have := paid_all (paid_group sg) _ _ hl
    rw [sliceFrom, slice_length] at this
    simp only [entries]
    omega
  · split at h
    · obtain ⟨a, _, h⟩ := bind_ok h
      obtain ⟨l, hl, h⟩ := bind_ok h
      cases h
      have := paid_all (paid_group sg) _ _ hl
      rw [sliceFrom, slice_length] at this
      simp only [entries]
      omega
    · cases h

theorem copy_bound {sg : Bool} {b : Bytes} {r : ReceiveCopy} (h : receiveCopy sg b = .ok r) : entries (.copy r) ≤ b.length := by
  obtain ⟨a, _, h⟩ := bind_ok h
  obtain ⟨l, hl, h⟩ := bind_ok h
  cases h
  have := length_of_sum (by omega) (paid_all paid_u8 _ _ hl)
  rw [sliceFrom, slice_length] at this
  simp only [entries]
  omega

theorem reservations_bound {sg : Bool} {sa : Int} {b : Bytes} {r : PrinResult} (h : prin sg sa b = .ok r) : entries (.reservations r) ≤ b.length := by
  unfold prin at h
  split at h
  · obtain ⟨k, hk, h⟩ := bind_ok h
    cases h
    obtain ⟨a, _, hk⟩ := bind_ok hk
    simp only at hk
    split at hk
    · obtain ⟨⟨l, n⟩, hl, hk⟩ := bind_ok hk
      cases hk
      have := length_of_sum (by omega) (paid_n (paid_uint 8 (by omega)) _ _ _ _ hl).2.2
      rw [slice_length] at this
      simp only [entries, Option.getD]
      omega
    · cases hk; exact Nat.zero_le _
  · split at h
    · obtain ⟨k, hk, h⟩ := bind_ok h
      cases h
      exact Nat.zero_le _
    · split at h
      · obtain ⟨k, hk, h⟩ := bind_ok h
        cases h
        exact Nat.zero_le _
      · split at h
        · obtain ⟨k, hk, h⟩ := bind_ok h
          cases h
          obtain ⟨a, _, hk⟩ := bind_ok hk
          simp only at hk
          split at hk
          · obtain ⟨l, hl, hk⟩ := bind_ok hk
            cases hk
            have := length_of_sum (by omega) (paid_all (paid_full sg) _ _ hl)
            rw [sliceFrom, slice_length] at this
            simp only [entries, Option.getD]
            omega
          · cases hk; exact Nat.zero_le _
        · cases h

theorem standard_bound {L : BufLib} {b : Bytes} {r : StandardInquiry} (h : standardInquiry L b = .ok r) : entries (.standard r) ≤ b.length := by
  obtain ⟨p, _, h⟩ := bind_ok h
  obtain ⟨_, _, h⟩ := bind_ok h
  obtain ⟨_, _, h⟩ := bind_ok h
  obtain ⟨_, _, h⟩ := bind_ok h
  simp only at h
  split at h
  · obtain ⟨e, he, h⟩ := bind_ok h
    cases h
    obtain ⟨_, _, he⟩ := bind_ok he
    obtain ⟨v, hv, he⟩ := bind_ok he
    cases he
    unfold extendedVersions at hv
    split at hv
    · obtain ⟨⟨l, n⟩, hl, hv⟩ := map_ok hv
      cases hv
      have := length_of_sum (by omega) (paid_n (paid_uint 2 (by omega)) _ _ _ _ hl).2.2
      rw [List.length_drop, slice_length] at this
      simp only [entries, Option.bind, Option.getD]
      omega
    · cases hv; exact Nat.zero_le _
  · cases h; exact Nat.zero_le _

theorem vpd_bound {L : BufLib} {b : Bytes} {v : Commands.VpdBuffer} {r : Result} (h : Commands.unpackVpd L b v = .ok r) : entries r ≤ b.length := by
  cases v with
  | supported =>
    obtain ⟨p, hp, rfl⟩ := map_ok h
    obtain ⟨q, _, hp⟩ := bind_ok hp
    obtain ⟨⟨l, n⟩, hl, hp⟩ := bind_ok hp
    cases hp
    have := length_of_sum (by omega) (paid_n paid_u8 _ _ _ _ hl).2.2
    rw [List.length_drop] at this
    simp only [entries]
    omega
  | identification =>
    obtain ⟨p, hp, rfl⟩ := map_ok h
    obtain ⟨q, _, hp⟩ := bind_ok hp
    obtain ⟨l, hl, hp⟩ := bind_ok hp
    cases hp
    have := length_of_sum (by omega) (paid_all (paid_designator L) _ _ hl)
    rw [slice_length] at this
    simp only [entries]
    omega
  | unknown =>
    obtain ⟨p, hp, rfl⟩ := map_ok h
    obtain ⟨q, _, hp⟩ := bind_ok hp
    obtain ⟨l, hl, hp⟩ := bind_ok hp
    cases hp
    have := length_of_sum (by omega) (paid_all paid_u8 _ _ hl)
    rw [slice_length] at this
    simp only [entries]
    omega
  | provisioning =>
    obtain ⟨p, hp, rfl⟩ := map_ok h
    obtain ⟨q, _, hp⟩ := bind_ok hp
    split at hp
    · obtain ⟨⟨d, n⟩, _, hp⟩ := bind_ok hp
      cases hp
      simp only [entries, Option.toList, List.length_cons, List.length_nil]
      omega
    · cases hp; exact Nat.zero_le _
  | serial | ata | limits | veritas =>
    obtain ⟨p, _, rfl⟩ := map_ok h
    exact Nat.zero_le _

theorem ses_bound {L : BufLib} {other : Bytes → Py (List (String × Int))} {conf : Option Ses.Configuration} {b : Bytes} {v : Commands.SesBuffer}
    {r : Result} (h : Commands.unpackSes L other conf b v = .ok r) : entries r ≤ b.length := by
  have bytes : ∀ p, Ses.bytesPage L b = .ok p → entries (.diagnosticBytes p) ≤ b.length := by
    intro p hp
    obtain ⟨a, _, hp⟩ := bind_ok hp
    obtain ⟨l, hl, hp⟩ := bind_ok hp
    cases hp
    have := length_of_sum (by omega) (paid_all paid_u8 _ _ hl)
    rw [List.length_drop] at this
    simp only [entries]
    omega
  cases v with
  | supported | vendor =>
    obtain ⟨p, hp, rfl⟩ := map_ok h
    exact bytes p hp
  | configuration =>
    obtain ⟨p, hp, rfl⟩ := map_ok h
    obtain ⟨a, _, hp⟩ := bind_ok hp
    obtain ⟨⟨es, n⟩, he, hp⟩ := bind_ok hp
    obtain ⟨⟨hs, m⟩, hh, hp⟩ := bind_ok hp
    obtain ⟨⟨ts, k⟩, ht, hp⟩ := bind_ok hp
    cases hp
    obtain ⟨_, h1, h2⟩ := paid_n (paid_enclosure L) _ _ _ _ he
    obtain ⟨_, h3, h4⟩ := paid_n (paid_header L) _ _ _ _ hh
    have h5 := each_length _ _ _ _ ht
    rw [sum_const] at h1 h2 h3 h4
    rw [List.length_drop] at h2 h4
    simp only [entries]
    omega
  | status =>
    cases conf with
    | none => cases h
    | some c =>
      obtain ⟨p, hp, rfl⟩ := map_ok h
      obtain ⟨a, _, hp⟩ := bind_ok hp
      obtain ⟨⟨l, n⟩, hl, hp⟩ := bind_ok hp
      cases hp
      have := paid_each (paid_statusDescriptor L) _ _ _ _ hl
      rw [List.length_drop] at this
      simp only [entries]
      omega
  | descriptors =>
    cases conf with
    | none => cases h
    | some c =>
      obtain ⟨p, hp, rfl⟩ := map_ok h
      obtain ⟨a, _, hp⟩ := bind_ok hp
      obtain ⟨⟨l, n⟩, hl, hp⟩ := bind_ok hp
      cases hp
      have := paid_each (paid_elementDescriptor L) _ _ _ _ hl
      rw [List.length_drop] at this
      simp only [entries]
      omega
  | unknown =>
    obtain ⟨p, _, rfl⟩ := map_ok h
    exact Nat.zero_le _

/-- **C97.** However a device fills in its counts and lengths, what a command decodes its response into has at most as many entries, in all its
lists together, as the response has bytes. -/
theorem C97_entries (L : BufLib) (other : Bytes → Py (List (String × Int))) (c : Cmd) (b : Bytes) (r : Result)
    (h : c.decode L other (some b) = .ok r) : entries r ≤ b.length := by
  cases c with
  | standardInquiry => obtain ⟨p, hp, rfl⟩ := map_ok h; exact standard_bound hp
  | vpd c => exact vpd_bound h
  | readCapacity10 => obtain ⟨p, hp, rfl⟩ := map_ok h; exact Nat.zero_le _
  | readCapacity16 => obtain ⟨p, hp, rfl⟩ := map_ok h; exact Nat.zero_le _
  | reportLuns => obtain ⟨p, hp, rfl⟩ := map_ok h; exact luns_bound hp
  | rtpg => obtain ⟨p, hp, rfl⟩ := map_ok h; exact groups_bound hp
  | receiveCopy => obtain ⟨p, hp, rfl⟩ := map_ok h; exact copy_bound hp
  | ses c conf => exact ses_bound h
  | persistentReserveIn => obtain ⟨p, hp, rfl⟩ := map_ok h; exact reservations_bound hp
  | _ => cases h; exact Nat.zero_le _

/-- Two page codes in six bytes; a page that announces 255 codes in six bytes is refused. -/
example (L : BufLib) (other : Bytes → Py (List (String × Int))) :
    (∃ r, Cmd.decode L other (.vpd .supported) (some [0, 0, 0, 2, 0x80, 0x83]) = .ok r ∧ entries r = 2) ∧
    Cmd.decode L other (.vpd .supported) (some [0, 0, 0, 255, 0x80, 0x83]) = .error .truncated :=
  ⟨⟨_, rfl, rfl⟩, rfl⟩

/-- An element descriptor page with an overall and two individual descriptors; cut after the first individual one it is refused. -/
example (L : BufLib) (other : Bytes → Py (List (String × Int))) :
    let conf : Ses.Configuration := { attrs := [], enclosures := [], headers := [[("possible_elements_num", 2)]], texts := [] }
    (∃ r, Cmd.decode L other (.ses .descriptors (some conf)) (some [7, 0, 0, 16, 0, 0, 0, 0, 0, 0, 0, 0, 0, 0, 0, 0, 0, 0, 0, 0]) = .ok r ∧ entries r = 3) ∧
    Cmd.decode L other (.ses .descriptors (some conf)) (some [7, 0, 0, 16, 0, 0, 0, 0, 0, 0, 0, 0, 0, 0, 0, 0]) = .error .truncated := by
  obtain ⟨sg, _⟩ := L
  cases sg <;> exact ⟨⟨_, rfl, rfl⟩, rfl⟩

/-- **C97.** Likewise for sense data. -/
theorem C97_sense (b : Bytes) (s : Option Sense.Sense) (h : Sense.getSense b = .ok s) : senseEntries s ≤ b.length := by
  obtain ⟨⟨vs, r0⟩, _, h⟩ := bind_ok h
  simp only at h
  split at h
  · obtain ⟨x, hx, h⟩ := bind_ok h
    cases h
    obtain ⟨⟨vs, r⟩, _, hx⟩ := bind_ok hx
    obtain ⟨⟨k, a⟩, _, hx⟩ := bind_ok hx
    cases hx
    exact Nat.zero_le _
  · split at h
    · obtain ⟨x, hx, h⟩ := bind_ok h
      cases h
      obtain ⟨⟨vs, r⟩, hr, hx⟩ := bind_ok hx
      obtain ⟨⟨k, a⟩, _, hx⟩ := bind_ok hx
      have h1 := unpack_rest _ hr
      cases r with
      | nil => cases hx
      | cons n ds =>
        obtain ⟨l, hl, hx⟩ := bind_ok hx
        cases hx
        have := length_of_sum (by omega) (paid_size paid_senseDescriptor _ _ _ hl)
        simp only [senseEntries]
        simp only [List.length_cons] at h1
        omega
    · cases h; exact Nat.zero_le _

/-- Sense data in descriptor format (with the length where the code looks for it) that announce 24 bytes of descriptors and have one of twelve. -/
example : ∃ e, Sense.getSense ([0x72, 5, 0x24, 0, 0, 0, 24] ++ [0, 10, 0, 0, 0, 0, 0, 0, 0, 0, 0, 1]) = .error e := by
  refine ⟨.truncated, ?_⟩
  decide +kernel

end Verif.Bounds
