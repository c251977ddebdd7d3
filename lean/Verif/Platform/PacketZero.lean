import Verif.CallLemmas
import Verif.Platform.Common
import Verif.Props.Reactor
set_option linter.unusedSimpArgs false
/-!
# Executers whose responses all carry packet number 0 (solaris.py:210, aix.py:389)

`call` on such an executer, with any queue size and with packets left behind by earlier calls.
-/

namespace Verif.Executer
open Verif.Reactor (dict_get_set dict_get_erase)

variable {Q K D E ω : Type}

/-- `_os_receive` as on these platforms: it looks at the request with number 0 only, always says number 0, and leaves the operating system
alone. -/
structure PacketZero (recv : St Q (Option K) → ω → Py (Outcome D E × Nat) × ω) : Prop where
  looks : ∀ s s' w, getOsData s 0 = getOsData s' 0 → recv s w = recv s' w
  says : ∀ s w o j w', recv s w = (.ok (o, j), w') → j = 0
  keeps : ∀ s w, (recv s w).2 = w
  /-- a request that succeeded cannot be made sense of if there is none with number 0; an error is an error all the same -/
  success : ∀ s s' w d, recv s w = (.ok (.data d, 0), w) → getOsData s' 0 = none → recv s' w = (.error .attribute, w)
  failure : ∀ s s' w e, recv s w = (.ok (.exc e, 0), w) → recv s' w = (.ok (.exc e, 0), w)

theorem dict_erase_set {α : Type} (d : Dict α) (k : Nat) (v : α) (h : Dict.get d k = none) : Dict.erase (Dict.set d k v) k = d := by
  induction d with
  | nil => simp [Dict.set, Dict.erase]
  | cons p r ih =>
    obtain ⟨k0, v0⟩ := p
    by_cases hk : k0 = k
    · simp [Dict.get, hk] at h
    · simp only [Dict.get, hk, if_false] at h
      simp [Dict.set, Dict.erase, hk, ih h]

/-- The state after `send` put the request among the pending ones. -/
def flight (s : St Q (Option K)) (q : Q) : St Q (Option K) :=
  { pending := Dict.set s.pending s.index (q, some none), index := (s.index + 1) % s.maxq, maxq := s.maxq }

theorem callLoop_first (recv : St Q (Option K) → ω → Py (Outcome D E × Nat) × ω) (s : St Q (Option K)) (w : ω) (o : Outcome D E) (q : Q)
    (w' : ω) (hr : recv s w = (.ok (o, 0), w')) (hg : Dict.get s.pending 0 = some (q, some none)) :
    callLoop recv s w =
      ⟨match (generalizing := false) o with | .data d => .ok (some d) | .exc e => .error (.dev e), [],
        { s with pending := Dict.erase s.pending 0 }, w'⟩ := by
  have hp : process recv s w = ⟨.ok true, some (none, cbArgs o), { s with pending := Dict.erase s.pending 0 }, w'⟩ := by
    unfold process
    rw [hr]
    simp only [hg]
  rw [callLoop]
  split
  · rename_i e he
    rw [hp] at he; cases he
  · simp only [hp]
    cases o <;> rfl

/-- What a call raises whose answer is taken for that of number 0 while there is no such request: the answer is lost. -/
def lost {α β : Type} : Except α β → PyErr
  | .ok _ => .attribute
  | .error _ => .asiInternal

theorem callLoop_lost {recv : St Q (Option K) → ω → Py (Outcome D E × Nat) × ω} (hz : PacketZero recv) (s s0 : St Q (Option K)) (w : ω)
    (o : Outcome D E) (h0 : recv s0 w = (.ok (o, 0), w)) (hg : Dict.get s.pending 0 = none) :
    callLoop recv s w =
      ⟨.error (.py (match (generalizing := false) o with | .data _ => .attribute | .exc _ => .asiInternal)), [], s, w⟩ := by
  have hn : getOsData s 0 = none := by simp [getOsData, hg]
  have hp : process recv s w =
      ⟨.error (match (generalizing := false) o with | .data _ => .attribute | .exc _ => .asiInternal), none, s, w⟩ := by
    unfold process
    cases o with
    | data d => rw [hz.success s0 s w d h0 hn]
    | exc e => rw [hz.failure s0 s w e h0]; simp [hg]
  rw [callLoop]
  split
  · rename_i e' he
    rw [hp] at he ⊢
    cases he; rfl
  · rename_i b hb
    rw [hp] at hb; cases hb

/-- What a call does, whatever earlier calls left behind under other numbers, given what it does on an executer that was just made. -/
theorem call_zero {recv : St Q (Option K) → ω → Py (Outcome D E × Nat) × ω} (hz : PacketZero recv) (prep : Nat → Py Q)
    (osSend : Q → ω → Py Unit × ω) (s : St Q (Option K)) (w : ω) (q : Q) (hprep : prep s.index = .ok q)
    (hroom : s.pending.length < s.maxq) (hg : Dict.get s.pending 0 = none) (r0 : CallResult Q (Option K) D E ω)
    (hr0 : r0 = call (fun _ => .ok q) osSend recv { pending := [], index := 0, maxq := s.maxq } w) (hno : ∀ e, r0.out ≠ .error (.py e)) :
    (s.index = 0 → call prep osSend recv s w = ⟨r0.out, [], { s with index := 1 % s.maxq }, r0.os⟩) ∧
    (s.index ≠ 0 → call prep osSend recv s w = ⟨.error (.py (lost r0.out)), [], flight s q, r0.os⟩) := by
  rw [call_idle _ _ _ _ w rfl (by show 0 < s.maxq; omega) q rfl] at hr0
  have hcall : call prep osSend recv s w =
      match osSend q w with
      | (.error e, w1) => ⟨.error (.py e), [], { flight s q with pending := Dict.erase (flight s q).pending s.index }, w1⟩
      | (.ok (), w1) => callLoop recv (flight s q) w1 := by
    unfold call send nextPacketIndex
    rw [if_neg (by omega)]
    simp only [hprep, flight]
    rcases osSend q w with ⟨_ | _, w1⟩ <;> rfl
  rw [hcall]
  rcases hs : osSend q w with ⟨_ | _, w1⟩
  · rw [hs] at hr0
    exact absurd (by rw [hr0]) (hno _)
  · rw [hs] at hr0
    simp only at hr0 ⊢
    rcases hrv : recv (oneFlight { pending := [], index := 0, maxq := s.maxq } q) w1 with ⟨r, w2⟩
    have hk := hz.keeps (oneFlight { pending := [], index := 0, maxq := s.maxq } q) w1
    rw [hrv] at hk hr0
    simp only at hk
    subst hk
    cases r with
    | error e => exact absurd (by rw [hr0]) (hno e)
    | ok p =>
      obtain ⟨o, j⟩ := p
      have hj := hz.says _ _ _ _ _ hrv
      subst hj
      simp only [if_true] at hr0
      constructor
      · intro h0
        have hget : Dict.get (flight s q).pending 0 = some (q, some none) := by
          simp only [flight, h0, dict_get_set, if_true]
        have hsame : recv (flight s q) w2 = (.ok (o, 0), w2) := by
          rw [← hrv]
          refine hz.looks _ _ _ ?_
          simp only [getOsData, hget]
          simp [oneFlight, Dict.get]
        rw [callLoop_first recv (flight s q) w2 o q w2 hsame hget, hr0]
        simp only [flight, h0, dict_erase_set _ _ _ hg, Nat.zero_add]
        cases o <;> rfl
      · intro h0
        have hget : Dict.get (flight s q).pending 0 = none := by
          simp only [flight, dict_get_set, if_neg h0, hg]
        rw [callLoop_lost hz (flight s q) _ w2 o hrv hget, hr0]
        cases o <;> rfl

/-- What is known of the operating system's part of a call that ended with an answer. -/
theorem call_sent {recv : St Q (Option K) → ω → Py (Outcome D E × Nat) × ω} (hz : PacketZero recv) (osSend : Q → ω → Py Unit × ω) (n : Nat) (hn : 0 < n)
    (w : ω) (q : Q) (r0 : CallResult Q (Option K) D E ω)
    (hr0 : r0 = call (fun _ => .ok q) osSend recv { pending := [], index := 0, maxq := n } w) (hno : ∀ e, r0.out ≠ .error (.py e)) :
    ∃ o s0, osSend q w = (.ok (), r0.os) ∧ recv s0 r0.os = (.ok (o, 0), r0.os) ∧
      r0.out = match (generalizing := false) o with | .data d => .ok (some d) | .exc e => .error (.dev e) := by
  rw [call_idle _ _ _ _ w rfl hn q rfl] at hr0
  rcases hs : osSend q w with ⟨_ | _, w1⟩
  · rw [hs] at hr0
    exact absurd (by rw [hr0]) (hno _)
  · rw [hs] at hr0
    simp only at hr0
    rcases hrv : recv (oneFlight { pending := [], index := 0, maxq := n } q) w1 with ⟨r, w2⟩
    have hk := hz.keeps (oneFlight { pending := [], index := 0, maxq := n } q) w1
    rw [hrv] at hk hr0
    simp only at hk
    subst hk
    cases r with
    | error e => exact absurd (by rw [hr0]) (hno e)
    | ok p =>
      obtain ⟨o, j⟩ := p
      have hj := hz.says _ _ _ _ _ hrv
      subst hj
      simp only [if_true] at hr0
      refine ⟨o, oneFlight { pending := [], index := 0, maxq := n } q, ?_, ?_, ?_⟩
      · rw [hr0]
      · rw [hr0]; exact hrv
      · rw [hr0]; cases o <;> rfl

/-- Two commands sent ahead and waited for: the callback of the first is told about the second. -/
theorem wait_two {recv : St Q (Option K) → ω → Py (Outcome D E × Nat) × ω} (hz : PacketZero recv) (qa qb : Q) (ka kb : K) (i n : Nat) (w : ω)
    (o : Outcome D E) (s0 : St Q (Option K)) (h0 : recv s0 w = (.ok (o, 0), w)) :
    let r := wait recv { pending := [(0, (qa, some (some ka))), (1, (qb, some (some kb)))], index := i, maxq := n } w
    (∃ e, r.out = .error e) ∧
    match (generalizing := false) o with
    | .exc e => r.fired = [(some ka, { data := none, exc := some e })]
    | .data _ => ∀ x ∈ r.fired, x.1 = some ka ∧ x.2.exc = none := by
  intro r
  have hlast : ∃ e, wait recv ({ pending := [(1, (qb, some (some kb)))], index := i, maxq := n } : St Q (Option K)) w =
      ⟨.error e, [], { pending := [(1, (qb, some (some kb)))], index := i, maxq := n }, w⟩ := by
    have hn : getOsData ({ pending := [(1, (qb, some (some kb)))], index := i, maxq := n } : St Q (Option K)) 0 = none := rfl
    have hp : ∃ e, process recv ({ pending := [(1, (qb, some (some kb)))], index := i, maxq := n } : St Q (Option K)) w =
        ⟨.error e, none, { pending := [(1, (qb, some (some kb)))], index := i, maxq := n }, w⟩ := by
      unfold process
      cases o with
      | data d => exact ⟨_, by rw [hz.success s0 _ w d h0 hn]⟩
      | exc e => exact ⟨.asiInternal, by rw [hz.failure s0 _ w e h0]; rfl⟩
    obtain ⟨e, hp⟩ := hp
    refine ⟨e, ?_⟩
    rw [wait, if_neg (by simp [isQueueEmpty])]
    split
    · rename_i e' he
      rw [hp] at he ⊢
      cases he; rfl
    · rename_i b hb
      rw [hp] at hb; cases hb
  obtain ⟨el, hlast⟩ := hlast
  have hr : r = wait recv { pending := [(0, (qa, some (some ka))), (1, (qb, some (some kb)))], index := i, maxq := n } w := rfl
  generalize hs : ({ pending := [(0, (qa, some (some ka))), (1, (qb, some (some kb)))], index := i, maxq := n } : St Q (Option K)) = s at *
  have first : ∀ o', recv s w = (.ok (o', 0), w) → r = ⟨.error el, [(some ka, cbArgs o')], { s with pending := [(1, (qb, some (some kb)))] }, w⟩ := by
    intro o' ho'
    have hp : process recv s w = ⟨.ok true, some (some ka, cbArgs o'), { s with pending := [(1, (qb, some (some kb)))] }, w⟩ := by
      unfold process
      rw [ho']
      subst hs
      rfl
    rw [hr, wait, if_neg (by subst hs; simp [isQueueEmpty])]
    split
    · rename_i e' he
      rw [hp] at he; cases he
    · simp only [hp]
      subst hs
      simp only [hlast]
      rfl
  cases o with
  | exc e =>
    rw [first (.exc e) (hz.failure s0 s w e h0)]
    exact ⟨⟨_, rfl⟩, rfl⟩
  | data d =>
    have hk := hz.keeps s w
    rcases hv : recv s w with ⟨v, w'⟩
    rw [hv] at hk
    simp only at hk
    subst hk
    cases v with
    | error e =>
      have hp : process recv s w' = ⟨.error e, none, s, w'⟩ := by unfold process; rw [hv]
      have : r = ⟨.error e, [], s, w'⟩ := by
        rw [hr, wait, if_neg (by subst hs; simp [isQueueEmpty])]
        split
        · rename_i e' he
          rw [hp] at he ⊢
          cases he; rfl
        · rename_i b hb
          rw [hp] at hb; cases hb
      rw [this]
      exact ⟨⟨_, rfl⟩, by simp⟩
    | ok p =>
      obtain ⟨o', j⟩ := p
      have hj := hz.says _ _ _ _ _ hv
      subst hj
      cases o' with
      | exc e =>
        have := hz.failure s s0 w' e hv
        rw [this] at h0
        simp at h0
      | data d' =>
        rw [first _ hv]
        exact ⟨⟨_, rfl⟩, by simp [cbArgs]⟩

/-! ## Room in the queue -/

theorem nodup_length {l : List Nat} {n : Nat} (hn : l.Nodup) (h : ∀ x ∈ l, x < n) : l.length ≤ n := by
  induction n generalizing l with
  | zero =>
    cases l with
    | nil => simp
    | cons a r => exact absurd (h a (by simp)) (by omega)
  | succ n ih =>
    by_cases hm : n ∈ l
    · have := ih (hn.erase n) (fun x hx => by
        have h1 := h x (List.mem_of_mem_erase hx)
        have h2 : x ≠ n := by
          rintro rfl
          exact (List.Nodup.not_mem_erase hn) hx
        omega)
      rw [List.length_erase_of_mem hm] at this
      omega
    · have := ih hn (fun x hx => by
        have h1 := h x hx
        have h2 : x ≠ n := by rintro rfl; exact hm hx
        omega)
      omega

/-- The packets left behind have numbers from 1 on, each one once. -/
structure Leftovers (s : St Q (Option K)) : Prop where
  nodup : (Dict.keys s.pending).Nodup
  range : ∀ i ∈ Dict.keys s.pending, 0 < i ∧ i < s.maxq

theorem dict_get_keys {α : Type} (d : Dict α) (k : Nat) (h : k ∉ Dict.keys d) : Dict.get d k = none := by
  induction d with
  | nil => rfl
  | cons p r ih =>
    obtain ⟨k0, v0⟩ := p
    simp only [Dict.keys, List.map_cons, List.mem_cons, not_or] at h
    simp only [Dict.get]
    rw [if_neg (fun hx => h.1 hx.symm)]
    exact ih h.2

theorem mem_keys_set {α : Type} (d : Dict α) (k : Nat) (v : α) (j : Nat) : j ∈ Dict.keys (Dict.set d k v) → j = k ∨ j ∈ Dict.keys d := by
  induction d with
  | nil => simp [Dict.set, Dict.keys]
  | cons p r ih =>
    obtain ⟨k0, v0⟩ := p
    intro hj
    by_cases h : k0 = k
    · simp only [Dict.set, h, if_true, Dict.keys, List.map_cons, List.mem_cons] at hj ⊢
      rcases hj with rfl | hj
      · left; rfl
      · right; right; exact hj
    · simp only [Dict.set, h, if_false, Dict.keys, List.map_cons, List.mem_cons] at hj ⊢
      rcases hj with rfl | hj
      · right; left; rfl
      · rcases ih hj with rfl | h'
        · left; rfl
        · right; right; exact h'

theorem nodup_keys_set {α : Type} (d : Dict α) (k : Nat) (v : α) (hn : (Dict.keys d).Nodup) : (Dict.keys (Dict.set d k v)).Nodup := by
  induction d with
  | nil => simp [Dict.set, Dict.keys]
  | cons p r ih =>
    obtain ⟨k0, v0⟩ := p
    simp only [Dict.keys, List.map_cons, List.nodup_cons] at hn
    by_cases h : k0 = k
    · subst h
      simp only [Dict.set, if_true, Dict.keys, List.map_cons, List.nodup_cons]
      exact hn
    · simp only [Dict.set, h, if_false, Dict.keys, List.map_cons, List.nodup_cons]
      refine ⟨?_, ih hn.2⟩
      intro hm
      rcases mem_keys_set r k v k0 hm with rfl | h'
      · exact h rfl
      · exact hn.1 h'

theorem Leftovers.room {s : St Q (Option K)} (h : Leftovers s) (hq : 0 < s.maxq) : s.pending.length < s.maxq := by
  have hn : ((Dict.keys s.pending).map (· - 1)).Nodup := by
    rw [List.nodup_iff_pairwise_ne, List.pairwise_map]
    refine List.Pairwise.imp_of_mem ?_ (List.nodup_iff_pairwise_ne.1 h.nodup)
    intro a b ha hb hab
    have := h.range a ha
    have := h.range b hb
    omega
  have := nodup_length (n := s.maxq - 1) hn (by
    intro x hx
    obtain ⟨y, hy, rfl⟩ := List.mem_map.1 hx
    have := h.range y hy
    omega)
  simp only [Dict.keys, List.length_map] at this
  omega

theorem Leftovers.zero {s : St Q (Option K)} (h : Leftovers s) : Dict.get s.pending 0 = none :=
  dict_get_keys _ _ (fun hm => absurd (h.range 0 hm).1 (by omega))

theorem Leftovers.flight {s : St Q (Option K)} (h : Leftovers s) (q : Q) (h0 : s.index ≠ 0) (hi : s.index < s.maxq) : Leftovers (flight s q) := by
  refine ⟨nodup_keys_set _ _ _ h.nodup, ?_⟩
  intro i hm
  rcases mem_keys_set _ _ _ _ hm with rfl | hm
  · exact ⟨by omega, hi⟩
  · exact h.range i hm

/-! ## Commands executed one after the other -/

/-- `call` for one command after the other: the results, and the operating system in the end. -/
def calls {C : Type} (prep : C → Nat → Py Q) (osSend : Q → ω → Py Unit × ω) (recv : St Q (Option K) → ω → Py (Outcome D E × Nat) × ω) :
    List C → St Q (Option K) → ω → List (Except (Exn E) (Option D)) × ω
  | [], _, w => ([], w)
  | c :: cs, s, w =>
    let r := call (prep c) osSend recv s w
    let rest := calls prep osSend recv cs r.st r.os
    (r.out :: rest.1, rest.2)

end Verif.Executer
