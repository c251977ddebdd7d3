import Verif.Spec.Pipeline
import Verif.Platform.Win32AsyncLemmas
import Verif.Props.Reactor
set_option linter.unusedSimpArgs false
set_option linter.unusedSectionVars false
/-!
# Commands sent ahead on Windows (synchronous file)

The executer of win32.py in front of the port driver: `_os_send` waits until the device has executed the request, and appends the request
object to `incoming_packets`; `_os_receive` takes the last one off (win32.py:369-387). `send`, `call` and `wait` are those of
`CommandExecuterBase`. Memory, request blocks and packet numbers are all there.
-/

namespace Verif.Platform.Win32
open Verif.Executer Verif.Spec
open Verif.Reactor (dict_get_set dict_get_erase dict_keys_erase)

namespace Ahead

variable {S δ : Type}

/-- What a callback gets. -/
abbrev Told (S : Type) := CbArgs (Option Bytes) (DevErr S)
/-- What `call` returns or raises. -/
abbrev Result (S : Type) := Except (Exn (DevErr S)) (Option (Option Bytes))

/-- The executer in its world. The callback of the `t`-th accepted command is called `some t`; `none` is `my_cb` of `call`. -/
structure Live (δ S : Type) where
  ex : St Spt (Option Nat)
  world : WinWorld δ
  next : Nat
  log : List (Pipeline.Ev (Told S) (Result S))

def Live.init (limit : Nat) (m : Mem) (k : δ) : Live δ S := ⟨St.init _ _ limit, ⟨⟨m, k⟩, []⟩, 0, []⟩

/-- What is seen of a callback. -/
def seen : Option Nat × Told S → List (Pipeline.Ev (Told S) (Result S))
  | (some t, a) => [.told t a]
  | (none, _) => []

/-- One thing the user does, with the methods of the executer doing the work: `send` (__init__.py:99-110), `call` (77-91), `wait` (112-114).
`alloc t` is the memory Python allocates for the request object of the `t`-th accepted command. -/
def Live.step (b : Bool) (parse : Bytes → Py (Option S)) (dev : Device δ) (alloc : Nat → Alloc) (s : Live δ S) : Pipeline.Op → Live δ S
  | .send c =>
    let r := Executer.send (prepare (W b) (fun _ => alloc s.next) c) (osSend (W b) (sptDevice b dev)) (some (some s.next)) s.ex s.world
    match r.out with
    | .ok () => ⟨r.st, r.os, s.next + 1, s.log ++ [.accepted s.next]⟩
    | .error .nameError => ⟨r.st, r.os, s.next, s.log ++ [.refused]⟩
    | .error e => ⟨r.st, r.os, s.next, s.log ++ [.raised e]⟩
  | .call c =>
    let r := Executer.call (prepare (W b) (fun _ => alloc s.next) c) (osSend (W b) (sptDevice b dev)) (osReceive (W b) parse) s.ex s.world
    match r.out with
    | .error (.py .nameError) => ⟨r.st, r.os, s.next, s.log ++ r.fired.flatMap seen ++ [.refused]⟩
    | o => ⟨r.st, r.os, s.next + 1, s.log ++ r.fired.flatMap seen ++ [.returned s.next o]⟩
  | .wait =>
    let r := Executer.wait (osReceive (W b) parse) s.ex s.world
    match r.out with
    | .ok () => ⟨r.st, r.os, s.next, s.log ++ r.fired.flatMap seen ++ [.waited]⟩
    | .error e => ⟨r.st, r.os, s.next, s.log ++ r.fired.flatMap seen ++ [.raised e]⟩

def Live.runFrom (b : Bool) (parse : Bytes → Py (Option S)) (dev : Device δ) (alloc : Nat → Alloc) (s : Live δ S) (ops : List Pipeline.Op) :
    Live δ S := ops.foldl (Live.step b parse dev alloc) s

def Live.run (b : Bool) (parse : Bytes → Py (Option S)) (dev : Device δ) (alloc : Nat → Alloc) (limit : Nat) (m : Mem) (k : δ)
    (ops : List Pipeline.Op) : Live δ S := Live.runFrom b parse dev alloc (Live.init limit m k) ops

/-- What the callback of `c` should be told when the device answers `ans`. -/
def hear (parse : Bytes → Py (Option S)) (c : Req) (ans : Answer) : Told S :=
  match winOutcome parse c ans with
  | .ok d => ⟨d, none⟩
  | .error (.dev e) => ⟨none, some e⟩
  | .error (.py _) => ⟨none, none⟩

/-- The memory of two request objects does not overlap. -/
def Apart (b : Bool) (alloc : Nat → Alloc) (t : Nat) (c : Req) (t' : Nat) (c' : Req) : Prop :=
  ∀ x ∈ winRegions b (alloc t) c, ∀ y ∈ winRegions b (alloc t') c', x.1 + x.2 ≤ y.1 ∨ y.1 + y.2 ≤ x.1

/-- Every command fits the request block and the memory it is given. -/
structure Fits (b : Bool) (alloc : Nat → Alloc) (cmds : Req → Prop) : Prop where
  cdb : ∀ c, cmds c → c.cdb.length ≤ 16
  size : ∀ c, cmds c → dataSize c < 2 ^ 32
  one : ∀ c, cmds c → ∀ t, Separate (bits b) (winRegions b (alloc t) c)

/-- The sense data the device sends can be parsed. -/
def Parses (parse : Bytes → Py (Option S)) (dev : Device δ) : Prop :=
  ∀ k q, (dev k q).1.status = 2 → ∃ sn, parse (padded 255 (dev k q).1.sense) = .ok sn

/-! ## The executer and the ideal -/

section
variable (b : Bool) (parse : Bytes → Py (Option S)) (dev : Device δ) (alloc : Nat → Alloc) (limit : Nat)

theorem apart_outside {alloc : Nat → Alloc} {t t' : Nat} {c c' : Req} (h : Apart b alloc t c t' c') (x : Nat) (hx : Inside b (alloc t) c x) :
    ¬ Inside b (alloc t') c' x := by
  unfold Apart winRegions at h
  rw [← total_eq] at *
  simp only [List.mem_cons, List.not_mem_nil, or_false, forall_eq_or_imp, forall_eq] at h
  unfold Inside at *
  omega

/-- An outstanding command with the request object it belongs to. -/
structure Item where
  e : Pipeline.Entry
  h : Spt

/-- How the executer's attributes and memory stand to the outstanding commands. `cb t` is the callback of command `t`. -/
structure Rel (cb : Nat → Option Nat) (next : Nat) (items : List Item) (ex : St Spt (Option Nat)) (w : WinWorld δ) : Prop where
  maxq : ex.maxq = limit
  index : ex.index = next % limit
  sorted : items.Pairwise (fun x y => y.e.t < x.e.t)
  young : ∀ x ∈ items, x.e.t < next ∧ next ≤ x.e.t + limit
  incoming : ∃ junk, w.incoming = items.map Item.h ++ junk
  nodup : (Dict.keys ex.pending).Nodup
  count : ex.pending.length = items.length
  pending : ∀ i v, Dict.get ex.pending i = some v ↔ ∃ x ∈ items, x.e.t % limit = i ∧ v = (x.h, some (cb x.e.t))
  built : ∀ x ∈ items, Built b x.h (alloc x.e.t) (x.e.t % limit) x.e.cmd
  said : ∀ x ∈ items, clsOut (classify (W b) parse x.h w.world.mem) = winOutcome parse x.e.cmd x.e.ans
  parsed : ∀ x ∈ items, x.e.ans.status = 2 → ∃ sn, parse (padded 255 x.e.ans.sense) = .ok sn

variable {b parse dev alloc limit}

theorem Rel.cb_congr {cb cb' : Nat → Option Nat} {next : Nat} {items : List Item} {ex : St Spt (Option Nat)} {w : WinWorld δ}
    (h : Rel b parse alloc limit cb next items ex w) (hcb : ∀ x ∈ items, cb' x.e.t = cb x.e.t) : Rel b parse alloc limit cb' next items ex w :=
  { h with
    pending := by
      intro i v
      rw [h.pending]
      constructor
      · rintro ⟨x, hx, h1, h2⟩; exact ⟨x, hx, h1, by rw [hcb x hx]; exact h2⟩
      · rintro ⟨x, hx, h1, h2⟩; exact ⟨x, hx, h1, by rw [← hcb x hx]; exact h2⟩ }

/-- The oldest of the remembered commands, if it is old enough to be forgotten. -/
theorem oldest {limit next : Nat} (items : List Item) (hs : items.Pairwise (fun x y => y.e.t < x.e.t))
    (hy : ∀ x ∈ items, x.e.t < next ∧ next ≤ x.e.t + limit) :
    (items.filter (fun x => decide (x.e.t + limit ≠ next)) = items ∧ ∀ x ∈ items, x.e.t + limit ≠ next) ∨
    ∃ l z, items = l ++ [z] ∧ z.e.t + limit = next ∧ items.filter (fun x => decide (x.e.t + limit ≠ next)) = l ∧
      ∀ x ∈ l, x.e.t + limit ≠ next := by
  induction items with
  | nil => left; simp
  | cons a r ih =>
    rw [List.pairwise_cons] at hs
    rcases ih hs.2 (fun x hx => hy x (List.mem_cons_of_mem _ hx)) with ⟨h1, h2⟩ | ⟨l, z, h1, h2, h3, h4⟩
    · by_cases ha : a.e.t + limit = next
      · have : r = [] := by
          cases r with
          | nil => rfl
          | cons x r =>
            have := hs.1 x (by simp)
            have := (hy x (by simp)).2
            omega
        subst this
        right
        exact ⟨[], a, rfl, ha, by simp [ha], by simp⟩
      · left
        refine ⟨by rw [List.filter_cons, if_pos (by simpa using ha), h1], ?_⟩
        intro x hx
        rcases List.mem_cons.1 hx with rfl | hx
        · exact ha
        · exact h2 x hx
    · right
      have hz : z ∈ r := by rw [h1]; simp
      have ha : a.e.t + limit ≠ next := by
        have := hs.1 z hz
        omega
      refine ⟨a :: l, z, by rw [h1]; rfl, h2, ?_, ?_⟩
      · rw [List.filter_cons, if_pos (by simpa using ha), h3]
      · intro x hx
        rcases List.mem_cons.1 hx with rfl | hx
        · exact ha
        · exact h4 x hx

theorem dict_length_set {α : Type} (d : Dict α) (k : Nat) (v : α) :
    (Dict.set d k v).length = if (Dict.get d k).isSome then d.length else d.length + 1 := by
  induction d with
  | nil => simp [Dict.set, Dict.get]
  | cons p r ih =>
    obtain ⟨k0, v0⟩ := p
    by_cases h : k0 = k
    · simp [Dict.set, Dict.get, h]
    · simp only [Dict.set, Dict.get, h, if_false, List.length_cons, ih]
      split <;> rfl

theorem dict_keys_set {α : Type} (d : Dict α) (k : Nat) (v : α) (hn : (Dict.keys d).Nodup) : (Dict.keys (Dict.set d k v)).Nodup := by
  have mem : ∀ (d : Dict α) j, j ∈ Dict.keys (Dict.set d k v) → j = k ∨ j ∈ Dict.keys d := by
    intro d
    induction d with
    | nil => intro j; simp [Dict.set, Dict.keys]
    | cons p r ih =>
      obtain ⟨k0, v0⟩ := p
      intro j hj
      by_cases h : k0 = k
      · simp only [Dict.set, h, if_true, Dict.keys, List.map_cons, List.mem_cons] at hj ⊢
        rcases hj with rfl | hj
        · left; rfl
        · right; right; exact hj
      · simp only [Dict.set, h, if_false, Dict.keys, List.map_cons, List.mem_cons] at hj ⊢
        rcases hj with rfl | hj
        · right; left; rfl
        · rcases ih j hj with rfl | h'
          · left; rfl
          · right; right; exact h'
  induction d with
  | nil => simp [Dict.set, Dict.keys]
  | cons p r ih =>
    obtain ⟨k0, v0⟩ := p
    simp only [Dict.keys, List.map_cons, List.nodup_cons] at hn
    by_cases h : k0 = k
    · subst h
      simp only [Dict.set, if_true, Dict.keys, List.map_cons, List.nodup_cons]
      exact hn
    · simp only [Dict.set, h, if_false, Dict.keys, List.map_cons, List.nodup_cons]
      refine ⟨?_, ih hn.2⟩
      intro hm
      rcases mem r k0 hm with rfl | h'
      · exact h rfl
      · exact hn.1 h'

/-- A command is accepted and executed. -/
theorem send_rel {cb : Nat → Option Nat} {next : Nat} {items : List Item} {ex : St Spt (Option Nat)} {w : WinWorld δ}
    (hr : Rel b parse alloc limit cb next items ex w) (hroom : items.length < limit) {c : Req} (hcdb : c.cdb.length ≤ 16)
    (hsize : dataSize c < 2 ^ 32) (hsep : Separate (bits b) (winRegions b (alloc next) c))
    (hap : ∀ x ∈ items.filter (fun x => decide (x.e.t + limit ≠ next)), Apart b alloc x.e.t x.e.cmd next c) (hp : Parses parse dev)
    (k : Option Nat) (hcb : cb next = k) :
    ∃ h ex' w', Executer.send (prepare (W b) (fun _ => alloc next) c) (osSend (W b) (sptDevice b dev)) (some k) ex w = ⟨.ok (), ex', w'⟩ ∧
      w'.world.kernel = (dev w.world.kernel (asked c)).2 ∧
      Rel b parse alloc limit cb (next + 1)
        (⟨⟨next, c, (dev w.world.kernel (asked c)).1⟩, h⟩ :: items.filter (fun x => decide (x.e.t + limit ≠ next))) ex' w' := by
  have hl : 0 < limit := by omega
  obtain ⟨-, hx⟩ := win_apart hsep
  obtain ⟨h, hc, hb⟩ := create_built b (alloc next) (next % limit) c hcdb hsize hx
  obtain ⟨m', hio, hout, hsaid⟩ := device_serves parse dev hcdb hsize hsep hc (h.install w.world.mem) w.world.kernel (install_install hb _)
  have hsend : osSend (W b) (sptDevice b dev) h w =
      (.ok (), ⟨⟨m', (dev w.world.kernel (asked c)).2⟩, h :: w.incoming⟩) := by
    unfold osSend
    rw [sptSize_W, total_eq]
    have : (sptDevice b dev).ioctl ioctlCode h.blockAddr (if b then 311 else 299) { w.world with mem := h.install w.world.mem } = _ := hio
    rw [this]
  have hkept : ∀ x ∈ items.filter (fun x => decide (x.e.t + limit ≠ next)), x ∈ items ∧ x.e.t + limit ≠ next := by
    intro x hx; simpa using hx
  have hne : ∀ x ∈ items, x.e.t + limit ≠ next → x.e.t % limit ≠ next % limit := by
    intro x hx hn he
    obtain ⟨h1, h2⟩ := hr.young x hx
    have : next = x.e.t + (next - x.e.t) := by omega
    have hd : (next - x.e.t) % limit = 0 := by
      have := Nat.sub_mod_eq_zero_of_mod_eq he.symm
      exact this
    have : next - x.e.t < limit := by omega
    rw [Nat.mod_eq_of_lt this] at hd
    omega
  refine ⟨h, { ex with index := (next + 1) % limit, pending := Dict.set ex.pending (next % limit) (h, some k) },
    ⟨⟨m', (dev w.world.kernel (asked c)).2⟩, h :: w.incoming⟩, ?_, rfl, ?_⟩
  · unfold Executer.send nextPacketIndex
    rw [if_neg (by rw [hr.count, hr.maxq]; omega)]
    simp only [prepare, hr.index, hr.maxq, hc, hsend, Nat.mod_add_mod]
  · have hmem : ∀ x ∈ items.filter (fun x => decide (x.e.t + limit ≠ next)), ∀ y, Inside b (alloc x.e.t) x.e.cmd y → m' y = w.world.mem y := by
      intro x hx y hy
      have hno := apart_outside b (hap x hx) y hy
      rw [hout y hno, install_outside hb _ hno]
    refine ⟨hr.maxq, rfl, ?_, ?_, ?_, dict_keys_set _ _ _ hr.nodup, ?_, ?_, ?_, ?_, ?_⟩
    · rw [List.pairwise_cons]
      exact ⟨fun x hx => (hr.young x (hkept x hx).1).1, hr.sorted.filter _⟩
    · intro x hx
      rcases List.mem_cons.1 hx with rfl | hx
      · exact ⟨by show next < next + 1; omega, by show next + 1 ≤ next + limit; omega⟩
      · obtain ⟨h1, h2⟩ := hkept x hx
        have := hr.young x h1
        omega
    · obtain ⟨junk, hj⟩ := hr.incoming
      rcases oldest items hr.sorted hr.young with ⟨h1, -⟩ | ⟨l, z, h1, -, h3, -⟩
      · rw [h1]; exact ⟨junk, by simp [hj]⟩
      · rw [h3]; exact ⟨z.h :: junk, by simp [hj, h1]⟩
    · rw [dict_length_set]
      rcases oldest items hr.sorted hr.young with ⟨h1, h2⟩ | ⟨l, z, h1, h2, h3, h4⟩
      · rw [h1]
        have : Dict.get ex.pending (next % limit) = none := by
          cases hg : Dict.get ex.pending (next % limit) with
          | none => rfl
          | some v =>
            obtain ⟨x, hx, he, -⟩ := (hr.pending _ _).1 hg
            exact absurd he (hne x hx (h2 x hx))
        rw [this]
        simp [hr.count]
      · rw [h3]
        have : Dict.get ex.pending (next % limit) = some (z.h, some (cb z.e.t)) :=
          (hr.pending _ _).2 ⟨z, by rw [h1]; simp, by rw [← h2, Nat.add_mod_right], rfl⟩
        rw [this]
        simp [hr.count, h1]
    · intro i v
      rw [dict_get_set]
      by_cases hi : next % limit = i
      · rw [if_pos hi]
        constructor
        · intro hv
          cases hv
          exact ⟨_, List.mem_cons_self, hi, by rw [hcb]⟩
        · rintro ⟨x, hx, he, hv⟩
          rcases List.mem_cons.1 hx with rfl | hx
          · rw [hv, hcb]
          · obtain ⟨h1, h2⟩ := hkept x hx
            exact absurd (he.trans hi.symm) (hne x h1 h2)
      · rw [if_neg hi, hr.pending]
        constructor
        · rintro ⟨x, hx, he, hv⟩
          refine ⟨x, List.mem_cons_of_mem _ (List.mem_filter.2 ⟨hx, ?_⟩), he, hv⟩
          simp only [decide_eq_true_eq]
          intro hn
          exact hi (by rw [← he, ← hn, Nat.add_mod_right])
        · rintro ⟨x, hx, he, hv⟩
          rcases List.mem_cons.1 hx with rfl | hx
          · exact absurd he hi
          · exact ⟨x, (hkept x hx).1, he, hv⟩
    · intro x hx
      rcases List.mem_cons.1 hx with rfl | hx
      · exact hb
      · exact hr.built x (hkept x hx).1
    · intro x hx
      rcases List.mem_cons.1 hx with rfl | hx
      · exact hsaid
      · show clsOut (classify (W b) parse x.h m') = _
        rw [classify_congr (hr.built x (hkept x hx).1) parse (hmem x hx)]
        exact hr.said x (hkept x hx).1
    · intro x hx
      rcases List.mem_cons.1 hx with rfl | hx
      · exact fun hs => hp _ _ hs
      · exact hr.parsed x (hkept x hx).1

/-- The queue is full. -/
theorem send_full {cb : Nat → Option Nat} {next : Nat} {items : List Item} {ex : St Spt (Option Nat)} {w : WinWorld δ}
    (hr : Rel b parse alloc limit cb next items ex w) (hfull : limit ≤ items.length) (c : Req) (al : Nat → Alloc) (k : Option Nat) :
    Executer.send (prepare (W b) al c) (osSend (W b) (sptDevice b dev)) (some k) ex w = ⟨.error .nameError, ex, w⟩ := by
  unfold Executer.send nextPacketIndex
  rw [if_pos (by rw [hr.count, hr.maxq]; omega)]

theorem outcome_answered {c : Req} {ans : Answer} (hp : ans.status = 2 → ∃ sn, parse (padded 255 ans.sense) = .ok sn) (e : PyErr) :
    winOutcome parse c ans ≠ .error (.py e) := by
  unfold winOutcome
  by_cases h2 : ans.status = 2
  · obtain ⟨sn, hs⟩ := hp h2
    rw [if_pos h2, hs]
    simp
  · rw [if_neg h2]
    by_cases h0 : ans.status = 0
    · rw [if_neg (by simpa using h0)]
      cases c <;> simp
    · rw [if_pos h0]; simp

/-- One response is processed: that of the youngest command. -/
theorem process_rel {cb : Nat → Option Nat} {next : Nat} {x : Item} {items : List Item} {ex : St Spt (Option Nat)} {w : WinWorld δ}
    (hr : Rel b parse alloc limit cb next (x :: items) ex w) :
    ∃ ex' w', process (osReceive (W b) parse) ex w = ⟨.ok true, some (cb x.e.t, hear parse x.e.cmd x.e.ans), ex', w'⟩ ∧
      w'.world = w.world ∧ Rel b parse alloc limit cb next items ex' w' := by
  obtain ⟨junk, hj⟩ := hr.incoming
  have hsaid := hr.said x (by simp)
  have hno := outcome_answered (c := x.e.cmd) (hr.parsed x (by simp))
  have hg : Dict.get ex.pending x.h.packetId = some (x.h, some (cb x.e.t)) :=
    (hr.pending _ _).2 ⟨x, by simp, (hr.built x (by simp)).id.symm, rfl⟩
  have hid := (hr.built x (by simp)).id
  obtain ⟨o, ho, hcb⟩ : ∃ o, classify (W b) parse x.h w.world.mem = .ok o ∧ cbArgs o = hear parse x.e.cmd x.e.ans := by
    cases hc : classify (W b) parse x.h w.world.mem with
    | error e => rw [hc] at hsaid; exact absurd hsaid.symm (hno e)
    | ok o =>
      rw [hc] at hsaid
      refine ⟨o, rfl, ?_⟩
      unfold hear
      rw [← hsaid]
      cases o <;> rfl
  refine ⟨{ ex with pending := Dict.erase ex.pending x.h.packetId }, { w with incoming := items.map Item.h ++ junk }, ?_, rfl, ?_⟩
  · have hrec : osReceive (W b) parse ex w = (.ok (o, x.h.packetId), { w with incoming := items.map Item.h ++ junk }) := by
      unfold osReceive
      rw [hj]
      simp only [List.map_cons, List.cons_append, ho]
    unfold process
    rw [hrec]
    simp only [hg, hcb]
  · have hs := hr.sorted
    rw [List.pairwise_cons] at hs
    have hne : ∀ y ∈ items, y.e.t % limit ≠ x.e.t % limit := by
      intro y hy he
      have h1 := hs.1 y hy
      have h2 := (hr.young y (List.mem_cons_of_mem _ hy)).2
      have h3 := (hr.young x (by simp)).1
      have hd : (x.e.t - y.e.t) % limit = 0 := Nat.sub_mod_eq_zero_of_mod_eq he.symm
      have hlt : x.e.t - y.e.t < limit := by omega
      rw [Nat.mod_eq_of_lt hlt] at hd
      omega
    refine ⟨hr.maxq, hr.index, hs.2, fun y hy => hr.young y (List.mem_cons_of_mem _ hy), ⟨junk, rfl⟩, ?_, ?_, ?_,
      fun y hy => hr.built y (List.mem_cons_of_mem _ hy), fun y hy => hr.said y (List.mem_cons_of_mem _ hy),
      fun y hy => hr.parsed y (List.mem_cons_of_mem _ hy)⟩
    · show (Dict.keys (Dict.erase _ _)).Nodup
      rw [dict_keys_erase _ _ hr.nodup]
      exact hr.nodup.erase _
    · have := Dict.erase_length_of_get hg
      have := hr.count
      simp only [List.length_cons] at this
      show (Dict.erase _ _).length = _
      omega
    · intro i v
      show Dict.get (Dict.erase _ _) i = some v ↔ _
      rw [dict_get_erase _ _ _ hr.nodup, hid]
      by_cases hi : x.e.t % limit = i
      · rw [if_pos hi]
        constructor
        · intro hv; cases hv
        · rintro ⟨y, hy, he, -⟩; exact absurd (he.trans hi.symm) (hne y hy)
      · rw [if_neg hi, hr.pending]
        constructor
        · rintro ⟨y, hy, he, hv⟩
          rcases List.mem_cons.1 hy with rfl | hy
          · exact absurd he hi
          · exact ⟨y, hy, he, hv⟩
        · rintro ⟨y, hy, he, hv⟩; exact ⟨y, List.mem_cons_of_mem _ hy, he, hv⟩

/-- `wait` processes all the responses, the youngest first. -/
theorem wait_rel {next : Nat} {items : List Item} {ex : St Spt (Option Nat)} {w : WinWorld δ}
    (hr : Rel b parse alloc limit some next items ex w) :
    ∃ ex' w', wait (osReceive (W b) parse) ex w =
        ⟨.ok (), items.map (fun x => (some x.e.t, hear parse x.e.cmd x.e.ans)), ex', w'⟩ ∧
      w'.world = w.world ∧ Rel b parse alloc limit some next [] ex' w' := by
  induction items generalizing ex w with
  | nil =>
    refine ⟨ex, w, ?_, rfl, hr⟩
    rw [wait, if_pos (by simp [isQueueEmpty, hr.count])]
    rfl
  | cons x items ih =>
    obtain ⟨ex1, w1, h1, h2, h3⟩ := process_rel hr
    obtain ⟨ex2, w2, h4, h5, h6⟩ := ih h3
    refine ⟨ex2, w2, ?_, by rw [h5, h2], h6⟩
    rw [wait, if_neg (by simp [isQueueEmpty, hr.count])]
    split
    · rename_i e he
      rw [h1] at he
      cases he
    · simp only [h1, h4]
      rfl

/-- `call` gets the device's answer to its own command. -/
theorem call_rel {next : Nat} {items : List Item} {ex : St Spt (Option Nat)} {w : WinWorld δ}
    (hr : Rel b parse alloc limit some next items ex w) (hroom : items.length < limit) {c : Req} (hcdb : c.cdb.length ≤ 16)
    (hsize : dataSize c < 2 ^ 32) (hsep : Separate (bits b) (winRegions b (alloc next) c))
    (hap : ∀ x ∈ items.filter (fun x => decide (x.e.t + limit ≠ next)), Apart b alloc x.e.t x.e.cmd next c) (hp : Parses parse dev) :
    ∃ ex' w', Executer.call (prepare (W b) (fun _ => alloc next) c) (osSend (W b) (sptDevice b dev)) (osReceive (W b) parse) ex w =
        ⟨winOutcome parse c (dev w.world.kernel (asked c)).1, [], ex', w'⟩ ∧
      w'.world.kernel = (dev w.world.kernel (asked c)).2 ∧
      Rel b parse alloc limit some (next + 1) (items.filter (fun x => decide (x.e.t + limit ≠ next))) ex' w' := by
  have hne : ∀ x ∈ items, x.e.t ≠ next := fun x hx => by have := (hr.young x hx).1; omega
  have hr' : Rel b parse alloc limit (fun t => if t = next then none else some t) next items ex w :=
    hr.cb_congr (fun x hx => by simp [hne x hx])
  obtain ⟨h, ex1, w1, h1, h2, h3⟩ := send_rel hr' hroom hcdb hsize hsep hap hp none (by simp)
  obtain ⟨ex2, w2, h4, h5, h6⟩ := process_rel h3
  refine ⟨ex2, w2, ?_, by rw [h5, h2], h6.cb_congr (fun x hx => by simp [hne x (List.mem_filter.1 hx).1])⟩
  have hno := outcome_answered (parse := parse) (c := c) (ans := (dev w.world.kernel (asked c)).1) (hp _ _)
  simp only [if_true] at h4
  unfold Executer.call
  simp only [h1]
  rw [callLoop]
  split
  · rename_i e he
    rw [h4] at he
    cases he
  · simp only [h4, hear]
    cases ho : winOutcome parse c (dev w.world.kernel (asked c)).1 with
    | ok d => rfl
    | error e =>
      cases e with
      | dev e => rfl
      | py e => exact absurd ho (hno e)

/-- The executer and the ideal, step by step. -/
structure Inv (b : Bool) (parse : Bytes → Py (Option S)) (alloc : Nat → Alloc) (limit : Nat) (s : Live δ S)
    (i : Pipeline.State δ (Told S) (Result S)) : Prop where
  next : s.next = i.next
  log : s.log = i.log
  dev : s.world.world.kernel = i.dev
  rel : ∃ items : List Item, items.map Item.e = i.out ∧ Rel b parse alloc limit some i.next items s.ex s.world

theorem inv_init (m : Mem) (k : δ) : Inv b parse alloc limit (Live.init (S := S) limit m k) (Pipeline.State.init k) := by
  refine ⟨rfl, rfl, rfl, [], rfl, rfl, ?_, List.Pairwise.nil, by simp, ⟨[], rfl⟩, by simp [Live.init, St.init, Dict.keys], rfl, ?_, by simp, by simp,
    by simp⟩
  · simp [Live.init, St.init, Pipeline.State.init]
  · intro i v
    simp [Live.init, St.init, Dict.get]

theorem keep_items {i : Pipeline.State δ (Told S) (Result S)} {items : List Item} (h : items.map Item.e = i.out) :
    (items.filter (fun x => decide (x.e.t + limit ≠ i.next))).map Item.e = Pipeline.keep limit i := by
  unfold Pipeline.keep
  rw [← h, List.filter_map]
  rfl

theorem inv_step {cmds : Req → Prop} (hfit : Fits b alloc cmds) (hp : Parses parse dev) {s : Live δ S}
    {i : Pipeline.State δ (Told S) (Result S)} (h : Inv b parse alloc limit s i) (op : Pipeline.Op) (hop : Pipeline.Gives cmds op)
    (hfr : Pipeline.Fresh (Apart b alloc) dev limit (hear parse) (winOutcome parse) i [op]) :
    Inv b parse alloc limit (Live.step b parse dev alloc s op) (Pipeline.step dev limit (hear parse) (winOutcome parse) i op) := by
  obtain ⟨hn, hlog, hdev, items, hit, hrel⟩ := h
  have hlen : i.out.length = items.length := by rw [← hit, List.length_map]
  have hap : ∀ {c : Req}, (∀ e ∈ Pipeline.keep limit i, Apart b alloc e.t e.cmd i.next c) →
      ∀ x ∈ items.filter (fun x => decide (x.e.t + limit ≠ i.next)), Apart b alloc x.e.t x.e.cmd i.next c := by
    intro c hk x hx
    exact hk x.e (by rw [← keep_items hit]; exact List.mem_map_of_mem hx)
  cases op with
  | send c =>
    by_cases hfull : limit ≤ items.length
    · have hs := send_full (dev := dev) hrel hfull c (fun _ => alloc i.next) (some i.next)
      simp only [Live.step, Pipeline.step, hn, hs, hlen, if_pos hfull]
      exact ⟨rfl, by rw [hlog], hdev, items, hit, hrel⟩
    · obtain ⟨h, ex', w', h1, h2, h3⟩ := send_rel hrel (by omega) (hfit.cdb c hop) (hfit.size c hop) (hfit.one c hop i.next) (hap hfr.1) hp
        (some i.next) rfl
      simp only [Live.step, Pipeline.step, hn, h1, hlen, if_neg hfull]
      rw [hdev] at h2 h3
      exact ⟨rfl, by rw [hlog], h2, _, by rw [List.map_cons, keep_items hit], h3⟩
  | call c =>
    by_cases hfull : limit ≤ items.length
    · have hs := send_full (dev := dev) hrel hfull c (fun _ => alloc i.next) none
      have hc : Executer.call (prepare (W b) (fun _ => alloc i.next) c) (osSend (W b) (sptDevice b dev)) (osReceive (W b) parse) s.ex s.world =
          ⟨.error (.py .nameError), [], s.ex, s.world⟩ := by
        unfold Executer.call
        simp only [hs]
      simp only [Live.step, Pipeline.step, hn, hc, hlen, if_pos hfull]
      exact ⟨rfl, by simp [hlog], hdev, items, hit, hrel⟩
    · obtain ⟨ex', w', h1, h2, h3⟩ := call_rel hrel (by omega) (hfit.cdb c hop) (hfit.size c hop) (hfit.one c hop i.next) (hap hfr.1) hp
      have hno := outcome_answered (parse := parse) (c := c) (ans := (dev s.world.world.kernel (asked c)).1) (hp _ _) .nameError
      simp only [Live.step, Pipeline.step, hn, h1, hlen, if_neg hfull]
      rw [hdev] at h2 hno ⊢
      exact ⟨rfl, by simp [hlog], h2, _, keep_items hit, h3⟩
  | wait =>
    obtain ⟨ex', w', h1, h2, h3⟩ := wait_rel hrel
    simp only [Live.step, Pipeline.step, h1]
    refine ⟨hn, ?_, by rw [h2]; exact hdev, [], rfl, h3⟩
    have : ∀ l : List Item, (l.map (fun x => ((some x.e.t, hear parse x.e.cmd x.e.ans) : Option Nat × Told S))).flatMap seen =
        (l.map Item.e).map (fun e => (.told e.t (hear parse e.cmd e.ans) : Pipeline.Ev (Told S) (Result S))) := by
      intro l
      induction l with
      | nil => rfl
      | cons x l ih => rw [List.map_cons, List.flatMap_cons, ih]; rfl
    rw [this, hit, hlog]

theorem inv_run {cmds : Req → Prop} (hfit : Fits b alloc cmds) (hp : Parses parse dev) (ops : List Pipeline.Op)
    (hops : ∀ op ∈ ops, Pipeline.Gives cmds op) (s : Live δ S) (i : Pipeline.State δ (Told S) (Result S)) (h : Inv b parse alloc limit s i)
    (hfr : Pipeline.Fresh (Apart b alloc) dev limit (hear parse) (winOutcome parse) i ops) :
    Inv b parse alloc limit (Live.runFrom b parse dev alloc s ops) (Pipeline.runFrom dev limit (hear parse) (winOutcome parse) i ops) := by
  induction ops generalizing s i with
  | nil => exact h
  | cons op ops ih =>
    exact ih (fun o ho => hops o (List.mem_cons_of_mem _ ho)) _ _
      (inv_step hfit hp h op (hops op List.mem_cons_self) ⟨hfr.1, trivial⟩) hfr.2

end

/-! ## About the ideal -/

section
variable {A R : Type} {dev : Device δ} {limit : Nat} {hr : Req → Answer → A} {ret : Req → Answer → R} {P : PyErr → Prop}

theorem answers_snoc (dev : Device δ) (k : δ) (cs : List Req) (c : Req) :
    Pipeline.answers dev k (cs ++ [c]) = Pipeline.answers dev k cs ++ [(dev (Pipeline.after dev k cs) (asked c)).1] := by
  induction cs generalizing k with
  | nil => rfl
  | cons d cs ih => simp only [List.cons_append, Pipeline.answers, Pipeline.after, ih]

theorem after_snoc (dev : Device δ) (k : δ) (cs : List Req) (c : Req) :
    Pipeline.after dev k (cs ++ [c]) = (dev (Pipeline.after dev k cs) (asked c)).2 := by
  induction cs generalizing k with
  | nil => rfl
  | cons d cs ih => simp only [List.cons_append, Pipeline.after, ih]

theorem answers_length (dev : Device δ) (k : δ) (cs : List Req) : (Pipeline.answers dev k cs).length = cs.length := by
  induction cs generalizing k with
  | nil => rfl
  | cons d cs ih => simp only [Pipeline.answers, List.length_cons, ih]

/-- The device answered command number `t`, `c`, with `ans`. -/
def Answered (dev : Device δ) (k : δ) (cs : List Req) (t : Nat) (c : Req) (ans : Answer) : Prop :=
  cs[t]? = some c ∧ (Pipeline.answers dev k cs)[t]? = some ans

theorem Answered.snoc {k : δ} {cs : List Req} {t : Nat} {c : Req} {ans : Answer} (h : Answered dev k cs t c ans) (d : Req) :
    Answered dev k (cs ++ [d]) t c ans := by
  obtain ⟨h1, h2⟩ := h
  have l1 := (List.getElem?_eq_some_iff.1 h1).1
  have l2 := (List.getElem?_eq_some_iff.1 h2).1
  exact ⟨by rw [List.getElem?_append_left l1]; exact h1, by rw [answers_snoc, List.getElem?_append_left l2]; exact h2⟩

theorem Answered.last (k : δ) (cs : List Req) (d : Req) :
    Answered dev k (cs ++ [d]) cs.length d (dev (Pipeline.after dev k cs) (asked d)).1 := by
  refine ⟨by simp, ?_⟩
  rw [answers_snoc, ← answers_length dev k cs]
  simp

/-- What has been seen so far fits what the device was asked. -/
structure Past (P : PyErr → Prop) (dev : Device δ) (limit : Nat) (hr : Req → Answer → A) (ret : Req → Answer → R) (k : δ) (ops : List Pipeline.Op)
    (s : Pipeline.State δ A R) : Prop where
  replies : (ops.filterMap Pipeline.given).length = (s.log.filterMap Pipeline.reply).length
  next : (Pipeline.taken ops s.log).length = s.next
  device : s.dev = Pipeline.after dev k (Pipeline.taken ops s.log)
  out : ∀ e ∈ s.out, Answered dev k (Pipeline.taken ops s.log) e.t e.cmd e.ans
  told : ∀ t a, .told t a ∈ s.log → ∃ c ans, Answered dev k (Pipeline.taken ops s.log) t c ans ∧ a = hr c ans
  returned : ∀ t r, .returned t r ∈ s.log → ∃ c ans, Answered dev k (Pipeline.taken ops s.log) t c ans ∧ r = ret c ans
  raised : ∀ e, .raised e ∈ s.log → P e
  young : ∀ e ∈ s.out, e.t < s.next
  once : (s.log.filterMap Pipeline.toldOf ++ s.out.map Pipeline.Entry.t).Nodup
  before : ∀ t a, .told t a ∈ s.log → t < s.next

theorem taken_snoc {ops : List Pipeline.Op} {log : List (Pipeline.Ev A R)} (h : (ops.filterMap Pipeline.given).length = (log.filterMap Pipeline.reply).length)
    (op : Pipeline.Op) (evs : List (Pipeline.Ev A R)) :
    Pipeline.taken (ops ++ [op]) (log ++ evs) = Pipeline.taken ops log ++ Pipeline.taken [op] evs := by
  unfold Pipeline.taken
  rw [List.filterMap_append, List.filterMap_append, List.zip_append h, List.filterMap_append]

theorem told_mem {log : List (Pipeline.Ev A R)} {t : Nat} : t ∈ log.filterMap Pipeline.toldOf ↔ ∃ a, .told t a ∈ log := by
  rw [List.mem_filterMap]
  constructor
  · rintro ⟨ev, h, he⟩
    cases ev <;> simp only [Pipeline.toldOf, Option.some.injEq, reduceCtorEq] at he
    subst he
    exact ⟨_, h⟩
  · rintro ⟨a, h⟩; exact ⟨_, h, rfl⟩

theorem past_step {k : δ} {ops : List Pipeline.Op} {s : Pipeline.State δ A R} (h : Past P dev limit hr ret k ops s) (op : Pipeline.Op) :
    Past P dev limit hr ret k (ops ++ [op]) (Pipeline.step dev limit hr ret s op) := by
  have hkeep : ∀ e, e ∈ Pipeline.keep limit s → e ∈ s.out := fun e he => (List.mem_filter.1 he).1
  have hkeepn : (s.log.filterMap Pipeline.toldOf ++ (Pipeline.keep limit s).map Pipeline.Entry.t).Nodup :=
    h.once.sublist (List.Sublist.append_left (List.Sublist.map _ List.filter_sublist) _)
  -- a refusal changes nothing
  have refusal : ∀ c, (op = .send c ∨ op = .call c) →
      Past P dev limit hr ret k (ops ++ [op]) { s with log := s.log ++ [.refused] } := by
    intro c hop
    have ht : Pipeline.taken (ops ++ [op]) (s.log ++ [.refused]) = Pipeline.taken ops s.log := by
      rw [taken_snoc h.replies]
      rcases hop with rfl | rfl <;> simp [Pipeline.taken, Pipeline.given, Pipeline.reply]
    refine ⟨?_, ?_, ?_, ?_, ?_, ?_, ?_, h.young, ?_, ?_⟩
    · have := h.replies
      rcases hop with rfl | rfl <;> simp [List.filterMap_append, Pipeline.given, Pipeline.reply, this]
    · rw [ht]; exact h.next
    · rw [ht]; exact h.device
    · rw [ht]; exact h.out
    · rw [ht]; intro t a hm; exact h.told t a (by simpa using hm)
    · rw [ht]; intro t r hm; exact h.returned t r (by simpa using hm)
    · intro e hm; exact h.raised e (by simpa using hm)
    · simpa [List.filterMap_append, List.filterMap_cons, Pipeline.toldOf] using h.once
    · intro t a hm; exact h.before t a (by simpa using hm)
  cases op with
  | send c =>
    simp only [Pipeline.step]
    split
    · exact refusal c (.inl rfl)
    · have ht : Pipeline.taken (ops ++ [.send c]) (s.log ++ [.accepted s.next]) = Pipeline.taken ops s.log ++ [c] := by
        rw [taken_snoc h.replies]; rfl
      refine ⟨?_, ?_, ?_, ?_, ?_, ?_, ?_, ?_, ?_, ?_⟩
      · simp [List.filterMap_append, Pipeline.given, Pipeline.reply, h.replies]
      · rw [ht]; simp [h.next]
      · rw [ht, after_snoc, ← h.device]
      · rw [ht]
        intro e he
        rcases List.mem_cons.1 he with rfl | he
        · show Answered dev k _ s.next c _
          rw [← h.next, h.device]
          exact Answered.last k _ c
        · exact (h.out e (hkeep e he)).snoc c
      · rw [ht]
        intro t a hm
        obtain ⟨c', ans, h1, h2⟩ := h.told t a (by simpa using hm)
        exact ⟨c', ans, h1.snoc c, h2⟩
      · rw [ht]
        intro t a hm
        obtain ⟨c', ans, h1, h2⟩ := h.returned t a (by simpa using hm)
        exact ⟨c', ans, h1.snoc c, h2⟩
      · intro e hm; exact h.raised e (by simpa using hm)
      · intro e he
        rcases List.mem_cons.1 he with rfl | he
        · exact Nat.lt_succ_self _
        · exact Nat.lt_succ_of_lt (h.young e (hkeep e he))
      · simp only [List.filterMap_append, List.filterMap_cons, List.filterMap_nil, Pipeline.toldOf, List.append_nil, List.map_cons]
        rw [List.nodup_append] at hkeepn ⊢
        obtain ⟨n1, n2, n3⟩ := hkeepn
        refine ⟨n1, ?_, ?_⟩
        · rw [List.nodup_cons]
          refine ⟨?_, n2⟩
          intro hm
          obtain ⟨e, he, het⟩ := List.mem_map.1 hm
          have := h.young e (hkeep e he)
          omega
        · intro t ht' u hu
          rcases List.mem_cons.1 hu with rfl | hu
          · obtain ⟨a, ha⟩ := told_mem.1 ht'
            have := h.before t a ha
            omega
          · exact n3 t ht' u hu
      · intro t a hm; exact Nat.lt_succ_of_lt (h.before t a (by simpa using hm))
  | call c =>
    simp only [Pipeline.step]
    split
    · exact refusal c (.inr rfl)
    · generalize hx : ret c (dev s.dev (asked c)).1 = x
      have ht : Pipeline.taken (ops ++ [.call c]) (s.log ++ [.returned s.next x]) = Pipeline.taken ops s.log ++ [c] := by
        rw [taken_snoc h.replies]; rfl
      refine ⟨?_, ?_, ?_, ?_, ?_, ?_, ?_, ?_, ?_, ?_⟩
      · simp [List.filterMap_append, Pipeline.given, Pipeline.reply, h.replies]
      · rw [ht]; simp [h.next]
      · rw [ht, after_snoc, ← h.device]
      · rw [ht]; exact fun e he => (h.out e (hkeep e he)).snoc c
      · rw [ht]
        intro t a hm
        obtain ⟨c', ans, h1, h2⟩ := h.told t a (by simpa using hm)
        exact ⟨c', ans, h1.snoc c, h2⟩
      · rw [ht]
        intro t r hm
        rcases List.mem_append.1 hm with hm | hm
        · obtain ⟨c', ans, h1, h2⟩ := h.returned t r hm
          exact ⟨c', ans, h1.snoc c, h2⟩
        · simp only [List.mem_singleton, Pipeline.Ev.returned.injEq] at hm
          obtain ⟨rfl, rfl⟩ := hm
          refine ⟨c, _, ?_, hx.symm⟩
          rw [← h.next, h.device]
          exact Answered.last k _ c
      · intro e hm; exact h.raised e (by simpa using hm)
      · exact fun e he => Nat.lt_succ_of_lt (h.young e (hkeep e he))
      · simpa [List.filterMap_append, List.filterMap_cons, Pipeline.toldOf] using hkeepn
      · intro t a hm; exact Nat.lt_succ_of_lt (h.before t a (by simpa using hm))
  | wait =>
    simp only [Pipeline.step]
    have hf : ∀ l : List Pipeline.Entry, (l.map (fun e => (.told e.t (hr e.cmd e.ans) : Pipeline.Ev A R))).filterMap Pipeline.reply = [] := by
      intro l; induction l with
      | nil => rfl
      | cons e l ih => rw [List.map_cons, List.filterMap_cons]; exact ih
    have hg : ∀ l : List Pipeline.Entry, (l.map (fun e => (.told e.t (hr e.cmd e.ans) : Pipeline.Ev A R))).filterMap Pipeline.toldOf =
        l.map Pipeline.Entry.t := by
      intro l; induction l with
      | nil => rfl
      | cons e l ih => rw [List.map_cons, List.filterMap_cons]; simp only [Pipeline.toldOf, ih, List.map_cons]
    have ht : Pipeline.taken (ops ++ [.wait]) (s.log ++ s.out.map (fun e => .told e.t (hr e.cmd e.ans)) ++ [.waited]) = Pipeline.taken ops s.log := by
      rw [List.append_assoc, taken_snoc h.replies]
      simp [Pipeline.taken, Pipeline.given, List.filterMap_cons]
    have hm : ∀ {t a}, (.told t a : Pipeline.Ev A R) ∈ s.log ++ s.out.map (fun e => .told e.t (hr e.cmd e.ans)) ++ [.waited] →
        .told t a ∈ s.log ∨ ∃ e ∈ s.out, e.t = t ∧ hr e.cmd e.ans = a := by
      intro t a hm
      simpa using hm
    refine ⟨?_, ?_, ?_, by simp, ?_, ?_, ?_, by simp, ?_, ?_⟩
    · simp only [List.filterMap_append, hf]
      simp [List.filterMap_cons, Pipeline.given, Pipeline.reply, h.replies]
    · rw [ht]; exact h.next
    · rw [ht]; exact h.device
    · rw [ht]
      intro t a ha
      rcases hm ha with ha | ⟨e, he, rfl, rfl⟩
      · exact h.told t a ha
      · exact ⟨e.cmd, e.ans, h.out e he, rfl⟩
    · rw [ht]; intro t r ha; exact h.returned t r (by simpa using ha)
    · intro e ha; exact h.raised e (by simpa using ha)
    · simp only [List.filterMap_append, hg]
      simpa [List.filterMap_cons, Pipeline.toldOf] using h.once
    · intro t a ha
      rcases hm ha with ha | ⟨e, he, rfl, rfl⟩
      · exact h.before t a ha
      · exact h.young e he

theorem past_run {k : δ} (ops pre : List Pipeline.Op) (s : Pipeline.State δ A R) (h : Past P dev limit hr ret k pre s) :
    Past P dev limit hr ret k (pre ++ ops) (Pipeline.runFrom dev limit hr ret s ops) := by
  induction ops generalizing pre s with
  | nil => rw [List.append_nil]; exact h
  | cons op ops ih =>
    have := ih _ _ (past_step h op)
    rwa [List.append_assoc] at this

theorem past_init (k : δ) : Past P dev limit hr ret k [] (Pipeline.State.init k : Pipeline.State δ A R) :=
  ⟨rfl, rfl, rfl, by simp [Pipeline.State.init], by simp [Pipeline.State.init], by simp [Pipeline.State.init], by simp [Pipeline.State.init],
    by simp [Pipeline.State.init], by simp [Pipeline.State.init], by simp [Pipeline.State.init]⟩

/-- Nothing is forgotten while not too many commands are given at a time. -/
structure Kept (limit left : Nat) (s : Pipeline.State δ A R) : Prop where
  le : left ≤ limit
  young : ∀ e ∈ s.out, s.next + left ≤ e.t + limit
  few : s.out.length + left ≤ limit
  open' : ∀ t, .accepted t ∈ s.log → t ∈ s.out.map Pipeline.Entry.t ∨ ∃ a, .told t a ∈ s.log
  accepted : .refused ∉ s.log

theorem kept_run (ops : List Pipeline.Op) (left : Nat) (s : Pipeline.State δ A R) (h : Kept limit left s) (hb : Pipeline.Bursts limit left ops) :
    ∃ left', Kept limit left' (Pipeline.runFrom dev limit hr ret s ops) := by
  induction ops generalizing left s with
  | nil => exact ⟨left, h⟩
  | cons op ops ih =>
    have hkeep : 0 < left → Pipeline.keep limit s = s.out := by
      intro hl
      refine List.filter_eq_self.2 (fun e he => ?_)
      have := h.young e he
      simp only [decide_eq_true_eq, ne_eq]
      omega
    cases op with
    | wait =>
      refine ih limit _ ?_ hb
      refine ⟨Nat.le_refl _, by simp [Pipeline.step], by simp [Pipeline.step], ?_, ?_⟩
      · intro t ht
        right
        rcases h.open' t (by simpa [Pipeline.step] using ht) with hm | ⟨a, ha⟩
        · obtain ⟨e, he, rfl⟩ := List.mem_map.1 hm
          exact ⟨hr e.cmd e.ans, by simp only [Pipeline.step, List.mem_append, List.mem_map]; exact .inl (.inr ⟨e, he, rfl⟩)⟩
        · exact ⟨a, by simp only [Pipeline.step, List.mem_append]; exact .inl (.inl ha)⟩
      · intro hm; exact h.accepted (by simpa [Pipeline.step] using hm)
    | send c =>
      cases left with
      | zero => exact absurd hb (by simp [Pipeline.Bursts])
      | succ left =>
        refine ih left _ ?_ hb
        have hf := h.few
        have hle := h.le
        simp only [Pipeline.step, if_neg (show ¬ limit ≤ s.out.length by omega), hkeep (Nat.succ_pos _)]
        refine ⟨by omega, ?_, by simp only [List.length_cons]; omega, ?_, ?_⟩
        · intro e he
          rcases List.mem_cons.1 he with rfl | he
          · show s.next + 1 + left ≤ s.next + limit; omega
          · have := h.young e he; show s.next + 1 + left ≤ _; omega
        · intro t ht
          simp only [List.mem_append, List.mem_singleton, Pipeline.Ev.accepted.injEq] at ht
          rcases ht with ht | rfl
          · rcases h.open' t ht with hm | ⟨a, ha⟩
            · exact .inl (List.mem_cons_of_mem _ hm)
            · exact .inr ⟨a, List.mem_append_left _ ha⟩
          · exact .inl List.mem_cons_self
        · intro hm; exact h.accepted (by simpa using hm)
    | call c =>
      cases left with
      | zero => exact absurd hb (by simp [Pipeline.Bursts])
      | succ left =>
        refine ih left _ ?_ hb
        have hf := h.few
        have hle := h.le
        simp only [Pipeline.step, if_neg (show ¬ limit ≤ s.out.length by omega), hkeep (Nat.succ_pos _)]
        refine ⟨by omega, ?_, by show s.out.length + left ≤ limit; omega, ?_, ?_⟩
        · intro e he
          have := h.young e he; show s.next + 1 + left ≤ _; omega
        · intro t ht
          rcases h.open' t (by simpa using ht) with hm | ⟨a, ha⟩
          · exact .inl hm
          · exact .inr ⟨a, List.mem_append_left _ ha⟩
        · intro hm; exact h.accepted (by simpa using hm)

/-- A number that is no longer remembered is never heard of again. -/
theorem never_told {k : δ} {pre : List Pipeline.Op} {t : Nat} (ops : List Pipeline.Op) (s : Pipeline.State δ A R)
    (h : Past P dev limit hr ret k pre s) (hlt : t < s.next) (hout : ∀ e ∈ s.out, e.t ≠ t) (hno : ∀ a, .told t a ∉ s.log) (a : A) :
    .told t a ∉ (Pipeline.runFrom dev limit hr ret s ops).log := by
  induction ops generalizing pre s with
  | nil => exact hno a
  | cons op ops ih =>
    have hk : ∀ e, e ∈ Pipeline.keep limit s → e ∈ s.out := fun e he => (List.mem_filter.1 he).1
    refine ih _ (past_step h op) ?_ ?_ ?_
    · cases op <;> simp only [Pipeline.step] <;> (try split) <;> first | exact hlt | exact Nat.lt_succ_of_lt hlt
    · cases op <;> simp only [Pipeline.step] <;> (try split)
      · exact hout
      · intro e he
        rcases List.mem_cons.1 he with rfl | he
        · exact (Nat.ne_of_lt hlt).symm
        · exact hout e (hk e he)
      · exact hout
      · exact fun e he => hout e (hk e he)
      · simp
    · intro b
      cases op <;> simp only [Pipeline.step] <;> (try split)
      · simpa using hno b
      · simpa using hno b
      · simpa using hno b
      · simpa using hno b
      · simp only [List.mem_append, List.mem_map, List.mem_singleton, reduceCtorEq, or_false, not_or, not_exists, not_and]
        refine ⟨hno b, ?_⟩
        intro e he heq
        simp only [Pipeline.Ev.told.injEq] at heq
        exact hout e he heq.1

theorem calls_run (cs : List Req) (s : Pipeline.State δ A R) (e : Pipeline.Entry) (hout : s.out = [e]) (hl : 2 ≤ limit)
    (hlt : s.next + cs.length = e.t + limit + 1) (hne : e.t < s.next) (hcs : cs ≠ []) :
    ∃ rs, Pipeline.runFrom dev limit hr ret s (cs.map .call) =
        ⟨(Pipeline.runFrom dev limit hr ret s (cs.map .call)).dev, e.t + limit + 1, [], s.log ++ rs⟩ ∧
      rs.length = cs.length ∧ ∀ ev ∈ rs, ∃ t r, ev = .returned t r := by
  induction cs generalizing s with
  | nil => exact absurd rfl hcs
  | cons c cs ih =>
    simp only [List.length_cons] at hlt
    have hs : Pipeline.step dev limit hr ret s (.call c) =
        ⟨(dev s.dev (asked c)).2, s.next + 1, Pipeline.keep limit s, s.log ++ [.returned s.next (ret c (dev s.dev (asked c)).1)]⟩ := by
      simp only [Pipeline.step, hout]
      rw [if_neg (by simp; omega)]
    by_cases hz : cs = []
    · subst hz
      have hn : s.next = e.t + limit := by simp at hlt; omega
      refine ⟨[.returned s.next (ret c (dev s.dev (asked c)).1)], ?_, rfl, by simp⟩
      show Pipeline.step dev limit hr ret s (.call c) = ⟨(Pipeline.step dev limit hr ret s (.call c)).dev, _, _, _⟩
      rw [hs]
      simp [Pipeline.keep, hout, hn]
    · have hpos : 0 < cs.length := List.length_pos_iff.2 hz
      have hk : Pipeline.keep limit s = [e] := by
        simp only [Pipeline.keep, hout]
        rw [List.filter_cons, if_pos (by simp; omega)]
        rfl
      obtain ⟨rs, h1, h2, h3⟩ := ih (Pipeline.step dev limit hr ret s (.call c)) (by rw [hs]; exact hk) (by rw [hs]; show s.next + 1 + _ = _; omega)
        (by rw [hs]; show _ < s.next + 1; omega) hz
      refine ⟨.returned s.next (ret c (dev s.dev (asked c)).1) :: rs, ?_, by simp [h2], ?_⟩
      · show Pipeline.runFrom dev limit hr ret (Pipeline.step dev limit hr ret s (.call c)) (cs.map .call) = _
        rw [h1, hs]
        simp [Pipeline.runFrom, hs]
      · intro ev hev
        rcases List.mem_cons.1 hev with rfl | hev
        · exact ⟨_, _, rfl⟩
        · exact h3 ev hev

end

end Ahead
end Verif.Platform.Win32
