import Verif.Spec.Latest
import Verif.Props.Mapped
import Verif.Platform.Win32Ahead
set_option linter.unusedSimpArgs false
set_option linter.unusedSectionVars false
/-!
# Commands sent ahead on the executer for multipath devices (linux.py:279-293)

`_os_send` keeps the block it hands to `ioctl(SG_IO)` in `self.buffer`, where the next one replaces it; `_os_receive` reads it from there. `send`, `call` and
`wait` are those of `CommandExecuterBase`.
-/

namespace Verif.Platform

/-! ## The table of pending packets -/

namespace Book
open Verif.Executer Verif.Spec
open Verif.Reactor (dict_get_set dict_get_erase dict_keys_erase)
open Verif.Platform.Win32.Ahead (dict_length_set dict_keys_set)

variable {Q : Type}

/-- An outstanding command with its request object. -/
structure Item (Q : Type) where
  e : Pipeline.Entry
  q : Q

/-- The attributes of the executer with the outstanding commands `items` (the youngest first); `cb t` is the callback of the `t`-th accepted command. -/
structure Books (limit : Nat) (cb : Nat → Option Nat) (next : Nat) (items : List (Item Q)) (ex : St Q (Option Nat)) : Prop where
  maxq : ex.maxq = limit
  index : ex.index = next % limit
  sorted : items.Pairwise (fun x y => y.e.t < x.e.t)
  young : ∀ x ∈ items, x.e.t < next ∧ next ≤ x.e.t + limit
  nodup : (Dict.keys ex.pending).Nodup
  count : ex.pending.length = items.length
  pending : ∀ i v, Dict.get ex.pending i = some v ↔ ∃ x ∈ items, x.e.t % limit = i ∧ v = (x.q, some (cb x.e.t))

/-- What is remembered when one more command is accepted. -/
def kept (limit next : Nat) (items : List (Item Q)) : List (Item Q) := items.filter (fun x => decide (x.e.t + limit ≠ next))

variable {limit next : Nat} {cb : Nat → Option Nat} {items : List (Item Q)} {ex : St Q (Option Nat)}

theorem Books.init (limit : Nat) (cb : Nat → Option Nat) : Books limit cb 0 ([] : List (Item Q)) (St.init _ _ limit) := by
  refine ⟨rfl, by simp [St.init], List.Pairwise.nil, by simp, by simp [St.init, Dict.keys], rfl, ?_⟩
  intro i v
  simp [St.init, Dict.get]

theorem Books.cb_congr {cb' : Nat → Option Nat} (h : Books limit cb next items ex) (hcb : ∀ x ∈ items, cb' x.e.t = cb x.e.t) :
    Books limit cb' next items ex :=
  { h with
    pending := by
      intro i v
      rw [h.pending]
      constructor
      · rintro ⟨x, hx, h1, h2⟩; exact ⟨x, hx, h1, by rw [hcb x hx]; exact h2⟩
      · rintro ⟨x, hx, h1, h2⟩; exact ⟨x, hx, h1, by rw [← hcb x hx]; exact h2⟩ }

theorem oldest (items : List (Item Q)) (hs : items.Pairwise (fun x y => y.e.t < x.e.t)) (hy : ∀ x ∈ items, x.e.t < next ∧ next ≤ x.e.t + limit) :
    (kept limit next items = items ∧ ∀ x ∈ items, x.e.t + limit ≠ next) ∨
    ∃ l z, items = l ++ [z] ∧ z.e.t + limit = next ∧ kept limit next items = l ∧ ∀ x ∈ l, x.e.t + limit ≠ next := by
  unfold kept
  induction items with
  | nil => left; simp
  | cons a r ih =>
    rw [List.pairwise_cons] at hs
    rcases ih hs.2 (fun x hx => hy x (List.mem_cons_of_mem _ hx)) with ⟨h1, h2⟩ | ⟨l, z, h1, h2, h3, h4⟩
    · by_cases ha : a.e.t + limit = next
      · have : r = [] := by
          cases r with
          | nil => rfl
          | cons x r =>
            have := hs.1 x (by simp)
            have := (hy x (by simp)).2
            omega
        subst this
        right
        exact ⟨[], a, rfl, ha, by simp [ha], by simp⟩
      · left
        refine ⟨by rw [List.filter_cons, if_pos (by simpa using ha), h1], ?_⟩
        intro x hx
        rcases List.mem_cons.1 hx with rfl | hx
        · exact ha
        · exact h2 x hx
    · right
      have hz : z ∈ r := by rw [h1]; simp
      have ha : a.e.t + limit ≠ next := by
        have := hs.1 z hz
        omega
      refine ⟨a :: l, z, by rw [h1]; rfl, h2, ?_, ?_⟩
      · rw [List.filter_cons, if_pos (by simpa using ha), h3]
      · intro x hx
        rcases List.mem_cons.1 hx with rfl | hx
        · exact ha
        · exact h4 x hx

theorem mem_kept {x : Item Q} (hx : x ∈ kept limit next items) : x ∈ items ∧ x.e.t + limit ≠ next := by
  simpa [kept] using hx

/-- Two numbers less than `limit` apart. -/
theorem mod_apart {t u : Nat} (h1 : t < u) (h2 : u < t + limit) : t % limit ≠ u % limit := by
  intro he
  have hd : (u - t) % limit = 0 := Nat.sub_mod_eq_zero_of_mod_eq he.symm
  rw [Nat.mod_eq_of_lt (by omega)] at hd
  omega

/-- A command is accepted. -/
theorem Books.add (h : Books limit cb next items ex) (hroom : items.length < limit) (c : Pipeline.Entry) (hc : c.t = next) (q : Q) :
    Books limit cb (next + 1) (⟨c, q⟩ :: kept limit next items)
      { ex with index := (next + 1) % limit, pending := Dict.set ex.pending (next % limit) (q, some (cb next)) } := by
  subst hc
  have hne : ∀ x ∈ items, x.e.t + limit ≠ c.t → x.e.t % limit ≠ c.t % limit := by
    intro x hx hn
    obtain ⟨h1, h2⟩ := h.young x hx
    exact mod_apart h1 (by omega)
  refine ⟨h.maxq, rfl, ?_, ?_, dict_keys_set _ _ _ h.nodup, ?_, ?_⟩
  · rw [List.pairwise_cons]
    exact ⟨fun x hx => (h.young x (mem_kept hx).1).1, h.sorted.filter _⟩
  · intro x hx
    rcases List.mem_cons.1 hx with rfl | hx
    · exact ⟨by show c.t < c.t + 1; omega, by show c.t + 1 ≤ c.t + limit; omega⟩
    · obtain ⟨h1, h2⟩ := mem_kept hx
      have := h.young x h1
      omega
  · rw [dict_length_set]
    rcases oldest items h.sorted h.young with ⟨h1, h2⟩ | ⟨l, z, h1, h2, h3, h4⟩
    · rw [h1]
      have : Dict.get ex.pending (c.t % limit) = none := by
        cases hg : Dict.get ex.pending (c.t % limit) with
        | none => rfl
        | some v =>
          obtain ⟨x, hx, he, -⟩ := (h.pending _ _).1 hg
          exact absurd he (hne x hx (h2 x hx))
      rw [this]
      simp [h.count]
    · rw [h3]
      have : Dict.get ex.pending (c.t % limit) = some (z.q, some (cb z.e.t)) :=
        (h.pending _ _).2 ⟨z, by rw [h1]; simp, by rw [← h2, Nat.add_mod_right], rfl⟩
      rw [this]
      simp [h.count, h1]
  · intro i v
    rw [dict_get_set]
    by_cases hi : c.t % limit = i
    · rw [if_pos hi]
      constructor
      · intro hv
        cases hv
        exact ⟨_, List.mem_cons_self, hi, rfl⟩
      · rintro ⟨x, hx, he, hv⟩
        rcases List.mem_cons.1 hx with rfl | hx
        · rw [hv]
        · obtain ⟨h1, h2⟩ := mem_kept hx
          exact absurd (he.trans hi.symm) (hne x h1 h2)
    · rw [if_neg hi, h.pending]
      constructor
      · rintro ⟨x, hx, he, hv⟩
        refine ⟨x, List.mem_cons_of_mem _ (List.mem_filter.2 ⟨hx, ?_⟩), he, hv⟩
        simp only [decide_eq_true_eq]
        intro hn
        exact hi (by rw [← he, ← hn, Nat.add_mod_right])
      · rintro ⟨x, hx, he, hv⟩
        rcases List.mem_cons.1 hx with rfl | hx
        · exact absurd he hi
        · exact ⟨x, (mem_kept hx).1, he, hv⟩

/-- The youngest command is taken off. -/
theorem Books.pop {x : Item Q} (h : Books limit cb next (x :: items) ex) :
    Books limit cb next items { ex with pending := Dict.erase ex.pending (x.e.t % limit) } := by
  have hg : Dict.get ex.pending (x.e.t % limit) = some (x.q, some (cb x.e.t)) := (h.pending _ _).2 ⟨x, by simp, rfl, rfl⟩
  have hs := h.sorted
  rw [List.pairwise_cons] at hs
  have hne : ∀ y ∈ items, y.e.t % limit ≠ x.e.t % limit := by
    intro y hy
    have h1 := hs.1 y hy
    have h2 := (h.young y (List.mem_cons_of_mem _ hy)).2
    have h3 := (h.young x (by simp)).1
    exact mod_apart h1 (by omega)
  refine ⟨h.maxq, h.index, hs.2, fun y hy => h.young y (List.mem_cons_of_mem _ hy), ?_, ?_, ?_⟩
  · show (Dict.keys (Dict.erase _ _)).Nodup
    rw [dict_keys_erase _ _ h.nodup]
    exact h.nodup.erase _
  · have := Dict.erase_length_of_get hg
    have := h.count
    simp only [List.length_cons] at this
    show (Dict.erase _ _).length = _
    omega
  · intro i v
    show Dict.get (Dict.erase _ _) i = some v ↔ _
    rw [dict_get_erase _ _ _ h.nodup]
    by_cases hi : x.e.t % limit = i
    · rw [if_pos hi]
      constructor
      · intro hv; cases hv
      · rintro ⟨y, hy, he, -⟩; exact absurd (he.trans hi.symm) (hne y hy)
    · rw [if_neg hi, h.pending]
      constructor
      · rintro ⟨y, hy, he, hv⟩
        rcases List.mem_cons.1 hy with rfl | hy
        · exact absurd he hi
        · exact ⟨y, hy, he, hv⟩
      · rintro ⟨y, hy, he, hv⟩; exact ⟨y, List.mem_cons_of_mem _ hy, he, hv⟩

/-- The request object of the youngest command. -/
theorem Books.youngest {x : Item Q} (h : Books limit cb next (x :: items) ex) : getOsData ex (x.e.t % limit) = some x.q := by
  have hg : Dict.get ex.pending (x.e.t % limit) = some (x.q, some (cb x.e.t)) := (h.pending _ _).2 ⟨x, by simp, rfl, rfl⟩
  simp [getOsData, hg]

/-- No request object has the number of the command accepted last, if that is not outstanding. -/
theorem Books.none (h : Books limit cb next items ex) (hno : ∀ x ∈ items, x.e.t + 1 ≠ next) (hn : 0 < next) :
    getOsData ex ((next - 1) % limit) = none := by
  cases hg : Dict.get ex.pending ((next - 1) % limit) with
  | none => simp [getOsData, hg]
  | some v =>
    obtain ⟨x, hx, he, -⟩ := (h.pending _ _).1 hg
    obtain ⟨h1, h2⟩ := h.young x hx
    have := hno x hx
    exact absurd he (mod_apart (by omega) (by omega))

end Book

/-! ## The executer -/

namespace Linux
open Verif.Executer Verif.Spec

variable {S κ δ K : Type}

/-- What `ioctl(SG_IO)` leaves behind: the device was asked what the command asks, and `_os_receive` finds the data of this command if its request object is still
pending, and otherwise fails. -/
theorem ioctl_sent (l : Bool) (parse : Bytes → Py (Option S)) (dev : Device δ) (al : Alloc) (i : Nat) (t : Int) (c : Req) (m : Mem) (k : δ)
    (old : Option Bytes) (hidx : i < 2 ^ 31) (hcdb : c.cdb.length ≤ 255) (hd : dataSize c < 2 ^ 32) (ht : 0 ≤ t ∧ t < 2 ^ 32)
    (hsep : Separate 64 [(al.block, 88), (al.sense, 255), (al.cmd, c.cdb.length), (al.data, dataSize c)]) :
    ∃ w', ioctlSend (ioctlDevice l dev) (create (lp64 l) al i c t) { world := { mem := m, kernel := k }, buffer := old } = (.ok (), w') ∧
      w'.world.kernel = (dev k (asked c)).2 ∧
      (∀ s : St Handle K, getOsData s i = some (create (lp64 l) al i c t) →
        ioctlReceive (lp64 l) parse s w' = (.ok (.data (delivered c (dev k (asked c)).1), i), w')) ∧
      ∀ s : St Handle K, getOsData s i = none → ioctlReceive (lp64 l) parse s w' = (.error .attribute, w') := by
  have hap := handle_apart l al i c t hsep
  have hb := hsep.2
  simp only [List.mem_cons, List.not_mem_nil, or_false, forall_eq_or_imp, forall_eq] at hb
  obtain ⟨-, hb2, hb3, hb4⟩ := hb
  have hf := create_fields l al i c t hidx hcdb hd ht hb2 hb3 hb4
  obtain ⟨hv, hpk, -, hsp⟩ := C18_linux l al i c t m hidx hcdb hd ht hsep
  have hdata : ∀ n cdb, c = .read cdb n → n > 0 → (create (lp64 l) al i c t).data = some (al.data, zeros n.toNat) := by
    intro n cdb hc hn
    rw [create_data, hc, bufOf, if_pos hn]
  have hcd := create_data (lp64 l) al i c t
  have hin := fun x d h => install_data hap m (x := x) (d := d) h
  have hib := install_block (create (lp64 l) al i c t) m
  have hba := create_blockAddr (lp64 l) al i c t
  generalize create (lp64 l) al i c t = h at *
  have hsend : ioctlSend (ioctlDevice l dev) h { world := { mem := m, kernel := k }, buffer := old } =
      (.ok (), ⟨⟨writeMem (writeMem (h.install m) (word l h.block 16 8) ((dev k (asked c)).1.data.take (asked c).fromDevice))
        al.sense ((dev k (asked c)).1.sense.take 255), (dev k (asked c)).2⟩, some h.block⟩) := by
    simp only [ioctlSend, ioctlDevice]
    rw [hv]
    simp only [hsp]
    cases c <;> rfl
  refine ⟨_, hsend, rfl, ?_⟩
  have e1 : sgStatus h.block = 0 := by rw [sgStatus, ← word_one l, word_lp64, hf.status]; rfl
  have e2 : sgHostStatus l h.block = 0 := by rw [sgHostStatus, word_lp64, hf.host]; rfl
  have e3 : sgDriverStatus l h.block = 0 := by rw [sgDriverStatus, word_lp64, hf.driver]; rfl
  have e4 : sgPackId l h.block = i := by rw [sgPackId, sword_lp64, hf.packId]
  generalize (dev k (asked c)).1 = ans at *
  generalize (dev k (asked c)).2 = k' at *
  obtain ⟨hp, -⟩ := hsep
  simp only [List.pairwise_cons, List.mem_cons, List.not_mem_nil, or_false, forall_eq_or_imp, forall_eq] at hp
  obtain ⟨⟨h1, h2, h3⟩, ⟨h4, h5⟩, h6, -⟩ := hp
  have hptr : word l h.block 16 8 = al.data ∨ (asked c).fromDevice = 0 := by
    rw [word_lp64, hf.dataPtr]
    cases c with
    | read cdb n =>
      by_cases hn : n > 0
      · left; simp [dirOf, hn]
      · right; simp only [asked]; omega
    | write cdb d => right; rfl
  have hM : ∃ M, M = writeMem (writeMem (h.install m) (word l h.block 16 8) (ans.data.take (asked c).fromDevice)) al.sense (ans.sense.take 255) ∧
      M = writeMem (writeMem (h.install m) al.data (ans.data.take (asked c).fromDevice)) al.sense (ans.sense.take 255) := by
    refine ⟨_, rfl, ?_⟩
    rcases hptr with hptr | hptr
    · rw [hptr]
    · rw [hptr]
      have hnil : ∀ x, writeMem (h.install m) x (ans.data.take 0) = h.install m := by
        intro x; exact writeMem_nil _ _
      rw [hnil, hnil]
  obtain ⟨M, hM1, hM2⟩ := hM
  rw [← hM1]
  have hfd : (asked c).fromDevice ≤ dataSize c := by
    cases c with
    | read cdb n => exact Nat.le_refl _
    | write cdb d => exact Nat.zero_le _
  have F2 : readMem M h.blockAddr 88 = h.block := by
    rw [hM2, readMem_writeMem_other (by rw [List.length_take]; omega), readMem_writeMem_other (by rw [List.length_take]; omega)]
    rw [← hf.len]; exact hib
  have F3 : ∀ cdb n, c = .read cdb n → n > 0 → readMem M al.data n.toNat = padded n.toNat ans.data := by
    intro cdb n hc hn
    rw [hM2, readMem_writeMem_other (by rw [List.length_take]; rw [hc] at h5; simp only [dataSize] at h5; omega), hc]
    apply readMem_padded
    have := hin al.data (zeros n.toNat) (hdata n cdb hc hn)
    rwa [zeros_length] at this
  have hsd := successData_eq l al i c t h M hf hcd F2
  have hdb : dataBack c M al.data = delivered c ans := by
    cases c with
    | read cdb n =>
      simp only [delivered, dataBack]
      by_cases hn : n > 0
      · rw [if_pos hn, if_pos hn, F3 cdb n rfl hn]
      · rw [if_neg hn, if_neg hn]
    | write cdb d => rfl
  constructor
  · intro s hs
    have hget : getOs s (i : Int) = some h := by simpa [getOs] using hs
    simp only [ioctlReceive]
    rw [handle_eq l parse _ _ _ (by rw [hf.len]; omega), e1, e2, e3, e4, hget, hsd, hdb]
    simp only [Nat.zero_and, ne_eq, not_true_eq_false, or_false, if_false, toRecv, Int.natCast_nonneg, if_true, Int.toNat_natCast]
  · intro s hs
    have hget : getOs s (i : Int) = none := by simpa [getOs] using hs
    simp only [ioctlReceive]
    rw [handle_eq l parse _ _ _ (by rw [hf.len]; omega), e1, e2, e3, e4, hget]
    simp only [Nat.zero_and, ne_eq, not_true_eq_false, or_false, if_false, toRecv, successData]

namespace Ahead
open Verif.Platform.Book

/-- What a callback gets. -/
abbrev Told (S : Type) := CbArgs (Option Bytes) (DevErr S)
/-- What `call` returns or raises. -/
abbrev Result (S : Type) := Except (Exn (DevErr S)) (Option (Option Bytes))

/-- The executer in its world. The callback of the `t`-th accepted command is called `some t`; `none` is `my_cb` of `call`. -/
structure Live (δ S : Type) where
  ex : St Handle (Option Nat)
  world : IoctlWorld δ
  next : Nat
  log : List (Pipeline.Ev (Told S) (Result S))

/-- An executer that was just made has no attribute `buffer`. -/
def Live.init (limit : Nat) (m : Mem) (k : δ) : Live δ S := ⟨St.init _ _ limit, ⟨⟨m, k⟩, none⟩, 0, []⟩

/-- What is seen of a callback. -/
def seen : Option Nat × Told S → List (Pipeline.Ev (Told S) (Result S))
  | (some t, a) => [.told t a]
  | (none, _) => []

/-- One thing the user does, with the methods of the executer doing the work: `send` (__init__.py:99-110), `call` (77-91), `wait` (112-114), on
`LinuxIoctlCommandExecuter` (linux.py:279-293). `alloc t` is the memory Python allocates for the request object of the `t`-th accepted command. -/
def Live.step (l : Bool) (parse : Bytes → Py (Option S)) (dev : Device δ) (alloc : Nat → Alloc) (timeout : Int) (s : Live δ S) :
    Pipeline.Op → Live δ S
  | .send c =>
    let r := Executer.send (prepare (lp64 l) (fun _ => alloc s.next) timeout c) (ioctlSend (ioctlDevice l dev)) (some (some s.next)) s.ex s.world
    match r.out with
    | .ok () => ⟨r.st, r.os, s.next + 1, s.log ++ [.accepted s.next]⟩
    | .error .nameError => ⟨r.st, r.os, s.next, s.log ++ [.refused]⟩
    | .error e => ⟨r.st, r.os, s.next, s.log ++ [.raised e]⟩
  | .call c =>
    let r := Executer.call (prepare (lp64 l) (fun _ => alloc s.next) timeout c) (ioctlSend (ioctlDevice l dev)) (ioctlReceive (lp64 l) parse) s.ex s.world
    match r.out with
    | .error (.py .nameError) => ⟨r.st, r.os, s.next, s.log ++ r.fired.flatMap seen ++ [.refused]⟩
    | o => ⟨r.st, r.os, s.next + 1, s.log ++ r.fired.flatMap seen ++ [.returned s.next o]⟩
  | .wait =>
    let r := Executer.wait (ioctlReceive (lp64 l) parse) s.ex s.world
    match r.out with
    | .ok () => ⟨r.st, r.os, s.next, s.log ++ r.fired.flatMap seen ++ [.waited]⟩
    | .error e => ⟨r.st, r.os, s.next, s.log ++ r.fired.flatMap seen ++ [.raised e]⟩

def Live.runFrom (l : Bool) (parse : Bytes → Py (Option S)) (dev : Device δ) (alloc : Nat → Alloc) (timeout : Int) (s : Live δ S)
    (ops : List Pipeline.Op) : Live δ S := ops.foldl (Live.step l parse dev alloc timeout) s

def Live.run (l : Bool) (parse : Bytes → Py (Option S)) (dev : Device δ) (alloc : Nat → Alloc) (timeout : Int) (limit : Nat) (m : Mem) (k : δ)
    (ops : List Pipeline.Op) : Live δ S := Live.runFrom l parse dev alloc timeout (Live.init limit m k) ops

/-- What a callback of this executer is told: the data, whatever status the device gave (C17). -/
def hear (c : Req) (ans : Answer) : Told S := ⟨some (delivered c ans), none⟩

/-- What `call` returns. -/
def ret (c : Req) (ans : Answer) : Result S := .ok (some (delivered c ans))

/-- Every command fits the request block and the memory it is given. -/
structure Fits (alloc : Nat → Alloc) (cmds : Req → Prop) : Prop where
  cdb : ∀ c, cmds c → c.cdb.length ≤ 255
  size : ∀ c, cmds c → dataSize c < 2 ^ 32
  one : ∀ c, cmds c → ∀ t, Separate 64 [((alloc t).block, 88), ((alloc t).sense, 255), ((alloc t).cmd, c.cdb.length), ((alloc t).data, dataSize c)]

/-! ## The executer and the ideal -/

section
variable (l : Bool) (parse : Bytes → Py (Option S)) (dev : Device δ) (alloc : Nat → Alloc) (timeout : Int) (limit : Nat)

/-- The outstanding commands, and what `self.buffer` is good for. -/
structure Rel (cb : Nat → Option Nat) (next : Nat) (items : List (Item Handle)) (ex : St Handle (Option Nat)) (w : IoctlWorld δ) : Prop where
  books : Books limit cb next items ex
  ready : ∀ x ∈ items, x.e.t + 1 = next → ∀ s : St Handle (Option Nat), getOsData s (x.e.t % limit) = some x.q →
    ioctlReceive (lp64 l) parse s w = (.ok (.data (delivered x.e.cmd x.e.ans), x.e.t % limit), w)
  stale : 0 < next → ∀ s : St Handle (Option Nat), getOsData s ((next - 1) % limit) = none → ioctlReceive (lp64 l) parse s w = (.error .attribute, w)

variable {l parse dev alloc timeout limit}
variable {cb : Nat → Option Nat} {next : Nat} {items : List (Item Handle)} {ex : St Handle (Option Nat)} {w : IoctlWorld δ}

theorem send_rel (ht : 0 ≤ timeout ∧ timeout < 2 ^ 32) (hl : limit ≤ 2 ^ 31) (hr : Rel l parse limit cb next items ex w) (hroom : items.length < limit)
    {c : Req} (hcdb : c.cdb.length ≤ 255) (hsize : dataSize c < 2 ^ 32)
    (hsep : Separate 64 [((alloc next).block, 88), ((alloc next).sense, 255), ((alloc next).cmd, c.cdb.length), ((alloc next).data, dataSize c)])
    (k : Option Nat) (hcb : cb next = k) :
    ∃ h ex' w', Executer.send (prepare (lp64 l) (fun _ => alloc next) timeout c) (ioctlSend (ioctlDevice l dev)) (some k) ex w = ⟨.ok (), ex', w'⟩ ∧
      w'.world.kernel = (dev w.world.kernel (asked c)).2 ∧
      Rel l parse limit cb (next + 1) (⟨⟨next, c, (dev w.world.kernel (asked c)).1⟩, h⟩ :: kept limit next items) ex' w' := by
  subst hcb
  have hm : next % limit < limit := Nat.mod_lt _ (by omega)
  obtain ⟨w', h1, h2, h3, h4⟩ := ioctl_sent (K := Option Nat) l parse dev (alloc next) (next % limit) timeout c w.world.mem w.world.kernel w.buffer
    (by omega) hcdb hsize ht hsep
  refine ⟨create (lp64 l) (alloc next) (next % limit) c timeout,
    { ex with index := (next + 1) % limit, pending := Dict.set ex.pending (next % limit) (create (lp64 l) (alloc next) (next % limit) c timeout, some (cb next)) },
    w', ?_, h2, hr.books.add hroom ⟨next, c, (dev w.world.kernel (asked c)).1⟩ rfl _, ?_, ?_⟩
  · unfold Executer.send nextPacketIndex
    rw [if_neg (by rw [hr.books.count, hr.books.maxq]; omega)]
    simp only [prepare, hr.books.index, hr.books.maxq, Nat.mod_add_mod]
    rw [show ioctlSend (ioctlDevice l dev) (create (lp64 l) (alloc next) (next % limit) c timeout) w = (.ok (), w') from h1]
  · intro x hx hn
    rcases List.mem_cons.1 hx with rfl | hx
    · exact h3
    · have := (hr.books.young x (mem_kept hx).1).1
      omega
  · intro _
    exact h4

/-- The queue is full. -/
theorem send_full (hr : Rel l parse limit cb next items ex w) (hfull : limit ≤ items.length) (c : Req) (al : Nat → Alloc) (k : Option Nat) :
    Executer.send (prepare (lp64 l) al timeout c) (ioctlSend (ioctlDevice l dev)) (some k) ex w = ⟨.error .nameError, ex, w⟩ := by
  unfold Executer.send nextPacketIndex
  rw [if_pos (by rw [hr.books.count, hr.books.maxq]; omega)]

/-- The answer to the command accepted last is processed. -/
theorem process_rel {x : Item Handle} (hr : Rel l parse limit cb next (x :: items) ex w) (hx : x.e.t + 1 = next) :
    ∃ ex', process (ioctlReceive (lp64 l) parse) ex w = ⟨.ok true, some (cb x.e.t, (hear x.e.cmd x.e.ans : Told S)), ex', w⟩ ∧
      Rel l parse limit cb next items ex' w := by
  refine ⟨{ ex with pending := Dict.erase ex.pending (x.e.t % limit) }, ?_, hr.books.pop, fun y hy => hr.ready y (List.mem_cons_of_mem _ hy), hr.stale⟩
  have hg : Dict.get ex.pending (x.e.t % limit) = some (x.q, some (cb x.e.t)) := (hr.books.pending _ _).2 ⟨x, by simp, rfl, rfl⟩
  unfold process
  rw [hr.ready x (by simp) hx ex hr.books.youngest]
  simp only [hg]
  rfl

/-- After that there is nothing to process any more. -/
theorem process_stale (hr : Rel l parse limit cb next items ex w) (hno : ∀ x ∈ items, x.e.t + 1 ≠ next) (hne : items ≠ []) :
    process (ioctlReceive (lp64 l) parse) ex w = (⟨.error .attribute, none, ex, w⟩ : ProcResult _ _ (Option Bytes) (DevErr S) _) := by
  have hn : 0 < next := by
    cases items with
    | nil => exact absurd rfl hne
    | cons x r => have := (hr.books.young x (by simp)).1; omega
  unfold process
  rw [hr.stale hn ex (hr.books.none hno hn)]

theorem wait_stale (hr : Rel l parse limit cb next items ex w) (hno : ∀ x ∈ items, x.e.t + 1 ≠ next) (hne : items ≠ []) :
    wait (ioctlReceive (lp64 l) parse) ex w = (⟨.error .attribute, [], ex, w⟩ : WaitResult _ _ (Option Bytes) (DevErr S) _) := by
  have hp := process_stale hr hno hne
  have hlen : items.length ≠ 0 := fun h => hne (List.eq_nil_of_length_eq_zero h)
  rw [wait, if_neg (by simp [isQueueEmpty, hr.books.count, hne])]
  split
  · rename_i e he
    rw [hp] at he ⊢
    cases he; rfl
  · rename_i v hv
    rw [hp] at hv; cases hv

/-- `wait`, as in the ideal. -/
theorem wait_rel (hr : Rel l parse limit some next items ex w) :
    ∃ ex' items' out fired, wait (ioctlReceive (lp64 l) parse) ex w = ⟨out, fired, ex', w⟩ ∧
      items'.map Item.e = (Latest.waiting (A := Told S) (R := Result S) hear next (items.map Item.e)).2 ∧
      fired.flatMap seen ++ [match out with | .ok () => .waited | .error e => .raised e] =
        (Latest.waiting (A := Told S) (R := Result S) hear next (items.map Item.e)).1 ∧
      Rel l parse limit some next items' ex' w := by
  cases items with
  | nil =>
    refine ⟨ex, [], .ok (), [], ?_, rfl, rfl, hr⟩
    rw [wait, if_pos (by simp [isQueueEmpty, hr.books.count])]
  | cons x items =>
    have hs := hr.books.sorted
    rw [List.pairwise_cons] at hs
    by_cases hx : x.e.t + 1 = next
    · have hno : ∀ y ∈ items, y.e.t + 1 ≠ next := fun y hy => by have := hs.1 y hy; omega
      obtain ⟨ex1, h1, h2⟩ := process_rel hr hx
      have hw : wait (ioctlReceive (lp64 l) parse) ex w =
          ⟨(wait (ioctlReceive (lp64 l) parse) ex1 w).out, (some x.e.t, (hear x.e.cmd x.e.ans : Told S)) :: (wait (ioctlReceive (lp64 l) parse) ex1 w).fired,
            (wait (ioctlReceive (lp64 l) parse) ex1 w).st, (wait (ioctlReceive (lp64 l) parse) ex1 w).os⟩ := by
        rw [wait, if_neg (by simp [isQueueEmpty, hr.books.count])]
        split
        · rename_i e he
          rw [h1] at he; cases he
        · simp only [h1]
          rfl
      by_cases he : items = []
      · subst he
        have hw2 : wait (ioctlReceive (lp64 l) parse) ex1 w = (⟨.ok (), [], ex1, w⟩ : WaitResult _ _ (Option Bytes) (DevErr S) _) := by
          rw [wait, if_pos (by simp [isQueueEmpty, h2.books.count])]
        rw [hw2] at hw
        refine ⟨ex1, [], .ok (), [(some x.e.t, hear x.e.cmd x.e.ans)], hw, ?_, ?_, h2⟩
        · simp [Latest.waiting, hx]
        · simp [Latest.waiting, hx, seen]
      · rw [wait_stale h2 hno he] at hw
        refine ⟨ex1, items, .error .attribute, [(some x.e.t, hear x.e.cmd x.e.ans)], hw, ?_, ?_, h2⟩
        · simp [Latest.waiting, hx]
        · simp [Latest.waiting, hx, seen, he]
    · have hno : ∀ y ∈ x :: items, y.e.t + 1 ≠ next := by
        intro y hy
        rcases List.mem_cons.1 hy with rfl | hy
        · exact hx
        · have := hs.1 y hy
          have := (hr.books.young x (by simp)).1
          omega
      refine ⟨ex, x :: items, .error .attribute, [], wait_stale hr hno (by simp), ?_, ?_, hr⟩
      · simp [Latest.waiting, hx]
      · simp [Latest.waiting, hx]

/-- `call` gets the data of its own command. -/
theorem call_rel (ht : 0 ≤ timeout ∧ timeout < 2 ^ 32) (hl : limit ≤ 2 ^ 31) (hr : Rel l parse limit some next items ex w) (hroom : items.length < limit)
    {c : Req} (hcdb : c.cdb.length ≤ 255) (hsize : dataSize c < 2 ^ 32)
    (hsep : Separate 64 [((alloc next).block, 88), ((alloc next).sense, 255), ((alloc next).cmd, c.cdb.length), ((alloc next).data, dataSize c)]) :
    ∃ ex' w', Executer.call (prepare (lp64 l) (fun _ => alloc next) timeout c) (ioctlSend (ioctlDevice l dev)) (ioctlReceive (lp64 l) parse) ex w =
        ⟨(ret c (dev w.world.kernel (asked c)).1 : Result S), [], ex', w'⟩ ∧
      w'.world.kernel = (dev w.world.kernel (asked c)).2 ∧ Rel l parse limit some (next + 1) (kept limit next items) ex' w' := by
  have hne : ∀ x ∈ items, x.e.t ≠ next := fun x hx => by have := (hr.books.young x hx).1; omega
  have hr' : Rel l parse limit (fun t => if t = next then none else some t) next items ex w :=
    ⟨hr.books.cb_congr (fun x hx => by simp [hne x hx]), hr.ready, hr.stale⟩
  obtain ⟨h, ex1, w1, h1, h2, h3⟩ := send_rel (alloc := alloc) (dev := dev) ht hl hr' hroom hcdb hsize hsep none (by simp)
  obtain ⟨ex2, h4, h5⟩ := process_rel h3 rfl
  refine ⟨ex2, w1, ?_, h2, h5.books.cb_congr (fun x hx => by simp [hne x (mem_kept hx).1]), h5.ready, h5.stale⟩
  simp only [if_true] at h4
  unfold Executer.call
  simp only [h1]
  rw [callLoop]
  split
  · rename_i e he
    rw [h4] at he
    cases he
  · simp only [h4, hear]
    rfl

/-- The executer and the ideal, step by step. -/
structure Inv (l : Bool) (parse : Bytes → Py (Option S)) (limit : Nat) (s : Live δ S) (i : Pipeline.State δ (Told S) (Result S)) : Prop where
  next : s.next = i.next
  log : s.log = i.log
  dev : s.world.world.kernel = i.dev
  rel : ∃ items : List (Item Handle), items.map Item.e = i.out ∧ Rel l parse limit some i.next items s.ex s.world

theorem inv_init (m : Mem) (k : δ) : Inv l parse limit (Live.init (S := S) limit m k) (Pipeline.State.init k) :=
  ⟨rfl, rfl, rfl, [], rfl, Books.init limit some, by simp, fun h => absurd h (Nat.lt_irrefl 0)⟩

theorem keep_items {i : Pipeline.State δ (Told S) (Result S)} {items : List (Item Handle)} (h : items.map Item.e = i.out) :
    (kept limit i.next items).map Item.e = Pipeline.keep limit i := by
  unfold Pipeline.keep kept
  rw [← h, List.filter_map]
  rfl

theorem inv_step {cmds : Req → Prop} (hfit : Fits alloc cmds) (ht : 0 ≤ timeout ∧ timeout < 2 ^ 32) (hl : limit ≤ 2 ^ 31) {s : Live δ S}
    {i : Pipeline.State δ (Told S) (Result S)} (h : Inv l parse limit s i) (op : Pipeline.Op) (hop : Pipeline.Gives cmds op) :
    Inv l parse limit (Live.step l parse dev alloc timeout s op) (Latest.step dev limit hear ret i op) := by
  obtain ⟨hn, hlog, hdev, items, hit, hrel⟩ := h
  have hlen : i.out.length = items.length := by rw [← hit, List.length_map]
  cases op with
  | send c =>
    by_cases hfull : limit ≤ items.length
    · have hs := send_full (dev := dev) (timeout := timeout) hrel hfull c (fun _ => alloc i.next) (some i.next)
      simp only [Live.step, Latest.step, Pipeline.step, hn, hs, hlen, if_pos hfull]
      exact ⟨rfl, by rw [hlog], hdev, items, hit, hrel⟩
    · obtain ⟨h, ex', w', h1, h2, h3⟩ := send_rel (alloc := alloc) (dev := dev) ht hl hrel (by omega) (hfit.cdb c hop) (hfit.size c hop)
        (hfit.one c hop i.next) (some i.next) rfl
      simp only [Live.step, Latest.step, Pipeline.step, hn, h1, hlen, if_neg hfull]
      rw [hdev] at h2 h3
      exact ⟨rfl, by rw [hlog], h2, _, by rw [List.map_cons, keep_items hit], h3⟩
  | call c =>
    by_cases hfull : limit ≤ items.length
    · have hs := send_full (dev := dev) (timeout := timeout) hrel hfull c (fun _ => alloc i.next) none
      have hc : Executer.call (prepare (lp64 l) (fun _ => alloc i.next) timeout c) (ioctlSend (ioctlDevice l dev)) (ioctlReceive (lp64 l) parse) s.ex s.world =
          ⟨.error (.py .nameError), [], s.ex, s.world⟩ := by
        unfold Executer.call
        simp only [hs]
      simp only [Live.step, Latest.step, Pipeline.step, hn, hc, hlen, if_pos hfull]
      exact ⟨rfl, by simp [hlog], hdev, items, hit, hrel⟩
    · obtain ⟨ex', w', h1, h2, h3⟩ := call_rel (alloc := alloc) (dev := dev) ht hl hrel (by omega) (hfit.cdb c hop) (hfit.size c hop)
        (hfit.one c hop i.next)
      simp only [Live.step, Latest.step, Pipeline.step, hn, h1, hlen, if_neg hfull]
      rw [hdev] at h2 ⊢
      exact ⟨rfl, by simp [hlog, ret], h2, _, keep_items hit, h3⟩
  | wait =>
    obtain ⟨ex', items', out, fired, h1, h2, h3, h4⟩ := wait_rel hrel
    rw [hit] at h2 h3
    simp only [Live.step, Latest.step, h1]
    rw [← h3]
    cases out with
    | ok u => exact ⟨hn, by simp [hlog], hdev, items', h2, h4⟩
    | error e => exact ⟨hn, by simp [hlog], hdev, items', h2, h4⟩

theorem inv_run {cmds : Req → Prop} (hfit : Fits alloc cmds) (ht : 0 ≤ timeout ∧ timeout < 2 ^ 32) (hl : limit ≤ 2 ^ 31) (ops : List Pipeline.Op)
    (hops : ∀ op ∈ ops, Pipeline.Gives cmds op) (s : Live δ S) (i : Pipeline.State δ (Told S) (Result S)) (h : Inv l parse limit s i) :
    Inv l parse limit (Live.runFrom l parse dev alloc timeout s ops) (Latest.runFrom dev limit hear ret i ops) := by
  induction ops generalizing s i with
  | nil => exact h
  | cons op ops ih =>
    exact ih (fun o ho => hops o (List.mem_cons_of_mem _ ho)) _ _ (inv_step hfit ht hl h op (hops op List.mem_cons_self))

end

end Ahead
end Linux
end Verif.Platform
