import Verif.Props.LinuxDevice
import Verif.Platform.PacketZero
import Verif.Unix
set_option linter.unusedSimpArgs false
/-!
# C94: the number of the descriptor a device is opened with makes no difference

Only the sg executer polls with `select`. Below `FD_SETSIZE` it is C52; from there on every command is carried out and none is answered.
-/

namespace Verif.Platform.Linux
open Verif.Executer Verif.Spec

variable {S κ δ K : Type}

/-- The sg driver as used through a `UnixFile` with descriptor `fd` (unix.py:15-27): `write` passes the block on, `read` polls first. The device answers in time (when it
does not is C24 and C73). -/
def viaFile (fd : Nat) (k : SgDriver κ) : SgDriver κ where
  write := k.write
  read n w := if fd < Unix.fdSetSize then k.read n w else (.error .valueError, w)

/-- What `read` of the file does is what `Unix.ReadsFd` says, for a device that has an answer when it is polled for the first time. -/
theorem viaFile_read (fd : Nat) (k : SgDriver κ) (n : Nat) (w : World κ) (env : Unix.Env) (timeout : Int) (hr : env.ready 0 = true)
    (ho : env.osRead 0 = (k.read n w).1) : Unix.ReadsFd fd env timeout ((viaFile fd k).read n w).1 0 := by
  unfold Unix.ReadsFd viaFile
  by_cases h : fd < Unix.fdSetSize
  · simp only [h, if_true]
    exact ⟨1, by simp [Unix.pollLoop, hr, ho]⟩
  · simp [h]

/-- The commands the sg driver can take, with buffers anywhere in memory. -/
def SgFits (alloc : Nat → Alloc) (c : Req) : Prop :=
  c.cdb.length ≤ 255 ∧ dataSize c < 2 ^ 32 ∧ ∀ i, Separate 64 [((alloc i).block, 88), ((alloc i).sense, 255), ((alloc i).cmd, c.cdb.length), ((alloc i).data, dataSize c)]

/-- C94 for descriptors below 1024: a session is as C52 says, the descriptor does not matter. Missing: the other descriptors, `C94_false`. -/
theorem C94_partial (fd : Nat) (hfd : fd < 1024) (l : Bool) (parse : Bytes → Py (Option S)) (dev : Device δ) (alloc : Nat → Alloc) (t : Int) (cs : List Req)
    (n : Nat) (m : Mem) (k : δ) (hparse : ∀ k q, (dev k q).1.status.toNat / 2 % 2 = 1 → ∃ sn, parse (padded 255 (dev k q).1.sense) = .ok sn)
    (hn : 0 < n) (hmax : n ≤ 2 ^ 31) (ht : 0 ≤ t ∧ t < 2 ^ 32) (hcs : ∀ c ∈ cs, SgFits alloc c) :
    runSg l parse (viaFile fd (sgDevice l dev)) alloc t cs (St.init Handle (Option K) n) { mem := m, kernel := (k, none) } = expected parse dev cs k := by
  have : viaFile fd (sgDevice l dev) = sgDevice l dev := by
    simp [viaFile, Unix.fdSetSize, hfd]
  rw [this]
  exact C52_session l parse dev alloc t cs _ m k none hparse rfl hn hmax hn ht hcs

/-- The device carried out these commands, in this order. -/
def after (dev : Device δ) (k : δ) (cs : List Req) : δ := cs.foldl (fun k c => (dev k (asked c)).2) k

/-- A state in which `i` commands are outstanding and nothing was ever answered. -/
structure Stuck (n i : Nat) (s : St Handle (Option K)) : Prop where
  len : s.pending.length = i
  keys : ∀ j, i ≤ j → Dict.get s.pending j = none
  index : s.index = i % n
  maxq : s.maxq = n

theorem dict_set_length {α : Type} (d : Dict α) (k : Nat) (v : α) (h : Dict.get d k = none) : (Dict.set d k v).length = d.length + 1 := by
  induction d with
  | nil => rfl
  | cons p r ih =>
    obtain ⟨k', v'⟩ := p
    simp only [Dict.get] at h
    by_cases hk : k' = k
    · simp [hk] at h
    · simp only [hk, if_false] at h
      simp [Dict.set, hk, ih h]

theorem dict_set_other {α : Type} (d : Dict α) (k j : Nat) (v : α) (h : j ≠ k) : Dict.get (Dict.set d k v) j = Dict.get d j := by
  induction d with
  | nil => simp [Dict.set, Dict.get, Ne.symm h]
  | cons p r ih =>
    obtain ⟨k', v'⟩ := p
    by_cases hk : k' = k
    · subst hk; simp [Dict.set, Dict.get, Ne.symm h]
    · by_cases hj : k' = j
      · subst hj; simp [Dict.set, Dict.get, hk]
      · simp [Dict.set, Dict.get, hk, hj, ih]

/-- A call with room in the queue: the device carries the command out, the caller gets a `ValueError`, the command stays in the queue. -/
theorem stuck_call (fd : Nat) (hfd : 1024 ≤ fd) (l : Bool) (parse : Bytes → Py (Option S)) (dev : Device δ) (alloc : Nat → Alloc) (t : Int) (ht : 0 ≤ t ∧ t < 2 ^ 32)
    (c : Req) (hc : SgFits alloc c) (n i : Nat) (hi : i < n) (hmax : n ≤ 2 ^ 31) (s : St Handle (Option K)) (hs : Stuck n i s) (w : World (δ × Option Bytes)) :
    let r := call (prepare (lp64 l) alloc t c) (sgSend (viaFile fd (sgDevice l dev))) (sgReceive (lp64 l) parse (viaFile fd (sgDevice l dev))) s w
    r.out = .error (.py .valueError) ∧ Stuck n (i + 1) r.st ∧ r.os.kernel.1 = (dev w.kernel.1 (asked c)).2 := by
  obtain ⟨hcdb, hd, hsep⟩ := hc
  obtain ⟨hlen, hkeys, hidx, hmq⟩ := hs
  have hidx' : s.index = i := by rw [hidx, Nat.mod_eq_of_lt hi]
  have hv := (C18_linux l (alloc i) i c t w.mem (by omega) hcdb hd ht (hsep i)).1
  have hnext : nextPacketIndex s = .ok (i, { s with index := (i + 1) % n }) := by
    simp only [nextPacketIndex, hlen, hmq, hidx']
    rw [if_neg (by omega)]
  have hread : ∀ (k : Nat) (w : World (δ × Option Bytes)), (viaFile fd (sgDevice l dev)).read k w = (.error .valueError, w) := by
    intro k w
    simp only [viaFile, Unix.fdSetSize]
    exact if_neg (by omega)
  intro r
  have hr : r = call (prepare (lp64 l) alloc t c) (sgSend (viaFile fd (sgDevice l dev))) (sgReceive (lp64 l) parse (viaFile fd (sgDevice l dev))) s w := rfl
  clear_value r
  simp only [call, send, hnext, prepare] at hr
  generalize create (lp64 l) (alloc i) i c t = h at *
  have hsend : ∃ w', sgSend (viaFile fd (sgDevice l dev)) h w = (.ok (), w') ∧ w'.kernel.1 = (dev w.kernel.1 (asked c)).2 := by
    simp only [sgSend, viaFile, sgDevice]
    rw [hv]
    exact ⟨_, rfl, rfl⟩
  obtain ⟨w', hw, hk⟩ := hsend
  rw [hw] at hr
  simp only at hr
  have hproc : ∀ s' : St Handle (Option K), process (sgReceive (lp64 l) parse (viaFile fd (sgDevice l dev))) s' w' = ⟨.error .valueError, none, s', w'⟩ := by
    intro s'
    simp [process, sgReceive, hread]
  rw [callLoop] at hr
  split at hr
  · rename_i e he
    rw [hproc] at hr he
    simp only at he hr
    cases he
    rw [hr]
    refine ⟨rfl, ⟨?_, ?_, rfl, hmq⟩, hk⟩
    · simp only
      rw [dict_set_length _ _ _ (hkeys i (Nat.le_refl i)), hlen]
    · intro j hj
      simp only
      rw [dict_set_other _ _ _ _ (by omega)]
      exact hkeys j (by omega)
  · rename_i b he
    rw [hproc] at he
    cases he

/-- A call when the queue is full of them. -/
theorem full_call (k : SgDriver κ) (l : Bool) (parse : Bytes → Py (Option S)) (alloc : Nat → Alloc) (t : Int)
    (c : Req) (n : Nat) (s : St Handle (Option K)) (hs : Stuck n n s) (w : World κ) :
    call (prepare (lp64 l) alloc t c) (sgSend k) (sgReceive (lp64 l) parse k) s w = ⟨.error (.py .nameError), [], s, w⟩ := by
  have : nextPacketIndex s = .error .nameError := by
    simp only [nextPacketIndex, hs.len, hs.maxq]
    rw [if_pos (Nat.le_refl n)]
  simp [call, send, this]

theorem stuck_calls (fd : Nat) (hfd : 1024 ≤ fd) (l : Bool) (parse : Bytes → Py (Option S)) (dev : Device δ) (alloc : Nat → Alloc) (t : Int) (ht : 0 ≤ t ∧ t < 2 ^ 32)
    (n : Nat) (hmax : n ≤ 2 ^ 31) (cs : List Req) : ∀ (i : Nat) (s : St Handle (Option K)) (w : World (δ × Option Bytes)), i ≤ n → Stuck n i s → (∀ c ∈ cs, SgFits alloc c) →
    let r := calls (prepare (lp64 l) alloc t) (sgSend (viaFile fd (sgDevice l dev))) (sgReceive (lp64 l) parse (viaFile fd (sgDevice l dev))) cs s w
    (∀ j, j < cs.length → r.1[j]? = some (.error (.py (if i + j < n then .valueError else .nameError)))) ∧ r.1.length = cs.length ∧
    r.2.kernel.1 = after dev w.kernel.1 (cs.take (n - i)) := by
  induction cs with
  | nil => intro i s w _ _ _; simp [calls, after]
  | cons c cs ih =>
    intro i s w hi hs hcs
    simp only [calls]
    rcases Nat.lt_or_ge i n with hlt | hge
    · obtain ⟨h1, h2, h3⟩ := stuck_call fd hfd l parse dev alloc t ht c (hcs c (List.mem_cons_self ..)) n i hlt hmax s hs w
      generalize call (prepare (lp64 l) alloc t c) (sgSend (viaFile fd (sgDevice l dev))) (sgReceive (lp64 l) parse (viaFile fd (sgDevice l dev))) s w = r at *
      obtain ⟨g1, g2, g3⟩ := ih (i + 1) r.st r.os (by omega) h2 (fun c' hc' => hcs c' (List.mem_cons_of_mem _ hc'))
      refine ⟨?_, by simp [g2], ?_⟩
      · intro j hj
        cases j with
        | zero => simp [h1, hlt]
        | succ j =>
          rw [List.getElem?_cons_succ, g1 j (by simpa using hj)]
          rw [show i + 1 + j = i + (j + 1) by omega]
      · rw [g3, h3, show n - i = (n - (i + 1)) + 1 by omega]
        rfl
    · have hin : i = n := by omega
      subst hin
      rw [full_call _ l parse alloc t c i s hs w]
      obtain ⟨g1, g2, g3⟩ := ih i s w hi hs (fun c' hc' => hcs c' (List.mem_cons_of_mem _ hc'))
      refine ⟨?_, by simp [g2], ?_⟩
      · intro j hj
        cases j with
        | zero => simp
        | succ j =>
          rw [List.getElem?_cons_succ, g1 j (by simpa using hj), if_neg (by omega), if_neg (by omega)]
      · simp only
        rw [g3, Nat.sub_self]
        rfl

/-- **C94 is false from descriptor 1024 on**, for every device, every queue size and every sequence of commands: as many commands as the queue has room for are carried out,
and each of the calls raises `ValueError`; all later ones raise `NameError`, and the device is not asked. Nothing is ever answered. -/
theorem C94_false (fd : Nat) (hfd : 1024 ≤ fd) (l : Bool) (parse : Bytes → Py (Option S)) (dev : Device δ) (alloc : Nat → Alloc) (t : Int) (ht : 0 ≤ t ∧ t < 2 ^ 32)
    (n : Nat) (hmax : n ≤ 2 ^ 31) (cs : List Req) (hcs : ∀ c ∈ cs, SgFits alloc c) (m : Mem) (k : δ) :
    let r := calls (prepare (lp64 l) alloc t) (sgSend (viaFile fd (sgDevice l dev))) (sgReceive (lp64 l) parse (viaFile fd (sgDevice l dev))) cs
      (St.init Handle (Option K) n) { mem := m, kernel := (k, none) }
    (∀ j, j < cs.length → r.1[j]? = some (.error (.py (if j < n then .valueError else .nameError)))) ∧
    r.2.kernel.1 = after dev k (cs.take n) := by
  intro r
  obtain ⟨h1, -, h3⟩ := stuck_calls (K := K) fd hfd l parse dev alloc t ht n hmax cs 0 (St.init Handle (Option K) n) { mem := m, kernel := (k, none) } (Nat.zero_le n)
    ⟨rfl, fun _ _ => rfl, by simp [St.init], rfl⟩ hcs
  refine ⟨?_, by simpa using h3⟩
  intro j hj
  simpa using h1 j hj

/-- Buffers for fifteen commands, apart from each other. -/
def slots (i : Nat) : Alloc :=
  { block := 4096 * (i % 15) + 4096, sense := 4096 * (i % 15) + 4352, cmd := 4096 * (i % 15) + 4864, data := 4096 * (i % 15) + 5376 }

/-- A write of four bytes. -/
def someWrite : Req := .write [0x2A, 0, 0, 0, 0, 0, 0, 0, 1, 0] [1, 2, 3, 4]

/-- A device that counts what it is asked. -/
def counter : Device Nat := fun k _ => (⟨0, [], []⟩, k + 1)

theorem someWrite_fits : SgFits slots someWrite := by
  refine ⟨by decide, by decide, ?_⟩
  intro i
  refine ⟨by simp [dataSize, Req.cdb, slots, someWrite], ?_⟩
  simp [slots]
  omega

theorem after_counter (cs : List Req) (k : Nat) : after counter k cs = k + cs.length := by
  induction cs generalizing k with
  | nil => rfl
  | cons c cs ih =>
    have := ih (k + 1)
    simp only [after, List.foldl_cons, List.length_cons] at *
    rw [show (counter k (asked c)).2 = k + 1 from rfl, this]
    omega

/-- Twenty writes through descriptor 1024, with the default queue size: the device has carried out fifteen. -/
example (m : Mem) (parse : Bytes → Py (Option S)) :
    (calls (prepare (lp64 true) slots 30000) (sgSend (viaFile 1024 (sgDevice true counter))) (sgReceive (lp64 true) parse (viaFile 1024 (sgDevice true counter)))
      (List.replicate 20 someWrite) (St.init Handle (Option Unit) 15) { mem := m, kernel := (0, none) }).2.kernel.1 = 15 := by
  have h := (C94_false (K := Unit) 1024 (Nat.le_refl _) true parse counter slots 30000 (by decide) 15 (by decide) (List.replicate 20 someWrite)
    (fun c hc => List.eq_of_mem_replicate hc ▸ someWrite_fits) m 0).2
  rw [h, after_counter]
  simp

end Verif.Platform.Linux
