import Verif.Spec.Aborted
import Verif.Props.Patient
/-!
# C105: commands repeated after they were aborted
-/
set_option linter.unusedSimpArgs false
set_option linter.unusedSectionVars false

namespace Verif.Commands.Clients.Aborted

open Verif.Executer Verif.Coroutine Verif.ExecuterGen Verif.Platform Verif.Spec Verif.Spec.Cdb Verif.Sense Verif.Spec.Disk Verif.Spec.Aborted
open Verif.Spec.Patient (patient)

variable {K T σ A A' : Type}

/-- In the manner of

    except AsiCheckConditionError as e:
        if e.sense_obj.sense_key == 'ABORTED_COMMAND':
            continue
-/
def isAborted : Seen → Bool
  | .error (.dev (.checkCondition _ (some s))) => s.key == "ABORTED_COMMAND"
  | _ => false

theorem aborted_shown {r : Seen} {asc ascq : Nat} (h : Shows r (.failed 0x0B asc ascq)) : isAborted r = true := by
  obtain ⟨raw, s, rfl, hs⟩ := h
  simp only [isAborted, hs.1]
  rfl

/-- The disk itself does not abort commands. -/
theorem other_shown {g : Geometry} {m : Contents} {op : Op} {r : Seen} (h : Shows r (op.run g m).1) : isAborted r = false := by
  have key : ∀ key asc ascq, (op.run g m).1 = .failed key asc ascq → key = 5 ∨ key = 0x0E := by
    intro key asc ascq
    cases op <;> simp only [Op.run] <;> (try split) <;> (try split) <;> simp <;> omega
  generalize hx : (op.run g m).1 = x at h key
  cases x with
  | failed k a q =>
    obtain ⟨raw, s, rfl, hs⟩ := h
    simp only [isAborted, hs.1]
    rcases key k a q rfl with rfl | rfl <;> decide
  | capacity => obtain ⟨_, rfl, -⟩ := h; rfl
  | ready => rw [show r = _ from h]; rfl
  | data => rw [show r = _ from h]; rfl
  | done => rw [show r = _ from h]; rfl

theorem partly_self (g : Geometry) (which : Nat → Bool) (m : Contents) : partly g which m m = m := by
  funext x; simp only [partly, ite_self]

/-- However far an operation came, carrying it out afterwards is carrying it out. -/
theorem run_again (g : Geometry) (which : Nat → Bool) (m : Contents) {op : Op} (h : Again op) : op.run g (partly g which m (op.run g m).2) = op.run g m := by
  have over : ∀ a bs, writeAt (partly g which m (writeAt m a bs)) a bs = writeAt m a bs := by
    intro a bs
    funext x
    simp only [writeAt, partly]
    by_cases hx : a ≤ x ∧ x < a + bs.length
    · simp only [hx, and_self, if_true]
    · simp only [hx, if_false, ite_self]
  cases op with
  | ready => simp only [Op.run, partly_self]
  | capacity => simp only [Op.run, partly_self]
  | bigCapacity => simp only [Op.run, partly_self]
  | read lba n => by_cases hi : lba + n ≤ g.blocks <;> simp only [Op.run, hi, if_true, if_false, partly_self]
  | write lba data => by_cases hi : lba + data.length / g.size ≤ g.blocks <;> simp only [Op.run, hi, if_true, if_false, partly_self, over]
  | fill lba n block => by_cases hi : lba + n ≤ g.blocks <;> simp only [Op.run, hi, if_true, if_false, partly_self, over]
  | exchange => exact h.elim
  | discard ranges =>
    by_cases hi : inside g ranges = true
    · simp only [Op.run, hi, if_true, Prod.mk.injEq, true_and]
      funext x
      simp only [Disk.discard, partly]
      split
      · rfl
      · simp only [ite_self]
    · simp only [Op.run, hi, if_false, Bool.false_eq_true, partly_self]

section direct

variable {out : Req → Answer → Except (Exn (DevErr Sense)) (Option (Option Bytes))} (L : Lib) (B : Parse.BufLib) (other : Bytes → Py (List (String × Int)))
  {g : Geometry} (hg : Valid g) (hD : Delivers out)
include hg hD

/-- One command. -/
theorem flaky_direct {c : Cmd} {op : Op} (h : Asks g c op) (s : State) :
    (s.faults.headD none = none ∧ ∃ r : Seen, Direct (flaky g) out (c.command L B other) s r ⟨(op.run g s.contents).2, s.faults.tail⟩ ∧ Shows r (op.run g s.contents).1 ∧ isAborted r = false) ∨
    ∃ f, s.faults = some f :: s.faults.tail ∧
      ∃ r : Seen, Direct (flaky g) out (c.command L B other) s r ⟨partly g f.which s.contents (op.run g s.contents).2, s.faults.tail⟩ ∧ isAborted r = true := by
  obtain ⟨q, hq, hm, hs⟩ := step L B other s.contents hg hD h
  cases hf : s.faults.headD none with
  | none =>
    refine .inl ⟨rfl, _, ?_, hs, other_shown hs⟩
    simp only [Clients.Direct, askAll, hq, flaky, hf, hm]
  | some f =>
    refine .inr ⟨f, ?_, decoded (c.command L B other) (out q (failed 0x0B f.asc.toNat f.ascq.toNat)), ?_, aborted_shown (asc := f.asc.toNat) (ascq := f.ascq.toNat) ?_⟩
    · cases h : s.faults with
      | nil => rw [h] at hf; cases hf
      | cons a as => rw [h] at hf; rw [show a = some f from hf]; rfl
    · simp only [Clients.Direct, askAll, hq, flaky, hf, hm]
    · obtain ⟨raw, sn, e, hsn⟩ := hD.fails q 0x0B f.asc.toNat f.ascq.toNat (by decide) f.asc.toNat_lt f.ascq.toNat_lt
      exact ⟨raw, sn, by rw [e]; rfl, hsn⟩

/-- The attempts at one command. -/
theorem attempts {p : Client σ Cmd Seen A} {ok : σ → Prop} {s : σ} (ho : ok s) {op : Op} (hask : Asks g (p.ask s) op) (ha : Again op) : ∀ (fs : List (Option Fault)) (m : Contents),
    ∃ (fs' : List (Option Fault)) (j : Nat) (r : Seen), fs' = fs.drop (j + 1) ∧ ahead fs = j + ahead fs' ∧ Shows r (op.run g m).1 ∧
      (∀ a, p.next s r = .inr a → (on L B other (patient isAborted p)).Runs ok (Direct (flaky g) out) s ⟨m, fs⟩ a ⟨(op.run g m).2, fs'⟩ (j + 1)) ∧
      ∀ s' a k n, p.next s r = .inl s' → (on L B other (patient isAborted p)).Runs ok (Direct (flaky g) out) s' ⟨(op.run g m).2, fs'⟩ a k n →
        (on L B other (patient isAborted p)).Runs ok (Direct (flaky g) out) s ⟨m, fs⟩ a k (n + j + 1) := by
  intro fs
  induction fs with
  | nil =>
    intro m
    rcases flaky_direct L B other hg hD hask ⟨m, []⟩ with ⟨-, r, h1, h2, h3⟩ | ⟨f, h, -⟩
    · refine ⟨[], 0, r, rfl, rfl, h2, fun a h => .done ho h1 ?_, fun s' a k n h h' => .more ho h1 ?_ h'⟩ <;>
      · show (if isAborted r then _ else _) = _
        rw [h3]
        exact h
    · cases h
  | cons x fs ih =>
    intro m
    rcases flaky_direct L B other hg hD hask ⟨m, x :: fs⟩ with ⟨hx, r, h1, h2, h3⟩ | ⟨f, hx, r, h1, h2⟩
    · rw [show x = none from hx]
      rw [show x = none from hx] at h1
      refine ⟨fs, 0, r, rfl, by simp [ahead], h2, fun a h => .done ho h1 ?_, fun s' a k n h h' => .more ho h1 ?_ h'⟩ <;>
      · show (if isAborted r then _ else _) = _
        rw [h3]
        exact h
    · rw [show x = some f from (List.cons.inj hx).1]
      rw [show x = some f from (List.cons.inj hx).1] at h1
      obtain ⟨fs', j, r', hdrop, h3, h4, h5, h6⟩ := ih (partly g f.which m (op.run g m).2)
      rw [run_again g f.which m ha] at h4 h5 h6
      have hnext : (on L B other (patient isAborted p)).next s r = .inl s := by
        show (if isAborted r then _ else _) = _
        rw [h2]; rfl
      refine ⟨fs', j + 1, r', hdrop, ?_, h4, fun a h => .more ho h1 hnext (h5 a h), fun s' a k n h h' => .more ho h1 hnext (h6 s' a k n h h')⟩
      rw [show ahead (some f :: fs) = ahead fs + 1 from by simp [ahead], h3]
      omega

theorem repeated_direct {p : Client σ Cmd Seen A} {q : Client σ Op Reply A'} {ok : σ → Prop} {Rel : A → A' → Prop} (hask : ∀ s, ok s → Asks g (p.ask s) (q.ask s))
    (hagain : ∀ s, ok s → Again (q.ask s)) (hnext : ∀ s r reply, ok s → Shows r reply → Along Rel (p.next s r) (q.next s reply)) {s : σ} {m m' : Contents} {a' : A'} {n : Nat}
    (h : q.Runs ok (OnArray g) s m a' m' n) : ∀ fs : List (Option Fault), ∃ a fs' j, Rel a a' ∧ fs' = fs.drop (n + j) ∧ ahead fs = j + ahead fs' ∧
      (on L B other (patient isAborted p)).Runs ok (Direct (flaky g) out) s ⟨m, fs⟩ a ⟨m', fs'⟩ (n + j) := by
  induction h with
  | @done s m reply m' a' ho hd hn =>
    intro fs
    obtain ⟨fs', j, r, h0, h1, h2, h3, -⟩ := attempts L B other hg hD (p := p) ho (hask s ho) (hagain s ho) fs m
    rw [OnArray] at hd
    rw [hd] at h2 h3
    have h5 := hnext s r reply ho h2
    rw [hn] at h5
    cases hp : p.next s r with
    | inl s' => rw [hp] at h5; exact h5.elim
    | inr a => rw [hp] at h5; exact ⟨a, fs', j, h5, by rw [Nat.add_comm]; exact h0, h1, by rw [Nat.add_comm]; exact h3 a hp⟩
  | @more s m reply m' s' a' m'' n ho hd hn _ ih =>
    intro fs
    obtain ⟨fs', j, r, h0, h1, h2, -, h3⟩ := attempts L B other hg hD (p := p) ho (hask s ho) (hagain s ho) fs m
    rw [OnArray] at hd
    rw [hd] at h2 h3
    have h5 := hnext s r reply ho h2
    rw [hn] at h5
    cases hp : p.next s r with
    | inl s1 =>
      rw [hp] at h5
      obtain ⟨a, fs'', i, h6, h9, h7, h8⟩ := ih fs'
      refine ⟨a, fs'', i + j, h6, ?_, by omega, ?_⟩
      · rw [h9, h0, List.drop_drop]
        exact congrArg (fs.drop ·) (by omega)
      rw [← show s1 = s' from h5] at h8
      have := h3 s1 a _ (n + i) hp h8
      rw [show n + 1 + (i + j) = n + i + j + 1 by omega]
      exact this
    | inr a => rw [hp] at h5; exact h5.elim

end direct

theorem flaky_parses (g : Geometry) : ∀ s q, (flaky g s q).1.status ≠ 0 → ∃ sn, getSense (padded 255 (flaky g s q).1.sense) = .ok sn := by
  intro s q h
  simp only [flaky] at h ⊢
  cases hf : s.faults.headD none with
  | none => rw [hf] at h; exact disk_parses g s.contents q h
  | some f =>
    obtain ⟨sn, hs, -⟩ := getSense_says _ (by rw [padded_length]; decide) 0x0B f.asc.toNat f.ascq.toNat
      (reports_padded _ _ _ _ (failed_reports 0x0B f.asc.toNat f.ascq.toNat (by decide) f.asc.toNat_lt f.ascq.toNat_lt))
    exact ⟨_, hs⟩

/-! ## Programs without COMPARE AND WRITE -/

/-- **C105 on Linux.** `q` is a program on an array of bytes that does not use COMPARE AND WRITE; `p` is the same program with command objects of the library, and gives each
again while it ends with ABORTED COMMAND. Whichever commands the disk aborts, and however far they came: when `q` ends, `p` ends, in one way only, with the same result, leaving
the same contents; it executed as many commands more as were aborted. -/
theorem C105_linux [DecidableEq K] (l : Bool) (alloc : Nat → Alloc) (t : Int) (ht : 0 ≤ t ∧ t < 2 ^ 32) (L : Lib) (B : Parse.BufLib) (other : Bytes → Py (List (String × Int)))
    (g : Geometry) (hg : Valid g) (p : Client σ Cmd Seen A) (q : Client σ Op Reply A') (ok : σ → Prop) (Rel : A → A' → Prop)
    (hask : ∀ s, ok s → Asks g (p.ask s) (q.ask s)) (hagain : ∀ s, ok s → Again (q.ask s)) (hfit : ∀ s, ok s → ∀ r, Cdb.request L (p.ask s).cdb = .ok r → LinuxOk alloc r)
    (hnext : ∀ s r reply, ok s → Shows r reply → Along Rel (p.next s r) (q.next s reply))
    (w : W Handle K (Option Bytes) (DevErr Sense) (World (State × Option Bytes))) (m m' : Contents) (fs : List (Option Fault)) (hw : LinuxIdle w.st w.os ⟨m, fs⟩) (s : σ) (a' : A') (n : Nat)
    (h : q.Runs ok (OnArray g) s m a' m' n) :
    let Runs := fun a w' N => (on L B other (patient isAborted p)).Runs ok (Through (machine (T := T) (Linux.sgBlocking (lp64 l) getSense (Linux.sgDevice l (flaky g))).plat (Linux.prepare (lp64 l) alloc t))) s w a w' N
    (∃ a w' N, Runs a w' N) ∧ ∀ a w' N, Runs a w' N → Rel a a' ∧ LinuxIdle w'.st w'.os ⟨m', fs.drop N⟩ ∧ N + ahead (fs.drop N) = n + ahead fs := by
  obtain ⟨a, _, j, h1, rfl, h2, h3⟩ := repeated_direct L B other hg outcome_delivers hask hagain hnext h fs
  have same := fun a N => same (idle := fun w k => LinuxIdle w.st w.os k) (p := on L B other (patient isAborted p)) (serves_linux (T := T) l getSense (flaky g) alloc t ht fun k q h => flaky_parses g k q (by intro h0; rw [h0] at h; simp at h)) hfit s w ⟨m, fs⟩ hw a N
  obtain ⟨w', h4, -⟩ := (same a (n + j)).1 ⟨m', fs.drop (n + j)⟩ h3
  refine ⟨⟨a, w', n + j, h4⟩, fun a₁ w₁ N₁ h => ?_⟩
  obtain ⟨k₁, h5, h6⟩ := (same a₁ N₁).2 w₁ h
  obtain ⟨rfl, rfl, rfl⟩ := runs_unique one_unique h3 h5
  exact ⟨h1, h6, by omega⟩

/-- **C105 on Solaris.** -/
theorem C105_solaris [DecidableEq K] (l : Bool) (alloc : Nat → Alloc) (t : Int) (ht : 0 ≤ t ∧ t < 2 ^ 15) (L : Lib) (B : Parse.BufLib) (other : Bytes → Py (List (String × Int)))
    (g : Geometry) (hg : Valid g) (p : Client σ Cmd Seen A) (q : Client σ Op Reply A') (ok : σ → Prop) (Rel : A → A' → Prop)
    (hask : ∀ s, ok s → Asks g (p.ask s) (q.ask s)) (hagain : ∀ s, ok s → Again (q.ask s)) (hfit : ∀ s, ok s → ∀ r, Cdb.request L (p.ask s).cdb = .ok r → SolarisOk alloc r)
    (hnext : ∀ s r reply, ok s → Shows r reply → Along Rel (p.next s r) (q.next s reply))
    (w : W Handle K (Option Bytes) (DevErr Sense) (Solaris.SolWorld State)) (m m' : Contents) (fs : List (Option Fault)) (hw : SolarisIdle w.st w.os ⟨m, fs⟩) (s : σ) (a' : A') (n : Nat)
    (h : q.Runs ok (OnArray g) s m a' m' n) :
    let Runs := fun a w' N => (on L B other (patient isAborted p)).Runs ok (Through (machine (T := T) (Solaris.solBlocking (lp64 l) getSense (Solaris.uscsiDevice l (flaky g))).plat (Solaris.prepare (lp64 l) alloc t))) s w a w' N
    (∃ a w' N, Runs a w' N) ∧ ∀ a w' N, Runs a w' N → Rel a a' ∧ SolarisIdle w'.st w'.os ⟨m', fs.drop N⟩ ∧ N + ahead (fs.drop N) = n + ahead fs := by
  obtain ⟨a, _, j, h1, rfl, h2, h3⟩ := repeated_direct L B other hg outcome_delivers hask hagain hnext h fs
  have same := fun a N => same (idle := fun w k => SolarisIdle w.st w.os k) (p := on L B other (patient isAborted p)) (serves_solaris (T := T) l getSense (flaky g) alloc t ht fun k q h => flaky_parses g k q (by intro h0; rw [h0] at h; simp at h)) hfit s w ⟨m, fs⟩ hw a N
  obtain ⟨w', h4, -⟩ := (same a (n + j)).1 ⟨m', fs.drop (n + j)⟩ h3
  refine ⟨⟨a, w', n + j, h4⟩, fun a₁ w₁ N₁ h => ?_⟩
  obtain ⟨k₁, h5, h6⟩ := (same a₁ N₁).2 w₁ h
  obtain ⟨rfl, rfl, rfl⟩ := runs_unique one_unique h3 h5
  exact ⟨h1, h6, by omega⟩

/-- **C105 on AIX.** -/
theorem C105_aix [DecidableEq K] (b : Aix.Binding) (alloc : Nat → Alloc) (t : Int) (ht : 0 ≤ t ∧ t < 2 ^ 32) (L : Lib) (B : Parse.BufLib) (other : Bytes → Py (List (String × Int)))
    (g : Geometry) (hg : Valid g) (p : Client σ Cmd Seen A) (q : Client σ Op Reply A') (ok : σ → Prop) (Rel : A → A' → Prop)
    (hask : ∀ s, ok s → Asks g (p.ask s) (q.ask s)) (hagain : ∀ s, ok s → Again (q.ask s)) (hfit : ∀ s, ok s → ∀ r, Cdb.request L (p.ask s).cdb = .ok r → AixOk b alloc r)
    (hnext : ∀ s r reply, ok s → Shows r reply → Along Rel (p.next s r) (q.next s reply))
    (w : W Handle K (Option Bytes) (DevErr Sense) (Aix.AixWorld State)) (m m' : Contents) (fs : List (Option Fault)) (hw : AixIdle w.st w.os ⟨m, fs⟩) (s : σ) (a' : A') (n : Nat)
    (h : q.Runs ok (OnArray g) s m a' m' n) :
    let Runs := fun a w' N => (on L B other (patient isAborted p)).Runs ok (Through (machine (T := T) (Aix.aixBlocking (lp64 false) getSense b (Aix.scDevice (flaky g))).plat (Aix.prepare (lp64 false) alloc t))) s w a w' N
    (∃ a w' N, Runs a w' N) ∧ ∀ a w' N, Runs a w' N → Rel a a' ∧ AixIdle w'.st w'.os ⟨m', fs.drop N⟩ ∧ N + ahead (fs.drop N) = n + ahead fs := by
  obtain ⟨a, _, j, h1, rfl, h2, h3⟩ := repeated_direct L B other hg outcome_delivers hask hagain hnext h fs
  have same := fun a N => same (idle := fun w k => AixIdle w.st w.os k) (p := on L B other (patient isAborted p)) (serves_aix (T := T) getSense b (flaky g) alloc t ht fun k q h => flaky_parses g k q (by intro h0; rw [h0] at h; simp at h)) hfit s w ⟨m, fs⟩ hw a N
  obtain ⟨w', h4, -⟩ := (same a (n + j)).1 ⟨m', fs.drop (n + j)⟩ h3
  refine ⟨⟨a, w', n + j, h4⟩, fun a₁ w₁ N₁ h => ?_⟩
  obtain ⟨k₁, h5, h6⟩ := (same a₁ N₁).2 w₁ h
  obtain ⟨rfl, rfl, rfl⟩ := runs_unique one_unique h3 h5
  exact ⟨h1, h6, by omega⟩

/-- **C105 on Windows.** -/
theorem C105_windows [DecidableEq K] (b : Bool) (alloc : Nat → Alloc) (L : Lib) (B : Parse.BufLib) (other : Bytes → Py (List (String × Int)))
    (g : Geometry) (hg : Valid g) (p : Client σ Cmd Seen A) (q : Client σ Op Reply A') (ok : σ → Prop) (Rel : A → A' → Prop)
    (hask : ∀ s, ok s → Asks g (p.ask s) (q.ask s)) (hagain : ∀ s, ok s → Again (q.ask s)) (hfit : ∀ s, ok s → ∀ r, Cdb.request L (p.ask s).cdb = .ok r → WindowsOk b alloc r)
    (hnext : ∀ s r reply, ok s → Shows r reply → Along Rel (p.next s r) (q.next s reply))
    (w : W Win32.Spt K (Option Bytes) (DevErr Sense) (Win32.WinWorld State)) (m m' : Contents) (fs : List (Option Fault)) (hw : WindowsIdle w.st w.os ⟨m, fs⟩) (s : σ) (a' : A') (n : Nat)
    (h : q.Runs ok (OnArray g) s m a' m' n) :
    let Runs := fun a w' N => (on L B other (patient isAborted p)).Runs ok (Through (machine (T := T) (Win32.winPlat (Win32.W b) getSense (Win32.sptDevice b (flaky g))) (Win32.prepare (Win32.W b) alloc))) s w a w' N
    (∃ a w' N, Runs a w' N) ∧ ∀ a w' N, Runs a w' N → Rel a a' ∧ WindowsIdle w'.st w'.os ⟨m', fs.drop N⟩ ∧ N + ahead (fs.drop N) = n + ahead fs := by
  obtain ⟨a, _, j, h1, rfl, h2, h3⟩ := repeated_direct L B other hg winOutcome_delivers hask hagain hnext h fs
  have same := fun a N => same (idle := fun w k => WindowsIdle w.st w.os k) (p := on L B other (patient isAborted p)) (serves_windows (T := T) b getSense (flaky g) alloc fun k q h => flaky_parses g k q (by rw [h]; decide)) hfit s w ⟨m, fs⟩ hw a N
  obtain ⟨w', h4, -⟩ := (same a (n + j)).1 ⟨m', fs.drop (n + j)⟩ h3
  refine ⟨⟨a, w', n + j, h4⟩, fun a₁ w₁ N₁ h => ?_⟩
  obtain ⟨k₁, h5, h6⟩ := (same a₁ N₁).2 w₁ h
  obtain ⟨rfl, rfl, rfl⟩ := runs_unique one_unique h3 h5
  exact ⟨h1, h6, by omega⟩

/-! ## COMPARE AND WRITE -/

/-- In the manner of `e.sense_obj.sense_key == 'MISCOMPARE'`. -/
def isMiscompare : Seen → Bool
  | .error (.dev (.checkCondition _ (some s))) => s.key == "MISCOMPARE"
  | _ => false

/-- A program that replaces one block if it is `old`: when the comparison fails, it looks whether the block is `new` already. It ends with whether the block is `new`, or
`None` if there was another error. -/
def swap (lba size : Nat) (old new : Bytes) : Client Phase Cmd Seen (Option Bool) where
  ask
    | .swap => .compareAndWrite lba (old ++ new) 1 size
    | .look => .read16 lba 1 size
  next
    | .swap, r => if isMiscompare r then .inl .look else match r with
      | .ok _ => .inr (some true)
      | .error _ => .inr none
    | .look, r => match r with
      | .ok (some (.obj (.raw (some d)))) => .inr (some (d == new))
      | _ => .inr none

/-- One block is written, or it is not. -/
theorem partly_block (g : Geometry) (which : Nat → Bool) (m : Contents) (lba : Nat) (new : Bytes) (hn : new.length = g.size) :
    partly g which m (writeAt m (lba * g.size) new) = m ∨ partly g which m (writeAt m (lba * g.size) new) = writeAt m (lba * g.size) new := by
  have off : ∀ x, x / g.size ≠ lba → writeAt m (lba * g.size) new x = m x := by
    intro x hx
    simp only [writeAt]
    rw [if_neg]
    rintro ⟨h1, h2⟩
    apply hx
    rw [hn] at h2
    exact Nat.div_eq_of_lt_le h1 (by rw [Nat.succ_mul]; exact h2)
  cases hw : which lba with
  | true =>
    right
    funext x
    simp only [partly]
    by_cases hx : x / g.size = lba
    · rw [hx, hw]; rfl
    · rw [off x hx, ite_self]
  | false =>
    left
    funext x
    simp only [partly]
    by_cases hx : x / g.size = lba
    · rw [hx, hw]; rfl
    · rw [off x hx, ite_self]

section swap

variable {out : Req → Answer → Except (Exn (DevErr Sense)) (Option (Option Bytes))} (L : Lib) (B : Parse.BufLib) (other : Bytes → Py (List (String × Int)))
  {g : Geometry} (hg : Valid g) (hD : Delivers out) {lba : Nat} {old new : Bytes} (hl : lba < 2 ^ 64) (hi : lba + 1 ≤ g.blocks) (ho : old.length = g.size) (hn : new.length = g.size)

theorem swap_asks (hl : lba < 2 ^ 64) (ho : old.length = g.size) (hn : new.length = g.size) : Asks g ((swap lba g.size old new).ask .swap) (.exchange lba old new) :=
  .exchange (n := 1) hl (by decide) (by omega) (by omega)

theorem look_asks (hl : lba < 2 ^ 64) : Asks g ((swap lba g.size old new).ask .look) (.read lba 1) := .read16 hl (by decide)

theorem read_back (m : Contents) (lba : Nat) (hn : new.length = g.size) : readAt (writeAt m (lba * g.size) new) (lba * g.size) g.size = new := by
  rw [← hn]; exact readAt_writeAt _ _ _

/-- Writing what is there changes nothing. -/
theorem write_same (m : Contents) (a : Nat) (bs : Bytes) (h : readAt m a bs.length = bs) : writeAt m a bs = m := by
  funext x
  simp only [writeAt]
  split
  · next hx =>
    have h1 : (readAt m a bs.length).getD (x - a) 0 = m x := by
      simp only [readAt, List.getD_eq_getElem?_getD, List.getElem?_map]
      rw [List.getElem?_range (by omega)]
      simp only [Option.map_some, Option.getD_some]
      congr 1
      omega
    rw [h] at h1
    exact h1
  · rfl

include hg hD hl hi ho hn

/-- Looking. -/
theorem look_runs : ∀ (fs : List (Option Fault)) (m : Contents), ∃ fs' N,
    (on L B other (patient isAborted (swap lba g.size old new))).Runs (fun _ => True) (Direct (flaky g) out) .look ⟨m, fs⟩
      (some (readAt m (lba * g.size) g.size == new)) ⟨m, fs'⟩ N := by
  intro fs m
  have hs := hg.size.1
  obtain ⟨fs', j, r, -, -, h2, h3, -⟩ := attempts L B other hg hD (p := swap lba g.size old new) (ok := fun _ => True) (s := .look) trivial (look_asks hl) trivial fs m
  simp only [Op.run, hi, if_true, Nat.one_mul, Shows] at h2
  refine ⟨fs', j + 1, ?_⟩
  have := h3 (some (readAt m (lba * g.size) g.size == new)) (by
    simp only [swap, h2]
    rw [if_neg (by intro h; have := congrArg List.length h; simp [readAt] at this; omega)])
  simpa only [Op.run, hi, if_true] using this

/-- Comparing and writing: `m` are the contents at the beginning, `c` when it is tried again. -/
theorem swap_runs (m : Contents) : ∀ (fs : List (Option Fault)) (c : Contents), (c = m ∨ (readAt m (lba * g.size) g.size = old ∧ c = writeAt m (lba * g.size) new)) →
    ∃ fs' N, (on L B other (patient isAborted (swap lba g.size old new))).Runs (fun _ => True) (Direct (flaky g) out) .swap ⟨c, fs⟩
      (some (decide (readAt m (lba * g.size) g.size = old ∨ readAt m (lba * g.size) g.size = new)))
      ⟨if readAt m (lba * g.size) g.size = old then writeAt m (lba * g.size) new else m, fs'⟩ N := by
  have hs := hg.size.1
  have hrun : ∀ c, (Op.exchange lba old new).run g c = if readAt c (lba * g.size) g.size = old then (.done, writeAt c (lba * g.size) new) else (.failed 0x0E 0x1D 0, c) := by
    intro c
    simp only [Op.run, ho, Nat.div_self hs, hi, if_true]
  -- a command that is not aborted
  have plain : ∀ (fs fs' : List (Option Fault)) (c : Contents) (r : Seen), (c = m ∨ (readAt m (lba * g.size) g.size = old ∧ c = writeAt m (lba * g.size) new)) →
      Direct (flaky g) out (((swap lba g.size old new).ask .swap).command L B other) ⟨c, fs⟩ r ⟨((Op.exchange lba old new).run g c).2, fs'⟩ → Shows r ((Op.exchange lba old new).run g c).1 →
      isAborted r = false → ∃ fs' N, (on L B other (patient isAborted (swap lba g.size old new))).Runs (fun _ => True) (Direct (flaky g) out) .swap ⟨c, fs⟩
      (some (decide (readAt m (lba * g.size) g.size = old ∨ readAt m (lba * g.size) g.size = new)))
      ⟨if readAt m (lba * g.size) g.size = old then writeAt m (lba * g.size) new else m, fs'⟩ N := by
    intro fs fs' c r hc h1 h2 h3
    rw [hrun] at h1 h2
    by_cases hr : readAt c (lba * g.size) g.size = old
    · rw [if_pos hr] at h1 h2
      have hm : readAt m (lba * g.size) g.size = old := hc.elim (fun h => h ▸ hr) (·.1)
      have hw : writeAt c (lba * g.size) new = writeAt m (lba * g.size) new := by
        rcases hc with h | ⟨-, h⟩
        · rw [h]
        · rw [h]
          exact write_same _ _ _ (by rw [hn]; exact read_back m lba hn)
      rw [hw] at h1
      rw [if_pos hm, decide_eq_true (.inl hm)]
      refine ⟨fs', 1, .done trivial h1 ?_⟩
      show (if isAborted r then _ else (swap lba g.size old new).next .swap r) = _
      rw [h3, show r = _ from h2]
      rfl
    · rw [if_neg hr] at h1 h2
      obtain ⟨fs'', N, h4⟩ := look_runs L B other hg hD (old := old) hl hi ho hn fs' c
      have hnext : (on L B other (patient isAborted (swap lba g.size old new))).next .swap r = .inl .look := by
        show (if isAborted r then _ else (swap lba g.size old new).next .swap r) = _
        rw [h3]
        obtain ⟨raw, sn, rfl, hsn⟩ := h2
        have hk : isMiscompare (.error (.dev (.checkCondition raw (some sn)))) = true := by
          simp only [isMiscompare, hsn.1]; rfl
        show (if isMiscompare _ then _ else _) = _
        rw [hk]; rfl
      have hall := Client.Runs.more (ok := fun _ => True) (p := on L B other (patient isAborted (swap lba g.size old new))) trivial h1 hnext h4
      refine ⟨fs'', N + 1, ?_⟩
      rcases hc with h | ⟨hm, h⟩
      · subst h
        rw [if_neg hr]
        rw [show decide (readAt c (lba * g.size) g.size = old ∨ readAt c (lba * g.size) g.size = new) = (readAt c (lba * g.size) g.size == new) from by
          rw [Bool.eq_iff_iff]; simp [hr]]
        exact hall
      · rw [h] at hall ⊢
        rw [if_pos hm, decide_eq_true (.inl hm)]
        rw [read_back m lba hn, beq_self_eq_true] at hall
        exact hall
  intro fs
  induction fs with
  | nil =>
    intro c hc
    rcases flaky_direct L B other hg hD (swap_asks (g := g) hl ho hn) ⟨c, []⟩ with ⟨-, r, h1, h2, h3⟩ | ⟨f, h, -⟩
    · exact plain _ _ c r hc h1 h2 h3
    · cases h
  | cons x fs ih =>
    intro c hc
    rcases flaky_direct L B other hg hD (swap_asks (g := g) hl ho hn) ⟨c, x :: fs⟩ with ⟨-, r, h1, h2, h3⟩ | ⟨f, -, r, h1, h2⟩
    · exact plain _ _ c r hc h1 h2 h3
    · have hnext : (on L B other (patient isAborted (swap lba g.size old new))).next .swap r = .inl .swap := by
        show (if isAborted r then _ else _) = _
        rw [h2]; rfl
      have hc' : let c' := partly g f.which c ((Op.exchange lba old new).run g c).2
          c' = m ∨ (readAt m (lba * g.size) g.size = old ∧ c' = writeAt m (lba * g.size) new) := by
        simp only [hrun]
        by_cases hr : readAt c (lba * g.size) g.size = old
        · rw [if_pos hr]
          have hm : readAt m (lba * g.size) g.size = old := hc.elim (fun h => h ▸ hr) (·.1)
          rcases hc with h | ⟨-, h⟩
          · rw [h]
            exact (partly_block g f.which m lba new hn).imp id fun h => ⟨hm, h⟩
          · have e : writeAt c (lba * g.size) new = c := write_same _ _ _ (by rw [hn, h]; exact read_back m lba hn)
            rw [e, partly_self]
            exact .inr ⟨hm, h⟩
        · rw [if_neg hr, partly_self]
          exact hc
      obtain ⟨fs', N, h3⟩ := ih _ hc'
      exact ⟨fs', N + 1, .more trivial h1 hnext h3⟩

end swap

/-- What the result says. -/
theorem swapped {lba size : Nat} (m : Contents) (old new : Bytes) (hn : new.length = size) :
    (some (decide (readAt m (lba * size) size = old ∨ readAt m (lba * size) size = new)) = some true ∧ (readAt m (lba * size) size = old ∨ readAt m (lba * size) size = new) ∧
      (if readAt m (lba * size) size = old then writeAt m (lba * size) new else m) = writeAt m (lba * size) new) ∨
    (some (decide (readAt m (lba * size) size = old ∨ readAt m (lba * size) size = new)) = some false ∧ readAt m (lba * size) size ≠ old ∧ readAt m (lba * size) size ≠ new ∧
      (if readAt m (lba * size) size = old then writeAt m (lba * size) new else m) = m) := by
  by_cases h1 : readAt m (lba * size) size = old
  · exact .inl ⟨by rw [decide_eq_true (.inl h1)], .inl h1, by rw [if_pos h1]⟩
  · by_cases h2 : readAt m (lba * size) size = new
    · exact .inl ⟨by rw [decide_eq_true (.inr h2)], .inr h2, by rw [if_neg h1, write_same m _ new (by rw [hn]; exact h2)]⟩
    · exact .inr ⟨by rw [decide_eq_false (not_or.2 ⟨h1, h2⟩)], h1, h2, if_neg h1⟩

/-- **C105, replacing a block, on Linux.** Whichever commands the disk aborts, and however far they came: the program ends, in one way only. It says the block is `new` if it was
`old` or `new` at the beginning, and then it is `new` and the other blocks are as they were; otherwise nothing changed. -/
theorem C105_swap_linux [DecidableEq K] (l : Bool) (alloc : Nat → Alloc) (t : Int) (ht : 0 ≤ t ∧ t < 2 ^ 32) (L : Lib) (B : Parse.BufLib) (other : Bytes → Py (List (String × Int)))
    (g : Geometry) (hg : Valid g) (lba : Nat) (old new : Bytes) (hl : lba < 2 ^ 64) (hi : lba + 1 ≤ g.blocks) (ho : old.length = g.size) (hn : new.length = g.size)
    (hfit : ∀ s r, Cdb.request L ((swap lba g.size old new).ask s).cdb = .ok r → LinuxOk alloc r)
    (w : W Handle K (Option Bytes) (DevErr Sense) (World (State × Option Bytes))) (m : Contents) (fs : List (Option Fault)) (hw : LinuxIdle w.st w.os ⟨m, fs⟩) :
    let Runs := fun a w' N => (on L B other (patient isAborted (swap lba g.size old new))).Runs (fun _ => True) (Through (machine (T := T) (Linux.sgBlocking (lp64 l) getSense (Linux.sgDevice l (flaky g))).plat (Linux.prepare (lp64 l) alloc t))) .swap w a w' N
    (∃ a w' N, Runs a w' N) ∧ ∀ a w' N, Runs a w' N → ∃ m' fs', LinuxIdle w'.st w'.os ⟨m', fs'⟩ ∧
      ((a = some true ∧ (readAt m (lba * g.size) g.size = old ∨ readAt m (lba * g.size) g.size = new) ∧ m' = writeAt m (lba * g.size) new) ∨
        (a = some false ∧ readAt m (lba * g.size) g.size ≠ old ∧ readAt m (lba * g.size) g.size ≠ new ∧ m' = m)) := by
  obtain ⟨fs', N, h3⟩ := swap_runs L B other hg outcome_delivers hl hi ho hn m fs m (.inl rfl)
  have same := fun a N => same (idle := fun w k => LinuxIdle w.st w.os k) (p := on L B other (patient isAborted (swap lba g.size old new))) (ok := fun _ => True) (serves_linux (T := T) l getSense (flaky g) alloc t ht fun k q h => flaky_parses g k q (by intro h0; rw [h0] at h; simp at h)) (fun s _ => hfit s) .swap w ⟨m, fs⟩ hw a N
  obtain ⟨w', h4, -⟩ := (same _ _).1 _ h3
  refine ⟨⟨_, w', N, h4⟩, fun a₁ w₁ N₁ h => ?_⟩
  obtain ⟨k₁, h5, h6⟩ := (same a₁ N₁).2 w₁ h
  obtain ⟨rfl, rfl, rfl⟩ := runs_unique one_unique h3 h5
  exact ⟨_, fs', h6, swapped _ _ _ hn⟩

/-- **C105, replacing a block, on Solaris.** -/
theorem C105_swap_solaris [DecidableEq K] (l : Bool) (alloc : Nat → Alloc) (t : Int) (ht : 0 ≤ t ∧ t < 2 ^ 15) (L : Lib) (B : Parse.BufLib) (other : Bytes → Py (List (String × Int)))
    (g : Geometry) (hg : Valid g) (lba : Nat) (old new : Bytes) (hl : lba < 2 ^ 64) (hi : lba + 1 ≤ g.blocks) (ho : old.length = g.size) (hn : new.length = g.size)
    (hfit : ∀ s r, Cdb.request L ((swap lba g.size old new).ask s).cdb = .ok r → SolarisOk alloc r)
    (w : W Handle K (Option Bytes) (DevErr Sense) (Solaris.SolWorld State)) (m : Contents) (fs : List (Option Fault)) (hw : SolarisIdle w.st w.os ⟨m, fs⟩) :
    let Runs := fun a w' N => (on L B other (patient isAborted (swap lba g.size old new))).Runs (fun _ => True) (Through (machine (T := T) (Solaris.solBlocking (lp64 l) getSense (Solaris.uscsiDevice l (flaky g))).plat (Solaris.prepare (lp64 l) alloc t))) .swap w a w' N
    (∃ a w' N, Runs a w' N) ∧ ∀ a w' N, Runs a w' N → ∃ m' fs', SolarisIdle w'.st w'.os ⟨m', fs'⟩ ∧
      ((a = some true ∧ (readAt m (lba * g.size) g.size = old ∨ readAt m (lba * g.size) g.size = new) ∧ m' = writeAt m (lba * g.size) new) ∨
        (a = some false ∧ readAt m (lba * g.size) g.size ≠ old ∧ readAt m (lba * g.size) g.size ≠ new ∧ m' = m)) := by
  obtain ⟨fs', N, h3⟩ := swap_runs L B other hg outcome_delivers hl hi ho hn m fs m (.inl rfl)
  have same := fun a N => same (idle := fun w k => SolarisIdle w.st w.os k) (p := on L B other (patient isAborted (swap lba g.size old new))) (ok := fun _ => True) (serves_solaris (T := T) l getSense (flaky g) alloc t ht fun k q h => flaky_parses g k q (by intro h0; rw [h0] at h; simp at h)) (fun s _ => hfit s) .swap w ⟨m, fs⟩ hw a N
  obtain ⟨w', h4, -⟩ := (same _ _).1 _ h3
  refine ⟨⟨_, w', N, h4⟩, fun a₁ w₁ N₁ h => ?_⟩
  obtain ⟨k₁, h5, h6⟩ := (same a₁ N₁).2 w₁ h
  obtain ⟨rfl, rfl, rfl⟩ := runs_unique one_unique h3 h5
  exact ⟨_, fs', h6, swapped _ _ _ hn⟩

/-- **C105, replacing a block, on AIX.** -/
theorem C105_swap_aix [DecidableEq K] (b : Aix.Binding) (alloc : Nat → Alloc) (t : Int) (ht : 0 ≤ t ∧ t < 2 ^ 32) (L : Lib) (B : Parse.BufLib) (other : Bytes → Py (List (String × Int)))
    (g : Geometry) (hg : Valid g) (lba : Nat) (old new : Bytes) (hl : lba < 2 ^ 64) (hi : lba + 1 ≤ g.blocks) (ho : old.length = g.size) (hn : new.length = g.size)
    (hfit : ∀ s r, Cdb.request L ((swap lba g.size old new).ask s).cdb = .ok r → AixOk b alloc r)
    (w : W Handle K (Option Bytes) (DevErr Sense) (Aix.AixWorld State)) (m : Contents) (fs : List (Option Fault)) (hw : AixIdle w.st w.os ⟨m, fs⟩) :
    let Runs := fun a w' N => (on L B other (patient isAborted (swap lba g.size old new))).Runs (fun _ => True) (Through (machine (T := T) (Aix.aixBlocking (lp64 false) getSense b (Aix.scDevice (flaky g))).plat (Aix.prepare (lp64 false) alloc t))) .swap w a w' N
    (∃ a w' N, Runs a w' N) ∧ ∀ a w' N, Runs a w' N → ∃ m' fs', AixIdle w'.st w'.os ⟨m', fs'⟩ ∧
      ((a = some true ∧ (readAt m (lba * g.size) g.size = old ∨ readAt m (lba * g.size) g.size = new) ∧ m' = writeAt m (lba * g.size) new) ∨
        (a = some false ∧ readAt m (lba * g.size) g.size ≠ old ∧ readAt m (lba * g.size) g.size ≠ new ∧ m' = m)) := by
  obtain ⟨fs', N, h3⟩ := swap_runs L B other hg outcome_delivers hl hi ho hn m fs m (.inl rfl)
  have same := fun a N => same (idle := fun w k => AixIdle w.st w.os k) (p := on L B other (patient isAborted (swap lba g.size old new))) (ok := fun _ => True) (serves_aix (T := T) getSense b (flaky g) alloc t ht fun k q h => flaky_parses g k q (by intro h0; rw [h0] at h; simp at h)) (fun s _ => hfit s) .swap w ⟨m, fs⟩ hw a N
  obtain ⟨w', h4, -⟩ := (same _ _).1 _ h3
  refine ⟨⟨_, w', N, h4⟩, fun a₁ w₁ N₁ h => ?_⟩
  obtain ⟨k₁, h5, h6⟩ := (same a₁ N₁).2 w₁ h
  obtain ⟨rfl, rfl, rfl⟩ := runs_unique one_unique h3 h5
  exact ⟨_, fs', h6, swapped _ _ _ hn⟩

/-- **C105, replacing a block, on Windows.** -/
theorem C105_swap_windows [DecidableEq K] (b : Bool) (alloc : Nat → Alloc) (L : Lib) (B : Parse.BufLib) (other : Bytes → Py (List (String × Int)))
    (g : Geometry) (hg : Valid g) (lba : Nat) (old new : Bytes) (hl : lba < 2 ^ 64) (hi : lba + 1 ≤ g.blocks) (ho : old.length = g.size) (hn : new.length = g.size)
    (hfit : ∀ s r, Cdb.request L ((swap lba g.size old new).ask s).cdb = .ok r → WindowsOk b alloc r)
    (w : W Win32.Spt K (Option Bytes) (DevErr Sense) (Win32.WinWorld State)) (m : Contents) (fs : List (Option Fault)) (hw : WindowsIdle w.st w.os ⟨m, fs⟩) :
    let Runs := fun a w' N => (on L B other (patient isAborted (swap lba g.size old new))).Runs (fun _ => True) (Through (machine (T := T) (Win32.winPlat (Win32.W b) getSense (Win32.sptDevice b (flaky g))) (Win32.prepare (Win32.W b) alloc))) .swap w a w' N
    (∃ a w' N, Runs a w' N) ∧ ∀ a w' N, Runs a w' N → ∃ m' fs', WindowsIdle w'.st w'.os ⟨m', fs'⟩ ∧
      ((a = some true ∧ (readAt m (lba * g.size) g.size = old ∨ readAt m (lba * g.size) g.size = new) ∧ m' = writeAt m (lba * g.size) new) ∨
        (a = some false ∧ readAt m (lba * g.size) g.size ≠ old ∧ readAt m (lba * g.size) g.size ≠ new ∧ m' = m)) := by
  obtain ⟨fs', N, h3⟩ := swap_runs L B other hg winOutcome_delivers hl hi ho hn m fs m (.inl rfl)
  have same := fun a N => same (idle := fun w k => WindowsIdle w.st w.os k) (p := on L B other (patient isAborted (swap lba g.size old new))) (ok := fun _ => True) (serves_windows (T := T) b getSense (flaky g) alloc fun k q h => flaky_parses g k q (by rw [h]; decide)) (fun s _ => hfit s) .swap w ⟨m, fs⟩ hw a N
  obtain ⟨w', h4, -⟩ := (same _ _).1 _ h3
  refine ⟨⟨_, w', N, h4⟩, fun a₁ w₁ N₁ h => ?_⟩
  obtain ⟨k₁, h5, h6⟩ := (same a₁ N₁).2 w₁ h
  obtain ⟨rfl, rfl, rfl⟩ := runs_unique one_unique h3 h5
  exact ⟨_, fs', h6, swapped _ _ _ hn⟩

/-- A fault at the end of a command: all its blocks are written. -/
def late : Fault := { asc := 0x4B, ascq := 0, which := fun _ => true }

/-- A fault in the middle: of the blocks, those with even addresses are written. -/
def middle : Fault := { asc := 0x47, ascq := 3, which := fun b => b % 2 == 0 }

theorem partly_all (g : Geometry) (m m' : Contents) : partly g late.which m m' = m' := by
  funext x; simp [partly, late]

/-- A computer with a disk of 1000 blocks of 512 bytes. -/
def start (m : Contents) (fs : List (Option Fault)) : W Handle Unit (Option Bytes) (DevErr Sense) (World (State × Option Bytes)) :=
  { st := { pending := [], index := 6, maxq := 7 }, os := { mem := fun _ => 0xEE, kernel := (⟨m, fs⟩, none) }, fired := [], box := fun _ => [] }

abbrev room : Nat → Alloc := fun _ => { block := 4096, sense := 8192, cmd := 12288, data := 16384 }

abbrev computer := machine (R := Result) (T := Unit) (Linux.sgBlocking (K := Unit) (lp64 true) getSense (Linux.sgDevice true (flaky ⟨512, 1000⟩))).plat (Linux.prepare (lp64 true) room 30000)

theorem start_idle (m : Contents) (fs : List (Option Fault)) : LinuxIdle (start m fs).st (start m fs).os ⟨m, fs⟩ := ⟨rfl, by simp [start], by simp [start], by simp [start], rfl⟩

theorem swap_fits (L : Lib) (old new : Bytes) (ho : old.length = 512) (hn : new.length = 512) : ∀ s r, Cdb.request L ((swap 7 512 old new).ask s).cdb = .ok r → LinuxOk room r := by
  intro s q hq
  cases s with
  | swap =>
    obtain ⟨-, -, -, -, rfl⟩ := (Cdb.C31_partial L 7 (old ++ new) 1 512 q).1 hq
    exact example_fits _ ⟨by simp [Req.cdb, Spec.Cdb.compareAndWrite, cdb16], by simp only [dataSize, List.length_append, ho, hn]; decide⟩
  | look =>
    cases (Cdb.C26_read16 L 7 1 512 ⟨by omega, by omega⟩ ⟨by omega, by omega⟩).symm.trans hq
    exact ⟨by simp [Req.cdb, Spec.Cdb.read16, cdb16], by simp [dataSize], fun _ => ⟨by simp [dataSize, Req.cdb, Spec.Cdb.read16, cdb16], by simp⟩⟩

/-- **C105 is about programs without COMPARE AND WRITE, and has to be.** The block is `old`, a COMPARE AND WRITE of `new` is aborted when it is done, and given again: the program
is told MISCOMPARE (E/1D/00), though the block was `old` and is `new`. Had the command not been aborted, it would have ended without error. -/
theorem C105_exchange_false (L : Lib) (B : Parse.BufLib) (other : Bytes → Py (List (String × Int))) (m : Contents) (old new : Bytes) (ho : old.length = 512) (hn : new.length = 512)
    (hne : old ≠ new) (hm : readAt m (7 * 512) 512 = old) :
    (∀ a w' N, (on L B other (patient isAborted (single (.compareAndWrite 7 (old ++ new) 1 512)))).Runs (fun _ => True) (Through computer) () (start m [some late]) a w' N →
      Shows a (.failed 0x0E 0x1D 0) ∧ N = 2 ∧ LinuxIdle w'.st w'.os ⟨writeAt m (7 * 512) new, []⟩) ∧
    (∃ a w', (on L B other (patient isAborted (single (.compareAndWrite 7 (old ++ new) 1 512)))).Runs (fun _ => True) (Through computer) () (start m [some late]) a w' 2) ∧
    (Op.exchange 7 old new).run ⟨512, 1000⟩ m = (.done, writeAt m (7 * 512) new) := by
  have hg : Valid ⟨512, 1000⟩ := ⟨by decide, by decide⟩
  have hask : Asks ⟨512, 1000⟩ ((swap 7 512 old new).ask .swap) (.exchange 7 old new) := swap_asks (g := ⟨512, 1000⟩) (by decide) ho hn
  have hrun : ∀ c, (Op.exchange 7 old new).run ⟨512, 1000⟩ c = if readAt c (7 * 512) 512 = old then (.done, writeAt c (7 * 512) new) else (.failed 0x0E 0x1D 0, c) := by
    intro c
    simp only [Op.run, ho, Nat.reduceDiv, Nat.reduceAdd, Nat.reduceLeDiff, if_true]
  have h0 := (hrun m).trans (if_pos hm)
  have hback : readAt (writeAt m (7 * 512) new) (7 * 512) 512 = new := read_back (g := ⟨512, 1000⟩) m 7 hn
  have h9 := (hrun (writeAt m (7 * 512) new)).trans (if_neg (by rw [hback]; exact fun h => hne h.symm))
  have hruns : ∃ a, Shows a (.failed 0x0E 0x1D 0) ∧ (on L B other (patient isAborted (single (.compareAndWrite 7 (old ++ new) 1 512)))).Runs (fun _ => True)
      (Direct (flaky ⟨512, 1000⟩) (Platform.outcome getSense)) () ⟨m, [some late]⟩ a ⟨writeAt m (7 * 512) new, []⟩ 2 := by
    rcases flaky_direct L B other hg outcome_delivers hask ⟨m, [some late]⟩ with ⟨h, -⟩ | ⟨f, hf, r, h1, h2⟩
    · cases h
    · cases (Option.some.inj (List.cons.inj hf).1)
      simp only [h0, partly_all, List.tail_cons] at h1
      rcases flaky_direct L B other hg outcome_delivers hask ⟨writeAt m (7 * 512) new, []⟩ with ⟨-, r', h3, h4, h5⟩ | ⟨f, hf, -⟩
      · rw [h9] at h3 h4
        refine ⟨r', h4, .more (s' := ()) trivial h1 ?_ (.done (s := ()) trivial h3 ?_)⟩
        · show (if isAborted r then _ else _) = _
          rw [h2]; rfl
        · show (if isAborted r' then _ else _) = _
          rw [h5]; rfl
      · cases hf
  obtain ⟨a, ha, h⟩ := hruns
  have same := fun a N => same (idle := fun w k => LinuxIdle w.st w.os k) (p := on L B other (patient isAborted (single (.compareAndWrite 7 (old ++ new) 1 512)))) (ok := fun _ => True)
    (serves_linux (T := Unit) (K := Unit) true getSense (flaky ⟨512, 1000⟩) room 30000 (by decide) fun k q h => flaky_parses _ k q (by intro h0; rw [h0] at h; simp at h))
    (fun _ _ q hq => swap_fits L old new ho hn .swap q hq) () (start m [some late]) ⟨m, [some late]⟩ (start_idle m _) a N
  obtain ⟨w', h1, -⟩ := (same a 2).1 _ h
  refine ⟨fun a₁ w₁ N₁ h2 => ?_, ⟨a, w', h1⟩, h0⟩
  obtain ⟨k₁, h3, h4⟩ := (same a₁ N₁).2 w₁ h2
  obtain ⟨rfl, rfl, rfl⟩ := runs_unique one_unique h h3
  exact ⟨ha, rfl, h4⟩

/-! The hypotheses are met. -/

/-- WRITE(16) of two blocks, aborted in the middle, and when it was done: it is carried out, with three commands. -/
example (L : Lib) (B : Parse.BufLib) (other : Bytes → Py (List (String × Int))) (m : Contents) (data : Bytes) (hd : data.length = 2 * 512) :
    ∃ a w', (on L B other (patient isAborted (single (.write16 7 data 512)))).Runs (fun _ => True) (Through computer) () (start m [some middle, some late]) a w' 3 ∧
      Shows a .done ∧ LinuxIdle w'.st w'.os ⟨writeAt m (7 * 512) data, []⟩ := by
  have hsmall : ∀ q, Cdb.request L (Cmd.write16 7 data 512).cdb = .ok q → LinuxOk room q := by
    intro q hq
    obtain ⟨-, c, -, -, -, rfl⟩ := (Cdb.C28_write16 L 7 data 512 q).1 hq
    exact example_fits _ ⟨by simp [Req.cdb, Spec.Cdb.write16, cdb16], by simp only [dataSize, hd]; decide⟩
  have hrun : (single (α := Reply) (Op.write 7 data)).Runs (fun _ => True) (OnArray ⟨512, 1000⟩) () m .done (writeAt m (7 * 512) data) 1 :=
    .done trivial (by simp only [single, OnArray, Op.run, hd, Nat.reduceMul, Nat.reduceDiv, Nat.reduceAdd, Nat.reduceLeDiff, if_true]) rfl
  obtain ⟨⟨a, w', N, h1⟩, h2⟩ := C105_linux (T := Unit) (K := Unit) true room 30000 (by decide) L B other
    ⟨512, 1000⟩ ⟨by decide, by decide⟩ (single (.write16 7 data 512)) (single (.write 7 data)) (fun _ => True) Shows
    (fun _ _ => .write16 (g := ⟨512, 1000⟩) (by decide) hd (by decide)) (fun _ _ => trivial) (fun _ _ => hsmall) (fun _ _ _ _ hs => hs)
    (start m [some middle, some late]) m (writeAt m (7 * 512) data) [some middle, some late] (start_idle m _) () .done 1 hrun
  obtain ⟨h3, h4, h5⟩ := h2 a w' N h1
  have hN : N = 3 := by
    match N, h5 with
    | 0, h => exact absurd h (by decide)
    | 1, h => exact absurd h (by decide)
    | 2, h => exact absurd h (by decide)
    | N + 3, h => simp [ahead] at h; omega
  subst hN
  exact ⟨a, w', h1, h3, h4⟩

/-- A block of zeros is replaced, though the command is aborted when it is done: the program says so. -/
example (L : Lib) (B : Parse.BufLib) (other : Bytes → Py (List (String × Int))) :
    ∃ w' N fs', (on L B other (patient isAborted (swap 7 512 (List.replicate 512 0) (List.replicate 512 1)))).Runs (fun _ => True) (Through computer) .swap (start (fun _ => 0) [some late, none, some late])
      (some true) w' N ∧ LinuxIdle w'.st w'.os ⟨writeAt (fun _ => 0) (7 * 512) (List.replicate 512 1), fs'⟩ := by
  have hold : readAt (fun _ => 0) (7 * 512) 512 = List.replicate 512 0 := by simp [readAt, List.map_const']
  obtain ⟨⟨a, w', N, h1⟩, h2⟩ := C105_swap_linux (T := Unit) (K := Unit) true room 30000 (by decide) L B other ⟨512, 1000⟩ ⟨by decide, by decide⟩ 7 (List.replicate 512 0) (List.replicate 512 1)
    (by decide) (by decide) List.length_replicate List.length_replicate (swap_fits L _ _ List.length_replicate List.length_replicate)
    (start (fun _ => 0) [some late, none, some late]) (fun _ => 0) [some late, none, some late] (start_idle _ _)
  obtain ⟨m', fs', h3, ⟨rfl, -, rfl⟩ | ⟨-, h5, -⟩⟩ := h2 a w' N h1
  · exact ⟨w', N, fs', h1, h3⟩
  · exact absurd hold h5

end Verif.Commands.Clients.Aborted
