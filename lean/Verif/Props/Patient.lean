import Verif.Spec.Patient
import Verif.Props.SharedDisk
import Verif.Props.Clone
/-!
# C102: commands repeated while there is a unit attention are carried out once
-/
set_option linter.unusedSimpArgs false
set_option linter.unusedSectionVars false

namespace Verif.Commands.Clients

open Verif.Executer Verif.Coroutine Verif.ExecuterGen Verif.Platform Verif.Spec Verif.Spec.Cdb Verif.Sense Verif.Spec.Patient
open Verif.Spec.Disk (Geometry)
open Verif.Spec.SharedDisk (Op Reply Deed State others shared serve)

variable {K T σ A A' : Type}

/-- In the manner of

    except AsiCheckConditionError as e:
        if e.sense_obj.sense_key == 'UNIT_ATTENTION':
            continue
-/
def isAttention : Seen → Bool
  | .error (.dev (.checkCondition _ (some s))) => s.key == "UNIT_ATTENTION"
  | _ => false

theorem attention_shown {r : Seen} {ascq : Nat} (h : SharedDisk.Shows r (.attention ascq)) : isAttention r = true := by
  obtain ⟨raw, s, rfl, hs⟩ := h
  simp only [isAttention, hs.1]
  rfl

/-- Without a unit attention the disk does not say there is one. -/
theorem other_shown {g : Geometry} {s s' : State} {op : Op} {r : Seen} {reply : Reply} (ha : s.lun.attention = none) (hrun : op.run g s = (reply, s'))
    (h : SharedDisk.Shows r reply) : isAttention r = false := by
  have failed : ∀ key asc ascq, (key = 5 ∨ key = 0x0E) → (∃ raw s, r = .error (.dev (.checkCondition raw (some s))) ∧ Says s key asc ascq) → isAttention r = false := by
    rintro key asc ascq hk ⟨raw, s, rfl, hs⟩
    simp only [isAttention, hs.1]
    rcases hk with rfl | rfl <;> decide
  have hreply := congrArg Prod.fst hrun
  simp only [Op.run, ha] at hreply
  cases op with
  | disk op =>
    simp only at hreply
    split at hreply
    · subst hreply
      have key : ∀ key asc ascq, (Disk.Op.run g s.contents op).1 = .failed key asc ascq → key = 5 ∨ key = 0x0E := by
        intro key asc ascq
        cases op <;> simp only [Disk.Op.run] <;> (try split) <;> (try split) <;> simp <;> omega
      generalize hx : (Disk.Op.run g s.contents op).1 = x at h key
      cases x with
      | failed k a q => exact failed k a q (key k a q rfl) h
      | capacity => obtain ⟨_, rfl, -⟩ := h; rfl
      | ready => rw [show r = _ from h]; rfl
      | data => rw [show r = _ from h]; rfl
      | done => rw [show r = _ from h]; rfl
    · subst hreply
      rw [show r = _ from h]; rfl
  | reservations op =>
    simp only at hreply
    subst hreply
    have key : ∀ key asc ascq, (Reservations.Op.run s.lun op).1 = .failed key asc ascq → key = 5 := by
      intro key asc ascq
      simp only [Reservations.Op.run, ha]
      cases op <;> simp only <;> (try split) <;> simp <;> omega
    generalize hx : (Reservations.Op.run s.lun op).1 = x at h key
    cases x with
    | failed k a q => exact failed k a q (.inl (key k a q rfl)) h
    | ready => rw [show r = _ from h]; rfl
    | done => rw [show r = _ from h]; rfl
    | conflict => rw [show r = _ from h]; rfl
    | keys => obtain ⟨_, rfl, -⟩ := h; rfl
    | tooMany => obtain ⟨_, rfl, -⟩ := h; rfl
    | reservation n o =>
      cases o with
      | none => obtain ⟨_, rfl, -⟩ := h; rfl
      | some x => obtain ⟨_, rfl, -⟩ := h; rfl

section direct

variable {tail : Nat → Bytes → Bytes → Prop} {out : Req → Answer → Except (Exn (DevErr Sense)) (Option (Option Bytes))} (L : Lib) (B : Parse.BufLib)
  (other : Bytes → Py (List (String × Int))) {g : Geometry} (hg : Valid g) (hB : Reserve.Brings tail out)
include hg hB

/-- One command. -/
theorem shared_direct {c : Cmd} {op : Op} (h : SharedDisk.Asks g c op) (k : World) (hb : Reserve.Bounded k.1.lun) :
    ∃ r : Seen, Direct (shared g) out (c.command L B other) k r ((op.run g (met g k)).2, k.2.tail) ∧ SharedDisk.Shows r (op.run g (met g k)).1 := by
  obtain ⟨q, hq, hm, hs⟩ := SharedDisk.step L B other hg hB (SharedDisk.others_bounded (g := g) (k.2.headD []) hb) h
  refine ⟨_, ?_, hs⟩
  simp only [Direct, askAll, hq, shared, hm, met]

/-- The attempts at one command. -/
theorem attempts {p : Client σ Cmd Seen A} {ok : σ → Prop} {s : σ} (ho : ok s) {op : Op} (hask : SharedDisk.Asks g (p.ask s) op) {k k' : World} {reply : Reply} {j : Nat}
    (h : Once g op k reply k' j) (hb : Reserve.Bounded k.1.lun) :
    Reserve.Bounded k'.1.lun ∧ (∃ k₀ : World, (met g k₀).lun.attention = none ∧ op.run g (met g k₀) = (reply, k'.1)) ∧ ∃ r : Seen, SharedDisk.Shows r reply ∧ isAttention r = false ∧
      (∀ a, p.next s r = .inr a → (on L B other (patient isAttention p)).Runs ok (Direct (shared g) out) s k a k' (j + 1)) ∧
      ∀ s' a k'' n, p.next s r = .inl s' → (on L B other (patient isAttention p)).Runs ok (Direct (shared g) out) s' k' a k'' n →
        (on L B other (patient isAttention p)).Runs ok (Direct (shared g) out) s k a k'' (n + j + 1) := by
  induction h with
  | @now k reply s₁ ha hrun =>
    obtain ⟨r, h1, h2⟩ := shared_direct L B other hg hB hask k hb
    have hr := SharedDisk.run_bounded (g := g) (SharedDisk.others_bounded (g := g) (k.2.headD []) hb) op
    rw [show others g k.1 (k.2.headD []) = met g k from rfl] at hr
    rw [hrun] at h1 h2 hr
    have hn := other_shown ha hrun h2
    refine ⟨hr, ⟨k, ha, hrun⟩, r, h2, hn, fun a h => .done ho h1 ?_, fun s' a k'' n h h' => .more ho h1 ?_ h'⟩ <;>
    · show (if isAttention r then _ else _) = _
      rw [hn]
      exact h
  | @later k reply k' j ha _ ih =>
    obtain ⟨r, h1, h2⟩ := shared_direct L B other hg hB hask k hb
    have hr := SharedDisk.run_bounded (g := g) (SharedDisk.others_bounded (g := g) (k.2.headD []) hb) op
    rw [show others g k.1 (k.2.headD []) = met g k from rfl] at hr
    obtain ⟨why, hw⟩ := Option.ne_none_iff_exists'.1 ha
    have hrun : op.run g (met g k) = (.attention why.ascq, (told g k).1) := by simp only [Op.run, hw, told]
    rw [hrun] at h1 h2 hr
    have hn := attention_shown h2
    obtain ⟨h3, h4, r', h5, h6, h7, h8⟩ := ih hr
    have hnext : (on L B other (patient isAttention p)).next s r = .inl s := by
      show (if isAttention r then _ else _) = _
      rw [hn]; rfl
    exact ⟨h3, h4, r', h5, h6, fun a h => .more ho h1 hnext (h7 a h), fun s' a k'' n h h' => .more ho h1 hnext (h8 s' a k'' n h h')⟩

theorem patient_direct {p : Client σ Cmd Seen A} {q : Client σ Op Reply A'} {ok : σ → Prop} {Rel : A → A' → Prop} (hask : ∀ s, ok s → SharedDisk.Asks g (p.ask s) (q.ask s))
    (hnext : ∀ s r reply, ok s → SharedDisk.Shows r reply → isAttention r = false → Along Rel (p.next s r) (q.next s reply)) {s : σ} {x x' : World × Nat} {a' : A'}
    {n : Nat} (h : q.Runs ok (Performed g) s x a' x' n) (hb : Reserve.Bounded x.1.1.lun) :
    ∃ a N, Rel a a' ∧ N + x.2 = n + x'.2 ∧ (on L B other (patient isAttention p)).Runs ok (Direct (shared g) out) s x.1 a x'.1 N := by
  induction h with
  | @done s x reply x' a' ho hd hn =>
    obtain ⟨j, h1, hj⟩ := hd
    obtain ⟨-, -, r, h2, h3, h4, -⟩ := attempts L B other hg hB (p := p) ho (hask s ho) h1 hb
    have h5 := hnext s r reply ho h2 h3
    rw [hn] at h5
    cases hp : p.next s r with
    | inl s' => rw [hp] at h5; exact h5.elim
    | inr a => rw [hp] at h5; exact ⟨a, j + 1, h5, by omega, h4 a hp⟩
  | @more s x reply x' s' a' x'' n ho hd hn _ ih =>
    obtain ⟨j, h1, hj⟩ := hd
    obtain ⟨hb', -, r, h2, h3, -, h4⟩ := attempts L B other hg hB (p := p) ho (hask s ho) h1 hb
    have h5 := hnext s r reply ho h2 h3
    rw [hn] at h5
    cases hp : p.next s r with
    | inl s1 =>
      rw [hp] at h5
      obtain ⟨a, N, h6, h7, h8⟩ := ih hb'
      refine ⟨a, N + j + 1, h6, by omega, h4 s1 a _ N hp ?_⟩
      rw [show s1 = s' from h5]
      exact h8
    | inr a => rw [hp] at h5; exact h5.elim

end direct

theorem one_unique {D E R δ : Type} {dev : Device δ} {out : Req → Answer → Except (Exn E) (Option D)} (c : Command Req D R) (k : δ) (r) (k' : δ) (r₁) (k₁ : δ)
    (h : Direct dev out c k r k') (h₁ : Direct dev out c k r₁ k₁) : r = r₁ ∧ k' = k₁ := by
  have he := h.symm.trans h₁
  exact ⟨(List.cons.inj (Prod.mk.inj he).1).1, (Prod.mk.inj he).2⟩

/-- **C102, no endless waiting.** Every operation is carried out once, and before that no more unit attentions are taken than the other hosts had turns, and one that
was there before. -/
theorem C102_ends (g : Geometry) (op : Op) : ∀ (d : List (List (Nat × Deed))) (s : State),
    ∃ r k' j, Once g op (s, d) r k' j ∧ j ≤ d.length + 1
  | [], s => by
    by_cases ha : (met g (s, [])).lun.attention = none
    · exact ⟨_, _, 0, .now ha rfl, Nat.zero_le _⟩
    · exact ⟨_, _, 1, .later ha (.now rfl rfl), Nat.le_refl _⟩
  | x :: d, s => by
    by_cases ha : (met g (s, x :: d)).lun.attention = none
    · exact ⟨_, _, 0, .now ha rfl, Nat.zero_le _⟩
    · obtain ⟨r, k', j, h, hj⟩ := C102_ends g op d (told g (s, x :: d)).1
      exact ⟨r, k', j + 1, .later ha h, by simp only [List.length_cons]; omega⟩

/-- And in one way. -/
theorem once_unique {g : Geometry} {op : Op} {k k' : World} {r : Reply} {j : Nat} (h : Once g op k r k' j) : ∀ {r₁ k₁ j₁}, Once g op k r₁ k₁ j₁ → r = r₁ ∧ k' = k₁ ∧ j = j₁ := by
  induction h with
  | now ha hrun =>
    intro r₁ k₁ j₁ h
    cases h with
    | now _ hrun' => cases hrun.symm.trans hrun'; exact ⟨rfl, rfl, rfl⟩
    | later hb => exact absurd ha hb
  | later ha _ ih =>
    intro r₁ k₁ j₁ h
    cases h with
    | now hb => exact absurd hb ha
    | later _ h' => obtain ⟨h1, h2, h3⟩ := ih h'; exact ⟨h1, h2, by rw [h3]⟩

/-- **C102 on Linux.** `q` is a program on the disk itself, whose operations are carried out once each, unit attentions being taken before; `p` is the same program with
command objects of the library, and gives each again while it ends with UNIT ATTENTION. Whatever the other hosts do: when `q` ends, `p` ends, in one way only, with the same
result, leaving the disk in the same state; it executed as many commands more as there were unit attentions. -/
theorem C102_linux [DecidableEq K] (l : Bool) (alloc : Nat → Alloc) (t : Int) (ht : 0 ≤ t ∧ t < 2 ^ 32) (L : Lib) (B : Parse.BufLib) (other : Bytes → Py (List (String × Int)))
    (g : Geometry) (hg : Valid g) (p : Client σ Cmd Seen A) (q : Client σ Op Reply A') (ok : σ → Prop) (Rel : A → A' → Prop)
    (hask : ∀ s, ok s → SharedDisk.Asks g (p.ask s) (q.ask s)) (hfit : ∀ s, ok s → ∀ r, Cdb.request L (p.ask s).cdb = .ok r → LinuxOk alloc r)
    (hnext : ∀ s r reply, ok s → SharedDisk.Shows r reply → isAttention r = false → Along Rel (p.next s r) (q.next s reply))
    (w : W Handle K (Option Bytes) (DevErr Sense) (Platform.World (World × Option Bytes))) (k : World) (hb : Reserve.Bounded k.1.lun) (hw : LinuxIdle w.st w.os k) (s : σ) (a' : A') (k' : World) (n j : Nat)
    (h : q.Runs ok (Performed g) s (k, 0) a' (k', j) n) :
    let Runs := fun a w' N => (on L B other (patient isAttention p)).Runs ok (Through (machine (T := T) (Linux.sgBlocking (lp64 l) getSense (Linux.sgDevice l (shared g))).plat (Linux.prepare (lp64 l) alloc t))) s w a w' N
    (∃ a w' N, Runs a w' N) ∧ ∀ a w' N, Runs a w' N → Rel a a' ∧ N = n + j ∧ LinuxIdle w'.st w'.os k' := by
  obtain ⟨a, N, h1, h2, h3⟩ := patient_direct L B other hg Reserve.outcome_brings hask hnext h hb
  have same := fun a N => same (idle := fun w k => LinuxIdle w.st w.os k) (p := on L B other (patient isAttention p)) (serves_linux (T := T) l getSense (shared g) alloc t ht (SharedDisk.shared_parses g)) hfit s w k hw a N
  obtain ⟨w', h4, -⟩ := (same a N).1 k' h3
  refine ⟨⟨a, w', N, h4⟩, fun a₁ w₁ N₁ h => ?_⟩
  obtain ⟨k₁, h5, h6⟩ := (same a₁ N₁).2 w₁ h
  obtain ⟨rfl, rfl, rfl⟩ := runs_unique one_unique h3 h5
  exact ⟨h1, by omega, h6⟩

/-- **C102 on Solaris.** -/
theorem C102_solaris [DecidableEq K] (l : Bool) (alloc : Nat → Alloc) (t : Int) (ht : 0 ≤ t ∧ t < 2 ^ 15) (L : Lib) (B : Parse.BufLib) (other : Bytes → Py (List (String × Int)))
    (g : Geometry) (hg : Valid g) (p : Client σ Cmd Seen A) (q : Client σ Op Reply A') (ok : σ → Prop) (Rel : A → A' → Prop)
    (hask : ∀ s, ok s → SharedDisk.Asks g (p.ask s) (q.ask s)) (hfit : ∀ s, ok s → ∀ r, Cdb.request L (p.ask s).cdb = .ok r → SolarisOk alloc r)
    (hnext : ∀ s r reply, ok s → SharedDisk.Shows r reply → isAttention r = false → Along Rel (p.next s r) (q.next s reply))
    (w : W Handle K (Option Bytes) (DevErr Sense) (Solaris.SolWorld World)) (k : World) (hb : Reserve.Bounded k.1.lun) (hw : SolarisIdle w.st w.os k) (s : σ) (a' : A') (k' : World) (n j : Nat)
    (h : q.Runs ok (Performed g) s (k, 0) a' (k', j) n) :
    let Runs := fun a w' N => (on L B other (patient isAttention p)).Runs ok (Through (machine (T := T) (Solaris.solBlocking (lp64 l) getSense (Solaris.uscsiDevice l (shared g))).plat (Solaris.prepare (lp64 l) alloc t))) s w a w' N
    (∃ a w' N, Runs a w' N) ∧ ∀ a w' N, Runs a w' N → Rel a a' ∧ N = n + j ∧ SolarisIdle w'.st w'.os k' := by
  obtain ⟨a, N, h1, h2, h3⟩ := patient_direct L B other hg Reserve.outcome_brings hask hnext h hb
  have same := fun a N => same (idle := fun w k => SolarisIdle w.st w.os k) (p := on L B other (patient isAttention p)) (serves_solaris (T := T) l getSense (shared g) alloc t ht (SharedDisk.shared_parses g)) hfit s w k hw a N
  obtain ⟨w', h4, -⟩ := (same a N).1 k' h3
  refine ⟨⟨a, w', N, h4⟩, fun a₁ w₁ N₁ h => ?_⟩
  obtain ⟨k₁, h5, h6⟩ := (same a₁ N₁).2 w₁ h
  obtain ⟨rfl, rfl, rfl⟩ := runs_unique one_unique h3 h5
  exact ⟨h1, by omega, h6⟩

/-- **C102 on AIX.** -/
theorem C102_aix [DecidableEq K] (b : Aix.Binding) (alloc : Nat → Alloc) (t : Int) (ht : 0 ≤ t ∧ t < 2 ^ 32) (L : Lib) (B : Parse.BufLib) (other : Bytes → Py (List (String × Int)))
    (g : Geometry) (hg : Valid g) (p : Client σ Cmd Seen A) (q : Client σ Op Reply A') (ok : σ → Prop) (Rel : A → A' → Prop)
    (hask : ∀ s, ok s → SharedDisk.Asks g (p.ask s) (q.ask s)) (hfit : ∀ s, ok s → ∀ r, Cdb.request L (p.ask s).cdb = .ok r → AixOk b alloc r)
    (hnext : ∀ s r reply, ok s → SharedDisk.Shows r reply → isAttention r = false → Along Rel (p.next s r) (q.next s reply))
    (w : W Handle K (Option Bytes) (DevErr Sense) (Aix.AixWorld World)) (k : World) (hb : Reserve.Bounded k.1.lun) (hw : AixIdle w.st w.os k) (s : σ) (a' : A') (k' : World) (n j : Nat)
    (h : q.Runs ok (Performed g) s (k, 0) a' (k', j) n) :
    let Runs := fun a w' N => (on L B other (patient isAttention p)).Runs ok (Through (machine (T := T) (Aix.aixBlocking (lp64 false) getSense b (Aix.scDevice (shared g))).plat (Aix.prepare (lp64 false) alloc t))) s w a w' N
    (∃ a w' N, Runs a w' N) ∧ ∀ a w' N, Runs a w' N → Rel a a' ∧ N = n + j ∧ AixIdle w'.st w'.os k' := by
  obtain ⟨a, N, h1, h2, h3⟩ := patient_direct L B other hg Reserve.outcome_brings hask hnext h hb
  have same := fun a N => same (idle := fun w k => AixIdle w.st w.os k) (p := on L B other (patient isAttention p)) (serves_aix (T := T) getSense b (shared g) alloc t ht (SharedDisk.shared_parses g)) hfit s w k hw a N
  obtain ⟨w', h4, -⟩ := (same a N).1 k' h3
  refine ⟨⟨a, w', N, h4⟩, fun a₁ w₁ N₁ h => ?_⟩
  obtain ⟨k₁, h5, h6⟩ := (same a₁ N₁).2 w₁ h
  obtain ⟨rfl, rfl, rfl⟩ := runs_unique one_unique h3 h5
  exact ⟨h1, by omega, h6⟩

/-- **C102 on Windows.** -/
theorem C102_windows [DecidableEq K] (b : Bool) (alloc : Nat → Alloc) (L : Lib) (B : Parse.BufLib) (other : Bytes → Py (List (String × Int)))
    (g : Geometry) (hg : Valid g) (p : Client σ Cmd Seen A) (q : Client σ Op Reply A') (ok : σ → Prop) (Rel : A → A' → Prop)
    (hask : ∀ s, ok s → SharedDisk.Asks g (p.ask s) (q.ask s)) (hfit : ∀ s, ok s → ∀ r, Cdb.request L (p.ask s).cdb = .ok r → WindowsOk b alloc r)
    (hnext : ∀ s r reply, ok s → SharedDisk.Shows r reply → isAttention r = false → Along Rel (p.next s r) (q.next s reply))
    (w : W Win32.Spt K (Option Bytes) (DevErr Sense) (Win32.WinWorld World)) (k : World) (hb : Reserve.Bounded k.1.lun) (hw : WindowsIdle w.st w.os k) (s : σ) (a' : A') (k' : World) (n j : Nat)
    (h : q.Runs ok (Performed g) s (k, 0) a' (k', j) n) :
    let Runs := fun a w' N => (on L B other (patient isAttention p)).Runs ok (Through (machine (T := T) (Win32.winPlat (Win32.W b) getSense (Win32.sptDevice b (shared g))) (Win32.prepare (Win32.W b) alloc))) s w a w' N
    (∃ a w' N, Runs a w' N) ∧ ∀ a w' N, Runs a w' N → Rel a a' ∧ N = n + j ∧ WindowsIdle w'.st w'.os k' := by
  obtain ⟨a, N, h1, h2, h3⟩ := patient_direct L B other hg Reserve.winOutcome_brings hask hnext h hb
  have same := fun a N => same (idle := fun w k => WindowsIdle w.st w.os k) (p := on L B other (patient isAttention p)) (serves_windows (T := T) b getSense (shared g) alloc fun k q h => SharedDisk.shared_parses g k q (by rw [h]; decide)) hfit s w k hw a N
  obtain ⟨w', h4, -⟩ := (same a N).1 k' h3
  refine ⟨⟨a, w', N, h4⟩, fun a₁ w₁ N₁ h => ?_⟩
  obtain ⟨k₁, h5, h6⟩ := (same a₁ N₁).2 w₁ h
  obtain ⟨rfl, rfl, rfl⟩ := runs_unique one_unique h3 h5
  exact ⟨h1, by omega, h6⟩

/-! The hypotheses are met: one WRITE(16). -/

/-- A program of one command. -/
def single {C α : Type} (c : C) : Client Unit C α α where
  ask _ := c
  next _ r := .inr r

/-- It ends, whatever the other hosts do. -/
theorem example_single (L : Lib) (B : Parse.BufLib) (other : Bytes → Py (List (String × Int))) (k : World) (hb : Reserve.Bounded k.1.lun) (data : Bytes) (hd : data.length = 1 * 512) :
    ∃ reply k' j, Once ⟨512, 1000⟩ (.disk (.write 7 data)) k reply k' j ∧ j ≤ k.2.length + 1 ∧
      ∃ a w', (on L B other (patient isAttention (single (.write16 7 data 512)))).Runs (fun _ => True) (Through (machine (T := Unit)
        (Linux.sgBlocking (K := Unit) (lp64 true) getSense (Linux.sgDevice true (shared ⟨512, 1000⟩))).plat
        (Linux.prepare (lp64 true) (fun _ => { block := 4096, sense := 8192, cmd := 12288, data := 16384 }) 30000))) ()
        { st := { pending := [], index := 6, maxq := 7 }, os := { mem := fun _ => 0xEE, kernel := (k, none) }, fired := [], box := fun _ => [] } a w' (j + 1) ∧
        SharedDisk.Shows a reply ∧ LinuxIdle w'.st w'.os k' := by
  obtain ⟨reply, k', j, h, hj⟩ := C102_ends ⟨512, 1000⟩ (.disk (.write 7 data)) k.2 k.1
  have hsmall : ∀ q, Cdb.request L (Cmd.write16 7 data 512).cdb = .ok q → LinuxOk (fun _ => { block := 4096, sense := 8192, cmd := 12288, data := 16384 }) q := by
    intro q hq
    obtain ⟨-, c, -, -, -, rfl⟩ := (Cdb.C28_write16 L 7 data 512 q).1 hq
    exact example_fits _ ⟨by simp [Req.cdb, Spec.Cdb.write16, cdb16], by simp only [dataSize, hd]; decide⟩
  have hrun : (single (α := Reply) (Op.disk (.write 7 data))).Runs (fun _ => True) (Performed ⟨512, 1000⟩) () (k, 0) reply (k', j) 1 :=
    .done trivial ⟨j, h, (Nat.zero_add j).symm⟩ rfl
  obtain ⟨⟨a, w', N, h1⟩, h2⟩ := C102_linux (T := Unit) (K := Unit) true (fun _ => { block := 4096, sense := 8192, cmd := 12288, data := 16384 }) 30000 (by decide) L B other
    ⟨512, 1000⟩ ⟨by decide, by decide⟩ (single (.write16 7 data 512)) (single (.disk (.write 7 data))) (fun _ => True) SharedDisk.Shows
    (fun _ _ => .disk (.write16 (g := ⟨512, 1000⟩) (by decide) hd (by decide))) (fun _ _ => hsmall) (fun _ _ _ _ hs _ => hs)
    { st := { pending := [], index := 6, maxq := 7 }, os := { mem := fun _ => 0xEE, kernel := (k, none) }, fired := [], box := fun _ => [] } k hb
    ⟨rfl, by simp, by simp, by simp, rfl⟩ () reply k' 1 j hrun
  obtain ⟨h3, h4, h5⟩ := h2 a w' N h1
  rw [h4, Nat.add_comm 1 j] at h1
  exact ⟨reply, k', j, h, hj, a, w', h1, h3, h5⟩

/-- A unit attention waits, and after it was taken another host clears the registrations, and writes: the third attempt is carried out, once. -/
def busy : World :=
  (⟨{ generation := 3, keys := [(0, 0xA), (1, 0xB)], limit := 100, holder := none, attention := some .registrationsPreempted }, fun _ => 0⟩,
   [[], [(0, .act (.clear 0xB))], [(0, .use (.write 7 (List.replicate 512 1)))]])

example (data : Bytes) (hd : data.length = 512) :
    ∃ s', Once ⟨512, 1000⟩ (.disk (.write 7 data)) busy (.disk .done) (s', []) 2 ∧ Disk.readAt s'.contents (7 * 512) 512 = data := by
  let k := told ⟨512, 1000⟩ (told ⟨512, 1000⟩ busy)
  have ha : (met ⟨512, 1000⟩ k).lun.attention = none := rfl
  refine ⟨{ met ⟨512, 1000⟩ k with contents := Disk.writeAt (met ⟨512, 1000⟩ k).contents (7 * 512) data },
    .later (by decide) (.later (by decide) (.now (k := k) ha ?_)), by rw [← hd]; exact readAt_writeAt _ _ _⟩
  have hp : SharedDisk.permits (met ⟨512, 1000⟩ k).lun 0 (SharedDisk.access (.write 7 data)) = true := rfl
  simp only [Op.run, ha, hp, if_true, Disk.Op.run, hd, Nat.reduceDiv, Nat.reduceAdd, Nat.reduceLeDiff]

end Verif.Commands.Clients
