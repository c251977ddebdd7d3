import Verif.Spec.Torn
import Verif.Props.Journal
/-!
# C104: a record that is replaced again and again, by programs that are interrupted, on a disk that loses power in the middle of commands

The program of C103 on the disk of `Spec.Torn`. It first looks where the data is. It is run any number of times, with the same executer or with others, each time with other
data, and each time it may be stopped after any number of commands.
-/
set_option linter.unusedSimpArgs false
set_option linter.unusedSectionVars false

namespace Verif.Torn

open Verif.Executer Verif.Coroutine Verif.ExecuterGen Verif.Platform Verif.Spec Verif.Sense Verif.Commands Verif.Options Verif.Durable Verif.Commands.Clients Verif.Journal
open Verif.Spec.Disk (Geometry Contents Reply readAt writeAt Each failed)
open Verif.Spec.Durable hiding State
open Verif.Spec.Journal Verif.Spec.Torn
open Verif.Spec.Patient (patient)
open Verif.Spec.Options (Opts)

variable {K T : Type}

/-- New data, and the command objects that write it to a slot and that slot to the head. -/
structure Save where
  data : Bytes
  fill : Bool → Call
  point : Bool → Call

/-- In the manner of

    head = sync_wait(look_at_head.execute(executer))
    slot = SECOND if head == mark_of_first else FIRST
    sync_wait(fill[slot].execute(executer))
    sync_wait(point[slot].execute(executer))

`true` if this was done; `false` if a command failed or the head was neither mark. -/
def save (l : Layout) (look : Call) (sv : Save) : Client Phase Call Seen Bool where
  ask
    | .look => look
    | .fill b => sv.fill b
    | .point b => sv.point b
  next
    | .look, .ok (some (.obj (.raw (some d)))) => if d = l.mark false then .inl (.fill true) else if d = l.mark true then .inl (.fill false) else .inr false
    | .fill b, .ok _ => .inl (.point b)
    | .point _, .ok _ => .inr true
    | _, _ => .inr false

/-- The command objects write with FUA, and nothing the disk does not do. -/
structure Save.Good (L : Lib) (B : Parse.BufLib) (other : Bytes → Py (List (String × Int))) (g : Geometry) (l : Layout) (sv : Save) : Prop where
  length : sv.data.length = l.length * g.size
  fill : ∀ b, ∃ f : Opts, (f.fua = 1 ∧ Taken f) ∧ Asks g L B other (sv.fill b) (.write f (l.slot b) sv.data)
  point : ∀ b, ∃ f : Opts, (f.fua = 1 ∧ Taken f) ∧ Asks g L B other (sv.point b) (.write f l.head (l.mark b))

/-! ## The disk -/

/-- The disk after a command that ended with the unit attention: it told of a loss of power before the command, or power was lost during it. -/
def Spoilt (g : Geometry) (op : Op) (k k' : Durable.State) : Prop := (k.next.attention = true ∧ k' = told k) ∨ ∃ which, k' = tear g k.next (op.run g k).2 which

theorem spoilt_safe {g : Geometry} {op : Op} {k k' : Durable.State} (h : Spoilt g op k k') {lba n : Nat} {bs : Bytes} (hn : bs.length = n * g.size) (hw : op.base.Whole g)
    (hsp : op.base.Spares g lba n) (hs : Safe k (lba * g.size) bs) : Safe k' (lba * g.size) bs := by
  rcases h with ⟨-, rfl⟩ | ⟨which, rfl⟩
  · exact safe_told hs
  · have h1 := (safe_next hs).1
    have h2 := (safe_run hn op hw hsp hs).2
    have : Holds (tear g k.next (op.run g k).2 which).medium (lba * g.size) bs := by
      refine holds_merge h2 h1 fun i => ?_
      simp only [tear]
      split
      · exact .inl rfl
      · exact .inr rfl
    exact ⟨this, this⟩

/-- A block is written or it is not. -/
theorem spoilt_block {g : Geometry} (hs : 0 < g.size) {f : Opts} (hf : f.fua = 1 ∧ Taken f) {lba : Nat} {old new : Bytes} (hin : lba < g.blocks)
    (ho : old.length = g.size) (hn : new.length = g.size) {k k' : Durable.State}
    (h : Spoilt g (.write f lba new) k k') (hk : Safe k (lba * g.size) old) : Safe k' (lba * g.size) old ∨ Safe k' (lba * g.size) new := by
  rcases h with ⟨-, rfl⟩ | ⟨which, rfl⟩
  · exact .inl (safe_told hk)
  · have h1 := (safe_next hk).1
    have all : ∀ (bs : Bytes), bs.length = g.size → ∀ y : Contents, Holds y (lba * g.size) bs →
        (∀ i, i < g.size → (tear g k.next ((Op.write f lba new).run g k).2 which).medium (lba * g.size + i) = y (lba * g.size + i)) →
        Safe (tear g k.next ((Op.write f lba new).run g k).2 which) (lba * g.size) bs := by
      intro bs hb y hy h
      have : Holds (tear g k.next ((Op.write f lba new).run g k).2 which).medium (lba * g.size) bs := by
        rw [holds_iff] at hy ⊢
        intro i hi
        rw [h i (by omega), hy i hi]
      exact ⟨this, this⟩
    have hdiv : ∀ i, i < g.size → (lba * g.size + i) / g.size = lba := by
      intro i hi
      rw [Nat.add_comm, Nat.add_mul_div_right _ _ hs, Nat.div_eq_of_lt hi, Nat.zero_add]
    cases hwh : which lba with
    | false =>
      refine .inl (all old ho k.next.medium h1 fun i hi => ?_)
      simp only [tear, hdiv i hi, hwh]
      rfl
    | true =>
      have : ∀ i, i < g.size → (tear g k.next ((Op.write f lba new).run g k).2 which).medium (lba * g.size + i) =
          ((Op.write f lba new).run g k).2.seen (lba * g.size + i) := by
        intro i hi
        simp only [tear, hdiv i hi, hwh, if_true]
      cases ha : k.next.attention with
      | true =>
        refine .inl (all old ho _ ?_ this)
        rw [told_run _ ha]
        exact (safe_told hk).2
      | false =>
        refine .inr (all new hn _ ?_ this)
        exact (write_run hs hf.1 hf.2 (n := 1) (by rw [hn, Nat.one_mul]) hin k ha).2.2

/-- How much is still to come. -/
def ahead (s : State) : Nat := left s.disk + 2 * s.tears.length

section direct

variable {out : Req → Answer → Except (Exn (DevErr Sense)) (Option (Option Bytes))} (L : Lib) (B : Parse.BufLib)
  (other : Bytes → Py (List (String × Int))) {g : Geometry} (hg : Valid g) (hD : Delivers out)
include hg hD

/-- What becomes of a command. -/
theorem torn_direct {c : Call} {op : Op} (h : Asks g L B other c op) (s : State) :
    ∃ (r : Seen) (s' : State), Direct (torn g) out c s r s' ∧
      ((isAttention r = true ∧ Spoilt g op s.disk s'.disk ∧ ahead s' < ahead s) ∨
        (s.disk.next.attention = false ∧ s'.disk = (op.run g s.disk).2 ∧ Shows r (op.run g s.disk).1)) := by
  obtain ⟨q, hb⟩ := base L B other hg hD h
  obtain ⟨hm, hs⟩ := step_cached hD hb s.disk
  obtain ⟨disk, tears⟩ := s
  have hdir : Direct (torn g) out c ⟨disk, tears⟩ (decoded c (out q (torn g ⟨disk, tears⟩ (asked q)).1)) (torn g ⟨disk, tears⟩ (asked q)).2 := by
    simp only [Clients.Direct, askAll, hb.request]
  refine ⟨_, _, hdir, ?_⟩
  simp only at hm hs
  have usual : tears.headD none = none → torn g ⟨disk, tears⟩ (asked q) = ((cached g disk (asked q)).1, { disk := (cached g disk (asked q)).2, tears := tears.tail }) := by
    intro h; simp only [torn, h]
  cases ht : tears.headD none with
  | none =>
    rw [usual ht]
    simp only [hm]
    cases ha : disk.next.attention with
    | false => exact .inr (by simpa using hs)
    | true =>
      rw [told_run op ha] at hs ⊢
      refine .inl ⟨attention_of hs, .inl ⟨ha, rfl⟩, ?_⟩
      have := left_told ha
      simp only [ahead, List.length_tail]
      omega
  | some which =>
    have e : torn g ⟨disk, tears⟩ (asked q) = (failed 6 0x29 0, { disk := tear g disk.next (op.run g disk).2 which, tears := tears.tail }) := by
      simp only [torn, ht, hm]
    rw [e]
    refine .inl ⟨?_, .inr ⟨which, rfl⟩, ?_⟩
    · obtain ⟨raw, sn, e, hsn⟩ := hD.fails q 6 0x29 0 (by decide) (by decide) (by decide)
      exact attention_of ⟨raw, sn, by rw [e]; rfl, hsn⟩
    · cases tears with
      | nil => cases ht
      | cons t ts =>
        obtain ⟨medium, seen, att, coming⟩ := disk
        simp only [ahead, left, tear, State.next, Durable.State.next, List.tail_cons, List.length_cons, List.length_tail]
        simp
        split <;> omega

/-! ## Programs that give commands again -/

/-- A program keeps an invariant, command by command, and ends after a number of commands that are carried out. -/
structure Keeps {σ A : Type} (p : Client σ Call Seen A) (Inv : σ → Durable.State → Prop) (rank : σ → Nat) (Post : A → Durable.State → Prop) (L : Lib) (B : Parse.BufLib)
    (other : Bytes → Py (List (String × Int))) (g : Geometry) : Prop where
  step : ∀ st k, Inv st k → ∃ op, Asks g L B other (p.ask st) op ∧ (∀ k', Spoilt g op k k' → Inv st k') ∧
    (k.next.attention = false → ∀ r, Shows r (op.run g k).1 → isAttention r = false ∧
      ((∃ st', p.next st r = .inl st' ∧ rank st' < rank st ∧ Inv st' (op.run g k).2) ∨ ∃ a, p.next st r = .inr a ∧ Post a (op.run g k).2))

variable {σ A : Type} {p : Client σ Call Seen A} {Inv : σ → Durable.State → Prop} {rank : σ → Nat} {Post : A → Durable.State → Prop}
  (hK : Keeps p Inv rank Post L B other g)
include hK

theorem keeps_step {st : σ} {s : State} (h : Inv st s.disk) : ∃ (r : Seen) (s' : State), Direct (torn g) out (p.ask st) s r s' ∧
    ((isAttention r = true ∧ Inv st s'.disk ∧ ahead s' < ahead s) ∨
      (isAttention r = false ∧ ((∃ st', p.next st r = .inl st' ∧ rank st' < rank st ∧ Inv st' s'.disk) ∨ ∃ a, p.next st r = .inr a ∧ Post a s'.disk))) := by
  obtain ⟨op, h1, h2, h3⟩ := hK.step st s.disk h
  obtain ⟨r, s', h4, h5⟩ := torn_direct L B other hg hD h1 s
  refine ⟨r, s', h4, ?_⟩
  rcases h5 with ⟨h6, h7, h8⟩ | ⟨h6, h7, h8⟩
  · exact .inl ⟨h6, h2 _ h7, h8⟩
  · obtain ⟨h9, h10⟩ := h3 h6 r h8
    rw [← h7] at h10
    exact .inr ⟨h9, h10⟩

/-- It ends. -/
theorem keeps_ends : ∀ (N M : Nat) (st : σ) (s : State), rank st < N → ahead s < M → Inv st s.disk →
    ∃ a s' n, (patient isAttention p).Runs (fun _ => True) (Direct (torn g) out) st s a s' n ∧ Post a s'.disk
  | 0, _, _, _, h, _, _ => absurd h (Nat.not_lt_zero _)
  | _ + 1, 0, _, _, _, h, _ => absurd h (Nat.not_lt_zero _)
  | N + 1, M + 1, st, s, h1, h2, h => by
    obtain ⟨r, s', h3, h4⟩ := keeps_step L B other hg hD hK h
    rcases h4 with ⟨h5, h6, h7⟩ | ⟨h5, ⟨st', h6, h7, h8⟩ | ⟨a, h6, h7⟩⟩
    · obtain ⟨a, s'', n, h8, h9⟩ := keeps_ends (N + 1) M st s' h1 (by omega) h6
      exact ⟨a, s'', n + 1, .more trivial h3 (by simp only [patient, h5, if_true]) h8, h9⟩
    · obtain ⟨a, s'', n, h9, h10⟩ := keeps_ends N (ahead s' + 1) st' s' (by omega) (by omega) h8
      exact ⟨a, s'', n + 1, .more trivial h3 (by simp only [patient, h5, h6]; rfl) h9, h10⟩
    · exact ⟨a, s', 1, .done trivial h3 (by simp only [patient, h5, h6]; rfl), h7⟩

/-- Wherever it is stopped, the invariant is true. -/
theorem keeps_cut {x : σ × Nat} {s s' : State} {a : Option A} {n : Nat} (h : (cut (patient isAttention p)).Runs (fun _ => True) (Direct (torn g) out) x s a s' n)
    (hi : Inv x.1 s.disk) : (a = none ∧ ∃ st, Inv st s'.disk) ∨ ∃ b, a = some b ∧ Post b s'.disk := by
  induction h with
  | @done x s r s' a _ hd hn =>
    obtain ⟨st, i⟩ := x
    obtain ⟨r', s'', h1, h2⟩ := keeps_step L B other hg hD hK hi
    obtain ⟨rfl, rfl⟩ := one_unique _ _ _ _ _ _ hd h1
    rcases h2 with ⟨h5, h6, -⟩ | ⟨h5, ⟨st', h6, -, h8⟩ | ⟨b, h6, h7⟩⟩
    · cases i with
      | zero => simp only [cut, patient, h5, if_true] at hn; exact .inl ⟨(Sum.inr.inj hn).symm, st, h6⟩
      | succ => simp only [cut, patient, h5, if_true] at hn; cases hn
    · cases i with
      | zero => simp only [cut, patient, h5, h6] at hn; exact .inl ⟨(Sum.inr.inj hn).symm, st', h8⟩
      | succ => simp only [cut, patient, h5, h6] at hn; cases hn
    · simp only [cut, patient, h5, h6] at hn
      exact .inr ⟨b, (Sum.inr.inj hn).symm, h7⟩
  | @more x s r s' x' a s'' n _ hd hn _ ih =>
    obtain ⟨st, i⟩ := x
    obtain ⟨r', s'', h1, h2⟩ := keeps_step L B other hg hD hK hi
    obtain ⟨rfl, rfl⟩ := one_unique _ _ _ _ _ _ hd h1
    rcases h2 with ⟨h5, h6, -⟩ | ⟨h5, ⟨st', h6, -, h8⟩ | ⟨b, h6, h7⟩⟩
    · cases i with
      | zero => simp only [cut, patient, h5, if_true] at hn; cases hn
      | succ => simp only [cut, patient, h5, if_true] at hn; cases hn; exact ih h6
    · cases i with
      | zero => simp only [cut, patient, h5, h6] at hn; cases hn
      | succ => simp only [cut, patient, h5, h6] at hn; cases hn; exact ih h8
    · simp only [cut, patient, h5, h6] at hn
      cases hn

/-- It can be stopped anywhere. -/
theorem keeps_stops (i : Nat) (st : σ) (s : State) (hi : Inv st s.disk) :
    ∃ a s' n, (cut (patient isAttention p)).Runs (fun _ => True) (Direct (torn g) out) (st, i) s a s' n := by
  induction i generalizing st s with
  | zero =>
    obtain ⟨r, s', h1, -⟩ := keeps_step L B other hg hD hK hi
    cases hn : (patient isAttention p).next st r with
    | inl s'' => exact ⟨none, s', 1, .done trivial h1 (by simp only [cut, hn])⟩
    | inr a => exact ⟨some a, s', 1, .done trivial h1 (by simp only [cut, hn])⟩
  | succ i ih =>
    obtain ⟨r, s', h1, h2⟩ := keeps_step L B other hg hD hK hi
    rcases h2 with ⟨h5, h6, -⟩ | ⟨h5, ⟨st', h6, -, h8⟩ | ⟨b, h6, h7⟩⟩
    · obtain ⟨a, s'', n, h9⟩ := ih st s' h6
      exact ⟨a, s'', n + 1, .more trivial h1 (by simp only [cut, patient, h5, if_true]) h9⟩
    · obtain ⟨a, s'', n, h9⟩ := ih st' s' h8
      exact ⟨a, s'', n + 1, .more trivial h1 (by simp only [cut, patient, h5, h6]; rfl) h9⟩
    · exact ⟨some b, s', 1, .done trivial h1 (by simp only [cut, patient, h5, h6]; rfl)⟩

end direct

/-! ## The two programs -/

section programs

variable {out : Req → Answer → Except (Exn (DevErr Sense)) (Option (Option Bytes))} (L : Lib) (B : Parse.BufLib)
  (other : Bytes → Py (List (String × Int))) {g : Geometry} (hg : Valid g) (hD : Delivers out) {l : Layout} (hl : l.Fits g)
include hg hD hl

theorem spoilt_stands {op : Op} {k k' : Durable.State} (h : Spoilt g op k k') (hw : op.base.Whole g) {b : Bool} (h1 : op.base.Spares g l.head 1)
    (h2 : op.base.Spares g (l.slot b) l.length) {data : Bytes} (hd : data.length = l.length * g.size) (hs : Stands g l k b data) : Stands g l k' b data := by
  rw [stands_iff hl hd] at *
  exact ⟨spoilt_safe h (by rw [hl.mark b, Nat.one_mul]) hw h1 hs.1, spoilt_safe h hd hw h2 hs.2⟩

theorem read_stands {op : Op} {k : Durable.State} {lba n : Nat} (ho : op.base = .read lba n) {b : Bool} {data : Bytes} (hd : data.length = l.length * g.size)
    (hs : Stands g l k b data) : Stands g l (op.run g k).2 b data ∧ ∀ k', Spoilt g op k k' → Stands g l k' b data := by
  refine ⟨?_, fun k' h => spoilt_stands hg hD hl h (by rw [ho]; trivial) (by rw [ho]; trivial) (by rw [ho]; trivial) hd hs⟩
  have hx := (stands_iff hl hd).1 hs
  exact (stands_iff hl hd).2 ⟨safe_run (n := 1) (by rw [hl.mark b, Nat.one_mul]) op (by rw [ho]; trivial) (by rw [ho]; trivial) hx.1, safe_run hd op (by rw [ho]; trivial) (by rw [ho]; trivial) hx.2⟩

theorem mark_ne (b : Bool) : l.mark b ≠ [] := by
  intro h0
  have := hl.mark b
  have := hg.size.1
  rw [h0] at *
  simp only [List.length_nil] at *
  omega

/-- Looking at the head says where the data is. -/
theorem look_head {op : Op} (ht : Taken op.opts) (ho : op.base = .read l.head 1) {k : Durable.State} (ha : k.next.attention = false) {b : Bool} {data : Bytes}
    (hd : data.length = l.length * g.size) (hs : Stands g l k b data) {r : Seen} (hr : Shows r (op.run g k).1) : r = .ok (some (.obj (.raw (some (l.mark b))))) := by
  rw [read_run ht ho (by rw [hl.mark b, Nat.one_mul]) hl.head k ha ((stands_iff hl hd).1 hs).1] at hr
  simpa only [Shows, if_neg (mark_ne hg hD hl b)] using hr

/-- What is so before a command of `save`. -/
def Inv (g : Geometry) (l : Layout) (old new : Bytes) : Phase → Durable.State → Prop
  | .look, k => ∃ b, Stands g l k b old
  | .fill b, k => Stands g l k (!b) old
  | .point b, k => (Stands g l k (!b) old ∧ Safe k (l.slot b * g.size) new) ∨ Stands g l k b new

def rank : Phase → Nat
  | .look => 2
  | .fill _ => 1
  | .point _ => 0

theorem save_keeps {look : Option Bool → Call} (hlook : Looks L B other g l look) {sv : Save} (hsv : sv.Good L B other g l) {old : Bytes} (hold : old.length = l.length * g.size) :
    Keeps (save l (look none) sv) (Inv g l old sv.data) rank (fun a k => a = true ∧ ∃ b, Stands g l k b sv.data) L B other g where
  step st k h := by
    have hs := hg.size.1
    have hnew := hsv.length
    have hkd : sv.data.length / g.size = l.length := by rw [hnew, Nat.mul_div_cancel _ hs]
    have hm : ∀ b, (l.mark b).length = 1 * g.size := fun b => by rw [hl.mark, Nat.one_mul]
    have hkm : ∀ b, (l.mark b).length / g.size = 1 := fun b => by rw [hm, Nat.mul_div_cancel _ hs]
    cases st with
    | look =>
      obtain ⟨b, hb⟩ := h
      obtain ⟨op, ho1, ho2, ho3⟩ := hlook.1
      obtain ⟨hst, hsp⟩ := read_stands hg hD hl ho2 hold hb
      refine ⟨op, ho1, fun k' h => ⟨b, hsp k' h⟩, fun ha r hr => ?_⟩
      have := look_head hg hD hl ho3 ho2 ha hold hb hr
      subst this
      refine ⟨rfl, .inl ⟨.fill (!b), ?_, by simp [rank], by simpa only [Inv, Bool.not_not] using hst⟩⟩
      show (if l.mark b = l.mark false then _ else _) = _
      cases b with
      | false => rw [if_pos rfl]; rfl
      | true => rw [if_neg (fun e => hl.differ e.symm), if_pos rfl]; rfl
    | fill b =>
      obtain ⟨f, hf, hask⟩ := hsv.fill b
      have hw : (Op.write f (l.slot b) sv.data).base.Whole g := by show _ = _; rw [hkd]; exact hnew
      have sp1 : (Op.write f (l.slot b) sv.data).base.Spares g l.head 1 := by show _ ∨ _; rw [hkd]; exact (hl.outside b).symm
      have sp2 : (Op.write f (l.slot b) sv.data).base.Spares g (l.slot (!b)) l.length := by show _ ∨ _; rw [hkd]; exact hl.apart b
      refine ⟨_, hask, fun k' hk' => spoilt_stands hg hD hl hk' hw sp1 sp2 hold h, fun ha r hr => ?_⟩
      obtain ⟨h1, h2⟩ := write_run hs hf.1 hf.2 hnew (hl.slot b) k ha
      rw [h1] at hr
      cases (show r = _ from hr)
      have hx := (stands_iff hl hold).1 h
      exact ⟨rfl, .inl ⟨.point b, rfl, by simp [rank], .inl ⟨(stands_iff hl hold).2 ⟨safe_run (hm _) _ hw sp1 hx.1, safe_run hold _ hw sp2 hx.2⟩, h2⟩⟩⟩
    | point b =>
      obtain ⟨f, hf, hask⟩ := hsv.point b
      have hw : (Op.write f l.head (l.mark b)).base.Whole g := by show _ = _; rw [hkm]; exact hm b
      have sp : ∀ c, (Op.write f l.head (l.mark b)).base.Spares g (l.slot c) l.length := fun c => by show _ ∨ _; rw [hkm]; exact hl.outside c
      have hslot : Safe k (l.slot b * g.size) sv.data := by
        rcases h with ⟨-, h⟩ | h
        · exact h
        · exact ((stands_iff hl hnew).1 h).2
      refine ⟨_, hask, fun k' hk' => ?_, fun ha r hr => ?_⟩
      · have h3 := spoilt_safe hk' hnew hw (sp b) hslot
        rcases h with ⟨h1, h2⟩ | h
        · have hx := (stands_iff hl hold).1 h1
          rcases spoilt_block hs hf hl.head (hl.mark (!b)) (hl.mark b) hk' hx.1 with h4 | h4
          · exact .inl ⟨(stands_iff hl hold).2 ⟨h4, spoilt_safe hk' hold hw (sp _) hx.2⟩, h3⟩
          · exact .inr ((stands_iff hl hnew).2 ⟨h4, h3⟩)
        · have hx := (stands_iff hl hnew).1 h
          refine .inr ((stands_iff hl hnew).2 ⟨?_, h3⟩)
          rcases spoilt_block hs hf hl.head (hl.mark b) (hl.mark b) hk' hx.1 with h4 | h4 <;> exact h4
      · obtain ⟨h1, h2⟩ := write_run hs hf.1 hf.2 (hm b) hl.head k ha
        rw [h1] at hr
        cases (show r = _ from hr)
        exact ⟨rfl, .inr ⟨true, rfl, rfl, b, (stands_iff hl hnew).2 ⟨h2, safe_run hnew _ hw (sp b) hslot⟩⟩⟩

/-- Reading the data. -/
theorem recover_keeps {look : Option Bool → Call} (hlook : Looks L B other g l look) {data : Bytes} (hd : data.length = l.length * g.size) (b : Bool) :
    Keeps (recover l look) (fun st k => Stands g l k b data ∧ (st = none ∨ st = some b)) (fun st => if st = none then 1 else 0) (fun a k => a = some data ∧ Stands g l k b data) L B other g where
  step st k h := by
    have hs := hg.size.1
    have hne : data ≠ [] := data_ne hs hd hl.nonempty
    obtain ⟨h, rfl | rfl⟩ := h
    · obtain ⟨op, ho1, ho2, ho3⟩ := hlook.1
      obtain ⟨hst, hsp⟩ := read_stands hg hD hl ho2 hd h
      refine ⟨op, ho1, fun k' h => ⟨hsp k' h, .inl rfl⟩, fun ha r hr => ?_⟩
      have := look_head hg hD hl ho3 ho2 ha hd h hr
      subst this
      refine ⟨rfl, .inl ⟨some b, ?_, by simp, hst, .inr rfl⟩⟩
      show (if l.mark b = l.mark false then _ else _) = _
      cases b with
      | false => rw [if_pos rfl]
      | true => rw [if_neg (fun e => hl.differ e.symm), if_pos rfl]
    · obtain ⟨op, ho1, ho2, ho3⟩ := hlook.2 b
      obtain ⟨hst, hsp⟩ := read_stands hg hD hl ho2 hd h
      refine ⟨op, ho1, fun k' h => ⟨hsp k' h, .inr rfl⟩, fun ha r hr => ?_⟩
      rw [read_run ho3 ho2 hd (hl.slot b) k ha ((stands_iff hl hd).1 h).2] at hr
      simp only [Shows, if_neg hne] at hr
      subst hr
      exact ⟨rfl, .inr ⟨some data, rfl, rfl, hst⟩⟩

end programs

/-! ## Through the library -/

theorem torn_parses (g : Geometry) : ∀ s q, (torn g s q).1.status ≠ 0 → ∃ sn, getSense (padded 255 (torn g s q).1.sense) = .ok sn := by
  intro s q h
  unfold torn at h ⊢
  split
  · rename_i e; rw [e] at h; exact cached_parses g _ _ h
  · obtain ⟨s, hs, -⟩ := getSense_says _ (by rw [padded_length]; decide) 6 0x29 0
      (reports_padded _ _ _ _ (failed_reports 6 0x29 0 (by decide) (by decide) (by decide)))
    exact ⟨_, hs⟩

/-- The program with its commands, giving a command again while there is a unit attention. -/
abbrev saving (l : Layout) (look : Option Bool → Call) (sv : Save) := patient isAttention (save l (look none) sv)

section machine

variable {Q Gp ω : Type} [DecidableEq K]

/-- What may have been done with the disk: the programs that replace the data and that read it were run one after the other, each with an executer that is not in use (the
same or another), and each stopped after any number of commands if it had not ended. The list has the new data, and what the program returned if it was not stopped. -/
inductive Lived (M : Machine (Frame Req Q K (Option Bytes) Result Gp) (W Q K (Option Bytes) (DevErr Sense) ω) (Val (Option Bytes) (DevErr Sense) Result) (Exn (DevErr Sense)) T)
    (idle : W Q K (Option Bytes) (DevErr Sense) ω → State → Prop) (l : Layout) (look : Option Bool → Call) : State → List (Save × Option Bool) → State → Prop
  | nil {k} : Lived M idle l look k [] k
  | save {k k' k'' : State} {sv : Save} {i a w w' n rest} : idle w k → (cut (saving l look sv)).Runs (fun _ => True) (Through M) (.look, i) w a w' n → idle w' k' →
      Lived M idle l look k' rest k'' → Lived M idle l look k ((sv, a) :: rest) k''
  | read {k k' k'' : State} {i a w w' n rest} : idle w k → (cut (reading l look)).Runs (fun _ => True) (Through M) (none, i) w a w' n → idle w' k' →
      Lived M idle l look k' rest k'' → Lived M idle l look k rest k''

/-- The data of an update, and whether it ended. -/
def result (u : Save × Option Bool) : Bytes × Bool := (u.1.data, u.2 == some true)

variable {M : Machine (Frame Req Q K (Option Bytes) Result Gp) (W Q K (Option Bytes) (DevErr Sense) ω) (Val (Option Bytes) (DevErr Sense) Result) (Exn (DevErr Sense)) T}
  {out : Req → Answer → Except (Exn (DevErr Sense)) (Option (Option Bytes))} {fits : Req → Prop} {idle : W Q K (Option Bytes) (DevErr Sense) ω → State → Prop}

theorem latest_save {first found : Bytes} {u : Bytes × Bool} {us : List (Bytes × Bool)} (h : (u.2 = false ∧ Latest first us found) ∨ Latest u.1 us found) :
    Latest first (u :: us) found := by
  rcases h with ⟨hu, done, since, rfl, h1, h2⟩ | ⟨done, since, rfl, h1, h2⟩
  · cases done with
    | nil => exact ⟨[], u :: since, rfl, fun x hx => (List.mem_cons.1 hx).elim (fun e => e ▸ hu) (h1 x), h2⟩
    | cons d ds => exact ⟨u :: d :: ds, since, rfl, h1, by rw [h2, List.getLast?_cons_cons]⟩
  · refine ⟨u :: done, since, rfl, h1, ?_⟩
    cases done with
    | nil => exact h2
    | cons d ds => rw [h2, List.getLast?_cons_cons]; simp [List.getLast?_eq_some_getLast]

/-- The requests of a program can be carried. -/
def Fit (fits : Req → Prop) (sv : Save) : Prop := ∀ b, Carried fits [sv.fill b, sv.point b]

section

variable (L : Lib) (B : Parse.BufLib) (other : Bytes → Py (List (String × Int))) {g : Geometry} (hg : Valid g) (hD : Delivers out) (hS : Serves M (torn g) out fits idle)
  (hI : ∀ w k k', idle w k → idle w k' → k = k') {l : Layout} (hl : l.Fits g) {look : Option Bool → Call} (hlook : Looks L B other g l look)
  (hfit : Carried fits [look none, look (some false), look (some true)])
include hg hD hS hI hl hlook hfit

theorem look_fits (s : Option Bool) (q : Req) (hq : (look s).request = .ok q) : fits q := by
  cases s with
  | none => exact hfit (look none) (by simp) q hq
  | some b => cases b with
    | false => exact hfit (look (some false)) (by simp) q hq
    | true => exact hfit (look (some true)) (by simp) q hq

theorem save_fits {sv : Save} (h : Fit fits sv) (s : Phase) (q : Req) (hq : ((saving l look sv).ask s).request = .ok q) : fits q := by
  cases s with
  | look => exact hfit (look none) (by simp) q hq
  | fill b => exact h b (sv.fill b) (by simp) q hq
  | point b => exact h b (sv.point b) (by simp) q hq

theorem inv_stands {old new : Bytes} {st : Phase} {k : Durable.State} (h : Inv g l old new st k) : ∃ b, Stands g l k b old ∨ Stands g l k b new := by
  cases st with
  | look => obtain ⟨b, h⟩ := h; exact ⟨b, .inl h⟩
  | fill b => exact ⟨!b, .inl h⟩
  | point b =>
    rcases h with ⟨h, -⟩ | h
    · exact ⟨!b, .inl h⟩
    · exact ⟨b, .inr h⟩

/-- Reading on a disk that has the data. -/
theorem reads {k : State} {b : Bool} {data : Bytes} (hd : data.length = l.length * g.size) (h : Stands g l k.disk b data) (w : W Q K (Option Bytes) (DevErr Sense) ω) (hw : idle w k) :
    (∃ w' n, (reading l look).Runs (fun _ => True) (Through M) none w (some data) w' n) ∧
      ∀ x w' n, (reading l look).Runs (fun _ => True) (Through M) none w x w' n → x = some data := by
  have same_r := fun a n => same (p := reading l look) (ok := fun _ => True) hS (fun s _ q => look_fits L B other hg hD hS hI hl hlook hfit s q) none w k hw a n
  obtain ⟨a, s', n, h1, rfl, -⟩ := keeps_ends L B other hg hD (recover_keeps L B other hg hD hl hlook hd b) _ _ none k (Nat.lt_succ_self _) (Nat.lt_succ_self _) ⟨h, .inl rfl⟩
  obtain ⟨w', h2, -⟩ := (same_r _ n).1 s' h1
  refine ⟨⟨w', n, h2⟩, fun x w₂ m hx => ?_⟩
  obtain ⟨k₂, h3, -⟩ := (same_r x m).2 w₂ hx
  exact (runs_unique one_unique h3 h1).1

/-- The history. -/
theorem lived_latest {k k' : State} {us : List (Save × Option Bool)} (h : Lived M idle l look k us k') {b : Bool} {first : Bytes} (hf : first.length = l.length * g.size)
    (hst : Stands g l k.disk b first) (hus : ∀ u ∈ us, u.1.Good L B other g l ∧ Fit fits u.1) :
    (∀ u ∈ us, u.2 ≠ some false) ∧ ∃ b' found, found.length = l.length * g.size ∧ Stands g l k'.disk b' found ∧ Latest first (us.map result) found := by
  induction h generalizing b first with
  | nil => exact ⟨nofun, b, first, hf, hst, [], [], rfl, nofun, rfl⟩
  | @save k k' k'' sv i a w w' n rest hw hrun hw' _ ih =>
    obtain ⟨hgood, hfits⟩ := hus (sv, a) List.mem_cons_self
    have hus' : ∀ u ∈ rest, u.1.Good L B other g l ∧ Fit fits u.1 := fun u hu => hus u (List.mem_cons_of_mem _ hu)
    obtain ⟨k₁, h1, h2⟩ := (same (p := cut (saving l look sv)) (ok := fun _ => True) hS
      (fun s _ q => save_fits L B other hg hD hS hI hl hlook hfit hfits s.1 q) (.look, i) w k hw a n).2 w' hrun
    cases hI _ _ _ hw' h2
    rcases keeps_cut L B other hg hD (save_keeps L B other hg hD hl hlook hgood hf) h1 ⟨b, hst⟩ with ⟨rfl, st, h3⟩ | ⟨c, rfl, rfl, b', h3⟩
    · obtain ⟨b', h3 | h3⟩ := inv_stands L B other hg hD hS hI hl hlook hfit h3
      · obtain ⟨h4, b'', found, h5, h6, h7⟩ := ih hf h3 hus'
        refine ⟨fun u hu => (List.mem_cons.1 hu).elim (fun e => by rw [e]; nofun) (h4 u), b'', found, h5, h6, latest_save (.inl ⟨rfl, h7⟩)⟩
      · obtain ⟨h4, b'', found, h5, h6, h7⟩ := ih hgood.length h3 hus'
        refine ⟨fun u hu => (List.mem_cons.1 hu).elim (fun e => by rw [e]; nofun) (h4 u), b'', found, h5, h6, latest_save (.inr h7)⟩
    · obtain ⟨h4, b'', found, h5, h6, h7⟩ := ih hgood.length h3 hus'
      refine ⟨fun u hu => (List.mem_cons.1 hu).elim (fun e => by rw [e]; nofun) (h4 u), b'', found, h5, h6, latest_save (.inr h7)⟩
  | @read k k' k'' i a w w' n rest hw hrun hw' _ ih =>
    obtain ⟨k₁, h1, h2⟩ := (same (p := cut (reading l look)) (ok := fun _ => True) hS
      (fun s _ q => look_fits L B other hg hD hS hI hl hlook hfit s.1 q) (none, i) w k hw a n).2 w' hrun
    cases hI _ _ _ hw' h2
    rcases keeps_cut L B other hg hD (recover_keeps L B other hg hD hl hlook hf b) h1 ⟨hst, .inl rfl⟩ with ⟨-, st, h3⟩ | ⟨c, -, -, h3⟩
    · exact ih hf h3.1 hus
    · exact ih hf h3 hus

/-- C104, for any platform. -/
theorem record {k k' : State} {us : List (Save × Option Bool)} (h : Lived M idle l look k us k') {b : Bool} {first : Bytes} (hf : first.length = l.length * g.size)
    (hst : Stands g l k.disk b first) (hus : ∀ u ∈ us, u.1.Good L B other g l ∧ Fit fits u.1) :
    (∀ u ∈ us, u.2 ≠ some false) ∧
    (∃ b' found, Stands g l k'.disk b' found ∧ Latest first (us.map result) found ∧ ∀ w, idle w k' →
      (∃ w' n, (reading l look).Runs (fun _ => True) (Through M) none w (some found) w' n) ∧
      ∀ x w' n, (reading l look).Runs (fun _ => True) (Through M) none w x w' n → x = some found) ∧
    ∀ sv : Save, sv.Good L B other g l → Fit fits sv → ∀ w, idle w k' →
      (∃ w' n, (saving l look sv).Runs (fun _ => True) (Through M) .look w true w' n) ∧
      ∀ i, ∃ a w' n k'', (cut (saving l look sv)).Runs (fun _ => True) (Through M) (.look, i) w a w' n ∧ idle w' k'' := by
  obtain ⟨h1, b', found, h2, h3, h4⟩ := lived_latest L B other hg hD hS hI hl hlook hfit h hf hst hus
  refine ⟨h1, ⟨b', found, h3, h4, fun w hw => reads L B other hg hD hS hI hl hlook hfit h2 h3 w hw⟩, fun sv hgood hfits w hw => ⟨?_, fun i => ?_⟩⟩
  · obtain ⟨a, s', n, h5, rfl, -⟩ := keeps_ends L B other hg hD (save_keeps L B other hg hD hl hlook hgood h2) _ _ .look k' (Nat.lt_succ_self _) (Nat.lt_succ_self _) ⟨b', h3⟩
    obtain ⟨w', h6, -⟩ := (same (p := saving l look sv) (ok := fun _ => True) hS (fun s _ q => save_fits L B other hg hD hS hI hl hlook hfit hfits s q) .look w k' hw true n).1 s' h5
    exact ⟨w', n, h6⟩
  · obtain ⟨a, s', n, h5⟩ := keeps_stops L B other hg hD (save_keeps L B other hg hD hl hlook hgood h2) i .look k' ⟨b', h3⟩
    obtain ⟨w', h6, h7⟩ := (same (p := cut (saving l look sv)) (ok := fun _ => True) hS
      (fun s _ q => save_fits L B other hg hD hS hI hl hlook hfit hfits s.1 q) (.look, i) w k' hw a n).1 s' h5
    exact ⟨a, w', n, s', h6, h7⟩

end

end machine

/-- **C104 on Linux.** A record is kept in two slots. Programs that replace it were run, one after the other, each with other data, some of them stopped before they ended, on a
disk that loses power between commands and in the middle of them. No program that ended failed. A program that reads the record ends, with the data of one of the updates (or
with what was there at first) such that every later one was interrupted. And a further update ends if it is not stopped, and can be stopped anywhere. -/
theorem C104_linux [DecidableEq K] (c : Bool) (alloc : Nat → Alloc) (t : Int) (ht : 0 ≤ t ∧ t < 2 ^ 32) (L : Lib) (B : Parse.BufLib) (other : Bytes → Py (List (String × Int))) (g : Geometry) (hg : Valid g)
    (l : Layout) (hl : l.Fits g) (look : Option Bool → Call) (hlook : Looks L B other g l look) (hfit : Carried (LinuxOk alloc) [look none, look (some false), look (some true)])
    (k k' : State) (us : List (Save × Option Bool)) :
    let M := machine (T := T) (Linux.sgBlocking (K := K) (lp64 c) getSense (Linux.sgDevice c (torn g))).plat (Linux.prepare (lp64 c) alloc t)
    let idle := fun (w : W Handle K (Option Bytes) (DevErr Sense) (World (State × Option Bytes))) (k : State) => LinuxIdle w.st w.os k
    Lived M idle l look k us k' → ∀ (b : Bool) (first : Bytes), first.length = l.length * g.size → Stands g l k.disk b first →
      (∀ u ∈ us, u.1.Good L B other g l ∧ Fit (LinuxOk alloc) u.1) →
    (∀ u ∈ us, u.2 ≠ some false) ∧
    (∃ b' found, Stands g l k'.disk b' found ∧ Latest first (us.map result) found ∧ ∀ w, idle w k' →
      (∃ w' n, (reading l look).Runs (fun _ => True) (Through M) none w (some found) w' n) ∧
      ∀ x w' n, (reading l look).Runs (fun _ => True) (Through M) none w x w' n → x = some found) ∧
    ∀ sv : Save, sv.Good L B other g l → Fit (LinuxOk alloc) sv → ∀ w, idle w k' →
      (∃ w' n, (saving l look sv).Runs (fun _ => True) (Through M) .look w true w' n) ∧
      ∀ i, ∃ a w' n k'', (cut (saving l look sv)).Runs (fun _ => True) (Through M) (.look, i) w a w' n ∧ idle w' k'' :=
  fun h _ _ hf hst hus => record (idle := fun w k => LinuxIdle w.st w.os k) L B other hg outcome_delivers (serves_linux (K := K) (T := T) c getSense (torn g) alloc t ht fun m q h => torn_parses g m q (by intro h0; rw [h0] at h; simp at h)) (fun _ _ _ h h' => h.2.2.2.2.symm.trans h'.2.2.2.2) hl hlook hfit h hf hst hus

/-- **C104 on Solaris.** -/
theorem C104_solaris [DecidableEq K] (c : Bool) (alloc : Nat → Alloc) (t : Int) (ht : 0 ≤ t ∧ t < 2 ^ 15) (L : Lib) (B : Parse.BufLib) (other : Bytes → Py (List (String × Int))) (g : Geometry) (hg : Valid g)
    (l : Layout) (hl : l.Fits g) (look : Option Bool → Call) (hlook : Looks L B other g l look) (hfit : Carried (SolarisOk alloc) [look none, look (some false), look (some true)])
    (k k' : State) (us : List (Save × Option Bool)) :
    let M := machine (T := T) (Solaris.solBlocking (K := K) (lp64 c) getSense (Solaris.uscsiDevice c (torn g))).plat (Solaris.prepare (lp64 c) alloc t)
    let idle := fun (w : W Handle K (Option Bytes) (DevErr Sense) (Solaris.SolWorld State)) (k : State) => SolarisIdle w.st w.os k
    Lived M idle l look k us k' → ∀ (b : Bool) (first : Bytes), first.length = l.length * g.size → Stands g l k.disk b first →
      (∀ u ∈ us, u.1.Good L B other g l ∧ Fit (SolarisOk alloc) u.1) →
    (∀ u ∈ us, u.2 ≠ some false) ∧
    (∃ b' found, Stands g l k'.disk b' found ∧ Latest first (us.map result) found ∧ ∀ w, idle w k' →
      (∃ w' n, (reading l look).Runs (fun _ => True) (Through M) none w (some found) w' n) ∧
      ∀ x w' n, (reading l look).Runs (fun _ => True) (Through M) none w x w' n → x = some found) ∧
    ∀ sv : Save, sv.Good L B other g l → Fit (SolarisOk alloc) sv → ∀ w, idle w k' →
      (∃ w' n, (saving l look sv).Runs (fun _ => True) (Through M) .look w true w' n) ∧
      ∀ i, ∃ a w' n k'', (cut (saving l look sv)).Runs (fun _ => True) (Through M) (.look, i) w a w' n ∧ idle w' k'' :=
  fun h _ _ hf hst hus => record (idle := fun w k => SolarisIdle w.st w.os k) L B other hg outcome_delivers (serves_solaris (K := K) (T := T) c getSense (torn g) alloc t ht fun m q h => torn_parses g m q (by intro h0; rw [h0] at h; simp at h)) (fun _ _ _ h h' => h.2.2.2.symm.trans h'.2.2.2) hl hlook hfit h hf hst hus

/-- **C104 on AIX.** -/
theorem C104_aix [DecidableEq K] (c : Aix.Binding) (alloc : Nat → Alloc) (t : Int) (ht : 0 ≤ t ∧ t < 2 ^ 32) (L : Lib) (B : Parse.BufLib) (other : Bytes → Py (List (String × Int))) (g : Geometry) (hg : Valid g)
    (l : Layout) (hl : l.Fits g) (look : Option Bool → Call) (hlook : Looks L B other g l look) (hfit : Carried (AixOk c alloc) [look none, look (some false), look (some true)])
    (k k' : State) (us : List (Save × Option Bool)) :
    let M := machine (T := T) (Aix.aixBlocking (K := K) (lp64 false) getSense c (Aix.scDevice (torn g))).plat (Aix.prepare (lp64 false) alloc t)
    let idle := fun (w : W Handle K (Option Bytes) (DevErr Sense) (Aix.AixWorld State)) (k : State) => AixIdle w.st w.os k
    Lived M idle l look k us k' → ∀ (b : Bool) (first : Bytes), first.length = l.length * g.size → Stands g l k.disk b first →
      (∀ u ∈ us, u.1.Good L B other g l ∧ Fit (AixOk c alloc) u.1) →
    (∀ u ∈ us, u.2 ≠ some false) ∧
    (∃ b' found, Stands g l k'.disk b' found ∧ Latest first (us.map result) found ∧ ∀ w, idle w k' →
      (∃ w' n, (reading l look).Runs (fun _ => True) (Through M) none w (some found) w' n) ∧
      ∀ x w' n, (reading l look).Runs (fun _ => True) (Through M) none w x w' n → x = some found) ∧
    ∀ sv : Save, sv.Good L B other g l → Fit (AixOk c alloc) sv → ∀ w, idle w k' →
      (∃ w' n, (saving l look sv).Runs (fun _ => True) (Through M) .look w true w' n) ∧
      ∀ i, ∃ a w' n k'', (cut (saving l look sv)).Runs (fun _ => True) (Through M) (.look, i) w a w' n ∧ idle w' k'' :=
  fun h _ _ hf hst hus => record (idle := fun w k => AixIdle w.st w.os k) L B other hg outcome_delivers (serves_aix (K := K) (T := T) getSense c (torn g) alloc t ht fun m q h => torn_parses g m q (by intro h0; rw [h0] at h; simp at h)) (fun _ _ _ h h' => h.2.2.2.symm.trans h'.2.2.2) hl hlook hfit h hf hst hus

/-- **C104 on Windows.** -/
theorem C104_windows [DecidableEq K] (c : Bool) (alloc : Nat → Alloc) (L : Lib) (B : Parse.BufLib) (other : Bytes → Py (List (String × Int))) (g : Geometry) (hg : Valid g)
    (l : Layout) (hl : l.Fits g) (look : Option Bool → Call) (hlook : Looks L B other g l look) (hfit : Carried (WindowsOk c alloc) [look none, look (some false), look (some true)])
    (k k' : State) (us : List (Save × Option Bool)) :
    let M := machine (T := T) (Win32.winPlat (K := K) (Win32.W c) getSense (Win32.sptDevice c (torn g))) (Win32.prepare (Win32.W c) alloc)
    let idle := fun (w : W Win32.Spt K (Option Bytes) (DevErr Sense) (Win32.WinWorld State)) (k : State) => WindowsIdle w.st w.os k
    Lived M idle l look k us k' → ∀ (b : Bool) (first : Bytes), first.length = l.length * g.size → Stands g l k.disk b first →
      (∀ u ∈ us, u.1.Good L B other g l ∧ Fit (WindowsOk c alloc) u.1) →
    (∀ u ∈ us, u.2 ≠ some false) ∧
    (∃ b' found, Stands g l k'.disk b' found ∧ Latest first (us.map result) found ∧ ∀ w, idle w k' →
      (∃ w' n, (reading l look).Runs (fun _ => True) (Through M) none w (some found) w' n) ∧
      ∀ x w' n, (reading l look).Runs (fun _ => True) (Through M) none w x w' n → x = some found) ∧
    ∀ sv : Save, sv.Good L B other g l → Fit (WindowsOk c alloc) sv → ∀ w, idle w k' →
      (∃ w' n, (saving l look sv).Runs (fun _ => True) (Through M) .look w true w' n) ∧
      ∀ i, ∃ a w' n k'', (cut (saving l look sv)).Runs (fun _ => True) (Through M) (.look, i) w a w' n ∧ idle w' k'' :=
  fun h _ _ hf hst hus => record (idle := fun w k => WindowsIdle w.st w.os k) L B other hg winOutcome_delivers (serves_windows (K := K) (T := T) c getSense (torn g) alloc fun m q h => torn_parses g m q (by rw [h]; decide)) (fun _ _ _ h h' => h.2.2.symm.trans h'.2.2) hl hlook hfit h hf hst hus

/-! ## Overwriting in place is not enough -/

/-- **C104 fails for data that is overwritten where it is**, on Linux, with FUA and one WRITE: power was lost during the command, and half of the data is new. -/
theorem C104_inplace_false [DecidableEq K] (c : Bool) (alloc : Nat → Alloc) (t : Int) (ht : 0 ≤ t ∧ t < 2 ^ 32) (L : Lib) (B : Parse.BufLib) (other : Bytes → Py (List (String × Int))) (g : Geometry)
    (hg : Valid g) (lba : Nat) (hin : lba + 2 ≤ g.blocks) (m : Contents) (new : Bytes) (hnew : new.length = 2 * g.size) (write look : Call) (f : Opts) (hf : f.fua = 1 ∧ Taken f)
    (hwrite : Asks g L B other write (.write f lba new)) (op : Op) (hlook : Asks g L B other look op) (hop : op.base = .read lba 2 ∧ Taken op.opts)
    (hfit : Carried (LinuxOk alloc) [write, look]) (w : W Handle K (Option Bytes) (DevErr Sense) (World (State × Option Bytes)))
    (hw : LinuxIdle w.st w.os { disk := { medium := m, seen := m, attention := false, coming := [] }, tears := [some fun x => x == lba] }) :
    let M := machine (T := T) (Linux.sgBlocking (lp64 c) getSense (Linux.sgDevice c (torn g))).plat (Linux.prepare (lp64 c) alloc t)
    ∃ r w' w'', Through M write w r w' ∧ isAttention r = true ∧
      Through M look w' (.ok (some (.obj (.raw (some (new.take g.size ++ readAt m ((lba + 1) * g.size) g.size)))))) w'' := by
  have hs := hg.size.1
  have hS := serves_linux (R := Result) (K := K) (T := T) c getSense (torn g) alloc t ht fun m q h => torn_parses g m q (by intro h0; rw [h0] at h; simp at h)
  let k : State := { disk := { medium := m, seen := m, attention := false, coming := [] }, tears := [some fun x => x == lba] }
  let x : Contents := fun y => if y / g.size == lba then writeAt m (lba * g.size) new y else m y
  let k1 : State := { disk := { medium := x, seen := x, attention := false, coming := [] }, tears := [] }
  have hk : new.length / g.size = 2 := by rw [hnew, Nat.mul_div_cancel _ hs]
  have hrun : ((Op.write f lba new).run g k.disk).2.seen = writeAt m (lba * g.size) new := by
    obtain ⟨h1, h2, h3⟩ := hf.2
    simp only [Op.run, Durable.State.next, k, List.headD, List.foldl, Op.opts, h1, h2, h3, Op.base, Disk.Op.run, hk, if_pos hin]
    simp
  obtain ⟨q, hb⟩ := base L B other hg outcome_delivers hwrite
  obtain ⟨hm, -⟩ := step_cached outcome_delivers hb k.disk
  have e1 : torn g k (asked q) = (failed 6 0x29 0, k1) := by
    show (failed 6 0x29 0, ({ disk := tear g k.disk.next (cached g k.disk (asked q)).2 fun x => x == lba, tears := [] } : State)) = _
    rw [hm]
    simp only [tear, hrun]
    rfl
  obtain ⟨raw, sn, e2, hsn⟩ := outcome_delivers.fails q 6 0x29 0 (by decide) (by decide) (by decide)
  obtain ⟨w', h1, h2⟩ := hS write w k (fun q hq => hfit write (by simp) q hq) hw
  have e3 : askAll (torn g) (Platform.outcome getSense) [write] k = ([decoded write (Platform.outcome getSense q (failed 6 0x29 0))], k1) := by
    simp only [askAll, hb.request, e1]
  rw [e3] at h1 h2
  obtain ⟨q', hb'⟩ := base L B other hg outcome_delivers hlook
  obtain ⟨hm', hs'⟩ := step_cached outcome_delivers hb' k1.disk
  obtain ⟨w'', h3, -⟩ := hS look w' k1 (fun q hq => hfit look (by simp) q hq) h2
  have e4 : torn g k1 (asked q') = ((cached g k1.disk (asked q')).1, { disk := (cached g k1.disk (asked q')).2, tears := [] }) := rfl
  have e5 : askAll (torn g) (Platform.outcome getSense) [look] k1 = ([decoded look (Platform.outcome getSense q' (cached g k1.disk (asked q')).1)], (torn g k1 (asked q')).2) := by
    simp only [askAll, hb'.request, e4]
  rw [e5] at h3
  refine ⟨_, w', w'', h1, attention_of ⟨raw, sn, by rw [e2]; rfl, hsn⟩, ?_⟩
  have hread : (op.run g k1.disk).1 = .data (readAt x (lba * g.size) (2 * g.size)) := by
    obtain ⟨t1, t2, t3⟩ := hop.2
    simp only [Op.run, Durable.State.next, k1, List.headD, List.foldl, t1, t2, t3, hop.1, Disk.Op.run, if_pos hin]
    simp
  have hmix : readAt x (lba * g.size) (2 * g.size) = new.take g.size ++ readAt m ((lba + 1) * g.size) g.size := by
    apply List.ext_getElem
    · simp only [readAt_length, List.length_append, List.length_take, hnew]; omega
    · intro i h4 h5
      rw [readAt_length] at h4
      simp only [readAt, List.getElem_map, List.getElem_range, x]
      by_cases hi : i < g.size
      · have hd : (lba * g.size + i) / g.size = lba := by rw [Nat.add_comm, Nat.add_mul_div_right _ _ hs, Nat.div_eq_of_lt hi, Nat.zero_add]
        rw [List.getElem_append_left (by simp only [List.length_take, hnew]; omega)]
        simp only [hd, beq_self_eq_true, if_true, List.getElem_take]
        have := (holds_iff _ _ _).1 (show Holds (writeAt m (lba * g.size) new) (lba * g.size) new from readAt_writeAt m (lba * g.size) new) i (by omega)
        exact this
      · have hd : (lba * g.size + i) / g.size = lba + 1 := by
          rw [show lba * g.size + i = (i - g.size) + (lba + 1) * g.size by rw [Nat.add_mul]; omega, Nat.add_mul_div_right _ _ hs, Nat.div_eq_of_lt (by omega), Nat.zero_add]
        rw [List.getElem_append_right (by simp only [List.length_take, hnew]; omega)]
        simp only [hd, List.getElem_map, List.getElem_range, List.length_take, hnew]
        rw [if_neg (by simp)]
        exact congrArg m (by rw [Nat.add_mul]; omega)
  rw [hread, hmix] at hs'
  have hne : new.take g.size ++ readAt m ((lba + 1) * g.size) g.size ≠ [] := by
    intro h0
    have := congrArg List.length h0
    simp only [List.length_append, List.length_take, readAt_length, hnew, List.length_nil] at this
    omega
  simp only [Shows, if_neg hne] at hs'
  rw [hs'] at h3
  exact h3

/-! ## The hypotheses are met -/

theorem small_fill (data : Bytes) (hd : data.length = 2 * 512) : ∃ o, newWrite10 1 data 512 = .ok o := by
  refine ⟨⟨.write10, [("transfer_length", 2), ("block_size", 512), ("logical_block_address", 1)], data⟩, ?_⟩
  simp only [newWrite10, hd]
  rfl

/-- `cmd = Write10Command(lba, data); cmd.fua = 1` -/
def forcedWrite (L : Lib) (lba : Nat) (data : Bytes) : Call :=
  match newWrite10 lba data 512 with
  | .ok o => objCommand L (o.sets [("fua", 1)])
  | .error _ => objCommand L ⟨.write10, [], []⟩

/-- Replacing the data in the layout of the example of C103. -/
def smallSave (L : Lib) (data : Bytes) : Save :=
  { data := data, fill := fun b => if b then forcedWrite L 3 data else forcedWrite L 1 data, point := fun b => forcedWrite L 0 (small.mark b) }

theorem forced_write (L : Lib) (B : Parse.BufLib) (other : Bytes → Py (List (String × Int))) (lba n : Nat) (hl : lba < 5) (hn : n < 3) (data : Bytes) (hd : data.length = n * 512)
    (ho : ∃ o, newWrite10 lba data 512 = .ok o) : Asks ⟨512, 1000⟩ L B other (forcedWrite L lba data) (.write { fua := 1 } lba data) ∧
      ∀ q, (forcedWrite L lba data).request = .ok q → LinuxOk (fun _ => { block := 4096, sense := 8192, cmd := 12288, data := 16384 }) q := by
  obtain ⟨o, h1, h2, h3⟩ := small_write L B other lba n 1 hl hn (by decide) data hd ho
  have : forcedWrite L lba data = objCommand L (o.sets [("fua", 1)]) := by simp only [forcedWrite, h1]
  rw [this]
  exact ⟨h2, h3⟩

theorem small_good (L : Lib) (B : Parse.BufLib) (other : Bytes → Py (List (String × Int))) (data : Bytes) (hd : data.length = 1024) :
    (smallSave L data).Good L B other ⟨512, 1000⟩ small ∧ Fit (LinuxOk (fun _ => { block := 4096, sense := 8192, cmd := 12288, data := 16384 })) (smallSave L data) := by
  have h3 := forced_write L B other 3 2 (by decide) (by decide) data hd ((small_new data).1 hd)
  have h1 := forced_write L B other 1 2 (by decide) (by decide) data hd (small_fill data hd)
  have hpt : ∀ b, (smallSave L data).point b = forcedWrite L 0 (small.mark b) := fun b => by simp only [smallSave]
  have hff : (smallSave L data).fill false = forcedWrite L 1 data := by simp only [smallSave, Bool.false_eq_true, if_false]
  have hft : (smallSave L data).fill true = forcedWrite L 3 data := by simp only [smallSave, if_true]
  have hm : ∀ b, (small.mark b).length = 1 * 512 := fun b => List.length_replicate
  have h0 := fun b => forced_write L B other 0 1 (by decide) (by decide) (small.mark b) (hm b) ((small_new _).2 (hm b))
  refine ⟨⟨hd, fun b => ⟨{ fua := 1 }, ⟨rfl, rfl, rfl, rfl⟩, ?_⟩, fun b => ⟨{ fua := 1 }, ⟨rfl, rfl, rfl, rfl⟩, ?_⟩⟩, fun b c hc q hq => ?_⟩
  rotate_left
  · rw [hpt, show small.head = 0 from rfl]
    exact (h0 b).1
  rotate_left
  · cases b with
    | false => rw [hff]; exact h1.1
    | true => rw [hft]; exact h3.1
  · simp only [List.mem_cons, List.not_mem_nil, or_false] at hc
    rcases hc with hc | hc
    · cases b with
      | false => rw [hc, hff] at hq; exact h1.2 q hq
      | true => rw [hc, hft] at hq; exact h3.2 q hq
    · rw [hc, hpt] at hq; exact (h0 b).2 q hq

/-- Any data in any order, stopped anywhere: it can be so. -/
theorem small_lived (L : Lib) (B : Parse.BufLib) (other : Bytes → Py (List (String × Int))) :
    let M := machine (T := Unit) (Linux.sgBlocking (K := Unit) (lp64 true) getSense (Linux.sgDevice true (torn ⟨512, 1000⟩))).plat
      (Linux.prepare (lp64 true) (fun _ => { block := 4096, sense := 8192, cmd := 12288, data := 16384 }) 30000)
    let idle := fun (w : W Handle Unit (Option Bytes) (DevErr Sense) (World (State × Option Bytes))) (k : State) => LinuxIdle w.st w.os k
    ∀ (plan : List (Bytes × Nat)), (∀ p ∈ plan, p.1.length = 1024) → ∀ (w : W Handle Unit (Option Bytes) (DevErr Sense) (World (State × Option Bytes))) (k : State), idle w k →
      ∀ b (first : Bytes), first.length = 1024 → Stands ⟨512, 1000⟩ small k.disk b first →
      ∃ us k' w', Lived M idle small (smallLook L B other) k us k' ∧ idle w' k' ∧ us.map (·.1) = plan.map fun p => smallSave L p.1 := by
  intro M idle plan
  have hfit : Carried (LinuxOk (fun _ => { block := 4096, sense := 8192, cmd := 12288, data := 16384 }))
      [smallLook L B other none, smallLook L B other (some false), smallLook L B other (some true)] := by
    intro c hc q hq
    simp only [List.mem_cons, List.not_mem_nil, or_false] at hc
    rcases hc with rfl | rfl | rfl <;> exact small_carried L B other _ q hq
  have key := fun k k' us => C104_linux (K := Unit) (T := Unit) true (fun _ => { block := 4096, sense := 8192, cmd := 12288, data := 16384 }) 30000 (by decide) L B other ⟨512, 1000⟩
    ⟨by decide, by decide⟩ small small_fits (smallLook L B other) (small_looks L B other) hfit k k' us
  induction plan with
  | nil => exact fun _ w k hw _ _ _ _ => ⟨[], k, w, .nil, hw, rfl⟩
  | cons p plan ih =>
    intro hp w k hw b first hf hst
    obtain ⟨h1, h2⟩ := small_good L B other p.1 (hp p List.mem_cons_self)
    obtain ⟨a, w', n, k', h3, h4⟩ := ((key k k [] .nil b first hf hst nofun).2.2 _ h1 h2 w hw).2 p.2
    have hone : Lived M idle small (smallLook L B other) k [(smallSave L p.1, a)] k' := .save hw h3 h4 .nil
    obtain ⟨-, ⟨b', found, h5, ⟨done, since, h6, -, h7⟩, -⟩, -⟩ := key k k' [(smallSave L p.1, a)] hone b first hf hst
      (fun u hu => by simp only [List.mem_cons, List.not_mem_nil, or_false] at hu; subst hu; exact ⟨h1, h2⟩)
    have hlen : found.length = 1024 := by
      rw [h7]
      cases done with
      | nil => exact hf
      | cons d ds =>
        simp only [List.map_cons, List.map_nil, List.cons_append] at h6
        cases ds with
        | nil => rw [(List.cons.inj h6).1.symm]; exact h1.length
        | cons => simp at h6
    obtain ⟨us, k'', w'', h8, h9, h10⟩ := ih (fun q hq => hp q (List.mem_cons_of_mem _ hq)) w' k' h4 b' found hlen h5
    exact ⟨(smallSave L p.1, a) :: us, k'', w'', .save hw h3 h4 h8, h9, by simp [h10]⟩

/-- A disk of 1000 blocks of 512 bytes on Linux, all zero. Write10Command objects with FUA, any number of times, stopped anywhere, whatever is destaged and whenever the power
fails. There is such a history, and after it the record is read. -/
example (L : Lib) (B : Parse.BufLib) (other : Bytes → Py (List (String × Int))) (coming : List (List Event)) (tears : List (Option (Nat → Bool))) (plan : List (Bytes × Nat))
    (hplan : ∀ p ∈ plan, p.1.length = 1024) :
    let M := machine (T := Unit) (Linux.sgBlocking (K := Unit) (lp64 true) getSense (Linux.sgDevice true (torn ⟨512, 1000⟩))).plat
      (Linux.prepare (lp64 true) (fun _ => { block := 4096, sense := 8192, cmd := 12288, data := 16384 }) 30000)
    let idle := fun (w : W Handle Unit (Option Bytes) (DevErr Sense) (World (State × Option Bytes))) (k : State) => LinuxIdle w.st w.os k
    let k : State := { disk := { medium := fun _ => 0, seen := fun _ => 0, attention := false, coming := coming }, tears := tears }
    ∃ us k' w' found w'' n, Lived M idle small (smallLook L B other) k us k' ∧ idle w' k' ∧ us.map (·.1) = (plan.map fun p => smallSave L p.1) ∧
      Latest (List.replicate 1024 0) (us.map result) found ∧ (reading small (smallLook L B other)).Runs (fun _ => True) (Through M) none w' (some found) w'' n := by
  intro M idle k
  have zeros : ∀ a n, readAt (fun _ => 0) a n = List.replicate n 0 := by
    intro a n
    apply List.ext_getElem
    · rw [readAt_length, List.length_replicate]
    · intro i h1 h2
      rw [List.getElem_replicate]
      simp only [readAt, List.getElem_map]
  have hhas : Has ⟨512, 1000⟩ small (fun _ => 0) false (List.replicate 1024 0) := ⟨zeros _ _, zeros _ _⟩
  have hlen : (List.replicate 1024 (0 : UInt8)).length = 1024 := List.length_replicate
  have hw : idle { st := { pending := [], index := 6, maxq := 7 }, os := { mem := fun _ => 0xEE, kernel := (k, none) }, fired := [], box := fun _ => [] } k :=
    ⟨rfl, by simp, by simp, by simp, rfl⟩
  obtain ⟨us, k', w', h1, h2, h3⟩ := small_lived L B other plan hplan _ k hw false (List.replicate 1024 0) hlen ⟨hhas, hhas⟩
  obtain ⟨-, ⟨b', found, -, h4, h5⟩, -⟩ := C104_linux (K := Unit) (T := Unit) true (fun _ => { block := 4096, sense := 8192, cmd := 12288, data := 16384 }) 30000 (by decide) L B other ⟨512, 1000⟩
    ⟨by decide, by decide⟩ small small_fits (smallLook L B other) (small_looks L B other) (by
      intro c hc q hq
      simp only [List.mem_cons, List.not_mem_nil, or_false] at hc
      rcases hc with rfl | rfl | rfl <;> exact small_carried L B other _ q hq) k k' us h1 false _ hlen ⟨hhas, hhas⟩ (fun u hu => by
      have : u.1 ∈ plan.map fun p => smallSave L p.1 := by rw [← h3]; exact List.mem_map_of_mem hu
      obtain ⟨p, hp, e⟩ := List.mem_map.1 this
      rw [← e]
      exact small_good L B other p.1 (hplan p hp))
  obtain ⟨⟨w'', n, h6⟩, -⟩ := h5 w' h2
  exact ⟨us, k', w', found, w'', n, h1, h2, h3, h4, h6⟩

/-- Two blocks of zeros are overwritten with any data; the first 512 bytes of it are read, and then zeros. -/
example (L : Lib) (B : Parse.BufLib) (other : Bytes → Py (List (String × Int))) (new : Bytes) (hnew : new.length = 1024) :
    let M := machine (T := Unit) (Linux.sgBlocking (K := Unit) (lp64 true) getSense (Linux.sgDevice true (torn ⟨512, 1000⟩))).plat
      (Linux.prepare (lp64 true) (fun _ => { block := 4096, sense := 8192, cmd := 12288, data := 16384 }) 30000)
    let w : W Handle Unit (Option Bytes) (DevErr Sense) (World (State × Option Bytes)) :=
      { st := { pending := [], index := 6, maxq := 7 }, os := { mem := fun _ => 0xEE, kernel := ({ disk := { medium := fun _ => 0, seen := fun _ => 0, attention := false, coming := [] }, tears := [some fun x => x == 3] }, none) },
        fired := [], box := fun _ => [] }
    ∃ r w' w'', Through M (forcedWrite L 3 new) w r w' ∧ isAttention r = true ∧
      Through M (smallLook L B other (some true)) w' (.ok (some (.obj (.raw (some (new.take 512 ++ List.replicate 512 0)))))) w'' := by
  intro M w
  have zeros : ∀ a n, readAt (fun _ => 0) a n = List.replicate n 0 := by
    intro a n
    apply List.ext_getElem
    · rw [readAt_length, List.length_replicate]
    · intro i h1 h2
      rw [List.getElem_replicate]
      simp only [readAt, List.getElem_map]
  have h3 := forced_write L B other 3 2 (by decide) (by decide) new hnew ((small_new new).1 hnew)
  obtain ⟨op, ho1, ho2⟩ := (small_looks L B other).2 true
  have := C104_inplace_false (K := Unit) (T := Unit) true (fun _ => { block := 4096, sense := 8192, cmd := 12288, data := 16384 }) 30000 (by decide) L B other ⟨512, 1000⟩
    ⟨by decide, by decide⟩ 3 (by decide) (fun _ => 0) new hnew _ _ { fua := 1 } ⟨rfl, rfl, rfl, rfl⟩ h3.1 op ho1 ho2 (by
      intro c hc q hq
      simp only [List.mem_cons, List.not_mem_nil, or_false] at hc
      rcases hc with hc | hc
      · rw [hc] at hq; exact h3.2 q hq
      · rw [hc] at hq; exact small_carried L B other _ q hq) w ⟨rfl, by simp [w], by simp [w], by simp [w], rfl⟩
  simp only [zeros] at this
  exact this

end Verif.Torn
