import Verif.Spec.Journal
import Verif.Props.Durable
import Verif.Props.Patient
/-!
# C103: data replaced with FUA in two slots is the old or the new after any interruption

Another program on the disk of C82. It writes new data to the free slot and then the block that says which slot counts, and gives a command again while there is a unit
attention. It is stopped after any number of commands, the disk moves data to the medium and loses power whenever it likes, and then another program, with the same executer
or with another, reads the data.
-/
set_option linter.unusedSimpArgs false
set_option linter.unusedSectionVars false

namespace Verif.Journal

open Verif.Executer Verif.Coroutine Verif.ExecuterGen Verif.Platform Verif.Spec Verif.Sense Verif.Commands Verif.Options Verif.Durable Verif.Commands.Clients
open Verif.Spec.Disk (Geometry Contents Reply readAt writeAt Each)
open Verif.Spec.Durable Verif.Spec.Journal
open Verif.Spec.Patient (patient)
open Verif.Spec.Options (Opts)

variable {K T : Type}

/-- A command object of the library. -/
abbrev Call := Command Req (Option Bytes) Result

/-- In the manner of

    for command in (fill, point):
        sync_wait(command.execute(executer))

`patient` gives a command again while there is a unit attention. -/
def update (fill point : Call) : Client Step Call Seen (Except (Exn (DevErr Sense)) Unit) where
  ask
    | .fill => fill
    | .point => point
  next
    | _, .error e => .inr (.error e)
    | .fill, .ok _ => .inl .point
    | .point, .ok _ => .inr (.ok ())

/-- In the manner of

    head = sync_wait(look_at_head.execute(executer))
    return sync_wait((look_at_first if head == mark_of_first else look_at_second).execute(executer))
-/
def recover (l : Layout) (look : Option Bool → Call) : Client (Option Bool) Call Seen (Option Bytes) where
  ask := look
  next
    | none, .ok (some (.obj (.raw (some d)))) => if d = l.mark false then .inl (some false) else if d = l.mark true then .inl (some true) else .inr none
    | some _, .ok (some (.obj (.raw (some d)))) => .inr (some d)
    | _, _ => .inr none

/-- The disk does what these options say. -/
def Taken (f : Opts) : Prop := f.protect = 0 ∧ f.rel = 0 ∧ f.naca = 0

/-- The commands that look at the head and at the slots. -/
def Looks (L : Lib) (B : Parse.BufLib) (other : Bytes → Py (List (String × Int))) (g : Geometry) (l : Layout) (look : Option Bool → Call) : Prop :=
  (∃ op, Asks g L B other (look none) op ∧ op.base = .read l.head 1 ∧ Taken op.opts) ∧
  ∀ b, ∃ op, Asks g L B other (look (some b)) op ∧ op.base = .read (l.slot b) l.length ∧ Taken op.opts

/-! ## The disk -/

/-- The disk after it has told of a loss of power. -/
def told (k : State) : State := { k.next with attention := false }

theorem told_run {g : Geometry} {k : State} (o : Op) (h : k.next.attention = true) : o.run g k = (.failed 6 0x29 0, told k) := by
  simp only [Op.run, h, if_true, told]

/-- The disk before any command that is carried out, what is not told of: how much is still to come. -/
def left (k : State) : Nat := 2 * k.coming.length + (if k.attention then 1 else 0)

theorem left_told {k : State} (h : k.next.attention = true) : left (told k) < left k := by
  obtain ⟨medium, seen, att, coming⟩ := k
  cases coming with
  | nil =>
    have : att = true := h
    subst this
    simp [left, told, State.next]
  | cons es rest =>
    simp only [left, told, State.next, List.headD_cons, List.tail_cons, List.length_cons]
    simp
    omega

theorem safe_told {k : State} {a : Nat} {bs : Bytes} (h : Safe k a bs) : Safe (told k) a bs := safe_next h

theorem write_run {g : Geometry} (hs : 0 < g.size) {f : Opts} (hf : f.fua = 1) (ht : Taken f) {lba n : Nat} {data : Bytes} (hd : data.length = n * g.size)
    (hin : lba + n ≤ g.blocks) (k : State) (h : k.next.attention = false) :
    ((Op.write f lba data).run g k).1 = .done ∧ Safe ((Op.write f lba data).run g k).2 (lba * g.size) data := by
  have hk : data.length / g.size = n := by rw [hd, Nat.mul_div_cancel _ hs]
  have h1 : ((Op.write f lba data).run g k).1 = .done := by
    obtain ⟨t1, t2, t3⟩ := ht
    simp only [Op.run, h, Op.opts, t1, t2, t3, Op.base, Disk.Op.run, hk, if_pos hin]
    simp
  exact ⟨h1, (tells_safe hs hd .write hf k h1).1⟩

theorem read_run {g : Geometry} {rd : Op} (ht : Taken rd.opts) {lba n : Nat} (hrd : rd.base = .read lba n) {data : Bytes} (hd : data.length = n * g.size)
    (hin : lba + n ≤ g.blocks) (k : State) (h : k.next.attention = false) (hsafe : Safe k (lba * g.size) data) : (rd.run g k).1 = .data data := by
  obtain ⟨t1, t2, t3⟩ := ht
  simp only [Op.run, h, t1, t2, t3, hrd, Disk.Op.run, if_pos hin]
  simp only [Bool.false_eq_true, if_false, ne_eq, not_true_eq_false, or_self]
  rw [← hd, show readAt _ _ _ = _ from (safe_next hsafe).2]

theorem stands_iff {g : Geometry} {l : Layout} (hl : l.Fits g) {k : State} {b : Bool} {data : Bytes} (hd : data.length = l.length * g.size) :
    Stands g l k b data ↔ Safe k (l.head * g.size) (l.mark b) ∧ Safe k (l.slot b * g.size) data := by
  simp only [Stands, Has, Safe, Holds, hl.mark b, hd]
  constructor
  · rintro ⟨⟨h1, h2⟩, h3, h4⟩; exact ⟨⟨h1, h3⟩, h2, h4⟩
  · rintro ⟨⟨h1, h3⟩, h2, h4⟩; exact ⟨⟨h1, h2⟩, h3, h4⟩

theorem stands_told {g : Geometry} {l : Layout} (hl : l.Fits g) {k : State} {b : Bool} {data : Bytes} (hd : data.length = l.length * g.size)
    (h : Stands g l k b data) : Stands g l (told k) b data := by
  rw [stands_iff hl hd] at *
  exact ⟨safe_told h.1, safe_told h.2⟩

/-! ## One command -/

theorem not_attention {r : Seen} {v : Option (Val (Option Bytes) (DevErr Sense) Result)} (h : r = .ok v) : isAttention r = false := by
  subst h; rfl

theorem attention_of {r : Seen} (h : Shows r (.failed 6 0x29 0)) : isAttention r = true := by
  obtain ⟨raw, s, rfl, hs⟩ := h
  simp only [isAttention, hs.1]
  rfl

section direct

variable {out : Req → Answer → Except (Exn (DevErr Sense)) (Option (Option Bytes))} (L : Lib) (B : Parse.BufLib)
  (other : Bytes → Py (List (String × Int))) {g : Geometry} (hg : Valid g) (hD : Delivers out)
include hg hD

theorem cached_direct {c : Call} {op : Op} (h : Asks g L B other c op) (k : State) :
    ∃ r : Seen, Direct (cached g) out c k r (op.run g k).2 ∧ Shows r (op.run g k).1 := by
  obtain ⟨h1, h2⟩ := askAll_cached L B other hg hD (.cons h .nil) k
  obtain ⟨a, as, e, h3, h4⟩ := each_cons_inv h1
  cases h4
  exact ⟨a, Prod.ext e h2, h3⟩

/-- Any result of the command is the one. -/
theorem cached_only {c : Call} {op : Op} (h : Asks g L B other c op) {k k' : State} {r : Seen} (hd : Direct (cached g) out c k r k') :
    k' = (op.run g k).2 ∧ Shows r (op.run g k).1 := by
  obtain ⟨r', h1, h2⟩ := cached_direct L B other hg hD h k
  obtain ⟨rfl, rfl⟩ := one_unique _ _ _ _ _ _ hd h1
  exact ⟨rfl, h2⟩

/-- A program that gives commands again ends when it does where there is no unit attention. -/
theorem patient_ends {σ A : Type} {p : Client σ Call Seen A} {s : σ} {op : Op} (hask : Asks g L B other (p.ask s) op) (Inv : State → Prop) {a : A}
    (hinv : ∀ k, Inv k → Inv (told k))
    (hgo : ∀ k, Inv k → k.next.attention = false → ∃ k' n, (patient isAttention p).Runs (fun _ => True) (Direct (cached g) out) s k a k' n) :
    ∀ (N : Nat) (k : State), left k < N → Inv k → ∃ k' n, (patient isAttention p).Runs (fun _ => True) (Direct (cached g) out) s k a k' n
  | 0, _, h, _ => absurd h (Nat.not_lt_zero _)
  | N + 1, k, h, hk => by
    cases ha : k.next.attention with
    | false => exact hgo k hk ha
    | true =>
      obtain ⟨r, h1, h2⟩ := cached_direct L B other hg hD hask k
      rw [told_run op ha] at h1 h2
      have := left_told ha
      obtain ⟨k', n, h3⟩ := patient_ends hask Inv hinv hgo N (told k) (by omega) (hinv k hk)
      exact ⟨k', n + 1, .more trivial h1 (by simp only [patient, attention_of h2, if_true]) h3⟩

/-! ## The update -/

section update

variable {l : Layout} (hl : l.Fits g) {b : Bool} {old new : Bytes} (hold : old.length = l.length * g.size) (hnew : new.length = l.length * g.size)
  {fill point : Call} {f f' : Opts} (hf : f.fua = 1 ∧ Taken f) (hf' : f'.fua = 1 ∧ Taken f')
  (hfill : Asks g L B other fill (.write f (l.slot (!b)) new)) (hpoint : Asks g L B other point (.write f' l.head (l.mark (!b))))
include hl hold hnew hf hf' hfill hpoint

/-- What is so before a step. -/
def Before (g : Geometry) (l : Layout) (b : Bool) (old new : Bytes) (s : Step) (k : State) : Prop :=
  Stands g l k b old ∧ (s = .point → Safe k (l.slot (!b) * g.size) new)

theorem before_told {s : Step} {k : State} (h : Before g l b old new s k) : Before g l b old new s (told k) :=
  ⟨stands_told hl hold h.1, fun e => safe_told (h.2 e)⟩

theorem fill_step {k : State} (h : Before g l b old new .fill k) (ha : k.next.attention = false) :
    ((Op.write f (l.slot (!b)) new).run g k).1 = .done ∧ Before g l b old new .point ((Op.write f (l.slot (!b)) new).run g k).2 := by
  have hs := hg.size.1
  have hk : new.length / g.size = l.length := by rw [hnew, Nat.mul_div_cancel _ hs]
  obtain ⟨h1, h2⟩ := write_run hs hf.1 hf.2 hnew (hl.slot (!b)) k ha
  have h3 := (stands_iff hl hold).1 h.1
  have hw : (Op.write f (l.slot (!b)) new).base.Whole g := by show _ = _; rw [hk]; exact hnew
  refine ⟨h1, (stands_iff hl hold).2 ⟨?_, ?_⟩, fun _ => h2⟩
  · refine safe_run (n := 1) (by rw [hl.mark b, Nat.one_mul]) _ hw ?_ h3.1
    show _ ∨ _
    rw [hk]
    exact (hl.outside (!b)).symm
  · refine safe_run hold _ hw ?_ h3.2
    show _ ∨ _
    rw [hk]
    exact (hl.apart b).symm

theorem point_step {k : State} (h : Before g l b old new .point k) (ha : k.next.attention = false) :
    ((Op.write f' l.head (l.mark (!b))).run g k).1 = .done ∧ Stands g l ((Op.write f' l.head (l.mark (!b))).run g k).2 (!b) new := by
  have hs := hg.size.1
  have hm : (l.mark (!b)).length = 1 * g.size := by rw [hl.mark, Nat.one_mul]
  have hk : (l.mark (!b)).length / g.size = 1 := by rw [hm, Nat.mul_div_cancel _ hs]
  obtain ⟨h1, h2⟩ := write_run hs hf'.1 hf'.2 hm hl.head k ha
  refine ⟨h1, (stands_iff hl hnew).2 ⟨h2, safe_run hnew _ (by show _ = _; rw [hk]; exact hm) ?_ (h.2 rfl)⟩⟩
  show _ ∨ _
  rw [hk]
  exact hl.outside (!b)

/-- The update ends. -/
theorem update_ends (k : State) (h : Stands g l k b old) :
    ∃ k' n, (patient isAttention (update fill point)).Runs (fun _ => True) (Direct (cached g) out) .fill k (.ok ()) k' n := by
  refine patient_ends L B other hg hD (p := update fill point) (s := .fill) hfill (Before g l b old new .fill)
    (fun k hk => before_told L B other hg hD hl hold hnew hf hf' hfill hpoint hk) (fun k hk ha => ?_) _ k (Nat.lt_succ_self _) ⟨h, nofun⟩
  obtain ⟨h1, h2⟩ := fill_step L B other hg hD hl hold hnew hf hf' hfill hpoint hk ha
  obtain ⟨r, h3, h4⟩ := cached_direct L B other hg hD hfill k
  rw [h1] at h4
  obtain ⟨k', n, h5⟩ := patient_ends L B other hg hD (p := update fill point) (s := .point) (a := .ok ()) hpoint (Before g l b old new .point)
    (fun k hk => before_told L B other hg hD hl hold hnew hf hf' hfill hpoint hk) (fun k hk ha => by
      obtain ⟨h1, -⟩ := point_step L B other hg hD hl hold hnew hf hf' hfill hpoint hk ha
      obtain ⟨r, h3, h4⟩ := cached_direct L B other hg hD hpoint k
      rw [h1] at h4
      cases (show r = _ from h4)
      exact ⟨_, _, .done trivial h3 rfl⟩) _ _ (Nat.lt_succ_self _) h2
  cases (show r = _ from h4)
  exact ⟨k', n + 1, .more trivial h3 rfl h5⟩

/-- Wherever it is stopped, the old data or the new stands. -/
theorem update_cut {x : Step × Nat} {k k' : State} {a : Option (Except (Exn (DevErr Sense)) Unit)} {n : Nat}
    (h : (cut (patient isAttention (update fill point))).Runs (fun _ => True) (Direct (cached g) out) x k a k' n) (hk : Before g l b old new x.1 k) :
    (Stands g l k' b old ∧ a = none) ∨ (Stands g l k' (!b) new ∧ a = some (.ok ())) := by
  induction h with
  | @done x k r k' a _ hd hn =>
    obtain ⟨s, i⟩ := x
    cases s with
    | fill =>
      obtain ⟨rfl, hr⟩ := cached_only L B other hg hD hfill hd
      cases ha : k.next.attention with
      | true =>
        rw [told_run _ ha] at hr ⊢
        simp only [cut, patient, attention_of hr, if_true] at hn
        cases i with
        | zero => exact .inl ⟨stands_told hl hold hk.1, (Sum.inr.inj hn).symm⟩
        | succ => cases hn
      | false =>
        obtain ⟨h1, h2⟩ := fill_step L B other hg hD hl hold hnew hf hf' hfill hpoint hk ha
        rw [h1] at hr
        cases (show r = _ from hr)
        cases i with
        | zero => exact .inl ⟨h2.1, (Sum.inr.inj hn).symm⟩
        | succ => cases hn
    | point =>
      obtain ⟨rfl, hr⟩ := cached_only L B other hg hD hpoint hd
      cases ha : k.next.attention with
      | true =>
        rw [told_run _ ha] at hr ⊢
        simp only [cut, patient, attention_of hr, if_true] at hn
        cases i with
        | zero => exact .inl ⟨stands_told hl hold hk.1, (Sum.inr.inj hn).symm⟩
        | succ => cases hn
      | false =>
        obtain ⟨h1, h2⟩ := point_step L B other hg hD hl hold hnew hf hf' hfill hpoint hk ha
        rw [h1] at hr
        cases (show r = _ from hr)
        exact .inr ⟨h2, (Sum.inr.inj hn).symm⟩
  | @more x k r k' x' a k'' n _ hd hn _ ih =>
    obtain ⟨s, i⟩ := x
    cases s with
    | fill =>
      obtain ⟨rfl, hr⟩ := cached_only L B other hg hD hfill hd
      cases ha : k.next.attention with
      | true =>
        rw [told_run _ ha] at hr ih
        simp only [cut, patient, attention_of hr, if_true] at hn
        cases i with
        | zero => cases hn
        | succ => cases hn; exact ih (before_told L B other hg hD hl hold hnew hf hf' hfill hpoint hk)
      | false =>
        obtain ⟨h1, h2⟩ := fill_step L B other hg hD hl hold hnew hf hf' hfill hpoint hk ha
        rw [h1] at hr
        cases (show r = _ from hr)
        cases i with
        | zero => cases hn
        | succ => cases hn; exact ih h2
    | point =>
      obtain ⟨rfl, hr⟩ := cached_only L B other hg hD hpoint hd
      cases ha : k.next.attention with
      | true =>
        rw [told_run _ ha] at hr ih
        simp only [cut, patient, attention_of hr, if_true] at hn
        cases i with
        | zero => cases hn
        | succ => cases hn; exact ih (before_told L B other hg hD hl hold hnew hf hf' hfill hpoint hk)
      | false =>
        obtain ⟨h1, -⟩ := point_step L B other hg hD hl hold hnew hf hf' hfill hpoint hk ha
        rw [h1] at hr
        cases (show r = _ from hr)
        cases hn

/-- It can be stopped anywhere. -/
theorem update_stops (i : Nat) (s : Step) (k : State) :
    ∃ a k' n, (cut (patient isAttention (update fill point))).Runs (fun _ => True) (Direct (cached g) out) (s, i) k a k' n := by
  induction i generalizing s k with
  | zero =>
    have : ∃ r k', Direct (cached g) out ((update fill point).ask s) k r k' := by
      cases s with
      | fill => obtain ⟨r, h, -⟩ := cached_direct L B other hg hD hfill k; exact ⟨r, _, h⟩
      | point => obtain ⟨r, h, -⟩ := cached_direct L B other hg hD hpoint k; exact ⟨r, _, h⟩
    obtain ⟨r, k', h⟩ := this
    cases hn : (patient isAttention (update fill point)).next s r with
    | inl s' => exact ⟨none, k', 1, .done trivial h (by simp only [cut, hn])⟩
    | inr a => exact ⟨some a, k', 1, .done trivial h (by simp only [cut, hn])⟩
  | succ i ih =>
    have : ∃ r k', Direct (cached g) out ((update fill point).ask s) k r k' := by
      cases s with
      | fill => obtain ⟨r, h, -⟩ := cached_direct L B other hg hD hfill k; exact ⟨r, _, h⟩
      | point => obtain ⟨r, h, -⟩ := cached_direct L B other hg hD hpoint k; exact ⟨r, _, h⟩
    obtain ⟨r, k', h⟩ := this
    cases hn : (patient isAttention (update fill point)).next s r with
    | inl s' =>
      obtain ⟨a, k'', n, h'⟩ := ih s' k'
      exact ⟨a, k'', n + 1, .more trivial h (by simp only [cut, hn]) h'⟩
    | inr a => exact ⟨some a, k', 1, .done trivial h (by simp only [cut, hn])⟩

end update

/-! ## Reading -/

theorem recover_ends {l : Layout} (hl : l.Fits g) {look : Option Bool → Call} (hlook : Looks L B other g l look) {b : Bool} {data : Bytes}
    (hd : data.length = l.length * g.size) (k : State) (h : Stands g l k b data) :
    ∃ k' n, (patient isAttention (recover l look)).Runs (fun _ => True) (Direct (cached g) out) none k (some data) k' n := by
  have hs := hg.size.1
  have hne : data ≠ [] := data_ne hs hd hl.nonempty
  have hmne : l.mark b ≠ [] := by
    intro h0
    have := hl.mark b
    rw [h0] at this
    simp only [List.length_nil] at this
    omega
  obtain ⟨⟨op, ho1, ho2, ho3⟩, hslot⟩ := hlook
  obtain ⟨op', hp1, hp2, hp3⟩ := hslot b
  refine patient_ends L B other hg hD (p := recover l look) (s := none) ho1 (fun k => Stands g l k b data) (fun k hk => stands_told hl hd hk) (fun k hk ha => ?_) _ k
    (Nat.lt_succ_self _) h
  have hm : (l.mark b).length = 1 * g.size := by rw [hl.mark, Nat.one_mul]
  have h1 := read_run ho3 ho2 hm hl.head k ha ((stands_iff hl hd).1 hk).1
  obtain ⟨r, h3, h4⟩ := cached_direct L B other hg hD ho1 k
  have hst : Stands g l (op.run g k).2 b data := by
    have hx := (stands_iff hl hd).1 hk
    exact (stands_iff hl hd).2 ⟨safe_run hm op (by rw [ho2]; trivial) (by rw [ho2]; trivial) hx.1, safe_run hd op (by rw [ho2]; trivial) (by rw [ho2]; trivial) hx.2⟩
  obtain ⟨k', n, h5⟩ := patient_ends L B other hg hD (p := recover l look) (s := some b) (a := some data) hp1 (fun k => Stands g l k b data)
    (fun k hk => stands_told hl hd hk) (fun k hk ha => by
      have h1 := read_run hp3 hp2 hd (hl.slot b) k ha ((stands_iff hl hd).1 hk).2
      obtain ⟨r, h3, h4⟩ := cached_direct L B other hg hD hp1 k
      rw [h1] at h4
      simp only [Shows, if_neg hne] at h4
      subst h4
      exact ⟨_, _, .done trivial h3 rfl⟩) _ _ (Nat.lt_succ_self _) hst
  rw [h1] at h4
  simp only [Shows, if_neg hmne] at h4
  subst h4
  refine ⟨k', n + 1, .more trivial h3 ?_ h5⟩
  show (if l.mark b = l.mark false then _ else _) = _
  cases b with
  | false => rw [if_pos rfl]
  | true => rw [if_neg (fun e => hl.differ e.symm), if_pos rfl]

end direct

/-! ## Through the library -/

/-- The update with its commands, giving a command again while there is a unit attention. -/
abbrev updating (fill point : Call) := patient isAttention (update fill point)

/-- The program that reads the data, likewise. -/
abbrev reading (l : Layout) (look : Option Bool → Call) := patient isAttention (recover l look)

section machine

variable {Q Gp ω : Type} [DecidableEq K] {M : Machine (Frame Req Q K (Option Bytes) Result Gp) (W Q K (Option Bytes) (DevErr Sense) ω) (Val (Option Bytes) (DevErr Sense) Result) (Exn (DevErr Sense)) T}
  {out : Req → Answer → Except (Exn (DevErr Sense)) (Option (Option Bytes))} {fits : Req → Prop} {idle : W Q K (Option Bytes) (DevErr Sense) ω → State → Prop}

theorem journal (L : Lib) (B : Parse.BufLib) (other : Bytes → Py (List (String × Int))) {g : Geometry} (hg : Valid g) (hD : Delivers out) (hS : Serves M (cached g) out fits idle)
    {l : Layout} (hl : l.Fits g) {b : Bool} {old new : Bytes} (hold : old.length = l.length * g.size) (hnew : new.length = l.length * g.size) {fill point : Call}
    {f f' : Opts} (hf : f.fua = 1 ∧ Taken f) (hf' : f'.fua = 1 ∧ Taken f') (hfill : Asks g L B other fill (.write f (l.slot (!b)) new))
    (hpoint : Asks g L B other point (.write f' l.head (l.mark (!b)))) {look : Option Bool → Call} (hlook : Looks L B other g l look)
    (hok : Carried fits [fill, point, look none, look (some false), look (some true)]) (w : W Q K (Option Bytes) (DevErr Sense) ω) (k : State) (hw : idle w k) (h : Stands g l k b old) :
    (∃ w' n, (updating fill point).Runs (fun _ => True) (Through M) .fill w (.ok ()) w' n) ∧
    (∀ i, ∃ a w' n, (cut (updating fill point)).Runs (fun _ => True) (Through M) (.fill, i) w a w' n) ∧
    ∀ i a w' n, (cut (updating fill point)).Runs (fun _ => True) (Through M) (.fill, i) w a w' n →
      ∃ k' b' data, idle w' k' ∧ Stands g l k' b' data ∧ ((b' = b ∧ data = old ∧ a = none) ∨ (b' = !b ∧ data = new ∧ a = some (.ok ()))) ∧
        ∀ w₂, idle w₂ k' → (∃ w₃ m, (reading l look).Runs (fun _ => True) (Through M) none w₂ (some data) w₃ m) ∧
          ∀ x w₃ m, (reading l look).Runs (fun _ => True) (Through M) none w₂ x w₃ m → x = some data := by
  have hu : ∀ s : Step, True → ∀ q, ((updating fill point).ask s).request = .ok q → fits q := by
    intro s _ q hq
    cases s with
    | fill => exact hok fill (by simp) q hq
    | point => exact hok point (by simp) q hq
  have hr : ∀ s : Option Bool, True → ∀ q, ((reading l look).ask s).request = .ok q → fits q := by
    intro s _ q hq
    cases s with
    | none => exact hok (look none) (by simp) q hq
    | some b => cases b with
      | false => exact hok (look (some false)) (by simp) q hq
      | true => exact hok (look (some true)) (by simp) q hq
  have same_u := fun a n => same (p := updating fill point) (ok := fun _ => True) hS hu .fill w k hw a n
  have same_c := fun i a n => same (p := cut (updating fill point)) (ok := fun _ => True) hS (fun s _ => hu s.1 trivial) (.fill, i) w k hw a n
  refine ⟨?_, fun i => ?_, fun i a w' n hrun => ?_⟩
  · obtain ⟨k', n, h1⟩ := update_ends L B other hg hD hl hold hnew hf hf' hfill hpoint k h
    obtain ⟨w', h2, -⟩ := (same_u _ n).1 k' h1
    exact ⟨w', n, h2⟩
  · obtain ⟨a, k', n, h1⟩ := update_stops L B other hg hD hl hold hnew hf hf' hfill hpoint i .fill k
    obtain ⟨w', h2, -⟩ := (same_c i a n).1 k' h1
    exact ⟨a, w', n, h2⟩
  · obtain ⟨k', h1, h2⟩ := (same_c i a n).2 w' hrun
    have hread : ∀ b' data, data.length = l.length * g.size → Stands g l k' b' data → ∀ w₂, idle w₂ k' →
        (∃ w₃ m, (reading l look).Runs (fun _ => True) (Through M) none w₂ (some data) w₃ m) ∧
          ∀ x w₃ m, (reading l look).Runs (fun _ => True) (Through M) none w₂ x w₃ m → x = some data := by
      intro b' data hd hst w₂ hw₂
      obtain ⟨k₃, m, h3⟩ := recover_ends L B other hg hD hl hlook hd k' hst
      have same_r := fun a n => same (p := reading l look) (ok := fun _ => True) hS hr none w₂ k' hw₂ a n
      obtain ⟨w₃, h4, -⟩ := (same_r _ m).1 k₃ h3
      refine ⟨⟨w₃, m, h4⟩, fun x w₄ m' hx => ?_⟩
      obtain ⟨k₄, h5, -⟩ := (same_r x m').2 w₄ hx
      exact (runs_unique one_unique h5 h3).1
    rcases update_cut L B other hg hD hl hold hnew hf hf' hfill hpoint h1 ⟨h, nofun⟩ with ⟨h3, h4⟩ | ⟨h3, h4⟩
    · exact ⟨k', b, old, h2, h3, .inl ⟨rfl, rfl, h4⟩, hread b old hold h3⟩
    · exact ⟨k', !b, new, h2, h3, .inr ⟨rfl, rfl, h4⟩, hread _ new hnew h3⟩

end machine

/-- **C103 on Linux.** The data in slot `b` is replaced with two WRITE commands with FUA, each given again while there is a unit attention. The program ends. Whenever it
is stopped, after however many commands, and whenever the disk moves data to the medium or loses power, then and later: a program that looks at the head and then at the
slot, with this executer or with any other of the disk, ends, with the old data or with the new; with the new if the first program had ended. -/
theorem C103_linux [DecidableEq K] (c : Bool) (alloc : Nat → Alloc) (t : Int) (ht : 0 ≤ t ∧ t < 2 ^ 32) (L : Lib) (B : Parse.BufLib) (other : Bytes → Py (List (String × Int))) (g : Geometry) (hg : Valid g)
    (l : Layout) (hl : l.Fits g) (b : Bool) (old new : Bytes) (hold : old.length = l.length * g.size) (hnew : new.length = l.length * g.size) (fill point : Call) (f f' : Opts)
    (hf : f.fua = 1 ∧ Taken f) (hf' : f'.fua = 1 ∧ Taken f') (hfill : Asks g L B other fill (.write f (l.slot (!b)) new))
    (hpoint : Asks g L B other point (.write f' l.head (l.mark (!b)))) (look : Option Bool → Call) (hlook : Looks L B other g l look)
    (hok : Carried (LinuxOk alloc) [fill, point, look none, look (some false), look (some true)])
    (w : W Handle K (Option Bytes) (DevErr Sense) (World (State × Option Bytes))) (k : State) (hw : LinuxIdle w.st w.os k) (h : Stands g l k b old) :
    let M := machine (T := T) (Linux.sgBlocking (lp64 c) getSense (Linux.sgDevice c (cached g))).plat (Linux.prepare (lp64 c) alloc t)
    (∃ w' n, (updating fill point).Runs (fun _ => True) (Through M) .fill w (.ok ()) w' n) ∧
    (∀ i, ∃ a w' n, (cut (updating fill point)).Runs (fun _ => True) (Through M) (.fill, i) w a w' n) ∧
    ∀ i a w' n, (cut (updating fill point)).Runs (fun _ => True) (Through M) (.fill, i) w a w' n →
      ∃ k' b' data, LinuxIdle w'.st w'.os k' ∧ Stands g l k' b' data ∧ ((b' = b ∧ data = old ∧ a = none) ∨ (b' = !b ∧ data = new ∧ a = some (.ok ()))) ∧
        ∀ w₂ : W Handle K (Option Bytes) (DevErr Sense) (World (State × Option Bytes)), LinuxIdle w₂.st w₂.os k' → (∃ w₃ m, (reading l look).Runs (fun _ => True) (Through M) none w₂ (some data) w₃ m) ∧
          ∀ x w₃ m, (reading l look).Runs (fun _ => True) (Through M) none w₂ x w₃ m → x = some data :=
  journal (idle := fun w k => LinuxIdle w.st w.os k) L B other hg outcome_delivers (serves_linux (K := K) (T := T) c getSense (cached g) alloc t ht fun m q h => cached_parses g m q (by intro h0; rw [h0] at h; simp at h)) hl hold hnew hf hf' hfill hpoint hlook hok w k hw h

/-- **C103 on Solaris.** -/
theorem C103_solaris [DecidableEq K] (c : Bool) (alloc : Nat → Alloc) (t : Int) (ht : 0 ≤ t ∧ t < 2 ^ 15) (L : Lib) (B : Parse.BufLib) (other : Bytes → Py (List (String × Int))) (g : Geometry) (hg : Valid g)
    (l : Layout) (hl : l.Fits g) (b : Bool) (old new : Bytes) (hold : old.length = l.length * g.size) (hnew : new.length = l.length * g.size) (fill point : Call) (f f' : Opts)
    (hf : f.fua = 1 ∧ Taken f) (hf' : f'.fua = 1 ∧ Taken f') (hfill : Asks g L B other fill (.write f (l.slot (!b)) new))
    (hpoint : Asks g L B other point (.write f' l.head (l.mark (!b)))) (look : Option Bool → Call) (hlook : Looks L B other g l look)
    (hok : Carried (SolarisOk alloc) [fill, point, look none, look (some false), look (some true)])
    (w : W Handle K (Option Bytes) (DevErr Sense) (Solaris.SolWorld State)) (k : State) (hw : SolarisIdle w.st w.os k) (h : Stands g l k b old) :
    let M := machine (T := T) (Solaris.solBlocking (lp64 c) getSense (Solaris.uscsiDevice c (cached g))).plat (Solaris.prepare (lp64 c) alloc t)
    (∃ w' n, (updating fill point).Runs (fun _ => True) (Through M) .fill w (.ok ()) w' n) ∧
    (∀ i, ∃ a w' n, (cut (updating fill point)).Runs (fun _ => True) (Through M) (.fill, i) w a w' n) ∧
    ∀ i a w' n, (cut (updating fill point)).Runs (fun _ => True) (Through M) (.fill, i) w a w' n →
      ∃ k' b' data, SolarisIdle w'.st w'.os k' ∧ Stands g l k' b' data ∧ ((b' = b ∧ data = old ∧ a = none) ∨ (b' = !b ∧ data = new ∧ a = some (.ok ()))) ∧
        ∀ w₂ : W Handle K (Option Bytes) (DevErr Sense) (Solaris.SolWorld State), SolarisIdle w₂.st w₂.os k' → (∃ w₃ m, (reading l look).Runs (fun _ => True) (Through M) none w₂ (some data) w₃ m) ∧
          ∀ x w₃ m, (reading l look).Runs (fun _ => True) (Through M) none w₂ x w₃ m → x = some data :=
  journal (idle := fun w k => SolarisIdle w.st w.os k) L B other hg outcome_delivers (serves_solaris (K := K) (T := T) c getSense (cached g) alloc t ht fun m q h => cached_parses g m q (by intro h0; rw [h0] at h; simp at h)) hl hold hnew hf hf' hfill hpoint hlook hok w k hw h

/-- **C103 on AIX.** -/
theorem C103_aix [DecidableEq K] (c : Aix.Binding) (alloc : Nat → Alloc) (t : Int) (ht : 0 ≤ t ∧ t < 2 ^ 32) (L : Lib) (B : Parse.BufLib) (other : Bytes → Py (List (String × Int))) (g : Geometry) (hg : Valid g)
    (l : Layout) (hl : l.Fits g) (b : Bool) (old new : Bytes) (hold : old.length = l.length * g.size) (hnew : new.length = l.length * g.size) (fill point : Call) (f f' : Opts)
    (hf : f.fua = 1 ∧ Taken f) (hf' : f'.fua = 1 ∧ Taken f') (hfill : Asks g L B other fill (.write f (l.slot (!b)) new))
    (hpoint : Asks g L B other point (.write f' l.head (l.mark (!b)))) (look : Option Bool → Call) (hlook : Looks L B other g l look)
    (hok : Carried (AixOk c alloc) [fill, point, look none, look (some false), look (some true)])
    (w : W Handle K (Option Bytes) (DevErr Sense) (Aix.AixWorld State)) (k : State) (hw : AixIdle w.st w.os k) (h : Stands g l k b old) :
    let M := machine (T := T) (Aix.aixBlocking (lp64 false) getSense c (Aix.scDevice (cached g))).plat (Aix.prepare (lp64 false) alloc t)
    (∃ w' n, (updating fill point).Runs (fun _ => True) (Through M) .fill w (.ok ()) w' n) ∧
    (∀ i, ∃ a w' n, (cut (updating fill point)).Runs (fun _ => True) (Through M) (.fill, i) w a w' n) ∧
    ∀ i a w' n, (cut (updating fill point)).Runs (fun _ => True) (Through M) (.fill, i) w a w' n →
      ∃ k' b' data, AixIdle w'.st w'.os k' ∧ Stands g l k' b' data ∧ ((b' = b ∧ data = old ∧ a = none) ∨ (b' = !b ∧ data = new ∧ a = some (.ok ()))) ∧
        ∀ w₂ : W Handle K (Option Bytes) (DevErr Sense) (Aix.AixWorld State), AixIdle w₂.st w₂.os k' → (∃ w₃ m, (reading l look).Runs (fun _ => True) (Through M) none w₂ (some data) w₃ m) ∧
          ∀ x w₃ m, (reading l look).Runs (fun _ => True) (Through M) none w₂ x w₃ m → x = some data :=
  journal (idle := fun w k => AixIdle w.st w.os k) L B other hg outcome_delivers (serves_aix (K := K) (T := T) getSense c (cached g) alloc t ht fun m q h => cached_parses g m q (by intro h0; rw [h0] at h; simp at h)) hl hold hnew hf hf' hfill hpoint hlook hok w k hw h

/-- **C103 on Windows.** -/
theorem C103_windows [DecidableEq K] (c : Bool) (alloc : Nat → Alloc) (L : Lib) (B : Parse.BufLib) (other : Bytes → Py (List (String × Int))) (g : Geometry) (hg : Valid g)
    (l : Layout) (hl : l.Fits g) (b : Bool) (old new : Bytes) (hold : old.length = l.length * g.size) (hnew : new.length = l.length * g.size) (fill point : Call) (f f' : Opts)
    (hf : f.fua = 1 ∧ Taken f) (hf' : f'.fua = 1 ∧ Taken f') (hfill : Asks g L B other fill (.write f (l.slot (!b)) new))
    (hpoint : Asks g L B other point (.write f' l.head (l.mark (!b)))) (look : Option Bool → Call) (hlook : Looks L B other g l look)
    (hok : Carried (WindowsOk c alloc) [fill, point, look none, look (some false), look (some true)])
    (w : W Win32.Spt K (Option Bytes) (DevErr Sense) (Win32.WinWorld State)) (k : State) (hw : WindowsIdle w.st w.os k) (h : Stands g l k b old) :
    let M := machine (T := T) (Win32.winPlat (Win32.W c) getSense (Win32.sptDevice c (cached g))) (Win32.prepare (Win32.W c) alloc)
    (∃ w' n, (updating fill point).Runs (fun _ => True) (Through M) .fill w (.ok ()) w' n) ∧
    (∀ i, ∃ a w' n, (cut (updating fill point)).Runs (fun _ => True) (Through M) (.fill, i) w a w' n) ∧
    ∀ i a w' n, (cut (updating fill point)).Runs (fun _ => True) (Through M) (.fill, i) w a w' n →
      ∃ k' b' data, WindowsIdle w'.st w'.os k' ∧ Stands g l k' b' data ∧ ((b' = b ∧ data = old ∧ a = none) ∨ (b' = !b ∧ data = new ∧ a = some (.ok ()))) ∧
        ∀ w₂ : W Win32.Spt K (Option Bytes) (DevErr Sense) (Win32.WinWorld State), WindowsIdle w₂.st w₂.os k' → (∃ w₃ m, (reading l look).Runs (fun _ => True) (Through M) none w₂ (some data) w₃ m) ∧
          ∀ x w₃ m, (reading l look).Runs (fun _ => True) (Through M) none w₂ x w₃ m → x = some data :=
  journal (idle := fun w k => WindowsIdle w.st w.os k) L B other hg winOutcome_delivers (serves_windows (K := K) (T := T) c getSense (cached g) alloc fun m q h => cached_parses g m q (by rw [h]; decide)) hl hold hnew hf hf' hfill hpoint hlook hok w k hw h

/-! ## FUA is needed -/

/-- A disk that, after two commands, moves one block to the medium and loses power. -/
def careless (g : Geometry) (l : Layout) (m : Contents) : State :=
  { medium := m, seen := m, attention := false,
    coming := [[], [], [.destage (fun x => decide (l.head * g.size ≤ x ∧ x < (l.head + 1) * g.size)), .powerLoss]] }

theorem unforced_run {g : Geometry} (hs : 0 < g.size) {f : Opts} (hf : f.fua ≠ 1) (ht : Taken f) {lba n : Nat} {data : Bytes} (hd : data.length = n * g.size)
    (hin : lba + n ≤ g.blocks) (k : State) (h : k.next.attention = false) :
    (Op.write f lba data).run g k = (.done, { k.next with seen := writeAt k.next.seen (lba * g.size) data }) := by
  have hk : data.length / g.size = n := by rw [hd, Nat.mul_div_cancel _ hs]
  obtain ⟨t1, t2, t3⟩ := ht
  simp only [Op.run, h, Op.opts, t1, t2, t3, Op.base, Disk.Op.run, hk, if_pos hin, hf]
  simp

theorem read_plain {g : Geometry} {rd : Op} (ht : Taken rd.opts) {lba n : Nat} (hrd : rd.base = .read lba n) (hin : lba + n ≤ g.blocks) (k : State)
    (h : k.next = k) (ha : k.attention = false) (hm : k.medium = k.seen) : rd.run g k = (.data (readAt k.seen (lba * g.size) (n * g.size)), k) := by
  obtain ⟨t1, t2, t3⟩ := ht
  obtain ⟨medium, seen, att, coming⟩ := k
  simp only [Op.run, h]
  simp only at ha hm
  subst ha hm
  simp only [t1, t2, t3, hrd, Disk.Op.run, if_pos hin, Disk.Op.span]
  simp only [Bool.false_eq_true, if_false, ne_eq, not_true_eq_false, or_self]
  split
  · congr 1
    simp only [State.mk.injEq, and_true]
    funext x
    unfold settle
    split <;> rfl
  · rfl

section careless

variable {out : Req → Answer → Except (Exn (DevErr Sense)) (Option (Option Bytes))} (L : Lib) (B : Parse.BufLib)
  (other : Bytes → Py (List (String × Int))) {g : Geometry} (hg : Valid g) (hD : Delivers out)
include hg hD

theorem careless_direct {l : Layout} (hl : l.Fits g) {b : Bool} {new : Bytes} (hnew : new.length = l.length * g.size) {fill point : Call} {f f' : Opts}
    (hf : f.fua ≠ 1 ∧ Taken f) (hf' : f'.fua ≠ 1 ∧ Taken f') (hfill : Asks g L B other fill (.write f (l.slot (!b)) new))
    (hpoint : Asks g L B other point (.write f' l.head (l.mark (!b)))) {look : Option Bool → Call} (hlook : Looks L B other g l look) (m : Contents) :
    ∃ k' k'', (updating fill point).Runs (fun _ => True) (Direct (cached g) out) .fill (careless g l m) (.ok ()) k' 2 ∧
      (reading l look).Runs (fun _ => True) (Direct (cached g) out) none k' (some (readAt m (l.slot (!b) * g.size) (l.length * g.size))) k'' 3 := by
  have hs := hg.size.1
  have hm : (l.mark (!b)).length = 1 * g.size := by rw [hl.mark, Nat.one_mul]
  have hmne : l.mark (!b) ≠ [] := by
    intro h0
    rw [h0] at hm
    simp only [List.length_nil] at hm
    omega
  obtain ⟨⟨op, ho1, ho2, ho3⟩, hslot⟩ := hlook
  obtain ⟨op', hp1, hp2, hp3⟩ := hslot (!b)
  obtain ⟨r1, d1, s1⟩ := cached_direct L B other hg hD hfill (careless g l m)
  rw [unforced_run hs hf.1 hf.2 hnew (hl.slot _) _ rfl] at d1 s1
  generalize hk1 : ({ (careless g l m).next with seen := _ } : State) = k1 at d1
  obtain ⟨r2, d2, s2⟩ := cached_direct L B other hg hD hpoint k1
  rw [unforced_run hs hf'.1 hf'.2 hm hl.head _ (by rw [← hk1]; rfl)] at d2 s2
  generalize hk2 : ({ k1.next with seen := _ } : State) = k2 at d2
  cases (show r1 = _ from s1)
  cases (show r2 = _ from s2)
  obtain ⟨r3, d3, s3⟩ := cached_direct L B other hg hD ho1 k2
  rw [told_run op (by rw [← hk2, ← hk1]; rfl)] at d3 s3
  have hk3 : told k2 = { medium := writeAt m (l.head * g.size) (l.mark (!b)), seen := writeAt m (l.head * g.size) (l.mark (!b)), attention := false, coming := [] } := by
    rw [← hk2, ← hk1]
    simp only [told, State.next, careless, List.headD, List.tail, List.foldl, Event.happen, State.mk.injEq, and_true, true_and]
    have hx : ∀ x, (if decide (l.head * g.size ≤ x ∧ x < (l.head + 1) * g.size) = true then
        writeAt (writeAt m (l.slot (!b) * g.size) new) (l.head * g.size) (l.mark (!b)) x else m x) = writeAt m (l.head * g.size) (l.mark (!b)) x := by
      intro x
      simp only [decide_eq_true_eq, writeAt, hm, Nat.add_mul, Nat.one_mul]
      split <;> rfl
    exact ⟨funext hx, funext hx⟩
  rw [hk3] at d3
  generalize hk : ({ medium := _, seen := _, attention := false, coming := [] } : State) = k3 at d3
  obtain ⟨r4, d4, s4⟩ := cached_direct L B other hg hD ho1 k3
  rw [read_plain ho3 ho2 hl.head k3 (by rw [← hk]; rfl) (by rw [← hk]) (by rw [← hk])] at d4 s4
  obtain ⟨r5, d5, s5⟩ := cached_direct L B other hg hD hp1 k3
  rw [read_plain hp3 hp2 (hl.slot _) k3 (by rw [← hk]; rfl) (by rw [← hk]) (by rw [← hk])] at d5 s5
  have e4 : readAt k3.seen (l.head * g.size) (1 * g.size) = l.mark (!b) := by
    rw [← hk, ← hm]
    exact readAt_writeAt _ _ _
  have e5 : readAt k3.seen (l.slot (!b) * g.size) (l.length * g.size) = readAt m (l.slot (!b) * g.size) (l.length * g.size) := by
    have hk1 : (l.mark (!b)).length / g.size = 1 := by rw [hm, Nat.mul_div_cancel _ hs]
    have := run_spared g m (l.slot (!b)) l.length (.write l.head (l.mark (!b))) (by show _ = _; rw [hk1]; exact hm) (by show _ ∨ _; rw [hk1]; exact hl.outside (!b))
    simp only [Disk.Op.run, hk1, if_pos (show l.head + 1 ≤ g.blocks from hl.head)] at this
    rw [← hk]
    exact this
  have hne : readAt m (l.slot (!b) * g.size) (l.length * g.size) ≠ [] := data_ne hs (readAt_length _ _ _) hl.nonempty
  rw [e4] at s4
  rw [e5] at s5
  simp only [Shows, if_neg hmne] at s4
  simp only [Shows, if_neg hne] at s5
  subst s4 s5
  refine ⟨k2, k3, .more trivial d1 rfl (.done trivial d2 rfl), .more trivial d3 ?_ (.more trivial d4 ?_ (.done trivial d5 rfl))⟩
  · simp only [patient, attention_of s3, if_true]
  · show (if l.mark (!b) = l.mark false then _ else _) = _
    generalize hb : (!b) = c
    cases c with
    | false => rw [if_pos rfl]
    | true => rw [if_neg (fun e => hl.differ e.symm), if_pos rfl]

end careless

/-- **C103 fails without FUA**, on Linux: the update ended, and what is read then is what was in the slot before it. -/
theorem C103_unforced_false [DecidableEq K] (c : Bool) (alloc : Nat → Alloc) (t : Int) (ht : 0 ≤ t ∧ t < 2 ^ 32) (L : Lib) (B : Parse.BufLib) (other : Bytes → Py (List (String × Int))) (g : Geometry) (hg : Valid g)
    (l : Layout) (hl : l.Fits g) (b : Bool) (old new junk : Bytes) (hnew : new.length = l.length * g.size) (fill point : Call) (f f' : Opts)
    (hf : f.fua ≠ 1 ∧ Taken f) (hf' : f'.fua ≠ 1 ∧ Taken f') (hfill : Asks g L B other fill (.write f (l.slot (!b)) new))
    (hpoint : Asks g L B other point (.write f' l.head (l.mark (!b)))) (look : Option Bool → Call) (hlook : Looks L B other g l look)
    (hok : Carried (LinuxOk alloc) [fill, point, look none, look (some false), look (some true)]) (m : Contents) (hm : Has g l m b old)
    (hjunk : readAt m (l.slot (!b) * g.size) (l.length * g.size) = junk)
    (w : W Handle K (Option Bytes) (DevErr Sense) (World (State × Option Bytes))) (hw : LinuxIdle w.st w.os (careless g l m)) :
    let M := machine (T := T) (Linux.sgBlocking (lp64 c) getSense (Linux.sgDevice c (cached g))).plat (Linux.prepare (lp64 c) alloc t)
    Stands g l (careless g l m) b old ∧ ∃ w' w'', (updating fill point).Runs (fun _ => True) (Through M) .fill w (.ok ()) w' 2 ∧
      (reading l look).Runs (fun _ => True) (Through M) none w' (some junk) w'' 3 := by
  refine ⟨⟨hm, hm⟩, ?_⟩
  obtain ⟨k', k'', h1, h2⟩ := careless_direct L B other hg outcome_delivers hl hnew hf hf' hfill hpoint hlook m
  have hS := serves_linux (R := Result) (K := K) (T := T) c getSense (cached g) alloc t ht fun m q h => cached_parses g m q (by intro h0; rw [h0] at h; simp at h)
  obtain ⟨w', h3, h4⟩ := through_direct hS (fun s _ q hq => by
    cases s with
    | fill => exact hok fill (by simp) q hq
    | point => exact hok point (by simp) q hq) h1 w hw
  obtain ⟨w'', h5, -⟩ := through_direct hS (fun s _ q hq => by
    cases s with
    | none => exact hok (look none) (by simp) q hq
    | some b => cases b with
      | false => exact hok (look (some false)) (by simp) q hq
      | true => exact hok (look (some true)) (by simp) q hq) h2 w' h4
  rw [hjunk] at h5
  exact ⟨w', w'', h3, h5⟩

/-! ## The hypotheses are met -/

/-- The head is block 0, the slots are blocks 1 and 2, and blocks 3 and 4. -/
def small : Layout :=
  { head := 0, slot := fun b => if b then 3 else 1, length := 2, mark := fun b => List.replicate 512 (if b then 1 else 0) }

theorem small_fits : small.Fits ⟨512, 1000⟩ where
  head := by decide
  slot := by decide
  apart := by decide
  outside := by decide
  nonempty := by decide
  mark _ := List.length_replicate
  differ h := by
    have h1 : (small.mark false)[0]? = some 0 := List.getElem?_replicate_of_lt (by decide)
    have h2 : (small.mark true)[0]? = some 1 := List.getElem?_replicate_of_lt (by decide)
    rw [h, h2] at h1
    exact absurd h1 (by decide)

theorem small_ok (q : Req) (h1 : q.cdb.length ≤ 16) (h2 : dataSize q ≤ 1024) : LinuxOk (fun _ => { block := 4096, sense := 8192, cmd := 12288, data := 16384 }) q := by
  refine ⟨by omega, by omega, fun _ => ⟨?_, ?_⟩⟩
  · simp; omega
  · simp

/-- Write10Command with one block, or two. -/
theorem small_new (data : Bytes) : (data.length = 2 * 512 → ∃ o, newWrite10 3 data 512 = .ok o) ∧ (data.length = 1 * 512 → ∃ o, newWrite10 0 data 512 = .ok o) := by
  constructor
  · intro hd
    refine ⟨⟨.write10, [("transfer_length", 2), ("block_size", 512), ("logical_block_address", 3)], data⟩, ?_⟩
    simp only [newWrite10, hd]
    rfl
  · intro hd
    refine ⟨⟨.write10, [("transfer_length", 1), ("block_size", 512), ("logical_block_address", 0)], data⟩, ?_⟩
    simp only [newWrite10, hd]
    rfl

/-- `cmd = Write10Command(lba, data); cmd.fua = fua`, for one or two blocks. -/
theorem small_write (L : Lib) (B : Parse.BufLib) (other : Bytes → Py (List (String × Int))) (lba n fua : Nat) (hl : lba < 5) (hn : n < 3) (hfua : fua < 2) (data : Bytes)
    (hd : data.length = n * 512) (ho : ∃ o, newWrite10 lba data 512 = .ok o) :
    ∃ o, newWrite10 lba data 512 = .ok o ∧ Asks ⟨512, 1000⟩ L B other (objCommand L (o.sets [("fua", fua)])) (.write { fua := fua } lba data) ∧
      ∀ q, (objCommand L (o.sets [("fua", fua)])).request = .ok q → LinuxOk (fun _ => { block := 4096, sense := 8192, cmd := 12288, data := 16384 }) q := by
  obtain ⟨o, ho⟩ := ho
  have as : Assigned [("fua", (fua : Int))] (writeNames { fua := fua }) := by
    intro p hp; simp [writeNames] at hp; rcases hp with rfl | rfl | rfl | rfl | rfl | rfl | rfl <;> rfl
  have hv : Opts.Valid { fua := fua } := by simp [Opts.Valid, hfua]
  refine ⟨o, ho, .write10 (n := n) ho (k := n) (by rw [hd]; exact Int.natCast_mul n 512) hv rfl as rfl rfl hd (by omega) (by omega), fun q hq => ?_⟩
  have e := (C75_write10 L lba data 512 n o _ { fua := fua } lba n ho (by rw [hd]; exact Int.natCast_mul n 512) hv rfl as rfl rfl (by omega) (by omega)).symm.trans hq
  cases e
  exact small_ok _ (by simp [Req.cdb, Spec.Options.cdb10]) (by simp only [dataSize, hd]; omega)

/-- Read10Command, as it is constructed. -/
def smallLook (L : Lib) (B : Parse.BufLib) (other : Bytes → Py (List (String × Int))) : Option Bool → Call
  | none => (Cmd.read10 0 1 512).command L B other
  | some false => (Cmd.read10 1 2 512).command L B other
  | some true => (Cmd.read10 3 2 512).command L B other

theorem small_looks (L : Lib) (B : Parse.BufLib) (other : Bytes → Py (List (String × Int))) : Looks L B other ⟨512, 1000⟩ small (smallLook L B other) := by
  refine ⟨⟨_, .plain (.read10 (lba := 0) (n := 1) (by decide) (by decide)), rfl, rfl, rfl, rfl⟩, fun b => ?_⟩
  cases b with
  | false => exact ⟨_, .plain (.read10 (lba := 1) (n := 2) (by decide) (by decide)), rfl, rfl, rfl, rfl⟩
  | true => exact ⟨_, .plain (.read10 (lba := 3) (n := 2) (by decide) (by decide)), rfl, rfl, rfl, rfl⟩

theorem small_carried (L : Lib) (B : Parse.BufLib) (other : Bytes → Py (List (String × Int))) (b : Option Bool) (q : Req) (h : (smallLook L B other b).request = .ok q) :
    LinuxOk (fun _ => { block := 4096, sense := 8192, cmd := 12288, data := 16384 }) q := by
  match b, h with
  | none, h =>
    cases (Cdb.C26_read10 L 0 1 512 (by simp [Cdb.Fits]) (by simp [Cdb.Fits])).symm.trans h
    exact small_ok _ (by simp [Req.cdb, Spec.Cdb.read10, Cdb.cdb10]) (by simp [dataSize])
  | some false, h =>
    cases (Cdb.C26_read10 L 1 2 512 (by simp [Cdb.Fits]) (by simp [Cdb.Fits])).symm.trans h
    exact small_ok _ (by simp [Req.cdb, Spec.Cdb.read10, Cdb.cdb10]) (by simp [dataSize])
  | some true, h =>
    cases (Cdb.C26_read10 L 3 2 512 (by simp [Cdb.Fits]) (by simp [Cdb.Fits])).symm.trans h
    exact small_ok _ (by simp [Req.cdb, Spec.Cdb.read10, Cdb.cdb10]) (by simp [dataSize])

/-- A disk of 1000 blocks of 512 bytes on Linux, all zero, so that the data, two blocks of zeros, is in the first slot. Write10Command objects with FUA put other data in the second. Stopped after
any number of commands, whatever is destaged and however often the power fails. -/
example (L : Lib) (B : Parse.BufLib) (other : Bytes → Py (List (String × Int))) (new : Bytes) (hnew : new.length = 1024) (coming : List (List Event)) (i : Nat) :
    ∃ o o', newWrite10 3 new 512 = .ok o ∧ newWrite10 0 (List.replicate 512 1) 512 = .ok o' ∧
      ∃ a w' n w'' n' data, (cut (updating (objCommand L (o.sets [("fua", 1)])) (objCommand L (o'.sets [("fua", 1)])))).Runs (fun _ => True) (Through (machine (T := Unit)
          (Linux.sgBlocking (K := Unit) (lp64 true) getSense (Linux.sgDevice true (cached ⟨512, 1000⟩))).plat
          (Linux.prepare (lp64 true) (fun _ => { block := 4096, sense := 8192, cmd := 12288, data := 16384 }) 30000))) (.fill, i)
          { st := { pending := [], index := 6, maxq := 7 },
            os := { mem := fun _ => 0xEE, kernel := ({ medium := fun _ => 0, seen := fun _ => 0, attention := false, coming := coming }, none) },
            fired := [], box := fun _ => [] } a w' n ∧
        (reading small (smallLook L B other)).Runs (fun _ => True) (Through (machine (T := Unit)
          (Linux.sgBlocking (K := Unit) (lp64 true) getSense (Linux.sgDevice true (cached ⟨512, 1000⟩))).plat
          (Linux.prepare (lp64 true) (fun _ => { block := 4096, sense := 8192, cmd := 12288, data := 16384 }) 30000))) none w' (some data) w'' n' ∧
        ((data = List.replicate 1024 0 ∧ a = none) ∨ (data = new ∧ a = some (.ok ()))) := by
  obtain ⟨o, ho, hask, hfit⟩ := small_write L B other 3 2 1 (by decide) (by decide) (by decide) new hnew ((small_new new).1 hnew)
  obtain ⟨o', ho', hask', hfit'⟩ := small_write L B other 0 1 1 (by decide) (by decide) (by decide) (List.replicate 512 1) List.length_replicate ((small_new _).2 List.length_replicate)
  have hold : (List.replicate 1024 (0 : UInt8)).length = small.length * 512 := List.length_replicate
  have zeros : ∀ a n, readAt (fun _ => 0) a n = List.replicate n 0 := by
    intro a n
    apply List.ext_getElem
    · rw [readAt_length, List.length_replicate]
    · intro i h1 h2
      rw [List.getElem_replicate]
      simp only [readAt, List.getElem_map]
  have hhas : Has ⟨512, 1000⟩ small (fun _ => 0) false (List.replicate 1024 0) := ⟨zeros _ _, zeros _ _⟩
  obtain ⟨-, h2, h3⟩ := C103_linux (K := Unit) (T := Unit) true (fun _ => { block := 4096, sense := 8192, cmd := 12288, data := 16384 }) 30000 (by decide) L B other ⟨512, 1000⟩
    ⟨by decide, by decide⟩ small small_fits false (List.replicate 1024 0) new hold hnew _ _ { fua := 1 } { fua := 1 } ⟨rfl, rfl, rfl, rfl⟩ ⟨rfl, rfl, rfl, rfl⟩ hask hask'
    (smallLook L B other) (small_looks L B other) (by
      intro c hc q hq
      simp only [List.mem_cons, List.not_mem_nil, or_false] at hc
      rcases hc with rfl | rfl | rfl | rfl | rfl
      · exact hfit q hq
      · exact hfit' q hq
      all_goals exact small_carried L B other _ q hq)
    { st := { pending := [], index := 6, maxq := 7 },
      os := { mem := fun _ => 0xEE, kernel := ({ medium := fun _ => 0, seen := fun _ => 0, attention := false, coming := coming }, none) },
      fired := [], box := fun _ => [] } _ ⟨rfl, by simp, by simp, by simp, rfl⟩ ⟨hhas, hhas⟩
  obtain ⟨a, w', n, h4⟩ := h2 i
  obtain ⟨k', b', data, h5, -, h6, h7⟩ := h3 i a w' n h4
  obtain ⟨⟨w'', n', h8⟩, -⟩ := h7 w' h5
  refine ⟨o, o', ho, ho', a, w', n, w'', n', data, h4, h8, ?_⟩
  rcases h6 with ⟨-, h, h'⟩ | ⟨-, h, h'⟩
  · exact .inl ⟨h, h'⟩
  · exact .inr ⟨h, h'⟩

/-- The same program without FUA. The data was twos and is replaced by ones; the program ended, and zeros are read. -/
example (L : Lib) (B : Parse.BufLib) (other : Bytes → Py (List (String × Int))) :
    let m : Contents := fun x => if 512 ≤ x ∧ x < 1536 then 2 else 0
    ∃ o o', newWrite10 3 (List.replicate 1024 1) 512 = .ok o ∧ newWrite10 0 (List.replicate 512 1) 512 = .ok o' ∧ Has ⟨512, 1000⟩ small m false (List.replicate 1024 2) ∧
      ∃ w' w'', (updating (objCommand L (o.sets [("fua", 0)])) (objCommand L (o'.sets [("fua", 0)]))).Runs (fun _ => True) (Through (machine (T := Unit)
          (Linux.sgBlocking (K := Unit) (lp64 true) getSense (Linux.sgDevice true (cached ⟨512, 1000⟩))).plat
          (Linux.prepare (lp64 true) (fun _ => { block := 4096, sense := 8192, cmd := 12288, data := 16384 }) 30000))) .fill
          { st := { pending := [], index := 6, maxq := 7 }, os := { mem := fun _ => 0xEE, kernel := (careless ⟨512, 1000⟩ small m, none) }, fired := [], box := fun _ => [] }
          (.ok ()) w' 2 ∧
        (reading small (smallLook L B other)).Runs (fun _ => True) (Through (machine (T := Unit)
          (Linux.sgBlocking (K := Unit) (lp64 true) getSense (Linux.sgDevice true (cached ⟨512, 1000⟩))).plat
          (Linux.prepare (lp64 true) (fun _ => { block := 4096, sense := 8192, cmd := 12288, data := 16384 }) 30000))) none w' (some (List.replicate 1024 0)) w'' 3 := by
  intro m
  have hone : (List.replicate 1024 (1 : UInt8)).length = 2 * 512 := List.length_replicate
  obtain ⟨o, ho, hask, hfit⟩ := small_write L B other 3 2 0 (by decide) (by decide) (by decide) (List.replicate 1024 1) hone ((small_new _).1 hone)
  obtain ⟨o', ho', hask', hfit'⟩ := small_write L B other 0 1 0 (by decide) (by decide) (by decide) (List.replicate 512 1) List.length_replicate ((small_new _).2 List.length_replicate)
  have same : ∀ a n v, (∀ x, a ≤ x → x < a + n → m x = v) → readAt m a n = List.replicate n v := by
    intro a n v h
    apply List.ext_getElem
    · rw [readAt_length, List.length_replicate]
    · intro i h1 h2
      rw [readAt_length] at h1
      rw [List.getElem_replicate]
      simp only [readAt, List.getElem_map, List.getElem_range]
      exact h _ (by omega) (by omega)
  have hhas : Has ⟨512, 1000⟩ small m false (List.replicate 1024 2) := by
    refine ⟨same 0 512 0 fun x _ hx => if_neg (by omega), same 512 1024 2 fun x h1 h2 => if_pos (by omega)⟩
  obtain ⟨-, w', w'', h1, h2⟩ := C103_unforced_false (K := Unit) (T := Unit) true (fun _ => { block := 4096, sense := 8192, cmd := 12288, data := 16384 }) 30000 (by decide) L B other ⟨512, 1000⟩
    ⟨by decide, by decide⟩ small small_fits false (List.replicate 1024 2) (List.replicate 1024 1) (List.replicate 1024 0) hone _ _ { fua := 0 } { fua := 0 } ⟨by decide, rfl, rfl, rfl⟩
    ⟨by decide, rfl, rfl, rfl⟩ hask hask' (smallLook L B other) (small_looks L B other) (by
      intro c hc q hq
      simp only [List.mem_cons, List.not_mem_nil, or_false] at hc
      rcases hc with rfl | rfl | rfl | rfl | rfl
      · exact hfit q hq
      · exact hfit' q hq
      all_goals exact small_carried L B other _ q hq)
    m hhas (same 1536 1024 0 fun x h1 h2 => if_neg (by omega))
    { st := { pending := [], index := 6, maxq := 7 }, os := { mem := fun _ => 0xEE, kernel := (careless ⟨512, 1000⟩ small m, none) }, fired := [], box := fun _ => [] }
    ⟨rfl, by simp, by simp, by simp, rfl⟩
  exact ⟨o, o', ho, ho', hhas, w', w'', h1, h2⟩

end Verif.Journal
