import Verif.Spec.Ledger
import Verif.Props.Refused
/-!
# C110: updates whose answers are lost are made once

A block of a shared disk says how many updates each computer has made. A computer that is not told what became of its COMPARE AND WRITE reads the block and sees.
-/
set_option linter.unusedSimpArgs false
set_option linter.unusedSectionVars false

namespace Verif.Commands.Clients.Ledger

open Verif.Executer Verif.Coroutine Verif.ExecuterGen Verif.Platform Verif.Spec Verif.Spec.Cdb Verif.Sense Verif.Spec.Disk Verif.Spec.Ledger
open Verif.Spec.Aborted (partly)
open Verif.Spec.Refused (Served askServed heard)
open Verif.Commands.Clients.Aborted (isAborted isMiscompare aborted_shown partly_self partly_block)
open Verif.Commands.Clients.Refused (DirectServed served_unique Carries same_served isFailure shown_none)

variable {K T Q Gp ω : Type}

/-- In the manner of

    except OSError:
        lost = True
    except AsiCheckConditionError as e:
        lost = e.sense_obj.sense_key == 'ABORTED_COMMAND'

(`AsiOSError` on AIX and Windows). -/
def lost (failed : PyErr) (r : Seen) : Bool := isFailure failed r || isAborted r

/-- The number of the update to be made, and the block once it has been read. -/
structure Book where
  count : Nat
  old : Option Bytes

/-- After update number `count`. -/
def Book.after (goal count : Nat) : Book ⊕ Bool := if count + 1 = goal then .inr true else .inl ⟨count + 1, none⟩

/-- The program: read the block; if it says that the update has been made, go on to the next one; otherwise exchange it for what it becomes; if another computer was faster, or nobody knows, begin again.
`mine` is what the block says of the updates of this computer. It ends with whether all were made; `False` is for other errors. -/
def recorder (failed : PyErr) (lba size : Nat) (mine : Bytes → Nat) (change : Nat → Bytes → Bytes) (goal : Nat) : Client Book Cmd Seen Bool where
  ask
    | ⟨_, none⟩ => .read16 lba 1 size
    | ⟨c, some old⟩ => .compareAndWrite lba (old ++ change c old) 1 size
  next
    | ⟨c, none⟩, r =>
      if lost failed r then .inl ⟨c, none⟩
      else match r with
        | .ok (some (.obj (.raw (some d)))) => if mine d = c then .inl ⟨c, some d⟩ else Book.after goal c
        | _ => .inr false
    | ⟨c, some _⟩, r =>
      if lost failed r || isMiscompare r then .inl ⟨c, none⟩
      else match r with
        | .ok _ => Book.after goal c
        | .error _ => .inr false

/-- States of the program. -/
def Fair (g : Geometry) (goal : Nat) (b : Book) : Prop := b.count < goal ∧ ∀ d, b.old = some d → d.length = g.size

/-- The others leave alone what the block says of this computer. -/
def Respect (g : Geometry) (lba : Nat) (mine : Bytes → Nat) (es : List Event) : Prop := ∀ e ∈ es, ∀ m, mine (block g lba (e.act m)) = mine (block g lba m)

theorem block_length (g : Geometry) (lba : Nat) (m : Contents) : (block g lba m).length = g.size := readAt_length ..

/-- How many commands are still needed if nothing happens. -/
def need (goal : Nat) (b : Book) : Nat := 2 * (goal - b.count) - (if b.old.isSome then 1 else 0)

theorem tail_respect {g : Geometry} {lba : Nat} {mine : Bytes → Nat} {es : List Event} (h : Respect g lba mine es) : Respect g lba mine es.tail := fun e he => h e (List.mem_of_mem_tail he)

theorem now_mine {g : Geometry} {lba : Nat} {mine : Bytes → Nat} {s : State} (h : Respect g lba mine s.events) : mine (block g lba s.now) = mine (block g lba s.contents) := by
  obtain ⟨m, es⟩ := s
  cases es with
  | nil => rfl
  | cons e es => exact h e List.mem_cons_self m

/-- The event of this command comes first. -/
theorem made_next {g : Geometry} {lba : Nat} {change : Nat → Bytes → Bytes} {s : State} {c c' n : Nat} {m' : Contents} (h : Made g lba change c s.now (s.events.tail.take n) c' m') :
    Made g lba change c s.contents (s.events.take (n + 1)) c' m' := by
  obtain ⟨m, es⟩ := s
  cases es with
  | nil =>
    rw [show (State.mk m []).events.tail.take n = [] from by simp] at h
    exact h
  | cons e es => exact .others h

theorem busy_next (s : State) : disturbances s.events = (if s.event.busy then 1 else 0) + disturbances s.events.tail := by
  obtain ⟨m, es⟩ := s
  cases es with
  | nil => rfl
  | cons e es =>
    show (e :: es).countP Event.busy = _
    rw [List.countP_cons, Nat.add_comm]
    rfl

section direct

variable (L : Lib) (B : Parse.BufLib) (other : Bytes → Py (List (String × Int))) {g : Geometry} (hg : Valid g) {failed : PyErr}
  {out : Req → Answer → Except (Exn (DevErr Sense)) (Option (Option Bytes))} (hD : Delivers out)
include hg hD

/-- One command. -/
theorem shared_direct {c : Cmd} {op : Op} (h : Asks g c op) (s : State) :
    (s.event.loss = none ∧ ∃ r : Seen, DirectServed failed out (shared g) (c.command L B other) s r ⟨(op.run g s.now).2, s.events.tail⟩ ∧ Shows r (op.run g s.now).1 ∧ lost failed r = false) ∨
    ∃ f : Loss, s.event.loss = some f ∧
      ∃ r : Seen, DirectServed failed out (shared g) (c.command L B other) s r ⟨partly g f.which s.now (op.run g s.now).2, s.events.tail⟩ ∧ lost failed r = true := by
  obtain ⟨q, hq, hm, hs⟩ := step L B other s.now hg hD h
  cases hf : s.event.loss with
  | none =>
    refine .inl ⟨rfl, _, ?_, hs, ?_⟩
    · simp only [DirectServed, askServed, hq, shared, hf, heard, hm]
    · rw [lost, shown_none hs, Aborted.other_shown hs]; rfl
  | some f =>
    refine .inr ⟨f, rfl, ?_⟩
    cases f with
    | aborted f =>
      refine ⟨decoded (c.command L B other) (out q (Disk.failed 0x0B f.asc.toNat f.ascq.toNat)), ?_, ?_⟩
      · simp only [DirectServed, askServed, hq, shared, hf, heard, hm]; rfl
      · obtain ⟨raw, sn, e, hsn⟩ := hD.fails q 0x0B f.asc.toNat f.ascq.toNat (by decide) f.asc.toNat_lt f.ascq.toNat_lt
        rw [lost, aborted_shown (asc := f.asc.toNat) (ascq := f.ascq.toNat) ⟨raw, sn, by rw [e]; rfl, hsn⟩, Bool.or_true]
    | refused f =>
      refine ⟨.error (.py failed), ?_, by simp [lost, isFailure]⟩
      simp only [DirectServed, askServed, hq, shared, hf, heard, hm]
      rfl

variable {lba goal : Nat} {mine : Bytes → Nat} {change : Nat → Bytes → Bytes} (hl : lba + 1 ≤ g.blocks) (hsize : ∀ c b, b.length = g.size → (change c b).length = g.size)
  (hmine : ∀ c b, c < goal → b.length = g.size → mine b = c → mine (change c b) = c + 1)
include hl hsize hmine

theorem recorder_runs : ∀ (F : Nat) (b : Book) (s : State), Fair g goal b → Respect g lba mine s.events → mine (block g lba s.contents) ≤ goal →
    (match b.old with
      | none => mine (block g lba s.contents) = b.count ∨ mine (block g lba s.contents) = b.count + 1
      | some d => mine (block g lba s.contents) = b.count ∧ block g lba s.contents = d) →
    need goal b + 2 * disturbances s.events ≤ F →
    ∃ m' N, N ≤ need goal b + 2 * disturbances s.events ∧ Made g lba change (mine (block g lba s.contents)) s.contents (s.events.take N) goal m' ∧
      (on L B other (recorder failed lba g.size mine change goal)).Runs (Fair g goal) (DirectServed failed out (shared g)) b s true ⟨m', s.events.drop N⟩ N
  | 0, b, s, hb, _, _, _, hF => by
    exfalso
    have := hb.1
    simp only [need] at hF
    split at hF <;> omega
  | F + 1, b, s, hb, hres, hgoal, hinv, hF => by
    have hz := hg.size.1
    have hblocks := hg.blocks
    have hres' := tail_respect hres
    have hbusy := busy_next s
    have hnow := now_mine hres
    obtain ⟨c, old⟩ := b
    obtain ⟨hc, hold⟩ := hb
    dsimp only at hc hold hinv
    have hend : ∀ n, s.events.drop (n + 1) = s.events.tail.drop n := fun n => by rw [List.drop_tail]
    -- a command after which the program goes on
    have go : ∀ (r : Seen) (m₁ : Contents) (b₁ : Book), DirectServed failed out (shared g) ((on L B other (recorder failed lba g.size mine change goal)).ask ⟨c, old⟩) s r ⟨m₁, s.events.tail⟩ →
        (recorder failed lba g.size mine change goal).next ⟨c, old⟩ r = .inl b₁ → Fair g goal b₁ → mine (block g lba m₁) ≤ goal →
        (match b₁.old with
          | none => mine (block g lba m₁) = b₁.count ∨ mine (block g lba m₁) = b₁.count + 1
          | some d => mine (block g lba m₁) = b₁.count ∧ block g lba m₁ = d) →
        need goal b₁ + 2 * disturbances s.events.tail + 1 ≤ need goal ⟨c, old⟩ + 2 * disturbances s.events →
        (∀ es m', Made g lba change (mine (block g lba m₁)) m₁ es goal m' → Made g lba change (mine (block g lba s.now)) s.now es goal m') →
        ∃ m' N, N ≤ need goal ⟨c, old⟩ + 2 * disturbances s.events ∧ Made g lba change (mine (block g lba s.contents)) s.contents (s.events.take N) goal m' ∧
          (on L B other (recorder failed lba g.size mine change goal)).Runs (Fair g goal) (DirectServed failed out (shared g)) ⟨c, old⟩ s true ⟨m', s.events.drop N⟩ N := by
      intro r m₁ b₁ hexec hnext hb₁ hg₁ hinv₁ hcost hmade
      obtain ⟨m', N, h1, h2, h3⟩ := recorder_runs F b₁ ⟨m₁, s.events.tail⟩ hb₁ hres' hg₁ hinv₁ (by dsimp only; omega)
      dsimp only at h1 h2 h3
      refine ⟨m', N + 1, by omega, ?_, ?_⟩
      · rw [← hnow]; exact made_next (hmade _ _ h2)
      · rw [hend]
        exact .more ⟨hc, hold⟩ hexec hnext h3
    -- an update was found or made
    have fin : ∀ (r : Seen) (m₁ : Contents), DirectServed failed out (shared g) ((on L B other (recorder failed lba g.size mine change goal)).ask ⟨c, old⟩) s r ⟨m₁, s.events.tail⟩ →
        (recorder failed lba g.size mine change goal).next ⟨c, old⟩ r = Book.after goal c → mine (block g lba m₁) = c + 1 →
        (∀ es m', Made g lba change (c + 1) m₁ es goal m' → Made g lba change (mine (block g lba s.now)) s.now es goal m') →
        ∃ m' N, N ≤ need goal ⟨c, old⟩ + 2 * disturbances s.events ∧ Made g lba change (mine (block g lba s.contents)) s.contents (s.events.take N) goal m' ∧
          (on L B other (recorder failed lba g.size mine change goal)).Runs (Fair g goal) (DirectServed failed out (shared g)) ⟨c, old⟩ s true ⟨m', s.events.drop N⟩ N := by
      intro r m₁ hexec hnext hm₁ hmade
      by_cases he : c + 1 = goal
      · rw [Book.after, if_pos he] at hnext
        refine ⟨m₁, 1, ?_, ?_, ?_⟩
        · simp only [need]; split <;> omega
        · rw [← hnow]
          refine made_next (n := 0) (hmade _ _ ?_)
          rw [List.take_zero, he]; exact .nothing
        · rw [hend 0, List.drop_zero]
          exact .done ⟨hc, hold⟩ hexec hnext
      · rw [Book.after, if_neg he] at hnext
        refine go r m₁ ⟨c + 1, none⟩ hexec hnext ⟨by dsimp only; omega, nofun⟩ (by omega) (.inl hm₁) ?_ (by rw [hm₁]; exact hmade)
        have h1 : (if old.isSome then 1 else 0) ≤ 1 := by split <;> omega
        simp only [need, Option.isSome_none, Bool.false_eq_true, if_false]
        omega
    cases old with
    | none =>
      have hask : Asks g ((recorder failed lba g.size mine change goal).ask ⟨c, none⟩) (.read lba 1) := .read16 (by omega) (by decide)
      have hrun : (Op.read lba 1).run g s.now = (.data (block g lba s.now), s.now) := by simp only [Op.run, hl, if_true, Nat.one_mul, block]
      rcases shared_direct L B other hg hD (failed := failed) hask s with ⟨h0, r, h1, h2, h3⟩ | ⟨f, h0, r, h1, h2⟩
      · rw [hrun] at h1 h2
        have hr : r = .ok (some (.obj (.raw (some (block g lba s.now))))) := by
          simp only [Shows] at h2
          rw [h2, if_neg (by intro h; have := congrArg List.length h; rw [block_length] at this; simp at this; omega)]
        have hnext : (recorder failed lba g.size mine change goal).next ⟨c, none⟩ r = if mine (block g lba s.now) = c then .inl ⟨c, some (block g lba s.now)⟩ else Book.after goal c := by
          show (if lost failed r then _ else _) = _
          rw [h3, hr]; rfl
        by_cases hm : mine (block g lba s.now) = c
        · rw [if_pos hm] at hnext
          refine go r s.now ⟨c, some (block g lba s.now)⟩ h1 hnext ⟨hc, fun d hd => by cases hd; exact block_length ..⟩ (by omega) ⟨hm, rfl⟩ ?_ fun _ _ h => h
          simp only [need, Option.isSome_none, Option.isSome_some]
          split at hbusy <;> simp <;> omega
        · rw [if_neg hm] at hnext
          have hm' : mine (block g lba s.now) = c + 1 := by rcases hinv with h | h <;> omega
          exact fin r s.now h1 hnext hm' fun es m' h => by rw [hm']; exact h
      · rw [hrun, partly_self] at h1
        have hnext : (recorder failed lba g.size mine change goal).next ⟨c, none⟩ r = .inl ⟨c, none⟩ := by
          show (if lost failed r then _ else _) = _
          rw [h2]; rfl
        refine go r s.now ⟨c, none⟩ h1 hnext ⟨hc, nofun⟩ (by omega) (by rw [hnow]; exact hinv) ?_ fun _ _ h => h
        rw [hbusy, if_pos (by simp [Event.busy, h0])]
        omega
    | some d =>
      have hd := hold d rfl
      have hask : Asks g ((recorder failed lba g.size mine change goal).ask ⟨c, some d⟩) (.exchange lba d (change c d)) :=
        .exchange (n := 1) (by omega) (by decide) (by rw [hd, Nat.one_mul]) (by rw [hsize c d hd, Nat.one_mul])
      have hrun : (Op.exchange lba d (change c d)).run g s.now = if block g lba s.now = d then (.done, writeAt s.now (lba * g.size) (change c d)) else (.failed 0x0E 0x1D 0, s.now) := by
        simp only [Op.run, hd, Nat.div_self hz, hl, if_true, block]
        rfl
      have hwritten : block g lba s.now = d → block g lba (writeAt s.now (lba * g.size) (change c d)) = change c d := by
        intro _
        have := readAt_writeAt s.now (lba * g.size) (change c d)
        rw [hsize c d hd] at this
        exact this
      have hupd : block g lba s.now = d → ∀ es m', Made g lba change (c + 1) (writeAt s.now (lba * g.size) (change c d)) es goal m' →
          Made g lba change (mine (block g lba s.now)) s.now es goal m' := by
        intro he es m' h
        rw [hnow, hinv.1]
        refine .update ?_
        rw [he]; exact h
      have hback : (recorder failed lba g.size mine change goal).next ⟨c, some d⟩ = fun r => if lost failed r || isMiscompare r then .inl ⟨c, none⟩ else match r with
        | .ok _ => Book.after goal c
        | .error _ => .inr false := rfl
      rcases shared_direct L B other hg hD (failed := failed) hask s with ⟨h0, r, h1, h2, h3⟩ | ⟨f, h0, r, h1, h2⟩
      · rw [hrun] at h1 h2
        by_cases he : block g lba s.now = d
        · rw [if_pos he] at h1 h2
          refine fin r _ h1 ?_ (by rw [hwritten he]; exact hmine c d hc hd (by rw [← hinv.2]; exact hinv.1)) (hupd he)
          rw [hback]
          simp only [h3]
          rw [show r = _ from h2]; rfl
        · rw [if_neg he] at h1 h2
          refine go r s.now ⟨c, none⟩ h1 ?_ ⟨hc, nofun⟩ (by omega) (.inl (by rw [hnow]; exact hinv.1)) ?_ fun _ _ h => h
          · obtain ⟨raw, sn, rfl, hsn⟩ := h2
            have hk : isMiscompare (.error (.dev (.checkCondition raw (some sn)))) = true := by simp only [isMiscompare, hsn.1]; rfl
            rw [hback]
            simp only [h3, hk, Bool.or_true, if_true]
          · have hb : s.event.busy = true := by
              cases ho : s.event.others with
              | some o => simp [Event.busy, ho]
              | none =>
                exfalso; apply he
                rw [← hinv.2]
                simp only [State.now, Event.act, ho, Option.getD_none, id]
            rw [hbusy, if_pos hb]
            simp only [need, Option.isSome_none, Option.isSome_some]
            simp; omega
      · rw [hrun] at h1
        have hnext : (recorder failed lba g.size mine change goal).next ⟨c, some d⟩ r = .inl ⟨c, none⟩ := by
          rw [hback]
          simp only [h2, Bool.true_or, if_true]
        have hcost : need goal ⟨c, none⟩ + 2 * disturbances s.events.tail + 1 ≤ need goal ⟨c, some d⟩ + 2 * disturbances s.events := by
          rw [hbusy, if_pos (by simp [Event.busy, h0])]
          simp only [need, Option.isSome_none, Option.isSome_some]
          simp; omega
        have hsame : DirectServed failed out (shared g) ((on L B other (recorder failed lba g.size mine change goal)).ask ⟨c, some d⟩) s r ⟨s.now, s.events.tail⟩ →
            ∃ m' N, N ≤ need goal ⟨c, some d⟩ + 2 * disturbances s.events ∧ Made g lba change (mine (block g lba s.contents)) s.contents (s.events.take N) goal m' ∧
            (on L B other (recorder failed lba g.size mine change goal)).Runs (Fair g goal) (DirectServed failed out (shared g)) ⟨c, some d⟩ s true ⟨m', s.events.drop N⟩ N := fun h1 =>
          go r s.now ⟨c, none⟩ h1 hnext ⟨hc, nofun⟩ (by omega) (.inl (by rw [hnow]; exact hinv.1)) hcost fun _ _ h => h
        by_cases he : block g lba s.now = d
        · rw [if_pos he] at h1
          rcases partly_block g f.which s.now lba (change c d) (hsize c d hd) with e | e
          · dsimp only at h1; rw [e] at h1
            exact hsame h1
          · dsimp only at h1; rw [e] at h1
            have hm₁ : mine (block g lba (writeAt s.now (lba * g.size) (change c d))) = c + 1 := by rw [hwritten he]; exact hmine c d hc hd (by rw [← hinv.2]; exact hinv.1)
            exact go r _ ⟨c, none⟩ h1 hnext ⟨hc, nofun⟩ (by omega) (.inr hm₁) hcost (by rw [hm₁]; exact hupd he)
        · rw [if_neg he] at h1
          dsimp only at h1; rw [partly_self] at h1
          exact hsame h1

end direct

theorem shared_parses (g : Geometry) (k : State) (q : OsRequest) (ans : Answer) (h : (shared g k q).1 = .ok ans) (h0 : ans.status ≠ 0) :
    ∃ sn, getSense (padded 255 ans.sense) = .ok sn := by
  simp only [shared] at h
  cases hf : k.event.loss with
  | none =>
    rw [hf] at h
    injection h with h
    rw [← h] at h0 ⊢
    exact disk_parses g k.now q h0
  | some f =>
    rw [hf] at h
    cases f with
    | aborted f =>
      injection h with h
      rw [← h]
      obtain ⟨sn, hs, -⟩ := getSense_says _ (by rw [padded_length]; decide) 0x0B f.asc.toNat f.ascq.toNat
        (reports_padded _ _ _ _ (failed_reports 0x0B f.asc.toNat f.ascq.toNat (by decide) f.asc.toNat_lt f.ascq.toNat_lt))
      exact ⟨_, hs⟩
    | refused f => cases h

theorem made_all [DecidableEq K] (L : Lib) (B : Parse.BufLib) (other : Bytes → Py (List (String × Int))) {g : Geometry} (hg : Valid g) {failed : PyErr}
    {out : Req → Answer → Except (Exn (DevErr Sense)) (Option (Option Bytes))} (hD : Delivers out)
    {M : Machine (Frame Req Q K (Option Bytes) Result Gp) (W Q K (Option Bytes) (DevErr Sense) ω) (Val (Option Bytes) (DevErr Sense) Result) (Exn (DevErr Sense)) T}
    {fits : Req → Prop} {idle : W Q K (Option Bytes) (DevErr Sense) ω → State → Prop} (hS : Carries M failed out (shared g) fits idle)
    (lba goal : Nat) (mine : Bytes → Nat) (change : Nat → Bytes → Bytes) (hl : lba + 1 ≤ g.blocks) (hsize : ∀ c b, b.length = g.size → (change c b).length = g.size)
    (hmine : ∀ c b, c < goal → b.length = g.size → mine b = c → mine (change c b) = c + 1)
    (hfit : ∀ x, Fair g goal x → ∀ r, Cdb.request L ((recorder failed lba g.size mine change goal).ask x).cdb = .ok r → fits r)
    (w : W Q K (Option Bytes) (DevErr Sense) ω) (m : Contents) (es : List Event) (hw : idle w ⟨m, es⟩) (hes : Respect g lba mine es) (hc : mine (block g lba m) < goal) :
    let Runs := fun a w' N => (on L B other (recorder failed lba g.size mine change goal)).Runs (Fair g goal) (Through M) ⟨mine (block g lba m), none⟩ w a w' N
    (∃ a w' N, Runs a w' N) ∧ ∀ a w' N, Runs a w' N → a = true ∧ N ≤ 2 * (goal - mine (block g lba m)) + 2 * disturbances es ∧
      ∃ m', Made g lba change (mine (block g lba m)) m (es.take N) goal m' ∧ idle w' ⟨m', es.drop N⟩ := by
  obtain ⟨m', N, h1, h2, h3⟩ := recorder_runs L B other hg (failed := failed) hD hl hsize hmine _ ⟨mine (block g lba m), none⟩ ⟨m, es⟩ ⟨hc, nofun⟩ hes (Nat.le_of_lt hc) (.inl rfl) (Nat.le_refl _)
  have same := fun a N => same_served hS (p := on L B other (recorder failed lba g.size mine change goal)) (ok := Fair g goal) hfit ⟨mine (block g lba m), none⟩ w ⟨m, es⟩ hw a N
  obtain ⟨w', h4, -⟩ := (same true N).1 _ h3
  refine ⟨⟨true, w', N, h4⟩, fun a₁ w₁ N₁ h => ?_⟩
  obtain ⟨k₁, h5, h6⟩ := (same a₁ N₁).2 w₁ h
  obtain ⟨rfl, rfl, rfl⟩ := runs_unique served_unique h3 h5
  exact ⟨rfl, h1, m', h2, h6⟩

/-- **C110 on Linux**. A block of a shared disk says how many updates this computer has made (`mine`). It makes updates until it has made `goal`: it reads the block and exchanges it for what it becomes; when another
computer was faster it begins again, and so it does when the answer is lost, because the disk aborted the command or the call failed; then it sees in the block whether the update was made. Whatever the others do that
leaves alone what the block says of this computer, and whichever answers are lost, before or after the command was carried out: the program ends, in one way only, and says that all updates were made. Then each of them was
made exactly once, in order, on the block as it was then, and nothing else was done but what the others did. Each command of the others and each loss costs at most two commands. -/
theorem C110_linux [DecidableEq K] (l : Bool) (alloc : Nat → Alloc) (t : Int) (ht : 0 ≤ t ∧ t < 2 ^ 32) (L : Lib) (B : Parse.BufLib) (other : Bytes → Py (List (String × Int)))
    (g : Geometry) (hg : Valid g) (lba goal : Nat) (mine : Bytes → Nat) (change : Nat → Bytes → Bytes) (hl : lba + 1 ≤ g.blocks) (hsize : ∀ c b, b.length = g.size → (change c b).length = g.size)
    (hmine : ∀ c b, c < goal → b.length = g.size → mine b = c → mine (change c b) = c + 1)
    (hfit : ∀ x, Fair g goal x → ∀ r, Cdb.request L ((recorder .ioError lba g.size mine change goal).ask x).cdb = .ok r → LinuxOk alloc r)
    (w : W Handle K (Option Bytes) (DevErr Sense) (World (State × Option Bytes))) (m : Contents) (es : List Event) (hw : LinuxIdle w.st w.os ⟨m, es⟩) (hes : Respect g lba mine es) (hc : mine (block g lba m) < goal) :
    let Runs := fun a w' N => (on L B other (recorder .ioError lba g.size mine change goal)).Runs (Fair g goal)
      (Through (machine (T := T) (Linux.sgBlocking (lp64 l) getSense (Linux.sgServed l (shared g))).plat (Linux.prepare (lp64 l) alloc t))) ⟨mine (block g lba m), none⟩ w a w' N
    (∃ a w' N, Runs a w' N) ∧ ∀ a w' N, Runs a w' N → a = true ∧ N ≤ 2 * (goal - mine (block g lba m)) + 2 * disturbances es ∧
      ∃ m', Made g lba change (mine (block g lba m)) m (es.take N) goal m' ∧ LinuxIdle w'.st w'.os ⟨m', es.drop N⟩ :=
  made_all L B other hg outcome_delivers (idle := fun w k => LinuxIdle w.st w.os k)
    (fun c w k hc hw => Refused.C108_linux (T := T) l getSense (shared g) alloc t ht (fun k q ans h h' => shared_parses g k q ans h (by intro h0; rw [h0] at h'; simp at h')) [c] (fun c' h => by rw [List.mem_singleton.1 h]; exact hc) w k hw)
    lba goal mine change hl hsize hmine hfit w m es hw hes hc

/-- **C110 on Solaris**. -/
theorem C110_solaris [DecidableEq K] (l : Bool) (alloc : Nat → Alloc) (t : Int) (ht : 0 ≤ t ∧ t < 2 ^ 15) (L : Lib) (B : Parse.BufLib) (other : Bytes → Py (List (String × Int)))
    (g : Geometry) (hg : Valid g) (lba goal : Nat) (mine : Bytes → Nat) (change : Nat → Bytes → Bytes) (hl : lba + 1 ≤ g.blocks) (hsize : ∀ c b, b.length = g.size → (change c b).length = g.size)
    (hmine : ∀ c b, c < goal → b.length = g.size → mine b = c → mine (change c b) = c + 1)
    (hfit : ∀ x, Fair g goal x → ∀ r, Cdb.request L ((recorder .ioError lba g.size mine change goal).ask x).cdb = .ok r → SolarisOk alloc r)
    (w : W Handle K (Option Bytes) (DevErr Sense) (Solaris.SolWorld State)) (m : Contents) (es : List Event) (hw : SolarisIdle w.st w.os ⟨m, es⟩) (hes : Respect g lba mine es) (hc : mine (block g lba m) < goal) :
    let Runs := fun a w' N => (on L B other (recorder .ioError lba g.size mine change goal)).Runs (Fair g goal)
      (Through (machine (T := T) (Solaris.solBlocking (lp64 l) getSense (Solaris.uscsiServed l (shared g))).plat (Solaris.prepare (lp64 l) alloc t))) ⟨mine (block g lba m), none⟩ w a w' N
    (∃ a w' N, Runs a w' N) ∧ ∀ a w' N, Runs a w' N → a = true ∧ N ≤ 2 * (goal - mine (block g lba m)) + 2 * disturbances es ∧
      ∃ m', Made g lba change (mine (block g lba m)) m (es.take N) goal m' ∧ SolarisIdle w'.st w'.os ⟨m', es.drop N⟩ :=
  made_all L B other hg outcome_delivers (idle := fun w k => SolarisIdle w.st w.os k)
    (fun c w k hc hw => Refused.C108_solaris (T := T) l getSense (shared g) alloc t ht (fun k q ans h h' => shared_parses g k q ans h (by intro h0; rw [h0] at h'; simp at h')) [c] (fun c' h => by rw [List.mem_singleton.1 h]; exact hc) w k hw)
    lba goal mine change hl hsize hmine hfit w m es hw hes hc

/-- **C110 on AIX**, with the `fcntl` binding only. -/
theorem C110_aix_partial [DecidableEq K] (alloc : Nat → Alloc) (t : Int) (ht : 0 ≤ t ∧ t < 2 ^ 32) (L : Lib) (B : Parse.BufLib) (other : Bytes → Py (List (String × Int)))
    (g : Geometry) (hg : Valid g) (lba goal : Nat) (mine : Bytes → Nat) (change : Nat → Bytes → Bytes) (hl : lba + 1 ≤ g.blocks) (hsize : ∀ c b, b.length = g.size → (change c b).length = g.size)
    (hmine : ∀ c b, c < goal → b.length = g.size → mine b = c → mine (change c b) = c + 1)
    (hfit : ∀ x, Fair g goal x → ∀ r, Cdb.request L ((recorder .asiOs lba g.size mine change goal).ask x).cdb = .ok r → AixOk .fcntl alloc r)
    (w : W Handle K (Option Bytes) (DevErr Sense) (Aix.AixWorld State)) (m : Contents) (es : List Event) (hw : AixIdle w.st w.os ⟨m, es⟩) (hes : Respect g lba mine es) (hc : mine (block g lba m) < goal) :
    let Runs := fun a w' N => (on L B other (recorder .asiOs lba g.size mine change goal)).Runs (Fair g goal)
      (Through (machine (T := T) (Aix.aixBlocking (lp64 false) getSense .fcntl (Aix.scServed (shared g))).plat (Aix.prepare (lp64 false) alloc t))) ⟨mine (block g lba m), none⟩ w a w' N
    (∃ a w' N, Runs a w' N) ∧ ∀ a w' N, Runs a w' N → a = true ∧ N ≤ 2 * (goal - mine (block g lba m)) + 2 * disturbances es ∧
      ∃ m', Made g lba change (mine (block g lba m)) m (es.take N) goal m' ∧ AixIdle w'.st w'.os ⟨m', es.drop N⟩ :=
  made_all L B other hg outcome_delivers (idle := fun w k => AixIdle w.st w.os k)
    (fun c w k hc hw => Refused.C108_aix_partial (T := T) getSense (shared g) alloc t ht (fun k q ans h h' => shared_parses g k q ans h (by intro h0; rw [h0] at h'; simp at h')) [c] (fun c' h => by rw [List.mem_singleton.1 h]; exact hc) w k hw)
    lba goal mine change hl hsize hmine hfit w m es hw hes hc

/-- **C110 on Windows**. -/
theorem C110_windows [DecidableEq K] (b : Bool) (alloc : Nat → Alloc) (L : Lib) (B : Parse.BufLib) (other : Bytes → Py (List (String × Int)))
    (g : Geometry) (hg : Valid g) (lba goal : Nat) (mine : Bytes → Nat) (change : Nat → Bytes → Bytes) (hl : lba + 1 ≤ g.blocks) (hsize : ∀ c b, b.length = g.size → (change c b).length = g.size)
    (hmine : ∀ c b, c < goal → b.length = g.size → mine b = c → mine (change c b) = c + 1)
    (hfit : ∀ x, Fair g goal x → ∀ r, Cdb.request L ((recorder .asiOs lba g.size mine change goal).ask x).cdb = .ok r → WindowsOk b alloc r)
    (w : W Win32.Spt K (Option Bytes) (DevErr Sense) (Win32.WinWorld State)) (m : Contents) (es : List Event) (hw : WindowsIdle w.st w.os ⟨m, es⟩) (hes : Respect g lba mine es) (hc : mine (block g lba m) < goal) :
    let Runs := fun a w' N => (on L B other (recorder .asiOs lba g.size mine change goal)).Runs (Fair g goal)
      (Through (machine (T := T) (Win32.winPlat (Win32.W b) getSense (Win32.sptServed b (shared g))) (Win32.prepare (Win32.W b) alloc))) ⟨mine (block g lba m), none⟩ w a w' N
    (∃ a w' N, Runs a w' N) ∧ ∀ a w' N, Runs a w' N → a = true ∧ N ≤ 2 * (goal - mine (block g lba m)) + 2 * disturbances es ∧
      ∃ m', Made g lba change (mine (block g lba m)) m (es.take N) goal m' ∧ WindowsIdle w'.st w'.os ⟨m', es.drop N⟩ :=
  made_all L B other hg winOutcome_delivers (idle := fun w k => WindowsIdle w.st w.os k)
    (fun c w k hc hw => Refused.C108_windows (T := T) b getSense (shared g) alloc (fun k q ans h h' => shared_parses g k q ans h (by rw [h']; decide)) [c] (fun c' h => by rw [List.mem_singleton.1 h]; exact hc) w k hw)
    lba goal mine change hl hsize hmine hfit w m es hw hes hc

/-! ## A block with a byte for all updates and one for each computer -/

/-- Byte 1 counts the updates of this computer. -/
def ours (b : Bytes) : Nat := (b.getD 1 0).toNat

/-- Byte 0 counts all updates. -/
def enter (c : Nat) (b : Bytes) : Bytes := (b.getD 0 0 + 1) :: UInt8.ofNat (c + 1) :: b.drop 2

theorem enter_length {c : Nat} {b : Bytes} (h : b.length = 512) : (enter c b).length = 512 := by simp [enter, h]

theorem enter_ours {goal c : Nat} (hgoal : goal < 256) (hc : c < goal) (b : Bytes) : ours (enter c b) = c + 1 := by
  simp only [ours, enter, List.getD_cons_succ, List.getD_cons_zero, UInt8.toNat_ofNat']
  omega

theorem enter_request (L : Lib) (failed : PyErr) (mine : Bytes → Nat) (goal : Nat) (x : Book) (hx : Fair ⟨512, 1000⟩ goal x) (r : Req)
    (h : Cdb.request L ((recorder failed 7 512 mine enter goal).ask x).cdb = .ok r) :
    r = .read (Spec.Cdb.read16 7 1) 512 ∨ ∃ data, data.length = 1024 ∧ r = .write (Spec.Cdb.compareAndWrite 7 1) data := by
  obtain ⟨c, old⟩ := x
  cases old with
  | none =>
    cases (Cdb.C26_read16 L 7 1 512 ⟨by omega, by omega⟩ ⟨by omega, by omega⟩).symm.trans h
    exact .inl rfl
  | some d =>
    have hd : d.length = 512 := hx.2 d rfl
    obtain ⟨-, -, -, -, rfl⟩ := (Cdb.C31_partial L 7 (d ++ enter c d) 1 512 r).1 h
    exact .inr ⟨_, by rw [List.length_append, hd, enter_length hd], rfl⟩

theorem enter_fits {L : Lib} {failed : PyErr} {mine : Bytes → Nat} {goal : Nat} {x : Book} (hx : Fair ⟨512, 1000⟩ goal x) {r : Req}
    (h : Cdb.request L ((recorder failed 7 512 mine enter goal).ask x).cdb = .ok r) : LinuxOk Aborted.room r := by
  rcases enter_request L failed mine goal x hx r h with rfl | ⟨data, hd, rfl⟩
  · exact ⟨by simp [Req.cdb, Spec.Cdb.read16, cdb16], by simp [dataSize], fun _ => ⟨by simp [dataSize, Req.cdb, Spec.Cdb.read16, cdb16], by simp⟩⟩
  · exact example_fits _ ⟨by simp [Req.cdb, Spec.Cdb.compareAndWrite, cdb16], by simp only [dataSize, hd]; decide⟩

/-- The call failed when the disk had done everything. -/
def late : Loss := .refused Refused.lost

def start (m : Contents) (es : List Event) : W Handle Unit (Option Bytes) (DevErr Sense) (World (State × Option Bytes)) :=
  { st := { pending := [], index := 6, maxq := 7 }, os := { mem := fun _ => 0xEE, kernel := (⟨m, es⟩, none) }, fired := [], box := fun _ => [] }

theorem start_idle (m : Contents) (es : List Event) : LinuxIdle (start m es).st (start m es).os ⟨m, es⟩ := ⟨rfl, by simp [start], by simp [start], by simp [start], rfl⟩

abbrev computer := machine (R := Result) (T := Unit) (Linux.sgBlocking (K := Unit) (lp64 true) getSense (Linux.sgServed true (shared ⟨512, 1000⟩))).plat (Linux.prepare (lp64 true) Aborted.room 30000)

/-- The same program, on another computer that uses byte 2. -/
def theirs (b : Bytes) : Bytes := (b.getD 0 0 + 1) :: b.getD 1 0 :: (b.getD 2 0 + 1) :: b.drop 3

def visit : Event := { others := some fun m => writeAt m (7 * 512) (theirs (readAt m (7 * 512) 512)), loss := none }

theorem visit_respects (e : Event) (h : e.others = none ∨ e.others = visit.others) (m : Contents) : ours (block ⟨512, 1000⟩ 7 (e.act m)) = ours (block ⟨512, 1000⟩ 7 m) := by
  rcases h with h | h
  · simp only [Event.act, h, Option.getD_none, id]
  · simp only [Event.act, h, visit, Option.getD_some, block]
    have hl : (theirs (readAt m (7 * 512) 512)).length = 512 := by simp [theirs, readAt_length]
    have := readAt_writeAt m (7 * 512) (theirs (readAt m (7 * 512) 512))
    rw [hl] at this
    rw [this]
    simp only [ours, theirs, List.getD_cons_succ, List.getD_cons_zero]

/-- The hypotheses are met: two updates, all sorts of interference by the other computer and all sorts of losses, of whichever commands. -/
theorem example_runs (L : Lib) (B : Parse.BufLib) (other : Bytes → Py (List (String × Int))) (m : Contents) (hm : ours (block ⟨512, 1000⟩ 7 m) = 0) (es : List Event)
    (hes : ∀ e ∈ es, e.others = none ∨ e.others = visit.others) :
    ∃ w' N m', (on L B other (recorder .ioError 7 512 ours enter 2)).Runs (Fair ⟨512, 1000⟩ 2) (Through computer) ⟨0, none⟩ (start m es) true w' N ∧ N ≤ 4 + 2 * disturbances es ∧
      Made ⟨512, 1000⟩ 7 enter 0 m (es.take N) 2 m' ∧ LinuxIdle w'.st w'.os ⟨m', es.drop N⟩ := by
  obtain ⟨⟨a, w', N, h1⟩, h2⟩ := C110_linux (T := Unit) (K := Unit) true Aborted.room 30000 (by decide) L B other ⟨512, 1000⟩ ⟨by decide, by decide⟩ 7 2 ours enter (by decide)
    (fun c b hb => enter_length hb) (fun c b hc _ _ => enter_ours (by decide) hc b) (fun x hx r hr => enter_fits hx hr) (start m es) m es (start_idle m es)
    (fun e he m => visit_respects e (hes e he) m) (by rw [hm]; decide)
  obtain ⟨rfl, h3, m', h4, h5⟩ := h2 a w' N h1
  rw [hm] at h1 h3 h4
  exact ⟨w', N, m', h1, h3, h4, h5⟩

/-- For instance: the other computer comes between reading and exchanging; then the exchange is carried out and the answer is lost; then the read is aborted. -/
example : ∀ e ∈ [⟨none, none⟩, visit, ⟨none, none⟩, ⟨none, some late⟩, ⟨none, some (.aborted Aborted.middle)⟩], e.others = none ∨ e.others = visit.others := by
  intro e he
  simp only [List.mem_cons, List.not_mem_nil, or_false] at he
  rcases he with rfl | rfl | rfl | rfl | rfl <;> first | exact .inl rfl | exact .inr rfl

theorem partly_all (g : Geometry) (m m' : Contents) : partly g late.which m m' = m' := by
  funext x; simp [partly, late, Loss.which, Refused.lost]

/-- **Without what the block says of the computer, C110 is false**: a program that does not look at it (`mine` is always 0), and makes one update of a block of zeros, makes it twice when the answer
to its COMPARE AND WRITE is lost. -/
theorem C110_unmarked_false (L : Lib) (B : Parse.BufLib) (other : Bytes → Py (List (String × Int))) :
    ∃ w', (on L B other (recorder .ioError 7 512 (fun _ => 0) enter 1)).Runs (Fair ⟨512, 1000⟩ 1) (Through computer) ⟨0, none⟩ (start (fun _ => 0) [⟨none, none⟩, ⟨none, some late⟩]) true w' 4 ∧
      readAt w'.os.kernel.1.contents (7 * 512) 2 = [2, 1] := by
  have hg : Valid ⟨512, 1000⟩ := ⟨by decide, by decide⟩
  have fair : ∀ d, d.length = 512 → Fair ⟨512, 1000⟩ 1 ⟨0, some d⟩ := fun d h => ⟨Nat.zero_lt_one, fun d' h' => by cases h'; exact h⟩
  have fair0 : Fair ⟨512, 1000⟩ 1 ⟨0, none⟩ := ⟨by decide, nofun⟩
  -- reading
  have look : ∀ (m : Contents) (es : List Event), (State.mk m es).event = ⟨none, none⟩ → ∃ r : Seen, DirectServed .ioError (Platform.outcome getSense) (shared ⟨512, 1000⟩)
      ((on L B other (recorder .ioError 7 512 (fun _ => 0) enter 1)).ask ⟨0, none⟩) ⟨m, es⟩ r ⟨m, es.tail⟩ ∧
      (recorder .ioError 7 512 (fun _ => 0) enter 1).next ⟨0, none⟩ r = .inl ⟨0, some (readAt m (7 * 512) 512)⟩ := by
    intro m es he
    have hnow : (State.mk m es).now = m := by simp only [State.now, he]; rfl
    rcases shared_direct L B other hg outcome_delivers (failed := .ioError) (c := (recorder .ioError 7 512 (fun _ => 0) enter 1).ask ⟨0, none⟩) (op := .read 7 1) (.read16 (by decide) (by decide)) ⟨m, es⟩ with
      ⟨-, r, h1, h2, h3⟩ | ⟨f, h, -⟩
    · rw [hnow] at h1 h2
      refine ⟨r, h1, ?_⟩
      have h2 : Shows r (.data (readAt m (7 * 512) 512)) := h2
      have hr : r = .ok (some (.obj (.raw (some (readAt m (7 * 512) 512))))) := by
        simp only [Shows] at h2
        rw [h2, if_neg (by intro h; have := congrArg List.length h; rw [readAt_length] at this; simp at this)]
      show (if lost .ioError r then _ else _) = _
      rw [h3, hr]
      generalize readAt m (7 * 512) 512 = d
      rfl
    · rw [he] at h; cases h
  have hask : ∀ d, d.length = 512 → Asks ⟨512, 1000⟩ ((recorder .ioError 7 512 (fun _ => 0) enter 1).ask ⟨0, some d⟩) (.exchange 7 d (enter 0 d)) := fun d hd =>
    .exchange (n := 1) (by decide) (by decide) hd (enter_length hd)
  have hrun : ∀ m : Contents, (Op.exchange 7 (readAt m (7 * 512) 512) (enter 0 (readAt m (7 * 512) 512))).run ⟨512, 1000⟩ m = (.done, writeAt m (7 * 512) (enter 0 (readAt m (7 * 512) 512))) := by
    intro m
    simp only [Op.run, readAt_length, Nat.reduceDiv, Nat.reduceAdd, Nat.reduceLeDiff, if_true]
  -- exchanging, and the answer is lost
  have first : ∀ m : Contents, ∃ r : Seen, DirectServed .ioError (Platform.outcome getSense) (shared ⟨512, 1000⟩)
      ((on L B other (recorder .ioError 7 512 (fun _ => 0) enter 1)).ask ⟨0, some (readAt m (7 * 512) 512)⟩) ⟨m, [⟨none, some late⟩]⟩ r ⟨writeAt m (7 * 512) (enter 0 (readAt m (7 * 512) 512)), []⟩ ∧
      (recorder .ioError 7 512 (fun _ => 0) enter 1).next ⟨0, some (readAt m (7 * 512) 512)⟩ r = .inl ⟨0, none⟩ := by
    intro m
    rcases shared_direct L B other hg outcome_delivers (failed := .ioError) (hask _ (readAt_length ..)) ⟨m, [⟨none, some late⟩]⟩ with ⟨h, -⟩ | ⟨f, hf, r, h1, h2⟩
    · cases h
    · cases Option.some.inj hf
      rw [show (State.mk m [⟨none, some late⟩]).now = m from rfl, hrun, partly_all] at h1
      refine ⟨r, h1, ?_⟩
      show (if lost .ioError r || isMiscompare r then _ else _) = _
      rw [h2]; rfl
  -- exchanging
  have second : ∀ m : Contents, ∃ r : Seen, DirectServed .ioError (Platform.outcome getSense) (shared ⟨512, 1000⟩)
      ((on L B other (recorder .ioError 7 512 (fun _ => 0) enter 1)).ask ⟨0, some (readAt m (7 * 512) 512)⟩) ⟨m, []⟩ r ⟨writeAt m (7 * 512) (enter 0 (readAt m (7 * 512) 512)), []⟩ ∧
      (recorder .ioError 7 512 (fun _ => 0) enter 1).next ⟨0, some (readAt m (7 * 512) 512)⟩ r = .inr true := by
    intro m
    rcases shared_direct L B other hg outcome_delivers (failed := .ioError) (hask _ (readAt_length ..)) ⟨m, []⟩ with ⟨-, r, h1, h2, h3⟩ | ⟨f, h, -⟩
    · rw [show (State.mk m []).now = m from rfl, hrun] at h1 h2
      refine ⟨r, h1, ?_⟩
      show (if lost .ioError r || isMiscompare r then _ else _) = _
      rw [h3, show r = _ from h2]; rfl
    · cases h
  obtain ⟨r1, a1, b1⟩ := look (fun _ => 0) [⟨none, none⟩, ⟨none, some late⟩] rfl
  obtain ⟨r2, a2, b2⟩ := first fun _ => 0
  obtain ⟨r3, a3, b3⟩ := look (writeAt (fun _ => 0) (7 * 512) (enter 0 (readAt (fun _ => 0) (7 * 512) 512))) [] rfl
  obtain ⟨r4, a4, b4⟩ := second (writeAt (fun _ => 0) (7 * 512) (enter 0 (readAt (fun _ => 0) (7 * 512) 512)))
  have h := Client.Runs.more (ok := Fair ⟨512, 1000⟩ 1) (p := on L B other (recorder .ioError 7 512 (fun _ => 0) enter 1)) fair0 a1 b1
    (.more (fair _ (readAt_length ..)) a2 b2 (.more fair0 a3 b3 (.done (fair _ (readAt_length ..)) a4 b4)))
  obtain ⟨w', h1, h2⟩ := (same_served (idle := fun w k => LinuxIdle w.st w.os k) (fun c w k hc hw => Refused.C108_linux (K := Unit) (T := Unit) (R := Result) true getSense (shared ⟨512, 1000⟩) Aborted.room 30000 (by decide)
    (fun k q ans h h' => shared_parses _ k q ans h (by intro h0; rw [h0] at h'; simp at h')) [c] (fun c' h => by rw [List.mem_singleton.1 h]; exact hc) w k hw)
    (p := on L B other (recorder .ioError 7 512 (fun _ => 0) enter 1)) (ok := Fair ⟨512, 1000⟩ 1) (fun x hx r hr => enter_fits hx hr) ⟨0, none⟩ (start (fun _ => 0) [⟨none, none⟩, ⟨none, some late⟩]) (State.mk (fun _ => 0) [⟨none, none⟩, ⟨none, some late⟩]) (start_idle _ _) true 4).1 _ h
  refine ⟨w', h1, ?_⟩
  obtain ⟨-, -, -, -, hk⟩ := h2
  rw [hk]
  decide +kernel

/-- **C110 is false on AIX with libc's `ioctl`**, which the library takes where it can be loaded. The block has been read, and the call of the COMPARE AND WRITE fails before the disk got anything, whatever the reason
given: the program says that the update was made, and the disk is as it was. -/
theorem C110_aix_false [DecidableEq K] (L : Lib) (B : Parse.BufLib) (other : Bytes → Py (List (String × Int))) (m : Contents) (f : Spec.Refused.Failure)
    (w : W Handle K (Option Bytes) (DevErr Sense) (Aix.AixWorld State)) (hw : AixIdle w.st w.os ⟨m, [⟨none, some (.refused ⟨f, fun _ => false⟩)⟩]⟩) :
    ∃ w', (on L B other (recorder .asiOs 7 512 ours enter 1)).Runs (Fair ⟨512, 1000⟩ 1)
        (Through (machine (T := T) (Aix.aixBlocking (lp64 false) getSense .libc (Aix.scServed (shared ⟨512, 1000⟩))).plat (Aix.prepare (lp64 false) Aborted.room 30)))
        ⟨0, some (block ⟨512, 1000⟩ 7 m)⟩ w true w' 1 ∧ w'.os.world.kernel.contents = m := by
  have hP := (Aix.aixBlocking (K := K) (lp64 false) getSense .libc (Aix.scServed (shared ⟨512, 1000⟩))).implements (R := Result) (T := T) .actual
  rw [Aix.aixBlocking_send, Aix.aixBlocking_receive] at hP
  have hb : (block ⟨512, 1000⟩ 7 m).length = 512 := block_length ..
  have hdl : (block ⟨512, 1000⟩ 7 m ++ enter 0 (block ⟨512, 1000⟩ 7 m)).length = 1024 := by rw [List.length_append, hb, enter_length hb]
  obtain ⟨q, hq, hm, hs⟩ := step L B other m (g := ⟨512, 1000⟩) ⟨by decide, by decide⟩ outcome_delivers
    (.exchange (g := ⟨512, 1000⟩) (lba := 7) (n := 1) (old := block ⟨512, 1000⟩ 7 m) (new := enter 0 (block ⟨512, 1000⟩ 7 m)) (by decide) (by decide) hb (enter_length hb))
  obtain ⟨-, -, -, -, rfl⟩ := (Cdb.C31_partial L 7 (block ⟨512, 1000⟩ 7 m ++ enter 0 (block ⟨512, 1000⟩ 7 m)) 1 512 q).1 hq
  obtain ⟨fr, hf, h1, h2, h3, -⟩ := execute_ok hP _ (Aix.prepare (lp64 false) Aborted.room 30) w hq
  obtain ⟨hp, hmax, hidx, hk⟩ := hw
  have hos : w.os = { world := { mem := w.os.world.mem, kernel := ⟨m, [⟨none, some (.refused ⟨f, fun _ => false⟩)⟩]⟩ }, buffer := w.os.buffer } := by rw [← hk]
  obtain ⟨r1, r2⟩ := Aix.unnoticed getSense (shared ⟨512, 1000⟩) Aborted.room 30 (Spec.Cdb.compareAndWrite 7 1) (block ⟨512, 1000⟩ 7 m ++ enter 0 (block ⟨512, 1000⟩ 7 m)) w.st w.os.world.mem
    ⟨m, [⟨none, some (.refused ⟨f, fun _ => false⟩)⟩]⟩ w.os.buffer hp (by omega) hidx
    (by simp [Spec.Cdb.compareAndWrite, cdb16]) (by rw [hdl]; decide) (by decide)
    ⟨by simp [regions, dataSize, Req.cdb, Spec.Cdb.compareAndWrite, cdb16, hb, enter_length hb], by simp [regions, dataSize, Req.cdb, Spec.Cdb.compareAndWrite, cdb16, hb, enter_length hb]⟩ f rfl
  rw [← hos] at r1 r2
  simp only [Aix.aixCall] at r1 r2
  rw [show Int.toNat 7 = 7 from rfl, show Int.toNat 1 = 1 from rfl] at h1 h3
  rw [r1] at h1
  refine ⟨world fr, .done ⟨Nat.zero_lt_one, fun d h => by rw [← Option.some.inj h]; exact hb⟩ (show RunAll _ [_] _ [_] _ from .cons hf (.nil _)) ?_, ?_⟩
  · rw [h1]; rfl
  · rw [h3, r2]
    simp only [shared, State.event, List.headD_cons]
    funext x
    simp only [partly, Bool.false_eq_true, if_false]
    rfl

end Verif.Commands.Clients.Ledger
