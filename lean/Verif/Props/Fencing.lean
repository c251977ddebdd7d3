import Verif.FenceLemmas
import Verif.Props.Cluster
import Verif.Props.SharedDisk
/-!
# C96: a fenced computer might as well be switched off

Any number of computers, each with the library on its own platform, share a disk that keeps registrations and reservations and enforces them
(`Spec.Fence`). A computer preempts another's registration while the disk is reserved.
-/
set_option linter.unusedSimpArgs false
set_option linter.unusedSectionVars false
set_option linter.constructorNameAsVariable false

namespace Verif.Commands.Fencing

open Verif.Executer Verif.Coroutine Verif.ExecuterGen Verif.Platform Verif.Spec Verif.Spec.Cdb Verif.Sense Verif.Commands
open Verif.Spec.Disk (Geometry Contents good failed disk Each readAt writeAt)
open Verif.Spec.Reservations (Lun Kind Action Verdict Notice Key keyOf refused answerOf actionOf)
open Verif.Spec.SharedDisk (Access permits needs access aboutReservations Op Reply)
open Verif.Spec.Cluster (Host Runs put)
open Verif.Commands.Cluster (Computer Res)
open Verif.Spec.Fence

/-! ## Any device -/

/-- What a computer makes of the device's answer: the platform's outcome (C51), through the device mapper the data without a look at the status (C66). -/
def out : Computer → Req → Answer → Except (Exn (DevErr Sense)) (Option (Option Bytes))
  | .windows _ _ => Win32.winOutcome getSense
  | .mapped _ _ _ => unlooked
  | _ => Platform.outcome getSense

section

variable {K T : Type} [DecidableEq K] (L : Lib) (B : Parse.BufLib) (other : Bytes → Py (List (String × Int))) {δ : Type}

/-- A computer of any kind executes one command that can be built in front of any device: it ends in one way only, the device gets the request once and as
asked, and the executer is at rest again. -/
theorem any_step (dev : Device δ) (hp : ∀ k q, (dev k q).1.status.toNat / 2 % 2 = 1 → ∃ sn, getSense (padded 255 (dev k q).1.sense) = .ok sn)
    (c : Computer) (cmd : Cmd) {q : Req} (hq : Cdb.request L cmd.cdb = .ok q) (hcan : c.Can q)
    (w : (c.host K T L B other dev).State) (hw : c.Ready K T L B other dev w) :
    ∃ w', (c.host K T L B other dev).runs cmd w (decoded (cmd.command L B other) (out c q (dev ((c.host K T L B other dev).disk w) (asked q)).1)) w' ∧
      (∀ a2 w2, (c.host K T L B other dev).runs cmd w a2 w2 →
        a2 = decoded (cmd.command L B other) (out c q (dev ((c.host K T L B other dev).disk w) (asked q)).1) ∧ w2 = w') ∧
      (c.host K T L B other dev).disk w' = (dev ((c.host K T L B other dev).disk w) (asked q)).2 ∧ c.Ready K T L B other dev w' := by
  have hq' : (cmd.command L B other).request = .ok q := hq
  have hone : ∀ ok : Req → Prop, ok q → ∀ c ∈ [cmd.command L B other], ∀ r, c.request = .ok r → ok r := by
    intro ok hok c hc r hr
    rw [List.mem_singleton.1 hc, hq'] at hr
    cases hr
    exact hok
  cases c with
  | linux l alloc t =>
    obtain ⟨w', h1, h2⟩ := C51_linux (K := K) (T := T) l getSense dev alloc t hcan.1 hp [cmd.command L B other] (hone _ hcan.2) w _ hw
    simp only [askAll, hq'] at h1 h2
    refine ⟨w', h1, fun a2 w2 h => ?_, h2.2.2.2.2, ⟨h2.1, h2.2.1, h2.2.2.1, h2.2.2.2.1, rfl⟩⟩
    obtain ⟨e1, e2⟩ := runAll_unique h1 h
    cases e1
    exact ⟨rfl, e2⟩
  | solaris l alloc t =>
    obtain ⟨w', h1, h2⟩ := C51_solaris (K := K) (T := T) l getSense dev alloc t hcan.1 hp [cmd.command L B other] (hone _ hcan.2) w _ hw
    simp only [askAll, hq'] at h1 h2
    refine ⟨w', h1, fun a2 w2 h => ?_, h2.2.2.2, ⟨h2.1, h2.2.1, h2.2.2.1, rfl⟩⟩
    obtain ⟨e1, e2⟩ := runAll_unique h1 h
    cases e1
    exact ⟨rfl, e2⟩
  | aix b alloc t =>
    obtain ⟨w', h1, h2⟩ := C51_aix (K := K) (T := T) getSense b dev alloc t hcan.1 hp [cmd.command L B other] (hone _ hcan.2) w _ hw
    simp only [askAll, hq'] at h1 h2
    refine ⟨w', h1, fun a2 w2 h => ?_, h2.2.2.2, ⟨h2.1, h2.2.1, h2.2.2.1, rfl⟩⟩
    obtain ⟨e1, e2⟩ := runAll_unique h1 h
    cases e1
    exact ⟨rfl, e2⟩
  | windows b alloc =>
    obtain ⟨w', h1, h2⟩ := C51_windows (K := K) (T := T) b getSense dev alloc (fun k q h => hp k q (by rw [h]; decide)) [cmd.command L B other] (hone _ hcan) w _ hw
    simp only [askAll, hq'] at h1 h2
    refine ⟨w', h1, fun a2 w2 h => ?_, h2.2.2, ⟨h2.1, h2.2.1, rfl⟩⟩
    obtain ⟨e1, e2⟩ := runAll_unique h1 h
    cases e1
    exact ⟨rfl, e2⟩
  | mapped l alloc t =>
    obtain ⟨w', h1, h2⟩ := C66_session (K := K) (T := T) l getSense dev alloc t hcan.1 [cmd.command L B other] (hone _ hcan.2) w _ hw
    simp only [askAll, hq'] at h1 h2
    refine ⟨w', h1, fun a2 w2 h => ?_, h2.2.2.2.2, ⟨h2.1, h2.2.1, h2.2.2.1, h2.2.2.2.1, rfl⟩⟩
    obtain ⟨e1, e2⟩ := runAll_unique h1 h
    cases e1
    exact ⟨rfl, e2⟩

theorem attach_ready (dev : Device δ) (c : Computer) (w : (c.host K T L B other dev).State) (m : δ) (h : c.Ready K T L B other dev w) :
    c.Ready K T L B other dev ((c.host K T L B other dev).attach w m) ∧ (c.host K T L B other dev).disk ((c.host K T L B other dev).attach w m) = m := by
  cases c with
  | linux l alloc t => exact ⟨⟨h.1, h.2.1, h.2.2.1, h.2.2.2.1, rfl⟩, rfl⟩
  | solaris l alloc t => exact ⟨⟨h.1, h.2.1, h.2.2.1, rfl⟩, rfl⟩
  | aix b alloc t => exact ⟨⟨h.1, h.2.1, h.2.2.1, rfl⟩, rfl⟩
  | windows b alloc => exact ⟨⟨h.1, h.2.1, rfl⟩, rfl⟩
  | mapped l alloc t => exact ⟨⟨h.1, h.2.1, h.2.2.1, h.2.2.2.1, rfl⟩, rfl⟩

/-- The computers, each with its own way to the device (which knows who asks). -/
abbrev hosts (K T : Type) [DecidableEq K] (cs : Nat → Computer) (dev : Nat → Device δ) : Nat → Host δ Cmd Res :=
  fun h => (cs h).host K T L B other (dev h)

theorem put_ready {cs : Nat → Computer} (dev : Nat → Device δ) {w : (h : Nat) → (hosts L B other K T cs dev h).State}
    (hw : ∀ h, (cs h).Ready K T L B other (dev h) (w h)) (h : Nat) (s : (hosts L B other K T cs dev h).State)
    (hs : (cs h).Ready K T L B other (dev h) s) (k : Nat) :
    (cs k).Ready K T L B other (dev k) (put (S := fun h => (hosts L B other K T cs dev h).State) w h s k) := by
  unfold put
  split
  · rename_i e
    subst e
    exact hs
  · exact hw k

/-- A computer's command is answered by the device and passed on. -/
def answered (cs : Nat → Computer) (dev : Nat → Device δ) (h : Nat) (cmd : Cmd) (q : Req) (k : δ) : Res :=
  decoded (cmd.command L B other) (out (cs h) q (dev h k (asked q)).1)

/-- Every command can be built and its computer's platform can carry it. -/
def Issued (cs : Nat → Computer) (sched : List (Nat × Cmd)) : Prop := ∀ p ∈ sched, ∃ q, Cdb.request L p.2.cdb = .ok q ∧ (cs p.1).Can q

/-- The device always gives sense data with CHECK CONDITION. -/
def Senses (dev : Nat → Device δ) : Prop := ∀ h k q, (dev h k q).1.status.toNat / 2 % 2 = 1 → ∃ sn, getSense (padded 255 (dev h k q).1.sense) = .ok sn

/-- The first command of a schedule. -/
theorem runs_cons {cs : Nat → Computer} {dev : Nat → Device δ} (hp : Senses dev) {h : Nat} {cmd : Cmd} {rest : List (Nat × Cmd)}
    (hi : Issued L cs ((h, cmd) :: rest)) {w w' : (h : Nat) → (hosts L B other K T cs dev h).State} (hw : ∀ h, (cs h).Ready K T L B other (dev h) (w h))
    {k k' : δ} {as : List Res} (hrun : Runs (hosts L B other K T cs dev) w k ((h, cmd) :: rest) as w' k') :
    ∃ q as' w1, Cdb.request L cmd.cdb = .ok q ∧ as = answered L B other cs dev h cmd q k :: as' ∧ (∀ h, (cs h).Ready K T L B other (dev h) (w1 h)) ∧
      Runs (hosts L B other K T cs dev) w1 (dev h k (asked q)).2 rest as' w' k' := by
  obtain ⟨q, hq, hc⟩ := hi _ (List.mem_cons_self ..)
  cases hrun with
  | @cons _ _ _ _ _ a s' as _ _ g1 g2 =>
    obtain ⟨r1, r2⟩ := attach_ready L B other (dev h) (cs h) (w h) k (hw h)
    obtain ⟨s'', -, e2, e3, e4⟩ := any_step (K := K) (T := T) L B other (dev h) (hp h) (cs h) cmd hq hc _ r1
    rw [r2] at e2 e3
    obtain ⟨rfl, rfl⟩ := e2 _ _ g1
    simp only [e3] at g2
    exact ⟨q, as, _, hq, rfl, put_ready L B other dev hw h _ e4, g2⟩

/-- Every schedule is executed, in one way only. -/
theorem runs_once {cs : Nat → Computer} {dev : Nat → Device δ} (hp : Senses dev) (sched : List (Nat × Cmd)) (hi : Issued L cs sched)
    (w : (h : Nat) → (hosts L B other K T cs dev h).State) (hw : ∀ h, (cs h).Ready K T L B other (dev h) (w h)) (k : δ) :
    ∃ as w' k', Runs (hosts L B other K T cs dev) w k sched as w' k' ∧ as.length = sched.length ∧
      ∀ as2 w2 k2, Runs (hosts L B other K T cs dev) w k sched as2 w2 k2 → as2 = as ∧ w2 = w' ∧ k2 = k' := by
  induction sched generalizing w k with
  | nil =>
    refine ⟨[], w, k, .nil _ _, rfl, ?_⟩
    intro as2 w2 k2 h
    cases h
    exact ⟨rfl, rfl, rfl⟩
  | cons p rest ih =>
    obtain ⟨h, cmd⟩ := p
    obtain ⟨q, hq, hc⟩ := hi _ (List.mem_cons_self ..)
    obtain ⟨r1, r2⟩ := attach_ready L B other (dev h) (cs h) (w h) k (hw h)
    obtain ⟨s', e1, e2, e3, e4⟩ := any_step (K := K) (T := T) L B other (dev h) (hp h) (cs h) cmd hq hc _ r1
    obtain ⟨as, w', k', f1, f2, f3⟩ := ih (fun p hp => hi p (List.mem_cons_of_mem _ hp)) _ (put_ready L B other dev hw h s' e4)
      ((hosts L B other K T cs dev h).disk s')
    refine ⟨_, w', k', .cons e1 f1, by simp [f2], ?_⟩
    intro as2 w2 k2 hrun
    cases hrun with
    | cons g1 g2 =>
      obtain ⟨rfl, rfl⟩ := e2 _ _ g1
      obtain ⟨rfl, rfl, rfl⟩ := f3 _ _ _ g2
      exact ⟨rfl, rfl, rfl⟩

end

/-! ## The shared disk -/

theorem serve_senses (g : Geometry) : Senses (serve g) := by
  intro h s q hq
  have bad : ∀ a b c : Nat, a < 16 → b < 256 → c < 256 → ∃ sn, getSense (padded 255 (failed a b c).sense) = .ok sn := by
    intro a b c h1 h2 h3
    obtain ⟨s, hs, -⟩ := getSense_says _ (by rw [padded_length]; decide) _ _ _ (reports_padded _ _ _ _ (failed_reports a b c h1 h2 h3))
    exact ⟨_, hs⟩
  revert hq
  unfold serve
  split
  · rename_i why _
    intro _
    exact bad _ _ _ (by decide) (by decide) (by cases why <;> decide)
  split
  · unfold Reservations.perform
    split
    all_goals first
      | contradiction
      | (intro h; simp [good] at h; done)
      | (intro _; exact bad _ _ _ (by decide) (by decide) (by decide))
  · split
    · rename_i a _
      cases hv : (acts s h a).1 with
      | done => intro h; simp [answerOf, good] at h
      | conflict => intro h; simp [answerOf, refused] at h
      | illegal asc ascq =>
        intro _
        have he : Reservations.act s.lun h a = (.illegal asc ascq, (Reservations.act s.lun h a).2) := Prod.ext hv rfl
        have := Reserve.act_illegal he
        exact bad 5 asc ascq (by decide) this.1 this.2
    · intro _; exact bad _ _ _ (by decide) (by decide) (by decide)
  · split
    · intro h
      exact disk_parses g _ q (by intro h0; rw [h0] at h; simp at h)
    · intro h; simp [refused] at h

section step

variable {tail : Nat → Bytes → Bytes → Prop} {out : Req → Answer → Except (Exn (DevErr Sense)) (Option (Option Bytes))} (L : Lib) (B : Parse.BufLib)
  (other : Bytes → Py (List (String × Int)))

theorem actionOf_asks {c : Cmd} {a : Action} (h : Reserve.Asks c (.act a)) :
    ∃ p : Cdb.ProutArgs, c = .persistentReserveOut p ∧ Cdb.ProutOk p ∧ 0 ≤ p.serviceAction ∧ p.serviceAction ≤ 6 ∧ p.aptpl = 0 ∧
      actionOf p.serviceAction.toNat p.prType.toNat p.key.toNat p.saKey.toNat = some a := by
  have fits : ∀ k : Key, Fits 64 (k.toNat : Int) := fun k => ⟨by omega, by have := k.toNat_lt; omega⟩
  have zero : ∀ n, Fits n (0 : Int) := fun n => ⟨by omega, by have := Nat.two_pow_pos n; exact_mod_cast this⟩
  have four : ∀ t : Nat, t < 16 → Fits 4 (t : Int) := fun t h => ⟨by omega, by omega⟩
  have one : Fits 4 (1 : Int) := ⟨by omega, by omega⟩
  cases h with
  | register => exact ⟨_, rfl, ⟨fits _, fits _, one, zero _, zero _, zero _, zero _, zero _⟩, by simp, by simp, rfl, by simp [actionOf]⟩
  | registerAnyway => exact ⟨_, rfl, ⟨fits _, fits _, one, zero _, zero _, zero _, zero _, zero _⟩, by simp, by simp, rfl, by simp [actionOf]⟩
  | reserve ht => exact ⟨_, rfl, ⟨fits _, zero _, four _ ht, zero _, zero _, zero _, zero _, zero _⟩, by simp, by simp, rfl, by simp [actionOf]⟩
  | release ht => exact ⟨_, rfl, ⟨fits _, zero _, four _ ht, zero _, zero _, zero _, zero _, zero _⟩, by simp, by simp, rfl, by simp [actionOf]⟩
  | clear => exact ⟨_, rfl, ⟨fits _, zero _, one, zero _, zero _, zero _, zero _, zero _⟩, by simp, by simp, rfl, by simp [actionOf]⟩
  | preempt ht => exact ⟨_, rfl, ⟨fits _, fits _, four _ ht, zero _, zero _, zero _, zero _, zero _⟩, by simp, by simp, rfl, by simp [actionOf]⟩
  | preemptAbort ht => exact ⟨_, rfl, ⟨fits _, fits _, four _ ht, zero _, zero _, zero _, zero _, zero _⟩, by simp, by simp, rfl, by simp [actionOf]⟩

/-- One command of any host: the request can be built, the disk changes as the operation says, the caller sees its reply. -/
theorem step {g : Geometry} (hg : Valid g) (hB : Reserve.Brings tail out) {s : State} (hb : Reserve.Bounded s.lun) (host : Nat) {c : Cmd} {op : Op}
    (h : SharedDisk.Asks g c op) :
    ∃ q, (c.command L B other).request = .ok q ∧ (serve g host s (asked q)).2 = (run g s host op).2 ∧
      SharedDisk.Shows (decoded (c.command L B other) (out q (serve g host s (asked q)).1)) (run g s host op).1 := by
  have att : ∀ q why, (c.command L B other).request = .ok q → s.attention host = some why →
      ∃ q, (c.command L B other).request = .ok q ∧ (serve g host s (asked q)).2 = (run g s host op).2 ∧
        SharedDisk.Shows (decoded (c.command L B other) (out q (serve g host s (asked q)).1)) (run g s host op).1 := by
    intro q why hq hu
    refine ⟨q, hq, ?_⟩
    simp only [serve, run, hu, true_and]
    exact Reserve.shows_failed L B other c (hB.delivers.fails _ 6 0x2A _ (by decide) (by decide) (by cases why <;> decide))
  cases h with
  | @disk op h =>
    obtain ⟨q, hq, hm, hs⟩ := Commands.step L B other s.contents hg hB.delivers h
    obtain ⟨h1, h2, h3⟩ := SharedDisk.disk_meaning h
    cases hu : s.attention host with
    | some why => exact att q why hq hu
    | none =>
      refine ⟨q, hq, ?_⟩
      have ht := SharedDisk.task_of L h1 hq
      rw [serve_other hu (by rw [ht]; rintro a n e; rw [e] at h3; cases h3) (by rw [ht]; rintro a b c d e; rw [e] at h3; cases h3), ht, h2]
      simp only [run, hu]
      split
      · exact ⟨by rw [hm], hs⟩
      · exact ⟨rfl, by rw [hB.conflict]; rfl⟩
  | @reservations op h hr =>
    obtain ⟨q, hq, hm, hs⟩ := Reserve.step L B other (u := { s.lun with attention := none }) hB hb h
    obtain ⟨h1, h2⟩ := SharedDisk.reservations_meaning h hr
    have ht := SharedDisk.task_of L h1 hq
    cases hu : s.attention host with
    | some why => exact att q why hq hu
    | none =>
      refine ⟨q, hq, ?_⟩
      have prin : ∀ sa n : Nat, c = .persistentReserveIn sa n → (∀ a, op ≠ .act a) →
          (serve g host s (asked q)).2 = (run g s host (.reservations op)).2 ∧
            SharedDisk.Shows (decoded (c.command L B other) (out q (serve g host s (asked q)).1)) (run g s host (.reservations op)).1 := by
        rintro sa n rfl hop
        replace ht : Cdb.decode (asked q).cdb (asked q).toDevice = some (.persistentReserveIn (sa : Int).toNat (n : Int).toNat) := ht
        have e1 : serve g host s (asked q) = ((Reservations.perform s.lun (.persistentReserveIn (sa : Int).toNat (n : Int).toNat)).1, s) := by
          unfold serve
          rw [hu, ht]
        have e2 : Reservations.serve { s.lun with attention := none } (asked q) =
            Reservations.perform { s.lun with attention := none } (.persistentReserveIn (sa : Int).toNat (n : Int).toNat) := by
          unfold Reservations.serve
          rw [ht]
        have e3 : (Reservations.perform { s.lun with attention := none } (.persistentReserveIn (sa : Int).toNat (n : Int).toNat)).1 =
            (Reservations.perform s.lun (.persistentReserveIn (sa : Int).toNat (n : Int).toNat)).1 := by
          unfold Reservations.perform
          split <;> first | rfl | contradiction
        have e4 : run g s host (.reservations op) = (.reservations (op.run { s.lun with attention := none }).1, s) := by
          unfold run
          rw [hu]
          cases op <;> first | rfl | exact absurd rfl (hop _)
        rw [e1, e4]
        rw [e2, e3] at hs
        exact ⟨rfl, hs⟩
      cases op with
      | ready => exact absurd rfl hr
      | act a =>
        obtain ⟨p, rfl, -, -, -, -, ha⟩ := actionOf_asks h
        have e1 : serve g host s (asked q) = (answerOf (acts s host a).1, (acts s host a).2) := by
          replace ht : Cdb.decode (asked q).cdb (asked q).toDevice =
            some (.persistentReserveOut p.serviceAction.toNat p.prType.toNat p.key.toNat p.saKey.toNat) := ht
          unfold serve
          rw [hu, ht]
          simp only [ha]
        have e2 : run g s host (.reservations (.act a)) = (.reservations (told (acts s host a).1), (acts s host a).2) := by
          unfold run
          rw [hu]
        rw [e1, e2]
        refine ⟨rfl, ?_⟩
        obtain ⟨cdb, data, rfl⟩ : ∃ cdb data, q = .write cdb data := by
          obtain ⟨p', hp, ha1, ha2, ha3, ha4, -⟩ := actionOf_asks h
          cases hp
          have := Cdb.C34_basic_partial L p ha1 ha2 (by omega) (by omega) ha4
          cases this.symm.trans hq
          exact ⟨_, _, rfl⟩
        cases hv : (acts s host a).1 with
        | done =>
          simp only [answerOf, hB.delivers.write, told]
          rfl
        | conflict =>
          simp only [answerOf, hB.conflict, told]
          rfl
        | illegal asc ascq =>
          have he : Reservations.act s.lun host a = (.illegal asc ascq, (Reservations.act s.lun host a).2) := Prod.ext hv rfl
          have := Reserve.act_illegal he
          exact Reserve.shows_failed L B other _ (hB.delivers.fails _ 5 asc ascq (by decide) this.1 this.2)
      | keys room => cases h with | @keys n _ _ => exact prin 0 n rfl nofun
      | reservation => cases h with | @reservation n _ _ => exact prin 1 n rfl nofun

end step

theorem run_bounded {g : Geometry} {s : State} (h : Reserve.Bounded s.lun) (host : Nat) (op : Op) : Reserve.Bounded (run g s host op).2.lun := by
  unfold run
  split
  · exact h
  · split
    · exact Reserve.act_bounded h host _
    · exact h
    · split <;> exact h

theorem serve_bounded {g : Geometry} {h : Nat} {s : State} (q : OsRequest) (hb : Reserve.Bounded s.lun) : Reserve.Bounded (serve g h s q).2.lun := by
  unfold serve
  split
  · exact hb
  split
  · exact hb
  · split
    · exact Reserve.act_bounded hb h _
    · exact hb
  · split <;> exact hb

theorem direct_brings {c : Computer} (h : c.Direct) : ∃ tail, Reserve.Brings tail (out c) := by
  cases c with
  | linux => exact ⟨_, Reserve.outcome_brings⟩
  | solaris => exact ⟨_, Reserve.outcome_brings⟩
  | aix => exact ⟨_, Reserve.outcome_brings⟩
  | windows => exact ⟨_, Reserve.winOutcome_brings⟩
  | mapped => exact h.elim

/-! ## The theorems -/

section

variable {K T : Type} [DecidableEq K] (L : Lib) (B : Parse.BufLib) (other : Bytes → Py (List (String × Int))) {g : Geometry}

/-- **C96, several hosts with reservations.** Computers that do not go through the device mapper read, write, register, reserve and preempt on one disk, in
any order. There is one way for this to happen; every caller is told the reply of its operation in that sequence, and the disk ends as the operations say. -/
theorem C96_served (hg : Valid g) (cs : Nat → Computer) (sched : List (Nat × Cmd)) (ops : List (Nat × Op)) (s : State) (hb : Reserve.Bounded s.lun)
    (w : (h : Nat) → (hosts L B other K T cs (serve g) h).State) (hw : ∀ h, (cs h).Ready K T L B other (serve g h) (w h))
    (hask : Each (fun (p : Nat × Cmd) o => o.1 = p.1 ∧ SharedDisk.Asks g p.2 o.2) sched ops)
    (hcan : ∀ p ∈ sched, ∀ q, Cdb.request L p.2.cdb = .ok q → (cs p.1).Can q) (hdir : ∀ p ∈ sched, (cs p.1).Direct) :
    ∃ as w', Runs (hosts L B other K T cs (serve g)) w s sched as w' (runOps g ops s).2 ∧
      (∀ as2 w2 s2, Runs (hosts L B other K T cs (serve g)) w s sched as2 w2 s2 → as2 = as ∧ w2 = w' ∧ s2 = (runOps g ops s).2) ∧
      Each SharedDisk.Shows as (runOps g ops s).1 := by
  have hi : Issued L cs sched := by
    clear hdir
    induction hask with
    | nil => intro p hp; simp at hp
    | @cons p o ps os h _ ih =>
      intro x hx
      rcases List.mem_cons.1 hx with rfl | hx
      · obtain ⟨q, hq, -⟩ := step L B other hg Reserve.outcome_brings hb 0 h.2
        exact ⟨q, hq, hcan _ (List.mem_cons_self ..) q hq⟩
      · exact ih (fun p hp => hcan p (List.mem_cons_of_mem _ hp)) x hx
  obtain ⟨as, w', s', h1, -, h3⟩ := runs_once (K := K) (T := T) L B other (serve_senses g) sched hi w hw s
  suffices hs : s' = (runOps g ops s).2 ∧ Each SharedDisk.Shows as (runOps g ops s).1 by
    obtain ⟨rfl, hs⟩ := hs
    exact ⟨as, w', h1, h3, hs⟩
  clear h3 hcan
  induction hask generalizing w s as with
  | nil =>
    cases h1
    exact ⟨rfl, .nil⟩
  | @cons p o ps os h _ ih =>
    obtain ⟨k, cmd⟩ := p
    obtain ⟨k', op⟩ := o
    obtain ⟨rfl, h⟩ := h
    obtain ⟨q, as', w1, hq, rfl, hw1, h2⟩ := runs_cons L B other (serve_senses g) hi hw h1
    obtain ⟨tail, hB⟩ := direct_brings (hdir _ (List.mem_cons_self ..))
    obtain ⟨q', hq', e1, e2⟩ := step L B other hg hB hb k' h
    cases hq'.symm.trans hq
    rw [e1] at h2
    obtain ⟨f1, f2⟩ := ih _ (run_bounded hb k' op) w1 hw1 (fun p hp => hdir p (List.mem_cons_of_mem _ hp)) (fun p hp => hi p (List.mem_cons_of_mem _ hp)) as' h2
    exact ⟨f1, .cons e2 f2⟩

/-- Nobody gives up the fence, in the commands as a disk understands them. -/
def AllKeep (b : Nat) (sched : List (Nat × Cmd)) : Prop :=
  ∀ p ∈ sched, ∀ q, Cdb.request L p.2.cdb = .ok q → Keeps b p.1 (Cdb.decode (asked q).cdb (asked q).toDevice)

/-- **C96, switched off.** A computer is fenced off. All computers, whatever their platforms, go on to execute any commands that can be built and carried,
but the fenced one does not register again and the others do not give up the reservation. Then the results of all other computers' commands, the
registrations and the reservation, the contents of the disk and what the others will be told are the same as if the fenced computer had sent nothing. -/
theorem C96_off (cs : Nat → Computer) (b : Nat) (sched : List (Nat × Cmd)) (hi : Issued L cs sched) (hk : AllKeep L b sched) (s s' t t' : State)
    (ho : Ordered s.lun) (hf : Fenced b s.lun) (hst : SameBut b s t) (w w' v v' : (h : Nat) → (hosts L B other K T cs (serve g) h).State)
    (hw : ∀ h, (cs h).Ready K T L B other (serve g h) (w h)) (hv : ∀ h, (cs h).Ready K T L B other (serve g h) (v h)) (as bs : List Res)
    (hrun : Runs (hosts L B other K T cs (serve g)) w s sched as w' s')
    (hoff : Runs (hosts L B other K T cs (serve g)) v t (sched.filter (·.1 != b)) bs v' t') :
    bs = resultsWithout b sched as ∧ SameBut b s' t' := by
  induction sched generalizing s t w v as bs with
  | nil =>
    cases hrun
    cases hoff
    exact ⟨rfl, hst⟩
  | cons p rest ih =>
    obtain ⟨h, cmd⟩ := p
    obtain ⟨q, as', w1, hq, rfl, hw1, h2⟩ := runs_cons L B other (serve_senses g) hi hw hrun
    have hkeep := hk _ (List.mem_cons_self ..) q hq
    obtain ⟨ho', hf'⟩ := serve_keeps (g := g) (asked q) ho hf hkeep
    have hi' : Issued L cs rest := fun p hp => hi p (List.mem_cons_of_mem _ hp)
    have hk' : AllKeep L b rest := fun p hp => hk p (List.mem_cons_of_mem _ hp)
    by_cases hb : h = b
    · subst hb
      rw [List.filter_cons_of_neg (by simp)] at hoff
      have hs' := serve_fenced (g := g) (asked q) hf hkeep
      have hst' : SameBut h (serve g h s (asked q)).2 t :=
        ⟨hst.lun.trans hs'.lun.symm, hst.contents.trans hs'.contents.symm, fun k hk => (hst.attention k hk).trans (hs'.attention k hk).symm⟩
      obtain ⟨f1, f2⟩ := ih hi' hk' _ _ ho' hf' hst' w1 v hw1 hv as' bs h2 hoff
      exact ⟨by rw [f1]; simp [resultsWithout], f2⟩
    · rw [List.filter_cons_of_pos (by simpa using hb)] at hoff
      have hi2 : Issued L cs ((h, cmd) :: rest.filter (·.1 != b)) := by
        intro p hp
        rcases List.mem_cons.1 hp with rfl | hp
        · exact hi _ (List.mem_cons_self ..)
        · exact hi' p (List.mem_filter.1 hp).1
      obtain ⟨q', bs', v1, hq', rfl, hv1, h3⟩ := runs_cons L B other (serve_senses g) hi2 hv hoff
      cases hq'.symm.trans hq
      obtain ⟨e1, e2⟩ := serve_same (g := g) hb hst (asked q)
      obtain ⟨f1, f2⟩ := ih hi' hk' _ _ ho' hf' e2 w1 v1 hw1 hv1 as' bs' h2 h3
      refine ⟨?_, f2⟩
      rw [f1]
      simp [resultsWithout, hb, answered, e1]

/-- **C96, told.** While the fence stays, every write (WRITE, WRITE SAME, COMPARE AND WRITE, UNMAP) of a fenced computer that does not go through the device
mapper raises an exception: the unit attention that says what happened, or a reservation conflict. -/
theorem C96_told (hg : Valid g) (cs : Nat → Computer) (b : Nat) (hdir : (cs b).Direct) (sched : List (Nat × Cmd)) (hi : Issued L cs sched)
    (hk : AllKeep L b sched) (s s' : State) (ho : Ordered s.lun) (hb : Reserve.Bounded s.lun) (hf : Fenced b s.lun)
    (w w' : (h : Nat) → (hosts L B other K T cs (serve g) h).State) (hw : ∀ h, (cs h).Ready K T L B other (serve g h) (w h)) (as : List Res)
    (hrun : Runs (hosts L B other K T cs (serve g)) w s sched as w' s') :
    ∀ (i : Nat) cmd op a, sched[i]? = some (b, cmd) → SharedDisk.Asks g cmd (.disk op) → access op = .write → as[i]? = some a →
      SharedDisk.Shows a .conflict ∨ ∃ why : Notice, SharedDisk.Shows a (.attention why.ascq) := by
  induction sched generalizing s w as with
  | nil => intro i cmd op a h; simp at h
  | cons p rest ih =>
    obtain ⟨h, cmd0⟩ := p
    obtain ⟨q, as', w1, hq, rfl, hw1, h2⟩ := runs_cons L B other (serve_senses g) hi hw hrun
    obtain ⟨ho', hf'⟩ := serve_keeps (g := g) (asked q) ho hf (hk _ (List.mem_cons_self ..) q hq)
    intro i cmd op a h3 h4 h5 h6
    cases i with
    | succ i =>
      simp only [List.getElem?_cons_succ] at h3 h6
      exact ih (fun p hp => hi p (List.mem_cons_of_mem _ hp)) (fun p hp => hk p (List.mem_cons_of_mem _ hp)) _ ho' (serve_bounded _ hb) hf' w1 hw1 as' h2 i cmd op a h3 h4 h5 h6
    | zero =>
      simp only [List.getElem?_cons_zero, Option.some.injEq, Prod.mk.injEq] at h3 h6
      obtain ⟨rfl, rfl⟩ := h3
      subst h6
      obtain ⟨tail, hB⟩ := direct_brings hdir
      obtain ⟨q', hq', -, e2⟩ := step L B other hg hB hb h h4
      cases hq'.symm.trans hq
      have hper : permits s.lun h (access op) = false := by rw [h5]; exact fenced_refused hf
      unfold run at e2
      cases hu : s.attention h with
      | some why =>
        rw [hu] at e2
        exact .inr ⟨why, e2⟩
      | none =>
        rw [hu] at e2
        simp only [hper, Bool.false_eq_true, if_false] at e2
        exact .inl e2

/-- **C96, fencing.** A computer that does not go through the device mapper executes PREEMPT or PREEMPT AND ABORT on a reserved disk, naming the key of
others, and the command returns. Then every other computer that was registered with this key is fenced off. -/
theorem C96_fences (hg : Valid g) (cs : Nat → Computer) (h : Nat) (hdir : (cs h).Direct) (cmd : Cmd) (type : Nat) (key victim : Key) (abort : Bool)
    (hask : SharedDisk.Asks g cmd (.reservations (.act (.preempt type key victim abort)))) (hkv : key ≠ victim) (hi : Issued L cs [(h, cmd)])
    (s s' : State) (ho : Ordered s.lun) (hb : Reserve.Bounded s.lun) (hres : s.lun.holder ≠ none)
    (w w' : (h : Nat) → (hosts L B other K T cs (serve g) h).State) (hw : ∀ h, (cs h).Ready K T L B other (serve g h) (w h)) (a : Res)
    (hrun : Runs (hosts L B other K T cs (serve g)) w s [(h, cmd)] [a] w' s') (hret : a.toBool = true) :
    Ordered s'.lun ∧ ∀ b, b ≠ h → keyOf s.lun b = some victim → Fenced b s'.lun := by
  obtain ⟨q, as', w1, hq, e, hw1, h2⟩ := runs_cons L B other (serve_senses g) hi hw hrun
  cases h2
  cases e
  obtain ⟨tail, hB⟩ := direct_brings hdir
  obtain ⟨q', hq', e1, e2⟩ := step L B other hg hB hb h hask
  cases hq'.symm.trans hq
  refine ⟨serve_ordered _ ho, fun b hne hv => ?_⟩
  rw [e1]
  change SharedDisk.Shows (answered L B other cs (serve g) h cmd q s) _ at e2
  generalize answered L B other cs (serve g) h cmd q s = a at e2 hret
  unfold run at e2 ⊢
  cases hu : s.attention h with
  | some why =>
    rw [hu] at e2
    obtain ⟨raw, sn, rfl, -⟩ := e2
    cases hret
  | none =>
    rw [hu] at e2
    dsimp only at e2 ⊢
    have hd : (acts s h (.preempt type key victim abort)).1 = .done := by
      cases hd : (acts s h (.preempt type key victim abort)).1 with
      | done => rfl
      | conflict =>
        rw [hd] at e2
        cases (show a = .error (.dev .scsi) from e2)
        cases hret
      | illegal x y =>
        rw [hd] at e2
        obtain ⟨raw, sn, rfl, -⟩ := (show ∃ raw sn, a = .error (.dev (.checkCondition raw (some sn))) ∧ Says sn 5 x y from e2)
        cases hret
    exact preempt_fences ho hres hne hv hkv hd

/-- **C96 (what holds).** A computer that does not go through the device mapper preempts another one on a reserved disk and the command returns; then all
computers go on (the fenced one does not register again, the others do not give up the reservation). All others are as if the fenced computer had been
switched off from then on, and unless it goes through the device mapper, all its writes raise. -/
theorem C96_partial (hg : Valid g) (cs : Nat → Computer) (h b : Nat) (hdir : (cs h).Direct) (hne : b ≠ h) (cmd : Cmd) (type : Nat) (key victim : Key) (abort : Bool)
    (hask : SharedDisk.Asks g cmd (.reservations (.act (.preempt type key victim abort)))) (hkv : key ≠ victim) (rest : List (Nat × Cmd))
    (hi : Issued L cs ((h, cmd) :: rest)) (hk : AllKeep L b rest) (s s' : State) (ho : Ordered s.lun) (hb : Reserve.Bounded s.lun)
    (hres : s.lun.holder ≠ none) (hv : keyOf s.lun b = some victim) (w w' : (h : Nat) → (hosts L B other K T cs (serve g) h).State)
    (hw : ∀ h, (cs h).Ready K T L B other (serve g h) (w h)) (a : Res) (as : List Res)
    (hrun : Runs (hosts L B other K T cs (serve g)) w s ((h, cmd) :: rest) (a :: as) w' s') (hret : a.toBool = true) :
    (∃ v' t', Runs (hosts L B other K T cs (serve g)) w s ((h, cmd) :: rest.filter (·.1 != b)) (a :: resultsWithout b rest as) v' t' ∧ SameBut b s' t') ∧
    ((cs b).Direct → ∀ (i : Nat) c op r, rest[i]? = some (b, c) → SharedDisk.Asks g c (.disk op) → access op = .write → as[i]? = some r →
      SharedDisk.Shows r .conflict ∨ ∃ why : Notice, SharedDisk.Shows r (.attention why.ascq)) := by
  have hi1 : Issued L cs [(h, cmd)] := fun p hp => hi p (by rw [List.mem_singleton.1 hp]; exact List.mem_cons_self ..)
  have hir : Issued L cs rest := fun p hp => hi p (List.mem_cons_of_mem _ hp)
  have hif : Issued L cs ((h, cmd) :: rest.filter (·.1 != b)) := by
    intro p hp
    rcases List.mem_cons.1 hp with rfl | hp
    · exact hi _ (List.mem_cons_self ..)
    · exact hir p (List.mem_filter.1 hp).1
  obtain ⟨q, as', w1, hq, e, hw1, h2⟩ := runs_cons L B other (serve_senses g) hi hw hrun
  obtain ⟨rfl, rfl⟩ := List.cons.inj e
  obtain ⟨cs2, v', t', r1, -, -⟩ := runs_once (K := K) (T := T) L B other (serve_senses g) _ hif w hw s
  obtain ⟨q2, bs, v1, hq2, rfl, hv1, r2⟩ := runs_cons L B other (serve_senses g) hif hw r1
  cases hq2.symm.trans hq
  obtain ⟨as1, x', s1, o1, -, -⟩ := runs_once (K := K) (T := T) L B other (serve_senses g) _ hi1 w hw s
  obtain ⟨q3, as1', x1, hq3, rfl, -, o2⟩ := runs_cons L B other (serve_senses g) hi1 hw o1
  cases hq3.symm.trans hq
  cases o2
  obtain ⟨ho1, hf1⟩ := C96_fences (K := K) (T := T) L B other hg cs h hdir cmd type key victim abort hask hkv hi1 s _ ho hb hres w _ hw _ o1 hret
  have hf1 := hf1 b hne hv
  obtain ⟨f1, f2⟩ := C96_off (K := K) (T := T) L B other cs b rest hir hk _ s' _ t' ho1 hf1 ⟨rfl, rfl, fun _ _ => rfl⟩ w1 w' v1 v' hw1 hv1 _ _ h2 r2
  refine ⟨⟨v', t', by rw [← f1]; exact r1, f2⟩, fun hd => ?_⟩
  exact C96_told (K := K) (T := T) L B other hg cs b hd rest hir hk _ s' ho1 (serve_bounded _ hb) hf1 w1 w' hw1 _ h2

end

/-! ## Concrete cases -/

/-- PREEMPT with key 0Ah of the registrations with key 0Bh, and a write to block 7. -/
def preemptCmd : Cmd := .persistentReserveOut { serviceAction := 4, prType := 5, key := (0xA : Key).toNat, saKey := (0xB : Key).toNat }
def writeCmd (x : UInt8) : Cmd := .write10 7 (List.replicate 512 x) 512

theorem preempt_asks : SharedDisk.Asks ⟨512, 1000⟩ preemptCmd (.reservations (.act (.preempt 5 0xA 0xB false))) :=
  .reservations (Reserve.Asks.preempt (type := 5) (key := 0xA) (victim := 0xB) (by decide)) nofun

theorem write_asks (x : UInt8) : SharedDisk.Asks ⟨512, 1000⟩ (writeCmd x) (.disk (.write 7 (List.replicate 512 x))) :=
  .disk (Asks.write10 (g := ⟨512, 1000⟩) (lba := 7) (n := 1) (by decide) (by rw [List.length_replicate, Nat.one_mul]) (by decide))

theorem preempt_request (L : Lib) : ∃ cdb data, Cdb.request L preemptCmd.cdb = .ok (.write cdb data) ∧ cdb.length ≤ 16 ∧ data.length ≤ 1024 := by
  obtain ⟨p, hp, h1, h2, h3, h4, -⟩ := actionOf_asks (a := .preempt 5 0xA 0xB false) (Reserve.Asks.preempt (type := 5) (key := 0xA) (victim := 0xB) (by decide))
  cases hp
  exact ⟨_, _, Cdb.C34_basic_partial L _ h1 h2 (by simp) (by simp) h4, by simp [Spec.Cdb.persistentReserveOut], by simp [Spec.Cdb.proutBasic]⟩

theorem write_request (L : Lib) (x : UInt8) : ∃ cdb data, Cdb.request L (writeCmd x).cdb = .ok (.write cdb data) ∧ cdb.length ≤ 16 ∧ data.length ≤ 1024 :=
  ⟨_, _, (Cdb.C28_write10 L 7 (List.replicate 512 x) 512 _).2 ⟨⟨by decide, by decide⟩, 1, by rw [List.length_replicate]; rfl, by decide, by decide, rfl⟩,
    by simp [Spec.Cdb.write10, Spec.Cdb.cdb10], by rw [List.length_replicate]; decide⟩

theorem write_keeps (L : Lib) (b h : Nat) (x : UInt8) (q : Req) (hq : Cdb.request L (writeCmd x).cdb = .ok q) :
    Keeps b h (Cdb.decode (asked q).cdb (asked q).toDevice) := by
  rw [SharedDisk.task_of L (SharedDisk.disk_meaning (Asks.write10 (g := ⟨512, 1000⟩) (lba := 7) (n := 1) (data := List.replicate 512 x) (by decide)
    (by rw [List.length_replicate, Nat.one_mul]) (by decide))).1 hq]
  trivial

section

variable (L : Lib) (B : Parse.BufLib) (other : Bytes → Py (List (String × Int)))

/-- A computer that reaches the disk through the device mapper, and computers with an sg device. -/
def pair : Nat → Computer
  | 0 => .mapped true lockAlloc 30000
  | _ => .linux true lockAlloc 30000

theorem pair_can (h : Nat) (cdb data : Bytes) (h1 : cdb.length ≤ 16) (h2 : data.length ≤ 1024) : (pair h).Can (.write cdb data) := by
  have fit : LinuxOk lockAlloc (.write cdb data) := by
    have e1 : (Req.write cdb data).cdb.length = cdb.length := rfl
    have e2 : dataSize (.write cdb data) = data.length := rfl
    refine ⟨by omega, by omega, fun _ => ⟨?_, ?_⟩⟩
    · simp [lockAlloc, dataSize, e1]; omega
    · simp [lockAlloc]
  unfold pair
  split
  · exact ⟨by decide, fit⟩
  · exact ⟨by decide, fit⟩

/-- Host 1 is registered with key 0Bh and holds a reservation (write exclusive); host 0 is not registered. -/
def oneHolder : State :=
  { lun := { generation := 1, keys := [(1, 0xB)], limit := 8, holder := some (1, .writeExclusive), attention := none }
    attention := fun _ => none, contents := fun _ => 0 }

def pairStates : (h : Nat) → (hosts L B other Unit Unit pair (serve ⟨512, 1000⟩) h).State
  | 0 => { st := { pending := [], index := 0, maxq := 1 }, os := { world := { mem := fun _ => 0, kernel := oneHolder }, buffer := none }, fired := [], box := fun _ => [] }
  | _ + 1 => { st := { pending := [], index := 3, maxq := 7 }, os := { mem := fun _ => 0, kernel := (oneHolder, none) }, fired := [], box := fun _ => [] }

theorem pair_ready (h : Nat) : (pair h).Ready Unit Unit L B other (serve ⟨512, 1000⟩ h) (pairStates L B other h) := by
  match h with
  | 0 => exact ⟨rfl, by simp [pairStates], by simp [pairStates], by simp [pairStates], rfl⟩
  | _ + 1 => exact ⟨rfl, by simp [pairStates], by simp [pairStates], by simp [pairStates], rfl⟩

/-- The unit that `C96_false` is about meets what `C96_partial` asks for. -/
theorem oneHolder_meets : Ordered oneHolder.lun ∧ Reserve.Bounded oneHolder.lun ∧ oneHolder.lun.holder ≠ none ∧ keyOf oneHolder.lun 1 = some 0xB ∧
    Fenced 0 oneHolder.lun := by
  refine ⟨⟨?_, ?_⟩, ⟨by decide, by decide⟩, by simp [oneHolder], rfl, rfl, 1, .writeExclusive, rfl, .inr (by decide)⟩
  · intro r hr
    simp only [oneHolder, List.mem_singleton] at hr
    subst hr
    rfl
  · intro h kind e ek
    simp only [oneHolder, Option.some.injEq, Prod.mk.injEq] at e
    obtain ⟨rfl, -⟩ := e
    rfl

theorem pair_issued : Issued L pair [(0, preemptCmd), (1, writeCmd 1)] ∧ Issued L pair [(0, writeCmd 1)] := by
  obtain ⟨c1, d1, h1, l1, m1⟩ := preempt_request L
  obtain ⟨c2, d2, h2, l2, m2⟩ := write_request L 1
  refine ⟨?_, ?_⟩
  · intro p hp
    simp only [List.mem_cons, List.not_mem_nil, or_false] at hp
    rcases hp with rfl | rfl
    · exact ⟨_, h1, pair_can 0 _ _ l1 m1⟩
    · exact ⟨_, h2, pair_can 1 _ _ l2 m2⟩
  · intro p hp
    rw [List.mem_singleton.1 hp]
    exact ⟨_, h2, pair_can 0 _ _ l2 m2⟩

theorem write_run (s : State) (h : Nat) (x : UInt8) (ha : s.attention h = none) :
    run ⟨512, 1000⟩ s h (.disk (.write 7 (List.replicate 512 x))) =
      if permits s.lun h .write then (.disk .done, { s with contents := writeAt s.contents 3584 (List.replicate 512 x) }) else (.conflict, s) := by
  simp only [run, ha, access]
  have : Disk.Op.run ⟨512, 1000⟩ s.contents (.write 7 (List.replicate 512 x)) = (.done, writeAt s.contents 3584 (List.replicate 512 x)) := by
    simp only [Disk.Op.run, List.length_replicate]
    rfl
  simp only [this]

/-- **C96 is false** with the device mapper. (1) A computer with `linux_dm` preempts another one: the disk refuses (it is not registered), but the command
returns, and what the other computer writes afterwards is on the disk. (2) A computer with `linux_dm` that is fenced off writes: the command returns, but the
disk is as before. -/
theorem C96_false :
    (∃ w' s', Runs (hosts L B other Unit Unit pair (serve ⟨512, 1000⟩)) (pairStates L B other) oneHolder [(0, preemptCmd), (1, writeCmd 1)]
      [.ok (some (.obj (.raw none))), .ok (some (.obj (.raw none)))] w' s' ∧
      readAt s'.contents 3584 512 = List.replicate 512 1 ∧ readAt oneHolder.contents 3584 512 = zeros 512) ∧
    (∃ w', Runs (hosts L B other Unit Unit pair (serve ⟨512, 1000⟩)) (pairStates L B other) oneHolder [(0, writeCmd 1)]
      [.ok (some (.obj (.raw none)))] w' oneHolder) := by
  have hg : Valid ⟨512, 1000⟩ := ⟨by decide, by decide⟩
  have hr := pair_ready L B other
  obtain ⟨-, hb, -, -, hf⟩ := oneHolder_meets
  obtain ⟨i1, i2⟩ := pair_issued L
  obtain ⟨c1, d1, r1, -, -⟩ := preempt_request L
  obtain ⟨c2, d2, r2, -, -⟩ := write_request L 1
  refine ⟨?_, ?_⟩
  · obtain ⟨as, w', s', h1, -, -⟩ := runs_once (K := Unit) (T := Unit) L B other (serve_senses ⟨512, 1000⟩) _ i1 _ hr oneHolder
    obtain ⟨q1, as1, w1, hq1, rfl, hw1, h2⟩ := runs_cons L B other (serve_senses _) i1 hr h1
    cases hq1.symm.trans r1
    obtain ⟨q, hq, e1, -⟩ := step L B other hg Reserve.outcome_brings hb 0 preempt_asks
    cases hq.symm.trans r1
    have e0 : run ⟨512, 1000⟩ oneHolder 0 (.reservations (.act (.preempt 5 0xA 0xB false))) = (.reservations .conflict, oneHolder) := by
      have h0 : acts oneHolder 0 (.preempt 5 0xA 0xB false) = (.conflict, oneHolder) := by
        have ha : Reservations.act oneHolder.lun 0 (.preempt 5 0xA 0xB false) = (.conflict, oneHolder.lun) := rfl
        simp [acts, ha]
      have ha : oneHolder.attention 0 = none := rfl
      simp only [run, ha, h0, told]
    rw [e1, e0] at h2
    obtain ⟨q2, as2, w2, hq2, rfl, hw2, h3⟩ := runs_cons L B other (serve_senses _) (fun p hp => i1 p (List.mem_cons_of_mem _ hp)) hw1 h2
    cases hq2.symm.trans r2
    obtain ⟨tail, hB⟩ := direct_brings (show (pair 1).Direct from trivial)
    obtain ⟨q', hq', f1, f2⟩ := step L B other hg hB hb 1 (write_asks 1)
    cases hq'.symm.trans r2
    rw [write_run _ _ _ rfl, if_pos (by decide)] at f1 f2
    cases h3
    have f3 : answered L B other pair (serve ⟨512, 1000⟩) 1 (writeCmd 1) (.write c2 d2) oneHolder = .ok (some (.obj (.raw none))) := f2
    rw [f3] at h1
    refine ⟨w', _, h1, ?_, ?_⟩
    · rw [f1]
      have := readAt_writeAt oneHolder.contents 3584 (List.replicate 512 1)
      rwa [List.length_replicate] at this
    · exact Cluster.zero_free
  · obtain ⟨as, w', s', h1, -, -⟩ := runs_once (K := Unit) (T := Unit) L B other (serve_senses ⟨512, 1000⟩) _ i2 _ hr oneHolder
    obtain ⟨q1, as1, w1, hq1, rfl, hw1, h2⟩ := runs_cons L B other (serve_senses _) i2 hr h1
    cases hq1.symm.trans r2
    obtain ⟨q, hq, e1, -⟩ := step L B other hg Reserve.outcome_brings hb 0 (write_asks 1)
    cases hq.symm.trans r2
    rw [write_run _ _ _ rfl, fenced_refused hf, if_neg (by decide)] at e1
    cases h2
    rw [e1] at h1
    exact ⟨w', h1⟩

/-- Linux (host 0, key 0Ah) and Windows (host 3, key 0Bh) are registered, Windows holds a reservation (write exclusive). -/
def twoHosts : State :=
  { lun := { generation := 2, keys := [(0, 0xA), (3, 0xB)], limit := 8, holder := some (3, .writeExclusive), attention := none }
    attention := fun _ => none, contents := fun _ => 0 }

def fourStates : (h : Nat) → (hosts L B other Unit Unit Cluster.four (serve ⟨512, 1000⟩) h).State
  | 0 => { st := { pending := [], index := 3, maxq := 7 }, os := { mem := fun _ => 0, kernel := (twoHosts, none) }, fired := [], box := fun _ => [] }
  | 1 => { st := { pending := [], index := 0, maxq := 1 }, os := { world := { mem := fun _ => 0, kernel := twoHosts }, buffer := none }, fired := [], box := fun _ => [] }
  | 2 => { st := { pending := [], index := 0, maxq := 1 }, os := { world := { mem := fun _ => 0, kernel := twoHosts }, buffer := none }, fired := [], box := fun _ => [] }
  | _ + 3 => { st := { pending := [], index := 0, maxq := 1 }, os := { world := { mem := fun _ => 0, kernel := twoHosts }, incoming := [] }, fired := [], box := fun _ => [] }

theorem four_ready (h : Nat) : (Cluster.four h).Ready Unit Unit L B other (serve ⟨512, 1000⟩ h) (fourStates L B other h) := by
  match h with
  | 0 => exact ⟨rfl, by simp [fourStates], by simp [fourStates], by simp [fourStates], rfl⟩
  | 1 => exact ⟨rfl, rfl, rfl, rfl⟩
  | 2 => exact ⟨rfl, rfl, rfl, rfl⟩
  | _ + 3 => exact ⟨rfl, by simp [fourStates], rfl⟩

theorem twoHosts_meets : Ordered twoHosts.lun ∧ Reserve.Bounded twoHosts.lun ∧ twoHosts.lun.holder ≠ none ∧ keyOf twoHosts.lun 3 = some 0xB := by
  refine ⟨⟨?_, ?_⟩, ⟨by decide, by decide⟩, by simp [twoHosts], rfl⟩
  · intro r hr
    simp only [twoHosts, List.mem_cons, List.not_mem_nil, or_false] at hr
    rcases hr with rfl | rfl <;> rfl
  · intro h kind e ek
    simp only [twoHosts, Option.some.injEq, Prod.mk.injEq] at e
    obtain ⟨rfl, -⟩ := e
    rfl

/-- Windows tries to write twice after it was preempted; Linux writes in between. -/
def afterwards : List (Nat × Cmd) := [(3, writeCmd 2), (0, writeCmd 1), (3, writeCmd 2)]

def fencedOps : List (Nat × Op) :=
  [(0, .reservations (.act (.preempt 5 0xA 0xB false))), (3, .disk (.write 7 (List.replicate 512 2))), (0, .disk (.write 7 (List.replicate 512 1))),
   (3, .disk (.write 7 (List.replicate 512 2)))]

theorem fenced_replies : (runOps ⟨512, 1000⟩ fencedOps twoHosts).1 = [.reservations .done, .attention 5, .disk .done, .conflict] ∧
    (runOps ⟨512, 1000⟩ fencedOps twoHosts).2.contents = writeAt (fun _ => 0) 3584 (List.replicate 512 1) := by
  have e1 : run ⟨512, 1000⟩ twoHosts 0 (.reservations (.act (.preempt 5 0xA 0xB false))) =
      (.reservations .done, (acts twoHosts 0 (.preempt 5 0xA 0xB false)).2) := rfl
  have e2 : ∀ op, run ⟨512, 1000⟩ (acts twoHosts 0 (.preempt 5 0xA 0xB false)).2 3 op =
      (.attention 5, heard (acts twoHosts 0 (.preempt 5 0xA 0xB false)).2 3) := fun op => rfl
  have e3 := write_run (heard (acts twoHosts 0 (.preempt 5 0xA 0xB false)).2 3) 0 1 rfl
  rw [if_pos (by decide)] at e3
  have e4 := write_run { heard (acts twoHosts 0 (.preempt 5 0xA 0xB false)).2 3 with contents := writeAt (fun _ => 0) 3584 (List.replicate 512 1) } 3 2 rfl
  rw [if_neg (by decide)] at e4
  have e5 : (heard (acts twoHosts 0 (.preempt 5 0xA 0xB false)).2 3).contents = fun _ => 0 := rfl
  rw [e5] at e3
  simp only [runOps, fencedOps, e1, e2, e3, e4, true_and]

/-- The hypotheses are met: Linux preempts Windows, which learns about it with its first write and gets a conflict for the second. -/
example : ∃ a as w' s', Runs (hosts L B other Unit Unit Cluster.four (serve ⟨512, 1000⟩)) (fourStates L B other) twoHosts ((0, preemptCmd) :: afterwards)
      (a :: as) w' s' ∧ a.toBool = true ∧ Each SharedDisk.Shows as [.attention 5, .disk .done, .conflict] ∧
    s'.contents = writeAt (fun _ => 0) 3584 (List.replicate 512 1) ∧
    ∃ v' t', Runs (hosts L B other Unit Unit Cluster.four (serve ⟨512, 1000⟩)) (fourStates L B other) twoHosts [(0, preemptCmd), (0, writeCmd 1)]
      (a :: resultsWithout 3 afterwards as) v' t' ∧ SameBut 3 s' t' := by
  have hg : Valid ⟨512, 1000⟩ := ⟨by decide, by decide⟩
  obtain ⟨ho, hb, hres, hv⟩ := twoHosts_meets
  have hr := four_ready L B other
  obtain ⟨c1, d1, r1, l1, m1⟩ := preempt_request L
  have hcan : ∀ p ∈ (0, preemptCmd) :: afterwards, ∃ q, Cdb.request L p.2.cdb = .ok q ∧ (Cluster.four p.1).Can q := by
    intro p hp
    simp only [afterwards, List.mem_cons, List.not_mem_nil, or_false] at hp
    have wr : ∀ h x, ∃ q, Cdb.request L (writeCmd x).cdb = .ok q ∧ (Cluster.four h).Can q := by
      intro h x
      obtain ⟨c, d, r, l, m⟩ := write_request L x
      exact ⟨_, r, Cluster.four_can h _ l m⟩
    rcases hp with rfl | rfl | rfl | rfl
    · exact ⟨_, r1, Cluster.four_can 0 _ l1 m1⟩
    · exact wr _ _
    · exact wr _ _
    · exact wr _ _
  have hdir : ∀ h, (Cluster.four h).Direct := by
    intro h
    unfold Cluster.four
    split <;> trivial
  obtain ⟨as, w', h1, -, h2⟩ := C96_served (K := Unit) (T := Unit) L B other hg Cluster.four ((0, preemptCmd) :: afterwards) fencedOps twoHosts hb _ hr
    (.cons ⟨rfl, preempt_asks⟩ (.cons ⟨rfl, write_asks 2⟩ (.cons ⟨rfl, write_asks 1⟩ (.cons ⟨rfl, write_asks 2⟩ .nil))))
    (fun p hp q hq => by
      obtain ⟨q', hq', hc⟩ := hcan p hp
      cases hq'.symm.trans hq
      exact hc) (fun p _ => hdir p.1)
  obtain ⟨f1, f2⟩ := fenced_replies
  rw [f1] at h2
  obtain _ | ⟨ha, has⟩ := h2
  rename_i a as
  have hret : a.toBool = true := by
    rw [show a = .ok (some (.obj (.raw none))) from ha]
    rfl
  refine ⟨a, as, w', _, h1, hret, has, f2, ?_⟩
  refine (C96_partial (K := Unit) (T := Unit) L B other hg Cluster.four 0 3 trivial (by decide) preemptCmd 5 0xA 0xB false preempt_asks (by decide) afterwards hcan ?_
    twoHosts _ ho hb hres hv _ w' hr a as h1 hret).1
  intro p hp q hq
  simp only [afterwards, List.mem_cons, List.not_mem_nil, or_false] at hp
  rcases hp with rfl | rfl | rfl <;> exact write_keeps L _ _ _ q hq

end

end Verif.Commands.Fencing
