import Verif.ReleaseLemmas
/-!
# C78: the memory given to the operating system is kept until the operating system is done with it

An overlapped request names memory (the request block with the sense buffer in it, the data buffer, the overlapped structure) into which the
operating system writes when the device has served the request, whatever the process is doing then. Here: as long as `wait_for` is at it, that
memory is in use by the process (so Python does not give it to anybody else); once `wait_for` has raised, none of it is.
-/
set_option linter.unusedSimpArgs false
set_option linter.unusedSectionVars false

namespace Verif.Release
open Verif.Executer Verif.ExecuterGen Verif.Coroutine Verif.Platform Verif.Platform.Win32 Verif.Spec Verif.WindowsAsync
open Verif.AsyncInv (Inv coOf Ghost Phase up up_self up_ne active_of_flying active_of_landed active_of_picked)
open Verif.ReactorShared (Co Step Steps Raises)

variable {S R δ : Type}
variable {b : Bool} {parse : Bytes → Py (Option S)} {dev : Device δ} {alloc : Nat → Alloc} {cmd : Nat → Command Req (Option Bytes) R}
  {cmds : List Nat} {w : World' S δ} {k : δ} {m : Nat}

/-- **C78 (partial: while `wait_for` runs; cf. `C78_false`).** Whatever the device has served and the reactor has seen so far, every request in
flight has its block (and with it sense and data buffer) and its overlapped structure in use. -/
theorem C78_partial (hf : Fit b alloc cmd cmds w.st.maxq) (hw : AsyncIdle w k) {st}
    (h : Steps (prog (R := R) b parse dev alloc) (ioKernel b dev) m (called cmd cmds w) st) :
    ∀ p ∈ st.world.os.world.kernel.flying,
      Referenced st.coroutines st.world p.2 ∧ OverlappedReferenced st.coroutines st.world p.1 := by
  obtain ⟨g, I, -⟩ := reach hf hw h
  intro p hp
  obtain ⟨c, hc, hph, rfl⟩ := I.fly' p hp
  have hco := I.co c hc
  simp only [coOf, hph] at hco
  exact ⟨.inl ⟨_, _, _, I.pend c hc (active_of_flying hph), rfl⟩, .inl ⟨c, _, hco, rfl⟩⟩

/-- When `wait_for` raises, for whatever reason, and its coroutines have been given up, in whatever order and whatever the device did
meanwhile: no request that is still in flight has its block in use any more, and at most one has its overlapped structure in use. -/
theorem C78_released (hf : Fit b alloc cmd cmds w.st.maxq) (hw : AsyncIdle w k) {st e s}
    (h : Steps (prog (R := R) b parse dev alloc) (ioKernel b dev) m (called cmd cmds w) st)
    (hr : Raises (prog (R := R) b parse dev alloc) (ioKernel b dev) st e s) {exit w'}
    (hl : Released (prog (R := R) b parse dev alloc) (ioKernel b dev) exit (left st) s [] w') :
    (∀ p ∈ w'.os.world.kernel.flying, ¬ Referenced (R := R) [] w' p.2) ∧
    ∀ p ∈ w'.os.world.kernel.flying, ∀ q ∈ w'.os.world.kernel.flying,
      OverlappedReferenced (R := R) [] w' p.1 → OverlappedReferenced (R := R) [] w' q.1 → p = q := by
  obtain ⟨g, I, -⟩ := reach hf hw h
  obtain ⟨r, -⟩ := Rel.raises hf.setup I hr
  have r' := r.released hl
  refine ⟨r'.none, ?_⟩
  rintro p hp q hq (⟨c, co, hg, -⟩ | hp') (⟨c, co, hg, -⟩ | hq')
  · cases hg
  · cases hg
  · cases hg
  · obtain ⟨c, hc, hfc, rfl⟩ := I.fly' p (r'.fly p hp)
    obtain ⟨d, hd, hfd, rfl⟩ := I.fly' q (r'.fly q hq)
    have := I.evInj c hc d hd (active_of_flying hfc) (active_of_flying hfd) (by simp only at hp' hq'; omega)
    subst this
    rfl

/-- All requests can be in flight together. -/
theorem all_flying (hf : Fit b alloc cmd cmds w.st.maxq) (hw : AsyncIdle w k) (hroom : cmds.length ≤ w.st.maxq)
    (hreq : ∀ c ∈ cmds, ∃ q, (cmd c).request = .ok q) :
    ∃ st g, Steps (prog (R := R) b parse dev alloc) (ioKernel b dev) cmds.length (called cmd cmds w) st ∧
      Inv b parse dev alloc cmd cmds w.st.index w.st.maxq k st g ∧ st.todo = [] ∧ (∀ c ∈ cmds, g.ph c = .flying) ∧ g.order = [] := by
  have key : ∀ n, n ≤ cmds.length → ∃ st g, Steps (prog (R := R) b parse dev alloc) (ioKernel b dev) n (called cmd cmds w) st ∧
      Inv b parse dev alloc cmd cmds w.st.index w.st.maxq k st g ∧ g.n = n ∧ st.todo = cmds.drop n ∧
      (∀ c ∈ cmds, g.ph c = .ready ∨ g.ph c = .flying) ∧ g.order = [] := by
    intro n
    induction n with
    | zero =>
      intro _
      obtain ⟨g, I, hm⟩ := reach (parse := parse) (dev := dev) (R := R) hf hw (.refl _)
      have hn : g.n = 0 ∧ ∀ c ∈ cmds, g.ph c = .ready := by
        obtain ⟨h1, h2, h3, h4, h5, rfl⟩ := hw
        have hlen : ∀ c ∈ cmds, g.ph c = .ready := by
          intro c hc
          have hco := I.co c hc
          have : Dict.get (called cmd cmds w).coroutines c = some ⟨[.execute (cmd c)], .send .none, none⟩ := by
            simp only [ReactorShared.initial]
            rw [AsyncInv.foldl_set_get (fun c => _), if_pos hc]
          rw [this] at hco
          cases hph : g.ph c <;> simp [coOf, hph] at hco ⊢
        refine ⟨?_, hlen⟩
        cases hcs : cmds with
        | nil => have := I.nle'; rw [hcs] at this; simpa using this
        | cons c cs =>
          by_cases h0 : g.n = 0
          · exact h0
          · have hc : c ∈ cmds := by rw [hcs]; exact List.mem_cons_self ..
            have := (I.ready c hc).1 (hlen c hc)
            rw [hcs] at this
            obtain ⟨j, hj⟩ : ∃ j, g.n = j + 1 := ⟨g.n - 1, by omega⟩
            rw [hj, List.drop_succ_cons] at this
            have hnd := hf.nodup
            rw [hcs, List.nodup_cons] at hnd
            exact absurd (List.mem_of_mem_drop this) hnd.1
      refine ⟨_, g, .refl _, I, hn.1, rfl, fun c hc => .inl (hn.2 c hc), ?_⟩
      cases ho : g.order with
      | nil => rfl
      | cons c cs =>
        have := (I.ord c).1 (by rw [ho]; exact List.mem_cons_self ..)
        rw [hn.2 c this.1] at this
        cases this.2
    | succ n ih =>
      intro hn
      obtain ⟨st, g, hst, I, hgn, ht, hph, ho⟩ := ih (by omega)
      cases hd : cmds.drop n with
      | nil => have := List.drop_eq_nil_iff.1 hd; omega
      | cons c cs =>
        have hcd : c ∈ cmds.drop n := by rw [hd]; exact List.mem_cons_self ..
        have hc := List.mem_of_mem_drop hcd
        obtain ⟨q, hq⟩ := hreq c hc
        obtain ⟨h, w', hrun, I'⟩ := I.start hf.setup (by rw [hgn]; exact hd) hq (by omega)
        have hr := (I.ready c hc).2 (by rw [hgn]; exact hcd)
        have hco := I.co c hc
        simp only [coOf, hr] at hco
        refine ⟨_, _, .step hst (.blocked (ht.trans hd) hco hrun), I', by simp [Ghost.starting, hgn], ?_, ?_, ho⟩
        · simp only
          rw [← List.drop_drop, Nat.add_comm] at *
          have : cmds.drop (n + 1) = (cmds.drop n).drop 1 := by rw [List.drop_drop]
          simp [this, hd]
        · intro d hd'
          by_cases hdc : d = c
          · subst hdc; exact .inr (by simp [Ghost.starting, up])
          · simpa [Ghost.starting, up, hdc] using hph d hd'
  obtain ⟨st, g, hst, I, hgn, ht, hph, ho⟩ := key cmds.length (Nat.le_refl _)
  refine ⟨st, g, hst, I, by rw [ht, List.drop_length], ?_, ho⟩
  intro c hc
  rcases hph c hc with h | h
  · have := (I.ready c hc).1 h
    rw [hgn, List.drop_length] at this
    cases this
  · exact h

/-- **C78 is false in general.** Whatever the commands, if the device answers one of them with an error, then `wait_for` may raise that error
while the requests of all others are in flight, and when its coroutines have been given up, all those requests are still in flight and nothing
refers to the memory they name. -/
theorem C78_false (hf : Fit b alloc cmd cmds w.st.maxq) (hw : AsyncIdle w k) (hroom : cmds.length ≤ w.st.maxq)
    (hreq : ∀ c ∈ cmds, ∃ q, (cmd c).request = .ok q) {c : Nat} (hc : c ∈ cmds) {e} {k' : δ}
    (herr : askAll dev (winOutcome parse) [cmd c] k = ([.error e], k')) (exit : Exn (DevErr S)) :
    ∃ m st s w', Steps (prog (R := R) b parse dev alloc) (ioKernel b dev) m (called cmd cmds w) st ∧
      Raises (prog (R := R) b parse dev alloc) (ioKernel b dev) st e s ∧
      Released (prog (R := R) b parse dev alloc) (ioKernel b dev) exit (left st) s [] w' ∧
      (∀ d ∈ cmds, d ≠ c → ∃ p ∈ w'.os.world.kernel.flying, ∃ co, Dict.get (left st) d = some co ∧ co.result = some (.tok p.1)) ∧
      (∀ p ∈ w'.os.world.kernel.flying, ¬ Referenced (R := R) [] w' p.2) := by
  obtain ⟨st, g, hst, I, ht, hfly, hord⟩ := all_flying (parse := parse) (dev := dev) hf hw hroom hreq
  -- the device serves the failing command
  have hp := I.fly c hc (hfly c hc)
  have hadv : (ioKernel (K := Nat) b dev).advance st.world
      { st.world with os := { st.world.os with world := Spec.land b dev (g.ev c, (g.h c).blockAddr) st.world.os.world } } := ⟨_, hp, rfl⟩
  obtain ⟨c', hc', hph', a, I1⟩ := I.kernel hf.setup hadv
  have hcc : c' = c := by
    by_cases hcc : c' = c
    · exact hcc
    · exfalso
      have h1 := I1.fly c hc (by simp [Ghost.landing, up, Ne.symm hcc, hfly c hc])
      simp only [Spec.land, Ghost.landing] at h1
      exact ((List.Nodup.mem_erase_iff I.flyNodup).1 h1).1 rfl
  subst hcc
  generalize ({ st.world with os := { st.world.os with world := Spec.land b dev (g.ev c', (g.h c').blockAddr) st.world.os.world } } : World' S δ) = w1 at hadv I1
  have hph1 : (g.landing c' a).ph c' = .landed := by simp [Ghost.landing, up]
  have ha : a = .error e := by
    have h1 := I1.asks
    simp only [Ghost.landing, hord, List.nil_append, List.map_cons, List.map_nil, up_self, herr, Prod.mk.injEq, List.cons.injEq, and_true] at h1
    exact h1.1.symm
  -- the reactor picks its event
  have hco1 := I1.co c' hc
  simp only [coOf, hph1] at hco1
  have hev := Step.event (M := prog (R := R) b parse dev alloc) (K := ioKernel b dev) (st := { st with world := w1 })
    (t := (g.landing c' a).ev c') ht hco1 rfl (I1.land c' hc hph1) (I1.await hc hph1)
  have I2 := I1.event hc hph1 ht
  obtain ⟨st2, hst2⟩ : ∃ x : AsyncInv.RSt S R δ, x = ⟨[c'], Dict.set st.coroutines c' ⟨AsyncRun.waiting ((g.landing c' a).h c') ((g.landing c' a).pk c') (cmd c'),
    .send (.num (blockSize b)), some (.tok ((g.landing c' a).ev c'))⟩, st.results, w1⟩ := ⟨_, rfl⟩
  have ht2 : st2.todo = [c'] := by rw [hst2]
  replace I2 : Inv b parse dev alloc cmd cmds w.st.index w.st.maxq k st2 ((g.landing c' a).picking c') := by rw [hst2]; exact I2
  replace hev : Step (prog (R := R) b parse dev alloc) (ioKernel b dev) { st with world := w1 } st2 := by rw [hst2]; exact hev
  have hph2 : ((g.landing c' a).picking c').ph c' = .picked := by simp [Ghost.picking, up]
  have hco2 := I2.co c' hc
  simp only [coOf, hph2] at hco2
  have ac := active_of_picked hph2
  -- and the command raises
  obtain ⟨s, hrun, -⟩ := AsyncRun.finish_raised (io := ioDevice b dev) (alloc := alloc) (cmd := cmd c') (v := .num (blockSize b))
    (r := some (.tok (((g.landing c' a).picking c').ev c'))) st2.world I2.incoming (I2.box c' hc ac) (I2.built' hf.setup hc ac).id (I2.pend c' hc ac)
    ((I2.said c' hc (.inr hph2)).trans (show ((g.landing c' a).picking c').ans c' = .error e by simp [Ghost.picking, Ghost.landing, up, ha]))
  have hraise := Raises.command (M := prog (R := R) b parse dev alloc) (K := ioKernel b dev) (st := st2)
    (co := ⟨AsyncRun.waiting _ _ (cmd c'), .send (.num (blockSize b)), some (.tok _)⟩) ht2 hco2 hrun
  have hsteps := Steps.step (Steps.step hst (.kernel hadv)) hev
  obtain ⟨rel, hos⟩ := Rel.raises hf.setup I2 hraise
  obtain ⟨w', hrel, hos'⟩ := rel.exists (parse := parse) (dev := dev) (alloc := alloc) exit
  refine ⟨_, _, s, w', hsteps, hraise, hrel, ?_, (C78_released hf hw hsteps hraise hrel).1⟩
  intro d hd hdc
  have hphd : ((g.landing c' a).picking c').ph d = .flying := by simp [Ghost.picking, Ghost.landing, up, hdc, hfly d hd]
  have hcod := I2.co d hd
  simp only [coOf, hphd] at hcod
  refine ⟨(((g.landing c' a).picking c').ev d, (((g.landing c' a).picking c').h d).blockAddr), ?_, _, (show Dict.get (left st2) d = _ from ?_).trans hcod, rfl⟩
  · rw [hos', hos]
    exact I2.fly d hd hphd
  · simp only [left, ht2]
    rw [Reactor.dict_get_erase _ _ _ I2.coNodup, if_neg (Ne.symm hdc)]

/-- The same when `WaitForMultipleObjects` fails or times out: with all requests in flight and none in use. -/
theorem C78_wait_false (hf : Fit b alloc cmd cmds w.st.maxq) (hw : AsyncIdle w k) (hroom : cmds.length ≤ w.st.maxq)
    (hreq : ∀ c ∈ cmds, ∃ q, (cmd c).request = .ok q) (hne : cmds ≠ []) (exit : Exn (DevErr S)) :
    ∃ m st s w', Steps (prog (R := R) b parse dev alloc) (ioKernel b dev) m (called cmd cmds w) st ∧
      Raises (prog (R := R) b parse dev alloc) (ioKernel b dev) st (.py .asiOs) s ∧
      Released (prog (R := R) b parse dev alloc) (ioKernel b dev) exit (left st) s [] w' ∧
      (∀ d ∈ cmds, ∃ p ∈ w'.os.world.kernel.flying, ∃ co, Dict.get (left st) d = some co ∧ co.result = some (.tok p.1)) ∧
      (∀ p ∈ w'.os.world.kernel.flying, ¬ Referenced (R := R) [] w' p.2) := by
  obtain ⟨st, g, hst, I, ht, hfly, hord⟩ := all_flying (parse := parse) (dev := dev) hf hw hroom hreq
  have hco : ∀ d ∈ cmds, Dict.get st.coroutines d = some ⟨AsyncRun.waiting (g.h d) (g.pk d) (cmd d), .send .none, some (.tok (g.ev d))⟩ := by
    intro d hd
    rw [I.co d hd]
    simp only [coOf, hfly d hd]
  have hraise : Raises (prog (R := R) b parse dev alloc) (ioKernel b dev) st (.py .asiOs) st.world := by
    refine .wait ht ?_ rfl
    intro he
    cases hcs : cmds with
    | nil => exact hne hcs
    | cons c cs =>
      have := hco c (by rw [hcs]; exact List.mem_cons_self ..)
      rw [he] at this; cases this
  obtain ⟨rel, hos⟩ := Rel.raises hf.setup I hraise
  obtain ⟨w', hrel, hos'⟩ := rel.exists (parse := parse) (dev := dev) (alloc := alloc) exit
  refine ⟨_, st, _, w', hst, hraise, hrel, ?_, (C78_released hf hw hst hraise hrel).1⟩
  intro d hd
  refine ⟨(g.ev d, (g.h d).blockAddr), ?_, _, (show Dict.get (left st) d = _ from ?_).trans (hco d hd), rfl⟩
  · rw [hos']
    exact I.fly d hd (hfly d hd)
  · simp only [left, ht]

/-! ## The hypotheses are met -/

/-- A device that is busy when asked for 36 bytes. -/
def busyDevice : Device Nat := fun k q => if q.fromDevice = 36 then (⟨8, [], []⟩, k) else (⟨0, [], [1, 2, 3, 4, 5]⟩, k + 1)

/-- Two INQUIRY commands on one executer; the first is answered BUSY. `wait_for` may raise that error with the second in flight, whose memory
then is free for anybody. -/
example (b : Bool) (exit : Exn (DevErr Bytes)) :
    ∃ m st s w', Steps (prog (R := Nat) b (fun s => .ok (some s)) busyDevice toyAlloc) (ioKernel b busyDevice) m (called toyCommand [7, 9] toyWorld) st ∧
      Raises (prog (R := Nat) b (fun s => .ok (some s)) busyDevice toyAlloc) (ioKernel b busyDevice) st (.dev .scsi) s ∧
      Released (prog (R := Nat) b (fun s => .ok (some s)) busyDevice toyAlloc) (ioKernel b busyDevice) exit (left st) s [] w' ∧
      ∃ p ∈ w'.os.world.kernel.flying, ¬ Referenced (R := Nat) [] w' p.2 := by
  have hidle : AsyncIdle toyWorld 0 := ⟨rfl, by decide, rfl, rfl, by decide, rfl⟩
  obtain ⟨m, st, s, w', h1, h2, h3, h4, h5⟩ := C78_false (b := b) (parse := fun s => .ok (some s)) (dev := busyDevice) (c := 7) (e := .dev .scsi) (k' := 0)
    (toy_fit b) hidle (by decide) (fun c _ => ⟨_, rfl⟩) (by simp) (by rfl) exit
  obtain ⟨p, hp, -⟩ := h4 9 (by simp) (by decide)
  exact ⟨m, st, s, w', h1, h2, h3, p, hp, h5 p hp⟩

end Verif.Release
