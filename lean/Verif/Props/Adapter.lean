import Verif.Adapter
import Verif.Props.ExecuteDevice
/-! # C64: a command given `CommandExecuterAdapter(executer, sync_call)` does what it does given the executer -/
set_option linter.unusedSimpArgs false
set_option linter.unusedSectionVars false

namespace Verif.Adapter

open Verif.Executer Verif.Coroutine Verif.ExecuterGen Verif.Spec

variable {C Q K D E R Gp T ω : Type} [DecidableEq K]

/-- What the caller of `sync_wait(cmd.execute(adapter))` gets. -/
def adapterAnswer : Final (Frame C D E R) (W Q K D E ω) (Val D E R) (Exn E) T → Except (Exn E) (Option (Val D E R))
  | .returned (some (.plain v)) _ => .ok (some v)
  | .returned _ _ => .ok none
  | .raised e _ => .error e

/-- The world it leaves. -/
def adapterWorld : Final (Frame C D E R) (W Q K D E ω) (Val D E R) (Exn E) T → W Q K D E ω
  | .returned _ w => w
  | .raised _ w => w

/-- `sync_wait(cmd.execute(adapter))` for one command after the other, exceptions being caught by the caller. -/
inductive AdaptedAll (M : Machine (Frame C D E R) (W Q K D E ω) (Val D E R) (Exn E) T) :
    List (Command C D R) → W Q K D E ω → List (Except (Exn E) (Option (Val D E R))) → W Q K D E ω → Prop
  | nil (w) : AdaptedAll M [] w [] w
  | cons {c cs w f as w'} : SyncWait M (.execute c) w f → AdaptedAll M cs (adapterWorld f) as w' →
      AdaptedAll M (c :: cs) w (adapterAnswer f :: as) w'

/-- What was yielded before does not matter for how a generator goes on. -/
theorem eval_result {G σ V E T : Type} {m : Mode} {M : Machine G σ V E T} {g i s r s' r' f} (h : Eval m M g i s r s' r' f) (r2) :
    ∃ r2', Eval m M g i s r2 s' r2' f := by
  cases h with
  | ret h => exact ⟨_, .ret h⟩
  | raises h => exact ⟨_, .raises h⟩
  | plain h h1 => exact ⟨_, .plain h h1⟩
  | exc h h1 => exact ⟨_, .exc h h1⟩
  | call h h1 h2 h3 => exact ⟨_, .call h h1 h2 h3⟩
  | io h h1 h2 => exact ⟨_, .io h h1 h2⟩
  | ioErrIdeal hm h h1 h2 => exact ⟨_, .ioErrIdeal hm h h1 h2⟩
  | ioErrActual hm h h1 => exact ⟨_, .ioErrActual hm h h1⟩

theorem adapted_of_eval {M : Machine (Frame C D E R) (W Q K D E ω) (Val D E R) (Exn E) T} {g w w' r' fin}
    (h : Eval .actual M g (.send M.none) w none w' r' fin) : SyncWait M g w (outcome fin r' w') :=
  (sync_wait_iff_direct ..).2 ⟨_, _, _, h, rfl⟩

variable {P : Plat Gp Q K D E R T ω} {osSend : Q → ω → Py Unit × ω}
  {recv : St Q (Option K) → ω → Py (Outcome D E × Nat) × ω}

/-- **C64.** On every platform, in every world, for every command: executing it with the adapter and executing it with the executer itself
both end, in one way each, with the same answer and the same world. -/
theorem C64_execute (hP : Implements .actual P osSend recv) (prepare : C → Nat → Py Q)
    (call : C → W Q K D E ω → Called C Q K D E R Gp T ω) (hcall : WrapsCall P prepare call) (cmd : Command C D R) (w : W Q K D E ω) :
    ∃ f f', SyncWait (ExecuterGen.machine P prepare) (.execute cmd) w f ∧ SyncWait (machine P call) (.execute cmd) w f' ∧
      (∀ f2, SyncWait (machine P call) (.execute cmd) w f2 → f2 = f') ∧ adapterAnswer f' = answer f ∧ adapterWorld f' = world f := by
  have huniq : ∀ {f' f2}, SyncWait (machine P call) (.execute cmd) w f' → SyncWait (machine P call) (.execute cmd) w f2 → f2 = f' := by
    rintro f' f2 ⟨n, h⟩ ⟨n', h'⟩; exact (syncLoop_det h' h).1
  cases hreq : cmd.request with
  | error e =>
    have h' : SyncWait (machine P call) (.execute cmd) w (.raised (.py e) w) :=
      adapted_of_eval (M := machine P call) (fin := .raised (.py e)) (r' := none) (.raises (by simp only [machine, resume, hreq]))
    exact ⟨_, _, execute_error cmd prepare w hreq, h', fun f2 => huniq h', rfl, rfl⟩
  | ok q =>
    obtain ⟨bx, r', h0, hr⟩ := call_eval hP prepare q w .none none
    obtain ⟨r2, h1⟩ := eval_result h0 (some (.gen (.call q)))
    have hc : call q w = _ := hcall q w _ ((C11 _ _ (.call q) (fun _ => rfl) w _).2 (syncWait_of_eval h0))
    have hs : ∀ v, (ExecuterGen.machine P prepare).resume (.execute cmd) (.send v) w = (w, .yields (.gen (.call q)) (.executeGot cmd)) := by
      intro v; simp only [ExecuterGen.machine, ExecuterGen.resume, resumeExecute, hreq]
    generalize hx : Executer.call (prepare q) osSend recv w.st w.os = x at *
    generalize hw1 : (⟨x.st, x.os, w.fired ++ x.fired, bx⟩ : W Q K D E ω) = w1 at *
    cases ho : x.out with
    | error e =>
      simp only [callFin, ho, outcome] at h1 hc
      have h' : SyncWait (machine P call) (.execute cmd) w (.raised e w1) :=
        adapted_of_eval (M := machine P call) (fin := .raised e) (r' := none) (.raises (by simp only [machine, resume, hreq, hc, yieldCalled]))
      exact ⟨_, _, syncWait_of_eval (M := ExecuterGen.machine P prepare) (.call (hs _) h1 (i' := .throw e) rfl (.raises rfl)), h', fun f2 => huniq h', rfl, rfl⟩
    | ok d =>
      have hr' := hr d ho
      subst hr'
      simp only [callFin, ho, outcome] at h1 hc
      have hy : ∀ v, (machine P call).resume (.execute cmd) (.send v) w = (w1, .yields (.plain (.data d)) (.executeGot cmd)) := by
        intro v; simp only [machine, resume, hreq, hc, yieldCalled]
      cases hd : cmd.decode d with
      | error e =>
        have h' := adapted_of_eval (M := machine P call) (w := w) (g := .execute cmd) (fin := .raised (.py e)) (.plain (hy _)
          (.raises (by simp only [machine, resume, hd]; rfl)))
        exact ⟨_, _, syncWait_of_eval (M := ExecuterGen.machine P prepare) (fin := .raised (.py e)) (.call (hs _) h1 (i' := .send (.data d)) rfl
          (.raises (by simp only [ExecuterGen.machine, ExecuterGen.resume, resumeExecuteGot, hd]))), h', fun f2 => huniq h', rfl, rfl⟩
      | ok r =>
        have h' := adapted_of_eval (M := machine P call) (w := w) (g := .execute cmd) (.plain (hy _)
          (.plain (v := .obj r) (g' := .executeEnd) (by simp only [machine, resume, hd]; rfl) (.ret rfl)))
        exact ⟨_, _, syncWait_of_eval (M := ExecuterGen.machine P prepare) (.call (hs _) h1 (i' := .send (.data d)) rfl
          (.plain (v := .obj r) (g' := .executeEnd) (by simp only [ExecuterGen.machine, ExecuterGen.resume, resumeExecuteGot, hd]) (.ret rfl))),
          h', fun f2 => huniq h', rfl, rfl⟩

/-- C64 for sequences of commands: with the adapter they run exactly as with the executer. So everything shown for `RunAll` (C51, C59, C62,
C63) holds with the adapter too. -/
theorem C64_session (hP : Implements .actual P osSend recv) (prepare : C → Nat → Py Q)
    (call : C → W Q K D E ω → Called C Q K D E R Gp T ω) (hcall : WrapsCall P prepare call) (cmds : List (Command C D R)) (w : W Q K D E ω) (as w') :
    AdaptedAll (machine P call) cmds w as w' ↔ RunAll (ExecuterGen.machine P prepare) cmds w as w' := by
  induction cmds generalizing w as with
  | nil => exact ⟨fun h => by cases h; exact .nil _, fun h => by cases h; exact .nil _⟩
  | cons c cs ih =>
    obtain ⟨f, f', h1, h2, h3, h4, h5⟩ := C64_execute hP prepare call hcall c w
    constructor
    · intro h
      cases h with
      | cons ha hb =>
        cases h3 _ ha
        rw [h4]
        exact .cons h1 (by rw [← h5]; exact (ih _ _).1 hb)
    · intro h
      cases h with
      | cons ha hb =>
        cases syncWait_unique h1 ha
        rw [← h4]
        exact .cons h2 (by rw [h5]; exact (ih _ _).2 hb)

/-- C64 for `send`: it is done when `adapter.send` returns, exactly as by `sync_wait(executer.send(...))`. -/
theorem C64_send (prepare : C → Nat → Py Q) (q : C) (cb : Option (Option K)) (w : W Q K D E ω) (f : Called C Q K D E R Gp T ω) :
    AdaptedSend P prepare q cb w f ↔ SyncWait (ExecuterGen.machine P prepare) (.send q cb) w f := C11 _ _ _ (fun _ => rfl) w f

/-- C64 for `wait`. -/
theorem C64_wait (prepare : C → Nat → Py Q) (w : W Q K D E ω) (f : Called C Q K D E R Gp T ω) :
    AdaptedWait P prepare w f ↔ SyncWait (ExecuterGen.machine P prepare) .wait w f := C11 _ _ _ (fun _ => rfl) w f

/-- **C64 is false for `is_queue_full`**: asked through the adapter, an executer in any state whatever raises `AttributeError`, so the caller
never learns whether there is room. -/
theorem C64_is_queue_full_false (call : C → W Q K D E ω → Called C Q K D E R Gp T ω) (w : W Q K D E ω)
    (f : Final (Frame C D E R) (W Q K D E ω) (Val D E R) (Exn E) T) : AdaptedIsQueueFull P call w f ↔ f = .raised (.py .attribute) w := by
  have h : SyncWait (machine P call) (.value (.bool (isQueueFull w.st))) w (.raised (.py .attribute) w) := ⟨1, .fail rfl⟩
  simp only [AdaptedIsQueueFull, SyncCall]
  constructor
  · rintro ⟨n, h'⟩
    obtain ⟨n', h⟩ := h
    exact (syncLoop_det h' h).1
  · rintro rfl; exact h

/-- There always is such a `call`: on every platform `adapter.call` ends, in one way. -/
theorem wrapsCall_exists (hP : Implements .actual P osSend recv) (prepare : C → Nat → Py Q) :
    ∃ call : C → W Q K D E ω → Called C Q K D E R Gp T ω, WrapsCall P prepare call ∧
      ∀ q w, SyncCall (ExecuterGen.machine P prepare) (fun w => (w, .ok (.call q))) w (call q w) := by
  have h := fun q w => C51_call (R := R) hP prepare q w
  refine ⟨fun q w => (h q w).choose, fun q w f hf => ?_, fun q w => ?_⟩
  · exact ((h q w).choose_spec.2.1 f ((C11 _ _ (ExecuterGen.Frame.call q) (fun _ => rfl) w f).1 hf)).symm
  · exact (C11 _ _ (ExecuterGen.Frame.call q) (fun _ => rfl) w _).2 (h q w).choose_spec.1

open Verif.Platform in
/-- C64 on Linux, with C51: commands given the adapter ask the device once each, in order, and return its decoded answers. -/
theorem C64_linux {S δ : Type} (l : Bool) (parse : Bytes → Py (Option S)) (dev : Device δ) (alloc : Nat → Alloc) (t : Int) (ht : 0 ≤ t ∧ t < 2 ^ 32)
    (hparse : ∀ k q, (dev k q).1.status.toNat / 2 % 2 = 1 → ∃ sn, parse (padded 255 (dev k q).1.sense) = .ok sn)
    (call : Req → W Handle K (Option Bytes) (DevErr S) (World (δ × Option Bytes)) →
      Called Req Handle K (Option Bytes) (DevErr S) R (BlockingGen Handle) T (World (δ × Option Bytes)))
    (hcall : WrapsCall (Linux.sgBlocking (lp64 l) parse (Linux.sgDevice l dev)).plat (Linux.prepare (lp64 l) alloc t) call)
    (cmds : List (Command Req (Option Bytes) R)) (hok : ∀ c ∈ cmds, ∀ q, c.request = .ok q → LinuxOk alloc q)
    (w : W Handle K (Option Bytes) (DevErr S) (World (δ × Option Bytes))) (k : δ) (hw : LinuxIdle w.st w.os k) :
    ∃ w', AdaptedAll (machine (Linux.sgBlocking (lp64 l) parse (Linux.sgDevice l dev)).plat call) cmds w
        (askAll dev (Platform.outcome parse) cmds k).1 w' ∧ LinuxIdle w'.st w'.os (askAll dev (Platform.outcome parse) cmds k).2 := by
  obtain ⟨w', h1, h2⟩ := C51_linux (K := K) (T := T) l parse dev alloc t ht hparse cmds hok w k hw
  exact ⟨w', (C64_session ((Linux.sgBlocking (K := K) (lp64 l) parse (Linux.sgDevice l dev)).implements (R := R) (T := T) .actual) _ call hcall cmds w _ w').2 h1, h2⟩

open Verif.Platform in
/-- The hypotheses are met on Linux: there is such a `call`, it always ends. -/
example : ∃ call : Req → W Handle Nat (Option Bytes) (DevErr Unit) (World (Unit × Option Bytes)) → Called Req Handle Nat (Option Bytes) (DevErr Unit) Nat
      (BlockingGen Handle) Unit (World (Unit × Option Bytes)),
    WrapsCall (Linux.sgBlocking (lp64 true) (fun _ => .ok none) (Linux.sgDevice true fun k _ => (⟨0, [], [1, 2, 3]⟩, k))).plat
      (Linux.prepare (lp64 true) (fun _ => { block := 4096, sense := 8192, cmd := 12288, data := 16384 }) 30000) call := by
  obtain ⟨call, h, -⟩ := wrapsCall_exists (R := Nat) ((Linux.sgBlocking (K := Nat) (lp64 true) (fun _ => .ok (none : Option Unit))
    (Linux.sgDevice true fun (k : Unit) _ => (⟨0, [], [1, 2, 3]⟩, k))).implements (T := Unit) .actual)
    (Linux.prepare (lp64 true) (fun _ => { block := 4096, sense := 8192, cmd := 12288, data := 16384 }) 30000)
  exact ⟨call, h⟩

end Verif.Adapter
