import Verif.Spec.Execute
import Verif.Platform.Generators
import Verif.Props.Coroutine
import Verif.Props.LinuxDevice
import Verif.Props.Solaris
import Verif.Props.Aix
import Verif.Props.Windows
/-! # C51: one `execute` is one command on the wire -/
set_option linter.unusedSimpArgs false
set_option linter.unusedSectionVars false

namespace Verif.ExecuterGen

open Verif.Executer Verif.Coroutine Verif.Spec

variable {C Q K D E R Gp T ω δ : Type} [DecidableEq K]

theorem syncWait_of_eval {M : Machine (Frame C Q K D R Gp) (W Q K D E ω) (Val D E R) (Exn E) T} {g w w' r' fin}
    (h : Eval .actual M g (.send M.none) w none w' r' fin) : SyncWait M g w (outcome fin r' w') :=
  (sync_wait_iff_direct ..).2 ⟨_, _, _, h, rfl⟩

theorem syncWait_unique {M : Machine (Frame C Q K D R Gp) (W Q K D E ω) (Val D E R) (Exn E) T} {g w f f'}
    (h : SyncWait M g w f) (h' : SyncWait M g w f') : f' = f := by
  obtain ⟨n, h⟩ := h
  obtain ⟨n', h'⟩ := h'
  exact (syncLoop_det h' h).1

variable {P : Plat Gp Q K D E R T ω} {osSend : Q → ω → Py Unit × ω}
  {recv : St Q (Option K) → ω → Py (Outcome D E × Nat) × ω}

/-- `sync_wait(executer.call(command))`: the generators, run by the driver, do exactly what `Executer.call` says: they end, with its
outcome, and leave its state. -/
theorem C51_call (hP : Implements .actual P osSend recv) (prepare : C → Nat → Py Q) (c : C) (w : W Q K D E ω) :
    ∃ f, SyncWait (machine P prepare) (.call c) w f ∧ (∀ f', SyncWait (machine P prepare) (.call c) w f' → f' = f) ∧
      let x := call (prepare c) osSend recv w.st w.os
      answer f = x.out.map (fun d => some (.data d)) ∧ (world f).st = x.st ∧ (world f).os = x.os ∧
      (world f).fired = w.fired ++ x.fired := by
  obtain ⟨bx, r', h, hr⟩ := call_eval hP prepare c w .none none
  refine ⟨_, syncWait_of_eval h, fun f' => syncWait_unique (syncWait_of_eval h), ?_⟩
  cases ho : (call (prepare c) osSend recv w.st w.os).out with
  | error e => simp [outcome, answer, world, callFin, ho, Except.map]
  | ok d => simp [outcome, answer, world, callFin, ho, hr d ho, Except.map]

/-- `sync_wait(executer.wait())` is `Executer.wait`. -/
theorem C51_wait (hP : Implements .actual P osSend recv) (prepare : C → Nat → Py Q) (w : W Q K D E ω)
    (hw : ∀ p ∈ w.st.pending, p.2.2 ≠ some none) :
    ∃ f, SyncWait (machine P prepare) .wait w f ∧ (∀ f', SyncWait (machine P prepare) .wait w f' → f' = f) ∧
      let x := wait recv w.st w.os
      (∀ e, answer f = .error e ↔ ∃ e', e = .py e' ∧ x.out = .error e') ∧ (world f).st = x.st ∧ (world f).os = x.os ∧
      (world f).fired = w.fired ++ x.fired := by
  obtain ⟨bx, r', fin, h, hr⟩ := wait_eval hP prepare _ w .none none (Nat.le_refl _) hw
  refine ⟨_, syncWait_of_eval h, fun f' => syncWait_unique (syncWait_of_eval h), ?_⟩
  cases ho : (wait recv w.st w.os).out with
  | error e =>
    rw [ho] at hr
    simp only at hr
    subst hr
    simp [outcome, answer, world, ho, eq_comm]
  | ok d =>
    rw [ho] at hr
    simp only at hr
    obtain ⟨v, rfl⟩ := hr
    refine ⟨fun e => ⟨fun h => ?_, ?_⟩, rfl, rfl, rfl⟩
    · exfalso
      revert h
      simp only [outcome]
      unfold answer
      split <;> simp_all
    · rintro ⟨e', -, h⟩; change (wait recv w.st w.os).out = _ at h; rw [ho] at h; cases h

theorem execute_error (cmd : Command C D R) (prepare : C → Nat → Py Q) (w : W Q K D E ω) {e} (h : cmd.request = .error e) :
    SyncWait (machine P prepare) (.execute cmd) w (.raised (.py e) w) :=
  syncWait_of_eval (M := machine P prepare) (fin := .raised (.py e)) (r' := none) (.raises (by simp only [machine, resume, resumeExecute, h]))

theorem execute_ok (hP : Implements .actual P osSend recv) (cmd : Command C D R) (prepare : C → Nat → Py Q) (w : W Q K D E ω) {q : C}
    (h : cmd.request = .ok q) :
    let x := call (prepare q) osSend recv w.st w.os
    ∃ f, SyncWait (machine P prepare) (.execute cmd) w f ∧
      answer f = decoded cmd x.out ∧ (world f).st = x.st ∧ (world f).os = x.os ∧ (world f).fired = w.fired ++ x.fired := by
  intro x
  obtain ⟨bx, r', hc, hr⟩ := call_eval hP prepare q w .none (some (.gen (.call q)))
  have h0 : ∀ v, (machine P prepare).resume (.execute cmd) (.send v) w = (w, .yields (.gen (.call q)) (.executeGot cmd)) := by
    intro v; simp only [machine, resume, resumeExecute, h]
  cases ho : x.out with
  | error e =>
    have hf : callFin (R := R) (call (prepare q) osSend recv w.st w.os).out = .raised e := by
      show callFin x.out = _; rw [ho]; rfl
    rw [hf] at hc
    refine ⟨_, syncWait_of_eval (M := machine P prepare) (.call (h0 _) hc (i' := .throw e) rfl (.raises rfl)), ?_⟩
    simp [outcome, answer, world, decoded, x]
  | ok d =>
    have hf : callFin (R := R) (call (prepare q) osSend recv w.st w.os).out = .val (.data d) := by
      show callFin x.out = _; rw [ho]; rfl
    rw [hf] at hc
    cases hd : cmd.decode d with
    | error e =>
      refine ⟨_, syncWait_of_eval (M := machine P prepare) (fin := .raised (.py e)) (.call (h0 _) hc (i' := .send (.data d)) rfl
        (.raises (by simp only [machine, resume, resumeExecuteGot, hd]; rfl))), ?_⟩
      simp [outcome, answer, world, decoded, hd, x]
    | ok r =>
      refine ⟨_, syncWait_of_eval (M := machine P prepare) (.call (h0 _) hc (i' := .send (.data d)) rfl
        (.plain (v := .obj r) (g' := .executeEnd) (by simp only [machine, resume, resumeExecuteGot, hd]; rfl) (.ret rfl))), ?_⟩
      simp [outcome, answer, world, decoded, hd, x, finOf]

/-- **C51.** `sync_wait(command.execute(executer))` on an idle executer, for every command, every platform whose generators compute
`osSend` and `recv`, and every state of the world. It always ends, in one way. If the request cannot be built, that exception is
raised and nothing happens. Otherwise exactly one request is sent (the one built from the command's own request) and then exactly one response
received, and: a refusal to send is raised; the device's exception is raised unchanged; data is decoded by the command and
returned. In all these cases the executer is idle again. (The last two branches: the operating system could not
deliver the response, or delivered one for a packet that was not sent.) -/
theorem C51_execute (hP : Implements .actual P osSend recv) (prepare : C → Nat → Py Q) (cmd : Command C D R) (w : W Q K D E ω)
    (hidle : w.st.pending = []) (hq : 0 < w.st.maxq) :
    ∃ f, SyncWait (machine P prepare) (.execute cmd) w f ∧ (∀ f', SyncWait (machine P prepare) (.execute cmd) w f' → f' = f) ∧
      match cmd.request with
      | .error e => answer f = .error (.py e) ∧ world f = w
      | .ok q =>
        (world f).fired = w.fired ∧
        match prepare q w.st.index with
        | .error e => answer f = .error (.py e) ∧ (world f).os = w.os ∧ (world f).st.pending = []
        | .ok h =>
          match osSend h w.os with
          | (.error e, o1) => answer f = .error (.py e) ∧ (world f).os = o1 ∧ (world f).st.pending = []
          | (.ok (), o1) =>
            match recv { pending := [(w.st.index, (h, some none))], index := (w.st.index + 1) % w.st.maxq, maxq := w.st.maxq } o1 with
            | (.ok (.data d, j), o2) => (world f).os = o2 ∧ (j = w.st.index → answer f = decoded cmd (.ok (some d)) ∧
                (world f).st = { w.st with index := (w.st.index + 1) % w.st.maxq }) ∧ (j ≠ w.st.index → answer f = .error (.py .asiInternal))
            | (.ok (.exc e, j), o2) => (world f).os = o2 ∧ (j = w.st.index → answer f = .error (.dev e) ∧
                (world f).st = { w.st with index := (w.st.index + 1) % w.st.maxq }) ∧ (j ≠ w.st.index → answer f = .error (.py .asiInternal))
            | (.error e, o2) => answer f = .error (.py e) ∧ (world f).os = o2 := by
  cases hreq : cmd.request with
  | error e => exact ⟨_, execute_error cmd prepare w hreq, fun f' => syncWait_unique (execute_error cmd prepare w hreq), rfl, rfl⟩
  | ok q =>
    obtain ⟨f, hf, h1, h2, h3, h4⟩ := execute_ok hP cmd prepare w hreq
    refine ⟨f, hf, fun f' => syncWait_unique hf, ?_⟩
    dsimp only
    cases hp : prepare q w.st.index with
    | error e =>
      have hx : call (prepare q) osSend recv w.st w.os = ⟨.error (.py e), [], { w.st with index := (w.st.index + 1) % w.st.maxq }, w.os⟩ := by
        have hlt : ¬ (w.st.pending.length ≥ w.st.maxq) := by rw [hidle]; simp; omega
        unfold call send nextPacketIndex
        simp only [hlt, if_false, hp]
      rw [hx] at h1 h2 h3 h4
      refine ⟨by simpa using h4, h1, h3, ?_⟩
      rw [h2]; exact hidle
    | ok h =>
      have hx := call_idle (prepare q) osSend recv w.st w.os hidle hq h hp
      rw [hx] at h1 h2 h3 h4
      dsimp only
      rcases hs : osSend h w.os with ⟨o, o1⟩
      rw [hs] at h1 h2 h3 h4
      cases o with
      | error e =>
        refine ⟨by simpa using h4, h1, h3, ?_⟩
        rw [h2]; exact hidle
      | ok u =>
        simp only [oneFlight] at h1 h2 h3 h4
        dsimp only
        rcases hr : recv { pending := [(w.st.index, (h, some none))], index := (w.st.index + 1) % w.st.maxq, maxq := w.st.maxq } o1 with ⟨o, o2⟩
        rw [hr] at h1 h2 h3 h4
        cases o with
        | error e => exact ⟨by simpa using h4, h1, h3⟩
        | ok p =>
          obtain ⟨o, j⟩ := p
          by_cases hj : w.st.index = j
          · simp only [hj, if_true] at h1 h2 h3 h4
            cases o with
            | data d => exact ⟨by simpa using h4, h3, fun _ => ⟨h1, by rw [h2, hj]⟩, fun h => absurd hj.symm h⟩
            | exc e => exact ⟨by simpa using h4, h3, fun _ => ⟨h1, by rw [h2, hj]⟩, fun h => absurd hj.symm h⟩
          · simp only [hj, if_false] at h1 h2 h3 h4
            cases o with
            | data d => exact ⟨by simpa using h4, h3, fun h => absurd h.symm hj, fun _ => h1⟩
            | exc e => exact ⟨by simpa using h4, h3, fun h => absurd h.symm hj, fun _ => h1⟩

/-- `call` on a platform with device `dev` behind it: in states related to a device state by `Inv`, it asks the device once, gives the caller
the outcome of the answer, and (unless an exception of the library itself is raised) ends in a state related to the device's new state. -/
def Faithful (prepare : Req → Nat → Py Q) (osSend : Q → ω → Py Unit × ω) (recv : St Q (Option K) → ω → Py (Outcome D E × Nat) × ω)
    (dev : Device δ) (out : Req → Answer → Except (Exn E) (Option D)) (ok : Req → Prop) (Inv : St Q (Option K) → ω → δ → Prop) : Prop :=
  ∀ c s o k, ok c → Inv s o k →
    let x := call (prepare c) osSend recv s o
    x.out = out c (dev k (asked c)).1 ∧ ((∀ e, x.out ≠ .error (.py e)) → Inv x.st x.os (dev k (asked c)).2)

/-- A sequence of `execute`s on a faithful platform: the device gets exactly the commands' requests, in order, each once; the caller gets
from each command its decoded answer or the device's error. -/
theorem C51_session (hP : Implements .actual P osSend recv) {prepare : Req → Nat → Py Q} {dev : Device δ}
    {out : Req → Answer → Except (Exn E) (Option D)} {ok : Req → Prop} {Inv : St Q (Option K) → ω → δ → Prop}
    (hF : Faithful prepare osSend recv dev out ok Inv) (hout : ∀ c k, ok c → ∀ e, out c (dev k (asked c)).1 ≠ .error (.py e))
    (cmds : List (Command Req D R)) (hok : ∀ c ∈ cmds, ∀ q, c.request = .ok q → ok q) (w : W Q K D E ω) (k : δ) (hw : Inv w.st w.os k) :
    ∃ w', RunAll (machine P prepare) cmds w (askAll dev out cmds k).1 w' ∧ Inv w'.st w'.os (askAll dev out cmds k).2 := by
  induction cmds generalizing w k with
  | nil => exact ⟨w, .nil w, hw⟩
  | cons c cs ih =>
    have hcs : ∀ c ∈ cs, ∀ q, c.request = .ok q → ok q := fun c' hc' => hok c' (List.mem_cons_of_mem _ hc')
    cases hreq : c.request with
    | error e =>
      obtain ⟨w', h1, h2⟩ := ih hcs w k hw
      refine ⟨w', ?_, ?_⟩
      · simp only [askAll, hreq]
        exact .cons (execute_error c prepare w hreq) h1
      · simp only [askAll, hreq]; exact h2
    | ok q =>
      obtain ⟨f, hf, h1, h2, h3, -⟩ := execute_ok hP c prepare w hreq
      have hq := hok c (List.mem_cons_self ..) q hreq
      obtain ⟨ho, hi⟩ := hF q w.st w.os k hq hw
      rw [ho] at h1
      have hinv := hi (by rw [ho]; exact hout q k hq)
      rw [← h2, ← h3] at hinv
      obtain ⟨w', h4, h5⟩ := ih hcs (world f) _ hinv
      refine ⟨w', ?_, ?_⟩
      · simp only [askAll, hreq]
        rw [← h1]
        exact .cons hf h4
      · simp only [askAll, hreq]; exact h5

/-- `RunAll` gives one list of answers only. -/
theorem runAll_unique {M : Machine (Frame C Q K D R Gp) (W Q K D E ω) (Val D E R) (Exn E) T} {cmds w as w' as' w''}
    (h : RunAll M cmds w as w') (h' : RunAll M cmds w as' w'') : as' = as ∧ w'' = w' := by
  induction h generalizing as' with
  | nil => cases h'; exact ⟨rfl, rfl⟩
  | cons hf _ ih =>
    cases h' with
    | cons hf' h2 =>
      cases syncWait_unique hf hf'
      obtain ⟨rfl, rfl⟩ := ih h2
      exact ⟨rfl, rfl⟩

end Verif.ExecuterGen
