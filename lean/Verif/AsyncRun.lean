import Verif.Platform.Win32AsyncLemmas
import Verif.Props.Reactor
import Verif.ExecuterGenLemmas
/-! # Running `execute` on an asynchronous Windows file, up to the token and after it -/
set_option linter.unusedSimpArgs false
set_option linter.unusedSectionVars false

namespace Verif.AsyncRun
open Verif.Executer Verif.ExecuterGen Verif.Coroutine Verif.Platform Verif.Platform.Win32 Verif.Spec

variable {S R K κ : Type} [DecidableEq K] {a : Abi} {parse : Bytes → Py (Option S)} {io : IoManager κ} {alloc : Nat → Alloc} {own : Option K}

/-- The code of a coroutine named `own`. -/
abbrev code (a : Abi) (parse : Bytes → Py (Option S)) (io : IoManager κ) (alloc : Nat → Alloc) (own : Option K) :
    Machine (Frame Req Spt K (Option Bytes) R AsyncGen) (ExecuterGen.W Spt K (Option Bytes) (DevErr S) (AsyncWorld κ))
      (Val (Option Bytes) (DevErr S) R) (Exn (DevErr S)) Nat :=
  machine (asyncPlat a parse io) (prepare a alloc) own

/-- The generators suspended below a token. -/
def waiting (h : Spt) (i : Nat) (cmd : Command Req (Option Bytes) R) : List (Frame Req Spt K (Option Bytes) R AsyncGen) :=
  [.os .ioctlEnd, .os (.sent h), .sendTry i, .callLoop, .executeGot cmd]

/-- The world when the request has been submitted. -/
def submittedWorld (own : Option K) (h : Spt) (w : ExecuterGen.W Spt K (Option Bytes) (DevErr S) (AsyncWorld κ)) (w1 : World κ) :
    ExecuterGen.W Spt K (Option Bytes) (DevErr S) (AsyncWorld κ) :=
  { st := { pending := Dict.set w.st.pending w.st.index (h, some own), index := (w.st.index + 1) % w.st.maxq, maxq := w.st.maxq },
    os := { world := w1, incoming := w.os.incoming, events := w.os.events + 1 }, fired := w.fired, box := setBox w.box own [] }

theorem unbuildable {cmd : Command Req (Option Bytes) R} {e} (hreq : cmd.request = .error e)
    (w : ExecuterGen.W Spt K (Option Bytes) (DevErr S) (AsyncWorld κ)) :
    AsyncLoop (code a parse io alloc own) ⟨[.execute cmd], .send .none, none, w⟩ (.raised (.py e) w) :=
  .fail (by simp only [nextStep, code, machine, ExecuterGen.resume, resumeExecute, hreq, unwind])

theorem start_blocked {cmd : Command Req (Option Bytes) R} {q : Req} {h : Spt} {w1 : World κ} (hreq : cmd.request = .ok q)
    (w : ExecuterGen.W Spt K (Option Bytes) (DevErr S) (AsyncWorld κ)) (hfull : w.st.pending.length < w.st.maxq)
    (hc : create a (alloc w.st.index) w.st.index q = .ok h)
    (hio : io.deviceIoControl ioctlCode h.blockAddr (sptSize a) w.os.events { w.os.world with mem := h.install w.os.world.mem } = (.pending, w1)) :
    AsyncLoop (code a parse io alloc own) ⟨[.execute cmd], .send .none, none, w⟩
      (.blocked w.os.events ⟨waiting h w.st.index cmd, .send .none, some (.tok w.os.events), submittedWorld own h w w1⟩) := by
  have hn : ¬ (w.st.pending.length ≥ w.st.maxq) := by omega
  refine .step (c := ⟨[.call q, .executeGot cmd], .send .none, some (.gen (.call q)), w⟩) ?_ ?_
  · simp only [nextStep, code, machine, ExecuterGen.resume, resumeExecute, hreq]
  refine .step (c := ⟨[.send q (some own), .callLoop, .executeGot cmd], .send .none, some (.gen (.send q (some own))),
    { w with box := setBox w.box own [] }⟩) rfl ?_
  refine .step (c := ⟨[.os (.send h), .sendTry w.st.index, .callLoop, .executeGot cmd], .send .none, some (.gen (.os (.send h))),
    { w with st := { pending := Dict.set w.st.pending w.st.index (h, some own), index := (w.st.index + 1) % w.st.maxq, maxq := w.st.maxq },
             box := setBox w.box own [] }⟩) ?_ ?_
  · have hp : prepare a alloc q w.st.index = .ok h := hc
    simp only [nextStep, code, machine, ExecuterGen.resume, resumeSend, nextPacketIndex, hn, if_false, hp, asyncPlat]
  refine .step (c := ⟨[.os (.ioctl h), .os (.sent h), .sendTry w.st.index, .callLoop, .executeGot cmd], .send .none, some (.gen (.os (.ioctl h))),
    { w with st := { pending := Dict.set w.st.pending w.st.index (h, some own), index := (w.st.index + 1) % w.st.maxq, maxq := w.st.maxq },
             box := setBox w.box own [] }⟩) rfl ?_
  refine .blocked ?_
  simp only [nextStep, code, machine, ExecuterGen.resume, asyncPlat, asyncResume, hio, liftOut, liftYld, submittedWorld, waiting]

theorem start_full {cmd : Command Req (Option Bytes) R} {q : Req} (hreq : cmd.request = .ok q)
    (w : ExecuterGen.W Spt K (Option Bytes) (DevErr S) (AsyncWorld κ)) (hfull : w.st.maxq ≤ w.st.pending.length) :
    ∃ w', AsyncLoop (code a parse io alloc own) ⟨[.execute cmd], .send .none, none, w⟩ (.raised (.py .nameError) w') ∧ w'.os = w.os ∧ w'.st = w.st := by
  refine ⟨{ w with box := setBox w.box own [] }, ?_, rfl, rfl⟩
  refine .step (c := ⟨[.call q, .executeGot cmd], .send .none, some (.gen (.call q)), w⟩) ?_ ?_
  · simp only [nextStep, code, machine, ExecuterGen.resume, resumeExecute, hreq]
  refine .step (c := ⟨[.send q (some own), .callLoop, .executeGot cmd], .send .none, some (.gen (.send q (some own))),
    { w with box := setBox w.box own [] }⟩) rfl ?_
  refine .step (c := ⟨[.callLoop, .executeGot cmd], .throw (.py .nameError), some (.gen (.send q (some own))),
    { w with box := setBox w.box own [] }⟩) ?_ ?_
  · have hn : w.st.pending.length ≥ w.st.maxq := hfull
    simp only [nextStep, code, machine, ExecuterGen.resume, resumeSend, nextPacketIndex, hn, if_true, unwind]
  refine .step (c := ⟨[.executeGot cmd], .throw (.py .nameError), some (.gen (.send q (some own))),
    { w with box := setBox w.box own [] }⟩) rfl ?_
  exact .fail rfl

/-- What `process` leaves. -/
def processedWorld (own : Option K) (i : Nat) (args : CbArgs (Option Bytes) (DevErr S)) (w : ExecuterGen.W Spt K (Option Bytes) (DevErr S) (AsyncWorld κ)) :
    ExecuterGen.W Spt K (Option Bytes) (DevErr S) (AsyncWorld κ) :=
  { w with st := { w.st with pending := Dict.erase w.st.pending i }, box := setBox w.box own (w.box own ++ [args]),
           fired := match own with | none => w.fired | some k => w.fired ++ [(some k, args)] }

section
variable {h h' : Spt} {i : Nat} {cmd : Command Req (Option Bytes) R} {v : Val (Option Bytes) (DevErr S) R} {r}
  (w : ExecuterGen.W Spt K (Option Bytes) (DevErr S) (AsyncWorld κ)) (hinc : w.os.incoming = []) (hbox : w.box own = [])
  (hid : h.packetId = i) (hp : Dict.get w.st.pending i = some (h', some own))
include hinc hbox

/-- From the token's result to `_os_receive`. -/
theorem to_receive {o} (hne : w.st.pending ≠ []) :
    AsyncLoop (code a parse io alloc own) ⟨[.os .recv, .processGot, .callLoop, .executeGot cmd], .send .none, some (.gen (.os .recv)),
      { w with os := { w.os with incoming := [h] } }⟩ o →
    AsyncLoop (code a parse io alloc own) ⟨waiting h i cmd, .send v, r, w⟩ o := by
  intro hl
  refine .step (c := ⟨[.os (.sent h), .sendTry i, .callLoop, .executeGot cmd], .send v, r, w⟩) rfl ?_
  refine .step (c := ⟨[.sendTry i, .callLoop, .executeGot cmd], .send v, r, { w with os := { w.os with incoming := [h] } }⟩) ?_ ?_
  · simp only [nextStep, code, machine, ExecuterGen.resume, asyncPlat, asyncResume, liftOut, hinc]
  refine .step (c := ⟨[.callLoop, .executeGot cmd], .send v, r, { w with os := { w.os with incoming := [h] } }⟩) rfl ?_
  refine .step (c := ⟨[.process, .callLoop, .executeGot cmd], .send .none, some (.gen .process), { w with os := { w.os with incoming := [h] } }⟩) ?_ ?_
  · simp only [nextStep, code, machine, ExecuterGen.resume, resumeCallLoop, hbox]
  refine .step (c := ⟨[.os .recv, .processGot, .callLoop, .executeGot cmd], .send .none, some (.gen (.os .recv)),
    { w with os := { w.os with incoming := [h] } }⟩) ?_ hl
  have he : isQueueEmpty { w with os := { w.os with incoming := [h] } }.st = false := by
    simp [isQueueEmpty, hne]
  simp only [nextStep, code, machine, ExecuterGen.resume, he, Bool.false_eq_true, if_false, asyncPlat]

include hid hp

theorem finish_error {e} (hcl : classify a parse h w.os.world.mem = .error e) :
    ∃ w', AsyncLoop (code a parse io alloc own) ⟨waiting h i cmd, .send v, r, w⟩ (.raised (.py e) w') ∧ w'.os = w.os ∧
      (w'.st.pending = w.st.pending ∨ w'.st.pending = Dict.erase w.st.pending i) := by
  have hne : w.st.pending ≠ [] := fun hn => by rw [hn] at hp; simp [Dict.get] at hp
  refine ⟨w, to_receive w hinc hbox hne ?_, rfl, .inl rfl⟩
  refine .step (c := ⟨[.processGot, .callLoop, .executeGot cmd], .throw (.py e), some (.gen (.os .recv)), w⟩) ?_ ?_
  · simp only [nextStep, code, machine, ExecuterGen.resume, asyncPlat, asyncResume, hcl, liftOut, unwind, ← hinc]
  refine .step (c := ⟨[.callLoop, .executeGot cmd], .throw (.py e), some (.gen (.os .recv)), w⟩) rfl ?_
  refine .step (c := ⟨[.executeGot cmd], .throw (.py e), some (.gen (.os .recv)), w⟩) rfl ?_
  exact .fail rfl

/-- From `_os_receive` to `call`'s loop. -/
theorem to_loop {oc o} (hcl : classify a parse h w.os.world.mem = .ok oc) :
    AsyncLoop (code a parse io alloc own) ⟨[.callLoop, .executeGot cmd], .send (.bool true), some (.plain (.bool true)), processedWorld own i (cbArgs oc) w⟩ o →
    AsyncLoop (code a parse io alloc own) ⟨waiting h i cmd, .send v, r, w⟩ o := by
  intro hl
  have hne : w.st.pending ≠ [] := fun hn => by rw [hn] at hp; simp [Dict.get] at hp
  refine to_receive w hinc hbox hne ?_
  refine .step (c := ⟨[.os .recvEnd, .processGot, .callLoop, .executeGot cmd], .send (.resp oc i), some (.plain (.resp oc i)), w⟩) ?_ ?_
  · simp only [nextStep, code, machine, ExecuterGen.resume, asyncPlat, asyncResume, hcl, liftOut, liftYld, ← hinc, hid]
  refine .step (c := ⟨[.processGot, .callLoop, .executeGot cmd], .send (.resp oc i), some (.plain (.resp oc i)), w⟩) rfl ?_
  refine .step (c := ⟨[.processEnd, .callLoop, .executeGot cmd], .send (.bool true), some (.plain (.bool true)), processedWorld own i (cbArgs oc) w⟩) ?_ ?_
  · simp only [nextStep, code, machine, ExecuterGen.resume, resumeProcessGot, hp, processedWorld]
    cases own <;> rfl
  exact .step rfl hl

theorem finish_exc {e} (hcl : classify a parse h w.os.world.mem = .ok (.exc e)) :
    ∃ w', AsyncLoop (code a parse io alloc own) ⟨waiting h i cmd, .send v, r, w⟩ (.raised (.dev e) w') ∧ w'.os = w.os ∧
      (w'.st.pending = w.st.pending ∨ w'.st.pending = Dict.erase w.st.pending i) := by
  refine ⟨processedWorld own i (cbArgs (.exc e)) w, to_loop w hinc hbox hid hp hcl ?_, rfl, .inr rfl⟩
  refine .step (c := ⟨[.executeGot cmd], .throw (.dev e), some (.plain (.bool true)), processedWorld own i (cbArgs (.exc e)) w⟩) ?_ (.fail rfl)
  simp [nextStep, code, machine, ExecuterGen.resume, resumeCallLoop, processedWorld, setBox, hbox, cbArgs, unwind]

theorem to_decode {d o} (hcl : classify a parse h w.os.world.mem = .ok (.data d)) :
    AsyncLoop (code a parse io alloc own) ⟨[.executeGot cmd], .send (.data (some d)), some (.plain (.data (some d))), processedWorld own i (cbArgs (.data d)) w⟩ o →
    AsyncLoop (code a parse io alloc own) ⟨waiting h i cmd, .send v, r, w⟩ o := by
  intro hl
  refine to_loop w hinc hbox hid hp hcl ?_
  refine .step (c := ⟨[.callEnd, .executeGot cmd], .send (.data (some d)), some (.plain (.data (some d))), processedWorld own i (cbArgs (.data d)) w⟩) ?_ ?_
  · simp [nextStep, code, machine, ExecuterGen.resume, resumeCallLoop, processedWorld, setBox, hbox, cbArgs, unwind]
  exact .step rfl hl

/-- The rest of `execute` after the token, when the command has a result. -/
theorem finish_done {r'} (hr : decoded cmd (clsOut (classify a parse h w.os.world.mem)) = .ok (some (.obj r'))) :
    ∃ args, AsyncLoop (code a parse io alloc own) ⟨waiting h i cmd, .send v, r, w⟩ (.done (some (.plain (.obj r'))) (processedWorld own i args w)) := by
  cases hcl : classify a parse h w.os.world.mem with
  | error e => rw [hcl] at hr; simp [clsOut, decoded] at hr
  | ok o =>
    cases o with
    | exc e => rw [hcl] at hr; simp [clsOut, decoded] at hr
    | data d =>
      rw [hcl] at hr
      cases hd : cmd.decode (some d) with
      | error e => simp [clsOut, decoded, hd] at hr
      | ok r2 =>
        simp [clsOut, decoded, hd] at hr
        subst hr
        refine ⟨cbArgs (.data d), to_decode w hinc hbox hid hp hcl ?_⟩
        refine .step (c := ⟨[.executeEnd], .send (.obj r2), some (.plain (.obj r2)), processedWorld own i (cbArgs (.data d)) w⟩) ?_ ?_
        · simp only [nextStep, code, machine, ExecuterGen.resume, resumeExecuteGot, hd]
        exact .step rfl (.done ..)

/-- ... and when it has an exception. -/
theorem finish_raised {e} (hr : decoded cmd (clsOut (classify a parse h w.os.world.mem)) = .error e) :
    ∃ w', AsyncLoop (code a parse io alloc own) ⟨waiting h i cmd, .send v, r, w⟩ (.raised e w') ∧ w'.os = w.os ∧
      (w'.st.pending = w.st.pending ∨ w'.st.pending = Dict.erase w.st.pending i) := by
  cases hcl : classify a parse h w.os.world.mem with
  | error e' =>
    rw [hcl] at hr; simp [clsOut, decoded] at hr
    subst hr
    exact finish_error w hinc hbox hid hp hcl
  | ok o =>
    cases o with
    | exc e' =>
      rw [hcl] at hr; simp [clsOut, decoded] at hr
      subst hr
      exact finish_exc w hinc hbox hid hp hcl
    | data d =>
      rw [hcl] at hr
      cases hd : cmd.decode (some d) with
      | ok r2 => simp [clsOut, decoded, hd] at hr
      | error e' =>
        simp [clsOut, decoded, hd] at hr
        subst hr
        refine ⟨processedWorld own i (cbArgs (.data d)) w, to_decode w hinc hbox hid hp hcl (.fail (s' := processedWorld own i (cbArgs (.data d)) w) ?_), rfl, .inr rfl⟩
        simp only [nextStep, code, machine, ExecuterGen.resume, resumeExecuteGot, hd, unwind]

end

end Verif.AsyncRun
