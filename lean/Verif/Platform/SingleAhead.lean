import Verif.Spec.LatestFaults
import Verif.Props.QueueSize
set_option linter.unusedSimpArgs false
set_option linter.unusedSectionVars false
/-!
# Commands sent ahead on executers that take one command at a time (Solaris and AIX), when calls of the system can fail

`SolarisCommandExecuter` and `AixCommandExecuter` are made with a queue size of 1 (solaris.py:188, aix.py:364).
-/

namespace Verif.Platform.Single
open Verif.Executer Verif.Spec Verif.Platform.QueueSize

variable {F Q ω S δ : Type}

/-- What a callback gets. -/
abbrev Told (S : Type) := CbArgs (Option Bytes) (DevErr S)
/-- What `call` returns or raises. -/
abbrev Result (S : Type) := Except (Exn (DevErr S)) (Option (Option Bytes))

/-- The platform's part of an executer: `_os_prepare_to_send` with the memory Python allocates for the `t`-th command, `_os_send` when the system fails in the given
way, or does not, and `_os_receive`. -/
structure Kit (F Q ω S : Type) where
  prep : Nat → Req → Nat → Py Q
  send : Option F → Q → ω → Py Unit × ω
  recv : St Q (Option Nat) → ω → Py (Outcome (Option Bytes) (DevErr S) × Nat) × ω

/-- The executer in its world. The callback of the `t`-th command is called `some t`; `none` is `my_cb` of `call`. -/
structure Live (Q ω S : Type) where
  ex : St Q (Option Nat)
  os : ω
  next : Nat
  log : List (Pipeline.Ev (Told S) (Result S))

/-- An executer that was just made, with the default queue size. -/
def Live.init (w : ω) : Live Q ω S := ⟨made Q Nat 1, w, 0, []⟩

/-- What is seen of a callback. -/
def seen : Option Nat × Told S → List (Pipeline.Ev (Told S) (Result S))
  | (some t, a) => [.told t a]
  | (none, _) => []

/-- One thing the user does, and how the system fails at it, if it does, with the methods of the executer doing the work: `send` (__init__.py:99-110),
`call` (77-91), `wait` (112-114). -/
def Live.step (kit : Kit F Q ω S) (s : Live Q ω S) : Pipeline.Op × Option F → Live Q ω S
  | (.send c, f) =>
    let r := Executer.send (kit.prep s.next c) (kit.send f) (some (some s.next)) s.ex s.os
    match r.out with
    | .ok () => ⟨r.st, r.os, s.next + 1, s.log ++ [.accepted s.next]⟩
    | .error .nameError => ⟨r.st, r.os, s.next, s.log ++ [.refused]⟩
    | .error e => ⟨r.st, r.os, s.next + 1, s.log ++ [.raised e]⟩
  | (.call c, f) =>
    let r := Executer.call (kit.prep s.next c) (kit.send f) kit.recv s.ex s.os
    match r.out with
    | .error (.py .nameError) => ⟨r.st, r.os, s.next, s.log ++ r.fired.flatMap seen ++ [.refused]⟩
    | .error (.py e) => ⟨r.st, r.os, s.next + 1, s.log ++ r.fired.flatMap seen ++ [.raised e]⟩
    | o => ⟨r.st, r.os, s.next + 1, s.log ++ r.fired.flatMap seen ++ [.returned s.next o]⟩
  | (.wait, _) =>
    let r := Executer.wait kit.recv s.ex s.os
    match r.out with
    | .ok () => ⟨r.st, r.os, s.next, s.log ++ r.fired.flatMap seen ++ [.waited]⟩
    | .error e => ⟨r.st, r.os, s.next, s.log ++ r.fired.flatMap seen ++ [.raised e]⟩

def Live.runFrom (kit : Kit F Q ω S) (s : Live Q ω S) (ops : List (Pipeline.Op × Option F)) : Live Q ω S := ops.foldl (Live.step kit) s

def Live.run (kit : Kit F Q ω S) (w : ω) (ops : List (Pipeline.Op × Option F)) : Live Q ω S := Live.runFrom kit (Live.init w) ops

/-- What a callback is told about a command the device answered. -/
def hear (parse : Bytes → Py (Option S)) (c : Req) (ans : Answer) : Told S :=
  match outcome parse c ans with
  | .ok d => ⟨d, none⟩
  | .error (.dev e) => ⟨none, some e⟩
  | .error (.py _) => ⟨none, none⟩

/-- What the ideal knows of it: the effect of a failure on the device. -/
def plain (effect : F → δ → δ) (op : Pipeline.Op × Option F) : Pipeline.FOp δ := (op.1, op.2.map effect)

/-- What is needed of the platform: a command executed with `call` on an executer that was just made has the device's answer; responses carry number 0; a failing call
is told as `err`. -/
structure Sound (kit : Kit F Q ω S) (parse : Bytes → Py (Option S)) (dev : Device δ) (kern : ω → δ) (effect : F → δ → δ) (err : PyErr) (cmds : Req → Prop)
    (ok : F → Prop) : Prop where
  decodes : Decodes parse dev
  zero : PacketZero kit.recv
  one : ∀ n, OneCall (K := Nat) parse dev 1 kit.recv (kit.prep n) (kit.send none) kern cmds
  fails : ∀ n c f w, cmds c → ok f → ∃ q, kit.prep n c 0 = .ok q ∧ (kit.send (some f) q w).1 = .error err ∧ kern (kit.send (some f) q w).2 = effect f (kern w)
  err : err ≠ .nameError

section
variable {kit : Kit F Q ω S} {parse : Bytes → Py (Option S)} {dev : Device δ} {kern : ω → δ} {effect : F → δ → δ} {err : PyErr} {cmds : Req → Prop} {ok : F → Prop}

/-- What `_os_send` and `_os_receive` do for one command. -/
theorem Sound.sent (hk : Sound kit parse dev kern effect err cmds ok) (n : Nat) (c : Req) (hc : cmds c) (w : ω) :
    ∃ q o w1, kit.prep n c 0 = .ok q ∧ kit.send none q w = (.ok (), w1) ∧ kern w1 = (dev (kern w) (asked c)).2 ∧
      (∀ s, getOsData s 0 = some q → kit.recv s w1 = (.ok (o, 0), w1)) ∧
      outcome parse c (dev (kern w) (asked c)).1 = match (generalizing := false) o with | .data d => .ok (some d) | .exc e => .error (.dev e) := by
  obtain ⟨q, hq, ho, hd⟩ := hk.one n c hc 0 w
  have hno := outcome_ne parse c _ (hk.decodes (kern w) (asked c))
  rw [call_idle _ _ _ _ w rfl (by show 0 < 1; omega) q rfl] at ho hd
  rcases hs : kit.send none q w with ⟨_ | _, w1⟩
  · rw [hs] at ho
    exact absurd ho.symm (hno _)
  · rw [hs] at ho hd
    simp only at ho hd
    rcases hrv : kit.recv (oneFlight (made Q Nat 1) q) w1 with ⟨r, w2⟩
    have hkeep := hk.zero.keeps (oneFlight (made Q Nat 1) q) w1
    rw [hrv] at ho hd hkeep
    simp only at hkeep
    subst hkeep
    cases r with
    | error e => exact absurd ho.symm (hno e)
    | ok p =>
      obtain ⟨o, j⟩ := p
      have hj := hk.zero.says _ _ _ _ _ hrv
      subst hj
      simp only [if_true] at ho hd
      refine ⟨q, o, w2, hq, hs, hd, ?_, ?_⟩
      · intro s hg
        rw [← hrv]
        refine hk.zero.looks _ _ _ ?_
        rw [hg]
        simp [getOsData, oneFlight, Dict.get]
      · rw [← ho]; cases o <;> rfl

/-- The executer and the ideal agree. -/
structure Agree (kit : Kit F Q ω S) (parse : Bytes → Py (Option S)) (kern : ω → δ) (s : Live Q ω S) (i : Pipeline.State δ (Told S) (Result S)) : Prop where
  index : s.ex.index = 0
  maxq : s.ex.maxq = 1
  dev : kern s.os = i.dev
  next : s.next = i.next
  log : s.log = i.log
  out : (i.out = [] ∧ s.ex.pending = []) ∨
    ∃ e q o, i.out = [e] ∧ e.t + 1 = i.next ∧ s.ex.pending = [(0, (q, some (some e.t)))] ∧ kit.recv s.ex s.os = (.ok (o, 0), s.os) ∧ cbArgs o = hear parse e.cmd e.ans

theorem agree_init (w : ω) : Agree kit parse kern (Live.init w) (Pipeline.State.init (kern w)) := ⟨rfl, rfl, rfl, rfl, rfl, .inl ⟨rfl, rfl⟩⟩

theorem wait_empty (recv : St Q (Option Nat) → ω → Py (Outcome (Option Bytes) (DevErr S) × Nat) × ω) (i n : Nat) (w : ω) :
    wait recv { pending := [], index := i, maxq := n } w = ⟨.ok (), [], { pending := [], index := i, maxq := n }, w⟩ := by
  rw [wait, if_pos (by simp [isQueueEmpty])]

theorem wait_one (recv : St Q (Option Nat) → ω → Py (Outcome (Option Bytes) (DevErr S) × Nat) × ω) (q : Q) (t i n : Nat) (w : ω) (o : Outcome (Option Bytes) (DevErr S))
    (hr : recv { pending := [(0, (q, some (some t)))], index := i, maxq := n } w = (.ok (o, 0), w)) :
    wait recv { pending := [(0, (q, some (some t)))], index := i, maxq := n } w = ⟨.ok (), [(some t, cbArgs o)], { pending := [], index := i, maxq := n }, w⟩ := by
  have hp : process recv { pending := [(0, (q, some (some t)))], index := i, maxq := n } w =
      ⟨.ok true, some (some t, cbArgs o), { pending := [], index := i, maxq := n }, w⟩ := by
    unfold process
    rw [hr]
    rfl
  rw [wait, if_neg (by simp [isQueueEmpty])]
  split
  · rename_i e' he
    rw [hp] at he; cases he
  · simp only [hp, wait_empty]
    rfl

theorem agree_step (hk : Sound kit parse dev kern effect err cmds ok) {s : Live Q ω S} {i : Pipeline.State δ (Told S) (Result S)} (h : Agree kit parse kern s i)
    (op : Pipeline.Op × Option F) (hop : Pipeline.Gives cmds op.1) (hf : ∀ f, op.2 = some f → ok f) :
    Agree kit parse kern (Live.step kit s op) (Latest.fstep err dev 1 (hear parse) (outcome parse) i (plain effect op)) := by
  obtain ⟨⟨pend, idx, mq⟩, w, next, log⟩ := s
  obtain ⟨d, inext, iout, ilog⟩ := i
  obtain ⟨h1, h2, h3, h4, h5, hout⟩ := h
  simp only at h1 h2 h3 h4 h5 hout
  subst h1; subst h2; subst h3; subst h4; subst h5
  obtain ⟨op, f⟩ := op
  rcases hout with ⟨rfl, rfl⟩ | ⟨e, q, o, rfl, he, rfl, hr, hcb⟩
  · -- nothing outstanding
    cases op with
    | wait =>
      cases f <;> exact ⟨by simp [Live.step, wait_empty], by simp [Live.step, wait_empty], by simp [Live.step, wait_empty, plain, Latest.fstep, Latest.step, Latest.waiting],
        by simp [Live.step, wait_empty, plain, Latest.fstep, Latest.step, Latest.waiting], by simp [Live.step, wait_empty, plain, Latest.fstep, Latest.step, Latest.waiting],
        .inl ⟨by simp [plain, Latest.fstep, Latest.step, Latest.waiting], by simp [Live.step, wait_empty]⟩⟩
    | send c =>
      cases f with
      | none =>
        obtain ⟨q, o, w1, hq, hs, hd, hrecv, hout⟩ := hk.sent next c hop w
        have hstep : Live.step kit ⟨⟨[], 0, 1⟩, w, next, log⟩ (.send c, none) =
            ⟨⟨[(0, (q, some (some next)))], 0, 1⟩, w1, next + 1, log ++ [.accepted next]⟩ := by
          simp [Live.step, Executer.send, nextPacketIndex, hq, hs, Dict.set]
        rw [hstep]
        refine ⟨rfl, rfl, hd, rfl, rfl, .inr ⟨⟨next, c, (dev (kern w) (asked c)).1⟩, q, o, ?_, rfl, rfl, hrecv _ rfl, ?_⟩⟩
        · simp [plain, Latest.fstep, Latest.step, Pipeline.step, Pipeline.keep]
        · simp only [hear, hout]
          cases o <;> rfl
      | some f =>
        obtain ⟨q, hq, hs, hd⟩ := hk.fails next c f w hop (hf f rfl)
        rcases hw : kit.send (some f) q w with ⟨r, w1⟩
        rw [hw] at hs hd
        simp only at hs hd
        subst hs
        have hstep : Live.step kit ⟨⟨[], 0, 1⟩, w, next, log⟩ (.send c, some f) = ⟨⟨[], 0, 1⟩, w1, next + 1, log ++ [.raised err]⟩ := by
          have hsend : Executer.send (kit.prep next c) (kit.send (some f)) (some (some next)) ⟨[], 0, 1⟩ w = ⟨.error err, ⟨[], 0, 1⟩, w1⟩ := by
            simp [Executer.send, nextPacketIndex, hq, hw, Dict.set, Dict.erase]
          simp only [Live.step, hsend]
          have := hk.err
          cases err <;> first | rfl | exact absurd rfl this
        rw [hstep]
        exact ⟨rfl, rfl, hd, rfl, rfl, .inl ⟨by simp [plain, Latest.fstep, Pipeline.failed, Pipeline.keep], rfl⟩⟩
    | call c =>
      cases f with
      | none =>
        obtain ⟨q, o, w1, hq, hs, hd, hrecv, hout⟩ := hk.sent next c hop w
        have hcall : Executer.call (kit.prep next c) (kit.send none) kit.recv ⟨[], 0, 1⟩ w = ⟨outcome parse c (dev (kern w) (asked c)).1, [], ⟨[], 0, 1⟩, w1⟩ := by
          rw [call_idle _ _ _ _ w rfl (by show 0 < 1; omega) q hq, hs]
          simp only
          rw [hrecv _ (by simp [getOsData, oneFlight, Dict.get])]
          simp only [if_true, hout]
          cases o <;> rfl
        have hstep : Live.step kit ⟨⟨[], 0, 1⟩, w, next, log⟩ (.call c, none) =
            ⟨⟨[], 0, 1⟩, w1, next + 1, log ++ [.returned next (outcome parse c (dev (kern w) (asked c)).1)]⟩ := by
          simp only [Live.step, hcall, hout]
          cases o <;> simp
        rw [hstep]
        exact ⟨rfl, rfl, hd, rfl, rfl, .inl ⟨by simp [plain, Latest.fstep, Latest.step, Pipeline.step, Pipeline.keep], rfl⟩⟩
      | some f =>
        obtain ⟨q, hq, hs, hd⟩ := hk.fails next c f w hop (hf f rfl)
        rcases hw : kit.send (some f) q w with ⟨r, w1⟩
        rw [hw] at hs hd
        simp only at hs hd
        subst hs
        have hcall : Executer.call (kit.prep next c) (kit.send (some f)) kit.recv ⟨[], 0, 1⟩ w = ⟨.error (.py err), [], ⟨[], 0, 1⟩, w1⟩ := by
          rw [call_idle _ _ _ _ w rfl (by show 0 < 1; omega) q hq, hw]
          dsimp only
        have hstep : Live.step kit ⟨⟨[], 0, 1⟩, w, next, log⟩ (.call c, some f) = ⟨⟨[], 0, 1⟩, w1, next + 1, log ++ [.raised err]⟩ := by
          simp only [Live.step, hcall, List.flatMap_nil, List.append_nil]
          have := hk.err
          cases err <;> first | rfl | exact absurd rfl this
        rw [hstep]
        exact ⟨rfl, rfl, hd, rfl, rfl, .inl ⟨by simp [plain, Latest.fstep, Pipeline.failed, Pipeline.keep], rfl⟩⟩
  · -- one command outstanding
    have same : Agree kit parse kern ⟨⟨[(0, (q, some (some e.t)))], 0, 1⟩, w, next, log ++ [.refused]⟩ ⟨kern w, next, [e], log ++ [.refused]⟩ :=
      ⟨rfl, rfl, rfl, rfl, rfl, .inr ⟨e, q, o, rfl, he, rfl, hr, hcb⟩⟩
    cases op with
    | wait =>
      have hstep : ∀ f, Live.step kit ⟨⟨[(0, (q, some (some e.t)))], 0, 1⟩, w, next, log⟩ (.wait, f) =
          ⟨⟨[], 0, 1⟩, w, next, log ++ [.told e.t (hear parse e.cmd e.ans), .waited]⟩ := by
        intro f
        simp [Live.step, wait_one _ _ _ _ _ _ _ hr, seen, hcb]
      rw [hstep]
      have hid : Latest.fstep err dev 1 (hear parse) (outcome parse) ⟨kern w, next, [e], log⟩ (plain effect (.wait, f)) =
          ⟨kern w, next, [], log ++ [.told e.t (hear parse e.cmd e.ans), .waited]⟩ := by
        cases f <;> simp [plain, Latest.fstep, Latest.step, Latest.waiting, he]
      rw [hid]
      exact ⟨rfl, rfl, rfl, rfl, rfl, .inl ⟨rfl, rfl⟩⟩
    | send c =>
      have hstep : Live.step kit ⟨⟨[(0, (q, some (some e.t)))], 0, 1⟩, w, next, log⟩ (.send c, f) =
          ⟨⟨[(0, (q, some (some e.t)))], 0, 1⟩, w, next, log ++ [.refused]⟩ := by
        simp [Live.step, Executer.send, nextPacketIndex]
      have hid : Latest.fstep err dev 1 (hear parse) (outcome parse) ⟨kern w, next, [e], log⟩ (plain effect (.send c, f)) = ⟨kern w, next, [e], log ++ [.refused]⟩ := by
        cases f <;> simp [plain, Latest.fstep, Latest.step, Pipeline.step, Pipeline.failed]
      rw [hstep, hid]
      exact same
    | call c =>
      have hstep : Live.step kit ⟨⟨[(0, (q, some (some e.t)))], 0, 1⟩, w, next, log⟩ (.call c, f) =
          ⟨⟨[(0, (q, some (some e.t)))], 0, 1⟩, w, next, log ++ [.refused]⟩ := by
        simp [Live.step, Executer.call, Executer.send, nextPacketIndex]
      have hid : Latest.fstep err dev 1 (hear parse) (outcome parse) ⟨kern w, next, [e], log⟩ (plain effect (.call c, f)) = ⟨kern w, next, [e], log ++ [.refused]⟩ := by
        cases f <;> simp [plain, Latest.fstep, Latest.step, Pipeline.step, Pipeline.failed]
      rw [hstep, hid]
      exact same

theorem agree_run (hk : Sound kit parse dev kern effect err cmds ok) (ops : List (Pipeline.Op × Option F)) (hops : ∀ op ∈ ops, Pipeline.Gives cmds op.1)
    (hf : ∀ op ∈ ops, ∀ f, op.2 = some f → ok f) (s : Live Q ω S) (i : Pipeline.State δ (Told S) (Result S)) (h : Agree kit parse kern s i) :
    Agree kit parse kern (Live.runFrom kit s ops) (Latest.frunFrom err dev 1 (hear parse) (outcome parse) i (ops.map (plain effect))) := by
  induction ops generalizing s i with
  | nil => exact h
  | cons op ops ih =>
    exact ih (fun o ho => hops o (List.mem_cons_of_mem _ ho)) (fun o ho => hf o (List.mem_cons_of_mem _ ho)) _ _
      (agree_step hk h op (hops op (List.mem_cons_self ..)) (hf op (List.mem_cons_self ..)))

end
end Verif.Platform.Single
