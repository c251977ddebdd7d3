import Verif.Spec.Executer
/-!
# Greenlets sharing an executer (`gevent_friendly`, src/infi/asi/__init__.py:9-12, 227-236)

`gevent_friendly(f)(...)` calls `f` and then `gevent.sleep(0)`: whenever the executer did some input or output, other greenlets run. Any
number of greenlets use one executer of linux.py; each of them makes calls (`sync_wait(executer.call(command))`) one after another. What a
greenlet does between two such points is one step here.

Simplifications: responses carry their outcome (what `_handle_raw_response` makes of them, C15..C17);
`patched` says whether `time.sleep` and `select` give way to other greenlets as well (`gevent.monkey.patch_all()`); without it a greenlet that
polls in `UnixFile.read` (unix.py:15-24) keeps all the others from running.
-/

namespace Verif.Greenlets
open Verif.Executer

variable {P X : Type}

/-- Where a greenlet is. Calls are numbered. -/
inductive Phase (P X : Type) where
  /-- in no call -/
  | idle
  /-- in call `t`, at `while len(result) == 0` (__init__.py:84) -/
  | loop (t : Nat)
  /-- in call `t`, in the polling loop of `UnixFile.read` (unix.py:19) -/
  | reading (t : Nat)
  /-- in call `t`, in the `sleep(0)` after the read (__init__.py:234 for linux.py:273), with a response to command `t'` with packet number `pid` -/
  | holding (t : Nat) (o : Outcome P X) (pid t' : Nat)

/-- How a call ends. -/
inductive Final (P X : Type) where
  | returned (d : Option P)
  | failed (e : X)
  | raised (e : PyErr)
  deriving DecidableEq, Repr

/-- What `call` makes of the arguments `my_cb` got (__init__.py:87-91) -/
def finalOf (a : CbArgs P X) : Final P X :=
  match a.exc with
  | some e => .failed e
  | none => .returned a.data

/-- `waiting`: commands at the device (packet number, number of the call); `ready`: responses that can be read; `results`: the `result` lists of
the calls; `phases`: the greenlets. `accepted` (the calls whose command was sent), `answers` (what the device answered) and `log` (how calls
ended: greenlet, call, end) are records only. -/
structure State (P X : Type) where
  ex : St (Nat × Nat) Nat
  waiting : List (Nat × Nat)
  ready : List (Outcome P X × Nat × Nat)
  next : Nat
  results : List (Nat × CbArgs P X)
  phases : List (Phase P X)
  accepted : List Nat
  answers : List (Nat × Outcome P X)
  log : List (Nat × Nat × Final P X)

/-- `n` greenlets, nothing sent. -/
def State.init (limit n : Nat) : State P X :=
  ⟨St.init _ _ limit, [], [], 0, [], List.replicate n .idle, [], [], []⟩

/-- Greenlet `g` can run: without patching no other greenlet is polling. -/
def Runs (patched : Bool) (s : State P X) (g : Nat) : Prop :=
  patched = true ∨ ∀ (g' : Nat) (t : Nat), g' ≠ g → s.phases[g']? ≠ some (.reading t)

/-- `send` (__init__.py:99-110) up to the `sleep(0)` after the write (linux.py:226) -/
def sent (s : State P X) : SendResult (Nat × Nat) Nat (List (Nat × Nat)) :=
  Executer.send (fun i => .ok (i, s.next)) (osSend true) (some s.next) s.ex s.waiting

/-- The same when the write raises `e` (__init__.py:108-110) -/
def unsent (e : PyErr) (s : State P X) : SendResult (Nat × Nat) Nat (List (Nat × Nat)) :=
  Executer.send (fun i => .ok (i, s.next)) (fun _ w => (.error e, w)) (some s.next) s.ex s.waiting

/-- `_process_pending_response` (__init__.py:129-136) once the response is there -/
def handled (s : State P X) (o : Outcome P X) (pid : Nat) : ProcResult (Nat × Nat) Nat P X Unit :=
  process (fun _ w => (.ok (o, pid), w)) s.ex ()

/-- One greenlet runs to its next switch, or the device answers a command. `fails` are the errors that writes to the driver may raise. -/
inductive Step (patched : Bool) (fails : PyErr → Prop) : State P X → State P X → Prop
  /-- a call begins: the command is sent (__init__.py:82) -/
  | call {s : State P X} {g : Nat} : s.phases[g]? = some .idle → Runs patched s g → (sent s).out = .ok () →
      Step patched fails s { s with ex := (sent s).st, waiting := (sent s).os, next := s.next + 1, phases := s.phases.set g (.loop s.next),
                                    accepted := s.accepted ++ [s.next] }
  /-- a call begins and its send raises -/
  | refused {s : State P X} {g : Nat} {e : PyErr} : s.phases[g]? = some .idle → Runs patched s g → (sent s).out = .error e →
      Step patched fails s { s with ex := (sent s).st, next := s.next + 1, log := s.log ++ [(g, s.next, .raised e)] }
  /-- a call begins and the driver does not take its command (when the queue is full, it is not asked) -/
  | unsent {s : State P X} {g : Nat} {e e' : PyErr} : s.phases[g]? = some .idle → Runs patched s g → fails e → (unsent e s).out = .error e' →
      Step patched fails s { s with ex := (unsent e s).st, waiting := (unsent e s).os, next := s.next + 1, log := s.log ++ [(g, s.next, .raised e')] }
  /-- there is a result: the call ends -/
  | finish {s : State P X} {g t : Nat} {a : CbArgs P X} : s.phases[g]? = some (.loop t) → Runs patched s g → (t, a) ∈ s.results →
      Step patched fails s { s with phases := s.phases.set g .idle, log := s.log ++ [(g, t, finalOf a)] }
  /-- there is none: a response has to be read -/
  | poll {s : State P X} {g t : Nat} : s.phases[g]? = some (.loop t) → Runs patched s g → (∀ a, (t, a) ∉ s.results) →
      Step patched fails s { s with phases := s.phases.set g (.reading t) }
  /-- one is there: it is read -/
  | read {s : State P X} {g t i : Nat} {o : Outcome P X} {pid t' : Nat} : s.phases[g]? = some (.reading t) → Runs patched s g →
      s.ready[i]? = some (o, pid, t') →
      Step patched fails s { s with ready := s.ready.eraseIdx i, phases := s.phases.set g (.holding t o pid t') }
  /-- none came: `IOError` (unix.py:22) -/
  | timeout {s : State P X} {g t : Nat} : s.phases[g]? = some (.reading t) → Runs patched s g → s.ready = [] →
      Step patched fails s { s with phases := s.phases.set g .idle, log := s.log ++ [(g, t, .raised .ioError)] }
  /-- the response is processed: somebody's `my_cb` is called -/
  | handle {s : State P X} {g t : Nat} {o : Outcome P X} {pid t' k : Nat} {a : CbArgs P X} : s.phases[g]? = some (.holding t o pid t') →
      Runs patched s g → (handled s o pid).fired = some (k, a) →
      Step patched fails s { s with ex := (handled s o pid).st, results := s.results ++ [(k, a)], phases := s.phases.set g (.loop t) }
  /-- the response is processed and this raises -/
  | stray {s : State P X} {g t : Nat} {o : Outcome P X} {pid t' : Nat} {e : PyErr} : s.phases[g]? = some (.holding t o pid t') →
      Runs patched s g → (handled s o pid).out = .error e →
      Step patched fails s { s with ex := (handled s o pid).st, phases := s.phases.set g .idle, log := s.log ++ [(g, t, .raised e)] }
  /-- the device answers the `i`-th oldest command it has -/
  | answer {s : State P X} {i pid t : Nat} {o : Outcome P X} : s.waiting[i]? = some (pid, t) →
      Step patched fails s { s with waiting := s.waiting.eraseIdx i, ready := s.ready ++ [(o, pid, t)], answers := s.answers ++ [(t, o)] }

/-- Histories. -/
inductive Steps (patched : Bool) (fails : PyErr → Prop) : State P X → State P X → Prop
  | refl (s : State P X) : Steps patched fails s s
  | step {s s' s'' : State P X} : Step patched fails s s' → Steps patched fails s' s'' → Steps patched fails s s''

end Verif.Greenlets
