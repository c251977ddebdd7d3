import Verif.Executer
/-!
# Threads sharing an executer of linux.py

Any number of threads use one executer; each makes calls (`sync_wait(executer.call(command))`) one after another. The interpreter may switch
between any two accesses to what the threads share: `packet_index`, `pending_packets`, the file, and the `result` lists, which callbacks of one
thread's call may be made to fill by another thread. Each such access is one step here.

Simplifications: a write that fails raises `OSError` and leaves nothing at the device; a response carries the outcome `_handle_raw_response` makes of its status and
sense bytes (C15, C16), and the data of a good one is what is in the buffer of the request registered under its packet number; the driver fills the
buffer of the request a response belongs to when the response is read (the kernel may do so earlier; nobody looks at the buffer before).
-/

namespace Verif.Threads
open Verif.Executer

variable {P X : Type}

/-- How a call ends. -/
inductive Final (P X : Type) where
  | returned (d : Option P)
  | failed (e : X)
  | raised (e : PyErr)
  deriving DecidableEq, Repr

/-- Where a thread is. Commands are counted when they get their packet number; `t` is the count of the thread's own command. -/
inductive Pc (P X : Type) where
  /-- in no call -/
  | idle
  /-- a call has begun; in `_next_packet_index` before the test of the queue's length (__init__.py:117) -/
  | start
  /-- in `_next_packet_index` past the test of the queue's length (__init__.py:117) -/
  | checked
  /-- `result = self.packet_index` was done (119) -/
  | took (r : Nat)
  /-- `self.packet_index + 1` is being computed from `v` (120) -/
  | adding (r v : Nat)
  /-- the packet number is taken, `pending_packets[packet_index] = …` is to be done (104) -/
  | numbered (t r : Nat)
  /-- that is done, the command is to be written to the file (linux.py:226) -/
  | registered (t r : Nat)
  /-- the write has raised, `del self.pending_packets[packet_index]` is to be done (__init__.py:109) -/
  | failing (t r : Nat)
  /-- at `while len(result) == 0` (84) -/
  | loop (t : Nat)
  /-- in `_process_pending_response`, at `is_queue_empty()` (124) -/
  | entered (t : Nat)
  /-- in the polling loop of `UnixFile.read` (unix.py:19) -/
  | polling (t : Nat)
  /-- `select` said there is something to read; in `os.read` (unix.py:24), which blocks when there is not -/
  | reading (t : Nat)
  /-- has read a response with packet number `pid` to command `t'`; `_get_os_data` is to be called (linux.py:232) -/
  | got (t : Nat) (o : Outcome P X) (pid t' : Nat)
  /-- `_handle_raw_response` is done, `pending_packets.pop` is to be called (__init__.py:129) -/
  | decoded (t : Nat) (o : Outcome P X) (pid t' : Nat)
  /-- the callback of command `k` is to be called with the outcome (133-136) -/
  | popped (t : Nat) (k : Nat) (o : Outcome P X)

/-- `waiting`: commands at the device (packet number, count); `ready`: responses that can be read; `buf`: the data buffers of the
requests; `results`: the `result` lists. `sent` (which thread sent which command), `answers` (what the device answered) and `log` (how calls ended:
thread, command, end; no command if none was sent) are records only. -/
structure State (P X : Type) where
  ex : St Nat Nat
  waiting : List (Nat × Nat)
  ready : List (Outcome P X × Nat × Nat)
  buf : Nat → P
  next : Nat
  results : List (Nat × CbArgs P X)
  pc : Nat → Pc P X
  sent : List (Nat × Nat)
  answers : List (Nat × Outcome P X)
  log : List (Nat × Option Nat × Final P X)

/-- Nothing sent; the buffers are as they will be allocated. -/
def State.init (limit : Nat) (blank : Nat → P) : State P X :=
  ⟨St.init _ _ limit, [], [], blank, 0, [], fun _ => .idle, [], [], []⟩

/-- Thread `g` goes to `c`. -/
def State.goes (s : State P X) (g : Nat) (c : Pc P X) : State P X := { s with pc := fun g' => if g' = g then c else s.pc g' }

/-- The call of thread `g` ends. -/
def State.ends (s : State P X) (g : Nat) (t : Option Nat) (f : Final P X) : State P X :=
  { s.goes g .idle with log := s.log ++ [(g, t, f)] }

/-- What `call` makes of the arguments `my_cb` got (__init__.py:87-91) -/
def finalOf (a : CbArgs P X) : Final P X :=
  match a.exc with
  | some e => .failed e
  | none => .returned a.data

/-- `_handle_raw_response` (linux.py:228-270) on a response with packet number `pid`: an error, or the data in the buffer of the request registered under
that number (`request_sgio` is `None` if there is none). -/
def decode (s : State P X) (o : Outcome P X) (pid : Nat) : Py (Outcome P X) :=
  match o with
  | .exc x => .ok (.exc x)
  | .data _ =>
    match getOsData s.ex pid with
    | none => .error .attribute
    | some q => .ok (.data (s.buf q))

/-- The driver copies the data of the response to command `t'` into its buffer. -/
def filled (buf : Nat → P) (o : Outcome P X) (t' : Nat) : Nat → P :=
  match o with
  | .data p => fun q => if q = t' then p else buf q
  | .exc _ => buf

/-- One access to what is shared, by one thread, or the device answers a command. -/
inductive Step : State P X → State P X → Prop
  /-- a call begins (__init__.py:77-82) -/
  | begin {s : State P X} {g : Nat} : s.pc g = .idle → Step s (s.goes g .start)
  /-- the queue is full (117-118) -/
  | refused {s : State P X} {g : Nat} : s.pc g = .start → s.ex.maxq ≤ s.ex.pending.length → Step s (s.ends g none (.raised .nameError))
  /-- the queue is not full -/
  | check {s : State P X} {g : Nat} : s.pc g = .start → s.ex.pending.length < s.ex.maxq → Step s (s.goes g .checked)
  /-- `result = self.packet_index` (119) -/
  | take {s : State P X} {g : Nat} : s.pc g = .checked → Step s (s.goes g (.took s.ex.index))
  /-- the right hand side of line 120 is read -/
  | add {s : State P X} {g r : Nat} : s.pc g = .took r → Step s (s.goes g (.adding r s.ex.index))
  /-- `self.packet_index = (… + 1) % self.max_queue_size` (120); the command is counted -/
  | store {s : State P X} {g r v : Nat} : s.pc g = .adding r v →
      Step s { s.goes g (.numbered s.next r) with ex := { s.ex with index := (v + 1) % s.ex.maxq }, next := s.next + 1 }
  /-- `self.pending_packets[packet_index] = (os_data, callback)` (104) -/
  | register {s : State P X} {g t r : Nat} : s.pc g = .numbered t r →
      Step s { s.goes g (.registered t r) with ex := { s.ex with pending := Dict.set s.ex.pending r (t, some t) } }
  /-- the command is written (linux.py:226) -/
  | write {s : State P X} {g t r : Nat} : s.pc g = .registered t r →
      Step s { s.goes g (.loop t) with waiting := s.waiting ++ [(r, t)], sent := s.sent ++ [(g, t)] }
  /-- the driver does not take the command: `os.write` raises (unix.py:27) -/
  | fail {s : State P X} {g t r : Nat} : s.pc g = .registered t r → Step s (s.goes g (.failing t r))
  /-- `del self.pending_packets[packet_index]` and `raise` (__init__.py:109-110) -/
  | unregister {s : State P X} {g t r : Nat} {v : Nat × Option Nat} : s.pc g = .failing t r → Dict.get s.ex.pending r = some v →
      Step s { s.ends g none (.raised .ioError) with ex := { s.ex with pending := Dict.erase s.ex.pending r } }
  /-- `del` finds nothing under that number: `KeyError` instead -/
  | missing {s : State P X} {g t r : Nat} : s.pc g = .failing t r → Dict.get s.ex.pending r = none → Step s (s.ends g none (.raised .keyError))
  /-- there is a result: the call ends with the first (84-91) -/
  | finish {s : State P X} {g t : Nat} {a : CbArgs P X} : s.pc g = .loop t → s.results.lookup t = some a → Step s (s.ends g (some t) (finalOf a))
  /-- there is none -/
  | enter {s : State P X} {g t : Nat} : s.pc g = .loop t → s.results.lookup t = none → Step s (s.goes g (.entered t))
  /-- a response has to be read (127), whether anything is pending or not: after `yield False` (125) the driver resumes the same generator
  (sync_adapter.py:30-31) -/
  | poll {s : State P X} {g t : Nat} : s.pc g = .entered t → Step s (s.goes g (.polling t))
  /-- `select` finds the file readable (unix.py:19) -/
  | readable {s : State P X} {g t : Nat} : s.pc g = .polling t → s.ready ≠ [] → Step s (s.goes g (.reading t))
  /-- it does not for too long (unix.py:21-22) -/
  | timeout {s : State P X} {g t : Nat} : s.pc g = .polling t → s.ready = [] → Step s (s.ends g (some t) (.raised .ioError))
  /-- a response is read (unix.py:24) -/
  | read {s : State P X} {g t i : Nat} {o : Outcome P X} {pid t' : Nat} : s.pc g = .reading t → s.ready[i]? = some (o, pid, t') →
      Step s { s.goes g (.got t o pid t') with ready := s.ready.eraseIdx i, buf := filled s.buf o t' }
  /-- `_handle_raw_response` (linux.py:228-270) -/
  | decode {s : State P X} {g t : Nat} {o o' : Outcome P X} {pid t' : Nat} : s.pc g = .got t o pid t' → decode s o pid = .ok o' →
      Step s (s.goes g (.decoded t o' pid t'))
  /-- it raises -/
  | spoilt {s : State P X} {g t : Nat} {o : Outcome P X} {e : PyErr} {pid t' : Nat} : s.pc g = .got t o pid t' → Threads.decode s o pid = .error e →
      Step s (s.ends g (some t) (.raised e))
  /-- `self.pending_packets.pop(packet_id, …)` (__init__.py:129) -/
  | pop {s : State P X} {g t : Nat} {o : Outcome P X} {pid t' q k : Nat} : s.pc g = .decoded t o pid t' → Dict.get s.ex.pending pid = some (q, some k) →
      Step s { s.goes g (.popped t k o) with ex := { s.ex with pending := Dict.erase s.ex.pending pid } }
  /-- nothing is registered under that number: `AsiInternalError` (130-131) -/
  | stray {s : State P X} {g t : Nat} {o : Outcome P X} {pid t' : Nat} : s.pc g = .decoded t o pid t' → Dict.get s.ex.pending pid = none →
      Step s (s.ends g (some t) (.raised .asiInternal))
  /-- the callback is called: `result.append(…)` of the call of command `k` (79-80) -/
  | callback {s : State P X} {g t k : Nat} {o : Outcome P X} : s.pc g = .popped t k o →
      Step s { s.goes g (.loop t) with results := s.results ++ [(k, cbArgs o)] }
  /-- the device answers the `i`-th oldest command it has -/
  | answer {s : State P X} {i pid t : Nat} {o : Outcome P X} : s.waiting[i]? = some (pid, t) →
      Step s { s with waiting := s.waiting.eraseIdx i, ready := s.ready ++ [(o, pid, t)], answers := s.answers ++ [(t, o)] }

end Verif.Threads
