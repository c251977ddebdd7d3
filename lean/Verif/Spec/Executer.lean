import Verif.Executer
/-!
# Specification for the command executer: an ideal executer, and the world the real one runs in

`Ideal` is what a user has in mind: commands have identities (tickets), not packet numbers; the device completes the
outstanding commands in whatever order it likes; completing command `t` invokes `t`'s callback with `t`'s response.

`Sys` is the modelled executer (`Verif.Executer`) connected to a device that answers with packet numbers. Responses
carry (as ghost information the executer cannot see) the ticket of the command they answer.
-/

namespace Verif.Executer

variable {P X : Type}

/-- One thing that happens. Lists of these are arbitrary histories. -/
inductive Op (P X : Type) where
  /-- the user calls `send(command, callback)`; preparing / transmitting the command succeeds or raises -/
  | send (prepareOk transmitOk : Bool)
  /-- a response is processed: the device answers the `i`-th oldest outstanding command with `o`
      (when there is none the read fails with an I/O error) -/
  | complete (i : Nat) (o : Outcome P X)
  /-- a response is processed that answers no outstanding command -/
  | stray (packetId : Nat) (o : Outcome P X)
  /-- a response is awaited but reading it raises `e` -/
  | recvError (e : PyErr)

/-- Observable events. `fired t args`: the callback of command `t` was invoked with `args`, in which the response is
tagged with the ticket of the command it answers (`none`: answers no command). -/
inductive Ev (P X : Type) where
  | accepted (t : Nat)
  | refused (t : Nat) (e : PyErr)
  | fired (t : Nat) (args : CbArgs (Option Nat × P) (Option Nat × X))
  | raised (e : PyErr)

/-- Tag a response with the command it answers. -/
def tag (t : Option Nat) : Outcome P X → Outcome (Option Nat × P) (Option Nat × X)
  | .data p => .data (t, p)
  | .exc x => .exc (t, x)

/-- The arguments a callback should get for response `o` to command `t`: data and no exception, or the reverse. -/
def argsFor (t : Nat) : Outcome P X → CbArgs (Option Nat × P) (Option Nat × X)
  | .data p => ⟨some (some t, p), none⟩
  | .exc x => ⟨none, some (some t, x)⟩

/-! ## The ideal executer -/

structure Ideal (P X : Type) where
  maxq : Nat
  /-- outstanding commands, oldest first -/
  out : List Nat
  next : Nat
  log : List (Ev P X)

def Ideal.init (maxq : Nat) : Ideal P X := { maxq := maxq, out := [], next := 0, log := [] }

def Ideal.step (s : Ideal P X) : Op P X → Ideal P X
  | .send prepareOk transmitOk =>
    let s' := { s with next := s.next + 1 }
    if s.maxq ≤ s.out.length then { s' with log := s.log ++ [.refused s.next .nameError] }
    else if !prepareOk then { s' with log := s.log ++ [.refused s.next .structError] }
    else if !transmitOk then { s' with log := s.log ++ [.refused s.next .asiOs] }
    else { s' with out := s.out ++ [s.next], log := s.log ++ [.accepted s.next] }
  | .complete i o =>
    match s.out[i]? with
    | some t => { s with out := s.out.eraseIdx i, log := s.log ++ [.fired t (argsFor t o)] }
    | none => { s with log := s.log ++ [.raised .ioError] }
  | .stray _ _ => { s with log := s.log ++ [.raised .asiInternal] }
  | .recvError e => { s with log := s.log ++ [.raised e] }

def Ideal.run (maxq : Nat) (ops : List (Op P X)) : Ideal P X := ops.foldl Ideal.step (Ideal.init maxq)

/-! ## The real executer in its world -/

/-- `dev`: commands the device holds, oldest first, as (packet number, ticket). -/
structure Sys (P X : Type) where
  ex : St (Nat × Nat) Nat
  dev : List (Nat × Nat)
  next : Nat
  log : List (Ev P X)

def Sys.init (maxq : Nat) : Sys P X := { ex := St.init _ _ maxq, dev := [], next := 0, log := [] }

def osSend (transmitOk : Bool) (q : Nat × Nat) (w : List (Nat × Nat)) : Py Unit × List (Nat × Nat) :=
  if transmitOk then (.ok (), w ++ [q]) else (.error .asiOs, w)

/-- The device side of a receive. -/
def devRecv (op : Op P X) (w : List (Nat × Nat)) :
    Py (Outcome (Option Nat × P) (Option Nat × X) × Nat) × List (Nat × Nat) :=
  match op with
  | .complete i o =>
    match w[i]? with
    | some (pid, t) => (.ok (tag (some t) o, pid), w.eraseIdx i)
    | none => (.error .ioError, w)
  | .stray pid o => (.ok (tag none o, pid), w)
  | .recvError e => (.error e, w)
  | .send _ _ => (.error .ioError, w)

/-- Run `_process_pending_response` once and record what was observed. -/
def Sys.recv (s : Sys P X) (op : Op P X) : Sys P X :=
  let r := process (fun _ => devRecv op) s.ex s.dev
  let evs : List (Ev P X) := (r.fired.toList.map fun f => .fired f.1 f.2) ++
    (match r.out with | .error e => [.raised e] | .ok _ => [])
  { s with ex := r.st, dev := r.os, log := s.log ++ evs }

def Sys.step (s : Sys P X) (op : Op P X) : Sys P X :=
  match op with
  | .send prepareOk transmitOk =>
    let r := Executer.send (fun i => if prepareOk then .ok (i, s.next) else .error .structError)
      (osSend transmitOk) (some s.next) s.ex s.dev
    { ex := r.st, dev := r.os, next := s.next + 1,
      log := s.log ++ [match r.out with | .ok () => .accepted s.next | .error e => .refused s.next e] }
  | op => s.recv op

def Sys.runFrom (s : Sys P X) (ops : List (Op P X)) : Sys P X := ops.foldl Sys.step s

def Sys.run (maxq : Nat) (ops : List (Op P X)) : Sys P X := Sys.runFrom (Sys.init maxq) ops

/-- The packet number the next command will get is not the number of a command still outstanding. -/
def Sys.slotFree (s : Sys P X) : Prop := s.ex.index ∉ s.dev.map Prod.fst

/-- Histories in which (a) no command that can be prepared is given a packet number still in use by an outstanding one, and (b) a
response called "stray" really carries a packet number nobody is waiting for. `C01_exact` says that no weaker condition will do. -/
def Sys.NoReuse (s : Sys P X) : List (Op P X) → Prop
  | [] => True
  | op :: ops =>
    (match op with
      | .send prepareOk _ => prepareOk = true → s.dev.length < s.ex.maxq → s.slotFree
      | .stray pid _ => pid ∉ s.dev.map Prod.fst
      | _ => True) ∧ (s.step op).NoReuse ops

/-- Histories of a FIFO device on which no send fails and which sends no stray responses. -/
def Fifo : Op P X → Prop
  | .send prepareOk transmitOk => prepareOk = true ∧ transmitOk = true
  | .complete i _ => i = 0
  | .stray _ _ => False
  | .recvError _ => True

/-- Histories without stray responses. -/
def NotStray : Op P X → Prop
  | .stray _ _ => False
  | _ => True

/-- One command at a time: nothing is outstanding whenever a command is sent. -/
def Sys.Serial (s : Sys P X) : List (Op P X) → Prop
  | [] => True
  | op :: ops => (match op with | .send _ _ => s.dev = [] | _ => True) ∧ (s.step op).Serial ops

end Verif.Executer

namespace Verif.Executer
/-! ## Counting events of one command -/

/-- How often command `t`'s callback was invoked. -/
def firedCount {P X : Type} (t : Nat) : List (Ev P X) → Nat
  | [] => 0
  | .fired t' _ :: r => (if t' = t then 1 else 0) + firedCount t r
  | _ :: r => firedCount t r

/-- How often command `t` was accepted by `send`. -/
def acceptedCount {P X : Type} (t : Nat) : List (Ev P X) → Nat
  | [] => 0
  | .accepted t' :: r => (if t' = t then 1 else 0) + acceptedCount t r
  | _ :: r => acceptedCount t r

/-! ## Scripted devices -/

/-- A device (as seen through `_os_receive`) that hands over a list of answers, then fails. -/
def scripted {Q K D E : Type} : St Q K → List (Outcome D E × Nat) →
    Py (Outcome D E × Nat) × List (Outcome D E × Nat)
  | _, [] => (.error .ioError, [])
  | _, a :: r => (.ok a, r)

/-- Data goes to the first argument with `None` as second, an error to the second with `None` as first. -/
def expectArgs {D E : Type} : Outcome D E → CbArgs D E
  | .data d => ⟨some d, none⟩
  | .exc e => ⟨none, some e⟩

/-- `call` returns data, raises a device error. -/
def expectCall {D E : Type} : Outcome D E → Except (Exn E) (Option D)
  | .data d => .ok (some d)
  | .exc e => .error (.dev e)

/-- States reachable by successfully processed responses. -/
inductive Processed {Q K D E ω : Type} (recv : St Q K → ω → Py (Outcome D E × Nat) × ω) :
    St Q K → ω → St Q K → ω → Prop
  | refl (s w) : Processed recv s w s w
  | step {s w s' w'} : (process recv s w).out = .ok true →
      Processed recv (process recv s w).st (process recv s w).os s' w' → Processed recv s w s' w'

end Verif.Executer
