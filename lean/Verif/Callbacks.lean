import Verif.Spec.Executer
/-!
# Callbacks that use the executer themselves

`Verif.Executer` records callbacks. Here they are programs: a callback may `send`, `call` and `wait` on the executer that calls it (through
`sync_wait`, which makes a generator of its own each time), consult anything else, raise, or return; what it sends may have callbacks that do the same.

The state of the executer changes by the functions of `Verif.Executer`, as in `Spec/Executer`; added is the stack of Python: who is inside which
`wait` or `call`.
-/

namespace Verif.Callbacks

open Verif.Executer

variable {K P X U : Type}

/-- The arguments of a callback; the response carries the ticket of the command it answers (`Spec/Executer`). -/
abbrev Args (P X : Type) := CbArgs (Option Nat × P) (Option Nat × X)

/-- Exceptions: of the executer, of the device (made by the platform), of the program itself. -/
inductive Err (X U : Type) where
  | py (e : PyErr)
  | dev (x : Option Nat × X)
  | user (u : U)

/-- Code that uses the executer, seen from there. `K` are the names of callbacks. -/
inductive Prog (K P X U : Type) where
  | done
  | raise (e : Err X U)
  /-- anything else the code does: it goes on according to what it finds -/
  | ask (go : Nat → Prog K P X U)
  /-- `sync_wait(executer.send(command, callback))`; `none` is the default `callback=None` -/
  | send (cb : Option K) (go : Except (Err X U) Unit → Prog K P X U)
  /-- `sync_wait(executer.wait())` -/
  | wait (go : Except (Err X U) Unit → Prog K P X U)
  /-- `sync_wait(executer.call(command))` -/
  | call (go : Except (Err X U) (Option (Option Nat × P)) → Prog K P X U)

/-- Whose callback it is: the local `my_cb` of a `call` (__init__.py:78-80), one given by a program, `None`. -/
inductive Callee (K : Type) where
  | own
  | user (k : K)
  | missing

/-- What Python's stack holds. -/
inductive Frame (K P X U : Type) where
  /-- a program or callback -/
  | run (p : Prog K P X U)
  /-- the loop of `wait` (__init__.py:113-114), and the program that called it -/
  | waiting (go : Except (Err X U) Unit → Prog K P X U)
  /-- the loop of `call` (__init__.py:84-85) for the command with this ticket -/
  | calling (t : Nat) (go : Except (Err X U) (Option (Option Nat × P)) → Prog K P X U)

/-- `calls` are the callbacks invoked so far, with their arguments; the list `result` of a `call` is the part of it with the call's ticket. -/
structure S (K P X U : Type) where
  sys : Sys P X
  callees : List (Callee K)
  calls : List (Nat × Args P X)
  stack : List (Frame K P X U)

def S.init (maxq : Nat) (main : Prog K P X U) : S K P X U := { sys := Sys.init maxq, callees := [], calls := [], stack := [.run main] }

/-- How `send` ends (__init__.py:99-110). -/
def sendOut (s : Sys P X) (prepareOk transmitOk : Bool) : Py Unit :=
  (Executer.send (fun i => if prepareOk then .ok (i, s.next) else .error .structError) (osSend transmitOk) (some s.next) s.ex s.dev).out

/-- An exception leaves the loop: the program that called `wait` or `call` gets it. -/
def Frame.fail (e : Err X U) : Frame K P X U → Prog K P X U
  | .run p => p
  | .waiting go => go (.error e)
  | .calling _ go => go (.error e)

/-- What `call` makes of its result (__init__.py:87-91). -/
def answer (a : Args P X) : Except (Err X U) (Option (Option Nat × P)) :=
  match a.exc with
  | some x => .error (.dev x)
  | none => .ok a.data

/-- The loop on top of the stack runs `_process_pending_response` (__init__.py:123-138) and the device does `op`. A callback `None` is called too: a
`TypeError`. -/
def arrive (code : K → Args P X → Prog K P X U) (s : S K P X U) (op : Op P X) (f : Frame K P X U) (rest : List (Frame K P X U)) : S K P X U :=
  match (process (fun _ => devRecv op) s.sys.ex s.sys.dev).out, (process (fun _ => devRecv op) s.sys.ex s.sys.dev).fired with
  | .error e, _ => { s with sys := s.sys.recv op, stack := .run (f.fail (.py e)) :: rest }
  | .ok _, none => { s with sys := s.sys.recv op }
  | .ok _, some (t, args) =>
    { s with
      sys := s.sys.recv op
      calls := s.calls ++ [(t, args)]
      stack := match s.callees[t]? with
        | some .own => f :: rest
        | some (.user k) => .run (code k args) :: f :: rest
        | _ => .run (f.fail (.py .typeError)) :: rest }

/-- The loop goes on waiting: `wait` while something is pending, `call` while it has no result. -/
def Frame.Polls (s : S K P X U) : Frame K P X U → Prop
  | .run _ => False
  | .waiting _ => isQueueEmpty s.sys.ex = false
  | .calling t _ => s.calls.lookup t = none

def Frame.isLoop : Frame K P X U → Prop
  | .run _ => False
  | _ => True

/-- One step. Labelled with what happened between executer and operating system, if anything. -/
inductive Step (code : K → Args P X → Prog K P X U) : S K P X U → Option (Op P X) → S K P X U → Prop
  | ask {s go r} (n : Nat) : s.stack = .run (.ask go) :: r → Step code s none { s with stack := .run (go n) :: r }
  | send {s cb go r} (p o : Bool) : s.stack = .run (.send cb go) :: r →
      Step code s (some (.send p o))
        { s with
          sys := s.sys.step (.send p o)
          callees := s.callees ++ [match cb with | some k => .user k | none => .missing]
          stack := .run (go (match sendOut s.sys p o with | .ok () => .ok () | .error e => .error (.py e))) :: r }
  | wait {s go r} : s.stack = .run (.wait go) :: r → Step code s none { s with stack := .waiting go :: r }
  | waited {s go r} : s.stack = .waiting go :: r → isQueueEmpty s.sys.ex = true → Step code s none { s with stack := .run (go (.ok ())) :: r }
  | call {s go r} (p o : Bool) : s.stack = .run (.call go) :: r →
      Step code s (some (.send p o))
        { s with
          sys := s.sys.step (.send p o)
          callees := s.callees ++ [.own]
          stack := (match sendOut s.sys p o with | .ok () => .calling s.sys.next go | .error e => .run (go (.error (.py e)))) :: r }
  | called {s t go r a} : s.stack = .calling t go :: r → s.calls.lookup t = some a → Step code s none { s with stack := .run (go (answer a)) :: r }
  | receive {s f r} (op : Op P X) : s.stack = f :: r → f.Polls s → (∀ p o, op ≠ .send p o) → Step code s (some op) (arrive code s op f r)
  | returns {s f r} : s.stack = .run .done :: f :: r → f.isLoop → Step code s none { s with stack := f :: r }
  | raises {s e f r} : s.stack = .run (.raise e) :: f :: r → f.isLoop → Step code s none { s with stack := .run (f.fail e) :: r }

/-- The states a program can get to, with what happened between executer and operating system on the way. -/
inductive Reach (code : K → Args P X → Prog K P X U) (maxq : Nat) (main : Prog K P X U) : List (Op P X) → S K P X U → Prop
  | start : Reach code maxq main [] (S.init maxq main)
  | step {ops s l s'} : Reach code maxq main ops s → Step code s l s' → Reach code maxq main (ops ++ l.toList) s'

end Verif.Callbacks
