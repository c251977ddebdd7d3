import Verif.Props.Heap
/-!
# Several executers in one process

A program has an executer for each of its devices (linux.py:216-220: every `LinuxCommandExecuter` has its own file `io`; __init__.py:72-75: its own
`pending_packets` and `packet_index`). They share the memory of the process, with each other and with the other objects of the program: a buffer that
one of them gives up may be handed out to another.

Simplified as in `Verif.Heap`. The driver keeps the requests of different open files apart; each of the devices is on its own.
-/

namespace Verif.Heap
open Verif.Executer Verif.Platform Verif.Platform.Linux Verif.Spec Verif.Spec.Heap

variable {ι S δ : Type}

/-- What an executer has to itself: its attributes (__init__.py:72-75), the requests at its file (linux.py:216-220) and its device, the number of commands
accepted and what its user was told. -/
structure Own (δ S : Type) where
  ex : St Handle Nat
  kernel : Kernel δ
  next : Nat
  log : List (Queue.Ev (Told S))

/-- The process: one memory, the objects of the program, and the executers. -/
structure Company (ι δ S : Type) where
  mem : Mem
  objs : List Obj
  own : ι → Own δ S

/-- How the executers were made and what devices they are for (linux.py:217: `max_queue_size`, `timeout`; `room` is the number of requests the driver
takes at one file). -/
structure Setup (ι δ : Type) where
  dev : ι → Device δ
  tmo : ι → Int
  limit : ι → Nat
  room : ι → Nat

def Company.init (u : Setup ι δ) (m : Mem) (k : ι → δ) : Company ι δ S := ⟨m, [], fun i => ⟨St.init _ _ (u.limit i), ⟨k i, [], []⟩, 0, []⟩⟩

/-- The process as the `i`-th executer sees it. -/
def Company.proc (s : Company ι δ S) (i : ι) : Proc δ S := ⟨⟨(s.own i).ex, ⟨s.mem, (s.own i).kernel⟩, (s.own i).next, (s.own i).log⟩, s.objs⟩

/-- One thing that happens at the `i`-th executer (or to an object of the program: then `i` does not matter): as `Proc.step`. -/
def Company.step [DecidableEq ι] (l : Bool) (parse : Bytes → Py (Option S)) (u : Setup ι δ) (s : Company ι δ S) (x : ι × Act) : Company ι δ S :=
  let p := Proc.step l parse (u.dev x.1) (u.tmo x.1) (u.room x.1) (s.proc x.1) x.2
  ⟨p.live.world.mem, p.objs, fun j => if j = x.1 then ⟨p.live.ex, p.live.world.kernel, p.live.next, p.live.log⟩ else s.own j⟩

def Company.run [DecidableEq ι] (l : Bool) (parse : Bytes → Py (Option S)) (u : Setup ι δ) (s : Company ι δ S) (acts : List (ι × Act)) : Company ι δ S :=
  acts.foldl (Company.step l parse u) s

/-- The memory in use: that of the pending request objects of all executers, and that of the program's objects. -/
def Company.InUse (s : Company ι δ S) (r : Nat × Nat) : Prop :=
  (∃ i, ∃ e ∈ (s.own i).ex.pending, r ∈ places e.2.1) ∨ ∃ o ∈ s.objs, r = (o.addr, o.bytes.length)

/-- What `malloc` promises, as `Fresh`. -/
def Company.Fresh (s : Company ι δ S) : Act → Prop
  | .send c al _ => Separate 64 (regions al c 88) ∧ ∀ r ∈ regions al c 88, ∀ v, s.InUse v → Apart r v
  | .make x => ∀ v, s.InUse v → Apart (x.addr, x.bytes.length) v
  | _ => True

/-- `malloc` keeps its promise throughout. -/
def Company.Allocates [DecidableEq ι] (l : Bool) (parse : Bytes → Py (Option S)) (u : Setup ι δ) : Company ι δ S → List (ι × Act) → Prop
  | _, [] => True
  | s, x :: acts => s.Fresh x.2 ∧ Company.Allocates l parse u (s.step l parse u x) acts

/-- What happens to the commands of the `i`-th executer. -/
def mine [DecidableEq ι] (i : ι) (acts : List (ι × Act)) : List Queue.Op := acts.filterMap fun x => if x.1 = i then x.2.op else none

end Verif.Heap
