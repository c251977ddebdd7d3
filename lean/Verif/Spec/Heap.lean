import Verif.Spec.Queue
import Verif.Platform.Layout
/-!
# A program that uses the library among other things: what a user has in mind

The program has objects of its own, made and given up at any time, and sends commands. The objects keep their contents until they are given up;
the commands behave as in `Verif.Spec.Queue`. Nothing here says where anything is in memory, except that `malloc` does not hand out memory that is in use.
-/

namespace Verif.Spec.Heap
open Verif.Platform (Alloc)

/-- An object of the program: where it is and what is in it. -/
structure Obj where
  addr : Nat
  bytes : Bytes
  deriving DecidableEq, Repr

/-- Two pieces of memory (address, size) without a byte in common. -/
def Apart (x y : Nat × Nat) : Prop := ∀ b, ¬ (x.1 ≤ b ∧ b < x.1 + x.2 ∧ y.1 ≤ b ∧ b < y.1 + y.2)

/-- One thing that happens. -/
inductive Act where
  /-- the program sends a command; `al` is the memory `malloc` hands out for it. `interrupted`: once the operating system has accepted the
  command, an exception is raised in the sending thread (a signal handler's, or a timeout or kill of the greenlet) before `send` is over -/
  | send (c : Req) (al : Alloc) (interrupted : Bool)
  /-- as `Queue.Op.finish` -/
  | finish (i : Nat) (direct : Bool)
  /-- as `Queue.Op.receive` -/
  | receive (i : Nat)
  /-- the program makes an object -/
  | make (x : Obj)
  /-- the program gives up its `i`-th oldest object -/
  | drop (i : Nat)
  deriving DecidableEq, Repr

/-- What it means for the commands. -/
def Act.op : Act → Option Queue.Op
  | .send c _ _ => some (.send c)
  | .finish i direct => some (.finish i direct)
  | .receive i => some (.receive i)
  | .make _ => none
  | .drop _ => none

/-- What it means for the objects. -/
def objects (os : List Obj) : Act → List Obj
  | .make x => os ++ [x]
  | .drop i => os.eraseIdx i
  | _ => os

/-- No send is interrupted. -/
def Act.Calm : Act → Prop
  | .send _ _ interrupted => interrupted = false
  | _ => True

end Verif.Spec.Heap
