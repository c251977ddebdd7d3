import Verif.ReactorShared
import Verif.Platform.Win32Async
/-!
# What becomes of the coroutines that `wait_for` leaves behind when it raises

`Win32AsyncReactor.wait_for` (win32.py:190-209) keeps its coroutines in a local dictionary. When it raises, the dictionary goes with the
exception's traceback, and with it the coroutines' stacks, the only references to the generators that are suspended in them: every
generator was yielded to the coroutine by the one below and kept nowhere else. Python closes a suspended generator it gives up: `GeneratorExit` is
thrown into it where it is suspended, and whatever comes out of it is ignored. (The outermost generator may be kept by the caller, who made it;
closing it has no effect either way.)
-/

namespace Verif.Release
open Verif.Executer Verif.ExecuterGen Verif.Coroutine Verif.Platform Verif.Platform.Win32
open Verif.ReactorShared (Co St Kernel)

variable {G σ V E T : Type}

/-- The generators on a coroutine's stack are closed. `exit` stands for the `GeneratorExit`. -/
def close (M : Machine G σ V E T) (exit : E) (stack : List G) (s : σ) : σ :=
  stack.foldl (fun s g => (M.resume g (.throw exit) s).1) s

/-- The coroutines suspended when `wait_for` raises: all, except the one that was being run (win32.py:196-198), whose stack is used up. -/
def left (st : St G σ V E T) : Dict (Co G V E T) :=
  match st.todo with
  | c :: _ => Dict.erase st.coroutines c
  | [] => st.coroutines

/-- The coroutines are given up one by one, in any order, and the operating system goes on meanwhile. -/
inductive Released (M : Nat → Machine G σ V E T) (K : Kernel σ E T) (exit : E) :
    Dict (Co G V E T) → σ → Dict (Co G V E T) → σ → Prop
  | refl (l s) : Released M K exit l s l s
  | system {l s l' s' s''} : Released M K exit l s l' s' → K.advance s' s'' → Released M K exit l s l' s''
  | closed {l s l' s' c co} : Released M K exit l s l' s' → Dict.get l' c = some co →
      Released M K exit l s (Dict.erase l' c) (close (M c) exit co.stack s')

variable {R S κ : Type}

/-- The request object a suspended generator has among its local variables: `os_data` of `_os_send` (win32.py:369-373), and the arguments
of `ioctl` (162-165), which keep the request block alive. (`os_data` of `send`, __init__.py:102, is the object of the `_os_send` it waits for.) -/
def local? : Frame Req Spt Nat (Option Bytes) R AsyncGen → Option Spt
  | .os (.send h) => some h
  | .os (.sent h) => some h
  | .os (.ioctl h) => some h
  | _ => none

/-- The request block at an address is in use: `pending_packets`, `incoming_packets` or a generator on the stack of one of the coroutines
`cos` has the request object it belongs to (which has the block as `source_buffer` and the data buffer as `data_buffer`, win32.py:312-327). -/
def Referenced (cos : Dict (Co (Frame Req Spt Nat (Option Bytes) R AsyncGen) (Val (Option Bytes) (DevErr S) R) (Exn (DevErr S)) Nat))
    (w : W Spt Nat (Option Bytes) (DevErr S) (AsyncWorld κ)) (addr : Nat) : Prop :=
  (∃ i h cb, Dict.get w.st.pending i = some (h, cb) ∧ h.blockAddr = addr) ∨
  (∃ h ∈ w.os.incoming, h.blockAddr = addr) ∨
  (∃ c co f h, Dict.get cos c = some co ∧ f ∈ co.stack ∧ local? f = some h ∧ h.blockAddr = addr)

/-- The overlapped structure named `t` is in use: it belongs to the token in the `result` of one of the coroutines `cos`, or it is the last
one the file made (`_overlapped_struct`, win32.py:158-160). -/
def OverlappedReferenced
    (cos : Dict (Co (Frame Req Spt Nat (Option Bytes) R AsyncGen) (Val (Option Bytes) (DevErr S) R) (Exn (DevErr S)) Nat))
    (w : W Spt Nat (Option Bytes) (DevErr S) (AsyncWorld κ)) (t : Nat) : Prop :=
  (∃ c co, Dict.get cos c = some co ∧ co.result = some (.tok t)) ∨ t + 1 = w.os.events

end Verif.Release
