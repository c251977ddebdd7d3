import Verif.Reactor
import Verif.Spec.Waits
/-!
# `Win32AsyncReactor` with the real `WaitForMultipleObjects` (src/infi/asi/win32.py:173-209)

`Verif.Reactor` takes waiting for events to be the choice of one of them. Here `_wait_for_events` is followed line by line: the dictionary
of events, the list of its keys handed to the operating system, the number that comes back, and what is made of it.
-/

namespace Verif.ReactorWaits
open Verif.Coroutine Verif.Reactor
open Verif.Executer (Dict)

variable {G σ V E T : Type}

/-- How `_wait_for_events` ends: a command to be run next, with `coroutines` as left by `async_io_complete`; `AsiWin32OSError` raised by
`WaitForMultipleObjects`; an exception of the token's `get_result`; another Python exception (`AttributeError`, `IndexError`, `KeyError`). -/
inductive Waited (G σ V E T : Type) where
  | picked (c : Nat) (d : Dict (Cfg G σ V E T))
  | osError
  | raised (e : E)
  | otherError

/-- `coroutine.get_result().event` (win32.py:183); `event` is the attribute of a token (win32.py:143). Every other result has no such
attribute. -/
def eventOf (event : T → Nat) (cfg : Cfg G σ V E T) : Option Nat :=
  match cfg.result with
  | some (.tok t) => some (event t)
  | _ => none

/-- The dictionary comprehension (win32.py:183), from event to command; `none`: `AttributeError`. -/
def eventDict (event : T → Nat) (ev : Dict Nat) : Dict (Cfg G σ V E T) → Option (Dict Nat)
  | [] => some ev
  | (c, cfg) :: d =>
    match eventOf event cfg with
    | some e => eventDict event (Dict.set ev e c) d
    | none => none

/-- The handles given to the operating system (win32.py:175, 184). -/
def handles (event : T → Nat) (d : Dict (Cfg G σ V E T)) : List Nat := ((eventDict event [] d).map Dict.keys).getD []

/-- What `WaitForMultipleObjects` makes of the number `kernel32` returned (win32.py:177-179); `none`: `AsiWin32OSError`. -/
def checkWait (r : Int) : Option Nat := if r < 0 ∨ 128 ≤ r then none else some r.toNat

/-- `coroutine.async_io_complete()` (win32.py:187; sync_adapter.py:59-62) of command `c`. -/
def complete (M : Machine G σ V E T) (d : Dict (Cfg G σ V E T)) (c : Nat) : Waited G σ V E T :=
  match Dict.get d c with
  | none => .otherError
  | some cfg =>
    match cfg.result with
    | some (.tok t) =>
      match M.await t cfg.st with
      | (s', .ok i) => .picked c (Dict.set d c { cfg with args := i, st := s' })
      | (_, .error e) => .raised e
    | _ => .otherError

/-- `_wait_for_events` (win32.py:182-188) when `kernel32.WaitForMultipleObjects` returns `r`. -/
def waitForEvents (M : Machine G σ V E T) (event : T → Nat) (d : Dict (Cfg G σ V E T)) (r : Int) : Waited G σ V E T :=
  match eventDict event [] d with
  | none => .otherError
  | some ev =>
    match checkWait r with
    | none => .osError
    | some i =>
      match (Dict.keys ev)[i]? with
      | none => .otherError
      | some e =>
        match Dict.get ev e with
        | none => .otherError
        | some c => complete M d c

/-- The state of `wait_for` after the first pass and `n` waits that did not raise (win32.py:190-203). Which events are signalled in time may
be different every time. -/
inductive Run (M : Machine G σ V E T) (event : T → Nat) (gen : Nat → G) (world : Nat → σ) (cmds : List Nat) : Nat → St G σ V E T → Prop
  | first {st} : ForLoop M cmds (initial M gen world cmds) st → Run M event gen world cmds 0 st
  | next {n st ready r c d st'} : Run M event gen world cmds n st → st.coroutines ≠ [] →
      Spec.WaitAny ready (handles event st.coroutines) r → waitForEvents M event st.coroutines r = .picked c d →
      ForLoop M [c] ⟨d, st.results⟩ st' → Run M event gen world cmds (n + 1) st'

/-- `wait_for(*commands)` returns `rs` after `n` waits (win32.py:205-209). -/
def WaitFor (M : Machine G σ V E T) (event : T → Nat) (gen : Nat → G) (world : Nat → σ) (cmds : List Nat) (n : Nat)
    (rs : List (Option (Option (Yld G V E T) × σ))) : Prop :=
  ∃ st, Run M event gen world cmds n st ∧ st.coroutines = [] ∧ rs = cmds.map (Dict.get st.results)

end Verif.ReactorWaits
