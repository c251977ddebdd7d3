import Verif.Coroutine
import Verif.Executer
/-!
# Model of `Win32AsyncReactor` (src/infi/asi/win32.py:181-209)

Commands are generator objects, used as dictionary keys; they are named by numbers here. Every coroutine has its own
world state: the coroutines are independent of each other except for being interleaved by the reactor.
`WaitForMultipleObjects` returns the index of an arbitrary pending event: the sequence of these indices is the schedule.
-/

namespace Verif.Reactor
open Verif.Coroutine
open Verif.Executer (Dict)

variable {G σ V E T : Type}

/-- `coroutines` and `results_dict` of `wait_for`. The final world state of a finished coroutine is recorded beside its
result so that side effects can be talked about. -/
structure St (G σ V E T : Type) where
  coroutines : Dict (Cfg G σ V E T)
  results : Dict (Option (Yld G V E T) × σ)

/-- The `for command in non_blocking_commands` loop (win32.py:196-201). If a coroutine raises, or a command has no entry
(`KeyError`), `wait_for` raises: there is no rule for that. -/
inductive ForLoop (M : Machine G σ V E T) : List Nat → St G σ V E T → St G σ V E T → Prop
  | nil (st) : ForLoop M [] st st
  | done {c cs st st' cfg r s} : Dict.get st.coroutines c = some cfg → AsyncLoop M cfg (.done r s) →
      ForLoop M cs ⟨Dict.erase st.coroutines c, Dict.set st.results c (r, s)⟩ st' → ForLoop M (c :: cs) st st'
  | blocked {c cs st st' cfg t cfg'} : Dict.get st.coroutines c = some cfg → AsyncLoop M cfg (.blocked t cfg') →
      ForLoop M cs ⟨Dict.set st.coroutines c cfg', st.results⟩ st' → ForLoop M (c :: cs) st st'

/-- `_wait_for_events` (win32.py:182-188): the `k`-th pending event is signalled; its coroutine's token is asked for the
result (`async_io_complete`, sync_adapter.py:59-62) and becomes runnable. -/
inductive WaitForEvents (M : Machine G σ V E T) : Dict (Cfg G σ V E T) → Nat → Nat → Dict (Cfg G σ V E T) → Prop
  | mk {d : Dict (Cfg G σ V E T)} {k c cfg t s' i} : d[k]? = some (c, cfg) → cfg.result = some (.tok t) →
      M.await t cfg.st = (s', .ok i) →
      WaitForEvents M d k c (Dict.set d c { cfg with args := i, st := s' })

/-- `{command: AsyncCoroutine(command) for command in commands}` (win32.py:191). -/
def initial (M : Machine G σ V E T) (gen : Nat → G) (world : Nat → σ) (cmds : List Nat) : St G σ V E T :=
  { coroutines := cmds.foldl (fun d c => Dict.set d c (start M (gen c) (world c))) [], results := [] }

/-- One iteration of the `while` loop (win32.py:195-203) after the first pass: event `k` is signalled, and the coroutine it
belongs to (command `c`) is run. -/
def Step (M : Machine G σ V E T) (st : St G σ V E T) (k c : Nat) (st' : St G σ V E T) : Prop :=
  ∃ d, WaitForEvents M st.coroutines k c d ∧ ForLoop M [c] ⟨d, st.results⟩ st'

/-- The state of `wait_for` after the first pass and `n` signalled events. -/
inductive Reach (M : Machine G σ V E T) (gen : Nat → G) (world : Nat → σ) (cmds : List Nat) : Nat → St G σ V E T → Prop
  | first {st} : ForLoop M cmds (initial M gen world cmds) st → Reach M gen world cmds 0 st
  | next {n st k c st'} : Reach M gen world cmds n st → st.coroutines ≠ [] → Step M st k c st' →
      Reach M gen world cmds (n + 1) st'

/-- `wait_for(*commands)` returns `rs` after `n` signalled events (win32.py:205-209). -/
def WaitFor (M : Machine G σ V E T) (gen : Nat → G) (world : Nat → σ) (cmds : List Nat) (n : Nat)
    (rs : List (Option (Option (Yld G V E T) × σ))) : Prop :=
  ∃ st, Reach M gen world cmds n st ∧ st.coroutines = [] ∧ rs = cmds.map (Dict.get st.results)

end Verif.Reactor
