import Verif.Coroutine
import Verif.Executer
/-!
# `Win32AsyncReactor` with commands that share a world (src/infi/asi/win32.py:181-209)

`Verif.Reactor` gives every command a world of its own. Here the commands share one world (the executer they were given, the process's
memory, the operating system), and the operating system works on the requests in flight while the reactor is at it: between any two
runs of coroutines the kernel may do anything its `advance` relation allows.
-/

namespace Verif.ReactorShared
open Verif.Coroutine
open Verif.Executer (Dict)

variable {G σ V E T : Type}

/-- An `AsyncCoroutine` object (sync_adapter.py:8-13, 54-62); the world is not part of it. -/
structure Co (G V E T : Type) where
  stack : List G
  args : Inp V E
  result : Option (Yld G V E T)

/-- The coroutine together with the world it runs in. -/
def Co.cfg (c : Co G V E T) (s : σ) : Cfg G σ V E T := ⟨c.stack, c.args, c.result, s⟩

/-- The coroutine as it was left. -/
def Co.of (c : Cfg G σ V E T) : Co G V E T := ⟨c.stack, c.args, c.result⟩

/-- The operating system's side of waiting: what it may do at any time; which tokens' events are signalled; and when
`WaitForMultipleObjects` gives up with an exception (win32.py:173-179: a timeout, too many events, ...). -/
structure Kernel (σ E T : Type) where
  advance : σ → σ → Prop
  signalled : T → σ → Prop
  waitRaises : σ → E → Prop

/-- The state of `wait_for`: `todo` is what is left of the `for` loop, i.e. of `non_blocking_commands`. -/
structure St (G σ V E T : Type) where
  todo : List Nat
  coroutines : Dict (Co G V E T)
  results : Dict (Option (Yld G V E T))
  world : σ

/-- `coroutines = {command: AsyncCoroutine(command) for command in commands}` and the first `non_blocking_commands` (win32.py:191-192).
`none` is Python's `None`, what a fresh coroutine sends first. -/
def initial (none : V) (gen : Nat → G) (cmds : List Nat) (w : σ) : St G σ V E T :=
  { todo := cmds, results := [], world := w,
    coroutines := cmds.foldl (fun d c => Dict.set d c { stack := [gen c], args := .send none, result := Option.none }) [] }

/-- One step. `M c` is the code run by command `c`'s coroutine. -/
inductive Step (M : Nat → Machine G σ V E T) (K : Kernel σ E T) : St G σ V E T → St G σ V E T → Prop
  /-- the operating system goes on -/
  | kernel {st w} : K.advance st.world w → Step M K st { st with world := w }
  /-- win32.py:196-201: the next command of the `for` loop is run and is done -/
  | done {st c cs co r s} : st.todo = c :: cs → Dict.get st.coroutines c = some co →
      AsyncLoop (M c) (co.cfg st.world) (.done r s) →
      Step M K st ⟨cs, Dict.erase st.coroutines c, Dict.set st.results c r, s⟩
  /-- win32.py:196-198: it is run until it yields a token -/
  | blocked {st c cs co t cfg} : st.todo = c :: cs → Dict.get st.coroutines c = some co →
      AsyncLoop (M c) (co.cfg st.world) (.blocked t cfg) →
      Step M K st ⟨cs, Dict.set st.coroutines c (Co.of cfg), st.results, cfg.st⟩
  /-- win32.py:182-188, 202-203: the loop is through; a signalled event is picked and its token asked for the result -/
  | event {st c co t s i} : st.todo = [] → Dict.get st.coroutines c = some co → co.result = some (.tok t) → K.signalled t st.world →
      (M c).await t st.world = (s, .ok i) →
      Step M K st ⟨[c], Dict.set st.coroutines c { co with args := i }, st.results, s⟩

/-- Any number of steps. -/
inductive Steps (M : Nat → Machine G σ V E T) (K : Kernel σ E T) : Nat → St G σ V E T → St G σ V E T → Prop
  | refl (st) : Steps M K 0 st st
  | step {n a b c} : Steps M K n a b → Step M K b c → Steps M K (n + 1) a c

/-- `wait_for` raises `e`, leaving world `w`: a command's coroutine lets it escape, the token's `get_result` raises, or waiting for events
fails. (A command without an entry, i.e. the same command given twice, is not covered.) -/
inductive Raises (M : Nat → Machine G σ V E T) (K : Kernel σ E T) : St G σ V E T → E → σ → Prop
  | command {st c cs co e s} : st.todo = c :: cs → Dict.get st.coroutines c = some co →
      AsyncLoop (M c) (co.cfg st.world) (.raised e s) → Raises M K st e s
  | token {st c co t e s} : st.todo = [] → Dict.get st.coroutines c = some co → co.result = some (.tok t) → K.signalled t st.world →
      (M c).await t st.world = (s, .error e) → Raises M K st e s
  | wait {st e} : st.todo = [] → st.coroutines ≠ [] → K.waitRaises st.world e → Raises M K st e st.world

/-- `wait_for` returns: nothing is left to run or to wait for; the results are in the order of the arguments (win32.py:205-209). -/
def Returns (cmds : List Nat) (st : St G σ V E T) (rs : List (Option (Option (Yld G V E T)))) : Prop :=
  st.todo = [] ∧ st.coroutines = [] ∧ rs = cmds.map (Dict.get st.results)

end Verif.ReactorShared
