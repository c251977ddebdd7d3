import Verif.Base
/-!
# Model of the coroutine driver (src/infi/asi/coroutines/sync_adapter.py)

A generator object is an arbitrary state machine: `resume g i s` is what happens when generator state `g` is resumed with
`send(value)` or `throw(exception)` in world state `s` (files, executers, logs, ...). Nothing is assumed about it, so
the theorems hold for all generator code. Not modelled: one generator object shared by two callers, generators that
yield themselves, `StopIteration` / `GeneratorExit` raised by hand inside a generator.
-/

namespace Verif.Coroutine

/-- How a generator is resumed (sync_adapter.py:21-24). -/
inductive Inp (V E : Type) where
  | send (v : V)
  | throw (e : E)
  deriving DecidableEq, Repr

/-- What a generator yields: a plain value, an exception instance, another generator, or an asynchronous I/O token. -/
inductive Yld (G V E T : Type) where
  | plain (v : V)
  | exc (e : E)
  | gen (g : G)
  | tok (t : T)
  deriving DecidableEq, Repr

/-- What a resumed generator does next: yields (and is suspended in state `g'`), returns (`StopIteration`), or raises. -/
inductive Out (G V E T : Type) where
  | yields (y : Yld G V E T) (g' : G)
  | ret
  | raises (e : E)

/-- Generator code together with the I/O tokens' blocking `get_result` (which may return a value, return an exception
instance, or raise), over world states `σ`. `none` is Python's `None`. -/
structure Machine (G σ V E T : Type) where
  none : V
  resume : G → Inp V E → σ → σ × Out G V E T
  await : T → σ → σ × Except E (Inp V E)

variable {G σ V E T : Type}

/-- State of a `Coroutine` object (sync_adapter.py:8-13), with the world state. `stack` has its top first. -/
structure Cfg (G σ V E T : Type) where
  stack : List G
  args : Inp V E
  result : Option (Yld G V E T)
  st : σ

/-- Outcome of one `_next_step`, before a token is handled. -/
inductive StepOut (G σ V E T : Type) where
  /-- go on -/
  | cont (c : Cfg G σ V E T)
  /-- the top generator yielded token `t`: `_handle_async_io_token` is called in state `c` -/
  | io (t : T) (c : Cfg G σ V E T)
  /-- an exception leaves the coroutine -/
  | fail (s : σ) (e : E)

/-- Lines 34-39: an exception `e` came out of the `try` block: the top generator is dropped; if nothing is left the
exception is re-raised, otherwise it is kept to be thrown into the next one. -/
def unwind (rest : List G) (result : Option (Yld G V E T)) (s : σ) (e : E) : StepOut G σ V E T :=
  match rest with
  | [] => .fail s e
  | g :: gs => .cont { stack := g :: gs, args := .throw e, result := result, st := s }

/-- `_next_step` (sync_adapter.py:18-40) on a stack with top `g`. -/
def nextStep (M : Machine G σ V E T) (g : G) (rest : List G) (args : Inp V E) (result : Option (Yld G V E T)) (s : σ) :
    StepOut G σ V E T :=
  match M.resume g args s with
  | (s', .yields y g') =>
    match y with
    | .gen c => .cont { stack := c :: g' :: rest, args := .send M.none, result := some y, st := s' }
    | .tok t => .io t { stack := g' :: rest, args := .send M.none, result := some y, st := s' }
    | .plain v => .cont { stack := g' :: rest, args := .send v, result := some y, st := s' }
    | .exc e => .cont { stack := g' :: rest, args := .throw e, result := some y, st := s' }
  | (s', .ret) => .cont { stack := rest, args := args, result := result, st := s' }
  | (s', .raises e) => unwind rest result s' e

/-- `SyncCoroutine._handle_async_io_token` (sync_adapter.py:64-68) within `_next_step`: block for the token's result;
if `get_result` raises, the surrounding `try` (line 34) drops the generator that yielded the token. -/
def handleSync (M : Machine G σ V E T) (t : T) (c : Cfg G σ V E T) : StepOut G σ V E T :=
  match M.await t c.st with
  | (s', .ok i) => .cont { c with args := i, st := s' }
  | (s', .error e) => unwind c.stack.tail c.result s' e

/-- One step of a synchronous coroutine. -/
def syncStep (M : Machine G σ V E T) (g : G) (rest : List G) (args : Inp V E) (result : Option (Yld G V E T)) (s : σ) :
    StepOut G σ V E T :=
  match nextStep M g rest args result s with
  | .io t c => handleSync M t c
  | o => o

/-- How `sync_wait` ends. -/
inductive Final (G σ V E T : Type) where
  | returned (r : Option (Yld G V E T)) (s : σ)
  | raised (e : E) (s : σ)

/-- `loop` (sync_adapter.py:42-47) of a synchronous coroutine, as a terminating run from a configuration:
`SyncLoop M c f n` says that it ends with `f` after `n` calls of `_next_step`. (A run that never ends has no `f`.) -/
inductive SyncLoop (M : Machine G σ V E T) : Cfg G σ V E T → Final G σ V E T → Nat → Prop
  | done (args result s) : SyncLoop M ⟨[], args, result, s⟩ (.returned result s) 0
  | fail {g rest args result s s' e} : syncStep M g rest args result s = .fail s' e →
      SyncLoop M ⟨g :: rest, args, result, s⟩ (.raised e s') 1
  | step {g rest args result s c f n} : syncStep M g rest args result s = .cont c →
      SyncLoop M c f n → SyncLoop M ⟨g :: rest, args, result, s⟩ f (n + 1)

/-- A fresh `Coroutine(generator)` (sync_adapter.py:8-13). -/
def start (M : Machine G σ V E T) (g : G) (s : σ) : Cfg G σ V E T :=
  { stack := [g], args := .send M.none, result := none, st := s }

/-- `sync_wait(generator)` (sync_adapter.py:74-79) ends with `f`. (A synchronous coroutine's `loop` only returns when
done: `_handle_async_io_token` always returns True.) -/
def SyncWait (M : Machine G σ V E T) (g : G) (s : σ) (f : Final G σ V E T) : Prop :=
  ∃ n, SyncLoop M (start M g s) f n

/-- `sync_call(func, *args)` (sync_adapter.py:70-72): `func` is called twice, the first generator is dropped unstarted.
`call` is what calling `func(*args)` does: for a generator function it creates a generator and does nothing else. -/
def SyncCall (M : Machine G σ V E T) (call : σ → σ × Except E G) (s : σ) (f : Final G σ V E T) : Prop :=
  match call s with
  | (s1, .error e) => f = .raised e s1
  | (s1, .ok _) =>
    match call s1 with
    | (s2, .error e) => f = .raised e s2
    | (s2, .ok g) => SyncWait M g s2 f

/-- `AsyncCoroutine.loop` (sync_adapter.py:42-47 with 55-57): runs until done, until an I/O token is yielded, or until an
exception escapes. -/
inductive AsyncOut (G σ V E T : Type) where
  | done (r : Option (Yld G V E T)) (s : σ)
  | blocked (t : T) (c : Cfg G σ V E T)
  | raised (e : E) (s : σ)

inductive AsyncLoop (M : Machine G σ V E T) : Cfg G σ V E T → AsyncOut G σ V E T → Prop
  | done (args result s) : AsyncLoop M ⟨[], args, result, s⟩ (.done result s)
  | fail {g rest args result s s' e} : nextStep M g rest args result s = .fail s' e →
      AsyncLoop M ⟨g :: rest, args, result, s⟩ (.raised e s')
  | blocked {g rest args result s t c} : nextStep M g rest args result s = .io t c →
      AsyncLoop M ⟨g :: rest, args, result, s⟩ (.blocked t c)
  | step {g rest args result s c o} : nextStep M g rest args result s = .cont c →
      AsyncLoop M c o → AsyncLoop M ⟨g :: rest, args, result, s⟩ o

end Verif.Coroutine
