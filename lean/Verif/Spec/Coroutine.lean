import Verif.Coroutine
/-!
# Specification for coroutines: direct-style evaluation

`Eval` is a big-step semantics that reads generator code as a direct-style program: `yield child()` is a call,
`yield value` has that value, yielding an exception instance raises it, yielding an I/O token blocks for its result, and
the value of a coroutine is the value of its last yield expression (i.e. the last thing it was resumed with).

There is no stack in it and no driver. `Mode` selects how two corner cases are read:

* a coroutine that handles an exception and returns without yielding again (its last yield expression raised, so it has no
  value): in the ideal reading its caller gets `None`;
* a token whose `get_result` raises: in the ideal reading the exception appears at the yield expression.

`actual` is what the driver does instead, `ideal` what the reader of the code expects, `agreed` has neither rule.
-/

namespace Verif.Coroutine

variable {G σ V E T : Type}

/-- How the evaluation of one coroutine ends: returns with the value of its last yield expression; raises; or returns
right after having handled exception `e`. -/
inductive Fin (V E : Type) where
  | val (v : V)
  | raised (e : E)
  | swallowed (e : E)

inductive Mode where
  | actual
  | ideal
  | agreed

/-- What the caller sees at its yield expression when the called coroutine ended with the given `Fin`. -/
def afterCall (M : Machine G σ V E T) : Mode → Fin V E → Option (Inp V E)
  | _, .val v => some (.send v)
  | _, .raised e => some (.throw e)
  | .actual, .swallowed e => some (.throw e)
  | .ideal, .swallowed _ => some (.send M.none)
  | .agreed, .swallowed _ => none

/-- The value of a coroutine that returns: what its last yield expression did. -/
def finOf : Inp V E → Fin V E
  | .send v => .val v
  | .throw e => .swallowed e

/-- `Eval m M g i s r s' r' f`: generator state `g`, resumed with `i` in world `s`, runs to completion with `f`, leaving
world `s'`; `r`, `r'` are the most recently yielded objects (by anyone) before and after. -/
inductive Eval (m : Mode) (M : Machine G σ V E T) :
    G → Inp V E → σ → Option (Yld G V E T) → σ → Option (Yld G V E T) → Fin V E → Prop
  | ret {g i s s' r} : M.resume g i s = (s', .ret) → Eval m M g i s r s' r (finOf i)
  | raises {g i s s' r e} : M.resume g i s = (s', .raises e) → Eval m M g i s r s' r (.raised e)
  | plain {g i s s1 r v g' s' r' f} : M.resume g i s = (s1, .yields (.plain v) g') →
      Eval m M g' (.send v) s1 (some (.plain v)) s' r' f → Eval m M g i s r s' r' f
  | exc {g i s s1 r e g' s' r' f} : M.resume g i s = (s1, .yields (.exc e) g') →
      Eval m M g' (.throw e) s1 (some (.exc e)) s' r' f → Eval m M g i s r s' r' f
  | call {g i s s1 r child g' s2 r2 fc i' s' r' f} : M.resume g i s = (s1, .yields (.gen child) g') →
      Eval m M child (.send M.none) s1 (some (.gen child)) s2 r2 fc →
      afterCall M m fc = some i' →
      Eval m M g' i' s2 r2 s' r' f → Eval m M g i s r s' r' f
  | io {g i s s1 r t g' s2 i' s' r' f} : M.resume g i s = (s1, .yields (.tok t) g') →
      M.await t s1 = (s2, .ok i') →
      Eval m M g' i' s2 (some (.tok t)) s' r' f → Eval m M g i s r s' r' f
  | ioErrIdeal {g i s s1 r t g' s2 e s' r' f} : m = .ideal → M.resume g i s = (s1, .yields (.tok t) g') →
      M.await t s1 = (s2, .error e) →
      Eval m M g' (.throw e) s2 (some (.tok t)) s' r' f → Eval m M g i s r s' r' f
  | ioErrActual {g i s s1 r t g' s2 e} : m = .actual → M.resume g i s = (s1, .yields (.tok t) g') →
      M.await t s1 = (s2, .error e) →
      Eval m M g i s r s2 (some (.tok t)) (.raised e)

/-- The outcome of a whole program: what its caller sees. -/
def outcome : Fin V E → Option (Yld G V E T) → σ → Final G σ V E T
  | .val _, r, s => .returned r s
  | .swallowed _, r, s => .returned r s
  | .raised e, _, s => .raised e s

/-- Running generator `g` as a direct-style program from world `s` ends with `f`. -/
def Direct (m : Mode) (M : Machine G σ V E T) (g : G) (s : σ) (f : Final G σ V E T) : Prop :=
  ∃ s' r' fin, Eval m M g (.send M.none) s none s' r' fin ∧ f = outcome fin r' s'

/-- What a resumed generator at the given depth yields (if anything). -/
def yieldOf (depth : Nat) : Out G V E T → List (Nat × Yld G V E T)
  | .yields y _ => [(depth, y)]
  | _ => []

/-- The yields performed during a run of the synchronous driver, oldest first, with the depth of the generator that
performed them (0 is the outermost). -/
inductive YieldTrace (M : Machine G σ V E T) : Cfg G σ V E T → List (Nat × Yld G V E T) → Cfg G σ V E T → Prop
  | refl (c) : YieldTrace M c [] c
  | step {g rest args result s c tr c'} : syncStep M g rest args result s = .cont c →
      YieldTrace M c tr c' →
      YieldTrace M ⟨g :: rest, args, result, s⟩
        (yieldOf rest.length (M.resume g args s).2 ++ tr) c'

/-- The last yield performed by the outermost generator. -/
def lastOwn (tr : List (Nat × Yld G V E T)) : Option (Yld G V E T) :=
  (tr.filter (fun p => p.1 == 0)).getLast?.map Prod.snd

end Verif.Coroutine
