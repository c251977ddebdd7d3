/-!
# Specification: programs that decide what to do next by what they were told

A program of this kind is in some state, executes the command the state calls for, and goes on to another state or ends, by what the command
returned or raised. Commands may be anything: objects of the library, or operations on the thing behind the library.
-/

namespace Verif.Spec

/-- A program. `σ`: its states, `C`: commands, `α`: what a command returns or raises, `A`: what the program ends with. -/
structure Client (σ C α A : Type) where
  ask : σ → C
  next : σ → α → σ ⊕ A

variable {σ C α A ω : Type}

/-- The program, started in a state and a world, executes so many commands and ends. `exec` says what executing a command may do; `ok` holds of all states the
program comes through. A program that goes on for ever has no run. -/
inductive Client.Runs (p : Client σ C α A) (ok : σ → Prop) (exec : C → ω → α → ω → Prop) : σ → ω → A → ω → Nat → Prop
  | done {s w r w' a} : ok s → exec (p.ask s) w r w' → p.next s r = .inr a → Runs p ok exec s w a w' 1
  | more {s w r w' s' a w'' n} : ok s → exec (p.ask s) w r w' → p.next s r = .inl s' → Runs p ok exec s' w' a w'' n →
      Runs p ok exec s w a w'' (n + 1)

/-- Two programs in step: told the corresponding things, they go to the same state, or end with corresponding results. -/
def Along {A' : Type} (Rel : A → A' → Prop) : σ ⊕ A → σ ⊕ A' → Prop
  | .inl s, .inl s' => s = s'
  | .inr a, .inr a' => Rel a a'
  | _, _ => False

end Verif.Spec
