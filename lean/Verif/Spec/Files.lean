import Verif.Files
/-!
# What is expected of file objects in a process that has other files too
-/

namespace Verif.Files

/-- The system gives numbers that are not in use and not negative. -/
def Proper (pick : Pick) : Prop := ∀ t n, pick t = some n → 0 ≤ n ∧ t n = none

/-- The process before the library made any file object: no two numbers refer to one open file (no `dup`), negative numbers refer to nothing, other code has its files
open under numbers of its own. -/
structure Start (st : St) : Prop where
  none : st.mine = []
  known : ∀ n f, st.kernel.table n = some f → f < st.kernel.next
  single : ∀ n n' f, st.kernel.table n = some f → st.kernel.table n' = some f → n = n'
  invalid : st.kernel.table (-1) = .none
  others : ∀ (j : Nat) o, st.others[j]? = some o → o.isOpen = true → st.kernel.table o.num = some o.file
  apart : ∀ (j j' : Nat) o o', st.others[j]? = some o → st.others[j']? = some o' → o.isOpen = true → o'.isOpen = true → o.num = o'.num → j = j'

/-- A file object acts on the open file it was made for, on no other. -/
def Own (st : St) (log : List Event) : Prop :=
  ∀ e ∈ log, ∀ f, e.file = some f → ∃ o, st.mine[e.obj]? = some o ∧ o.file = f

/-- Files of other code which that code has not closed are still open, under their numbers. -/
def Intact (st : St) : Prop :=
  ∀ (j : Nat) o, st.others[j]? = some o → o.isOpen = true → st.kernel.table o.num = some o.file

/-- Once a file object closed a file it acts on none any more. -/
def Once (log : List Event) : Prop :=
  log.Pairwise (fun e e' => e.closing = true → e.file ≠ none → e'.obj = e.obj → e'.file = none)

/-- A file object that was not closed can be used and closed. -/
def Usable (log : List Event) : Prop :=
  ∀ pre e post, log = pre ++ e :: post → (∀ x ∈ pre, x.obj = e.obj → x.closing = false) → e.file ≠ none ∧ e.out = .ok ()

/-- A method that acted on no file raises, except closing what was closed. -/
def Truthful (log : List Event) : Prop :=
  ∀ pre e post, log = pre ++ e :: post → (e.file ≠ none → e.out = .ok ()) ∧
    (e.file = none → e.out ≠ .ok () ∨ e.closing = true ∧ ∃ x ∈ pre, x.obj = e.obj ∧ x.closing = true ∧ x.out = .ok ())

/-- The program does nothing with a file object after closing it. -/
def Disciplined (p : List Step) : Prop :=
  ∀ pre post i, p = pre ++ .close i :: post → .use i ∉ post ∧ .close i ∉ post

/-- "The file descriptor returned by a successful call will be the lowest-numbered file descriptor not currently open for the process" (open(2)), of `limit` there may
be. -/
def lowest (limit : Nat) : Pick := fun t => ((List.range limit).find? (fun n => (t (Int.ofNat n)).isNone)).map Int.ofNat

end Verif.Files
