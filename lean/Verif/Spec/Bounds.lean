import Verif.Commands
import Verif.Sense.Model
/-!
# Specification: how much a device can make a decoder do

A response is bytes, among them counts and lengths that the device chooses. `entries` is how many things a decoded object holds in its lists,
lists in lists included. `Reads` is a loop that takes elements from the front as long as there are bytes, with nothing that would stop it otherwise:
a loop that never ends has no result here.
-/

namespace Verif.Spec.Bounds

variable {α : Type}

mutual

/-- The loop ends with these elements. -/
inductive Reads (elem : Bytes → Py (α × Nat)) : Bytes → List α → Prop where
  | stop : Reads elem [] []
  | next {b x k xs} : b ≠ [] → elem b = .ok (x, k) → Reads elem (b.drop k) xs → Reads elem b (x :: xs)

/-- The loop ends with an exception. -/
inductive Raises (elem : Bytes → Py (α × Nat)) : Bytes → PyErr → Prop where
  | now {b e} : b ≠ [] → elem b = .error e → Raises elem b e
  | later {b x k e} : b ≠ [] → elem b = .ok (x, k) → Raises elem (b.drop k) e → Raises elem b e

end

mutual

/-- The loop over a length announced before: elements until their sizes add up to it. -/
inductive ReadsSize (elem : Bytes → Py (α × Nat)) : Nat → Bytes → List α → Prop where
  | stop {b} : ReadsSize elem 0 b []
  | next {n b x k xs} : n ≠ 0 → elem b = .ok (x, k) → ReadsSize elem (n - k) (b.drop k) xs → ReadsSize elem n b (x :: xs)

inductive RaisesSize (elem : Bytes → Py (α × Nat)) : Nat → Bytes → PyErr → Prop where
  | now {n b e} : n ≠ 0 → elem b = .error e → RaisesSize elem n b e
  | later {n b x k e} : n ≠ 0 → elem b = .ok (x, k) → RaisesSize elem (n - k) (b.drop k) e → RaisesSize elem n b e

end

open Verif.Commands Verif.Parse

def sum (l : List Nat) : Nat := l.foldr (· + ·) 0

/-- The entries of all lists of a decoded object. -/
def entries : Result → Nat
  | .luns (.data d) => d.entries.length + d.lunList.length
  | .groups r => sum (r.groups.map fun g => 1 + g.ports.length)
  | .copy r => r.descriptors.length
  | .reservations (.keys r) => (r.keys.getD []).length
  | .reservations (.fullStatus r) => (r.descriptors.getD []).length
  | .standard r => ((r.extended.bind (·.versions)).getD []).length
  | .bytes p => p.2.length
  | .designators p => p.2.length
  | .provisioning p => p.2.toList.length
  | .diagnosticBytes p => p.2.length
  | .configuration r => r.enclosures.length + r.headers.length + r.texts.length
  | .status r => sum (r.descriptors.map fun d => 1 + d.individual.length)
  | .descriptors r => sum (r.descriptors.map fun d => 1 + d.individual.length)
  | _ => 0

/-- The descriptors of a sense object. -/
def senseEntries : Option Sense.Sense → Nat
  | some (.descriptorBased _ _ ds) => ds.length
  | _ => 0

end Verif.Spec.Bounds
