import Verif.Instruct

/-!
# Specification vocabulary for declared structures: which values a structure carries and where
-/

namespace Verif

/-- Named members of a bit group with their widths and defaults. -/
def BitDecl.named : BitDecl → List (String × Nat × Option Int)
  | .field name w d => [(name, w, d)]
  | .pad _ => []

/-- Named members of a structure with width in bits and default. -/
def Decl.named : Decl → List (String × Nat × Option Int)
  | .uint name n => [(name, 8 * n, none)]
  | .bits l => l.flatMap BitDecl.named
  | .pad _ => []
  | .const _ => []

/-- The value a member has: the one assigned, or the default. -/
def memberValue (env : Attrs) (name : String) (dflt : Option Int) : Option Int :=
  match env.lookup name with
  | some v => some v
  | none => dflt

/-- Padding made visible as members without a name. -/
def BitDecl.reveal : BitDecl → BitDecl
  | .pad w => .field "" w none
  | d => d

def Decl.reveal : Decl → Decl
  | .pad n => .uint "" n
  | .bits l => .bits (l.map BitDecl.reveal)
  | d => d

/-- Bit groups are whole bytes. -/
def Decl.WellFormed : Decl → Prop
  | .bits l => bitsWidth l % 8 = 0
  | _ => True

/-- Bit `b` of byte `i` belongs to the reference. -/
def Ref.Has (i b : Nat) : Ref → Prop
  | .bytes lo hi => lo ≤ i ∧ i < hi ∧ b < 8
  | .bits j lo hi => i = j ∧ lo ≤ b ∧ b < hi

/-- Two references have no bit in common. -/
def Ref.Disjoint (r s : Ref) : Prop := ∀ i b, ¬ (r.Has i b ∧ s.Has i b)

/-- Not empty, and bit ranges stay within a byte. -/
def Ref.WellFormed : Ref → Prop
  | .bytes lo hi => lo < hi
  | .bits _ lo hi => lo < hi ∧ hi ≤ 8

end Verif
