import Verif.Props.Inquiry
import Verif.Props.Ses
/-!
# Integers joined from several references: property C49

`ref1 + ref2` is written with the least significant part first in the designators and in the block limits page, and with the most significant
part first in the cooling element. Whichever the library means, one of them is wrong.
-/

namespace Verif.Parse

open Verif.Spec

/-- If the first part is the least significant one, every NAA designator and the unmap granularity alignment are the standard's numbers. -/
theorem C49_low_partial (L : BufLib) (h : L.lowFirst = true) :
    (∀ d, Spec.IsDesignator d → Spec.designatorType d = 3 →
      ∃ x, designator L d = .ok (x, d.length) ∧ x.attrs = Spec.designatorHeader d ++ Spec.designatorNumbers d) ∧
    (∀ b : Bytes, 44 ≤ b.length →
      ∃ x, blockLimits L b = .ok x ∧ x.attrs = Spec.blockLimits b ++ [("unmap_granularity_alignment", (Spec.unmapGranularityAlignment b : Int))]) := by
  constructor
  · intro d hd ht
    exact ⟨_, designator_eq L d hd ⟨fun h => by omega, fun h => by omega⟩ (.inl h), rfl⟩
  · intro b hb
    obtain ⟨a, ha, hl⟩ := C44_block_limits L b hb
    exact ⟨_, ha, by rw [hl h]⟩

/-- If the first part is the most significant one, every fan speed is the standard's number. -/
theorem C49_high_partial (L : BufLib) (h : L.lowFirst = false) (e : Bytes) (he : e.length = 4) :
    ∃ x, Ses.statusElement L (Ses.statusClass 0x03) e = .ok (x, 4) ∧
      get x.info "fan_speed" = ((256 * Spec.bitsAt e 1 2 0 + Spec.byteAt e 2 : Nat) : Int) := by
  have := Ses.statusElement_eq L 3 e [] he
  rw [List.append_nil] at this
  refine ⟨_, this, ?_⟩
  simp [get, Ses.elementObject, Spec.Ses.info, List.lookup, Spec.Ses.fanSpeed, Ses.reading, h]

/-- All joined fields are the standard's numbers: false for every library. With the least significant part first, a fan at speed 256 x 10 rpm
is reported at speed 1; with the most significant part first, an alignment of 1 is reported as 2^23. -/
theorem C49_false (L : BufLib) :
    (L.lowFirst = true ∧ ∃ e : Bytes, e.length = 4 ∧ 256 * Spec.bitsAt e 1 2 0 + Spec.byteAt e 2 = 256 ∧
      ∃ x, Ses.statusElement L (Ses.statusClass 0x03) e = .ok (x, 4) ∧ get x.info "fan_speed" = 1) ∨
    (L.lowFirst = false ∧ ∃ b : Bytes, b.length = 44 ∧ Spec.unmapGranularityAlignment b = 1 ∧
      ∃ x, blockLimits L b = .ok x ∧ get x.attrs "unmap_granularity_alignment" = 2 ^ 23) := by
  rcases L with ⟨sg, lf, t, p⟩
  cases lf with
  | true => exact .inl ⟨rfl, [1, 1, 0, 0], rfl, rfl, _, rfl, rfl⟩
  | false =>
    refine .inr ⟨rfl, [0, 0xB0, 0, 40] ++ List.replicate 31 0 ++ [1] ++ List.replicate 8 0, rfl, rfl, _, rfl, rfl⟩

end Verif.Parse
