import Verif.Props.ArmChipset
import Verif.Props.X86Isa

/-!
# C28, C46: exactly what is lost in names, and when AVX10.2 is made up
-/

set_option autoImplicit false

namespace Verif.Props

section
open ArmChipset Spec.Chipsets

/-- A name begins with vendor and series, or is "Unknown". -/
theorem name_head {c : Chipset} (h : Valid c) :
    (c = .unknown ∧ ArmChipset.toString c = some b!"Unknown") ∨
      (c.series ≠ .unknown ∧ c.vendor = seriesVendor c.series ∧ ∃ x,
        ArmChipset.toString c = some (headOf c.series ++ x) ∧ (x = [] ↔ c.model = 0)) := by
  rcases h with rfl | ⟨h1, h2, h3, t, ht, h4⟩
  · exact .inl ⟨rfl, rfl⟩
  · obtain ⟨s, hs⟩ := series_some h1
    have hv := (owner_iff _ _).mp h2
    have hh : vendorString c.vendor ++ [32] ++ s = headOf c.series := by simp [headOf, hs, hv]
    have hU : (100000 : Nat) < U32 := by decide
    refine .inr ⟨h1, hv.symm, ?_⟩
    by_cases h0 : c.model = 0
    · exact ⟨[], by rw [toString_short hs h0, hh, List.append_nil], by simp [h0]⟩
    · refine ⟨decimal c.model ++ textIn 8 c.suffix, ?_, ?_⟩
      · rw [toString_full hs h0 (by omega), hh, List.append_assoc]
      · refine ⟨fun h => ?_, fun h => absurd h h0⟩
        have := decimal_value c.model
        rw [(List.append_eq_nil_iff.mp h).1] at this
        exact absurd this.symm h0

theorem head_space (s : Series) : (32 : Byte) ∈ headOf s := by
  unfold headOf
  simp

/-- **C46 (exact).** Two well-formed chipsets have the same name exactly if they are the same, or if both
have model 0 and the same series of the same vendor: then, and only then, their suffixes are lost. -/
theorem C46_exact (c d : Chipset) (hc : Valid c) (hd : Valid d) :
    ArmChipset.toString c = ArmChipset.toString d ↔
      c = d ∨ (c.model = 0 ∧ d.model = 0 ∧ c.vendor = d.vendor ∧ c.series = d.series) := by
  constructor
  · intro h
    by_cases h0 : c.model ≠ 0 ∧ d.model ≠ 0
    · exact .inl (name_inj hc hd h0.1 h0.2 h)
    · rcases name_head hc with ⟨rfl, h1⟩ | ⟨hs1, hv1, x, h1, hx⟩ <;>
        rcases name_head hd with ⟨rfl, h2⟩ | ⟨hs2, hv2, y, h2, hy⟩
      · exact .inl rfl
      · rw [h1, h2] at h
        injection h with h
        have : (32 : Byte) ∈ b!"Unknown" := by rw [h]; exact List.mem_append_left _ (head_space _)
        exact absurd this (by decide)
      · rw [h1, h2] at h
        injection h with h
        have : (32 : Byte) ∈ b!"Unknown" := by rw [← h]; exact List.mem_append_left _ (head_space _)
        exact absurd this (by decide)
      · rw [h1, h2] at h
        injection h with h
        obtain ⟨e1, e2⟩ := head_inj hs1 hs2 h
        have hboth : c.model = 0 ∧ d.model = 0 := by
          rw [← hx, ← hy, e2]
          by_cases hc0 : c.model = 0
          · have := hx.mpr hc0; rw [e2] at this; exact ⟨this, this⟩
          · have hd0 : d.model = 0 := Decidable.not_not.mp fun h => h0 ⟨hc0, h⟩
            have := hy.mpr hd0; exact ⟨this, this⟩
        exact .inr ⟨hboth.1, hboth.2, by rw [hv1, hv2, e1], e1⟩
  · rintro (rfl | ⟨h1, h2, h3, h4⟩)
    · rfl
    · unfold ArmChipset.toString
      rw [if_pos h1, if_pos h2, h3, h4]

/-- Non-vacuity: both kinds of chipsets with the same name are well-formed. -/
example : Valid (chip .mediatek .mediatekMt 0 b!"A") ∧ Valid (chip .mediatek .mediatekMt 0 b!"B") ∧
    ArmChipset.toString (chip .mediatek .mediatekMt 0 b!"A") =
      ArmChipset.toString (chip .mediatek .mediatekMt 0 b!"B") :=
  ⟨.inr ⟨by decide, by decide, by decide, b!"A", by decide, by decide⟩,
    .inr ⟨by decide, by decide, by decide, b!"B", by decide, by decide⟩, by decide +kernel⟩

end

section
open Spec X86Cpuid

/-- **C28 (exact).** AVX10.2 is reported from a leaf that does not exist exactly if AVX10.1 is reported,
the highest leaf is below 0x24, and what the processor answers to the query all the same (on Intel
processors the data of its highest leaf) has a byte of at least 2 where the version would be. -/
theorem C28_made_up_iff (t : Target) (c : Cpuid) (xcr0 mx : Nat) :
    (initIsa t c xcr0 mx .avx10_2 = true ∧ ¬ LeafExists c 0x24) ↔
      initIsa t c xcr0 mx .avx10_1 = true ∧ (c.leaf 0).eax < 0x24 ∧ 2 ≤ (c.sub 0x24 0).ebx % 256 := by
  rw [C28_avx10]
  have h : LeafExists c 0x24 ↔ 0x24 ≤ (c.leaf 0).eax := by unfold LeafExists; simp
  rw [h]
  constructor
  · rintro ⟨⟨h1, h2⟩, h3⟩; exact ⟨h1, by omega, h2⟩
  · rintro ⟨h1, h2, h3⟩; exact ⟨⟨h1, h3⟩, by omega⟩

end
end Verif.Props
