import Verif.Proof.X86NameCoreRun
import Verif.Props.X86Name

/-!
# C173: the names of Intel Core processors
-/

set_option autoImplicit false

namespace Verif.Props
open Spec X86Name X86Cpuid

/-- **C173.** For every number `m` of an Intel Core processor and every text `f` in the place of the
frequency: the brand string "Intel(R) Core(TM) m CPU @ f" is normalized to "Core m", whether it is
NUL-terminated or fills all 48 bytes. -/
theorem C173_brand (m f : Bytes) (hm : CoreModel m) (h0 : f ≠ [])
    (hf : ∀ c ∈ f, c ≠ 32 ∧ c ∉ strippedChars) (h : (coreBrand m f).length ≤ 48) :
    normalize (pad (coreBrand m f)) = some (b!"Core " ++ m, 5 + m.length) :=
  core_name m f hm h0 hf _ (by omega)

/-- **C173, the package.** On a processor of Intel whose CPUID gives that brand string, every package
is named "Intel Core m", not cut. -/
theorem C173_package (t : Target) (c : Cpuid) (m f : Bytes) (hm : CoreModel m) (h0 : f ≠ [])
    (hf : ∀ x ∈ f, x ≠ 32 ∧ x ∉ strippedChars) (h : (coreBrand m f).length ≤ 48)
    (hv : decodeVendor t (c.leaf 0).ebx (c.leaf 0).ecx (c.leaf 0).edx = .intel)
    (hb : rawBrand c = pad (coreBrand m f)) : packageName t c = some (b!"Intel Core " ++ m) := by
  have hl : m.length + 25 ≤ 48 := by
    have : (coreBrand m f).length = m.length + 25 + f.length := by simp [coreBrand]; omega
    omega
  unfold packageName
  rw [hb, C173_brand m f hm h0 hf h]
  dsimp only
  rw [hv]
  simp [formatPackageName, vendorString, snprintf]
  exact List.take_of_length_le (by omega)

/-- The number of a real processor, and its name. -/
theorem C173_example : CoreModel b!"i7-4770K" ∧
    normalize (pad b!"Intel(R) Core(TM) i7-4770K CPU @ 3.50GHz") = some (b!"Core i7-4770K", 13) ∧
    CoreModel b!"i5-1035G1" := by
  refine ⟨⟨55, 52, 55, b!"70K", rfl, by decide, by decide, by decide, by decide⟩, by decide +kernel,
    ⟨53, 49, 48, b!"35G1", rfl, by decide, by decide, by decide, by decide⟩⟩

/-- What CPUID says on an Intel Core i7-4770K. -/
def i7 : Cpuid where
  leaf := fun n =>
    if n = 0 then ⟨13, 0x756E6547, 0x6C65746E, 0x49656E69⟩
    else if n = 0x80000000 then ⟨0x80000008, 0, 0, 0⟩
    else if n = 0x80000002 then ⟨0x65746E49, 0x2952286C, 0x726F4320, 0x4D542865⟩
    else if n = 0x80000003 then ⟨0x37692029, 0x3737342D, 0x43204B30, 0x40205550⟩
    else if n = 0x80000004 then ⟨0x352E3320, 0x7A484730, 0x00000000, 0x00000000⟩
    else ⟨0, 0, 0, 0⟩
  sub := fun _ _ => ⟨0, 0, 0, 0⟩
  leaf2 := fun _ => ⟨0, 0, 0, 0⟩

theorem C173_package_example (t : Target) : packageName t i7 = some b!"Intel Core i7-4770K" :=
  C173_package t i7 b!"i7-4770K" b!"3.50GHz" C173_example.1 (by decide) (by decide) (by decide)
    (by cases t with | mk a b => revert a b; decide +kernel) (by decide +kernel)

/-- The hypothesis on the number matters: a number without two digits in a row leaves the frequency
in the name. -/
theorem C173_number_needed :
    normalize (pad b!"Intel(R) Core(TM) m3 CPU @ 1.00GHz") = some (b!"Core m3 1.00GHz", 15) := by
  decide +kernel

end Verif.Props
