import Verif.Proof.X86NameRyzen
import Verif.Props.X86Name

/-!
# C174: the names of AMD Ryzen processors
-/

set_option autoImplicit false

namespace Verif.Props
open Spec X86Name X86Cpuid

/-- **C174, what holds.** For every series and number of an AMD Ryzen processor, the brand string
"AMD Ryzen <series> <number> <cores> Processor", followed by any number of spaces, is normalized to
"Ryzen <series> <number>" if the number of cores is spelled out, or is "12-Core" or "16-Core".
Missing: other numbers of cores in digits. -/
theorem C174_brand_partial (s m w : Bytes) (k : Nat) (hs : RyzenSeries s) (hm : RyzenModel m)
    (hw : w ∈ spelledCores ∨ w = b!"12-Core" ∨ w = b!"16-Core") (h : (ryzenBrand s m w k).length ≤ 48) :
    normalize (pad (ryzenBrand s m w k)) =
      some (b!"Ryzen " ++ s ++ 32 :: m, 7 + s.length + m.length) := by
  have := ryzen_name s m w _ _ _ _ _ _ k (48 - (ryzenBrand s m w k).length) (becomes_series s hs)
    (becomes_model m hm) (becomes_spelled w hw) (by simp) (by omega)
  unfold pad
  rw [this]
  simp
  omega

/-- **C174, exactly.** With a number of cores in digits, the number of cores is in the name if and only
if it is neither 12 nor 16. -/
theorem C174_digits_exact (s m w : Bytes) (k : Nat) (hs : RyzenSeries s) (hm : RyzenModel m)
    (hw : DigitCores w) (h : (ryzenBrand s m w k).length ≤ 48) :
    ∃ name, normalize (pad (ryzenBrand s m w k)) = some (name, name.length) ∧
      ((w = b!"12-Core" ∨ w = b!"16-Core") → name = b!"Ryzen " ++ s ++ 32 :: m) ∧
      (¬ (w = b!"12-Core" ∨ w = b!"16-Core") → name = b!"Ryzen " ++ s ++ 32 :: m ++ 32 :: w) := by
  by_cases hc : w = b!"12-Core" ∨ w = b!"16-Core"
  · refine ⟨_, ?_, fun _ => rfl, fun hn => absurd hc hn⟩
    rw [C174_brand_partial s m w k hs hm (.inr hc) h]
    simp
    omega
  · refine ⟨_, ?_, fun hn => absurd hn hc, fun _ => rfl⟩
    have := ryzen_name s m w _ _ _ _ _ _ k (48 - (ryzenBrand s m w k).length) (becomes_series s hs)
      (becomes_model m hm) (becomes_digits w hw (by simpa [not_or] using hc)) (by simp) (by omega)
    unfold pad
    rw [this]
    simp

/-- Brand strings of real processors. -/
theorem C174_example :
    pad (ryzenBrand b!"7" b!"1700X" b!"Eight-Core" 9) = pad b!"AMD Ryzen 7 1700X Eight-Core Processor         " ∧
    RyzenSeries b!"7" ∧ RyzenModel b!"1700X" ∧
    normalize (pad (ryzenBrand b!"Threadripper" b!"1950X" b!"16-Core" 1)) =
      some (b!"Ryzen Threadripper 1950X", 24) := by
  refine ⟨by decide +kernel, .inr ⟨55, rfl, by decide⟩, ⟨49, b!"700X", rfl, by decide, by decide⟩, ?_⟩
  exact C174_brand_partial b!"Threadripper" b!"1950X" b!"16-Core" 1 (.inl rfl)
    ⟨49, b!"950X", rfl, by decide, by decide⟩ (by decide) (by decide)

/-- **C174 violated.** "8-Core" stays in the name, although "Eight-Core" does not. -/
theorem C174_violated :
    DigitCores b!"8-Core" ∧
    normalize (pad b!"AMD Ryzen 7 3700X 8-Core Processor") = some (b!"Ryzen 7 3700X 8-Core", 20) ∧
    (formatPackageName .amd b!"Ryzen 7 3700X 8-Core").1 = b!"AMD Ryzen 7 3700X 8-Core" :=
  ⟨⟨56, [], rfl, by decide, by decide⟩, by decide +kernel, by decide +kernel⟩

end Verif.Props
