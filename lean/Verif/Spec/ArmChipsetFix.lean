import Verif.Spec.ArmChipsetValid

/-!
# Corrections of misreported chipsets

Written from the comments and log messages of `cpuinfo_arm_fixup_chipset`,
src/arm/linux/chipset.c:3443-3743, and of `cpuinfo_arm_fixup_raspberry_pi_chipset`, 4143-4200.
-/

set_option autoImplicit false

namespace Verif.Spec.Chipsets
open ArmChipset

/-- Models that stand for another model: 32-bit only, series, model, what it stands for. -/
def renamed : List (Bool × Series × Nat × Nat) :=
  [(false, .qualcommMsm, 8216, 8916), (true, .samsungExynos, 4410, 4412)]

/-- A model that two chipsets report, told apart by the number of cores. -/
structure Ambiguous where
  arm32Only : Bool
  series : Series
  model : Nat
  cores : Nat
  otherCores : Nat
  otherSeries : Series
  otherModel : Nat
deriving DecidableEq

/-- The models told apart by the number of cores. -/
def ambiguous : List Ambiguous :=
  [⟨false, .qualcommMsm, 8916, 4, 8, .qualcommMsm, 8939⟩,
   ⟨false, .qualcommMsm, 8937, 8, 4, .qualcommMsm, 8917⟩,
   ⟨false, .qualcommMsm, 8960, 2, 4, .qualcommApq, 8064⟩,
   ⟨false, .qualcommMsm, 8996, 4, 8, .qualcommMsm, 8994⟩,
   ⟨true, .qualcommMsm, 8610, 2, 4, .qualcommMsm, 8612⟩,
   ⟨true, .samsungExynos, 5420, 4, 6, .samsungExynos, 5260⟩,
   ⟨false, .samsungExynos, 7580, 8, 4, .samsungExynos, 7578⟩,
   ⟨false, .mediatekMt, 6752, 8, 4, .mediatekMt, 6732⟩,
   ⟨false, .rockchipRk, 3288, 4, 6, .rockchipRk, 3399⟩]

/-- Series and model after the corrections by name and by number of cores. -/
inductive ModelFix (arm32 : Bool) (cores : Nat) (s : Series) (m : Nat) : Series → Nat → Prop
  | renamed (r : Bool × Series × Nat × Nat) : r ∈ renamed → (arm32 = true ∨ r.1 = false) →
      r.2.1 = s → r.2.2.1 = m → ModelFix arm32 cores s m s r.2.2.2
  | confirmed (a : Ambiguous) : a ∈ ambiguous → (arm32 = true ∨ a.arm32Only = false) →
      a.series = s → a.model = m → a.cores = cores → ModelFix arm32 cores s m s m
  | other (a : Ambiguous) : a ∈ ambiguous → (arm32 = true ∨ a.arm32Only = false) →
      a.series = s → a.model = m → a.otherCores = cores →
      ModelFix arm32 cores s m a.otherSeries a.otherModel
  | neither (a : Ambiguous) : a ∈ ambiguous → (arm32 = true ∨ a.arm32Only = false) →
      a.series = s → a.model = m → a.cores ≠ cores → a.otherCores ≠ cores →
      ModelFix arm32 cores s m s 0
  | unlisted : (∀ r ∈ renamed, (arm32 = true ∨ r.1 = false) → r.2.1 = s → r.2.2.1 ≠ m) →
      (∀ a ∈ ambiguous, (arm32 = true ∨ a.arm32Only = false) → a.series = s → a.model ≠ m) →
      ModelFix arm32 cores s m s m

/-- The suffix after the correction. -/
def suffixFix (s : Series) (m freq : Nat) (t : Bytes) : Bytes :=
  if s = .qualcommMsm ∧ t = b!"MSM" then []
  else if s = .qualcommMsm ∧ m = 8976 ∧ t = b!"SG" then b!"PRO"
  else if s = .qualcommMsm ∧ m = 8996 ∧ t = b!"PRO" then
    if freq ≥ 2188800 then b!"PRO-AC" else b!"PRO-AB"
  else if s = .qualcommApq ∧ t = b!"APQ" then []
  else if s = .mediatekMt ∧ (t = b!"TURBO" ∨ t = b!"TRUBO") then b!"T"
  else t

/-- The corrected chipset.  The model of an MSM chipset with a suffix is left as it is. -/
def Corrected (arm32 : Bool) (cores freq : Nat) (c r : Chipset) : Prop :=
  ∃ t, SuffixText t ∧ HasSuffix c t ∧ r.vendor = c.vendor ∧
    HasSuffix r (suffixFix c.series c.model freq t) ∧
    if c.series = .qualcommMsm ∧ t ≠ [] then r.series = c.series ∧ r.model = c.model
    else ModelFix arm32 cores c.series c.model r.series r.model

/-- A hexadecimal digit and its value. -/
def hexDigit (c : Byte) : Nat :=
  if 48 ≤ c ∧ c ≤ 57 then c - 48 else if 97 ≤ c ∧ c ≤ 102 then c - 87
  else if 65 ≤ c ∧ c ≤ 70 then c - 55 else 0

/-- The character is a hexadecimal digit. -/
def IsHex (c : Byte) : Prop :=
  (48 ≤ c ∧ c ≤ 57) ∨ (97 ≤ c ∧ c ≤ 102) ∨ (65 ≤ c ∧ c ≤ 70)

/-- The value of a hexadecimal number, most significant digit first. -/
def hexValue : Bytes → Nat
  | [] => 0
  | c :: cs => hexDigit c * 16 ^ cs.length + hexValue cs

/-- The processor field of a new-style Raspberry Pi revision code, bits 12 to 15. -/
def processorField (code : Nat) : Nat := code / 2 ^ 12 % 16

/-- The BCM model by processor field. -/
def piModel (field : Nat) : Option Nat := [2835, 2836, 2837, 2711][field]?

end Verif.Spec.Chipsets
