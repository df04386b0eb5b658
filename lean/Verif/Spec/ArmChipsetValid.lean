import Verif.Spec.ArmChipset

/-!
# Well-formed chipset descriptions

Written from `enum cpuinfo_arm_chipset_vendor` and `enum cpuinfo_arm_chipset_series`,
src/arm/api.h:15-76, where the name of a series begins with the name of its vendor, and from the
character classes of the documented suffixes.
-/

set_option autoImplicit false

namespace Verif.Spec.Chipsets
open ArmChipset

/-- The series of each vendor. -/
def seriesOf : Vendor → List Series
  | .unknown => [.unknown]
  | .qualcomm => [.qualcommQsd, .qualcommMsm, .qualcommApq, .qualcommSnapdragon]
  | .mediatek => [.mediatekMt]
  | .samsung => [.samsungExynos]
  | .hisilicon => [.hisiliconK3v, .hisiliconHi, .hisiliconKirin]
  | .actions => [.actionsAtm]
  | .allwinner => [.allwinnerA]
  | .amlogic => [.amlogicAml, .amlogicS]
  | .broadcom => [.broadcomBcm]
  | .lg => [.lgNuclun]
  | .leadcore => [.leadcoreLc]
  | .marvell => [.marvellPxa]
  | .mstar => [.mstar6a]
  | .novathor => [.novathorU]
  | .nvidia => [.nvidiaTegraT, .nvidiaTegraAp, .nvidiaTegraSl]
  | .pinecone => [.pineconeSurgeS]
  | .renesas => [.renesasMp]
  | .rockchip => [.rockchipRk]
  | .spreadtrum => [.spreadtrumSc]
  | .telechips => [.telechipsTcc]
  | .texasInstruments => [.texasInstrumentsOmap]
  | .unisoc => [.unisocT, .unisocUms]
  | .wondermedia => [.wondermediaWm]

/-- A character of a suffix: capital letter, minus or slash. -/
def SuffixChar (c : Byte) : Prop := (65 ≤ c ∧ c ≤ 90) ∨ c = 45 ∨ c = 47

instance (c : Byte) : Decidable (SuffixChar c) := by unfold SuffixChar; infer_instance

/-- A suffix text: at most eight suffix characters. -/
def SuffixText (t : Bytes) : Prop := t.length ≤ 8 ∧ ∀ c ∈ t, SuffixChar c

instance (t : Bytes) : Decidable (SuffixText t) := by unfold SuffixText; infer_instance

/-- A text padded with zeros to eight characters. -/
def padded (t : Bytes) : Bytes := t ++ List.replicate (8 - t.length) 0

/-- Either nothing is known, or the series belongs to the vendor, the model is a number of at most five
digits, and the suffix is a suffix text padded with zeros. -/
def Valid (c : Chipset) : Prop :=
  c = .unknown ∨
    (c.series ≠ .unknown ∧ c.series ∈ seriesOf c.vendor ∧ c.model < 100000 ∧
      ∃ t, SuffixText t ∧ c.suffix = padded t)

/-- The suffix of the chipset reads `t`. -/
def HasSuffix (c : Chipset) (t : Bytes) : Prop := c.suffix = padded t

end Verif.Spec.Chipsets
