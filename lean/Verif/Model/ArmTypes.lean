import Verif.Model.ArmMidr

/-!
# Chipset descriptions of src/arm/api.h
-/

set_option autoImplicit false

namespace Verif.ArmChipset

/-- `enum cpuinfo_arm_chipset_vendor`, src/arm/api.h:15-40 (without the end marker `…_max`). -/
inductive Vendor where
  | unknown
  | qualcomm
  | mediatek
  | samsung
  | hisilicon
  | actions
  | allwinner
  | amlogic
  | broadcom
  | lg
  | leadcore
  | marvell
  | mstar
  | novathor
  | nvidia
  | pinecone
  | renesas
  | rockchip
  | spreadtrum
  | telechips
  | texasInstruments
  | unisoc
  | wondermedia
deriving DecidableEq, Repr

/-- `enum cpuinfo_arm_chipset_series`, src/arm/api.h:42-76 (without the end marker `…_max`). -/
inductive Series where
  | unknown
  | qualcommQsd
  | qualcommMsm
  | qualcommApq
  | qualcommSnapdragon
  | mediatekMt
  | samsungExynos
  | hisiliconK3v
  | hisiliconHi
  | hisiliconKirin
  | actionsAtm
  | allwinnerA
  | amlogicAml
  | amlogicS
  | broadcomBcm
  | lgNuclun
  | leadcoreLc
  | marvellPxa
  | mstar6a
  | novathorU
  | nvidiaTegraT
  | nvidiaTegraAp
  | nvidiaTegraSl
  | pineconeSurgeS
  | renesasMp
  | rockchipRk
  | spreadtrumSc
  | telechipsTcc
  | texasInstrumentsOmap
  | unisocT
  | unisocUms
  | wondermediaWm
deriving DecidableEq, Repr

/-- `struct cpuinfo_arm_chipset`, src/arm/api.h:80-85.  `suffix` is the content of the array
`char suffix[CPUINFO_ARM_CHIPSET_SUFFIX_MAX]`, 8 characters padded with zeros. -/
structure Chipset where
  vendor : Vendor
  series : Series
  model : Nat
  suffix : Bytes
deriving DecidableEq, Repr

/-- The chipset without vendor, series, model and suffix. -/
def Chipset.unknown : Chipset := ⟨.unknown, .unknown, 0, List.replicate 8 0⟩

end Verif.ArmChipset
