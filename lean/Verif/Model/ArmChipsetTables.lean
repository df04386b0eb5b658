import Verif.Model.ArmTypes

/-!
# The tables of src/arm/linux/chipset.c

Entries inside `#if CPUINFO_ARCH_ARM` exist only in 32-bit builds; they carry `arm32Only := true`.
-/

set_option autoImplicit false

namespace Verif.ArmChipset

/-- `chipset_series_vendor`, src/arm/linux/chipset.c:57-90. -/
def seriesVendor : Series → Vendor
  | .unknown => .unknown
  | .qualcommQsd => .qualcomm
  | .qualcommMsm => .qualcomm
  | .qualcommApq => .qualcomm
  | .qualcommSnapdragon => .qualcomm
  | .mediatekMt => .mediatek
  | .samsungExynos => .samsung
  | .hisiliconK3v => .hisilicon
  | .hisiliconHi => .hisilicon
  | .hisiliconKirin => .hisilicon
  | .actionsAtm => .actions
  | .allwinnerA => .allwinner
  | .amlogicAml => .amlogic
  | .amlogicS => .amlogic
  | .broadcomBcm => .broadcom
  | .lgNuclun => .lg
  | .leadcoreLc => .leadcore
  | .marvellPxa => .marvell
  | .mstar6a => .mstar
  | .novathorU => .novathor
  | .nvidiaTegraT => .nvidia
  | .nvidiaTegraAp => .nvidia
  | .nvidiaTegraSl => .nvidia
  | .pineconeSurgeS => .pinecone
  | .renesasMp => .renesas
  | .rockchipRk => .rockchip
  | .spreadtrumSc => .spreadtrum
  | .telechipsTcc => .telechips
  | .texasInstrumentsOmap => .texasInstruments
  | .unisocT => .unisoc
  | .unisocUms => .unisoc
  | .wondermediaWm => .wondermedia

/-- `struct sunxi_map_entry`, src/arm/linux/chipset.c:1386-1391 (an absent suffix is 0). -/
structure SunxiEntry where
  arm32Only : Bool
  sunxi : Nat
  cores : Nat
  model : Nat
  suffix : Byte
deriving DecidableEq, Repr

/-- `sunxi_map_entries`, src/arm/linux/chipset.c:1393-1452. -/
def sunxiEntries : List SunxiEntry :=
  [⟨true, 4, 1, 10, 0⟩,
   ⟨true, 5, 1, 13, 0⟩,
   ⟨true, 6, 4, 31, 0⟩,
   ⟨true, 7, 2, 20, 0⟩,
   ⟨true, 8, 2, 23, 0⟩,
   ⟨true, 8, 4, 33, 0⟩,
   ⟨true, 8, 8, 83, 84⟩,
   ⟨true, 9, 8, 80, 0⟩,
   ⟨false, 50, 4, 64, 0⟩]

/-- `huawei_platform_map`, src/arm/linux/chipset.c:1627-1763: 24-bit word of the platform, model. -/
def huaweiEntries : List (Nat × Nat) :=
  [(0x00504C41, 970),
   (0x00434142, 659),
   (0x00414C42, 970),
   (0x004C4B42, 970),
   (0x00544C43, 970),
   (0x004C4F43, 970),
   (0x00524F43, 970),
   (0x004B5544, 960),
   (0x004C4D45, 970),
   (0x00415645, 955),
   (0x00445246, 950),
   (0x00454E49, 710),
   (0x00544E4B, 950),
   (0x004E4F4C, 960),
   (0x0041594C, 980),
   (0x004E434D, 980),
   (0x0041484D, 960),
   (0x004F454E, 970),
   (0x0054584E, 950),
   (0x004E4150, 980),
   (0x00524150, 970),
   (0x004C5652, 970),
   (0x00465453, 960),
   (0x00455553, 980),
   (0x00454956, 955),
   (0x00594B56, 960),
   (0x00525456, 960)]

/-- `struct special_map_entry`, src/arm/linux/chipset.c:1937-1942 (an absent suffix is 0). -/
structure SpecialEntry where
  arm32Only : Bool
  platform : Bytes
  series : Series
  model : Nat
  suffix : Byte
deriving DecidableEq, Repr

/-- `special_hardware_map_entries`, src/arm/linux/chipset.c:1944-2068. -/
def hardwareEntries : List SpecialEntry :=
  [⟨true, b!"k3v2oem1", .hisiliconK3v, 2, 0⟩,
   ⟨true, b!"hi6620oem", .hisiliconKirin, 910, 84⟩,
   ⟨false, b!"hi6250", .hisiliconKirin, 650, 0⟩,
   ⟨false, b!"hi6210sft", .hisiliconKirin, 620, 0⟩,
   ⟨false, b!"hi3751", .hisiliconHi, 3751, 0⟩,
   ⟨true, b!"hi3630", .hisiliconKirin, 920, 0⟩,
   ⟨false, b!"hi3635", .hisiliconKirin, 930, 0⟩,
   ⟨true, b!"gs702a", .actionsAtm, 7029, 0⟩,
   ⟨true, b!"gs702c", .actionsAtm, 7029, 66⟩,
   ⟨true, b!"gs703d", .actionsAtm, 7039, 83⟩,
   ⟨true, b!"gs705a", .actionsAtm, 7059, 65⟩,
   ⟨true, b!"Amlogic Meson8", .amlogicS, 812, 0⟩,
   ⟨true, b!"Amlogic Meson8B", .amlogicS, 805, 0⟩,
   ⟨true, b!"mapphone_CDMA", .texasInstrumentsOmap, 4430, 0⟩,
   ⟨true, b!"Superior", .texasInstrumentsOmap, 4470, 0⟩,
   ⟨true, b!"Tuna", .texasInstrumentsOmap, 4460, 0⟩,
   ⟨true, b!"Manta", .samsungExynos, 5250, 0⟩,
   ⟨true, b!"Odin", .lgNuclun, 7111, 0⟩,
   ⟨true, b!"Madison", .mstar6a, 338, 0⟩]

/-- `tegra_hardware_map_entries`, src/arm/linux/chipset.c:2070-2397. -/
def tegraEntries : List SpecialEntry :=
  [⟨true, b!"cardhu", .nvidiaTegraT, 30, 0⟩,
   ⟨true, b!"kai", .nvidiaTegraT, 30, 76⟩,
   ⟨true, b!"p3", .nvidiaTegraT, 20, 0⟩,
   ⟨true, b!"n1", .nvidiaTegraAp, 20, 72⟩,
   ⟨true, b!"SHW-M380S", .nvidiaTegraT, 20, 0⟩,
   ⟨true, b!"m470", .nvidiaTegraT, 30, 76⟩,
   ⟨true, b!"endeavoru", .nvidiaTegraAp, 33, 0⟩,
   ⟨true, b!"evitareul", .nvidiaTegraT, 33, 0⟩,
   ⟨true, b!"enrc2b", .nvidiaTegraT, 33, 0⟩,
   ⟨true, b!"mozart", .nvidiaTegraT, 114, 0⟩,
   ⟨true, b!"tegratab", .nvidiaTegraT, 114, 0⟩,
   ⟨true, b!"tn8", .nvidiaTegraT, 124, 0⟩,
   ⟨true, b!"roth", .nvidiaTegraT, 114, 0⟩,
   ⟨true, b!"pisces", .nvidiaTegraT, 114, 0⟩,
   ⟨true, b!"mocha", .nvidiaTegraT, 124, 0⟩,
   ⟨true, b!"stingray", .nvidiaTegraAp, 20, 72⟩,
   ⟨true, b!"Ceres", .nvidiaTegraSl, 460, 78⟩,
   ⟨true, b!"MT799", .nvidiaTegraT, 30, 0⟩,
   ⟨true, b!"t8400n", .nvidiaTegraT, 114, 0⟩,
   ⟨true, b!"chagall", .nvidiaTegraT, 30, 0⟩,
   ⟨true, b!"ventana", .nvidiaTegraT, 20, 0⟩,
   ⟨true, b!"bobsleigh", .nvidiaTegraT, 33, 0⟩,
   ⟨true, b!"tegra_fjdev101", .nvidiaTegraAp, 33, 0⟩,
   ⟨true, b!"tegra_fjdev103", .nvidiaTegraT, 33, 0⟩,
   ⟨true, b!"nbx03", .nvidiaTegraT, 20, 0⟩,
   ⟨true, b!"txs03", .nvidiaTegraT, 30, 76⟩,
   ⟨true, b!"x3", .nvidiaTegraAp, 33, 0⟩,
   ⟨true, b!"vu10", .nvidiaTegraAp, 33, 0⟩,
   ⟨true, b!"BIRCH", .nvidiaTegraT, 30, 76⟩,
   ⟨true, b!"macallan", .nvidiaTegraT, 114, 0⟩,
   ⟨true, b!"maya", .nvidiaTegraT, 114, 0⟩,
   ⟨true, b!"antares", .nvidiaTegraT, 20, 0⟩,
   ⟨true, b!"tostab12AL", .nvidiaTegraT, 30, 76⟩,
   ⟨true, b!"tostab12BL", .nvidiaTegraT, 30, 76⟩,
   ⟨true, b!"sphinx", .nvidiaTegraT, 30, 0⟩,
   ⟨true, b!"tostab11BS", .nvidiaTegraT, 30, 0⟩,
   ⟨true, b!"tostab12BA", .nvidiaTegraT, 114, 0⟩,
   ⟨true, b!"vangogh", .nvidiaTegraT, 20, 0⟩,
   ⟨true, b!"a110", .nvidiaTegraT, 30, 76⟩,
   ⟨true, b!"picasso_e", .nvidiaTegraAp, 20, 72⟩,
   ⟨true, b!"picasso_e2", .nvidiaTegraT, 30, 76⟩,
   ⟨true, b!"picasso", .nvidiaTegraAp, 20, 72⟩,
   ⟨true, b!"picasso_m", .nvidiaTegraT, 30, 0⟩,
   ⟨true, b!"picasso_mf", .nvidiaTegraT, 30, 0⟩,
   ⟨true, b!"avalon", .nvidiaTegraT, 30, 76⟩,
   ⟨true, b!"NS_14T004", .nvidiaTegraT, 30, 76⟩,
   ⟨true, b!"WIKIPAD", .nvidiaTegraT, 30, 0⟩,
   ⟨true, b!"kb", .nvidiaTegraT, 114, 0⟩,
   ⟨false, b!"foster_e", .nvidiaTegraT, 210, 0⟩,
   ⟨false, b!"foster_e_hdd", .nvidiaTegraT, 210, 0⟩,
   ⟨false, b!"darcy", .nvidiaTegraT, 210, 0⟩]

/-- `special_board_map_entries`, src/arm/linux/chipset.c:2678-2798. -/
def boardEntries : List SpecialEntry :=
  [⟨false, b!"hi6250", .hisiliconKirin, 650, 0⟩,
   ⟨false, b!"hi6210sft", .hisiliconKirin, 620, 0⟩,
   ⟨true, b!"hi3630", .hisiliconKirin, 920, 0⟩,
   ⟨false, b!"hi3635", .hisiliconKirin, 930, 0⟩,
   ⟨false, b!"hi3650", .hisiliconKirin, 950, 0⟩,
   ⟨false, b!"hi3660", .hisiliconKirin, 960, 0⟩,
   ⟨true, b!"mp523x", .renesasMp, 5232, 0⟩,
   ⟨false, b!"BEETHOVEN", .hisiliconKirin, 950, 0⟩,
   ⟨true, b!"hws7701u", .rockchipRk, 3168, 0⟩,
   ⟨true, b!"g2mv", .nvidiaTegraSl, 460, 78⟩,
   ⟨true, b!"K00F", .rockchipRk, 3188, 0⟩,
   ⟨true, b!"T7H", .rockchipRk, 3066, 0⟩,
   ⟨true, b!"tuna", .texasInstrumentsOmap, 4460, 0⟩,
   ⟨true, b!"grouper", .nvidiaTegraT, 30, 76⟩,
   ⟨false, b!"flounder", .nvidiaTegraT, 132, 0⟩,
   ⟨false, b!"dragon", .nvidiaTegraT, 210, 0⟩,
   ⟨false, b!"sailfish", .qualcommMsm, 8996, 80⟩,
   ⟨false, b!"marlin", .qualcommMsm, 8996, 80⟩]

/-- `special_platform_map_entries`, src/arm/linux/chipset.c:2986-3094. -/
def platformEntries : List SpecialEntry :=
  [⟨true, b!"hi6620oem", .hisiliconKirin, 910, 84⟩,
   ⟨false, b!"hi6250", .hisiliconKirin, 650, 0⟩,
   ⟨false, b!"hi6210sft", .hisiliconKirin, 620, 0⟩,
   ⟨true, b!"hi3630", .hisiliconKirin, 920, 0⟩,
   ⟨false, b!"hi3635", .hisiliconKirin, 930, 0⟩,
   ⟨false, b!"hi3650", .hisiliconKirin, 950, 0⟩,
   ⟨false, b!"hi3660", .hisiliconKirin, 960, 0⟩,
   ⟨true, b!"k3v2oem1", .hisiliconK3v, 2, 0⟩,
   ⟨true, b!"k3v200", .hisiliconK3v, 2, 0⟩,
   ⟨true, b!"montblanc", .novathorU, 8500, 0⟩,
   ⟨false, b!"song", .pineconeSurgeS, 1, 0⟩,
   ⟨true, b!"rk322x", .rockchipRk, 3229, 0⟩,
   ⟨false, b!"tegra132", .nvidiaTegraT, 132, 0⟩,
   ⟨false, b!"tegra210_dragon", .nvidiaTegraT, 210, 0⟩,
   ⟨true, b!"tegra4", .nvidiaTegraT, 114, 0⟩,
   ⟨true, b!"s5pc110", .samsungExynos, 3110, 0⟩]

/-- `struct amlogic_map_entry`, src/arm/linux/chipset.c:2935-2940.  `platform` and `suffix` are the
contents of `char ro_board_platform[6]` and `char suffix[3]` without the zero padding. -/
structure AmlogicEntry where
  arm32Only : Bool
  platform : Bytes
  series : Series
  model : Nat
  suffix : Bytes
deriving DecidableEq, Repr

/-- `amlogic_map_entries`, src/arm/linux/chipset.c:2942-2984. -/
def amlogicEntries : List AmlogicEntry :=
  [⟨true, b!"meson3", .amlogicAml, 8726, b!"-M"⟩,
   ⟨true, b!"meson6", .amlogicAml, 8726, b!"-MX"⟩,
   ⟨true, b!"meson8", .amlogicS, 805, []⟩,
   ⟨false, b!"gxbaby", .amlogicS, 905, []⟩,
   ⟨false, b!"gxl", .amlogicS, 905, b!"X"⟩,
   ⟨false, b!"gxm", .amlogicS, 912, []⟩]

/-- `chipset_vendor_string`, src/arm/linux/chipset.c:3746-3770. -/
def vendorString : Vendor → Bytes
  | .unknown => b!"Unknown"
  | .qualcomm => b!"Qualcomm"
  | .mediatek => b!"MediaTek"
  | .samsung => b!"Samsung"
  | .hisilicon => b!"HiSilicon"
  | .actions => b!"Actions"
  | .allwinner => b!"Allwinner"
  | .amlogic => b!"Amlogic"
  | .broadcom => b!"Broadcom"
  | .lg => b!"LG"
  | .leadcore => b!"Leadcore"
  | .marvell => b!"Marvell"
  | .mstar => b!"MStar"
  | .novathor => b!"NovaThor"
  | .nvidia => b!"Nvidia"
  | .pinecone => b!"Pinecone"
  | .renesas => b!"Renesas"
  | .rockchip => b!"Rockchip"
  | .spreadtrum => b!"Spreadtrum"
  | .telechips => b!"Telechips"
  | .texasInstruments => b!"Texas Instruments"
  | .unisoc => b!"Unisoc"
  | .wondermedia => b!"WonderMedia"

/-- `chipset_series_string`, src/arm/linux/chipset.c:3773-3806; `none` is the null pointer of the unknown
series. -/
def seriesString : Series → Option Bytes
  | .unknown => none
  | .qualcommQsd => some b!"QSD"
  | .qualcommMsm => some b!"MSM"
  | .qualcommApq => some b!"APQ"
  | .qualcommSnapdragon => some b!"Snapdragon "
  | .mediatekMt => some b!"MT"
  | .samsungExynos => some b!"Exynos "
  | .hisiliconK3v => some b!"K3V"
  | .hisiliconHi => some b!"Hi"
  | .hisiliconKirin => some b!"Kirin "
  | .actionsAtm => some b!"ATM"
  | .allwinnerA => some b!"A"
  | .amlogicAml => some b!"AML"
  | .amlogicS => some b!"S"
  | .broadcomBcm => some b!"BCM"
  | .lgNuclun => some b!"Nuclun "
  | .leadcoreLc => some b!"LC"
  | .marvellPxa => some b!"PXA"
  | .mstar6a => some b!"6A"
  | .novathorU => some b!"U"
  | .nvidiaTegraT => some b!"Tegra T"
  | .nvidiaTegraAp => some b!"Tegra AP"
  | .nvidiaTegraSl => some b!"Tegra SL"
  | .pineconeSurgeS => some b!"Surge S"
  | .renesasMp => some b!"MP"
  | .rockchipRk => some b!"RK"
  | .spreadtrumSc => some b!"SC"
  | .telechipsTcc => some b!"TCC"
  | .texasInstrumentsOmap => some b!"OMAP"
  | .unisocT => some b!"T"
  | .unisocUms => some b!"UMS"
  | .wondermediaWm => some b!"WM"

end Verif.ArmChipset
