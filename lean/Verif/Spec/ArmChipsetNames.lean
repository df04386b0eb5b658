import Verif.Base

/-!
# Platforms and the chipsets they stand for

The tables of src/arm/linux/chipset.c explain every entry in a comment `"platform" -> chipset`.  These
are the comments, in order, without remarks in parentheses; Tegra chipsets with the vendor's name in
front, and with the usual spelling of Rockchip (the comment of line 3062 says RockChip).  The first
component says that the entry is inside `#if CPUINFO_ARCH_ARM`.
-/

set_option autoImplicit false

namespace Verif.Spec.Chipsets

/-- src/arm/linux/chipset.c:1944-2068. -/
def hardwareNames : List (Bool × Bytes × Bytes) :=
  [(true, b!"k3v2oem1", b!"HiSilicon K3V2"),
   (true, b!"hi6620oem", b!"HiSilicon Kirin 910T"),
   (false, b!"hi6250", b!"HiSilicon Kirin 650"),
   (false, b!"hi6210sft", b!"HiSilicon Kirin 620"),
   (false, b!"hi3751", b!"HiSilicon Hi3751"),
   (true, b!"hi3630", b!"HiSilicon Kirin 920"),
   (false, b!"hi3635", b!"HiSilicon Kirin 930"),
   (true, b!"gs702a", b!"Actions ATM7029"),
   (true, b!"gs702c", b!"Actions ATM7029B"),
   (true, b!"gs703d", b!"Actions ATM7039S"),
   (true, b!"gs705a", b!"Actions ATM7059A"),
   (true, b!"Amlogic Meson8", b!"Amlogic S812"),
   (true, b!"Amlogic Meson8B", b!"Amlogic S805"),
   (true, b!"mapphone_CDMA", b!"Texas Instruments OMAP4430"),
   (true, b!"Superior", b!"Texas Instruments OMAP4470"),
   (true, b!"Tuna", b!"Texas Instruments OMAP4460"),
   (true, b!"Manta", b!"Samsung Exynos 5250"),
   (true, b!"Odin", b!"LG Nuclun 7111"),
   (true, b!"Madison", b!"MStar 6A338")]

/-- src/arm/linux/chipset.c:2070-2397. -/
def tegraNames : List (Bool × Bytes × Bytes) :=
  [(true, b!"cardhu", b!"Nvidia Tegra T30"),
   (true, b!"kai", b!"Nvidia Tegra T30L"),
   (true, b!"p3", b!"Nvidia Tegra T20"),
   (true, b!"n1", b!"Nvidia Tegra AP20H"),
   (true, b!"SHW-M380S", b!"Nvidia Tegra T20"),
   (true, b!"m470", b!"Nvidia Tegra T30L"),
   (true, b!"endeavoru", b!"Nvidia Tegra AP33"),
   (true, b!"evitareul", b!"Nvidia Tegra T33"),
   (true, b!"enrc2b", b!"Nvidia Tegra T33"),
   (true, b!"mozart", b!"Nvidia Tegra T114"),
   (true, b!"tegratab", b!"Nvidia Tegra T114"),
   (true, b!"tn8", b!"Nvidia Tegra T124"),
   (true, b!"roth", b!"Nvidia Tegra T114"),
   (true, b!"pisces", b!"Nvidia Tegra T114"),
   (true, b!"mocha", b!"Nvidia Tegra T124"),
   (true, b!"stingray", b!"Nvidia Tegra AP20H"),
   (true, b!"Ceres", b!"Nvidia Tegra SL460N"),
   (true, b!"MT799", b!"Nvidia Tegra T30"),
   (true, b!"t8400n", b!"Nvidia Tegra T114"),
   (true, b!"chagall", b!"Nvidia Tegra T30"),
   (true, b!"ventana", b!"Nvidia Tegra T20"),
   (true, b!"bobsleigh", b!"Nvidia Tegra T33"),
   (true, b!"tegra_fjdev101", b!"Nvidia Tegra AP33"),
   (true, b!"tegra_fjdev103", b!"Nvidia Tegra T33"),
   (true, b!"nbx03", b!"Nvidia Tegra T20"),
   (true, b!"txs03", b!"Nvidia Tegra T30L"),
   (true, b!"x3", b!"Nvidia Tegra AP33"),
   (true, b!"vu10", b!"Nvidia Tegra AP33"),
   (true, b!"BIRCH", b!"Nvidia Tegra T30L"),
   (true, b!"macallan", b!"Nvidia Tegra T114"),
   (true, b!"maya", b!"Nvidia Tegra T114"),
   (true, b!"antares", b!"Nvidia Tegra T20"),
   (true, b!"tostab12AL", b!"Nvidia Tegra T30L"),
   (true, b!"tostab12BL", b!"Nvidia Tegra T30L"),
   (true, b!"sphinx", b!"Nvidia Tegra T30"),
   (true, b!"tostab11BS", b!"Nvidia Tegra T30"),
   (true, b!"tostab12BA", b!"Nvidia Tegra T114"),
   (true, b!"vangogh", b!"Nvidia Tegra T20"),
   (true, b!"a110", b!"Nvidia Tegra T30L"),
   (true, b!"picasso_e", b!"Nvidia Tegra AP20H"),
   (true, b!"picasso_e2", b!"Nvidia Tegra T30L"),
   (true, b!"picasso", b!"Nvidia Tegra AP20H"),
   (true, b!"picasso_m", b!"Nvidia Tegra T30"),
   (true, b!"picasso_mf", b!"Nvidia Tegra T30"),
   (true, b!"avalon", b!"Nvidia Tegra T30L"),
   (true, b!"NS_14T004", b!"Nvidia Tegra T30L"),
   (true, b!"WIKIPAD", b!"Nvidia Tegra T30"),
   (true, b!"kb", b!"Nvidia Tegra T114"),
   (false, b!"foster_e", b!"Nvidia Tegra T210"),
   (false, b!"foster_e_hdd", b!"Nvidia Tegra T210"),
   (false, b!"darcy", b!"Nvidia Tegra T210")]

/-- src/arm/linux/chipset.c:2678-2798. -/
def boardNames : List (Bool × Bytes × Bytes) :=
  [(false, b!"hi6250", b!"HiSilicon Kirin 650"),
   (false, b!"hi6210sft", b!"HiSilicon Kirin 620"),
   (true, b!"hi3630", b!"HiSilicon Kirin 920"),
   (false, b!"hi3635", b!"HiSilicon Kirin 930"),
   (false, b!"hi3650", b!"HiSilicon Kirin 950"),
   (false, b!"hi3660", b!"HiSilicon Kirin 960"),
   (true, b!"mp523x", b!"Renesas MP5232"),
   (false, b!"BEETHOVEN", b!"HiSilicon Kirin 950"),
   (true, b!"hws7701u", b!"Rockchip RK3168"),
   (true, b!"g2mv", b!"Nvidia Tegra SL460N"),
   (true, b!"K00F", b!"Rockchip RK3188"),
   (true, b!"T7H", b!"Rockchip RK3066"),
   (true, b!"tuna", b!"Texas Instruments OMAP4460"),
   (true, b!"grouper", b!"Nvidia Tegra T30L"),
   (false, b!"flounder", b!"Nvidia Tegra T132"),
   (false, b!"dragon", b!"Nvidia Tegra T210"),
   (false, b!"sailfish", b!"Qualcomm MSM8996PRO"),
   (false, b!"marlin", b!"Qualcomm MSM8996PRO")]

/-- src/arm/linux/chipset.c:2986-3094. -/
def platformNames : List (Bool × Bytes × Bytes) :=
  [(true, b!"hi6620oem", b!"HiSilicon Kirin 910T"),
   (false, b!"hi6250", b!"HiSilicon Kirin 650"),
   (false, b!"hi6210sft", b!"HiSilicon Kirin 620"),
   (true, b!"hi3630", b!"HiSilicon Kirin 920"),
   (false, b!"hi3635", b!"HiSilicon Kirin 930"),
   (false, b!"hi3650", b!"HiSilicon Kirin 950"),
   (false, b!"hi3660", b!"HiSilicon Kirin 960"),
   (true, b!"k3v2oem1", b!"HiSilicon K3V2"),
   (true, b!"k3v200", b!"HiSilicon K3V2"),
   (true, b!"montblanc", b!"NovaThor U8500"),
   (false, b!"song", b!"Pinecone Surge S1"),
   (true, b!"rk322x", b!"Rockchip RK3229"),
   (false, b!"tegra132", b!"Nvidia Tegra T132"),
   (false, b!"tegra210_dragon", b!"Nvidia Tegra T210"),
   (true, b!"tegra4", b!"Nvidia Tegra T114"),
   (true, b!"s5pc110", b!"Samsung Exynos 3110")]

/-- src/arm/linux/chipset.c:2942-2984. -/
def amlogicNames : List (Bool × Bytes × Bytes) :=
  [(true, b!"meson3", b!"Amlogic AML8726-M"),
   (true, b!"meson6", b!"Amlogic AML8726-MX"),
   (true, b!"meson8", b!"Amlogic S805"),
   (false, b!"gxbaby", b!"Amlogic S905"),
   (false, b!"gxl", b!"Amlogic S905X"),
   (false, b!"gxm", b!"Amlogic S912")]

end Verif.Spec.Chipsets
