import Verif.Base
import Verif.Model.X86Cpuid
import Verif.Model.ArmMach

/-!
# The enumerators of include/cpuinfo.h and what a printed line tells, for C148–C150
-/

set_option autoImplicit false

namespace Verif.Spec

/-- `enum cpuinfo_vendor`, include/cpuinfo.h:156-308, without the prefix. -/
def vendorEnum : List (Bytes × Nat) :=
  [(b!"unknown", 0), (b!"intel", 1), (b!"amd", 2), (b!"arm", 3), (b!"qualcomm", 4), (b!"apple", 5),
   (b!"samsung", 6), (b!"nvidia", 7), (b!"mips", 8), (b!"ibm", 9), (b!"ingenic", 10), (b!"via", 11),
   (b!"cavium", 12), (b!"broadcom", 13), (b!"apm", 14), (b!"huawei", 15), (b!"hygon", 16),
   (b!"sifive", 17), (b!"texas_instruments", 30), (b!"marvell", 31), (b!"rdc", 32), (b!"dmp", 33),
   (b!"motorola", 34), (b!"transmeta", 50), (b!"cyrix", 51), (b!"rise", 52), (b!"nsc", 53),
   (b!"sis", 54), (b!"nexgen", 55), (b!"umc", 56), (b!"dec", 57)]

/-- `enum cpuinfo_uarch`, include/cpuinfo.h:317-605, without the prefix and the deprecated synonyms. -/
def uarchEnum : List (Bytes × Nat) :=
  [(b!"unknown", 0x00000000), (b!"p5", 0x00100100), (b!"quark", 0x00100101), (b!"p6", 0x00100200),
   (b!"dothan", 0x00100201), (b!"yonah", 0x00100202), (b!"conroe", 0x00100203),
   (b!"penryn", 0x00100204), (b!"nehalem", 0x00100205), (b!"sandy_bridge", 0x00100206),
   (b!"ivy_bridge", 0x00100207), (b!"haswell", 0x00100208), (b!"broadwell", 0x00100209),
   (b!"sky_lake", 0x0010020A), (b!"palm_cove", 0x0010020B), (b!"sunny_cove", 0x0010020C),
   (b!"willamette", 0x00100300), (b!"prescott", 0x00100301), (b!"bonnell", 0x00100400),
   (b!"saltwell", 0x00100401), (b!"silvermont", 0x00100402), (b!"airmont", 0x00100403),
   (b!"goldmont", 0x00100404), (b!"goldmont_plus", 0x00100405), (b!"knights_ferry", 0x00100500),
   (b!"knights_corner", 0x00100501), (b!"knights_landing", 0x00100502),
   (b!"knights_hill", 0x00100503), (b!"knights_mill", 0x00100504), (b!"xscale", 0x00100600),
   (b!"k5", 0x00200100), (b!"k6", 0x00200101), (b!"k7", 0x00200102), (b!"k8", 0x00200103),
   (b!"k10", 0x00200104), (b!"bulldozer", 0x00200105), (b!"piledriver", 0x00200106),
   (b!"steamroller", 0x00200107), (b!"excavator", 0x00200108), (b!"zen", 0x00200109),
   (b!"zen2", 0x0020010A), (b!"zen3", 0x0020010B), (b!"zen4", 0x0020010C), (b!"zen5", 0x0020010D),
   (b!"geode", 0x00200200), (b!"bobcat", 0x00200201), (b!"jaguar", 0x00200202),
   (b!"puma", 0x00200203), (b!"arm7", 0x00300100), (b!"arm9", 0x00300101), (b!"arm11", 0x00300102),
   (b!"cortex_a5", 0x00300205), (b!"cortex_a7", 0x00300207), (b!"cortex_a8", 0x00300208),
   (b!"cortex_a9", 0x00300209), (b!"cortex_a12", 0x00300212), (b!"cortex_a15", 0x00300215),
   (b!"cortex_a17", 0x00300217), (b!"cortex_a32", 0x00300332), (b!"cortex_a35", 0x00300335),
   (b!"cortex_a53", 0x00300353), (b!"cortex_a55r0", 0x00300354), (b!"cortex_a55", 0x00300355),
   (b!"cortex_a57", 0x00300357), (b!"cortex_a65", 0x00300365), (b!"cortex_a72", 0x00300372),
   (b!"cortex_a73", 0x00300373), (b!"cortex_a75", 0x00300375), (b!"cortex_a76", 0x00300376),
   (b!"cortex_a77", 0x00300377), (b!"cortex_a78", 0x00300378), (b!"neoverse_n1", 0x00300400),
   (b!"neoverse_e1", 0x00300401), (b!"neoverse_v1", 0x00300402), (b!"neoverse_n2", 0x00300403),
   (b!"neoverse_v2", 0x00300404), (b!"cortex_x1", 0x00300501), (b!"cortex_x2", 0x00300502),
   (b!"cortex_x3", 0x00300503), (b!"cortex_x4", 0x00300504), (b!"cortex_a510", 0x00300551),
   (b!"cortex_a520", 0x00300552), (b!"cortex_a710", 0x00300571), (b!"cortex_a715", 0x00300572),
   (b!"cortex_a720", 0x00300573), (b!"scorpion", 0x00400100), (b!"krait", 0x00400101),
   (b!"kryo", 0x00400102), (b!"falkor", 0x00400103), (b!"saphira", 0x00400104),
   (b!"oryon", 0x00400105), (b!"denver", 0x00500100), (b!"denver2", 0x00500101),
   (b!"carmel", 0x00500102), (b!"exynos_m1", 0x00600100), (b!"exynos_m2", 0x00600101),
   (b!"exynos_m3", 0x00600102), (b!"exynos_m4", 0x00600103), (b!"exynos_m5", 0x00600104),
   (b!"swift", 0x00700100), (b!"cyclone", 0x00700101), (b!"typhoon", 0x00700102),
   (b!"twister", 0x00700103), (b!"hurricane", 0x00700104), (b!"monsoon", 0x00700105),
   (b!"mistral", 0x00700106), (b!"vortex", 0x00700107), (b!"tempest", 0x00700108),
   (b!"lightning", 0x00700109), (b!"thunder", 0x0070010A), (b!"firestorm", 0x0070010B),
   (b!"icestorm", 0x0070010C), (b!"avalanche", 0x0070010D), (b!"blizzard", 0x0070010E),
   (b!"thunderx", 0x00800100), (b!"thunderx2", 0x00800200), (b!"pj4", 0x00900100),
   (b!"brahma_b15", 0x00A00100), (b!"brahma_b53", 0x00A00101), (b!"xgene", 0x00B00100),
   (b!"dhyana", 0x01000100), (b!"taishan_v110", 0x00C00100)]

/-- The letters (in lower case) and digits of a text. -/
def plain (s : Bytes) : Bytes :=
  (s.filter fun c => (48 ≤ c ∧ c ≤ 57) ∨ (65 ≤ c ∧ c ≤ 90) ∨ (97 ≤ c ∧ c ≤ 122)).map fun c =>
    if 65 ≤ c ∧ c ≤ 90 then c + 32 else c

/-- The name of a vendor of `X86Cpuid` in include/cpuinfo.h. -/
def x86VendorId : X86Cpuid.Vendor → Bytes
  | .unknown => b!"unknown" | .intel => b!"intel" | .amd => b!"amd" | .via => b!"via"
  | .hygon => b!"hygon" | .rdc => b!"rdc" | .dmp => b!"dmp" | .transmeta => b!"transmeta"
  | .cyrix => b!"cyrix" | .rise => b!"rise" | .nsc => b!"nsc" | .sis => b!"sis"
  | .nexgen => b!"nexgen" | .umc => b!"umc"

/-- The name of a microarchitecture of `X86Cpuid` in include/cpuinfo.h. -/
def x86UarchId : X86Cpuid.Uarch → Bytes
  | .unknown => b!"unknown" | .p5 => b!"p5" | .quark => b!"quark" | .p6 => b!"p6"
  | .dothan => b!"dothan" | .yonah => b!"yonah" | .conroe => b!"conroe" | .penryn => b!"penryn"
  | .nehalem => b!"nehalem" | .sandyBridge => b!"sandy_bridge" | .ivyBridge => b!"ivy_bridge"
  | .haswell => b!"haswell" | .broadwell => b!"broadwell" | .skyLake => b!"sky_lake"
  | .palmCove => b!"palm_cove" | .sunnyCove => b!"sunny_cove" | .bonnell => b!"bonnell"
  | .saltwell => b!"saltwell" | .silvermont => b!"silvermont" | .airmont => b!"airmont"
  | .goldmont => b!"goldmont" | .goldmontPlus => b!"goldmont_plus"
  | .knightsLanding => b!"knights_landing" | .knightsMill => b!"knights_mill"
  | .willamette => b!"willamette" | .prescott => b!"prescott" | .k5 => b!"k5" | .k6 => b!"k6"
  | .geode => b!"geode" | .k7 => b!"k7" | .k8 => b!"k8" | .k10 => b!"k10" | .bobcat => b!"bobcat"
  | .bulldozer => b!"bulldozer" | .piledriver => b!"piledriver" | .steamroller => b!"steamroller"
  | .excavator => b!"excavator" | .puma => b!"puma" | .jaguar => b!"jaguar" | .zen => b!"zen"
  | .zen2 => b!"zen2" | .zen3 => b!"zen3" | .zen4 => b!"zen4" | .zen5 => b!"zen5"
  | .dhyana => b!"dhyana"

/-- The name of a microarchitecture of `ArmMach` in include/cpuinfo.h. -/
def appleUarchId : ArmMach.Uarch → Bytes
  | .unknown => b!"unknown" | .cyclone => b!"cyclone" | .typhoon => b!"typhoon"
  | .twister => b!"twister" | .hurricane => b!"hurricane" | .monsoon => b!"monsoon"
  | .mistral => b!"mistral" | .vortex => b!"vortex" | .tempest => b!"tempest"
  | .lightning => b!"lightning" | .thunder => b!"thunder" | .firestorm => b!"firestorm"
  | .icestorm => b!"icestorm" | .avalanche => b!"avalanche" | .blizzard => b!"blizzard"

end Verif.Spec
