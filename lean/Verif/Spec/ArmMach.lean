import Verif.Model.ArmMach
import Verif.Spec.Platform
import Verif.Spec.CpuList

/-!
# What a user expects of ARM detection on Mach
-/

set_option autoImplicit false

namespace Verif.Spec
open ArmMach

/-- The processors that src/arm/mach/init.c documents (comments at lines 80-96): family, number of
cores, and the kinds of the cores in their order.  The comment for Vortex says "4x Cortex"; this is
read as Vortex.  Families are written as the numbers of src/arm/mach/init.c:17-29 and of
`mach/machine.h`. -/
def documentedCores : List (Nat × Nat × List (Nat × Uarch)) :=
  [ (0xE81E7EF6, 6, [(2, .monsoon), (4, .mistral)]),
    (0x07D34B9F, 6, [(2, .vortex), (4, .tempest)]),
    (0x07D34B9F, 8, [(4, .vortex), (4, .tempest)]),
    (0x462504D2, 6, [(2, .lightning), (4, .thunder)]),
    (0x462504D2, 8, [(4, .lightning), (4, .thunder)]),
    (0x1B588BB3, 6, [(2, .firestorm), (4, .icestorm)]),
    (0x1B588BB3, 8, [(4, .firestorm), (4, .icestorm)]),
    (0xDA33D83D, 6, [(2, .avalanche), (4, .blizzard)]) ]

/-- Families with one kind of core. -/
def oneKind : List (Nat × Uarch) :=
  [(0x37A09642, .cyclone), (0x2C91A47E, .typhoon), (0x92FB37C8, .twister), (0x67CEEE93, .hurricane)]

/-- Families with big cores first and four small ones last. -/
def twoKinds : List (Nat × Uarch × Uarch) :=
  [(0x07D34B9F, .vortex, .tempest), (0x462504D2, .lightning, .thunder),
    (0x1B588BB3, .firestorm, .icestorm), (0xDA33D83D, .avalanche, .blizzard)]

/-- The devices that the comments of src/arm/mach/init.c:144-238 list, with their chips. -/
def documentedDevices : List (Bytes × List Bytes) :=
  [ (b!"A4", [b!"iPhone3,1", b!"iPhone3,2", b!"iPhone3,3"]),
    (b!"A5", [b!"iPhone4,1"]),
    (b!"A6", [b!"iPhone5,1", b!"iPhone5,2", b!"iPhone5,3", b!"iPhone5,4"]),
    (b!"A7", [b!"iPhone6,1", b!"iPhone6,2"]),
    (b!"A8", [b!"iPhone7,2", b!"iPhone7,1"]),
    (b!"A9", [b!"iPhone8,1", b!"iPhone8,2", b!"iPhone8,4"]),
    (b!"A10", [b!"iPhone9,1", b!"iPhone9,3", b!"iPhone9,2", b!"iPhone9,4"]),
    (b!"A11", [b!"iPhone10,1", b!"iPhone10,4", b!"iPhone10,2", b!"iPhone10,5", b!"iPhone10,3",
      b!"iPhone10,6"]),
    (b!"A12", [b!"iPhone11,2", b!"iPhone11,4", b!"iPhone11,6", b!"iPhone11,8"]),
    (b!"A5", [b!"iPad2,1", b!"iPad2,2", b!"iPad2,3", b!"iPad2,4", b!"iPad2,5", b!"iPad2,6",
      b!"iPad2,7"]),
    (b!"A5X", [b!"iPad3,1", b!"iPad3,2", b!"iPad3,3"]),
    (b!"A6X", [b!"iPad3,4", b!"iPad3,5", b!"iPad3,6"]),
    (b!"A7", [b!"iPad4,1", b!"iPad4,2", b!"iPad4,3", b!"iPad4,4", b!"iPad4,5", b!"iPad4,6",
      b!"iPad4,7", b!"iPad4,8", b!"iPad4,9"]),
    (b!"A8", [b!"iPad5,1", b!"iPad5,2"]),
    (b!"A8X", [b!"iPad5,3", b!"iPad5,4"]),
    (b!"A9X", [b!"iPad6,3", b!"iPad6,4", b!"iPad6,7", b!"iPad6,8"]),
    (b!"A9", [b!"iPad6,11", b!"iPad6,12"]),
    (b!"A10X", [b!"iPad7,1", b!"iPad7,2", b!"iPad7,3", b!"iPad7,4"]),
    (b!"A10", [b!"iPad7,5", b!"iPad7,6"]),
    (b!"A5", [b!"iPod5,1"]),
    (b!"A8", [b!"iPod7,1"]) ]

/-- The system gives a 32-bit answer that is not zero. -/
def Says (a : ArmMach.Answer) : Prop :=
  a.size = some 4 ∧ ∃ v : Nat, a.value = some v ∧ v % 2 ^ 32 ≠ 0

/-- When `cpuinfo_has_arm_*` should answer yes: always, never, or if the system says that the feature
is there or the family is known to have it. -/
inductive Expect
  | always
  | never
  | told (answers : List ArmMach.Answer) (families : List Nat)

/-- What this means. -/
def Expect.Holds (family : Nat) : Expect → Prop
  | .always => True
  | .never => False
  | .told answers families => (∃ a ∈ answers, Says a) ∨ family ∈ families

/-- Processors since 2017 (A11) and since 2019 (A13) that came out before the system could be asked. -/
def families2017 : List Nat :=
  [0xE81E7EF6, 0x07D34B9F, 0x462504D2, 0x1B588BB3]
@[inherit_doc families2017] def families2019 : List Nat := [0x462504D2, 0x1B588BB3]

/-- The expectation for every query of include/cpuinfo.h:1722-2134. -/
def expectation (f : Features) : ArmIsa.Query → Expect
  | .thumb | .thumb2 | .v5e | .v6 | .v6k | .v7 | .v7mp | .vfpv2 | .wmmx | .wmmx2 => .never
  | .v8 | .idiv | .vfpv3 | .vfpv3D32 | .vfpv3Fp16 | .vfpv3Fp16D32 | .vfpv4 | .vfpv4D32 | .neon
  | .neonFp16 | .neonFma | .neonV8 => .always
  | .aes | .sha1 | .sha2 | .pmull | .crc32 => .always
  | .atomics => .told [f.lse] families2017
  | .neonRdm => .told [f.rdm] families2017
  | .fp16Arith | .neonFp16Arith => .told [f.fp16] families2017
  | .fhm => .told [f.fhm, f.fhmLegacy] families2019
  | .bf16 | .neonBf16 => .told [f.bf16] []
  | .fcma => .told [f.fcma] families2019
  | .jscvt => .told [f.jscvt] families2019
  | .neonDot => .told [f.dotProd] families2019
  | .i8mm => .told [f.i8mm] []
  | .sme => .told [f.sme] []
  | .sme2 => .told [f.sme2] []
  | .sve | .sveBf16 | .sve2 | .sme2p1 | .smeI16I32 | .smeBi32I32 | .smeB16B16 | .smeF16F16 => .never

end Verif.Spec
