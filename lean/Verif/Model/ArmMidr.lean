import Verif.Base

/-!
# Model of src/arm/midr.h

The Main ID Register of an ARM core: implementer (bits 31-24), variant (23-20), architecture
(19-16), part (15-4), revision (3-0).  `uint32_t` values are natural numbers; every operation that
can leave 32 bits is reduced modulo `U32`.
-/

set_option autoImplicit false

namespace Verif.ArmMidr

/-- The instruction set the library is compiled for: `CPUINFO_ARCH_ARM` or
`CPUINFO_ARCH_ARM64`, src/cpuinfo/internal-api.h via include/cpuinfo.h. -/
inductive Arch where
  | arm
  | arm64
deriving DecidableEq, Repr

/-- `CPUINFO_ARM_MIDR_IMPLEMENTER_MASK`, src/arm/midr.h:4. -/
def implementerMask : Nat := 0xFF000000
/-- `CPUINFO_ARM_MIDR_VARIANT_MASK`, src/arm/midr.h:5. -/
def variantMask : Nat := 0x00F00000
/-- `CPUINFO_ARM_MIDR_ARCHITECTURE_MASK`, src/arm/midr.h:6. -/
def architectureMask : Nat := 0x000F0000
/-- `CPUINFO_ARM_MIDR_PART_MASK`, src/arm/midr.h:7. -/
def partMask : Nat := 0x0000FFF0
/-- `CPUINFO_ARM_MIDR_REVISION_MASK`, src/arm/midr.h:8. -/
def revisionMask : Nat := 0x0000000F

/-- Bitwise complement of a `uint32_t`. -/
def not32 (x : Nat) : Nat := U32MAX ^^^ x

/-- Left shift of a `uint32_t`. -/
def shl32 (x k : Nat) : Nat := (x <<< k) % U32

/-- `midr_set_implementer`, src/arm/midr.h:39-42. -/
def setImplementer (midr v : Nat) : Nat :=
  (midr &&& not32 implementerMask) ||| (shl32 v 24 &&& implementerMask)
/-- `midr_set_variant`, src/arm/midr.h:44-47. -/
def setVariant (midr v : Nat) : Nat :=
  (midr &&& not32 variantMask) ||| (shl32 v 20 &&& variantMask)
/-- `midr_set_architecture`, src/arm/midr.h:49-52. -/
def setArchitecture (midr v : Nat) : Nat :=
  (midr &&& not32 architectureMask) ||| (shl32 v 16 &&& architectureMask)
/-- `midr_set_part`, src/arm/midr.h:54-57. -/
def setPart (midr v : Nat) : Nat :=
  (midr &&& not32 partMask) ||| (shl32 v 4 &&& partMask)
/-- `midr_set_revision`, src/arm/midr.h:59-62. -/
def setRevision (midr v : Nat) : Nat :=
  (midr &&& not32 revisionMask) ||| (shl32 v 0 &&& revisionMask)

/-- `midr_get_variant`, src/arm/midr.h:64-66. -/
def getVariant (midr : Nat) : Nat := (midr &&& variantMask) >>> 20
/-- `midr_get_implementer`, src/arm/midr.h:68-70. -/
def getImplementer (midr : Nat) : Nat := (midr &&& implementerMask) >>> 24
/-- `midr_get_part`, src/arm/midr.h:72-74. -/
def getPart (midr : Nat) : Nat := (midr &&& partMask) >>> 4
/-- `midr_get_revision`, src/arm/midr.h:76-78. -/
def getRevision (midr : Nat) : Nat := (midr &&& revisionMask) >>> 0

/-- `midr_copy_implementer`, src/arm/midr.h:80-82. -/
def copyImplementer (midr other : Nat) : Nat :=
  (midr &&& not32 implementerMask) ||| (other &&& implementerMask)
/-- `midr_copy_variant`, src/arm/midr.h:84-86. -/
def copyVariant (midr other : Nat) : Nat :=
  (midr &&& not32 variantMask) ||| (other &&& variantMask)
/-- `midr_copy_architecture`, src/arm/midr.h:88-90. -/
def copyArchitecture (midr other : Nat) : Nat :=
  (midr &&& not32 architectureMask) ||| (other &&& architectureMask)
/-- `midr_copy_part`, src/arm/midr.h:92-94. -/
def copyPart (midr other : Nat) : Nat :=
  (midr &&& not32 partMask) ||| (other &&& partMask)
/-- `midr_copy_revision`, src/arm/midr.h:96-98. -/
def copyRevision (midr other : Nat) : Nat :=
  (midr &&& not32 revisionMask) ||| (other &&& revisionMask)

/-- `uarch_mask` / `core_mask` of the `midr_is_*` functions and `midr_score_core`. -/
def coreMask : Nat := implementerMask ||| partMask

/-- `midr_is_arm1156`, src/arm/midr.h:100-103. -/
def isArm1156 (midr : Nat) : Bool := midr &&& coreMask == 0x410FB560 &&& coreMask
/-- `midr_is_arm11`, src/arm/midr.h:105-107. -/
def isArm11 (midr : Nat) : Bool := midr &&& (implementerMask ||| 0x0000F000) == 0x4100B000
/-- `midr_is_cortex_a9`, src/arm/midr.h:109-112. -/
def isCortexA9 (midr : Nat) : Bool := midr &&& coreMask == 0x410FC090 &&& coreMask
/-- `midr_is_scorpion`, src/arm/midr.h:114-122. -/
def isScorpion (midr : Nat) : Bool :=
  midr &&& coreMask == 0x510000F0 || midr &&& coreMask == 0x510002D0
/-- `midr_is_krait`, src/arm/midr.h:124-132. -/
def isKrait (midr : Nat) : Bool :=
  midr &&& coreMask == 0x510004D0 || midr &&& coreMask == 0x510006F0
/-- `midr_is_cortex_a53`, src/arm/midr.h:134-137. -/
def isCortexA53 (midr : Nat) : Bool := midr &&& coreMask == 0x410FD030 &&& coreMask
/-- `midr_is_qualcomm_cortex_a53_silver`, src/arm/midr.h:139-142. -/
def isQualcommA53Silver (midr : Nat) : Bool := midr &&& coreMask == 0x51AF8014 &&& coreMask
/-- `midr_is_qualcomm_cortex_a55_silver`, src/arm/midr.h:144-147. -/
def isQualcommA55Silver (midr : Nat) : Bool := midr &&& coreMask == 0x518F803C &&& coreMask
/-- `midr_is_kryo280_gold`, src/arm/midr.h:149-152. -/
def isKryo280Gold (midr : Nat) : Bool := midr &&& coreMask == 0x51AF8001 &&& coreMask
/-- `midr_is_kryo_silver`, src/arm/midr.h:154-164. -/
def isKryoSilver (midr : Nat) : Bool :=
  let m := midr &&& (implementerMask ||| architectureMask ||| partMask)
  m == 0x510F2110 || m == 0x510F2010
/-- `midr_is_kryo_gold`, src/arm/midr.h:166-169. -/
def isKryoGold (midr : Nat) : Bool := midr &&& coreMask == 0x510F2050 &&& coreMask
/-- `midr_is_ampere_altra`, src/arm/midr.h:171-174. -/
def isAmpereAltra (midr : Nat) : Bool := midr &&& coreMask == 0x413fd0c1 &&& coreMask

/-- The case labels of `midr_score_core` returning 6, src/arm/midr.h:179-187. -/
def score6 : List Nat := [0x53000030, 0x53000040, 0x4100D440, 0x4100D480, 0x4100D4E0]
/-- The case labels returning 5, src/arm/midr.h:188-212. -/
def score5 (a : Arch) : List Nat :=
  [0x4100D080, 0x4100D090, 0x4100D0A0, 0x4100D0B0, 0x4100D0D0, 0x4100D0E0, 0x4100D410, 0x4100D470,
    0x4100D4D0, 0x4800D400, 0x4E000030, 0x51002050, 0x51008000, 0x51008020, 0x51008040, 0x53000010,
    0x53000020] ++
  (match a with
    | .arm => [0x4100C0F0, 0x4100C0E0, 0x4100C0D0, 0x4100C0C0]
    | .arm64 => [])
/-- The case labels returning 4, src/arm/midr.h:213-216. -/
def score4 : List Nat := [0x4100D070]
/-- The case labels returning 2, src/arm/midr.h:217-225. -/
def score2 (a : Arch) : List Nat :=
  (match a with | .arm => [] | .arm64 => [0x4100D060]) ++ [0x4100D030, 0x4100D050, 0x4100D460]
/-- The case labels returning 1, src/arm/midr.h:226-236. -/
def score1 (a : Arch) : List Nat :=
  [0x4100D040] ++ (match a with | .arm => [0x4100C070] | .arm64 => []) ++
  [0x51008050, 0x51008030, 0x51008010, 0x51002110, 0x51002010]

/-- `midr_score_core`, src/arm/midr.h:176-248. -/
def scoreCore (a : Arch) (midr : Nat) : Nat :=
  let m := midr &&& coreMask
  if m ∈ score6 then 6
  else if m ∈ score5 a then 5
  else if m ∈ score4 then 4
  else if m ∈ score2 a then 2
  else if m ∈ score1 a then 1
  else 3

/-- `midr_little_core_for_big`, src/arm/midr.h:250-273. -/
def littleCoreForBig (midr : Nat) : Nat :=
  let m := midr &&& (implementerMask ||| architectureMask ||| partMask)
  if m = 0x410FD0A0 then 0x410FD050
  else if m = 0x410FD090 ∨ m = 0x410FD080 ∨ m = 0x410FD070 ∨ m = 0x530F0010 then 0x410FD030
  else if m = 0x410FC0E0 ∨ m = 0x410FC0F0 then 0x410FC070
  else if m = 0x51AF8001 then 0x51AF8014
  else if m = 0x510F2050 then 0x510F2110
  else if m = 0x4E0F0030 then 0x410FD070
  else midr

end Verif.ArmMidr
