import Verif.Model.ArmIsa
import Verif.Spec.ArmPublished

/-!
# What the instruction set queries of ARM have to answer

Bit positions are those of the Linux headers arch/arm64/include/uapi/asm/hwcap.h and
arch/arm/include/uapi/asm/hwcap.h.  Cores are named by implementer and part number.
-/

set_option autoImplicit false

namespace Verif.Spec
open ArmCpuinfo ArmClusters ArmInit ArmMidr ArmIsa ArmChipset

/-- Implementer and part number in a MIDR. -/
def coreOf (midr : Nat) : Nat × Nat := (midr / 16777216 % 256, midr / 16 % 4096)

/-- The variant in a MIDR. -/
def variantOf (midr : Nat) : Nat := midr / 1048576 % 16

/-- Cores known to have FP16 arithmetics and RDM, whatever the kernel says (64-bit):
Cortex-A55, A65, A75, A76, A77, A76AE, Neoverse N1, V1, N2, V2, HiSilicon's Cortex-A76, Kryo 385 and
485, Exynos M4 and M5. -/
def fp16Known64 : List (Nat × Nat) :=
  [(0x41, 0xD05), (0x41, 0xD06), (0x41, 0xD0A), (0x41, 0xD0B), (0x41, 0xD0C), (0x41, 0xD0D),
   (0x41, 0xD0E), (0x41, 0xD40), (0x41, 0xD49), (0x41, 0xD4F), (0x48, 0xD40), (0x51, 0x802),
   (0x51, 0x803), (0x51, 0x804), (0x51, 0x805), (0x53, 0x003), (0x53, 0x004)]

/-- Cores known to have dot products, whatever the kernel says (64-bit): Cortex-A65, A76, A77,
A76AE, Neoverse N1, V1, N2, E1, V2, HiSilicon's Cortex-A76, Kryo 485, Exynos M4 and M5. -/
def dotKnown64 : List (Nat × Nat) :=
  [(0x41, 0xD06), (0x41, 0xD0B), (0x41, 0xD0C), (0x41, 0xD0D), (0x41, 0xD0E), (0x41, 0xD40),
   (0x41, 0xD49), (0x41, 0xD4A), (0x41, 0xD4F), (0x48, 0xD40), (0x51, 0x804), (0x51, 0x805),
   (0x53, 0x003), (0x53, 0x004)]

/-- The same for 32-bit programs; in addition Cortex-A78, A510, A710, A715, X1, X2, X3, but not the
cores without 32-bit mode Cortex-A65 and Neoverse E1. -/
def fp16Known32 : List (Nat × Nat) :=
  (fp16Known64.filter (· ≠ (0x41, 0xD06))) ++
    [(0x41, 0xD41), (0x41, 0xD44), (0x41, 0xD46), (0x41, 0xD47), (0x41, 0xD48), (0x41, 0xD4D),
     (0x41, 0xD4E)]

@[inherit_doc fp16Known32] def dotKnown32 : List (Nat × Nat) :=
  (dotKnown64.filter fun c => c ≠ (0x41, 0xD06) ∧ c ≠ (0x41, 0xD4A)) ++
    [(0x41, 0xD41), (0x41, 0xD44), (0x41, 0xD46), (0x41, 0xD47), (0x41, 0xD48), (0x41, 0xD4D),
     (0x41, 0xD4E)]

/-- Samsung Exynos 9810, whose big cores have no FP16 arithmetics. -/
def IsExynos9810 (c : Chipset) : Prop := c.series = .samsungExynos ∧ c.model = 9810

/-- Spreadtrum SC9863, Unisoc T310 and UMS312, on which dot products fail. -/
def DotFails (c : Chipset) : Prop :=
  (c.series = .spreadtrumSc ∧ c.model = 9863) ∨ (c.series = .unisocT ∧ c.model = 310) ∨
  (c.series = .unisocUms ∧ c.model = 312)

instance (c : Chipset) : Decidable (IsExynos9810 c) := inferInstanceAs (Decidable (_ ∧ _))
instance (c : Chipset) : Decidable (DotFails c) := inferInstanceAs (Decidable (_ ∨ _))

/-- The identity the code goes by: that of the last usable processor that /proc/cpuinfo describes
completely, or none (0). -/
def LastIdentity (t : List Proc) (midr : Nat) : Prop :=
  (∃ (j : Nat) (p : Proc), t[j]? = some p ∧ Usable p ∧ Complete p ∧ p.midr = midr ∧
    ∀ (k : Nat) (q : Proc), j < k → t[k]? = some q → ¬ (Usable q ∧ Complete q)) ∨
  (midr = 0 ∧ ∀ p ∈ t, ¬ (Usable p ∧ Complete p))

/-- The architecture the code goes by: that of the last usable processor with a valid "CPU
architecture" line, or none. -/
def LastArchitecture (t : List Proc) (version flags : Nat) : Prop :=
  (∃ (j : Nat) (p : Proc), t[j]? = some p ∧ Usable p ∧ p.flags.testBit 16 = true ∧ p.architectureVersion = version ∧
    p.architectureFlags = flags ∧
    ∀ (k : Nat) (q : Proc), j < k → t[k]? = some q → ¬ (Usable q ∧ q.flags.testBit 16 = true)) ∨
  (version = 0 ∧ flags = 0 ∧ ∀ p ∈ t, ¬ (Usable p ∧ p.flags.testBit 16 = true))

/-- The kernel's feature words and the identity and chipset the decision is made from. -/
structure Basis where
  hwcap : Nat
  hwcap2 : Nat
  midr : Nat
  version : Nat
  archFlags : Nat
  chipset : Chipset

/-- A 32-bit number as the four bytes in memory. -/
def le32 (n : Nat) : Bytes := [n % 256, n / 256 % 256, n / 65536 % 256, n / 16777216 % 256]

/-- The auxiliary vector of a 32-bit process as file: type and value of every entry. -/
def auxvText (entries : List (Nat × Nat)) : Bytes := entries.flatMap fun e => le32 e.1 ++ le32 e.2

/-- The value of the last entry of a type, 0 if there is none. -/
def auxvValue (key : Nat) (entries : List (Nat × Nat)) : Nat :=
  ((entries.reverse.find? (·.1 == key)).map (·.2)).getD 0

/-- `/proc/self/auxv` can be opened and holds these entries, and every read delivers a whole entry,
the last one the end of the file. -/
def AuxvReadable (f : File) (entries : List (Nat × Nat)) : Prop :=
  f.1 = some (auxvText entries) ∧ (∀ e ∈ entries, e.1 < U32 ∧ e.2 < U32) ∧
  (∀ i < entries.length, ∃ k, f.2 i = some k ∧ 7 ≤ k) ∧ f.2 entries.length ≠ none

/-- The processors whose features are known from /proc/cpuinfo. -/
def Featured (p : Proc) : Prop := Usable p ∧ p.flags.testBit 22 = true

/-- The features all these processors have in common; none if there is no such processor. -/
def CommonFeatures (t : List Proc) (hwcap hwcap2 : Nat) : Prop :=
  ∀ k, (hwcap.testBit k = true ↔ (∃ p ∈ t, Featured p) ∧ ∀ p ∈ t, Featured p →
      p.features.testBit k = true) ∧
    (hwcap2.testBit k = true ↔ (∃ p ∈ t, Featured p) ∧ ∀ p ∈ t, Featured p →
      p.features2.testBit k = true)

/-- Where a 32-bit program may take the two feature words from. -/
inductive FeatureWords (s : Source) (t : List Proc) : Nat → Nat → Prop
  /-- The C library's `getauxval`. -/
  | auxval (v : Nat × Nat) : s.libc ≠ .other → s.auxval = some v →
      FeatureWords s t (v.1 % U32) (v.2 % U32)
  /-- On Android without `getauxval`: the file. -/
  | auxv (entries : List (Nat × Nat)) : s.libc = .android → s.auxval = none →
      AuxvReadable s.auxv entries → FeatureWords s t (auxvValue 16 entries) (auxvValue 26 entries)
  /-- On Android if that fails, too: what all processors list in /proc/cpuinfo. -/
  | lines (hwcap hwcap2 : Nat) : s.libc = .android → s.auxval = none →
      (¬ ∃ entries, AuxvReadable s.auxv entries) → CommonFeatures t hwcap hwcap2 →
      FeatureWords s t hwcap hwcap2
  /-- With other C libraries: nothing. -/
  | nothing : s.libc = .other → FeatureWords s t 0 0

/-- What a run of initialization decides the instruction set from. -/
def DecidesFrom (e : Env) (s : Source) (b : Basis) : Prop :=
  ∃ t hw rev, Reads e t hw rev ∧ LastIdentity t b.midr ∧ LastArchitecture t b.version b.archFlags ∧
    b.chipset = e.dec.chipset hw rev (countListed t) ∧
    match e.config.arch with
    | .arm64 => ∃ v, s.auxval = some v ∧ b.hwcap = v.1 % U32 ∧ b.hwcap2 = v.2 % 2 ^ 64
    | .arm => FeatureWords s t b.hwcap b.hwcap2

/-- ARMv8 in 32-bit mode: by the architecture line, or by a feature only ARMv8 has. -/
def Basis.V8 (b : Basis) : Prop := 8 ≤ b.version ∨ ∃ k < 5, b.hwcap2.testBit k = true

/-- The features of VFPv3 and later: NEON, VFPv3, VFPv3-D16, VFPv4, VFP-D32. -/
def Basis.Vfpv3Bits (b : Basis) : Prop := ∃ k ∈ [12, 13, 14, 16, 19], b.hwcap.testBit k = true

/-- Both hardware division features. -/
def Basis.Divides (b : Basis) : Prop := b.hwcap.testBit 17 = true ∧ b.hwcap.testBit 18 = true

/-- ARMv7: by the architecture line (which ARM11 cores get wrong), or by a feature only ARMv7 has. -/
def Basis.V7 (b : Basis) : Prop :=
  b.V8 ∨ (b.version = 7 ∧ ¬ ((coreOf b.midr).1 = 0x41 ∧ (coreOf b.midr).2 / 256 = 0xB)) ∨
    b.Vfpv3Bits ∨ b.hwcap.testBit 17 = true ∨ b.hwcap.testBit 18 = true

/-- What is assumed of the kernel: `/proc/self/auxv` consists of bytes, and the C library answers where
it provides `getauxval`. -/
def Answers (a : Arch) (s : Source) : Prop :=
  (∀ c, s.auxv.1 = some c → ∀ b ∈ c, b < 256) ∧
  (a = .arm64 ∨ s.libc = .glibc → s.auxval ≠ none)

/-- What a 64-bit program has to be told. -/
def Has64 (b : Basis) (q : Query) : Prop :=
  match q with
  -- every 64-bit processor
  | .v8 | .idiv | .vfpv3 | .vfpv3D32 | .vfpv3Fp16 | .vfpv3Fp16D32 | .vfpv4 | .vfpv4D32 | .neon
  | .neonFp16 | .neonFma | .neonV8 => True
  -- the 32-bit instruction set
  | .thumb | .thumb2 | .v5e | .v6 | .v6k | .v7 | .v7mp | .vfpv2 | .wmmx | .wmmx2 => False
  -- what the kernel says
  | .aes => b.hwcap.testBit 3 = true
  | .pmull => b.hwcap.testBit 4 = true
  | .sha1 => b.hwcap.testBit 5 = true
  | .sha2 => b.hwcap.testBit 6 = true
  | .crc32 => b.hwcap.testBit 7 = true
  | .atomics => b.hwcap.testBit 8 = true
  | .jscvt => b.hwcap.testBit 13 = true
  | .fcma => b.hwcap.testBit 14 = true
  | .sve => b.hwcap.testBit 22 = true
  | .fhm => b.hwcap.testBit 23 = true
  | .sve2 => b.hwcap2.testBit 1 = true
  | .bf16 | .neonBf16 => b.hwcap2.testBit 12 = true ∨ b.hwcap2.testBit 14 = true
  | .sveBf16 => b.hwcap.testBit 22 = true ∧ (b.hwcap2.testBit 12 = true ∨ b.hwcap2.testBit 14 = true)
  | .i8mm => b.hwcap2.testBit 13 = true
  | .sme => b.hwcap2.testBit 23 = true
  | .sme2 => b.hwcap2.testBit 37 = true
  | .sme2p1 => b.hwcap2.testBit 38 = true
  | .smeI16I32 => b.hwcap2.testBit 39 = true
  | .smeBi32I32 => b.hwcap2.testBit 40 = true
  | .smeB16B16 => b.hwcap2.testBit 41 = true
  | .smeF16F16 => b.hwcap2.testBit 42 = true
  -- what old kernels do not say of some cores, and some say wrongly of Exynos 9810
  | .fp16Arith | .neonFp16Arith => ¬ IsExynos9810 b.chipset ∧
      (coreOf b.midr ∈ fp16Known64 ∨ (b.hwcap.testBit 9 = true ∧ b.hwcap.testBit 10 = true))
  | .neonRdm => ¬ IsExynos9810 b.chipset ∧
      (coreOf b.midr ∈ fp16Known64 ∨ b.hwcap.testBit 12 = true)
  | .neonDot => coreOf b.midr ∈ dotKnown64 ∨
      (coreOf b.midr = (0x41, 0xD05) ∧ 1 ≤ variantOf b.midr) ∨
      (coreOf b.midr = (0x41, 0xD0A) ∧ 2 ≤ variantOf b.midr) ∨
      (coreOf b.midr ≠ (0x41, 0xD05) ∧ coreOf b.midr ≠ (0x41, 0xD0A) ∧ b.hwcap.testBit 20 = true)

/-- Krait, which divides though kernels do not say so. -/
def kraits : List (Nat × Nat) := [(0x51, 0x04D), (0x51, 0x06F)]

/-- Cortex-A9 and Scorpion, with half precision but not VFPv4. -/
def halfCores : List (Nat × Nat) := [(0x41, 0xC09), (0x51, 0x00F), (0x51, 0x02D)]

/-- Cortex-A5, Cortex-A9, dual-core Scorpion and Krait: multiprocessing without division. -/
def mpCores : List (Nat × Nat) :=
  [(0x41, 0xC05), (0x41, 0xC09), (0x51, 0x02D), (0x51, 0x04D), (0x51, 0x06F)]

/-- What a 32-bit program has to be told.  ARMv8 has everything ARMv7 can have. -/
def Has32 (t : Target32) (b : Basis) (q : Query) : Prop :=
  match q with
  | .v8 | .neonV8 => b.V8
  | .v7 | .v6k => b.V7
  | .v6 => 6 ≤ b.version ∨ b.V7
  | .v5e => (6 ≤ b.version ∨ b.V7) ∨ b.hwcap.testBit 7 = true ∨ b.archFlags.testBit 1 = true
  | .v7mp => b.V8 ∨ b.V7 ∧ (coreOf b.midr ∈ mpCores ∨ b.Divides)
  | .idiv => b.V8 ∨ b.Divides ∨ coreOf b.midr ∈ kraits
  | .thumb => b.V8 ∨ b.hwcap.testBit 2 = true ∨ b.archFlags.testBit 0 = true
  | .thumb2 => b.V8 ∨ (b.hwcap.testBit 2 = true ∨ b.archFlags.testBit 0 = true) ∧
      (b.V7 ∨ coreOf b.midr = (0x41, 0xB56))
  | .neon => b.V8 ∨ b.hwcap.testBit 12 = true
  | .vfpv3 => b.V8 ∨ b.Vfpv3Bits ∨ (b.hwcap.testBit 6 = true ∧ (b.V7 ∨ 7 ≤ t.armArch))
  | .vfpv3D32 => b.V8 ∨ b.hwcap.testBit 12 = true ∨ b.hwcap.testBit 19 = true
  | .vfpv3Fp16 => b.V8 ∨
      (b.Vfpv3Bits ∨ (b.hwcap.testBit 6 = true ∧ (b.V7 ∨ 7 ≤ t.armArch))) ∧
      (b.hwcap.testBit 16 = true ∨ coreOf b.midr ∈ halfCores)
  | .vfpv3Fp16D32 => b.V8 ∨ (b.hwcap.testBit 12 = true ∨ b.hwcap.testBit 19 = true) ∧
      (b.hwcap.testBit 16 = true ∨ coreOf b.midr ∈ halfCores)
  | .vfpv4 => b.V8 ∨ b.hwcap.testBit 16 = true
  | .vfpv4D32 => b.V8 ∨ b.hwcap.testBit 16 = true ∧
      (b.hwcap.testBit 12 = true ∨ b.hwcap.testBit 19 = true)
  | .neonFp16 => b.V8 ∨ b.hwcap.testBit 12 = true ∧
      (b.hwcap.testBit 16 = true ∨ coreOf b.midr ∈ halfCores)
  | .neonFma => b.V8 ∨ b.hwcap.testBit 12 = true ∧ b.hwcap.testBit 16 = true
  | .vfpv2 => ¬ b.V8 ∧ b.hwcap.testBit 6 = true ∧ ¬ b.Vfpv3Bits ∧ ¬ b.V7 ∧ t.armArch < 7 ∧
      1 ≤ t.fpsid / 65536 % 128
  | .wmmx => ¬ b.V8 ∧ b.hwcap.testBit 9 = true ∧ t.armArch < 8 ∧ 0x10 ≤ t.wcid / 256 % 256
  | .wmmx2 => ¬ b.V8 ∧ b.hwcap.testBit 9 = true ∧ t.armArch < 8 ∧ 0x20 ≤ t.wcid / 256 % 256
  | .fp16Arith | .neonFp16Arith | .neonRdm =>
      b.V8 ∧ ¬ IsExynos9810 b.chipset ∧ coreOf b.midr ∈ fp16Known32
  | .neonDot => b.V8 ∧ ¬ DotFails b.chipset ∧ (coreOf b.midr ∈ dotKnown32 ∨
      (coreOf b.midr = (0x41, 0xD05) ∧ 1 ≤ variantOf b.midr) ∨
      (coreOf b.midr = (0x41, 0xD0A) ∧ 2 ≤ variantOf b.midr))
  | .aes => b.hwcap2.testBit 0 = true
  | .pmull => b.hwcap2.testBit 1 = true
  | .sha1 => b.hwcap2.testBit 2 = true
  | .sha2 => b.hwcap2.testBit 3 = true
  | .crc32 => b.hwcap2.testBit 4 = true
  | .fhm | .jscvt | .fcma | .bf16 | .atomics | .neonBf16 | .i8mm | .sve | .sveBf16 | .sve2 | .sme | .sme2
  | .sme2p1 | .smeI16I32 | .smeBi32I32 | .smeB16B16 | .smeF16F16 => False

end Verif.Spec
