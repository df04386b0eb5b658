import Verif.Model.X86Isa

/-!
# Specification of the x86 instruction-set flags

After the Intel SDM (volume 1, chapter 13 for the register state; volume 2, CPUID) and the AMD APM
(volume 3, appendix E).
-/

set_option autoImplicit false

namespace Verif.Spec
open X86Cpuid

/-- The registers of an answer. -/
inductive Reg
  | eax | ebx | ecx | edx
deriving DecidableEq, Repr

/-- A register of an answer. -/
def Reg.of : Reg → Regs → Nat
  | .eax, r => r.eax
  | .ebx, r => r.ebx
  | .ecx, r => r.ecx
  | .edx, r => r.edx

/-- The leaf exists according to leaves 0 and 0x80000000. -/
def LeafExists (c : Cpuid) (leaf : Nat) : Prop :=
  if leaf < 0x80000000 then leaf ≤ (c.leaf 0).eax else leaf ≤ (c.leaf 0x80000000).eax

/-- The processor has the leaf, and the bit is set in it.  Leaf 7 has sub-leaves. -/
def Advertises (c : Cpuid) (b : Nat × Nat × Reg × Nat) : Prop :=
  LeafExists c b.1 ∧
    (b.2.2.1.of (if b.1 = 7 then c.sub 7 b.2.1 else c.leaf b.1)).testBit b.2.2.2 = true

/-- Processor and operating system support XSAVE, and the operating system has enabled the
components of the register state, which the processor has. -/
def Enables (c : Cpuid) (xcr0 : Nat) (state : List Nat) : Prop :=
  state ≠ [] → (c.leaf 1).ecx.testBit 26 = true ∧ (c.leaf 1).ecx.testBit 27 = true ∧
    LeafExists c 0xD ∧ ∀ k ∈ state, (c.sub 0xD 0).eax.testBit k = true ∧ xcr0.testBit k = true

/-- What is documented about a feature: bits one of which advertises it, components of the
register state (bits of XCR0) that it needs. -/
structure FeatureDoc where
  anyOf : List (Nat × Nat × Reg × Nat)
  state : List Nat

/-- The documentation of the features that do not depend on the vendor: leaf, sub-leaf, register,
bit. -/
def featureDoc : Feature → Option FeatureDoc
  | .rdtsc => some ⟨[(1, 0, .edx, 4), (0x80000001, 0, .edx, 4)], []⟩
  | .rdtscp => some ⟨[(0x80000001, 0, .edx, 27)], []⟩
  | .rdpid => some ⟨[(7, 0, .ecx, 22)], []⟩
  | .sysenter => some ⟨[(1, 0, .edx, 11)], []⟩
  | .syscall => some ⟨[(0x80000001, 0, .edx, 11)], []⟩
  | .msr => some ⟨[(1, 0, .edx, 5), (0x80000001, 0, .edx, 5)], []⟩
  | .clzero => some ⟨[(0x80000008, 0, .ebx, 0)], []⟩
  | .clflush => some ⟨[(1, 0, .edx, 19)], []⟩
  | .clflushopt => some ⟨[(7, 0, .ebx, 23)], []⟩
  | .mwait => some ⟨[(1, 0, .ecx, 3)], []⟩
  | .mwaitx => some ⟨[(0x80000001, 0, .ecx, 29)], []⟩
  | .xsave => some ⟨[(1, 0, .ecx, 26)], []⟩
  | .fpu => some ⟨[(1, 0, .edx, 0), (0x80000001, 0, .edx, 0)], []⟩
  | .mmx => some ⟨[(1, 0, .edx, 23), (0x80000001, 0, .edx, 23)], []⟩
  | .mmxPlus => some ⟨[(1, 0, .edx, 25), (0x80000001, 0, .edx, 22)], []⟩
  | .threeDNow => some ⟨[(0x80000001, 0, .edx, 31)], []⟩
  | .threeDNowPlus => some ⟨[(0x80000001, 0, .edx, 30)], []⟩
  | .prefetchwt1 => some ⟨[(7, 0, .ecx, 0)], []⟩
  | .sse => some ⟨[(1, 0, .edx, 25)], []⟩
  | .sse2 => some ⟨[(1, 0, .edx, 26)], []⟩
  | .sse3 => some ⟨[(1, 0, .ecx, 0)], []⟩
  | .ssse3 => some ⟨[(1, 0, .ecx, 9)], []⟩
  | .sse4_1 => some ⟨[(1, 0, .ecx, 19)], []⟩
  | .sse4_2 => some ⟨[(1, 0, .ecx, 20)], []⟩
  | .sse4a => some ⟨[(0x80000001, 0, .ecx, 6)], []⟩
  | .misalignedSse => some ⟨[(0x80000001, 0, .ecx, 7)], []⟩
  | .avx => some ⟨[(1, 0, .ecx, 28)], [1, 2]⟩
  | .avxvnni => some ⟨[(7, 1, .eax, 4)], [1, 2]⟩
  | .fma3 => some ⟨[(1, 0, .ecx, 12)], [1, 2]⟩
  | .fma4 => some ⟨[(0x80000001, 0, .ecx, 16)], [1, 2]⟩
  | .xop => some ⟨[(0x80000001, 0, .ecx, 11)], [1, 2]⟩
  | .f16c => some ⟨[(1, 0, .ecx, 29)], [1, 2]⟩
  | .avx2 => some ⟨[(7, 0, .ebx, 5)], [1, 2]⟩
  | .avx512f => some ⟨[(7, 0, .ebx, 16)], [1, 2, 5, 6, 7]⟩
  | .avx512pf => some ⟨[(7, 0, .ebx, 26)], [1, 2, 5, 6, 7]⟩
  | .avx512er => some ⟨[(7, 0, .ebx, 27)], [1, 2, 5, 6, 7]⟩
  | .avx512cd => some ⟨[(7, 0, .ebx, 28)], [1, 2, 5, 6, 7]⟩
  | .avx512dq => some ⟨[(7, 0, .ebx, 17)], [1, 2, 5, 6, 7]⟩
  | .avx512bw => some ⟨[(7, 0, .ebx, 30)], [1, 2, 5, 6, 7]⟩
  | .avx512vl => some ⟨[(7, 0, .ebx, 31)], [1, 2, 5, 6, 7]⟩
  | .avx512ifma => some ⟨[(7, 0, .ebx, 21)], [1, 2, 5, 6, 7]⟩
  | .avx512vbmi => some ⟨[(7, 0, .ecx, 1)], [1, 2, 5, 6, 7]⟩
  | .avx512vbmi2 => some ⟨[(7, 0, .ecx, 6)], [1, 2, 5, 6, 7]⟩
  | .avx512bitalg => some ⟨[(7, 0, .ecx, 12)], [1, 2, 5, 6, 7]⟩
  | .avx512vpopcntdq => some ⟨[(7, 0, .ecx, 14)], [1, 2, 5, 6, 7]⟩
  | .avx512vnni => some ⟨[(7, 0, .ecx, 11)], [1, 2, 5, 6, 7]⟩
  | .avx512bf16 => some ⟨[(7, 1, .eax, 5)], [1, 2, 5, 6, 7]⟩
  | .avx512fp16 => some ⟨[(7, 0, .edx, 23)], [1, 2, 5, 6, 7]⟩
  | .avx512vp2intersect => some ⟨[(7, 0, .edx, 8)], [1, 2, 5, 6, 7]⟩
  | .avx512_4vnniw => some ⟨[(7, 0, .edx, 2)], [1, 2, 5, 6, 7]⟩
  | .avx512_4fmaps => some ⟨[(7, 0, .edx, 3)], [1, 2, 5, 6, 7]⟩
  | .avx10_1 => some ⟨[(7, 1, .edx, 19)], [1, 2, 5, 6, 7]⟩
  | .amxBf16 => some ⟨[(7, 0, .edx, 22)], [17, 18]⟩
  | .amxTile => some ⟨[(7, 0, .edx, 24)], [17, 18]⟩
  | .amxInt8 => some ⟨[(7, 0, .edx, 25)], [17, 18]⟩
  | .amxFp16 => some ⟨[(7, 1, .eax, 21)], [17, 18]⟩
  | .avxVnniInt8 => some ⟨[(7, 1, .edx, 4)], [1, 2]⟩
  | .avxVnniInt16 => some ⟨[(7, 1, .edx, 10)], [1, 2]⟩
  | .avxNeConvert => some ⟨[(7, 1, .edx, 5)], [1, 2]⟩
  | .hle => some ⟨[(7, 0, .ebx, 4)], []⟩
  | .rtm => some ⟨[(7, 0, .ebx, 11)], []⟩
  | .mpx => some ⟨[(7, 0, .ebx, 14)], [3, 4]⟩
  | .cmov => some ⟨[(1, 0, .edx, 15), (0x80000001, 0, .edx, 15)], []⟩
  | .cmpxchg8b => some ⟨[(1, 0, .edx, 8), (0x80000001, 0, .edx, 8)], []⟩
  | .cmpxchg16b => some ⟨[(1, 0, .ecx, 13)], []⟩
  | .clwb => some ⟨[(7, 0, .ebx, 24)], []⟩
  | .movbe => some ⟨[(1, 0, .ecx, 22)], []⟩
  | .lahfSahf => some ⟨[(0x80000001, 0, .ecx, 0)], []⟩
  | .fsGsBase => some ⟨[(7, 0, .ebx, 0)], []⟩
  | .lzcnt => some ⟨[(0x80000001, 0, .ecx, 5)], []⟩
  | .popcnt => some ⟨[(1, 0, .ecx, 23)], []⟩
  | .tbm => some ⟨[(0x80000001, 0, .ecx, 21)], []⟩
  | .bmi => some ⟨[(7, 0, .ebx, 3)], []⟩
  | .bmi2 => some ⟨[(7, 0, .ebx, 8)], []⟩
  | .adx => some ⟨[(7, 0, .ebx, 19)], []⟩
  | .aes => some ⟨[(1, 0, .ecx, 25)], []⟩
  | .vaes => some ⟨[(7, 0, .ecx, 9)], [1, 2]⟩
  | .pclmulqdq => some ⟨[(1, 0, .ecx, 1)], []⟩
  | .vpclmulqdq => some ⟨[(7, 0, .ecx, 10)], [1, 2]⟩
  | .gfni => some ⟨[(7, 0, .ecx, 8)], []⟩
  | .rdrand => some ⟨[(1, 0, .ecx, 30)], []⟩
  | .rdseed => some ⟨[(7, 0, .ebx, 18)], []⟩
  | .sha => some ⟨[(7, 0, .ebx, 29)], []⟩
  | .lwp => some ⟨[(0x80000001, 0, .ecx, 15)], []⟩
  | .xtest => some ⟨[(7, 0, .ebx, 4), (7, 0, .ebx, 11)], []⟩
  | _ => none

/-- Features whose flags only 32-bit builds have. -/
def only32 : List Feature :=
  [.rdtsc, .syscall, .fpu, .mmx, .mmxPlus, .sse, .sse2, .cmov, .cmpxchg8b]

/-- The flag exists in the build. -/
def InBuild (t : Target) (f : Feature) : Prop :=
  (f ∈ only32 → t.x86_32 = true) ∧ (f = .lahfSahf → t.x86_32 = false)

end Verif.Spec
