import Verif.Spec.ArmCpuinfo

/-!
# What a line of auxv-dump says
-/

set_option autoImplicit false

namespace Verif.Spec

/-- The line gives the value of the word under its name, in hexadecimal digits. -/
def SaysWord (name : Bytes) (v : Nat) (line : Bytes) : Prop :=
  ∃ ds, line = name ++ b!" = 0x" ++ ds ++ [10] ∧ 8 ≤ ds.length ∧ (∀ c ∈ ds, IsHexDigit c) ∧ hexNumber ds = v

/-- The bits of AT_HWCAP2 on 64-bit ARM that the library reports, by the kernel's
arch/arm64/include/uapi/asm/hwcap.h: SVE2, SVEBF16, I8MM, BF16, SME, SME2, SME2P1, SME_I16I32, SME_BI32I32,
SME_B16B16, SME_F16F16. -/
def reportedBits2 : List Nat := [1, 12, 13, 14, 23, 37, 38, 39, 40, 41, 42]

end Verif.Spec
