import Verif.Model.ArmMidr
import Verif.Spec.ArmMidr
import Verif.Spec.Text
import Verif.Spec.X86Name

/-!
# What an ARM /proc/cpuinfo text says
-/

set_option autoImplicit false

namespace Verif.Spec

/-- An ASCII hexadecimal digit of either case. -/
def IsHexDigit (c : Byte) : Prop := (48 ≤ c ∧ c ≤ 57) ∨ (65 ≤ c ∧ c ≤ 70) ∨ (97 ≤ c ∧ c ≤ 102)

/-- The value of a hexadecimal digit. -/
def hexDigitValue (c : Byte) : Nat :=
  if c ≤ 57 then c - 48 else if c ≤ 70 then c - 55 else c - 87

/-- The value of a string of hexadecimal digits. -/
def hexNumber (ds : Bytes) : Nat := ds.foldl (fun n c => n * 16 + hexDigitValue c) 0

/-- `0x` followed by `1` to `most` hexadecimal digits `ds`. -/
def IsHexText (most : Nat) (v ds : Bytes) : Prop :=
  v = b!"0x" ++ ds ∧ 1 ≤ ds.length ∧ ds.length ≤ most ∧ ∀ c ∈ ds, IsHexDigit c

/-- The words of a Features line that 64-bit kernels print and this parser takes, with the word of
capability bits (1: AT_HWCAP, 2: AT_HWCAP2) and the bit of the kernel's
arch/arm64/include/uapi/asm/hwcap.h. -/
def featureWords64 : List (Bytes × Nat × Nat) :=
  [(b!"fp", 1, 0), (b!"asimd", 1, 1), (b!"evtstrm", 1, 2), (b!"aes", 1, 3), (b!"pmull", 1, 4),
    (b!"sha1", 1, 5), (b!"sha2", 1, 6), (b!"crc32", 1, 7), (b!"atomics", 1, 8), (b!"fphp", 1, 9),
    (b!"asimdhp", 1, 10), (b!"cpuid", 1, 11), (b!"asimdrdm", 1, 12), (b!"jscvt", 1, 13),
    (b!"fcma", 1, 14), (b!"lrcpc", 1, 15), (b!"asimdfhm", 1, 23), (b!"i8mm", 2, 13)]

/-- The same for 32-bit kernels, arch/arm/include/uapi/asm/hwcap.h; `wp` and `tlsi` are known
misspellings. -/
def featureWords32 : List (Bytes × Nat × Nat) :=
  [(b!"swp", 1, 0), (b!"wp", 1, 0), (b!"half", 1, 1), (b!"thumb", 1, 2), (b!"26bit", 1, 3),
    (b!"fastmult", 1, 4), (b!"fpa", 1, 5), (b!"vfp", 1, 6), (b!"edsp", 1, 7), (b!"java", 1, 8),
    (b!"iwmmxt", 1, 9), (b!"crunch", 1, 10), (b!"thumbee", 1, 11), (b!"neon", 1, 12),
    (b!"vfpv3", 1, 13), (b!"vfpv3d16", 1, 14), (b!"tls", 1, 15), (b!"tlsi", 1, 15),
    (b!"vfpv4", 1, 16), (b!"idiva", 1, 17), (b!"idivt", 1, 18), (b!"vfpd32", 1, 19),
    (b!"lpae", 1, 20), (b!"evtstrm", 1, 21), (b!"aes", 2, 0), (b!"pmull", 2, 1), (b!"sha1", 2, 2),
    (b!"sha2", 2, 3), (b!"crc32", 2, 4)]

/-- The words and their bits, by architecture. -/
def featureTable (a : ArmMidr.Arch) : List (Bytes × Nat × Nat) :=
  match a with
  | .arm => featureWords32
  | .arm64 => featureWords64

/-- The digit `0`-`9`, `a`-`f` of a value below 16. -/
def hexChar (d : Nat) : Byte := if d < 10 then 48 + d else 87 + d

/-- A number as exactly `k` lower-case hexadecimal digits (C's `%0kx`, for numbers that fit). -/
def printHex : Nat → Nat → Bytes
  | 0, _ => []
  | k + 1, n => printHex k (n / 16) ++ [hexChar (n % 16)]

/-- The lines 64-bit kernels print about one processor (arch/arm64/kernel/cpuinfo.c): its number,
speed, feature words, and the fields of its MIDR. -/
structure ArmBlock where
  number : Nat
  bogomips : Bytes
  features : List Bytes
  midr : Midr
  deriving Repr

/-- The text of a block. -/
def ArmBlock.lines (b : ArmBlock) : List Bytes :=
  [b!"processor\t: " ++ printNat b.number,
   b!"BogoMIPS\t: " ++ b.bogomips,
   b!"Features\t: " ++ joinWords b.features,
   b!"CPU implementer\t: 0x" ++ printHex 2 b.midr.implementer,
   b!"CPU architecture: 8",
   b!"CPU variant\t: 0x" ++ printHex 1 b.midr.variant,
   b!"CPU part\t: 0x" ++ printHex 3 b.midr.part,
   b!"CPU revision\t: " ++ printNat b.midr.revision,
   []]

/-- A block a 64-bit kernel can print: a 32-bit number, at least one feature, words without spaces or
line ends, and a register in range whose architecture field says "see the ID registers" (0xF). -/
def ArmBlock.Ok (b : ArmBlock) : Prop :=
  b.number < U32 ∧ b.features ≠ [] ∧ (∀ w ∈ b.features, w ≠ [] ∧ 32 ∉ w ∧ 10 ∉ w) ∧
    10 ∉ b.bogomips ∧ b.midr.Ok ∧ b.midr.architecture = 15

end Verif.Spec
