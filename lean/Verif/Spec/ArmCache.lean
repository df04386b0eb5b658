import Verif.Model.ArmCache

/-!
# What a decoded cache has to satisfy
-/

set_option autoImplicit false

namespace Verif.Spec
open X86Init (Cache)

/-- A cache exists and its numbers fit together: the size is exactly sets × ways × line size ×
partitions, and none of them is zero. -/
def Consistent (c : Cache) : Prop :=
  0 < c.size ∧ 0 < c.sets ∧ 0 < c.associativity ∧ 0 < c.lineSize ∧ c.partitions = 1 ∧
  c.sets * c.associativity * c.lineSize * c.partitions = c.size

/-- The line size is a power of two. -/
def PowerOfTwoLine (c : Cache) : Prop := ∃ n, c.lineSize = 2 ^ n

instance (c : Cache) : Decidable (Consistent c) := by unfold Consistent; infer_instance

/-- Where the fixed bound on the cache size can be relied on: clusters of at most 16 cores, at most 8
for Cortex-A7 and A15, at most 4 for Cortex-A57 and TaiShan v110; not ThunderX in 64-bit builds other
than Android; and an ARMv7-A core only with a build that can run on it. -/
def BoundApplies (t : ArmCache.Target) (uarch cores : Nat) : Prop :=
  cores ≤ 16 ∧ (uarch ∈ [ArmUarch.Uarch.cortexA7, ArmUarch.Uarch.cortexA15] → cores ≤ 8) ∧
  (uarch ∈ [ArmUarch.Uarch.cortexA57, ArmUarch.Uarch.taishanV110] → cores ≤ 4) ∧
  ¬ (uarch = ArmUarch.Uarch.thunderx ∧ t = .arm64) ∧
  (uarch ∈ [ArmUarch.Uarch.cortexA5, ArmUarch.Uarch.cortexA7, ArmUarch.Uarch.cortexA8,
    ArmUarch.Uarch.cortexA9] → t = .armOld ∨ t = .armV7)

instance (t : ArmCache.Target) (uarch cores : Nat) : Decidable (BoundApplies t uarch cores) := by
  unfold BoundApplies; infer_instance

/-- The vendor whose core type a microarchitecture number is: bits 20 and up, from the layout of
`enum cpuinfo_uarch` in include/cpuinfo.h:317-605. -/
def uarchVendor (uarch : Nat) : Option Nat :=
  [(0x1, 1), (0x3, 3), (0x4, 4), (0x5, 7), (0x6, 6), (0x8, 12), (0x9, 31), (0xA, 13), (0xB, 14),
    (0xC, 15)].lookup (uarch / 0x100000)

/-- The vendor of an implementer code of the Main ID Register. -/
def implementerVendor (implementer : Nat) : Nat :=
  (([(0x41, 3), (0x42, 13), (0x43, 12), (0x48, 15), (0x4E, 7), (0x50, 14), (0x51, 4), (0x53, 6),
    (0x56, 31), (0x69, 1)] : List (Nat × Nat)).lookup implementer).getD 0

end Verif.Spec
