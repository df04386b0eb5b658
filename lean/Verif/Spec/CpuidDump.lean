import Verif.Model.CpuidDump

/-!
# What a CPUID dump should say
-/

set_option autoImplicit false

namespace Verif.CpuidDump
open X86Cpuid (Regs Cpuid)

/-- The leaf of a line. -/
def Item.leaf : Item → Nat
  | .plain n _ | .sub n _ _ | .vendor n _ | .brand n _ => n

/-- The sub-leaf of a line; lines without one are about sub-leaf 0. -/
def Item.ecx : Item → Nat
  | .sub _ e _ => e
  | .plain _ _ | .vendor _ _ | .brand _ _ => 0

/-- The registers of a line. -/
def Item.regs : Item → Regs
  | .plain _ r | .sub _ _ r | .vendor _ r | .brand _ r => r

/-- A line tells what the processor answers: lines with a text come from an execution of CPUID with
no sub-leaf given, the others from one with the sub-leaf of the line. -/
def Item.Correct (c : Cpuid) : Item → Prop
  | .plain n r => r = c.sub n 0
  | .sub n e r => r = c.sub n e
  | .vendor n r | .brand n r => r = c.leaf n

/-- The order of the lines: by leaf, then by sub-leaf. -/
def Item.Before (a b : Item) : Prop := a.leaf < b.leaf ∨ (a.leaf = b.leaf ∧ a.ecx < b.ecx)

/-- The processor has the leaf: its number is in the range of the basic or the extended leaves. -/
def HasLeaf (c : Cpuid) (n : Nat) : Prop :=
  n ≤ (c.leaf 0).eax ∨ (0x80000000 ≤ n ∧ n ≤ (c.leaf 0x80000000).eax)

/-- `k` is the first number with the property. -/
def First (p : Nat → Prop) (k : Nat) : Prop := p k ∧ ∀ j, j < k → ¬ p j

/-- The lists of sub-leaves end: a sub-leaf of leaf 4 has no cache type, one of leaf 0xB no level
type, one of leaf 0x12 no type (with SGX); the numbers of the last sub-leaves of the leaves 7, 0x14,
0x17 and 0x24 and of the last leaves are not the largest 32-bit number. -/
structure Ends (c : Cpuid) : Prop where
  base : (c.leaf 0).eax + 1 < U32
  ext : (c.leaf 0x80000000).eax + 1 < U32
  leaf4 : 4 ≤ (c.leaf 0).eax → ∃ k : Nat, k < U32 ∧ (c.sub 4 k).eax &&& 0x1F = 0
  leafB : 0xB ≤ (c.leaf 0).eax → ∃ k : Nat, k < U32 ∧ (c.sub 0xB k).ecx &&& 0xFF00 = 0
  leaf12 : 0x12 ≤ (c.leaf 0).eax → (c.sub 7 0).ebx &&& 4 ≠ 0 →
    ∃ k : Nat, 2 ≤ k ∧ k < U32 ∧ (c.sub 0x12 k).eax &&& 0xF = 0
  counted : ∀ n : Nat, n = 7 ∨ n = 0x14 ∨ n = 0x17 ∨ n = 0x24 → n ≤ (c.leaf 0).eax →
    (c.sub n 0).eax + 1 < U32

/-- Registers are 32 bits wide. -/
def Wide32 (r : Regs) : Prop := r.eax < U32 ∧ r.ebx < U32 ∧ r.ecx < U32 ∧ r.edx < U32

/-- The sub-leaf is written with two decimal digits. -/
def Decimal2 (e : Nat) : Prop := e / 16 < 10 ∧ e % 16 < 10

/-- The lines of a text file end at newlines, and no printable character ends a line. -/
def LineEnds (sep : Byte → Bool) : Prop :=
  sep 10 = true ∧ ∀ b : Nat, 32 ≤ b → b ≤ 126 → sep b = false

/-- A processor as the manuals describe it: 32-bit registers, numbers of basic leaves below those of
the extended leaves and these below those of VIA's leaves, no difference between executions of leaves
without sub-leaves, at most ten sub-leaves in the leaves 4 and 0xB, zeros for a sub-leaf 1 of leaf 7
and a leaf 0x24 that do not exist. -/
structure Regular (c : Cpuid) : Prop where
  wide : ∀ n e : Nat, Wide32 (c.leaf n) ∧ Wide32 (c.sub n e)
  base : (c.leaf 0).eax < 0x80000000
  ext : (c.leaf 0x80000000).eax < 0xC0000000
  same : ∀ n : Nat, n = 1 ∨ n = 0x80000001 ∨ n = 0x80000008 → c.leaf n = c.sub n 0
  same2 : ∀ k : Nat, c.leaf2 k = c.sub 2 0
  leaf4 : 4 ≤ (c.leaf 0).eax → ∃ k : Nat, k ≤ 10 ∧ (c.sub 4 k).eax &&& 0x1F = 0
  leafB : 0xB ≤ (c.leaf 0).eax → ∃ k : Nat, k ≤ 10 ∧ (c.sub 0xB k).ecx &&& 0xFF00 = 0
  leaf7 : (c.sub 7 0).eax = 0 → c.sub 7 1 = ⟨0, 0, 0, 0⟩
  leaf24 : (c.leaf 0).eax < 0x24 → c.sub 0x24 0 = ⟨0, 0, 0, 0⟩

/-- The caches of AMD processors with topology extensions are not read, or there is only one. -/
def FewAmdCaches (c : Cpuid) : Prop :=
  (X86Cpuid.extendedInfo c).ecx &&& 0x00400000 = 0 ∨ (c.leaf 0x80000000).eax < 0x8000001D ∨
    (c.sub 0x8000001D 1).eax &&& 0x1F = 0

/-- VIA's own leaves are not read, or there are none. -/
def NoPadlock (t : X86Cpuid.Target) (c : Cpuid) : Prop :=
  X86Cpuid.decodeVendor t (c.leaf 0).ebx (c.leaf 0).ecx (c.leaf 0).edx ≠ .via ∨
    (c.leaf 0xC0000000).eax < 0xC0000001

end Verif.CpuidDump
