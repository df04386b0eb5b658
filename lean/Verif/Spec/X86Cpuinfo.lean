import Verif.Spec.Text

/-!
# What an x86 /proc/cpuinfo text says
-/

set_option autoImplicit false

namespace Verif.Spec

/-- The line announcing processor `n`. -/
def processorLine (n : Nat) : Bytes := b!"processor\t: " ++ printNat n

/-- The line giving the APIC id `a`. -/
def apicLine (a : Nat) : Bytes := b!"apicid\t\t: " ++ printNat a

/-- A line whose key is neither `processor` nor `apicid` (including empty lines). -/
def OtherLine (l : Bytes) : Prop :=
  ∀ key, key = b!"processor" ∨ key = b!"apicid" →
    ∀ ws rest, (∀ c ∈ ws, c = 32 ∨ c = 9) → l ≠ key ++ ws ++ 58 :: rest

/-- The block of one processor: its number, other lines, its APIC id, other lines. -/
structure ProcBlock where
  number : Nat
  before : List Bytes
  apic : Nat
  after : List Bytes

/-- A block as lines of text. -/
def ProcBlock.lines (b : ProcBlock) : List Bytes :=
  processorLine b.number :: b.before ++ apicLine b.apic :: b.after

/-- Well-formed blocks: 32-bit values, and the other lines are other lines. -/
def ProcBlock.Ok (b : ProcBlock) : Prop :=
  b.number < U32 ∧ b.apic < U32 ∧ (∀ l ∈ b.before, OtherLine l) ∧ (∀ l ∈ b.after, OtherLine l)

end Verif.Spec
