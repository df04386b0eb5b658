import Verif.Base

/-!
# Ranges of consecutive elements
-/

set_option autoImplicit false

namespace Verif.Spec

/-- The ranges (start, length) are non-empty and cover `a, a+1, …, b-1` in order without gaps or
overlaps. -/
inductive Consecutive : Nat → List (Nat × Nat) → Nat → Prop
  | nil (a : Nat) : Consecutive a [] a
  | cons {a n b : Nat} {rs : List (Nat × Nat)} (hn : 0 < n) (h : Consecutive (a + n) rs b) :
      Consecutive a ((a, n) :: rs) b

/-- `i` lies in the range with the given start and length. -/
def InRange (start count i : Nat) : Prop := start ≤ i ∧ i < start + count

/-- Two numbers agree on all bits from bit `k` upwards. -/
def AgreeFrom (k a b : Nat) : Prop := ∀ i, k ≤ i → a.testBit i = b.testBit i

end Verif.Spec
