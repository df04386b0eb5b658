import Verif.Model.X86Init
import Verif.Spec.Ranges

/-!
# APIC masks
-/

set_option autoImplicit false

namespace Verif.X86Init
open Spec

/-- `m` selects the bits `k, …, 31`. -/
def IsHighMask (k m : Nat) : Prop := ∀ i, m.testBit i = decide (k ≤ i ∧ i < 32)

theorem testBit_u32 {a : Nat} (ha : a < U32) (i : Nat) (hi : 32 ≤ i) : a.testBit i = false := by
  apply Nat.testBit_lt_two_pow
  calc a < 2 ^ 32 := ha
    _ ≤ 2 ^ i := Nat.pow_le_pow_right (by omega) hi

theorem u32max_testBit (i : Nat) : Nat.testBit U32MAX i = decide (i < 32) :=
  Nat.testBit_two_pow_sub_one 32 i

theorem and_highMask {k m a : Nat} (hm : IsHighMask k m) (ha : a < U32) :
    a &&& m = a / 2 ^ k * 2 ^ k := by
  apply Nat.eq_of_testBit_eq
  intro i
  rw [Nat.testBit_and, hm i, Nat.testBit_mul_two_pow, Nat.testBit_div_two_pow]
  by_cases hk : k ≤ i
  · by_cases hi : i < 32
    · simp [hk, hi]
    · rw [testBit_u32 ha i (by omega)]
      simp [hk, testBit_u32 ha i (by omega)]
  · simp [hk]

theorem key_eq_iff {k m a b : Nat} (hm : IsHighMask k m) (ha : a < U32) (hb : b < U32) :
    a &&& m = b &&& m ↔ a / 2 ^ k = b / 2 ^ k := by
  rw [and_highMask hm ha, and_highMask hm hb]
  constructor
  · intro h; exact Nat.eq_of_mul_eq_mul_right (Nat.two_pow_pos k) h
  · intro h; rw [h]

theorem key_mono {k m a b : Nat} (hm : IsHighMask k m) (ha : a < U32) (hb : b < U32)
    (h : a ≤ b) : a &&& m ≤ b &&& m := by
  rw [and_highMask hm ha, and_highMask hm hb]
  exact Nat.mul_le_mul_right _ (Nat.div_le_div_right h)

theorem agreeFrom_iff (k a b : Nat) : AgreeFrom k a b ↔ a / 2 ^ k = b / 2 ^ k := by
  constructor
  · intro h
    apply Nat.eq_of_testBit_eq
    intro i
    rw [Nat.testBit_div_two_pow, Nat.testBit_div_two_pow]
    exact h _ (by omega)
  · intro h i hi
    have : (a / 2 ^ k).testBit (i - k) = (b / 2 ^ k).testBit (i - k) := by rw [h]
    rw [Nat.testBit_div_two_pow, Nat.testBit_div_two_pow] at this
    rwa [show i - k + k = i by omega] at this

theorem key_agree {k m a b : Nat} (hm : IsHighMask k m) (ha : a < U32) (hb : b < U32) :
    a &&& m = b &&& m ↔ AgreeFrom k a b := by
  rw [key_eq_iff hm ha hb, agreeFrom_iff]

theorem key_ne_max {m a : Nat} (ha : a < U32) (h : a ≠ U32MAX) :
    a &&& m ≠ U32MAX := by
  have := Nat.and_le_left (n := a) (m := m)
  omega

theorem not32_bitMask {k b : Nat} (h : bitMask k = some b) : IsHighMask k (not32 b) := by
  intro i
  unfold bitMask at h
  split at h
  · cases h
    rw [not32, Nat.testBit_xor, u32max_testBit, Nat.testBit_two_pow_sub_one]
    by_cases h1 : i < 32 <;> by_cases h2 : i < k <;> simp [h1, h2] <;> omega
  · cases h

theorem bitMask_isSome {k : Nat} (h : k < 32) : bitMask k = some (2 ^ k - 1) := if_pos h

/-- The masks for contiguous low bit fields. -/
theorem masks_spec (t : Topology) (llc : Nat) (hoff : t.threadOffset = 0)
    (hcoff : t.coreOffset = t.threadLength) (ht : t.threadLength < 32) (hc : t.coreLength < 32)
    (hl : llc < 32) :
    ∃ m, masks t llc = some m ∧ IsHighMask t.threadLength m.core ∧
      IsHighMask (t.threadLength + t.coreLength) m.package ∧
      IsHighMask (min (t.threadLength + t.coreLength) llc) m.cluster := by
  have hthread : IsHighMask t.threadLength (not32 ((2 ^ t.threadLength - 1) * 2 ^ 0 % U32)) := by
    rw [Nat.pow_zero, Nat.mul_one, Nat.mod_eq_of_lt]
    · exact not32_bitMask (bitMask_isSome ht)
    · have := Nat.pow_le_pow_right (show 0 < 2 by omega) (show t.threadLength ≤ 31 by omega)
      have := Nat.two_pow_pos t.threadLength
      omega
  have hpkg : IsHighMask (t.threadLength + t.coreLength)
      (not32 ((2 ^ t.threadLength - 1) * 2 ^ 0 % U32) &&&
        not32 ((2 ^ t.coreLength - 1) * 2 ^ t.threadLength % U32)) := by
    intro i
    rw [Nat.testBit_and, hthread i, not32, Nat.testBit_xor, u32max_testBit,
      show U32 = 2 ^ 32 from rfl, Nat.testBit_mod_two_pow, Nat.testBit_mul_two_pow,
      Nat.testBit_two_pow_sub_one]
    rw [Bool.eq_iff_iff]; simp; omega
  have hclu : IsHighMask (min (t.threadLength + t.coreLength) llc)
      ((not32 ((2 ^ t.threadLength - 1) * 2 ^ 0 % U32) &&&
        not32 ((2 ^ t.coreLength - 1) * 2 ^ t.threadLength % U32)) ||| not32 (2 ^ llc - 1)) := by
    intro i
    rw [Nat.testBit_or, hpkg i, not32_bitMask (bitMask_isSome hl) i, Bool.eq_iff_iff]
    simp; omega
  refine ⟨⟨_, _, _⟩, ?_, hthread, hpkg, hclu⟩
  simp only [masks, bitMask_isSome ht, bitMask_isSome hc, bitMask_isSome hl, hoff, hcoff, shl32,
    if_pos ht, Option.bind_some, Option.bind_eq_bind, Option.pure_def]
  simp only [if_pos (show 0 < 32 by omega), Option.bind_some]
  rfl

end Verif.X86Init
