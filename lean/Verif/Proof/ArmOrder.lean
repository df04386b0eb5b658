import Verif.Proof.ArmAttrs

/-!
# The order of ARM processors
-/

set_option autoImplicit false

namespace Verif.ArmClusters
open Spec ArmMidr ArmCpuinfo
open X86Init (cmp32)

theorem valid_decide (p : Proc) : valid p = decide (Usable p) := by
  by_cases h : Usable p
  · rw [decide_eq_true h]; exact (valid_iff p).mpr h
  · rw [decide_eq_false h]
    cases hv : valid p with
    | false => rfl
    | true => exact absurd ((valid_iff p).mp hv) h

/-- The comparison function follows the documented order. -/
theorem cmp_before (a : Arch) (x y : Proc) :
    (cmpProcessor a x y < 0 ↔ Before a x y) ∧ (cmpProcessor a x y > 0 ↔ Before a y x) := by
  unfold cmpProcessor cmp32 Before
  rw [valid_decide, valid_decide]
  have hscore : (x.midr ≠ y.midr ∧ scoreCore a x.midr ≠ scoreCore a y.midr) ↔
      scoreCore a x.midr ≠ scoreCore a y.midr :=
    ⟨fun h => h.2, fun h => ⟨fun e => h (by rw [e]), h⟩⟩
  simp only [hscore]
  generalize scoreCore a x.midr = sx
  generalize scoreCore a y.midr = sy
  by_cases hx : Usable x <;> by_cases hy : Usable y <;>
    simp only [hx, hy, decide_true, decide_false, bne_self_eq_false, Bool.false_eq_true, if_false,
      not_true_eq_false, not_false_eq_true, and_false, false_and, and_true, true_and, false_or,
      iff_self, iff_false, iff_true, or_false]
  · constructor <;> (repeat' split) <;> omega
  · simp
  · simp
  · constructor <;> (repeat' split) <;> omega

theorem before_irrefl (a : Arch) (x : Proc) : ¬ Before a x x := by
  rintro (⟨h, h'⟩ | ⟨-, h⟩)
  · exact h' h
  · omega

theorem before_trans (a : Arch) {x y z : Proc} (h : Before a x y) (h' : Before a y z) :
    Before a x z := by
  unfold Before at *
  by_cases hx : Usable x <;> by_cases hy : Usable y <;> by_cases hz : Usable z <;>
    simp [hx, hy, hz] at * <;> omega

theorem before_total (a : Arch) (x y : Proc) : Before a x y ∨ Before a y x ∨
    ((Usable x ↔ Usable y) ∧ scoreCore a x.midr = scoreCore a y.midr ∧
      x.maxFrequency = y.maxFrequency ∧ x.packageLeaderId = y.packageLeaderId ∧
      x.systemProcessorId = y.systemProcessorId) := by
  unfold Before
  by_cases hx : Usable x <;> by_cases hy : Usable y <;> simp [hx, hy] <;> omega

end Verif.ArmClusters
