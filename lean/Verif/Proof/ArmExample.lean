import Verif.Proof.ArmRle
import Verif.Props.ArmClusters

/-!
# A sort for examples
-/

set_option autoImplicit false

namespace Verif.ArmInit
open Spec ArmMidr ArmCpuinfo ArmClusters

/-- Insert `p` into a sorted table. -/
def insertProc (a : Arch) (p : Proc) : List Proc → List Proc
  | [] => [p]
  | q :: qs => if cmpProcessor a p q ≤ 0 then p :: q :: qs else q :: insertProc a p qs

/-- An implementation of `qsort` for the ARM comparison function. -/
def armSort (a : Arch) : List Proc → List Proc
  | [] => []
  | p :: ps => insertProc a p (armSort a ps)

theorem cmp_total (a : Arch) (x y : Proc) : cmpProcessor a x y ≤ 0 ∨ cmpProcessor a y x ≤ 0 := by
  have := (Props.C36_total_order a x y x).1
  have := (Props.C36_total_order a y x x).1
  omega

theorem insertProc_perm (a : Arch) (p : Proc) : ∀ l, (insertProc a p l).Perm (p :: l)
  | [] => .refl _
  | q :: qs => by
    unfold insertProc
    split
    · exact .refl _
    · exact ((insertProc_perm a p qs).cons q).trans (.swap p q qs)

theorem insertProc_pairwise (a : Arch) (p : Proc) (l : List Proc)
    (h : l.Pairwise fun x y => cmpProcessor a x y ≤ 0) :
    (insertProc a p l).Pairwise fun x y => cmpProcessor a x y ≤ 0 := by
  induction l with
  | nil => simp [insertProc]
  | cons q qs ih =>
    have h' := List.pairwise_cons.mp h
    unfold insertProc
    split
    · next hpq =>
      refine List.pairwise_cons.mpr ⟨?_, h⟩
      intro r hr
      rcases List.mem_cons.mp hr with rfl | hr
      · exact hpq
      · exact (Props.C36_total_order a p q r).2.2.2 hpq (h'.1 r hr)
    · next hpq =>
      refine List.pairwise_cons.mpr ⟨?_, ih h'.2⟩
      intro r hr
      rcases List.mem_cons.mp ((insertProc_perm a p qs).mem_iff.mp hr) with rfl | hr
      · exact (cmp_total a q r).resolve_right hpq
      · exact h'.1 r hr

theorem armSort_sorts (a : Arch) : SortsProcessors a (armSort a) := by
  intro t
  induction t with
  | nil => exact ⟨.refl _, .nil⟩
  | cons p t ih =>
    exact ⟨(insertProc_perm a p _).trans (ih.1.cons p), insertProc_pairwise a p _ ih.2⟩

end Verif.ArmInit
