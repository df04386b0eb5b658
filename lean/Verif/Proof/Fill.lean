import Verif.Model.Platform
import Verif.Proof.ArmScan

/-!
# Loops that fill tables
-/

set_option autoImplicit false

namespace Verif.Platform
open ArmClusters (forRange forRange_total)

/-- The first `n` entries of the table are given by `f`, the others are those of `t0`. -/
def Filled {α : Type} (f : Nat → α) (t0 : List α) (n : Nat) (t : List α) : Prop :=
  n ≤ t0.length ∧ t.length = t0.length ∧ ∀ i, t[i]? = if i < n then some (f i) else t0[i]?

theorem filled_zero {α : Type} (f : Nat → α) (t0 : List α) : Filled f t0 0 t0 :=
  ⟨Nat.zero_le _, rfl, fun i => by rw [if_neg (by omega)]⟩

theorem filled_put {α : Type} {f : Nat → α} {t0 : List α} {n : Nat} {t : List α} (h : Filled f t0 n t)
    (hn : n < t0.length) : ∃ t', put t n (f n) = some t' ∧ Filled f t0 (n + 1) t' := by
  obtain ⟨_, h2, h3⟩ := h
  refine ⟨t.set n (f n), if_pos (by omega), by omega, by rw [List.length_set, h2], fun i => ?_⟩
  rw [List.getElem?_set]
  by_cases h : n = i
  · subst h
    rw [if_pos rfl, if_pos (by omega), if_pos (by omega)]
  · rw [if_neg h, h3 i]
    by_cases h' : i < n
    · rw [if_pos h', if_pos (by omega)]
    · rw [if_neg h', if_neg (by omega)]

/-- A loop that fills entries `a`, …, `a + n - 1`. -/
theorem filled_loop {α : Type} (f : Nat → α) (g : Nat → α) (t0 t : List α) (a n : Nat)
    (hg : ∀ j, j < n → g j = f (a + j)) (h : Filled f t0 a t) (hn : a + n ≤ t0.length) :
    ∃ t', forRange (fun j t => put t (a + j) (g j)) n 0 t = some t' ∧ Filled f t0 (a + n) t' := by
  refine forRange_total _ (fun j t => Filled f t0 (a + j) t) n ?_ n 0 t (by omega) h
  intro j s hj hs
  rw [hg j hj]
  exact filled_put hs (by omega)

theorem filled_full {α : Type} {f : Nat → α} {t0 : List α} {n : Nat} {t : List α} (h : Filled f t0 n t)
    (hn : n = t0.length) : t = (List.range n).map f := by
  obtain ⟨_, h2, h3⟩ := h
  refine List.ext_getElem? fun i => ?_
  rw [h3 i, List.getElem?_map]
  by_cases hi : i < n
  · rw [if_pos hi, List.getElem?_range hi]; rfl
  · rw [if_neg hi, List.getElem?_eq_none (by omega), List.getElem?_eq_none (by simp; omega)]; rfl

end Verif.Platform
