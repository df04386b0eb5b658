import Verif.Proof.ArmFacts

/-!
# Microarchitectures as run lengths
-/

set_option autoImplicit false

namespace Verif.ArmInit
open Spec ArmMidr ArmCpuinfo ArmClusters ArmClusterMidr ArmChipset Runs

/-- The first `G` runs, each value as often as the run has positions below `n`. -/
def flat (nw : Nat → Bool) (v : Nat → Nat) (n G : Nat) : List Nat :=
  (List.range G).flatMap fun g => List.replicate (cnt nw g n) (v g)

theorem flat_succ (nw : Nat → Bool) (v : Nat → Nat) (n G : Nat) :
    flat nw v n (G + 1) = flat nw v n G ++ List.replicate (cnt nw G n) (v G) := by
  simp [flat, List.range_succ, List.flatMap_append]

theorem flat_below (nw : Nat → Bool) (v : Nat → Nat) (n : Nat) : ∀ G, G ≤ gi nw n →
    flat nw v (n + 1) G = flat nw v n G
  | 0, _ => rfl
  | G + 1, h => by
    rw [flat_succ, flat_succ, flat_below nw v n G (by omega), cnt, if_neg (by omega)]
    rfl

theorem flat_runs (nw : Nat → Bool) (v u : Nat → Nat) : ∀ n, (∀ k, k ≤ n → v (gi nw k) = u k) →
    flat nw v (n + 1) (gi nw n + 1) = (List.range (n + 1)).map u
  | 0, h => by
    have := h 0 (Nat.le_refl _)
    simp [gi] at this
    simp [flat, gi, cnt, this]
  | n + 1, h => by
    have ih := flat_runs nw v u n fun k hk => h k (by omega)
    rw [List.range_succ, List.map_append, ← ih, flat_succ,
      flat_below nw v (n + 1) _ (Nat.le_refl _), h (n + 1) (Nat.le_refl _)]
    cases hn : nw (n + 1) with
    | true =>
      have hc : cnt nw (gi nw (n + 1)) (n + 1 + 1) = 1 := by
        rw [cnt_self, st_succ_new hn]; omega
      rw [hc, gi_succ_new hn]
      rfl
    | false =>
      have hc : cnt nw (gi nw (n + 1)) (n + 1 + 1) = cnt nw (gi nw n) (n + 1) + 1 := by
        rw [cnt, if_pos rfl, gi_succ_old hn]
      have e := h (n + 1) (Nat.le_refl _)
      rw [gi_succ_old hn] at e
      rw [hc, gi_succ_old hn, flat_succ, List.replicate_succ', List.append_assoc, e]
      rfl

theorem flatMap_eq {α β : Type} (f g : α → List β) : ∀ l : List α, (∀ x ∈ l, f x = g x) →
    l.flatMap f = l.flatMap g
  | [], _ => rfl
  | x :: l, h => by
    rw [List.flatMap_cons, List.flatMap_cons, h x (List.mem_cons_self ..),
      flatMap_eq f g l fun y hy => h y (List.mem_cons_of_mem _ hy)]

/-- A list is its elements by number. -/
theorem flatMap_range {α β : Type} (f : α → List β) (z : α) (us : List α) :
    us.flatMap f = (List.range us.length).flatMap fun g => f (us[g]?.getD z) := by
  have : us = (List.range us.length).map fun g => us[g]?.getD z := by
    apply List.ext_getElem?
    intro i
    rw [List.getElem?_map]
    by_cases hi : i < us.length
    · simp [hi]
    · rw [List.getElem?_eq_none (by omega), List.getElem?_eq_none (by simp; omega)]
      rfl
  conv => lhs; rw [this]
  rw [List.flatMap_map]

/-- Positions of a run have the same key. -/
theorem byKey_st (u : Nat → Nat) : ∀ k, u (st (newUarch u) k) = u k
  | 0 => rfl
  | k + 1 => by
    cases hn : newUarch u (k + 1) with
    | true => rw [st_succ_new hn]
    | false =>
      rw [st_succ_old hn, byKey_st u k]
      have := mt (byKey_succ u k).mpr (by unfold newUarch at hn; rw [hn]; exact Bool.false_ne_true)
      exact (Decidable.not_not.mp this).symm

namespace Whole
variable {e : Env} {t : List Proc} {hw rev : Bytes} {pub : Published} (W : Whole e t hw rev pub)

/-- Where a new microarchitecture starts. -/
def nu : Nat → Bool := un W.S

theorem uarchs_length : pub.uarchs.length = gi W.nu (W.N - 1) + 1 := by
  have h0 := W.h0
  have := W.g.uarchs.length
  have h1 := opened_new (uarchAt W.S) (W.N - 1)
  rw [show W.N - 1 + 1 = W.N from Nat.sub_add_cancel h0] at h1
  exact this.trans h1

theorem uarch_at {k : Nat} (hk : k < W.N) :
    pub.uarchs[gi W.nu k]? = some (uarchE (uarchAt W.S) (midrAt W.S) W.N k) :=
  W.g.uarchs.done k hk

/-- An entry of the list is that of some position. -/
theorem uarch_of {g : Nat} {u : Uarch} (hu : pub.uarchs[g]? = some u) :
    ∃ k, k < W.N ∧ gi W.nu k = g ∧ u = uarchE (uarchAt W.S) (midrAt W.S) W.N k := by
  have h0 : 0 < W.N := W.h0
  have hg := lt_of_get hu
  rw [W.uarchs_length] at hg
  obtain ⟨k, hk, rfl⟩ := gi_surj W.nu (W.N - 1) g (by omega)
  rw [W.uarch_at (by omega)] at hu
  exact ⟨k, by omega, rfl, (Option.some.inj hu).symm⟩

theorem run_lengths : pub.uarchs.flatMap (fun u => List.replicate u.processorCount u.uarch) =
    (List.range W.N).map (uarchAt W.S) := by
  have h0 : 0 < W.N := W.h0
  rw [flatMap_range _ zeroUarch, W.uarchs_length]
  have e := flat_runs W.nu (fun g => (pub.uarchs[g]?.getD zeroUarch).uarch) (uarchAt W.S) (W.N - 1)
    fun k hk => by
      rw [W.uarch_at (by omega)]
      exact byKey_st (uarchAt W.S) k
  rw [show W.N - 1 + 1 = W.N by omega] at e
  rw [← e]
  unfold flat
  refine flatMap_eq _ _ _ fun g hg => ?_
  obtain ⟨k, hk, rfl⟩ := gi_surj W.nu (W.N - 1) g (by have := List.mem_range.mp hg; omega)
  dsimp only
  rw [W.uarch_at (by omega)]
  rfl

end Whole

end Verif.ArmInit
