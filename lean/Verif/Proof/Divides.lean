import Verif.Spec.Platform

/-!
# Uniform ranges
-/

set_option autoImplicit false

namespace Verif.Spec

theorem consecutive_uniform (k : Nat) (hk : 0 < k) : ∀ (n a : Nat),
    Consecutive (a * k) ((List.range' a n).map fun i => (i * k, k)) ((a + n) * k) := by
  intro n
  induction n with
  | zero => intro a; exact .nil _
  | succ n ih =>
    intro a
    have := ih (a + 1)
    rw [show a + 1 + n = a + (n + 1) by omega] at this
    rw [List.range'_succ, List.map_cons]
    exact .cons hk (by rw [← Nat.succ_mul]; exact this)

/-- Equal ranges of `k` elements, with the link `i / k`. -/
theorem divides_uniform {α β : Type} (ps : List α) (n k : Nat) (f : Nat → β) (link : α → Option Nat)
    (start count : β → Nat) (hk : 0 < k) (hlen : ps.length = n * k)
    (hf : ∀ i, i < n → start (f i) = i * k ∧ count (f i) = k)
    (hl : ∀ (i : Nat) p, ps[i]? = some p → link p = some (i / k)) :
    Divides ps ((List.range n).map f) link start count := by
  refine ⟨?_, fun i p hp => ?_⟩
  · have h := consecutive_uniform k hk n 0
    rw [Nat.zero_mul, Nat.zero_add, ← List.range_eq_range'] at h
    rw [hlen, List.map_map]
    have e : (List.range n).map ((fun e => (start e, count e)) ∘ f) =
        (List.range n).map fun i => (i * k, k) := by
      refine List.map_congr_left fun i hi => ?_
      obtain ⟨h1, h2⟩ := hf i (List.mem_range.mp hi)
      show (start (f i), count (f i)) = _
      rw [h1, h2]
    rw [e]; exact h
  · have hi : i < n * k := by
      rw [← hlen]
      exact (List.getElem?_eq_some_iff.mp hp).1
    have hd : i / k < n := (Nat.div_lt_iff_lt_mul hk).mpr hi
    obtain ⟨h1, h2⟩ := hf _ hd
    refine ⟨i / k, f (i / k), hl i p hp, ?_, ?_⟩
    · rw [List.getElem?_map, List.getElem?_range hd]; rfl
    · rw [h1, h2]
      refine ⟨Nat.div_mul_le_self i k, ?_⟩
      have := Nat.lt_div_mul_add hk (a := i)
      omega

/-- One range over everything. -/
theorem divides_one {α β : Type} (ps : List α) (e : β) (link : α → Option Nat)
    (start count : β → Nat) (hpos : 0 < ps.length) (h1 : start e = 0) (h2 : count e = ps.length)
    (hl : ∀ (i : Nat) p, ps[i]? = some p → link p = some 0) :
    Divides ps [e] link start count := by
  refine ⟨?_, fun i p hp => ⟨0, e, hl i p hp, rfl, ?_⟩⟩
  · show Consecutive 0 [(start e, count e)] ps.length
    rw [h1, h2]
    exact .cons hpos (by rw [Nat.zero_add]; exact .nil _)
  · rw [h1, h2]
    exact ⟨Nat.zero_le _, by rw [Nat.zero_add]; exact (List.getElem?_eq_some_iff.mp hp).1⟩

/-- Two ranges. -/
theorem divides_two {α β : Type} (ps : List α) (e e' : β) (m : Nat) (link : α → Option Nat)
    (start count : β → Nat) (hm : 0 < m) (hlen : m < ps.length) (h1 : start e = 0) (h2 : count e = m)
    (h3 : start e' = m) (h4 : count e' = ps.length - m)
    (hl : ∀ (i : Nat) p, ps[i]? = some p → link p = some (if i ≥ m then 1 else 0)) :
    Divides ps [e, e'] link start count := by
  refine ⟨?_, fun i p hp => ?_⟩
  · show Consecutive 0 [(start e, count e), (start e', count e')] ps.length
    rw [h1, h2, h3, h4]
    refine .cons hm ?_
    rw [Nat.zero_add]
    refine .cons (by omega) ?_
    rw [Nat.add_sub_cancel' (by omega)]
    exact .nil _
  · have hi := (List.getElem?_eq_some_iff.mp hp).1
    have := hl i p hp
    by_cases h : i ≥ m
    · rw [if_pos h] at this
      exact ⟨1, e', this, rfl, by unfold InRange; omega⟩
    · rw [if_neg h] at this
      exact ⟨0, e, this, rfl, by unfold InRange; omega⟩

end Verif.Spec
