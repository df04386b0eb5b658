import Verif.Proof.ArmCaches

/-!
# The list of microarchitectures
-/

set_option autoImplicit false

namespace Verif.ArmInit
open Spec ArmMidr ArmCpuinfo ArmClusters ArmClusterMidr ArmChipset Runs
open X86Init (modify? Tab Opens opens_of_new modify?_modify?)

/-- The processors with the numbers of their microarchitectures, from position `n`. -/
def numbered (un : Nat → Bool) : Nat → List Proc → List Proc
  | _, [] => []
  | n, p :: v => { p with uarchIndex := gi un n } :: numbered un (n + 1) v

theorem numbered_length (un : Nat → Bool) : ∀ (n : Nat) (v : List Proc),
    (numbered un n v).length = v.length
  | _, [] => rfl
  | n, _ :: v => by rw [numbered, List.length_cons, List.length_cons, numbered_length un (n + 1) v]

theorem numbered_get (un : Nat → Bool) : ∀ (v : List Proc) (n k : Nat) (p : Proc), v[k]? = some p →
    (numbered un n v)[k]? = some { p with uarchIndex := gi un (n + k) }
  | p :: v, n, 0, q, h => by
    have : p = q := by simpa using h
    subst this; rfl
  | p :: v, n, k + 1, q, h => by
    have h : v[k]? = some q := by simpa using h
    have := numbered_get un v (n + 1) k q h
    rw [numbered, List.getElem?_cons_succ, this]
    rw [show n + 1 + k = n + (k + 1) by omega]

theorem countUarchs_rest : ∀ (c l : Nat) (w : List Proc), (∀ p ∈ w, valid p = false) →
    countUarchs c l w = (c, w)
  | _, _, [], _ => rfl
  | c, l, p :: w, h => by
    have hp := h p (List.mem_cons_self ..)
    rw [countUarchs, hp, countUarchs_rest c l w fun q hq => h q (List.mem_cons_of_mem _ hq)]
    rfl

theorem fillUarchs_rest : ∀ (i l : Nat) (w : List Proc) (us : List Uarch),
    (∀ p ∈ w, valid p = false) → fillUarchs i l w us = some us
  | _, _, [], _, _ => rfl
  | i, l, p :: w, us, h => by
    have hp := h p (List.mem_cons_self ..)
    rw [fillUarchs, hp]
    simp only [Bool.false_eq_true, if_false]
    exact fillUarchs_rest i l w us fun q hq => h q (List.mem_cons_of_mem _ hq)

/-- Where a microarchitecture different from the previous one starts. -/
def newUarch (u : Nat → Nat) : Nat → Bool := byKey u

theorem opened_new (u : Nat → Nat) (n : Nat) : opened (newUarch u) (n + 1) = gi (newUarch u) n + 1 :=
  opened_gi _ rfl n

/-- The condition of the code at position `n`. -/
theorem new_iff (u : Nat → Nat) (n last : Nat) (hl : ∀ m, n = m + 1 → last = u m) :
    (opened (newUarch u) n = 0 ∨ u n ≠ last) ↔ newUarch u n = true := by
  cases n with
  | zero => simp [opened, newUarch, byKey]
  | succ m =>
    rw [opened_new, hl m rfl]
    unfold newUarch
    rw [byKey_succ]
    constructor
    · rintro (h | h)
      · omega
      · exact h
    · exact .inr

theorem countUarchs_spec (u : Nat → Nat) : ∀ (v w : List Proc) (n last : Nat),
    (∀ m, n = m + 1 → last = u m) →
    (∀ k p, v[k]? = some p → valid p = true ∧ p.uarch = u (n + k)) →
    (∀ p ∈ w, valid p = false) →
    countUarchs (opened (newUarch u) n) last (v ++ w) =
      (opened (newUarch u) (n + v.length), numbered (newUarch u) n v ++ w)
  | [], w, n, last, _, _, hw => countUarchs_rest _ _ w hw
  | p :: v, w, n, last, hl, hv, hw => by
    obtain ⟨hp, hu⟩ := hv 0 p rfl
    rw [List.cons_append, countUarchs, hp]
    simp only [if_true]
    have hni := new_iff u n last hl
    rw [Nat.add_zero] at hu
    rw [hu]
    have ih := countUarchs_spec u v w (n + 1) (u n) (fun m hm => by
      have : n = m := by omega
      rw [this]) (fun k q hq => by
        obtain ⟨h1, h2⟩ := hv (k + 1) q (by simpa using hq)
        exact ⟨h1, by rw [h2, show n + 1 + k = n + (k + 1) by omega]⟩) hw
    have ec : (if opened (newUarch u) n = 0 ∨ u n ≠ last then opened (newUarch u) n + 1
        else opened (newUarch u) n) = opened (newUarch u) (n + 1) := by
      cases hn : newUarch u n with
      | true => rw [if_pos (hni.mpr hn), opened_pos hn]
      | false =>
        rw [if_neg (fun h => by rw [hni.mp h] at hn; cases hn), opened_neg hn]
    have el : (if opened (newUarch u) n = 0 ∨ u n ≠ last then u n else last) = u n := by
      by_cases h : opened (newUarch u) n = 0 ∨ u n ≠ last
      · rw [if_pos h]
      · rw [if_neg h]
        exact (Decidable.not_not.mp fun hne => h (.inr fun e => hne e.symm))
    rw [ec, el, ih]
    have e1 : opened (newUarch u) (n + 1) - 1 = gi (newUarch u) n := by rw [opened_new]; rfl
    rw [e1, List.length_cons, show n + 1 + v.length = n + (v.length + 1) by omega, ← hu]
    rfl

/-- The entry of the microarchitecture of position `k` after `n` positions. -/
def uarchE (u m : Nat → Nat) (n k : Nat) : Uarch :=
  ⟨u (st (newUarch u) k), m (st (newUarch u) k), cnt (newUarch u) (gi (newUarch u) k) n,
    cnt (newUarch u) (gi (newUarch u) k) n⟩

theorem st_new_self {nw : Nat → Bool} {n : Nat} (h : n = 0 ∨ nw n = true) : st nw n = n := by
  cases n with
  | zero => rfl
  | succ n =>
    rcases h with h | h
    · omega
    · rw [st_succ_new h]

theorem fillUarchs_spec (u m : Nat → Nat) (len : Nat) : ∀ (v w : List Proc) (n last : Nat)
    (us : List Uarch), opened (newUarch u) (n + v.length) ≤ len →
    (∀ m, n = m + 1 → last = u m) →
    (∀ k p, v[k]? = some p → valid p = true ∧ p.uarch = u (n + k) ∧ p.midr = m (n + k)) →
    (∀ p ∈ w, valid p = false) → Tab (newUarch u) len n (uarchE u m n) zeroUarch us →
    ∃ us', fillUarchs (opened (newUarch u) n) last (v ++ w) us = some us' ∧
      Tab (newUarch u) len (n + v.length) (uarchE u m (n + v.length)) zeroUarch us'
  | [], w, n, last, us, _, _, _, hw, ht => ⟨us, fillUarchs_rest _ _ w us hw, ht⟩
  | p :: v, w, n, last, us, hlen, hl, hv, hw, ht => by
    obtain ⟨hp, hu, hm⟩ := hv 0 p rfl
    rw [Nat.add_zero] at hu hm
    rw [List.length_cons] at hlen ⊢
    have hni := new_iff u n last hl
    have el : (if opened (newUarch u) n = 0 ∨ u n ≠ last then u n else last) = u n := by
      by_cases h : opened (newUarch u) n = 0 ∨ u n ≠ last
      · rw [if_pos h]
      · rw [if_neg h]
        exact (Decidable.not_not.mp fun hne => h (.inr fun e => hne e.symm))
    have e1 : opened (newUarch u) (n + 1) - 1 = gi (newUarch u) n := by rw [opened_new]; rfl
    have hglt : gi (newUarch u) n < len := by
      have := opened_mono (newUarch u) (show n + 1 ≤ n + (v.length + 1) by omega)
      rw [opened_new] at this; omega
    have hstep : ∃ us', ((if opened (newUarch u) n = 0 ∨ u n ≠ last then
          modify? us (opened (newUarch u) n) fun _ => (⟨u n, m n, 0, 0⟩ : Uarch) else some us).bind fun us =>
          modify? us (gi (newUarch u) n) fun y => { y with processorCount := y.processorCount + 1, coreCount := y.coreCount + 1 })
        = some us' ∧ Tab (newUarch u) len (n + 1) (uarchE u m (n + 1)) zeroUarch us' := by
      have hsame : ∀ k, k < n → gi (newUarch u) k = gi (newUarch u) n → uarchE u m (n + 1) k = uarchE u m (n + 1) n := by
        intro k hk hg
        unfold uarchE
        rw [hg, st_eq_of_gi _ _ _ hg]
      have hother : ∀ k, k < n → gi (newUarch u) k ≠ gi (newUarch u) n →
          uarchE u m (n + 1) k = uarchE u m n k := by
        intro k hk hg
        unfold uarchE
        have : cnt (newUarch u) (gi (newUarch u) k) (n + 1) = cnt (newUarch u) (gi (newUarch u) k) n := by
          rw [cnt, if_neg (fun e => hg e.symm)]; omega
        rw [this]
      cases hn : newUarch u n with
      | true =>
        have eg : opened (newUarch u) n = gi (newUarch u) n := by
          have := opened_new u n
          rw [opened_pos hn] at this; omega
        rw [if_pos (hni.mpr hn), eg, modify?_modify?]
        have hst := st_new_self (nw := newUarch u) (.inr hn)
        have hc0 : cnt (newUarch u) (gi (newUarch u) n) (n + 1) = 1 := by
          rw [cnt_self, hst]; omega
        refine ht.step hglt _ (fun _ => ?_) (fun m' hm' hold => by rw [hn] at hold; cases hold) hsame hother
        unfold uarchE
        rw [hst, hc0]
      | false =>
        rw [if_neg (fun h => by rw [hni.mp h] at hn; cases hn)]
        simp only [Option.bind_some]
        refine ht.step hglt _ (fun ho => ?_) (fun m' hm' _ => ?_) hsame hother
        · exfalso
          cases n with
          | zero => simp [newUarch, byKey] at hn
          | succ n => exact ho n (by omega) (gi_succ_old hn).symm
        · subst hm'
          unfold uarchE
          rw [gi_succ_old hn, st_succ_old hn]
          have : cnt (newUarch u) (gi (newUarch u) m') (m' + 1 + 1) =
              cnt (newUarch u) (gi (newUarch u) m') (m' + 1) + 1 := by
            rw [cnt, gi_succ_old hn, if_pos rfl]
          rw [this]
    obtain ⟨us1, es, ht1⟩ := hstep
    obtain ⟨us2, es2, ht2⟩ := fillUarchs_spec u m len v w (n + 1) (u n) us1
      (by rw [show n + 1 + v.length = n + (v.length + 1) by omega]; exact hlen) (fun m' hm' => by
        have : n = m' := by omega
        rw [this]) (fun k q hq => by
        obtain ⟨h1, h2⟩ := hv (k + 1) q (by simpa using hq)
        rw [show n + 1 + k = n + (k + 1) by omega]
        exact ⟨h1, h2⟩) hw ht1
    refine ⟨us2, ?_, by rw [show n + (v.length + 1) = n + 1 + v.length by omega]; exact ht2⟩
    rw [List.cons_append, fillUarchs, hp]
    simp only [if_true]
    rw [hu, hm, el]
    have ec : (if opened (newUarch u) n = 0 ∨ u n ≠ last then opened (newUarch u) n + 1
        else opened (newUarch u) n) = opened (newUarch u) (n + 1) := by
      cases hn : newUarch u n with
      | true => rw [if_pos (hni.mpr hn), opened_pos hn]
      | false =>
        rw [if_neg (fun h => by rw [hni.mp h] at hn; cases hn), opened_neg hn]
    rw [ec, e1, ← es2]
    cases hx : (if opened (newUarch u) n = 0 ∨ u n ≠ last then
        modify? us (opened (newUarch u) n) fun _ => (⟨u n, m n, 0, 0⟩ : Uarch) else some us) with
    | none => rw [hx] at es; cases es
    | some x =>
      rw [hx] at es
      simp only [Option.bind_some] at es
      simp only [Option.bind_eq_bind, Option.bind_some]
      split at hx <;> simp_all
end Verif.ArmInit
