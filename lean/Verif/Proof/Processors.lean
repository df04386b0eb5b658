import Verif.Model.Processors
import Verif.Proof.Files

/-! Helper lemmas for src/linux/processors.c. -/

set_option autoImplicit false

namespace Verif.Processors
open Spec

theorem parseNumber_eq (t : Bytes) (n : Nat) : parseNumber t n = CpuList.parseNumber t n := by
  induction t generalizing n with
  | nil => rfl
  | cons c cs ih => simp only [parseNumber, CpuList.parseNumber, ih]

theorem uint32_of_numeral (ds junk : Bytes) (h : IsNumeral ds)
    (hj : ∀ c, junk.head? = some c → ¬ IsDigit c) :
    uint32Parser (ds ++ junk) = some (decimal ds % U32) := by
  have h0 : ds.length ≠ 0 := by simpa using h.1
  unfold uint32Parser
  rw [if_neg (by rw [List.length_append]; omega), parseNumber_eq, CpuList.parseNumber_run ds junk 0 h.2 hj (by omega)]
  dsimp only
  rw [if_neg (by rw [List.length_append]; omega)]
  rfl

theorem uint32_none (t : Bytes) (h : ∀ c, t.head? = some c → ¬ IsDigit c) :
    uint32Parser t = none := by
  unfold uint32Parser
  cases t with
  | nil => rfl
  | cons c cs =>
    rw [if_neg (by simp), parseNumber_eq]
    have := CpuList.parseNumber_run [] (c :: cs) 0 (by simp) h (by omega)
    simp only [List.nil_append] at this
    rw [this]
    simp

theorem detectLoop_spec (maxCount flag n p : Nat) (t : List Nat) (h : maxCount ≤ t.length) :
    ∃ t', detectLoop maxCount flag n p t = some t' ∧ t'.length = t.length ∧
      ∀ i, t'[i]? = (t[i]?).map fun w =>
        if p ≤ i ∧ i < p + n ∧ i < maxCount then w ||| flag else w := by
  induction n generalizing p t with
  | zero =>
    refine ⟨t, rfl, rfl, ?_⟩
    intro i
    have : ∀ w : Nat, (if p ≤ i ∧ i < p + 0 ∧ i < maxCount then w ||| flag else w) = w := by
      intro w; rw [if_neg (by omega)]
    cases t[i]? with
    | none => rfl
    | some w => simp only [Option.map_some, this]
  | succ n ih =>
    unfold detectLoop
    by_cases hp : p ≥ maxCount
    · rw [if_pos hp]
      refine ⟨t, rfl, rfl, ?_⟩
      intro i
      have : ∀ w : Nat, (if p ≤ i ∧ i < p + (n + 1) ∧ i < maxCount then w ||| flag else w) = w := by
        intro w; rw [if_neg (by omega)]
      cases t[i]? with
      | none => rfl
      | some w => simp only [Option.map_some, this]
    · rw [if_neg hp]
      have hlt : p < t.length := by omega
      rw [List.getElem?_eq_getElem hlt]
      dsimp only
      obtain ⟨t', h1, h2, h3⟩ := ih (p + 1) (t.set p (t[p] ||| flag)) (by simpa using h)
      refine ⟨t', h1, by simpa using h2, ?_⟩
      intro i
      rw [h3 i]
      by_cases hi : i = p
      · subst hi
        rw [List.getElem?_set_self hlt, List.getElem?_eq_getElem hlt]
        simp only [Option.map_some]
        rw [if_neg (by omega), if_pos (by omega)]
      · rw [List.getElem?_set_ne (Ne.symm hi)]
        cases t[i]? with
        | none => rfl
        | some w =>
          simp only [Option.map_some]
          by_cases hc : p + 1 ≤ i ∧ i < p + 1 + n ∧ i < maxCount
          · rw [if_pos hc, if_pos (by omega)]
          · rw [if_neg hc, if_neg (by omega)]

/-- `i` is listed: it lies in the range of one of the entries. -/
theorem or_absorb (w f : Nat) : (w ||| f) ||| f = w ||| f := by
  rw [Nat.or_assoc, Nat.or_self]

open Classical in
theorem run_detect (maxCount flag : Nat) (ms : List (Option (Nat × Nat))) (t : List Nat)
    (h : maxCount ≤ t.length) (hms : ∀ a b, some (a, b) ∈ ms → b < U32MAX) :
    ∃ t', runEntries (detectCallback maxCount flag) (some t) ms =
        (some t', ms.all Option.isSome) ∧ t'.length = t.length ∧
      ∀ i, t'[i]? = (t[i]?).map fun w =>
        if i < maxCount ∧ ∃ a b, some (a, b) ∈ ms ∧ a ≤ i ∧ i ≤ b then w ||| flag else w := by
  induction ms generalizing t with
  | nil =>
    refine ⟨t, by simp [runEntries], rfl, ?_⟩
    intro i; cases t[i]? <;> simp
  | cons m ms ih =>
    cases m with
    | none =>
      obtain ⟨t', h1, h2, h3⟩ := ih t h (fun a b hab => hms a b (by simp [hab]))
      refine ⟨t', by simp [runEntries, h1], h2, ?_⟩
      intro i; rw [h3 i]; simp
    | some r =>
      obtain ⟨a, b⟩ := r
      have hb := hms a b (by simp)
      obtain ⟨t1, g1, g2, g3⟩ := detectLoop_spec maxCount flag (b + 1 - a) a t h
      obtain ⟨t', h1, h2, h3⟩ := ih t1 (by omega) (fun a b hab => hms a b (by simp [hab]))
      refine ⟨t', ?_, by omega, ?_⟩
      · have e : (b + 1) % U32 = b + 1 := by omega
        simp only [runEntries, detectCallback, e, Option.bind_some, g1]
        rw [h1]; simp
      · intro i
        rw [h3 i, g3 i]
        cases t[i]? with
        | none => rfl
        | some w =>
          simp only [Option.map_some, Option.some.injEq]
          by_cases hi : i < maxCount
          · by_cases h4 : a ≤ i ∧ i ≤ b
            · rw [if_pos (show a ≤ i ∧ i < a + (b + 1 - a) ∧ i < maxCount by omega)]
              rw [if_pos (show i < maxCount ∧ ∃ a' b', some (a', b') ∈ some (a, b) :: ms ∧ a' ≤ i ∧ i ≤ b' from
                ⟨hi, a, b, by simp, h4.1, h4.2⟩)]
              split
              · exact or_absorb w flag
              · rfl
            · rw [if_neg (show ¬ (a ≤ i ∧ i < a + (b + 1 - a) ∧ i < maxCount) by omega)]
              by_cases h5 : ∃ a' b', some (a', b') ∈ ms ∧ a' ≤ i ∧ i ≤ b'
              · rw [if_pos ⟨hi, h5⟩]
                obtain ⟨a', b', h6, h7⟩ := h5
                rw [if_pos ⟨hi, a', b', by simp [h6], h7⟩]
              · rw [if_neg (fun x => h5 x.2), if_neg]
                rintro ⟨_, a', b', h6, h7⟩
                simp at h6
                rcases h6 with ⟨rfl, rfl⟩ | h6
                · exact h4 h7
                · exact h5 ⟨a', b', h6, h7⟩
          · rw [if_neg (fun x => hi x.1), if_neg (fun x => hi x.2.2), if_neg (fun x => hi x.1)]

theorem run_max (rs : List (Nat × Nat)) (m : Nat) (hrs : ∀ r ∈ rs, r.2 < U32MAX) :
    ∃ m', runEntries maxNumberCallback m (rs.map some) = (m', true) ∧ m ≤ m' ∧
      (∀ r ∈ rs, r.2 ≤ m') ∧ (m' = m ∨ ∃ r ∈ rs, r.2 = m') := by
  induction rs generalizing m with
  | nil => exact ⟨m, by simp [runEntries], by omega, by simp, .inl rfl⟩
  | cons r rs ih =>
    have hr := hrs r (by simp)
    have e : ((r.2 + 1) % U32 + U32 - 1) % U32 = r.2 := by omega
    obtain ⟨m', h1, h2, h3, h4⟩ := ih (if m < r.2 then r.2 else m) (fun x hx => hrs x (by simp [hx]))
    refine ⟨m', ?_, ?_, ?_, ?_⟩
    · simp only [List.map_cons, runEntries, maxNumberCallback, e, Bool.true_and]
      rw [h1]
    · split at h2 <;> omega
    · intro x hx; simp at hx
      rcases hx with rfl | hx
      · split at h2 <;> omega
      · exact h3 x hx
    · rcases h4 with h4 | ⟨x, hx, h4⟩
      · split at h4
        · exact .inr ⟨r, by simp, h4.symm⟩
        · exact .inl h4
      · exact .inr ⟨x, by simp [hx], h4⟩

end Verif.Processors
