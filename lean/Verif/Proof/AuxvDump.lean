import Verif.Model.AuxvDump
import Verif.Spec.AuxvDump

/-! Digits printed by auxv-dump. -/

set_option autoImplicit false

namespace Verif.AuxvDump
open FileDump (hexDigit)
open Spec

theorem hexDigit_ok {d : Nat} (h : d < 16) : IsHexDigit (hexDigit d) ∧ hexDigitValue (hexDigit d) = d := by
  unfold IsHexDigit hexDigitValue hexDigit
  split
  · rw [if_pos (by omega)]; omega
  · rw [if_neg (by omega), if_pos (by omega)]; omega

theorem digits_length : ∀ w n, (digits w n).length = w
  | 0, _ => rfl
  | w + 1, n => by
    unfold digits
    rw [List.length_append, digits_length w]
    rfl

theorem digits_hex : ∀ w n, ∀ c ∈ digits w n, IsHexDigit c
  | 0, _ => by intro c hc; cases hc
  | w + 1, n => by
    intro c hc
    unfold digits at hc
    rcases List.mem_append.mp hc with hc | hc
    · exact digits_hex w _ c hc
    · rw [List.mem_singleton.mp hc]
      exact (hexDigit_ok (Nat.mod_lt _ (by omega))).1

theorem digits_number : ∀ w n, n < 16 ^ w → hexNumber (digits w n) = n
  | 0, n, h => by
    have : n = 0 := by simpa using h
    rw [this]; rfl
  | w + 1, n, h => by
    have hd : n / 16 < 16 ^ w := by
      rw [Nat.pow_succ] at h
      exact Nat.div_lt_of_lt_mul (by omega)
    unfold digits hexNumber
    rw [List.foldl_append]
    show hexNumber (digits w (n / 16)) * 16 + hexDigitValue (hexDigit (n % 16)) = n
    rw [digits_number w _ hd, (hexDigit_ok (Nat.mod_lt _ (by omega))).2]
    omega

theorem hexLong_says (name : Bytes) (n : Nat) :
    SaysWord name n (name ++ b!" = 0x" ++ hexLong n ++ [10]) := by
  refine ⟨hexLong n, rfl, ?_, digits_hex _ _, digits_number _ _ ?_⟩
  · unfold hexLong
    rw [digits_length]
    omega
  · have h1 : n < 2 ^ (n.log2 + 1) := Nat.lt_log2_self
    have h2 : 2 ^ (n.log2 + 1) ≤ 2 ^ (4 * max 8 (n.log2 / 4 + 1)) :=
      Nat.pow_le_pow_right (by omega) (by omega)
    rw [Nat.pow_mul] at h2
    exact Nat.lt_of_lt_of_le h1 h2

/-- A line says one word only. -/
theorem says_unique {name : Bytes} {v w : Nat} {rest rest' line line' : Bytes} (h : SaysWord name v line)
    (h' : SaysWord name w line') (he : line ++ rest = line' ++ rest') : v = w ∧ rest = rest' := by
  obtain ⟨ds, rfl, -, hd, rfl⟩ := h
  obtain ⟨ds', rfl, -, hd', rfl⟩ := h'
  simp only [List.append_assoc] at he
  have he := List.append_cancel_left (List.append_cancel_left he)
  have nl : ∀ {l : Bytes}, (∀ c ∈ l, IsHexDigit c) → ∀ c ∈ l, c ≠ 10 := by
    intro l hl c hc h10
    have := hl c hc
    unfold IsHexDigit at this
    omega
  have key : ∀ (a b : Bytes), (∀ c ∈ a, c ≠ 10) → (∀ c ∈ b, c ≠ 10) →
      a ++ ([10] ++ rest) = b ++ ([10] ++ rest') → a = b ∧ rest = rest' := by
    intro a
    induction a with
    | nil =>
      intro b _ hb h
      cases b with
      | nil =>
        injection h with _ h
        exact ⟨rfl, h⟩
      | cons y b =>
        injection h with h _
        exact absurd h.symm (hb y List.mem_cons_self)
    | cons x a ih =>
      intro b ha hb h
      cases b with
      | nil =>
        injection h with h _
        exact absurd h (ha x List.mem_cons_self)
      | cons y b =>
        injection h with h1 h2
        obtain ⟨e1, e2⟩ := ih b (fun c hc => ha c (List.mem_cons_of_mem _ hc))
          (fun c hc => hb c (List.mem_cons_of_mem _ hc)) h2
        exact ⟨by rw [h1, e1], e2⟩
  obtain ⟨e1, e2⟩ := key ds ds' (nl hd) (nl hd') he
  exact ⟨by rw [e1], e2⟩

end Verif.AuxvDump
