import Verif.Model.Tools
import Verif.Model.ArmUarch
import Verif.Proof.ChipsetName
import Verif.Spec.CpuList

/-!
Texts that begin with numbers, and lookups in tables.
-/

set_option autoImplicit false

namespace Verif.Proof.Tools

open Verif.Tools Verif.Spec.Chipsets
open Verif.ArmChipset (decimal decimal_value decimal_digits)

/-- What a `switch` over a table yields. -/
theorem select_all {P : Nat × Nat → Prop} {table : List (Nat × Nat × Nat)} {vendor : Nat}
    (h1 : ∀ e ∈ table, P e.2) (h0 : P (vendor, 0)) (value : Nat) : P (ArmUarch.select table vendor value) := by
  unfold ArmUarch.select
  cases hl : table.lookup value with
  | none => exact h0
  | some r =>
    obtain ⟨a, b, hs, -⟩ := List.lookup_eq_some_iff.1 hl
    exact h1 (value, r) (by rw [hs]; simp)

theorem decimal_ne_nil (n : Nat) : decimal n ≠ [] := by
  unfold decimal
  intro h
  exact Nat.toDigits_ne_nil (List.map_eq_nil_iff.1 h)

theorem decimal_inj {a b : Nat} (h : decimal a = decimal b) : a = b := by
  rw [← decimal_value a, h, decimal_value]

/-- Digits end where something else begins. -/
theorem cut {ds es : Bytes} (hd : ∀ c ∈ ds, Digit c) (he : ∀ c ∈ es, Digit c) {x y : Byte} {r s : Bytes}
    (hx : ¬ Digit x) (hy : ¬ Digit y) (h : ds ++ x :: r = es ++ y :: s) : ds = es ∧ x = y ∧ r = s := by
  induction ds generalizing es with
  | nil =>
    cases es with
    | nil => simpa using h
    | cons e es =>
      simp only [List.nil_append, List.cons_append, List.cons.injEq] at h
      exact absurd (h.1 ▸ he e (by simp)) hx
  | cons d ds ih =>
    cases es with
    | nil =>
      simp only [List.nil_append, List.cons_append, List.cons.injEq] at h
      exact absurd (h.1 ▸ hd d (by simp)) hy
    | cons e es =>
      simp only [List.cons_append, List.cons.injEq] at h
      obtain ⟨h1, h2, h3⟩ := ih (fun c hc => hd c (by simp [hc])) (fun c hc => he c (by simp [hc])) h.2
      exact ⟨by rw [h.1, h1], h2, h3⟩

theorem cutNumber {a b : Nat} {x y : Byte} {r s : Bytes} (hx : ¬ Digit x) (hy : ¬ Digit y)
    (h : decimal a ++ x :: r = decimal b ++ y :: s) : a = b ∧ x = y ∧ r = s := by
  obtain ⟨h1, h2, h3⟩ := cut (decimal_digits a) (decimal_digits b) hx hy h
  exact ⟨decimal_inj h1, h2, h3⟩

/-- A number does not begin with anything but a digit. -/
theorem decimal_cons (n : Nat) : ∃ d ds, decimal n = d :: ds ∧ Digit d := by
  cases h : decimal n with
  | nil => exact absurd h (decimal_ne_nil n)
  | cons d ds => exact ⟨d, ds, rfl, decimal_digits n d (by rw [h]; simp)⟩

theorem decimal_not {a : Nat} {x : Byte} {r s : Bytes} (hx : ¬ Digit x) (h : decimal a ++ r = x :: s) :
    False := by
  obtain ⟨d, ds, e, hd⟩ := decimal_cons a
  rw [e] at h
  simp only [List.cons_append, List.cons.injEq] at h
  exact hx (h.1 ▸ hd)

/-- The numeral in the sense of CPU lists. -/
theorem decimal_numeral (n : Nat) : Spec.IsNumeral (decimal n) :=
  ⟨decimal_ne_nil n, fun c hc => decimal_digits n c hc⟩

theorem spec_decimal (ds : Bytes) : Spec.decimal ds = valueOf ds := by
  have : ∀ (ds : Bytes) n, ds.foldl (fun n d => n * 10 + (d - 48)) n = n * 10 ^ ds.length + valueOf ds := by
    intro ds
    induction ds with
    | nil => intro n; simp [valueOf]
    | cons d ds ih =>
      intro n
      rw [List.foldl_cons, ih, List.length_cons, valueOf, Nat.pow_succ, Nat.add_mul, Nat.mul_assoc,
        Nat.mul_comm 10, Nat.add_assoc]
  unfold Spec.decimal
  rw [this ds 0]
  simp

theorem decimal_reads (n : Nat) : Spec.decimal (decimal n) = n := by
  rw [spec_decimal, decimal_value]

theorem hexDigit_inj {a b : Nat} (ha : a < 16) (hb : b < 16) (h : Tools.hexDigit a = Tools.hexDigit b) : a = b := by
  unfold Tools.hexDigit at h
  split at h <;> split at h <;> omega

theorem hex8_inj {a b : Nat} (ha : a < U32) (hb : b < U32) (h : hex8 a = hex8 b) : a = b := by
  unfold hex8 at h
  simp only [List.map_cons, List.map_nil, List.cons.injEq, and_true] at h
  obtain ⟨h1, h2, h3, h4, h5, h6, h7, h8⟩ := h
  have h1 := hexDigit_inj (by omega) (by omega) h1
  have h2 := hexDigit_inj (by omega) (by omega) h2
  have h3 := hexDigit_inj (by omega) (by omega) h3
  have h4 := hexDigit_inj (by omega) (by omega) h4
  have h5 := hexDigit_inj (by omega) (by omega) h5
  have h6 := hexDigit_inj (by omega) (by omega) h6
  have h7 := hexDigit_inj (by omega) (by omega) h7
  have h8 := hexDigit_inj (by omega) (by omega) h8
  omega

theorem lookup_mem {t : List (Nat × Bytes)} {v : Nat} {s : Bytes} (h : t.lookup v = some s) :
    s ∈ t.map (·.2) := by
  obtain ⟨l1, l2, h1, -⟩ := List.lookup_eq_some_iff.1 h
  rw [h1]; simp

end Verif.Proof.Tools
