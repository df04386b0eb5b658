import Verif.Model.Wide
import Verif.Spec.Wide

/-!
# The conversion of UTF-16 to UTF-8 keeps the text
-/

set_option autoImplicit false

namespace Verif.Wide
open Spec (Scalar utf16 readUtf8 contBits utf8Bytes)

theorem wide_cons (c : Nat) (hc : Scalar c) (rest : List Nat) :
    wideToUtf8 (utf16 c ++ rest) = (wideToUtf8 rest).map (utf8 c ++ ·) := by
  unfold utf16
  by_cases h : c < 0x10000
  · rw [if_pos h]
    have hs : c < 0xD800 ∨ 0xDFFF < c := by unfold Scalar at hc; omega
    cases rest with
    | nil => simp [wideToUtf8, hs]
    | cons l rest =>
      show wideToUtf8 (c :: l :: rest) = _
      rw [wideToUtf8, if_pos hs]
  · rw [if_neg h]
    have hlt : c < 0x110000 := by unfold Scalar at hc; omega
    show wideToUtf8 (_ :: _ :: rest) = _
    rw [wideToUtf8, if_neg (by omega), if_pos (by omega)]
    have : 0x10000 + (0xD800 + (c - 0x10000) / 0x400 - 0xD800) * 0x400 +
        (0xDC00 + (c - 0x10000) % 0x400 - 0xDC00) = c := by omega
    rw [this]

theorem wide_flatMap : ∀ (text : List Nat), (∀ c ∈ text, Scalar c) →
    wideToUtf8 (text.flatMap utf16) = some (text.flatMap utf8) := by
  intro text
  induction text with
  | nil => intro _; rfl
  | cons c text ih =>
    intro h
    rw [List.flatMap_cons, List.flatMap_cons, wide_cons c (h c List.mem_cons_self),
      ih fun d hd => h d (List.mem_cons_of_mem _ hd)]
    rfl

/-- A text that ends with half of a pair is not converted. -/
theorem wide_cut : ∀ (text : List Nat), (∀ c ∈ text, Scalar c) → ∀ u : Nat, 0xD800 ≤ u → u < 0xDC00 →
    wideToUtf8 (text.flatMap utf16 ++ [u]) = none := by
  intro text
  induction text with
  | nil =>
    intro _ u h1 h2
    show wideToUtf8 [u] = none
    rw [wideToUtf8, if_neg (by omega)]
  | cons c text ih =>
    intro h u h1 h2
    rw [List.flatMap_cons, List.append_assoc, wide_cons c (h c List.mem_cons_self),
      ih (fun d hd => h d (List.mem_cons_of_mem _ hd)) u h1 h2]
    rfl

theorem read_cons (c : Nat) (hc : Scalar c) (rest : Bytes) :
    readUtf8 (utf8 c ++ rest) = (readUtf8 rest).map (c :: ·) := by
  have hlt : c < 0x110000 := by unfold Scalar at hc; omega
  have cont : ∀ x : Nat, contBits (0x80 + x % 0x40) = some (x % 0x40) := by
    intro x
    unfold contBits
    rw [if_pos (by omega)]
    exact congrArg some (by omega)
  unfold utf8
  by_cases h1 : c < 0x80
  · rw [if_pos h1]
    show readUtf8 (c :: rest) = _
    cases rest <;> simp [readUtf8, h1]
  rw [if_neg h1]
  by_cases h2 : c < 0x800
  · rw [if_pos h2]
    show readUtf8 (_ :: _ :: rest) = _
    rw [readUtf8, if_neg (by omega)]
    simp only [cont]
    rw [if_pos (by omega)]
    rw [show (0xC0 + c / 0x40 - 0xC0) * 64 + c % 0x40 = c by omega]
  rw [if_neg h2]
  by_cases h3 : c < 0x10000
  · rw [if_pos h3]
    show readUtf8 (_ :: _ :: _ :: rest) = _
    rw [readUtf8, if_neg (by omega)]
    simp only [cont]
    rw [if_neg (by omega), if_pos (by omega)]
    rw [show ((0xE0 + c / 0x1000 - 0xE0) * 64 + c / 0x40 % 0x40) * 64 + c % 0x40 = c by omega]
  · rw [if_neg h3]
    show readUtf8 (_ :: _ :: _ :: _ :: rest) = _
    rw [readUtf8, if_neg (by omega)]
    simp only [cont]
    rw [if_neg (by omega), if_neg (by omega), if_pos (by omega)]
    rw [show (((0xF0 + c / 0x40000 - 0xF0) * 64 + c / 0x1000 % 0x40) * 64 + c / 0x40 % 0x40) * 64 + c % 0x40 = c by omega]

theorem read_flatMap : ∀ (text : List Nat), (∀ c ∈ text, Scalar c) →
    readUtf8 (text.flatMap utf8) = some text := by
  intro text
  induction text with
  | nil => intro _; rw [List.flatMap_nil, readUtf8]
  | cons c text ih =>
    intro h
    rw [List.flatMap_cons, read_cons c (h c List.mem_cons_self),
      ih fun d hd => h d (List.mem_cons_of_mem _ hd)]
    rfl

theorem utf8_length (c : Nat) : (utf8 c).length = utf8Bytes c := by
  unfold utf8 utf8Bytes
  split
  · rfl
  split
  · rfl
  split <;> rfl

theorem flatMap_length : ∀ (text : List Nat), (text.flatMap utf8).length = (text.map utf8Bytes).sum := by
  intro text
  induction text with
  | nil => rfl
  | cons c text ih =>
    rw [List.flatMap_cons, List.length_append, List.map_cons, List.sum_cons, ih, utf8_length]

theorem units_nonzero {text : List Nat} (h : ∀ c ∈ text, c ≠ 0) : ∀ u ∈ text.flatMap utf16, u ≠ 0 := by
  intro u hu
  obtain ⟨c, hc, hu⟩ := List.mem_flatMap.mp hu
  have := h c hc
  unfold utf16 at hu
  split at hu
  · rw [List.mem_singleton.mp hu]; exact this
  · simp only [List.mem_cons, List.not_mem_nil, or_false] at hu
    omega

/-- What `wcsndup` keeps of a text. -/
theorem dup_eq (units : List Nat) (h : ∀ u ∈ units, u ≠ 0) (n : Nat) :
    wcsndup true units n = some (units.take n) := by
  unfold wcsndup
  rw [if_pos rfl]
  congr 2
  induction units with
  | nil => rfl
  | cons u units ih =>
    have h1 : decide (u ≠ 0) = true := decide_eq_true (h u List.mem_cons_self)
    rw [List.takeWhile_cons, if_pos h1, ih fun v hv => h v (List.mem_cons_of_mem _ hv)]

end Verif.Wide
