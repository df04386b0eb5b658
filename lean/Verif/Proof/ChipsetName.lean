import Verif.Proof.ChipsetFix

/-!
# Names of chipsets
-/

set_option autoImplicit false

namespace Verif.ArmChipset
open Spec.Chipsets

/-! ## Decimal numbers -/

theorem digitChar_toNat {d : Nat} (h : d < 10) : d.digitChar.toNat = 48 + d := by
  have : ∀ d < 10, d.digitChar.toNat = 48 + d := by decide
  exact this d h

theorem valueOf_append (a b : Bytes) :
    valueOf (a ++ b) = valueOf a * 10 ^ b.length + valueOf b := by
  induction a with
  | nil => simp [valueOf]
  | cons c a ih =>
    simp only [List.cons_append, valueOf, ih, List.length_append, Nat.pow_add, Nat.add_mul,
      Nat.mul_assoc, Nat.add_assoc]

theorem decimal_value (n : Nat) : valueOf (decimal n) = n := by
  induction n using Nat.strongRecOn with
  | ind n ih =>
    unfold decimal at *
    by_cases h : n < 10
    · rw [Nat.toDigits_of_lt_base h]
      simp [valueOf, digitChar_toNat h]
    · rw [Nat.toDigits_of_base_le (by decide) (by omega), List.map_append, valueOf_append,
        ih (n / 10) (by omega)]
      simp only [List.map_cons, List.map_nil, valueOf, List.length_cons, List.length_nil]
      rw [digitChar_toNat (by omega)]
      omega

theorem decimal_digits (n : Nat) : ∀ c ∈ decimal n, Digit c := by
  intro c hc
  obtain ⟨d, hd, rfl⟩ := List.mem_map.mp hc
  have := Nat.isDigit_of_mem_toDigits (by decide) (by decide) hd
  simp only [Char.isDigit, Bool.and_eq_true, decide_eq_true_eq] at this
  unfold Digit
  have h1 : (48 : UInt32).toNat ≤ d.val.toNat := UInt32.le_iff_toNat_le.mp this.1
  have h2 : d.val.toNat ≤ (57 : UInt32).toNat := UInt32.le_iff_toNat_le.mp this.2
  exact ⟨h1, h2⟩

theorem decimal_length {n : Nat} (h : n < U32) : (decimal n).length ≤ 10 := by
  unfold decimal
  rw [List.length_map, Nat.length_toDigits_le_iff (by decide) (by decide)]
  have : U32 ≤ 10 ^ 10 := by decide
  omega

/-! ## The name fits the buffer -/

theorem vendor_length (v : Vendor) : (vendorString v).length ≤ 17 := by cases v <;> decide

theorem series_length {s : Series} {t : Bytes} (h : seriesString s = some t) : t.length ≤ 11 := by
  cases s <;> simp only [seriesString, reduceCtorEq, Option.some.injEq] at h <;> subst h <;> decide

theorem text_length (n : Nat) (s : Bytes) : (textIn n s).length ≤ n :=
  Nat.le_trans (List.Sublist.length_le (List.takeWhile_sublist _)) (by simp; omega)

/-- The text of a chipset with a model. -/
theorem toString_full {c : Chipset} {s : Bytes} (hs : seriesString c.series = some s)
    (h0 : c.model ≠ 0) (hm : c.model < U32) : toString c =
      some (vendorString c.vendor ++ [32] ++ s ++ decimal c.model ++ textIn 8 c.suffix) := by
  unfold toString
  rw [if_neg h0, hs]
  simp only [printed]
  rw [List.take_of_length_le]
  have h1 := vendor_length c.vendor
  have h2 := series_length hs
  have h3 := decimal_length hm
  have h4 := text_length 8 c.suffix
  simp only [List.length_append, List.length_cons, List.length_nil]
  omega

/-- The text of a chipset without model. -/
theorem toString_short {c : Chipset} {s : Bytes} (hs : seriesString c.series = some s)
    (h0 : c.model = 0) : toString c = some (vendorString c.vendor ++ [32] ++ s) := by
  unfold toString
  rw [if_pos h0, hs]
  simp only [printed]
  rw [List.take_of_length_le]
  have h1 := vendor_length c.vendor
  have h2 := series_length hs
  simp only [List.length_append, List.length_cons, List.length_nil]
  omega

theorem series_some {s : Series} (h : s ≠ .unknown) : ∃ t, seriesString s = some t := by
  cases s <;> first | exact absurd rfl h | exact ⟨_, rfl⟩

/-! ## The name tells vendor and series -/

/-- All series. -/
def allSeries : List Series :=
  [.unknown, .qualcommQsd, .qualcommMsm, .qualcommApq, .qualcommSnapdragon, .mediatekMt,
   .samsungExynos, .hisiliconK3v, .hisiliconHi, .hisiliconKirin, .actionsAtm, .allwinnerA,
   .amlogicAml, .amlogicS, .broadcomBcm, .lgNuclun, .leadcoreLc, .marvellPxa, .mstar6a, .novathorU,
   .nvidiaTegraT, .nvidiaTegraAp, .nvidiaTegraSl, .pineconeSurgeS, .renesasMp, .rockchipRk,
   .spreadtrumSc, .telechipsTcc, .texasInstrumentsOmap, .unisocT, .unisocUms, .wondermediaWm]

theorem mem_allSeries (s : Series) : s ∈ allSeries := by cases s <;> decide

/-- The part of the name before the model. -/
def headOf (s : Series) : Bytes :=
  vendorString (seriesVendor s) ++ [32] ++ (seriesString s).getD []

theorem head_prefix {a b : Series} (ha : a ≠ .unknown) (hb : b ≠ .unknown)
    (h : headOf a <+: headOf b) : a = b := by
  have key : ∀ a ∈ allSeries, ∀ b ∈ allSeries, a ≠ .unknown → b ≠ .unknown →
      (headOf a).isPrefixOf (headOf b) = true → a = b := by decide +kernel
  exact key a (mem_allSeries a) b (mem_allSeries b) ha hb (List.isPrefixOf_iff_prefix.mpr h)

theorem head_inj {a b : Series} {x y : Bytes} (ha : a ≠ .unknown) (hb : b ≠ .unknown)
    (h : headOf a ++ x = headOf b ++ y) : a = b ∧ x = y := by
  have h1 : headOf a <+: headOf b ++ y := ⟨x, h⟩
  have h2 : headOf b <+: headOf b ++ y := ⟨y, rfl⟩
  have e : a = b := by
    rcases Nat.le_total (headOf a).length (headOf b).length with hl | hl
    · exact head_prefix ha hb (List.prefix_of_prefix_length_le h1 h2 hl)
    · exact (head_prefix hb ha (List.prefix_of_prefix_length_le h2 h1 hl)).symm
  subst e
  exact ⟨rfl, List.append_cancel_left h⟩

theorem digits_split {d t : Bytes} (hd : ∀ c ∈ d, Digit c) (ht : SuffixText t) :
    (d ++ t).takeWhile (fun c => 48 ≤ c ∧ c ≤ 57) = d ∧
      (d ++ t).dropWhile (fun c => 48 ≤ c ∧ c ≤ 57) = t := by
  have hd' : ∀ c ∈ d, (decide (48 ≤ c ∧ c ≤ 57)) = true := fun c hc => by
    simp only [decide_eq_true_eq]; exact hd c hc
  rw [List.takeWhile_append_of_pos hd', List.dropWhile_append_of_pos hd']
  cases t with
  | nil => simp
  | cons a t =>
    have ha := ht.2 a (by simp)
    have : decide (48 ≤ a ∧ a ≤ 57) = false := by
      unfold SuffixChar at ha
      simp only [decide_eq_false_iff_not]; omega
    simp only [List.takeWhile_cons, List.dropWhile_cons, this]
    simp

/-- Two well-formed chipsets with models and the same name are the same. -/
theorem name_inj {c d : Chipset} (hc : Valid c) (hd : Valid d) (c0 : c.model ≠ 0)
    (d0 : d.model ≠ 0) (h : toString c = toString d) : c = d := by
  rcases hc with rfl | ⟨hc1, hc2, hc3, t, ht, hc4⟩
  · exact absurd rfl c0
  rcases hd with rfl | ⟨hd1, hd2, hd3, u, hu, hd4⟩
  · exact absurd rfl d0
  obtain ⟨x, hx⟩ := series_some hc1
  obtain ⟨y, hy⟩ := series_some hd1
  have hU : (100000 : Nat) < U32 := by decide
  rw [toString_full hx c0 (by omega), toString_full hy d0 (by omega)] at h
  have hvc := (owner_iff _ _).mp hc2
  have hvd := (owner_iff _ _).mp hd2
  have e1 : vendorString c.vendor ++ [32] ++ x = headOf c.series := by
    simp [headOf, hx, hvc]
  have e2 : vendorString d.vendor ++ [32] ++ y = headOf d.series := by
    simp [headOf, hy, hvd]
  rw [hc4, hd4, suffixText_text ht, suffixText_text hu, e1, e2, List.append_assoc,
    List.append_assoc] at h
  injection h with h
  obtain ⟨h1, h2⟩ := head_inj hc1 hd1 h
  obtain ⟨s1, s2⟩ := digits_split (decimal_digits c.model) ht
  obtain ⟨s3, s4⟩ := digits_split (decimal_digits d.model) hu
  rw [h2] at s1 s2
  have h3 : decimal c.model = decimal d.model := s1.symm.trans s3
  have h4 : t = u := s2.symm.trans s4
  have h5 : c.model = d.model := by rw [← decimal_value c.model, h3, decimal_value]
  obtain ⟨v, s, m, w⟩ := c
  obtain ⟨v', s', m', w'⟩ := d
  simp only at *
  subst h1; subst h5; subst h4
  rw [← hvc, ← hvd, hc4, hd4]

end Verif.ArmChipset
