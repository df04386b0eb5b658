import Verif.Proof.ChipsetDecode
import Verif.Spec.ArmChipsetValid

/-!
# Decoded chipsets are well-formed
-/

set_option autoImplicit false

namespace Verif.ArmChipset
open Spec.Chipsets

theorem owner_iff (v : Vendor) (s : Series) : s ∈ seriesOf v ↔ seriesVendor s = v := by
  cases v <;> cases s <;> decide

theorem padded_length {t : Bytes} (h : t.length ≤ 8) : (padded t).length = 8 := by
  simp [padded]; omega

theorem padded_text {t : Bytes} (h : t.length ≤ 8) (hz : ∀ c ∈ t, c ≠ 0) :
    textIn 8 (padded t) = t := by
  unfold textIn
  rw [List.take_of_length_le (by rw [padded_length h]; omega), padded,
    List.takeWhile_append_of_pos (fun c hc => by simpa using hz c hc)]
  cases 8 - t.length <;> simp [List.replicate_succ]

theorem suffixChar_ne {c : Byte} (h : SuffixChar c) : c ≠ 0 := by
  unfold SuffixChar at h; omega

theorem suffixText_text {t : Bytes} (h : SuffixText t) : textIn 8 (padded t) = t :=
  padded_text h.1 fun c hc => suffixChar_ne (h.2 c hc)

theorem suffixText_nil : SuffixText [] := by simp [SuffixText]

theorem upper_char {c : Byte} (h : Letter c ∨ c = 45 ∨ c = 47) : SuffixChar (upper c) := by
  unfold Letter at h
  unfold SuffixChar upper
  split <;> omega

theorem suffixText_upper {t : Bytes} (h : t.length ≤ 8) (ht : ∀ c ∈ t, Letter c ∨ c = 45 ∨ c = 47) :
    SuffixText (t.map upper) := by
  refine ⟨by simpa using h, fun c hc => ?_⟩
  obtain ⟨d, hd, rfl⟩ := List.mem_map.mp hc
  exact upper_char (ht d hd)

theorem mem_takeWhile {α : Type} {p : α → Bool} {l : List α} {a : α} (h : a ∈ l.takeWhile p) :
    p a = true := by
  induction l with
  | nil => simp at h
  | cons b l ih =>
    rw [List.takeWhile_cons] at h
    split at h
    · rcases List.mem_cons.mp h with rfl | h
      · assumption
      · exact ih h
    · simp at h

theorem suffixOf_text {extra : Byte} (he : extra = 45 ∨ extra = 47) (t : Bytes) :
    SuffixText (suffixOf extra t) := by
  refine suffixText_upper (by simp; omega) fun c hc => ?_
  have := mem_takeWhile (List.mem_of_mem_take hc)
  simp only [decide_eq_true_eq] at this
  rcases this with h | rfl
  · exact .inl h
  · exact .inr he

theorem valid_chip {v : Vendor} {s : Series} {n : Nat} {t : Bytes} (hs : s ≠ .unknown)
    (ho : s ∈ seriesOf v) (hn : n < 100000) (ht : SuffixText t) : Valid (chip v s n t) :=
  .inr ⟨hs, ho, hn, t, ht, rfl⟩

theorem number_lt {k : Nat} {d : Bytes} {n : Nat} (h : IsNumber k d n) (hk : k ≤ 5) :
    n < 100000 := by
  obtain ⟨h1, h2, rfl⟩ := h
  have h3 := valueOf_lt h2
  rw [h1] at h3
  have : 10 ^ k ≤ 10 ^ 5 := Nat.pow_le_pow_right (by decide) hk
  omega

/-- A pattern of well-formed chipsets. -/
def ValidPattern (P : Pattern) : Prop := ∀ s c, P s c → Valid c

theorem msmApq_valid : ValidPattern MsmApq := by
  rintro s c ⟨p, sp, d, t, n, series, _, h | h, _, h1, rfl⟩ <;> rw [h.2] <;>
    exact valid_chip (by decide) (by decide) (number_lt h1 (by decide)) (suffixOf_text (.inl rfl) _)

theorem sdm_valid : ValidPattern Sdm := by
  rintro s c ⟨d, n, _, h1, rfl⟩
  exact valid_chip (by decide) (by decide) (number_lt h1 (by decide)) suffixText_nil

theorem sm_valid : ValidPattern Sm := by
  rintro s c ⟨d, n, _, h1, rfl⟩
  exact valid_chip (by decide) (by decide) (number_lt h1 (by decide)) suffixText_nil

theorem samsungExynos_valid : ValidPattern SamsungExynosActual := by
  rintro s c ⟨p, sp, d, t, n, _, _, _, _, _, h1, rfl⟩
  exact valid_chip (by decide) (by decide) (number_lt h1 (by decide)) suffixText_nil

theorem exynos_valid : ValidPattern Exynos := by
  rintro s c ⟨d, n, _, h1, rfl⟩
  exact valid_chip (by decide) (by decide) (number_lt h1 (by decide)) suffixText_nil

theorem universal_valid : ValidPattern Universal := by
  rintro s c ⟨p, d, n, _, _, h1, rfl⟩
  exact valid_chip (by decide) (by decide) (number_lt h1 (by decide)) suffixText_nil

theorem smdk_valid (cores : Nat) : ValidPattern fun s => Smdk s cores := by
  rintro s c ⟨p, d, n, _, _, h1, rfl⟩
  exact valid_chip (by decide) (by decide) (by omega) suffixText_nil

theorem mtWhole_valid : ValidPattern MtWhole := by
  rintro s c ⟨p, k, d, t, n, _, _, _, h1, h2, h3, rfl⟩
  exact valid_chip (by decide) (by decide) (number_lt h1 (by decide))
    (suffixText_upper h2 fun x hx => (h3 x hx).imp_right .inr)

theorem mtPrefix_valid : ValidPattern MtPrefix := by
  rintro s c ⟨p, k, d, t, n, _, _, _, h1, rfl⟩
  exact valid_chip (by decide) (by decide) (number_lt h1 (by decide)) (suffixOf_text (.inr rfl) _)

theorem kirin_valid : ValidPattern KirinActual := by
  rintro s c ⟨k, x, d, n, _, _, _, h1, rfl⟩
  exact valid_chip (by decide) (by decide) (number_lt h1 (by decide)) suffixText_nil

theorem rk_valid : ValidPattern Rk := by
  rintro s c ⟨p, d, t, n, _, _, h1, h2, h3, rfl⟩
  exact valid_chip (by decide) (by decide) (number_lt h1 (by decide))
    (suffixText_upper (by omega) fun x hx => .inl (h3 x hx))

theorem sc_valid : ValidPattern Sc := by
  rintro s c ⟨p, _, ⟨x, _, _, rfl⟩ | ⟨d, t, n, _, h1, h2, rfl⟩⟩
  · exact valid_chip (by decide) (by decide) (by decide) suffixText_nil
  · exact valid_chip (by decide) (by decide) (number_lt h1 (by decide))
      (suffixText_upper (by simp; omega) fun x hx => .inl (h2 x hx))

theorem unisocT_valid : ValidPattern UnisocT := by
  rintro s c ⟨d, n, _, h1 | h1, rfl⟩ <;>
    exact valid_chip (by decide) (by decide) (number_lt h1 (by decide)) suffixText_nil

theorem unisocUms_valid : ValidPattern UnisocUms := by
  rintro s c ⟨d, n, _, h1 | h1, rfl⟩ <;>
    exact valid_chip (by decide) (by decide) (number_lt h1 (by decide)) suffixText_nil

theorem lc_valid : ValidPattern LcActual := by
  rintro s c ⟨d, t, n, _, h1, _, _, rfl⟩
  exact valid_chip (by decide) (by decide) (number_lt h1 (by decide)) suffixText_nil

theorem pxa_valid : ValidPattern Pxa := by
  rintro s c (⟨_, rfl⟩ | ⟨d, n, _, h1 | h1, rfl⟩)
  · exact valid_chip (by decide) (by decide) (by decide) suffixText_nil
  all_goals exact valid_chip (by decide) (by decide) (number_lt h1 (by decide)) suffixText_nil

theorem bcm_valid : ValidPattern Bcm := by
  rintro s c ⟨d, n, _, h1, rfl⟩
  exact valid_chip (by decide) (by decide) (number_lt h1 (by decide)) suffixText_nil

theorem omap_valid : ValidPattern Omap := by
  rintro s c ⟨d, n, _, h1, rfl⟩
  exact valid_chip (by decide) (by decide) (number_lt h1 (by decide)) suffixText_nil

theorem broadcom_valid (cores freq : Nat) : ValidPattern fun s => Broadcom s cores freq := by
  rintro s c ⟨r, h, rfl⟩
  have hall : ∀ r ∈ broadcomPlatforms, r.2.2.2.1 < 100000 ∧ SuffixText r.2.2.2.2 := by decide +kernel
  have := hall r (List.mem_of_find?_eq_some h)
  exact valid_chip (by decide) (by decide) this.1 this.2

theorem sunxi_valid (arm32 : Bool) (cores : Nat) : ValidPattern fun s => Sunxi arm32 s cores := by
  have hall : ∀ r ∈ sunxiPlatforms, r.2.2.2.1 < 100000 ∧ SuffixText r.2.2.2.2 := by decide +kernel
  rintro s c ⟨d, t, n, _, _, ⟨r, h, _, _, _, rfl⟩ | ⟨_, rfl⟩⟩
  · exact valid_chip (by decide) (by decide) (hall r h).1 (hall r h).2
  · exact valid_chip (by decide) (by decide) (by decide) suffixText_nil

theorem wmt_valid (cores freq : Nat) : ValidPattern fun s => Wmt s cores freq := by
  rintro s c ⟨_, rfl⟩
  refine valid_chip (by decide) (by decide) ?_ suffixText_nil
  split
  · decide
  · split
    · decide
    · split <;> decide

theorem huawei_valid : ValidPattern Huawei := by
  have hall : ∀ r ∈ huaweiPlatforms, r.2 < 100000 := by decide +kernel
  rintro s c ⟨r, h, t, _, _, rfl⟩
  exact valid_chip (by decide) (by decide) (hall r h) suffixText_nil

theorem tcc_valid : ValidPattern Tcc := by
  rintro s c ⟨d, n, _, h1, rfl⟩
  exact valid_chip (by decide) (by decide) (number_lt h1 (by decide)) (by decide)

theorem listed_valid {table : List SpecialEntry} (arm32 : Bool)
    (h : ∀ e ∈ table, e.series ≠ .unknown ∧ e.model < 100000 ∧
      SuffixText (if e.suffix = 0 then [] else [e.suffix])) :
    ValidPattern (Listed table arm32) := by
  rintro s c ⟨e, he, _, _, rfl⟩
  obtain ⟨h1, h2, h3⟩ := h e he
  exact valid_chip h1 ((owner_iff _ _).mpr rfl) h2 h3

theorem boards_valid (arm32 : Bool) : ValidPattern (Boards arm32) := by
  have hall : ∀ e ∈ boardEntries, e.series ≠ .unknown ∧ e.model < 100000 ∧
      SuffixText (if e.suffix = 0 then [] else if e.suffix = 80 then b!"PRO" else [e.suffix]) := by
    decide +kernel
  rintro s c ⟨e, he, _, _, rfl⟩
  obtain ⟨h1, h2, h3⟩ := hall e he
  exact valid_chip h1 ((owner_iff _ _).mpr rfl) h2 h3

theorem omap4_valid (cores freq : Nat) : ValidPattern (Omap4 cores freq) := by
  rintro s c ⟨_, _, _, rfl⟩
  exact valid_chip (by decide) (by decide) (by decide) suffixText_nil

theorem amlogic_valid (arm32 : Bool) : ValidPattern (Amlogic arm32) := by
  have hall : ∀ e ∈ amlogicEntries, e.series ≠ .unknown ∧ e.series ∈ seriesOf .amlogic ∧
      e.model < 100000 ∧ SuffixText e.suffix := by decide +kernel
  rintro s c ⟨e, he, _, _, rfl⟩
  obtain ⟨h1, h2, h3, h4⟩ := hall e he
  exact valid_chip h1 h2 h3 h4

theorem mp523x_valid : ValidPattern Mp523x := by
  rintro s c ⟨_, rfl⟩
  exact valid_chip (by decide) (by decide) (by decide) suffixText_nil

theorem first_valid {ps : List Pattern} (h : ∀ P ∈ ps, ValidPattern P) : ValidPattern (First ps) := by
  induction ps with
  | nil => intro s c h; exact h.elim
  | cons P ps ih =>
    rintro s c (h1 | h1)
    · exact h P (List.mem_cons_self ..) s c h1
    · exact ih (fun Q hQ => h Q (List.mem_cons_of_mem _ hQ)) s c h1.2

theorem decodes_valid {ps : List Pattern} (h : ∀ P ∈ ps, ValidPattern P) :
    ValidPattern (Decodes ps) := by
  rintro s c (h1 | h1)
  · exact first_valid h s c h1
  · exact .inl h1.2

theorem on32_mem {arm32 : Bool} {ps : List Pattern} {P : Pattern} (h : P ∈ on32 arm32 ps) :
    P ∈ ps := by
  cases arm32
  · simp [on32] at h
  · exact h

theorem word_valid : ValidPattern LeftmostWord := by
  rintro s c ⟨i, _, h, _⟩
  refine first_valid ?_ _ _ h
  simp only [wordPatterns, List.mem_cons, List.not_mem_nil, or_false, forall_eq_or_imp, forall_eq]
  exact ⟨msmApq_valid, sdm_valid, sm_valid, mtWhole_valid, kirin_valid, rk_valid⟩

theorem hardware_valid (arm32 : Bool) (cores freq : Nat) :
    ValidPattern (Decodes (hardwarePatterns arm32 cores freq)) := by
  refine decodes_valid fun P hP => ?_
  simp only [hardwarePatterns, List.mem_append] at hP
  rcases hP with (((((h | h) | h) | h) | h) | h) | h <;> (try replace h := on32_mem h) <;>
    simp only [List.mem_cons, List.not_mem_nil, or_false] at h
  · rcases h with rfl | rfl | rfl
    · exact word_valid
    · exact samsungExynos_valid
    · exact universal_valid
  · subst h; exact smdk_valid cores
  · rcases h with rfl | rfl | rfl
    · exact sc_valid
    · exact unisocT_valid
    · exact unisocUms_valid
  · subst h; exact pxa_valid
  · rcases h with rfl | rfl
    · exact sunxi_valid arm32 cores
    · exact bcm_valid
  · rcases h with rfl | rfl
    · exact omap_valid
    · exact wmt_valid cores freq
  · rcases h with rfl | rfl
    · exact tcc_valid
    · exact listed_valid arm32 (by decide +kernel)

theorem tegra_valid (arm32 : Bool) : ValidPattern (Decodes [Listed tegraEntries arm32]) := by
  refine decodes_valid fun P hP => ?_
  simp only [List.mem_cons, List.not_mem_nil, or_false] at hP
  subst hP
  exact listed_valid arm32 (by decide +kernel)

theorem boardPatterns_valid (arm32 : Bool) (cores freq : Nat) :
    ValidPattern (Decodes (boardPatterns arm32 cores freq)) := by
  refine decodes_valid fun P hP => ?_
  simp only [boardPatterns, List.mem_append] at hP
  rcases hP with (((h | h) | h) | h) | h <;> (try replace h := on32_mem h) <;>
    simp only [List.mem_cons, List.not_mem_nil, or_false] at h
  · rcases h with rfl | rfl
    · exact msmApq_valid
    · exact universal_valid
  · subst h; exact smdk_valid cores
  · rcases h with rfl | rfl
    · exact mtWhole_valid
    · exact sc_valid
  · rcases h with rfl | rfl | rfl
    · exact pxa_valid
    · exact lc_valid
    · exact broadcom_valid cores freq
  · rcases h with rfl | rfl
    · exact huawei_valid
    · exact boards_valid arm32

theorem platformPatterns_valid (arm32 : Bool) (cores freq : Nat) :
    ValidPattern (Decodes (platformPatterns arm32 cores freq)) := by
  refine decodes_valid fun P hP => ?_
  simp only [platformPatterns, List.mem_append] at hP
  rcases hP with (((h | h) | h) | h) | h <;> (try replace h := on32_mem h) <;>
    simp only [List.mem_cons, List.not_mem_nil, or_false] at h
  · rcases h with rfl | rfl | rfl | rfl | rfl | rfl
    · exact msmApq_valid
    · exact exynos_valid
    · exact mtWhole_valid
    · exact kirin_valid
    · exact sc_valid
    · exact rk_valid
  · subst h; exact lc_valid
  · subst h; exact huawei_valid
  · rcases h with rfl | rfl
    · exact broadcom_valid cores freq
    · exact omap4_valid cores freq
  · rcases h with rfl | rfl
    · exact amlogic_valid arm32
    · exact listed_valid arm32 (by decide +kernel)

theorem mediatekPatterns_valid : ValidPattern (Decodes [MtPrefix]) := by
  refine decodes_valid fun P hP => ?_
  simp only [List.mem_cons, List.not_mem_nil, or_false] at hP
  subst hP; exact mtPrefix_valid

theorem archPatterns_valid : ValidPattern (Decodes [Exynos]) := by
  refine decodes_valid fun P hP => ?_
  simp only [List.mem_cons, List.not_mem_nil, or_false] at hP
  subst hP; exact exynos_valid

theorem chipnamePatterns_valid (arm32 : Bool) :
    ValidPattern (Decodes (chipnamePatterns arm32)) := by
  refine decodes_valid fun P hP => ?_
  simp only [chipnamePatterns, List.mem_append] at hP
  rcases hP with h | h <;> (try replace h := on32_mem h) <;>
    simp only [List.mem_cons, List.not_mem_nil, or_false] at h
  · rcases h with rfl | rfl | rfl | rfl | rfl | rfl
    · exact msmApq_valid
    · exact sm_valid
    · exact exynos_valid
    · exact universal_valid
    · exact mtWhole_valid
    · exact sc_valid
  · rcases h with rfl | rfl
    · exact pxa_valid
    · exact mp523x_valid

end Verif.ArmChipset
