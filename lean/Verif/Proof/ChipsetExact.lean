import Verif.Proof.ChipsetBasics

/-!
# Every signature matches exactly its pattern: Qualcomm, Samsung, MediaTek
-/

set_option autoImplicit false

namespace Verif.ArmChipset
open Spec.Chipsets

theorem number_bytes {n v : Nat} {d : Bytes} (h : IsNumber n d v) : IsBytes d := by
  intro c hc
  have := h.2.1 c hc
  unfold Digit at this
  omega

/-- The digits that make up the whole rest of a string. -/
theorem digits_all {n v : Nat} {s : Bytes} (hb : IsBytes s) (hn : n ≤ 9) (hl : s.length = n) :
    parseDigits s 0 n 0 = .yes v ↔ IsNumber n s v := by
  rw [digits_iff hb hn]
  constructor
  · rintro ⟨d, t, rfl, hd⟩
    have : t = [] := by
      have := hd.1; rw [List.length_append] at hl; exact List.length_eq_zero_iff.mp (by omega)
    subst this
    rwa [List.append_nil]
  · exact fun h => ⟨s, [], by simp, h⟩

/-- The digits at the start of a string. -/
theorem digits_start {n v : Nat} {d t : Bytes} (hb : IsBytes t) (hn : n ≤ 9) (h : IsNumber n d v) :
    parseDigits (d ++ t) 0 n 0 = .yes v := by
  refine (digits_iff ?_ hn).mpr ⟨d, t, rfl, h⟩
  intro x hx
  rcases List.mem_append.mp hx with hx | hx
  · exact number_bytes h x hx
  · exact hb x hx

/-- The suffix after a number. -/
theorem suffix_after {k : Nat} {extra : Byte} {d t : Bytes} (he : ¬ Letter extra) (hb : IsBytes t)
    (hd : d.length = k) : parseSuffix extra (d ++ t) k 8 = .yes (suffixOf extra t) := by
  rw [suffix_skip hd, suffix_eq he hb]; rfl

/-- A number does not start with a given other character. -/
theorem number_head {n v k : Nat} {d : Bytes} (hn : 0 < n) (h : IsNumber n d v)
    (hk : ¬ Digit k) : ∃ a e, d = a :: e ∧ a ≠ k := by
  cases d with
  | nil => exact absurd h.1 (by simp; omega)
  | cons a e =>
    refine ⟨a, e, rfl, ?_⟩
    rintro rfl
    exact hk (h.2.1 a (by simp))

/-- A number and the suffix after it. -/
theorem number_suffix {k : Nat} {extra : Byte} {t : Bytes} {P : Nat → Bytes → Prop} (hk : k ≤ 9)
    (he : ¬ Letter extra) (hb : IsBytes t) :
    (∃ v, parseDigits t 0 k 0 = .yes v ∧ ∃ w, parseSuffix extra t k 8 = .yes w ∧ P v w) ↔
      ∃ d u v, t = d ++ u ∧ IsNumber k d v ∧ P v (suffixOf extra u) := by
  constructor
  · rintro ⟨v, hv, w, hw, hp⟩
    obtain ⟨d, u, rfl, hd⟩ := (digits_iff hb hk).mp hv
    rw [suffix_after he (bytes_append hb).2 hd.1] at hw
    cases hw
    exact ⟨d, u, v, rfl, hd, hp⟩
  · rintro ⟨d, u, v, rfl, hd, hp⟩
    exact ⟨v, digits_start (bytes_append hb).2 hk hd, _, suffix_after he (bytes_append hb).2 hd.1, hp⟩

/-! ## Qualcomm -/

theorem msm_word {a b c : Byte} (ha : a < 256) (hb : b < 256) (hc : c < 256) :
    0x00202020 ||| (a + 256 * (b + 256 * c)) = 0x6D736D ↔ Spells [a, b, c] b!"msm" := by
  have := or24 (a := a) (b := b) (c := c) (m := 32) (n := 32) (o := 32) (k := 109) (l := 115)
    (j := 109) ha hb (by omega) (by omega) (by omega) (by omega)
  simp only [fold_case' ha, fold_case' hb, fold_case' hc, Nat.reduceLeDiff, and_self] at this
  simpa [Spells] using this

theorem apq_word {a b c : Byte} (ha : a < 256) (hb : b < 256) (hc : c < 256) :
    0x00202020 ||| (a + 256 * (b + 256 * c)) = 0x717061 ↔ Spells [a, b, c] b!"apq" := by
  have := or24 (a := a) (b := b) (c := c) (m := 32) (n := 32) (o := 32) (k := 97) (l := 112)
    (j := 113) ha hb (by omega) (by omega) (by omega) (by omega)
  simp only [fold_case' ha, fold_case' hb, fold_case' hc, Nat.reduceLeDiff, and_self] at this
  simpa [Spells] using this


/-- What simplifies the checks of a signature on a string in explicit form. -/
macro "match_simp" "[" l:Lean.Parser.Tactic.simpLemma,* "]" : tactic => `(tactic|
  simp only [bind_yes, need_yes, pure_yes, byteAt_zero, byteAt_succ, load16_succ, load24_succ,
    load32_succ, parseDigits_succ, parseSuffix_succ, parseWholeSuffix_succ, parseLetters_succ,
    Match.yes.injEq, exists_eq_left', exists_const, decide_eq_true_eq, beq_iff_eq, Bool.or_eq_true,
    List.length_cons, ne_eq, not_true_eq_false, not_false_eq_true, false_or, true_or, true_and,
    and_true, if_true, if_false, reduceIte, Nat.reduceAdd, mk_eq, $l,*])

theorem msmApq_cons {a b c x : Byte} {t : Bytes} {r : Chipset}
    (hs : IsBytes (a :: b :: c :: x :: t)) :
    matchMsmApq (a :: b :: c :: x :: t) = .yes r ↔
      (Spells [a, b, c] b!"msm" ∨ Spells [a, b, c] b!"apq") ∧
      ∃ d u v, (if x = 32 then t else x :: t) = d ++ u ∧ IsNumber 4 d v ∧
        chip .qualcomm (if Spells [a, b, c] b!"msm" then .qualcommMsm else .qualcommApq) v
          (suffixOf 45 u) = r := by
  obtain ⟨ha, hs3⟩ := bytes_cons hs
  obtain ⟨hb, hs2⟩ := bytes_cons hs3
  obtain ⟨hc, hs1⟩ := bytes_cons hs2
  obtain ⟨hx, hs0⟩ := bytes_cons hs1
  have hlen : ∀ {d u t : Bytes} {v : Nat}, t = d ++ u → IsNumber 4 d v → 4 ≤ t.length := by
    rintro d u t v rfl hd
    have := hd.1
    simp only [List.length_append]
    omega
  have e : ∀ {t : Bytes} {series : Series}, IsBytes t → _ := fun {t series} ht =>
    number_suffix (k := 4) (extra := 45) (t := t) (P := fun v w => chip .qualcomm series v w = r)
    (by omega) (by decide) ht
  unfold matchMsmApq
  by_cases hm : Spells [a, b, c] b!"msm"
  all_goals by_cases h : x = 32
  · subst h
    match_simp [load24_cons ha hb, msm_word ha hb hc, apq_word ha hb hc, hm]
    constructor
    · rintro ⟨_, _, h2⟩; exact (e hs0).mp h2
    · rintro ⟨d, u, v, h2, h3, h4⟩
      have := hlen h2 h3
      exact ⟨by omega, by omega, (e hs0).mpr ⟨d, u, v, h2, h3, h4⟩⟩
  · match_simp [load24_cons ha hb, msm_word ha hb hc, apq_word ha hb hc, h, hm]
    simp only [← parseSuffix_succ 45 x t]
    constructor
    · rintro ⟨_, h2⟩; exact (e hs1).mp h2
    · rintro ⟨d, u, v, h2, h3, h4⟩
      have := hlen h2 h3
      simp only [List.length_cons] at this
      exact ⟨by omega, (e hs1).mpr ⟨d, u, v, h2, h3, h4⟩⟩
  · subst h
    match_simp [load24_cons ha hb, msm_word ha hb hc, apq_word ha hb hc, hm]
    constructor
    · rintro ⟨_, h1, _, h2⟩; exact ⟨h1, (e hs0).mp h2⟩
    · rintro ⟨h1, d, u, v, h2, h3, h4⟩
      have := hlen h2 h3
      exact ⟨by omega, h1, by omega, (e hs0).mpr ⟨d, u, v, h2, h3, h4⟩⟩
  · match_simp [load24_cons ha hb, msm_word ha hb hc, apq_word ha hb hc, h, hm]
    simp only [← parseSuffix_succ 45 x t]
    constructor
    · rintro ⟨_, h1, h2⟩; exact ⟨h1, (e hs1).mp h2⟩
    · rintro ⟨h1, d, u, v, h2, h3, h4⟩
      have := hlen h2 h3
      simp only [List.length_cons] at this
      exact ⟨by omega, h1, (e hs1).mpr ⟨d, u, v, h2, h3, h4⟩⟩

theorem msmApq_iff {s : Bytes} {r : Chipset} (hs : IsBytes s) :
    matchMsmApq s = .yes r ↔ MsmApq s r := by
  have hne : ∀ {p : Bytes}, Spells p b!"apq" → ¬ Spells p b!"msm" := by
    intro p h h1; unfold Spells at h h1; rw [h] at h1; exact absurd h1 (by decide)
  constructor
  · intro h
    have hl := h
    unfold matchMsmApq at hl
    obtain ⟨_, hl, _⟩ := bind_yes.mp hl
    rw [need_yes, decide_eq_true_eq] at hl
    obtain ⟨a, s1, rfl, hl1⟩ := cons_of_le hl
    obtain ⟨b, s2, rfl, hl2⟩ := cons_of_le hl1
    obtain ⟨c, s3, rfl, hl3⟩ := cons_of_le hl2
    obtain ⟨x, s4, rfl, hl4⟩ := cons_of_le hl3
    obtain ⟨hp, d, u, v, h1, h2, rfl⟩ := (msmApq_cons hs).mp h
    refine ⟨[a, b, c], if x = 32 then [32] else [], d, u, v, _, ?_, ?_, ?_, h2, rfl⟩
    · split at h1 <;> simp_all
    · rcases hp with hp | hp
      · exact .inl ⟨hp, by rw [if_pos hp]⟩
      · exact .inr ⟨hp, by rw [if_neg (hne hp)]⟩
    · split <;> simp
  · rintro ⟨p, sp, d, t, n, series, rfl, hp, hsp, hd, rfl⟩
    have hser : (if Spells p b!"msm" then Series.qualcommMsm else .qualcommApq) = series := by
      rcases hp with ⟨hp, rfl⟩ | ⟨hp, rfl⟩
      · rw [if_pos hp]
      · rw [if_neg (hne hp)]
    have hq : Spells p b!"msm" ∨ Spells p b!"apq" := hp.imp And.left And.left
    have : ∃ a b c, p = [a, b, c] := by
      have : p.length = 3 := by
        rcases hq with hq | hq <;> · unfold Spells at hq; simpa using congrArg List.length hq
      match p, this with
      | [a, b, c], _ => exact ⟨a, b, c, rfl⟩
    obtain ⟨a, b, c, rfl⟩ := this
    subst hser
    rcases hsp with rfl | rfl
    · obtain ⟨x, e, rfl, hx⟩ := number_head (k := 32) (by omega) hd (by unfold Digit; omega)
      simp only [List.cons_append, List.nil_append] at hs ⊢
      rw [msmApq_cons hs, if_neg hx]
      exact ⟨hq, _, _, _, rfl, hd, rfl⟩
    · simp only [List.cons_append, List.nil_append] at hs ⊢
      rw [msmApq_cons hs, if_pos rfl]
      exact ⟨hq, _, _, _, rfl, hd, rfl⟩

theorem sdm_iff {s : Bytes} {r : Chipset} (hs : IsBytes s) : matchSdm s = .yes r ↔ Sdm s r := by
  have key : ∀ {a b c : Byte} {t : Bytes}, IsBytes (a :: b :: c :: t) → t.length = 3 →
      (matchSdm (a :: b :: c :: t) = .yes r ↔ (a = 83 ∧ b = 68 ∧ c = 77) ∧
        ∃ v, IsNumber 3 t v ∧ chip .qualcomm .qualcommSnapdragon v [] = r) := by
    intro a b c t hs hl
    obtain ⟨ha, hs⟩ := bytes_cons hs
    obtain ⟨hb, hs⟩ := bytes_cons hs
    obtain ⟨hc, hs⟩ := bytes_cons hs
    unfold matchSdm
    match_simp [load24_cons ha hb, hl, digits_all hs (by omega) hl]
    exact and_congr_left fun _ => by omega
  constructor
  · intro h
    have hl := h
    unfold matchSdm at hl
    obtain ⟨_, hl, _⟩ := bind_yes.mp hl
    rw [need_yes, beq_iff_eq] at hl
    match s, hl with
    | a :: b :: c :: t, hl =>
      obtain ⟨⟨rfl, rfl, rfl⟩, v, hv, rfl⟩ := (key hs (by simpa using hl)).mp h
      exact ⟨t, v, rfl, hv, rfl⟩
  · rintro ⟨d, n, rfl, hd, rfl⟩
    exact (key hs hd.1).mpr ⟨by decide, n, hd, rfl⟩

theorem sm_iff {s : Bytes} {r : Chipset} (hs : IsBytes s) :
    matchSm s = .yes r ↔ Sm s r := by
  have key : ∀ {a0 a1 : Byte} {t : Bytes},
      IsBytes (a0 :: a1 :: t) → t.length = 4 →
      (matchSm (a0 :: a1 :: t) = .yes r ↔
        (a0 = 83 ∧ a1 = 77) ∧
        ∃ v, IsNumber 4 t v ∧ chip .qualcomm .qualcommSnapdragon v [] = r) := by
    intro a0 a1 t hs hl
    obtain ⟨ha0, hs⟩ := bytes_cons hs
    obtain ⟨ha1, hs⟩ := bytes_cons hs
    unfold matchSm
    match_simp [load16_cons ha0, hl,
      digits_all hs (by omega) hl]
    constructor
    · rintro ⟨w0, h⟩; exact ⟨by omega, h⟩
    · rintro ⟨⟨rfl, rfl⟩, h⟩; exact ⟨by omega, h⟩
  constructor
  · intro h
    have hl := h
    unfold matchSm at hl
    obtain ⟨_, hl, _⟩ := bind_yes.mp hl
    rw [need_yes, beq_iff_eq] at hl
    match s, hl with
    | a0 :: a1 :: t, hl =>
      obtain ⟨⟨rfl, rfl⟩, v, hv, rfl⟩ :=
        (key hs (by simpa using hl)).mp h
      exact ⟨t, v, rfl, hv, rfl⟩
  · rintro ⟨d, n, rfl, hd, rfl⟩
    exact (key hs hd.1).mpr ⟨by decide, n, hd, rfl⟩

/-! ## Samsung -/

theorem exynos_iff {s : Bytes} {r : Chipset} (hs : IsBytes s) :
    matchExynos s = .yes r ↔ Exynos s r := by
  have key : ∀ {a0 a1 a2 a3 a4 a5 : Byte} {t : Bytes},
      IsBytes (a0 :: a1 :: a2 :: a3 :: a4 :: a5 :: t) → t.length = 4 →
      (matchExynos (a0 :: a1 :: a2 :: a3 :: a4 :: a5 :: t) = .yes r ↔
        (a0 = 101 ∧ a1 = 120 ∧ a2 = 121 ∧ a3 = 110 ∧ a4 = 111 ∧ a5 = 115) ∧
        ∃ v, IsNumber 4 t v ∧ chip .samsung .samsungExynos v [] = r) := by
    intro a0 a1 a2 a3 a4 a5 t hs hl
    obtain ⟨ha0, hs⟩ := bytes_cons hs
    obtain ⟨ha1, hs⟩ := bytes_cons hs
    obtain ⟨ha2, hs⟩ := bytes_cons hs
    obtain ⟨ha3, hs⟩ := bytes_cons hs
    obtain ⟨ha4, hs⟩ := bytes_cons hs
    obtain ⟨ha5, hs⟩ := bytes_cons hs
    unfold matchExynos
    match_simp [load32_cons ha0 ha1 ha2, load16_cons ha4, hl,
      digits_all hs (by omega) hl]
    constructor
    · rintro ⟨w0, w1, h⟩; exact ⟨by omega, h⟩
    · rintro ⟨⟨rfl, rfl, rfl, rfl, rfl, rfl⟩, h⟩; exact ⟨by omega, by omega, h⟩
  constructor
  · intro h
    have hl := h
    unfold matchExynos at hl
    obtain ⟨_, hl, _⟩ := bind_yes.mp hl
    rw [need_yes, beq_iff_eq] at hl
    match s, hl with
    | a0 :: a1 :: a2 :: a3 :: a4 :: a5 :: t, hl =>
      obtain ⟨⟨rfl, rfl, rfl, rfl, rfl, rfl⟩, v, hv, rfl⟩ :=
        (key hs (by simpa using hl)).mp h
      exact ⟨t, v, rfl, hv, rfl⟩
  · rintro ⟨d, n, rfl, hd, rfl⟩
    exact (key hs hd.1).mpr ⟨by decide, n, hd, rfl⟩

/-! ## Broadcom and Texas Instruments -/

theorem bcm_iff {s : Bytes} {r : Chipset} (hs : IsBytes s) :
    matchBcm s = .yes r ↔ Bcm s r := by
  have key : ∀ {a0 a1 a2 : Byte} {t : Bytes},
      IsBytes (a0 :: a1 :: a2 :: t) → t.length = 4 →
      (matchBcm (a0 :: a1 :: a2 :: t) = .yes r ↔
        (a0 = 66 ∧ a1 = 67 ∧ a2 = 77) ∧
        ∃ v, IsNumber 4 t v ∧ chip .broadcom .broadcomBcm v [] = r) := by
    intro a0 a1 a2 t hs hl
    obtain ⟨ha0, hs⟩ := bytes_cons hs
    obtain ⟨ha1, hs⟩ := bytes_cons hs
    obtain ⟨ha2, hs⟩ := bytes_cons hs
    unfold matchBcm
    match_simp [load24_cons ha0 ha1, hl,
      digits_all hs (by omega) hl]
    constructor
    · rintro ⟨w0, h⟩; exact ⟨by omega, h⟩
    · rintro ⟨⟨rfl, rfl, rfl⟩, h⟩; exact ⟨by omega, h⟩
  constructor
  · intro h
    have hl := h
    unfold matchBcm at hl
    obtain ⟨_, hl, _⟩ := bind_yes.mp hl
    rw [need_yes, beq_iff_eq] at hl
    match s, hl with
    | a0 :: a1 :: a2 :: t, hl =>
      obtain ⟨⟨rfl, rfl, rfl⟩, v, hv, rfl⟩ :=
        (key hs (by simpa using hl)).mp h
      exact ⟨t, v, rfl, hv, rfl⟩
  · rintro ⟨d, n, rfl, hd, rfl⟩
    exact (key hs hd.1).mpr ⟨by decide, n, hd, rfl⟩

theorem omap_iff {s : Bytes} {r : Chipset} (hs : IsBytes s) :
    matchOmap s = .yes r ↔ Omap s r := by
  have key : ∀ {a0 a1 a2 a3 : Byte} {t : Bytes},
      IsBytes (a0 :: a1 :: a2 :: a3 :: t) → t.length = 4 →
      (matchOmap (a0 :: a1 :: a2 :: a3 :: t) = .yes r ↔
        (a0 = 79 ∧ a1 = 77 ∧ a2 = 65 ∧ a3 = 80) ∧
        ∃ v, IsNumber 4 t v ∧ chip .texasInstruments .texasInstrumentsOmap v [] = r) := by
    intro a0 a1 a2 a3 t hs hl
    obtain ⟨ha0, hs⟩ := bytes_cons hs
    obtain ⟨ha1, hs⟩ := bytes_cons hs
    obtain ⟨ha2, hs⟩ := bytes_cons hs
    obtain ⟨ha3, hs⟩ := bytes_cons hs
    unfold matchOmap
    match_simp [load32_cons ha0 ha1 ha2, hl,
      digits_all hs (by omega) hl]
    constructor
    · rintro ⟨w0, h⟩; exact ⟨by omega, h⟩
    · rintro ⟨⟨rfl, rfl, rfl, rfl⟩, h⟩; exact ⟨by omega, h⟩
  constructor
  · intro h
    have hl := h
    unfold matchOmap at hl
    obtain ⟨_, hl, _⟩ := bind_yes.mp hl
    rw [need_yes, beq_iff_eq] at hl
    match s, hl with
    | a0 :: a1 :: a2 :: a3 :: t, hl =>
      obtain ⟨⟨rfl, rfl, rfl, rfl⟩, v, hv, rfl⟩ :=
        (key hs (by simpa using hl)).mp h
      exact ⟨t, v, rfl, hv, rfl⟩
  · rintro ⟨d, n, rfl, hd, rfl⟩
    exact (key hs hd.1).mpr ⟨by decide, n, hd, rfl⟩

end Verif.ArmChipset
