import Verif.Proof.ChipsetExact

/-!
# Every signature matches exactly its pattern: the other vendors
-/

set_option autoImplicit false

namespace Verif.ArmChipset
open Spec.Chipsets

theorem lower_iff {c k : Byte} (hk : ¬ Letter k) : lower c = k ↔ c = k := by
  unfold Letter at hk; unfold lower; split <;> omega

theorem fold16 {a b k l : Byte} (ha : a < 256) (hb : b < 256) (hk : 97 ≤ k ∧ k ≤ 122)
    (hl : 97 ≤ l ∧ l ≤ 122) :
    0x2020 ||| (a + 256 * b) = k + 256 * l ↔ lower a = k ∧ lower b = l := by
  rw [show (0x2020 : Nat) = 32 + 256 * 32 from rfl, or16 ha (by omega) (by omega),
    fold_case' ha hk, fold_case' hb hl]

theorem fold32 {a b c d k l j i : Byte} (ha : a < 256) (hb : b < 256) (hc : c < 256) (hd : d < 256)
    (hk : 97 ≤ k ∧ k ≤ 122) (hl : 97 ≤ l ∧ l ≤ 122) (hj : 97 ≤ j ∧ j ≤ 122)
    (hi : 97 ≤ i ∧ i ≤ 122) :
    0x20202020 ||| (a + 256 * (b + 256 * (c + 256 * d))) = k + 256 * (l + 256 * (j + 256 * i)) ↔
      lower a = k ∧ lower b = l ∧ lower c = j ∧ lower d = i := by
  rw [show (0x20202020 : Nat) = 32 + 256 * (32 + 256 * (32 + 256 * 32)) from rfl,
    or32 ha hb hc (by omega) (by omega) (by omega) (by omega) (by omega) (by omega),
    fold_case' ha hk, fold_case' hb hl, fold_case' hc hj, fold_case' hd hi]

/-- The first character is compared exactly, the others up to case. -/
theorem fold32_first {a b c d k l j i : Byte} (ha : a < 256) (hb : b < 256) (hc : c < 256)
    (hd : d < 256) (hk : k < 256) (hl : 97 ≤ l ∧ l ≤ 122) (hj : 97 ≤ j ∧ j ≤ 122)
    (hi : 97 ≤ i ∧ i ≤ 122) :
    0x20202000 ||| (a + 256 * (b + 256 * (c + 256 * d))) = k + 256 * (l + 256 * (j + 256 * i)) ↔
      a = k ∧ lower b = l ∧ lower c = j ∧ lower d = i := by
  rw [show (0x20202000 : Nat) = 0 + 256 * (32 + 256 * (32 + 256 * 32)) from rfl,
    or32 ha hb hc (by omega) (by omega) (by omega) (by omega) (by omega) (by omega),
    fold_case' hb hl, fold_case' hc hj, fold_case' hd hi, Nat.zero_or]

/-- The last character is compared exactly, the others up to case. -/
theorem fold32_last {a b c d k l j i : Byte} (ha : a < 256) (hb : b < 256) (hc : c < 256)
    (hk : 97 ≤ k ∧ k ≤ 122) (hl : 97 ≤ l ∧ l ≤ 122) (hj : 97 ≤ j ∧ j ≤ 122) :
    0x00202020 ||| (a + 256 * (b + 256 * (c + 256 * d))) = k + 256 * (l + 256 * (j + 256 * i)) ↔
      lower a = k ∧ lower b = l ∧ lower c = j ∧ d = i := by
  rw [show (0x00202020 : Nat) = 32 + 256 * (32 + 256 * (32 + 256 * 0)) from rfl,
    or32 ha hb hc (by omega) (by omega) (by omega) (by omega) (by omega) (by omega),
    fold_case' ha hk, fold_case' hb hl, fold_case' hc hj, Nat.zero_or]

/-! ## Samsung -/

theorem universal_iff {s : Bytes} {r : Chipset} (hs : IsBytes s) :
    matchUniversal s = .yes r ↔ Universal s r := by
  have key : ∀ {a0 a1 a2 a3 a4 a5 a6 a7 a8 : Byte} {t : Bytes},
      IsBytes (a0 :: a1 :: a2 :: a3 :: a4 :: a5 :: a6 :: a7 :: a8 :: t) → t.length = 4 →
      (matchUniversal (a0 :: a1 :: a2 :: a3 :: a4 :: a5 :: a6 :: a7 :: a8 :: t) = .yes r ↔
        Spells [a0, a1, a2, a3, a4, a5, a6, a7, a8] b!"universal" ∧
        ∃ v, IsNumber 4 t v ∧ chip .samsung .samsungExynos v [] = r) := by
    intro a0 a1 a2 a3 a4 a5 a6 a7 a8 t hs hl
    obtain ⟨ha0, hs⟩ := bytes_cons hs
    obtain ⟨ha1, hs⟩ := bytes_cons hs
    obtain ⟨ha2, hs⟩ := bytes_cons hs
    obtain ⟨ha3, hs⟩ := bytes_cons hs
    obtain ⟨ha4, hs⟩ := bytes_cons hs
    obtain ⟨ha5, hs⟩ := bytes_cons hs
    obtain ⟨ha6, hs⟩ := bytes_cons hs
    obtain ⟨ha7, hs⟩ := bytes_cons hs
    obtain ⟨ha8, hs⟩ := bytes_cons hs
    have e1 := fold32 (k := 110) (l := 105) (j := 118) (i := 101) ha1 ha2 ha3 ha4 (by decide)
      (by decide) (by decide) (by decide)
    have e2 := fold32 (k := 114) (l := 115) (j := 97) (i := 108) ha5 ha6 ha7 ha8 (by decide)
      (by decide) (by decide) (by decide)
    simp only [Nat.reduceMul, Nat.reduceAdd] at e1 e2
    unfold matchUniversal
    match_simp [load32_cons ha1 ha2 ha3, load32_cons ha5 ha6 ha7, hl, e1, e2,
      fold_case' (k := 117) ha0 (by decide), digits_all hs (by omega) hl]
    simp only [Spells, List.map_cons, List.map_nil, List.cons.injEq, and_true, and_assoc]
  constructor
  · intro h
    have hl := h
    unfold matchUniversal at hl
    obtain ⟨_, hl, _⟩ := bind_yes.mp hl
    rw [need_yes, beq_iff_eq] at hl
    match s, hl with
    | a0 :: a1 :: a2 :: a3 :: a4 :: a5 :: a6 :: a7 :: a8 :: t, hl =>
      obtain ⟨hp, v, hv, rfl⟩ := (key hs (by simpa using hl)).mp h
      exact ⟨_, t, v, rfl, hp, hv, rfl⟩
  · rintro ⟨p, d, n, rfl, hp, hd, rfl⟩
    have hpl : p.length = 9 := by unfold Spells at hp; simpa using congrArg List.length hp
    match p, hpl with
    | [a0, a1, a2, a3, a4, a5, a6, a7, a8], _ =>
      exact (key hs hd.1).mpr ⟨hp, n, hd, rfl⟩

theorem smdk_iff {s : Bytes} {cores : Nat} {r : Chipset} (hs : IsBytes s) :
    matchSmdk s cores = .yes r ↔ Smdk s cores r := by
  have key : ∀ {a0 a1 a2 a3 b0 b1 b2 b3 : Byte},
      IsBytes [a0, a1, a2, a3, b0, b1, b2, b3] →
      (matchSmdk [a0, a1, a2, a3, b0, b1, b2, b3] cores = .yes r ↔
        Spells [a0, a1, a2, a3] b!"smdk" ∧
        ∃ n, (([b0, b1, b2, b3] = b!"4210" ∧ n = 4210) ∨
          ([b0, b1, b2, b3] = b!"4x12" ∧ cores = 2 ∧ n = 4212) ∨
          ([b0, b1, b2, b3] = b!"4x12" ∧ cores = 4 ∧ n = 4412)) ∧
          chip .samsung .samsungExynos n [] = r) := by
    intro a0 a1 a2 a3 b0 b1 b2 b3 hs
    obtain ⟨ha0, hs⟩ := bytes_cons hs
    obtain ⟨ha1, hs⟩ := bytes_cons hs
    obtain ⟨ha2, hs⟩ := bytes_cons hs
    obtain ⟨ha3, hs⟩ := bytes_cons hs
    obtain ⟨hb0, hs⟩ := bytes_cons hs
    obtain ⟨hb1, hs⟩ := bytes_cons hs
    obtain ⟨hb2, hs⟩ := bytes_cons hs
    obtain ⟨hb3, hs⟩ := bytes_cons hs
    have e1 := fold32 (k := 115) (l := 109) (j := 100) (i := 107) ha0 ha1 ha2 ha3 (by decide)
      (by decide) (by decide) (by decide)
    simp only [Nat.reduceMul, Nat.reduceAdd] at e1
    have e2 : ∀ n, n = smdkModel (b0 + 256 * (b1 + 256 * (b2 + 256 * b3))) cores ∧ n ≠ 0 ↔
        ([b0, b1, b2, b3] = b!"4210" ∧ n = 4210) ∨
          ([b0, b1, b2, b3] = b!"4x12" ∧ cores = 2 ∧ n = 4212) ∨
          ([b0, b1, b2, b3] = b!"4x12" ∧ cores = 4 ∧ n = 4412) := by
      intro n
      simp only [List.cons.injEq, and_true]
      unfold smdkModel
      split
      · omega
      · split
        · split
          · omega
          · split <;> omega
        · omega
    unfold matchSmdk
    match_simp [load32_cons ha0 ha1 ha2, load32_cons hb0 hb1 hb2, e1, bne_iff_ne, List.length_nil]
    constructor
    · rintro ⟨hp, hn, rfl⟩
      exact ⟨by simpa [Spells] using hp, _, (e2 _).mp ⟨rfl, hn⟩, rfl⟩
    · rintro ⟨hp, n, hn, rfl⟩
      obtain ⟨rfl, hn⟩ := (e2 n).mpr hn
      exact ⟨by simpa [Spells] using hp, hn, rfl⟩
  constructor
  · intro h
    have hl := h
    unfold matchSmdk at hl
    obtain ⟨_, hl, _⟩ := bind_yes.mp hl
    rw [need_yes, beq_iff_eq] at hl
    match s, hl with
    | [a0, a1, a2, a3, b0, b1, b2, b3], hl =>
      obtain ⟨hp, n, hn, rfl⟩ := (key hs).mp h
      exact ⟨_, _, n, rfl, hp, hn, rfl⟩
  · rintro ⟨p, d, n, rfl, hp, hn, rfl⟩
    have hpl : p.length = 4 := by unfold Spells at hp; simpa using congrArg List.length hp
    have hdl : d.length = 4 := by rcases hn with ⟨rfl, _⟩ | ⟨rfl, _⟩ | ⟨rfl, _⟩ <;> rfl
    match p, hpl, d, hdl with
    | [a0, a1, a2, a3], _, [b0, b1, b2, b3], _ =>
      exact (key hs).mpr ⟨hp, n, hn, rfl⟩

theorem samsung_cons {a0 a1 a2 a3 a4 a5 a6 a7 a8 a9 b0 b1 b2 b3 x : Byte} {t : Bytes} {r : Chipset}
    (hs : IsBytes (a0 :: a1 :: a2 :: a3 :: a4 :: a5 :: a6 :: a7 :: a8 :: a9 :: b0 :: b1 :: b2 :: b3
      :: x :: t)) :
    matchSamsungExynos (a0 :: a1 :: a2 :: a3 :: a4 :: a5 :: a6 :: a7 :: a8 :: a9 :: b0 :: b1 :: b2
      :: b3 :: x :: t) = .yes r ↔
      (a0 = 83 ∧ a8 = 69 ∧
        Spells [a0, a1, a2, a3, a4, a5, a6, a7, a8, a9, b0, b1, b2, b3] b!"samsung exynos") ∧
      ∃ d u v, (if x = 32 then t else x :: t) = d ++ u ∧ IsNumber 4 d v ∧
        u.length ≤ (if x = 32 then 0 else 1) ∧ chip .samsung .samsungExynos v [] = r := by
  obtain ⟨ha0, s1⟩ := bytes_cons hs
  obtain ⟨ha1, s2⟩ := bytes_cons s1
  obtain ⟨ha2, s3⟩ := bytes_cons s2
  obtain ⟨ha3, s4⟩ := bytes_cons s3
  obtain ⟨ha4, s5⟩ := bytes_cons s4
  obtain ⟨ha5, s6⟩ := bytes_cons s5
  obtain ⟨ha6, s7⟩ := bytes_cons s6
  obtain ⟨ha7, s8⟩ := bytes_cons s7
  obtain ⟨ha8, s9⟩ := bytes_cons s8
  obtain ⟨ha9, u0⟩ := bytes_cons s9
  obtain ⟨hb0, u1⟩ := bytes_cons u0
  obtain ⟨hb1, u2⟩ := bytes_cons u1
  obtain ⟨hb2, u3⟩ := bytes_cons u2
  obtain ⟨hb3, u4⟩ := bytes_cons u3
  obtain ⟨hx, u5⟩ := bytes_cons u4
  have e1 := fold32_first (k := 83) (l := 97) (j := 109) (i := 115) ha0 ha1 ha2 ha3 (by decide)
    (by decide) (by decide) (by decide)
  have e2 := fold32_last (d := a7) (k := 117) (l := 110) (j := 103) (i := 32) ha4 ha5 ha6 (by decide)
    (by decide) (by decide)
  have e3 := fold32_first (k := 69) (l := 120) (j := 121) (i := 110) ha8 ha9 hb0 hb1 (by decide)
    (by decide) (by decide) (by decide)
  have e4 := fold16 (k := 111) (l := 115) hb2 hb3 (by decide) (by decide)
  simp only [Nat.reduceMul, Nat.reduceAdd] at e1 e2 e3 e4
  have e5 : (a0 = 83 ∧ lower a1 = 97 ∧ lower a2 = 109 ∧ lower a3 = 115) ∧
      (lower a4 = 117 ∧ lower a5 = 110 ∧ lower a6 = 103 ∧ a7 = 32) ∧
      (a8 = 69 ∧ lower a9 = 120 ∧ lower b0 = 121 ∧ lower b1 = 110) ∧
      (lower b2 = 111 ∧ lower b3 = 115) ↔ (a0 = 83 ∧ a8 = 69 ∧
        Spells [a0, a1, a2, a3, a4, a5, a6, a7, a8, a9, b0, b1, b2, b3] b!"samsung exynos") := by
    simp only [Spells, List.map_cons, List.map_nil, List.cons.injEq, and_true,
      lower_iff (c := a7) (k := 32) (by decide)]
    constructor
    · rintro ⟨⟨rfl, h1, h2, h3⟩, ⟨h4, h5, h6, h7⟩, ⟨rfl, h8, h9, h10⟩, h11, h12⟩
      exact ⟨rfl, rfl, by decide, h1, h2, h3, h4, h5, h6, h7, by decide, h8, h9, h10, h11, h12⟩
    · rintro ⟨rfl, rfl, _, h1, h2, h3, h4, h5, h6, h7, _, h8, h9, h10, h11, h12⟩
      exact ⟨⟨rfl, h1, h2, h3⟩, ⟨h4, h5, h6, h7⟩, ⟨rfl, h8, h9, h10⟩, h11, h12⟩
  rw [← e5]
  clear e5
  unfold matchSamsungExynos
  by_cases h : x = 32
  · subst h
    match_simp [load32_cons ha0 ha1 ha2, load32_cons ha4 ha5 ha6, load32_cons ha8 ha9 hb0,
      load16_cons hb2, e1, e2, e3, e4]
    constructor
    · rintro ⟨_, h1, h2, h3, h4, hl, v, hv, rfl⟩
      refine ⟨⟨h1, h2, h3, h4⟩, t, [], v, by simp, ?_, by simp, rfl⟩
      exact (digits_all u5 (by omega) (by omega)).mp hv
    · rintro ⟨⟨h1, h2, h3, h4⟩, d, u, v, rfl, hd, hu, rfl⟩
      have := hd.1
      rw [Nat.le_zero, List.length_eq_zero_iff] at hu
      subst hu
      rw [List.append_nil] at u5 ⊢
      exact ⟨by omega, h1, h2, h3, h4, by omega, v, (digits_all u5 (by omega) this).mpr hd, rfl⟩
  · match_simp [load32_cons ha0 ha1 ha2, load32_cons ha4 ha5 ha6, load32_cons ha8 ha9 hb0,
      load16_cons hb2, e1, e2, e3, e4, h]
    constructor
    · rintro ⟨hl, h1, h2, h3, h4, v, hv, rfl⟩
      obtain ⟨d, u, e, hd⟩ := (digits_iff u4 (by omega)).mp hv
      refine ⟨⟨h1, h2, h3, h4⟩, d, u, v, e, hd, ?_, rfl⟩
      have h5 := hd.1
      have h6 := congrArg List.length e
      simp only [List.length_cons, List.length_append] at h6
      omega
    · rintro ⟨⟨h1, h2, h3, h4⟩, d, u, v, e, hd, hu, rfl⟩
      refine ⟨?_, h1, h2, h3, h4, v, (digits_iff u4 (by omega)).mpr ⟨d, u, e, hd⟩, rfl⟩
      have h5 := hd.1
      have h6 := congrArg List.length e
      simp only [List.length_cons, List.length_append] at h6
      omega

theorem samsungExynos_iff {s : Bytes} {r : Chipset} (hs : IsBytes s) :
    matchSamsungExynos s = .yes r ↔ SamsungExynosActual s r := by
  constructor
  · intro h
    have hl := h
    unfold matchSamsungExynos at hl
    obtain ⟨_, hl, _⟩ := bind_yes.mp hl
    simp only [need_yes, beq_iff_eq, Bool.or_eq_true] at hl
    have : ∃ a0 a1 a2 a3 a4 a5 a6 a7 a8 a9 b0 b1 b2 b3 x t, s = a0 :: a1 :: a2 :: a3 :: a4 :: a5 ::
        a6 :: a7 :: a8 :: a9 :: b0 :: b1 :: b2 :: b3 :: x :: t := by
      rcases hl with hl | hl
      · match s, hl with
        | a0 :: a1 :: a2 :: a3 :: a4 :: a5 :: a6 :: a7 :: a8 :: a9 :: b0 :: b1 :: b2 :: b3 :: x ::
            t, _ => exact ⟨_, _, _, _, _, _, _, _, _, _, _, _, _, _, _, _, rfl⟩
      · match s, hl with
        | a0 :: a1 :: a2 :: a3 :: a4 :: a5 :: a6 :: a7 :: a8 :: a9 :: b0 :: b1 :: b2 :: b3 :: x ::
            t, _ => exact ⟨_, _, _, _, _, _, _, _, _, _, _, _, _, _, _, _, rfl⟩
    obtain ⟨a0, a1, a2, a3, a4, a5, a6, a7, a8, a9, b0, b1, b2, b3, x, t, rfl⟩ := this
    obtain ⟨⟨h0, h8, hp⟩, d, u, v, e, hd, hu, rfl⟩ := (samsung_cons hs).mp h
    refine ⟨_, if x = 32 then [32] else [], d, u, v, ?_, hp, by simp [h0], by simp [h8], ?_, hd, rfl⟩
    · split at e <;> simp_all
    · split at hu
      · exact .inl ⟨by simp_all, List.length_eq_zero_iff.mp (by omega)⟩
      · exact .inr ⟨by simp_all, hu⟩
  · rintro ⟨p, sp, d, t, n, rfl, hp, h0, h8, hsp, hd, rfl⟩
    have hpl : p.length = 14 := by unfold Spells at hp; simpa using congrArg List.length hp
    match p, hpl with
    | [a0, a1, a2, a3, a4, a5, a6, a7, a8, a9, b0, b1, b2, b3], _ =>
      have h0 : a0 = 83 := by simpa using h0
      have h8 : a8 = 69 := by simpa using h8
      rcases hsp with ⟨rfl, rfl⟩ | ⟨rfl, ht⟩
      · simp only [List.cons_append, List.nil_append] at hs ⊢
        rw [samsung_cons hs]
        exact ⟨⟨h0, h8, hp⟩, d, [], n, by simp, hd, by simp, rfl⟩
      · obtain ⟨x, e, rfl, hx⟩ := number_head (k := 32) (by omega) hd (by unfold Digit; omega)
        simp only [List.cons_append, List.nil_append] at hs ⊢
        rw [samsung_cons hs, if_neg hx, if_neg hx]
        exact ⟨⟨h0, h8, hp⟩, _, t, n, rfl, hd, ht, rfl⟩

end Verif.ArmChipset
