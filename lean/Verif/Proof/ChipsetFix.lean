import Verif.Proof.ChipsetValid
import Verif.Spec.ArmChipsetFix

/-!
# Corrections of misreported chipsets
-/

set_option autoImplicit false

namespace Verif.ArmChipset
open Spec.Chipsets

theorem suffixText_byte {t : Bytes} (h : SuffixText t) : ∀ c ∈ padded t, c < 256 := by
  intro c hc
  rcases List.mem_append.mp hc with h1 | h1
  · have := h.2 c h1; unfold SuffixChar at this; omega
  · have := List.eq_of_mem_replicate h1; omega

/-- The eight characters of a padded text. -/
theorem padded_eight {t : Bytes} (h : SuffixText t) : ∃ a b c d e f g i : Byte,
    padded t = [a, b, c, d, e, f, g, i] ∧ a < 256 ∧ b < 256 ∧ c < 256 ∧ d < 256 ∧ e < 256 ∧ f < 256 := by
  have hl := padded_length h.1
  have hb := suffixText_byte h
  match hp : padded t, hl with
  | [a, b, c, d, e, f, g, i], _ =>
    rw [hp] at hb
    exact ⟨a, b, c, d, e, f, g, i, rfl, hb a (by simp), hb b (by simp), hb c (by simp),
      hb d (by simp), hb e (by simp), hb f (by simp)⟩

theorem padded_inj {t u : Bytes} (ht : SuffixText t) (hu : SuffixText u) (h : padded t = padded u) :
    t = u := by
  rw [← suffixText_text ht, ← suffixText_text hu, h]

theorem load_four {t : Bytes} (h : SuffixText t) : ∃ a b c d e f g i : Byte,
    padded t = [a, b, c, d, e, f, g, i] ∧ a < 256 ∧ b < 256 ∧ c < 256 ∧ d < 256 ∧
      load32 (padded t) 0 = .yes (a + 256 * b + 65536 * c + 16777216 * d) := by
  obtain ⟨a, b, c, d, e, f, g, i, hp, ha, hb, hc, hd, _, _⟩ := padded_eight h
  refine ⟨a, b, c, d, e, f, g, i, hp, ha, hb, hc, hd, ?_⟩
  rw [hp, load32_cons ha hb hc]; congr 1; omega

/-- Reading the first four characters recognises a text of three. -/
theorem load_three {t : Bytes} (h : SuffixText t) {x y z : Byte} (hx : SuffixChar x)
    (hy : SuffixChar y) (hz : SuffixChar z) : ∃ w, load32 (padded t) 0 = .yes w ∧
      (w = x + 256 * y + 65536 * z ↔ t = [x, y, z]) := by
  obtain ⟨a, b, c, d, e, f, g, i, hp, ha, hb, hc, hd, hw⟩ := load_four h
  refine ⟨_, hw, ?_⟩
  have hx' := suffixChar_ne hx; have hy' := suffixChar_ne hy; have hz' := suffixChar_ne hz
  unfold SuffixChar at hx hy hz
  constructor
  · intro e1
    have h1 : a = x ∧ b = y ∧ c = z ∧ d = 0 := by omega
    obtain ⟨rfl, rfl, rfl, rfl⟩ := h1
    rw [← suffixText_text h, hp]
    simp [textIn, hx', hy', hz']
  · rintro rfl
    have : padded [x, y, z] = [x, y, z, 0, 0, 0, 0, 0] := rfl
    rw [this] at hp
    injection hp with e1 hp; injection hp with e2 hp; injection hp with e3 hp
    injection hp with e4 hp
    omega

/-- Reading the first four characters recognises a text of two. -/
theorem load_two {t : Bytes} (h : SuffixText t) {x y : Byte} (hx : SuffixChar x)
    (hy : SuffixChar y) : ∃ w, load32 (padded t) 0 = .yes w ∧
      (w = x + 256 * y ↔ t = [x, y]) := by
  obtain ⟨a, b, c, d, e, f, g, i, hp, ha, hb, hc, hd, hw⟩ := load_four h
  refine ⟨_, hw, ?_⟩
  have hx' := suffixChar_ne hx; have hy' := suffixChar_ne hy
  unfold SuffixChar at hx hy
  constructor
  · intro e1
    have h1 : a = x ∧ b = y ∧ c = 0 := by omega
    obtain ⟨rfl, rfl, rfl⟩ := h1
    rw [← suffixText_text h, hp]
    simp [textIn, hx', hy']
  · rintro rfl
    have : padded [x, y] = [x, y, 0, 0, 0, 0, 0, 0] := rfl
    rw [this] at hp
    injection hp with e1 hp; injection hp with e2 hp; injection hp with e3 hp
    injection hp with e4 hp
    omega

theorem first_byte {t : Bytes} (h : SuffixText t) : ∃ a, byteAt (padded t) 0 = .yes a ∧
    (a = 0 ↔ t = []) ∧ ∀ x, x ≠ 0 → (a = x ↔ ∃ u, t = x :: u) := by
  cases t with
  | nil =>
    refine ⟨0, rfl, by simp, fun x hx => ?_⟩
    simp only [reduceCtorEq, exists_false, iff_false]
    exact fun h => hx h.symm
  | cons a t =>
    refine ⟨a, by rfl, ?_, fun x _ => ?_⟩
    · simp [suffixChar_ne (h.2 a (by simp))]
    · simp

/-! ## MSM and APQ -/

theorem fixMsmSuffix_eq {c : Chipset} {t : Bytes} {freq : Nat} (hs : c.series = .qualcommMsm)
    (ht : SuffixText t) (hc : HasSuffix c t) : fixMsmSuffix c freq =
      .yes { c with suffix := padded (suffixFix c.series c.model freq t) } := by
  unfold HasSuffix at hc
  obtain ⟨w, hw, h1⟩ := load_three ht (x := 77) (y := 83) (z := 77) (by decide) (by decide)
    (by decide)
  obtain ⟨w2, hw2, h2⟩ := load_two ht (x := 83) (y := 71) (by decide) (by decide)
  obtain ⟨w3, hw3, h3⟩ := load_three ht (x := 80) (y := 82) (z := 79) (by decide) (by decide)
    (by decide)
  have e2 : w2 = w := by rw [hw] at hw2; injection hw2 with h; exact h.symm
  have e3 : w3 = w := by rw [hw] at hw3; injection hw3 with h; exact h.symm
  subst w2; subst w3
  have l1 : (0x004D534D : Nat) = 77 + 256 * 83 + 65536 * 77 := by decide
  have l2 : (0x00004753 : Nat) = 83 + 256 * 71 := by decide
  have l3 : (0x004F5250 : Nat) = 80 + 256 * 82 + 65536 * 79 := by decide
  have hself : ({ c with suffix := padded t } : Chipset) = c := by rw [← hc]
  unfold fixMsmSuffix suffixFix
  rw [hc, hw, yes_bind]
  simp only [l1, l2, l3, h1, h2, h3, hs, true_and, reduceCtorEq, false_and, if_false]
  rw [hs] at hself
  by_cases t1 : t = [77, 83, 77]
  · simp only [t1, if_true]; rfl
  · simp only [t1, if_false]
    by_cases m1 : c.model = 8976
    · have m2 : ¬ (8976 : Nat) = 8996 := by decide
      by_cases t2 : t = [83, 71]
      · simp only [m1, t2, if_true, and_self]; rfl
      · simp only [m1, t2, m2, if_true, if_false, and_false, false_and]
        rw [m1] at hself; rw [hself]; rfl
    · by_cases m2 : c.model = 8996
      · by_cases t3 : t = [80, 82, 79]
        · have m3 : ¬ (8996 : Nat) = 8976 := by decide
          simp only [m2, t3, m3, if_true, if_false, and_self, false_and]
          by_cases hf : freq ≥ 2188800
          · simp only [hf, if_true]; rfl
          · simp only [hf, if_false]; rfl
        · have m3 : ¬ (8996 : Nat) = 8976 := by decide
          simp only [m2, t3, m3, if_true, if_false, and_false, false_and]
          rw [m2] at hself; rw [hself]; rfl
      · simp only [m1, m2, if_false, false_and]
        rw [hself]; rfl

theorem fixApq_eq {c : Chipset} {t : Bytes} {freq : Nat} (hs : c.series = .qualcommApq)
    (ht : SuffixText t) (hc : HasSuffix c t) : fixApq c =
      .yes { c with suffix := padded (suffixFix c.series c.model freq t) } := by
  unfold HasSuffix at hc
  obtain ⟨w, hw, h1⟩ := load_three ht (x := 65) (y := 80) (z := 81) (by decide) (by decide)
    (by decide)
  have l1 : (0x00515041 : Nat) = 65 + 256 * 80 + 65536 * 81 := by decide
  have hself : ({ c with suffix := padded t } : Chipset) = c := by rw [← hc]
  unfold fixApq suffixFix
  rw [hc, hw, yes_bind]
  simp only [l1, h1, hs, true_and, reduceCtorEq, false_and, if_false]
  by_cases t1 : t = [65, 80, 81]
  · rw [if_pos t1, if_pos t1, t1]; rfl
  · rw [if_neg t1, if_neg t1, ← hs, hself]; rfl

theorem fixMtSuffix_eq {c : Chipset} {t : Bytes} {freq m : Nat} (hs : c.series = .mediatekMt)
    (ht : SuffixText t) (hc : HasSuffix c t) : fixMtSuffix c =
      .yes { c with suffix := padded (suffixFix c.series m freq t) } := by
  unfold HasSuffix at hc
  have hself : ({ c with suffix := padded t } : Chipset) = c := by rw [← hc]
  obtain ⟨a0, a1, a2, a3, a4, a5, a6, a7, hp, l0, l1, l2, l3, l4, l5⟩ := padded_eight ht
  have w1 : (0x4F425255 : Nat) = 85 + 256 * 82 + 65536 * 66 + 16777216 * 79 := by decide
  have w2 : (0x4F425552 : Nat) = 82 + 256 * 85 + 65536 * 66 + 16777216 * 79 := by decide
  have h5 : byteAt [a0, a1, a2, a3, a4, a5, a6, a7] 5 = .yes a5 := rfl
  have hL : load32 [a0, a1, a2, a3, a4, a5, a6, a7] 1 =
      .yes (a1 + 256 * a2 + 65536 * a3 + 16777216 * a4) := by
    rw [load32_succ, load32_cons l1 l2 l3]; congr 1; omega
  have key : (a0 = 84 ∧ ((a1 = 85 ∧ a2 = 82) ∨ (a1 = 82 ∧ a2 = 85)) ∧ a3 = 66 ∧ a4 = 79 ∧ a5 = 0) ↔
      (t = b!"TURBO" ∨ t = b!"TRUBO") := by
    constructor
    · rintro ⟨rfl, h, rfl, rfl, rfl⟩
      rw [← suffixText_text ht, hp]
      rcases h with ⟨rfl, rfl⟩ | ⟨rfl, rfl⟩
      · left; rfl
      · right; rfl
    · rintro (rfl | rfl)
      · have e : padded b!"TURBO" = [84, 85, 82, 66, 79, 0, 0, 0] := rfl
        rw [e] at hp; simp only [List.cons.injEq] at hp; omega
      · have e : padded b!"TRUBO" = [84, 82, 85, 66, 79, 0, 0, 0] := rfl
        rw [e] at hp; simp only [List.cons.injEq] at hp; omega
  unfold fixMtSuffix suffixFix
  rw [hc, hp, byteAt_zero, yes_bind, ← hp]
  simp only [hs, true_and, reduceCtorEq, false_and, if_false]
  by_cases k : t = b!"TURBO" ∨ t = b!"TRUBO"
  · obtain ⟨k0, k1, k3, k4, k5⟩ := key.mpr k
    rw [if_pos k, if_pos k0, hp, hL, yes_bind, if_pos (by rw [w1, w2]; omega), h5, yes_bind, if_pos k5]
    subst k0; subst k5
    have hz : a6 = 0 ∧ a7 = 0 := by
      rcases k with rfl | rfl
      · have e : padded b!"TURBO" = [84, 85, 82, 66, 79, 0, 0, 0] := rfl
        rw [e] at hp; simp only [List.cons.injEq] at hp; omega
      · have e : padded b!"TRUBO" = [84, 82, 85, 66, 79, 0, 0, 0] := rfl
        rw [e] at hp; simp only [List.cons.injEq] at hp; omega
    obtain ⟨rfl, rfl⟩ := hz
    rfl
  · rw [if_neg k, ← hs, hself]
    split
    · rename_i k0
      rw [hp, hL, yes_bind]
      split
      · rename_i k1
        rw [h5, yes_bind]
        split
        · rename_i k5
          exact absurd (key.mp ⟨k0, by rw [w1, w2] at k1; omega, by rw [w1, w2] at k1; omega,
            by rw [w1, w2] at k1; omega, k5⟩) k
        · rfl
      · rfl
    · rfl

/-! ## Models -/

theorem unlisted {arm32 : Bool} {cores : Nat} {s : Series} {m : Nat}
    (h1 : ∀ r ∈ renamed, (arm32 = true ∨ r.1 = false) → r.2.1 = s → r.2.2.1 ≠ m)
    (h2 : ∀ a ∈ ambiguous, (arm32 = true ∨ a.arm32Only = false) → a.series = s → a.model ≠ m) :
    ModelFix arm32 cores s m s m := .unlisted h1 h2

theorem ambiguous_fix {arm32 : Bool} {cores : Nat} (a : Ambiguous) (h : a ∈ ambiguous)
    (hb : arm32 = true ∨ a.arm32Only = false) (ho : a.otherSeries = a.series) :
    ModelFix arm32 cores a.series a.model a.series
      (byCores cores a.cores a.otherCores a.model a.otherModel) := by
  unfold byCores
  split
  · rename_i e; exact .confirmed a h hb rfl rfl e.symm
  · rename_i e
    split
    · rename_i e'
      have := ModelFix.other (cores := cores) a h hb rfl rfl e'.symm
      rwa [ho] at this
    · rename_i e'; exact .neither a h hb rfl rfl (Ne.symm e) (Ne.symm e')

theorem fixMsm_model {arm32 : Bool} {c : Chipset} {cores : Nat} (hs : c.series = .qualcommMsm) :
    ModelFix arm32 cores c.series c.model (fixMsm arm32 c cores).series
      (fixMsm arm32 c cores).model := by
  obtain ⟨v, s, m, x⟩ := c
  simp only at hs
  subst hs
  unfold fixMsm
  simp only
  split
  · rename_i h; subst h
    exact .renamed (false, .qualcommMsm, 8216, 8916) (by decide) (.inr rfl) rfl rfl
  · rename_i h1
    split
    · rename_i h; subst h
      exact ambiguous_fix ⟨false, .qualcommMsm, 8916, 4, 8, .qualcommMsm, 8939⟩ (by decide)
        (.inr rfl) rfl
    · rename_i h2
      split
      · rename_i h; subst h
        exact ambiguous_fix ⟨false, .qualcommMsm, 8937, 8, 4, .qualcommMsm, 8917⟩ (by decide)
          (.inr rfl) rfl
      · rename_i h3
        split
        · rename_i h; subst h
          simp only [byCores]
          by_cases e : cores = 2
          · subst e
            exact .confirmed ⟨false, .qualcommMsm, 8960, 2, 4, .qualcommApq, 8064⟩ (by decide)
              (.inr rfl) rfl rfl rfl
          · by_cases e' : cores = 4
            · subst e'
              exact .other ⟨false, .qualcommMsm, 8960, 2, 4, .qualcommApq, 8064⟩ (by decide)
                (.inr rfl) rfl rfl rfl
            · rw [if_neg e, if_neg e', if_neg e']
              exact .neither ⟨false, .qualcommMsm, 8960, 2, 4, .qualcommApq, 8064⟩ (by decide)
                (.inr rfl) rfl rfl (Ne.symm e) (Ne.symm e')
        · rename_i h4
          split
          · rename_i h; subst h
            exact ambiguous_fix ⟨false, .qualcommMsm, 8996, 4, 8, .qualcommMsm, 8994⟩ (by decide)
              (.inr rfl) rfl
          · rename_i h5
            split
            · rename_i h
              obtain ⟨ha, h⟩ := h
              subst h
              exact ambiguous_fix ⟨true, .qualcommMsm, 8610, 2, 4, .qualcommMsm, 8612⟩ (by decide)
                (.inl ha) rfl
            · rename_i h6
              refine .unlisted ?_ ?_
              · simp only [renamed, List.mem_cons, List.not_mem_nil, or_false, forall_eq_or_imp,
                  forall_eq, reduceCtorEq, false_implies, implies_true, and_true]
                intro _ _; exact Ne.symm h1
              · simp only [ambiguous, List.mem_cons, List.not_mem_nil, or_false, forall_eq_or_imp,
                  forall_eq, reduceCtorEq, false_implies, implies_true, and_true, or_true,
                  Bool.true_eq_false]
                refine ⟨fun _ _ => Ne.symm h2, fun _ _ => Ne.symm h3, fun _ _ => Ne.symm h4,
                  fun _ _ => Ne.symm h5, fun ha _ => ?_⟩
                exact fun e => h6 ⟨ha, e.symm⟩

theorem fixExynos_model {arm32 : Bool} {c : Chipset} {cores : Nat}
    (hs : c.series = .samsungExynos) :
    ModelFix arm32 cores c.series c.model (fixExynos arm32 c cores).series
      (fixExynos arm32 c cores).model := by
  obtain ⟨v, s, m, x⟩ := c
  simp only at hs
  subst hs
  unfold fixExynos
  simp only
  split
  · rename_i h
    obtain ⟨ha, h⟩ := h
    subst h
    exact .renamed (true, .samsungExynos, 4410, 4412) (by decide) (.inl ha) rfl rfl
  · rename_i h1
    split
    · rename_i h
      obtain ⟨ha, h⟩ := h
      subst h
      exact ambiguous_fix ⟨true, .samsungExynos, 5420, 4, 6, .samsungExynos, 5260⟩ (by decide)
        (.inl ha) rfl
    · rename_i h2
      split
      · rename_i h; subst h
        exact ambiguous_fix ⟨false, .samsungExynos, 7580, 8, 4, .samsungExynos, 7578⟩ (by decide)
          (.inr rfl) rfl
      · rename_i h3
        refine .unlisted ?_ ?_
        · simp only [renamed, List.mem_cons, List.not_mem_nil, or_false, forall_eq_or_imp,
            forall_eq, reduceCtorEq, false_implies, implies_true, true_and, Bool.true_eq_false]
          intro ha _ e; exact h1 ⟨ha, e.symm⟩
        · simp only [ambiguous, List.mem_cons, List.not_mem_nil, or_false, forall_eq_or_imp,
            forall_eq, reduceCtorEq, false_implies, implies_true, and_true, true_and, or_true,
            Bool.true_eq_false]
          exact ⟨fun ha _ e => h2 ⟨ha, e.symm⟩, fun _ _ => Ne.symm h3⟩

theorem fixMt_model {arm32 : Bool} {c : Chipset} {cores : Nat} (hs : c.series = .mediatekMt) :
    ModelFix arm32 cores c.series c.model (fixMtModel c cores).series
      (fixMtModel c cores).model := by
  obtain ⟨v, s, m, x⟩ := c
  simp only at hs
  subst hs
  unfold fixMtModel
  simp only
  split
  · rename_i h; subst h
    exact ambiguous_fix ⟨false, .mediatekMt, 6752, 8, 4, .mediatekMt, 6732⟩ (by decide)
      (.inr rfl) rfl
  · rename_i h1
    refine .unlisted ?_ ?_
    · simp [renamed]
    · simp only [ambiguous, List.mem_cons, List.not_mem_nil, or_false, forall_eq_or_imp,
        forall_eq, reduceCtorEq, false_implies, implies_true, and_true, true_and, or_true]
      exact fun _ _ => Ne.symm h1

theorem fixRk_model {arm32 : Bool} {c : Chipset} {cores : Nat} (hs : c.series = .rockchipRk) :
    ModelFix arm32 cores c.series c.model (fixRk c cores).series (fixRk c cores).model := by
  obtain ⟨v, s, m, x⟩ := c
  simp only at hs
  subst hs
  unfold fixRk
  simp only
  split
  · rename_i h; subst h
    exact ambiguous_fix ⟨false, .rockchipRk, 3288, 4, 6, .rockchipRk, 3399⟩ (by decide)
      (.inr rfl) rfl
  · rename_i h1
    refine .unlisted ?_ ?_
    · simp [renamed]
    · simp only [ambiguous, List.mem_cons, List.not_mem_nil, or_false, forall_eq_or_imp,
        forall_eq, reduceCtorEq, false_implies, implies_true, true_and, or_true]
      exact fun _ _ => Ne.symm h1

theorem fixMsm_rest (arm32 : Bool) (c : Chipset) (cores : Nat) :
    (fixMsm arm32 c cores).vendor = c.vendor ∧ (fixMsm arm32 c cores).suffix = c.suffix := by
  unfold fixMsm
  repeat (first | exact ⟨rfl, rfl⟩ | split)

theorem fixExynos_rest (arm32 : Bool) (c : Chipset) (cores : Nat) :
    (fixExynos arm32 c cores).vendor = c.vendor ∧ (fixExynos arm32 c cores).suffix = c.suffix := by
  unfold fixExynos
  repeat (first | exact ⟨rfl, rfl⟩ | split)

theorem fixMtModel_rest (c : Chipset) (cores : Nat) :
    (fixMtModel c cores).vendor = c.vendor ∧ (fixMtModel c cores).series = c.series ∧
      (fixMtModel c cores).suffix = c.suffix := by
  unfold fixMtModel
  split <;> exact ⟨rfl, rfl, rfl⟩

theorem fixRk_rest (c : Chipset) (cores : Nat) :
    (fixRk c cores).vendor = c.vendor ∧ (fixRk c cores).suffix = c.suffix := by
  unfold fixRk
  split <;> exact ⟨rfl, rfl⟩

/-- The correction is exactly the documented one. -/
theorem fixup_corrected {arm32 : Bool} {c : Chipset} {cores freq : Nat} {t : Bytes}
    (ht : SuffixText t) (hc : HasSuffix c t) :
    ∃ r, fixup arm32 c cores freq = .yes r ∧ Corrected arm32 cores freq c r := by
  have same : ∀ r : Chipset, r.vendor = c.vendor → r.suffix = c.suffix →
      c.series ≠ .qualcommMsm → suffixFix c.series c.model freq t = t →
      ModelFix arm32 cores c.series c.model r.series r.model →
      Corrected arm32 cores freq c r := by
    intro r h1 h2 h3 h4 h5
    refine ⟨t, ht, hc, h1, ?_, ?_⟩
    · unfold HasSuffix; rw [h4, h2]; exact hc
    · rw [if_neg (fun h => h3 h.1)]; exact h5
  have rest : ∀ s : Series, c.series = s → s ∉ [Series.qualcommMsm, .qualcommApq, .samsungExynos,
      .mediatekMt, .rockchipRk] → ∃ r, Match.yes c = .yes r ∧ Corrected arm32 cores freq c r := by
    intro s hs hn
    simp only [List.mem_cons, List.not_mem_nil, or_false, not_or] at hn
    obtain ⟨n1, n2, n3, n4, n5⟩ := hn
    refine ⟨c, rfl, same c rfl rfl (by rw [hs]; exact n1) ?_ ?_⟩
    · simp [suffixFix, hs, n1, n2, n4]
    · rw [hs]
      refine .unlisted ?_ ?_
      · simp only [renamed, List.mem_cons, List.not_mem_nil, or_false, forall_eq_or_imp,
          forall_eq]
        exact ⟨fun _ e => absurd e.symm n1, fun _ e => absurd e.symm n3⟩
      · simp only [ambiguous, List.mem_cons, List.not_mem_nil, or_false, forall_eq_or_imp,
          forall_eq]
        exact ⟨fun _ e => absurd e.symm n1, fun _ e => absurd e.symm n1,
          fun _ e => absurd e.symm n1, fun _ e => absurd e.symm n1, fun _ e => absurd e.symm n1,
          fun _ e => absurd e.symm n3, fun _ e => absurd e.symm n3, fun _ e => absurd e.symm n4,
          fun _ e => absurd e.symm n5⟩
  unfold fixup
  cases hs : c.series
  case qualcommMsm =>
    obtain ⟨a, ha, h0, _⟩ := first_byte ht
    simp only
    rw [show c.suffix = padded t from hc, ha, yes_bind]
    by_cases h : t = []
    · rw [if_pos (h0.mpr h)]
      obtain ⟨h1, h2⟩ := fixMsm_rest arm32 c cores
      refine ⟨_, rfl, t, ht, hc, h1, ?_, ?_⟩
      · unfold HasSuffix; rw [h2, show c.suffix = padded t from hc, h, hs]; simp [suffixFix]
      · rw [if_neg (fun e => e.2 h)]; exact fixMsm_model hs
    · rw [if_neg (fun e => h (h0.mp e)), fixMsmSuffix_eq hs ht hc]
      refine ⟨_, rfl, t, ht, hc, rfl, rfl, ?_⟩
      rw [if_pos ⟨hs, h⟩]; exact ⟨rfl, rfl⟩
  case qualcommApq =>
    simp only
    rw [fixApq_eq (freq := freq) hs ht hc]
    refine ⟨_, rfl, t, ht, hc, rfl, rfl, ?_⟩
    rw [if_neg (fun e => by rw [hs] at e; exact absurd e.1 (by decide))]
    simp only [hs]
    exact .unlisted (by simp [renamed]) (by simp [ambiguous])
  case samsungExynos =>
    obtain ⟨h1, h2⟩ := fixExynos_rest arm32 c cores
    refine ⟨_, rfl, same _ h1 h2 (by rw [hs]; decide) (by simp [suffixFix, hs]) ?_⟩
    exact fixExynos_model hs
  case mediatekMt =>
    obtain ⟨h1, h2, h3⟩ := fixMtModel_rest c cores
    simp only
    rw [fixMtSuffix_eq (freq := freq) (m := c.model) (h2.trans hs) ht (by unfold HasSuffix; rw [h3]; exact hc)]
    refine ⟨_, rfl, t, ht, hc, h1, ?_, ?_⟩
    · unfold HasSuffix; rw [h2]
    · rw [if_neg (fun e => by rw [hs] at e; exact absurd e.1 (by decide))]
      exact fixMt_model hs
  case rockchipRk =>
    obtain ⟨h1, h2⟩ := fixRk_rest c cores
    refine ⟨_, rfl, same _ h1 h2 (by rw [hs]; decide) (by simp [suffixFix, hs]) ?_⟩
    exact fixRk_model hs
  all_goals exact rest _ hs (by decide)

/-! ## Corrections keep chipsets well-formed -/

theorem suffixFix_text {s : Series} {m freq : Nat} {t : Bytes} (ht : SuffixText t) :
    SuffixText (suffixFix s m freq t) := by
  unfold suffixFix
  repeat (first | exact ht | decide | split)

theorem modelFix_valid {arm32 : Bool} {cores : Nat} {s s' : Series} {m m' : Nat}
    (h : ModelFix arm32 cores s m s' m') (hm : m < 100000) :
    m' < 100000 ∧ seriesVendor s' = seriesVendor s ∧ (s ≠ .unknown → s' ≠ .unknown) := by
  have h1 : ∀ r ∈ renamed, r.2.2.2 < 100000 := by decide
  have h2 : ∀ a ∈ ambiguous, a.otherModel < 100000 ∧
      seriesVendor a.otherSeries = seriesVendor a.series ∧ a.otherSeries ≠ .unknown := by decide
  cases h with
  | renamed r h => exact ⟨h1 r h, rfl, id⟩
  | confirmed => exact ⟨hm, rfl, id⟩
  | other a h _ e =>
    obtain ⟨h3, h4, h5⟩ := h2 a h
    exact ⟨h3, by rw [h4, e], fun _ => h5⟩
  | neither => exact ⟨by decide, rfl, id⟩
  | unlisted => exact ⟨hm, rfl, id⟩

theorem valid_suffix {c : Chipset} (h : Valid c) : ∃ t, SuffixText t ∧ HasSuffix c t := by
  rcases h with rfl | ⟨_, _, _, t, ht, h⟩
  · exact ⟨[], suffixText_nil, rfl⟩
  · exact ⟨t, ht, h⟩

theorem fixup_unknown (arm32 : Bool) (cores freq : Nat) :
    fixup arm32 .unknown cores freq = .yes .unknown := rfl

theorem fixup_valid {arm32 : Bool} {c : Chipset} {cores freq : Nat} (h : Valid c) :
    ∃ r, fixup arm32 c cores freq = .yes r ∧ Valid r ∧ r.vendor = c.vendor ∧
      (r.series = .unknown ↔ c.series = .unknown) := by
  rcases h with rfl | hv
  · exact ⟨_, fixup_unknown .., .inl rfl, rfl, Iff.rfl⟩
  · obtain ⟨t, ht, hc⟩ := valid_suffix (.inr hv)
    obtain ⟨r, hr, u, hu, hcu, h1, h2, h3⟩ := fixup_corrected (arm32 := arm32) (cores := cores)
      (freq := freq) ht hc
    obtain ⟨hn, ho, hm, _⟩ := hv
    have key : r.model < 100000 ∧ seriesVendor r.series = seriesVendor c.series ∧
        (c.series ≠ .unknown → r.series ≠ .unknown) := by
      split at h3
      · rw [h3.1, h3.2]; exact ⟨hm, rfl, id⟩
      · exact modelFix_valid h3 hm
    refine ⟨r, hr, .inr ⟨key.2.2 hn, ?_, key.1, _, suffixFix_text hu, h2⟩, h1, ?_⟩
    · rw [h1, owner_iff, key.2.1]; exact (owner_iff _ _).mp ho
    · exact ⟨fun e => absurd e (key.2.2 hn), fun e => absurd e hn⟩

/-! ## Raspberry Pi -/

theorem hexValue_append (a b : Bytes) :
    hexValue (a ++ b) = hexValue a * 16 ^ b.length + hexValue b := by
  induction a with
  | nil => simp [hexValue]
  | cons c a ih =>
    simp only [List.cons_append, hexValue, ih, List.length_append, Nat.pow_add, Nat.add_mul,
      Nat.mul_assoc, Nat.add_assoc]

theorem hexDigit_lt (c : Byte) : hexDigit c < 16 := by
  unfold hexDigit
  repeat (first | omega | split)

theorem hexValue_lt (b : Bytes) : hexValue b < 16 ^ b.length := by
  induction b with
  | nil => simp [hexValue]
  | cons c b ih =>
    have h1 := hexDigit_lt c
    have h2 : hexDigit c * 16 ^ b.length ≤ 15 * 16 ^ b.length :=
      Nat.mul_le_mul_right _ (by omega)
    simp only [hexValue, List.length_cons, Nat.pow_succ]
    omega

/-- The fourth character from the end is the digit of bits 12 to 15. -/
theorem field_digit {s : Bytes} {c : Byte} (h4 : 4 ≤ s.length) (hc : s[s.length - 4]? = some c) :
    processorField (hexValue s) = hexDigit c := by
  have hs : s = s.take (s.length - 4) ++ c :: s.drop (s.length - 3) := by
    have h1 : s.drop (s.length - 4) = c :: s.drop (s.length - 3) := by
      rw [List.drop_eq_getElem_cons (by omega : s.length - 4 < s.length),
        show s.length - 4 + 1 = s.length - 3 by omega]
      rw [List.getElem?_eq_getElem (by omega : s.length - 4 < s.length)] at hc
      injection hc with hc
      rw [hc]
    rw [← h1, List.take_append_drop]
  have hl : (s.drop (s.length - 3)).length = 3 := by simp; omega
  have h3 := hexValue_lt (s.drop (s.length - 3))
  rw [hl] at h3
  rw [hs, hexValue_append]
  simp only [processorField, hexValue, List.length_cons, hl]
  have := hexDigit_lt c
  omega

theorem revision_iff {c : Byte} (hc : IsHex c) :
    (piModel (hexDigit c) = none ∧ revisionModel c = 0) ∨
      (revisionModel c ≠ 0 ∧ piModel (hexDigit c) = some (revisionModel c)) := by
  have : c < 103 := by unfold IsHex at hc; omega
  have key : ∀ c < 103, IsHex c → (piModel (hexDigit c) = none ∧ revisionModel c = 0) ∨
      (revisionModel c ≠ 0 ∧ piModel (hexDigit c) = some (revisionModel c)) := by
    unfold IsHex; decide
  exact key c this hc

end Verif.ArmChipset
