import Verif.Proof.ChipsetExactRest

/-!
# Every signature matches exactly its pattern: names of platforms
-/

set_option autoImplicit false

namespace Verif.ArmChipset
open Spec.Chipsets

/-! ## Marvell -/

theorem pxa_iff {s : Bytes} {r : Chipset} (hs : IsBytes s) : matchPxa s = .yes r ↔ Pxa s r := by
  have key : ∀ {a b c : Byte} {t : Bytes}, IsBytes (a :: b :: c :: t) →
      (matchPxa (a :: b :: c :: t) = .yes r ↔ (a = 80 ∧ b = 88 ∧ c = 65) ∧
        ((t = b!"1L88" ∧ chip .marvell .marvellPxa 1088 [] = r) ∨
          ∃ v, (IsNumber 3 t v ∨ IsNumber 4 t v) ∧ chip .marvell .marvellPxa v [] = r)) := by
    intro a b c t hs
    obtain ⟨ha, hs2⟩ := bytes_cons hs
    obtain ⟨hb, hs1⟩ := bytes_cons hs2
    obtain ⟨hc, hs0⟩ := bytes_cons hs1
    have e1 : ∀ {P : Prop}, a = 80 ∧ b + 256 * c = 0x4158 ∧ P ↔ (a = 80 ∧ b = 88 ∧ c = 65) ∧ P := by
      intro P
      rw [← and_assoc]
      exact and_congr_left fun _ => by omega
    rw [← e1]
    unfold matchPxa pxaModel
    by_cases h3 : t.length = 3
    · match_simp [load16_cons hb, h3, Nat.reduceSub, Nat.reduceEqDiff, digits_all hs0 (by omega) h3]
      refine and_congr_right fun _ => and_congr_right fun _ => ?_
      constructor
      · rintro ⟨v, hv, rfl⟩; exact .inr ⟨v, .inl hv, rfl⟩
      · rintro (⟨rfl, _⟩ | ⟨v, hv | hv, rfl⟩)
        · simp at h3
        · exact ⟨v, hv, rfl⟩
        · have := hv.1; omega
    · by_cases h4 : t.length = 4
      · match t, h4 with
        | [w, x, y, z], h4 =>
          obtain ⟨hw, hs5⟩ := bytes_cons hs0
          obtain ⟨hx, hs6⟩ := bytes_cons hs5
          obtain ⟨hy, hs7⟩ := bytes_cons hs6
          match_simp [load16_cons hb, load32_cons hw hx hy, List.length_nil, Nat.reduceSub,
            or_true]
          refine and_congr_right fun _ => and_congr_right fun _ => ?_
          have e2 : w + 256 * (x + 256 * (y + 256 * z)) = 0x38384C31 ↔ [w, x, y, z] = b!"1L88" := by
            have := hs7 z (by simp)
            simp only [List.cons.injEq, and_true]; omega
          by_cases h8 : [w, x, y, z] = b!"1L88"
          · match_simp [e2.mpr h8, h8]
            constructor
            · exact .inl
            · rintro (h | ⟨v, hv | hv, rfl⟩)
              · exact h
              · exact absurd hv.1 (by decide)
              · exact absurd (hv.2.1 76 (by decide)) (by unfold Digit; omega)
          · have h9 : ¬ (w + 256 * (x + 256 * (y + 256 * z)) = 0x38384C31) := fun h => h8 (e2.mp h)
            match_simp [h9, h8, digits_all hs0 (by omega) h4, false_and]
            constructor
            · rintro ⟨v, hv, rfl⟩; exact ⟨v, .inr hv, rfl⟩
            · rintro ⟨v, hv | hv, rfl⟩
              · have := hv.1; simp at this
              · exact ⟨v, hv, rfl⟩
      · constructor
        · intro h
          obtain ⟨_, hl, _⟩ := bind_yes.mp h
          simp only [need_yes, beq_iff_eq, Bool.or_eq_true, List.length_cons] at hl
          omega
        · rintro ⟨_, _, ⟨rfl, _⟩ | ⟨v, hv | hv, _⟩⟩
          · simp at h4
          · exact absurd hv.1 h3
          · exact absurd hv.1 h4
  constructor
  · intro h
    have hl := h
    unfold matchPxa at hl
    obtain ⟨_, hl, _⟩ := bind_yes.mp hl
    simp only [need_yes, beq_iff_eq, Bool.or_eq_true] at hl
    obtain ⟨a, s1, rfl, hl1⟩ := cons_of_le (n := 5) (s := s) (by omega)
    obtain ⟨b, s2, rfl, hl2⟩ := cons_of_le hl1
    obtain ⟨c, t, rfl, hl3⟩ := cons_of_le hl2
    obtain ⟨⟨rfl, rfl, rfl⟩, ⟨rfl, rfl⟩ | ⟨v, hv, rfl⟩⟩ := (key hs).mp h
    · exact .inl ⟨rfl, rfl⟩
    · exact .inr ⟨t, v, rfl, hv, rfl⟩
  · rintro (⟨rfl, rfl⟩ | ⟨d, n, rfl, hd, rfl⟩)
    · exact (key hs).mpr ⟨by decide, .inl ⟨rfl, rfl⟩⟩
    · exact (key hs).mpr ⟨by decide, .inr ⟨n, hd, rfl⟩⟩

/-! ## Broadcom platforms -/

/-- Only four names of platforms are accepted. -/
theorem broadcom_names {s : Bytes} {cores freq : Nat} {r : Chipset} (hs : IsBytes s)
    (h : matchBroadcom s cores freq = .yes r) :
    s = b!"rhea" ∨ s = b!"java" ∨ s = b!"hawaii" ∨ s = b!"capri" := by
  have hl := h
  unfold matchBroadcom at hl
  obtain ⟨_, hl, _⟩ := bind_yes.mp hl
  simp only [need_yes, beq_iff_eq, Bool.or_eq_true] at hl
  obtain ⟨a, s1, rfl, hl1⟩ := cons_of_le (n := 3) (s := s) (by omega)
  obtain ⟨b, s2, rfl, hl2⟩ := cons_of_le hl1
  obtain ⟨c, s3, rfl, hl3⟩ := cons_of_le hl2
  obtain ⟨d, t, rfl, hl4⟩ := cons_of_le hl3
  obtain ⟨ha, hs1⟩ := bytes_cons hs
  obtain ⟨hb, hs2⟩ := bytes_cons hs1
  obtain ⟨hc, hs3⟩ := bytes_cons hs2
  obtain ⟨hd, hs4⟩ := bytes_cons hs3
  unfold matchBroadcom at h
  obtain ⟨_, _, h⟩ := bind_yes.mp h
  rw [load32_cons ha hb hc] at h
  obtain ⟨_, hw, h⟩ := bind_yes.mp h
  cases hw
  obtain ⟨⟨m, x⟩, hm, h⟩ := bind_yes.mp h
  obtain ⟨_, h0, _⟩ := bind_yes.mp h
  rw [need_yes, bne_iff_ne] at h0
  clear h
  unfold broadcomModel at hm
  have hyes : ∀ {p : Nat × Byte}, Match.yes p = .yes (m, x) → p.1 ≠ 0 := by
    intro p hp; cases hp; exact h0
  split at hm
  · rename_i hw
    have h4 : (a :: b :: c :: d :: t).length = 4 := by
      have := hyes hm
      split at this
      · rename_i h; exact h.1
      · exact absurd rfl this
    have : t = [] := List.length_eq_zero_iff.mp (by simpa using h4)
    subst this
    left
    simp only [List.cons.injEq, and_true]; omega
  · split at hm
    · rename_i hw
      have h4 : (a :: b :: c :: d :: t).length = 4 := by
        have := hyes hm
        split at this
        · rename_i h; exact h.1
        · exact absurd rfl this
      have : t = [] := List.length_eq_zero_iff.mp (by simpa using h4)
      subst this
      right; left
      simp only [List.cons.injEq, and_true]; omega
    · split at hm
      · rename_i hw
        split at hm
        · rename_i h6
          match t, h6 with
          | [x, y], _ =>
            obtain ⟨hx, hs5⟩ := bytes_cons hs4
            rw [load16_succ, load16_succ, load16_succ, load16_succ, load16_cons hx, yes_bind] at hm
            split at hm
            · right; right; left
              simp only [List.cons.injEq, and_true]; omega
            · exact absurd rfl (hyes hm)
        · exact absurd rfl (hyes hm)
      · split at hm
        · rename_i hw
          split at hm
          · rename_i h5
            match t, h5 with
            | [x], _ =>
              rw [byteAt_succ, byteAt_succ, byteAt_succ, byteAt_succ, byteAt_zero, yes_bind] at hm
              split at hm
              · right; right; right
                simp only [List.cons.injEq, and_true]; omega
              · exact absurd rfl (hyes hm)
          · exact absurd rfl (hyes hm)
        · exact absurd rfl (hyes hm)

theorem chip_zero (v : Vendor) (s : Series) (m : Nat) : chip v s m [0] = chip v s m [] := rfl

set_option linter.unusedSimpArgs false in
theorem broadcom_iff {s : Bytes} {cores freq : Nat} {r : Chipset} (hs : IsBytes s) :
    matchBroadcom s cores freq = .yes r ↔ Broadcom s cores freq r := by
  by_cases h : s = b!"rhea" ∨ s = b!"java" ∨ s = b!"hawaii" ∨ s = b!"capri"
  · have e : ∀ {l : List (Bytes × Nat × Nat × Nat × Bytes)} {f : _ → Bool},
        (∃ q, l.find? f = some q ∧ r = chip .broadcom .broadcomBcm q.2.2.2.1 q.2.2.2.2) ↔
        (l.find? f).map (fun q => chip .broadcom .broadcomBcm q.2.2.2.1 q.2.2.2.2) = some r := by
      intro l f
      cases l.find? f <;> simp [eq_comm]
    unfold Broadcom
    rw [e]
    have w1 : load32 b!"rhea" 0 = .yes 0x61656872 := rfl
    have w2 : load32 b!"java" 0 = .yes 0x6176616A := rfl
    have w3 : load32 b!"hawaii" 0 = .yes 0x61776168 := rfl
    have w4 : load32 b!"capri" 0 = .yes 0x72706163 := rfl
    have w5 : load16 b!"hawaii" 4 = .yes 0x6969 := rfl
    have w6 : byteAt b!"capri" 4 = .yes 105 := rfl
    unfold matchBroadcom broadcomModel
    rcases h with rfl | rfl | rfl | rfl
    · rw [w1]
      by_cases h1 : cores = 1
      · subst h1
        by_cases h2 : 999999 ≤ freq
        · simp [broadcomPlatforms, bind_yes, need_yes, pure_yes, yes_bind, mk_eq, chip_zero, h2]
        · simp [broadcomPlatforms, bind_yes, need_yes, pure_yes, yes_bind, mk_eq, chip_zero, h2]
      · have h1' : ¬ 1 = cores := fun h => h1 h.symm
        simp [broadcomPlatforms, bind_yes, need_yes, pure_yes, yes_bind, mk_eq, chip_zero, h1, h1']
    · rw [w2]
      by_cases h1 : cores = 4
      · subst h1
        simp [broadcomPlatforms, bind_yes, need_yes, pure_yes, yes_bind, mk_eq, chip_zero]
      · have h1' : ¬ 4 = cores := fun h => h1 h.symm
        simp [broadcomPlatforms, bind_yes, need_yes, pure_yes, yes_bind, mk_eq, chip_zero, h1, h1']
    · rw [w3]
      by_cases h1 : cores = 1
      · subst h1
        simp [broadcomPlatforms, bind_yes, need_yes, pure_yes, yes_bind, mk_eq, chip_zero, w5]
      · have h1' : ¬ 1 = cores := fun h => h1 h.symm
        by_cases h2 : cores = 2
        · subst h2
          by_cases h3 : 1200000 ≤ freq
          · simp [broadcomPlatforms, bind_yes, need_yes, pure_yes, yes_bind, mk_eq, chip_zero, w5, h3]
          · simp [broadcomPlatforms, bind_yes, need_yes, pure_yes, yes_bind, mk_eq, chip_zero, w5, h3]
        · have h2' : ¬ 2 = cores := fun h => h2 h.symm
          simp [broadcomPlatforms, bind_yes, need_yes, pure_yes, yes_bind, mk_eq, chip_zero, w5,
            h1, h1', h2, h2']
    · rw [w4]
      by_cases h1 : cores = 2
      · subst h1
        simp [broadcomPlatforms, bind_yes, need_yes, pure_yes, yes_bind, mk_eq, chip_zero, w6]
      · have h1' : ¬ 2 = cores := fun h => h1 h.symm
        simp [broadcomPlatforms, bind_yes, need_yes, pure_yes, yes_bind,
          mk_eq, chip_zero, w6, h1, h1']
  · constructor
    · exact fun h' => absurd (broadcom_names hs h') h
    · rintro ⟨q, hq, _⟩
      have h1 := List.mem_of_find?_eq_some hq
      have h2 := List.find?_some hq
      have h3 : ∀ q ∈ broadcomPlatforms,
          q.1 = b!"rhea" ∨ q.1 = b!"java" ∨ q.1 = b!"hawaii" ∨ q.1 = b!"capri" := by decide
      rw [decide_eq_true_eq] at h2
      exact absurd (h2.1 ▸ h3 q h1) h

/-! ## Allwinner -/

theorem exists_mem_map {α β : Type} {f : α → β} {l : List α} {P : β → Prop} :
    (∃ r ∈ l.map f, P r) ↔ ∃ e ∈ l, P (f e) := by
  constructor
  · rintro ⟨r, hr, hp⟩
    obtain ⟨e, he, rfl⟩ := List.mem_map.mp hr
    exact ⟨e, he, hp⟩
  · rintro ⟨e, he, hp⟩
    exact ⟨f e, List.mem_map.mpr ⟨e, he, rfl⟩, hp⟩

theorem sunxi_table {arm32 : Bool} {n cores : Nat} {c : Chipset} :
    mk .allwinner .allwinnerA (sunxiModel arm32 n cores).1 [(sunxiModel arm32 n cores).2] = c ↔
      ((∃ r ∈ sunxiPlatforms, (arm32 = true ∨ r.1 = false) ∧ r.2.1 = n ∧ r.2.2.1 = cores ∧
        c = chip .allwinner .allwinnerA r.2.2.2.1 r.2.2.2.2) ∨
      ((∀ r ∈ sunxiPlatforms, ¬ ((arm32 = true ∨ r.1 = false) ∧ r.2.1 = n ∧ r.2.2.1 = cores)) ∧
        c = chip .allwinner .allwinnerA 0 [])) := by
  have hmap : sunxiPlatforms = sunxiEntries.map fun e =>
      (e.arm32Only, e.sunxi, e.cores, e.model, if e.suffix = 0 then [] else [e.suffix]) := by
    decide
  have hmk : ∀ m x, mk .allwinner .allwinnerA m [x] =
      chip .allwinner .allwinnerA m (if x = 0 then [] else [x]) := by
    intro m x
    split
    · rename_i h; subst h; rfl
    · rfl
  have huniq : ∀ e ∈ sunxiEntries, ∀ f ∈ sunxiEntries, e.sunxi = f.sunxi → e.cores = f.cores →
      e = f := by decide
  rw [hmap]
  simp only [exists_mem_map, List.forall_mem_map, hmk]
  unfold sunxiModel
  split
  · rename_i e he
    have hm := List.mem_of_find?_eq_some he
    have hp := List.find?_some he
    simp only [inBuild, Bool.and_eq_true, Bool.or_eq_true, Bool.not_eq_true', beq_iff_eq] at hp
    obtain ⟨⟨h1, rfl⟩, rfl⟩ := hp
    constructor
    · rintro rfl
      exact .inl ⟨e, hm, h1, rfl, rfl, rfl⟩
    · rintro (⟨f, hf, h2, h3, h4, rfl⟩ | ⟨h, _⟩)
      · rw [huniq e hm f hf h3.symm h4.symm]
      · exact absurd ⟨h1, rfl, rfl⟩ (h e hm)
  · rename_i he
    have hno : ∀ e ∈ sunxiEntries,
        ¬ ((arm32 = true ∨ e.arm32Only = false) ∧ e.sunxi = n ∧ e.cores = cores) := by
      rintro e hm ⟨h1, rfl, rfl⟩
      have := List.find?_eq_none.mp he e hm
      simp only [inBuild, Bool.and_eq_true, Bool.or_eq_true, Bool.not_eq_true', beq_iff_eq,
        and_true] at this
      exact this h1
    constructor
    · rintro rfl; exact .inr ⟨hno, rfl⟩
    · rintro (⟨f, hf, h2, h3, h4, rfl⟩ | ⟨_, rfl⟩)
      · exact absurd ⟨h2, h3, h4⟩ (hno f hf)
      · rfl

theorem number_one {x : Byte} {v : Nat} : IsNumber 1 [x] v ↔ Digit x ∧ v = x - 48 := by
  simp [IsNumber, valueOf]

theorem number_two {x y : Byte} {v : Nat} :
    IsNumber 2 [x, y] v ↔ Digit x ∧ Digit y ∧ v = (x - 48) * 10 + (y - 48) := by
  simp [IsNumber, valueOf, and_assoc]

theorem sunxi_iff {arm32 : Bool} {s : Bytes} {cores : Nat} {r : Chipset} (hs : IsBytes s) :
    matchSunxi arm32 s cores = .yes r ↔ Sunxi arm32 s cores r := by
  have key : ∀ {a b c x y : Byte} {t : Bytes}, IsBytes (a :: b :: c :: x :: y :: t) →
      (matchSunxi arm32 (a :: b :: c :: x :: y :: t) cores = .yes r ↔
        (a = 115 ∧ b = 117 ∧ c = 110) ∧ Digit x ∧
        ((y = 105 ∧ mk .allwinner .allwinnerA (sunxiModel arm32 (x - 48) cores).1
            [(sunxiModel arm32 (x - 48) cores).2] = r) ∨
          (Digit y ∧ (∃ u, t = 105 :: u) ∧
            mk .allwinner .allwinnerA (sunxiModel arm32 ((x - 48) * 10 + (y - 48)) cores).1
            [(sunxiModel arm32 ((x - 48) * 10 + (y - 48)) cores).2] = r))) := by
    intro a b c x y t hs
    obtain ⟨ha, hs1⟩ := bytes_cons hs
    obtain ⟨hb, hs2⟩ := bytes_cons hs1
    obtain ⟨hc, hs3⟩ := bytes_cons hs2
    obtain ⟨hx, hs4⟩ := bytes_cons hs3
    obtain ⟨hy, hs5⟩ := bytes_cons hs4
    have e1 : ∀ {P : Prop}, a = 115 ∧ b + 256 * c = 0x6E75 ∧ P ↔
        (a = 115 ∧ b = 117 ∧ c = 110) ∧ P := by
      intro P
      rw [← and_assoc]
      exact and_congr_left fun _ => by omega
    rw [← e1]
    unfold matchSunxi sunxiNumber
    by_cases h : Digit y
    · have h105 : y ≠ 105 := by unfold Digit at h; omega
      cases t with
      | nil =>
        match_simp [load16_cons hb, digitOf_iff hx, digitOf_iff hy, h, h105, List.length_nil,
          bne_self_eq_false, Bool.false_eq_true, false_and, and_false, exists_false,
          List.nil_eq, reduceCtorEq, or_self]
      | cons z u =>
        have h5 : (5 != u.length + 1 + 1 + 1 + 1 + 1 + 1) = true := by
          rw [bne_iff_ne]; omega
        match_simp [load16_cons hb, digitOf_iff hx, digitOf_iff hy, h, h105, h5, false_and]
        have e2 : Digit x → (digitOf x * 10 + digitOf y) % U32 = (x - 48) * 10 + (y - 48) := by
          intro hxd
          rw [digitOf_eq hxd, digitOf_eq h]
          unfold Digit at hxd h
          omega
        constructor
        · rintro ⟨_, h1, h2, _, ⟨hxd, rfl⟩, z', hz, rfl, rfl⟩
          rw [e2 hxd]
          have : z = 105 := by rw [byteAt_yes] at hz; simpa using hz
          exact ⟨h1, h2, hxd, ⟨u, by rw [this]⟩, rfl⟩
        · rintro ⟨h1, h2, hxd, ⟨u', hu⟩, rfl⟩
          have hz : z = 105 := (List.cons.inj hu).1
          refine ⟨by omega, h1, h2, _, ⟨hxd, rfl⟩, z, rfl, hz, ?_⟩
          rw [e2 hxd]
    · match_simp [load16_cons hb, digitOf_iff hx, digitOf_iff hy, h, false_and, or_false]
      constructor
      · rintro ⟨_, h1, h2, _, ⟨hxd, rfl⟩, z', hz, rfl, rfl⟩
        have : y = 105 := by rw [byteAt_yes] at hz; simpa using hz
        rw [digitOf_eq hxd]
        exact ⟨h1, h2, hxd, this, rfl⟩
      · rintro ⟨h1, h2, hxd, rfl, rfl⟩
        refine ⟨by omega, h1, h2, _, ⟨hxd, rfl⟩, 105, rfl, rfl, ?_⟩
        rw [digitOf_eq hxd]
  constructor
  · intro h
    have hl := h
    unfold matchSunxi at hl
    obtain ⟨_, hl, _⟩ := bind_yes.mp hl
    rw [need_yes, decide_eq_true_eq] at hl
    obtain ⟨a, s1, rfl, hl1⟩ := cons_of_le hl
    obtain ⟨b, s2, rfl, hl2⟩ := cons_of_le hl1
    obtain ⟨c, s3, rfl, hl3⟩ := cons_of_le hl2
    obtain ⟨x, s4, rfl, hl4⟩ := cons_of_le hl3
    obtain ⟨y, t, rfl, hl5⟩ := cons_of_le hl4
    obtain ⟨⟨rfl, rfl, rfl⟩, hx, ⟨rfl, hr⟩ | ⟨hy, ⟨u, rfl⟩, hr⟩⟩ := (key hs).mp h
    · have h1 := sunxi_table.mp hr
      exact ⟨[x], t, x - 48, rfl, .inl (number_one.mpr ⟨hx, rfl⟩), h1⟩
    · have h1 := sunxi_table.mp hr
      exact ⟨[x, y], u, _, rfl, .inr (number_two.mpr ⟨hx, hy, rfl⟩), h1⟩
  · rintro ⟨d, t, n, rfl, hd | hd, h⟩
    · match d, hd.1 with
      | [x], _ =>
        obtain ⟨hx, rfl⟩ := number_one.mp hd
        simp only [List.cons_append, List.nil_append] at hs ⊢
        exact (key hs).mpr ⟨by decide, hx, .inl ⟨rfl, sunxi_table.mpr h⟩⟩
    · match d, hd.1 with
      | [x, y], _ =>
        obtain ⟨hx, hy, rfl⟩ := number_two.mp hd
        simp only [List.cons_append, List.nil_append] at hs ⊢
        exact (key hs).mpr ⟨by decide, hx, .inr ⟨hy, ⟨t, rfl⟩, sunxi_table.mpr h⟩⟩

/-! ## WonderMedia, Telechips, Tegra -/

theorem wmt_iff {s : Bytes} {cores freq : Nat} {r : Chipset} (hs : IsBytes s) :
    matchWmt s cores freq = .yes r ↔ Wmt s cores freq r := by
  have e : wmtModel cores freq =
      if cores = 1 ∧ freq = 1008000 then 8950 else if cores = 1 ∧ freq = 1200000 then 8850
        else if cores = 2 ∧ freq = 1500000 then 8880 else 0 := by
    unfold wmtModel
    by_cases h1 : cores = 1
    · subst h1; simp
    · by_cases h2 : cores = 2
      · subst h2; simp
      · simp [h1, h2]
  unfold Wmt
  rw [← e]
  constructor
  · intro h
    have hl := h
    unfold matchWmt at hl
    obtain ⟨_, hl, _⟩ := bind_yes.mp hl
    rw [need_yes, beq_iff_eq] at hl
    match s, hl with
    | [a, b, c], _ =>
      obtain ⟨ha, hs1⟩ := bytes_cons hs
      obtain ⟨hb, hs2⟩ := bytes_cons hs1
      obtain ⟨hc, hs3⟩ := bytes_cons hs2
      revert h
      unfold matchWmt
      match_simp [load16_cons hb, List.length_nil]
      rintro ⟨rfl, h, rfl⟩
      have : b = 77 ∧ c = 84 := by omega
      obtain ⟨rfl, rfl⟩ := this
      exact ⟨rfl, rfl⟩
  · rintro ⟨rfl, rfl⟩
    rfl

theorem tcc_iff {s : Bytes} {r : Chipset} (hs : IsBytes s) : matchTcc s = .yes r ↔ Tcc s r := by
  have key : ∀ {a b c x y z w : Byte}, IsBytes [a, b, c, x, y, z, w] →
      (matchTcc [a, b, c, x, y, z, w] = .yes r ↔ (a = 116 ∧ b = 99 ∧ c = 99) ∧ w = 120 ∧
        ∃ v, IsNumber 3 [x, y, z] v ∧ chip .telechips .telechipsTcc v [88] = r) := by
    intro a b c x y z w hs
    obtain ⟨ha, hs1⟩ := bytes_cons hs
    obtain ⟨hb, hs2⟩ := bytes_cons hs1
    obtain ⟨hc, hs3⟩ := bytes_cons hs2
    have hd : ∀ v, parseDigits [x, y, z, w] 0 3 0 = .yes v ↔ IsNumber 3 [x, y, z] v := by
      intro v
      rw [digits_iff hs3 (by omega)]
      constructor
      · rintro ⟨d, t, e, hd⟩
        match d, hd.1 with
        | [x', y', z'], _ =>
          simp only [List.cons_append, List.nil_append, List.cons.injEq] at e
          obtain ⟨rfl, rfl, rfl, _⟩ := e
          exact hd
      · exact fun h => ⟨[x, y, z], [w], rfl, h⟩
    unfold matchTcc
    match_simp [load16_cons hb, List.length_nil, hd]
    constructor
    · rintro ⟨rfl, h1, v, hv, rfl, rfl⟩; exact ⟨by omega, rfl, v, hv, rfl⟩
    · rintro ⟨⟨rfl, rfl, rfl⟩, rfl, v, hv, rfl⟩; exact ⟨rfl, by omega, v, hv, rfl, rfl⟩
  constructor
  · intro h
    have hl := h
    unfold matchTcc at hl
    obtain ⟨_, hl, _⟩ := bind_yes.mp hl
    rw [need_yes, beq_iff_eq] at hl
    match s, hl with
    | [a, b, c, x, y, z, w], _ =>
      obtain ⟨⟨rfl, rfl, rfl⟩, rfl, v, hv, rfl⟩ := (key hs).mp h
      exact ⟨[x, y, z], v, rfl, hv, rfl⟩
  · rintro ⟨d, v, rfl, hd, rfl⟩
    match d, hd.1 with
    | [x, y, z], _ =>
      simp only [List.cons_append, List.nil_append] at hs ⊢
      exact (key hs).mpr ⟨by decide, rfl, v, hd, rfl⟩

theorem tegra_iff {s : Bytes} (hs : IsBytes s) : isTegra s = .yes () ↔ Tegra s := by
  constructor
  · intro h
    have hl := h
    unfold isTegra at hl
    obtain ⟨_, hl, _⟩ := bind_yes.mp hl
    simp only [need_yes, beq_iff_eq, Bool.or_eq_true] at hl
    obtain ⟨a, s1, rfl, hl1⟩ := cons_of_le (n := 4) (s := s) (by omega)
    obtain ⟨b, s2, rfl, hl2⟩ := cons_of_le hl1
    obtain ⟨c, s3, rfl, hl3⟩ := cons_of_le hl2
    obtain ⟨d, s4, rfl, hl4⟩ := cons_of_le hl3
    obtain ⟨e, t, rfl, hl5⟩ := cons_of_le hl4
    obtain ⟨ha, hs1⟩ := bytes_cons hs
    obtain ⟨hb, hs2⟩ := bytes_cons hs1
    obtain ⟨hc, hs3⟩ := bytes_cons hs2
    obtain ⟨hd, hs4⟩ := bytes_cons hs3
    obtain ⟨he, hs5⟩ := bytes_cons hs4
    have hw : b + 256 * (c + 256 * (d + 256 * e)) = 0x61726765 →
        b = 101 ∧ c = 103 ∧ d = 114 ∧ e = 97 := by omega
    match t, hl with
    | [], _ =>
      revert h
      unfold isTegra
      match_simp [load32_cons hb hc hd, List.length_nil, Nat.reduceEqDiff]
      rintro ⟨rfl, h⟩
      obtain ⟨rfl, rfl, rfl, rfl⟩ := hw h
      exact .inl rfl
    | [x], _ =>
      revert h
      unfold isTegra
      match_simp [load32_cons hb hc hd, List.length_nil, Nat.reduceEqDiff, or_true]
      rintro ⟨rfl, h, rfl⟩
      obtain ⟨rfl, rfl, rfl, rfl⟩ := hw h
      exact .inr rfl
    | x :: y :: t, hl => simp only [List.length_cons] at hl; omega
  · rintro (rfl | rfl) <;> rfl

/-! ## Huawei -/

theorem huawei_table {a b c : Byte} (ha : a < 256) (hb : b < 256) {m : Nat} :
    (huaweiModel (a + 256 * (b + 256 * c)) = m ∧ m ≠ 0) ↔ ([a, b, c], m) ∈ huaweiPlatforms := by
  have hmap : huaweiEntries = huaweiPlatforms.map fun r =>
      ((r.1.getD 0 0) + 256 * (r.1.getD 1 0 + 256 * r.1.getD 2 0), r.2) := by decide
  have hlen : ∀ r ∈ huaweiPlatforms, r.1.length = 3 ∧ (∀ x ∈ r.1, x < 256) ∧ r.2 ≠ 0 := by decide
  have huniq : ∀ r ∈ huaweiPlatforms, ∀ q ∈ huaweiPlatforms, r.1 = q.1 → r = q := by decide +kernel
  have hword : ∀ r ∈ huaweiPlatforms,
      (r.1.getD 0 0) + 256 * (r.1.getD 1 0 + 256 * r.1.getD 2 0) = a + 256 * (b + 256 * c) ↔
        r.1 = [a, b, c] := by
    rintro ⟨n, m⟩ hr
    obtain ⟨h3, hx, _⟩ := hlen _ hr
    match n, h3 with
    | [x, y, z], _ =>
      have h1 := hx x (by simp)
      have h2 := hx y (by simp)
      have h3 := hx z (by simp)
      simp only [List.getD_cons_zero, List.getD_cons_succ, List.cons.injEq, and_true]
      omega
  unfold huaweiModel
  rw [hmap]
  split
  · rename_i e he
    have hm := List.mem_of_find?_eq_some he
    have hp := List.find?_some he
    obtain ⟨q, hq, rfl⟩ := List.mem_map.mp hm
    rw [beq_iff_eq, hword q hq] at hp
    constructor
    · rintro ⟨rfl, _⟩; rw [← hp]; exact hq
    · intro h
      have := huniq _ h q hq hp.symm
      rw [← this]
      exact ⟨rfl, (hlen _ h).2.2⟩
  · rename_i he
    constructor
    · rintro ⟨rfl, h⟩; exact absurd rfl h
    · intro h
      have := List.find?_eq_none.mp he _ (List.mem_map.mpr ⟨_, h, rfl⟩)
      rw [beq_iff_eq, hword _ h] at this
      exact absurd rfl this

theorem huawei_iff {s : Bytes} {r : Chipset} (hs : IsBytes s) :
    matchHuawei s = .yes r ↔ Huawei s r := by
  have key : ∀ {a b c : Byte} {t : Bytes}, IsBytes (a :: b :: c :: t) →
      (matchHuawei (a :: b :: c :: t) = .yes r ↔ ∃ m, ([a, b, c], m) ∈ huaweiPlatforms ∧
        (t = [] ∨ ∃ u x y, t = b!"-" ++ u ++ b!"L" ++ [x, y] ∧ u.length ≤ 1 ∧
          (∀ v ∈ u, 65 ≤ v ∧ v ≤ 90) ∧ Digit x ∧ Digit y) ∧
        chip .hisilicon .hisiliconKirin m [] = r) := by
    intro a b c t hs
    obtain ⟨ha, hs1⟩ := bytes_cons hs
    obtain ⟨hb, hs2⟩ := bytes_cons hs1
    obtain ⟨hc, hs3⟩ := bytes_cons hs2
    have htab := fun m => huawei_table ha hb (c := c) (m := m)
    have hbad : ∀ {t : Bytes}, t.length ≠ 0 → t.length ≠ 4 → t.length ≠ 5 →
        (matchHuawei (a :: b :: c :: t) = .yes r ↔ ∃ m, ([a, b, c], m) ∈ huaweiPlatforms ∧
        (t = [] ∨ ∃ u x y, t = b!"-" ++ u ++ b!"L" ++ [x, y] ∧ u.length ≤ 1 ∧
          (∀ v ∈ u, 65 ≤ v ∧ v ≤ 90) ∧ Digit x ∧ Digit y) ∧
        chip .hisilicon .hisiliconKirin m [] = r) := by
      intro t h0 h4 h5
      constructor
      · intro h
        unfold matchHuawei at h
        obtain ⟨_, hl, _⟩ := bind_yes.mp h
        simp only [need_yes, beq_iff_eq, Bool.or_eq_true, List.length_cons] at hl
        omega
      · rintro ⟨m, _, rfl | ⟨u, x, y, rfl, hu, _⟩, _⟩
        · exact absurd rfl h0
        · simp only [List.length_append, List.length_cons, List.length_nil] at h4 h5
          omega
    match t, hs3 with
    | [], _ =>
      unfold matchHuawei huaweiRest
      match_simp [load24_cons ha hb, List.length_nil, bne_iff_ne, Nat.reduceLT, Nat.lt_irrefl]
      constructor
      · rintro ⟨h1, rfl⟩; exact ⟨_, (htab _).mp ⟨rfl, h1⟩, rfl⟩
      · rintro ⟨m, h1, rfl⟩
        obtain ⟨rfl, h2⟩ := (htab m).mpr h1
        exact ⟨h2, rfl⟩
    | [x0, x1, x2, x3], hs3 =>
      have h1 := hs3 x1 (by simp)
      have h2 := hs3 x2 (by simp)
      have h3 := hs3 x3 (by simp)
      unfold matchHuawei huaweiRest
      match_simp [load24_cons ha hb, List.length_nil, bne_iff_ne, Nat.reduceLT, Nat.reduceEqDiff,
        or_true, Nat.reduceSub, uppercase_iff h1, numeric_iff h2, numeric_iff h3, reduceCtorEq]
      constructor
      · rintro ⟨h0, ⟨rfl, _, rfl, h4, h5⟩, rfl⟩
        exact ⟨_, (htab _).mp ⟨rfl, h0⟩, ⟨[], x2, x3, rfl, by simp, by simp, h4, h5⟩, rfl⟩
      · rintro ⟨m, h1, ⟨u, x, y, e, hu, _, h4, h5⟩, rfl⟩
        obtain ⟨rfl, h2⟩ := (htab m).mpr h1
        match u, hu with
        | [], _ =>
          simp only [List.cons_append, List.nil_append, List.cons.injEq, and_true] at e
          obtain ⟨rfl, rfl, rfl, rfl⟩ := e
          exact ⟨h2, ⟨rfl, by omega, rfl, h4, h5⟩, rfl⟩
        | [w], _ => simp at e
    | [x0, x1, x2, x3, x4], hs3 =>
      have h1 := hs3 x1 (by simp)
      have h2 := hs3 x3 (by simp)
      have h3 := hs3 x4 (by simp)
      unfold matchHuawei huaweiRest
      match_simp [load24_cons ha hb, List.length_nil, bne_iff_ne, Nat.reduceLT, Nat.reduceEqDiff,
        or_true, Nat.reduceSub, uppercase_iff h1, numeric_iff h2, numeric_iff h3, reduceCtorEq]
      constructor
      · rintro ⟨h0, ⟨rfl, h3, rfl, h4, h5⟩, rfl⟩
        exact ⟨_, (htab _).mp ⟨rfl, h0⟩,
          ⟨[x1], x3, x4, rfl, by simp, by simpa using h3, h4, h5⟩, rfl⟩
      · rintro ⟨m, h1, ⟨u, x, y, e, hu, h3, h4, h5⟩, rfl⟩
        obtain ⟨rfl, h2⟩ := (htab m).mpr h1
        match u, hu with
        | [], _ => simp at e
        | [w], _ =>
          simp only [List.cons_append, List.nil_append, List.cons.injEq, and_true] at e
          obtain ⟨rfl, rfl, rfl, rfl, rfl⟩ := e
          exact ⟨h2, ⟨rfl, h3 _ (by simp), rfl, h4, h5⟩, rfl⟩
    | [x0], _ => exact hbad (by simp) (by simp) (by simp)
    | [x0, x1], _ => exact hbad (by simp) (by simp) (by simp)
    | [x0, x1, x2], _ => exact hbad (by simp) (by simp) (by simp)
    | x0 :: x1 :: x2 :: x3 :: x4 :: x5 :: t, _ => exact hbad (by simp) (by simp) (by simp)
  constructor
  · intro h
    have hl := h
    unfold matchHuawei at hl
    obtain ⟨_, hl, _⟩ := bind_yes.mp hl
    simp only [need_yes, beq_iff_eq, Bool.or_eq_true] at hl
    obtain ⟨a, s1, rfl, hl1⟩ := cons_of_le (n := 2) (s := s) (by omega)
    obtain ⟨b, s2, rfl, hl2⟩ := cons_of_le hl1
    obtain ⟨c, s3, rfl, hl3⟩ := cons_of_le hl2
    obtain ⟨m, hm, ht, rfl⟩ := (key hs).mp h
    exact ⟨_, hm, s3, rfl, ht, rfl⟩
  · rintro ⟨⟨n, m⟩, hr, t, rfl, ht, rfl⟩
    have hlen : ∀ r ∈ huaweiPlatforms, r.1.length = 3 := by decide
    match n, hlen _ hr with
    | [a, b, c], _ => exact (key hs).mpr ⟨m, hr, ht, rfl⟩

end Verif.ArmChipset
