import Verif.Proof.ChipsetExactMore

/-!
# Every signature matches exactly its pattern: MediaTek and after
-/

set_option autoImplicit false

namespace Verif.ArmChipset
open Spec.Chipsets

theorem spells_length {p w : Bytes} (h : Spells p w) : p.length = w.length := by
  unfold Spells at h; simpa using congrArg List.length h

/-! ## MediaTek -/

/-- What follows the letters of an MT name. -/
def mtTail (e : Bool) (t : Bytes) (r : Chipset) : Prop :=
  ∃ d u v, t = d ++ u ∧ IsNumber 4 d v ∧
    if e then u.length ≤ 8 ∧ (∀ x ∈ u, Letter x ∨ x = 47) ∧
      chip .mediatek .mediatekMt v (u.map upper) = r
    else chip .mediatek .mediatekMt v (suffixOf 47 u) = r

theorem mt_tail {e : Bool} {t : Bytes} {r : Chipset} (hs : IsBytes t) :
    (∃ v, parseDigits t 0 4 0 = .yes v ∧
      (if e = true then (do
          need (decide (t.length - 4 ≤ 8))
          let suffix ← parseWholeSuffix t 4 (t.length - 4)
          pure (chip .mediatek .mediatekMt v suffix))
        else (do
          let suffix ← parseSuffix 47 t 4 8
          pure (chip .mediatek .mediatekMt v suffix)) : Match Chipset) = .yes r) ↔
      mtTail e t r := by
  have hw : ∀ {d u : Bytes} {v : Nat}, IsNumber 4 d v → (d ++ u).length - 4 = u.length := by
    intro d u v hd
    have := hd.1
    rw [List.length_append]; omega
  unfold mtTail
  cases e
  · simp only [Bool.false_eq_true, if_false, bind_yes, pure_yes]
    exact number_suffix (P := fun v w => chip .mediatek .mediatekMt v w = r) (by omega) (by decide) hs
  · simp only [if_true, bind_yes, pure_yes, need_yes, decide_eq_true_eq]
    constructor
    · rintro ⟨v, hv, _, hl, w, hw', rfl⟩
      obtain ⟨d, u, rfl, hd⟩ := (digits_iff hs (by omega)).mp hv
      rw [hw hd] at hl hw'
      rw [wholeSuffix_skip hd.1] at hw'
      obtain ⟨h1, rfl⟩ := (wholeSuffix_iff (bytes_append hs).2 rfl).mp hw'
      exact ⟨d, u, v, rfl, hd, hl, h1, rfl⟩
    · rintro ⟨d, u, v, rfl, hd, hl, h1, rfl⟩
      refine ⟨v, digits_start (bytes_append hs).2 (by omega) hd, (), by rw [hw hd]; exact hl, _, ?_,
        rfl⟩
      rw [hw hd, wholeSuffix_skip hd.1]
      exact (wholeSuffix_iff (bytes_append hs).2 rfl).mpr ⟨h1, rfl⟩

theorem mt_cons {e : Bool} {a b x : Byte} {t : Bytes} {r : Chipset}
    (hs : IsBytes (a :: b :: x :: t)) :
    matchMt (a :: b :: x :: t) e = .yes r ↔ Spells [a, b] b!"mt" ∧
      mtTail e (if lower x = 107 then t else x :: t) r := by
  obtain ⟨ha, hs2⟩ := bytes_cons hs
  obtain ⟨hb, hs1⟩ := bytes_cons hs2
  obtain ⟨hx, hs0⟩ := bytes_cons hs1
  have e1 := fold16 (k := 109) (l := 116) ha hb (by decide) (by decide)
  simp only [Nat.reduceMul, Nat.reduceAdd] at e1
  have e2 : ∀ {t : Bytes}, mtTail e t r → 4 ≤ t.length := by
    rintro t ⟨d, u, v, rfl, hd, _⟩
    have := hd.1
    rw [List.length_append]; omega
  have e3 : Spells [a, b] b!"mt" ↔ lower a = 109 ∧ lower b = 116 := by simp [Spells]
  rw [e3]
  unfold matchMt
  by_cases h : lower x = 107
  · rw [if_pos h, ← mt_tail hs0]
    rw [← fold_case hx (by decide)] at h
    have e5 : t.length + 1 + 1 + 1 - 7 = t.length - 4 := by omega
    match_simp [load16_cons ha, e1, h, e5]
    constructor
    · rintro ⟨_, h1, _, h2⟩; exact ⟨h1, h2⟩
    · rintro ⟨h1, h2⟩
      have := e2 ((mt_tail hs0).mp h2)
      exact ⟨by omega, h1, by omega, h2⟩
  · rw [if_neg h, ← mt_tail hs1]
    rw [← fold_case hx (by decide)] at h
    have e5 : t.length + 1 + 1 + 1 - 6 = t.length + 1 - 4 := by omega
    match_simp [load16_cons ha, e1, h, e5]
    constructor
    · rintro ⟨_, h1, h2⟩; exact ⟨h1, h2⟩
    · rintro ⟨h1, h2⟩
      refine ⟨?_, h1, h2⟩
      obtain ⟨v, hv, _⟩ := h2
      obtain ⟨d, u, h3, hd⟩ := (digits_iff hs1 (by omega)).mp hv
      have h5 := hd.1
      have h6 := congrArg List.length h3
      simp only [List.length_cons, List.length_append] at h6
      omega

theorem mt_iff {e : Bool} {s : Bytes} {r : Chipset} (hs : IsBytes s) :
    matchMt s e = .yes r ↔ ∃ p k t, s = p ++ k ++ t ∧ Spells p b!"mt" ∧
      (k = [] ∨ Spells k b!"k") ∧ mtTail e t r := by
  constructor
  · intro h
    have hl := h
    unfold matchMt at hl
    obtain ⟨_, hl, _⟩ := bind_yes.mp hl
    rw [need_yes, decide_eq_true_eq] at hl
    obtain ⟨a, s1, rfl, hl1⟩ := cons_of_le hl
    obtain ⟨b, s2, rfl, hl2⟩ := cons_of_le hl1
    obtain ⟨x, s3, rfl, hl3⟩ := cons_of_le hl2
    obtain ⟨h1, h2⟩ := (mt_cons hs).mp h
    split at h2
    · rename_i hx
      exact ⟨[a, b], [x], s3, rfl, h1, .inr (by simp [Spells, hx]), h2⟩
    · exact ⟨[a, b], [], x :: s3, rfl, h1, .inl rfl, h2⟩
  · rintro ⟨p, k, t, rfl, hp, hk, ht⟩
    match p, spells_length hp with
    | [a, b], _ =>
      rcases hk with rfl | hk
      · obtain ⟨d, u, v, rfl, hd, h⟩ := id ht
        obtain ⟨x, d', rfl, hx⟩ := number_head (k := 107) (by omega) hd (by unfold Digit; omega)
        have hx : lower x ≠ 107 := by
          have := hd.2.1 x (by simp)
          unfold Digit at this; unfold lower; split <;> omega
        simp only [List.cons_append, List.nil_append] at hs ht ⊢
        rw [mt_cons hs, if_neg hx]
        exact ⟨hp, ht⟩
      · match k, spells_length hk with
        | [x], _ =>
          simp only [List.cons_append, List.nil_append] at hs ⊢
          rw [mt_cons hs, if_pos (by simpa [Spells] using hk)]
          exact ⟨hp, ht⟩

theorem mtWhole_iff {s : Bytes} {r : Chipset} (hs : IsBytes s) :
    matchMt s true = .yes r ↔ MtWhole s r := by
  rw [mt_iff hs]
  constructor
  · rintro ⟨p, k, t, rfl, hp, hk, d, u, v, rfl, hd, h1, h2, rfl⟩
    exact ⟨p, k, d, u, v, by simp, hp, hk, hd, h1, h2, rfl⟩
  · rintro ⟨p, k, d, u, v, rfl, hp, hk, hd, h1, h2, rfl⟩
    exact ⟨p, k, d ++ u, by simp, hp, hk, d, u, v, rfl, hd, h1, h2, rfl⟩

theorem mtPrefix_iff {s : Bytes} {r : Chipset} (hs : IsBytes s) :
    matchMt s false = .yes r ↔ MtPrefix s r := by
  rw [mt_iff hs]
  constructor
  · rintro ⟨p, k, t, rfl, hp, hk, d, u, v, rfl, hd, rfl⟩
    exact ⟨p, k, d, u, v, by simp, hp, hk, hd, rfl⟩
  · rintro ⟨p, k, d, u, v, rfl, hp, hk, hd, rfl⟩
    exact ⟨p, k, d ++ u, by simp, hp, hk, d, u, v, rfl, hd, rfl⟩

/-! ## HiSilicon Kirin -/

theorem white_iff {c : Byte} : isWhitespace c = true ↔ White c := by
  simp [isWhitespace, White, or_assoc]

theorem kirin_iff {s : Bytes} {r : Chipset} (hs : IsBytes s) :
    matchKirin s = .yes r ↔ KirinActual s r := by
  have key : ∀ {a b c d e : Byte} {t : Bytes}, IsBytes (a :: b :: c :: d :: e :: t) →
      (matchKirin (a :: b :: c :: d :: e :: t) = .yes r ↔
        lower a = 107 ∧ (b = 105 ∧ c = 114 ∧ d = 105 ∧ e = 110) ∧
        ∃ x u v, t = x ++ u ∧ x.length ≤ 1 ∧ IsNumber 3 u v ∧
          chip .hisilicon .hisiliconKirin v [] = r) := by
    intro a b c d e t hs
    obtain ⟨ha, hs1⟩ := bytes_cons hs
    obtain ⟨hb, hs2⟩ := bytes_cons hs1
    obtain ⟨hc, hs3⟩ := bytes_cons hs2
    obtain ⟨hd, hs4⟩ := bytes_cons hs3
    obtain ⟨he, hs5⟩ := bytes_cons hs4
    by_cases h3 : t.length = 3
    · match t, h3 with
      | [x, y, z], h3 =>
        unfold matchKirin
        match_simp [load32_cons hb hc hd, fold_case (k := 107) ha (by decide), List.length_nil,
          Nat.reduceBEq, Bool.or_false, Bool.not_eq_true', Nat.reduceSub,
          digits_all hs5 (by omega) h3]
        have hw : ∀ {v}, IsNumber 3 [x, y, z] v → isWhitespace x = false := by
          intro v hv
          have := hv.2.1 x (by simp)
          unfold Digit at this
          simp [isWhitespace]; omega
        constructor
        · rintro ⟨h1, h2, h3, v, hv, rfl⟩
          exact ⟨h1, by omega, [], [x, y, z], v, rfl, by simp, hv, rfl⟩
        · rintro ⟨h1, ⟨rfl, rfl, rfl, rfl⟩, w, u, v, e, hw', hv, rfl⟩
          have hlen := congrArg List.length e
          have h4 := hv.1
          rw [List.length_append] at hlen
          simp only [List.length_cons, List.length_nil] at hlen
          have : w = [] := List.length_eq_zero_iff.mp (by omega)
          subst this
          rw [List.nil_append] at e
          subst e
          exact ⟨h1, by omega, hw hv, v, hv, rfl⟩
    · by_cases h4 : t.length = 4
      · match t, h4 with
        | [x, y, z, w], h4 =>
          obtain ⟨hx, hs6⟩ := bytes_cons hs5
          unfold matchKirin
          match_simp [load32_cons hb hc hd, fold_case (k := 107) ha (by decide), List.length_nil,
            Nat.reduceBEq, Bool.or_true, Nat.reduceSub, Nat.reduceEqDiff, or_true,
            digits_all (n := 3) hs6 (by omega) rfl]
          constructor
          · rintro ⟨h1, h2, v, hv, rfl⟩
            exact ⟨h1, by omega, [x], [y, z, w], v, rfl, by simp, hv, rfl⟩
          · rintro ⟨h1, ⟨rfl, rfl, rfl, rfl⟩, k, u, v, e, hw', hv, rfl⟩
            have hlen := congrArg List.length e
            have h4 := hv.1
            rw [List.length_append] at hlen
            simp only [List.length_cons, List.length_nil] at hlen
            match k, (by omega : k.length = 1) with
            | [k], _ =>
              simp only [List.cons_append, List.nil_append, List.cons.injEq] at e
              obtain ⟨rfl, rfl⟩ := e
              exact ⟨h1, by omega, v, hv, rfl⟩
      · constructor
        · intro h
          unfold matchKirin at h
          obtain ⟨_, hl, _⟩ := bind_yes.mp h
          simp only [need_yes, beq_iff_eq, Bool.or_eq_true, List.length_cons] at hl
          omega
        · rintro ⟨_, _, k, u, v, rfl, hk, hv, _⟩
          have := hv.1
          rw [List.length_append] at h3 h4
          omega
  constructor
  · intro h
    have hl := h
    unfold matchKirin at hl
    obtain ⟨_, hl, _⟩ := bind_yes.mp hl
    simp only [need_yes, beq_iff_eq, Bool.or_eq_true] at hl
    obtain ⟨a, s1, rfl, hl1⟩ := cons_of_le (n := 7) (s := s) (by omega)
    obtain ⟨b, s2, rfl, hl2⟩ := cons_of_le hl1
    obtain ⟨c, s3, rfl, hl3⟩ := cons_of_le hl2
    obtain ⟨d, s4, rfl, hl4⟩ := cons_of_le hl3
    obtain ⟨e, s5, rfl, hl5⟩ := cons_of_le hl4
    obtain ⟨h1, ⟨rfl, rfl, rfl, rfl⟩, x, u, v, rfl, hx, hv, rfl⟩ := (key hs).mp h
    exact ⟨[a], x, u, v, rfl, by simp [Spells, h1], hx, hv, rfl⟩
  · rintro ⟨k, x, d, n, rfl, hk, hx, hd, rfl⟩
    match k, spells_length hk with
    | [a], _ =>
      simp only [List.cons_append, List.nil_append] at hs ⊢
      exact (key hs).mpr ⟨by simpa [Spells] using hk, by decide, x, d, n, rfl, hx, hd, rfl⟩

/-- The pattern of the comment is accepted. -/
theorem kirin_accepts {s : Bytes} {r : Chipset} (h : Kirin s r) : KirinActual s r := by
  obtain ⟨k, sp, d, n, rfl, hk, hsp, hd, rfl⟩ := h
  refine ⟨k, sp, d, n, rfl, hk, ?_, hd, rfl⟩
  rcases hsp with rfl | ⟨w, rfl, _⟩ <;> simp

/-! ## Rockchip and Leadcore -/

/-- A number and at most one letter. -/
theorem number_letter {t : Bytes} {P : Nat → Bytes → Prop} (hs : IsBytes t) :
    (t.length = 4 ∨ t.length = 5) ∧ (∃ v, parseDigits t 0 4 0 = .yes v ∧
      ((t.length = 4 ∧ P v []) ∨ (t.length = 5 ∧ ∃ c, byteAt t 4 = .yes c ∧
        isAlphabetic c = true ∧ P v [c &&& 0xDF]))) ↔
      ∃ d u v, t = d ++ u ∧ IsNumber 4 d v ∧ u.length ≤ 1 ∧ (∀ x ∈ u, Letter x) ∧
        P v (u.map upper) := by
  constructor
  · rintro ⟨_, v, hv, h⟩
    obtain ⟨d, u, rfl, hd⟩ := (digits_iff hs (by omega)).mp hv
    have h4 := hd.1
    rw [List.length_append] at h
    rcases h with ⟨hl, hp⟩ | ⟨hl, c, hc, hal, hp⟩
    · have : u = [] := List.length_eq_zero_iff.mp (by omega)
      subst this
      exact ⟨d, [], v, rfl, hd, by simp, by simp, hp⟩
    · match u, (by omega : u.length = 1) with
      | [x], _ =>
        have e : byteAt (d ++ [x]) (4 + 0) = byteAt [x] 0 := byteAt_skip h4 0
        rw [Nat.add_zero, hc, byteAt_zero] at e
        cases e
        have hx := (alphabetic_iff ((bytes_append hs).2 c (by simp))).mp hal
        exact ⟨d, [c], v, rfl, hd, by simp, by simpa using hx, by simpa [upper_letter hx] using hp⟩
  · rintro ⟨d, u, v, rfl, hd, hu, hx, hp⟩
    have h4 := hd.1
    have hv := digits_start (bytes_append hs).2 (by omega) hd
    rw [List.length_append]
    match u, hu with
    | [], _ => exact ⟨.inl (by simpa using h4), v, hv, .inl ⟨by simpa using h4, hp⟩⟩
    | [x], _ =>
      have hx : Letter x := hx x (by simp)
      refine ⟨.inr (by simpa using h4), v, hv, .inr ⟨by simpa using h4, x, ?_, ?_, ?_⟩⟩
      · exact byteAt_skip h4 0
      · exact (alphabetic_iff ((bytes_append hs).2 x (by simp))).mpr hx
      · rw [upper_letter hx]; exact hp

theorem rk_iff {s : Bytes} {r : Chipset} (hs : IsBytes s) : matchRk s = .yes r ↔ Rk s r := by
  have key : ∀ {a b : Byte} {t : Bytes}, IsBytes (a :: b :: t) →
      (matchRk (a :: b :: t) = .yes r ↔ Spells [a, b] b!"rk" ∧
        ∃ d u v, t = d ++ u ∧ IsNumber 4 d v ∧ u.length ≤ 1 ∧ (∀ x ∈ u, Letter x) ∧
          chip .rockchip .rockchipRk v (u.map upper) = r) := by
    intro a b t hs
    obtain ⟨ha, hs1⟩ := bytes_cons hs
    obtain ⟨hb, hs0⟩ := bytes_cons hs1
    have e1 := fold16 (k := 114) (l := 107) ha hb (by decide) (by decide)
    simp only [Nat.reduceMul, Nat.reduceAdd] at e1
    have e2 : Spells [a, b] b!"rk" ↔ lower a = 114 ∧ lower b = 107 := by simp [Spells]
    rw [← number_letter (P := fun v w => chip .rockchip .rockchipRk v w = r) hs0, e2]
    unfold matchRk suffixLetter
    by_cases h5 : t.length = 5
    · match_simp [load16_cons ha, e1, h5, Nat.reduceEqDiff, or_true]
      constructor
      · rintro ⟨h1, v, hv, _, ⟨c, hc, hal, rfl⟩, rfl⟩
        exact ⟨h1, v, hv, .inr ⟨c, hc, hal, rfl⟩⟩
      · rintro ⟨h1, v, hv, h⟩
        rcases h with h | ⟨c, hc, hal, rfl⟩
        · simp at h
        · exact ⟨h1, v, hv, _, ⟨c, hc, hal, rfl⟩, rfl⟩
    · have h6 : ¬ t.length + 1 + 1 = 7 := by omega
      match_simp [load16_cons ha, e1, h5, h6, or_false, false_and]
      constructor
      · rintro ⟨hl, h1, v, hv, rfl⟩
        exact ⟨h1, by omega, v, hv, by omega, rfl⟩
      · rintro ⟨h1, hl, v, hv, _, rfl⟩
        exact ⟨by omega, h1, v, hv, rfl⟩
  constructor
  · intro h
    have hl := h
    unfold matchRk at hl
    obtain ⟨_, hl, _⟩ := bind_yes.mp hl
    simp only [need_yes, beq_iff_eq, Bool.or_eq_true] at hl
    obtain ⟨a, s1, rfl, hl1⟩ := cons_of_le (n := 5) (s := s) (by omega)
    obtain ⟨b, s2, rfl, hl2⟩ := cons_of_le hl1
    obtain ⟨h1, d, u, v, rfl, hd, hu, hx, rfl⟩ := (key hs).mp h
    exact ⟨[a, b], d, u, v, rfl, h1, hd, hu, hx, rfl⟩
  · rintro ⟨p, d, u, v, rfl, hp, hd, hu, hx, rfl⟩
    match p, spells_length hp with
    | [a, b], _ =>
      simp only [List.cons_append, List.nil_append] at hs ⊢
      exact (key hs).mpr ⟨hp, d, u, v, rfl, hd, hu, hx, rfl⟩

theorem lc_iff {s : Bytes} {r : Chipset} (hs : IsBytes s) : matchLc s = .yes r ↔ LcActual s r := by
  have key : ∀ {a b : Byte} {t : Bytes}, IsBytes (a :: b :: t) →
      (matchLc (a :: b :: t) = .yes r ↔ (a = 108 ∧ b = 99) ∧
        ∃ d u v, t = d ++ u ∧ IsNumber 4 d v ∧ u.length ≤ 1 ∧ (∀ x ∈ u, Letter x) ∧
          chip .leadcore .leadcoreLc v [] = r) := by
    intro a b t hs
    obtain ⟨ha, hs1⟩ := bytes_cons hs
    obtain ⟨hb, hs0⟩ := bytes_cons hs1
    have e1 : a + 256 * b = 0x636C ↔ a = 108 ∧ b = 99 := by omega
    rw [← number_letter (P := fun v _ => chip .leadcore .leadcoreLc v [] = r) hs0]
    unfold matchLc lcLetter
    by_cases h5 : t.length = 5
    · match_simp [load16_cons ha, e1, h5, Nat.reduceEqDiff, or_true]
      constructor
      · rintro ⟨h1, v, hv, _, ⟨c, hc, hal, rfl⟩, rfl⟩
        exact ⟨h1, v, hv, .inr ⟨c, hc, hal, rfl⟩⟩
      · rintro ⟨h1, v, hv, h⟩
        rcases h with h | ⟨c, hc, hal, rfl⟩
        · simp at h
        · exact ⟨h1, v, hv, _, ⟨c, hc, hal, rfl⟩, rfl⟩
    · have h6 : ¬ t.length + 1 + 1 = 7 := by omega
      match_simp [load16_cons ha, e1, h5, h6, or_false, false_and]
      constructor
      · rintro ⟨hl, h1, v, hv, rfl⟩
        exact ⟨h1, by omega, v, hv, by omega, rfl⟩
      · rintro ⟨h1, hl, v, hv, _, rfl⟩
        exact ⟨by omega, h1, v, hv, rfl⟩
  constructor
  · intro h
    have hl := h
    unfold matchLc at hl
    obtain ⟨_, hl, _⟩ := bind_yes.mp hl
    simp only [need_yes, beq_iff_eq, Bool.or_eq_true] at hl
    obtain ⟨a, s1, rfl, hl1⟩ := cons_of_le (n := 5) (s := s) (by omega)
    obtain ⟨b, s2, rfl, hl2⟩ := cons_of_le hl1
    obtain ⟨⟨rfl, rfl⟩, d, u, v, rfl, hd, hu, hx, rfl⟩ := (key hs).mp h
    exact ⟨d, u, v, rfl, hd, hu, hx, rfl⟩
  · rintro ⟨d, u, v, rfl, hd, hu, hx, rfl⟩
    simp only [List.cons_append, List.nil_append] at hs ⊢
    exact (key hs).mpr ⟨by decide, d, u, v, rfl, hd, hu, hx, rfl⟩

/-! ## Spreadtrum and Unisoc -/

theorem sc_iff {s : Bytes} {r : Chipset} (hs : IsBytes s) : matchSc s = .yes r ↔ Sc s r := by
  have key : ∀ {a b x : Byte} {t : Bytes}, IsBytes (a :: b :: x :: t) →
      (matchSc (a :: b :: x :: t) = .yes r ↔
        (Spells [a, b] b!"sc" ∨ Spells [a, b] b!"sp") ∧
        if lower x = 120 then t = b!"15" ∧ chip .spreadtrum .spreadtrumSc 7715 [] = r
        else ∃ d u v, x :: t = d ++ u ∧ IsNumber 4 d v ∧ (∀ y ∈ u.take 8, Letter y) ∧
          chip .spreadtrum .spreadtrumSc v ((u.take 8).map upper) = r) := by
    intro a b x t hs
    obtain ⟨ha, hs2⟩ := bytes_cons hs
    obtain ⟨hb, hs1⟩ := bytes_cons hs2
    obtain ⟨hx, hs0⟩ := bytes_cons hs1
    have e1 := fold16 (k := 115) (l := 99) ha hb (by decide) (by decide)
    have e2 := fold16 (k := 115) (l := 112) ha hb (by decide) (by decide)
    simp only [Nat.reduceMul, Nat.reduceAdd] at e1 e2
    have e3 : Spells [a, b] b!"sc" ↔ lower a = 115 ∧ lower b = 99 := by simp [Spells]
    have e4 : Spells [a, b] b!"sp" ↔ lower a = 115 ∧ lower b = 112 := by simp [Spells]
    rw [e3, e4]
    unfold matchSc
    by_cases h : lower x = 120
    · have h' := (fold_case hx (by decide)).mpr h
      by_cases h2 : t.length = 2
      · match t, h2 with
        | [y, z], _ =>
          obtain ⟨hy, hs00⟩ := bytes_cons hs0
          have e5 : y + 256 * z = 0x3531 ↔ [y, z] = b!"15" := by
            simp only [List.cons.injEq, and_true]; omega
          match_simp [load16_cons ha, load16_cons hy, e1, e2, h, h', List.length_nil, e5,
            Nat.reduceLeDiff]
      · have h3 : ¬ (t.length + 1 + 1 + 1 = 5) := by omega
        match_simp [load16_cons ha, e1, e2, h, h', h3, false_and, and_false, false_iff, not_and]
        rintro _ rfl
        exact absurd rfl h2
    · have h' : ¬ (x ||| 32 = 120) := fun hh => h ((fold_case hx (by decide)).mp hh)
      match_simp [load16_cons ha, e1, e2, h, h']
      simp only [← parseLetters_succ x t]
      constructor
      · rintro ⟨_, h1, _, v, hv, w, hw, rfl⟩
        obtain ⟨d, u, e, hd⟩ := (digits_iff hs1 (by omega)).mp hv
        rw [e, letters_skip hd.1] at hw
        obtain ⟨h2, rfl⟩ := (letters_iff (bytes_append (e ▸ hs1)).2).mp hw
        exact ⟨h1, d, u, v, e, hd, h2, rfl⟩
      · rintro ⟨h1, d, u, v, e, hd, h2, rfl⟩
        have h5 := hd.1
        have h6 := congrArg List.length e
        simp only [List.length_cons, List.length_append] at h6
        refine ⟨by omega, h1, by omega, v, (digits_iff hs1 (by omega)).mpr ⟨d, u, e, hd⟩, _, ?_, rfl⟩
        rw [e, letters_skip h5]
        exact (letters_iff (bytes_append (e ▸ hs1)).2).mpr ⟨h2, rfl⟩
  constructor
  · intro h
    have hl := h
    unfold matchSc at hl
    obtain ⟨_, hl, _⟩ := bind_yes.mp hl
    rw [need_yes, decide_eq_true_eq] at hl
    obtain ⟨a, s1, rfl, hl1⟩ := cons_of_le hl
    obtain ⟨b, s2, rfl, hl2⟩ := cons_of_le hl1
    obtain ⟨x, s3, rfl, hl3⟩ := cons_of_le hl2
    obtain ⟨h1, h2⟩ := (key hs).mp h
    refine ⟨[a, b], h1, ?_⟩
    split at h2
    · rename_i hx
      obtain ⟨rfl, rfl⟩ := h2
      exact .inl ⟨[x], rfl, by simp [Spells, hx], rfl⟩
    · obtain ⟨d, u, v, e, hd, hu, rfl⟩ := h2
      exact .inr ⟨d, u, v, by rw [List.append_assoc, ← e]; rfl, hd, hu, rfl⟩
  · rintro ⟨p, hp, h⟩
    have hpl : p.length = 2 := by rcases hp with hp | hp <;> exact spells_length hp
    match p, hpl with
    | [a, b], _ =>
      rcases h with ⟨x, rfl, hx, rfl⟩ | ⟨d, u, v, rfl, hd, hu, rfl⟩
      · match x, spells_length hx with
        | [x], _ =>
          simp only [List.cons_append, List.nil_append] at hs ⊢
          rw [key hs, if_pos (by simpa [Spells] using hx)]
          exact ⟨hp, rfl, rfl⟩
      · obtain ⟨x, d', rfl, _⟩ := number_head (k := 120) (by omega) hd (by unfold Digit; omega)
        have hx : lower x ≠ 120 := by
          have := hd.2.1 x (by simp)
          unfold Digit at this; unfold lower; split <;> omega
        simp only [List.cons_append, List.nil_append] at hs ⊢
        rw [key hs, if_neg hx]
        exact ⟨hp, _, u, v, rfl, hd, hu, rfl⟩

theorem t_iff {s : Bytes} {r : Chipset} (hs : IsBytes s) : matchT s = .yes r ↔ UnisocT s r := by
  have key : ∀ {a0 a1 a2 a3 a4 a5 a6 a7 : Byte} {t : Bytes} {n : Nat},
      IsBytes (a0 :: a1 :: a2 :: a3 :: a4 :: a5 :: a6 :: a7 :: t) → t.length = n → n = 3 ∨ n = 4 →
      (matchT (a0 :: a1 :: a2 :: a3 :: a4 :: a5 :: a6 :: a7 :: t) = .yes r ↔
        [a0, a1, a2, a3, a4, a5, a6, a7] = b!"Unisoc T" ∧
        ∃ v, IsNumber n t v ∧ chip .unisoc .unisocT v [] = r) := by
    intro a0 a1 a2 a3 a4 a5 a6 a7 t n hs hl hn
    obtain ⟨ha0, hs⟩ := bytes_cons hs
    obtain ⟨ha1, hs⟩ := bytes_cons hs
    obtain ⟨ha2, hs⟩ := bytes_cons hs
    obtain ⟨ha3, hs⟩ := bytes_cons hs
    obtain ⟨ha4, hs⟩ := bytes_cons hs
    obtain ⟨ha5, hs⟩ := bytes_cons hs
    obtain ⟨ha6, hs⟩ := bytes_cons hs
    obtain ⟨ha7, hs⟩ := bytes_cons hs
    have e : ∀ {P : Prop}, ((a0 + 256 * (a1 + 256 * (a2 + 256 * a3)) = 0x73696E55 ∧
        a4 + 256 * (a5 + 256 * (a6 + 256 * a7)) = 0x5420636F ∧ P) ↔
        [a0, a1, a2, a3, a4, a5, a6, a7] = b!"Unisoc T" ∧ P) := by
      intro P
      rw [← and_assoc]
      refine and_congr_left fun _ => ?_
      simp only [List.cons.injEq, and_true]
      omega
    rw [← e]
    unfold matchT
    rcases hn with rfl | rfl
    · match_simp [load32_cons ha0 ha1 ha2, load32_cons ha4 ha5 ha6, hl, Nat.reduceSub,
        digits_all hs (by omega) hl]
    · match_simp [load32_cons ha0 ha1 ha2, load32_cons ha4 ha5 ha6, hl, Nat.reduceSub, or_true,
        digits_all hs (by omega) hl]
  constructor
  · intro h
    have hl := h
    unfold matchT at hl
    obtain ⟨_, hl, _⟩ := bind_yes.mp hl
    simp only [need_yes, beq_iff_eq, Bool.or_eq_true] at hl
    obtain ⟨a0, s1, rfl, hl1⟩ := cons_of_le (n := 10) (s := s) (by omega)
    obtain ⟨a1, s2, rfl, hl2⟩ := cons_of_le hl1
    obtain ⟨a2, s3, rfl, hl3⟩ := cons_of_le hl2
    obtain ⟨a3, s4, rfl, hl4⟩ := cons_of_le hl3
    obtain ⟨a4, s5, rfl, hl5⟩ := cons_of_le hl4
    obtain ⟨a5, s6, rfl, hl6⟩ := cons_of_le hl5
    obtain ⟨a6, s7, rfl, hl7⟩ := cons_of_le hl6
    obtain ⟨a7, s8, rfl, hl8⟩ := cons_of_le hl7
    simp only [List.length_cons] at hl
    obtain ⟨e, v, hv, rfl⟩ := (key (n := s8.length) hs rfl (by omega)).mp h
    refine ⟨s8, v, by simpa using congrArg (· ++ s8) e, ?_, rfl⟩
    rcases (by omega : s8.length = 3 ∨ s8.length = 4) with e | e <;> rw [e] at hv
    · exact .inl hv
    · exact .inr hv
  · rintro ⟨d, n, rfl, hd | hd, rfl⟩
    · exact (key hs hd.1 (.inl rfl)).mpr ⟨rfl, n, hd, rfl⟩
    · exact (key hs hd.1 (.inr rfl)).mpr ⟨rfl, n, hd, rfl⟩

theorem ums_iff {s : Bytes} {r : Chipset} (hs : IsBytes s) : matchUms s = .yes r ↔ UnisocUms s r := by
  have key : ∀ {a0 a1 a2 a3 a4 a5 a6 a7 a8 a9 : Byte} {t : Bytes} {n : Nat},
      IsBytes (a0 :: a1 :: a2 :: a3 :: a4 :: a5 :: a6 :: a7 :: a8 :: a9 :: t) → t.length = n →
      n = 3 ∨ n = 4 →
      (matchUms (a0 :: a1 :: a2 :: a3 :: a4 :: a5 :: a6 :: a7 :: a8 :: a9 :: t) = .yes r ↔
        [a0, a1, a2, a3, a4, a5, a6, a7, a8, a9] = b!"Unisoc UMS" ∧
        ∃ v, IsNumber n t v ∧ chip .unisoc .unisocUms v [] = r) := by
    intro a0 a1 a2 a3 a4 a5 a6 a7 a8 a9 t n hs hl hn
    obtain ⟨ha0, hs⟩ := bytes_cons hs
    obtain ⟨ha1, hs⟩ := bytes_cons hs
    obtain ⟨ha2, hs⟩ := bytes_cons hs
    obtain ⟨ha3, hs⟩ := bytes_cons hs
    obtain ⟨ha4, hs⟩ := bytes_cons hs
    obtain ⟨ha5, hs⟩ := bytes_cons hs
    obtain ⟨ha6, hs⟩ := bytes_cons hs
    obtain ⟨ha7, hs⟩ := bytes_cons hs
    obtain ⟨ha8, hs⟩ := bytes_cons hs
    obtain ⟨ha9, hs⟩ := bytes_cons hs
    have e : ∀ {P : Prop}, ((a0 + 256 * (a1 + 256 * (a2 + 256 * a3)) = 0x73696E55 ∧
        a4 + 256 * (a5 + 256 * (a6 + 256 * a7)) = 0x5520636F ∧ a8 + 256 * a9 = 0x534D ∧ P) ↔
        [a0, a1, a2, a3, a4, a5, a6, a7, a8, a9] = b!"Unisoc UMS" ∧ P) := by
      intro P
      rw [← and_assoc, ← and_assoc]
      refine and_congr_left fun _ => ?_
      simp only [List.cons.injEq, and_true]
      omega
    rw [← e]
    unfold matchUms
    rcases hn with rfl | rfl
    · match_simp [load32_cons ha0 ha1 ha2, load32_cons ha4 ha5 ha6, load16_cons ha8, hl,
        Nat.reduceSub, digits_all hs (by omega) hl]
    · match_simp [load32_cons ha0 ha1 ha2, load32_cons ha4 ha5 ha6, load16_cons ha8, hl,
        Nat.reduceSub, or_true, digits_all hs (by omega) hl]
  constructor
  · intro h
    have hl := h
    unfold matchUms at hl
    obtain ⟨_, hl, _⟩ := bind_yes.mp hl
    simp only [need_yes, beq_iff_eq, Bool.or_eq_true] at hl
    obtain ⟨a0, s1, rfl, hl1⟩ := cons_of_le (n := 12) (s := s) (by omega)
    obtain ⟨a1, s2, rfl, hl2⟩ := cons_of_le hl1
    obtain ⟨a2, s3, rfl, hl3⟩ := cons_of_le hl2
    obtain ⟨a3, s4, rfl, hl4⟩ := cons_of_le hl3
    obtain ⟨a4, s5, rfl, hl5⟩ := cons_of_le hl4
    obtain ⟨a5, s6, rfl, hl6⟩ := cons_of_le hl5
    obtain ⟨a6, s7, rfl, hl7⟩ := cons_of_le hl6
    obtain ⟨a7, s8, rfl, hl8⟩ := cons_of_le hl7
    obtain ⟨a8, s9, rfl, hl9⟩ := cons_of_le hl8
    obtain ⟨a9, t, rfl, hl10⟩ := cons_of_le hl9
    simp only [List.length_cons] at hl
    obtain ⟨e, v, hv, rfl⟩ := (key (n := t.length) hs rfl (by omega)).mp h
    refine ⟨t, v, by simpa using congrArg (· ++ t) e, ?_, rfl⟩
    rcases (by omega : t.length = 3 ∨ t.length = 4) with e | e <;> rw [e] at hv
    · exact .inl hv
    · exact .inr hv
  · rintro ⟨d, n, rfl, hd | hd, rfl⟩
    · exact (key hs hd.1 (.inl rfl)).mpr ⟨rfl, n, hd, rfl⟩
    · exact (key hs hd.1 (.inr rfl)).mpr ⟨rfl, n, hd, rfl⟩

end Verif.ArmChipset
