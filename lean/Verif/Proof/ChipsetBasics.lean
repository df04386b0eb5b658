import Verif.Model.ArmChipsetMatch
import Verif.Spec.ArmChipset

/-!
# Reading characters, words and numbers of a chipset string
-/

set_option autoImplicit false

namespace Verif.ArmChipset
open Spec.Chipsets

/-! ## Sequencing -/

theorem bind_yes {α β : Type} {m : Match α} {f : α → Match β} {b : β} :
    (m >>= f) = .yes b ↔ ∃ a, m = .yes a ∧ f a = .yes b := by
  change Match.bind m f = .yes b ↔ _
  cases m <;> simp [Match.bind]

theorem yes_bind {α β : Type} {a : α} {f : α → Match β} : (Match.yes a >>= f) = f a := rfl

theorem need_bind {β : Type} {c : Bool} {f : Unit → Match β} (h : c = true) :
    (need c >>= f) = f () := by subst h; rfl

theorem pure_yes {α : Type} {a b : α} : (pure a : Match α) = .yes b ↔ a = b := by
  change Match.yes a = .yes b ↔ _
  simp

theorem need_yes {c : Bool} {u : Unit} : need c = .yes u ↔ c = true := by
  cases c <;> simp [need]

theorem byteAt_yes {s : Bytes} {i : Nat} {c : Byte} : byteAt s i = .yes c ↔ s[i]? = some c := by
  unfold byteAt
  cases s[i]? <;> simp

/-- The outcome is not a read outside the string. -/
def Safe {α : Type} (m : Match α) : Prop := m ≠ .outside

theorem safe_bind {α β : Type} {m : Match α} {f : α → Match β} (h : Safe m)
    (hf : ∀ a, m = .yes a → Safe (f a)) : Safe (m >>= f) := by
  change Safe (Match.bind m f)
  cases m with
  | outside => exact absurd rfl h
  | no => simp [Match.bind, Safe]
  | yes a => exact hf a rfl

theorem safe_pure {α : Type} (a : α) : Safe (pure a : Match α) := by
  change Safe (Match.yes a); simp [Safe]

theorem safe_yes {α : Type} (a : α) : Safe (Match.yes a) := by simp [Safe]

theorem safe_no {α : Type} : Safe (Match.no : Match α) := by simp [Safe]

theorem safe_need (c : Bool) : Safe (need c) := by cases c <;> simp [need, Safe]

theorem safe_byteAt {s : Bytes} {i : Nat} (h : i < s.length) : Safe (byteAt s i) := by
  unfold byteAt; rw [List.getElem?_eq_getElem h]; simp [Safe]

theorem safe_load16 {s : Bytes} {i : Nat} (h : i + 2 ≤ s.length) : Safe (load16 s i) :=
  safe_bind (safe_byteAt (by omega)) fun _ _ => safe_bind (safe_byteAt (by omega)) fun _ _ =>
    safe_pure _

theorem safe_load24 {s : Bytes} {i : Nat} (h : i + 3 ≤ s.length) : Safe (load24 s i) :=
  safe_bind (safe_byteAt (by omega)) fun _ _ => safe_bind (safe_load16 (by omega)) fun _ _ =>
    safe_pure _

theorem safe_load32 {s : Bytes} {i : Nat} (h : i + 4 ≤ s.length) : Safe (load32 s i) :=
  safe_bind (safe_byteAt (by omega)) fun _ _ => safe_bind (safe_byteAt (by omega)) fun _ _ =>
    safe_bind (safe_byteAt (by omega)) fun _ _ => safe_bind (safe_byteAt (by omega)) fun _ _ =>
      safe_pure _

theorem safe_digits {s : Bytes} : ∀ {n pos m : Nat}, pos + n ≤ s.length →
    Safe (parseDigits s pos n m)
  | 0, _, _, _ => safe_yes _
  | n + 1, pos, m, h =>
    safe_bind (safe_byteAt (by omega)) fun _ _ => safe_bind (safe_need _) fun _ _ =>
      safe_digits (by omega)

theorem safe_suffix {s : Bytes} {extra : Byte} : ∀ {n pos : Nat}, pos ≤ s.length →
    Safe (parseSuffix extra s pos n)
  | 0, _, _ => safe_yes _
  | n + 1, pos, h => by
    unfold parseSuffix
    split
    · exact safe_yes _
    · refine safe_bind (safe_byteAt (by omega)) fun c _ => ?_
      split
      · exact safe_bind (safe_suffix (by omega)) fun _ _ => safe_pure _
      · split
        · exact safe_bind (safe_suffix (by omega)) fun _ _ => safe_pure _
        · exact safe_yes _

theorem safe_wholeSuffix {s : Bytes} : ∀ {n pos : Nat}, pos + n ≤ s.length →
    Safe (parseWholeSuffix s pos n)
  | 0, _, _ => safe_yes _
  | n + 1, pos, h =>
    safe_bind (safe_byteAt (by omega)) fun _ _ => safe_bind (safe_need _) fun _ _ =>
      safe_bind (safe_wholeSuffix (by omega)) fun _ _ => safe_pure _

theorem safe_letters {s : Bytes} : ∀ {n pos : Nat}, pos ≤ s.length →
    Safe (parseLetters s pos n)
  | 0, _, _ => safe_yes _
  | n + 1, pos, h => by
    unfold parseLetters
    split
    · exact safe_yes _
    · exact safe_bind (safe_byteAt (by omega)) fun _ _ => safe_bind (safe_need _) fun _ _ =>
        safe_bind (safe_letters (by omega)) fun _ _ => safe_pure _

/-! ## Shifting positions over a first character -/

theorem byteAt_zero (a : Byte) (s : Bytes) : byteAt (a :: s) 0 = .yes a := rfl

theorem byteAt_succ (a : Byte) (s : Bytes) (n : Nat) : byteAt (a :: s) (n + 1) = byteAt s n := by
  simp [byteAt]

theorem load16_succ (a : Byte) (s : Bytes) (n : Nat) : load16 (a :: s) (n + 1) = load16 s n := by
  simp [load16, byteAt_succ]

theorem load24_succ (a : Byte) (s : Bytes) (n : Nat) : load24 (a :: s) (n + 1) = load24 s n := by
  simp [load24, load16_succ, show n + 1 + 2 = (n + 2) + 1 by omega, byteAt_succ]

theorem load32_succ (a : Byte) (s : Bytes) (n : Nat) : load32 (a :: s) (n + 1) = load32 s n := by
  simp [load32, show n + 1 + 2 = (n + 2) + 1 by omega, show n + 1 + 3 = (n + 3) + 1 by omega,
    byteAt_succ]

theorem parseDigits_succ (a : Byte) (s : Bytes) : ∀ (n pos m : Nat),
    parseDigits (a :: s) (pos + 1) n m = parseDigits s pos n m
  | 0, _, _ => rfl
  | n + 1, pos, m => by
    simp only [parseDigits, byteAt_succ, parseDigits_succ a s n]

theorem parseSuffix_succ (extra a : Byte) (s : Bytes) : ∀ (n pos : Nat),
    parseSuffix extra (a :: s) (pos + 1) n = parseSuffix extra s pos n
  | 0, _ => rfl
  | n + 1, pos => by
    simp only [parseSuffix, byteAt_succ, parseSuffix_succ extra a s n, List.length_cons,
      Nat.add_right_cancel_iff]

theorem parseWholeSuffix_succ (a : Byte) (s : Bytes) : ∀ (n pos : Nat),
    parseWholeSuffix (a :: s) (pos + 1) n = parseWholeSuffix s pos n
  | 0, _ => rfl
  | n + 1, pos => by simp only [parseWholeSuffix, byteAt_succ, parseWholeSuffix_succ a s n]

theorem parseLetters_succ (a : Byte) (s : Bytes) : ∀ (n pos : Nat),
    parseLetters (a :: s) (pos + 1) n = parseLetters s pos n
  | 0, _ => rfl
  | n + 1, pos => by
    simp only [parseLetters, byteAt_succ, parseLetters_succ a s n, List.length_cons,
      Nat.add_right_cancel_iff]

/-! ## Characters -/

theorem alphabetic_iff {c : Byte} (h : c < 256) : isAlphabetic c = true ↔ Letter c := by
  have : ∀ c < 256, isAlphabetic c = true ↔ Letter c := by decide +kernel
  exact this c h

theorem upper_letter {c : Byte} (h : Letter c) : c &&& 0xDF = upper c := by
  have : ∀ c < 123, Letter c → c &&& 0xDF = upper c := by decide +kernel
  exact this c (by unfold Letter at h; omega) h

theorem upper_other {c : Byte} (h : ¬ Letter c) : upper c = c := by
  unfold Letter at h; unfold upper; split <;> omega

theorem uppercase_iff {c : Byte} (h : c < 256) : isUppercase c = true ↔ 65 ≤ c ∧ c ≤ 90 := by
  have : ∀ c < 256, isUppercase c = true ↔ 65 ≤ c ∧ c ≤ 90 := by decide +kernel
  exact this c h

theorem numeric_iff {c : Byte} (h : c < 256) : isNumeric c = true ↔ Digit c := by
  have : ∀ c < 256, isNumeric c = true ↔ 48 ≤ c ∧ c ≤ 57 := by decide +kernel
  exact this c h

theorem digitOf_iff {c : Byte} (h : c < 256) : digitOf c < 10 ↔ Digit c := by
  unfold digitOf Digit; omega

theorem digitOf_eq {c : Byte} (h : Digit c) : digitOf c = c - 48 := by
  unfold digitOf; unfold Digit at h; omega

/-- Setting bit 5 compares up to case. -/
theorem fold_case {c k : Byte} (h : c < 256) (hk : 97 ≤ k ∧ k ≤ 122) :
    c ||| 32 = k ↔ lower c = k := by
  have : ∀ c < 256, ∀ k < 123, 97 ≤ k → (c ||| 32 = k ↔ lower c = k) := by decide +kernel
  exact this c h k (by omega) hk.1

theorem or_lt {a b : Nat} (ha : a < 256) (hb : b < 256) : a ||| b < 256 :=
  Nat.or_lt_two_pow (n := 8) ha hb

/-! ## Words -/

theorem word16 {a b : Byte} (ha : a < 256) : (b <<< 8) ||| a = a + 256 * b := by
  rw [← Nat.shiftLeft_add_eq_or_of_lt (i := 8) (by omega), Nat.shiftLeft_eq]; omega

theorem word24 {a b c : Byte} (ha : a < 256) (hb : b < 256) :
    (c <<< 16) ||| ((b <<< 8) ||| a) = a + 256 * (b + 256 * c) := by
  rw [word16 ha, ← Nat.shiftLeft_add_eq_or_of_lt (i := 16) (by omega), Nat.shiftLeft_eq]; omega

theorem word32 {a b c d : Byte} (ha : a < 256) (hb : b < 256) (hc : c < 256) :
    (d <<< 24) ||| (c <<< 16) ||| (b <<< 8) ||| a = a + 256 * (b + 256 * (c + 256 * d)) := by
  rw [Nat.or_assoc, Nat.or_assoc, word24 ha hb,
    ← Nat.shiftLeft_add_eq_or_of_lt (i := 24) (by omega), Nat.shiftLeft_eq]; omega

/-- A bitwise or works on the low byte and the rest separately. -/
theorem or_word {x y a b : Nat} (hx : x < 256) (ha : a < 256) :
    (x + 256 * y) ||| (a + 256 * b) = (x ||| a) + 256 * (y ||| b) := by
  apply Nat.eq_of_testBit_eq
  intro i
  have e : ∀ {u v : Nat}, u < 256 → u + 256 * v = 2 ^ 8 * v + u := by intros; omega
  have hor : x ||| a < 2 ^ 8 := Nat.or_lt_two_pow (n := 8) hx ha
  rw [Nat.testBit_or, e hx, e ha, e (u := x ||| a) hor, Nat.testBit_two_pow_mul_add _ hx,
    Nat.testBit_two_pow_mul_add _ ha, Nat.testBit_two_pow_mul_add _ hor]
  split <;> simp

theorem split_word {x y k l : Nat} (hx : x < 256) (hk : k < 256) :
    x + 256 * y = k + 256 * l ↔ x = k ∧ y = l := by omega

/-! ## Numbers -/

theorem valueOf_foldl : ∀ (d : Bytes) (m : Nat),
    d.foldl (fun m c => m * 10 + (c - 48)) m = m * 10 ^ d.length + valueOf d
  | [], m => by simp [valueOf]
  | c :: cs, m => by
    rw [List.foldl_cons, valueOf_foldl cs]
    simp only [valueOf, List.length_cons, Nat.pow_succ]
    rw [Nat.add_mul, Nat.mul_assoc, Nat.mul_comm 10, Nat.add_assoc]

theorem valueOf_lt : ∀ {d : Bytes}, (∀ c ∈ d, Digit c) → valueOf d < 10 ^ d.length
  | [], _ => by simp [valueOf]
  | c :: cs, h => by
    have h1 := valueOf_lt (d := cs) fun x hx => h x (by simp [hx])
    have h2 := h c (by simp)
    simp only [valueOf, List.length_cons, Nat.pow_succ]
    unfold Digit at h2
    have : (c - 48) * 10 ^ cs.length ≤ 9 * 10 ^ cs.length :=
      Nat.mul_le_mul_right _ (by omega)
    omega

/-- The digit loop on a string that starts with the digits. -/
theorem parseDigits_append : ∀ {d t : Bytes} {m : Nat}, (∀ c ∈ d, Digit c) →
    (m + 1) * 10 ^ d.length ≤ U32 →
    parseDigits (d ++ t) 0 d.length m = .yes (m * 10 ^ d.length + valueOf d)
  | [], t, m, _, _ => by simp [parseDigits, valueOf]
  | c :: cs, t, m, h, hm => by
    have hc := h c (by simp)
    have hd : digitOf c < 10 := by rw [digitOf_eq hc]; unfold Digit at hc; omega
    have hpow : 0 < 10 ^ cs.length := Nat.pos_of_ne_zero (by simp)
    have hm1 : (m * 10 + digitOf c + 1) * 10 ^ cs.length ≤ U32 := by
      refine Nat.le_trans ?_ hm
      rw [List.length_cons, Nat.pow_succ, Nat.mul_comm (10 ^ cs.length) 10, ← Nat.mul_assoc]
      exact Nat.mul_le_mul_right _ (by omega)
    have hlt : m * 10 + digitOf c < U32 := by
      have : (m * 10 + digitOf c + 1) * 1 ≤ (m * 10 + digitOf c + 1) * 10 ^ cs.length :=
        Nat.mul_le_mul_left _ hpow
      omega
    rw [List.cons_append, List.length_cons, parseDigits, byteAt_zero, yes_bind,
      need_bind (by simpa using hd)]
    rw [parseDigits_succ, Nat.mod_eq_of_lt hlt,
      parseDigits_append (fun x hx => h x (by simp [hx])) hm1, digitOf_eq hc]
    simp only [valueOf, Nat.pow_succ]
    rw [Nat.add_mul, Nat.mul_assoc, Nat.mul_comm 10, Nat.add_assoc]

/-- The digit loop succeeds only on digits. -/
theorem digits_of_yes {v : Nat} : ∀ (n : Nat) {m : Nat} {s : Bytes}, IsBytes s →
    parseDigits s 0 n m = .yes v → ∃ d t, s = d ++ t ∧ d.length = n ∧ ∀ c ∈ d, Digit c := by
  intro n
  induction n with
  | zero => intro m s _ _; exact ⟨[], s, rfl, rfl, by simp⟩
  | succ n ih =>
    intro m s hb h
    rw [parseDigits] at h
    obtain ⟨c, hc, h⟩ := bind_yes.mp h
    rw [byteAt_yes] at hc
    cases s with
    | nil => simp at hc
    | cons a s =>
      have hc : a = c := by simpa using hc
      subst hc
      obtain ⟨_, hn, h⟩ := bind_yes.mp h
      rw [need_yes, decide_eq_true_eq, digitOf_iff (hb a (by simp))] at hn
      rw [parseDigits_succ] at h
      obtain ⟨d, t, rfl, hl, hd⟩ := ih (fun x hx => hb x (by simp [hx])) h
      exact ⟨a :: d, t, rfl, by simp [hl], by simpa using ⟨hn, hd⟩⟩

/-- The digit loop reads exactly the numbers. -/
theorem digits_iff {n v : Nat} {s : Bytes} (hb : IsBytes s) (hn : n ≤ 9) :
    parseDigits s 0 n 0 = .yes v ↔ ∃ d t, s = d ++ t ∧ IsNumber n d v := by
  have hp : ∀ {d : Bytes}, d.length = n → (0 + 1) * 10 ^ d.length ≤ U32 := by
    intro d hd
    rw [hd]
    have : 10 ^ n ≤ 10 ^ 9 := Nat.pow_le_pow_right (by omega) hn
    omega
  constructor
  · intro h
    obtain ⟨d, t, rfl, hl, hd⟩ := digits_of_yes n hb h
    have := parseDigits_append (t := t) hd (hp hl)
    rw [hl, h] at this
    refine ⟨d, t, rfl, hl, hd, ?_⟩
    simpa using this
  · rintro ⟨d, t, rfl, hl, hd, rfl⟩
    have := parseDigits_append (t := t) hd (hp hl)
    rw [hl] at this
    simpa using this

/-! ## Suffixes -/

theorem suffix_eq {extra : Byte} (he : ¬ Letter extra) : ∀ {n : Nat} {t : Bytes}, IsBytes t →
    parseSuffix extra t 0 n =
      .yes (((t.takeWhile fun c => Letter c ∨ c = extra).take n).map upper)
  | 0, t, _ => by simp [parseSuffix]
  | n + 1, [], _ => by simp [parseSuffix]
  | n + 1, c :: t, hb => by
    have ih := suffix_eq he (n := n) (t := t) fun x hx => hb x (by simp [hx])
    have hc := alphabetic_iff (hb c (by simp))
    rw [parseSuffix, if_neg (by simp), byteAt_zero]
    change (if isAlphabetic c = true then _ else _) = _
    by_cases h1 : Letter c
    · rw [if_pos (hc.mpr h1), parseSuffix_succ, ih]
      simp only [List.takeWhile_cons, h1, true_or, decide_true, if_true, List.take_succ_cons,
        List.map_cons, ← upper_letter h1]
      rfl
    · rw [if_neg (fun h => h1 (hc.mp h))]
      by_cases h2 : c = extra
      · rw [if_pos h2, parseSuffix_succ, ih]
        simp only [List.takeWhile_cons, h2, or_true, decide_true, if_true, List.take_succ_cons,
          List.map_cons, upper_other he]
        rfl
      · rw [if_neg h2]
        simp [h1, h2]

theorem wholeSuffix_iff : ∀ {n : Nat} {t w : Bytes}, IsBytes t → t.length = n →
    (parseWholeSuffix t 0 n = .yes w ↔ (∀ x ∈ t, Letter x ∨ x = 47) ∧ w = t.map upper)
  | 0, t, w, _, h => by
    rw [List.length_eq_zero_iff] at h
    subst h
    simp [parseWholeSuffix, eq_comm]
  | n + 1, c :: t, w, hb, h => by
    have hc := alphabetic_iff (hb c (by simp))
    have ih := fun w => wholeSuffix_iff (n := n) (t := t) (w := w)
      (fun x hx => hb x (by simp [hx])) (by simpa using h)
    have h47 : ¬ Letter 47 := by decide
    simp only [parseWholeSuffix, byteAt_zero, bind_yes, need_yes, parseWholeSuffix_succ, ih, pure_yes,
      Match.yes.injEq, Bool.or_eq_true, beq_iff_eq, List.mem_cons, forall_eq_or_imp, List.map_cons]
    constructor
    · rintro ⟨x, rfl, _, h1, _, ⟨h2, rfl⟩, rfl⟩
      refine ⟨⟨h1.imp hc.mp id, h2⟩, ?_⟩
      congr 1
      split
      · rename_i h3; exact upper_letter (hc.mp h3)
      · rename_i h3; exact (upper_other fun h => h3 (hc.mpr h)).symm
    · rintro ⟨⟨h1, h2⟩, rfl⟩
      refine ⟨c, rfl, (), h1.imp hc.mpr id, _, ⟨h2, rfl⟩, ?_⟩
      congr 1
      split
      · rename_i h3; exact upper_letter (hc.mp h3)
      · rename_i h3; exact (upper_other fun h => h3 (hc.mpr h)).symm

theorem letters_iff : ∀ {n : Nat} {t w : Bytes}, IsBytes t →
    (parseLetters t 0 n = .yes w ↔ (∀ x ∈ t.take n, Letter x) ∧ w = (t.take n).map upper)
  | 0, t, w, _ => by simp [parseLetters, eq_comm]
  | n + 1, [], w, _ => by simp [parseLetters, eq_comm]
  | n + 1, c :: t, w, hb => by
    have hc := alphabetic_iff (hb c (by simp))
    have ih := fun w => letters_iff (n := n) (t := t) (w := w) (fun x hx => hb x (by simp [hx]))
    rw [parseLetters, if_neg (by simp)]
    simp only [byteAt_zero, bind_yes, need_yes, parseLetters_succ, ih, pure_yes,
      Match.yes.injEq, List.take_succ_cons, List.mem_cons, forall_eq_or_imp, List.map_cons]
    constructor
    · rintro ⟨x, rfl, _, h1, _, ⟨h2, rfl⟩, rfl⟩
      exact ⟨⟨hc.mp h1, h2⟩, by rw [upper_letter (hc.mp h1)]⟩
    · rintro ⟨⟨h1, h2⟩, rfl⟩
      exact ⟨c, rfl, (), hc.mpr h1, _, ⟨h2, rfl⟩, by rw [upper_letter h1]⟩

/-! ## Skipping a prefix -/

theorem byteAt_skip {d t : Bytes} {k : Nat} (h : d.length = k) (i : Nat) :
    byteAt (d ++ t) (k + i) = byteAt t i := by
  subst h; unfold byteAt; rw [List.getElem?_append_right (by omega), Nat.add_sub_cancel_left]

theorem suffix_skip {d t : Bytes} {k n : Nat} {extra : Byte} (h : d.length = k) :
    parseSuffix extra (d ++ t) k n = parseSuffix extra t 0 n := by
  subst h
  induction d with
  | nil => rfl
  | cons a d ih => rw [List.cons_append, List.length_cons, parseSuffix_succ, ih]

theorem wholeSuffix_skip {d t : Bytes} {k n : Nat} (h : d.length = k) :
    parseWholeSuffix (d ++ t) k n = parseWholeSuffix t 0 n := by
  subst h
  induction d with
  | nil => rfl
  | cons a d ih => rw [List.cons_append, List.length_cons, parseWholeSuffix_succ, ih]

theorem letters_skip {d t : Bytes} {k n : Nat} (h : d.length = k) :
    parseLetters (d ++ t) k n = parseLetters t 0 n := by
  subst h
  induction d with
  | nil => rfl
  | cons a d ih => rw [List.cons_append, List.length_cons, parseLetters_succ, ih]

/-! ## Loads at the start -/

theorem load16_cons {a b : Byte} {t : Bytes} (ha : a < 256) :
    load16 (a :: b :: t) 0 = .yes (a + 256 * b) := by
  rw [← word16 ha]; rfl

theorem load24_cons {a b c : Byte} {t : Bytes} (ha : a < 256) (hb : b < 256) :
    load24 (a :: b :: c :: t) 0 = .yes (a + 256 * (b + 256 * c)) := by
  rw [← word24 ha hb]; rfl

theorem load32_cons {a b c d : Byte} {t : Bytes} (ha : a < 256) (hb : b < 256) (hc : c < 256) :
    load32 (a :: b :: c :: d :: t) 0 = .yes (a + 256 * (b + 256 * (c + 256 * d))) := by
  rw [← word32 ha hb hc]; rfl

theorem or16 {a b m n k l : Nat} (ha : a < 256) (hm : m < 256) (hk : k < 256) :
    (m + 256 * n) ||| (a + 256 * b) = k + 256 * l ↔ m ||| a = k ∧ n ||| b = l := by
  rw [or_word hm ha, split_word (or_lt hm ha) hk]

theorem or24 {a b c m n o k l j : Nat} (ha : a < 256) (hb : b < 256) (hm : m < 256) (hn : n < 256)
    (hk : k < 256) (hl : l < 256) :
    (m + 256 * (n + 256 * o)) ||| (a + 256 * (b + 256 * c)) = k + 256 * (l + 256 * j) ↔
      m ||| a = k ∧ n ||| b = l ∧ o ||| c = j := by
  rw [or16 ha hm hk, or16 hb hn hl]

theorem or32 {a b c d m n o p k l j i : Nat} (ha : a < 256) (hb : b < 256) (hc : c < 256)
    (hm : m < 256) (hn : n < 256) (ho : o < 256) (hk : k < 256) (hl : l < 256) (hj : j < 256) :
    (m + 256 * (n + 256 * (o + 256 * p))) ||| (a + 256 * (b + 256 * (c + 256 * d))) =
        k + 256 * (l + 256 * (j + 256 * i)) ↔
      m ||| a = k ∧ n ||| b = l ∧ o ||| c = j ∧ p ||| d = i := by
  rw [or16 ha hm hk, or24 hb hc hn ho hl hj]

theorem fold_case' {c k : Byte} (h : c < 256) (hk : 97 ≤ k ∧ k ≤ 122) :
    32 ||| c = k ↔ lower c = k := by rw [Nat.or_comm]; exact fold_case h hk

/-! ## Texts up to case -/

theorem spells_nil {p : Bytes} : Spells p [] ↔ p = [] := by simp [Spells]

theorem spells_cons {p w : Bytes} {k : Byte} :
    Spells p (k :: w) ↔ ∃ a q, p = a :: q ∧ lower a = k ∧ Spells q w := by
  cases p with
  | nil => simp [Spells]
  | cons a q =>
    simp only [Spells, List.map_cons, List.cons.injEq]
    constructor
    · exact fun h => ⟨a, q, ⟨rfl, rfl⟩, h.1, h.2⟩
    · rintro ⟨_, _, ⟨rfl, rfl⟩, h⟩; exact h

/-! ## A tactic for staying inside the string -/

/-- One step of a proof that nothing outside the string is read. -/
macro "safe_step" : tactic => `(tactic| first
  | with_reducible exact safe_pure _ | with_reducible exact safe_yes _
  | with_reducible exact safe_no | with_reducible exact safe_need _
  | with_reducible exact safe_byteAt (by omega)
  | with_reducible exact safe_load16 (by omega)
  | with_reducible exact safe_load24 (by omega)
  | with_reducible exact safe_load32 (by omega)
  | with_reducible exact safe_digits (by omega)
  | with_reducible exact safe_suffix (by omega)
  | with_reducible exact safe_wholeSuffix (by omega) | with_reducible exact safe_letters (by omega)
  | (with_reducible refine safe_bind ?_ fun _ h => ?_
     rotate_left
     try simp only [need_yes, decide_eq_true_eq, beq_iff_eq, Bool.or_eq_true] at h)
  | split)

/-! ## Decomposing strings -/

theorem cons_of_le {n : Nat} {s : Bytes} (h : n + 1 ≤ s.length) :
    ∃ a t, s = a :: t ∧ n ≤ t.length := by
  cases s with
  | nil => simp at h
  | cons a t => exact ⟨a, t, rfl, by simpa using h⟩

theorem bytes_cons {a : Byte} {s : Bytes} (h : IsBytes (a :: s)) : a < 256 ∧ IsBytes s :=
  ⟨h a (by simp), fun x hx => h x (by simp [hx])⟩

theorem bytes_append {s t : Bytes} (h : IsBytes (s ++ t)) : IsBytes s ∧ IsBytes t :=
  ⟨fun x hx => h x (by simp [hx]), fun x hx => h x (by simp [hx])⟩

theorem mk_eq (v : Vendor) (s : Series) (m : Nat) (x : Bytes) : mk v s m x = chip v s m x := rfl

theorem mk_zero (v : Vendor) (s : Series) (m : Nat) : mk v s m [0] = chip v s m [] := rfl

end Verif.ArmChipset
