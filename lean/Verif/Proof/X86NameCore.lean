import Verif.Proof.X86NameSample

/-!
# Brand strings of Intel Core processors

The buffer is written `x ++ t ++ y`, with the token `t` at offset `x.length`.
-/

set_option autoImplicit false

namespace Verif.X86Name
open Spec

theorem load_zip (x t y : Bytes) (i n : Nat) (h : i + n ≤ t.length) :
    load (x ++ t ++ y) (x.length + i) n = some ((t.drop i).take n) := by
  unfold load
  rw [if_pos (by simp only [List.length_append]; omega), List.append_assoc, List.drop_append,
    List.drop_eq_nil_of_le (by omega), List.nil_append, Nat.add_sub_cancel_left,
    List.drop_append_of_le_length (by omega), List.take_append_of_le_length (by simp; omega)]

theorem blank_zip (x t y : Bytes) : blank (x ++ t ++ y) x.length t.length =
    some (x ++ List.replicate t.length 32 ++ y) := by
  unfold blank store
  rw [if_pos (by simp only [List.length_append, List.length_replicate]; omega), List.length_replicate]
  congr 2
  · rw [List.append_assoc, List.take_left]
  · rw [← List.length_append, List.drop_left]

theorem load_token (x t y : Bytes) : load (x ++ t ++ y) x.length (x.length + t.length - x.length) = some t := by
  rw [Nat.add_sub_cancel_left]
  have := load_zip x t y 0 t.length (by omega)
  simpa using this

theorem last_three (t : Bytes) (h : 2 < t.length) : ∃ u p q r, t = u ++ [p, q, r] := by
  refine ⟨t.take (t.length - 3), t[t.length - 3], t[t.length - 2], t[t.length - 1], ?_⟩
  conv => lhs; rw [← List.take_append_drop (t.length - 3) t]
  congr 1
  apply List.ext_getElem
  · simp; omega
  · intro i h1 h2
    simp only [List.length_cons, List.length_nil] at h2
    simp only [List.getElem_drop]
    match i, h2 with
    | 0, _ => simp
    | 1, _ => simp; congr 1; omega
    | 2, _ => simp; congr 1; omega

/-- No "tm" at the end. -/
theorem stripTm_zip (x t y : Bytes) (h : t.getLast? ≠ some 109) :
    stripTm (x ++ t ++ y) x.length (x.length + t.length) = some (x ++ t ++ y, x.length + t.length) := by
  unfold stripTm
  by_cases hl : 2 < t.length
  · rw [if_pos (by omega)]
    obtain ⟨u, p, q, r, rfl⟩ := last_three t hl
    have hr : r ≠ 109 := by intro hr; apply h; simp [hr]
    have : load (x ++ (u ++ [p, q, r]) ++ y) (x.length + (u ++ [p, q, r]).length - 3) 3 =
        some [p, q, r] := by
      have := load_zip x (u ++ [p, q, r]) y u.length 3 (by simp)
      rw [List.drop_left] at this
      rw [← show x.length + u.length = x.length + (u ++ [p, q, r]).length - 3 by simp; omega]
      simpa using this
    rw [this]
    dsimp only
    rw [if_neg (by simp [hr])]
  · rw [if_neg (by omega)]

/-- No "AMD-" at the start. -/
theorem stripAmd_zip (x t y : Bytes) (h : t.head? ≠ some 65) :
    stripAmd (x ++ t ++ y) x.length (x.length + t.length) = some (x ++ t ++ y, x.length) := by
  unfold stripAmd
  by_cases hl : 4 < t.length
  · rw [if_pos (by omega)]
    have := load_zip x t y 0 4 (by omega)
    rw [Nat.add_zero] at this
    rw [this]
    dsimp only
    rw [if_neg]
    intro he
    apply h
    cases t with
    | nil => simp at hl
    | cons c l => simp at he; simp [he.1]
  · rw [if_neg (by omega)]

/-- A token none of the tests knows. -/
def Unknown (t : Bytes) : Prop :=
  findWord t eraseWords = none ∧ ∀ b ts te prev st, specialWords b t ts te prev st = some (.goOn st)

theorem unknown_of_head (c : Byte) (l : Bytes) (hc : c = 105 ∨ c = 32) : Unknown (c :: l) := by
  constructor
  · rcases hc with rfl | rfl <;> simp [eraseWords, findWord]
  · intro b ts te prev st
    match l with
    | [] => rcases hc with rfl | rfl <;> simp [specialWords, isUpperLetter]
    | [d] => rcases hc with rfl | rfl <;> simp [specialWords]
    | d :: d' :: l => rcases hc with rfl | rfl <;> simp [specialWords, longWords]

/-- A token that stays as it is. -/
theorem finish_zip (x t y : Bytes) (prev st : NState) (hu : prev.contextUpperLetter = none)
    (hz : isZeroNumber t = false) :
    finishToken (x ++ t ++ y) x.length (x.length + t.length) prev st = some (x ++ t ++ y,
      { st with
        parsedModelNumber := st.parsedModelNumber || (st.frequencySeparator.isSome && isModelNumber t)
        frequencyToken := st.frequencyToken || isFrequency t }, true) := by
  unfold finishToken mergeLetter
  rw [load_token]
  dsimp only
  rw [hz, hu]
  dsimp only
  rw [load_token]
  rfl

/-- The part of `transformToken` after the frequency is blanked, for a token that stays. -/
theorem transform_unknown (x t y t' : Bytes) (prev : NState) (hu : prev.contextUpperLetter = none)
    (hb : blankFrequency (x ++ t' ++ y) x.length (x.length + t.length) (resetContext prev) = some (x ++ t ++ y))
    (hk : Unknown t) (hz : isZeroNumber t = false) (h1 : t.getLast? ≠ some 109) (h2 : t.head? ≠ some 65) :
    transformToken (x ++ t' ++ y) x.length (x.length + t.length) prev = some (x ++ t ++ y,
      { resetContext prev with
        parsedModelNumber := prev.parsedModelNumber || (prev.frequencySeparator.isSome && isModelNumber t)
        frequencyToken := prev.frequencyToken || isFrequency t }, true) := by
  unfold transformToken
  dsimp only
  rw [hb]
  dsimp only
  rw [stripTm_zip x t y h1]
  dsimp only
  rw [stripAmd_zip x t y h2]
  dsimp only
  unfold switchWords
  rw [load_token]
  dsimp only
  rw [hk.1]
  dsimp only
  rw [hk.2]
  dsimp only
  rw [finish_zip x t y prev _ hu hz]
  rfl

/-- The loop inside a word. -/
theorem tokenLoop_in (w : Bytes) : ∀ (x y : Bytes) (n ts : Nat) (st : NState), 32 ∉ w →
    tokenLoop (n + w.length) x.length (x ++ w ++ y) (some ts) st =
      tokenLoop n (x.length + w.length) (x ++ w ++ y) (some ts) st := by
  induction w with
  | nil => intro x y n ts st _; rfl
  | cons c w ih =>
    intro x y n ts st h
    have hg : (x ++ (c :: w) ++ y)[x.length]? = some c := by simp
    rw [List.length_cons, ← Nat.add_assoc, tokenLoop, hg]
    dsimp only
    rw [if_neg (by intro hc; apply h; simp [hc])]
    have := ih (x ++ [c]) y n ts st (by intro hm; apply h; simp [hm])
    simp only [List.append_assoc, List.cons_append, List.nil_append, List.length_append,
      List.length_cons, List.length_nil, Nat.zero_add] at this ⊢
    rw [this, show x.length + 1 + w.length = x.length + (w.length + 1) by omega]

theorem tokenLoop_enter (w : Bytes) (x y : Bytes) (n : Nat) (st : NState) (h : 32 ∉ w) (hw : w ≠ []) :
    tokenLoop (n + w.length) x.length (x ++ w ++ y) none st =
      tokenLoop n (x.length + w.length) (x ++ w ++ y) (some x.length) st := by
  cases w with
  | nil => exact absurd rfl hw
  | cons c w =>
    have hg : (x ++ (c :: w) ++ y)[x.length]? = some c := by simp
    rw [List.length_cons, ← Nat.add_assoc, tokenLoop, hg]
    dsimp only
    rw [if_neg (by intro hc; apply h; simp [hc])]
    have := tokenLoop_in w (x ++ [c]) y n x.length st (by intro hm; apply h; simp [hm])
    simp only [List.append_assoc, List.cons_append, List.nil_append, List.length_append,
      List.length_cons, List.length_nil, Nat.zero_add] at this ⊢
    rw [this, show x.length + 1 + w.length = x.length + (w.length + 1) by omega]

/-- A word followed by a space, with a verdict to go on. -/
theorem tokenLoop_word (w x y b' : Bytes) (n : Nat) (st st' : NState) (h : 32 ∉ w) (hw : w ≠ [])
    (ht : transformToken (x ++ w ++ 32 :: y) x.length (x.length + w.length) st = some (b', st', true)) :
    tokenLoop (n + 1 + w.length) x.length (x ++ w ++ 32 :: y) none st =
      tokenLoop n (x.length + w.length + 1) b' none st' := by
  rw [tokenLoop_enter w x _ _ st h hw, tokenLoop]
  have hg : (x ++ w ++ 32 :: y)[x.length + w.length]? = some 32 := by
    rw [List.getElem?_append_right (by simp)]; simp
  rw [hg]
  dsimp only
  rw [if_pos rfl, ht]
  rfl

theorem tokenLoop_space (x y : Bytes) (n : Nat) (st : NState) :
    tokenLoop (n + 1) x.length (x ++ 32 :: y) none st = tokenLoop n (x.length + 1) (x ++ 32 :: y) none st := by
  rw [tokenLoop]
  have hg : (x ++ 32 :: y)[x.length]? = some 32 := by simp
  rw [hg]
  rfl

end Verif.X86Name
