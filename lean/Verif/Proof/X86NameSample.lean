import Verif.Proof.X86NameOut

/-!
# Brand strings of engineering samples
-/

set_option autoImplicit false

namespace Verif.X86Name
open Spec

theorem blankFrequency_none (b : Bytes) (ts te : Nat) (st : NState) (h : st.parsedModelNumber = false) :
    blankFrequency b ts te st = some b := by
  unfold blankFrequency
  split <;> simp [h]

/-- The loop over tokens ends with the verdict that the name is that of an engineering sample. -/
def Verdict (n : Nat) (b : Bytes) (st : NState) : Prop :=
  ∃ b' e st', tokenLoop n 0 b none st = some (b', e, st') ∧ st'.engineeringSample = true

theorem Verdict.of_map {n : Nat} {b : Bytes} {st : NState}
    (h : (tokenLoop n 0 b none st).map (fun r => r.2.2.engineeringSample) = some true) :
    Verdict n b st := by
  cases hr : tokenLoop n 0 b none st with
  | none => rw [hr] at h; cases h
  | some r => rw [hr] at h; exact ⟨r.1, r.2.1, r.2.2, hr, by simpa using h⟩

theorem verdict_more (w : Bytes) (hw : w ∈ sampleStarts) (rest : Bytes) (k : Nat) (sep : Option Nat) :
    Verdict (k + (w.length + 1)) (w ++ 32 :: rest) { NState.init with frequencySeparator := sep } := by
  apply Verdict.of_map
  simp only [sampleStarts, List.mem_cons, List.not_mem_nil, or_false] at hw
  rcases hw with rfl | rfl | rfl | rfl | rfl | rfl | rfl | rfl | rfl | rfl | rfl | rfl <;>
  simp [tokenLoop, transformToken, blankFrequency_none, stripTm, stripAmd, load, switchWords, resetContext,
    NState.init, eraseWords, findWord, specialWords, longWords, finishToken, isZeroNumber, mergeLetter,
    isModelNumber, isFrequency, isDigit, isUpperLetter, blank, store]

theorem verdict_end (w : Bytes) (hw : w ∈ sampleStarts) (rest : Bytes) (sep : Option Nat) :
    Verdict w.length (w ++ rest) { NState.init with frequencySeparator := sep } := by
  apply Verdict.of_map
  simp only [sampleStarts, List.mem_cons, List.not_mem_nil, or_false] at hw
  rcases hw with rfl | rfl | rfl | rfl | rfl | rfl | rfl | rfl | rfl | rfl | rfl | rfl <;>
  simp [tokenLoop, transformToken, blankFrequency_none, stripTm, stripAmd, load, switchWords, resetContext,
    NState.init, eraseWords, findWord, specialWords, longWords, finishToken, isZeroNumber, mergeLetter,
    isModelNumber, isFrequency, isDigit, isUpperLetter, blank, store]

theorem unify_plain (w l : Bytes) : ∀ (i : Nat) (sep : Option Nat), (∀ c ∈ w, c ∉ strippedChars) →
    unify (w ++ l) i false sep =
      (w ++ (unify l (i + w.length) false sep).1, (unify l (i + w.length) false sep).2) := by
  induction w with
  | nil => intro i sep _; rfl
  | cons x w ih =>
    intro i sep h
    have hx := h x (by simp)
    simp only [strippedChars, List.mem_cons, List.not_mem_nil, or_false, not_or] at hx
    rw [List.cons_append, unify, if_neg hx.2.2.1, if_neg hx.2.2.2.1, if_neg hx.2.2.2.2,
      if_neg (by simp [hx.1, hx.2.1]), ih (i + 1) sep (fun c hc => h c (by simp [hc])), List.length_cons,
      show i + 1 + w.length = i + (w.length + 1) by omega]
    rfl

/-- A character that ends a word becomes a space. -/
theorem unify_blank (c : Byte) (hc : c = 32 ∨ c ∈ strippedChars) (l : Bytes) (i : Nat) (sep : Option Nat) :
    ∃ rest sep', unify (c :: l) i false sep = (32 :: rest, sep') := by
  simp only [strippedChars, List.mem_cons, List.not_mem_nil, or_false] at hc
  rcases hc with rfl | rfl | rfl | rfl | rfl | rfl <;> simp [unify]

theorem sampleStarts_plain : ∀ w ∈ sampleStarts, (∀ c ∈ w, c ∉ strippedChars) ∧ 0 < w.length ∧
    w.length ≤ 23 ∧ w[w.length - 1]? ≠ some 0 := by
  decide +kernel

/-- A brand string that starts with the words of an engineering sample is discarded, whatever follows. -/
theorem discarded_start (w : Bytes) (hw : w ∈ sampleStarts) (c : Byte) (hc : c = 32 ∨ c ∈ strippedChars)
    (rest : Bytes) (h : (w ++ c :: rest).length = 48) : Discarded (w ++ c :: rest) := by
  obtain ⟨hp, h0, h23, hl⟩ := sampleStarts_plain w hw
  obtain ⟨e, he, hle, hz, hnz⟩ := findEnd_spec (w ++ c :: rest) 48 (by omega)
  have hge : w.length ≤ e := by
    apply Classical.byContradiction
    intro hlt
    have := hz (w.length - 1) (by omega) (by omega)
    rw [List.getElem?_append_left (by omega)] at this
    exact hl this
  obtain ⟨e, rfl⟩ : ∃ k, e = k + 1 := ⟨e - 1, by omega⟩
  unfold Discarded
  rcases Nat.lt_or_ge w.length (e + 1) with hlt | hge'
  · obtain ⟨k, hk⟩ : ∃ k, e + 1 = w.length + (k + 1) := ⟨e - w.length, by omega⟩
    have ht : (w ++ c :: rest).take (e + 1) = w ++ c :: rest.take k := by
      rw [hk, List.take_append, List.take_of_length_le (by omega)]
      simp [Nat.add_sub_cancel_left]
    obtain ⟨r, s, hr⟩ := unify_blank c hc (rest.take k) (0 + w.length) none
    obtain ⟨b, n, st, h1, h2⟩ := verdict_more w hw (r ++ (w ++ c :: rest).drop (e + 1)) k s
    refine ⟨e, b, n, st, he, ?_, h2⟩
    rw [ht, unify_plain w _ 0 none hp, hr, ← h1]
    simp only [List.append_assoc, List.cons_append]
    rw [show e + 1 = k + (w.length + 1) by omega]
  · have hk : e + 1 = w.length := by omega
    have ht : (w ++ c :: rest).take (e + 1) = w ++ [] := by
      rw [hk, List.take_left]; simp
    obtain ⟨b, n, st, h1, h2⟩ := verdict_end w hw ((w ++ c :: rest).drop (e + 1))
      (unify [] (0 + w.length) false none).2
    refine ⟨e, b, n, st, he, ?_, h2⟩
    rw [ht, unify_plain w [] 0 none hp, ← h1]
    simp only [unify, List.append_nil]
    rw [hk]

end Verif.X86Name
