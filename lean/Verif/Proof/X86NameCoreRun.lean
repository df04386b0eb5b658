import Verif.Proof.X86NameCore
import Verif.Proof.Words

/-!
# The brand string of an Intel Core processor, from start to end
-/

set_option autoImplicit false

namespace Verif.X86Name
open Spec

theorem core_plain {m : Bytes} (h : CoreModel m) : (∀ c ∈ m, c ≠ 32 ∧ c ∉ strippedChars) ∧
    m.head? = some 105 ∧ isZeroNumber m = false ∧ isModelNumber m = true ∧ m.getLast? ≠ some 109 ∧
    m.getLast? ≠ some 45 := by
  obtain ⟨g, d, e, tail, rfl, hd, he, hg, ht⟩ := h
  refine ⟨?_, rfl, rfl, ?_, ?_⟩
  · intro c hc
    simp only [List.cons_append, List.nil_append, List.mem_cons] at hc
    simp only [strippedChars, List.mem_cons, List.not_mem_nil, or_false]
    rcases hc with rfl | rfl | rfl | rfl | rfl | hc
    · omega
    · omega
    · omega
    · omega
    · omega
    · have := ht c hc
      omega
  · simp [isModelNumber, isDigit, hd, he]
  · have key : ∃ l, ([105, g, 45, d, e] ++ tail).getLast? = some l ∧ l ≠ 109 ∧ l ≠ 45 := by
      cases hl : tail.getLast? with
      | none =>
        rw [List.getLast?_eq_none_iff] at hl
        subst hl
        exact ⟨e, by simp, by omega, by omega⟩
      | some l =>
        refine ⟨l, by rw [List.getLast?_append, hl]; rfl, ?_⟩
        have := ht l (List.mem_of_getLast? hl)
        omega
    obtain ⟨l, h1, h2, h3⟩ := key
    rw [h1]
    exact ⟨by simpa using h2, by simpa using h3⟩

/-- The buffer once "Intel" is erased and the parentheses are. -/
def coreHead : Bytes := b!"         Core     "

theorem core_unify (m f : Bytes) (hm : ∀ c ∈ m, c ≠ 32 ∧ c ∉ strippedChars)
    (hf : ∀ c ∈ f, c ≠ 32 ∧ c ∉ strippedChars) :
    unify (coreBrand m f) 0 false none =
      (b!"Intel    Core     " ++ m ++ b!" CPU   " ++ f, some (m.length + 23)) := by
  have h1 := unify_plain f [] (m.length + 25) (some (m.length + 23)) (fun c hc => (hf c hc).2)
  have h2 := unify_plain m (b!" CPU @ " ++ f) 18 none (fun c hc => (hm c hc).2)
  unfold coreBrand
  have h3 : unify (b!" CPU @ " ++ f) (18 + m.length) false none =
      (b!" CPU   " ++ f, some (m.length + 23)) := by
    rw [Nat.add_comm 18]
    simp only [List.append_nil, unify] at h1
    simp [unify, h1]
  rw [h3] at h2
  dsimp only at h2
  simp only [List.append_assoc]
  simp [unify] at h2 ⊢
  simp [h2]

theorem core_first (rest : Bytes) (k : Nat) (sep : Option Nat) :
    tokenLoop (k + 18) 0 (b!"Intel    Core     " ++ rest) none
      { NState.init with frequencySeparator := sep } =
    tokenLoop k 18 (coreHead ++ rest) none { NState.init with frequencySeparator := sep } := by
  simp [tokenLoop, transformToken, blankFrequency_none, stripTm, stripAmd, load, switchWords, resetContext,
    NState.init, eraseWords, findWord, specialWords, longWords, finishToken, isZeroNumber, mergeLetter,
    isModelNumber, isFrequency, isDigit, isUpperLetter, blank, store, coreHead]

theorem transform_cpu (x y : Bytes) (prev : NState)
    (hb : blankFrequency (x ++ b!"CPU" ++ y) x.length (x.length + 3) (resetContext prev) =
      some (x ++ b!"CPU" ++ y)) :
    transformToken (x ++ b!"CPU" ++ y) x.length (x.length + 3) prev =
      some (x ++ b!"   " ++ y, resetContext prev, true) := by
  have h1 := stripTm_zip x b!"CPU" y (by decide)
  have h2 := stripAmd_zip x b!"CPU" y (by decide)
  have h3 := load_token x b!"CPU" y
  have h4 := blank_zip x b!"CPU" y
  unfold transformToken
  dsimp only
  rw [hb]
  dsimp only
  rw [show x.length + 3 = x.length + (b!"CPU").length from rfl, h1]
  dsimp only
  rw [h2]
  dsimp only
  unfold switchWords
  rw [h3]
  dsimp only
  rw [show findWord b!"CPU" eraseWords = some (true, false) by decide]
  dsimp only
  rw [h4]
  rfl

theorem blankFrequency_before {b : Bytes} {ts te sep : Nat} {st : NState}
    (h : st.frequencySeparator = some sep) (hs : ts ≤ sep) : blankFrequency b ts te st = some b := by
  unfold blankFrequency
  rw [h]
  dsimp only
  rw [if_neg (by omega)]

theorem blankFrequency_after {b : Bytes} {ts te sep : Nat} {st : NState}
    (h : st.frequencySeparator = some sep) (hs : sep < ts) (hp : st.parsedModelNumber = true) :
    blankFrequency b ts te st = blank b ts (te - ts) := by
  unfold blankFrequency
  rw [h]
  dsimp only
  rw [if_pos ⟨hs, hp⟩]

/-- The state once the number of the processor has been read. -/
def coreState (m : Bytes) : NState :=
  { NState.init with
    frequencySeparator := some (m.length + 23)
    parsedModelNumber := true
    frequencyToken := isFrequency m }

theorem core_model (m rest : Bytes) (hm : CoreModel m) (k : Nat) :
    tokenLoop (k + 1 + m.length) 18 (coreHead ++ m ++ 32 :: rest) none
      { NState.init with frequencySeparator := some (m.length + 23) } =
    tokenLoop k (18 + m.length + 1) (coreHead ++ m ++ 32 :: rest) none (coreState m) := by
  obtain ⟨h1, h2, h3, h4, h5, _⟩ := core_plain hm
  obtain ⟨l, hl⟩ : ∃ l, m = 105 :: l := by
    cases m with
    | nil => cases h2
    | cons c l => simp at h2; exact ⟨l, by rw [h2]⟩
  have := transform_unknown coreHead m (32 :: rest) m
    { NState.init with frequencySeparator := some (m.length + 23) } rfl
    (blankFrequency_none _ _ _ _ rfl) (by rw [hl]; exact unknown_of_head 105 l (.inl rfl)) h3 h5
    (by rw [h2]; decide)
  have := tokenLoop_word m coreHead rest _ k _ _ (fun hh => (h1 32 hh).1 rfl)
    (by rw [hl]; simp) this
  rw [show (18 : Nat) = coreHead.length from rfl, this]
  simp [coreState, resetContext, NState.init, h4]

theorem core_cpu (m rest : Bytes) (k : Nat) :
    tokenLoop (k + 6) (18 + m.length + 1) (coreHead ++ m ++ 32 :: (b!"CPU   " ++ rest)) none (coreState m) =
    tokenLoop k (m.length + 25) (coreHead ++ m ++ b!"       " ++ rest) none (coreState m) := by
  have hx : (coreHead ++ m ++ [32]).length = 18 + m.length + 1 := by
    simp [coreHead]; omega
  have hb : blankFrequency (coreHead ++ m ++ [32] ++ b!"CPU" ++ 32 :: 32 :: 32 :: rest)
      (coreHead ++ m ++ [32]).length ((coreHead ++ m ++ [32]).length + 3) (resetContext (coreState m)) =
      some (coreHead ++ m ++ [32] ++ b!"CPU" ++ 32 :: 32 :: 32 :: rest) := by
    exact blankFrequency_before (sep := m.length + 23) rfl (by rw [hx]; omega)
  have h1 := tokenLoop_word b!"CPU" (coreHead ++ m ++ [32]) (32 :: 32 :: rest) _ (k + 2) _ _ (by decide)
    (by decide) (transform_cpu _ _ _ hb)
  have h2 := tokenLoop_space (coreHead ++ m ++ b!"     ") (32 :: rest) (k + 1) (coreState m)
  have h3 := tokenLoop_space (coreHead ++ m ++ b!"      ") rest k (coreState m)
  have l2 : (coreHead ++ m ++ b!"     ").length = m.length + 23 := by simp [coreHead]
  have l3 : (coreHead ++ m ++ b!"      ").length = m.length + 24 := by simp [coreHead]
  rw [l2] at h2
  rw [l3] at h3
  rw [hx] at h1
  rw [show resetContext (coreState m) = coreState m from rfl] at h1
  simp only [List.append_assoc, List.cons_append, List.nil_append, List.length_cons, List.length_nil] at h1 h2 h3 ⊢
  rw [show 18 + m.length + 1 + (0 + 1 + 1 + 1) + 1 = m.length + 23 by omega] at h1
  exact h1.trans (h2.trans h3)

/-- Spaces stand for the frequency in the end. -/
theorem core_frequency (m f z : Bytes) (hf : 32 ∉ f) (h0 : f ≠ []) :
    ∃ st, tokenLoop f.length (m.length + 25) (coreHead ++ m ++ b!"       " ++ f ++ z) none (coreState m) =
      some (coreHead ++ m ++ b!"       " ++ List.replicate f.length 32 ++ z, m.length + 25 + f.length, st) ∧
      st.engineeringSample = false ∧ st.frequencySeparator = some (m.length + 23) := by
  have hx : (coreHead ++ m ++ b!"       ").length = m.length + 25 := by
    simp [coreHead]
  obtain ⟨j, hj⟩ : ∃ j, f.length = j + 1 := by
    cases f with
    | nil => exact absurd rfl h0
    | cons c l => exact ⟨l.length, rfl⟩
  have hr : List.replicate f.length 32 = 32 :: List.replicate j (32 : Byte) := by rw [hj]; rfl
  have hb : blankFrequency (coreHead ++ m ++ b!"       " ++ f ++ z)
      (coreHead ++ m ++ b!"       ").length
      ((coreHead ++ m ++ b!"       ").length + (List.replicate f.length (32 : Byte)).length)
      (resetContext (coreState m)) =
      some (coreHead ++ m ++ b!"       " ++ List.replicate f.length 32 ++ z) := by
    rw [blankFrequency_after (sep := m.length + 23) rfl (by rw [hx]; omega) rfl, Nat.add_sub_cancel_left,
      List.length_replicate]
    exact blank_zip _ f z
  have ht := transform_unknown (coreHead ++ m ++ b!"       ") (List.replicate f.length 32) z f (coreState m) rfl hb
    (by rw [hr]; exact unknown_of_head 32 _ (.inr rfl)) (by rw [hr]; rfl)
    (by
      intro hh
      have := List.mem_of_getLast? hh
      rw [List.mem_replicate] at this
      omega)
    (by rw [hr]; simp)
  have he := tokenLoop_enter f (coreHead ++ m ++ b!"       ") z 0 (coreState m) hf h0
  rw [List.length_replicate] at ht
  rw [Nat.zero_add, tokenLoop] at he
  rw [ht, hx] at he
  exact ⟨_, he, rfl, rfl⟩

theorem wordsFrom_spaces (n : Nat) : wordsFrom [] (List.replicate n 32) = [] := by
  induction n with
  | zero => rfl
  | succ n ih => rw [List.replicate_succ, wordsFrom, if_pos rfl, if_pos rfl, ih]

/-- The last loop. -/
theorem core_compact (m : Bytes) (hm : CoreModel m) (n : Nat) (hl : m.length ≤ 42) :
    ∃ d, compact (coreHead ++ m ++ List.replicate (n + 1) 32) none ⟨[], true, 1⟩ =
      some ⟨b!"Core " ++ m, d, 2⟩ := by
  obtain ⟨h1, h2, _, _, _, h6⟩ := core_plain hm
  have hne : m ≠ [] := by intro hh; rw [hh] at h2; cases h2
  have hw : wordsFrom [] (coreHead ++ m ++ List.replicate (n + 1) 32) = [b!"Core", m] := by
    have : wordsFrom [] (m ++ List.replicate (n + 1) 32) = [m] := by
      rw [wordsFrom_append m (fun hh => (h1 32 hh).1 rfl), List.nil_append, List.replicate_succ, wordsFrom,
        if_pos rfl, if_neg hne, wordsFrom_spaces]
    rw [List.append_assoc]
    simp [coreHead, wordsFrom] at this ⊢
    exact this
  rw [compact_words _ _ _ (by simp), Option.getD_none, hw]
  refine ⟨m.getLast? == some 45, ?_⟩
  simp [emitAll, emit, h2]
  rw [if_pos (by omega)]

/-- The name of an Intel Core processor. -/
theorem core_name (m f : Bytes) (hm : CoreModel m) (h0 : f ≠ [])
    (hf : ∀ c ∈ f, c ≠ 32 ∧ c ∉ strippedChars) (z : Nat) (hl : (coreBrand m f).length + z = 48) :
    normalize (coreBrand m f ++ List.replicate z 0) = some (b!"Core " ++ m, 5 + m.length) := by
  have hlen : (coreBrand m f).length = m.length + 25 + f.length := by
    simp [coreBrand]; omega
  have hfp : 0 < f.length := List.length_pos_iff.mpr h0
  obtain ⟨e, he, hle, hz, hnz⟩ := findEnd_spec (coreBrand m f ++ List.replicate z 0) 48
    (by simp only [List.length_append, List.length_replicate]; omega)
  have hee : e = m.length + 25 + f.length := by
    have last : ∃ c, (coreBrand m f)[m.length + 25 + f.length - 1]? = some c ∧ c ≠ 0 := by
      have hg : (coreBrand m f)[m.length + 25 + f.length - 1]? = f[f.length - 1]? := by
        unfold coreBrand
        rw [List.getElem?_append_right (by simp; omega)]
        congr 1
        simp
        omega
      refine ⟨f[f.length - 1], ?_, ?_⟩
      · rw [hg]; exact List.getElem?_eq_getElem (by omega)
      · intro hc
        exact (hf _ (List.getElem_mem (by omega : f.length - 1 < f.length))).2 (by rw [hc]; decide)
    obtain ⟨c, hc, hc0⟩ := last
    apply Nat.le_antisymm
    · apply Nat.not_lt.mp
      intro hlt
      obtain ⟨c', h1, h2⟩ := hnz (by omega)
      rw [List.getElem?_append_right (by omega), List.getElem?_replicate] at h1
      split at h1
      · cases h1; exact h2 rfl
      · cases h1
    · apply Nat.not_lt.mp
      intro hlt
      have := hz (m.length + 25 + f.length - 1) (by omega) (by omega)
      rw [List.getElem?_append_left (by omega), hc] at this
      cases this
      exact hc0 rfl
  obtain ⟨h1, h2, _, _, _, h6⟩ := core_plain hm
  obtain ⟨st, hr, hs, hq⟩ := core_frequency m f (List.replicate z 0) (fun hh => (hf 32 hh).1 rfl) h0
  have hloop : tokenLoop (m.length + 25 + f.length) 0
      (b!"Intel    Core     " ++ m ++ b!" CPU   " ++ f ++ List.replicate z 0) none
      { NState.init with frequencySeparator := some (m.length + 23) } =
      some (coreHead ++ m ++ b!"       " ++ List.replicate f.length 32 ++ List.replicate z 0,
        m.length + 25 + f.length, st) := by
    have a1 := core_first (m ++ 32 :: (b!"CPU   " ++ (f ++ List.replicate z 0))) (f.length + 6 + 1 + m.length)
      (some (m.length + 23))
    have a2 := core_model m (b!"CPU   " ++ (f ++ List.replicate z 0)) hm (f.length + 6)
    have a3 := core_cpu m (f ++ List.replicate z 0) f.length
    rw [← hr]
    rw [show m.length + 25 + f.length = f.length + 6 + 1 + m.length + 18 by omega]
    simp only [List.append_assoc, List.cons_append, List.nil_append] at a1 a2 a3 ⊢
    exact a1.trans (a2.trans a3)
  subst hee
  unfold normalize
  rw [he]
  obtain ⟨k, hk⟩ : ∃ k, m.length + 25 + f.length = k + 1 := ⟨m.length + 24 + f.length, by omega⟩
  rw [hk]
  dsimp only
  rw [← hk, ← hlen, List.take_left, List.drop_left, core_unify m f h1 hf, hlen]
  dsimp only
  rw [hloop]
  dsimp only
  rw [hs, hq, if_neg (by decide)]
  have hfo : frequencyOnly (coreHead ++ m ++ b!"       " ++ List.replicate f.length 32 ++ List.replicate z 0)
      (some (m.length + 23)) = false := by
    unfold frequencyOnly isSpace
    dsimp only
    rw [List.all_eq_false]
    refine ⟨67, ?_, by decide⟩
    rw [List.mem_iff_getElem?]
    exact ⟨9, by rw [List.getElem?_take, if_pos (by omega)]; rfl⟩
  rw [hfo, if_neg (by decide)]
  have htake : (coreHead ++ m ++ b!"       " ++ List.replicate f.length 32 ++ List.replicate z 0).take
      (m.length + 25 + f.length) = coreHead ++ m ++ List.replicate (6 + f.length + 1) 32 := by
    rw [List.take_append_of_le_length (by simp [coreHead]; omega), List.take_of_length_le (by simp [coreHead]; omega),
      show b!"       " = List.replicate 7 (32 : Byte) from rfl, List.append_assoc, List.replicate_append_replicate]
    congr 2
    omega
  obtain ⟨d, hd⟩ := core_compact m hm (6 + f.length) (by omega)
  rw [htake, hd]
  dsimp only
  rw [if_neg (by omega), if_pos (by simp; omega)]
  congr 2
  simp
  omega

end Verif.X86Name
