import Verif.Proof.X86NameRyzen

/-!
# Brand strings of ordinary words
-/

set_option autoImplicit false

namespace Verif.X86Name
open Spec

/-- Nothing is known that concerns the words to come, and no frequency was seen. -/
structure Quiet (st : NState) : Prop where
  upper : st.contextUpperLetter = none
  dual : st.contextDual = none
  model : st.contextModel = none
  engineering : st.contextEngineering = none
  parsed : st.parsedModelNumber = false
  separator : st.frequencySeparator = none
  sample : st.engineeringSample = false
  frequency : st.frequencyToken = false

/-- What becomes of the word `w`: the text `w'`, with the words `W` in it. -/
structure Turns (w w' : Bytes) (W : List Bytes) : Prop where
  length : w'.length = w.length
  nonempty : w ≠ []
  words : ∀ l, wordsFrom [] (w' ++ 32 :: l) = W ++ wordsFrom [] l
  dash : ∀ v ∈ W, v.head? ≠ some 45 ∧ v.getLast? ≠ some 45
  room : (W.flatMap (32 :: ·)).length ≤ w.length + 1
  chars : ∀ c ∈ w, c ≠ 32 ∧ c ∉ strippedChars
  run : ∀ x y st, Quiet st → ∃ st', Quiet st' ∧
    transformToken (x ++ w ++ y) x.length (x.length + w.length) st = some (x ++ w' ++ y, st', true)

theorem stripTm_ordinary (x t y : Bytes)
    (h : ∀ u c, t = u ++ [c, 116, 109] → ¬ ((48 ≤ c ∧ c ≤ 57) ∨ (65 ≤ c ∧ c ≤ 90))) :
    stripTm (x ++ t ++ y) x.length (x.length + t.length) = some (x ++ t ++ y, x.length + t.length) := by
  unfold stripTm
  by_cases hl : 2 < t.length
  · rw [if_pos (by omega)]
    obtain ⟨u, p, q, r, rfl⟩ := last_three t hl
    have : load (x ++ (u ++ [p, q, r]) ++ y) (x.length + (u ++ [p, q, r]).length - 3) 3 =
        some [p, q, r] := by
      have := load_zip x (u ++ [p, q, r]) y u.length 3 (by simp)
      rw [List.drop_left] at this
      rw [← show x.length + u.length = x.length + (u ++ [p, q, r]).length - 3 by simp; omega]
      simpa using this
    rw [this]
    dsimp only
    rw [if_neg]
    intro hh
    simp only [Bool.and_eq_true, Bool.or_eq_true, isDigit, isUpperLetter, decide_eq_true_eq, beq_iff_eq,
      List.cons.injEq, and_true] at hh
    obtain ⟨hc, rfl, rfl⟩ := hh
    exact h u p rfl hc
  · rw [if_neg (by omega)]

theorem stripAmd_ordinary (x t y : Bytes) (h : ¬ b!"AMD-" <+: t) :
    stripAmd (x ++ t ++ y) x.length (x.length + t.length) = some (x ++ t ++ y, x.length) := by
  unfold stripAmd
  by_cases hl : 4 < t.length
  · rw [if_pos (by omega)]
    have := load_zip x t y 0 4 (by omega)
    rw [Nat.add_zero] at this
    rw [this]
    dsimp only
    rw [if_neg]
    intro he
    apply h
    rw [List.drop_zero] at he
    exact ⟨t.drop 4, by rw [← he, List.take_append_drop]⟩
  · rw [if_neg (by omega)]

theorem findWord_other (t : Bytes) (l : List (Bytes × Bool × Bool)) (h : ∀ p ∈ l, t ≠ p.1) :
    findWord t l = none := by
  induction l with
  | nil => rfl
  | cons p l ih =>
    obtain ⟨w, r⟩ := p
    rw [findWord, if_neg (h (w, r) (by simp))]
    exact ih (fun p hp => h p (by simp [hp]))

theorem special_ordinary (b t : Bytes) (ts te : Nat) (prev st : NState) (hq : Quiet prev)
    (ht : OrdinaryWord t) :
    ∃ x, specialWords b t ts te prev st = some (.goOn { st with xeon := x }) := by
  have hm : ∀ v ∈ meaningful, t ≠ v := fun v hv he => ht.other.2 (he ▸ hv)
  match t, ht with
  | [], ht => exact absurd rfl ht.nonempty
  | [c], ht =>
    have : isUpperLetter c = false := by
      have := ht.letter c rfl
      simp only [isUpperLetter, Bool.and_eq_false_iff, decide_eq_false_iff_not]
      omega
    exact ⟨st.xeon, by simp [specialWords, this]⟩
  | [c, d], ht =>
    have : (c == 86 && isDigit d) = false := by
      cases hc : (c == 86) with
      | false => rfl
      | true =>
        have hc : c = 86 := by simpa using hc
        subst hc
        have := ht.version d rfl
        simp only [isDigit, Bool.true_and, Bool.and_eq_false_iff, decide_eq_false_iff_not]
        omega
    exact ⟨st.xeon, by simp [specialWords, this]⟩
  | c :: d :: e :: l, ht =>
    show ∃ x, longWords b (c :: d :: e :: l) ts te prev st = _
    generalize c :: d :: e :: l = t at hm
    unfold longWords
    rw [if_neg (hm _ (by decide)), if_neg (hm _ (by decide)), if_neg (hm b!"Geode" (by decide)),
      if_neg (hm b!"model" (by decide)), if_neg (hm b!"Mobile" (by decide)),
      if_neg (hm b!"Engineering" (by decide)), hq.dual, hq.engineering, hq.model]
    dsimp only
    split
    · exact ⟨true, rfl⟩
    · exact ⟨st.xeon, by simp only [ite_self]⟩

theorem frequency_ordinary (t : Bytes) (h : ∀ u c, t = u ++ [c, 72, 122] → c ≠ 75 ∧ c ≠ 77 ∧ c ≠ 71) :
    isFrequency t = false := by
  unfold isFrequency
  by_cases hl : 2 < t.length
  · obtain ⟨u, p, q, r, rfl⟩ := last_three t hl
    simp only [List.reverse_append, List.reverse_cons, List.reverse_nil, List.nil_append, List.cons_append]
    rw [Bool.and_eq_false_iff]
    right
    rw [← Bool.not_eq_true]
    intro hh
    simp only [Bool.and_eq_true, Bool.or_eq_true, beq_iff_eq] at hh
    obtain ⟨⟨rfl, rfl⟩, hc⟩ := hh
    have := h u p rfl
    omega
  · have : ¬ t.length > 3 := by omega
    simp [this]

/-- The part of `transformToken` after the signs are erased. -/
theorem rest_ordinary (x t y : Bytes) (ht : OrdinaryWord t) (st : NState) (hq : Quiet st) :
    ∃ st', Quiet st' ∧
      (match switchWords (x ++ t ++ y) x.length (x.length + t.length) st (resetContext st) with
        | none => none
        | some (.ret b4 st' r) => some (b4, st', r)
        | some (.goOn st') => finishToken (x ++ t ++ y) x.length (x.length + t.length) st st') =
      some (x ++ t ++ y, st', true) := by
  have hz : isZeroNumber t = false := by
    obtain ⟨c, hc, hn⟩ := ht.zeros
    unfold isZeroNumber
    rw [List.all_eq_false]
    exact ⟨c, hc, by simpa using hn⟩
  have hf : findWord t eraseWords = none := by
    apply findWord_other
    intro p hp he
    have tab : ∀ p ∈ eraseWords, p.1 ∈ leftOut ∨ p.1 ∈ meaningful := by decide
    rcases tab p hp with h | h
    · exact ht.other.1 (he ▸ h)
    · exact ht.other.2 (he ▸ h)
  obtain ⟨e, he⟩ := special_ordinary (x ++ t ++ y) t x.length (x.length + t.length) st (resetContext st) hq ht
  unfold switchWords
  rw [load_token]
  dsimp only
  rw [hf]
  dsimp only
  rw [he]
  dsimp only
  rw [finish_zip x t y st _ hq.upper hz]
  refine ⟨_, ?_, rfl⟩
  constructor
  · rfl
  · rfl
  · rfl
  · exact hq.engineering
  · simp [resetContext, hq.parsed, hq.separator]
  · exact hq.separator
  · exact hq.sample
  · simp [resetContext, hq.frequency, frequency_ordinary t ht.frequency]

theorem turns_ordinary (t : Bytes) (ht : OrdinaryWord t) : Turns t t [t] where
  length := rfl
  nonempty := ht.nonempty
  words := fun l => wordsFrom_word t l (fun h => (ht.chars 32 h).1 rfl) ht.nonempty
  dash := by simpa using ht.dash
  room := by simp
  chars := ht.chars
  run := fun x y st hq => by
    unfold transformToken
    dsimp only
    rw [blankFrequency_none _ _ _ _ (by exact hq.parsed)]
    dsimp only
    rw [stripTm_ordinary x t y ht.trademark]
    dsimp only
    rw [stripAmd_ordinary x t y ht.amd]
    dsimp only
    exact rest_ordinary x t y ht st hq

theorem turns_trademark (v : Bytes) (c : Byte) (hv : OrdinaryWord v) (hc : v.getLast? = some c)
    (hd : (48 ≤ c ∧ c ≤ 57) ∨ (65 ≤ c ∧ c ≤ 90)) : Turns (v ++ b!"tm") (v ++ b!"  ") [v] where
  length := by simp
  nonempty := by simp
  words := fun l => by
    rw [List.append_assoc]
    show wordsFrom [] (v ++ 32 :: 32 :: 32 :: l) = _
    rw [wordsFrom_word v _ (fun h => (hv.chars 32 h).1 rfl) hv.nonempty]
    simp [wordsFrom]
  dash := by simpa using hv.dash
  room := by simp
  chars := by
    intro d hm
    rcases List.mem_append.mp hm with h | h
    · exact hv.chars d h
    · have : ∀ d ∈ b!"tm", d ≠ 32 ∧ d ∉ strippedChars := by decide
      exact this d h
  run := fun x y st hq => by
    obtain ⟨u, rfl⟩ : ∃ u, v = u ++ [c] := by
      rw [List.getLast?_eq_some_iff] at hc
      exact hc
    have hl : load (x ++ (u ++ [c] ++ b!"tm") ++ y) (x.length + (u ++ [c] ++ b!"tm").length - 3) 3 =
        some [c, 116, 109] := by
      have := load_zip x (u ++ [c, 116, 109]) y u.length 3 (by simp)
      rw [List.drop_left] at this
      rw [← show x.length + u.length = x.length + (u ++ [c] ++ b!"tm").length - 3 by simp; omega]
      simpa using this
    have hb : blank (x ++ (u ++ [c] ++ b!"tm") ++ y) (x.length + (u ++ [c] ++ b!"tm").length - 2) 2 =
        some (x ++ (u ++ [c]) ++ (b!"  " ++ y)) := by
      have := blank_zip (x ++ (u ++ [c])) b!"tm" y
      rw [show x.length + (u ++ [c] ++ b!"tm").length - 2 = (x ++ (u ++ [c])).length by simp; omega]
      simpa using this
    have hs : stripTm (x ++ (u ++ [c] ++ b!"tm") ++ y) x.length (x.length + (u ++ [c] ++ b!"tm").length) =
        some (x ++ (u ++ [c]) ++ (b!"  " ++ y), x.length + (u ++ [c]).length) := by
      unfold stripTm
      rw [if_pos (by simp), hl]
      dsimp only
      have hcond : ((isDigit c || isUpperLetter c) && ([116, 109] : Bytes) == b!"tm") = true := by
        simpa [isDigit, isUpperLetter] using hd
      rw [if_pos hcond, hb]
      simp
      omega
    unfold transformToken
    dsimp only
    rw [blankFrequency_none _ _ _ _ (by exact hq.parsed)]
    dsimp only
    rw [hs]
    dsimp only
    rw [stripAmd_ordinary x (u ++ [c]) _ hv.amd]
    dsimp only
    obtain ⟨st', h1, h2⟩ := rest_ordinary x (u ++ [c]) (b!"  " ++ y) hv st hq
    exact ⟨st', h1, h2.trans (by simp)⟩

theorem turns_amd (v : Bytes) (hv : OrdinaryWord v) : Turns (b!"AMD-" ++ v) (b!"    " ++ v) [v] where
  length := by simp
  nonempty := by simp
  words := fun l => by
    rw [List.append_assoc]
    show wordsFrom [] (32 :: 32 :: 32 :: 32 :: (v ++ 32 :: l)) = _
    have := wordsFrom_word v l (fun h => (hv.chars 32 h).1 rfl) hv.nonempty
    simpa [wordsFrom] using this
  dash := by simpa using hv.dash
  room := by simp
  chars := by
    intro d hm
    rcases List.mem_append.mp hm with h | h
    · have : ∀ d ∈ b!"AMD-", d ≠ 32 ∧ d ∉ strippedChars := by decide
      exact this d h
    · exact hv.chars d h
  run := fun x y st hq => by
    have hpos : 0 < v.length := List.length_pos_iff.mpr hv.nonempty
    have htm : ∀ u c, b!"AMD-" ++ v = u ++ [c, 116, 109] → ¬ ((48 ≤ c ∧ c ≤ 57) ∨ (65 ≤ c ∧ c ≤ 90)) := by
      intro u c he
      match u, he with
      | [], he => simp at he
      | [_], he => simp at he
      | [_, _], he => simp at he
      | [_, _, _], he =>
        simp only [List.cons_append, List.nil_append, List.cons.injEq] at he
        omega
      | _ :: _ :: _ :: _ :: u, he =>
        simp only [List.cons_append, List.nil_append, List.cons.injEq] at he
        exact hv.trademark u c he.2.2.2.2
    have hl : load (x ++ (b!"AMD-" ++ v) ++ y) x.length 4 = some b!"AMD-" := by
      have := load_zip x (b!"AMD-" ++ v) y 0 4 (by simp)
      simpa using this
    have hb : blank (x ++ (b!"AMD-" ++ v) ++ y) x.length 4 = some (x ++ b!"    " ++ v ++ y) := by
      have := blank_zip x b!"AMD-" (v ++ y)
      simpa [List.replicate] using this
    have hs : stripAmd (x ++ (b!"AMD-" ++ v) ++ y) x.length (x.length + (b!"AMD-" ++ v).length) =
        some (x ++ b!"    " ++ v ++ y, x.length + 4) := by
      unfold stripAmd
      rw [if_pos (by simp; omega), hl]
      dsimp only
      rw [if_pos rfl, hb]
      rfl
    unfold transformToken
    dsimp only
    rw [blankFrequency_none _ _ _ _ (by exact hq.parsed)]
    dsimp only
    rw [stripTm_ordinary x (b!"AMD-" ++ v) y htm]
    dsimp only
    rw [hs]
    dsimp only
    obtain ⟨st', h1, h2⟩ := rest_ordinary (x ++ b!"    ") v y hv st hq
    refine ⟨st', h1, ?_⟩
    have e1 : (x ++ b!"    ").length = x.length + 4 := by simp
    have e2 : x.length + (b!"AMD-" ++ v).length = x.length + 4 + v.length := by simp; omega
    rw [e1] at h2
    rw [e2]
    exact h2.trans (by simp)

theorem turns_leftOut (t : Bytes) (ht : t ∈ leftOut) : Turns t (List.replicate t.length 32) [] := by
  have tab : ∀ v ∈ leftOut, (∀ c ∈ v, c ≠ 32 ∧ c ∉ strippedChars) ∧ v ≠ [] ∧
      (findWord v eraseWords = some (true, true) ∨ findWord v eraseWords = some (true, false)) ∧
      v.getLast? ≠ some 109 ∧ ¬ b!"AMD-" <+: v := by decide
  obtain ⟨h1, h2, h3, h4, h5⟩ := tab t ht
  obtain ⟨core, h3⟩ : ∃ core, findWord t eraseWords = some (true, core) := by
    rcases h3 with h | h
    · exact ⟨_, h⟩
    · exact ⟨_, h⟩
  refine ⟨by simp, h2, fun l => ?_, by simp, by simp, h1, fun x y st hq => ?_⟩
  · rw [wordsFrom_blank, wordsFrom, if_pos rfl, if_pos rfl, List.nil_append]
  · unfold transformToken
    dsimp only
    rw [blankFrequency_none _ _ _ _ (by exact hq.parsed)]
    dsimp only
    rw [stripTm_zip x t y h4]
    dsimp only
    rw [stripAmd_ordinary x t y h5]
    dsimp only
    unfold switchWords
    rw [load_token]
    dsimp only
    rw [h3]
    dsimp only
    rw [blank_zip]
    refine ⟨_, ?_, rfl⟩
    cases core
    · exact ⟨rfl, rfl, rfl, hq.engineering, hq.parsed, hq.separator, hq.sample, hq.frequency⟩
    · exact ⟨rfl, rfl, rfl, hq.engineering, hq.parsed, hq.separator, hq.sample, hq.frequency⟩

theorem turns_says {w : Bytes} {W : List Bytes} (h : WordSays w W) : ∃ w', Turns w w' W := by
  cases h with
  | nothing h => exact ⟨_, turns_leftOut w h⟩
  | itself h => exact ⟨_, turns_ordinary w h⟩
  | trademark h hc hd => exact ⟨_, turns_trademark _ _ h hc hd⟩
  | amd h => exact ⟨_, turns_amd _ h⟩

/-- What becomes of each word of a list. -/
inductive TurnsAll : List Bytes → List Bytes → List (List Bytes) → Prop
  | nil : TurnsAll [] [] []
  | cons {w w' : Bytes} {W : List Bytes} {ws ws' : List Bytes} {Ws : List (List Bytes)} :
      Turns w w' W → TurnsAll ws ws' Ws → TurnsAll (w :: ws) (w' :: ws') (W :: Ws)

theorem turnsAll_says (ps : List (Bytes × List Bytes)) (h : ∀ p ∈ ps, WordSays p.1 p.2) :
    ∃ ws', TurnsAll (ps.map Prod.fst) ws' (ps.map Prod.snd) := by
  induction ps with
  | nil => exact ⟨[], .nil⟩
  | cons p ps ih =>
    obtain ⟨ws', h1⟩ := ih (fun q hq => h q (by simp [hq]))
    obtain ⟨w', h2⟩ := turns_says (h p (by simp))
    exact ⟨w' :: ws', .cons h2 h1⟩

theorem words_loop {ws ws' : List Bytes} {Ws : List (List Bytes)} (ha : TurnsAll ws ws' Ws) :
    ∀ (x z : Bytes) (k : Nat) (st : NState), Quiet st → ∃ st', Quiet st' ∧
      tokenLoop (k + (joinWords ws).length) x.length (x ++ (joinWords ws ++ (List.replicate k 32 ++ z))) none st =
        some (x ++ (joinWords ws' ++ (List.replicate k 32 ++ z)), x.length + (joinWords ws).length + k, st') := by
  induction ha with
  | nil =>
    intro x z k st hq
    have := tokenLoop_spaces k x z st
    rw [List.append_assoc] at this
    exact ⟨st, hq, this⟩
  | @cons w w' W ws ws' Ws tw ha ih =>
    intro x z k st hq
    have h32 : 32 ∉ w := fun h => (tw.chars 32 h).1 rfl
    have hl : (x ++ w' ++ [32]).length = x.length + w.length + 1 := by
      simp [tw.length]
      omega
    cases ha with
    | nil =>
      obtain ⟨st', hq', ht⟩ := tw.run x (List.replicate k 32 ++ z) st hq
      refine ⟨st', hq', ?_⟩
      simp only [joinWords]
      cases k with
      | zero =>
        have he := tokenLoop_enter w x (List.replicate 0 32 ++ z) 0 st h32 tw.nonempty
        rw [tokenLoop, ht] at he
        rw [← List.append_assoc, he]
        simp
      | succ k =>
        rw [List.replicate_succ, List.cons_append] at ht ⊢
        have he := tokenLoop_word w x (List.replicate k 32 ++ z) _ k st st' h32 tw.nonempty ht
        have hs := tokenLoop_spaces k (x ++ w' ++ [32]) z st'
        rw [hl] at hs
        simp only [List.append_assoc, List.cons_append, List.nil_append] at he hs ⊢
        rw [he, hs, show x.length + w.length + 1 + k = x.length + w.length + (k + 1) by omega]
    | @cons v v' V ws ws' Ws tv ha =>
      obtain ⟨st1, hq1, ht⟩ := tw.run x (32 :: (joinWords (v :: ws) ++ (List.replicate k 32 ++ z))) st hq
      obtain ⟨st2, hq2, hi⟩ := ih (x ++ w' ++ [32]) z k st1 hq1
      refine ⟨st2, hq2, ?_⟩
      have he := tokenLoop_word w x (joinWords (v :: ws) ++ (List.replicate k 32 ++ z)) _
        (k + (joinWords (v :: ws)).length) st st1 h32 tw.nonempty ht
      rw [hl] at hi
      have e1 : joinWords (w :: v :: ws) = w ++ 32 :: joinWords (v :: ws) := rfl
      have e2 : joinWords (w' :: v' :: ws') = w' ++ 32 :: joinWords (v' :: ws') := rfl
      rw [e1, e2]
      have l1 : k + (w ++ 32 :: joinWords (v :: ws)).length = k + (joinWords (v :: ws)).length + 1 + w.length := by
        simp; omega
      have l2 : x.length + (w ++ 32 :: joinWords (v :: ws)).length + k =
          x.length + w.length + 1 + (joinWords (v :: ws)).length + k := by
        simp; omega
      rw [l1, l2]
      clear e1 e2 l1 l2 ht ih
      generalize joinWords (v :: ws) = J at *
      generalize joinWords (v' :: ws') = J' at *
      simp only [List.append_assoc, List.cons_append, List.nil_append] at he hi ⊢
      rw [he, hi]

theorem wordsFrom_last (l : Bytes) : ∀ cur : Bytes, wordsFrom cur (l ++ [32]) = wordsFrom cur l := by
  induction l with
  | nil =>
    intro cur
    by_cases h : cur = []
    · simp [wordsFrom, h]
    · simp [wordsFrom, h]
  | cons c l ih =>
    intro cur
    rw [List.cons_append, wordsFrom, wordsFrom, ih, ih]

theorem words_turned {ws ws' : List Bytes} {Ws : List (List Bytes)} (ha : TurnsAll ws ws' Ws) (k : Nat) :
    wordsFrom [] (joinWords ws' ++ List.replicate k 32) = Ws.flatten := by
  have key : wordsFrom [] (joinWords ws' ++ 32 :: List.replicate k 32) = Ws.flatten := by
    induction ha with
    | nil => exact wordsFrom_spaces (k + 1)
    | @cons w w' W ws ws' Ws tw ha ih =>
      cases ha with
      | nil =>
        simp only [joinWords, List.flatten_cons, List.flatten_nil]
        rw [tw.words, wordsFrom_spaces]
      | @cons v v' V ws ws' Ws tv ha =>
        have e2 : joinWords (w' :: v' :: ws') = w' ++ 32 :: joinWords (v' :: ws') := rfl
        rw [e2, List.append_assoc, List.cons_append, tw.words, ih]
        rfl
  rw [← wordsFrom_last, List.append_assoc,
    show List.replicate k 32 ++ [32] = 32 :: List.replicate k (32 : Byte) by
      rw [← List.replicate_succ']; rfl]
  exact key

theorem joinWords_flat (v : Bytes) (L : List Bytes) : joinWords (v :: L) = v ++ L.flatMap (32 :: ·) := by
  induction L generalizing v with
  | nil => simp [joinWords]
  | cons w L ih => rw [joinWords, ih w]; simp

theorem joinWords_length (L : List Bytes) : (joinWords L).length = (L.flatMap (32 :: ·)).length - 1 := by
  cases L with
  | nil => rfl
  | cons v L =>
    rw [joinWords_flat]
    simp only [List.flatMap_cons, List.length_append, List.length_cons]
    omega

/-- What holds of all the words. -/
theorem turnsAll_facts {ws ws' : List Bytes} {Ws : List (List Bytes)} (ha : TurnsAll ws ws' Ws) :
    (ws'.flatMap (32 :: ·)).length = (ws.flatMap (32 :: ·)).length ∧
    (Ws.flatten.flatMap (32 :: ·)).length ≤ (ws.flatMap (32 :: ·)).length ∧
    (∀ v ∈ Ws.flatten, v.head? ≠ some 45 ∧ v.getLast? ≠ some 45) ∧
    (∀ w ∈ ws, w ≠ [] ∧ ∀ c ∈ w, c ∉ strippedChars) := by
  induction ha with
  | nil => simp
  | @cons w w' W ws ws' Ws tw ha ih =>
    obtain ⟨i1, i2, i3, i4⟩ := ih
    refine ⟨?_, ?_, ?_, ?_⟩
    · have := tw.length
      simp only [List.flatMap_cons, List.length_append, List.length_cons]
      omega
    · have := tw.room
      simp only [List.flatten_cons, List.flatMap_append, List.flatMap_cons, List.length_append, List.length_cons]
      omega
    · intro v hv
      rw [List.flatten_cons, List.mem_append] at hv
      rcases hv with h | h
      · exact tw.dash v h
      · exact i3 v h
    · intro v hv
      rcases List.mem_cons.mp hv with rfl | h
      · exact ⟨tw.nonempty, fun c hc => (tw.chars c hc).2⟩
      · exact i4 v h

/-- The words that say something, with single spaces between them. -/
theorem words_name {ws ws' : List Bytes} {Ws : List (List Bytes)} (ha : TurnsAll ws ws' Ws) (h0 : ws ≠ [])
    (k z : Nat) (hl : (joinWords ws ++ List.replicate k 32).length + z = 48) (hz : 0 < z) :
    normalize (joinWords ws ++ List.replicate k 32 ++ List.replicate z 0) =
      some (joinWords Ws.flatten, (joinWords Ws.flatten).length) := by
  obtain ⟨f1, f2, hdash, f4⟩ := turnsAll_facts ha
  have hplain : ∀ c ∈ joinWords ws ++ List.replicate k 32, c ∉ strippedChars := by
    intro c hc
    have h32 : (32 : Byte) ∉ strippedChars := by decide
    rcases List.mem_append.mp hc with hc | hc
    · rcases mem_joinWords ws c hc with hc | ⟨w, hw', hc⟩
      · rw [hc]; exact h32
      · exact (f4 w hw').2 c hc
    · rw [List.mem_replicate] at hc
      rw [hc.2]; exact h32
  obtain ⟨n, hn⟩ : ∃ n, (joinWords ws ++ List.replicate k 32).length = n + 1 := by
    obtain ⟨w, l, rfl⟩ := List.exists_cons_of_ne_nil h0
    have := List.length_pos_iff.mpr (f4 w (by simp)).1
    rw [joinWords_flat]
    simp only [List.length_append]
    exact ⟨w.length - 1 + (l.flatMap (32 :: ·)).length + (List.replicate k 32).length, by omega⟩
  have hfe := findEnd_pad (joinWords ws ++ List.replicate k 32) z hl
    (by intro h; rw [h] at hn; simp at hn)
    (by intro h; exact hplain 0 (List.mem_of_getLast? h) (by decide))
  have hun := unify_plain (joinWords ws ++ List.replicate k 32) [] 0 none hplain
  simp only [List.append_nil, unify] at hun
  obtain ⟨st, hq, hloop⟩ := words_loop ha [] (List.replicate z 0) k NState.init
    ⟨rfl, rfl, rfl, rfl, rfl, rfl, rfl, rfl⟩
  have hlt : (joinWords ws').length = (joinWords ws).length := by
    rw [joinWords_length, joinWords_length, f1]
  unfold normalize
  rw [hfe, hn]
  dsimp only
  rw [← hn, List.take_left, List.drop_left, hun]
  dsimp only
  have e1 : (joinWords ws ++ List.replicate k 32).length = k + (joinWords ws).length := by simp; omega
  simp only [List.nil_append, List.length_nil, Nat.zero_add] at hloop
  rw [show ({ NState.init with frequencySeparator := none } : NState) = NState.init from rfl, List.append_assoc, e1,
    hloop]
  dsimp only
  rw [hq.sample, hq.separator, if_neg (by decide), show frequencyOnly _ none = false from rfl,
    if_neg (by decide)]
  rw [← List.append_assoc, List.take_append_of_le_length (by simp [hlt]), List.take_of_length_le (by simp [hlt]),
    compact_words _ _ _ (by simp), Option.getD_none, words_turned ha k]
  have hroom : (joinWords Ws.flatten).length < 48 := by
    rw [joinWords_length]
    rw [e1, joinWords_length] at hl
    omega
  generalize Ws.flatten = L at hroom hdash ⊢
  cases L with
  | nil =>
    simp only [emitAll, hq.frequency]
    rfl
  | cons v L =>
    rw [joinWords_flat] at hroom ⊢
    have hv := hdash v (by simp)
    have he : emit ⟨[], true, 1⟩ v = some ⟨v, false, 1⟩ := by
      unfold emit
      have e2 : (v.getLast? == some 45) = false := by simpa using hv.2
      simp only [e2, Bool.not_true, Bool.and_false, Bool.false_eq_true, if_false, List.nil_append, List.append_nil]
      rw [if_pos]
      rw [List.length_append] at hroom
      omega
    rw [emitAll, he]
    dsimp only
    rw [emitAll_plain L _ rfl (fun u hu => hdash u (by simp [hu])) (by exact Nat.le_of_lt hroom)]
    dsimp only
    rw [hq.frequency, if_neg (by simp), if_pos hroom]

end Verif.X86Name
