import Verif.Proof.X86NameCoreRun

/-!
# Brand strings of AMD Ryzen processors
-/

set_option autoImplicit false

namespace Verif.X86Name
open Spec

theorem findEnd_pad (s : Bytes) (z : Nat) (hl : s.length + z = 48) (h0 : s ≠ [])
    (hs : s.getLast? ≠ some 0) : findEnd (s ++ List.replicate z 0) 48 = some s.length := by
  obtain ⟨e, he, hle, hz, hnz⟩ := findEnd_spec (s ++ List.replicate z 0) 48
    (by simp only [List.length_append, List.length_replicate]; omega)
  have hp : 0 < s.length := List.length_pos_iff.mpr h0
  have hee : e = s.length := by
    apply Nat.le_antisymm
    · apply Nat.not_lt.mp
      intro hlt
      obtain ⟨c', h1, h2⟩ := hnz (by omega)
      rw [List.getElem?_append_right (by omega), List.getElem?_replicate] at h1
      split at h1
      · cases h1; exact h2 rfl
      · cases h1
    · apply Nat.not_lt.mp
      intro hlt
      have := hz (s.length - 1) (by omega) (by omega)
      rw [List.getElem?_append_left (by omega), ← List.getLast?_eq_getElem?] at this
      exact hs this
  rw [he, hee]

/-- A token that is erased. -/
theorem transform_erased (x t y : Bytes) (prev : NState) (core : Bool) (hp : prev.parsedModelNumber = false)
    (hw : findWord t eraseWords = some (true, core)) (h1 : t.getLast? ≠ some 109) (h2 : t.head? ≠ some 65) :
    transformToken (x ++ t ++ y) x.length (x.length + t.length) prev =
      some (x ++ List.replicate t.length 32 ++ y,
        if core then { resetContext prev with contextCore := some (x.length + t.length) }
        else resetContext prev, true) := by
  unfold transformToken
  dsimp only
  rw [blankFrequency_none _ _ _ _ (by exact hp)]
  dsimp only
  rw [stripTm_zip x t y h1]
  dsimp only
  rw [stripAmd_zip x t y h2]
  dsimp only
  unfold switchWords
  rw [load_token]
  dsimp only
  rw [hw]
  dsimp only
  rw [blank_zip]
  rfl

/-- Nothing is known that concerns the tokens to come. -/
structure Calm (st : NState) : Prop where
  upper : st.contextUpperLetter = none
  parsed : st.parsedModelNumber = false
  separator : st.frequencySeparator = none
  sample : st.engineeringSample = false

theorem calm_keep (x t y : Bytes) (n : Nat) (st : NState) (hc : Calm st) (h32 : 32 ∉ t) (h0 : t ≠ [])
    (hk : Unknown t) (hz : isZeroNumber t = false) (h1 : t.getLast? ≠ some 109) (h2 : t.head? ≠ some 65) :
    ∃ st', Calm st' ∧ tokenLoop (n + 1 + t.length) x.length (x ++ t ++ 32 :: y) none st =
      tokenLoop n (x.length + t.length + 1) (x ++ t ++ 32 :: y) none st' := by
  have ht := transform_unknown x t (32 :: y) t st hc.upper (blankFrequency_none _ _ _ _ (by exact hc.parsed))
    hk hz h1 h2
  refine ⟨_, ?_, tokenLoop_word t x y _ n st _ h32 h0 ht⟩
  constructor
  · rfl
  · simp [hc.parsed, hc.separator]
  · exact hc.separator
  · exact hc.sample

theorem calm_core {st : NState} (hc : Calm st) (core : Bool) (p : Nat) :
    Calm (if core then { resetContext st with contextCore := some p } else resetContext st) := by
  cases core
  · exact ⟨rfl, hc.parsed, hc.separator, hc.sample⟩
  · exact ⟨rfl, hc.parsed, hc.separator, hc.sample⟩

theorem calm_erase (x t y : Bytes) (n : Nat) (st : NState) (core : Bool) (hc : Calm st) (h32 : 32 ∉ t)
    (h0 : t ≠ []) (hw : findWord t eraseWords = some (true, core)) (h1 : t.getLast? ≠ some 109)
    (h2 : t.head? ≠ some 65) :
    ∃ st', Calm st' ∧ tokenLoop (n + 1 + t.length) x.length (x ++ t ++ 32 :: y) none st =
      tokenLoop n (x.length + t.length + 1) (x ++ List.replicate t.length 32 ++ 32 :: y) none st' :=
  ⟨_, calm_core hc core _, tokenLoop_word t x y _ n st _ h32 h0
    (transform_erased x t (32 :: y) st core hc.parsed hw h1 h2)⟩

theorem tokenLoop_spaces (n : Nat) : ∀ (x z : Bytes) (st : NState),
    tokenLoop n x.length (x ++ List.replicate n 32 ++ z) none st =
      some (x ++ List.replicate n 32 ++ z, x.length + n, st) := by
  induction n with
  | zero => intro x z st; simp [tokenLoop]
  | succ n ih =>
    intro x z st
    have h := tokenLoop_space x (List.replicate n 32 ++ z) n st
    have h' := ih (x ++ [32]) z st
    simp only [List.append_assoc, List.cons_append, List.nil_append, List.length_append, List.length_cons,
      List.length_nil, List.replicate_succ, Nat.zero_add] at h h' ⊢
    rw [h, h', show x.length + 1 + n = x.length + (n + 1) by omega]

/-- "Processor" and the spaces after it. -/
theorem calm_processor (x z : Bytes) (k : Nat) (st : NState) (hc : Calm st) :
    ∃ st', Calm st' ∧
      tokenLoop (k + 9) x.length (x ++ b!"Processor" ++ (List.replicate k 32 ++ z)) none st =
      some (x ++ List.replicate (9 + k) 32 ++ z, x.length + 9 + k, st') := by
  cases k with
  | zero =>
    have ht := transform_erased x b!"Processor" z st false hc.parsed (by decide) (by decide) (by decide)
    have he := tokenLoop_enter b!"Processor" x z 0 st (by decide) (by decide)
    rw [tokenLoop, ht] at he
    exact ⟨resetContext st, calm_core hc false 0, he⟩
  | succ k =>
    obtain ⟨st', hc', he⟩ := calm_erase x b!"Processor" (List.replicate k 32 ++ z) k st false hc (by decide)
      (by decide) (by decide) (by decide) (by decide)
    have hs := tokenLoop_spaces k (x ++ List.replicate 10 32) z st'
    refine ⟨st', hc', ?_⟩
    rw [List.length_append, List.length_replicate] at hs
    have e1 : x ++ List.replicate (b!"Processor").length 32 ++ 32 :: (List.replicate k 32 ++ z) =
        x ++ List.replicate 10 32 ++ List.replicate k 32 ++ z := by
      simp [List.replicate]
    rw [e1] at he
    rw [show k + 1 + 9 = k + 1 + (b!"Processor").length from rfl, List.replicate_succ, List.cons_append, he]
    rw [show x.length + (b!"Processor").length + 1 = x.length + 10 from rfl, hs]
    rw [List.append_assoc x, List.replicate_append_replicate, show 10 + k = 9 + (k + 1) by omega,
      show x.length + 10 + k = x.length + 9 + (k + 1) by omega]

/-- The last loop on words without a dash at either end. -/
theorem emitAll_plain (ws : List Bytes) : ∀ s : Compact, s.endsWithDash = false →
    (∀ w ∈ ws, w.head? ≠ some 45 ∧ w.getLast? ≠ some 45) →
    (s.out ++ ws.flatMap (32 :: ·)).length ≤ 48 →
    emitAll ws s = some ⟨s.out ++ ws.flatMap (32 :: ·), false, s.tokenCount + ws.length⟩ := by
  induction ws with
  | nil => intro s h _ _; cases s; simp at h; simp [emitAll, h]
  | cons w ws ih =>
    intro s h hw hl
    obtain ⟨h1, h2⟩ := hw w (by simp)
    have he : emit s w = some ⟨s.out ++ 32 :: w, false, s.tokenCount + 1⟩ := by
      unfold emit
      have e1 : (w.head? == some 45) = false := by simpa using h1
      have e2 : (w.getLast? == some 45) = false := by simpa using h2
      simp only [e1, e2, h, Bool.not_false, Bool.and_self, if_true, List.append_assoc, List.cons_append,
        List.nil_append]
      rw [if_pos]
      simp only [List.flatMap_cons, List.length_append, List.length_cons] at hl ⊢
      omega
    rw [emitAll, he]
    dsimp only
    rw [ih _ rfl (fun v hv => hw v (by simp [hv])) (by simpa using hl)]
    simp
    omega

/-- What becomes of the word `w`: the text `w'`, with the words `W` in it. -/
structure Becomes (w w' : Bytes) (W : List Bytes) : Prop where
  length : w'.length = w.length
  words : ∀ l, wordsFrom [] (w' ++ 32 :: l) = W ++ wordsFrom [] l
  dash : ∀ v ∈ W, v.head? ≠ some 45 ∧ v.getLast? ≠ some 45
  room : (W.flatMap (32 :: ·)).length ≤ w.length + 1
  plain : ∀ c ∈ w, c ∉ strippedChars
  run : ∀ x y n st, Calm st → ∃ st', Calm st' ∧
    tokenLoop (n + 1 + w.length) x.length (x ++ w ++ 32 :: y) none st =
      tokenLoop n (x.length + w.length + 1) (x ++ w' ++ 32 :: y) none st'

theorem wordsFrom_word (w l : Bytes) (h : 32 ∉ w) (h0 : w ≠ []) :
    wordsFrom [] (w ++ 32 :: l) = w :: wordsFrom [] l := by
  rw [wordsFrom_append w h, List.nil_append, wordsFrom, if_pos rfl, if_neg h0]

theorem wordsFrom_blank (n : Nat) (l : Bytes) : wordsFrom [] (List.replicate n 32 ++ l) = wordsFrom [] l := by
  induction n with
  | zero => rfl
  | succ n ih => rw [List.replicate_succ, List.cons_append, wordsFrom, if_pos rfl, if_pos rfl, ih]

theorem becomes_kept (t : Bytes) (hp : ∀ c ∈ t, c ≠ 32 ∧ c ∉ strippedChars) (h0 : t ≠ [])
    (hk : Unknown t) (hz : isZeroNumber t = false) (h1 : t.getLast? ≠ some 109) (h2 : t.head? ≠ some 65)
    (h3 : t.head? ≠ some 45) (h4 : t.getLast? ≠ some 45) : Becomes t t [t] where
  length := rfl
  words := fun l => wordsFrom_word t l (fun h => (hp 32 h).1 rfl) h0
  dash := by simpa using ⟨h3, h4⟩
  room := by simp
  plain := fun c hc => (hp c hc).2
  run := fun x y n st hc => calm_keep x t y n st hc (fun h => (hp 32 h).1 rfl) h0 hk hz h1 h2

theorem becomes_erased (t : Bytes) (hp : ∀ c ∈ t, c ≠ 32 ∧ c ∉ strippedChars) (h0 : t ≠ []) (core : Bool)
    (hw : findWord t eraseWords = some (true, core)) (h1 : t.getLast? ≠ some 109) (h2 : t.head? ≠ some 65) :
    Becomes t (List.replicate t.length 32) [] where
  length := by simp
  words := fun l => by
    rw [wordsFrom_blank, wordsFrom, if_pos rfl, if_pos rfl, List.nil_append]
  dash := by simp
  room := by simp
  plain := fun c hc => (hp c hc).2
  run := fun x y n st hc => calm_erase x t y n st core hc (fun h => (hp 32 h).1 rfl) h0 hw h1 h2

theorem ryzen_first (rest : Bytes) (k : Nat) :
    tokenLoop (k + 10) 0 (b!"AMD Ryzen " ++ rest) none NState.init =
    tokenLoop k 10 (b!"    Ryzen " ++ rest) none NState.init := by
  simp [tokenLoop, transformToken, blankFrequency_none, stripTm, stripAmd, load, switchWords, resetContext,
    NState.init, eraseWords, findWord, specialWords, longWords, finishToken, isZeroNumber, mergeLetter,
    isModelNumber, isFrequency, isDigit, isUpperLetter, blank, store]

theorem ryzen_loop (s m w s' m' w' z : Bytes) (S M W : List Bytes) (k : Nat) (hs : Becomes s s' S)
    (hm : Becomes m m' M) (hw : Becomes w w' W) :
    ∃ st, Calm st ∧ tokenLoop (ryzenBrand s m w k).length 0 (ryzenBrand s m w k ++ z) none NState.init =
      some (b!"    Ryzen " ++ (s' ++ 32 :: (m' ++ 32 :: (w' ++ 32 :: List.replicate (9 + k) 32))) ++ z,
        (ryzenBrand s m w k).length, st) := by
  have hl : (ryzenBrand s m w k).length = k + 9 + 1 + w.length + 1 + m.length + 1 + s.length + 10 := by
    simp [ryzenBrand]; omega
  have c0 : Calm NState.init := ⟨rfl, rfl, rfl, rfl⟩
  have a0 := ryzen_first (s ++ 32 :: (m ++ 32 :: (w ++ 32 :: (b!"Processor" ++ (List.replicate k 32 ++ z)))))
    (k + 9 + 1 + w.length + 1 + m.length + 1 + s.length)
  obtain ⟨s1, c1, a1⟩ := hs.run b!"    Ryzen "
    (m ++ 32 :: (w ++ 32 :: (b!"Processor" ++ (List.replicate k 32 ++ z))))
    (k + 9 + 1 + w.length + 1 + m.length) _ c0
  obtain ⟨s2, c2, a2⟩ := hm.run (b!"    Ryzen " ++ s' ++ [32])
    (w ++ 32 :: (b!"Processor" ++ (List.replicate k 32 ++ z))) (k + 9 + 1 + w.length) _ c1
  obtain ⟨s3, c3, a3⟩ := hw.run (b!"    Ryzen " ++ s' ++ [32] ++ m' ++ [32])
    (b!"Processor" ++ (List.replicate k 32 ++ z)) (k + 9) _ c2
  obtain ⟨s4, c4, a4⟩ := calm_processor (b!"    Ryzen " ++ s' ++ [32] ++ m' ++ [32] ++ w' ++ [32]) z k _ c3
  refine ⟨s4, c4, ?_⟩
  have l1 : (b!"    Ryzen ").length + s.length + 1 = (b!"    Ryzen " ++ s' ++ [32]).length := by
    simp [hs.length]; omega
  have l2 : (b!"    Ryzen " ++ s' ++ [32]).length + m.length + 1 =
      (b!"    Ryzen " ++ s' ++ [32] ++ m' ++ [32]).length := by simp [hm.length]; omega
  have l3 : (b!"    Ryzen " ++ s' ++ [32] ++ m' ++ [32]).length + w.length + 1 =
      (b!"    Ryzen " ++ s' ++ [32] ++ m' ++ [32] ++ w' ++ [32]).length := by simp [hw.length]; omega
  have l4 : (b!"    Ryzen " ++ s' ++ [32] ++ m' ++ [32] ++ w' ++ [32]).length + 9 + k =
      (ryzenBrand s m w k).length := by rw [hl]; simp [hs.length, hm.length, hw.length]; omega
  rw [l1] at a1
  rw [l2] at a2
  rw [l3] at a3
  rw [l4] at a4
  rw [← hl] at a0
  have e : ryzenBrand s m w k ++ z = b!"AMD Ryzen " ++
      (s ++ 32 :: (m ++ 32 :: (w ++ 32 :: (b!"Processor" ++ (List.replicate k 32 ++ z))))) := by
    simp [ryzenBrand]
  rw [e, a0]
  simp only [List.append_assoc, List.cons_append, List.nil_append] at a1 a2 a3 a4 ⊢
  exact a1.trans (a2.trans (a3.trans a4))

/-- The name of an AMD Ryzen processor. -/
theorem ryzen_name (s m w s' m' w' : Bytes) (S M W : List Bytes) (k z : Nat) (hs : Becomes s s' S)
    (hm : Becomes m m' M) (hw : Becomes w w' W) (h0 : S ≠ []) (hl : (ryzenBrand s m w k).length + z = 48) :
    normalize (ryzenBrand s m w k ++ List.replicate z 0) =
      some (b!"Ryzen" ++ (S ++ M ++ W).flatMap (32 :: ·),
        (b!"Ryzen" ++ (S ++ M ++ W).flatMap (32 :: ·)).length) := by
  have hlen : (ryzenBrand s m w k).length = 22 + s.length + m.length + w.length + k := by
    simp [ryzenBrand]; omega
  have hlast : (ryzenBrand s m w k).getLast? ≠ some 0 := by
    unfold ryzenBrand
    rw [List.getLast?_append, List.getLast?_replicate]
    split
    · rw [Option.none_or, List.getLast?_append]
      exact (by decide : (some 114 : Option Nat) ≠ some 0)
    · simp
  have hfe := findEnd_pad (ryzenBrand s m w k) z hl (by intro h; rw [h] at hlen; simp at hlen; omega) hlast
  have hplain : ∀ c ∈ ryzenBrand s m w k, c ∉ strippedChars := by
    intro c hc
    simp only [ryzenBrand, List.mem_append, List.mem_cons, List.mem_replicate] at hc
    have h32 : (32 : Byte) ∉ strippedChars := by decide
    have hA : ∀ c ∈ b!"AMD Ryzen ", c ∉ strippedChars := by decide
    have hP : ∀ c ∈ 32 :: b!"Processor", c ∉ strippedChars := by decide
    rcases hc with ((((hc | hc) | hc | hc) | hc | hc) | hc) | hc
    · exact hA c (by simpa using hc)
    · exact hs.plain c hc
    · rw [hc]; exact h32
    · exact hm.plain c hc
    · rw [hc]; exact h32
    · exact hw.plain c hc
    · exact hP c (by simpa using hc)
    · rw [hc.2]; exact h32
  have hun := unify_plain (ryzenBrand s m w k) [] 0 none hplain
  simp only [List.append_nil, unify] at hun
  obtain ⟨st, hc, hloop⟩ := ryzen_loop s m w s' m' w' (List.replicate z 0) S M W k hs hm hw
  unfold normalize
  rw [hfe]
  obtain ⟨n, hn⟩ : ∃ n, (ryzenBrand s m w k).length = n + 1 := ⟨_, hlen.trans (by
    show _ = 21 + s.length + m.length + w.length + k + 1
    omega)⟩
  rw [hn]
  dsimp only
  rw [← hn, List.take_left, List.drop_left, hun]
  dsimp only
  rw [show ({ NState.init with frequencySeparator := none } : NState) = NState.init from rfl, hloop]
  dsimp only
  rw [hc.sample, hc.separator, if_neg (by decide), show frequencyOnly _ none = false from rfl,
    if_neg (by decide)]
  rw [List.take_append_of_le_length (by
      simp [hs.length, hm.length, hw.length]; omega),
    List.take_of_length_le (by simp [hs.length, hm.length, hw.length]; omega)]
  have hwords : wordsFrom [] (b!"    Ryzen " ++
      (s' ++ 32 :: (m' ++ 32 :: (w' ++ 32 :: List.replicate (9 + k) 32)))) = b!"Ryzen" :: (S ++ M ++ W) := by
    have e : wordsFrom [] (s' ++ 32 :: (m' ++ 32 :: (w' ++ 32 :: List.replicate (9 + k) 32))) = S ++ M ++ W := by
      rw [hs.words, hm.words, hw.words, wordsFrom_spaces, List.append_nil, List.append_assoc]
    rw [← e]
    simp [wordsFrom]
  rw [compact_words _ _ _ (by simp), Option.getD_none, hwords, emitAll]
  rw [show emit ⟨[], true, 1⟩ b!"Ryzen" = some ⟨b!"Ryzen", false, 1⟩ from rfl]
  dsimp only
  have hroom : (b!"Ryzen" ++ (S ++ M ++ W).flatMap (32 :: ·)).length < 48 := by
    have := hs.room
    have := hm.room
    have := hw.room
    simp only [List.flatMap_append, List.length_append, List.length_cons, List.length_nil] at *
    omega
  rw [emitAll_plain _ _ rfl (by
      intro v hv
      simp only [List.mem_append] at hv
      rcases hv with (hv | hv) | hv
      · exact hs.dash v hv
      · exact hm.dash v hv
      · exact hw.dash v hv) (by exact Nat.le_of_lt hroom)]
  dsimp only
  have hS : 0 < S.length := List.length_pos_iff.mpr h0
  rw [if_neg (by simp only [List.length_append]; omega), if_pos hroom]

/-- A word that starts with a digit is unknown unless it is "12-Core" or "16-Core". -/
theorem unknown_digit (d : Byte) (l : Bytes) (hd : 49 ≤ d ∧ d ≤ 57)
    (h : d :: l ≠ b!"12-Core" ∧ d :: l ≠ b!"16-Core") : Unknown (d :: l) := by
  have key : ∀ w : Bytes, w.head? ≠ some 49 → (∀ c ∈ w.head?, c < 49 ∨ 57 < c) → d :: l ≠ w := by
    intro w _ h2 he
    subst he
    have := h2 d rfl
    omega
  constructor
  · have : ∀ w r, (w, r) ∈ eraseWords → d :: l ≠ w := by
      intro w r hw
      have tab : ∀ p ∈ eraseWords, p.1 = b!"12-Core" ∨ p.1 = b!"16-Core" ∨
          (p.1.head? ≠ some 49 ∧ ∀ c ∈ p.1.head?, c < 49 ∨ 57 < c) := by decide
      rcases tab _ hw with h1 | h1 | h1
      · dsimp only at h1; rw [h1]; exact h.1
      · dsimp only at h1; rw [h1]; exact h.2
      · exact key w h1.1 h1.2
    revert this
    generalize eraseWords = ws
    intro this
    induction ws with
    | nil => rfl
    | cons p ws ih =>
      obtain ⟨w, r⟩ := p
      rw [findWord, if_neg (this w r (by simp))]
      exact ih (fun w r hw => this w r (by simp [hw]))
  · intro b ts te prev st
    match l with
    | [] =>
      have : isUpperLetter d = false := by simp [isUpperLetter]; omega
      simp [specialWords, this]
    | [e] =>
      have : (d == 86) = false := by simp; omega
      simp [specialWords, this]
    | e :: e' :: l =>
      have hne : ∀ c, 57 < c → d ≠ c := fun c hc => by omega
      simp [specialWords, longWords, hne]

theorem becomes_model (m : Bytes) (hm : RyzenModel m) : Becomes m m [m] := by
  obtain ⟨d, tail, rfl, hd, ht⟩ := hm
  have hch : ∀ c ∈ d :: tail, (48 ≤ c ∧ c ≤ 57) ∨ (65 ≤ c ∧ c ≤ 90) := by
    intro c hc
    rcases List.mem_cons.mp hc with rfl | hc
    · omega
    · exact ht c hc
  have hlast : ∀ x, (x = 109 ∨ x = 45) → (d :: tail).getLast? ≠ some x := by
    intro x hx he
    have := hch x (List.mem_of_getLast? he)
    omega
  refine becomes_kept _ ?_ (by simp) (unknown_digit d tail hd ⟨?_, ?_⟩) ?_ (hlast _ (.inl rfl)) ?_ ?_
    (hlast _ (.inr rfl))
  · intro c hc
    have := hch c hc
    simp only [strippedChars, List.mem_cons, List.not_mem_nil, or_false]
    omega
  · intro he
    have := hch 45 (by rw [he]; decide)
    omega
  · intro he
    have := hch 45 (by rw [he]; decide)
    omega
  · simp [isZeroNumber]
    omega
  · simp; omega
  · simp; omega

theorem becomes_series (s : Bytes) (hs : RyzenSeries s) : Becomes s s [s] := by
  rcases hs with rfl | ⟨g, rfl, hg⟩
  · refine becomes_kept _ (by decide) (by decide) ⟨by decide, ?_⟩ (by decide) (by decide) (by decide) (by decide)
      (by decide)
    intro b ts te prev st
    simp [specialWords, longWords]
  · exact becomes_model [g] ⟨g, [], rfl, hg, by simp⟩

theorem becomes_spelled (w : Bytes) (hw : w ∈ spelledCores ∨ w = b!"12-Core" ∨ w = b!"16-Core") :
    Becomes w (List.replicate w.length 32) [] := by
  have hw' : w ∈ spelledCores ++ [b!"12-Core", b!"16-Core"] := by
    rcases hw with h | h | h <;> simp [h]
  have tab : ∀ v ∈ spelledCores ++ [b!"12-Core", b!"16-Core"], (∀ c ∈ v, c ≠ 32 ∧ c ∉ strippedChars) ∧ v ≠ [] ∧
      (findWord v eraseWords = some (true, true) ∨ findWord v eraseWords = some (true, false)) ∧
      v.getLast? ≠ some 109 ∧ v.head? ≠ some 65 := by decide
  obtain ⟨h1, h2, h3, h4, h5⟩ := tab w hw'
  rcases h3 with h3 | h3
  · exact becomes_erased w h1 h2 true h3 h4 h5
  · exact becomes_erased w h1 h2 false h3 h4 h5

theorem becomes_digits (w : Bytes) (hw : DigitCores w) (h : w ≠ b!"12-Core" ∧ w ≠ b!"16-Core") :
    Becomes w w [w] := by
  obtain ⟨d, ds, rfl, hd, hds⟩ := hw
  have hlast : ((d :: ds) ++ b!"-Core").getLast? = some 101 := by
    rw [List.getLast?_append]; rfl
  refine becomes_kept _ ?_ (by simp) (unknown_digit d (ds ++ b!"-Core") hd h) ?_ (by rw [hlast]; decide) ?_ ?_
    (by rw [hlast]; decide)
  · intro c hc
    have hC : ∀ c ∈ b!"-Core", c ≠ 32 ∧ c ∉ strippedChars := by decide
    rcases List.mem_append.mp hc with hc | hc
    · have : 48 ≤ c ∧ c ≤ 57 := by
        rcases List.mem_cons.mp hc with rfl | hc
        · omega
        · exact hds c hc
      simp only [strippedChars, List.mem_cons, List.not_mem_nil, or_false]
      omega
    · exact hC c hc
  · simp [isZeroNumber]
  · simp; omega
  · simp; omega

end Verif.X86Name
