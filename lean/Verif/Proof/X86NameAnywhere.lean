import Verif.Proof.X86NameWords

/-!
# Engineering samples after other words
-/

set_option autoImplicit false

namespace Verif.X86Name
open Spec

theorem words_prefix {ws ws' : List Bytes} {Ws : List (List Bytes)} (ha : TurnsAll ws ws' Ws) :
    ∀ (x y : Bytes) (k : Nat) (st : NState), Quiet st → ∃ st' x', Quiet st' ∧
      x'.length = x.length + (ws.flatMap (· ++ [32])).length ∧
      tokenLoop (k + (ws.flatMap (· ++ [32])).length) x.length (x ++ (ws.flatMap (· ++ [32]) ++ y)) none st =
        tokenLoop k x'.length (x' ++ y) none st' := by
  induction ha with
  | nil => intro x y k st hq; exact ⟨st, x, hq, by simp, by simp⟩
  | @cons w w' W ws ws' Ws tw ha ih =>
    intro x y k st hq
    have h32 : 32 ∉ w := fun h => (tw.chars 32 h).1 rfl
    obtain ⟨st1, hq1, ht⟩ := tw.run x (32 :: (ws.flatMap (· ++ [32]) ++ y)) st hq
    obtain ⟨st2, x2, hq2, hl2, hi⟩ := ih (x ++ w' ++ [32]) y k st1 hq1
    have he := tokenLoop_word w x (ws.flatMap (· ++ [32]) ++ y) _
      (k + (ws.flatMap (· ++ [32])).length) st st1 h32 tw.nonempty ht
    have hl : (x ++ w' ++ [32]).length = x.length + w.length + 1 := by
      simp [tw.length]
      omega
    refine ⟨st2, x2, hq2, ?_, ?_⟩
    · rw [hl2, hl]
      simp only [List.flatMap_cons, List.length_append, List.length_cons, List.length_nil]
      omega
    · rw [← hi, hl]
      have l1 : k + ((w :: ws).flatMap (· ++ [32])).length = k + (ws.flatMap (· ++ [32])).length + 1 + w.length := by
        simp only [List.flatMap_cons, List.length_append, List.length_cons, List.length_nil]
        omega
      rw [l1, List.flatMap_cons]
      simp only [List.append_assoc, List.cons_append, List.nil_append] at he ⊢
      exact he

/-- The mark that "Eng" or "Engineering" leaves. -/
theorem transform_engineering (x t y : Bytes) (prev : NState) (hq : Quiet prev)
    (ht : t = b!"Eng" ∨ t = b!"Engineering") :
    ∃ st', st'.contextEngineering = some x.length ∧ st'.parsedModelNumber = false ∧
      transformToken (x ++ t ++ y) x.length (x.length + t.length) prev = some (x ++ t ++ y, st', true) := by
  have h1 : t.getLast? ≠ some 109 := by rcases ht with rfl | rfl <;> decide
  have h2 : t.head? ≠ some 65 := by rcases ht with rfl | rfl <;> decide
  have h3 : findWord t eraseWords = none := by rcases ht with rfl | rfl <;> decide
  have h4 : isZeroNumber t = false := by rcases ht with rfl | rfl <;> decide
  unfold transformToken
  dsimp only
  rw [blankFrequency_none _ _ _ _ (by exact hq.parsed)]
  dsimp only
  rw [stripTm_zip x t y h1]
  dsimp only
  rw [stripAmd_zip x t y h2]
  dsimp only
  unfold switchWords
  rw [load_token]
  dsimp only
  rw [h3]
  dsimp only
  rcases ht with rfl | rfl
  · rw [show specialWords (x ++ b!"Eng" ++ y) b!"Eng" x.length (x.length + (b!"Eng").length) prev (resetContext prev) =
      some (.goOn { resetContext prev with contextEngineering := some x.length }) from rfl]
    dsimp only
    rw [finish_zip x b!"Eng" y prev _ hq.upper h4]
    exact ⟨_, rfl, by simp [resetContext, hq.parsed, hq.separator], rfl⟩
  · rw [show specialWords (x ++ b!"Engineering" ++ y) b!"Engineering" x.length
      (x.length + (b!"Engineering").length) prev (resetContext prev) =
      some (.ret (x ++ b!"Engineering" ++ y) { resetContext prev with contextEngineering := some x.length } true)
      from rfl]
    exact ⟨{ resetContext prev with contextEngineering := some x.length }, rfl, hq.parsed, rfl⟩

/-- The verdict that "Sample" brings. -/
theorem transform_sample (x t y : Bytes) (prev : NState) (p : Nat) (hp : prev.parsedModelNumber = false)
    (he : prev.contextEngineering = some p) (ht : t ∈ [b!"Sample", b!"Sample,", b!"Sample:"]) :
    ∃ st', st'.engineeringSample = true ∧
      transformToken (x ++ t ++ y) x.length (x.length + t.length) prev = some (x ++ t ++ y, st', false) := by
  have tab : ∀ t ∈ [b!"Sample", b!"Sample,", b!"Sample:"], t.getLast? ≠ some 109 ∧ t.head? ≠ some 65 ∧
    findWord t eraseWords = none := by decide
  obtain ⟨h1, h2, h3⟩ := tab t ht
  have h4 : specialWords (x ++ t ++ y) t x.length (x.length + t.length) prev (resetContext prev) =
      some (.ret (x ++ t ++ y) { resetContext prev with engineeringSample := true } false) := by
    simp only [List.mem_cons, List.not_mem_nil, or_false] at ht
    rcases ht with rfl | rfl | rfl <;> simp [specialWords, longWords, he]
  unfold transformToken
  dsimp only
  rw [blankFrequency_none _ _ _ _ (by exact hp)]
  dsimp only
  rw [stripTm_zip x t y h1]
  dsimp only
  rw [stripAmd_zip x t y h2]
  dsimp only
  unfold switchWords
  rw [load_token]
  dsimp only
  rw [h3]
  dsimp only
  rw [h4]
  exact ⟨_, rfl, rfl⟩

theorem unify_separator (l : Bytes) : ∀ (i : Nat) (inside : Bool) (sep : Option Nat), 64 ∉ l →
    (unify l i inside sep).2 = sep := by
  induction l with
  | nil => intros; rfl
  | cons c l ih =>
    intro i inside sep h
    have hc : c ≠ 64 := fun hh => h (by simp [hh])
    have hl : 64 ∉ l := fun hh => h (by simp [hh])
    unfold unify
    split
    · exact ih _ _ _ hl
    · split
      · exact ih _ _ _ hl
      · split <;> exact ih _ _ _ hl

/-- A brand string is discarded that has the words of an engineering sample after other words. -/
theorem discarded_anywhere {ws ws' : List Bytes} {Ws : List (List Bytes)} (ha : TurnsAll ws ws' Ws)
    (t s : Bytes) (ht : t = b!"Eng" ∨ t = b!"Engineering") (hs : s ∈ [b!"Sample", b!"Sample,", b!"Sample:"])
    (c : Byte) (hc : c = 32 ∨ c ∈ strippedChars) (rest : Bytes) (h64 : 64 ∉ c :: rest)
    (h : (ws.flatMap (· ++ [32]) ++ t ++ 32 :: s ++ c :: rest).length = 48) :
    Discarded (ws.flatMap (· ++ [32]) ++ t ++ 32 :: s ++ c :: rest) := by
  obtain ⟨_, _, _, f4⟩ := turnsAll_facts ha
  have ht32 : 32 ∉ t ∧ t ≠ [] ∧ ∀ d ∈ t, d ∉ strippedChars := by rcases ht with rfl | rfl <;> decide
  have tabs : ∀ s ∈ [b!"Sample", b!"Sample,", b!"Sample:"], 32 ∉ s ∧ s ≠ [] ∧ s[s.length - 1]? ≠ some 0 ∧
    ∀ d ∈ s, d ∉ strippedChars := by decide
  obtain ⟨hs32, hs0, hsl, hsp⟩ := tabs s hs
  have hpos : 0 < s.length := List.length_pos_iff.mpr hs0
  generalize hP : ws.flatMap (· ++ [32]) ++ t ++ 32 :: s = P at h ⊢
  have hPl : P.length = (ws.flatMap (· ++ [32])).length + t.length + 1 + s.length := by
    rw [← hP]
    simp only [List.length_append, List.length_cons]
    omega
  have hPlast : P[P.length - 1]? ≠ some 0 := by
    rw [hPl, ← hP, List.getElem?_append_right (by simp only [List.length_append]; omega)]
    have : (ws.flatMap (· ++ [32])).length + t.length + 1 + s.length - 1 -
        (ws.flatMap (· ++ [32]) ++ t).length = (s.length - 1) + 1 := by
      simp only [List.length_append]; omega
    rw [this, List.getElem?_cons_succ]
    exact hsl
  have hPp : ∀ d ∈ P, d ∉ strippedChars := by
    intro d hd
    have h32 : (32 : Byte) ∉ strippedChars := by decide
    rw [← hP] at hd
    simp only [List.mem_append, List.mem_cons, List.mem_flatMap] at hd
    rcases hd with (⟨w, hw, hd | hd⟩ | hd) | hd | hd
    · exact (f4 w hw).2 d hd
    · rcases hd with rfl | hd
      · exact h32
      · cases hd
    · exact ht32.2.2 d hd
    · rw [hd]; exact h32
    · exact hsp d hd
  obtain ⟨e, he, hle, hz, hnz⟩ := findEnd_spec (P ++ c :: rest) 48 (by omega)
  have hge : P.length ≤ e := by
    apply Classical.byContradiction
    intro hlt
    have := hz (P.length - 1) (by omega) (by rw [List.length_append] at h; omega)
    rw [List.getElem?_append_left (by omega)] at this
    exact hPlast this
  obtain ⟨e, rfl⟩ : ∃ k, e = k + 1 := ⟨e - 1, by omega⟩
  -- the loop, whatever follows
  have loop : ∀ (k : Nat) (y : Bytes), (k = 0 ∨ ∃ y', y = 32 :: y') →
      ∃ b n st, tokenLoop (k + P.length) 0 (P ++ y) none NState.init = some (b, n, st) ∧
        st.engineeringSample = true := by
    intro k y hy
    obtain ⟨s1, x1, q1, l1, a1⟩ := words_prefix ha [] (t ++ 32 :: (s ++ y)) (k + s.length + 1 + t.length) NState.init
      ⟨rfl, rfl, rfl, rfl, rfl, rfl, rfl, rfl⟩
    obtain ⟨s2, g1, g2, g3⟩ := transform_engineering x1 t (32 :: (s ++ y)) s1 q1 ht
    have a2 := tokenLoop_word t x1 (s ++ y) _ (k + s.length) s1 s2 ht32.1 ht32.2.1 g3
    obtain ⟨s3, g4, g5⟩ := transform_sample (x1 ++ t ++ [32]) s y s2 _ g2 g1 hs
    have a3 := tokenLoop_enter s (x1 ++ t ++ [32]) y k s2 hs32 hs0
    have e1 : k + P.length = k + s.length + 1 + t.length + (ws.flatMap (· ++ [32])).length := by omega
    have e2 : P ++ y = ws.flatMap (· ++ [32]) ++ (t ++ 32 :: (s ++ y)) := by rw [← hP]; simp
    have e3 : (x1 ++ t ++ [32]).length = x1.length + t.length + 1 := by simp; omega
    simp only [List.nil_append, List.length_nil] at a1
    rw [← List.append_assoc x1] at a1
    have a23 : tokenLoop (k + s.length) (x1.length + t.length + 1) (x1 ++ t ++ 32 :: (s ++ y)) none s2 =
        tokenLoop k ((x1 ++ t ++ [32]).length + s.length) (x1 ++ t ++ [32] ++ s ++ y)
          (some (x1 ++ t ++ [32]).length) s2 := by
      rw [← a3, e3]
      simp
    have hall : tokenLoop (k + P.length) 0 (P ++ y) none NState.init =
        tokenLoop k ((x1 ++ t ++ [32]).length + s.length) (x1 ++ t ++ [32] ++ s ++ y)
          (some (x1 ++ t ++ [32]).length) s2 := by
      rw [e1, e2]
      exact a1.trans (a2.trans a23)
    rw [hall]
    cases k with
    | zero =>
      rw [tokenLoop, g5]
      exact ⟨_, _, _, rfl, g4⟩
    | succ k =>
      rcases hy with hy | ⟨y', rfl⟩
      · cases hy
      · rw [tokenLoop]
        have hg : (x1 ++ t ++ [32] ++ s ++ 32 :: y')[(x1 ++ t ++ [32]).length + s.length]? = some 32 := by
          rw [← List.length_append]; simp
        rw [hg]
        dsimp only
        rw [if_pos rfl, g5]
        exact ⟨_, _, _, rfl, g4⟩
  unfold Discarded
  rcases Nat.lt_or_ge P.length (e + 1) with hlt | hge'
  · obtain ⟨k, hk⟩ : ∃ k, e + 1 = P.length + (k + 1) := ⟨e - P.length, by omega⟩
    have htk : (P ++ c :: rest).take (e + 1) = P ++ c :: rest.take k := by
      rw [hk, List.take_append, List.take_of_length_le (by omega)]
      simp [Nat.add_sub_cancel_left]
    obtain ⟨r, sp, hr⟩ := unify_blank c hc (rest.take k) (0 + P.length) none
    have hsp : sp = none := by
      have := unify_separator (c :: rest.take k) (0 + P.length) false none (fun hm => h64 (by
        rcases List.mem_cons.mp hm with hm | hm
        · rw [hm]; simp
        · exact List.mem_cons_of_mem _ (List.mem_of_mem_take hm)))
      rw [hr] at this
      exact this
    subst hsp
    obtain ⟨b, n, st, h1, h2⟩ := loop (k + 1) (32 :: (r ++ (P ++ c :: rest).drop (e + 1))) (.inr ⟨_, rfl⟩)
    refine ⟨e, b, n, st, he, ?_, h2⟩
    rw [htk, unify_plain P _ 0 none hPp, hr, ← h1]
    simp only [List.append_assoc, List.cons_append]
    rw [show e + 1 = k + 1 + P.length by omega]
    rfl
  · have hk : e + 1 = P.length := by omega
    have htk : (P ++ c :: rest).take (e + 1) = P ++ [] := by
      rw [hk, List.take_left]; simp
    obtain ⟨b, n, st, h1, h2⟩ := loop 0 ((P ++ c :: rest).drop (e + 1)) (.inl rfl)
    refine ⟨e, b, n, st, he, ?_, h2⟩
    rw [htk, unify_plain P [] 0 none hPp, ← h1]
    simp only [unify, List.append_nil, Nat.zero_add]
    rw [hk]
    rfl

end Verif.X86Name
