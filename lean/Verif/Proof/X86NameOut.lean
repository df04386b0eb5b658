import Verif.Proof.X86NameEng

/-!
# The normalized string
-/

set_option autoImplicit false

namespace Verif.X86Name
open Spec

/-! ## The last loop -/

/-- Emitting words one after the other. -/
def emitAll : List Bytes → Compact → Option Compact
  | [], s => some s
  | w :: ws, s =>
    match emit s w with
    | none => none
    | some s' => emitAll ws s'

theorem compact_words (l : Bytes) : ∀ (tok : Option Bytes) (s : Compact), tok ≠ some [] →
    compact l tok s = emitAll (wordsFrom (tok.getD []) l) s := by
  induction l with
  | nil =>
    intro tok s h
    cases tok with
    | none => rfl
    | some t =>
      have ht : t ≠ [] := fun hh => h (by rw [hh])
      simp only [compact, wordsFrom, Option.getD_some, if_neg ht, emitAll]
      cases emit s t <;> rfl
  | cons c l ih =>
    intro tok s h
    unfold compact wordsFrom
    by_cases hc : c = 32
    · rw [if_pos hc, if_pos hc]
      cases tok with
      | none => exact ih none s (by simp)
      | some t =>
        have ht : t ≠ [] := fun hh => h (by rw [hh])
        simp only [Option.getD_some, if_neg ht, emitAll]
        cases he : emit s t with
        | none => rfl
        | some s' => exact ih none s' (by simp)
    · rw [if_neg hc, if_neg hc]
      have := ih (some (tok.getD [] ++ [c])) s (by simp)
      exact this

theorem wordsFrom_mem (l : Bytes) : ∀ (cur : Bytes), 32 ∉ cur → ∀ w ∈ wordsFrom cur l,
    w ≠ [] ∧ 32 ∉ w ∧ ∀ c ∈ w, c ∈ cur ∨ c ∈ l := by
  induction l with
  | nil =>
    intro cur hcur w hw
    unfold wordsFrom at hw
    split at hw
    · simp at hw
    · rename_i hne
      simp at hw
      subst hw
      exact ⟨hne, hcur, fun c hc => .inl hc⟩
  | cons c l ih =>
    intro cur hcur w hw
    unfold wordsFrom at hw
    split at hw
    · split at hw
      · obtain ⟨a, b, d⟩ := ih [] (by simp) w hw
        refine ⟨a, b, fun x hx => .inr ?_⟩
        rcases d x hx with k | k
        · simp at k
        · exact List.mem_cons_of_mem _ k
      · rename_i hne
        rcases List.mem_cons.mp hw with rfl | hw
        · exact ⟨hne, hcur, fun x hx => .inl hx⟩
        · obtain ⟨a, b, d⟩ := ih [] (by simp) w hw
          refine ⟨a, b, fun x hx => .inr ?_⟩
          rcases d x hx with k | k
          · simp at k
          · exact List.mem_cons_of_mem _ k
    · rename_i hc
      obtain ⟨a, b, d⟩ := ih (cur ++ [c]) (by simp [hcur]; exact fun h => hc h.symm) w hw
      refine ⟨a, b, fun x hx => ?_⟩
      rcases d x hx with k | k
      · rcases List.mem_append.mp k with k | k
        · exact .inl k
        · simp at k; subst k; exact .inr (by simp)
      · exact .inr (List.mem_cons_of_mem _ k)

/-- The room words need, a space for each. -/
def room (ws : List Bytes) : Nat := (ws.map (fun w => w.length + 1)).sum

theorem room_wordsFrom (l : Bytes) : ∀ cur : Bytes,
    room (wordsFrom cur l) ≤ cur.length + l.length + 1 := by
  induction l with
  | nil =>
    intro cur
    unfold wordsFrom room
    split
    · simp
    · simp
  | cons c l ih =>
    intro cur
    unfold wordsFrom
    split
    · split
      · have := ih []
        simp at this ⊢; omega
      · have := ih []
        simp only [room, List.map_cons, List.sum_cons, List.length_cons, List.length_nil] at this ⊢
        omega
    · have := ih (cur ++ [c])
      simp at this ⊢; omega

theorem joinWords_snoc (L : List Bytes) (hL : L ≠ []) (t : Bytes) :
    joinWords (L ++ [t]) = joinWords L ++ 32 :: t := by
  induction L with
  | nil => exact absurd rfl hL
  | cons w L ih =>
    cases L with
    | nil => rfl
    | cons v L =>
      have := ih (by simp)
      simp only [List.cons_append, joinWords] at this ⊢
      rw [this]; simp

theorem joinWords_grow (L : List Bytes) (u t : Bytes) :
    joinWords (L ++ [u ++ t]) = joinWords (L ++ [u]) ++ t := by
  induction L with
  | nil => rfl
  | cons w L ih =>
    cases L with
    | nil => simp [joinWords]
    | cons v L =>
      simp only [List.cons_append, joinWords] at ih ⊢
      rw [ih]; simp

/-- What the output looks like when the words `ws` have been emitted. -/
structure Shape (ws : List Bytes) (s : Compact) (L : List Bytes) : Prop where
  out : s.out = joinWords L
  nonempty : ∀ w ∈ L, w ≠ []
  chars : ∀ w ∈ L, ∀ c ∈ w, ∃ v ∈ ws, c ∈ v
  whole : ∀ w ∈ L, 45 ∉ w → w ∈ ws
  dash : ∀ A u v B, L = A ++ u :: v :: B → u.getLast? ≠ some 45 ∧ v.head? ≠ some 45
  empty : L = [] → s.endsWithDash = true
  last : ∀ A u, L = A ++ [u] → s.endsWithDash = (u.getLast? == some 45)

theorem emit_shape {ws : List Bytes} {s s' : Compact} {L : List Bytes} {t : Bytes}
    (h : Shape ws s L) (ht : t ≠ []) (he : emit s t = some s') :
    ∃ L', Shape (ws ++ [t]) s' L' := by
  unfold emit at he
  dsimp only at he
  by_cases hfit : (s.out ++ (if (!(t.head? == some 45) && !s.endsWithDash) = true then [32] else [])
      ++ t).length ≤ 48
  · rw [if_pos hfit] at he
    cases he
    have hlast : ∀ x : Bytes, (x ++ t).getLast? = t.getLast? := by
      intro x
      rw [List.getLast?_append]
      cases hh : t.getLast? with
      | none => exact absurd (List.getLast?_eq_none_iff.mp hh) ht
      | some y => rfl
    rcases List.eq_nil_or_concat L with hL | ⟨A, u, hL⟩
    · -- first word
      subst hL
      have hd := h.empty rfl
      refine ⟨[t], ?_, ?_, ?_, ?_, ?_, ?_, ?_⟩
      · simp [hd, h.out, joinWords]
      · simp [ht]
      · intro w hw c hc
        simp at hw; subst hw
        exact ⟨w, by simp, hc⟩
      · intro w hw _; simp at hw; subst hw; simp
      · intro A u v B hA
        have := congrArg List.length hA
        simp at this; omega
      · intro hh; cases hh
      · intro A u hA
        have : t = u := by
          have := congrArg List.getLast? hA
          simpa using this
        subst this; rfl
    · rw [List.concat_eq_append] at hL
      subst hL
      have hdash := h.last A u rfl
      by_cases hsep : (!(t.head? == some 45) && !s.endsWithDash) = true
      · -- a new word
        rw [if_pos hsep]
        simp only [Bool.and_eq_true, Bool.not_eq_true', beq_eq_false_iff_ne, ne_eq] at hsep
        refine ⟨A ++ [u] ++ [t], ?_, ?_, ?_, ?_, ?_, ?_, ?_⟩
        · rw [joinWords_snoc _ (by simp), ← h.out]; simp
        · intro w hw
          rcases List.mem_append.mp hw with k | k
          · exact h.nonempty w k
          · simp at k; subst k; exact ht
        · intro w hw c hc
          rcases List.mem_append.mp hw with k | k
          · obtain ⟨v, hv, hcv⟩ := h.chars w k c hc
            exact ⟨v, List.mem_append_left _ hv, hcv⟩
          · simp at k; subst k; exact ⟨w, by simp, hc⟩
        · intro w hw hn
          rcases List.mem_append.mp hw with k | k
          · exact List.mem_append_left _ (h.whole w k hn)
          · simp at k; subst k; simp
        · intro A' u' v' B' hA
          rcases List.eq_nil_or_concat B' with hB | ⟨B'', z, hB⟩
          · subst hB
            have e1 : A ++ [u] ++ [t] = (A' ++ [u']) ++ [v'] := by rw [hA]; simp
            obtain ⟨e2, e3⟩ := List.append_inj' e1 rfl
            obtain ⟨e4, e5⟩ := List.append_inj' e2 rfl
            cases e3; cases e5
            refine ⟨?_, hsep.1⟩
            intro hh
            rw [hdash, hh] at hsep
            simp at hsep
          · rw [List.concat_eq_append] at hB
            subst hB
            have e1 : A ++ [u] ++ [t] = (A' ++ u' :: v' :: B'') ++ [z] := by rw [hA]; simp
            obtain ⟨e2, e3⟩ := List.append_inj' e1 rfl
            exact h.dash A' u' v' B'' e2
        · intro hh; simp at hh
        · intro A' u' hA
          obtain ⟨_, e3⟩ := List.append_inj' hA rfl
          cases e3; rfl
      · -- glued to the last word
        rw [if_neg hsep]
        have h45 : 45 ∈ u ++ t := by
          simp only [Bool.and_eq_true, Bool.not_eq_true', beq_eq_false_iff_ne, ne_eq,
            Classical.not_and_iff_not_or_not, Classical.not_not, Bool.not_eq_false] at hsep
          rcases hsep with k | k
          · exact List.mem_append_right _ (List.mem_of_mem_head? (by rw [k]; rfl))
          · rw [hdash, beq_iff_eq] at k
            exact List.mem_append_left _ (List.mem_of_getLast? k)
        have hune := h.nonempty u (by simp)
        refine ⟨A ++ [u ++ t], ?_, ?_, ?_, ?_, ?_, ?_, ?_⟩
        · rw [joinWords_grow, ← h.out]; simp
        · intro w hw
          rcases List.mem_append.mp hw with k | k
          · exact h.nonempty w (by simp [k])
          · simp at k; subst k; simp [ht]
        · intro w hw c hc
          rcases List.mem_append.mp hw with k | k
          · obtain ⟨v, hv, hcv⟩ := h.chars w (by simp [k]) c hc
            exact ⟨v, List.mem_append_left _ hv, hcv⟩
          · simp at k; subst k
            rcases List.mem_append.mp hc with hc | hc
            · obtain ⟨v, hv, hcv⟩ := h.chars u (by simp) c hc
              exact ⟨v, List.mem_append_left _ hv, hcv⟩
            · exact ⟨t, by simp, hc⟩
        · intro w hw hn
          rcases List.mem_append.mp hw with k | k
          · exact List.mem_append_left _ (h.whole w (by simp [k]) hn)
          · simp only [List.mem_singleton] at k; subst k; exact absurd h45 hn
        · intro A' u' v' B' hA
          rcases List.eq_nil_or_concat B' with hB | ⟨B'', z, hB⟩
          · subst hB
            have e1 : A ++ [u ++ t] = (A' ++ [u']) ++ [v'] := by rw [hA]; simp
            obtain ⟨e2, e3⟩ := List.append_inj' e1 rfl
            cases e3
            have := h.dash A' u' u [] (by rw [e2]; simp)
            refine ⟨this.1, ?_⟩
            cases hu : u with
            | nil => exact absurd hu hune
            | cons x u1 => rw [hu] at this; exact this.2
          · rw [List.concat_eq_append] at hB
            subst hB
            have e1 : A ++ [u ++ t] = (A' ++ u' :: v' :: B'') ++ [z] := by rw [hA]; simp
            obtain ⟨e2, e3⟩ := List.append_inj' e1 rfl
            exact h.dash A' u' v' (B'' ++ [u]) (by rw [e2]; simp)
        · intro hh; simp at hh
        · intro A' u' hA
          obtain ⟨_, e3⟩ := List.append_inj' hA rfl
          cases e3
          rw [hlast]
  · rw [if_neg hfit] at he; cases he

theorem emitAll_shape (ws : List Bytes) : ∀ (done : List Bytes) (s : Compact) (L : List Bytes),
    Shape done s L → (∀ w ∈ ws, w ≠ []) →
    (s.out.length + room ws ≤ 48 ∨ (s.out = [] ∧ s.endsWithDash = true ∧ room ws ≤ 49)) →
    ∃ s' L', emitAll ws s = some s' ∧ Shape (done ++ ws) s' L' ∧
      (s'.out.length ≤ s.out.length + room ws) ∧
      (s.out = [] → s.endsWithDash = true → s'.out.length + 1 ≤ room ws ∨ ws = []) := by
  induction ws with
  | nil =>
    intro done s L h _ _
    exact ⟨s, L, rfl, by simpa using h, by simp [room], fun _ _ => .inr rfl⟩
  | cons w ws ih =>
    intro done s L h hne hroom
    have hr : room (w :: ws) = w.length + 1 + room ws := by simp [room]
    have hsome : ∃ s1, emit s w = some s1 ∧ s1.out.length ≤ s.out.length + w.length + 1 ∧
        (s.endsWithDash = true → s1.out.length = s.out.length + w.length) := by
      unfold emit
      dsimp only
      by_cases hsep : (!(w.head? == some 45) && !s.endsWithDash) = true
      · have hnd : s.endsWithDash = false := by
          simp only [Bool.and_eq_true, Bool.not_eq_true'] at hsep; exact hsep.2
        rw [if_pos hsep]
        have hb : (s.out ++ [32] ++ w).length ≤ 48 := by
          simp only [List.length_append, List.length_singleton]
          rcases hroom with k | ⟨_, k, _⟩
          · omega
          · rw [hnd] at k; cases k
        rw [if_pos hb]
        exact ⟨_, rfl, by simp; omega, by simp [hnd]⟩
      · rw [if_neg hsep]
        have hb : (s.out ++ [] ++ w).length ≤ 48 := by
          simp only [List.length_append, List.length_nil]
          rcases hroom with k | ⟨k1, k, k2⟩
          · omega
          · rw [k1]; simp only [List.length_nil]; omega
        rw [if_pos hb]
        exact ⟨_, rfl, by simp, by simp⟩
    obtain ⟨s1, e1, hl1, hl2⟩ := hsome
    obtain ⟨L1, hL1⟩ := emit_shape h (hne w (by simp)) e1
    have hroom1 : s1.out.length + room ws ≤ 48 := by
      rcases hroom with k | ⟨k1, k, k2⟩
      · omega
      · have := hl2 k
        rw [k1] at this; simp only [List.length_nil] at this; omega
    obtain ⟨s', L', e', hL', hlen, _⟩ := ih (done ++ [w]) s1 L1 hL1
      (fun v hv => hne v (by simp [hv])) (.inl hroom1)
    refine ⟨s', L', ?_, by simpa using hL', by omega, fun hnil hd => .inl ?_⟩
    · unfold emitAll; rw [e1]; exact e'
    · have := hl2 hd
      rw [hnil] at this; simp only [List.length_nil] at this; omega

/-! ## The words before the last loop -/

theorem noNoise_words (b : Bytes) (e : Nat) (he : e ≤ b.length) (h : NoNoise b e) (l : Bytes) :
    ∀ (pre cur : Bytes), b.take e = pre ++ cur ++ l → Boundary b pre.length → 32 ∉ cur →
    ∀ w ∈ wordsFrom cur l, w ∉ noise := by
  have hocc : ∀ (pre cur l : Bytes), b.take e = pre ++ cur ++ l → Boundary b pre.length →
      32 ∉ cur → cur ≠ [] → (l = [] ∨ ∃ l', l = 32 :: l') → cur ∉ noise := by
    intro pre cur l hb hbd h32 hne hl
    have hlen : e = pre.length + cur.length + l.length := by
      have := congrArg List.length hb
      simp at this; omega
    have hcl : 0 < cur.length := List.length_pos_iff.mpr hne
    have hg : ∀ i, i < e → b[i]? = (pre ++ cur ++ l)[i]? := by
      intro i hi
      rw [← hb, List.getElem?_take, if_pos hi]
    have hcur : ∀ i, pre.length ≤ i → i < pre.length + cur.length →
        b[i]? = cur[i - pre.length]? := by
      intro i h1 h2
      rw [hg i (by omega), List.append_assoc, List.getElem?_append_right h1,
        List.getElem?_append_left (by omega)]
    refine h pre.length (pre.length + cur.length) (by omega) (by omega) hbd ?_ ?_ cur ?_
    · rcases hl with k | ⟨l', k⟩
      · left; subst k; simp at hlen; omega
      · right
        subst k
        rw [hg _ (by simp at hlen; omega), List.getElem?_append_right (by simp)]
        simp
    · intro i h1 h2 hh
      rw [hcur i h1 h2] at hh
      exact h32 (List.mem_of_getElem? hh)
    · rw [load_eq _ _ _ (by omega)]
      congr 1
      apply List.ext_getElem?
      intro j
      rw [List.getElem?_take]
      split
      · rw [List.getElem?_drop, hcur _ (by omega) (by omega)]
        congr 1; omega
      · rw [List.getElem?_eq_none (by omega)]
  induction l with
  | nil =>
    intro pre cur hb hbd h32 w hw
    unfold wordsFrom at hw
    split at hw
    · simp at hw
    · rename_i hne
      simp at hw; subst hw
      exact hocc pre w [] hb hbd h32 hne (.inl rfl)
  | cons c l ih =>
    intro pre cur hb hbd h32 w hw
    unfold wordsFrom at hw
    split at hw
    · rename_i hc
      subst hc
      have hb' : b.take e = (pre ++ cur ++ [32]) ++ [] ++ l := by rw [hb]; simp
      have hbd' : Boundary b (pre ++ cur ++ [32]).length := by
        right
        have hlen : e = (pre ++ cur ++ [32]).length + l.length := by
          have := congrArg List.length hb'
          simp at this ⊢; omega
        have hpos : (pre ++ cur ++ [32]).length = pre.length + cur.length + 1 := by simp; omega
        have : b[(pre ++ cur ++ [32]).length - 1]? =
            (b.take e)[(pre ++ cur ++ [32]).length - 1]? := by
          rw [List.getElem?_take, if_pos (by omega)]
        rw [this, hb', List.append_nil, List.getElem?_append_left (by omega),
          List.getElem?_append_right (by simp)]
        simp
      have hrest := ih (pre ++ cur ++ [32]) [] hb' hbd' (by simp)
      split at hw
      · exact hrest w hw
      · rename_i hne
        rcases List.mem_cons.mp hw with rfl | hw
        · exact hocc pre w (32 :: l) hb hbd h32 hne (.inr ⟨l, rfl⟩)
        · exact hrest w hw
    · rename_i hc
      exact ih pre (cur ++ [c]) (by rw [hb]; simp) hbd
        (by simp [h32]; exact fun hh => hc hh.symm) w hw

/-! ## The first loops -/

theorem findEnd_spec (b : Bytes) (n : Nat) (hn : n ≤ b.length) :
    ∃ e, findEnd b n = some e ∧ e ≤ n ∧ (∀ i, e ≤ i → i < n → b[i]? = some 0) ∧
      (0 < e → ∃ c, b[e - 1]? = some c ∧ c ≠ 0) := by
  induction n with
  | zero => exact ⟨0, rfl, Nat.le_refl _, fun i _ h => by omega, fun h => by omega⟩
  | succ n ih =>
    obtain ⟨c, hc⟩ : ∃ c, b[n]? = some c := ⟨b[n], List.getElem?_eq_getElem (by omega)⟩
    unfold findEnd
    rw [hc]
    dsimp only
    by_cases h0 : c = 0
    · rw [if_pos h0]
      obtain ⟨e, h1, h2, h3, h4⟩ := ih (by omega)
      refine ⟨e, h1, by omega, fun i hi hi' => ?_, h4⟩
      rcases Nat.lt_or_ge i n with k | k
      · exact h3 i hi k
      · have : i = n := by omega
        subst this; rw [hc, h0]
    · rw [if_neg h0]
      exact ⟨n + 1, rfl, Nat.le_refl _, fun i h1 h2 => by omega, fun _ => ⟨c, hc, h0⟩⟩

theorem unify_length (l : Bytes) : ∀ i inside sep, (unify l i inside sep).1.length = l.length := by
  induction l with
  | nil => intros; rfl
  | cons c l ih =>
    intro i inside sep
    unfold unify
    split
    · simp [ih]
    split
    · simp [ih]
    split
    · simp [ih]
    split
    · simp [ih]
    · simp [ih]

theorem unify_chars (l : Bytes) : ∀ i inside sep, ∀ c ∈ (unify l i inside sep).1,
    c ∉ strippedChars := by
  have h32 : (32 : Byte) ∉ strippedChars := by decide
  induction l with
  | nil => intro i inside sep c hc; simp [unify] at hc
  | cons x l ih =>
    intro i inside sep c hc
    unfold unify at hc
    split at hc
    · rcases List.mem_cons.mp hc with rfl | hc
      · exact h32
      · exact ih _ _ _ c hc
    split at hc
    · rcases List.mem_cons.mp hc with rfl | hc
      · exact h32
      · exact ih _ _ _ c hc
    split at hc
    · rcases List.mem_cons.mp hc with rfl | hc
      · exact h32
      · exact ih _ _ _ c hc
    split at hc
    · rcases List.mem_cons.mp hc with rfl | hc
      · exact h32
      · exact ih _ _ _ c hc
    · rename_i h1 h2 h3 h4
      rcases List.mem_cons.mp hc with rfl | hc
      · simp only [strippedChars, List.mem_cons, List.not_mem_nil, or_false]
        simp only [not_or] at h4
        rintro (k | k | k | k | k)
        · exact h4.1 k
        · exact h4.2.1 k
        · exact h1 k
        · exact h2 k
        · exact h3 k
      · exact ih _ _ _ c hc

/-! ## The whole -/

/-- The words of the string after the loop over tokens, and the string built from them. -/
theorem normalize_shape (raw : Bytes) (h : raw.length = 48) :
    ∃ s n, normalize raw = some (s, n) ∧
      ((s = [] ∧ n = 0) ∨
       ∃ (ws L : List Bytes), (∀ w ∈ ws, w ∉ noise ∧ w ≠ [] ∧ ∀ c ∈ w, c ≠ 32 ∧ c ∉ strippedChars) ∧
        (∃ d k, Shape ws ⟨joinWords L, d, k⟩ L) ∧ n = (joinWords L).length ∧
        (if n < 48 then s = joinWords L else n = 48 ∧ s = (joinWords L).take 47) ∧
        (raw[47]? = some 0 → n < 48)) := by
  obtain ⟨e, he, hle, hz, hnz⟩ := findEnd_spec raw 48 (by omega)
  unfold normalize
  rw [he]
  cases e with
  | zero => exact ⟨[], 0, rfl, .inl ⟨rfl, rfl⟩⟩
  | succ e =>
    dsimp only
    have hu : (unify (raw.take (e + 1)) 0 false none).1.length = e + 1 := by
      rw [unify_length, List.length_take]; omega
    have hP : ∀ (j : Nat) (c : Byte), j < 0 + (e + 1) →
        ((unify (raw.take (e + 1)) 0 false none).1 ++ raw.drop (e + 1))[j]? = some c →
        c ∉ strippedChars := by
      intro j c hj hc
      rw [List.getElem?_append_left (by omega)] at hc
      exact unify_chars _ _ _ _ c (List.mem_of_getElem? hc)
    obtain ⟨b, ne, st, h1, h2, h3, h4, h5, _⟩ := tokenLoop_spec (fun c => c ∉ strippedChars)
      (by decide) (by decide) ((unify (raw.take (e + 1)) 0 false none).1 ++ raw.drop (e + 1))
      (fun _ _ => True) (fun _ _ _ _ _ => trivial) (fun _ _ _ _ _ _ _ _ _ _ _ => trivial) (e + 1) 0
      ((unify (raw.take (e + 1)) 0 false none).1 ++ raw.drop (e + 1)) none
      { NState.init with frequencySeparator := (unify (raw.take (e + 1)) 0 false none).2 }
      (by rw [List.length_append, hu]; omega) hP (fun _ _ => rfl) trivial
      ⟨noNoise_zero _, .inl rfl, ptrs_none ⟨rfl, rfl, rfl⟩, fun p hp => by cases hp⟩
    rw [h1]
    dsimp only
    have hblen : b.length = 48 := by
      rw [h3, List.length_append, hu, List.length_drop]; omega
    split
    · exact ⟨[], 0, rfl, .inl ⟨rfl, rfl⟩⟩
    split
    · exact ⟨[], 0, rfl, .inl ⟨rfl, rfl⟩⟩
    rw [compact_words _ none _ (by simp)]
    have hroom := room_wordsFrom (b.take ne) []
    have htl : (b.take ne).length = ne := by rw [List.length_take]; omega
    have hmem := wordsFrom_mem (b.take ne) [] (by simp)
    obtain ⟨s', L', he', hshape, _, hlen⟩ := emitAll_shape (wordsFrom [] (b.take ne)) [] ⟨[], true, 1⟩ []
      ⟨rfl, by simp, by simp, by simp, by
        intro A u v B hA
        have := congrArg List.length hA
        simp at this, by simp, by
        intro A u hA
        have := congrArg List.length hA
        simp at this⟩ (fun w hw => (hmem w hw).1)
      (.inr ⟨rfl, rfl, by simp only [List.length_nil] at hroom; omega⟩)
    show ∃ s n, (match emitAll (wordsFrom [] (b.take ne)) ⟨[], true, 1⟩ with
      | none => none
      | some s => _) = some (s, n) ∧ _
    rw [he']
    dsimp only
    split
    · exact ⟨[], 0, rfl, .inl ⟨rfl, rfl⟩⟩
    rw [List.nil_append] at hshape
    have hout := hshape.out
    have hbound : s'.out.length ≤ ne := by
      rcases hlen rfl rfl with k | k
      · simp only [List.length_nil] at hroom; omega
      · rw [k] at he'
        simp only [emitAll, Option.some.injEq] at he'
        rw [← he']; simp
    have hws : ∀ w ∈ wordsFrom [] (b.take ne),
        w ∉ noise ∧ w ≠ [] ∧ ∀ c ∈ w, c ≠ 32 ∧ c ∉ strippedChars := by
      intro w hw
      obtain ⟨m1, m2, m3⟩ := hmem w hw
      refine ⟨noNoise_words b ne (by omega) h4 _ [] [] (by simp) (.inl rfl) (by simp) w hw, m1,
        fun c hc => ⟨fun hh => m2 (hh ▸ hc), ?_⟩⟩
      rcases m3 c hc with k | k
      · simp at k
      · obtain ⟨j, hj, hjc⟩ := List.mem_iff_getElem.mp k
        rw [List.length_take] at hj
        refine h5 j c (by omega) ?_
        rw [← hjc, List.getElem_take, List.getElem?_eq_getElem]
    have hsh : ∃ d k, Shape (wordsFrom [] (b.take ne)) ⟨joinWords L', d, k⟩ L' :=
      ⟨s'.endsWithDash, s'.tokenCount, rfl, hshape.nonempty, hshape.chars, hshape.whole,
        hshape.dash, hshape.empty, hshape.last⟩
    have h47 : raw[47]? = some 0 → s'.out.length < 48 := by
      intro hr
      have : e + 1 ≤ 47 := by
        rcases Nat.lt_or_ge 47 (e + 1) with k | k
        · have hee : e + 1 - 1 = 47 := by omega
          obtain ⟨c, hc, hcn⟩ := hnz (by omega)
          rw [hee, hr] at hc; cases hc; exact absurd rfl hcn
        · exact k
      omega
    by_cases hlt : s'.out.length < 48
    · rw [if_pos hlt]
      refine ⟨s'.out, s'.out.length, rfl, .inr ⟨_, L', hws, hsh, by rw [hout], ?_, h47⟩⟩
      rw [if_pos hlt, hout]
    · rw [if_neg hlt]
      refine ⟨s'.out.take 47, s'.out.length, rfl, .inr ⟨_, L', hws, hsh, by rw [hout], ?_, h47⟩⟩
      rw [if_neg hlt, hout]
      rw [hout] at hlt hbound
      exact ⟨by omega, rfl⟩

/-- `normalize` discards the string as that of an engineering sample, src/x86/name.c:653-655. -/
def Discarded (raw : Bytes) : Prop :=
  ∃ e b n st, findEnd raw 48 = some (e + 1) ∧
    tokenLoop (e + 1) 0 ((unify (raw.take (e + 1)) 0 false none).1 ++ raw.drop (e + 1)) none
      { NState.init with frequencySeparator := (unify (raw.take (e + 1)) 0 false none).2 } =
      some (b, n, st) ∧ st.engineeringSample = true

theorem normalize_discarded (raw : Bytes) (h : Discarded raw) : normalize raw = some ([], 0) := by
  obtain ⟨e, b, n, st, h1, h2, h3⟩ := h
  unfold normalize
  rw [h1]
  dsimp only
  rw [h2]
  dsimp only
  rw [if_pos h3]

theorem discarded_reads (raw : Bytes) (h : raw.length = 48) (hd : Discarded raw) :
    ∃ p q, p + 3 ≤ q ∧ Reads raw p b!"Eng" ∧ Reads raw q b!"Sample" := by
  obtain ⟨e, b, n, st, h1, h2, h3⟩ := hd
  have hle : e + 1 ≤ 48 := by
    obtain ⟨e', he', hle, _⟩ := findEnd_spec raw 48 (by omega)
    rw [h1] at he'; cases he'; exact hle
  have hu : (unify (raw.take (e + 1)) 0 false none).1.length = e + 1 := by
    rw [unify_length, List.length_take]; omega
  obtain ⟨b', n', st', r1, _, _, _, _, r6⟩ := tokenLoop_spec (fun _ => True) trivial trivial
    ((unify (raw.take (e + 1)) 0 false none).1 ++ raw.drop (e + 1))
    (Eng ((unify (raw.take (e + 1)) 0 false none).1 ++ raw.drop (e + 1)))
    (fun n m st hnm hq => hq.mono n m st hnm) (transformToken_eng _) (e + 1) 0
    ((unify (raw.take (e + 1)) 0 false none).1 ++ raw.drop (e + 1)) none
    { NState.init with frequencySeparator := (unify (raw.take (e + 1)) 0 false none).2 }
    (by rw [List.length_append, hu]; omega) (fun _ _ _ _ => trivial) (fun _ _ => rfl)
    ⟨fun p hp => (by cases hp), fun hv => (by cases hv)⟩
    ⟨noNoise_zero _, .inl rfl, ptrs_none ⟨rfl, rfl, rfl⟩, fun p hp => by cases hp⟩
  rw [h2] at r1
  cases r1
  obtain ⟨p, q, g1, g2, g3, g4⟩ := r6.verdict h3
  have back : ∀ (p : Nat) (w : Bytes), p + w.length ≤ e + 1 → 32 ∉ w →
      Reads ((unify (raw.take (e + 1)) 0 false none).1 ++ raw.drop (e + 1)) p w → Reads raw p w := by
    intro p w hp h32 hr j c hc
    have hj : j < w.length := (List.getElem?_eq_some_iff.mp hc).1
    have := hr j c hc
    rw [List.getElem?_append_left (by omega)] at this
    have := unify_reads _ _ _ _ _ _ this (fun hh => h32 (hh ▸ List.mem_of_getElem? hc))
    rw [List.getElem?_take, if_pos (by omega)] at this
    exact this
  exact ⟨p, q, g1, back p _ (by simp only [List.length_cons, List.length_nil]; omega) (by decide) g3,
    back q _ (by simp only [List.length_cons, List.length_nil]; omega) (by decide) g4⟩

end Verif.X86Name
