import Verif.Spec.X86Name

/-! Helper lemmas about words. -/

set_option autoImplicit false

namespace Verif.Spec

theorem wordsFrom_append (w : Bytes) (h : 32 ∉ w) : ∀ (cur l : Bytes),
    wordsFrom cur (w ++ l) = wordsFrom (cur ++ w) l := by
  induction w with
  | nil => intro cur l; simp
  | cons c w ih =>
    intro cur l
    have hc : c ≠ 32 := fun hh => h (by simp [hh])
    rw [List.cons_append, wordsFrom, if_neg hc, ih (fun hh => h (by simp [hh]))]
    simp

theorem words_joinWords (L : List Bytes) (h : ∀ w ∈ L, w ≠ [] ∧ 32 ∉ w) :
    words (joinWords L) = L := by
  unfold words
  induction L with
  | nil => rfl
  | cons w L ih =>
    obtain ⟨h1, h2⟩ := h w (by simp)
    cases L with
    | nil =>
      have := wordsFrom_append w h2 [] []
      rw [List.append_nil] at this
      rw [joinWords, this]
      simp [wordsFrom, h1]
    | cons v L =>
      have := ih (fun x hx => h x (by simp [hx]))
      rw [joinWords, wordsFrom_append w h2]
      simp [wordsFrom, h1, this]

theorem joinWords_head (L : List Bytes) (h : ∀ w ∈ L, w ≠ [] ∧ 32 ∉ w) :
    (joinWords L).head? ≠ some 32 := by
  cases L with
  | nil => simp [joinWords]
  | cons w L =>
    obtain ⟨h1, h2⟩ := h w (by simp)
    cases w with
    | nil => exact absurd rfl h1
    | cons c w =>
      have hc : c ≠ 32 := fun hh => h2 (by simp [hh])
      cases L <;> simp [joinWords, hc]

theorem joinWords_last (L : List Bytes) (h : ∀ w ∈ L, w ≠ [] ∧ 32 ∉ w) :
    (joinWords L).getLast? ≠ some 32 := by
  induction L with
  | nil => simp [joinWords]
  | cons w L ih =>
    obtain ⟨h1, h2⟩ := h w (by simp)
    cases L with
    | nil =>
      rw [joinWords]
      exact fun hh => h2 (List.mem_of_getLast? hh)
    | cons v L =>
      have hne : joinWords (v :: L) ≠ [] := by
        obtain ⟨h3, _⟩ := h v (by simp)
        cases L <;> simp [joinWords, h3]
      have := ih (fun x hx => h x (by simp [hx]))
      rw [joinWords, List.getLast?_append, List.getLast?_cons]
      cases hl : (joinWords (v :: L)).getLast? with
      | none => exact absurd (List.getLast?_eq_none_iff.mp hl) hne
      | some y => rw [hl] at this; simpa using this

theorem joinWords_double (L : List Bytes) (h : ∀ w ∈ L, w ≠ [] ∧ 32 ∉ w) :
    NoDouble (joinWords L) := by
  induction L with
  | nil => intro i; simp [joinWords]
  | cons w L ih =>
    obtain ⟨h1, h2⟩ := h w (by simp)
    cases L with
    | nil =>
      rw [joinWords]
      exact fun i hh => h2 (List.mem_of_getElem? hh.1)
    | cons v L =>
      have hd := ih (fun x hx => h x (by simp [hx]))
      have hh := joinWords_head (v :: L) (fun x hx => h x (by simp [hx]))
      rw [joinWords]
      intro i ⟨a1, a2⟩
      rcases Nat.lt_trichotomy i w.length with k | k | k
      · rw [List.getElem?_append_left k] at a1
        exact h2 (List.mem_of_getElem? a1)
      · subst k
        rw [List.getElem?_append_right (by omega)] at a2
        rw [show w.length + 1 - w.length = 0 + 1 by omega, List.getElem?_cons_succ,
          ← List.head?_eq_getElem?] at a2
        exact hh a2
      · rw [List.getElem?_append_right (by omega)] at a1 a2
        rw [show i - w.length = (i - w.length - 1) + 1 by omega, List.getElem?_cons_succ] at a1
        rw [show i + 1 - w.length = (i - w.length - 1) + 1 + 1 by omega,
          List.getElem?_cons_succ] at a2
        exact hd _ ⟨a1, a2⟩

theorem mem_joinWords (L : List Bytes) (c : Byte) (h : c ∈ joinWords L) :
    c = 32 ∨ ∃ w ∈ L, c ∈ w := by
  induction L with
  | nil => simp [joinWords] at h
  | cons w L ih =>
    cases L with
    | nil => exact .inr ⟨w, by simp, by simpa [joinWords] using h⟩
    | cons v L =>
      rw [joinWords, List.mem_append, List.mem_cons] at h
      rcases h with h | h | h
      · exact .inr ⟨w, by simp, h⟩
      · exact .inl h
      · rcases ih h with k | ⟨u, hu, hc⟩
        · exact .inl k
        · exact .inr ⟨u, by simp [hu], hc⟩

end Verif.Spec
