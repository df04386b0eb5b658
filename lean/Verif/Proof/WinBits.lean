import Verif.Spec.Windows

/-!
# Masks and numbering of processors on Windows
-/

set_option autoImplicit false

namespace Verif.Windows
open Spec

/-! ## Masks -/

/-- The number below its lowest bit `i`. -/
theorem lowest_split (m i : Nat) (hi : m.testBit i = true) (hl : ∀ j < i, m.testBit j = false) :
    ∃ q, m = 2 ^ (i + 1) * q + 2 ^ i := by
  refine ⟨m / 2 ^ (i + 1), ?_⟩
  have hm : m % 2 ^ (i + 1) = 2 ^ i := by
    apply Nat.eq_of_testBit_eq
    intro j
    rw [Nat.testBit_mod_two_pow, Nat.testBit_two_pow]
    by_cases hj : j = i
    · subst hj
      simp [hi]
    · by_cases hlt : j < i
      · simp [hl j hlt, Ne.symm hj]
      · have : ¬ j < i + 1 := by omega
        simp [this, Ne.symm hj]
  have := Nat.div_add_mod m (2 ^ (i + 1))
  omega

/-- `mask & (mask - 1)` clears the lowest bit. -/
theorem clear_lowest (m i : Nat) (hi : m.testBit i = true) (hl : ∀ j < i, m.testBit j = false)
    (j : Nat) : (m &&& (m - 1)).testBit j = (m.testBit j && decide (j ≠ i)) := by
  obtain ⟨q, hq⟩ := lowest_split m i hi hl
  have h2 : 2 ^ i < 2 ^ (i + 1) := Nat.pow_lt_pow_right (by omega) (by omega)
  have hp : 0 < 2 ^ i := Nat.pow_pos (by omega)
  have hm1 : m - 1 = 2 ^ (i + 1) * q + (2 ^ i - 1) := by omega
  rw [Nat.testBit_and, hm1]
  rw [Nat.testBit_two_pow_mul_add _ (by omega)]
  by_cases hj : j < i + 1
  · rw [if_pos hj, Nat.testBit_two_pow_sub_one]
    by_cases hlt : j < i
    · simp [hl j hlt]
    · have : j = i := by omega
      subst this
      simp
  · rw [if_neg hj]
    conv => lhs; rw [hq, Nat.testBit_two_pow_mul_add _ h2, if_neg hj, Bool.and_self]
    conv => rhs; rw [hq, Nat.testBit_two_pow_mul_add _ h2, if_neg hj]
    have : j ≠ i := by omega
    simp [this]

theorem mem_setBits {mask b : Nat} (h : mask < 2 ^ 64) : b ∈ setBits mask ↔ mask.testBit b = true := by
  unfold setBits
  rw [List.mem_filter, List.mem_range]
  refine ⟨fun h => h.2, fun hb => ⟨?_, hb⟩⟩
  rcases Nat.lt_or_ge b 64 with h' | h'
  · exact h'
  · rw [Nat.testBit_lt_two_pow (Nat.lt_of_lt_of_le h (Nat.pow_le_pow_right (by omega) h'))] at hb
    cases hb

theorem setBits_pairwise (mask : Nat) : (setBits mask).Pairwise (· < ·) :=
  List.Pairwise.filter _ List.pairwise_lt_range

theorem setBits_nil {mask : Nat} (h : mask < 2 ^ 64) (hn : setBits mask = []) : mask = 0 := by
  apply Nat.eq_of_testBit_eq
  intro i
  rw [Nat.zero_testBit]
  cases hb : mask.testBit i with
  | false => rfl
  | true =>
    rw [← mem_setBits h, hn] at hb
    cases hb

/-- The lowest bit comes first. -/
theorem setBits_cons {mask i : Nat} (hi64 : i < 64) (hi : mask.testBit i = true)
    (hl : ∀ j < i, mask.testBit j = false) : setBits mask = i :: setBits (mask &&& (mask - 1)) := by
  have e : List.range 64 = List.range i ++ (i :: List.range' (i + 1) (63 - i)) := by
    have h1 : List.range 64 = List.range' 0 i ++ List.range' i (64 - i) := by
      rw [List.range_eq_range']
      have := List.range'_append (s := 0) (m := i) (n := 64 - i) (step := 1)
      rw [show 0 + 1 * i = i by omega, show i + (64 - i) = 64 by omega] at this
      exact this.symm
    rw [h1, ← List.range_eq_range', show 64 - i = (63 - i) + 1 by omega, List.range'_succ]
  have z : ∀ m' : Nat, (∀ j < i, m'.testBit j = false) →
      (List.range i).filter (fun b => m'.testBit b) = [] := by
    intro m' h
    rw [List.filter_eq_nil_iff]
    intro j hj
    rw [h j (List.mem_range.mp hj)]
    simp
  have c := clear_lowest mask i hi hl
  unfold setBits
  rw [e, List.filter_append, List.filter_append, z mask hl,
    z (mask &&& (mask - 1)) (by intro j hj; rw [c, hl j hj]; rfl), List.nil_append, List.nil_append,
    List.filter_cons_of_pos hi, List.filter_cons_of_neg (by rw [c]; simp)]
  congr 1
  apply List.filter_congr
  intro j hj
  rw [c]
  have := (List.mem_range'_1.mp hj).1
  have : j ≠ i := by omega
  simp [this]

theorem lowIndex_spec {mask : Nat} (h : mask < 2 ^ 64) (h0 : mask ≠ 0) :
    ∃ i, lowIndex mask = some i ∧ i < 64 ∧ mask.testBit i = true ∧ ∀ j < i, mask.testBit j = false := by
  unfold lowIndex
  cases hf : (List.range 64).find? fun i => mask.testBit i with
  | none =>
    rw [List.find?_eq_none] at hf
    refine absurd (setBits_nil h ?_) h0
    unfold setBits
    rw [List.filter_eq_nil_iff]
    exact hf
  | some i =>
    have hi := List.find?_some hf
    have hm := List.mem_range.mp (List.mem_of_find?_eq_some hf)
    refine ⟨i, rfl, hm, hi, fun j hj => ?_⟩
    obtain ⟨_, as, bs, e, hne⟩ := List.find?_eq_some_iff_append.mp hf
    have hlen : as.length = i := by
      have h1 := congrArg (·[as.length]?) e
      rw [List.getElem?_append_right (Nat.le_refl _), Nat.sub_self, List.getElem?_cons_zero] at h1
      have h2 := (List.getElem?_eq_some_iff.mp h1).2
      rw [List.getElem_range] at h2
      exact h2
    have hj' : (List.range 64)[j]? = some j := by
      rw [List.getElem?_range (by omega)]
    rw [e, List.getElem?_append_left (by omega)] at hj'
    have := hne j (List.mem_of_getElem? hj')
    simpa using this

theorem bitsLoop_eq (fuel : Nat) : ∀ mask : Nat, mask < 2 ^ 64 → (setBits mask).length ≤ fuel →
    bitsLoop fuel mask = some (setBits mask) := by
  induction fuel with
  | zero =>
    intro mask h hl
    have hn : setBits mask = [] := List.eq_nil_of_length_eq_zero (by omega)
    rw [bitsLoop, if_pos (setBits_nil h hn), hn]
  | succ fuel ih =>
    intro mask h hl
    rw [bitsLoop]
    by_cases h0 : mask = 0
    · subst h0
      rfl
    · rw [if_neg h0]
      obtain ⟨i, hi, h64, hb, hlow⟩ := lowIndex_spec h h0
      have e := setBits_cons h64 hb hlow
      have hlt : mask &&& (mask - 1) < 2 ^ 64 := Nat.lt_of_le_of_lt Nat.and_le_left h
      have := ih _ hlt (by rw [e, List.length_cons] at hl; omega)
      rw [hi]
      simp only [Option.bind_eq_bind, Option.bind_some, this, Option.pure_def]
      rw [e]

theorem setBits_length (mask : Nat) : (setBits mask).length ≤ 64 := by
  unfold setBits
  exact Nat.le_trans (List.length_filter_le _ _) (by rw [List.length_range]; omega)

/-! ## Numbering -/

theorem countLoop_eq (per : List Nat) : ∀ c, c + per.sum < U32 → countLoop c per = c + per.sum := by
  induction per with
  | nil => intro c _; rfl
  | cons n ns ih =>
    intro c h
    rw [List.sum_cons] at h
    rw [countLoop, Nat.mod_eq_of_lt (by omega), ih _ (by omega), List.sum_cons]
    omega

theorem beforeLoop_get (per : List Nat) : ∀ (c g n : Nat), c + per.sum < U32 → per[g]? = some n →
    (beforeLoop c per)[g]? = some (c + (per.take g).sum) := by
  induction per with
  | nil => intro c g n _ h; cases h
  | cons n ns ih =>
    intro c g m h hg
    rw [List.sum_cons] at h
    rw [beforeLoop]
    cases g with
    | zero => simp
    | succ g =>
      rw [List.getElem?_cons_succ] at hg ⊢
      rw [Nat.mod_eq_of_lt (by omega), ih (c + n) g m (by omega) hg, List.take_succ_cons, List.sum_cons]
      congr 1
      omega

theorem winIndex_lt {per : List Nat} {g b n : Nat} (hg : per[g]? = some n) (hb : b < n) :
    winIndex per g b < per.sum := by
  induction per generalizing g with
  | nil => cases hg
  | cons m ms ih =>
    cases g with
    | zero =>
      rw [List.getElem?_cons_zero] at hg
      cases hg
      simp only [winIndex, List.take_zero, List.sum_nil, List.sum_cons]
      omega
    | succ g =>
      rw [List.getElem?_cons_succ] at hg
      have := ih hg
      simp only [winIndex, List.take_succ_cons, List.sum_cons] at this ⊢
      omega

theorem winIndex_inj {per : List Nat} {g b n g' b' n' : Nat} (hg : per[g]? = some n) (hb : b < n)
    (hg' : per[g']? = some n') (hb' : b' < n') (h : winIndex per g b = winIndex per g' b') :
    g = g' ∧ b = b' := by
  induction per generalizing g g' with
  | nil => cases hg
  | cons m ms ih =>
    cases g with
    | zero =>
      cases g' with
      | zero => simp only [winIndex, List.take_zero, List.sum_nil] at h; exact ⟨rfl, by omega⟩
      | succ g' =>
        rw [List.getElem?_cons_zero] at hg
        cases hg
        simp only [winIndex, List.take_zero, List.sum_nil, List.take_succ_cons, List.sum_cons] at h
        omega
    | succ g =>
      cases g' with
      | zero =>
        rw [List.getElem?_cons_zero] at hg'
        cases hg'
        simp only [winIndex, List.take_zero, List.sum_nil, List.take_succ_cons, List.sum_cons] at h
        omega
      | succ g' =>
        rw [List.getElem?_cons_succ] at hg hg'
        simp only [winIndex, List.take_succ_cons, List.sum_cons] at h
        obtain ⟨h1, h2⟩ := ih hg hg' (by simp only [winIndex]; omega)
        exact ⟨by omega, h2⟩

theorem winIndex_surj (per : List Nat) (i : Nat) (h : i < per.sum) :
    ∃ g b n, per[g]? = some n ∧ b < n ∧ winIndex per g b = i := by
  induction per generalizing i with
  | nil => cases h
  | cons m ms ih =>
    rw [List.sum_cons] at h
    by_cases hi : i < m
    · exact ⟨0, i, m, rfl, hi, by simp [winIndex]⟩
    · obtain ⟨g, b, n, h1, h2, h3⟩ := ih (i - m) (by omega)
      refine ⟨g + 1, b, n, h1, h2, ?_⟩
      simp only [winIndex, List.take_succ_cons, List.sum_cons] at h3 ⊢
      omega

/-! ## Records -/

/-- The visits of a record. -/
def visitsOf (per : List Nat) (info : Info) : List Visit :=
  (winMembers info).map fun m => ⟨m.1, m.2, winIndex per m.1 m.2⟩

theorem visitsOf_index (per : List Nat) (info : Info) :
    (visitsOf per info).map (·.index) = winIndices per info := by
  unfold visitsOf winIndices
  rw [List.map_map]
  rfl

theorem visits_eq (per : List Nat) (hs : per.sum < U32) (info : Info) (h : WinFits per info) :
    visits (beforeLoop 0 per) info.groups = some (visitsOf per info) := by
  have key : ∀ gs : List GroupAffinity, (∀ g ∈ gs, g ∈ info.groups) →
      visits (beforeLoop 0 per) gs = some (gs.flatMap fun g => (setBits g.mask).map fun b =>
        (⟨g.group, b, winIndex per g.group b⟩ : Visit)) := by
    intro gs
    induction gs with
    | nil => intro _; rfl
    | cons g gs ih =>
      intro hg
      obtain ⟨hm, n, hn, hb⟩ := h g (hg g (.head _))
      have e1 : visitGroup (beforeLoop 0 per) g = some ((setBits g.mask).map fun b =>
          (⟨g.group, b, winIndex per g.group b⟩ : Visit)) := by
        unfold visitGroup
        rw [beforeLoop_get per 0 g.group n (by omega) hn, bitsLoop_eq 64 g.mask hm (setBits_length _)]
        simp only [Option.bind_eq_bind, Option.bind_some, Option.pure_def, Option.some.injEq, Nat.zero_add]
        apply List.map_congr_left
        intro b hb'
        have hlt := winIndex_lt hn (hb b ((mem_setBits hm).mp hb'))
        have : (per.take g.group).sum + b < U32 := by unfold winIndex at hlt; omega
        rw [Nat.mod_eq_of_lt this]
        rfl
      rw [visits, e1, ih fun g' h' => hg g' (.tail _ h')]
      rfl
  rw [key info.groups fun _ h => h]
  unfold visitsOf winMembers
  rw [List.map_flatMap]
  simp only [List.map_map]
  rfl

theorem visitsOf_lt (per : List Nat) (info : Info) (h : WinFits per info) (v : Visit)
    (hv : v ∈ visitsOf per info) : v.index < per.sum ∧ v.index = winIndex per v.group v.number ∧
      v.number < 64 ∧ ∃ n, per[v.group]? = some n ∧ v.number < n := by
  unfold visitsOf winMembers at hv
  obtain ⟨m, hm, rfl⟩ := List.mem_map.mp hv
  obtain ⟨g, hg, hm⟩ := List.mem_flatMap.mp hm
  obtain ⟨b, hb, rfl⟩ := List.mem_map.mp hm
  obtain ⟨hmask, n, hn, hbn⟩ := h g hg
  have := hbn b ((mem_setBits hmask).mp hb)
  refine ⟨winIndex_lt hn this, rfl, ?_, n, hn, this⟩
  have hb := (List.mem_filter.mp hb).1
  exact List.mem_range.mp hb

end Verif.Windows
