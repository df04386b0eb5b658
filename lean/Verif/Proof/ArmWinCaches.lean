import Verif.Proof.ArmWinRecords

/-!
# The passes over the records about caches on ARM Windows
-/

set_option autoImplicit false

namespace Verif.ArmWin
open Spec
open Windows (Info Visit beforeLoop visitsOf visitsOf_lt visitsOf_index foldlM_cons_some modify_ok)
open X86Init (Cache zeroCache modify?)

/-! ## Levels -/

theorem levelOf_eq (r : CacheInfo) (k : Level) : levelOf r.level r.type = some k ↔ OfLevel k r := by
  unfold levelOf typeInstruction typeData OfLevel
  split
  · rename_i h
    cases k <;> simp only [h] <;> repeat' split
    all_goals simp_all
  · rename_i h
    cases k <;> simp [h]
  · rename_i h
    cases k <;> simp [h]
  · rename_i h1 h2 h3
    have h1' : r.level ≠ 1 := h1
    have h2' : r.level ≠ 2 := h2
    have h3' : r.level ≠ 3 := h3
    cases k <;> simp [h1', h2', h3']

theorem ofLevel_unique {r : CacheInfo} {k k' : Level} (h : OfLevel k r) (h' : OfLevel k' r) : k = k' := by
  have := (levelOf_eq r k).mpr h
  rw [(levelOf_eq r k').mpr h'] at this
  exact (Option.some.inj this).symm

theorem levelRecords_snoc (k : Level) (done : List CacheInfo) (r : CacheInfo) :
    levelRecords k (done ++ [r]) = if OfLevel k r then levelRecords k done ++ [r] else levelRecords k done := by
  unfold levelRecords
  rw [List.filter_append]
  split
  · rename_i h
    rw [List.filter_cons_of_pos (by simpa using h), List.filter_nil]
  · rename_i h
    rw [List.filter_cons_of_neg (by simpa using h), List.filter_nil, List.append_nil]

theorem get_inc (n : Numbers) (k k' : Level) : (n.inc k).get k' = if k = k' then n.get k' + 1 else n.get k' := by
  cases k <;> cases k' <;> rfl

/-- The parts of the array do not overlap. -/
theorem base_inj {n : Numbers} {k k' : Level} {j j' : Nat} (h : j < n.get k) (h' : j' < n.get k')
    (he : n.base k + j = n.base k' + j') : k = k' ∧ j = j' := by
  cases k <;> cases k' <;> simp only [Numbers.get, Numbers.base] at h h' he <;>
    first
    | exact ⟨rfl, by omega⟩
    | exfalso; omega

theorem base_lt {n : Numbers} {k : Level} {j : Nat} (h : j < n.get k) : n.base k + j < n.total := by
  cases k <;> simp only [Numbers.get, Numbers.base, Numbers.total] at * <;> omega

/-! ## Counting -/

theorem count_ok : ∀ (R : List CacheInfo) (c : Nat) (n : Numbers),
    ∃ n', foldRecords (fun _ r s => some (countCache r s)) R c n = some n' ∧
      ∀ k, n'.get k = n.get k + (levelRecords k R).length := by
  intro R
  induction R with
  | nil => intro c n; exact ⟨n, rfl, fun k => rfl⟩
  | cons r R ih =>
    intro c n
    obtain ⟨n', h1, h2⟩ := ih (c + 1) (countCache r n)
    refine ⟨n', h1, ?_⟩
    intro k
    rw [h2]
    unfold countCache levelRecords
    by_cases hk : OfLevel k r
    · rw [(levelOf_eq r k).mpr hk, List.filter_cons_of_pos (by simpa using hk)]
      dsimp only
      rw [get_inc, if_pos rfl, List.length_cons]
      omega
    · rw [List.filter_cons_of_neg (by simpa using hk)]
      cases hl : levelOf r.level r.type with
      | none => rfl
      | some k' =>
        dsimp only
        rw [get_inc, if_neg]
        intro he
        subst he
        exact hk ((levelOf_eq r k').mp hl)

theorem total_le (R : List CacheInfo) (n : Numbers) (h : ∀ k, n.get k = (levelRecords k R).length) :
    n.total ≤ R.length := by
  have key : ∀ R : List CacheInfo, (levelRecords .l1i R).length + (levelRecords .l1d R).length +
      (levelRecords .l2 R).length + (levelRecords .l3 R).length ≤ R.length := by
    intro R
    induction R with
    | nil => exact Nat.le_refl _
    | cons r R ih =>
      unfold levelRecords at ih ⊢
      simp only [List.filter_cons, decide_eq_true_eq, List.length_cons]
      have hu : ∀ k k', OfLevel k r → OfLevel k' r → k = k' := fun k k' => ofLevel_unique
      by_cases h1 : OfLevel .l1i r
      · rw [if_pos h1, if_neg (fun h => by cases hu _ _ h1 h), if_neg (fun h => by cases hu _ _ h1 h),
          if_neg (fun h => by cases hu _ _ h1 h), List.length_cons]
        omega
      rw [if_neg h1]
      by_cases h2 : OfLevel .l1d r
      · rw [if_pos h2, if_neg (fun h => by cases hu _ _ h2 h), if_neg (fun h => by cases hu _ _ h2 h),
          List.length_cons]
        omega
      rw [if_neg h2]
      by_cases h3 : OfLevel .l2 r
      · rw [if_pos h3, if_neg (fun h => by cases hu _ _ h3 h), List.length_cons]
        omega
      rw [if_neg h3]
      split
      · rw [List.length_cons]
        omega
      · omega
  have := key R
  rw [← h .l1i, ← h .l1d, ← h .l2, ← h .l3] at this
  exact this

/-! ## One record -/

/-- A cache that has not been written. -/
def freshCache : Cache := { zeroCache with processorStart := U32MAX }

/-- One visit of a cache. -/
def visitCache (c : Cache) (i : Nat) : Cache :=
  { c with processorStart := if c.processorStart > i then i else c.processorStart
           processorCount := c.processorCount + 1 }

/-- The cache of a record. -/
def cacheOf (per : List Nat) (r : CacheInfo) : Cache :=
  { size := r.size
    associativity := r.associativity
    sets := r.size / r.lineSize / r.associativity
    partitions := 1
    lineSize := r.lineSize
    flags := if r.type = typeUnified then 1 else 0
    processorStart := (winIndices per r.toInfo).foldl (fun a i => if a > i then i else a) U32MAX
    processorCount := (winIndices per r.toInfo).length }

/-- The cache of a record before its visits. -/
def startCache (r : CacheInfo) : Cache :=
  { size := r.size
    associativity := r.associativity
    sets := r.size / r.lineSize / r.associativity
    partitions := 1
    lineSize := r.lineSize
    flags := if r.type = typeUnified then 1 else 0
    processorStart := U32MAX
    processorCount := 0 }

theorem visitCaches_eq (is : List Nat) (c : Cache) : is.foldl visitCache c =
    { c with processorStart := is.foldl (fun a i => if a > i then i else a) c.processorStart
             processorCount := c.processorCount + is.length } := by
  induction is generalizing c with
  | nil => rfl
  | cons i is ih =>
    rw [List.foldl_cons, ih]
    unfold visitCache
    simp only [List.foldl_cons, List.length_cons, Cache.mk.injEq, true_and]
    omega

theorem foldCaches (k : Level) (x : Nat) (vs : List Visit) :
    ∀ (ps ps' : List Processor) (cs : List Cache) (n : Numbers) (c : Cache),
    vs.foldlM (fun t v => modify? t v.index (Processor.link k x)) ps = some ps' → cs[x]? = some c →
    vs.foldlM (storeCache k x) ⟨ps, cs, n⟩ =
      some ⟨ps', cs.set x ((vs.map Visit.index).foldl visitCache c), n⟩ := by
  induction vs with
  | nil =>
    intro ps ps' cs n c h hc
    cases h
    obtain ⟨hx, he⟩ := List.getElem?_eq_some_iff.mp hc
    subst he
    show some (⟨ps, cs, n⟩ : CacheState) = some ⟨ps, cs.set x cs[x], n⟩
    rw [List.set_getElem_self]
  | cons v vs ih =>
    intro ps ps' cs n c h hc
    rw [List.foldlM_cons] at h
    simp only [Option.bind_eq_bind, Option.bind_eq_some_iff] at h
    obtain ⟨ps1, h1, h2⟩ := h
    obtain ⟨hx, he⟩ := List.getElem?_eq_some_iff.mp hc
    have hm := modify_ok cs x (fun c => visitCache c v.index) hx
    have hs : storeCache k x ⟨ps, cs, n⟩ v = some ⟨ps1, cs.set x (visitCache c v.index), n⟩ := by
      unfold storeCache
      have hm' : modify? cs x (fun c => { c with
          processorStart := if c.processorStart > v.index then v.index else c.processorStart
          processorCount := c.processorCount + 1 }) = some (cs.set x (visitCache c v.index)) := by
        rw [← he]
        exact hm
      simp only [hm', h1, Option.bind_eq_bind, Option.bind_some, Option.pure_def]
    rw [foldlM_cons_some _ v vs _ _ hs, ih ps1 ps' _ n (visitCache c v.index) h2
      (List.getElem?_set_self hx), List.set_set]
    rfl

/-- A pointer to a cache. -/
def Processor.cache (p : Processor) : Level → Option Nat
  | .l1i => p.l1i
  | .l1d => p.l1d
  | .l2 => p.l2
  | .l3 => p.l3

/-- The fields other than the pointers to caches are the same. -/
def SameButCaches (p p' : Processor) : Prop :=
  p' = { p with l1i := p'.l1i, l1d := p'.l1d, l2 := p'.l2, l3 := p'.l3 }

theorem link_cache (k k' : Level) (x : Nat) (p : Processor) :
    (Processor.link k x p).cache k' = if k = k' then some x else p.cache k' := by
  cases k <;> cases k' <;> rfl

theorem link_same {p p' : Processor} (k : Level) (x : Nat) (h : SameButCaches p p') :
    SameButCaches p (Processor.link k x p') := by
  unfold SameButCaches at h ⊢
  cases k <;> rw [h] <;> rfl

/-- What the records `done` left. -/
structure CacheInv (per : List Nat) (num : Numbers) (total : Nat) (ps0 : List Processor)
    (done : List CacheInfo) (s : CacheState) : Prop where
  counters : ∀ k, s.counters.get k = (levelRecords k done).length
  length : s.caches.length = total
  entry : ∀ k j r, (levelRecords k done)[j]? = some r →
    s.caches[num.base k + j]? = some (cacheOf per r)
  rest : ∀ k j, (levelRecords k done).length ≤ j → j < num.get k →
    s.caches[num.base k + j]? = some freshCache
  processors : s.processors.length = ps0.length
  links : ∀ i p, ps0[i]? = some p → ∃ p', s.processors[i]? = some p' ∧ SameButCaches p p' ∧ ∀ k,
    (p'.cache k = p.cache k ∧ ∀ r ∈ levelRecords k done, i ∉ winIndices per r.toInfo) ∨
    ∃ j r, (levelRecords k done)[j]? = some r ∧ i ∈ winIndices per r.toInfo ∧
      p'.cache k = some (num.base k + j)

theorem cache_step {per : List Nat} (hs : per.sum < U32) {num : Numbers} {total : Nat}
    {ps0 : List Processor} (hps : ps0.length = per.sum) {done : List CacheInfo} {r : CacheInfo}
    (hf : WinFits per r.toInfo) (hline : r.lineSize ≠ 0) (hway : r.associativity ≠ 0) {k : Level}
    (hk : OfLevel k r) (hroom : (levelRecords k done).length < num.get k)
    (hle : ∀ k, (levelRecords k done).length ≤ num.get k)
    {s : CacheState} (inv : CacheInv per num total ps0 done s) :
    ∃ s', parseCache (beforeLoop 0 per) num r s = some s' ∧
      CacheInv per num total ps0 (done ++ [r]) s' := by
  obtain ⟨psS, cachesS, ctrS⟩ := s
  have hx := inv.rest k _ (Nat.le_refl _) hroom
  have hctr := inv.counters k
  dsimp only at hx hctr
  obtain ⟨hxl, hxe⟩ := List.getElem?_eq_some_iff.mp hx
  obtain ⟨ps1, a1, a2, a3⟩ := foldOver (α := Processor) Visit.index
    (fun _ => Processor.link k (num.base k + (levelRecords k done).length))
    (fun _ _ a => by cases k <;> rfl) (visitsOf per r.toInfo) psS (fun v hv => by
      have := inv.processors
      dsimp only at this
      rw [this, hps]
      exact (visitsOf_lt per r.toInfo hf v hv).1)
  have hfold := foldCaches k (num.base k + (levelRecords k done).length) (visitsOf per r.toInfo) psS ps1
    (cachesS.set (num.base k + (levelRecords k done).length) (startCache r)) (ctrS.inc k) (startCache r) a1
    (List.getElem?_set_self hxl)
  rw [List.set_set, visitsOf_index, visitCaches_eq] at hfold
  have hend : { startCache r with
      processorStart := (winIndices per r.toInfo).foldl (fun a i => if a > i then i else a)
        (startCache r).processorStart
      processorCount := (startCache r).processorCount + (winIndices per r.toInfo).length } =
      cacheOf per r := by
    simp only [startCache, cacheOf, Nat.zero_add]
  rw [hend] at hfold
  refine ⟨⟨ps1, cachesS.set (num.base k + (levelRecords k done).length) (cacheOf per r), ctrS.inc k⟩,
    ?_, ?_⟩
  · unfold parseCache
    rw [(levelOf_eq r k).mpr hk]
    dsimp only
    rw [if_neg (by rintro (h | h) <;> contradiction), hctr, modify_ok _ _ _ hxl, hxe]
    simp only [Option.bind_eq_bind, Option.bind_some]
    rw [cacheGroups_eq per hs r.toInfo hf]
    exact hfold
  · have hnew : ∀ k', levelRecords k' (done ++ [r]) =
        if k = k' then levelRecords k' done ++ [r] else levelRecords k' done := by
      intro k'
      rw [levelRecords_snoc]
      by_cases hkk : k = k'
      · subst hkk
        rw [if_pos hk, if_pos rfl]
      · rw [if_neg (fun h => hkk (ofLevel_unique hk h)), if_neg hkk]
    refine ⟨?_, ?_, ?_, ?_, ?_, ?_⟩
    · intro k'
      have := inv.counters k'
      dsimp only at this ⊢
      rw [get_inc, hnew, this]
      split
      · rw [List.length_append]; rfl
      · rfl
    · have := inv.length
      dsimp only at this ⊢
      rw [List.length_set, this]
    · intro k' j r' hj
      dsimp only
      rw [hnew] at hj
      by_cases hkk : k = k'
      · subst hkk
        rw [if_pos rfl] at hj
        rcases Nat.lt_or_ge j (levelRecords k done).length with hlt | hge
        · rw [List.getElem?_append_left hlt] at hj
          rw [List.getElem?_set_ne (by omega)]
          exact inv.entry k j r' hj
        · rw [List.getElem?_append_right hge] at hj
          have : j = (levelRecords k done).length := by
            have := (List.getElem?_eq_some_iff.mp hj).1
            rw [List.length_singleton] at this
            omega
          subst this
          rw [Nat.sub_self] at hj
          cases hj
          exact List.getElem?_set_self hxl
      · rw [if_neg hkk] at hj
        rw [List.getElem?_set_ne]
        · exact inv.entry k' j r' hj
        · intro he
          have hlt := (List.getElem?_eq_some_iff.mp hj).1
          exact hkk (base_inj hroom (Nat.lt_of_lt_of_le hlt (hle k')) he).1
    · intro k' j h1 h2
      dsimp only
      rw [hnew] at h1
      by_cases hkk : k = k'
      · subst hkk
        rw [if_pos rfl, List.length_append, List.length_singleton] at h1
        rw [List.getElem?_set_ne (by omega)]
        exact inv.rest k j (by omega) h2
      · rw [if_neg hkk] at h1
        rw [List.getElem?_set_ne]
        · exact inv.rest k' j h1 h2
        · intro he
          exact hkk (base_inj hroom h2 he).1
    · have := inv.processors
      dsimp only at this ⊢
      rw [a2, this]
    · intro i p hp
      obtain ⟨p1, b1, b2, b3⟩ := inv.links i p hp
      dsimp only at b1 ⊢
      rcases a3 i p1 b1 with ⟨c1, c2⟩ | ⟨v, hv, hi, c2⟩
      · refine ⟨p1, c2, b2, ?_⟩
        intro k'
        rw [hnew]
        have hout : i ∉ winIndices per r.toInfo := by
          intro hm
          obtain ⟨v, hv, he⟩ := mem_indices.mp hm
          exact c1 v hv he
        rcases b3 k' with ⟨d1, d2⟩ | ⟨j, r', d1, d2, d3⟩
        · refine Or.inl ⟨d1, ?_⟩
          intro r' hr'
          split at hr'
          · rcases List.mem_append.mp hr' with h | h
            · exact d2 r' h
            · rw [List.mem_singleton] at h
              subst h
              exact hout
          · exact d2 r' hr'
        · refine Or.inr ⟨j, r', ?_, d2, d3⟩
          split
          · rw [List.getElem?_append_left (List.getElem?_eq_some_iff.mp d1).1]
            exact d1
          · exact d1
      · refine ⟨_, c2, link_same k _ b2, ?_⟩
        intro k'
        rw [hnew, link_cache]
        by_cases hkk : k = k'
        · subst hkk
          rw [if_pos rfl, if_pos rfl]
          refine Or.inr ⟨(levelRecords k done).length, r, ?_, mem_indices.mpr ⟨v, hv, hi⟩, rfl⟩
          rw [List.getElem?_append_right (Nat.le_refl _), Nat.sub_self]
          rfl
        · rw [if_neg hkk, if_neg hkk]
          exact b3 k'

theorem levelRecords_append (k : Level) (a b : List CacheInfo) :
    levelRecords k (a ++ b) = levelRecords k a ++ levelRecords k b := by
  unfold levelRecords
  exact List.filter_append ..

theorem caches_ok {per : List Nat} (hs : per.sum < U32) {num : Numbers} {total : Nat}
    {ps0 : List Processor} (hps : ps0.length = per.sum) (R : List CacheInfo)
    (hf : ∀ r ∈ R, WinFits per r.toInfo) (hline : ∀ r ∈ R, r.lineSize ≠ 0)
    (hway : ∀ r ∈ R, r.associativity ≠ 0) (hk : ∀ r ∈ R, ∃ k, OfLevel k r) :
    ∀ (done : List CacheInfo) (c : Nat) (s : CacheState),
    (∀ k, num.get k = (levelRecords k (done ++ R)).length) → CacheInv per num total ps0 done s →
    ∃ s', foldRecords (fun _ r s => parseCache (beforeLoop 0 per) num r s) R c s = some s' ∧
      CacheInv per num total ps0 (done ++ R) s' := by
  induction R with
  | nil =>
    intro done c s _ inv
    rw [List.append_nil]
    exact ⟨s, rfl, inv⟩
  | cons r R ih =>
    intro done c s hnum inv
    obtain ⟨k, hkr⟩ := hk r (.head _)
    have hsplit : ∀ k, num.get k = (levelRecords k done).length +
        ((levelRecords k [r]).length + (levelRecords k R).length) := by
      intro k
      rw [hnum k, ← List.singleton_append, levelRecords_append, levelRecords_append,
        List.length_append, List.length_append]
    have h1 : levelRecords k [r] = [r] := by
      unfold levelRecords
      rw [List.filter_cons_of_pos (by simpa using hkr), List.filter_nil]
    obtain ⟨s1, b1, b2⟩ := cache_step hs hps (hf r (.head _)) (hline r (.head _)) (hway r (.head _)) hkr
      (by have := hsplit k; rw [h1, List.length_singleton] at this; omega)
      (fun k => by have := hsplit k; omega) inv
    obtain ⟨s2, d1, d2⟩ := ih (fun r h => hf r (.tail _ h)) (fun r h => hline r (.tail _ h))
      (fun r h => hway r (.tail _ h)) (fun r h => hk r (.tail _ h)) (done ++ [r]) (c + 1) s1
      (by intro k; rw [List.append_assoc]; exact hnum k) b2
    refine ⟨s2, ?_, ?_⟩
    · rw [foldRecords, b1]
      exact d1
    · rw [List.append_assoc] at d2
      exact d2

theorem inv_initial (per : List Nat) (num : Numbers) (total : Nat) (ht : num.total ≤ total)
    (ps0 : List Processor) : CacheInv per num total ps0 [] ⟨ps0, resetCaches total num, ⟨0, 0, 0, 0⟩⟩ where
  counters := fun k => by cases k <;> rfl
  length := by simp [resetCaches]
  entry := fun k j r h => by cases h
  rest := fun k j _ h => by
    have := base_lt h
    unfold resetCaches
    rw [List.getElem?_map, List.getElem?_range (by omega)]
    show some (if num.base k + j < num.total then _ else _) = _
    rw [if_pos this]
    rfl
  processors := rfl
  links := fun i p h => ⟨p, h, rfl, fun k => Or.inl ⟨rfl, fun r hr => by cases hr⟩⟩

end Verif.ArmWin
