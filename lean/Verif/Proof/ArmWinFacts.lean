import Verif.Proof.ArmWinInit

/-!
# Facts about what is published on ARM Windows
-/

set_option autoImplicit false

namespace Verif.ArmWin
open Spec
open Windows (Info Visit visitsOf visitsOf_lt visitsOf_index firstOf countOf firstOf_least firstOf_lt
  winIndices_lt flatMap_unique winIndex_inj)
open X86Init (Cache)

theorem facts_of {e : Env} {ps cs : List Info} {ks : List CacheInfo} (h : ArmWinReports e ps cs ks)
    {chip : Chip} {pub : Published} (hi : initByInfo e chip = some (some (some pub))) :
    ∃ name kc kp, Wide.convertName chip.name = some name ∧ Facts e ps cs ks chip name kc kp pub := by
  cases hname : Wide.convertName chip.name with
  | none =>
    rw [init_fails h chip (Or.inl hname)] at hi
    cases hi
  | some name =>
    rcases alloc_cases e with ha | hex | ⟨ha, hb⟩
    · obtain ⟨kc, kp, pub', h1, h2⟩ := init_ok h chip name hname ha
      rw [hi] at h1
      cases h1
      exact ⟨name, kc, kp, rfl, h2⟩
    · rw [init_fails h chip (Or.inr hex)] at hi
      cases hi
    · rw [init_late h chip name hname ha hb] at hi
      cases hi

section
variable {e : Env} {ps cs : List Info} {ks : List CacheInfo} (h : ArmWinReports e ps cs ks)
  {chip : Chip} {name : Bytes} {kc kp : Nat → Nat} {pub : Published}
  (F : Facts e ps cs ks chip name kc kp pub) (hd : ArmWinDisjoint (armSizes e) ps cs)
include h F hd

theorem kc_iff {j : Nat} {c : Info} (hj : cs[j]? = some c) (i : Nat) :
    i ∈ winIndices (armSizes e) c ↔ i < (armSizes e).sum ∧ kc i = j := by
  constructor
  · intro hm
    have hlt := winIndices_lt (h.fitsCores c (List.mem_of_getElem? hj)) hm
    obtain ⟨p, -, -, -, -, -, ⟨c', h5, h6⟩, -⟩ := F.processors.entry i hlt
    exact ⟨hlt, flatMap_unique hd.cores h5 hj h6 hm⟩
  · rintro ⟨hlt, rfl⟩
    obtain ⟨p, -, -, -, -, -, ⟨c', h5, h6⟩, -⟩ := F.processors.entry i hlt
    rw [hj] at h5
    cases h5
    exact h6

/-- The package of every processor, with the processor's group and number. -/
theorem kp_mem {i : Nat} (hlt : i < (armSizes e).sum) :
    ∃ p r v, pub.processors[i]? = some p ∧ ps[kp i]? = some r ∧ v ∈ visitsOf (armSizes e) r ∧
      v.index = i ∧ p.groupId = v.group % 65536 ∧ p.processorId = v.number % 65536 := by
  obtain ⟨p, h1, -, -, -, -, ⟨c, h5, h6⟩, h7, -⟩ := F.processors.entry i hlt
  rcases h7 with ⟨h7, -⟩ | ⟨r, v, a1, a2, a3, a4, a5⟩
  · obtain ⟨q, hq, hs⟩ := hd.inPackage c (List.mem_of_getElem? h5)
    exact absurd (hs i h6) (h7 q hq)
  · exact ⟨p, r, v, h1, a1, a2, a3, a4, a5⟩

theorem kp_iff {q : Nat} {p : Info} (hq : ps[q]? = some p) (i : Nat) :
    i ∈ winIndices (armSizes e) p ↔ i < (armSizes e).sum ∧ kp i = q := by
  constructor
  · intro hm
    have hlt := winIndices_lt (h.fitsPackages p (List.mem_of_getElem? hq)) hm
    obtain ⟨-, r, v, -, h5, h6, h7, -⟩ := kp_mem h F hd hlt
    exact ⟨hlt, flatMap_unique hd.packages h5 hq (mem_indices.mpr ⟨v, h6, h7⟩) hm⟩
  · rintro ⟨hlt, rfl⟩
    obtain ⟨-, r, v, -, h5, h6, h7, -⟩ := kp_mem h F hd hlt
    rw [hq] at h5
    cases h5
    exact mem_indices.mpr ⟨v, h6, h7⟩

theorem core_exists {j : Nat} (hj : j < cs.length) : ∃ i < (armSizes e).sum, kc i = j := by
  obtain ⟨i, hi⟩ := List.exists_mem_of_ne_nil _ (h.nonempty _ (List.getElem_mem hj))
  exact ⟨i, (kc_iff h F hd (List.getElem?_eq_getElem hj) i).mp hi⟩

theorem kc_first {j : Nat} (hj : j < cs.length) : kc (firstOf (armSizes e).sum kc j) = j :=
  (firstOf_least _ _ _ (core_exists h F hd hj)).1

/-- The package of the first processor of a core is the package of the core. -/
theorem kp_first {j : Nat} (hj : j < cs.length) (q : Nat) :
    kp (firstOf (armSizes e).sum kc j) = q ↔ WinIn (armSizes e) ps cs j q := by
  have hcj := List.getElem?_eq_getElem hj
  have hcm : cs[j] ∈ cs := List.getElem_mem hj
  have hlt := firstOf_lt (armSizes e).sum kc j (some_processor h)
  have hf := (kc_iff h F hd hcj _).mpr ⟨hlt, kc_first h F hd hj⟩
  constructor
  · rintro rfl
    obtain ⟨p', hp', hin⟩ := hd.inPackage _ hcm
    obtain ⟨q', hq'⟩ := List.mem_iff_getElem?.mp hp'
    have := ((kp_iff h F hd hq' _).mp (hin _ hf)).2
    rw [this]
    exact ⟨_, _, hcj, hq', h.nonempty _ hcm, hin⟩
  · rintro ⟨c, p, h1, h2, -, h4⟩
    rw [hcj] at h1
    cases h1
    exact ((kp_iff h F hd h2 _).mp (h4 _ hf)).2

/-- A processor of a core and of a package. -/
theorem processor_of {g b j q : Nat} {c p : Info} (hj : cs[j]? = some c) (hq : ps[q]? = some p)
    (hc : (g, b) ∈ winMembers c) (hp : (g, b) ∈ winMembers p) :
    ∃ x, pub.processors[((armSizes e).take g).sum + b]? = some x ∧ x.smtId = 0 ∧ x.core = some j ∧
      x.cluster = j ∧ x.package = q ∧ x.groupId = g ∧ x.processorId = b := by
  have hmc : ((armSizes e).take g).sum + b ∈ winIndices (armSizes e) c :=
    List.mem_map.mpr ⟨(g, b), hc, rfl⟩
  have hmp : ((armSizes e).take g).sum + b ∈ winIndices (armSizes e) p :=
    List.mem_map.mpr ⟨(g, b), hp, rfl⟩
  obtain ⟨hlt, hkc⟩ := (kc_iff h F hd hj _).mp hmc
  obtain ⟨-, hkp⟩ := (kp_iff h F hd hq _).mp hmp
  obtain ⟨x, h1, h2, h3, h4, h5, -⟩ := F.processors.entry _ hlt
  obtain ⟨x', r, v, k1, k2, k3, k4, k5, k6⟩ := kp_mem h F hd hlt
  rw [h1] at k1
  cases k1
  rw [hkc] at h3 h4
  rw [hkp] at h5 k2
  rw [hq] at k2
  cases k2
  obtain ⟨-, v2, v3, n, v4, v5⟩ := visitsOf_lt _ p (h.fitsPackages p (List.mem_of_getElem? hq)) v k3
  obtain ⟨-, -, w3, m, w4, w5⟩ := visitsOf_lt _ p (h.fitsPackages p (List.mem_of_getElem? hq))
    ⟨g, b, winIndex (armSizes e) g b⟩ (List.mem_map.mpr ⟨(g, b), hp, rfl⟩)
  have := winIndex_inj v4 v5 w4 w5 (v2.symm.trans k4)
  dsimp only at this w3 w4
  rw [this.1] at k5
  rw [this.2] at k6
  have hg : g < 65536 := by
    have h1 := (List.getElem?_eq_some_iff.mp w4).1
    have h2 := h.fewGroups
    unfold armSizes at h1
    rw [List.length_map, List.length_range] at h1
    omega
  refine ⟨x, h1, h2, h3, h4, h5, ?_, ?_⟩
  · rw [k5]; exact Nat.mod_eq_of_lt hg
  · rw [k6]; exact Nat.mod_eq_of_lt (by omega)

end

/-! ## The first processor of a cache -/

theorem least_fold (l : List Nat) : ∀ x : Nat,
    l.foldl (fun a i => if a > i then i else a) x ≤ x ∧
    (∀ i ∈ l, l.foldl (fun a i => if a > i then i else a) x ≤ i) ∧
    (l.foldl (fun a i => if a > i then i else a) x = x ∨
      l.foldl (fun a i => if a > i then i else a) x ∈ l) := by
  induction l with
  | nil => intro x; exact ⟨Nat.le_refl _, fun i hi => (nomatch hi), Or.inl rfl⟩
  | cons a l ih =>
    intro x
    rw [List.foldl_cons]
    obtain ⟨h1, h2, h3⟩ := ih (if x > a then a else x)
    have hx : (if x > a then a else x) ≤ x ∧ (if x > a then a else x) ≤ a ∧
        ((if x > a then a else x) = x ∨ (if x > a then a else x) = a) := by
      split
      · exact ⟨by omega, Nat.le_refl _, Or.inr rfl⟩
      · exact ⟨Nat.le_refl _, by omega, Or.inl rfl⟩
    refine ⟨Nat.le_trans h1 hx.1, ?_, ?_⟩
    · intro i hi
      rcases List.mem_cons.mp hi with rfl | hi
      · exact Nat.le_trans h1 hx.2.1
      · exact h2 i hi
    · rcases h3 with h3 | h3
      · rcases hx.2.2 with h4 | h4
        · exact Or.inl (h3.trans h4)
        · refine Or.inr ?_
          rw [h3, h4]
          exact .head _
      · exact Or.inr (.tail _ h3)

theorem cache_start {per : List Nat} (hs : per.sum < U32) {r : CacheInfo} (hf : WinFits per r.toInfo)
    (hne : winIndices per r.toInfo ≠ []) :
    (cacheOf per r).processorStart ∈ winIndices per r.toInfo ∧
    ∀ i ∈ winIndices per r.toInfo, (cacheOf per r).processorStart ≤ i := by
  obtain ⟨h1, h2, h3⟩ := least_fold (winIndices per r.toInfo) U32MAX
  refine ⟨?_, h2⟩
  rcases h3 with h3 | h3
  · exfalso
    obtain ⟨i, hi⟩ := List.exists_mem_of_ne_nil _ hne
    have := h2 i hi
    have := winIndices_lt hf hi
    have e1 : U32 = U32MAX + 1 := rfl
    omega
  · exact h3

/-- Without gaps and repetitions, the members are those from the first on. -/
theorem list_interval {l : List Nat} (hn : l.Nodup) {s : Nat} (hs : s ∈ l) (hl : ∀ i ∈ l, s ≤ i)
    (hc : ∀ a b d, a < b → b < d → a ∈ l → d ∈ l → b ∈ l) (i : Nat) :
    InRange s l.length i ↔ i ∈ l := by
  -- the largest member
  have hmax : ∀ l : List Nat, l ≠ [] → ∃ m ∈ l, ∀ i ∈ l, i ≤ m := by
    intro l
    induction l with
    | nil => intro h; exact absurd rfl h
    | cons a l ih =>
      intro _
      by_cases h0 : l = []
      · subst h0
        exact ⟨a, .head _, fun i hi => by
          rcases List.mem_cons.mp hi with rfl | hi
          · exact Nat.le_refl _
          · cases hi⟩
      · obtain ⟨m, hm, hm'⟩ := ih h0
        by_cases hle : a ≤ m
        · refine ⟨m, .tail _ hm, fun i hi => ?_⟩
          rcases List.mem_cons.mp hi with rfl | hi
          · exact hle
          · exact hm' i hi
        · refine ⟨a, .head _, fun i hi => ?_⟩
          rcases List.mem_cons.mp hi with rfl | hi
          · exact Nat.le_refl _
          · have := hm' i hi
            omega
  obtain ⟨m, hm, hm'⟩ := hmax l (List.ne_nil_of_mem hs)
  have hmem : ∀ i, i ∈ l ↔ s ≤ i ∧ i < s + (m + 1 - s) := by
    intro i
    have := hl m hm
    constructor
    · intro hi
      have h1 := hl i hi
      have h2 := hm' i hi
      omega
    · rintro ⟨h1, h2⟩
      by_cases e1 : i = s
      · rw [e1]; exact hs
      by_cases e2 : i = m
      · rw [e2]; exact hm
      exact hc s i m (by omega) (by omega) hs hm
  have hlen : l.length = m + 1 - s := by
    have h1 := hn.length_le_of_subset (l₂ := List.range' s (m + 1 - s)) (by
      intro i hi
      rw [List.mem_range'_1]
      exact (hmem i).mp hi)
    have h2 := (List.nodup_range' (s := s) (n := m + 1 - s)).length_le_of_subset (l₂ := l) (by
      intro i hi
      rw [List.mem_range'_1] at hi
      exact (hmem i).mpr hi)
    rw [List.length_range'] at h1 h2
    omega
  unfold InRange
  rw [hlen, hmem]

end Verif.ArmWin
