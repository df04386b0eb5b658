import Verif.Proof.ArmLeaders
import Verif.Props.CpuList

/-!
# Clusters described by the kernel

When the topology files describe a partition of the usable processors, cluster detection finds that
partition, each class led by its first usable processor.
-/

set_option autoImplicit false

namespace Verif.ArmClusters
open Spec ArmMidr ArmCpuinfo
open X86Init (modify? bitmaskAll)

theorem placed_twice (p : Proc) (m : Nat) : placed (placed p m) m = placed p m :=
  placed_of_clustered (clustered_placed p m) rfl

/-- `t'` is `t` with the usable processors of `S` placed under the leader `m`. -/
def PlacedOn (S : Nat → Prop) (m : Nat) (t t' : List Proc) : Prop :=
  t'.length = t.length ∧ ∀ (k : Nat) (q : Proc), t[k]? = some q →
    (S k ∧ Usable q → t'[k]? = some (placed q m)) ∧ (¬ (S k ∧ Usable q) → t'[k]? = some q)

theorem PlacedOn.refl {S : Nat → Prop} {m : Nat} {t : List Proc} (h : ∀ k, ¬ S k) : PlacedOn S m t t :=
  ⟨rfl, fun k _ hq => ⟨fun hs => absurd hs.1 (h k), fun _ => hq⟩⟩

theorem PlacedOn.same {S : Nat → Prop} {m : Nat} {t t' : List Proc} (h : PlacedOn S m t t') :
    SameTable t t' := by
  refine ⟨h.1, fun i p q hp hq => ?_⟩
  obtain ⟨h1, h2⟩ := h.2 i p hp
  by_cases hs : S i ∧ Usable p
  · rw [h1 hs] at hq; cases hq; exact same_placed p m
  · rw [h2 hs] at hq; cases hq; exact SameButCluster.refl _

theorem PlacedOn.trans {S S' S'' : Nat → Prop} {m : Nat} {t t' t'' : List Proc}
    (h : PlacedOn S m t t') (h' : PlacedOn S' m t' t'') (hS : ∀ k, S'' k ↔ S k ∨ S' k) :
    PlacedOn S'' m t t'' := by
  refine ⟨h'.1.trans h.1, fun k q hq => ?_⟩
  obtain ⟨h1, h2⟩ := h.2 k q hq
  by_cases hs : S k ∧ Usable q
  · have e := h1 hs
    obtain ⟨h3, h4⟩ := h'.2 k _ e
    refine ⟨fun _ => ?_, fun hn => absurd ⟨(hS k).mpr (.inl hs.1), hs.2⟩ hn⟩
    by_cases hs' : S' k
    · rw [h3 ⟨hs', usable_placed m hs.2⟩, placed_twice]
    · exact h4 fun hh => hs' hh.1
  · have e := h2 hs
    obtain ⟨h3, h4⟩ := h'.2 k _ e
    refine ⟨fun hh => ?_, fun hn => h4 fun hh => hn ⟨(hS k).mpr (.inr hh.1), hh.2⟩⟩
    rcases (hS k).mp hh.1 with g | g
    · exact absurd ⟨g, hh.2⟩ hs
    · exact h3 ⟨g, hh.2⟩

theorem PlacedOn.set {m i : Nat} {t : List Proc} {q : Proc} (hq : t[i]? = some q) (hu : Usable q) :
    PlacedOn (· = i) m t (t.set i (placed q m)) := by
  refine ⟨List.length_set, fun k r hr => ?_⟩
  rw [set_get hq]
  by_cases hik : i = k
  · subst hik
    rw [hq] at hr; cases hr
    exact ⟨fun _ => if_pos rfl, fun hn => absurd ⟨rfl, hu⟩ hn⟩
  · rw [if_neg hik]
    exact ⟨fun hh => absurd hh.1.symm hik, fun _ => hr⟩

/-- Members of the class `C` are led by `m` or by themselves, and are not before `m`. -/
def ClassOk (C : Nat → Prop) (m : Nat) (t : List Proc) : Prop :=
  ∀ (k : Nat) (q : Proc), C k → t[k]? = some q → Usable q →
    m ≤ k ∧ (q.packageLeaderId = m ∨ q.packageLeaderId = k)

theorem ClassOk.placed {C S : Nat → Prop} {m : Nat} {t t' : List Proc} (h : ClassOk C m t)
    (hp : PlacedOn S m t t') : ClassOk C m t' := by
  intro k q hC hq hu
  obtain ⟨p, hp', hpq⟩ := hp.same.get hq
  obtain ⟨a, b⟩ := h k p hC hp' (hpq.usable.mp hu)
  refine ⟨a, ?_⟩
  obtain ⟨h1, h2⟩ := hp.2 k p hp'
  by_cases hs : S k ∧ Usable p
  · rw [h1 hs] at hq; cases hq; exact .inl rfl
  · rw [h2 hs] at hq; cases hq; exact b

theorem siblingsLoop_class (C : Nat → Prop) (m : Nat) : ∀ (n s : Nat) (t : List Proc),
    (n = 0 ∨ s + n ≤ t.length) → (∀ k, s ≤ k → k < s + n → UsableAt t k → C k) → ClassOk C m t →
    ∃ t', siblingsLoop n s m t = some (m, t') ∧ PlacedOn (fun k => s ≤ k ∧ k < s + n) m t t'
  | 0, s, t, _, _, _ => ⟨t, rfl, .refl fun k h => by omega⟩
  | n + 1, s, t, hn, hC, hok => by
    have hs : s < t.length := by omega
    have hq : t[s]? = some t[s] := List.getElem?_eq_getElem hs
    generalize t[s] = q at hq
    rw [siblingsLoop, hq]
    dsimp only
    by_cases hu : Usable q
    · rw [if_pos ((valid_iff q).mpr hu)]
      obtain ⟨a, b⟩ := hok s q (hC s (by omega) (by omega) ⟨q, hq, hu⟩) hq hu
      have hm : (if q.packageLeaderId < m then q.packageLeaderId else m) = m := by
        rw [if_neg]; omega
      rw [hm]
      have hset := PlacedOn.set (m := m) hq hu
      obtain ⟨t', e, h1⟩ := siblingsLoop_class C m n (s + 1) (t.set s (placed q m))
        (by rw [List.length_set]; omega)
        (fun k hk hk' hu' => hC k (by omega) (by omega) ((hset.same.usableAt k).mp hu'))
        (hok.placed hset)
      exact ⟨t', e, hset.trans h1 fun k => by omega⟩
    · rw [if_neg (fun hh => hu ((valid_iff q).mp hh))]
      obtain ⟨t', e, h1⟩ := siblingsLoop_class C m n (s + 1) t (by omega)
        (fun k hk hk' hu' => hC k (by omega) (by omega) hu') hok
      refine ⟨t', e, h1.1, fun k r hr => ?_⟩
      obtain ⟨g1, g2⟩ := h1.2 k r hr
      refine ⟨fun hh => ?_, fun hh => g2 fun h => hh ⟨by omega, h.2⟩⟩
      by_cases hks : k = s
      · subst hks
        rw [hq] at hr; cases hr
        exact absurd hh.2 hu
      · exact g1 ⟨by omega, hh.2⟩

theorem siblingsParser_class (C : Nat → Prop) (m i a b : Nat) (t : List Proc) (p : Proc)
    (hp : t[i]? = some p) (hu : Usable p) (hl : p.packageLeaderId = m) (hb : b ≤ t.length)
    (hC : ∀ k, a ≤ k → k < b → UsableAt t k → C k) (hok : ClassOk C m t) :
    ∃ t', siblingsParser t i a b = some t' ∧ PlacedOn (fun k => k = i ∨ a ≤ k ∧ k < b) m t t' := by
  unfold siblingsParser
  rw [modify?_eq _ hp, mark_eq_placed, hl]
  simp only [Option.bind_eq_bind, Option.bind_some]
  have hset := PlacedOn.set (m := m) hp hu
  have hp' : (t.set i (placed p m))[i]? = some (placed p m) := by
    rw [set_get hp, if_pos rfl]
  rw [hp']
  simp only [Option.bind_some]
  have hlen : (t.set i (placed p m)).length = t.length := List.length_set
  obtain ⟨t', e, h1⟩ := siblingsLoop_class C m (b - a) a (t.set i (placed p m)) (by omega)
    (fun k hk hk' hu' => hC k (by omega) (by omega) ((hset.same.usableAt k).mp hu'))
    (hok.placed hset)
  rw [show (placed p m).packageLeaderId = m from rfl, e]
  simp only [Option.bind_some]
  have hi : t'[i]? = some (placed p m) := by
    obtain ⟨g1, g2⟩ := h1.2 i _ hp'
    by_cases hs : a ≤ i ∧ i < a + (b - a)
    · rw [g1 ⟨hs, usable_placed m hu⟩, placed_twice]
    · exact g2 fun h => hs h.1
  rw [modify?_eq _ hi]
  have : t'.set i { placed p m with packageLeaderId := m } = t' := by
    apply List.ext_getElem?
    intro k
    rw [set_get hi]
    by_cases hik : i = k
    · subst hik; rw [if_pos rfl, hi]; rfl
    · rw [if_neg hik]
  rw [this]
  exact ⟨t', rfl, hset.trans h1 fun k => by omega⟩

/-- Running a printed list of members over the table. -/
theorem entries_class (C : Nat → Prop) (m i len : Nat) : ∀ (rs : List (Nat × Nat)) (t : List Proc),
    t.length = len → (∀ r ∈ rs, r.1 ≤ r.2 ∧ r.2 < U32MAX) → UsableAt t i →
    Leads t m i → (∀ k, InRanges rs k → UsableAt t k → C k) → ClassOk C m t →
    ∃ t', runEntries (Processors.siblingsCallback len i siblingsCallback) (some t) (rs.map some) =
      (some t', true) ∧ PlacedOn (fun k => rs ≠ [] ∧ (k = i ∨ InRanges rs k)) m t t'
  | [], t, _, _, _, _, _, _ => ⟨t, rfl, .refl fun k h => h.1 rfl⟩
  | (a, b) :: rs, t, hlen, hrs, ⟨p, hp, hu⟩, ⟨p', hp', hl⟩, hC, hok => by
    rw [hp] at hp'; cases hp'
    have hab := hrs (a, b) List.mem_cons_self
    have hmod : (b + 1) % U32 = b + 1 := Nat.mod_eq_of_lt (by have := hab.2; dsimp only at this; omega)
    obtain ⟨t1, e1, h1⟩ := siblingsParser_class C m i a (if b + 1 > len then len else b + 1) t p hp hu
      hl (by split <;> omega)
      (fun k hk hk' hu' => hC k ⟨(a, b), List.mem_cons_self, by
        constructor
        · exact hk
        · show k ≤ b
          split at hk' <;> omega⟩ hu') hok
    have hi1 : t1[i]? = some (placed p m) := (h1.2 i p hp).1 ⟨.inl rfl, hu⟩
    obtain ⟨t2, e2, h2⟩ := entries_class C m i len rs t1 (h1.1.trans hlen)
      (fun r hr => hrs r (List.mem_cons_of_mem _ hr)) ⟨_, hi1, usable_placed m hu⟩ ⟨_, hi1, rfl⟩
      (fun k ⟨r, hr, hk⟩ hu' => hC k ⟨r, List.mem_cons_of_mem _ hr, hk⟩
        ((h1.same.usableAt k).mp hu')) (hok.placed h1)
    refine ⟨t2, ?_, ?_⟩
    · rw [List.map_cons, runEntries, hmod]
      have : Processors.siblingsCallback len i siblingsCallback (some t) a (b + 1) = (some t1, true) := by
        unfold Processors.siblingsCallback siblingsCallback
        rw [Option.bind_some, e1]
      rw [this]
      dsimp only
      rw [e2]
      rfl
    · have h12 := h1.trans h2 (S'' := fun k => (k = i ∨ a ≤ k ∧ k < (if b + 1 > len then len else b + 1))
          ∨ (rs ≠ [] ∧ (k = i ∨ InRanges rs k))) fun k => Iff.rfl
      refine ⟨h12.1, fun k q hq => ?_⟩
      obtain ⟨g1, g2⟩ := h12.2 k q hq
      have hk : k < len := by rw [← hlen]; exact lt_of_get hq
      have hiff : ((k = i ∨ a ≤ k ∧ k < (if b + 1 > len then len else b + 1)) ∨
          (rs ≠ [] ∧ (k = i ∨ InRanges rs k))) ↔
          ((a, b) :: rs ≠ [] ∧ (k = i ∨ InRanges ((a, b) :: rs) k)) := by
        constructor
        · rintro ((h | ⟨h, h'⟩) | ⟨_, h | ⟨r, hr, h⟩⟩)
          · exact ⟨List.cons_ne_nil _ _, .inl h⟩
          · refine ⟨List.cons_ne_nil _ _, .inr ⟨(a, b), List.mem_cons_self, h, ?_⟩⟩
            show k ≤ b
            split at h' <;> omega
          · exact ⟨List.cons_ne_nil _ _, .inl h⟩
          · exact ⟨List.cons_ne_nil _ _, .inr ⟨r, List.mem_cons_of_mem _ hr, h⟩⟩
        · rintro ⟨-, h | ⟨r, hr, h⟩⟩
          · exact .inl (.inl h)
          · rcases List.mem_cons.mp hr with rfl | hr
            · refine .inl (.inr ⟨h.1, ?_⟩)
              have h2 : k ≤ b := h.2
              split <;> omega
            · exact .inr ⟨List.ne_nil_of_mem hr, .inr ⟨r, hr, h⟩⟩
      exact ⟨fun hh => g1 ⟨hiff.mpr hh.1, hh.2⟩, fun hh => g2 fun h => hh ⟨hiff.mp h.1, h.2⟩⟩

theorem readSiblings_class (C : Nat → Prop) (m i : Nat) (rs : List (Nat × Nat)) (t : List Proc)
    (f : File) (hf : f.1 = some (printCpuList rs)) (hs : f.2.NoError) (hrs : RangesOk rs)
    (hi : UsableAt t i) (hl : Leads t m i) (hC : ∀ k, InRanges rs k → UsableAt t k → C k)
    (hok : ClassOk C m t) :
    ∃ t', readSiblings f t.length i t = some (t', true) ∧
      PlacedOn (fun k => k = i ∨ InRanges rs k) m t t' := by
  obtain ⟨t', e, h⟩ := entries_class C m i t.length rs t rfl hrs.2 hi hl hC hok
  obtain ⟨es, he1, he2, he3, he4, he5⟩ := printed_entries rs hrs.1
    (fun r hr => ⟨(hrs.2 r hr).1, by have := (hrs.2 r hr).2; omega⟩)
  have hp := Props.C01_cpulist_independent_of_reads
    (Processors.siblingsCallback t.length i siblingsCallback) (some t) f.2 hs es (rs.map some) he2 he3
    he4 ⟨fun e he => by have := he5 e (List.dropLast_subset _ he); omega,
      fun e he => by have := he5 e (List.mem_of_getLast? he); omega⟩
  refine ⟨t', ?_, h.1, fun k q hq => ?_⟩
  · unfold readSiblings Processors.detectSiblings
    rw [hf, he1, hp, e]
    rfl
  · obtain ⟨g1, g2⟩ := h.2 k q hq
    exact ⟨fun hh => g1 ⟨⟨hrs.1, hh.1⟩, hh.2⟩, fun hh => g2 fun g => hh ⟨g.1.2, g.2⟩⟩

theorem exists_first (t : List Proc) (cls : Nat → Nat) (i : Nat) (hi : UsableAt t i) :
    ∃ m, FirstOfClass t cls i m := by
  suffices h : ∀ n, (∃ m, FirstOfClass t cls i m) ∨ ∀ j, j < n → UsableAt t j → cls j ≠ cls i by
    rcases h (i + 1) with h | h
    · exact h
    · exact absurd rfl (h i (by omega) hi)
  intro n
  induction n with
  | zero => right; intro j hj; omega
  | succ n ih =>
    rcases ih with h | h
    · exact .inl h
    · by_cases hn : UsableAt t n ∧ cls n = cls i
      · exact .inl ⟨n, hn.1, hn.2, h⟩
      · right
        intro j hj hju
        by_cases hjn : j = n
        · subst hjn; exact fun hh => hn ⟨hju, hh⟩
        · exact h j (by omega) hju

/-- The invariant of the loop over the sibling lists. -/
structure ClassInv (t : List Proc) (cls : Nat → Nat) (i : Nat) (T : List Proc) : Prop where
  same : SameTable t T
  done : ∀ (k m : Nat) (q : Proc), T[k]? = some q → Usable q → FirstOfClass t cls k m → m < i →
    q.packageLeaderId = m ∧ Clustered q
  fresh : ∀ (k m : Nat) (q : Proc), T[k]? = some q → Usable q → FirstOfClass t cls k m → i ≤ m →
    q.packageLeaderId = k

theorem first_unique {t : List Proc} {cls : Nat → Nat} {i j m m' : Nat} (h : FirstOfClass t cls i m)
    (h' : FirstOfClass t cls j m') (hc : cls i = cls j) : m = m' := by
  rcases Nat.lt_trichotomy m m' with g | g | g
  · exact absurd (h.2.1.trans hc) (h'.2.2 m g h.1)
  · exact g
  · exact absurd (h'.2.1.trans hc.symm) (h.2.2 m' g h'.1)

theorem first_le {t : List Proc} {cls : Nat → Nat} {i m : Nat} (hi : UsableAt t i)
    (h : FirstOfClass t cls i m) : m ≤ i := by
  apply Classical.byContradiction
  intro hlt
  exact h.2.2 i (by omega) hi rfl

theorem read_class {t : List Proc} {cls : Nat → Nat} {lists : Nat → List (Nat × Nat)} {i : Nat}
    {T : List Proc} (h : ClassInv t cls i T) (hi : UsableAt t i) (f : File)
    (hmem : ∀ j, UsableAt t j → (InRanges (lists i) j ↔ cls j = cls i)) (hr : RangesOk (lists i))
    (hf : f.1 = some (printCpuList (lists i))) (hs : f.2.NoError) :
    ∃ T', readSiblings f T.length i T = some (T', true) ∧ ClassInv t cls (i + 1) T' := by
  obtain ⟨m, hm⟩ := exists_first t cls i hi
  have hmi := first_le hi hm
  have hiT := (h.same.usableAt i).mpr hi
  have lead : ∀ (k : Nat) (q : Proc), cls k = cls i → T[k]? = some q → Usable q →
      m ≤ k ∧ (q.packageLeaderId = m ∨ q.packageLeaderId = k) := by
    intro k q hc hq hu
    have hk : UsableAt t k := (h.same.usableAt k).mp ⟨q, hq, hu⟩
    obtain ⟨m', hm'⟩ := exists_first t cls k hk
    have := first_unique hm' hm hc
    subst this
    refine ⟨first_le hk hm', ?_⟩
    by_cases hlt : m' < i
    · exact .inl (h.done k m' q hq hu hm' hlt).1
    · exact .inr (h.fresh k m' q hq hu hm' (by omega))
  have hL : Leads T m i := by
    obtain ⟨q, hq, hu⟩ := hiT
    refine ⟨q, hq, ?_⟩
    by_cases hlt : m < i
    · exact (h.done i m q hq hu hm hlt).1
    · rw [h.fresh i m q hq hu hm (by omega)]; omega
  obtain ⟨T', e, hP⟩ := readSiblings_class (fun k => cls k = cls i) m i (lists i) T f hf hs hr hiT hL
    (fun k hk hu => (hmem k ((h.same.usableAt k).mp hu)).mp hk) lead
  refine ⟨T', e, h.same.trans hP.same, ?_, ?_⟩
  · intro k m' q hq hu hm' hlt
    obtain ⟨p, hp, hpq⟩ := hP.same.get hq
    have hpu := hpq.usable.mp hu
    have hk : UsableAt t k := (h.same.usableAt k).mp ⟨p, hp, hpu⟩
    obtain ⟨g1, g2⟩ := hP.2 k p hp
    by_cases hc : cls k = cls i
    · have := first_unique hm' hm hc
      subst this
      rw [g1 ⟨.inr ((hmem k hk).mpr hc), hpu⟩] at hq
      cases hq
      exact ⟨rfl, clustered_placed p m'⟩
    · have hne : ¬ (k = i ∨ InRanges (lists i) k) := by
        rintro (rfl | g)
        · exact hc rfl
        · exact hc ((hmem k hk).mp g)
      rw [g2 fun hh => hne hh.1] at hq
      cases hq
      have hmi' : m' ≠ i := by
        rintro rfl
        exact hc hm'.2.1.symm
      exact h.done k m' q hp hpu hm' (by omega)
  · intro k m' q hq hu hm' hlt
    obtain ⟨p, hp, hpq⟩ := hP.same.get hq
    have hpu := hpq.usable.mp hu
    have hk : UsableAt t k := (h.same.usableAt k).mp ⟨p, hp, hpu⟩
    obtain ⟨g1, g2⟩ := hP.2 k p hp
    by_cases hc : cls k = cls i
    · have := first_unique hm' hm hc
      omega
    · have hne : ¬ (k = i ∨ InRanges (lists i) k) := by
        rintro (rfl | g)
        · exact hc rfl
        · exact hc ((hmem k hk).mp g)
      rw [g2 fun hh => hne hh.1] at hq
      cases hq
      exact h.fresh k m' q hp hpu hm' (by omega)

theorem readSiblings_none (f : File) (hf : f.1 = none) (n i : Nat) (t : List Proc) :
    readSiblings f n i t = some (t, false) := by
  unfold readSiblings Processors.detectSiblings
  rw [hf]
  rfl

theorem siblingsStep_class {t : List Proc} {cls : Nat → Nat} {lists : Nat → List (Nat × Nat)}
    {cl co : Nat → File} (hk : KernelClusters t cls lists cl co) (i : Nat) (hi : i < t.length)
    (s : Siblings) (h : ClassInv t cls i s.table)
    (hflag : (s.coreNode = false ∧ ∀ i, UsableAt t i →
        (cl i).1 = some (printCpuList (lists i)) ∧ (cl i).2.NoError) ∨
      (s.clusterNode = false ∧ ∀ i, UsableAt t i → (cl i).1 = none ∧
        (co i).1 = some (printCpuList (lists i)) ∧ (co i).2.NoError)) :
    ∃ s', siblingsStep cl co t.length i s = some s' ∧ ClassInv t cls (i + 1) s'.table ∧
      ((s'.coreNode = false ∧ ∀ i, UsableAt t i →
        (cl i).1 = some (printCpuList (lists i)) ∧ (cl i).2.NoError) ∨
      (s'.clusterNode = false ∧ ∀ i, UsableAt t i → (cl i).1 = none ∧
        (co i).1 = some (printCpuList (lists i)) ∧ (co i).2.NoError)) := by
  have hlen : t.length = s.table.length := h.same.1.symm
  have hq : s.table[i]? = some (s.table[i]'(by omega)) := List.getElem?_eq_getElem (by omega)
  generalize s.table[i]'(by omega) = p at hq
  unfold siblingsStep
  rw [hq]
  simp only [Option.bind_eq_bind, Option.bind_some]
  by_cases hu : Usable p
  · rw [if_neg (fun hh => hh ((valid_iff p).mpr hu))]
    have hiu : UsableAt t i := (h.same.usableAt i).mp ⟨p, hq, hu⟩
    have hpk : bitmaskAll p.flags flagPackageId = true := by
      obtain ⟨r, hr, hrp⟩ := h.same.get hq
      have := hk.packageId i r hr (hrp.usable.mp hu)
      rw [show flagPackageId = 2 ^ 6 from rfl, bitmask_pow, hrp.2 6 (by decide)]
      exact this
    rw [if_neg (fun hh => hh hpk)]
    have hread := fun f => read_class h hiu f (fun j hj => hk.members i j hiu hj) (hk.ranges i hiu)
    rw [hlen]
    rcases hflag with ⟨hc, hf⟩ | ⟨hc, hf⟩
    · obtain ⟨T', e, hT⟩ := hread (cl i) (hf i hiu).1 (hf i hiu).2
      split
      · rw [e]
        exact ⟨_, rfl, hT, .inl ⟨hc, hf⟩⟩
      · rw [if_neg (by rw [hc]; exact Bool.false_ne_true), e]
        exact ⟨_, rfl, hT, .inl ⟨hc, hf⟩⟩
    · obtain ⟨T', e, hT⟩ := hread (co i) (hf i hiu).2.1 (hf i hiu).2.2
      split
      · rw [readSiblings_none _ (hf i hiu).1]
        simp only [Option.bind_some, Bool.false_eq_true, if_false]
        rw [e]
        exact ⟨_, rfl, hT, .inr ⟨hc, hf⟩⟩
      · rename_i hn
        have hcore : s.coreNode = true := by
          cases hcn : s.coreNode with
          | true => rfl
          | false => exact absurd ⟨by simp [hcn], by simp [hc]⟩ hn
        rw [if_pos hcore, e]
        exact ⟨_, rfl, hT, .inr ⟨hc, hf⟩⟩
  · rw [if_pos (fun hh => hu ((valid_iff p).mp hh))]
    have hiu : ¬ UsableAt t i := by
      intro hh
      obtain ⟨r, hr, hru⟩ := (h.same.usableAt i).mpr hh
      rw [hq] at hr; cases hr; exact hu hru
    refine ⟨s, rfl, ⟨h.same, fun k m q a b c d => ?_, fun k m q a b c d => ?_⟩, hflag⟩
    · exact h.done k m q a b c (by
        have : m ≠ i := by rintro rfl; exact hiu c.1
        omega)
    · exact h.fresh k m q a b c (by omega)

/-- The table is fully clustered, with the leaders of the classes. -/
structure Settled (t : List Proc) (cls : Nat → Nat) (T : List Proc) : Prop where
  same : SameTable t T
  lead : ∀ (k m : Nat) (q : Proc), T[k]? = some q → Usable q → FirstOfClass t cls k m →
    q.packageLeaderId = m ∧ Clustered q

theorem FirstOfClass.congr {t t' : List Proc} (h : SameTable t t') {cls : Nat → Nat} {k m : Nat}
    (hf : FirstOfClass t cls k m) : FirstOfClass t' cls k m :=
  ⟨(h.usableAt m).mpr hf.1, hf.2.1, fun j hj hu => hf.2.2 j hj ((h.usableAt j).mp hu)⟩

theorem SameTable.symm {t t' : List Proc} (h : SameTable t t') : SameTable t' t := by
  refine ⟨h.1.symm, fun i p q hp hq => ?_⟩
  obtain ⟨a, b⟩ := h.2 i q p hq hp
  refine ⟨?_, fun k hk => (b k hk).symm⟩
  rw [a]

theorem readAllSiblings_class {t : List Proc} {cls : Nat → Nat} {lists : Nat → List (Nat × Nat)}
    {cl co : Nat → File} (hk : KernelClusters t cls lists cl co) :
    ∃ T, readAllSiblings cl co t = some T ∧ Settled t cls T := by
  obtain ⟨t1, e, h1, h2⟩ := initLeaders t
  obtain ⟨h3, -⟩ := initLeaders_linked h1 h2
  obtain ⟨s, e', h5, -⟩ := forRange_total (siblingsStep cl co t.length)
    (fun i s => ClassInv t cls i s.table ∧ ((s.coreNode = false ∧ ∀ i, UsableAt t i →
        (cl i).1 = some (printCpuList (lists i)) ∧ (cl i).2.NoError) ∨
      (s.clusterNode = false ∧ ∀ i, UsableAt t i → (cl i).1 = none ∧
        (co i).1 = some (printCpuList (lists i)) ∧ (co i).2.NoError))) t.length
    (fun j s hj ⟨a, b⟩ => siblingsStep_class hk j hj s a b) t.length 0 ⟨false, false, t1⟩
    (by omega) ⟨⟨h3, fun k m q _ _ _ hm => by omega, fun k m q hq _ _ _ => by
      have hkl : k < t.length := by rw [← h1]; exact lt_of_get hq
      rw [h2 k t[k] (List.getElem?_eq_getElem hkl)] at hq
      cases hq; rfl⟩, by
      rcases hk.files with hf | hf
      · exact .inl ⟨rfl, hf⟩
      · exact .inr ⟨rfl, hf⟩⟩
  refine ⟨s.table, ?_, h5.same, fun k m q hq hu hm => h5.done k m q hq hu hm ?_⟩
  · unfold readAllSiblings
    rw [e]
    simp only [Option.bind_eq_bind, Option.bind_some]
    rw [h1, e']; rfl
  · obtain ⟨r, hr, -⟩ := hm.1
    exact lt_of_get hr

theorem settled_first {t : List Proc} {cls : Nat → Nat} {T : List Proc} (h : Settled t cls T) {k : Nat}
    {q : Proc} (hq : T[k]? = some q) (hu : Usable q) :
    Clustered q ∧ q.packageLeaderId ≤ k ∧ ∃ l, T[q.packageLeaderId]? = some l ∧ Usable l ∧
      l.packageLeaderId = q.packageLeaderId := by
  have hk : UsableAt t k := (h.same.usableAt k).mp ⟨q, hq, hu⟩
  obtain ⟨m, hm⟩ := exists_first t cls k hk
  obtain ⟨a, b⟩ := h.lead k m q hq hu hm
  obtain ⟨l, hl, hlu⟩ := (h.same.usableAt m).mpr hm.1
  refine ⟨b, by rw [a]; exact first_le hk hm, l, by rw [a]; exact hl, hlu, ?_⟩
  rw [a]
  refine (h.lead m m l hl hlu ⟨hm.1, rfl, fun j hj hu => ?_⟩).1
  rw [hm.2.1]
  exact hm.2.2 j hj hu

theorem settled_led {t : List Proc} {cls : Nat → Nat} {T : List Proc} (h : Settled t cls T) : Led T := by
  intro i p hp hu
  obtain ⟨-, a, l, hl, hlu, b⟩ := settled_first h hp hu
  exact ⟨a, ⟨l, hl, hlu⟩, ⟨l, hl, b⟩⟩

theorem propagate_settled {t : List Proc} {cls : Nat → Nat} {T : List Proc} (h : Settled t cls T) :
    propagate T = some (usableCount T, T) := by
  obtain ⟨s, e, rfl⟩ := forRange_total propagateStep (fun i s => s = (rank T i, T)) T.length (by
    rintro j s hj rfl
    have hq := List.getElem?_eq_getElem hj
    generalize T[j] = p at hq
    unfold propagateStep
    rw [hq]
    simp only [Option.bind_eq_bind, Option.bind_some]
    by_cases hu : Usable p
    · obtain ⟨hc, a, l, hl, hlu, b⟩ := settled_first h hq hu
      rw [if_pos ((both_iff p).mpr ⟨hu, hc⟩), rank_usable hq hu]
      split
      · rw [hl]
        simp only [Option.bind_some]
        rw [modify?_eq _ hq, b]
        have : T.set j { p with packageLeaderId := p.packageLeaderId } = T := by
          apply List.ext_getElem?
          intro k
          rw [set_get hq]
          by_cases hik : j = k
          · subst hik; rw [if_pos rfl, hq]
          · rw [if_neg hik]
        simp only [Option.bind_some]
        rw [this]
        exact ⟨_, rfl, rfl⟩
      · exact ⟨_, rfl, rfl⟩
    · rw [if_neg (fun hh => hu ((both_iff p).mp hh).1), rank_unusable hq hu]
      exact ⟨_, rfl, rfl⟩) T.length 0 (0, T) (by omega) (by rw [rank_zero])
  unfold propagate
  rw [e, rank_length]

theorem heuristic_settled {t : List Proc} {cls : Nat → Nat} {T : List Proc} (h : Settled t cls T)
    (c : Config) (junk : Attrs) (u : Nat) (T' : List Proc) (ok : Bool)
    (e : heuristic c junk u T = some (T', ok)) : T' = T := by
  cases ok with
  | false => exact heuristic_false c junk u T T' e
  | true =>
    obtain ⟨ss, -, hv, s, rfl, ha⟩ := heuristic_true c junk u T T' e
    apply List.ext_getElem?
    intro k
    by_cases hk : k < T.length
    · have hp := List.getElem?_eq_getElem hk
      generalize T[k] = p at hp
      rw [hp]
      by_cases hu : Usable p
      · by_cases hr : rank T k % 4 = 0
        · exact ha.first k p hk hp hu hr
        · obtain ⟨g, ⟨q, hq, hqu⟩, hgk, hgr, e'⟩ := ha.member k p hk hp hu hr
          rw [e']
          congr 1
          have hc := (settled_first h hp hu).1
          exact placed_of_clustered hc ((hv.same k g p q hk hp hu hq hqu hgr).2 hc)
      · exact ha.unusable k p hp hu
    · rw [List.getElem?_eq_none (show s.table.length ≤ k by rw [ha.length]; omega),
        List.getElem?_eq_none (show T.length ≤ k by omega)]

theorem scan_settled {t : List Proc} {cls : Nat → Nat} {T : List Proc} (h : Settled t cls T)
    (junk : Attrs) : sequentialScan junk T = some T := by
  obtain ⟨s, lead, e, hs⟩ := sequentialScan_inv junk T
  rw [e]
  congr 1
  apply List.ext_getElem?
  intro k
  by_cases hk : k < T.length
  · have hp := List.getElem?_eq_getElem hk
    generalize T[k] = p at hp
    rw [hp]
    exact hs.other k p hp fun hf => hf.2 (settled_first h hp hf.1).1
  · rw [List.getElem?_eq_none (show s.table.length ≤ k by rw [hs.length]; omega),
      List.getElem?_eq_none (show T.length ≤ k by omega)]

/-- With clusters described by the kernel, cluster detection finds them, whatever the count of
usable processors it was told. -/
theorem detectClusters_class (c : Config) (junk junk' : Attrs) {t : List Proc} {cls : Nat → Nat}
    {lists : Nat → List (Nat × Nat)} {cl co : Nat → File} (hk : KernelClusters t cls lists cl co)
    (hz : ∀ p, p ∈ t → p.packageProcessorCount = 0) (u : Nat) (t' : List Proc)
    (h : detectClusters c junk junk' cl co u t = some t') :
    ∀ (i m : Nat) (p : Proc), t'[i]? = some p → Usable p → FirstOfClass t cls i m →
      p.packageLeaderId = m := by
  obtain ⟨T, e1, hT⟩ := readAllSiblings_class hk
  have e2 := propagate_settled hT
  have hcount : countProcessors T = some t' := by
    unfold detectClusters at h
    rw [e1] at h
    simp only [Option.bind_eq_bind, Option.bind_some] at h
    rw [e2] at h
    simp only [Option.bind_some] at h
    by_cases hn : usableCount T ≠ u
    · rw [if_pos hn] at h
      cases e3 : heuristic c junk u T with
      | none => rw [e3] at h; cases h
      | some r =>
        obtain ⟨T', ok⟩ := r
        have := heuristic_settled hT c junk u T' ok e3
        subst this
        rw [e3] at h
        simp only [Option.bind_some] at h
        cases ok with
        | true => exact h
        | false =>
          simp only [Bool.false_eq_true, if_false] at h
          rw [scan_settled hT] at h
          exact h
    · rw [if_neg hn] at h
      exact h
  obtain ⟨t2, e3, l3, h3⟩ := countProcessors_spec T (settled_led hT) (zero_of_same hT.same hz)
  rw [hcount] at e3
  cases e3
  intro i m q hq hu hm
  have hi : i < T.length := by rw [← l3]; exact lt_of_get hq
  have hp := List.getElem?_eq_getElem hi
  generalize T[i] = p at hp
  rw [h3 i p hp] at hq
  cases hq
  exact (hT.lead i m p hp hu hm).1

/-! ## Without topology files -/

/-- A processor with another leader. -/
def withLeader (p : Proc) (l : Nat) : Proc := { p with packageLeaderId := l }

/-- `T` is `t` with every processor leading itself. -/
structure SelfTable (t T : List Proc) : Prop where
  length : T.length = t.length
  get : ∀ (k : Nat) (p : Proc), t[k]? = some p → T[k]? = some (withLeader p k)

theorem SelfTable.get' {t T : List Proc} (h : SelfTable t T) {k : Nat} {q : Proc}
    (hq : T[k]? = some q) : ∃ p, t[k]? = some p ∧ q = withLeader p k := by
  have hk : k < t.length := by rw [← h.length]; exact lt_of_get hq
  refine ⟨t[k], List.getElem?_eq_getElem hk, ?_⟩
  rw [h.get k _ (List.getElem?_eq_getElem hk)] at hq
  exact (Option.some.inj hq).symm

theorem SelfTable.same {t T : List Proc} (h : SelfTable t T) : SameTable t T := by
  refine ⟨h.length, fun i p q hp hq => ?_⟩
  rw [h.get i p hp] at hq
  cases hq
  exact same_leader p i

theorem rank_same {t t' : List Proc} (h : SameTable t t') : ∀ i, rank t' i = rank t i := by
  intro i
  induction i with
  | zero => rw [rank_zero, rank_zero]
  | succ i ih =>
    by_cases hi : i < t.length
    · obtain ⟨q, hq, hpq⟩ := h.get' (List.getElem?_eq_getElem hi)
      by_cases hu : Usable t[i]
      · rw [rank_usable hq (hpq.usable.mpr hu), rank_usable (List.getElem?_eq_getElem hi) hu, ih]
      · rw [rank_unusable hq (mt hpq.usable.mp hu), rank_unusable (List.getElem?_eq_getElem hi) hu, ih]
    · unfold rank at ih ⊢
      have hl := h.1
      rw [List.take_of_length_le (show t'.length ≤ i by omega),
        List.take_of_length_le (show t.length ≤ i by omega)] at ih
      rw [List.take_of_length_le (show t'.length ≤ i + 1 by omega),
        List.take_of_length_le (show t.length ≤ i + 1 by omega)]
      exact ih

theorem SelfTable.freeAt {t T : List Proc} (h : SelfTable t T) (k : Nat) : FreeAt T k ↔ FreeAt t k := by
  constructor
  · rintro ⟨q, hq, hf⟩
    obtain ⟨p, hp, rfl⟩ := h.get' hq
    exact ⟨p, hp, hf⟩
  · rintro ⟨p, hp, hf⟩
    exact ⟨_, h.get k p hp, hf⟩

theorem SelfTable.scanLeader {t T : List Proc} (h : SelfTable t T) {lead : Nat → Nat} {j : Nat}
    (hs : ScanLeader T lead j) : ScanLeader t lead j := by
  refine ⟨fun g => hs.1 fun k hk hf => g k hk ((h.freeAt k).mp hf), fun k hk hf g => ?_⟩
  obtain ⟨a, b⟩ := hs.2 k hk ((h.freeAt k).mpr hf) fun m hm hm' hf' => g m hm hm' ((h.freeAt m).mp hf')
  refine ⟨fun hn => a ?_, fun ⟨m, p, q, hm, hp, hfp, hl, hq, hc⟩ =>
    b ⟨m, _, _, hm, h.get m p hp, hfp, hl, h.get j q hq, hc⟩⟩
  rintro ⟨m, p, q, hm, hp, hfp, hl, hq, hc⟩
  obtain ⟨p', hp', rfl⟩ := h.get' hp
  obtain ⟨q', hq', rfl⟩ := h.get' hq
  exact hn ⟨m, p', q', hm, hp', hfp, hl, hq', hc⟩

theorem readAllSiblings_none (cl co : Nat → File) (hcl : ∀ i, (cl i).1 = none)
    (hco : ∀ i, (co i).1 = none) (t : List Proc) :
    ∃ T, readAllSiblings cl co t = some T ∧ SelfTable t T := by
  obtain ⟨t1, e, h1, h2⟩ := initLeaders t
  obtain ⟨s, e', h5⟩ := forRange_total (siblingsStep cl co t1.length) (fun _ s => s.table = t1)
    t1.length (by
      rintro j s hj rfl
      have hq := List.getElem?_eq_getElem hj
      generalize s.table[j] = p at hq
      unfold siblingsStep
      rw [hq]
      simp only [Option.bind_eq_bind, Option.bind_some, readSiblings_none _ (hcl j),
        readSiblings_none _ (hco j), Bool.false_eq_true, if_false]
      (repeat' split) <;> exact ⟨_, rfl, rfl⟩) t1.length 0 ⟨false, false, t1⟩ (by omega) rfl
  refine ⟨t1, ?_, h1, h2⟩
  unfold readAllSiblings
  rw [e]
  simp only [Option.bind_eq_bind, Option.bind_some]
  rw [e', ← h5]; rfl

theorem propagate_unclustered (T : List Proc) (h : ∀ p, p ∈ T → ¬ Clustered p) :
    propagate T = some (0, T) := by
  obtain ⟨s, e, rfl⟩ := forRange_total propagateStep (fun _ s => s = (0, T)) T.length (by
    rintro j s hj rfl
    have hq := List.getElem?_eq_getElem hj
    generalize T[j] = p at hq
    unfold propagateStep
    rw [hq]
    simp only [Option.bind_eq_bind, Option.bind_some]
    rw [if_neg (fun hh => h p (List.mem_of_getElem? hq) ((both_iff p).mp hh).2)]
    exact ⟨_, rfl, rfl⟩) T.length 0 (0, T) (by omega) rfl
  exact e

/-- Without topology files the clusters are groups of four if these respect what is known, and
those of the sequential scan otherwise. -/
theorem detectClusters_plain (c : Config) (junk junk' : Attrs) (cl co : Nat → File)
    (hcl : ∀ i, (cl i).1 = none) (hco : ∀ i, (co i).1 = none) (u : Nat) (t : List Proc)
    (hu : usableCount t ≤ u) (hz : ∀ p, p ∈ t → p.packageProcessorCount = 0)
    (hn : ∀ p, p ∈ t → ¬ Clustered p) :
    ∃ t', detectClusters c junk junk' cl co u t = some t' ∧
      ((∃ ss, clusterSizes c u = some ss) ∧ GroupsFit t → ∀ (i : Nat) (p : Proc), t'[i]? = some p →
        Usable p → UsableAt t p.packageLeaderId ∧ rank t p.packageLeaderId = rank t i / 4 * 4) ∧
      (¬ ((∃ ss, clusterSizes c u = some ss) ∧ GroupsFit t) → ∃ lead : Nat → Nat,
        ∀ (i : Nat) (p : Proc), t'[i]? = some p → Usable p →
          p.packageLeaderId = lead i ∧ ScanLeader t lead i) := by
  obtain ⟨T, e1, hT⟩ := readAllSiblings_none cl co hcl hco t
  have hnT : ∀ q, q ∈ T → ¬ Clustered q := by
    intro q hq
    obtain ⟨k, hk⟩ := List.getElem?_of_mem hq
    obtain ⟨p, hp, rfl⟩ := hT.get' hk
    exact hn p (List.mem_of_getElem? hp)
  have e2 := propagate_unclustered T hnT
  have hfit : GroupsFit t ↔ Verified T T.length := by
    constructor
    · intro h
      refine ⟨fun j g p q _ hp hpu hq hqu _ => ?_, fun j k p q _ _ hp hpu hq hqu => ?_⟩
      · have h1 := hnT p (List.mem_of_getElem? hp)
        exact ⟨⟨fun hc => absurd hc h1,
          fun hc => absurd hc (hnT q (List.mem_of_getElem? hq))⟩, fun hc => absurd hc h1⟩
      · obtain ⟨p', hp', rfl⟩ := hT.get' hp
        obtain ⟨q', hq', rfl⟩ := hT.get' hq
        rw [rank_same hT.same, rank_same hT.same]
        exact h.agree j k p' q' hp' hpu hq' hqu
    · intro h
      refine ⟨fun j g p q hp hpu hq hqu _ => ?_, fun j k p q hp hpu hq hqu => ?_⟩
      · have h1 := hn p (List.mem_of_getElem? hp)
        exact ⟨⟨fun hc => absurd hc h1,
          fun hc => absurd hc (hn q (List.mem_of_getElem? hq))⟩, fun hc => absurd hc h1⟩
      · have := h.agree j k _ _ (lt_of_get (hT.get j p hp)) (lt_of_get (hT.get k q hq)) (hT.get j p hp)
          hpu (hT.get k q hq) hqu
        rw [rank_same hT.same, rank_same hT.same] at this
        exact this
  have huT : usableCount T ≤ u := by rw [usableCount_eq hT.same]; exact hu
  have hLT : Linked T := by
    intro k q hq
    obtain ⟨p, hp, rfl⟩ := hT.get' hq
    exact ⟨Nat.le_refl _, .inl rfl⟩
  -- counting keeps the leaders
  have fin : ∀ T' : List Proc, SameTable T T' → Led T' → ∃ t', countProcessors T' = some t' ∧
      ∀ (i : Nat) (p : Proc), t'[i]? = some p → ∃ q, T'[i]? = some q ∧ (Usable p ↔ Usable q) ∧
        p.packageLeaderId = q.packageLeaderId := by
    intro T' hs hled
    obtain ⟨t', e, l, h⟩ := countProcessors_spec T' hled (zero_of_same (hT.same.trans hs) hz)
    refine ⟨t', e, fun i p hp => ?_⟩
    have hi : i < T'.length := by rw [← l]; exact lt_of_get hp
    have hq := List.getElem?_eq_getElem hi
    generalize T'[i] = q at hq
    rw [h i q hq] at hp
    cases hp
    exact ⟨q, hq, Iff.rfl, rfl⟩
  have hdet : detectClusters c junk junk' cl co u t = (if 0 ≠ u then
      (heuristic c junk u T).bind fun r =>
        if r.2 = true then countProcessors r.1 else (sequentialScan junk' r.1).bind countProcessors
      else countProcessors T) := by
    unfold detectClusters
    rw [e1]
    simp only [Option.bind_eq_bind, Option.bind_some]
    rw [e2]
    rfl
  by_cases h0 : 0 ≠ u
  · rw [if_pos h0] at hdet
    obtain ⟨⟨T', ok⟩, e3⟩ := heuristic_total c junk u T huT
    rw [hdet, e3]
    simp only [Option.bind_some]
    cases ok with
    | true =>
      obtain ⟨hs, hled⟩ := heuristic_led c junk u T T' hLT e3
      obtain ⟨t', e4, h4⟩ := fin T' hs hled
      rw [if_pos rfl]
      obtain ⟨ss, hss, hv, s, rfl, ha⟩ := heuristic_true c junk u T T' e3
      refine ⟨t', e4, fun _ i p hp hpu => ?_, fun hno => absurd ⟨⟨ss, hss⟩, hfit.mpr hv⟩ hno⟩
      obtain ⟨q, hq, huq, hl⟩ := h4 i p hp
      rw [hl]
      obtain ⟨r, hr, hrq⟩ := hs.get hq
      have hru := hrq.usable.mp (huq.mp hpu)
      rw [← hT.same.usableAt, ← rank_same hT.same, ← rank_same hT.same]
      by_cases h4 : rank T i % 4 = 0
      · rw [ha.first i r (lt_of_get hr) hr hru h4] at hq
        cases hq
        obtain ⟨p', hp', rfl⟩ := hT.get' hr
        exact ⟨⟨_, hr, hru⟩, by show rank T i = _; omega⟩
      · obtain ⟨g, hg, -, hgr, e⟩ := ha.member i r (lt_of_get hr) hr hru h4
        rw [e] at hq
        cases hq
        exact ⟨hg, hgr⟩
    | false =>
      have := heuristic_false c junk u T T' e3
      subst this
      rw [if_neg Bool.false_ne_true]
      obtain ⟨s, lead, e4, hs⟩ := sequentialScan_inv junk' T'
      obtain ⟨T2, e5, s5, led5⟩ := scan_led junk' T' hLT (led_rep hT)
      rw [e4] at e5
      cases e5
      obtain ⟨t', e6, h6⟩ := fin s.table s5 led5
      refine ⟨t', by rw [e4]; exact e6, ?_, fun _ => ⟨lead, fun i p hp hpu => ?_⟩⟩
      · rintro ⟨⟨ss, hss⟩, hg⟩
        obtain ⟨t'', e7⟩ := heuristic_succeeds c junk u T' ss hss huT (hfit.mp hg)
        rw [e3] at e7
        cases e7
      · obtain ⟨q, hq, huq, hl⟩ := h6 i p hp
        obtain ⟨r, hr, hrq⟩ := s5.get hq
        have hru := hrq.usable.mp (huq.mp hpu)
        have hf : Free r := ⟨hru, hnT r (List.mem_of_getElem? hr)⟩
        rw [hs.free i r (lt_of_get hr) hr hf] at hq
        cases hq
        exact ⟨hl, hT.scanLeader (hs.spec i (lt_of_get hr) ⟨r, hr, hf⟩)⟩
  · rw [if_neg h0] at hdet
    obtain ⟨t', e4, h4⟩ := fin T (SameTable.refl T) (led_of_rep hLT (led_rep hT))
    have nobody : ∀ (i : Nat) (p : Proc), t'[i]? = some p → ¬ Usable p := by
      intro i p hp hpu
      obtain ⟨q, hq, huq, -⟩ := h4 i p hp
      have := rank_lt_count ⟨q, hq, huq.mp hpu⟩
      omega
    exact ⟨t', hdet.trans e4, fun _ i p hp hpu => absurd hpu (nobody i p hp),
      fun _ => ⟨fun _ => 0, fun i p hp hpu => absurd hpu (nobody i p hp)⟩⟩
where
  led_rep {t T : List Proc} (hT : SelfTable t T) : Rep T T.length := by
    intro k q _ hq
    obtain ⟨p, hp, rfl⟩ := hT.get' hq
    exact ⟨_, hq, rfl⟩

end Verif.ArmClusters
