import Verif.Proof.RiscvFault

/-!
# The transfer of any table of RISC-V processors

No assumption is made on the groups: the table may stem from contradictory files.
-/

set_option autoImplicit false

namespace Verif.Riscv
open Spec
open Platform (put)

/-- Counts are at most others. -/
structure CountsLe (a b : Counts) : Prop where
  processors : a.processors ≤ b.processors
  cores : a.cores ≤ b.cores
  clusters : a.clusters ≤ b.clusters
  packages : a.packages ≤ b.packages
  uarchs : a.uarchs ≤ b.uarchs

theorem countStep_le (c : Counts) (p : Proc) : CountsLe c (countStep c p) := by
  unfold countStep
  by_cases hv : p.valid = true
  · rw [if_pos hv]
    dsimp only
    constructor <;> split <;> dsimp only <;> first | omega | (split <;> omega)
  · rw [if_neg hv]
    exact ⟨Nat.le_refl _, Nat.le_refl _, Nat.le_refl _, Nat.le_refl _, Nat.le_refl _⟩

theorem foldl_count_le (xs : List Proc) : ∀ c : Counts, CountsLe c (xs.foldl countStep c) := by
  induction xs with
  | nil => exact fun c => ⟨Nat.le_refl _, Nat.le_refl _, Nat.le_refl _, Nat.le_refl _, Nat.le_refl _⟩
  | cons x xs ih =>
    intro c
    have h1 := countStep_le c x
    have h2 := ih (countStep c x)
    exact ⟨Nat.le_trans h1.1 h2.1, Nat.le_trans h1.2 h2.2, Nat.le_trans h1.3 h2.3,
      Nat.le_trans h1.4 h2.4, Nat.le_trans h1.5 h2.5⟩

/-- The indices are what was counted so far, the tables as long as what was counted in the end. -/
structure Safe (n : Nat) (c all : Counts) (s : State) : Prop where
  pIndex : s.processorsIndex = c.processors
  cIndex : s.coresIndex = c.cores
  kIndex : s.clustersIndex = c.clusters
  gIndex : s.packagesIndex = c.packages
  uIndex : s.uarchsIndex = c.uarchs
  last : s.lastUarch = c.lastUarch
  pLen : s.processors.length = all.processors
  cLen : s.cores.length = all.cores
  kLen : s.clusters.length = all.clusters
  gLen : s.packages.length = all.packages
  uLen : s.uarchs.length = all.uarchs
  mapLen : s.processorMap.length = n
  coreMapLen : s.coreMap.length = n
  uarchMapLen : s.uarchMap.length = n

theorem modifyLast_ok {α : Type} (t : List α) (k : Nat) (f : α → α) (h1 : 0 < k) (h2 : k ≤ t.length) :
    ∃ t', modifyLast t k f = some t' ∧ t'.length = t.length := by
  obtain ⟨_, t', _, e, h, _⟩ := modifyLast_some t k f h1 h2
  exact ⟨t', e, h⟩

theorem put_ok {α : Type} {t : List α} {i : Nat} (x : α) (h : i < t.length) :
    ∃ t', put t i x = some t' ∧ t'.length = t.length :=
  ⟨_, put_some x h, List.length_set⟩

/-- One round on a table that is large enough. -/
theorem step_safe {n : Nat} {c all : Counts} {s : State} {p : Proc} (hs : Safe n c all s)
    (hle : CountsLe (countStep c p) all) (hv : p.valid = true) (hid : p.linuxId < n)
    (h1 : 0 < (countStep c p).cores) (h2 : 0 < (countStep c p).clusters)
    (h3 : 0 < (countStep c p).packages) :
    ∃ s', transferStep p s = some s' ∧ Safe n (countStep c p) all s' := by
  have hc : countStep c p =
      { processors := c.processors + 1
        cores := if p.leads .core then c.cores + 1 else c.cores
        clusters := if p.leads .cluster then c.clusters + 1 else c.clusters
        packages := if p.leads .package then c.packages + 1 else c.packages
        uarchs := if c.lastUarch ≠ p.uarch ∨ c.uarchs = 0 then c.uarchs + 1 else c.uarchs
        lastUarch := if c.lastUarch ≠ p.uarch ∨ c.uarchs = 0 then p.uarch else c.lastUarch } := by
    unfold countStep
    rw [if_pos hv]
    dsimp only
    by_cases e : c.lastUarch ≠ p.uarch ∨ c.uarchs = 0
    · rw [if_pos e, if_pos e, if_pos e]
    · rw [if_neg e, if_neg e, if_neg e]
  generalize hd : countStep c p = d at *
  obtain ⟨d1, d2, d3, d4, d5, d6⟩ := d
  injection hc with e1 e2 e3 e4 e5 e6
  obtain ⟨l1, l2, l3, l4, l5⟩ := hle
  dsimp only at h1 h2 h3 l1 l2 l3 l4 l5
  obtain ⟨s1, s2, s3, s4, s5, s6, s7, s8, s9, s10, s11, s12, s13, s14⟩ := hs
  -- the microarchitecture and the processor
  have a1 : ∃ t, transferProcessor p s = some t ∧ t.processorsIndex = d1 ∧ t.uarchsIndex = d5 ∧
      t.lastUarch = d6 ∧ t.processors.length = all.processors ∧ t.uarchs.length = all.uarchs ∧
      t.coresIndex = s.coresIndex ∧ t.clustersIndex = s.clustersIndex ∧
      t.packagesIndex = s.packagesIndex ∧ t.cores = s.cores ∧ t.clusters = s.clusters ∧
      t.packages = s.packages ∧ t.processorMap = s.processorMap ∧ t.coreMap = s.coreMap ∧
      t.uarchMap = s.uarchMap := by
    obtain ⟨ps, q1, q2⟩ := put_ok (t := s.processors) (i := s.processorsIndex)
      (⟨p.linuxId, none, none, none⟩ : Processor) (by omega)
    unfold transferProcessor
    by_cases e : c.lastUarch ≠ p.uarch ∨ c.uarchs = 0
    · rw [if_pos e] at e5 e6
      rw [if_pos (by rw [s6, s5]; exact e)]
      obtain ⟨us, u1, u2⟩ := put_ok (t := s.uarchs) (i := s.uarchsIndex) (⟨p.uarch, 0, 0⟩ : Uarch)
        (by omega)
      obtain ⟨us', v1, v2⟩ := modifyLast_ok us (s.uarchsIndex + 1)
        (fun u : Uarch => { u with processorCount := u.processorCount + 1 }) (by omega) (by omega)
      simp only [u1, Option.bind_eq_bind, Option.bind_some, Option.pure_def, q1, v1]
      exact ⟨_, rfl, by dsimp only; omega, by dsimp only; omega, e6.symm, by dsimp only; omega,
        by dsimp only; omega, rfl, rfl, rfl, rfl, rfl, rfl, rfl, rfl, rfl⟩
    · rw [if_neg e] at e5 e6
      rw [if_neg (by rw [s6, s5]; exact e)]
      have hu : c.uarchs ≠ 0 := fun h => e (.inr h)
      obtain ⟨us', v1, v2⟩ := modifyLast_ok s.uarchs s.uarchsIndex
        (fun u : Uarch => { u with processorCount := u.processorCount + 1 }) (by omega) (by omega)
      simp only [Option.bind_eq_bind, Option.bind_some, Option.pure_def, q1, v1]
      exact ⟨_, rfl, by dsimp only; omega, by dsimp only; omega, by dsimp only; omega,
        by dsimp only; omega, by dsimp only; omega, rfl, rfl, rfl, rfl, rfl, rfl, rfl, rfl, rfl⟩
  obtain ⟨t, a1, b1, b2, b3, b4, b5, b6, b7, b8, b9, b10, b11, b12, b13, b14⟩ := a1
  have hd5 : 0 < d5 := by
    by_cases e : c.lastUarch ≠ p.uarch ∨ c.uarchs = 0
    · rw [if_pos e] at e5; omega
    · rw [if_neg e] at e5
      have : c.uarchs ≠ 0 := fun h => e (.inr h)
      omega
  -- the core
  have a2 : ∃ r, transferCore p t = some r ∧ r.coresIndex = d2 ∧ r.cores.length = all.cores ∧
      r.uarchs.length = all.uarchs ∧ r = { t with
        cores := r.cores, coresIndex := r.coresIndex, uarchs := r.uarchs } := by
    unfold transferCore
    by_cases e : p.leads .core = true
    · rw [if_pos e] at e2
      rw [if_pos e]
      obtain ⟨cs, q1, q2⟩ := put_ok (t := t.cores) (i := t.coresIndex) p.toCore (by rw [b9]; omega)
      obtain ⟨us, v1, v2⟩ := modifyLast_ok t.uarchs t.uarchsIndex
        (fun u : Uarch => { u with coreCount := u.coreCount + 1 }) (by omega) (by omega)
      simp only [Option.bind_eq_bind, Option.bind_some, Option.pure_def, q1, v1]
      rw [b9] at q2
      exact ⟨_, rfl, by dsimp only; omega, by dsimp only; omega, by dsimp only; omega, rfl⟩
    · rw [if_neg e] at e2
      rw [if_neg e]
      exact ⟨t, rfl, by omega, by rw [b9]; omega, b5, rfl⟩
  obtain ⟨r, a2, c1, c2, c3, c4⟩ := a2
  -- the cluster
  have a3 : ∃ x, transferCluster p r = some x ∧ x.clustersIndex = d3 ∧
      x.clusters.length = all.clusters ∧ x = { r with
        clusters := x.clusters, clustersIndex := x.clustersIndex } := by
    have f1 : r.clustersIndex = t.clustersIndex := by rw [c4]
    have f2 : r.clusters = t.clusters := by rw [c4]
    unfold transferCluster
    by_cases e : p.leads .cluster = true
    · rw [if_pos e] at e3
      rw [if_pos e]
      obtain ⟨cs, q1, q2⟩ := put_ok (t := r.clusters) (i := r.clustersIndex) p.toCluster
        (by rw [f2, b10]; omega)
      simp only [Option.bind_eq_bind, Option.bind_some, Option.pure_def, q1]
      rw [f2, b10] at q2
      exact ⟨_, rfl, by dsimp only; omega, by dsimp only; omega, rfl⟩
    · rw [if_neg e] at e3
      rw [if_neg e]
      exact ⟨r, rfl, by omega, by rw [f2, b10]; omega, rfl⟩
  obtain ⟨x, a3, g1, g2, g3⟩ := a3
  -- the package
  have a4 : ∃ w, transferPackage p x = some w ∧ w.packagesIndex = d4 ∧
      w.packages.length = all.packages ∧ w = { x with
        packages := w.packages, packagesIndex := w.packagesIndex } := by
    have f1 : x.packagesIndex = t.packagesIndex := by rw [g3, c4]
    have f2 : x.packages = t.packages := by rw [g3, c4]
    unfold transferPackage
    by_cases e : p.leads .package = true
    · rw [if_pos e] at e4
      rw [if_pos e]
      obtain ⟨cs, q1, q2⟩ := put_ok (t := x.packages) (i := x.packagesIndex) p.toPackage
        (by rw [f2, b11]; omega)
      simp only [Option.bind_eq_bind, Option.bind_some, Option.pure_def, q1]
      rw [f2, b11] at q2
      exact ⟨_, rfl, by dsimp only; omega, by dsimp only; omega, rfl⟩
    · rw [if_neg e] at e4
      rw [if_neg e]
      exact ⟨x, rfl, by omega, by rw [f2, b11]; omega, rfl⟩
  obtain ⟨w, a4, k1, k2, k3⟩ := a4
  have w1 : w.processors = t.processors := by rw [k3, g3, c4]
  have w2 : w.processorsIndex = t.processorsIndex := by rw [k3, g3, c4]
  have w3 : w.cores = r.cores := by rw [k3, g3]
  have w4 : w.coresIndex = r.coresIndex := by rw [k3, g3]
  have w5 : w.clusters = x.clusters := by rw [k3]
  have w6 : w.clustersIndex = x.clustersIndex := by rw [k3]
  have w7 : w.processorMap = t.processorMap := by rw [k3, g3, c4]
  have w8 : w.coreMap = t.coreMap := by rw [k3, g3, c4]
  have w9 : w.uarchMap = t.uarchMap := by rw [k3, g3, c4]
  have w10 : w.uarchs = r.uarchs := by rw [k3, g3]
  have w11 : w.uarchsIndex = t.uarchsIndex := by rw [k3, g3, c4]
  have w12 : w.lastUarch = t.lastUarch := by rw [k3, g3, c4]
  -- the links
  have p1 := lastPtr_some (n := w.cores.length) (k := w.coresIndex) (by omega) (by rw [w3]; omega)
  have p2 := lastPtr_some (n := w.clusters.length) (k := w.clustersIndex) (by omega) (by rw [w5]; omega)
  have p3 := lastPtr_some (n := w.packages.length) (k := w.packagesIndex) (by omega) (by omega)
  have p4 := lastPtr_some (n := w.processors.length) (k := w.processorsIndex) (by omega) (by rw [w1]; omega)
  obtain ⟨x1, y1, z1⟩ := modifyLast_ok w.processors w.processorsIndex
    (fun q : Processor => { q with
      core := some (w.coresIndex - 1), cluster := some (w.clustersIndex - 1)
      package := some (w.packagesIndex - 1) }) (by omega) (by rw [w1]; omega)
  obtain ⟨x2, y2, z2⟩ := modifyLast_ok w.cores w.coresIndex
    (fun q : Core => { q with
      cluster := some (w.clustersIndex - 1), package := some (w.packagesIndex - 1) })
      (by omega) (by rw [w3]; omega)
  obtain ⟨x3, y3, z3⟩ := modifyLast_ok w.clusters w.clustersIndex
    (fun q : Cluster => { q with package := some (w.packagesIndex - 1) })
      (by omega) (by rw [w5]; omega)
  obtain ⟨x4, y4, z4⟩ := put_ok (t := w.processorMap) (i := p.linuxId)
    (some (w.processorsIndex - 1)) (by rw [w7, b12]; omega)
  obtain ⟨x5, y5, z5⟩ := put_ok (t := w.coreMap) (i := p.linuxId)
    (some (w.coresIndex - 1)) (by rw [w8, b13]; omega)
  obtain ⟨x6, y6, z6⟩ := put_ok (t := w.uarchMap) (i := p.linuxId)
    (w.uarchsIndex - 1) (by rw [w9, b14]; omega)
  have a5 : transferLinks p w = some { w with
      processors := x1, cores := x2, clusters := x3, processorMap := x4, coreMap := x5, uarchMap := x6 } := by
    unfold transferLinks
    simp only [Option.bind_eq_bind, Option.bind_some, Option.pure_def, p1, p2, p3, p4, y1, y2, y3, y4,
      y5, y6]
  have a6 : transferStep p s = transferLinks p w := by
    unfold transferStep
    rw [if_pos hv, a1]
    simp only [Option.bind_eq_bind, Option.bind_some, a2, a3, a4]
  refine ⟨_, a6.trans a5, ?_⟩
  rw [w1] at z1
  rw [w3] at z2
  rw [w5] at z3
  rw [w7, b12] at z4
  rw [w8, b13] at z5
  rw [w9, b14] at z6
  refine ⟨?_, ?_, ?_, ?_, ?_, ?_, ?_, ?_, ?_, ?_, ?_, ?_, ?_, ?_⟩ <;> dsimp only
  · omega
  · omega
  · omega
  · omega
  · omega
  · omega
  · omega
  · omega
  · omega
  · omega
  · rw [w10]; exact c3
  · omega
  · omega
  · omega

/-- **The transfer of any table** whose numbers are in bounds is defined exactly if the first valid
processor leads its core, cluster and package, or there is none. -/
theorem transfer_defined (t : List Proc) (hb : ∀ p ∈ t, p.valid = true → p.linuxId < t.length) :
    (∃ s, transfer t = some s) ↔ ∀ p, (t.filter (·.valid)).head? = some p → ∀ l, p.leads l = true := by
  constructor
  · rintro ⟨s, hs⟩ p hp l
    refine Classical.byContradiction fun hl => ?_
    have h0 : (t.filter (·.valid))[0]? = some p := by rw [← List.head?_eq_getElem?]; exact hp
    obtain ⟨a, b, h1, h2, _, h4⟩ := filter_get _ t 0 _ h0
    rw [transfer_unled h1 (fun q hq => by simpa using List.countP_eq_zero.mp h4 q hq) h2 l
      (by simpa using hl)] at hs
    cases hs
  · intro hf
    have key : ∀ (post pre : List Proc) (s : State), pre ++ post = t →
        Safe t.length (counts pre) (counts t) s →
        (∀ q ∈ pre, q.valid = false) ∨
          (0 < (counts pre).cores ∧ 0 < (counts pre).clusters ∧ 0 < (counts pre).packages) →
        ∃ s', post.foldlM (fun s p => transferStep p s) s = some s' := by
      intro post
      induction post with
      | nil => exact fun _ s _ _ _ => ⟨s, rfl⟩
      | cons p post ih =>
        intro pre s ht hs hpos
        have hcp : counts (pre ++ [p]) = countStep (counts pre) p := by
          unfold counts
          rw [List.foldl_append]; rfl
        have hct : counts t = post.foldl countStep (countStep (counts pre) p) := by
          rw [← hcp, ← ht]
          unfold counts
          rw [← List.foldl_append]; simp
        have ht' : (pre ++ [p]) ++ post = t := by rw [← ht]; simp
        by_cases hv : p.valid = true
        · have hle : CountsLe (countStep (counts pre) p) (counts t) := by
            rw [hct]; exact foldl_count_le post _
          have hnext : 0 < (countStep (counts pre) p).cores ∧ 0 < (countStep (counts pre) p).clusters ∧
              0 < (countStep (counts pre) p).packages := by
            rcases hpos with hnone | hpos
            · have hl := hf p (by
                rw [← ht, List.filter_append, List.filter_eq_nil_iff.mpr fun q hq => by
                  rw [hnone q hq]; decide, List.nil_append, List.filter_cons_of_pos hv]
                rfl)
              unfold countStep
              rw [if_pos hv, if_pos (hl .core), if_pos (hl .cluster), if_pos (hl .package)]
              dsimp only
              split <;> dsimp only <;> omega
            · have := countStep_le (counts pre) p
              exact ⟨Nat.lt_of_lt_of_le hpos.1 this.2, Nat.lt_of_lt_of_le hpos.2.1 this.3,
                Nat.lt_of_lt_of_le hpos.2.2 this.4⟩
          obtain ⟨s', h1, h2⟩ := step_safe hs hle hv (hb p (by rw [← ht]; simp) hv)
            hnext.1 hnext.2.1 hnext.2.2
          rw [List.foldlM_cons, h1]
          exact ih (pre ++ [p]) s' ht' (by rw [hcp]; exact h2) (by rw [hcp]; exact .inr hnext)
        · have e1 : transferStep p s = some s := by unfold transferStep; rw [if_neg hv]
          have e2 : countStep (counts pre) p = counts pre := by unfold countStep; rw [if_neg hv]
          rw [List.foldlM_cons, e1]
          refine ih (pre ++ [p]) s ht' (by rw [hcp, e2]; exact hs) ?_
          rw [hcp, e2]
          refine hpos.imp (fun h q hq => ?_) id
          rcases List.mem_append.mp hq with h' | h'
          · exact h q h'
          · rw [List.mem_singleton.mp h']; simpa using hv
    refine key t [] _ rfl ?_ (.inl fun q hq => by cases hq)
    refine ⟨rfl, rfl, rfl, rfl, rfl, rfl, ?_, ?_, ?_, ?_, ?_, ?_, ?_, ?_⟩ <;> exact List.length_replicate

end Verif.Riscv
