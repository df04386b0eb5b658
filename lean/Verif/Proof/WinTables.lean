import Verif.Proof.WinLoops

/-!
# The tables of cores, clusters and packages on Windows
-/

set_option autoImplicit false

namespace Verif.Windows
open Spec
open X86Init (Topology Core Cluster Package modify? zeroCore zeroCluster zeroPackage)

/-- Element `key a` is updated when `a` is handled. -/
theorem group_step {α : Type} (F : Option Nat → Nat → α → α) (step : Nat → α → α)
    (hF : ∀ o n a c, step a (F o n c) = F (some a) (n + 1) c) (key : Nat → Nat) (l : List Nat) (a : Nat)
    (t t1 : List α) (hk : key a < t.length) (hlen : t1.length = t.length)
    (h1 : ∀ g c, t[g]? = some c →
      t1[g]? = some (F (l.find? fun i => key i == g) (l.countP fun i => key i == g) c)) :
    ∃ t2, modify? t1 (key a) (step a) = some t2 ∧ t2.length = t.length ∧
      ∀ g c, t[g]? = some c → t2[g]? = some (F ((a :: l).find? fun i => key i == g)
        ((a :: l).countP fun i => key i == g) c) := by
  have hk1 : key a < t1.length := by omega
  refine ⟨_, modify_ok t1 (key a) (step a) hk1, by rw [List.length_set, hlen], ?_⟩
  intro g c hg
  have h := h1 g c hg
  by_cases hkg : key a = g
  · subst hkg
    rw [List.getElem?_eq_getElem hk1] at h
    rw [List.getElem?_set_self hk1, Option.some.inj h, hF, List.find?_cons_of_pos (by simp),
      List.countP_cons_of_pos (by simp)]
  · rw [List.getElem?_set_ne hkg, h, List.find?_cons_of_neg (by simpa using hkg),
      List.countP_cons_of_neg (by simpa using hkg)]

/-- The first element and the number of elements, as the loops record them. -/
def coreRange (o : Option Nat) (n : Nat) (c : Core) : Core :=
  { c with processorStart := o.getD c.processorStart, processorCount := c.processorCount + n }
@[inherit_doc coreRange] def clusterRange (o : Option Nat) (n : Nat) (c : Cluster) : Cluster :=
  { c with processorStart := o.getD c.processorStart, processorCount := c.processorCount + n }
@[inherit_doc coreRange] def packageRange (o : Option Nat) (n : Nat) (c : Package) : Package :=
  { c with processorStart := o.getD c.processorStart, processorCount := c.processorCount + n }
@[inherit_doc coreRange] def clusterCores (o : Option Nat) (n : Nat) (c : Cluster) : Cluster :=
  { c with coreStart := o.getD c.coreStart, coreCount := c.coreCount + n }
@[inherit_doc coreRange] def packageCores (o : Option Nat) (n : Nat) (c : Package) : Package :=
  { c with coreStart := o.getD c.coreStart, coreCount := c.coreCount + n }

theorem linkLoop_ok (ps : List Processor) (kc kl kp : Nat → Nat) (t : Tables) (l : List Nat)
    (hl : ∀ i ∈ l, ∃ p, ps[i]? = some p ∧ p.core = kc i ∧ p.cluster = kl i ∧ p.package = kp i ∧
      kc i < t.cores.length ∧ kl i < t.clusters.length ∧ kp i < t.packages.length) :
    ∃ t', l.reverse.foldlM (linkStep ps) t = some t' ∧
      t'.cores.length = t.cores.length ∧ t'.clusters.length = t.clusters.length ∧
      t'.packages.length = t.packages.length ∧
      (∀ g c, t.cores[g]? = some c → t'.cores[g]? =
        some (coreRange (l.find? fun i => kc i == g) (l.countP fun i => kc i == g) c)) ∧
      (∀ g c, t.clusters[g]? = some c → t'.clusters[g]? =
        some (clusterRange (l.find? fun i => kl i == g) (l.countP fun i => kl i == g) c)) ∧
      (∀ g c, t.packages[g]? = some c → t'.packages[g]? =
        some (packageRange (l.find? fun i => kp i == g) (l.countP fun i => kp i == g) c)) := by
  induction l with
  | nil => exact ⟨t, rfl, rfl, rfl, rfl, fun _ _ h => h, fun _ _ h => h, fun _ _ h => h⟩
  | cons a l ih =>
    obtain ⟨t1, h1, h2, h3, h4, h5, h6, h7⟩ := ih fun i hi => hl i (.tail _ hi)
    obtain ⟨p, hp, e1, e2, e3, b1, b2, b3⟩ := hl a (.head _)
    obtain ⟨c2, m1, m2, m3⟩ := group_step coreRange
      (fun i (q : Core) => { q with processorStart := i, processorCount := q.processorCount + 1 })
      (fun _ _ _ _ => rfl) kc l a t.cores t1.cores b1 h2 h5
    obtain ⟨l2, n1, n2, n3⟩ := group_step clusterRange
      (fun i (q : Cluster) => { q with processorStart := i, processorCount := q.processorCount + 1 })
      (fun _ _ _ _ => rfl) kl l a t.clusters t1.clusters b2 h3 h6
    obtain ⟨p2, o1, o2, o3⟩ := group_step packageRange
      (fun i (q : Package) => { q with processorStart := i, processorCount := q.processorCount + 1 })
      (fun _ _ _ _ => rfl) kp l a t.packages t1.packages b3 h4 h7
    refine ⟨⟨c2, l2, p2⟩, ?_, m2, n2, o2, m3, n3, o3⟩
    rw [List.reverse_cons, foldlM_snoc _ a _ t t1 h1]
    unfold linkStep
    simp only [hp, Option.bind_eq_bind, Option.bind_some, e1, e2, e3, o1, n1, m1, Option.pure_def]

/-- What the loop over cores adds to core `g`. -/
def coreInfo (ps : List Processor) (t : Topology) (cm : Nat) (c : Core) : Core :=
  match ps[c.processorStart]? with
  | none => c
  | some p => { c with cluster := p.cluster, package := p.package
                       coreId := cm &&& (p.apicId >>> t.coreOffset) }

theorem coreInfoLoop_ok (ps : List Processor) (tp : Topology) (cm : Nat) (hco : tp.coreOffset < 32)
    (kl kp : Nat → Nat) (t : Tables) (l : List Nat)
    (hl : ∀ i ∈ l, ∃ c p, t.cores[i]? = some c ∧ ps[c.processorStart]? = some p ∧
      p.cluster = kl i ∧ p.package = kp i ∧ kl i < t.clusters.length ∧ kp i < t.packages.length) :
    ∃ t', l.reverse.foldlM (coreInfoStep ps tp cm) t = some t' ∧
      t'.cores.length = t.cores.length ∧ t'.clusters.length = t.clusters.length ∧
      t'.packages.length = t.packages.length ∧
      (∀ g c, t.cores[g]? = some c → t'.cores[g]? = some (if g ∈ l then coreInfo ps tp cm c else c)) ∧
      (∀ g c, t.clusters[g]? = some c → t'.clusters[g]? =
        some (clusterCores (l.find? fun i => kl i == g) (l.countP fun i => kl i == g) c)) ∧
      (∀ g c, t.packages[g]? = some c → t'.packages[g]? =
        some (packageCores (l.find? fun i => kp i == g) (l.countP fun i => kp i == g) c)) := by
  induction l with
  | nil =>
    exact ⟨t, rfl, rfl, rfl, rfl, fun _ _ h => by rw [if_neg (by simp)]; exact h, fun _ _ h => h,
      fun _ _ h => h⟩
  | cons a l ih =>
    obtain ⟨t1, h1, h2, h3, h4, h5, h6, h7⟩ := ih fun i hi => hl i (.tail _ hi)
    obtain ⟨c, p, hc, hp, e1, e2, b1, b2⟩ := hl a (.head _)
    obtain ⟨l2, n1, n2, n3⟩ := group_step clusterCores
      (fun i (q : Cluster) => { q with coreStart := i, coreCount := q.coreCount + 1 })
      (fun _ _ _ _ => rfl) kl l a t.clusters t1.clusters b1 h3 h6
    obtain ⟨p2, o1, o2, o3⟩ := group_step packageCores
      (fun i (q : Package) => { q with coreStart := i, coreCount := q.coreCount + 1 })
      (fun _ _ _ _ => rfl) kp l a t.packages t1.packages b2 h4 h7
    have hca := h5 a c hc
    have hci : coreInfo ps tp cm c = { c with
        cluster := p.cluster, package := p.package, coreId := cm &&& (p.apicId >>> tp.coreOffset) } := by
      unfold coreInfo
      rw [hp]
    have hstart : (if a ∈ l then coreInfo ps tp cm c else c).processorStart = c.processorStart := by
      split
      · rw [hci]
      · rfl
    have halt : a < t1.cores.length := (List.getElem?_eq_some_iff.mp hca).1
    have hupd : t1.cores[a] = (if a ∈ l then coreInfo ps tp cm c else c) :=
      (List.getElem?_eq_some_iff.mp hca).2
    refine ⟨⟨t1.cores.set a (coreInfo ps tp cm c), l2, p2⟩, ?_, ?_, n2, o2, ?_, n3, o3⟩
    · rw [List.reverse_cons, foldlM_snoc _ a _ t t1 h1]
      unfold coreInfoStep
      have hm : modify? t1.cores a (fun c => { c with
          cluster := p.cluster, package := p.package
          coreId := cm &&& (p.apicId >>> tp.coreOffset) }) =
          some (t1.cores.set a (coreInfo ps tp cm c)) := by
        rw [modify_ok _ _ _ halt, hupd, hci]
        congr 2
        split
        · rfl
        · rfl
      rw [← e1] at n1
      rw [← e2] at o1
      simp only [hca, Option.bind_eq_bind, Option.bind_some, hstart, hp,
        if_neg (show ¬ 32 ≤ tp.coreOffset by omega), hm, n1, o1, Option.pure_def]
    · rw [List.length_set, h2]
    · intro g c' hg
      by_cases hag : a = g
      · subst hag
        rw [hc] at hg
        cases hg
        rw [List.getElem?_set_self halt, if_pos (.head _)]
      · rw [List.getElem?_set_ne hag, h5 g c' hg]
        have : (g ∈ a :: l) ↔ g ∈ l := by simp [Ne.symm hag]
        simp only [this]

theorem packageInfoLoop_ok (l : List Nat) : ∀ t : Tables,
    (∀ i ∈ l, ∃ c, t.clusters[i]? = some c ∧ c.coreStart < t.cores.length ∧ i < t.packages.length) →
    ∃ t', l.foldlM packageInfoStep t = some t' ∧ t'.cores = t.cores ∧
      t'.clusters.length = t.clusters.length ∧ t'.packages.length = t.packages.length ∧
      (∀ g c, t.clusters[g]? = some c →
        t'.clusters[g]? = some (if g ∈ l then { c with package := g } else c)) ∧
      (∀ g c, t.packages[g]? = some c →
        t'.packages[g]? = some (if g ∈ l then { c with clusterStart := g, clusterCount := 1 } else c)) := by
  induction l with
  | nil =>
    intro t _
    exact ⟨t, rfl, rfl, rfl, rfl, fun _ _ h => by rw [if_neg (by simp)]; exact h,
      fun _ _ h => by rw [if_neg (by simp)]; exact h⟩
  | cons a l ih =>
    intro t hl
    obtain ⟨c, hc, hcore, hpk⟩ := hl a (.head _)
    have hlt : a < t.clusters.length := (List.getElem?_eq_some_iff.mp hc).1
    have hca : t.clusters[a] = c := (List.getElem?_eq_some_iff.mp hc).2
    have hstep : packageInfoStep t a = some ⟨t.cores, t.clusters.set a { c with package := a },
        t.packages.set a { t.packages[a] with clusterStart := a, clusterCount := 1 }⟩ := by
      unfold packageInfoStep
      simp only [modify_ok _ _ _ hlt, modify_ok _ _ _ hpk, Option.bind_eq_bind, Option.bind_some,
        List.getElem?_set_self hlt, hca, List.getElem?_eq_getElem hcore, Option.pure_def]
    obtain ⟨t', h1, h2, h3, h4, h5, h6⟩ := ih ⟨t.cores, t.clusters.set a { c with package := a },
        t.packages.set a { t.packages[a] with clusterStart := a, clusterCount := 1 }⟩ (by
      intro i hi
      obtain ⟨c', g1, g2, g3⟩ := hl i (.tail _ hi)
      dsimp only
      by_cases hai : a = i
      · subst hai
        exact ⟨{ c with package := a }, List.getElem?_set_self hlt, hcore, by
          rw [List.length_set]; exact g3⟩
      · refine ⟨c', ?_, g2, by rw [List.length_set]; exact g3⟩
        rw [List.getElem?_set_ne hai]
        exact g1)
    refine ⟨t', ?_, h2, ?_, ?_, ?_, ?_⟩
    · rw [foldlM_cons_some _ a l _ _ hstep]
      exact h1
    · rw [h3, List.length_set]
    · rw [h4, List.length_set]
    · intro g c' hg
      by_cases hag : a = g
      · subst hag
        rw [hc] at hg
        cases hg
        rw [h5 a _ (List.getElem?_set_self hlt), if_pos (List.mem_cons_self ..)]
        split <;> rfl
      · rw [h5 g c' (by rw [List.getElem?_set_ne hag]; exact hg)]
        have : (g ∈ a :: l) ↔ g ∈ l := by simp [Ne.symm hag]
        simp only [this]
    · intro g c' hg
      by_cases hag : a = g
      · subst hag
        rw [List.getElem?_eq_getElem hpk] at hg
        have hg := Option.some.inj hg
        rw [h6 a _ (List.getElem?_set_self hpk), if_pos (List.mem_cons_self ..), hg]
        split <;> rfl
      · rw [h6 g c' (by rw [List.getElem?_set_ne hag]; exact hg)]
        have : (g ∈ a :: l) ↔ g ∈ l := by simp [Ne.symm hag]
        simp only [this]

/-! ## All three loops -/

/-- Entry of a table of processors. -/
def procOf (ps : List Processor) (i : Nat) : Processor := (ps[i]?).getD zeroProcessor

/-- The lowest index below `n` with key `g`. -/
def firstOf (n : Nat) (key : Nat → Nat) (g : Nat) : Nat :=
  ((List.range n).find? fun i => key i == g).getD 0
/-- The number of indices below `n` with key `g`. -/
def countOf (n : Nat) (key : Nat → Nat) (g : Nat) : Nat := (List.range n).countP fun i => key i == g

theorem firstOf_lt (n : Nat) (key : Nat → Nat) (g : Nat) (h : 0 < n) : firstOf n key g < n := by
  unfold firstOf
  cases hf : (List.range n).find? fun i => key i == g with
  | none => exact h
  | some i => exact List.mem_range.mp (List.mem_of_find?_eq_some hf)

/-- Facts about the tables, for processors with valid links. -/
structure TablesOk (t : Topology) (cm n nc np : Nat) (ps : List Processor) (tb : Tables) : Prop where
  cores : tb.cores.length = nc ∧ ∀ g < nc,
    tb.cores[g]? = some
      { processorStart := firstOf n (fun i => (procOf ps i).core) g
        processorCount := countOf n (fun i => (procOf ps i).core) g
        coreId := cm &&& ((procOf ps (firstOf n (fun i => (procOf ps i).core) g)).apicId >>> t.coreOffset)
        cluster := (procOf ps (firstOf n (fun i => (procOf ps i).core) g)).cluster
        package := (procOf ps (firstOf n (fun i => (procOf ps i).core) g)).package }
  clusters : tb.clusters.length = np ∧ ∀ g < np,
    tb.clusters[g]? = some
      { processorStart := firstOf n (fun i => (procOf ps i).cluster) g
        processorCount := countOf n (fun i => (procOf ps i).cluster) g
        coreStart := firstOf nc
          (fun j => (procOf ps (firstOf n (fun i => (procOf ps i).core) j)).cluster) g
        coreCount := countOf nc
          (fun j => (procOf ps (firstOf n (fun i => (procOf ps i).core) j)).cluster) g
        clusterId := 0, package := g }
  packages : tb.packages.length = np ∧ ∀ g < np,
    tb.packages[g]? = some
      { processorStart := firstOf n (fun i => (procOf ps i).package) g
        processorCount := countOf n (fun i => (procOf ps i).package) g
        coreStart := firstOf nc
          (fun j => (procOf ps (firstOf n (fun i => (procOf ps i).core) j)).package) g
        coreCount := countOf nc
          (fun j => (procOf ps (firstOf n (fun i => (procOf ps i).core) j)).package) g
        clusterStart := g, clusterCount := 1 }

theorem tables_ok (t : Topology) (cm n nc np : Nat) (ps : List Processor) (hco : t.coreOffset < 32)
    (hn : ps.length = n) (h0 : 0 < n) (hc0 : 0 < nc)
    (hps : ∀ p ∈ ps, p.core < nc ∧ p.cluster < np ∧ p.package < np) :
    ∃ tb, tables t cm n nc np ps = some tb ∧ TablesOk t cm n nc np ps tb := by
  have hget : ∀ i < n, ps[i]? = some (procOf ps i) := by
    intro i hi
    unfold procOf
    rw [List.getElem?_eq_getElem (by omega)]
    rfl
  have hb : ∀ i < n, (procOf ps i).core < nc ∧ (procOf ps i).cluster < np ∧
      (procOf ps i).package < np := fun i hi => hps _ (List.mem_of_getElem? (hget i hi))
  obtain ⟨t1, a1, a2, a3, a4, a5, a6, a7⟩ := linkLoop_ok ps (fun i => (procOf ps i).core)
    (fun i => (procOf ps i).cluster) (fun i => (procOf ps i).package)
    ⟨List.replicate nc zeroCore, List.replicate np zeroCluster, List.replicate np zeroPackage⟩
    (List.range n) (by
      intro i hi
      have hi := List.mem_range.mp hi
      simp only [List.length_replicate]
      exact ⟨procOf ps i, hget i hi, rfl, rfl, rfl, hb i hi⟩)
  simp only [List.length_replicate] at a2 a3 a4
  have b5 : ∀ g < nc, t1.cores[g]? = some ⟨firstOf n (fun i => (procOf ps i).core) g,
      countOf n (fun i => (procOf ps i).core) g, 0, 0, 0⟩ := by
    intro g hg
    rw [a5 g zeroCore (by simp [hg])]
    simp [coreRange, zeroCore, firstOf, countOf]
  have b6 : ∀ g < np, t1.clusters[g]? = some ⟨firstOf n (fun i => (procOf ps i).cluster) g,
      countOf n (fun i => (procOf ps i).cluster) g, 0, 0, 0, 0⟩ := by
    intro g hg
    rw [a6 g zeroCluster (by simp [hg])]
    simp [clusterRange, zeroCluster, firstOf, countOf]
  have b7 : ∀ g < np, t1.packages[g]? = some ⟨firstOf n (fun i => (procOf ps i).package) g,
      countOf n (fun i => (procOf ps i).package) g, 0, 0, 0, 0⟩ := by
    intro g hg
    rw [a7 g zeroPackage (by simp [hg])]
    simp [packageRange, zeroPackage, firstOf, countOf]
  obtain ⟨t2, c1, c2, c3, c4, c5, c6, c7⟩ := coreInfoLoop_ok ps t cm hco
    (fun j => (procOf ps (firstOf n (fun i => (procOf ps i).core) j)).cluster)
    (fun j => (procOf ps (firstOf n (fun i => (procOf ps i).core) j)).package) t1 (List.range nc) (by
      intro j hj
      have hj := List.mem_range.mp hj
      have hf := firstOf_lt n (fun i => (procOf ps i).core) j h0
      refine ⟨_, _, b5 j hj, hget _ hf, rfl, rfl, ?_, ?_⟩
      · rw [a3]; exact (hb _ hf).2.1
      · rw [a4]; exact (hb _ hf).2.2)
  have d5 : ∀ g < nc, t2.cores[g]? = some
      { processorStart := firstOf n (fun i => (procOf ps i).core) g
        processorCount := countOf n (fun i => (procOf ps i).core) g
        coreId := cm &&& ((procOf ps (firstOf n (fun i => (procOf ps i).core) g)).apicId >>> t.coreOffset)
        cluster := (procOf ps (firstOf n (fun i => (procOf ps i).core) g)).cluster
        package := (procOf ps (firstOf n (fun i => (procOf ps i).core) g)).package } := by
    intro g hg
    rw [c5 g _ (b5 g hg), if_pos (List.mem_range.mpr hg)]
    unfold coreInfo
    rw [hget _ (firstOf_lt n (fun i => (procOf ps i).core) g h0)]
  have d6 : ∀ g < np, t2.clusters[g]? = some
      { processorStart := firstOf n (fun i => (procOf ps i).cluster) g
        processorCount := countOf n (fun i => (procOf ps i).cluster) g
        coreStart := firstOf nc
          (fun j => (procOf ps (firstOf n (fun i => (procOf ps i).core) j)).cluster) g
        coreCount := countOf nc
          (fun j => (procOf ps (firstOf n (fun i => (procOf ps i).core) j)).cluster) g
        clusterId := 0, package := 0 } := by
    intro g hg
    rw [c6 g _ (b6 g hg)]
    simp [clusterCores, firstOf, countOf]
  have d7 : ∀ g < np, t2.packages[g]? = some
      { processorStart := firstOf n (fun i => (procOf ps i).package) g
        processorCount := countOf n (fun i => (procOf ps i).package) g
        coreStart := firstOf nc
          (fun j => (procOf ps (firstOf n (fun i => (procOf ps i).core) j)).package) g
        coreCount := countOf nc
          (fun j => (procOf ps (firstOf n (fun i => (procOf ps i).core) j)).package) g
        clusterStart := 0, clusterCount := 0 } := by
    intro g hg
    rw [c7 g _ (b7 g hg)]
    simp [packageCores, firstOf, countOf]
  obtain ⟨t3, e1, e2, e3, e4, e5, e6⟩ := packageInfoLoop_ok (List.range np) t2 (by
    intro g hg
    have hg := List.mem_range.mp hg
    refine ⟨_, d6 g hg, ?_, ?_⟩
    · rw [c2, a2]; exact firstOf_lt _ _ _ hc0
    · rw [c4, a4]; exact hg)
  refine ⟨t3, ?_, ⟨?_, ?_⟩, ⟨?_, ?_⟩, ⟨?_, ?_⟩⟩
  · unfold tables downFrom
    simp only [a1, c1, e1, Option.bind_eq_bind, Option.bind_some]
  · rw [e2, c2, a2]
  · intro g hg
    rw [e2]
    exact d5 g hg
  · rw [e3, c3, a3]
  · intro g hg
    rw [e5 g _ (d6 g hg), if_pos (List.mem_range.mpr hg)]
  · rw [e4, c4, a4]
  · intro g hg
    rw [e6 g _ (d7 g hg), if_pos (List.mem_range.mpr hg)]

end Verif.Windows
