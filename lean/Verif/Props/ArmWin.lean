import Verif.Proof.ArmWinFacts

/-!
C137–C140: detection on ARM Windows.

The hypotheses: `ArmWinReports` (Windows answers with records whose masks have only bits of existing
processors, and every processor is in a core), `ArmWinDisjoint` (no processor in two packages or two cores,
every core in one package), `CachesDisjoint` (no processor in two caches of a level).
-/

set_option autoImplicit false

namespace Verif.Props

open Verif.ArmWin Verif.Spec
open Verif.Windows (Info firstOf countOf firstOf_least firstOf_lt countOf_eq range_exact winIndices_nodup
  winIndices_lt)
open Verif.X86Init (Cache)

section Whole
variable (e : Env) (ps cs : List Info) (ks : List CacheInfo) (h : ArmWinReports e ps cs ks) (chip : Chip)
include h

/-! ## C137 -/

/-- **C137, what holds.** Detection has no undefined behaviour, even if the records overlap; it publishes
exactly if there is memory and the name of the chip can be converted.  Missing for the full claim: answers
outside of `ArmWinReports`, see `C137_violated_…`. -/
theorem C137_no_fault_partial :
    ∃ r, initByInfo e chip = some r ∧
      ((∃ pub, r = some (some pub)) ↔
        (∀ i < 7, e.alloc i = true) ∧ ∃ name, Wide.convertName chip.name = some name) := by
  cases hname : Wide.convertName chip.name with
  | none =>
    refine ⟨none, init_fails h chip (Or.inl hname), ?_, ?_⟩
    · rintro ⟨pub, hn⟩
      cases hn
    · rintro ⟨-, name, hn⟩
      cases hn
  | some name =>
    rcases alloc_cases e with ha | hex | ⟨ha, hb⟩
    · obtain ⟨kc, kp, pub, h1, -⟩ := init_ok h chip name hname ha
      exact ⟨some (some pub), h1, fun _ => ⟨ha, name, rfl⟩, fun _ => ⟨pub, rfl⟩⟩
    · refine ⟨none, init_fails h chip (Or.inr hex), ?_, ?_⟩
      · rintro ⟨pub, hn⟩
        cases hn
      · rintro ⟨ha, -⟩
        obtain ⟨i, hi, hb⟩ := hex
        rw [ha i (by omega)] at hb
        cases hb
    · refine ⟨some none, init_late h chip name hname ha hb, ?_, ?_⟩
      · rintro ⟨pub, hn⟩
        cases hn
      · rintro ⟨ha, -⟩
        rw [ha 6 (by omega)] at hb
        cases hb

/-- **C137 is violated if only the memory for the kinds of cores is missing**: everything is freed and
nothing is published, but the result is still `true`. -/
theorem C137_violated_result (name : Bytes) (hname : Wide.convertName chip.name = some name)
    (ha : ∀ i < 6, e.alloc i = true) (h6 : e.alloc 6 = false) :
    initByInfo e chip = some (some none) := init_late h chip name hname ha h6

variable (pub : Published) (hi : initByInfo e chip = some (some (some pub)))
include hi

/-- **C137.** As many processors are published as the groups have, as many cores and clusters as core
records, as many packages as package records, as many caches of each level as records of this level; the
tables have these lengths. -/
theorem C137_counts :
    (pub.processorsCount = (armSizes e).sum ∧ pub.processors.length = (armSizes e).sum) ∧
    (pub.coresCount = cs.length ∧ pub.cores.length = cs.length ∧ pub.clusters.length = cs.length) ∧
    (pub.packagesCount = ps.length ∧ pub.packages.length = ps.length) ∧
    pub.uarchsCount = pub.uarchs.length ∧
    ∀ k, pub.numbers.get k = (levelRecords k ks).length := by
  obtain ⟨name, kc, kp, -, F⟩ := facts_of h hi
  exact ⟨⟨F.processorsCount, F.processors.length⟩,
    ⟨F.coresCount, F.tables.coresLength, F.tables.clustersLength⟩,
    ⟨F.packagesCount, F.tables.packagesLength⟩, F.uarchsCount, F.caches.number⟩

/-- **C137.** Every link of a published processor or core leads into its table. -/
theorem C137_links_resolve :
    (∀ p ∈ pub.processors, (∃ j < pub.cores.length, p.core = some j) ∧
      p.cluster < pub.clusters.length ∧ p.package < pub.packages.length ∧
      ∀ k i, p.cache k = some i → i < pub.caches.length) ∧
    (∀ c ∈ pub.cores, c.cluster < pub.clusters.length ∧ c.package < pub.packages.length ∧
      c.processorStart < pub.processors.length) := by
  obtain ⟨name, kc, kp, -, F⟩ := facts_of h hi
  have hpos := some_processor h
  rw [F.tables.coresLength, F.tables.clustersLength, F.tables.packagesLength, F.processors.length]
  constructor
  · intro p hp
    obtain ⟨i, hpi⟩ := List.mem_iff_getElem?.mp hp
    have hlt := (List.getElem?_eq_some_iff.mp hpi).1
    rw [F.processors.length] at hlt
    obtain ⟨p', a1, a2, a3, a4, a5, a6⟩ := keys_lt F.processors h.somePackage i hlt
    obtain ⟨p'', b1, -, -, -, -, -, -, b2⟩ := F.processors.entry i hlt
    rw [hpi] at a1 b1
    cases a1
    cases b1
    refine ⟨⟨kc i, a5, a2⟩, by rw [a3]; exact a5, by rw [a4]; exact a6, ?_⟩
    intro k x hx
    rcases b2 k with ⟨b2, -⟩ | ⟨j, r, b3, -, b4⟩
    · rw [hx] at b2; cases b2
    · rw [hx] at b4
      cases b4
      exact (List.getElem?_eq_some_iff.mp (F.caches.entry k j r b3)).1
  · intro c hc
    obtain ⟨j, hcj⟩ := List.mem_iff_getElem?.mp hc
    have hlt := (List.getElem?_eq_some_iff.mp hcj).1
    rw [F.tables.coresLength] at hlt
    have := F.tables.core j hlt
    dsimp only at this
    rw [hcj] at this
    cases this
    have hf := firstOf_lt (armSizes e).sum kc j hpos
    obtain ⟨p', -, -, -, -, a5, a6⟩ := keys_lt F.processors h.somePackage _ hf
    exact ⟨a5, a6, hf⟩

/-! ## C138 -/

variable (hd : ArmWinDisjoint (armSizes e) ps cs)

include hd

/-- **C138.** Processor `b` of group `g`, in core record `j` and package record `q`, is published at its
index with links to core `j`, cluster `j` and package `q`, and with its Windows group and number. -/
theorem C138_processors (g b j q : Nat) (c p : Info) (hj : cs[j]? = some c) (hq : ps[q]? = some p)
    (hc : (g, b) ∈ winMembers c) (hp : (g, b) ∈ winMembers p) :
    ∃ x, pub.processors[((armSizes e).take g).sum + b]? = some x ∧ x.core = some j ∧ x.cluster = j ∧
      x.package = q ∧ x.groupId = g ∧ x.processorId = b := by
  obtain ⟨name, kc, kp, -, F⟩ := facts_of h hi
  obtain ⟨x, h1, -, h2⟩ := processor_of h F hd hj hq hc hp
  exact ⟨x, h1, h2⟩

/-- **C138.** Core `j` starts at the lowest of its processors, counts its processors and links to its
package and to cluster `j`; if its processors have consecutive indices, its range holds exactly them. -/
theorem C138_core (j : Nat) (c : Info) (hj : cs[j]? = some c) :
    ∃ k, pub.cores[j]? = some k ∧ k.processorCount = (winIndices (armSizes e) c).length ∧
      k.processorStart ∈ winIndices (armSizes e) c ∧
      (∀ i ∈ winIndices (armSizes e) c, k.processorStart ≤ i) ∧ k.coreId = j ∧ k.cluster = j ∧
      WinIn (armSizes e) ps cs j k.package ∧ k.vendor = chip.vendor ∧ k.uarch = chip.uarch ∧
      k.frequency = chip.frequency ∧
      (IndicesFollow (armSizes e) c →
        ∀ i, InRange k.processorStart k.processorCount i ↔ i ∈ winIndices (armSizes e) c) := by
  obtain ⟨name, kc, kp, -, F⟩ := facts_of h hi
  have hjl : j < cs.length := (List.getElem?_eq_some_iff.mp hj).1
  have iff := kc_iff h F hd hj
  have hex := core_exists h F hd hjl
  obtain ⟨h1, h2⟩ := firstOf_least _ _ _ hex
  have h3 := firstOf_lt (armSizes e).sum kc j (some_processor h)
  refine ⟨_, F.tables.core j hjl, ?_, ?_, ?_, rfl, h1, ?_, rfl, rfl, rfl, ?_⟩
  · exact countOf_eq _ _ _ _ (winIndices_nodup hd.cores (List.mem_of_getElem? hj)) iff
  · exact (iff _).mpr ⟨h3, h1⟩
  · intro i hi
    obtain ⟨a, b⟩ := (iff i).mp hi
    exact h2 i a b
  · exact (kp_first h F hd hjl _).mp rfl
  · intro hcv i
    rw [iff]
    refine range_exact _ _ _ hex ?_ i
    intro a b d hab hbd hdn ha hdd
    exact ((iff b).mp (hcv a b d hab hbd ((iff a).mpr ⟨by omega, ha⟩) ((iff d).mpr ⟨hdn, hdd⟩))).2

/-- **C138.** Cluster `j` holds core `j` and nothing else: the same range of processors, one core, the same
package, vendor, kind and frequency. -/
theorem C138_cluster (j : Nat) (hj : j < cs.length) :
    ∃ k l, pub.cores[j]? = some k ∧ pub.clusters[j]? = some l ∧ l.processorStart = k.processorStart ∧
      l.processorCount = k.processorCount ∧ l.coreStart = j ∧ l.coreCount = 1 ∧
      l.package = some k.package ∧ l.vendor = k.vendor ∧ l.uarch = k.uarch ∧
      l.frequency = k.frequency ∧ l.clusterId = 0 := by
  obtain ⟨name, kc, kp, -, F⟩ := facts_of h hi
  have hfind : (List.range cs.length).find?
      (fun i => kc (firstOf (armSizes e).sum kc i) == j) = some j := by
    cases hf : (List.range cs.length).find? (fun i => kc (firstOf (armSizes e).sum kc i) == j) with
    | none =>
      have := List.find?_eq_none.mp hf j (List.mem_range.mpr hj)
      rw [kc_first h F hd hj] at this
      simp at this
    | some m =>
      have h1 := List.find?_some hf
      have h2 := List.mem_range.mp (List.mem_of_find?_eq_some hf)
      rw [kc_first h F hd h2] at h1
      rw [eq_of_beq h1]
  have hcount : countOf cs.length (fun i => kc (firstOf (armSizes e).sum kc i)) j = 1 := by
    refine countOf_eq _ _ _ [j] (by simp) ?_
    intro i
    rw [List.mem_singleton]
    constructor
    · rintro rfl
      exact ⟨hj, kc_first h F hd hj⟩
    · rintro ⟨hi, hk⟩
      rw [kc_first h F hd hi] at hk
      exact hk
  have hcl := F.tables.cluster j hj
  rw [hfind, hcount] at hcl
  exact ⟨_, _, F.tables.core j hj, hcl, rfl, rfl, rfl, rfl, rfl, rfl, rfl, rfl, rfl⟩

/-- **C138.** Package `q` starts at the lowest of its processors and at the first of its cores, counts
both, and lists the clusters of its cores; if its processors have consecutive indices, its range holds
exactly them; if its cores follow one another, its ranges of cores and clusters hold exactly them. -/
theorem C138_package (q : Nat) (p : Info) (hq : ps[q]? = some p)
    (hne : winIndices (armSizes e) p ≠ []) :
    ∃ k, pub.packages[q]? = some k ∧ k.processorCount = (winIndices (armSizes e) p).length ∧
      k.processorStart ∈ winIndices (armSizes e) p ∧
      (∀ i ∈ winIndices (armSizes e) p, k.processorStart ≤ i) ∧
      WinFirst (armSizes e) ps cs q k.coreStart ∧
      (∀ l : List Nat, l.Nodup → (∀ j, j ∈ l ↔ WinIn (armSizes e) ps cs j q) →
        k.coreCount = l.length) ∧
      k.clusterStart = k.coreStart ∧ k.clusterCount = k.coreCount ∧
      Wide.convertName chip.name = some k.name ∧
      (IndicesFollow (armSizes e) p →
        ∀ i, InRange k.processorStart k.processorCount i ↔ i ∈ winIndices (armSizes e) p) ∧
      (WinGrouped (armSizes e) ps cs →
        ∀ j, InRange k.coreStart k.coreCount j ↔ WinIn (armSizes e) ps cs j q) := by
  obtain ⟨name, kc, kp, hname, F⟩ := facts_of h hi
  have hql : q < ps.length := (List.getElem?_eq_some_iff.mp hq).1
  have iff := kp_iff h F hd hq
  have hcp : ∀ j < cs.length, kp (firstOf (armSizes e).sum kc j) = q ↔ WinIn (armSizes e) ps cs j q :=
    fun j hj => kp_first h F hd hj q
  have hwl : ∀ j, WinIn (armSizes e) ps cs j q → j < cs.length := by
    rintro j ⟨c, _, hc, _⟩
    exact (List.getElem?_eq_some_iff.mp hc).1
  obtain ⟨i0, hi0⟩ := List.exists_mem_of_ne_nil _ hne
  have hex : ∃ i < (armSizes e).sum, kp i = q := ⟨i0, (iff i0).mp hi0⟩
  have hexc : ∃ j < cs.length, (fun j => kp (firstOf (armSizes e).sum kc j)) j = q := by
    obtain ⟨c, hc, hic⟩ := h.complete i0 ((iff i0).mp hi0).1
    obtain ⟨j, hj⟩ := List.mem_iff_getElem?.mp hc
    obtain ⟨p', hp', hs⟩ := hd.inPackage c hc
    obtain ⟨q', hq'⟩ := List.mem_iff_getElem?.mp hp'
    have hjl := (List.getElem?_eq_some_iff.mp hj).1
    refine ⟨j, hjl, (hcp j hjl).mpr ?_⟩
    have := Windows.flatMap_unique hd.packages hq' hq (hs i0 hic) hi0
    subst this
    exact ⟨c, p', hj, hq', h.nonempty c hc, hs⟩
  obtain ⟨h1, h2⟩ := firstOf_least _ _ _ hex
  have h3 := firstOf_lt (armSizes e).sum kp q (some_processor h)
  obtain ⟨k1, k2⟩ := firstOf_least _ _ _ hexc
  have k3 := firstOf_lt cs.length (fun j => kp (firstOf (armSizes e).sum kc j)) q
    (List.length_pos_iff.mpr h.someCore)
  have hfind : ((List.range cs.length).find? fun j => kp (firstOf (armSizes e).sum kc j) == q) =
      some (firstOf cs.length (fun j => kp (firstOf (armSizes e).sum kc j)) q) := by
    unfold firstOf at k1
    unfold firstOf
    cases hf : (List.range cs.length).find? (fun j => kp (((List.range (armSizes e).sum).find?
        fun i => kc i == j).getD 0) == q) with
    | some m => rfl
    | none =>
      exfalso
      obtain ⟨j, hj, hk⟩ := hexc
      have := List.find?_eq_none.mp hf j (List.mem_range.mpr hj)
      unfold firstOf at hk
      dsimp only at hk
      rw [hk] at this
      simp at this
  have hfindName : (((List.range (armSizes e).sum).find? fun i => kp i == q).map fun _ => name).getD [] =
      name := by
    cases hf : (List.range (armSizes e).sum).find? (fun i => kp i == q) with
    | some m => rfl
    | none =>
      exfalso
      obtain ⟨j, hj, hk⟩ := hex
      have := List.find?_eq_none.mp hf j (List.mem_range.mpr hj)
      rw [hk] at this
      simp at this
  have hpk := F.tables.package q hql
  rw [hfind, hfindName] at hpk
  have hzero : zeroPackage.coreCount + countOf cs.length (fun j => kp (firstOf (armSizes e).sum kc j)) q =
      countOf cs.length (fun j => kp (firstOf (armSizes e).sum kc j)) q := Nat.zero_add _
  refine ⟨_, hpk, ?_, ?_, ?_, ?_, ?_, rfl, rfl, hname, ?_, ?_⟩
  · exact countOf_eq _ _ _ _ (winIndices_nodup hd.packages (List.mem_of_getElem? hq)) iff
  · exact (iff _).mpr ⟨h3, h1⟩
  · intro i hi
    obtain ⟨a, b⟩ := (iff i).mp hi
    exact h2 i a b
  · refine ⟨(hcp _ k3).mp k1, ?_⟩
    intro j hj hw
    have := k2 j (hwl j hw) ((hcp j (hwl j hw)).mpr hw)
    exact absurd hj (Nat.not_lt.mpr this)
  · intro l hl hmem
    refine hzero.trans (countOf_eq _ _ _ _ hl ?_)
    intro j
    rw [hmem]
    exact ⟨fun hw => ⟨hwl j hw, (hcp j (hwl j hw)).mpr hw⟩, fun ⟨a, b⟩ => (hcp j a).mp b⟩
  · intro hcv i
    rw [iff]
    refine range_exact _ _ _ hex ?_ i
    intro a b d hab hbd hdn ha hdd
    exact ((iff b).mp (hcv a b d hab hbd ((iff a).mpr ⟨by omega, ha⟩) ((iff d).mpr ⟨hdn, hdd⟩))).2
  · intro hgr j
    show InRange (firstOf cs.length (fun j => kp (firstOf (armSizes e).sum kc j)) q)
      (zeroPackage.coreCount + _) j ↔ _
    rw [hzero, range_exact _ _ _ hexc (by
      intro a b d hab hbd hdn ha hdd
      have ha' := (hcp a (by omega)).mp ha
      have hd' := (hcp d hdn).mp hdd
      exact (hcp b (by omega)).mpr (hgr a b d q hab hbd ha' hd')) j]
    exact ⟨fun ⟨a, b⟩ => (hcp j a).mp b, fun hw => ⟨hwl j hw, (hcp j (hwl j hw)).mpr hw⟩⟩

/-- **C138 is violated with several threads in a core.**  Two different processors of a core have the same
id "within a core" (include/cpuinfo.h:609-610). -/
theorem C138_violated_smt (c : Info) (hc : c ∈ cs) (i i' : Nat) (hm : i ∈ winIndices (armSizes e) c)
    (hm' : i' ∈ winIndices (armSizes e) c) :
    ∃ x x', pub.processors[i]? = some x ∧ pub.processors[i']? = some x' ∧ x.core = x'.core ∧
      x.smtId = x'.smtId := by
  obtain ⟨name, kc, kp, -, F⟩ := facts_of h hi
  obtain ⟨j, hj⟩ := List.mem_iff_getElem?.mp hc
  obtain ⟨a1, a2⟩ := (kc_iff h F hd hj i).mp hm
  obtain ⟨b1, b2⟩ := (kc_iff h F hd hj i').mp hm'
  obtain ⟨x, x1, x2, x3, -⟩ := F.processors.entry i a1
  obtain ⟨y, y1, y2, y3, -⟩ := F.processors.entry i' b1
  exact ⟨x, y, x1, y1, by rw [x3, y3, a2, b2], x2.trans y2.symm⟩

/-- **C138 is violated with several packages.**  In a package whose first core is not the first of all, the
published id of a core "within a package" (include/cpuinfo.h:660-661) is not its number in the package, but
its number among the cores of all packages. -/
theorem C138_violated_core_id (j q f : Nat) (hj : WinIn (armSizes e) ps cs j q)
    (hf : WinFirst (armSizes e) ps cs q f) (h0 : 0 < f) :
    ∃ k, pub.cores[j]? = some k ∧ k.package = q ∧ k.coreId = j ∧ k.coreId ≠ j - f := by
  obtain ⟨name, kc, kp, -, F⟩ := facts_of h hi
  have hlt : j < cs.length := by
    obtain ⟨c, _, hc, _⟩ := hj
    exact (List.getElem?_eq_some_iff.mp hc).1
  refine ⟨_, F.tables.core j hlt, (kp_first h F hd hlt q).mpr hj, rfl, ?_⟩
  show j ≠ j - f
  have : f ≤ j := by
    rcases Nat.lt_or_ge j f with hl | hl
    · exact absurd hj (hf.2 j hl)
    · exact hl
  omega

/-- **C138 is violated with several cores in a package.**  Two different clusters of one package have the
same id "within a package" (include/cpuinfo.h:690-691). -/
theorem C138_violated_cluster_id (j j' q : Nat) (hne : j ≠ j') (hj : WinIn (armSizes e) ps cs j q)
    (hj' : WinIn (armSizes e) ps cs j' q) :
    ∃ l l', pub.clusters[j]? = some l ∧ pub.clusters[j']? = some l' ∧ l.package = some q ∧
      l'.package = some q ∧ l.coreStart ≠ l'.coreStart ∧ l.clusterId = l'.clusterId := by
  obtain ⟨name, kc, kp, -, F⟩ := facts_of h hi
  have lt : ∀ j, WinIn (armSizes e) ps cs j q → j < cs.length := by
    rintro j ⟨c, _, hc, _⟩
    exact (List.getElem?_eq_some_iff.mp hc).1
  have pk : ∀ j (k : ArmWin.Core), WinIn (armSizes e) ps cs j q → pub.cores[j]? = some k →
      k.package = q := by
    intro j k hw hk
    have := F.tables.core j (lt j hw)
    dsimp only at this
    rw [hk] at this
    cases this
    exact (kp_first h F hd (lt j hw) q).mpr hw
  obtain ⟨k, l, a1, a2, -, -, a3, -, a4, -, -, -, a5⟩ := C138_cluster e ps cs ks h chip pub hi hd j (lt j hj)
  obtain ⟨k', l', b1, b2, -, -, b3, -, b4, -, -, -, b5⟩ :=
    C138_cluster e ps cs ks h chip pub hi hd j' (lt j' hj')
  rw [pk j k hj a1] at a4
  rw [pk j' k' hj' b1] at b4
  exact ⟨l, l', a2, b2, a4, b4, by rw [a3, b3]; exact hne, a5.trans b5.symm⟩

omit hd

/-! ## C139 -/

/-- **C139.** Element `j` of the table of a level is the cache of record `j` of this level: its size,
associativity, line size, a single partition, the mark of a unified cache; it counts the processors of the
record and starts at the lowest; if their indices are consecutive and none is repeated, its range holds exactly
them; if the sizes divide, `sets * associativity * lineSize` is the size. -/
theorem C139_caches (k : Level) (j : Nat) (r : CacheInfo) (hr : (levelRecords k ks)[j]? = some r) :
    ∃ c, pub.caches[pub.numbers.base k + j]? = some c ∧ c.size = r.size ∧
      c.associativity = r.associativity ∧ c.lineSize = r.lineSize ∧ c.partitions = 1 ∧
      (c.flags = if r.type = 0 then 1 else 0) ∧
      c.processorCount = (winIndices (armSizes e) r.toInfo).length ∧
      (winIndices (armSizes e) r.toInfo ≠ [] →
        c.processorStart ∈ winIndices (armSizes e) r.toInfo ∧
        ∀ i ∈ winIndices (armSizes e) r.toInfo, c.processorStart ≤ i) ∧
      (winIndices (armSizes e) r.toInfo ≠ [] → (winIndices (armSizes e) r.toInfo).Nodup →
        IndicesFollow (armSizes e) r.toInfo →
        ∀ i, InRange c.processorStart c.processorCount i ↔ i ∈ winIndices (armSizes e) r.toInfo) ∧
      (r.lineSize * r.associativity ∣ r.size → c.sets * c.associativity * c.lineSize = c.size) := by
  obtain ⟨name, kc, kp, -, F⟩ := facts_of h hi
  have hrm : r ∈ ks := (List.mem_filter.mp (List.mem_of_getElem? hr)).1
  have hst := cache_start h.total (h.fitsCaches r hrm)
  refine ⟨_, F.caches.entry k j r hr, rfl, rfl, rfl, rfl, rfl, rfl, hst, ?_, ?_⟩
  · intro hne hn hf i
    obtain ⟨a1, a2⟩ := hst hne
    exact list_interval hn a1 a2 hf i
  · rintro ⟨m, hm⟩
    show r.size / r.lineSize / r.associativity * r.associativity * r.lineSize = r.size
    have h1 := h.lines r hrm
    have h2 := h.ways r hrm
    rw [Nat.div_div_eq_div_mul, hm, Nat.mul_div_cancel_left _ (Nat.mul_pos (by omega) (by omega)),
      Nat.mul_assoc, Nat.mul_comm r.associativity, Nat.mul_comm]

/-- **C139.** If no processor is in two caches of a level, processor `i` links to element `j` of the
table of the level exactly if record `j` of the level has it, and has no link exactly if no record
has it. -/
theorem C139_links (k : Level) (hk : CachesDisjoint (armSizes e) k ks) (i : Nat)
    (hilt : i < (armSizes e).sum) :
    ∃ p, pub.processors[i]? = some p ∧
      (∀ j r, (levelRecords k ks)[j]? = some r →
        (p.cache k = some (pub.numbers.base k + j) ↔ i ∈ winIndices (armSizes e) r.toInfo)) ∧
      (p.cache k = none ↔ ∀ r ∈ levelRecords k ks, i ∉ winIndices (armSizes e) r.toInfo) := by
  obtain ⟨name, kc, kp, -, F⟩ := facts_of h hi
  obtain ⟨p, h1, -, -, -, -, -, -, h2⟩ := F.processors.entry i hilt
  have uniq : ∀ {j j' : Nat} {r r' : CacheInfo}, (levelRecords k ks)[j]? = some r →
      (levelRecords k ks)[j']? = some r' → i ∈ winIndices (armSizes e) r.toInfo →
      i ∈ winIndices (armSizes e) r'.toInfo → j = j' := by
    intro j j' r r' a1 a2 a3 a4
    refine Windows.flatMap_unique (per := armSizes e) (ps := (levelRecords k ks).map (·.toInfo))
      (p := r.toInfo) (q := r'.toInfo) (i := i) ?_ ?_ ?_ a3 a4
    · rw [List.flatMap_map]
      exact hk
    · rw [List.getElem?_map, a1]; rfl
    · rw [List.getElem?_map, a2]; rfl
  refine ⟨p, h1, ?_, ?_⟩
  · intro j r hj
    rcases h2 k with ⟨a1, a2⟩ | ⟨j', r', a1, a2, a3⟩
    · rw [a1]
      exact ⟨(fun hh => by cases hh), fun hm => absurd hm (a2 r (List.mem_of_getElem? hj))⟩
    · rw [a3]
      constructor
      · intro hh
        have : j' = j := by
          have := Option.some.inj hh
          omega
        subst this
        rw [hj] at a1
        cases a1
        exact a2
      · intro hm
        rw [uniq a1 hj a2 hm]
  · rcases h2 k with ⟨a1, a2⟩ | ⟨j', r', a1, a2, a3⟩
    · exact ⟨fun _ => a2, fun _ => a1⟩
    · rw [a3]
      exact ⟨(fun hh => by cases hh), fun hh => absurd a2 (hh r' (List.mem_of_getElem? a1))⟩

/-- **C139.** The maximum cache size is the size of the L3 cache of the first processor, if it has one, else
of its L2 cache, else of its L1 data cache, else 0. -/
theorem C139_max_cache_size :
    ∃ p, pub.processors[0]? = some p ∧
      (∀ j c, p.l3 = some j → pub.caches[j]? = some c → pub.maxCacheSize = c.size) ∧
      (∀ j c, p.l3 = none → p.l2 = some j → pub.caches[j]? = some c → pub.maxCacheSize = c.size) ∧
      (∀ j c, p.l3 = none → p.l2 = none → p.l1d = some j → pub.caches[j]? = some c →
        pub.maxCacheSize = c.size) ∧
      (p.l3 = none → p.l2 = none → p.l1d = none → pub.maxCacheSize = 0) := by
  obtain ⟨name, kc, kp, -, F⟩ := facts_of h hi
  obtain ⟨p, l3, l2, l1d, h1, h2, h3, h4, h5⟩ := F.maxCacheSize
  have link : ∀ (x : Option Nat) (l : Option Nat), linkedSize pub.caches x = some l →
      (x = none → l = none) ∧ ∀ j c, x = some j → pub.caches[j]? = some c → l = some c.size := by
    intro x l hl
    constructor
    · rintro rfl
      exact (Option.some.inj hl).symm
    · rintro j c rfl hc
      have : Option.map (fun c : Cache => some c.size) pub.caches[j]? = some l := hl
      rw [hc] at this
      exact (Option.some.inj this).symm
  refine ⟨p, h1, ?_, ?_, ?_, ?_⟩
  · intro j c e3 hc
    rw [h5, (link _ _ h2).2 j c e3 hc]
    rfl
  · intro j c e3 e2 hc
    rw [h5, (link _ _ h2).1 e3, (link _ _ h3).2 j c e2 hc]
    rfl
  · intro j c e3 e2 e1 hc
    rw [h5, (link _ _ h2).1 e3, (link _ _ h3).1 e2, (link _ _ h4).2 j c e1 hc]
    rfl
  · intro e3 e2 e1
    rw [h5, (link _ _ h2).1 e3, (link _ _ h3).1 e2, (link _ _ h4).1 e1]
    rfl

/-- **C139 is violated whenever a record lists no groups** (older versions of Windows have a single mask in
these records and leave the field `GroupCount` zero).  The cache is published with a
range that starts at 4294967295 and is empty, and if the level has only such records, no processor has a
link to a cache of this level. -/
theorem C139_violated_no_groups (k : Level) (j : Nat) (r : CacheInfo)
    (hr : (levelRecords k ks)[j]? = some r) (h0 : r.groups = []) :
    (∃ c, pub.caches[pub.numbers.base k + j]? = some c ∧ c.processorStart = 4294967295 ∧
      c.processorCount = 0) ∧
    ((∀ r ∈ levelRecords k ks, r.groups = []) → ∀ p ∈ pub.processors, p.cache k = none) := by
  obtain ⟨name, kc, kp, -, F⟩ := facts_of h hi
  have hnil : ∀ r : CacheInfo, r.groups = [] → winIndices (armSizes e) r.toInfo = [] := by
    intro r h0
    unfold winIndices winMembers
    rw [h0]
    rfl
  constructor
  · refine ⟨_, F.caches.entry k j r hr, ?_, ?_⟩
    · show (winIndices (armSizes e) r.toInfo).foldl _ U32MAX = _
      rw [hnil r h0]
      rfl
    · show (winIndices (armSizes e) r.toInfo).length = _
      rw [hnil r h0]
      rfl
  · intro hall p hp
    obtain ⟨i, hpi⟩ := List.mem_iff_getElem?.mp hp
    have hlt := (List.getElem?_eq_some_iff.mp hpi).1
    rw [F.processors.length] at hlt
    obtain ⟨p', h1, -, -, -, -, -, -, h2⟩ := F.processors.entry i hlt
    rw [hpi] at h1
    cases h1
    rcases h2 k with ⟨a1, -⟩ | ⟨j', r', a1, a2, -⟩
    · exact a1
    · rw [hnil r' (hall r' (List.mem_of_getElem? a1))] at a2
      cases a2

/-- **C139 is violated for fully associative caches**, which Windows reports with the associativity 255
(`CACHE_FULLY_ASSOCIATIVE`): they are published as having 255 ways, and unless the number of lines happens to
be a multiple of 255, the published geometry does not multiply to the size. -/
theorem C139_violated_fully_associative (k : Level) (j : Nat) (r : CacheInfo)
    (hr : (levelRecords k ks)[j]? = some r) (h0 : r.associativity = 255)
    (hm : r.size / r.lineSize % 255 ≠ 0) :
    ∃ c, pub.caches[pub.numbers.base k + j]? = some c ∧ c.associativity = 255 ∧
      c.sets * c.associativity * c.lineSize ≠ c.size := by
  obtain ⟨name, kc, kp, -, F⟩ := facts_of h hi
  have hrm : r ∈ ks := (List.mem_filter.mp (List.mem_of_getElem? hr)).1
  refine ⟨_, F.caches.entry k j r hr, h0, ?_⟩
  show r.size / r.lineSize / r.associativity * r.associativity * r.lineSize ≠ r.size
  rw [h0]
  intro he
  apply hm
  rw [← he, Nat.mul_div_cancel _ (by have := h.lines r hrm; omega)]
  exact Nat.mul_mod_left _ _

/-! ## C140 -/

/-- **C140, what holds.** If the kind of core is known, one kind is published, with all cores and all
processors.  Missing for the full claim: the MIDR (`C140_violated_midr`) and unknown kinds
(`C140_violated_unknown`). -/
theorem C140_kinds_partial (hu : chip.uarch ≠ 0) :
    ∃ u, pub.uarchs = [u] ∧ u.uarch = chip.uarch ∧ u.coreCount = pub.cores.length ∧
      u.processorCount = pub.processors.length := by
  obtain ⟨name, kc, kp, -, F⟩ := facts_of h hi
  refine ⟨⟨chip.uarch, 0, (armSizes e).sum, cs.length⟩, ?_, rfl, F.tables.coresLength.symm,
    F.processors.length.symm⟩
  rw [F.uarchs]
  exact if_neg hu

/-- **C140 is violated on every machine with a known kind of cores**: the MIDR of the published kind is
0, not the value that was read from the registry. -/
theorem C140_violated_midr (u : UarchInfo) (hm : u ∈ pub.uarchs) : u.midr = 0 := by
  obtain ⟨name, kc, kp, -, F⟩ := facts_of h hi
  rw [F.uarchs] at hm
  unfold uarchsOf at hm
  split at hm
  · cases hm
  · rw [List.mem_singleton] at hm
    rw [hm]

/-- **C140 is violated for every processor of unknown kind**: no kind is published at all, though there are
cores. -/
theorem C140_violated_unknown (hu : chip.uarch = 0) :
    pub.uarchs = [] ∧ pub.uarchsCount = 0 ∧ pub.cores ≠ [] := by
  obtain ⟨name, kc, kp, -, F⟩ := facts_of h hi
  have h1 : pub.uarchs = [] := by
    rw [F.uarchs]
    exact if_pos hu
  refine ⟨h1, by rw [F.uarchsCount, h1]; rfl, ?_⟩
  intro h0
  have := F.tables.coresLength
  dsimp only at this
  rw [h0] at this
  exact h.someCore (List.eq_nil_of_length_eq_zero this.symm)

end Whole

/-! ## Examples -/

/-- A cache record of the example. -/
def armWinCache (level type size : Nat) (group mask : Nat) : CacheInfo :=
  ⟨⟨2, [⟨group, mask⟩]⟩, level, type, 8, 64, size⟩

/-- The package records of the example. -/
def armWinPackages : List Info := [⟨3, [⟨0, 15⟩]⟩, ⟨3, [⟨1, 3⟩]⟩]
/-- The core records of the example; the third has two threads. -/
def armWinCores : List Info :=
  [⟨0, [⟨0, 1⟩]⟩, ⟨0, [⟨0, 2⟩]⟩, ⟨0, [⟨0, 12⟩]⟩, ⟨0, [⟨1, 1⟩]⟩, ⟨0, [⟨1, 2⟩]⟩]
/-- The cache records of the example. -/
def armWinCaches : List CacheInfo :=
  [armWinCache 1 2 65536 0 1, armWinCache 1 1 32768 0 1, armWinCache 1 2 65536 0 2,
   armWinCache 2 0 524288 0 3, armWinCache 1 2 65536 0 12, armWinCache 2 0 1048576 0 12,
   armWinCache 3 0 8388608 0 15, armWinCache 2 0 524288 1 3]

/-- A machine with a group of four and a group of two processors, five cores in two packages. -/
def armWinEnv : Env :=
  { groupCount := 2, maxCount := fun g => if g = 0 then 4 else 2
    packages := some armWinPackages, cores1 := some armWinCores, cores2 := some armWinCores
    caches1 := some armWinCaches, caches2 := some armWinCaches
    regName := some [0x43, 0x50, 0x55], regMidr := 0x410FD490, regMhz := 3000, alloc := fun _ => true }

/-- A chip for the example: a Neoverse N2 at 3 GHz. -/
def armWinChip : Chip := chipOf .arm64 armWinEnv

/-- A part of what is published. -/
def armWinPublished {β : Type} (e : Env) (f : Published → β) : Option β :=
  (((initByInfo e (chipOf .arm64 e)).bind id).bind id).map f

/-- Non-vacuity of C137–C140: detection of `armWinEnv` publishes these tables. -/
example :
    armWinPublished armWinEnv (·.processors) = some
      [⟨0, some 0, 0, 0, 0, 0, some 0, some 1, some 4, some 7⟩,
       ⟨0, some 1, 1, 0, 0, 1, none, some 2, some 4, some 7⟩,
       ⟨0, some 2, 2, 0, 0, 2, none, some 3, some 5, some 7⟩,
       ⟨0, some 2, 2, 0, 0, 3, none, some 3, some 5, some 7⟩,
       ⟨0, some 3, 3, 1, 1, 0, none, none, some 6, none⟩,
       ⟨0, some 4, 4, 1, 1, 1, none, none, some 6, none⟩] ∧
    armWinPublished armWinEnv (·.cores.map fun c => (c.processorStart, c.processorCount, c.coreId,
      c.cluster, c.package)) =
      some [(0, 1, 0, 0, 0), (1, 1, 1, 1, 0), (2, 2, 2, 2, 0), (4, 1, 3, 3, 1), (5, 1, 4, 4, 1)] ∧
    armWinPublished armWinEnv (·.packages) =
      some [⟨[67, 80, 85], 0, 4, 0, 3, 0, 3⟩, ⟨[67, 80, 85], 4, 2, 3, 2, 3, 2⟩] ∧
    armWinPublished armWinEnv (·.numbers) = some ⟨1, 3, 3, 1⟩ ∧
    armWinPublished armWinEnv (·.uarchs.map fun u => (u.midr, u.processorCount, u.coreCount)) =
      some [(0, 6, 5)] ∧
    armWinPublished armWinEnv (·.caches.map fun c => (c.size, c.sets, c.flags, c.processorStart,
      c.processorCount)) =
      some [(32768, 64, 0, 0, 1), (65536, 128, 0, 0, 1), (65536, 128, 0, 1, 1), (65536, 128, 0, 2, 2),
        (524288, 1024, 1, 0, 2), (1048576, 2048, 1, 2, 2), (524288, 1024, 1, 4, 2),
        (8388608, 16384, 1, 0, 4)] ∧
    armWinPublished armWinEnv (·.maxCacheSize) = some 8388608 :=
  ⟨by decide +kernel, by decide +kernel, by decide +kernel, by decide +kernel, by decide +kernel,
    by decide +kernel, by decide +kernel⟩

private theorem armWin_fits :
    ∀ i ∈ armWinPackages ++ armWinCores ++ armWinCaches.map (·.toInfo), WinFits (armSizes armWinEnv) i := by
  have key : ∀ i ∈ armWinPackages ++ armWinCores ++ armWinCaches.map (·.toInfo), ∀ g ∈ i.groups,
      (g.group = 0 ∧ g.mask < 2 ^ 4) ∨ (g.group = 1 ∧ g.mask < 2 ^ 2) := by decide
  have bits : ∀ (n m b : Nat), m < 2 ^ n → m.testBit b = true → b < n := by
    intro n m b hm hb
    rcases Nat.lt_or_ge b n with h | h
    · exact h
    · rw [Nat.testBit_lt_two_pow (Nat.lt_of_lt_of_le hm (Nat.pow_le_pow_right (by omega) h))] at hb
      cases hb
  intro i hi g hg
  rcases key i hi g hg with ⟨h1, h2⟩ | ⟨h1, h2⟩
  · exact ⟨by omega, 4, by rw [h1]; decide, fun b => bits 4 _ b h2⟩
  · exact ⟨by omega, 2, by rw [h1]; decide, fun b => bits 2 _ b h2⟩

/-- `armWinEnv` meets the hypotheses. -/
theorem armWin_reports : ArmWinReports armWinEnv armWinPackages armWinCores armWinCaches where
  packages := ⟨_, rfl, by decide⟩
  cores1 := ⟨_, rfl, by decide⟩
  cores2 := ⟨_, rfl, by decide⟩
  caches1 := ⟨_, rfl, by decide⟩
  caches2 := ⟨_, rfl, by decide⟩
  total := by decide
  fewGroups := by decide
  fitsPackages := fun i hi => armWin_fits i (List.mem_append_left _ (List.mem_append_left _ hi))
  fitsCores := fun i hi => armWin_fits i (List.mem_append_left _ (List.mem_append_right _ hi))
  fitsCaches := fun r hr => armWin_fits _ (List.mem_append_right _ (List.mem_map.mpr ⟨r, hr, rfl⟩))
  somePackage := by decide
  someCore := by decide
  someCache := by decide
  lines := by decide
  ways := by decide
  levels := by
    have key : ∀ r ∈ armWinCaches, OfLevel .l1i r ∨ OfLevel .l1d r ∨ OfLevel .l2 r ∨ OfLevel .l3 r := by
      decide
    intro r hr
    rcases key r hr with h | h | h | h
    · exact ⟨_, h⟩
    · exact ⟨_, h⟩
    · exact ⟨_, h⟩
    · exact ⟨_, h⟩
  complete := by decide +kernel
  nonempty := by decide +kernel

example : ArmWinDisjoint (armSizes armWinEnv) armWinPackages armWinCores :=
  ⟨by decide +kernel, by decide +kernel, by decide +kernel⟩

example : ∀ k ∈ [ArmWin.Level.l1i, .l1d, .l2, .l3], CachesDisjoint (armSizes armWinEnv) k armWinCaches := by
  unfold CachesDisjoint
  decide +kernel

/-! ### C137, violations -/

/-- Detection runs into undefined behaviour. -/
def ArmWinFaults (e : Env) : Prop := (∀ i, e.alloc i = true) ∧ initByInfo e (chipOf .arm64 e) = none

/-- **C137 is violated** if a processor is in no core record (as with processors that can be added later,
which count towards the maximum of a group): its pointer to a core is null and is written through. -/
theorem C137_violated_no_core :
    ArmWinFaults { armWinEnv with
      cores1 := some (armWinCores.take 4), cores2 := some (armWinCores.take 4) } :=
  ⟨fun _ => rfl, by decide +kernel⟩

/-- **C137 is violated** by a cache record for which there is no table: a unified first-level cache, a trace
cache, a fourth-level cache; a null pointer is written through. -/
theorem C137_violated_cache_level :
    ∀ r ∈ [armWinCache 1 0 65536 0 1, armWinCache 1 3 65536 0 1, armWinCache 4 0 65536 0 1],
      ArmWinFaults { armWinEnv with
        caches1 := some (r :: armWinCaches), caches2 := some (r :: armWinCaches) } := by
  have key : ∀ r ∈ [armWinCache 1 0 65536 0 1, armWinCache 1 3 65536 0 1, armWinCache 4 0 65536 0 1],
      initByInfo { armWinEnv with
        caches1 := some (r :: armWinCaches), caches2 := some (r :: armWinCaches) }
        (chipOf .arm64 armWinEnv) = none := by decide +kernel
  exact fun r hr => ⟨fun _ => rfl, key r hr⟩

/-- **C137 is violated** by a cache record without a line size or without an associativity: division by
zero. -/
theorem C137_violated_division :
    ∀ r ∈ [{ armWinCache 2 0 65536 0 1 with lineSize := 0 },
        { armWinCache 2 0 65536 0 1 with associativity := 0 }],
      ArmWinFaults { armWinEnv with
        caches1 := some (r :: armWinCaches), caches2 := some (r :: armWinCaches) } := by
  have key : ∀ r ∈ [{ armWinCache 2 0 65536 0 1 with lineSize := 0 },
        { armWinCache 2 0 65536 0 1 with associativity := 0 }],
      initByInfo { armWinEnv with
        caches1 := some (r :: armWinCaches), caches2 := some (r :: armWinCaches) }
        (chipOf .arm64 armWinEnv) = none := by decide +kernel
  exact fun r hr => ⟨fun _ => rfl, key r hr⟩

/-- **C137 is violated** by a cache record with a processor that the group does not have: it is written
outside the table of processors.  The same mistake in a package or core record is found and detection
fails. -/
theorem C137_violated_cache_mask :
    ArmWinFaults { armWinEnv with
      caches1 := some [armWinCache 2 0 65536 1 4], caches2 := some [armWinCache 2 0 65536 1 4] } ∧
    initByInfo { armWinEnv with packages := some [⟨3, [⟨1, 4⟩]⟩] } armWinChip = some none ∧
    initByInfo { armWinEnv with cores1 := some [⟨0, [⟨1, 4⟩]⟩] } armWinChip = some none :=
  ⟨⟨fun _ => rfl, by decide +kernel⟩, by decide +kernel, by decide +kernel⟩

/-- **C137 is violated** if the first core record has no processors and the kind of core is known: the second
core counts as a new kind, and is written behind the end of the table of kinds. -/
theorem C137_violated_empty_core :
    ArmWinFaults { armWinEnv with
      cores1 := some (⟨0, []⟩ :: armWinCores), cores2 := some (⟨0, []⟩ :: armWinCores) } :=
  ⟨fun _ => rfl, by decide +kernel⟩

/-- **C137 is violated** if the second answer about cores or caches has more records than the first, by which
the tables were made. -/
theorem C137_violated_second_answer :
    ArmWinFaults { armWinEnv with cores1 := some (armWinCores.take 4) } ∧
    ArmWinFaults { armWinEnv with caches1 := some (armWinCaches.eraseIdx 6) } :=
  ⟨⟨fun _ => rfl, by decide +kernel⟩, ⟨fun _ => rfl, by decide +kernel⟩⟩

end Verif.Props
