import Verif.Proof.ArmExample
import Verif.Proof.ArmMachine

/-!
# C76, C77, C83–C92: what ARM/Linux detection publishes

All theorems are about `linuxInit`, the whole of `cpuinfo_arm_linux_init` from the sysfs and
/proc/cpuinfo texts to the published tables, for arbitrary file contents, read schedules, contents of
uninitialised variables, allocation outcomes and decoders.  `linuxInit e = some (some pub)` means:
detection of `e` ended without undefined behaviour and published `pub`.  `AllListed e` (every
possible and present processor has a block in /proc/cpuinfo) is needed throughout: C77 shows what
happens without it.
-/

set_option autoImplicit false

namespace Verif.Props
open Spec ArmMidr ArmCpuinfo ArmClusters ArmInit ArmChipset Runs
open X86Init (bitmaskAll Cache)

section Tables
variable (e : Env) (hs : SortsProcessors e.config.arch e.sort) (hl : AllListed e) (pub : Published)
  (h : linuxInit e = some (some pub))
include hs hl h

/-! ## C76 -/

/-- **C76 (run lengths).** The list of microarchitectures, each repeated as often as it has
processors, is the sequence of the microarchitectures of the cores; consecutive entries differ, every
entry has a processor, as many cores as processors, and the published count is the length. -/
theorem C76_uarchs_partial :
    pub.uarchsCount = pub.uarchs.length ∧
    (pub.uarchs.flatMap fun u => List.replicate u.processorCount u.uarch) = pub.cores.map (·.uarch) ∧
    AdjacentDiffer pub.uarchs ∧
    ∀ u ∈ pub.uarchs, u.coreCount = u.processorCount ∧ 0 < u.processorCount := by
  obtain ⟨t, hw, rev, -, ⟨W⟩⟩ := whole e hs hl pub h
  refine ⟨W.g.uarchsCount.trans W.g.uarchs.length.symm, ?_, ?_, ?_⟩
  · rw [W.run_lengths]
    apply List.ext_getElem?
    intro k
    rw [List.getElem?_map, List.getElem?_map]
    by_cases hk : k < W.N
    · rw [W.core_at hk, List.getElem?_range hk]
      rfl
    · rw [List.getElem?_eq_none (by simp; omega),
        List.getElem?_eq_none (by rw [W.cores_length]; omega)]
      rfl
  · intro g u v hu hv
    obtain ⟨i, hi, rfl, rfl⟩ := W.uarch_of hu
    obtain ⟨j, hj, hg, rfl⟩ := W.uarch_of hv
    rw [← gi_st W.nu j] at hg
    show uarchAt W.S (st W.nu i) ≠ uarchAt W.S (st W.nu j)
    cases hs : st W.nu j with
    | zero => rw [hs] at hg; simp [gi] at hg
    | succ k =>
      rw [hs] at hg
      have hn : W.nu (k + 1) = true := by
        cases hn : W.nu (k + 1) with
        | true => rfl
        | false =>
          have h1 := st_st W.nu j
          rw [hs, st_succ_old hn] at h1
          have := st_le W.nu k
          omega
      have hd := (byKey_succ (uarchAt W.S) k).mp hn
      rw [gi_succ_new hn] at hg
      have hk : gi W.nu k = gi W.nu i := by omega
      have e1 := byKey_st (uarchAt W.S) k
      rw [show st (newUarch (uarchAt W.S)) k = st W.nu i from st_eq_of_gi _ _ _ hk] at e1
      rw [e1]
      exact fun h => hd h.symm
  · intro u hu
    obtain ⟨g, hg⟩ := List.getElem?_of_mem hu
    obtain ⟨k, hk, -, rfl⟩ := W.uarch_of hg
    exact ⟨rfl, cnt_pos _ _ _ hk⟩

/-- **C76 (index of a processor).** There is a map from Linux processors to microarchitectures
exactly if there are several, and it leads to the microarchitecture of the core. -/
theorem C76_uarch_index :
    (pub.uarchMap ≠ none ↔ 1 < pub.uarchsCount) ∧
    ∀ (m : List Nat) (i : Nat) (p : Processor) (o : Core), pub.uarchMap = some m →
      pub.processors[i]? = some p → pub.cores[p.core]? = some o →
      ∃ g u, m[p.linuxId]? = some g ∧ pub.uarchs[g]? = some u ∧ u.uarch = o.uarch := by
  obtain ⟨t, hw, rev, -, ⟨W⟩⟩ := whole e hs hl pub h
  obtain ⟨h1, h2⟩ := W.g.uarchMap
  constructor
  · rw [← Option.isSome_iff_ne_none, h1, decide_eq_true_iff]
  · intro m i p o hm hp ho
    obtain ⟨hi, -, hc, -, h4, -⟩ := W.processor_of hp
    rw [hc, W.core_at hi] at ho
    cases ho
    have := (h2 m hm).done i hi
    refine ⟨gi W.nu i, _, ?_, W.uarch_at hi, byKey_st (uarchAt W.S) i⟩
    rw [h4]
    exact this

/-- **C76 (listed once).** If the cores with a microarchitecture are next to each other, no
microarchitecture is listed twice. -/
theorem C76_listed_once_partial
    (hc : ∀ (i j k : Nat) (x y z : Core), i < j → j < k → pub.cores[i]? = some x →
      pub.cores[j]? = some y → pub.cores[k]? = some z → x.uarch = z.uarch → y.uarch = x.uarch) :
    ∀ (g g' : Nat) (u v : Uarch), pub.uarchs[g]? = some u → pub.uarchs[g']? = some v →
      u.uarch = v.uarch → g = g' := by
  have key : ∀ (g g' : Nat) (u v : Uarch), pub.uarchs[g]? = some u → pub.uarchs[g']? = some v →
      g < g' → u.uarch ≠ v.uarch := by
    intro g g' u v hu hv hlt he
    have hdiff := (C76_uarchs_partial e hs hl pub h).2.2.1
    obtain ⟨t, hw, rev, -, ⟨W⟩⟩ := whole e hs hl pub h
    obtain ⟨w, hwg⟩ : ∃ w, pub.uarchs[g + 1]? = some w :=
      ⟨_, List.getElem?_eq_getElem (Nat.lt_of_le_of_lt hlt (lt_of_get hv))⟩
    have hne := hdiff g u w hu hwg
    obtain ⟨i, hi, rfl, rfl⟩ := W.uarch_of hu
    obtain ⟨j, hj, hgj, rfl⟩ := W.uarch_of hwg
    obtain ⟨k, hk, rfl, rfl⟩ := W.uarch_of hv
    have a1 : uarchAt W.S (st W.nu i) = uarchAt W.S i := byKey_st _ i
    have a2 : uarchAt W.S (st W.nu j) = uarchAt W.S j := byKey_st _ j
    have a3 : uarchAt W.S (st W.nu k) = uarchAt W.S k := byKey_st _ k
    have hne : uarchAt W.S (st W.nu i) ≠ uarchAt W.S (st W.nu j) := hne
    have he : uarchAt W.S (st W.nu i) = uarchAt W.S (st W.nu k) := he
    rw [a1, a2] at hne
    rw [a1, a3] at he
    have hij : i < j := by
      rcases Nat.lt_or_ge i j with h | h
      · exact h
      · have := gi_mono W.nu h; omega
    have hjk : j < k := by
      rcases Nat.lt_or_ge j k with h | h
      · exact h
      · have := gi_mono W.nu h
        have : gi W.nu j = gi W.nu k := by omega
        have e1 := st_eq_of_gi W.nu j k this
        rw [e1, a3] at a2
        exact absurd (he.trans a2) hne
    exact hne (hc i j k _ _ _ hij hjk (W.core_at hi) (W.core_at hj) (W.core_at hk) he).symm
  intro g g' u v hu hv he
  rcases Nat.lt_trichotomy g g' with hlt | heq | hlt
  · exact absurd he (key g g' u v hu hv hlt)
  · exact heq
  · exact absurd he.symm (key g' g v u hv hu hlt)

/-! ## C83 -/

/-- **C83.** There is at least one processor.  The processor ranges of the cores and of the clusters
each partition the processors in order, and the core ranges of the clusters partition the cores; the
published counts are the table lengths, and the only package has everything. -/
theorem C83_ranges_partition :
    0 < pub.processors.length ∧
    Consecutive 0 (pub.cores.map fun c => (c.processorStart, c.processorCount))
      pub.processors.length ∧
    Consecutive 0 (pub.clusters.map fun c => (c.processorStart, c.processorCount))
      pub.processors.length ∧
    Consecutive 0 (pub.clusters.map fun c => (c.coreStart, c.coreCount)) pub.cores.length ∧
    pub.processorsCount = pub.processors.length ∧ pub.coresCount = pub.cores.length ∧
    pub.clustersCount = pub.clusters.length ∧ pub.packagesCount = 1 ∧
    pub.packageProcessorCount = pub.processors.length ∧ pub.packageCoreCount = pub.cores.length ∧
    pub.packageClusterCount = pub.clusters.length := by
  obtain ⟨t, hw, rev, -, ⟨W⟩⟩ := whole e hs hl pub h
  have h0 : 0 < W.N := W.h0
  have runs : Consecutive 0 (pub.clusters.map fun c => (c.processorStart, c.processorCount)) W.N := by
    have := X86Init.consecutive_of_runs W.nw (W.N - 1)
      (pub.clusters.map fun c => (c.processorStart, c.processorCount))
      (by rw [List.length_map, W.clusters_length]) (fun k hk => by
        have hk : k < W.N := by omega
        rw [List.getElem?_map, W.cluster_at hk, W.cluster_entry hk, show W.N - 1 + 1 = W.N by omega]
        rfl)
    rw [show W.N - 1 + 1 = W.N by omega] at this
    exact this
  have same : (pub.clusters.map fun c => (c.coreStart, c.coreCount)) =
      pub.clusters.map fun c => (c.processorStart, c.processorCount) := by
    apply List.map_congr_left
    intro c hc
    obtain ⟨i, hi⟩ := List.getElem?_of_mem hc
    obtain ⟨k, -, -, rfl⟩ := W.cluster_of hi
    rfl
  have hcores : Consecutive 0 (pub.cores.map fun c => (c.processorStart, c.processorCount)) W.N := by
    have := X86Init.consecutive_of_runs (fun _ => true) (W.N - 1)
      (pub.cores.map fun c => (c.processorStart, c.processorCount))
      (by
        have : ∀ n, gi (fun _ => true) n = n := by
          intro n
          induction n with
          | zero => rfl
          | succ n ih => rw [gi_succ_new rfl, ih]
        rw [List.length_map, W.cores_length, this]; omega) (fun k hk => by
        have hgi : ∀ n, gi (fun _ => true) n = n := by
          intro n
          induction n with
          | zero => rfl
          | succ n ih => rw [gi_succ_new rfl, ih]
        have hst : ∀ n, st (fun _ => true) n = n := fun n => st_of_new rfl
        have hk' : k < W.N := by omega
        have hcnt : cnt (fun _ => true) (gi (fun _ => true) k) (W.N - 1 + 1) = 1 := by
          have a1 := (mem_run (fun _ => true) (W.N - 1 + 1) k hk k).mp ⟨hk, rfl⟩
          rw [hst] at a1
          rcases Nat.lt_or_ge 1 (cnt (fun _ => true) (gi (fun _ => true) k) (W.N - 1 + 1)) with a2 | a2
          · have := (mem_run (fun _ => true) (W.N - 1 + 1) k hk (k + 1)).mpr (by rw [hst]; omega)
            rw [hgi, hgi] at this
            omega
          · omega
        rw [hcnt, hst, hgi, List.getElem?_map, W.core_at hk']
        rfl)
    rw [show W.N - 1 + 1 = W.N by omega] at this
    exact this
  rw [W.processors_length, W.cores_length, same]
  have hcl : pub.clusters.length = pub.clustersCount := by
    rw [W.good.clustersCount, W.good.clusters.length]
  exact ⟨h0, hcores, runs, runs, W.good.processorsCount, W.good.coresCount, hcl.symm,
    W.good.packagesCount, W.good.package.1, W.good.package.2.1,
    by rw [hcl, W.good.clustersCount]; exact W.good.package.2.2⟩

/-! ## C84 -/

/-- **C84.** The processor range of a core (cluster) holds exactly the processors linked to it, and
the core range of a cluster exactly the cores linked to it. -/
theorem C84_range_iff_link (k : Nat) :
    (∀ o, pub.cores[k]? = some o → ∀ i, InRange o.processorStart o.processorCount i ↔
      ∃ p, pub.processors[i]? = some p ∧ p.core = k) ∧
    (∀ o, pub.clusters[k]? = some o → ∀ i, InRange o.processorStart o.processorCount i ↔
      ∃ p, pub.processors[i]? = some p ∧ p.cluster = k) ∧
    (∀ o, pub.clusters[k]? = some o → ∀ i, InRange o.coreStart o.coreCount i ↔
      ∃ c, pub.cores[i]? = some c ∧ c.cluster = k) := by
  obtain ⟨t, hw, rev, -, ⟨W⟩⟩ := whole e hs hl pub h
  refine ⟨?_, ?_, ?_⟩
  · intro o ho i
    obtain ⟨hk, rfl⟩ := W.core_of ho
    constructor
    · rintro ⟨h1, h2⟩
      have : i = k := by
        have h1 : k ≤ i := h1
        have h2 : i < k + 1 := h2
        omega
      subst this
      obtain ⟨p, hp⟩ := W.processor_at hk
      exact ⟨p, hp, (W.processor_of hp).2.2.1⟩
    · rintro ⟨p, hp, he⟩
      rw [(W.processor_of hp).2.2.1] at he
      subst he
      exact ⟨Nat.le_refl _, Nat.lt_succ_self _⟩
  · intro o ho i
    obtain ⟨j, hj, rfl, rfl⟩ := W.cluster_of ho
    rw [show InRange _ _ i ↔ _ from (mem_run W.nw W.N j hj i).symm]
    constructor
    · rintro ⟨hi, he⟩
      obtain ⟨p, hp⟩ := W.processor_at hi
      exact ⟨p, hp, (W.processor_of hp).2.2.2.1.trans he⟩
    · rintro ⟨p, hp, he⟩
      have := W.processor_of hp
      exact ⟨this.1, this.2.2.2.1.symm.trans he⟩
  · intro o ho i
    obtain ⟨j, hj, rfl, rfl⟩ := W.cluster_of ho
    rw [show InRange _ _ i ↔ _ from (mem_run W.nw W.N j hj i).symm]
    constructor
    · rintro ⟨hi, he⟩
      exact ⟨_, W.core_at hi, (W.cl_eq i).trans he⟩
    · rintro ⟨c, hc, he⟩
      obtain ⟨hi, rfl⟩ := W.core_of hc
      exact ⟨hi, (W.cl_eq i).symm.trans he⟩

/-- **C84.** Every processor's links lead to existing entries that agree with each other: its core,
the cluster of its core, and its own L1 caches; ids are positions. -/
theorem C84_links_resolve (i : Nat) (p : Processor) (hp : pub.processors[i]? = some p) :
    ∃ o l, pub.cores[p.core]? = some o ∧ pub.clusters[p.cluster]? = some l ∧
      i = o.processorStart + p.smtId ∧ o.cluster = p.cluster ∧ o.coreId = p.core ∧
      l.clusterId = p.cluster ∧ InRange l.processorStart l.processorCount i ∧
      p.l1i < pub.l1i.length ∧ p.l1d < pub.l1d.length := by
  obtain ⟨t, hw, rev, -, ⟨W⟩⟩ := whole e hs hl pub h
  obtain ⟨hi, h1, h2, h3, h4, h5, h6⟩ := W.processor_of hp
  have hc := W.cluster_at hi
  rw [W.cluster_entry hi] at hc
  refine ⟨_, _, by rw [h2]; exact W.core_at hi, by rw [h3]; exact hc, ?_, ?_, ?_, ?_, ?_, ?_, ?_⟩
  · rw [h1]; rfl
  · rw [h3]; exact W.cl_eq i
  · rw [h2]; rfl
  · rw [h3]
  · exact (mem_run W.nw W.N i hi i).mp ⟨hi, rfl⟩
  · rw [h5, W.good.l1i.length]; exact hi
  · rw [h6, W.good.l1d.length]; exact hi

/-! ## C85 -/

/-- **C85.** The Linux CPU number maps are inverse to the `linux_id` of the processors. -/
theorem C85_maps_inverse :
    pub.processorMap.length = pub.linuxCpuMax ∧ pub.coreMap.length = pub.linuxCpuMax ∧
    (∀ (j : Nat) (p : Processor), pub.processors[j]? = some p →
      pub.processorMap[p.linuxId]? = some (some j) ∧
      pub.coreMap[p.linuxId]? = some (some p.core)) ∧
    (∀ (n j : Nat), pub.processorMap[n]? = some (some j) →
      ∃ p, pub.processors[j]? = some p ∧ p.linuxId = n) ∧
    (∀ (n g : Nat), pub.coreMap[n]? = some (some g) →
      ∃ (j : Nat) (p : Processor), pub.processors[j]? = some p ∧ p.linuxId = n ∧ p.core = g) := by
  obtain ⟨t, hw, rev, -, ⟨W⟩⟩ := whole e hs hl pub h
  have back : ∀ (tab : List (Option Nat)) (n y : Nat),
      X86Init.MapTab (fun k => (W.x.P k).systemProcessorId) W.x.maxLinux W.x.N id tab →
      tab[n]? = some (some y) → y < W.N ∧ (procAt W.S y).systemProcessorId = n := by
    intro tab n y hm hy
    have hn : n < W.x.maxLinux := by rw [← hm.length]; exact lt_of_get hy
    by_cases hex : ∃ k < W.x.N, (W.x.P k).systemProcessorId = n
    · obtain ⟨k, hk, rfl⟩ := hex
      rw [hm.done k hk] at hy
      have : k = y := by simpa using hy
      subst this
      exact ⟨hk, rfl⟩
    · rw [hm.rest n hn (fun k hk hkn => hex ⟨k, hk, hkn⟩)] at hy
      cases hy
  refine ⟨?_, ?_, ?_, ?_, ?_⟩
  · rw [W.good.processorMap.length, W.good.linuxCpuMax]
  · rw [W.good.coreMap.length, W.good.linuxCpuMax]
  · intro j p hp
    obtain ⟨hj, -, h2, -, h4, -⟩ := W.processor_of hp
    rw [h2, h4]
    exact ⟨W.good.processorMap.done j hj, W.good.coreMap.done j hj⟩
  · intro n j hj
    obtain ⟨h1, h2⟩ := back _ n j W.good.processorMap hj
    obtain ⟨p, hp⟩ := W.processor_at h1
    exact ⟨p, hp, (W.processor_of hp).2.2.2.2.1.trans h2⟩
  · intro n j hj
    obtain ⟨h1, h2⟩ := back _ n j W.good.coreMap hj
    obtain ⟨p, hp⟩ := W.processor_at h1
    have := W.processor_of hp
    exact ⟨j, p, hp, this.2.2.2.2.1.trans h2, this.2.2.1⟩

/-- **C85, C77 (partial).** A Linux CPU number is in the map exactly when the kernel files make the
processor usable; all other numbers map to null.  For C77 this needs that every usable processor is
listed in /proc/cpuinfo (`AllListed`). -/
theorem C85_usable_iff_mapped (t : List Proc) (hw rev : Bytes) (hg : Reads e t hw rev) :
    pub.linuxCpuMax = t.length ∧
    ∀ (n : Nat) (q : Proc), t[n]? = some q →
      (Usable q → ∃ (j : Nat) (p : Processor), pub.processorMap[n]? = some (some j) ∧
        pub.processors[j]? = some p ∧ p.linuxId = n) ∧
      (¬ Usable q → pub.processorMap[n]? = some none ∧ pub.coreMap[n]? = some none) := by
  obtain ⟨t', hw', rev', hg', ⟨W⟩⟩ := whole e hs hl pub h
  unfold Reads at hg hg'
  rw [hg] at hg'
  cases hg'
  have hlen : W.x.maxLinux = t.length := by
    show (e.sort W.T).length = _
    rw [W.sorted.perm.length_eq, W.analysed.same.1]
  refine ⟨by rw [W.good.linuxCpuMax]; exact hlen, ?_⟩
  intro n q hq
  constructor
  · intro hu
    obtain ⟨k, hk, rfl⟩ := W.position hq hu
    obtain ⟨p, hp⟩ := W.processor_at hk
    exact ⟨k, p, W.good.processorMap.done k hk, hp, (W.processor_of hp).2.2.2.2.1⟩
  · intro hu
    have hn : n < W.x.maxLinux := by rw [hlen]; exact lt_of_get hq
    have hno : ∀ k < W.x.N, (W.x.P k).systemProcessorId ≠ n := by
      rintro k hk rfl
      obtain ⟨q', hq', -, hu'⟩ := W.origin hk
      have hq' : t[(W.x.P k).systemProcessorId]? = some q' := hq'
      rw [hq] at hq'
      cases hq'
      exact hu hu'
    exact ⟨W.good.processorMap.rest n hn hno, W.good.coreMap.rest n hn hno⟩

/-! ## C86 -/

/-- **C86.** All cores of a cluster have the vendor, microarchitecture and MIDR of the cluster. -/
theorem C86_cluster_is_homogeneous (k : Nat) (o : Core) (l : Cluster) (ho : pub.cores[k]? = some o)
    (hlk : pub.clusters[o.cluster]? = some l) :
    o.vendor = l.vendor ∧ o.uarch = l.uarch ∧ o.midr = l.midr := by
  obtain ⟨t, hw, rev, -, ⟨W⟩⟩ := whole e hs hl pub h
  obtain ⟨hk, rfl⟩ := W.core_of ho
  rw [show (W.x.coreE k).cluster = gi W.nw k from W.cl_eq k, W.cluster_at hk, W.cluster_entry hk] at hlk
  cases hlk
  exact ⟨rfl, rfl, rfl⟩

/-- **C86.** Vendor and microarchitecture of a cluster are what the decoder makes of its MIDR; on
32-bit ARM the decoder is also told whether the first processor of the cluster has VFPv4. -/
theorem C86_uarch_from_midr (t : List Proc) (hw rev : Bytes) (hg : Reads e t hw rev) (g : Nat)
    (l : Cluster) (hlg : pub.clusters[g]? = some l) (p : Processor)
    (hp : pub.processors[l.processorStart]? = some p) (q : Proc) (hq : t[p.linuxId]? = some q) :
    (l.vendor, l.uarch) = e.dec.vendorUarch l.midr (e.config.arch == .arm && q.features.testBit 16) := by
  obtain ⟨t', hw', rev', hg', ⟨W⟩⟩ := whole e hs hl pub h
  unfold Reads at hg hg'
  rw [hg] at hg'
  cases hg'
  obtain ⟨k, hk, rfl, rfl⟩ := W.cluster_of hlg
  obtain ⟨hi, -, -, -, h4, -⟩ := W.processor_of hp
  dsimp only at hi h4
  obtain ⟨g1, u1⟩ := W.sorted.get hk
  obtain ⟨l, hl', hd⟩ := W.analysed.decoded _ _ (W.sorted.at_id g1) u1
  have hlead : (procAt W.S k).packageLeaderId = (procAt W.S (st W.nw k)).systemProcessorId :=
    (W.sorted.start_leader k hk).2
  have hT := W.sorted.at_id (W.sorted.get hi).1
  have hl' : W.T[(procAt W.S k).packageLeaderId]? = some l := hl'
  rw [hlead] at hl'
  have hT : W.T[(procAt W.S (st W.nw k)).systemProcessorId]? = some (procAt W.S (st W.nw k)) := hT
  rw [hT] at hl'
  have hl' := Option.some.inj hl'
  obtain ⟨q', hq', s, -⟩ := W.origin hi
  rw [← h4, hq] at hq'
  cases hq'
  refine hd.trans ?_
  show e.dec.vendorUarch (procAt W.S k).midr (vfpv4Of e l) = _
  rw [← hl']
  congr 1
  unfold vfpv4Of
  cases e.config.arch with
  | arm64 => rfl
  | arm =>
    have : has { procAt W.S (st W.nw k) with flags := (procAt W.S (st W.nw k)).features } featureVfpv4 =
        (procAt W.S (st W.nw k)).features.testBit 16 := has_pow _ 16
    rw [this, s.features]
    rfl

/-! ## C87 -/

/-- **C87 (partial).** Every processor has L1 instruction and data caches of its own, with the
decoded geometry and with exactly that processor in their range.  Missing for the full C87: 32-bit
processors for which /proc/cpuinfo gives all four cache numbers, see `C87_violated`. -/
theorem C87_l1_partial (t : List Proc) (hw rev : Bytes) (hg : Reads e t hw rev) (i : Nat) (c : Caches)
    (hc : DecodedCaches e pub i c) (p : Processor) (hp : pub.processors[i]? = some p) (q : Proc)
    (hq : t[p.linuxId]? = some q) :
    pub.l1iCount = pub.processors.length ∧ pub.l1i.length = pub.processors.length ∧
    pub.l1dCount = pub.processors.length ∧ pub.l1d.length = pub.processors.length ∧
    p.l1i = i ∧ p.l1d = i ∧
    (¬ (e.config.arch = .arm ∧ ∀ k, 24 ≤ k → k ≤ 27 → q.flags.testBit k = true) →
      pub.l1i[i]? = some { c.l1i with processorStart := i, processorCount := 1 }) ∧
    (¬ (e.config.arch = .arm ∧ ∀ k, 28 ≤ k → k ≤ 31 → q.flags.testBit k = true) →
      pub.l1d[i]? = some { c.l1d with processorStart := i, processorCount := 1 }) := by
  obtain ⟨t', hw', rev', hg', ⟨W⟩⟩ := whole e hs hl pub h
  obtain ⟨hi, rfl⟩ := W.decoded_caches hg' hl i c hc
  have hgg : gather e = _ := hg
  have hgg' : gather e = _ := hg'
  rw [hgg] at hgg'
  cases hgg'
  obtain ⟨-, -, -, -, h4, h5, h6⟩ := W.processor_of hp
  obtain ⟨q', hq', s, -⟩ := W.origin hi
  rw [← h4, hq] at hq'
  cases hq'
  have hi' : i < W.x.N := hi
  have e1 := W.g.l1i.get i hi
  have e2 := W.g.l1d.get i hi
  rw [if_pos hi'] at e1 e2
  rw [W.processors_length]
  refine ⟨W.g.l1Counts.1, W.g.l1i.length, W.g.l1Counts.2, W.g.l1d.length, h5, h6, fun hn => ?_,
    fun hn => ?_⟩
  · rw [e1]
    unfold l1iEntry
    rw [if_neg]
    rintro ⟨ha, hb⟩
    refine hn ⟨ha, fun k h1 h2 => ?_⟩
    rw [← s.bits k (by omega)]
    refine (X86Init.bitmaskAll_iff _ _).mp hb k ?_
    have : k = 24 ∨ k = 25 ∨ k = 26 ∨ k = 27 := by omega
    rcases this with rfl | rfl | rfl | rfl <;> decide
  · rw [e2]
    unfold l1dEntry
    rw [if_neg]
    rintro ⟨ha, hb⟩
    refine hn ⟨ha, fun k h1 h2 => ?_⟩
    rw [← s.bits k (by omega)]
    refine (X86Init.bitmaskAll_iff _ _).mp hb k ?_
    have : k = 28 ∨ k = 29 ∨ k = 30 ∨ k = 31 := by omega
    rcases this with rfl | rfl | rfl | rfl <;> decide

/-- **C87 (cache numbers).** On 32-bit ARM, L1 caches for which /proc/cpuinfo gives all four numbers
have the geometry given there, and always an empty range of processors. -/
theorem C87_l1_from_numbers (t : List Proc) (hw rev : Bytes) (hg : Reads e t hw rev) (i : Nat)
    (p : Processor) (hp : pub.processors[i]? = some p) (q : Proc) (hq : t[p.linuxId]? = some q)
    (harch : e.config.arch = .arm) :
    ((∀ k, 24 ≤ k → k ≤ 27 → q.flags.testBit k = true) → ∃ x, pub.l1i[i]? = some x ∧
      FromNumbers x q.cache.iSize q.cache.iAssoc q.cache.iSets q.cache.iLine ∧
      x.processorStart = 0 ∧ x.processorCount = 0) ∧
    ((∀ k, 28 ≤ k → k ≤ 31 → q.flags.testBit k = true) → ∃ x, pub.l1d[i]? = some x ∧
      FromNumbers x q.cache.dSize q.cache.dAssoc q.cache.dSets q.cache.dLine ∧
      x.processorStart = 0 ∧ x.processorCount = 0) := by
  obtain ⟨t', hw', rev', hg', ⟨W⟩⟩ := whole e hs hl pub h
  have hgg : gather e = _ := hg
  have hgg' : gather e = _ := hg'
  rw [hgg] at hgg'
  cases hgg'
  obtain ⟨hi, -, -, -, h4, -, -⟩ := W.processor_of hp
  obtain ⟨q', hq', s, -⟩ := W.origin hi
  rw [← h4, hq] at hq'
  cases hq'
  have hi' : i < W.x.N := hi
  have e1 := W.g.l1i.get i hi
  have e2 := W.g.l1d.get i hi
  rw [if_pos hi'] at e1 e2
  have hc : (W.x.P i).cache = q.cache := s.cache
  constructor
  · intro hn
    refine ⟨_, e1, ?_⟩
    unfold l1iEntry
    rw [if_pos]
    · rw [← hc]; exact ⟨⟨rfl, rfl, rfl, rfl, rfl⟩, rfl, rfl⟩
    · refine ⟨harch, (X86Init.bitmaskAll_iff _ _).mpr fun j hj => ?_⟩
      have hj' : 24 ≤ j ∧ j ≤ 27 := by
        have hlt : j < 32 := Nat.lt_of_not_le fun hh => by
          have : (0x0F000000 : Nat) < 2 ^ j :=
            Nat.lt_of_lt_of_le (by decide : (0x0F000000 : Nat) < 2 ^ 32) (Nat.pow_le_pow_right (by decide) hh)
          rw [Nat.testBit_lt_two_pow this] at hj
          cases hj
        revert hj
        revert hlt
        revert j
        decide
      exact (s.bits j (by omega)).trans (hn j hj'.1 hj'.2)
  · intro hn
    refine ⟨_, e2, ?_⟩
    unfold l1dEntry
    rw [if_pos]
    · rw [← hc]; exact ⟨⟨rfl, rfl, rfl, rfl, rfl⟩, rfl, rfl⟩
    · refine ⟨harch, (X86Init.bitmaskAll_iff _ _).mpr fun j hj => ?_⟩
      have hj' : 28 ≤ j ∧ j ≤ 31 := by
        have hlt : j < 32 := Nat.lt_of_not_le fun hh => by
          have : (0xF0000000 : Nat) < 2 ^ j :=
            Nat.lt_of_lt_of_le (by decide : (0xF0000000 : Nat) < 2 ^ 32) (Nat.pow_le_pow_right (by decide) hh)
          rw [Nat.testBit_lt_two_pow this] at hj
          cases hj
        revert hj
        revert hlt
        revert j
        decide
      exact (s.bits j (by omega)).trans (hn j hj'.1 hj'.2)

/-! ## C92 -/

/-- **C92 (partial).** For well-formed kernel files, the published processors are exactly those the
kernel supports and has in the lists of possible and present processors (as far as there are such
lists).  For the full C92 this needs that /proc/cpuinfo lists these processors (`AllListed`), see
`C77_violated`. -/
theorem C92_published_are_usable_partial (k : KernelLists) (hk : k.Ok) (hd : k.Describes e) (n : Nat) :
    (∃ (j : Nat) (p : Processor), pub.processors[j]? = some p ∧ p.linuxId = n) ↔ k.Usable n := by
  obtain ⟨t, hw, rev, hg, ⟨W⟩⟩ := whole e hs hl pub h
  rw [← gather_lists k hk e hd t hw rev hg n]
  constructor
  · rintro ⟨j, p, hp, rfl⟩
    obtain ⟨hj, -, -, -, h4, -, -⟩ := W.processor_of hp
    obtain ⟨q, hq, -, hu⟩ := W.origin hj
    exact ⟨q, by rw [h4]; exact hq, hu⟩
  · rintro ⟨q, hq, hu⟩
    obtain ⟨j, hj, rfl⟩ := W.position hq hu
    obtain ⟨p, hp⟩ := W.processor_at hj
    exact ⟨j, p, hp, (W.processor_of hp).2.2.2.2.1⟩

/-! ## C88 -/

/-- **C88 (L2 caches).** If all processors have the same architecture version: a processor whose
cluster has an L3 cache has an L2 cache of its own; without L3, the processors of a cluster share
the L2 cache, and its range is that of the cluster; without L2 and L3 there is no link.  The geometry
is the decoded one. -/
theorem C88_l2 (hv : OneVersion e) (i : Nat) (c : Caches) (hc : DecodedCaches e pub i c) (p : Processor)
    (hp : pub.processors[i]? = some p) (l : Cluster) (hlk : pub.clusters[p.cluster]? = some l) :
    (c.l3.size ≠ 0 → ∃ g x, p.l2 = some g ∧ pub.l2[g]? = some x ∧ HasGeometry x c.l2 i 1) ∧
    (c.l3.size = 0 → c.l2.size ≠ 0 → ∃ g x, p.l2 = some g ∧ pub.l2[g]? = some x ∧
      HasGeometry x c.l2 l.processorStart l.processorCount) ∧
    (c.l3.size = 0 → c.l2.size = 0 → p.l2 = none) := by
  obtain ⟨t, hw, rev, hg, ⟨W⟩⟩ := whole e hs hl pub h
  obtain ⟨hi, rfl⟩ := W.decoded_caches hg hl i c hc
  have hu := W.uniform hg hv
  obtain ⟨-, f2, -⟩ := W.final_of hu hp
  rw [(W.processor_of hp).2.2.2.1, W.cluster_at hi, W.cluster_entry hi] at hlk
  cases hlk
  unfold Ctx.link2 at f2
  refine ⟨fun h3 => ?_, fun h3 h2 => ?_, fun h3 h2 => ?_⟩
  · have hh : W.x.has2 i := .inl h3
    rw [if_pos hh] at f2
    refine ⟨_, _, f2, W.l2_at hg hv hi hh, ?_⟩
    unfold Whole.home2
    rw [if_pos h3]
    obtain ⟨r1, r2⟩ := W.e2_range i hi
    rw [if_pos h3] at r2
    exact ⟨rfl, rfl, rfl, rfl, rfl, rfl, r1, r2⟩
  · have hh : W.x.has2 i := .inr h2
    rw [if_pos hh] at f2
    refine ⟨_, _, f2, W.l2_at hg hv hi hh, ?_⟩
    have h3' : ¬ (W.x.c i).l3.size ≠ 0 := by simp [h3]
    unfold Whole.home2
    rw [if_neg h3']
    have hc := W.start_caches hg hv hi
    obtain ⟨r1, r2⟩ := W.e2_range (st W.nw i) (W.st_lt hi)
    rw [hc, if_neg h3', gi_st] at r2
    rw [← hc]
    exact ⟨rfl, rfl, rfl, rfl, rfl, rfl, r1, r2⟩
  · have hh : ¬ W.x.has2 i := by
      rintro (hh | hh)
      · exact hh h3
      · exact hh h2
    rw [if_neg hh] at f2
    exact f2

/-- **C88 (L2 ranges).** The published number of L2 caches is the length of the table, and the range
of an L2 cache holds exactly the processors linked to it. -/
theorem C88_l2_ranges (hv : OneVersion e) :
    pub.l2Count = pub.l2.length ∧
    ∀ (g : Nat) (x : Cache), pub.l2[g]? = some x → ∀ i, InRange x.processorStart x.processorCount i ↔
      ∃ p, pub.processors[i]? = some p ∧ p.l2 = some g := by
  obtain ⟨t, hw, rev, hg, ⟨W⟩⟩ := whole e hs hl pub h
  have hu := W.uniform hg hv
  have hlen := (W.gc hu).l2.length
  refine ⟨by rw [hlen]; exact W.g.l2Count, fun g x hx i => ?_⟩
  obtain ⟨k, hk, ho, rfl, rfl⟩ := (W.gc hu).l2.full rfl hx
  rw [W.e2_iff hg hv hk ho i]
  constructor
  · rintro ⟨hi, he⟩
    obtain ⟨p, hp⟩ := W.processor_at hi
    exact ⟨p, hp, (W.final_of hu hp).2.1.trans he⟩
  · rintro ⟨p, hp, he⟩
    obtain ⟨hi, f2, -⟩ := W.final_of hu hp
    exact ⟨hi, f2.symm.trans he⟩

/-- **C88 (one L3 cache).** If all processors have an L3 cache of the same size, one L3 cache is
published, for all processors. -/
theorem C88_shared_l3 (hv : OneVersion e) (h1 : OneL3Size e pub) (c0 : Caches)
    (hc0 : DecodedCaches e pub 0 c0) :
    pub.l3Count = 1 ∧ (∃ x, pub.l3 = [x] ∧ HasGeometry x c0.l3 0 pub.processors.length) ∧
    ∀ (i : Nat) (p : Processor), pub.processors[i]? = some p → p.l3 = some 0 := by
  obtain ⟨t, hw, rev, hg, ⟨W⟩⟩ := whole e hs hl pub h
  obtain ⟨h0, rfl⟩ := W.decoded_caches hg hl 0 c0 hc0
  have hu := W.uniform hg hv
  have hall : ∀ k, k < W.x.N → (W.x.c k).l3.size ≠ 0 ∧ (W.x.c k).l3.size = (W.x.c 0).l3.size :=
    fun k hk => h1 k _ _ (W.decoded_at hg hl hk) hc0
  have hsh := (W.x.shared_iff h0 hu).mpr hall
  have hone := W.x.l3_one h0 hall
  have hop : W.x.op3 0 = true := by
    have hn : W.x.nw 0 = true := W.nw0
    simp [Ctx.op3, hn, (hall 0 h0).1]
  have e3 := (W.gc hu).l3 0 h0 hop (by rw [hone]; exact Nat.one_pos)
  rw [hsh] at e3
  have hlen := (W.gc hu).l3Length
  rw [hone] at hlen
  refine ⟨by rw [W.g.l3Count, hone], ⟨W.x.e3 true 0, ?_, ?_⟩, fun i p hp => ?_⟩
  · obtain ⟨y, hy⟩ := List.length_eq_one_iff.mp hlen
    rw [hy] at e3 ⊢
    have : y = W.x.e3 true 0 := by simpa [opened] using e3
    rw [this]
  · rw [W.processors_length]
    exact ⟨rfl, rfl, rfl, rfl, rfl, rfl, rfl, rfl⟩
  · obtain ⟨hi, -, f3⟩ := W.final_of hu hp
    rw [f3, hsh]
    unfold Ctx.link3
    rw [if_pos (hall i hi).1, if_pos rfl]

/-- **C88 (L3 caches of clusters, partial).** If no later cluster has an L3 cache of the size of the
first cluster's, and not all processors have the same size, every cluster with an L3 cache gets one
of its own, with the range of the cluster.  Missing for the full C88: other combinations of sizes,
see `C88_violated`. -/
theorem C88_cluster_l3_partial (hv : OneVersion e) (h1 : ¬ OneL3Size e pub) (h2 : OtherL3Sizes e pub)
    (i : Nat) (c : Caches) (hc : DecodedCaches e pub i c) (p : Processor)
    (hp : pub.processors[i]? = some p) (l : Cluster) (hlk : pub.clusters[p.cluster]? = some l) :
    pub.l3Count = pub.l3.length ∧
    (c.l3.size ≠ 0 → ∃ g x, p.l3 = some g ∧ pub.l3[g]? = some x ∧
      HasGeometry x c.l3 l.processorStart l.processorCount) ∧
    (c.l3.size = 0 → p.l3 = none) := by
  obtain ⟨t, hw, rev, hg, ⟨W⟩⟩ := whole e hs hl pub h
  obtain ⟨hi, rfl⟩ := W.decoded_caches hg hl i c hc
  have h0 : 0 < W.x.N := W.h0
  have hu := W.uniform hg hv
  obtain ⟨-, -, f3⟩ := W.final_of hu hp
  rw [(W.processor_of hp).2.2.2.1, W.cluster_at hi, W.cluster_entry hi] at hlk
  cases hlk
  have hsh : (W.x.counts W.x.N).shared = false := by
    cases hb : (W.x.counts W.x.N).shared with
    | false => rfl
    | true =>
      refine absurd ?_ h1
      intro k c c0 hck hc0
      obtain ⟨hk, rfl⟩ := W.decoded_caches hg hl k c hck
      obtain ⟨-, rfl⟩ := W.decoded_caches hg hl 0 c0 hc0
      exact (W.x.shared_iff h0 hu).mp hb k hk
  have hcount := W.x.l3_each h0 (fun k hk hk0 hn hs3 => by
    obtain ⟨q, hq⟩ := W.processor_at hk
    refine h2 k _ _ q (W.decoded_at hg hl hk) (W.decoded_at hg hl h0) hq ?_ hs3
    rw [(W.processor_of hq).2.2.2.1, ← W.cl_eq]
    exact W.x.cl_pos h0 hk0 hn)
  refine ⟨by rw [W.g.l3Count, (W.gc hu).l3Length], fun h3 => ?_, fun h3 => ?_⟩
  · have hst := W.start_caches hg hv hi
    have hop : W.x.op3 (st W.nw i) = true := by
      have hn : W.x.nw (st W.nw i) = true := W.start_new i hi
      unfold Ctx.op3
      rw [hn, hst]
      simp [h3]
    have hlt : opened W.x.op3 (st W.nw i) < (W.x.counts W.x.N).l3 := by
      rw [hcount]; exact opened_lt hop (W.st_lt hi)
    have hidx : idx W.x.op3 (i + 1) = opened W.x.op3 (st W.nw i) := W.idx3_start hi hop
    have e3 := (W.gc hu).l3 (st W.nw i) (W.st_lt hi) hop hlt
    rw [hsh] at e3 f3
    unfold Ctx.link3 at f3
    rw [if_pos h3, hidx, if_pos hlt] at f3
    refine ⟨_, _, f3, e3, ?_⟩
    have e1 : (procAt W.S (st W.nw i)).packageProcessorCount = cnt W.nw (gi W.nw i) W.N := by
      rw [← gi_st W.nw i]; exact (W.sorted.run_size (W.st_lt hi)).symm
    rw [← hst]
    exact ⟨rfl, rfl, rfl, rfl, rfl, rfl, rfl, e1⟩
  · rw [f3]
    unfold Ctx.link3
    rw [if_neg (by simp [h3])]

/-! ## C89 -/

omit h in
/-- **C89 (partial).** If the kernel files are readable, name a usable processor and give one
architecture version, detection accesses its tables only inside their bounds; it publishes
something if all allocations succeed.  Missing: see `C89_violated_no_processor` and
`C89_violated_versions`. -/
theorem C89_no_fault_partial (hv : OneVersion e) (t : List Proc) (hw rev : Bytes)
    (hg : Reads e t hw rev) (p : Proc) (hp : p ∈ t) (hu : Usable p) :
    linuxInit e ≠ none ∧ ((∀ i, e.alloc i = true) → ∃ pub, linuxInit e = some (some pub)) := by
  have h0 : 0 < usableCount t := List.length_pos_of_mem (List.mem_filter.mpr ⟨hp, hu⟩)
  obtain ⟨r, hr, hok⟩ := linuxInit_total e hs t hw rev hg (countListed_eq (hl t hw rev hg)) h0
    (hv t hw rev hg)
  refine ⟨by rw [hr]; exact Option.some_ne_none _, fun ha => ?_⟩
  cases r with
  | none => exact absurd rfl (hok ha)
  | some pub => exact ⟨pub, hr⟩

/-! ## C90 -/

/-- **C90.** Faster core types are published first, and the processors of a cluster in the order of
their Linux numbers. -/
theorem C90_fastest_first (i j : Nat) (hij : i < j) (p q : Processor) (o o' : Core)
    (hp : pub.processors[i]? = some p) (hq : pub.processors[j]? = some q)
    (ho : pub.cores[p.core]? = some o) (ho' : pub.cores[q.core]? = some o') :
    scoreCore e.config.arch o'.midr ≤ scoreCore e.config.arch o.midr ∧
    (p.cluster = q.cluster → p.linuxId < q.linuxId) := by
  obtain ⟨t, hw, rev, -, ⟨W⟩⟩ := whole e hs hl pub h
  obtain ⟨hi, -, h2, h3, h4, -⟩ := W.processor_of hp
  obtain ⟨hj, -, h2', h3', h4', -⟩ := W.processor_of hq
  rw [h2] at ho
  rw [h2'] at ho'
  obtain ⟨-, rfl⟩ := W.core_of ho
  obtain ⟨-, rfl⟩ := W.core_of ho'
  obtain ⟨g1, u1⟩ := W.sorted.get hi
  obtain ⟨g2, u2⟩ := W.sorted.get hj
  have hb := W.sorted.order g1 g2 hij
  constructor
  · rcases Nat.lt_or_ge (scoreCore e.config.arch (W.x.coreE i).midr)
      (scoreCore e.config.arch (W.x.coreE j).midr) with hlt | hge
    · exact absurd (.inr ⟨⟨fun _ => u1, fun _ => u2⟩, .inl hlt⟩) hb
    · exact hge
  · intro hc
    rw [h3, h3'] at hc
    have hlead := (W.sorted.run_iff hi hj).mp hc
    obtain ⟨c1, c2, -⟩ := W.sorted.same_core g1 g2 u1 u2 hlead
    rw [h4, h4']
    have hne : (procAt W.S i).systemProcessorId ≠ (procAt W.S j).systemProcessorId := by
      intro he
      have := W.sorted.distinct g1 g2 he
      omega
    rcases Nat.lt_or_ge (procAt W.S i).systemProcessorId (procAt W.S j).systemProcessorId with hlt | hge
    · exact hlt
    · refine absurd (.inr ⟨⟨fun _ => u1, fun _ => u2⟩, .inr ⟨by rw [c1], .inr ⟨c2.symm, .inr ⟨hlead.symm, ?_⟩⟩⟩⟩) hb
      have hne : (procAt (e.sort W.T) i).systemProcessorId ≠ (procAt (e.sort W.T) j).systemProcessorId := hne
      have hge : (procAt (e.sort W.T) j).systemProcessorId ≤ (procAt (e.sort W.T) i).systemProcessorId := hge
      omega

/-! ## C91 -/

/-- **C91 (partial).** If /proc/cpuinfo describes every usable processor completely, the MIDR of a
core is the one reported for the first processor of its cluster; so it is the one reported for its
own processor whenever the cluster is homogeneous.  Missing for the full C91: clusters that are not,
see `C91_violated`. -/
theorem C91_midr_partial (hd : AllDescribed e) (t : List Proc) (hw rev : Bytes) (hg : Reads e t hw rev)
    (i : Nat) (p f : Processor) (o : Core) (l : Cluster) (hp : pub.processors[i]? = some p)
    (ho : pub.cores[p.core]? = some o) (hlk : pub.clusters[p.cluster]? = some l)
    (hf : pub.processors[l.processorStart]? = some f) (q : Proc) (hq : t[f.linuxId]? = some q) :
    o.midr = q.midr := by
  obtain ⟨t', hw', rev', hg', ⟨W⟩⟩ := whole e hs hl pub h
  have hgg : gather e = _ := hg
  have hgg' : gather e = _ := hg'
  rw [hgg] at hgg'
  cases hgg'
  obtain ⟨hi, -, h2, h3, h4, -⟩ := W.processor_of hp
  rw [h2] at ho
  obtain ⟨-, rfl⟩ := W.core_of ho
  rw [h3, W.cluster_at hi, W.cluster_entry hi] at hlk
  cases hlk
  obtain ⟨hfi, -, -, -, h4', -⟩ := W.processor_of hf
  dsimp only at hfi h4'
  obtain ⟨g1, u1⟩ := W.sorted.get hi
  obtain ⟨r, hr, -⟩ := W.origin hi
  have hlead : (procAt W.S i).packageLeaderId = (procAt W.S (st W.nw i)).systemProcessorId :=
    (W.sorted.start_leader i hi).2
  have hl' : t[(procAt W.S i).packageLeaderId]? = some q := by
    rw [hlead, ← h4']
    exact hq
  have := W.analysed.midr (hd t hw rev hg) _ (procAt (e.sort W.T) i) r q (W.sorted.at_id g1) u1 hr hl'
  exact this

end Tables

/-! ## Examples and violations -/

/-- The /proc/cpuinfo block of a 64-bit processor with an ARM part number. -/
private def block (n part : Bytes) : Bytes :=
  b!"processor\t: " ++ n ++ b!"\nCPU implementer\t: 0x41\nCPU architecture: 8\n" ++
    b!"CPU variant\t: 0x0\nCPU part\t: 0x" ++ part ++ b!"\nCPU revision\t: 4\n\n"

private def file (b : Bytes) : File := (some b, fun _ => some 64)
private def noFile : File := (none, fun _ => none)

private def geometry (size : Nat) : Cache := ⟨size, 4, size / 256, 1, 64, 0, 0, 0⟩

/-- L1 caches of 32 KB, L2 and L3 caches of the given sizes. -/
private def sizes (l2 l3 : Nat) : Caches :=
  ⟨geometry 32768, geometry 32768, geometry l2, geometry l3⟩

/-- Decoders for examples: the part number is the microarchitecture, L2 caches are of 512 KB
(Cortex-A73) or 128 KB per core. -/
private def exDec : Decoders :=
  { chipset := fun _ _ _ => ⟨.unknown, .unknown, 0, []⟩
    vendorUarch := fun m _ => (m / 2 ^ 24 % 256, m / 16 % 4096)
    caches := fun uarch cores _ _ _ _ =>
      if uarch = 0xD09 then sizes (cores * 524288) 0 else sizes (cores * 131072) 0
    maxCacheSize := fun _ => none }

/-- Two Cortex-A53 and two Cortex-A73; CPU 4 is possible but not present. -/
def armExample : Env :=
  { config := ⟨.arm64, false⟩
    kernelMax := file b!"7\n", possibleMax := file b!"0-4\n", presentMax := file b!"0-3\n"
    possible := file b!"0-4\n", present := file b!"0-3\n"
    cpuinfo := file (block b!"0" b!"d03" ++ block b!"1" b!"d03" ++ block b!"2" b!"d09" ++
      block b!"3" b!"d09" ++ b!"Hardware\t: example\n")
    maxFrequency := fun i => file (if i < 2 then b!"1500000\n" else b!"2400000\n")
    minFrequency := fun _ => noFile
    packageId := fun _ => file b!"0\n"
    clusterCpus := fun _ => noFile
    coreSiblings := fun i => file (if i < 2 then b!"0-1\n" else b!"2-3\n")
    hardware := List.replicate 64 1, revision := List.replicate 9 2
    junk := ⟨0, 0, 0, 0⟩, junk' := ⟨0, 0, 0, 0⟩
    dec := exDec, sort := armSort .arm64, alloc := fun _ => true }

/-- A part of the published tables. -/
private def shown {β : Type} (e : Env) (f : Published → β) : Option β :=
  ((linuxInit e).bind id).map f

private theorem of_shown {β : Type} {e : Env} {f : Published → β} {x : β} (h : shown e f = some x) :
    ∃ pub, linuxInit e = some (some pub) ∧ f pub = x := by
  unfold shown at h
  obtain ⟨pub, hp, hx⟩ := Option.map_eq_some_iff.mp h
  obtain ⟨r, hr, hid⟩ := Option.bind_eq_some_iff.mp hp
  cases hid
  exact ⟨pub, hr, hx⟩

/-- A check of all table entries. -/
private def tableHas (e : Env) (f : Proc → Bool) : Bool :=
  match gather e with
  | some (some (t, _, _)) => t.all f
  | _ => true

private theorem of_tableHas {e : Env} {f : Proc → Bool} (h : tableHas e f = true) (t : List Proc)
    (hw rev : Bytes) (hg : Reads e t hw rev) (p : Proc) (hp : p ∈ t) : f p = true := by
  unfold Reads at hg
  unfold tableHas at h
  rw [hg] at h
  exact List.all_eq_true.mp h p hp

private theorem allListed_of {e : Env} (h : tableHas e (fun p => decide (Usable p → Spec.Listed p)) = true) :
    AllListed e := fun t hw rev hg p hp => of_decide_eq_true (of_tableHas h t hw rev hg p hp)

private theorem oneVersion_of {e : Env} (v : Nat)
    (h : tableHas e (fun p => decide (Usable p → p.architectureVersion = v)) = true) : OneVersion e :=
  fun t hw rev hg p hp q hq up uq =>
    (of_decide_eq_true (of_tableHas h t hw rev hg p hp) up).trans
      (of_decide_eq_true (of_tableHas h t hw rev hg q hq) uq).symm

private theorem allDescribed_of {e : Env}
    (h : tableHas e (fun p => decide (Usable p → p.flags.testBit 16 ∧ p.flags.testBit 17 ∧
      p.flags.testBit 18 ∧ p.flags.testBit 19 ∧ p.flags.testBit 20 ∧ p.flags.testBit 21)) = true) :
    AllDescribed e := by
  intro t hw rev hg p hp hu k h1 h2
  obtain ⟨a, b, c, d, f, g⟩ := of_decide_eq_true (of_tableHas h t hw rev hg p hp) hu
  have : k = 16 ∨ k = 17 ∨ k = 18 ∨ k = 19 ∨ k = 20 ∨ k = 21 := by omega
  rcases this with rfl | rfl | rfl | rfl | rfl | rfl <;> assumption

/-- The hypotheses of the theorems above hold for `armExample`. -/
example : SortsProcessors armExample.config.arch armExample.sort ∧ AllListed armExample ∧
    OneVersion armExample ∧ AllDescribed armExample :=
  ⟨armSort_sorts _, allListed_of (by decide +kernel), oneVersion_of 8 (by decide +kernel),
    allDescribed_of (by decide +kernel)⟩

/-- The kernel lists of `armExample`. -/
private def armLists : KernelLists := ⟨7, some [(0, 4)], some [(0, 3)]⟩

/-- `armLists` meets the hypotheses of C92. -/
example : armLists.Ok ∧ armLists.Describes armExample := by
  refine ⟨⟨by decide, ?_, ?_⟩, ⟨by decide +kernel, by decide +kernel, by decide +kernel,
    by decide +kernel, by decide +kernel, ?_⟩⟩
  · intro rs h; cases h; unfold RangesOk; decide
  · intro rs h; cases h; unfold RangesOk; decide
  · refine ⟨?_, ?_, ?_, ?_, ?_⟩ <;> (intro i hi; cases hi)

/-- What is published for `armExample`. -/
example :
    shown armExample (·.processors) = some
      [⟨0, 0, 0, 2, 0, 0, some 0, none⟩, ⟨0, 1, 0, 3, 1, 1, some 0, none⟩,
       ⟨0, 2, 1, 0, 2, 2, some 1, none⟩, ⟨0, 3, 1, 1, 3, 3, some 1, none⟩] ∧
    shown armExample (·.clusters) = some
      [⟨0, 2, 0, 2, 0, 0x41, 0xD09, 0x410FD094⟩, ⟨2, 2, 2, 2, 1, 0x41, 0xD03, 0x410FD034⟩] ∧
    shown armExample (·.cores.map (·.midr)) = some [0x410FD094, 0x410FD094, 0x410FD034, 0x410FD034] ∧
    shown armExample (·.uarchs) = some [⟨0xD09, 0x410FD094, 2, 2⟩, ⟨0xD03, 0x410FD034, 2, 2⟩] ∧
    shown armExample (·.uarchMap) = some (some [1, 1, 0, 0]) ∧
    shown armExample (·.processorMap) = some [some 2, some 3, some 0, some 1] ∧
    shown armExample (·.l1d.map fun c => (c.size, c.processorStart, c.processorCount)) = some
      [(32768, 0, 1), (32768, 1, 1), (32768, 2, 1), (32768, 3, 1)] ∧
    shown armExample (·.l2.map fun c => (c.size, c.processorStart, c.processorCount)) = some
      [(1048576, 0, 2), (262144, 2, 2)] ∧
    shown armExample (·.maxCacheSize) = some 1048576 :=
  ⟨by decide +kernel, by decide +kernel, by decide +kernel, by decide +kernel, by decide +kernel,
    by decide +kernel, by decide +kernel, by decide +kernel, by decide +kernel⟩

/-- Three clusters of one core: Cortex-A72, Cortex-A73, Cortex-A72, in the order of frequency. -/
private def threeClusters : Env :=
  { armExample with
    cpuinfo := file (block b!"0" b!"d08" ++ block b!"1" b!"d09" ++ block b!"2" b!"d08")
    maxFrequency := fun i => file (if i = 0 then b!"1500000\n" else if i = 1 then b!"2400000\n"
      else b!"2600000\n")
    coreSiblings := fun i => file (if i = 0 then b!"0\n" else if i = 1 then b!"1\n" else b!"2\n")
    presentMax := file b!"0-2\n", present := file b!"0-2\n" }

/-- **C76 is violated.** A microarchitecture can be listed twice. -/
theorem C76_violated :
    ∃ (e : Env) (pub : Published), SortsProcessors e.config.arch e.sort ∧ AllListed e ∧
      OneVersion e ∧ AllDescribed e ∧ linuxInit e = some (some pub) ∧
      ∃ u v, pub.uarchs[0]? = some u ∧ pub.uarchs[2]? = some v ∧ u.uarch = v.uarch := by
  have h : shown threeClusters (·.uarchs) =
      some [⟨0xD08, 0x410FD084, 1, 1⟩, ⟨0xD09, 0x410FD094, 1, 1⟩, ⟨0xD08, 0x410FD084, 1, 1⟩] := by
    decide +kernel
  obtain ⟨pub, hp, hu⟩ := of_shown h
  exact ⟨threeClusters, pub, armSort_sorts _, allListed_of (by decide +kernel),
    oneVersion_of 8 (by decide +kernel), allDescribed_of (by decide +kernel), hp,
    ⟨0xD08, 0x410FD084, 1, 1⟩, ⟨0xD08, 0x410FD084, 1, 1⟩, by rw [hu]; rfl, by rw [hu]; rfl, rfl⟩

/-- Non-vacuity of `C76_listed_once_partial`. -/
example : shown armExample (·.cores.map (·.uarch)) = some [0xD09, 0xD09, 0xD03, 0xD03] := by
  decide +kernel

/-- CPUs 0-3 are online Cortex-A53; CPUs 4-7 are offline, so /proc/cpuinfo does not list them. -/
private def offlineExample : Env :=
  { armExample with
    possibleMax := file b!"0-7\n", presentMax := file b!"0-7\n"
    possible := file b!"0-7\n", present := file b!"0-7\n"
    cpuinfo := file (block b!"0" b!"d03" ++ block b!"1" b!"d03" ++ block b!"2" b!"d03" ++
      block b!"3" b!"d03")
    maxFrequency := fun i => file (if i < 4 then b!"1500000\n" else b!"2400000\n")
    coreSiblings := fun i => file (if i < 4 then b!"0-3\n" else b!"4-7\n") }

/-- **C77 is violated.** When processors are offline, as many processors are published as
/proc/cpuinfo lists, but the published ones can be the offline ones: here, none of the listed
processors is published, and the published cores have no known microarchitecture. -/
theorem C77_violated :
    ∃ (e : Env) (pub : Published) (t : List Proc) (hw rev : Bytes),
      SortsProcessors e.config.arch e.sort ∧ Reads e t hw rev ∧ linuxInit e = some (some pub) ∧
      (∀ n, n < 4 → ∃ p, t[n]? = some p ∧ Usable p ∧ Spec.Listed p) ∧
      (∀ n, 4 ≤ n → n < 8 → ∃ p, t[n]? = some p ∧ Usable p ∧ ¬ Spec.Listed p) ∧
      pub.processors.map (·.linuxId) = [4, 5, 6, 7] ∧ pub.cores.map (·.midr) = [0, 0, 0, 0] := by
  have h : shown offlineExample (fun pub => (pub.processors.map (·.linuxId), pub.cores.map (·.midr))) =
      some ([4, 5, 6, 7], [0, 0, 0, 0]) := by decide +kernel
  obtain ⟨pub, hp, hu⟩ := of_shown h
  obtain ⟨t, hw, rev, hg, -⟩ := linuxInit_unfold _ _ hp
  have ht : (gather offlineExample).map (fun r => r.map fun x => x.1.map (·.flags)) =
      some (some [0x3F1003, 0x3F1003, 0x3F1003, 0x3F1003, 0x1003, 0x1003, 0x1003, 0x1003]) := by
    decide +kernel
  rw [hg] at ht
  have ht : t.map (·.flags) =
      [0x3F1003, 0x3F1003, 0x3F1003, 0x3F1003, 0x1003, 0x1003, 0x1003, 0x1003] :=
    Option.some.inj (Option.some.inj ht)
  have at' : ∀ (n f : Nat), (t.map (·.flags))[n]? = some f → ∃ p : Proc, t[n]? = some p ∧ p.flags = f := by
    intro n f hn
    rw [List.getElem?_map] at hn
    exact Option.map_eq_some_iff.mp hn
  refine ⟨offlineExample, pub, t, hw, rev, armSort_sorts _, hg, hp, fun n hn => ?_,
    fun n h1 h2 => ?_, congrArg Prod.fst hu, congrArg Prod.snd hu⟩
  · obtain ⟨p, h1, h2⟩ := at' n 0x3F1003 (by
      rw [ht]
      have : n = 0 ∨ n = 1 ∨ n = 2 ∨ n = 3 := by omega
      rcases this with rfl | rfl | rfl | rfl <;> rfl)
    exact ⟨p, h1, by unfold Usable; rw [h2]; decide, by unfold Spec.Listed; rw [h2]; decide⟩
  · obtain ⟨p, h1, h2⟩ := at' n 0x1003 (by
      rw [ht]
      have : n = 4 ∨ n = 5 ∨ n = 6 ∨ n = 7 := by omega
      rcases this with rfl | rfl | rfl | rfl <;> rfl)
    exact ⟨p, h1, by unfold Usable; rw [h2]; decide, by unfold Spec.Listed; rw [h2]; decide⟩

/-- As `offlineExample`, but the kernel does not tell clusters and frequencies. -/
private def offlineExample' : Env :=
  { offlineExample with packageId := fun _ => noFile, maxFrequency := fun _ => noFile }

/-- **C77, consequence.** Offline processors are counted in the sizes of clusters and
microarchitectures, so the range of a cluster can exceed the table of processors. -/
theorem C77_ranges_broken :
    ∃ (e : Env) (pub : Published), SortsProcessors e.config.arch e.sort ∧
      linuxInit e = some (some pub) ∧
      ∃ l u, pub.clusters[0]? = some l ∧ pub.uarchs[0]? = some u ∧ pub.processors.length = 4 ∧
        l.processorStart = 0 ∧ l.processorCount = 8 ∧ u.processorCount = 8 := by
  have h : shown offlineExample' (fun pub => (pub.clusters, pub.uarchs, pub.processors.length)) =
      some ([⟨0, 8, 0, 8, 0, 0x41, 0xD03, 0x410FD034⟩], [⟨0xD03, 0x410FD034, 8, 8⟩], 4) := by
    decide +kernel
  obtain ⟨pub, hp, hu⟩ := of_shown h
  obtain ⟨h1, h2, h3⟩ : pub.clusters = _ ∧ pub.uarchs = _ ∧ pub.processors.length = _ :=
    ⟨congrArg Prod.fst hu, congrArg (·.2.1) hu, congrArg (·.2.2) hu⟩
  exact ⟨offlineExample', pub, armSort_sorts _, hp, _, _, by rw [h1]; rfl, by rw [h2]; rfl, h3, rfl,
    rfl, rfl⟩

/-- A 32-bit processor whose /proc/cpuinfo gives the numbers of its caches. -/
private def numbersExample : Env :=
  { armExample with
    config := ⟨.arm, false⟩, sort := armSort .arm
    presentMax := file b!"0\n", present := file b!"0\n"
    cpuinfo := file (b!"processor\t: 0\nCPU architecture: 5TEJ\nI size\t: 16384\nI assoc\t: 4\n" ++
      b!"I line length\t: 32\nI sets\t: 128\nD size\t: 16384\nD assoc\t: 4\n" ++
      b!"D line length\t: 32\nD sets\t: 128\n") }

/-- **C87 is violated.** An L1 cache taken from the numbers in /proc/cpuinfo has an empty range of
processors, though it is linked to. -/
theorem C87_violated :
    ∃ (e : Env) (pub : Published), SortsProcessors e.config.arch e.sort ∧ AllListed e ∧
      linuxInit e = some (some pub) ∧ ∃ p x, pub.processors[0]? = some p ∧ p.l1d = 0 ∧
        pub.l1d[0]? = some x ∧ x.size = 16384 ∧ x.processorCount = 0 := by
  have h : shown numbersExample (fun pub => (pub.processors.map (·.l1d), pub.l1d)) =
      some ([0], [⟨16384, 4, 128, 1, 32, 0, 0, 0⟩]) := by decide +kernel
  obtain ⟨pub, hp, hu⟩ := of_shown h
  have h1 : pub.processors.map (·.l1d) = [0] := congrArg Prod.fst hu
  have h2 : pub.l1d = _ := congrArg Prod.snd hu
  obtain ⟨p, hp0, hl⟩ : ∃ p, pub.processors[0]? = some p ∧ p.l1d = 0 := by
    have := congrArg (fun l : List Nat => l[0]?) h1
    simp only [List.getElem?_map] at this
    exact Option.map_eq_some_iff.mp this
  exact ⟨numbersExample, pub, armSort_sorts _, allListed_of (by decide +kernel), hp, p, _, hp0, hl,
    by rw [h2]; rfl, rfl, rfl⟩

/-- `numbersExample` meets the hypotheses of `C87_l1_from_numbers`. -/
example : tableHas numbersExample (fun p => !(decide (Usable p)) ||
    (p.flags / 2 ^ 24 == 255 && p.cache.dSize == 16384)) = true := by decide +kernel

/-- Three clusters with L3 caches of the given sizes. -/
private def l3Example (s0 s1 s2 : Nat) : Env :=
  { threeClusters with
    dec := { exDec with
      caches := fun _ _ _ _ k _ => sizes 262144 (if k = 0 then s0 else if k = 1 then s1 else s2) } }

/-- The L3 links of the processors, and sizes and ranges of the L3 caches. -/
private def l3View (pub : Published) : List (Option Nat) × List (Nat × Nat × Nat) :=
  (pub.processors.map (·.l3), pub.l3.map fun c => (c.size, c.processorStart, c.processorCount))

/-- Non-vacuity of the L3 theorems: one L3 cache for all, and one per cluster. -/
example :
    shown (l3Example 4096 4096 4096) l3View = some ([some 0, some 0, some 0], [(4096, 0, 3)]) ∧
    shown (l3Example 4096 8192 8192) l3View =
      some ([some 0, some 1, some 2], [(4096, 0, 1), (8192, 1, 1), (8192, 2, 1)]) ∧
    shown (l3Example 4096 8192 0) l3View = some ([some 0, some 1, none], [(4096, 0, 1), (8192, 1, 1)]) :=
  ⟨by decide +kernel, by decide +kernel, by decide +kernel⟩

/-- **C88 is violated.** With sizes like 4 KB, 4 KB, 8 KB, two L3 caches are allocated for three
clusters; the third cluster gets none, though its cores have one. -/
theorem C88_violated :
    ∃ (e : Env) (pub : Published), SortsProcessors e.config.arch e.sort ∧ AllListed e ∧
      OneVersion e ∧ AllDescribed e ∧ linuxInit e = some (some pub) ∧
      ∃ p o, pub.processors[2]? = some p ∧ pub.cores[p.core]? = some o ∧
        (∀ cores chipset v, (e.dec.caches o.uarch cores o.midr chipset p.cluster v).l3.size = 8192) ∧
        p.l3 = none ∧ ∀ x ∈ pub.l3, x.size = 4096 := by
  have h : shown (l3Example 4096 4096 8192) (fun pub =>
      (pub.processors.map fun p => (p.core, p.cluster, p.l3), pub.cores.length, pub.l3.map (·.size))) =
      some ([(0, 0, some 0), (1, 1, some 1), (2, 2, none)], 3, [4096, 4096]) := by decide +kernel
  obtain ⟨pub, hp, hu⟩ := of_shown h
  have h1 : (pub.processors.map fun p => (p.core, p.cluster, p.l3)) = _ := congrArg Prod.fst hu
  have h2 : pub.cores.length = 3 := congrArg (·.2.1) hu
  have h3 : pub.l3.map (·.size) = [4096, 4096] := congrArg (·.2.2) hu
  obtain ⟨p, hp2, hl⟩ : ∃ p, pub.processors[2]? = some p ∧ (p.core, p.cluster, p.l3) = (2, 2, none) := by
    have := congrArg (fun l => l[2]?) h1
    simp only [List.getElem?_map] at this
    exact Option.map_eq_some_iff.mp this
  have c1 : p.core = 2 := congrArg Prod.fst hl
  have c2 : p.cluster = 2 := congrArg (·.2.1) hl
  refine ⟨l3Example 4096 4096 8192, pub, armSort_sorts _, allListed_of (by decide +kernel),
    oneVersion_of 8 (by decide +kernel), allDescribed_of (by decide +kernel), hp, p,
    pub.cores[2]'(by omega), hp2, by rw [c1]; exact List.getElem?_eq_getElem _, ?_,
    congrArg (·.2.2) hl, ?_⟩
  · intro cores chipset v
    rw [c2]
    rfl
  · intro x hx
    have : x.size ∈ pub.l3.map (·.size) := List.mem_map_of_mem hx
    rw [h3] at this
    simpa using this

/-- Kernel lists without a common processor. -/
private def nobodyExample : Env :=
  { armExample with
    presentMax := file b!"2\n", present := file b!"2\n"
    possibleMax := file b!"0-1\n", possible := file b!"0-1\n" }

/-- **C89 is violated (no processor).** When no processor is both possible and present, detection
does not fail: it uses the first element of an empty table. -/
theorem C89_violated_no_processor :
    ∃ (e : Env) (t : List Proc) (hw rev : Bytes), SortsProcessors e.config.arch e.sort ∧
      AllListed e ∧ OneVersion e ∧ (∀ i, e.alloc i = true) ∧ Reads e t hw rev ∧
      (∀ p ∈ t, ¬ Usable p) ∧ linuxInit e = none := by
  have h : (gather nobodyExample).map (fun r => r.map fun x => x.1.map (·.flags)) =
      some (some [0x3F0002, 0x3F0002]) := by decide +kernel
  obtain ⟨r, hr, hx⟩ := Option.map_eq_some_iff.mp h
  obtain ⟨⟨t, hw, rev⟩, rfl, ht⟩ := Option.map_eq_some_iff.mp hx
  refine ⟨nobodyExample, t, hw, rev, armSort_sorts _, allListed_of (by decide +kernel),
    oneVersion_of 8 (by decide +kernel), fun _ => rfl, hr, ?_, by decide +kernel⟩
  intro p hp hu
  have : p.flags ∈ t.map (·.flags) := List.mem_map_of_mem hp
  have hx : t.map (·.flags) = _ := ht
  rw [hx] at this
  have : p.flags = 0x3F0002 := by simpa using this
  unfold Usable at hu
  rw [this] at hu
  revert hu
  decide

/-- A /proc/cpuinfo of older kernels: processor numbers first, one description at the end. -/
private def oldExample : Env :=
  { armExample with
    config := ⟨.arm, false⟩, sort := armSort .arm
    possibleMax := file b!"0-1\n", presentMax := file b!"0-1\n"
    possible := file b!"0-1\n", present := file b!"0-1\n"
    cpuinfo := file (b!"processor\t: 0\n\nprocessor\t: 1\n\nCPU implementer\t: 0x99\n" ++
      b!"CPU architecture: 7\nCPU variant\t: 0x0\nCPU part\t: 0x123\nCPU revision\t: 4\n")
    packageId := fun _ => noFile, maxFrequency := fun _ => noFile
    dec := { exDec with
      caches := fun _ cores _ _ _ v => if v ≥ 7 then sizes (cores * 131072) 0 else sizes 0 0 } }

/-- **C89 is violated (versions).** The cache decoder assumes an L2 cache for unknown cores from ARMv7
on (src/arm/cache.c:1628-1637).  Older kernels describe only the last processor; the leader of the
cluster then has no known version and no L2 cache, the second processor has one, and is linked to
element `UINT32_MAX` of the table of L2 caches. -/
theorem C89_violated_versions :
    ∃ (e : Env) (t : List Proc) (hw rev : Bytes) (p : Proc), SortsProcessors e.config.arch e.sort ∧
      AllListed e ∧ (∀ i, e.alloc i = true) ∧ Reads e t hw rev ∧ p ∈ t ∧ Usable p ∧
      linuxInit e = none := by
  have h : (gather oldExample).map (fun r => r.map fun x => x.1.map (·.flags)) =
      some (some [0x201003, 0x3F1003]) := by decide +kernel
  obtain ⟨r, hr, hx⟩ := Option.map_eq_some_iff.mp h
  obtain ⟨⟨t, hw, rev⟩, rfl, ht⟩ := Option.map_eq_some_iff.mp hx
  have hx : t.map (·.flags) = _ := ht
  obtain ⟨p, hp, hf⟩ : ∃ p, t[0]? = some p ∧ p.flags = 0x201003 := by
    have := congrArg (fun l : List Nat => l[0]?) hx
    simp only [List.getElem?_map] at this
    exact Option.map_eq_some_iff.mp this
  exact ⟨oldExample, t, hw, rev, p, armSort_sorts _, allListed_of (by decide +kernel), fun _ => rfl,
    hr, List.mem_of_getElem? hp, by unfold Usable; rw [hf]; decide, by decide +kernel⟩

/-- As `armExample`, on a kernel whose core_siblings_list holds all cores of the package. -/
private def packageExample : Env := { armExample with coreSiblings := fun _ => file b!"0-3\n" }

/-- **C91 is violated.** Where the sibling lists of the kernel cover all cores of a package, cores of
different types are put into one cluster, and all of them get the MIDR of the first one: the
Cortex-A73 (0xD09) of CPU 2 is published as Cortex-A53 (0xD03). -/
theorem C91_violated :
    ∃ (e : Env) (pub : Published) (t : List Proc) (hw rev : Bytes),
      SortsProcessors e.config.arch e.sort ∧ AllListed e ∧ AllDescribed e ∧ Reads e t hw rev ∧
      linuxInit e = some (some pub) ∧ ∃ p o q, pub.processors[2]? = some p ∧
        pub.cores[p.core]? = some o ∧ t[p.linuxId]? = some q ∧ q.midr = 0x410FD094 ∧
        o.midr = 0x410FD034 := by
  have h : shown packageExample (fun pub =>
      (pub.processors.map fun p => (p.core, p.linuxId), pub.cores.map (·.midr))) =
      some ([(0, 0), (1, 1), (2, 2), (3, 3)], [0x410FD034, 0x410FD034, 0x410FD034, 0x410FD034]) := by
    decide +kernel
  obtain ⟨pub, hp, hu⟩ := of_shown h
  obtain ⟨t, hw, rev, hg, -⟩ := linuxInit_unfold _ _ hp
  have ht : (gather packageExample).map (fun r => r.map fun x => x.1.map (·.midr)) =
      some (some [0x410FD034, 0x410FD034, 0x410FD094, 0x410FD094]) := by decide +kernel
  rw [hg] at ht
  have ht : t.map (·.midr) = [0x410FD034, 0x410FD034, 0x410FD094, 0x410FD094] :=
    Option.some.inj (Option.some.inj ht)
  have h1 : (pub.processors.map fun p => (p.core, p.linuxId)) = _ := congrArg Prod.fst hu
  have h2 : pub.cores.map (·.midr) = _ := congrArg Prod.snd hu
  obtain ⟨p, hp2, hl⟩ : ∃ p, pub.processors[2]? = some p ∧ (p.core, p.linuxId) = (2, 2) := by
    have := congrArg (fun l => l[2]?) h1
    simp only [List.getElem?_map] at this
    exact Option.map_eq_some_iff.mp this
  obtain ⟨o, ho, hom⟩ : ∃ o, pub.cores[2]? = some o ∧ o.midr = 0x410FD034 := by
    have := congrArg (fun l : List Nat => l[2]?) h2
    simp only [List.getElem?_map] at this
    exact Option.map_eq_some_iff.mp this
  obtain ⟨q, hq, hqm⟩ : ∃ q, t[2]? = some q ∧ q.midr = 0x410FD094 := by
    have := congrArg (fun l : List Nat => l[2]?) ht
    simp only [List.getElem?_map] at this
    exact Option.map_eq_some_iff.mp this
  have c1 : p.core = 2 := congrArg Prod.fst hl
  have c2 : p.linuxId = 2 := congrArg Prod.snd hl
  exact ⟨packageExample, pub, t, hw, rev, armSort_sorts _, allListed_of (by decide +kernel),
    allDescribed_of (by decide +kernel), hg, hp, p, o, q, hp2, by rw [c1]; exact ho,
    by rw [c2]; exact hq, hqm, hom⟩

end Verif.Props
