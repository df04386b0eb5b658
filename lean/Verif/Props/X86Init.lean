import Verif.Proof.X86Machine

/-!
# C17–C22, C34, C57, C58: what x86/Linux detection publishes

All theorems are about `linuxInit`, the whole of `cpuinfo_x86_linux_init` from the sysfs and
/proc/cpuinfo texts to the published tables, for arbitrary file contents, read schedules, CPUID
results and allocation outcomes.  `linuxInit e = some (some pub)` means: detection of `e` ended
without undefined behaviour and published `pub`.  `LowFields` (SMT field at bit 0, core field next
to it) is what `cpuinfo_x86_detect_topology` produces for the usual answers of CPUID, see
`C24_fields_partial` in Props/X86Cpuid.lean.
-/

set_option autoImplicit false

namespace Verif.Props
open Spec X86Init Runs
open X86Cpuinfo (LinuxProc)

section Tables
variable (e : Env) (hs : QSorts e.sort) (hlow : LowFields e.cpu.topology) (pub : Published)
  (h : linuxInit e = some (some pub))
include hs hlow h

/-- **C17.** There is at least one processor, and the processor ranges of the cores, of the
clusters and of the packages each partition the processors in order; the published counts are the
table lengths. -/
theorem C17_ranges_partition :
    0 < pub.processors.length ∧
    Consecutive 0 (pub.cores.map fun c => (c.processorStart, c.processorCount))
      pub.processors.length ∧
    Consecutive 0 (pub.clusters.map fun c => (c.processorStart, c.processorCount))
      pub.processors.length ∧
    Consecutive 0 (pub.packages.map fun c => (c.processorStart, c.processorCount))
      pub.processors.length ∧
    pub.processorsCount = pub.processors.length ∧ pub.coresCount = pub.cores.length ∧
    pub.clustersCount = pub.clusters.length ∧ pub.packagesCount = pub.packages.length := by
  obtain ⟨t, mask, I, c, -, -, -, -, g⟩ := linuxInit_good e hs hlow pub h
  rw [g.processors_length]
  exact ⟨g.hpos, g.cores.consecutive g.hpos _ fun _ => rfl,
    g.clusters.consecutive g.hpos _ fun _ => rfl, g.packages.consecutive g.hpos _ fun _ => rfl,
    g.processorsCount, by rw [g.coresCount, g.cores.length],
    by rw [g.clustersCount, g.clusters.length], by rw [g.packagesCount, g.packages.length]⟩

/-- **C17.** The cores partitioned by the packages' core ranges, and the clusters by the packages'
cluster ranges: each core (cluster) index is in the range of exactly its own package. -/
theorem C17_package_core_ranges (k : Nat) (q : Package) (hq : pub.packages[k]? = some q) :
    (∀ g, InRange q.coreStart q.coreCount g ↔ ∃ c, pub.cores[g]? = some c ∧ c.package = k) ∧
    (∀ g, InRange q.clusterStart q.clusterCount g ↔
      ∃ c, pub.clusters[g]? = some c ∧ c.package = k) := by
  obtain ⟨t, mask, I, c, -, -, -, -, g⟩ := linuxInit_good e hs hlow pub h
  obtain ⟨i, hi, rfl, rfl⟩ := g.packages.full g.hpos hq
  constructor
  · intro n
    constructor
    · intro hr
      have htk := sub_range_taken c.p_c c.N i hi n hr
      obtain ⟨j, hj, rfl, hj2⟩ := (sub_range c.p_c c.N i hi n htk).mp hr
      refine ⟨_, g.cores.done j hj, ?_⟩
      rw [← hj2]
      exact coarse_of_fine c.p_c _ _ (gi_st c.c j)
    · rintro ⟨y, hy, hyp⟩
      obtain ⟨j, hj, rfl, rfl⟩ := g.cores.full g.hpos hy
      refine (sub_range c.p_c c.N i hi _ ⟨j, hj, rfl⟩).mpr ⟨j, hj, rfl, ?_⟩
      rw [← hyp]
      exact (coarse_of_fine c.p_c _ _ (gi_st c.c j)).symm
  · intro n
    constructor
    · intro hr
      have htk := sub_range_taken c.p_l c.N i hi n hr
      obtain ⟨j, hj, rfl, hj2⟩ := (sub_range c.p_l c.N i hi n htk).mp hr
      refine ⟨_, g.clusters.done j hj, ?_⟩
      rw [← hj2]
      exact coarse_of_fine c.p_l _ _ (gi_st c.l j)
    · rintro ⟨y, hy, hyp⟩
      obtain ⟨j, hj, rfl, rfl⟩ := g.clusters.full g.hpos hy
      refine (sub_range c.p_l c.N i hi _ ⟨j, hj, rfl⟩).mpr ⟨j, hj, rfl, ?_⟩
      rw [← hyp]
      exact (coarse_of_fine c.p_l _ _ (gi_st c.l j)).symm

/-- **C18.** Two processors are linked to the same core (package, cluster) exactly when their APIC
ids agree on all bits above the SMT field (above SMT and core fields; above the smaller of that
and the last-level cache sharing bits). -/
theorem C18_sharing_iff_apic_agrees (llc : Nat) (hllc : LastLevelBits e.cpu llc) (i j : Nat)
    (p q : Processor) (hp : pub.processors[i]? = some p) (hq : pub.processors[j]? = some q) :
    (p.core = q.core ↔ AgreeFrom e.cpu.topology.threadLength p.apicId q.apicId) ∧
    (p.package = q.package ↔
      AgreeFrom (e.cpu.topology.threadLength + e.cpu.topology.coreLength) p.apicId q.apicId) ∧
    (p.cluster = q.cluster ↔
      AgreeFrom (min (e.cpu.topology.threadLength + e.cpu.topology.coreLength) llc)
        p.apicId q.apicId) := by
  obtain ⟨t, mask, I, c, -, -, -, -, g⟩ := linuxInit_good e hs hlow pub h
  obtain ⟨hi, rfl⟩ := g.processor_of hp
  obtain ⟨hj, rfl⟩ := g.processor_of hq
  rw [← lastLevel_eq hllc, ← g.kl, ← g.kp, ← g.kc]
  exact ⟨same_run c.N c.a c.ha c.mono _ _ c.hmc i j hi hj,
    same_run c.N c.a c.ha c.mono _ _ c.hmp i j hi hj,
    same_run c.N c.a c.ha c.mono _ _ c.hml i j hi hj⟩

/-- **C18.** Processors are published in the order of their APIC ids. -/
theorem C18_sorted_by_apic (i j : Nat) (hij : i ≤ j) (p q : Processor)
    (hp : pub.processors[i]? = some p) (hq : pub.processors[j]? = some q) :
    p.apicId ≤ q.apicId := by
  obtain ⟨t, mask, I, c, -, -, -, -, g⟩ := linuxInit_good e hs hlow pub h
  obtain ⟨hi, rfl⟩ := g.processor_of hp
  obtain ⟨hj, rfl⟩ := g.processor_of hq
  exact c.mono i j hij hj

/-- **C19.** The processor range of a core (cluster, package) holds exactly the processors linked
to it. -/
theorem C19_range_iff_link (k : Nat) :
    (∀ o, pub.cores[k]? = some o → ∀ i, InRange o.processorStart o.processorCount i ↔
      ∃ p, pub.processors[i]? = some p ∧ p.core = k) ∧
    (∀ o, pub.clusters[k]? = some o → ∀ i, InRange o.processorStart o.processorCount i ↔
      ∃ p, pub.processors[i]? = some p ∧ p.cluster = k) ∧
    (∀ o, pub.packages[k]? = some o → ∀ i, InRange o.processorStart o.processorCount i ↔
      ∃ p, pub.processors[i]? = some p ∧ p.package = k) := by
  obtain ⟨t, mask, I, c, -, -, -, -, g⟩ := linuxInit_good e hs hlow pub h
  refine ⟨?_, ?_, ?_⟩
  · intro o ho i
    obtain ⟨j, hj, rfl, rfl⟩ := g.cores.full g.hpos ho
    exact g.range_iff c.c (·.core) (fun _ => rfl) j hj i
  · intro o ho i
    obtain ⟨j, hj, rfl, rfl⟩ := g.clusters.full g.hpos ho
    exact g.range_iff c.l (·.cluster) (fun _ => rfl) j hj i
  · intro o ho i
    obtain ⟨j, hj, rfl, rfl⟩ := g.packages.full g.hpos ho
    exact g.range_iff c.p (·.package) (fun _ => rfl) j hj i

/-- **C19.** Every processor's links lead to existing entries, the id of the processor in its core
is its offset in the core's range, and its core is linked to the processor's own package. -/
theorem C19_links_resolve (i : Nat) (p : Processor) (hp : pub.processors[i]? = some p) :
    ∃ o l q, pub.cores[p.core]? = some o ∧ pub.clusters[p.cluster]? = some l ∧
      pub.packages[p.package]? = some q ∧ i = o.processorStart + p.smtId ∧
      o.package = p.package ∧ l.package = p.package := by
  obtain ⟨t, mask, I, c, -, -, -, -, g⟩ := linuxInit_good e hs hlow pub h
  obtain ⟨hi, rfl⟩ := g.processor_of hp
  refine ⟨_, _, _, g.cores.done i hi, g.clusters.done i hi, g.packages.done i hi, ?_, ?_, ?_⟩
  · have := st_le c.c i
    simp only [Ctx.coreE, Ctx.processorE]; omega
  · exact coarse_of_fine c.p_c _ _ (gi_st c.c i)
  · exact coarse_of_fine c.p_l _ _ (gi_st c.l i)

/-- **C19.** A core's (cluster's) processor range lies in its package's, and the id of a core
(cluster) is its offset in its package's range. -/
theorem C19_ids_in_package (k : Nat) :
    (∀ o, pub.cores[k]? = some o → ∃ q, pub.packages[o.package]? = some q ∧
      k = q.coreStart + o.coreId ∧
      ∀ i, InRange o.processorStart o.processorCount i →
        InRange q.processorStart q.processorCount i) ∧
    (∀ o, pub.clusters[k]? = some o → ∃ q, pub.packages[o.package]? = some q ∧
      k = q.clusterStart + o.clusterId ∧
      ∀ i, InRange o.processorStart o.processorCount i →
        InRange q.processorStart q.processorCount i) := by
  obtain ⟨t, mask, I, c, -, -, -, -, g⟩ := linuxInit_good e hs hlow pub h
  constructor
  · intro o ho
    obtain ⟨j, hj, rfl, rfl⟩ := g.cores.full g.hpos ho
    have hst : st c.c j < c.N := Nat.lt_of_le_of_lt (st_le c.c j) hj
    refine ⟨_, g.packages.done (st c.c j) hst, ?_, ?_⟩
    · have h1 := gi_mono c.c (st_le c.p (st c.c j))
      have h2 := gi_st c.c j
      simp only [Ctx.coreE, Ctx.packageE]; omega
    · intro i hr
      have h1 := (mem_run c.c c.N j hj i).mpr hr
      exact (mem_run c.p c.N _ hst i).mp
        ⟨h1.1, coarse_of_fine c.p_c _ _ (by rw [h1.2, gi_st])⟩
  · intro o ho
    obtain ⟨j, hj, rfl, rfl⟩ := g.clusters.full g.hpos ho
    have hst : st c.l j < c.N := Nat.lt_of_le_of_lt (st_le c.l j) hj
    refine ⟨_, g.packages.done (st c.l j) hst, ?_, ?_⟩
    · have h1 := gi_mono c.l (st_le c.p (st c.l j))
      have h2 := gi_st c.l j
      simp only [Ctx.clusterE, Ctx.packageE]; omega
    · intro i hr
      have h1 := (mem_run c.l c.N j hj i).mpr hr
      exact (mem_run c.p c.N _ hst i).mp
        ⟨h1.1, coarse_of_fine c.p_l _ _ (by rw [h1.2, gi_st])⟩

/-- **C19, cores and clusters.** When the last-level cache is shared by at least the threads of a
core, a cluster's core range holds exactly the cores linked to it, and a core's processor range
lies in its cluster's.  Missing for the full claim: a last-level cache with fewer sharing bits
than the SMT field, where it is false, see `C19_cluster_core_range_violated`. -/
theorem C19_cluster_core_range_partial (llc : Nat) (hllc : LastLevelBits e.cpu llc)
    (hshare : e.cpu.topology.threadLength ≤ llc) (k : Nat) (l : Cluster)
    (hl : pub.clusters[k]? = some l) :
    (∀ g, InRange l.coreStart l.coreCount g ↔ ∃ o, pub.cores[g]? = some o ∧ o.cluster = k) ∧
    (∀ (g : Nat) (o : Core), pub.cores[g]? = some o → o.cluster = k →
      ∀ i, InRange o.processorStart o.processorCount i →
        InRange l.processorStart l.processorCount i) := by
  obtain ⟨t, mask, I, c, -, -, -, -, g⟩ := linuxInit_good e hs hlow pub h
  have hkk : c.kc ≤ c.kl := by
    rw [g.kc, g.kl, lastLevel_eq hllc]; omega
  have l_c : ∀ i, c.l (i + 1) = true → c.c (i + 1) = true :=
    fun i => c.coarse _ _ _ _ hkk c.hmc c.hml i
  obtain ⟨i, hi, rfl, rfl⟩ := g.clusters.full g.hpos hl
  constructor
  · intro n
    constructor
    · intro hr
      have htk := sub_range_taken l_c c.N i hi n hr
      obtain ⟨j, hj, rfl, hj2⟩ := (sub_range l_c c.N i hi n htk).mp hr
      refine ⟨_, g.cores.done j hj, ?_⟩
      rw [← hj2]
      exact coarse_of_fine l_c _ _ (gi_st c.c j)
    · rintro ⟨y, hy, hyp⟩
      obtain ⟨j, hj, rfl, rfl⟩ := g.cores.full g.hpos hy
      refine (sub_range l_c c.N i hi _ ⟨j, hj, rfl⟩).mpr ⟨j, hj, rfl, ?_⟩
      rw [← hyp]
      exact (coarse_of_fine l_c _ _ (gi_st c.c j)).symm
  · intro n o ho hcl k hr
    obtain ⟨j, hj, rfl, rfl⟩ := g.cores.full g.hpos ho
    have h1 := (mem_run c.c c.N j hj k).mpr hr
    refine (mem_run c.l c.N i hi k).mp ⟨h1.1, ?_⟩
    rw [← hcl]
    exact coarse_of_fine l_c _ _ (by rw [h1.2, gi_st])

/-- **C20.** The Linux CPU number maps are inverse to the `linux_id` of the processors. -/
theorem C20_maps_inverse :
    pub.processorMap.length = pub.linuxCpuMax ∧ pub.coreMap.length = pub.linuxCpuMax ∧
    (∀ (j : Nat) (p : Processor), pub.processors[j]? = some p →
      pub.processorMap[p.linuxId]? = some (some j) ∧
      pub.coreMap[p.linuxId]? = some (some p.core)) ∧
    (∀ (n j : Nat), pub.processorMap[n]? = some (some j) →
      ∃ p, pub.processors[j]? = some p ∧ p.linuxId = n) ∧
    (∀ (n g : Nat), pub.coreMap[n]? = some (some g) →
      ∃ (j : Nat) (p : Processor), pub.processors[j]? = some p ∧ p.linuxId = n ∧ p.core = g) := by
  obtain ⟨t, mask, I, c, -, -, -, -, g⟩ := linuxInit_good e hs hlow pub h
  have back : ∀ (v : Nat → Nat) (tab : List (Option Nat)) (n y : Nat),
      MapTab c.lid c.maxLinux c.N v tab → tab[n]? = some (some y) →
      ∃ k < c.N, c.lid k = n ∧ v k = y := by
    intro v tab n y hm hy
    have hn : n < c.maxLinux := by
      rcases Nat.lt_or_ge n tab.length with h' | h'
      · rw [← hm.length]; exact h'
      · rw [List.getElem?_eq_none h'] at hy; cases hy
    by_cases hex : ∃ k < c.N, c.lid k = n
    · obtain ⟨k, hk, rfl⟩ := hex
      rw [hm.done k hk] at hy
      exact ⟨k, hk, rfl, by simpa using hy⟩
    · rw [hm.rest n hn (fun k hk hkn => hex ⟨k, hk, hkn⟩)] at hy
      cases hy
  refine ⟨by rw [g.processorMap.length, g.maxLinux, g.linuxCpuMax],
    by rw [g.coreMap.length, g.maxLinux, g.linuxCpuMax], ?_, ?_, ?_⟩
  · intro j p hp
    obtain ⟨hj, rfl⟩ := g.processor_of hp
    exact ⟨g.processorMap.done j hj, g.coreMap.done j hj⟩
  · intro n j hn
    obtain ⟨k, hk, rfl, rfl⟩ := back _ _ n j g.processorMap hn
    exact ⟨_, g.processor_get hk, rfl⟩
  · intro n y hn
    obtain ⟨k, hk, rfl, rfl⟩ := back _ _ n y g.coreMap hn
    exact ⟨k, _, g.processor_get hk, rfl, rfl⟩

/-- **C20.** A Linux CPU number is in the map exactly when the entry collected for it from sysfs
and /proc/cpuinfo has all the required flags (present/possible, or listed in /proc/cpuinfo); the
processor found has the APIC id collected for that number.  All other numbers map to null. -/
theorem C20_usable_iff_mapped (t : List LinuxProc) (mask : Nat)
    (hg : gather e = some (some (t, mask))) :
    pub.linuxCpuMax = t.length ∧
    ∀ (n : Nat) (q : LinuxProc), t[n]? = some q →
      (bitmaskAll q.flags mask = true → ∃ (j : Nat) (p : Processor), pub.processorMap[n]? = some (some j) ∧
        pub.processors[j]? = some p ∧ p.apicId = q.apicId) ∧
      (bitmaskAll q.flags mask = false → pub.processorMap[n]? = some none ∧
        pub.coreMap[n]? = some none) := by
  obtain ⟨t', mask', I, c, hg', hc, hI, hv, g⟩ := linuxInit_good e hs hlow pub h
  rw [hg] at hg'
  cases hg'
  obtain ⟨hperm, -⟩ := hs t
  have hlen : (I.v ++ I.w).length = t.length := by rw [hI, hperm.length_eq]
  refine ⟨by rw [g.linuxCpuMax, hlen], ?_⟩
  intro n q hq
  have hqt : q ∈ t := List.mem_of_getElem? hq
  have hn : n < t.length := (List.getElem?_eq_some_iff.mp hq).1
  constructor
  · intro hu
    rw [hc.valid q hqt] at hu
    have hqv : q ∈ I.v := by
      rw [hv, List.mem_filter]
      exact ⟨hperm.mem_iff.mpr hqt, hu⟩
    obtain ⟨k, hk⟩ := List.mem_iff_getElem?.mp hqv
    have hkN : k < c.N := by rw [g.hN]; exact (List.getElem?_eq_some_iff.mp hk).1
    have hlid : c.lid k = n := by
      rw [g.hlid, ← linuxAt_get hk]; exact hc.ids n q hq hu
    refine ⟨k, _, ?_, g.processor_get hkN, ?_⟩
    · rw [← hlid]; exact g.processorMap.done k hkN
    · simp only [Ctx.processorE]; rw [g.ha, ← apicAt_get hk]
  · intro hu
    rw [hc.valid q hqt] at hu
    have hno : ∀ k < c.N, c.lid k ≠ n := by
      intro k hk hkn
      obtain ⟨r, hr⟩ : ∃ r, I.v[k]? = some r := by
        rw [g.hN] at hk; exact ⟨_, List.getElem?_eq_getElem hk⟩
      have hrv : r ∈ I.v := List.mem_of_getElem? hr
      have hrt : r ∈ t := by
        rw [hv, List.mem_filter] at hrv
        exact hperm.mem_iff.mp hrv.1
      obtain ⟨m, hm⟩ := List.mem_iff_getElem?.mp hrt
      have h1 := hc.ids m r hm (I.hv r hrv)
      rw [g.hlid, ← linuxAt_get hr, h1] at hkn
      subst hkn
      rw [hq] at hm
      cases hm
      rw [I.hv q hrv] at hu
      cases hu
    exact ⟨g.processorMap.rest n (by rw [g.maxLinux, hlen]; exact hn) hno,
      g.coreMap.rest n (by rw [g.maxLinux, hlen]; exact hn) hno⟩

/-- **C21.** For each cache level with a non-zero size: the ranges of its caches partition the
processors, the count is the number of caches, every cache has the geometry CPUID gave, a cache's
range holds exactly the processors linked to it, and two processors share a cache exactly when
their APIC ids agree from the level's sharing bits upwards. -/
theorem C21_cache_sharing (d : CacheDesc) (lv : CacheLevel) (hlv : IsLevel e.cpu pub d lv)
    (hsize : d.size ≠ 0) :
    Consecutive 0 (lv.table.map fun c => (c.processorStart, c.processorCount))
      pub.processors.length ∧
    lv.count = lv.table.length ∧ lv.links.length = pub.processors.length ∧
    (∀ c ∈ lv.table, c.size = d.size ∧ c.associativity = d.associativity ∧ c.sets = d.sets ∧
      c.partitions = d.partitions ∧ c.lineSize = d.lineSize ∧ c.flags = d.flags) ∧
    (∀ i < pub.processors.length, ∃ g : Nat, lv.links[i]? = some (some g)) ∧
    (∀ (g : Nat) (c : Cache), lv.table[g]? = some c →
      ∀ i, InRange c.processorStart c.processorCount i ↔ lv.links[i]? = some (some g)) ∧
    (∀ (i j : Nat) (p q : Processor), pub.processors[i]? = some p → pub.processors[j]? = some q →
      (lv.links[i]? = lv.links[j]? ↔ AgreeFrom d.apicBits p.apicId q.apicId)) := by
  obtain ⟨t, mask, I, c, -, -, -, -, g⟩ := linuxInit_good e hs hlow pub h
  have hok : I.LevelOk d lv := by
    cases hlv
    · exact g.l1i
    · exact g.l1d
    · exact g.l2
    · exact g.l3
    · exact g.l4
  rw [g.processors_length]
  cases hok with
  | absent h0 => exact absurd h0 hsize
  | present x hN ha hd hc ht hl =>
    have hNN : x.N = c.N := by rw [hN, g.hN]
    have haa : x.a = c.a := by rw [ha, g.ha]
    have hpos : 0 < x.N := by rw [hNN]; exact g.hpos
    have link : ∀ i < x.N, lv.links[i]? = some (some (gi x.c i)) := by
      intro i hi
      have := hl.done i hi
      rwa [gi_true] at this
    rw [← hNN]
    refine ⟨ht.consecutive hpos _ fun _ => rfl, by rw [hc, ht.length], hl.length, ?_, ?_, ?_, ?_⟩
    · intro y hy
      obtain ⟨k, hk⟩ := List.mem_iff_getElem?.mp hy
      obtain ⟨j, hj, rfl, rfl⟩ := ht.full hpos hk
      simp [CacheCtx.cacheE, hd]
    · intro i hi
      exact ⟨_, link i hi⟩
    · intro k y hk i
      obtain ⟨j, hj, rfl, rfl⟩ := ht.full hpos hk
      have hm := mem_run x.c x.N j hj i
      constructor
      · intro hr
        obtain ⟨h1, h2⟩ := hm.mpr hr
        rw [link i h1, h2]
      · intro hr
        have hi : i < x.N := hl.lt hr
        rw [link i hi] at hr
        exact hm.mp ⟨hi, by simpa using hr⟩
    · intro i j p q hp hq
      obtain ⟨hi, rfl⟩ := g.processor_of hp
      obtain ⟨hj, rfl⟩ := g.processor_of hq
      rw [link i (by omega), link j (by omega)]
      have hb : IsHighMask d.apicBits x.km := by
        rw [x.hkm, ← hd]; exact not32_bitMask x.hb
      have := same_run c.N c.a c.ha c.mono _ _ hb i j hi hj
      simp only [Option.some.injEq, Ctx.processorE]
      rw [← this, CacheCtx.c, haa]

/-- **C21.** A level of size zero has no caches and no processor links to it. -/
theorem C21_absent_level (d : CacheDesc) (lv : CacheLevel) (hlv : IsLevel e.cpu pub d lv)
    (hsize : d.size = 0) :
    lv.count = 0 ∧ lv.table = [] ∧
      ∀ i < pub.processors.length, lv.links[i]? = some none := by
  obtain ⟨t, mask, I, c, -, -, -, -, g⟩ := linuxInit_good e hs hlow pub h
  have hok : I.LevelOk d lv := by
    cases hlv
    · exact g.l1i
    · exact g.l1d
    · exact g.l2
    · exact g.l3
    · exact g.l4
  cases hok with
  | absent h0 hc ht hl =>
    refine ⟨hc, ht, ?_⟩
    intro i hi
    rw [g.processors_length, g.hN] at hi
    rw [hl]; simp [hi]
  | present x hN ha hd =>
    exact absurd (by rw [hd]; exact hsize) x.hsize

/-- **C34.** The published maximum cache size is the size of the last-level data or unified
cache: L4 if there is one, else L3, else L2, else L1 data, else 0. -/
theorem C34_max_cache_size :
    (e.cpu.l4.size ≠ 0 → pub.maxCacheSize = e.cpu.l4.size) ∧
    (e.cpu.l4.size = 0 → e.cpu.l3.size ≠ 0 → pub.maxCacheSize = e.cpu.l3.size) ∧
    (e.cpu.l4.size = 0 → e.cpu.l3.size = 0 → e.cpu.l2.size ≠ 0 →
      pub.maxCacheSize = e.cpu.l2.size) ∧
    (e.cpu.l4.size = 0 → e.cpu.l3.size = 0 → e.cpu.l2.size = 0 →
      pub.maxCacheSize = e.cpu.l1d.size) := by
  obtain ⟨t, mask, I, c, -, -, -, -, g⟩ := linuxInit_good e hs hlow pub h
  rw [g.maxCacheSize]
  refine ⟨?_, ?_, ?_, ?_⟩
  · intro h4; simp [h4, computeMaxCacheSize]
  · intro h4 h3; simp [h4, h3, computeMaxCacheSize]
  · intro h4 h3 h2; simp [h4, h3, h2, computeMaxCacheSize]
  · intro h4 h3 h2
    by_cases h1 : e.cpu.l1d.size = 0 <;> simp [h4, h3, h2, h1, computeMaxCacheSize]

end Tables

/-- **C22, what holds.** If some usable processor has an APIC id other than 0xFFFFFFFF and all
bit fields are narrower than 32 bits, detection has no undefined behaviour, whatever the files
contain; and it succeeds if all allocations do.  Missing for the full C22: the other inputs, some
of which do fault, see `C22_violated` and `C57_violated`. -/
theorem C22_no_fault_partial (e : Env) (hs : QSorts e.sort) (hlow : LowFields e.cpu.topology)
    (hnarrow : NarrowFields e.cpu) (t : List LinuxProc) (mask : Nat)
    (hg : gather e = some (some (t, mask)))
    (husable : ∃ p ∈ t, bitmaskAll p.flags mask = true ∧ p.apicId ≠ U32MAX) :
    linuxInit e ≠ none ∧ ((∀ i, e.alloc i = true) → ∃ pub, linuxInit e = some (some pub)) := by
  obtain ⟨r', hg', hc⟩ := gather_total e
  rw [hg] at hg'
  have hc := hc t mask (Option.some.inj hg').symm
  obtain ⟨I, h1, h2, h3, h4⟩ := input_of_collected e.sort hs t mask hc
  obtain ⟨p, hp, hpu, hpa⟩ := husable
  have hpv : p ∈ I.v := by
    rw [h3, List.mem_filter]
    refine ⟨(hs t).1.mem_iff.mpr hp, ?_⟩
    rw [← hpu]; exact (hc.valid p hp).symm
  obtain ⟨k, hk⟩ := List.mem_iff_getElem?.mp hpv
  have hkl : k < I.v.length := (List.getElem?_eq_some_iff.mp hk).1
  have hpos : 0 < I.v.length := by omega
  have hpb := hc.apic p hp
  have h0 : apicAt I.v 0 ≠ U32MAX := by
    have := I.apic_mono 0 k (by omega) hkl
    rw [← apicAt_get hk] at this
    omega
  obtain ⟨n1, n2, n3, n4, n5, n6, n7⟩ := hnarrow
  have hb : BitsOk e.cpu := by
    refine ⟨hlow.1, hlow.2, n1, n2, ?_, fun _ => n3, fun _ => n4, fun _ => n5, fun _ => n6,
      fun _ => n7⟩
    have := lastLevel_llc e.cpu
    generalize llcApicBits e.cpu = b at this
    cases this <;> omega
  have hnc : NoCollision e.cpu (apicAt I.v 0) :=
    ⟨.inl h0, .inl h0, .inl h0, fun _ => .inl h0, fun _ => .inl h0, fun _ => .inl h0,
      fun _ => .inl h0, fun _ => .inl h0⟩
  obtain ⟨r, hr, hr1, -⟩ := build_good I e.cpu e.alloc hb hpos hnc
  have hl : linuxInit e = some r := by
    unfold linuxInit
    rw [hg, ← hr, h1, h2, h4]
    rfl
  rw [hl]
  refine ⟨by simp, fun ha => ?_⟩
  cases r with
  | none => exact absurd rfl (hr1 ha)
  | some pub => exact ⟨pub, rfl⟩

/-- **C22 (collecting).** Reading the files and filling the processor array never faults, for any
file contents and read behaviour. -/
theorem C22_collecting_never_faults (e : Env) : gather e ≠ none := by
  obtain ⟨r, h, -⟩ := gather_total e
  rw [h]; simp

theorem inj_of_nodup_map {α β : Type} {f : α → β} {l : List α} (h : (l.map f).Nodup) {x y : α}
    (hx : x ∈ l) (hy : y ∈ l) (hf : f x = f y) : x = y := by
  induction l with
  | nil => cases hx
  | cons z l ih =>
    rw [List.map_cons, List.nodup_cons] at h
    rcases List.mem_cons.mp hx with rfl | hx' <;> rcases List.mem_cons.mp hy with rfl | hy'
    · rfl
    · exact absurd (hf ▸ List.mem_map_of_mem hy') h.1
    · exact absurd (hf ▸ List.mem_map_of_mem hx') h.1
    · exact ih h.2 hx' hy'

/-- **C20, from the kernel files.** On every machine with well-formed kernel files, and for every
split of the reads, the published processors are exactly the usable ones: those the kernel
supports and lists as possible and present (or, without a list of present processors, those of
/proc/cpuinfo).  The APIC id is that of /proc/cpuinfo, or 0 for a processor without a block there
(see `C58_violated`). -/
theorem C20_published_are_the_usable (e : Env) (hs : QSorts e.sort)
    (hlow : LowFields e.cpu.topology) (pub : Published) (h : linuxInit e = some (some pub))
    (m : Machine) (hm : m.Ok 2048) (hd : m.Describes e) (n a : Nat) :
    (∃ (i : Nat) (p : Processor), pub.processors[i]? = some p ∧ p.linuxId = n ∧ p.apicId = a) ↔
      m.Usable n ∧ (m.ApicId n a ∨ (¬ m.Online n ∧ a = 0)) := by
  have ha : e.alloc 0 = true := by
    obtain ⟨t, mask, I, c, hg, -⟩ := linuxInit_good e hs hlow pub h
    cases h0 : e.alloc 0 with
    | true => rfl
    | false =>
      unfold gather at hg
      simp only [Option.bind_eq_bind, Option.bind_eq_some_iff, h0] at hg
      obtain ⟨_, _, _, _, _, _, hg⟩ := hg
      simp at hg
  obtain ⟨t, hg, h1, h2⟩ := gather_machine m hm e hd ha
  obtain ⟨hmax, hu⟩ := C20_usable_iff_mapped e hs hlow pub h t _ hg
  obtain ⟨l1, l2, m1, m2, m3⟩ := C20_maps_inverse e hs hlow pub h
  have uniq : ∀ a b, (m.ApicId n a ∨ (¬ m.Online n ∧ a = 0)) →
      (m.ApicId n b ∨ (¬ m.Online n ∧ b = 0)) → a = b := by
    rintro a b (⟨x, hx, hxn, rfl⟩ | ⟨h3, rfl⟩) (⟨y, hy, hyn, rfl⟩ | ⟨h4, rfl⟩)
    · have : x = y := inj_of_nodup_map hm.distinct hx hy (by rw [hxn, hyn])
      rw [this]
    · exact absurd ⟨x, hx, hxn⟩ h4
    · exact absurd ⟨y, hy, hyn⟩ h3
    · rfl
  constructor
  · rintro ⟨i, p, hp, rfl, rfl⟩
    have hmap := (m1 i p hp).1
    have hlt : p.linuxId < t.length := by
      rw [← hmax, ← l1]; exact (List.getElem?_eq_some_iff.mp hmap).1
    have hq := List.getElem?_eq_getElem hlt
    obtain ⟨u1, u2⟩ := hu _ _ hq
    obtain ⟨w1, w2⟩ := h1 _ _ hq
    cases hb : bitmaskAll (t[p.linuxId]).flags (machineMask m) with
    | false =>
      have := (u2 hb).1
      rw [hmap] at this; cases this
    | true =>
      obtain ⟨j, p', g1, g2, g3⟩ := u1 hb
      rw [hmap, Option.some.injEq, Option.some.injEq] at g1
      subst g1
      rw [hp, Option.some.injEq] at g2
      subst g2
      rw [g3]
      exact ⟨w1.mp hb, w2⟩
  · rintro ⟨hus, hap⟩
    obtain ⟨q, hq⟩ := h2 n hus
    obtain ⟨w1, w2⟩ := h1 n q hq
    obtain ⟨j, p, g1, g2, g3⟩ := (hu n q hq).1 (w1.mpr hus)
    obtain ⟨p', g4, g5⟩ := m2 n j g1
    rw [g2, Option.some.injEq] at g4
    subst g4
    exact ⟨j, p, g2, g5, by rw [g3]; exact uniq _ _ w2 hap⟩

/-- **C22, from the kernel files.** On a machine with well-formed kernel files on which some usable
processor is listed in /proc/cpuinfo with an APIC id other than 0xFFFFFFFF, detection publishes
tables if all allocations succeed. -/
theorem C22_succeeds_on_machine_partial (e : Env) (hs : QSorts e.sort)
    (hlow : LowFields e.cpu.topology) (hnarrow : NarrowFields e.cpu) (m : Machine)
    (hm : m.Ok 2048) (hd : m.Describes e) (halloc : ∀ i, e.alloc i = true) (n a : Nat)
    (hn : m.Usable n) (ha : m.ApicId n a) (hmax : a ≠ U32MAX) :
    ∃ pub, linuxInit e = some (some pub) := by
  obtain ⟨t, hg, h1, h2⟩ := gather_machine m hm e hd (halloc 0)
  obtain ⟨q, hq⟩ := h2 n hn
  obtain ⟨w1, w2⟩ := h1 n q hq
  obtain ⟨x, hx, hxn, rfl⟩ := ha
  have hqa : q.apicId = x.apic := by
    rcases w2 with ⟨y, hy, hyn, hya⟩ | ⟨h3, _⟩
    · have : x = y := inj_of_nodup_map hm.distinct hx hy (by rw [hxn, hyn])
      rw [this, hya]
    · exact absurd ⟨x, hx, hxn⟩ h3
  exact (C22_no_fault_partial e hs hlow hnarrow t _ hg
    ⟨q, List.mem_of_getElem? hq, w1.mpr hn, by rw [hqa]; exact hmax⟩).2 halloc

/-! ## Concrete runs -/

/-- A cache of the given size shared by `2^bits` APIC ids. -/
def exampleCache (size bits : Nat) : CacheDesc := ⟨size, 8, 64, 1, 64, 0, bits⟩

/-- Two packages with two cores of two threads; CPU 3 is not present. -/
def exampleEnv : Env :=
  { kernelMax := (some b!"7\n", fun _ => some 3)
    possibleMax := (some b!"0-7\n", fun _ => some 3), presentMax := (some b!"0-2,4-7\n", fun _ => some 3)
    possible := (some b!"0-7\n", fun _ => some 100), present := (some b!"0-2,4-7\n", fun _ => some 2)
    cpuinfo := (some b!"processor\t: 0\napicid\t\t: 0\n\nprocessor\t: 1\napicid\t\t: 2\n\nprocessor\t: 2\napicid\t\t: 4\n\nprocessor\t: 4\napicid\t\t: 1\n\nprocessor\t: 5\napicid\t\t: 3\n\nprocessor\t: 6\napicid\t\t: 5\n\nprocessor\t: 7\napicid\t\t: 7\n", fun _ => some 64)
    cpu :=
      { topology := ⟨0, 1, 1, 1⟩, l1i := exampleCache 32768 1, l1d := exampleCache 32768 1,
        l2 := exampleCache 262144 1, l3 := exampleCache 8388608 2, l4 := exampleCache 0 0 }
    sort := insertionSort, alloc := fun _ => true }

/-- A part of the published tables. -/
def published {β : Type} (e : Env) (f : Published → β) : Option β := ((linuxInit e).bind id).map f

/-- Non-vacuity of C17–C20: detection of `exampleEnv` publishes these tables. -/
example :
    published exampleEnv (·.processors) = some
      [⟨0, 0, 0, 0, 0, 0⟩, ⟨1, 0, 0, 0, 4, 1⟩, ⟨0, 1, 0, 0, 1, 2⟩, ⟨1, 1, 0, 0, 5, 3⟩,
       ⟨0, 2, 1, 1, 2, 4⟩, ⟨1, 2, 1, 1, 6, 5⟩, ⟨0, 3, 1, 1, 7, 7⟩] ∧
    published exampleEnv (·.cores) = some
      [⟨0, 2, 0, 0, 0⟩, ⟨2, 2, 1, 0, 0⟩, ⟨4, 2, 0, 1, 1⟩, ⟨6, 1, 1, 1, 1⟩] ∧
    published exampleEnv (·.clusters) = some [⟨0, 4, 0, 2, 0, 0⟩, ⟨4, 3, 2, 2, 0, 1⟩] ∧
    published exampleEnv (·.packages) = some [⟨0, 4, 0, 2, 0, 1⟩, ⟨4, 3, 2, 2, 1, 1⟩] ∧
    published exampleEnv (·.processorMap) =
      some [some 0, some 2, some 4, none, some 1, some 3, some 5, some 6] :=
  ⟨by decide +kernel, by decide +kernel, by decide +kernel, by decide +kernel, by decide +kernel⟩

/-- Non-vacuity of C21 and C34. -/
example :
    published exampleEnv (·.l2.links) =
      some [some 0, some 0, some 1, some 1, some 2, some 2, some 3] ∧
    published exampleEnv (·.l4.links) = some (List.replicate 7 none) ∧
    published exampleEnv (·.maxCacheSize) = some 8388608 :=
  ⟨by decide +kernel, by decide +kernel, by decide +kernel⟩

/-- The remaining hypotheses hold for `exampleEnv`. -/
example : QSorts exampleEnv.sort ∧ LowFields exampleEnv.cpu.topology ∧
    NarrowFields exampleEnv.cpu ∧ LastLevelBits exampleEnv.cpu 2 :=
  ⟨insertionSort_sorts, ⟨rfl, rfl⟩, by unfold NarrowFields; decide, .l3 rfl (by decide)⟩

/-- One processor with the broadcast APIC id, in a processor without SMT. -/
def sentinelEnv : Env :=
  { exampleEnv with
    presentMax := (some b!"0\n", fun _ => some 3), present := (some b!"0\n", fun _ => some 3)
    cpuinfo := (some b!"processor\t: 0\napicid\t\t: 4294967295\n", fun _ => some 64)
    cpu := { exampleEnv.cpu with topology := ⟨0, 0, 0, 0⟩ } }

/-- **C22 is violated.** There are inputs with a usable processor, in-range bit fields and working
`calloc` for which detection accesses a table outside its bounds: the all-ones APIC id is taken
for "no previous id", no core is counted, and the core index stays at `UINT32_MAX`. -/
theorem C22_violated :
    ∃ e : Env, QSorts e.sort ∧ LowFields e.cpu.topology ∧ NarrowFields e.cpu ∧
      (∀ i, e.alloc i = true) ∧
      (∃ t mask p, gather e = some (some (t, mask)) ∧ p ∈ t ∧ bitmaskAll p.flags mask = true) ∧
      linuxInit e = none :=
  ⟨sentinelEnv, insertionSort_sorts, ⟨rfl, rfl⟩, by unfold NarrowFields; decide, fun _ => rfl,
    ⟨[⟨4294967295, 0, 0x1883⟩], 3, ⟨4294967295, 0, 0x1883⟩, by decide +kernel, by simp,
      by decide⟩, by decide +kernel⟩

/-- A machine whose list of present processors contradicts the list of possible ones. -/
def unusableEnv : Env :=
  { exampleEnv with
    possibleMax := (some b!"0-1\n", fun _ => some 3), possible := (some b!"0-1\n", fun _ => some 3)
    presentMax := (some b!"2\n", fun _ => some 3), present := (some b!"2\n", fun _ => some 3) }

/-- **C57 is violated.** When the sysfs lists leave no usable processor, detection does not fail:
it reads the first element of an empty processor table. -/
theorem C57_violated :
    ∃ e : Env, QSorts e.sort ∧ LowFields e.cpu.topology ∧ NarrowFields e.cpu ∧
      (∀ i, e.alloc i = true) ∧
      (∃ t mask, gather e = some (some (t, mask)) ∧ ∀ p ∈ t, bitmaskAll p.flags mask = false) ∧
      linuxInit e = none :=
  ⟨unusableEnv, insertionSort_sorts, ⟨rfl, rfl⟩, by unfold NarrowFields; decide, fun _ => rfl,
    ⟨[⟨0, 0, 0x882⟩, ⟨2, 0, 0x882⟩], 3, by decide +kernel, by decide⟩, by decide +kernel⟩

/-- **C57, what holds.** Whenever detection publishes tables, there is a usable processor.
Missing for the full C57: that detection reports failure otherwise (false, see `C57_violated`). -/
theorem C57_published_means_usable_partial (e : Env) (hs : QSorts e.sort)
    (hlow : LowFields e.cpu.topology) (pub : Published) (h : linuxInit e = some (some pub)) :
    ∃ t mask p, gather e = some (some (t, mask)) ∧ p ∈ t ∧ bitmaskAll p.flags mask = true := by
  obtain ⟨t, mask, I, c, hg, hc, hI, hv, g⟩ := linuxInit_good e hs hlow pub h
  have hpos : 0 < I.v.length := by rw [← g.hN]; exact g.hpos
  obtain ⟨p, hm⟩ : ∃ p, p ∈ I.v := ⟨_, List.getElem_mem hpos⟩
  rw [hv, List.mem_filter] at hm
  have hmt : p ∈ t := (hs t).1.mem_iff.mp hm.1
  exact ⟨t, mask, _, hg, hmt, by rw [hc.valid _ hmt]; exact hm.2⟩

/-- The kernel files of `exampleEnv`. -/
def exampleMachine : Machine :=
  { kernelMax := 7, possible := some [(0, 7)], present := some [(0, 2), (4, 7)]
    blocks := [⟨0, [], 0, [[]]⟩, ⟨1, [], 2, [[]]⟩, ⟨2, [], 4, [[]]⟩, ⟨4, [], 1, [[]]⟩,
      ⟨5, [], 3, [[]]⟩, ⟨6, [], 5, [[]]⟩, ⟨7, [], 7, [[]]⟩]
    tail := [] }

theorem emptyOther : OtherLine [] := by
  intro key _ ws rest _ h
  have := congrArg List.length h
  simp at this

theorem exampleBlocks (bs : List ProcBlock)
    (h : ∀ b ∈ bs, b.number < U32 ∧ b.apic < U32 ∧ b.before = [] ∧ b.after = [[]]) :
    ∀ b ∈ bs, b.Ok := by
  intro b hb
  obtain ⟨h1, h2, h3, h4⟩ := h b hb
  refine ⟨h1, h2, by simp [h3], ?_⟩
  intro l hl
  rw [h4, List.mem_singleton] at hl
  subst hl; exact emptyOther

/-- Non-vacuity of the machine-level theorems: the kernel files of `exampleEnv`. -/
theorem exampleMachine_ok : exampleMachine.Ok 2048 ∧ exampleMachine.Describes exampleEnv := by
  refine ⟨⟨by decide, ?_, ?_, exampleBlocks _ (by decide), by simp [exampleMachine], by decide,
      by simp [Machine.lines, exampleMachine, ProcBlock.lines], ?_, ?_⟩,
    ⟨by simp +decide [exampleEnv, exampleMachine, printNat], ?_, ?_, ?_, ?_, ?_, ?_⟩⟩
  · intro rs h; cases h; exact ⟨by simp, by decide⟩
  · intro rs h; cases h; exact ⟨by simp, by decide⟩
  · simp +decide [Machine.lines, exampleMachine, ProcBlock.lines, processorLine, apicLine, printNat]
  · simp +decide [Machine.lines, exampleMachine, ProcBlock.lines, processorLine, apicLine, printNat]
  · simp +decide [exampleEnv, exampleMachine, printCpuList, joinComma, printRange, printNat]
  · simp +decide [exampleEnv, exampleMachine, printCpuList, joinComma, printRange, printNat]
  · simp +decide [exampleEnv, exampleMachine, printCpuList, joinComma, printRange, printNat]
  · simp +decide [exampleEnv, exampleMachine, printCpuList, joinComma, printRange, printNat]
  · simp +decide [exampleEnv, exampleMachine, Machine.lines, ProcBlock.lines, joinLines, processorLine, apicLine, printNat]
  · simp [exampleEnv, Sched.NoError]

/-- `exampleEnv` with CPU 3 present but offline. -/
def offlineEnv : Env :=
  { exampleEnv with
    presentMax := (some b!"0-7\n", fun _ => some 3), present := (some b!"0-7\n", fun _ => some 3) }

/-- The kernel files of `offlineEnv`. -/
def offlineMachine : Machine := { exampleMachine with present := some [(0, 7)] }

/-- **C58 is violated.** A present but offline processor, which /proc/cpuinfo does not list, is
published as if it had APIC id 0: on `offlineMachine`, CPU 3 is reported as a third thread of the
two-thread core of CPU 0. -/
theorem C58_violated :
    ∃ (m : Machine) (e : Env) (pub : Published), m.Ok 2048 ∧ m.Describes e ∧ QSorts e.sort ∧
      LowFields e.cpu.topology ∧ NarrowFields e.cpu ∧ linuxInit e = some (some pub) ∧
      ∃ (i j : Nat) (p q : Processor) (o : Core), pub.processors[i]? = some p ∧
        pub.processors[j]? = some q ∧
        m.Online p.linuxId ∧ ¬ m.Online q.linuxId ∧ p.core = q.core ∧
        pub.cores[p.core]? = some o ∧ o.processorCount > 2 ^ e.cpu.topology.threadLength := by
  obtain ⟨pub, hpub⟩ : ∃ pub, linuxInit offlineEnv = some (some pub) := by
    have : ((linuxInit offlineEnv).bind id).isSome = true := by decide +kernel
    obtain ⟨pub, h⟩ := Option.isSome_iff_exists.mp this
    cases hl : linuxInit offlineEnv with
    | none => rw [hl] at h; cases h
    | some r => rw [hl] at h; exact ⟨pub, congrArg some h⟩
  have h1 : (((linuxInit offlineEnv).bind id).bind fun p => p.processors[1]?) =
      some ⟨1, 0, 0, 0, 3, 0⟩ := by decide +kernel
  have h2 : (((linuxInit offlineEnv).bind id).bind fun p => p.processors[0]?) =
      some ⟨0, 0, 0, 0, 0, 0⟩ := by decide +kernel
  have h3 : (((linuxInit offlineEnv).bind id).bind fun p => p.cores[0]?) =
      some ⟨0, 3, 0, 0, 0⟩ := by decide +kernel
  rw [hpub] at h1 h2 h3
  obtain ⟨ok, ds⟩ := exampleMachine_ok
  refine ⟨offlineMachine, offlineEnv, pub, ⟨ok.kernelMax, ok.possible, ?_, ok.blocks, ok.tail,
      ok.distinct, ok.nonempty, ok.newline, ok.short⟩,
    ⟨ds.kernelMax, ds.possibleMax, ?_, ds.possible, ?_, ds.cpuinfo, ?_⟩, insertionSort_sorts,
    ⟨rfl, rfl⟩, by unfold NarrowFields; decide, hpub, 0, 1, _, _, _, h2, h1, ?_, ?_, rfl, h3,
    by decide⟩
  · intro rs h; cases h; exact ⟨by simp, by decide⟩
  · simp +decide [offlineEnv, offlineMachine, printCpuList, joinComma, printRange, printNat]
  · simp +decide [offlineEnv, offlineMachine, printCpuList, joinComma, printRange, printNat]
  · simp [offlineEnv, exampleEnv, Sched.NoError]
  · simp [Machine.Online, offlineMachine, exampleMachine]
  · simp [Machine.Online, offlineMachine, exampleMachine]

/-- **C58, what holds.** If every usable processor is online, every published processor has the
APIC id /proc/cpuinfo gives for it.  Missing for the full C58: offline processors (false, see
`C58_violated`). -/
theorem C58_apic_ids_from_files_partial (e : Env) (hs : QSorts e.sort)
    (hlow : LowFields e.cpu.topology) (pub : Published) (h : linuxInit e = some (some pub))
    (m : Machine) (hm : m.Ok 2048) (hd : m.Describes e) (hon : ∀ n, m.Usable n → m.Online n)
    (i : Nat) (p : Processor) (hp : pub.processors[i]? = some p) :
    m.ApicId p.linuxId p.apicId := by
  obtain ⟨h1, h2 | ⟨h2, _⟩⟩ := (C20_published_are_the_usable e hs hlow pub h m hm hd _ _).mp
    ⟨i, p, hp, rfl, rfl⟩
  · exact h2
  · exact absurd (hon _ h1) h2

/-- Two threads per core, but the only cache is private to a thread. -/
def threadCacheEnv : Env :=
  { exampleEnv with
    cpu := { exampleEnv.cpu with
      l1i := exampleCache 0 0, l1d := exampleCache 32768 0, l2 := exampleCache 0 0,
      l3 := exampleCache 0 0 } }

/-- **C19 is violated for clusters.** When the last-level cache has fewer sharing bits than the
SMT field, the second thread of a core gets a cluster without cores. -/
theorem C19_cluster_core_range_violated :
    ∃ e pub, QSorts e.sort ∧ LowFields e.cpu.topology ∧ NarrowFields e.cpu ∧
      linuxInit e = some (some pub) ∧ ∃ (k : Nat) (l : Cluster),
        pub.clusters[k]? = some l ∧ l.coreCount = 0 ∧
        ∃ (i : Nat) (p : Processor) (o : Core), pub.processors[i]? = some p ∧ p.cluster = k ∧
          pub.cores[p.core]? = some o ∧ o.cluster ≠ k := by
  obtain ⟨pub, hpub⟩ : ∃ pub, linuxInit threadCacheEnv = some (some pub) := by
    have : ((linuxInit threadCacheEnv).bind id).isSome = true := by decide +kernel
    obtain ⟨pub, h⟩ := Option.isSome_iff_exists.mp this
    cases hl : linuxInit threadCacheEnv with
    | none => rw [hl] at h; cases h
    | some r => rw [hl] at h; exact ⟨pub, congrArg some h⟩
  have h1 : (((linuxInit threadCacheEnv).bind id).bind fun p => p.clusters[1]?) =
      some ⟨1, 1, 0, 0, 1, 0⟩ := by decide +kernel
  have h2 : (((linuxInit threadCacheEnv).bind id).bind fun p => p.processors[1]?) =
      some ⟨1, 0, 1, 0, 4, 1⟩ := by decide +kernel
  have h3 : (((linuxInit threadCacheEnv).bind id).bind fun p => p.cores[0]?) =
      some ⟨0, 2, 0, 0, 0⟩ := by decide +kernel
  rw [hpub] at h1 h2 h3
  exact ⟨threadCacheEnv, pub, insertionSort_sorts, ⟨rfl, rfl⟩, by unfold NarrowFields; decide, hpub, 1, _, h1, rfl,
    1, _, _, h2, rfl, h3, by decide⟩

end Verif.Props
