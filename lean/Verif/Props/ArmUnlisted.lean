import Verif.Proof.ArmUnlistedFacts
import Verif.Props.ArmInit

/-!
# C157: ARM/Linux detection when /proc/cpuinfo does not list every usable processor

`AllListed` is not assumed here: these theorems hold for every run of `linuxInit` that publishes.
-/

set_option autoImplicit false

namespace Verif.Props
open Spec ArmMidr ArmCpuinfo ArmClusters ArmInit ArmChipset Runs
open X86Init (bitmaskAll Cache)

section Tables
variable (e : Env) (hs : SortsProcessors e.config.arch e.sort) (pub : Published)
  (h : linuxInit e = some (some pub)) (t : List Proc) (hw rev : Bytes) (hr : Reads e t hw rev)
include hs h hr

private theorem prefix_of : Nonempty (WholePrefix e t hw rev pub) := by
  obtain ⟨t', hw', rev', hg, W⟩ := linuxInit_prefix e hs pub h
  unfold Reads at hr
  rw [hr] at hg
  cases hg
  exact W

/-- **C157 (processors).** As many processors are published as are usable and listed in
/proc/cpuinfo, with as many cores and L1 caches; there is one at least.  Each is a usable processor,
none appears twice, and each has its own core and L1 caches. -/
theorem C157_processors :
    pub.processorsCount = listedCount t ∧ 0 < listedCount t ∧
    pub.processors.length = listedCount t ∧ pub.cores.length = listedCount t ∧
    pub.coresCount = listedCount t ∧
    pub.l1i.length = listedCount t ∧ pub.l1d.length = listedCount t ∧
    pub.packageProcessorCount = listedCount t ∧
    (∀ (i : Nat) (p : Processor), pub.processors[i]? = some p →
      (∃ q, t[p.linuxId]? = some q ∧ Usable q) ∧ p.core = i ∧ p.l1i = i ∧ p.l1d = i) ∧
    (∀ (i j : Nat) (p q : Processor), pub.processors[i]? = some p → pub.processors[j]? = some q →
      p.linuxId = q.linuxId → i = j) := by
  obtain ⟨W⟩ := prefix_of e hs pub h t hw rev hr
  rw [← W.N_eq]
  refine ⟨W.g.processorsCount, W.N_pos, W.processors_length, W.g.cores.length, W.g.coresCount,
    W.g.l1i.length, W.g.l1d.length, W.g.package.1, fun i p hp => ?_, fun i j p q hp hq he => ?_⟩
  · obtain ⟨hi, -, hc, -, hl, h1, h2⟩ := W.processor_of hp
    obtain ⟨q, hq, -, hu⟩ := W.origin (W.lt_M hi)
    exact ⟨⟨q, by rw [hl]; exact hq, hu⟩, hc, h1, h2⟩
  · obtain ⟨hi, -, -, -, hl, -⟩ := W.processor_of hp
    obtain ⟨hj, -, -, -, hl', -⟩ := W.processor_of hq
    exact W.id_inj (W.lt_M hi) (W.lt_M hj) (by rw [← hl, ← hl', he])

/-- **C157 (map).** The map from Linux numbers has an entry for every number up to the largest the
kernel tells of.  The entry of a published processor is its index, the entry of any other number is
null. -/
theorem C157_map :
    pub.processorMap.length = t.length ∧
    (∀ (n j : Nat), pub.processorMap[n]? = some (some j) ↔
      ∃ p, pub.processors[j]? = some p ∧ p.linuxId = n) ∧
    (∀ n, n < t.length → (¬ ∃ (j : Nat) (p : Processor), pub.processors[j]? = some p ∧ p.linuxId = n) →
      pub.processorMap[n]? = some none) := by
  obtain ⟨W⟩ := prefix_of e hs pub h t hw rev hr
  have hlen := W.map_length
  have none_of : ∀ n, n < t.length →
      (¬ ∃ (j : Nat) (p : Processor), pub.processors[j]? = some p ∧ p.linuxId = n) →
      pub.processorMap[n]? = some none := by
    intro n hn hno
    refine W.g.processorMap.rest n (by rw [← W.g.processorMap.length, hlen]; exact hn) fun k hk he => ?_
    obtain ⟨p, hp⟩ := W.processor_at (i := k) hk
    exact hno ⟨k, p, hp, (W.processor_of hp).2.2.2.2.1.trans he⟩
  have done : ∀ (j : Nat) (p : Processor), pub.processors[j]? = some p →
      pub.processorMap[p.linuxId]? = some (some j) := by
    intro j p hp
    obtain ⟨hj, -, -, -, hl, -⟩ := W.processor_of hp
    rw [hl]
    exact W.g.processorMap.done j hj
  refine ⟨hlen, fun n j => ⟨fun hm => ?_, ?_⟩, none_of⟩
  · have hn : n < t.length := by rw [← hlen]; exact lt_of_get hm
    refine Classical.byContradiction fun hno => ?_
    by_cases hex : ∃ (j : Nat) (p : Processor), pub.processors[j]? = some p ∧ p.linuxId = n
    · obtain ⟨k, p, hp, rfl⟩ := hex
      have := done k p hp
      rw [hm] at this
      cases this
      exact hno ⟨p, hp, rfl⟩
    · rw [none_of n hn hex] at hm
      cases hm
  · rintro ⟨p, hp, rfl⟩
    exact done j p hp

/-- **C157 (clusters).** The cluster of a published processor has the core's vendor,
microarchitecture and MIDR, and the published processors in its range are exactly those of the
cluster.  Its range is within the table of processors unless its last processor is in it. A cluster
no published processor belongs to has an all-zero entry. -/
theorem C157_clusters :
    pub.clustersCount = pub.clusters.length ∧
    (∀ (i : Nat) (p : Processor), pub.processors[i]? = some p → ∃ l o,
      pub.clusters[p.cluster]? = some l ∧ pub.cores[p.core]? = some o ∧ l.clusterId = p.cluster ∧
      l.vendor = o.vendor ∧ l.uarch = o.uarch ∧ l.midr = o.midr ∧
      l.coreStart = l.processorStart ∧ l.coreCount = l.processorCount ∧
      (∀ (j : Nat) (q : Processor), pub.processors[j]? = some q →
        (q.cluster = p.cluster ↔ InRange l.processorStart l.processorCount j)) ∧
      (∀ (j : Nat) (q : Processor), pub.processors[j]? = some q → i ≤ j → q.cluster ≠ p.cluster →
        l.processorStart + l.processorCount ≤ j)) ∧
    (∀ g, g < pub.clusters.length → (∀ p ∈ pub.processors, p.cluster ≠ g) →
      pub.clusters[g]? = some zeroCluster) := by
  obtain ⟨W⟩ := prefix_of e hs pub h t hw rev hr
  refine ⟨W.g.clustersCount.trans W.g.clusters.length.symm, fun i p hp => ?_, fun g hg hno => ?_⟩
  · obtain ⟨hi, -, hc, hcl, -⟩ := W.processor_of hp
    refine ⟨_, _, by rw [hcl]; exact W.cluster_at hi, by rw [hc]; exact W.core_at hi, ?_⟩
    rw [W.cluster_entry hi]
    have key : ∀ (j : Nat) (q : Processor), pub.processors[j]? = some q →
        (q.cluster = p.cluster ↔
          InRange (st W.nw i) (cnt W.nw (gi W.nw i) W.M) j) := by
      intro j q hq
      obtain ⟨hj, -, -, hcl', -⟩ := W.processor_of hq
      rw [hcl, hcl', show InRange (st W.nw i) (cnt W.nw (gi W.nw i) W.M) j ↔ _ from
        (mem_run W.nw W.M i (W.lt_M hi) j).symm]
      exact ⟨fun he => ⟨W.lt_M hj, he⟩, fun he => he.2⟩
    refine ⟨hcl.symm, rfl, rfl, rfl, rfl, rfl, key, fun j q hq hij hne => ?_⟩
    have hn := mt (key j q hq).mpr hne
    have hst := st_le W.nw i
    unfold InRange at hn
    show st W.nw i + cnt W.nw (gi W.nw i) W.M ≤ j
    omega
  · refine W.cluster_rest ?_ hg
    refine Nat.lt_of_not_le fun hle => ?_
    obtain ⟨k, hk, hgk⟩ := gi_surj W.nw (W.N - 1) g hle
    have hk : k < W.N := by have := W.N_pos; omega
    obtain ⟨p, hp⟩ := W.processor_at hk
    exact hno p (List.mem_of_getElem? hp) ((W.processor_of hp).2.2.2.1.trans hgk)

/-- **C157 (microarchitectures).** The list of microarchitectures counts all usable processors,
listed or not; with every entry repeated as often as it has processors, it begins with the
microarchitectures of the published cores. -/
theorem C157_uarchs :
    pub.uarchsCount = pub.uarchs.length ∧
    (pub.uarchs.flatMap fun u => List.replicate u.processorCount u.uarch).length = usableCount t ∧
    (pub.uarchs.flatMap fun u => List.replicate u.processorCount u.uarch).take pub.processorsCount =
      pub.cores.map (·.uarch) := by
  obtain ⟨W⟩ := prefix_of e hs pub h t hw rev hr
  refine ⟨W.g.uarchsCount.trans W.g.uarchs.length.symm, ?_, ?_⟩
  · rw [W.run_lengths, List.length_map, List.length_range, W.M_eq]
  · rw [W.run_lengths, show pub.processorsCount = W.N from W.g.processorsCount, ← List.map_take,
      List.take_range, Nat.min_eq_left W.N_le]
    apply List.ext_getElem?
    intro k
    rw [List.getElem?_map, List.getElem?_map]
    by_cases hk : k < W.N
    · rw [W.core_at hk, List.getElem?_range hk]
      rfl
    · rw [List.getElem?_eq_none (by simp; omega),
        List.getElem?_eq_none (by rw [W.g.cores.length]; exact Nat.le_of_not_lt hk)]
      rfl

/-- **C157 (when all is right).** Every usable processor has an entry in the map exactly if
/proc/cpuinfo lists every usable processor; and exactly then the processors counted in the list of
microarchitectures are the published ones. -/
theorem C157_complete_iff :
    ((∀ (n : Nat) (q : Proc), t[n]? = some q → Usable q →
        ∃ j, pub.processorMap[n]? = some (some j)) ↔ ∀ p ∈ t, Usable p → Spec.Listed p) ∧
    ((pub.uarchs.flatMap fun u => List.replicate u.processorCount u.uarch) = pub.cores.map (·.uarch) ↔
      ∀ p ∈ t, Usable p → Spec.Listed p) := by
  obtain ⟨W⟩ := prefix_of e hs pub h t hw rev hr
  obtain ⟨-, hmap, -⟩ := C157_map e hs pub h t hw rev hr
  obtain ⟨-, hul, hut⟩ := C157_uarchs e hs pub h t hw rev hr
  have hpc : pub.processorsCount = W.N := W.g.processorsCount
  rw [← listed_all_iff, ← W.N_eq, ← W.M_eq]
  refine ⟨⟨fun hall => ?_, fun heq n q hq hu => ?_⟩, fun heq => ?_, fun heq => ?_⟩
  · refine Nat.le_antisymm W.N_le (Nat.le_of_not_lt fun hlt => ?_)
    obtain ⟨q, hq, -, hu⟩ := W.origin hlt
    obtain ⟨j, hj⟩ := hall _ q hq hu
    obtain ⟨p, hp, he⟩ := (hmap _ _).mp hj
    obtain ⟨hjN, -, -, -, hl, -⟩ := W.processor_of hp
    have := W.id_inj (W.lt_M hjN) hlt (by rw [← hl, he])
    omega
  · obtain ⟨k, hk, he⟩ := W.position hq hu
    obtain ⟨p, hp⟩ := W.processor_at (by rw [heq]; exact hk)
    exact ⟨k, (hmap n k).mpr ⟨p, hp, (W.processor_of hp).2.2.2.2.1.trans he⟩⟩
  · have := congrArg List.length heq
    rw [hul, List.length_map, W.g.cores.length, ← W.M_eq] at this
    exact this.symm
  · rw [← hut, hpc, heq, W.M_eq, ← hul, List.take_length]

/-- **C157 (kernel lists).** Only processors the kernel's lists call possible and present are
published. -/
theorem C157_published_usable (k : KernelLists) (hk : k.Ok) (hd : k.Describes e)
    (p : Processor) (hp : p ∈ pub.processors) : k.Usable p.linuxId := by
  obtain ⟨i, hi⟩ := List.getElem?_of_mem hp
  obtain ⟨-, -, -, -, -, -, -, -, hu, -⟩ := C157_processors e hs pub h t hw rev hr
  exact (gather_lists k hk e hd t hw rev hr p.linuxId).mp (hu i p hi).1

/-- **C92 (exact).** For well-formed kernel files, the published processors are exactly those the kernel
supports and has in its lists, if and only if /proc/cpuinfo lists all of these. -/
theorem C92_exact (k : KernelLists) (hk : k.Ok) (hd : k.Describes e) :
    (∀ n : Nat, (∃ (j : Nat) (p : Processor), pub.processors[j]? = some p ∧ p.linuxId = n) ↔ k.Usable n) ↔
      ∀ (n : Nat) (q : Proc), k.Usable n → t[n]? = some q → Spec.Listed q := by
  obtain ⟨hall, -⟩ := C157_complete_iff e hs pub h t hw rev hr
  obtain ⟨-, hmap, -⟩ := C157_map e hs pub h t hw rev hr
  have hu := fun n => gather_lists k hk e hd t hw rev hr n
  constructor
  · intro hex n q hn hq
    obtain ⟨q', hq', hus⟩ := (hu n).mpr hn
    rw [hq] at hq'
    cases hq'
    refine hall.mp (fun m r hm hr => ?_) q (List.mem_of_getElem? hq) hus
    obtain ⟨j, p, hp, hj⟩ := (hex m).mpr ((hu m).mp ⟨r, hm, hr⟩)
    exact ⟨j, (hmap m j).mpr ⟨p, hp, hj⟩⟩
  · intro hl n
    refine ⟨?_, fun hn => ?_⟩
    · rintro ⟨j, p, hp, rfl⟩
      exact C157_published_usable e hs pub h t hw rev hr k hk hd p (List.mem_of_getElem? hp)
    · obtain ⟨q, hq, hus⟩ := (hu n).mpr hn
      obtain ⟨j, hj⟩ := hall.mpr (fun r hm hr => by
        obtain ⟨m, hm⟩ := List.getElem?_of_mem hm
        exact hl m r ((hu m).mp ⟨r, hm, hr⟩) hm) n q hq hus
      obtain ⟨p, hp, he⟩ := (hmap n j).mp hj
      exact ⟨j, p, hp, he⟩

end Tables

/-! ## An example -/

/-- A block of /proc/cpuinfo. -/
private def block (n part : Bytes) : Bytes :=
  b!"processor\t: " ++ n ++ b!"\nCPU implementer\t: 0x41\nCPU architecture: 8\nCPU variant\t: 0x0\n" ++
  b!"CPU part\t: 0x" ++ part ++ b!"\nCPU revision\t: 4\n\n"

private def shown {β : Type} (e : Env) (f : Published → β) : Option β :=
  (linuxInit e).bind fun r => r.map f

/-- CPUs 0-3 as in `armExample`, but CPU 3, a big core, is offline. -/
private def offlineBig : Env :=
  { armExample with
    cpuinfo := (some (block b!"0" b!"d03" ++ block b!"1" b!"d03" ++ block b!"2" b!"d09"), fun _ => some 64) }

/-- Two big cores, one of them offline, are published and one of the two listed little ones, whose
cluster is said to have two processors. -/
example :
    shown offlineBig (fun p => p.processors.map (·.linuxId)) = some [2, 3, 0] ∧
    shown offlineBig (·.processorMap) = some [some 2, none, some 0, some 1] ∧
    shown offlineBig (fun p => p.clusters.map fun c => (c.processorStart, c.processorCount)) =
      some [(0, 2), (2, 2)] ∧
    shown offlineBig (fun p => p.uarchs.map (·.processorCount)) = some [2, 2] ∧
    (gather offlineBig).map (fun r => r.map fun x => (listedCount x.1, usableCount x.1)) =
      some (some (3, 4)) :=
  ⟨by decide +kernel, by decide +kernel, by decide +kernel, by decide +kernel, by decide +kernel⟩

end Verif.Props
