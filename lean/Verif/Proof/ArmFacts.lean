import Verif.Proof.ArmWhole

/-!
# Facts about the published ARM tables
-/

set_option autoImplicit false

namespace Verif.ArmInit
open Spec ArmMidr ArmCpuinfo ArmClusters ArmClusterMidr ArmChipset Runs
open X86Init (modify? bitmaskAll Cache zeroCache MapTab Tab computeMaxCacheSize)

theorem countListed_eq {t : List Proc} (h : ∀ p ∈ t, Usable p → Listed p) :
    countListed t = usableCount t := by
  unfold countListed usableCount
  congr 1
  apply List.filter_congr
  intro p hp
  have hv : valid p = p.flags.testBit 12 := by
    cases h1 : valid p with
    | true => exact ((valid_iff p).mp h1).symm
    | false =>
      cases h2 : p.flags.testBit 12 with
      | false => rfl
      | true => rw [(valid_iff p).mpr h2] at h1; cases h1
  rw [hv]
  cases h2 : p.flags.testBit 12 with
  | false => rfl
  | true =>
    have hb : has p validProcessor = p.flags.testBit 21 := has_pow p 21
    rw [hb, h p hp h2]
    rfl

theorem whole (e : Env) (hs : SortsProcessors e.config.arch e.sort) (hl : AllListed e) (pub : Published)
    (h : linuxInit e = some (some pub)) :
    ∃ t hw rev, Reads e t hw rev ∧ Nonempty (Whole e t hw rev pub) := by
  obtain ⟨t, hw, rev, hg, -⟩ := linuxInit_unfold e pub h
  exact ⟨t, hw, rev, hg, linuxInit_good e hs pub h t hw rev hg (countListed_eq (hl t hw rev hg))⟩

theorem st_of_new {nw : Nat → Bool} {k : Nat} (h : nw k = true) : st nw k = k := by
  cases k with
  | zero => rfl
  | succ k => exact st_succ_new h

theorem opened_of_new {nw : Nat → Bool} (h0 : nw 0 = true) {k : Nat} (h : nw k = true) :
    opened nw k = gi nw k := by
  rw [← idx_pos h, idx_gi nw h0]

namespace Whole
variable {e : Env} {t : List Proc} {hw rev : Bytes} {pub : Published} (W : Whole e t hw rev pub)

def x : Ctx := ctx W.sorted e.dec (e.dec.chipset hw rev (countListed t)) W.hlen W.h0
def S : List Proc := e.sort W.T
def N : Nat := usableCount W.T
def nw : Nat → Bool := newAt W.S

theorem g : Good W.x W.S pub := W.good

theorem nw0 : W.nw 0 = true := W.sorted.new_zero W.h0

theorem cl_eq (k : Nat) : W.x.cl k = gi W.nw k := idx_gi W.nw W.nw0 k

theorem processors_map : pub.processors.map bare = (List.range W.N).map fun k => bare (W.x.processorE k) :=
  W.good.processors

theorem processors_length : pub.processors.length = W.N := by
  have := congrArg List.length W.processors_map
  simpa using this

theorem processor_of {i : Nat} {p : Processor} (hp : pub.processors[i]? = some p) :
    i < W.N ∧ p.smtId = 0 ∧ p.core = i ∧ p.cluster = gi W.nw i ∧
      p.linuxId = (procAt W.S i).systemProcessorId ∧ p.l1i = i ∧ p.l1d = i := by
  have hi : i < W.N := by rw [← W.processors_length]; exact lt_of_get hp
  have := congrArg (fun l => l[i]?) W.processors_map
  simp only [List.getElem?_map, hp, List.getElem?_range hi, Option.map_some] at this
  have this := Option.some.inj this
  refine ⟨hi, congrArg (·.smtId) this, congrArg (·.core) this, ?_, congrArg (·.linuxId) this,
    congrArg (·.l1i) this, congrArg (·.l1d) this⟩
  have hc : p.cluster = W.x.cl i := congrArg (·.cluster) this
  rw [hc, W.cl_eq]

theorem processor_at {i : Nat} (hi : i < W.N) : ∃ p, pub.processors[i]? = some p :=
  ⟨_, List.getElem?_eq_getElem (by rw [W.processors_length]; exact hi)⟩

theorem core_at {k : Nat} (hk : k < W.N) : pub.cores[k]? = some (W.x.coreE k) := by
  have := W.g.cores.get k hk
  have hk : k < W.x.N := hk
  rw [if_pos hk] at this
  exact this

theorem cores_length : pub.cores.length = W.N := W.good.cores.length

theorem core_of {k : Nat} {c : Core} (hc : pub.cores[k]? = some c) : k < W.N ∧ c = W.x.coreE k := by
  have hk : k < W.N := by rw [← W.cores_length]; exact lt_of_get hc
  rw [W.core_at hk] at hc
  exact ⟨hk, (Option.some.inj hc).symm⟩

theorem st_lt {k : Nat} (hk : k < W.N) : st W.nw k < W.N := Nat.lt_of_le_of_lt (st_le _ k) hk

theorem cluster_at {k : Nat} (hk : k < W.N) : pub.clusters[gi W.nw k]? = some (W.x.clusterE (st W.nw k)) := by
  have hn : W.nw (st W.nw k) = true := (W.sorted.start_leader k hk).1
  have := W.g.clusters.done (st W.nw k) (W.st_lt hk) hn
  have e2 : opened W.x.nw (st W.nw k) = gi W.nw k := by
    rw [← gi_st W.nw k]
    exact opened_of_new W.nw0 hn
  rw [e2] at this
  exact this

theorem clusters_length : pub.clusters.length = gi W.nw (W.N - 1) + 1 := by
  rw [W.good.clusters.length]
  exact (W.sorted.clusters W.h0).symm

/-- What the cluster entry of position `k` says. -/
theorem cluster_entry {k : Nat} (hk : k < W.N) :
    W.x.clusterE (st W.nw k) =
      { processorStart := st W.nw k, processorCount := cnt W.nw (gi W.nw k) W.N,
        coreStart := st W.nw k, coreCount := cnt W.nw (gi W.nw k) W.N,
        clusterId := gi W.nw k, vendor := (procAt W.S k).vendor, uarch := (procAt W.S k).uarch,
        midr := (procAt W.S k).midr } := by
  have hk' := W.st_lt hk
  have e1 : (procAt W.S (st W.nw k)).packageProcessorCount = cnt W.nw (gi W.nw k) W.N := by
    have := W.sorted.run_size hk'
    rw [← gi_st W.nw k]
    exact this.symm
  have e2 : W.x.cl (st W.nw k) = gi W.nw k := by rw [W.cl_eq, gi_st]
  obtain ⟨g1, u1⟩ := W.sorted.get hk
  obtain ⟨g2, u2⟩ := W.sorted.get hk'
  have e3 := W.sorted.same_core g1 g2 u1 u2 ((W.sorted.run_iff hk hk').mp (gi_st W.nw k).symm)
  obtain ⟨e3, -, e4, e5⟩ := e3
  have e3 : (procAt W.S k).midr = (procAt W.S (st W.nw k)).midr := e3
  have e4 : (procAt W.S k).uarch = (procAt W.S (st W.nw k)).uarch := e4
  have e5 : (procAt W.S k).vendor = (procAt W.S (st W.nw k)).vendor := e5
  rw [e3, e4, e5, ← e1, ← e2]
  rfl

theorem cluster_of {g : Nat} {c : Cluster} (hc : pub.clusters[g]? = some c) :
    ∃ k, k < W.N ∧ gi W.nw k = g ∧ c =
      { processorStart := st W.nw k, processorCount := cnt W.nw (gi W.nw k) W.N,
        coreStart := st W.nw k, coreCount := cnt W.nw (gi W.nw k) W.N,
        clusterId := gi W.nw k, vendor := (procAt W.S k).vendor, uarch := (procAt W.S k).uarch,
        midr := (procAt W.S k).midr } := by
  have hg : g ≤ gi W.nw (W.N - 1) := by
    have := lt_of_get hc; rw [W.clusters_length] at this; omega
  have h0 : 0 < W.N := W.h0
  obtain ⟨k, hk, rfl⟩ := gi_surj W.nw (W.N - 1) g hg
  have hk : k < W.N := by omega
  rw [W.cluster_at hk, W.cluster_entry hk] at hc
  exact ⟨k, hk, rfl, (Option.some.inj hc).symm⟩

/-- The gathered record of position `k`. -/
theorem origin {k : Nat} (hk : k < W.N) :
    ∃ q, t[(procAt W.S k).systemProcessorId]? = some q ∧ SameBase q (procAt W.S k) ∧ Usable q := by
  obtain ⟨g1, u1⟩ := W.sorted.get hk
  have := W.sorted.at_id g1
  obtain ⟨q, hq, s⟩ := W.analysed.same.get this
  exact ⟨q, hq, s, s.usable.mp u1⟩

/-- Every usable processor has a position. -/
theorem position {n : Nat} {q : Proc} (hq : t[n]? = some q) (hu : Usable q) :
    ∃ k, k < W.N ∧ (procAt W.S k).systemProcessorId = n := by
  obtain ⟨q', hq', s⟩ := W.analysed.same.get' hq
  have hm : q' ∈ W.S := W.sorted.perm.symm.subset (List.mem_of_getElem? hq')
  obtain ⟨k, hk⟩ := List.getElem?_of_mem hm
  have hlt : k < W.N := (W.sorted.usable_prefix k q' hk).mp (s.usable.mpr hu)
  refine ⟨k, hlt, ?_⟩
  have := (W.sorted.get hlt).1
  have hk : (e.sort W.T)[k]? = some q' := hk
  rw [hk] at this
  have this := Option.some.inj this
  rw [show procAt W.S k = q' from this.symm]
  exact W.analysed.ready.id n q' hq'

/-- The caches decoded at position `i`. -/
theorem decoded_caches (hg : Reads e t hw rev) (hl : AllListed e) (i : Nat) (c : Caches)
    (hc : DecodedCaches e pub i c) : i < W.N ∧ c = W.x.c i := by
  obtain ⟨t', hw', rev', p, o, l, q, hg', hp, ho, hlk, hq, rfl⟩ := hc
  have hn : countListed t = W.N := by
    rw [countListed_eq (hl t hw rev hg)]; exact W.analysed.same.usableCount.symm
  have hpc : pub.processorsCount = W.N := W.g.processorsCount
  unfold Reads at hg hg'
  rw [hg] at hg'
  cases hg'
  obtain ⟨hi, -, h2, h3, h4, -⟩ := W.processor_of hp
  rw [h2] at ho
  rw [h3] at hlk
  obtain ⟨-, rfl⟩ := W.core_of ho
  rw [W.cluster_at hi, W.cluster_entry hi] at hlk
  cases hlk
  obtain ⟨q', hq', s, -⟩ := W.origin hi
  rw [← h4, hq] at hq'
  cases hq'
  refine ⟨hi, ?_⟩
  have e1 : (procAt W.S i).packageProcessorCount = cnt W.nw (gi W.nw i) W.N := (W.sorted.run_size hi).symm
  unfold Ctx.c cachesOf
  rw [h3, W.cl_eq i, hpc, ← e1, ← hn, ← s.version]
  rfl

theorem decoded_at (hg : Reads e t hw rev) (hl : AllListed e) {i : Nat} (hi : i < W.N) :
    DecodedCaches e pub i (W.x.c i) := by
  obtain ⟨p, hp⟩ := W.processor_at hi
  obtain ⟨-, -, h2, h3, h4, -⟩ := W.processor_of hp
  obtain ⟨q, hq, -⟩ := W.origin hi
  have hc : DecodedCaches e pub i _ := ⟨t, hw, rev, p, _, _, q, hg, hp, by rw [h2]; exact W.core_at hi,
    by rw [h3]; exact W.cluster_at hi, by rw [h4]; exact hq, rfl⟩
  rw [← (W.decoded_caches hg hl i _ hc).2]
  exact hc

theorem uniform (hg : Reads e t hw rev) (hv : OneVersion e) : W.x.Uniform := by
  refine uniform_of_version W.sorted e.dec _ W.hlen W.h0 ?_
  intro p hp q hq hpu hqu _
  obtain ⟨i, hi⟩ := List.getElem?_of_mem hp
  obtain ⟨j, hj⟩ := List.getElem?_of_mem hq
  obtain ⟨p', hp', s⟩ := W.analysed.same.get hi
  obtain ⟨q', hq', s'⟩ := W.analysed.same.get hj
  rw [s.version, s'.version]
  exact hv t hw rev hg p' (List.mem_of_getElem? hp') q' (List.mem_of_getElem? hq')
    (s.usable.mp hpu) (s'.usable.mp hqu)

theorem gc (hu : W.x.Uniform) : GoodCaches W.x pub := W.caches hu

theorem final_of (hu : W.x.Uniform) {i : Nat} {p : Processor} (hp : pub.processors[i]? = some p) :
    i < W.N ∧ p.l2 = W.x.link2 i ∧ p.l3 = W.x.link3 (W.x.counts W.x.N).l3 (W.x.counts W.x.N).shared i := by
  obtain ⟨hi, -⟩ := W.processor_of hp
  have := (W.gc hu).processors.get i hi
  have hi' : i < W.x.N := hi
  rw [hp, if_pos hi'] at this
  cases this
  exact ⟨hi, rfl, rfl⟩

/-- A cluster has one L2 cache unless the cores have their own: the index is the same. -/
theorem idx2_start (hu : W.x.Uniform) : ∀ {i : Nat}, i < W.N → (W.x.c i).l3.size = 0 →
    idx W.x.op2 (i + 1) = idx W.x.op2 (st W.nw i + 1)
  | 0, _, _ => rfl
  | i + 1, hi, h3 => by
    cases hn : W.nw (i + 1) with
    | true => rw [st_succ_new hn]
    | false =>
      have hu' := hu i hi hn
      rw [st_succ_old hn]
      have h3' : (W.x.c i).l3.size = 0 := by rw [← hu'.1]; exact h3
      rw [← idx2_start hu (Nat.lt_of_succ_lt hi) h3']
      refine idx_neg ?_
      have hn' : W.x.nw (i + 1) = false := hn
      simp [Ctx.op2, h3, hn']

/-- Processors of a cluster have the same decoded caches. -/
theorem same_caches (hg : Reads e t hw rev) (hv : OneVersion e) {i j : Nat} (hi : i < W.N) (hj : j < W.N)
    (he : gi W.nw i = gi W.nw j) : W.x.c i = W.x.c j := by
  obtain ⟨g1, u1⟩ := W.sorted.get hi
  obtain ⟨g2, u2⟩ := W.sorted.get hj
  have hlead := (W.sorted.run_iff hi hj).mp he
  obtain ⟨c1, -, c3, -⟩ := W.sorted.same_core g1 g2 u1 u2 hlead
  have e1 : (procAt W.S i).packageProcessorCount = cnt W.nw (gi W.nw i) W.N := (W.sorted.run_size hi).symm
  have e2 : (procAt W.S j).packageProcessorCount = cnt W.nw (gi W.nw j) W.N := (W.sorted.run_size hj).symm
  obtain ⟨q1, hq1, s1, v1⟩ := W.origin hi
  obtain ⟨q2, hq2, s2, v2⟩ := W.origin hj
  have hver := hv t hw rev hg q1 (List.mem_of_getElem? hq1) q2 (List.mem_of_getElem? hq2) v1 v2
  rw [← s1.version, ← s2.version] at hver
  rw [he, ← e2] at e1
  have ecl : W.x.cl i = W.x.cl j := by rw [W.cl_eq, W.cl_eq, he]
  unfold Ctx.c
  rw [ecl]
  unfold cachesOf
  have f1 : (W.x.P i).uarch = (W.x.P j).uarch := c3
  have f2 : (W.x.P i).midr = (W.x.P j).midr := c1
  have f3 : (W.x.P i).packageProcessorCount = (W.x.P j).packageProcessorCount := e1
  have f4 : (W.x.P i).architectureVersion = (W.x.P j).architectureVersion := hver
  rw [f1, f2, f3, f4]

theorem start_caches (hg : Reads e t hw rev) (hv : OneVersion e) {i : Nat} (hi : i < W.N) :
    W.x.c (st W.nw i) = W.x.c i := W.same_caches hg hv (W.st_lt hi) hi (gi_st _ _)

theorem start_new (i : Nat) (hi : i < W.N) : W.nw (st W.nw i) = true := (W.sorted.start_leader i hi).1

theorem idx3_start : ∀ {i : Nat}, i < W.N → W.x.op3 (st W.nw i) = true →
    idx W.x.op3 (i + 1) = opened W.x.op3 (st W.nw i)
  | 0, _, ho => idx_pos ho
  | i + 1, hi, ho => by
    cases hn : W.nw (i + 1) with
    | true =>
      rw [st_succ_new hn] at ho ⊢
      exact idx_pos ho
    | false =>
      rw [st_succ_old hn] at ho ⊢
      rw [← idx3_start (Nat.lt_of_succ_lt hi) ho]
      refine idx_neg ?_
      have hn' : W.x.nw (i + 1) = false := hn
      simp [Ctx.op3, hn']

/-- The L2 cache of a position: the entry opened by the position itself or the first of its cluster. -/
def home2 (i : Nat) : Nat := if (W.x.c i).l3.size ≠ 0 then i else st W.nw i

theorem home2_lt {i : Nat} (hi : i < W.N) : W.home2 i < W.N := by
  unfold home2
  split
  · exact hi
  · exact W.st_lt hi

theorem home2_open (hg : Reads e t hw rev) (hv : OneVersion e) {i : Nat} (hi : i < W.N) (h2 : W.x.has2 i) :
    W.x.op2 (W.home2 i) = true ∧ idx W.x.op2 (i + 1) = opened W.x.op2 (W.home2 i) := by
  have hu := W.uniform hg hv
  unfold home2
  by_cases h3 : (W.x.c i).l3.size ≠ 0
  · rw [if_pos h3]
    have ho : W.x.op2 i = true := by simp [Ctx.op2, h3]
    exact ⟨ho, idx_pos ho⟩
  · rw [if_neg h3]
    have h3 : (W.x.c i).l3.size = 0 := by simpa using h3
    have h2 : (W.x.c i).l2.size ≠ 0 := by
      rcases h2 with h | h
      · exact absurd h3 h
      · exact h
    have ho : W.x.op2 (st W.nw i) = true := by
      have hn : W.x.nw (st W.nw i) = true := W.start_new i hi
      unfold Ctx.op2
      rw [hn, W.start_caches hg hv hi]
      simp [h2]
    rw [W.idx2_start hu hi h3]
    exact ⟨ho, idx_pos ho⟩

theorem l2_at (hg : Reads e t hw rev) (hv : OneVersion e) {i : Nat} (hi : i < W.N) (h2 : W.x.has2 i) :
    pub.l2[idx W.x.op2 (i + 1)]? = some (W.x.e2 (W.home2 i)) := by
  obtain ⟨ho, he⟩ := W.home2_open hg hv hi h2
  rw [he]
  exact (W.gc (W.uniform hg hv)).l2.done _ (W.home2_lt hi) ho

/-- The range of the L2 entry opened at position `k`. -/
theorem e2_range (k : Nat) (hk : k < W.N) :
    (W.x.e2 k).processorStart = k ∧ (W.x.e2 k).processorCount =
      if (W.x.c k).l3.size ≠ 0 then 1 else cnt W.nw (gi W.nw k) W.N := by
  refine ⟨rfl, ?_⟩
  have e1 : (procAt W.S k).packageProcessorCount = cnt W.nw (gi W.nw k) W.N := (W.sorted.run_size hk).symm
  rw [← e1]
  rfl

/-- The L2 cache of position `i` is the one opened at `k` exactly if `i` is in its range. -/
theorem e2_iff (hg : Reads e t hw rev) (hv : OneVersion e) {k : Nat} (hk : k < W.N) (ho : W.x.op2 k = true)
    (i : Nat) : InRange (W.x.e2 k).processorStart (W.x.e2 k).processorCount i ↔
      i < W.N ∧ W.x.link2 i = some (opened W.x.op2 k) := by
  obtain ⟨r1, r2⟩ := W.e2_range k hk
  rw [r1, r2]
  unfold Ctx.link2
  by_cases h3 : (W.x.c k).l3.size ≠ 0
  · rw [if_pos h3]
    constructor
    · rintro ⟨h1, h2⟩
      have : i = k := by omega
      subst this
      have hh : W.x.has2 i := .inl h3
      rw [if_pos hh, idx_pos ho]
      exact ⟨hk, rfl⟩
    · rintro ⟨hi, he⟩
      by_cases hh : W.x.has2 i
      · rw [if_pos hh] at he
        obtain ⟨ho', e'⟩ := W.home2_open hg hv hi hh
        rw [e'] at he
        have := opened_inj ho' ho (Option.some.inj he)
        unfold home2 at this
        by_cases h3' : (W.x.c i).l3.size ≠ 0
        · rw [if_pos h3'] at this
          subst this
          exact ⟨Nat.le_refl _, Nat.lt_succ_self _⟩
        · rw [if_neg h3'] at this
          rw [← this, W.start_caches hg hv hi] at h3
          exact absurd h3 h3'
      · rw [if_neg hh] at he; cases he
  · rw [if_neg h3]
    have hn : W.nw k = true ∧ (W.x.c k).l2.size ≠ 0 := by
      simp only [Ctx.op2, Bool.or_eq_true, bne_iff_ne, Bool.and_eq_true] at ho
      rcases ho with ho | ho
      · exact absurd ho h3
      · exact ho
    have hst : st W.nw k = k := st_of_new hn.1
    have hrun := mem_run W.nw W.N k hk i
    rw [hst] at hrun
    rw [show InRange k _ i ↔ _ from hrun.symm]
    constructor
    · rintro ⟨hi, he⟩
      have hc := W.same_caches hg hv hi hk he
      have hh : W.x.has2 i := .inr (by rw [hc]; exact hn.2)
      refine ⟨hi, ?_⟩
      obtain ⟨-, e'⟩ := W.home2_open hg hv hi hh
      rw [if_pos hh, e']
      unfold home2
      rw [hc, if_neg h3, st_eq_of_gi W.nw i k he, hst]
    · rintro ⟨hi, he⟩
      refine ⟨hi, ?_⟩
      by_cases hh : W.x.has2 i
      · rw [if_pos hh] at he
        obtain ⟨ho', e'⟩ := W.home2_open hg hv hi hh
        rw [e'] at he
        have := opened_inj ho' ho (Option.some.inj he)
        unfold home2 at this
        by_cases h3' : (W.x.c i).l3.size ≠ 0
        · rw [if_pos h3'] at this
          subst this
          rfl
        · rw [if_neg h3'] at this
          rw [← this, gi_st]
      · rw [if_neg hh] at he; cases he

end Whole

end Verif.ArmInit
