import Verif.Proof.ArmUnlisted
import Verif.Proof.ArmRle

/-!
# What is published when some usable processors are not listed
-/

set_option autoImplicit false

namespace Verif.ArmInit
open Spec ArmMidr ArmCpuinfo ArmClusters ArmClusterMidr ArmChipset Runs
open X86Init (modify? bitmaskAll Cache zeroCache MapTab Tab computeMaxCacheSize)

theorem valid_bit (p : Proc) : valid p = p.flags.testBit 12 := by
  cases h1 : valid p with
  | true => exact ((valid_iff p).mp h1).symm
  | false =>
    cases h2 : p.flags.testBit 12 with
    | false => rfl
    | true => rw [(valid_iff p).mpr h2] at h1; cases h1

theorem countListed_listed (t : List Proc) : countListed t = listedCount t := by
  unfold countListed listedCount
  congr 1
  apply List.filter_congr
  intro p _
  rw [valid_bit]
  have : has p validProcessor = p.flags.testBit 21 := has_pow p 21
  rw [this]

/-- As many are listed as usable exactly if every usable one is listed. -/
theorem listed_all_iff (t : List Proc) :
    listedCount t = usableCount t ↔ ∀ p ∈ t, Usable p → Listed p := by
  constructor
  · intro h p hp hu
    have hsub : (t.filter fun p => p.flags.testBit 12 && p.flags.testBit 21).Sublist
        (t.filter fun p => p.flags.testBit 12) := by
      have : (t.filter fun p => p.flags.testBit 12 && p.flags.testBit 21) =
          (t.filter fun p => p.flags.testBit 12).filter fun p => p.flags.testBit 21 := by
        rw [List.filter_filter]
        congr 1
        funext p
        rw [Bool.and_comm]
      rw [this]
      exact List.filter_sublist
    have heq := hsub.eq_of_length h
    have hm : p ∈ t.filter fun p => p.flags.testBit 12 := List.mem_filter.mpr ⟨hp, hu⟩
    rw [← heq] at hm
    have := (List.mem_filter.mp hm).2
    rw [Bool.and_eq_true] at this
    exact this.2
  · intro h
    rw [← countListed_listed]
    exact countListed_eq h

namespace WholePrefix
variable {e : Env} {t : List Proc} {hw rev : Bytes} {pub : Published} (W : WholePrefix e t hw rev pub)

def x : Ctx := ctxN W.sorted e.dec (e.dec.chipset hw rev (countListed t)) W.hlen (countListed t) W.hle
def S : List Proc := e.sort W.T
/-- All usable processors. -/
def M : Nat := usableCount W.T
/-- The published ones. -/
def N : Nat := W.x.N
def nw : Nat → Bool := newAt W.S
def nu : Nat → Bool := un W.S

theorem g : GoodPrefix W.x W.S W.M pub := W.good

theorem N_pos : 0 < W.N := W.h0
theorem N_le : W.N ≤ W.M := W.hle
theorem M_pos : 0 < W.M := Nat.lt_of_lt_of_le W.N_pos W.N_le
theorem M_eq : W.M = usableCount t := W.same.usableCount
theorem N_eq : W.N = listedCount t := countListed_listed t

theorem nw0 : W.nw 0 = true := W.sorted.new_zero W.M_pos

theorem cl_eq (k : Nat) : W.x.cl k = gi W.nw k := idx_gi W.nw W.nw0 k

theorem processors_map : pub.processors.map bare = (List.range W.N).map fun k => bare (W.x.processorE k) :=
  W.good.processors

theorem processors_length : pub.processors.length = W.N := by
  have := congrArg List.length W.processors_map
  simpa using this

theorem processor_of {i : Nat} {p : Processor} (hp : pub.processors[i]? = some p) :
    i < W.N ∧ p.smtId = 0 ∧ p.core = i ∧ p.cluster = gi W.nw i ∧
      p.linuxId = (procAt W.S i).systemProcessorId ∧ p.l1i = i ∧ p.l1d = i := by
  have hi : i < W.N := by rw [← W.processors_length]; exact lt_of_get hp
  have := congrArg (fun l => l[i]?) W.processors_map
  simp only [List.getElem?_map, hp, List.getElem?_range hi, Option.map_some] at this
  have this := Option.some.inj this
  refine ⟨hi, congrArg (·.smtId) this, congrArg (·.core) this, ?_, congrArg (·.linuxId) this,
    congrArg (·.l1i) this, congrArg (·.l1d) this⟩
  have hc : p.cluster = W.x.cl i := congrArg (·.cluster) this
  rw [hc, W.cl_eq]

theorem processor_at {i : Nat} (hi : i < W.N) : ∃ p, pub.processors[i]? = some p :=
  ⟨_, List.getElem?_eq_getElem (by rw [W.processors_length]; exact hi)⟩

theorem core_at {k : Nat} (hk : k < W.N) : pub.cores[k]? = some (W.x.coreE k) := by
  have := W.g.cores.get k hk
  have hk : k < W.x.N := hk
  rw [if_pos hk] at this
  exact this

theorem lt_M {k : Nat} (hk : k < W.N) : k < W.M := Nat.lt_of_lt_of_le hk W.N_le

theorem st_lt {k : Nat} (hk : k < W.N) : st W.nw k < W.N := Nat.lt_of_le_of_lt (st_le _ k) hk

theorem cluster_at {k : Nat} (hk : k < W.N) : pub.clusters[gi W.nw k]? = some (W.x.clusterE (st W.nw k)) := by
  have hn : W.nw (st W.nw k) = true := (W.sorted.start_leader k (W.lt_M hk)).1
  have := W.g.clusters.done (st W.nw k) (W.st_lt hk) hn
  have e2 : opened W.x.nw (st W.nw k) = gi W.nw k := by
    rw [← gi_st W.nw k]
    exact opened_of_new W.nw0 hn
  rw [e2] at this
  exact this

theorem clusters_length : pub.clusters.length = gi W.nw (W.M - 1) + 1 := by
  rw [W.good.clusters.length]
  exact (W.sorted.clusters W.M_pos).symm

/-- The clusters after the last published processor's are left empty. -/
theorem cluster_rest {g : Nat} (h1 : gi W.nw (W.N - 1) < g) (h2 : g < pub.clusters.length) :
    pub.clusters[g]? = some zeroCluster := by
  refine W.good.clusters.rest g ?_ (by rw [← W.good.clusters.length]; exact h2)
  have := opened_gi W.nw W.nw0 (W.N - 1)
  rw [show W.N - 1 + 1 = W.N by have := W.N_pos; omega] at this
  exact Nat.le_trans (Nat.le_of_eq this) h1

theorem cluster_entry {k : Nat} (hk : k < W.N) :
    W.x.clusterE (st W.nw k) =
      { processorStart := st W.nw k, processorCount := cnt W.nw (gi W.nw k) W.M,
        coreStart := st W.nw k, coreCount := cnt W.nw (gi W.nw k) W.M,
        clusterId := gi W.nw k, vendor := (procAt W.S k).vendor, uarch := (procAt W.S k).uarch,
        midr := (procAt W.S k).midr } := by
  have hk' := W.lt_M (W.st_lt hk)
  have hk := W.lt_M hk
  have e1 : (procAt W.S (st W.nw k)).packageProcessorCount = cnt W.nw (gi W.nw k) W.M := by
    have := W.sorted.run_size hk'
    rw [← gi_st W.nw k]
    exact this.symm
  have e2 : W.x.cl (st W.nw k) = gi W.nw k := by rw [W.cl_eq, gi_st]
  obtain ⟨g1, u1⟩ := W.sorted.get hk
  obtain ⟨g2, u2⟩ := W.sorted.get hk'
  have e3 := W.sorted.same_core g1 g2 u1 u2 ((W.sorted.run_iff hk hk').mp (gi_st W.nw k).symm)
  obtain ⟨e3, -, e4, e5⟩ := e3
  have e3 : (procAt W.S k).midr = (procAt W.S (st W.nw k)).midr := e3
  have e4 : (procAt W.S k).uarch = (procAt W.S (st W.nw k)).uarch := e4
  have e5 : (procAt W.S k).vendor = (procAt W.S (st W.nw k)).vendor := e5
  rw [e3, e4, e5, ← e1, ← e2]
  rfl

theorem origin {k : Nat} (hk : k < W.M) :
    ∃ q, t[(procAt W.S k).systemProcessorId]? = some q ∧ SameBase q (procAt W.S k) ∧ Usable q := by
  obtain ⟨g1, u1⟩ := W.sorted.get hk
  have := W.sorted.at_id g1
  obtain ⟨q, hq, s⟩ := W.same.get this
  exact ⟨q, hq, s, s.usable.mp u1⟩

/-- Different positions have different processors. -/
theorem id_inj {i j : Nat} (hi : i < W.M) (hj : j < W.M)
    (he : (procAt W.S i).systemProcessorId = (procAt W.S j).systemProcessorId) : i = j :=
  W.sorted.distinct (W.sorted.get hi).1 (W.sorted.get hj).1 he

theorem position {n : Nat} {q : Proc} (hq : t[n]? = some q) (hu : Usable q) :
    ∃ k, k < W.M ∧ (procAt W.S k).systemProcessorId = n := by
  obtain ⟨q', hq', s⟩ := W.same.get' hq
  have hm : q' ∈ W.S := W.sorted.perm.symm.subset (List.mem_of_getElem? hq')
  obtain ⟨k, hk⟩ := List.getElem?_of_mem hm
  have hlt : k < W.M := (W.sorted.usable_prefix k q' hk).mp (s.usable.mpr hu)
  refine ⟨k, hlt, ?_⟩
  have := (W.sorted.get hlt).1
  have hk : (e.sort W.T)[k]? = some q' := hk
  rw [hk] at this
  have this := Option.some.inj this
  rw [show procAt W.S k = q' from this.symm]
  exact W.sorted.ready.id n q' hq'

include W in
theorem map_length : pub.processorMap.length = t.length := by
  rw [W.g.processorMap.length]
  show (e.sort W.T).length = _
  rw [W.sorted.perm.length_eq, W.same.1]

theorem uarchs_length : pub.uarchs.length = gi W.nu (W.M - 1) + 1 := by
  have h0 := W.M_pos
  have := W.g.uarchs.length
  have h1 := opened_new (uarchAt W.S) (W.M - 1)
  rw [show W.M - 1 + 1 = W.M from Nat.sub_add_cancel h0] at h1
  exact this.trans h1

theorem uarch_at {k : Nat} (hk : k < W.M) :
    pub.uarchs[gi W.nu k]? = some (uarchE (uarchAt W.S) (midrAt W.S) W.M k) :=
  W.g.uarchs.done k hk

theorem run_lengths : pub.uarchs.flatMap (fun u => List.replicate u.processorCount u.uarch) =
    (List.range W.M).map (uarchAt W.S) := by
  have h0 : 0 < W.M := W.M_pos
  rw [flatMap_range _ zeroUarch, W.uarchs_length]
  have e := flat_runs W.nu (fun g => (pub.uarchs[g]?.getD zeroUarch).uarch) (uarchAt W.S) (W.M - 1)
    fun k hk => by
      rw [W.uarch_at (by omega)]
      exact byKey_st (uarchAt W.S) k
  rw [show W.M - 1 + 1 = W.M by omega] at e
  rw [← e]
  unfold flat
  refine flatMap_eq _ _ _ fun g hg => ?_
  obtain ⟨k, hk, rfl⟩ := gi_surj W.nu (W.M - 1) g (by have := List.mem_range.mp hg; omega)
  dsimp only
  rw [W.uarch_at (by omega)]
  rfl

end WholePrefix

end Verif.ArmInit
