import Verif.Model.Emscripten
import Verif.Proof.Fill
import Verif.Proof.Divides

/-!
# The tables of src/emscripten/init.c in closed form
-/

set_option autoImplicit false

namespace Verif.Emscripten
open X86Init (Package Cache)
open Platform
open ArmClusters (forRange forRange_total)

/-- How the counts hang together. -/
structure CountsOk (c : Counts) : Prop where
  total : c.cores * c.perCore = c.processors
  perCore : 0 < c.perCore
  cores : 0 < c.cores
  l2 : c.l2 = if c.isX86 then c.cores else c.clusters
  clusters : (c.clusters = 1 ∧ c.bigCores = c.cores) ∨
    (c.clusters = 2 ∧ 0 < c.bigCores ∧ c.bigCores < c.cores ∧ c.isX86 = false)
  arm : c.isX86 = false → c.perCore = 1

theorem countsOf_ok (isX86 : Bool) (n : Nat) (hpos : 0 < n) : CountsOk (countsOf isX86 n) := by
  unfold countsOf
  cases isX86 with
  | true =>
    by_cases h : n % 2 = 0
    · simp only [if_true, if_pos h]
      exact ⟨by dsimp only; omega, Nat.succ_pos _, by dsimp only; omega, rfl, .inl ⟨rfl, rfl⟩,
        fun h => by cases h⟩
    · simp only [if_true, if_neg h]
      exact ⟨by dsimp only; omega, Nat.succ_pos _, hpos, rfl, .inl ⟨rfl, rfl⟩, fun h => by cases h⟩
  | false =>
    by_cases h : n > 4
    · simp only [Bool.false_eq_true, if_false, if_pos h]
      refine ⟨by dsimp only; omega, Nat.succ_pos _, hpos, rfl, .inr ⟨rfl, ?_, ?_, rfl⟩, fun _ => rfl⟩ <;>
        dsimp only <;> split <;> omega
    · simp only [Bool.false_eq_true, if_false, if_neg h]
      exact ⟨by dsimp only; omega, Nat.succ_pos _, hpos, rfl, .inl ⟨rfl, rfl⟩, fun _ => rfl⟩

theorem processorCount_pos (logical : Int) : 0 < processorCount logical := by
  unfold processorCount
  split <;> omega

theorem counts_ok (isX86 : Bool) (logical : Int) : CountsOk (counts isX86 logical) :=
  countsOf_ok isX86 _ (processorCount_pos logical)

theorem div_mod (p i j : Nat) (hp : 0 < p) (hj : j < p) : (i * p + j) / p = i ∧ (i * p + j) % p = j := by
  constructor
  · rw [Nat.mul_comm, Nat.mul_add_div hp, Nat.div_eq_of_lt hj, Nat.add_zero]
  · rw [Nat.mul_comm, Nat.mul_add_mod, Nat.mod_eq_of_lt hj]

/-- Processor `k`. -/
def procOf (c : Counts) (k : Nat) : Processor := processorEntry c (k / c.perCore) (k % c.perCore)

/-- The state after `i` cores. -/
structure Built (c : Counts) (i : Nat) (s : State) : Prop where
  processors : Filled (procOf c) (List.replicate c.processors zeroProcessor) (i * c.perCore) s.processors
  cores : Filled (coreEntry c) (List.replicate c.processors zeroCore) i s.cores
  clusters : s.clusters = List.replicate c.clusters zeroCluster
  l1i : Filled (l1Entry c) (List.replicate c.cores zeroCache) i s.l1i
  l1d : Filled (l1Entry c) (List.replicate c.cores zeroCache) i s.l1d
  l2x : c.isX86 = true → Filled (fun i => smallL2 (i * c.perCore) c.perCore)
    (List.replicate c.l2 zeroCache) i s.l2
  l2a : c.isX86 = false → s.l2 = List.replicate c.l2 zeroCache

theorem coreStep_ok (c : Counts) (hc : CountsOk c) (i : Nat) (s : State) (hi : i < c.cores)
    (h : Built c i s) : ∃ s', coreStep c i s = some s' ∧ Built c (i + 1) s' := by
  have hle : (i + 1) * c.perCore ≤ c.processors := by
    rw [← hc.total]; exact Nat.mul_le_mul_right _ hi
  rw [Nat.succ_mul] at hle
  have hcp : c.cores ≤ c.processors := by
    rw [← hc.total]; exact Nat.le_mul_of_pos_right _ hc.perCore
  obtain ⟨t1, e1, f1⟩ := filled_loop (procOf c) (processorEntry c i) _ s.processors (i * c.perCore)
    c.perCore (fun j hj => by
      unfold procOf
      obtain ⟨h1, h2⟩ := div_mod c.perCore i j hc.perCore hj
      rw [h1, h2]) h.processors (by rw [List.length_replicate]; exact hle)
  rw [← Nat.succ_mul] at f1
  obtain ⟨t2, e2, f2⟩ := filled_put h.cores (by rw [List.length_replicate]; omega)
  obtain ⟨t3, e3, f3⟩ := filled_put h.l1i (by rw [List.length_replicate]; omega)
  obtain ⟨t4, e4, f4⟩ := filled_put h.l1d (by rw [List.length_replicate]; omega)
  unfold coreStep
  simp only [e1, e2, e3, e4, Option.bind_eq_bind, Option.bind_some, Option.pure_def]
  cases hx : c.isX86 with
  | true =>
    have hl2 := hc.l2
    rw [hx, if_pos rfl] at hl2
    obtain ⟨t5, e5, f5⟩ := filled_put (h.l2x hx) (by rw [List.length_replicate]; omega)
    simp only [if_true, e5, Option.bind_some]
    exact ⟨_, rfl, f1, f2, h.clusters, f3, f4, fun _ => f5, fun hf => by rw [hx] at hf; cases hf⟩
  | false =>
    simp only [Bool.false_eq_true, if_false]
    exact ⟨_, rfl, f1, f2, h.clusters, f3, f4, fun hf => by (rw [hx] at hf; cases hf), h.l2a⟩

/-- The big L2 cache. -/
def bigL2 (c : Counts) : Cache :=
  { size := 1024 * 1024, associativity := 8, sets := 2048, partitions := 1, lineSize := 64
    flags := 0, processorStart := 0, processorCount := c.bigCores }

/-- The finished tables. -/
structure Tables (c : Counts) (s : State) : Prop where
  processors : s.processors = (List.range c.processors).map (procOf c)
  cores : s.cores = (List.range c.cores).map (coreEntry c) ++
    List.replicate (c.processors - c.cores) zeroCore
  clusters : s.clusters =
    if c.isX86 then [⟨0, c.processors, 0, c.cores, 0, some 0⟩]
    else if c.clusters > 1 then [⟨0, c.bigCores, 0, c.bigCores, 0, some 0⟩,
      ⟨c.bigCores, c.processors - c.bigCores, c.bigCores, c.processors - c.bigCores, 1, some 0⟩]
    else [⟨0, c.bigCores, 0, c.bigCores, 0, some 0⟩]
  l1i : s.l1i = (List.range c.cores).map (l1Entry c)
  l1d : s.l1d = (List.range c.cores).map (l1Entry c)
  l2 : s.l2 =
    if c.isX86 then (List.range c.cores).map fun i => smallL2 (i * c.perCore) c.perCore
    else if c.clusters > 1 then [bigL2 c, smallL2 c.bigCores (c.processors - c.bigCores)]
    else [bigL2 c]

theorem filled_part {α : Type} {f : Nat → α} {x : α} {m n : Nat} {t : List α}
    (h : Filled f (List.replicate m x) n t) :
    t = (List.range n).map f ++ List.replicate (m - n) x := by
  obtain ⟨h1, h2, h3⟩ := h
  rw [List.length_replicate] at h1 h2
  refine List.ext_getElem? fun i => ?_
  rw [h3 i]
  by_cases hi : i < n
  · rw [if_pos hi, List.getElem?_append_left (by simpa using hi), List.getElem?_map,
      List.getElem?_range hi]
    rfl
  · rw [if_neg hi, List.getElem?_append_right (by simp; omega)]
    simp only [List.getElem?_replicate, List.length_map, List.length_range]
    by_cases hm : i < m
    · rw [if_pos hm, if_pos (by omega)]
    · rw [if_neg hm, if_neg (by omega)]

theorem tables_of_built (c : Counts) (hc : CountsOk c) (s : State) (h : Built c c.cores s) :
    ∃ s', clusterTables c s = some s' ∧ Tables c s' := by
  have hp := h.processors
  rw [hc.total] at hp
  have e1 := filled_full hp (by rw [List.length_replicate])
  have e2 := filled_part h.cores
  have e3 := filled_full h.l1i (by rw [List.length_replicate])
  have e4 := filled_full h.l1d (by rw [List.length_replicate])
  have hl2 := hc.l2
  unfold clusterTables
  cases hx : c.isX86 with
  | true =>
    rw [hx, if_pos rfl] at hl2
    have e5 := filled_full (h.l2x hx) (by rw [List.length_replicate, hl2])
    have hcl : c.clusters = 1 := by
      rcases hc.clusters with h | h
      · exact h.1
      · rw [hx] at h; exact absurd h.2.2.2 (by simp)
    have hput : put s.clusters 0 ⟨0, c.processors, 0, c.cores, 0, some 0⟩ =
        some [⟨0, c.processors, 0, c.cores, 0, some 0⟩] := by
      rw [h.clusters, hcl]; rfl
    simp only [if_true, hput, Option.bind_eq_bind, Option.bind_some, Option.pure_def]
    exact ⟨_, rfl, e1, e2, by rw [hx]; rfl, e3, e4, by rw [hx]; exact e5⟩
  | false =>
    rw [hx] at hl2
    have hl2 : c.l2 = c.clusters := hl2
    have e5 := h.l2a hx
    rw [hl2] at e5
    simp only [Bool.false_eq_true, if_false]
    rcases hc.clusters with ⟨hcl, -⟩ | ⟨hcl, -⟩
    · have hput : ∀ x : Cluster, put s.clusters 0 x = some [x] := by
        intro x; rw [h.clusters, hcl]; rfl
      have hput' : ∀ x : Cache, put s.l2 0 x = some [x] := by
        intro x; rw [e5, hcl]; rfl
      simp only [hput, hput', Option.bind_eq_bind, Option.bind_some, Option.pure_def, hcl,
        if_neg (by omega : ¬ 1 > 1)]
      exact ⟨_, rfl, e1, e2, by simp [hx, hcl], e3, e4, by simp [hx, hcl, bigL2]⟩
    · have hput : ∀ x y : Cluster, (put s.clusters 0 x).bind (fun t => put t 1 y) = some [x, y] := by
        intro x y; rw [h.clusters, hcl]; rfl
      have hput1 : ∀ x : Cluster, put s.clusters 0 x = some [x, zeroCluster] := by
        intro x; rw [h.clusters, hcl]; rfl
      have hput2 : ∀ x : Cache, put s.l2 0 x = some [x, zeroCache] := by
        intro x; rw [e5, hcl]; rfl
      have hput3 : ∀ {α : Type} (x y z : α), put [x, y] 1 z = some [x, z] := fun _ _ _ => rfl
      simp only [hput1, hput2, hput3, Option.bind_eq_bind, Option.bind_some, Option.pure_def, hcl,
        if_pos (by omega : 2 > 1)]
      exact ⟨_, rfl, e1, e2, by simp [hx, hcl], e3, e4, by simp [hx, hcl, bigL2]⟩

/-- Initialization in closed form. -/
theorem init_eq (isX86 : Bool) (logical : Int) (alloc : Nat → Bool) :
    (∃ i < 6, alloc i = false) ∧ init isX86 logical alloc = some [] ∨
    (∀ i < 6, alloc i = true) ∧ ∃ s, Tables (counts isX86 logical) s ∧
      init isX86 logical alloc = some (commit (counts isX86 logical) s) := by
  have hc := counts_ok isX86 logical
  unfold init
  generalize counts isX86 logical = c at hc
  simp only [Option.bind_eq_bind, Option.pure_def]
  by_cases ha : (List.range 6).all alloc = true
  · right
    rw [if_pos ha]
    have z : ∀ {α : Type} (f : Nat → α) (t : List α), Filled f t (0 * c.perCore) t := by
      intro α f t; rw [Nat.zero_mul]; exact filled_zero f t
    obtain ⟨s, e, hb⟩ := forRange_total (coreStep c) (Built c) c.cores
      (fun j s hj hs => coreStep_ok c hc j s hj hs) c.cores 0
      { processors := List.replicate c.processors zeroProcessor
        cores := List.replicate c.processors zeroCore
        clusters := List.replicate c.clusters zeroCluster
        l1i := List.replicate c.cores zeroCache
        l1d := List.replicate c.cores zeroCache
        l2 := List.replicate c.l2 zeroCache } (by omega)
      ⟨z _ _, filled_zero _ _, rfl, filled_zero _ _, filled_zero _ _, fun _ => filled_zero _ _,
        fun _ => rfl⟩
    obtain ⟨s', e', ht⟩ := tables_of_built c hc s hb
    rw [e, Option.bind_some, e', Option.bind_some]
    rw [List.all_eq_true] at ha
    exact ⟨fun i hi => ha i (List.mem_range.mpr hi), s', ht, rfl⟩
  · left
    rw [if_neg ha]
    refine ⟨?_, rfl⟩
    rw [List.all_eq_true] at ha
    simp only [List.mem_range] at ha
    have := Classical.not_forall.mp ha
    obtain ⟨i, hi⟩ := this
    obtain ⟨h1, h2⟩ := Classical.not_imp.mp hi
    exact ⟨i, h1, by simpa using h2⟩

open Spec

theorem processor_at {c : Counts} {s : State} (h : Tables c s) (i : Nat) (p : Processor)
    (hp : s.processors[i]? = some p) : i < c.processors ∧ p = procOf c i := by
  rw [h.processors, List.getElem?_map] at hp
  obtain ⟨k, hk, rfl⟩ := Option.map_eq_some_iff.mp hp
  obtain ⟨hlt, hk⟩ := List.getElem?_eq_some_iff.mp hk
  rw [List.getElem_range] at hk
  subst hk
  rw [List.length_range] at hlt
  exact ⟨hlt, rfl⟩

theorem take_cores {c : Counts} {s : State} (h : Tables c s) :
    s.cores.take c.cores = (List.range c.cores).map (coreEntry c) := by
  rw [h.cores, List.take_left' (by simp)]

theorem core_at {c : Counts} {s : State} (h : Tables c s) (i : Nat) (o : Core)
    (hp : (s.cores.take c.cores)[i]? = some o) : i < c.cores ∧ o = coreEntry c i := by
  rw [take_cores h, List.getElem?_map] at hp
  obtain ⟨k, hk, rfl⟩ := Option.map_eq_some_iff.mp hp
  obtain ⟨hlt, hk⟩ := List.getElem?_eq_some_iff.mp hk
  rw [List.getElem_range] at hk
  subst hk
  rw [List.length_range] at hlt
  exact ⟨hlt, rfl⟩

theorem processors_length {c : Counts} {s : State} (h : Tables c s) :
    s.processors.length = c.processors := by
  rw [h.processors, List.length_map, List.length_range]

theorem cores_length {c : Counts} {s : State} (h : Tables c s) :
    (s.cores.take c.cores).length = c.cores := by
  rw [take_cores h, List.length_map, List.length_range]

variable {c : Counts} {s : State}

theorem cores_le (hc : CountsOk c) : c.cores ≤ c.processors := by
  rw [← hc.total]; exact Nat.le_mul_of_pos_right _ hc.perCore

theorem divides_cores (hc : CountsOk c) (h : Tables c s) :
    Divides s.processors (s.cores.take c.cores) (·.core) (·.processorStart) (·.processorCount) := by
  rw [take_cores h]
  refine divides_uniform _ _ c.perCore _ _ _ _ hc.perCore ?_ (fun i _ => ⟨rfl, rfl⟩) ?_
  · rw [processors_length h, hc.total]
  · intro i p hp
    rw [(processor_at h i p hp).2]; rfl

theorem divides_l1i (hc : CountsOk c) (h : Tables c s) :
    Divides s.processors s.l1i (·.l1i) (·.processorStart) (·.processorCount) := by
  rw [h.l1i]
  refine divides_uniform _ _ c.perCore _ _ _ _ hc.perCore ?_ (fun i _ => ⟨rfl, rfl⟩) ?_
  · rw [processors_length h, hc.total]
  · intro i p hp
    rw [(processor_at h i p hp).2]; rfl

theorem divides_l1d (hc : CountsOk c) (h : Tables c s) :
    Divides s.processors s.l1d (·.l1d) (·.processorStart) (·.processorCount) := by
  rw [h.l1d]
  refine divides_uniform _ _ c.perCore _ _ _ _ hc.perCore ?_ (fun i _ => ⟨rfl, rfl⟩) ?_
  · rw [processors_length h, hc.total]
  · intro i p hp
    rw [(processor_at h i p hp).2]; rfl

/-- The cluster of a processor, on ARM. -/
theorem cluster_arm (hc : CountsOk c) (h : Tables c s) (hx : c.isX86 = false) (i : Nat)
    (p : Processor) (hp : s.processors[i]? = some p) :
    p.cluster = some (if i ≥ c.bigCores then 1 else 0) ∧
    p.l2 = some (if i ≥ c.bigCores then 1 else 0) := by
  rw [(processor_at h i p hp).2]
  unfold procOf processorEntry clusterOf
  rw [hc.arm hx, Nat.div_one, hx]
  exact ⟨rfl, rfl⟩

theorem cluster_small (hc : CountsOk c) (h : Tables c s) (hb : c.bigCores = c.cores) (i : Nat)
    (p : Processor) (hp : s.processors[i]? = some p) : p.cluster = some 0 := by
  obtain ⟨hi, rfl⟩ := processor_at h i p hp
  unfold procOf processorEntry clusterOf
  have : i / c.perCore < c.cores := by
    rw [Nat.div_lt_iff_lt_mul hc.perCore, hc.total]; exact hi
  rw [if_neg (by omega)]

theorem arm_total (hc : CountsOk c) (hx : c.isX86 = false) : c.cores = c.processors := by
  rw [← hc.total, hc.arm hx, Nat.mul_one]

theorem divides_clusters (hc : CountsOk c) (h : Tables c s) :
    Divides s.processors s.clusters (·.cluster) (·.processorStart) (·.processorCount) := by
  have hlen := processors_length h
  have hpos : 0 < s.processors.length := by
    rw [hlen]; exact Nat.lt_of_lt_of_le hc.cores (cores_le hc)
  rw [h.clusters]
  rcases hc.clusters with ⟨h1, h2⟩ | ⟨h1, h2, h3, hx⟩
  · have hl := cluster_small hc h h2
    cases hx : c.isX86 with
    | true =>
      rw [if_pos rfl]
      exact divides_one _ _ _ _ _ hpos rfl hlen.symm hl
    | false =>
      rw [if_neg (by simp), if_neg (by omega)]
      exact divides_one _ _ _ _ _ hpos rfl
        (by dsimp only; rw [hlen, h2, arm_total hc hx]) hl
  · rw [hx, if_neg (by simp), if_pos (by omega)]
    have := arm_total hc hx
    exact divides_two _ _ _ c.bigCores _ _ _ h2 (by omega) rfl rfl rfl (by dsimp only; rw [hlen])
      fun i p hp => (cluster_arm hc h hx i p hp).1

theorem divides_l2 (hc : CountsOk c) (h : Tables c s) :
    Divides s.processors s.l2 (·.l2) (·.processorStart) (·.processorCount) := by
  have hlen := processors_length h
  have hpos : 0 < s.processors.length := by
    rw [hlen]; exact Nat.lt_of_lt_of_le hc.cores (cores_le hc)
  rw [h.l2]
  cases hx : c.isX86 with
  | true =>
    rw [if_pos rfl]
    refine divides_uniform _ _ c.perCore _ _ _ _ hc.perCore ?_ (fun i _ => ⟨rfl, rfl⟩) ?_
    · rw [processors_length h, hc.total]
    · intro i p hp
      rw [(processor_at h i p hp).2]
      unfold procOf processorEntry
      rw [hx]; rfl
  | false =>
    have := arm_total hc hx
    have hl := fun i p hp => (cluster_arm hc h hx i p hp).2
    rw [if_neg (by simp)]
    rcases hc.clusters with ⟨h1, h2⟩ | ⟨h1, h2, h3, -⟩
    · rw [if_neg (by omega)]
      refine divides_one _ _ _ _ _ hpos rfl (by show c.bigCores = _; rw [hlen, h2, this]) ?_
      intro i p hp
      have := (processor_at h i p hp).1
      rw [hl i p hp, if_neg (by omega)]
    · rw [if_pos (by omega)]
      exact divides_two _ _ _ c.bigCores _ _ _ h2 (by omega) rfl rfl rfl
        (by show _ = _ - c.bigCores; rw [hlen]; rfl) hl

theorem divides_package (hc : CountsOk c) (h : Tables c s) :
    Divides s.processors [package c] (·.package) (·.processorStart) (·.processorCount) := by
  have hlen := processors_length h
  refine divides_one _ _ _ _ _ ?_ rfl hlen.symm ?_
  · rw [hlen]; exact Nat.lt_of_lt_of_le hc.cores (cores_le hc)
  · intro i p hp
    rw [(processor_at h i p hp).2]; rfl

theorem divides_l3 (hc : CountsOk c) (h : Tables c s) (hx : c.isX86 = true) :
    Divides s.processors [x86L3 c] (·.l3) (·.processorStart) (·.processorCount) := by
  have hlen := processors_length h
  refine divides_one _ _ _ _ _ ?_ rfl hlen.symm ?_
  · rw [hlen]; exact Nat.lt_of_lt_of_le hc.cores (cores_le hc)
  · intro i p hp
    rw [(processor_at h i p hp).2]
    unfold procOf processorEntry
    rw [hx]; rfl

theorem divides_core_clusters (hc : CountsOk c) (h : Tables c s) :
    Divides (s.cores.take c.cores) s.clusters (·.cluster) (·.coreStart) (·.coreCount) := by
  have hlen := cores_length h
  have hpos : 0 < (s.cores.take c.cores).length := by rw [hlen]; exact hc.cores
  rw [h.clusters]
  have hl : ∀ (i : Nat) o, (s.cores.take c.cores)[i]? = some o →
      o.cluster = some (if i ≥ c.bigCores then 1 else 0) := by
    intro i o ho
    rw [(core_at h i o ho).2]; rfl
  rcases hc.clusters with ⟨h1, h2⟩ | ⟨h1, h2, h3, hx⟩
  · have hl' : ∀ (i : Nat) o, (s.cores.take c.cores)[i]? = some o → o.cluster = some 0 := by
      intro i o ho
      have := (core_at h i o ho).1
      rw [hl i o ho, if_neg (by omega)]
    cases hx : c.isX86 with
    | true =>
      rw [if_pos rfl]
      exact divides_one _ _ _ _ _ hpos rfl hlen.symm hl'
    | false =>
      rw [if_neg (by simp), if_neg (by omega)]
      exact divides_one _ _ _ _ _ hpos rfl (by dsimp only; rw [hlen, h2]) hl'
  · rw [hx, if_neg (by simp), if_pos (by omega)]
    have := arm_total hc hx
    exact divides_two _ _ _ c.bigCores _ _ _ h2 (by omega) rfl rfl rfl
      (by dsimp only; rw [hlen, this]) hl

theorem divides_core_package (hc : CountsOk c) (h : Tables c s) :
    Divides (s.cores.take c.cores) [package c] (·.package) (·.coreStart) (·.coreCount) := by
  have hlen := cores_length h
  refine divides_one _ _ _ _ _ (by rw [hlen]; exact hc.cores) rfl hlen.symm ?_
  intro i p hp
  rw [(core_at h i p hp).2]; rfl

theorem clusters_length (hc : CountsOk c) (h : Tables c s) : s.clusters.length = c.clusters := by
  rw [h.clusters]
  rcases hc.clusters with ⟨h1, h2⟩ | ⟨h1, h2, h3, hx⟩
  · rw [h1]
    split <;> rfl
  · rw [hx, if_neg (by simp), if_pos (by omega), h1]; rfl

theorem l1i_length (h : Tables c s) : s.l1i.length = c.cores := by
  rw [h.l1i, List.length_map, List.length_range]

theorem l1d_length (h : Tables c s) : s.l1d.length = c.cores := by
  rw [h.l1d, List.length_map, List.length_range]

theorem l2_length (hc : CountsOk c) (h : Tables c s) : s.l2.length = c.l2 := by
  rw [h.l2, hc.l2]
  cases hx : c.isX86 with
  | true => simp
  | false =>
    simp only [Bool.false_eq_true, if_false]
    rcases hc.clusters with ⟨h1, -⟩ | ⟨h1, -⟩
    · rw [h1]; rfl
    · rw [h1]; rfl

theorem divides_cluster_package (hc : CountsOk c) (h : Tables c s) :
    Divides s.clusters [package c] (·.package) (·.clusterStart) (·.clusterCount) := by
  have hlen := clusters_length hc h
  refine divides_one _ _ _ _ _ ?_ rfl hlen.symm ?_
  · rw [hlen]; rcases hc.clusters with h | h <;> omega
  · intro i p hp
    have hm := List.mem_of_getElem? hp
    rw [h.clusters] at hm
    split at hm
    · rw [List.mem_singleton.mp hm]
    · split at hm
      · rcases List.mem_cons.mp hm with h | h
        · rw [h]
        · rw [List.mem_singleton.mp h]
      · rw [List.mem_singleton.mp hm]

theorem core_of_processor (hc : CountsOk c) (h : Tables c s) (i : Nat) (p : Processor) (o : Core)
    (hp : s.processors[i]? = some p) (ho : (p.core.bind fun k => s.cores[k]?) = some o) :
    o.cluster = p.cluster ∧ i = o.processorStart + p.smtId := by
  obtain ⟨hi, rfl⟩ := processor_at h i p hp
  have hk : i / c.perCore < c.cores := by
    rw [Nat.div_lt_iff_lt_mul hc.perCore, hc.total]; exact hi
  have ho : s.cores[i / c.perCore]? = some o := ho
  rw [← List.getElem?_take_of_lt hk] at ho
  rw [(core_at h _ o ho).2]
  refine ⟨rfl, ?_⟩
  show i = i / c.perCore * c.perCore + i % c.perCore
  rw [Nat.mul_comm]
  exact (Nat.div_add_mod i c.perCore).symm

end Verif.Emscripten
