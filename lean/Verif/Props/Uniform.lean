import Verif.Proof.Uniform
import Verif.Spec.Described
import Verif.Props.Api

/-!
C51, C52, C95, C96: x86 on Mach and FreeBSD, where the tables are made by dividing numbers.
-/

set_option autoImplicit false

namespace Verif.Props
open Verif.Api Verif.Spec Verif.Platform
open Verif.Once (elem_some elem_fault)
open Verif.X86Init (X86Processor CacheDesc computeMaxCacheSize)
open Verif.Uniform (MachTopology machTopology machInit freebsdTopology freebsdInit Topo EvenBy BitsOk
  SharesOk ShareOk CachesOk evenTables commit Stores cacheTable)

theorem getElem?_map_range {α : Type} {f : Nat → α} {n i : Nat} {x : α}
    (h : ((List.range n).map f)[i]? = some x) : i < n ∧ x = f i := by
  rw [List.getElem?_map] at h
  obtain ⟨k, hk, rfl⟩ := Option.map_eq_some_iff.mp h
  obtain ⟨hlt, hk⟩ := List.getElem?_eq_some_iff.mp hk
  rw [List.getElem_range] at hk
  subst hk
  rw [List.length_range] at hlt
  exact ⟨hlt, rfl⟩

/-- The cache of a level, as CPUID describes it. -/
def descOf (x : X86Processor) : Level → CacheDesc
  | .l1i => x.l1i
  | .l1d => x.l1d
  | .l2 => x.l2
  | .l3 => x.l3
  | .l4 => x.l4

theorem uniform_flag_last (t : Topo) (uarch cpuid : Nat) (s : Uniform.Shares) (tb : Uniform.Tables)
    (c : Uniform.Caches) (m : Nat) : FlagLast (commit t uarch cpuid s tb c m) := by
  refine .inr ⟨(commit t uarch cpuid s tb c m).dropLast, true, fun x hx => ?_, rfl⟩
  intro g
  cases x with
  | flag b => unfold commit at hx; simp at hx
  | _ => rfl

/-- The share of a level. -/
def shareOf (s : Uniform.Shares) : Level → Uniform.Share
  | .l1i => s.l1
  | .l1d => s.l1
  | .l2 => s.l2
  | .l3 => s.l3
  | .l4 => s.l4

/-- The links of a processor to its caches. -/
theorem uniform_links (t : Topo) (x : X86Processor) (cpp : Nat) (s : Uniform.Shares)
    (c : Uniform.Caches) (hc : CachesOk x s (evenTables t x.topology cpp).processors c) (i : Nat)
    (p : Processor) (hp : c.processors[i]? = some p) :
    i < t.threads ∧
    p.smtId = i % t.threadsPerCore ∧ p.core = some (i / t.threadsPerCore) ∧
    p.cluster = some (i / (cpp * t.threadsPerCore)) ∧
    p.package = some (i / (cpp * t.threadsPerCore)) ∧
    p.apicId = Uniform.apicVal x.topology (i % t.threadsPerCore) (i / t.threadsPerCore)
      (i / (cpp * t.threadsPerCore)) ∧
    p.l1i = (if x.l1i.size ≠ 0 then some (i / s.l1.per) else none) ∧
    p.l1d = (if x.l1d.size ≠ 0 then some (i / s.l1.per) else none) ∧
    p.l2 = (if s.l2.count ≠ 0 then some (i / s.l2.per) else none) ∧
    p.l3 = (if s.l3.count ≠ 0 then some (i / s.l3.per) else none) ∧
    p.l4 = (if s.l4.count ≠ 0 then some (i / s.l4.per) else none) := by
  rw [hc.processors i] at hp
  obtain ⟨p0, h0, rfl⟩ := Option.map_eq_some_iff.mp hp
  obtain ⟨hi, rfl⟩ := getElem?_map_range h0
  exact ⟨hi, rfl, rfl, rfl, rfl, rfl, rfl, rfl, rfl, rfl, rfl⟩

theorem share_zero {threads size : Nat} {s : Uniform.Share} (h : ShareOk threads size s)
    (hz : size = 0) : s.count = 0 := by
  rcases h with ⟨h, -⟩ | ⟨-, h⟩
  · exact absurd hz h
  · rw [h]

theorem share_some {threads size : Nat} {s : Uniform.Share} (h : ShareOk threads size s)
    (ht : 0 < threads) (hz : size ≠ 0) : s.count ≠ 0 ∧ 0 < s.per ∧ s.count * s.per = threads := by
  have := (h.iff ht).mpr hz
  exact ⟨this, h.ok this⟩

/-- The table and links of one level. -/
theorem uniform_level (t : Topo) (x : X86Processor) (uarch cpuid cpp : Nat) (s : Uniform.Shares)
    (c : Uniform.Caches) (m : Nat) (u : Elem .uarch) (h : EvenBy t cpp)
    (hs : SharesOk t.threads x s)
    (hc : CachesOk x s (evenTables t x.topology cpp).processors c) (l : Level) :
    ((descOf x l).size = 0 ∧
      (applyAll (commit t uarch cpuid s (evenTables t x.topology cpp) c m) (.initial u)).table
        (.cache l) = none ∧ ∀ p ∈ c.processors, cacheLink l p = none) ∨
    ((descOf x l).size ≠ 0 ∧
      (applyAll (commit t uarch cpuid s (evenTables t x.topology cpp) c m) (.initial u)).table
        (.cache l) = some (cacheTable (descOf x l) (shareOf s l)) ∧
      (applyAll (commit t uarch cpuid s (evenTables t x.topology cpp) c m) (.initial u)).count
        (.cache l) = (shareOf s l).count ∧ 0 < (shareOf s l).per ∧
      (shareOf s l).count * (shareOf s l).per = t.threads ∧
      ∀ (i : Nat) (p : Processor), c.processors[i]? = some p →
        cacheLink l p = some (i / (shareOf s l).per)) := by
  obtain ⟨-, -, -, -, ht, -⟩ := Uniform.even_dvd h
  have hl := uniform_links t x cpp s c hc
  have hm : ∀ p ∈ c.processors, ∃ i : Nat, c.processors[i]? = some p := fun p hp =>
    List.getElem?_of_mem hp
  cases l with
  | l1i =>
    by_cases hz : x.l1i.size = 0
    · refine .inl ⟨hz, hc.l1i.trans (if_neg (fun h => h hz)), fun p hp => ?_⟩
      obtain ⟨i, hi⟩ := hm p hp
      obtain ⟨-, -, -, -, -, -, e, -⟩ := hl i p hi
      exact e.trans (if_neg (fun h => h hz))
    · refine .inr ⟨hz, hc.l1i.trans (if_pos hz), rfl, (hs.l1 (.inl hz)).1, (hs.l1 (.inl hz)).2, ?_⟩
      intro i p hi
      obtain ⟨-, -, -, -, -, -, e, -⟩ := hl i p hi
      exact e.trans (if_pos hz)
  | l1d =>
    by_cases hz : x.l1d.size = 0
    · refine .inl ⟨hz, hc.l1d.trans (if_neg (fun h => h hz)), fun p hp => ?_⟩
      obtain ⟨i, hi⟩ := hm p hp
      obtain ⟨-, -, -, -, -, -, -, e, -⟩ := hl i p hi
      exact e.trans (if_neg (fun h => h hz))
    · refine .inr ⟨hz, hc.l1d.trans (if_pos hz), rfl, (hs.l1 (.inr hz)).1, (hs.l1 (.inr hz)).2, ?_⟩
      intro i p hi
      obtain ⟨-, -, -, -, -, -, -, e, -⟩ := hl i p hi
      exact e.trans (if_pos hz)
  | l2 =>
    by_cases hz : x.l2.size = 0
    · have h0 := share_zero hs.l2 hz
      refine .inl ⟨hz, hc.l2.trans (if_neg (fun h => h h0)), fun p hp => ?_⟩
      obtain ⟨i, hi⟩ := hm p hp
      obtain ⟨-, -, -, -, -, -, -, -, e, -⟩ := hl i p hi
      exact e.trans (if_neg (fun h => h h0))
    · obtain ⟨h0, h1, h2⟩ := share_some hs.l2 ht hz
      refine .inr ⟨hz, hc.l2.trans (if_pos h0), rfl, h1, h2, ?_⟩
      intro i p hi
      obtain ⟨-, -, -, -, -, -, -, -, e, -⟩ := hl i p hi
      exact e.trans (if_pos h0)
  | l3 =>
    by_cases hz : x.l3.size = 0
    · have h0 := share_zero hs.l3 hz
      refine .inl ⟨hz, hc.l3.trans (if_neg (fun h => h h0)), fun p hp => ?_⟩
      obtain ⟨i, hi⟩ := hm p hp
      obtain ⟨-, -, -, -, -, -, -, -, -, e, -⟩ := hl i p hi
      exact e.trans (if_neg (fun h => h h0))
    · obtain ⟨h0, h1, h2⟩ := share_some hs.l3 ht hz
      refine .inr ⟨hz, hc.l3.trans (if_pos h0), rfl, h1, h2, ?_⟩
      intro i p hi
      obtain ⟨-, -, -, -, -, -, -, -, -, e, -⟩ := hl i p hi
      exact e.trans (if_pos h0)
  | l4 =>
    by_cases hz : x.l4.size = 0
    · have h0 := share_zero hs.l4 hz
      refine .inl ⟨hz, hc.l4.trans (if_neg (fun h => h h0)), fun p hp => ?_⟩
      obtain ⟨i, hi⟩ := hm p hp
      obtain ⟨-, -, -, -, -, -, -, -, -, -, e⟩ := hl i p hi
      exact e.trans (if_neg (fun h => h h0))
    · obtain ⟨h0, h1, h2⟩ := share_some hs.l4 ht hz
      refine .inr ⟨hz, hc.l4.trans (if_pos h0), rfl, h1, h2, ?_⟩
      intro i p hi
      obtain ⟨-, -, -, -, -, -, -, -, -, -, e⟩ := hl i p hi
      exact e.trans (if_pos h0)

/-- Everything that is published is consistent. -/
theorem uniform_described (t : Topo) (x : X86Processor) (uarch cpuid cpp : Nat)
    (s : Uniform.Shares) (c : Uniform.Caches) (m : Nat) (u : Elem .uarch) (h : EvenBy t cpp)
    (hs : SharesOk t.threads x s)
    (hc : CachesOk x s (evenTables t x.topology cpp).processors c) :
    Described (applyAll (commit t uarch cpuid s (evenTables t x.topology cpp) c m) (.initial u))
      c.processors (evenTables t x.topology cpp).cores (evenTables t x.topology cpp).clusters
      (evenTables t x.topology cpp).packages := by
  have hlen : c.processors.length = t.threads := by
    rw [hc.length]; unfold evenTables; simp
  have hl := uniform_links t x cpp s c hc
  have hpp : 0 < cpp * t.threadsPerCore := Nat.mul_pos h.cppPos h.perCore
  have htp : t.threads = t.packages * (cpp * t.threadsPerCore) := by
    rw [h.threads, h.cores, Nat.mul_assoc]
  have hcl : (evenTables t x.topology cpp).cores.length = t.cores := by unfold evenTables; simp
  refine ⟨rfl, rfl, rfl, rfl, hlen.symm, hcl.symm, ?_, ?_, ?_, ?_, ?_, ?_, ?_, ?_, ?_, ?_, ?_⟩
  · unfold evenTables; simp; rfl
  · unfold evenTables; simp; rfl
  · exact divides_uniform _ _ t.threadsPerCore _ _ _ _ h.perCore (hlen.trans h.threads)
      (fun i hi => ⟨h.start hi, rfl⟩) fun i p hp => (hl i p hp).2.2.1
  · exact divides_uniform _ _ _ _ _ _ _ hpp (hlen.trans htp) (fun i _ => ⟨rfl, rfl⟩)
      fun i p hp => (hl i p hp).2.2.2.1
  · exact divides_uniform _ _ _ _ _ _ _ hpp (hlen.trans htp) (fun i _ => ⟨rfl, rfl⟩)
      fun i p hp => (hl i p hp).2.2.2.2.1
  · exact divides_uniform _ _ cpp _ _ _ _ h.cppPos (hcl.trans h.cores) (fun i _ => ⟨rfl, rfl⟩)
      fun i p hp => by rw [(getElem?_map_range hp).2]; rfl
  · exact divides_uniform _ _ cpp _ _ _ _ h.cppPos (hcl.trans h.cores) (fun i _ => ⟨rfl, rfl⟩)
      fun i p hp => by rw [(getElem?_map_range hp).2]; rfl
  · refine divides_uniform _ _ 1 _ _ _ _ (by omega) ?_ (fun i _ => ⟨?_, rfl⟩) ?_
    · unfold evenTables; simp
    · exact (Nat.mul_one i).symm
    · intro i p hp
      rw [(getElem?_map_range hp).2, Nat.div_one]; rfl
  · intro l
    rcases uniform_level t x uarch cpuid cpp s c m u h hs hc l with ⟨-, h1, h2⟩ |
      ⟨-, h1, h2, h3, h4, h5⟩
    · exact .inl ⟨h1, h2⟩
    · refine .inr ⟨_, h1, ?_, ?_⟩
      · rw [h2]; unfold cacheTable; simp
      · exact divides_uniform _ _ _ _ _ _ _ h3 (hlen.trans h4.symm) (fun i _ => ⟨rfl, rfl⟩) h5
  · intro i p k o hp hk ho
    obtain ⟨-, e1, e2, -⟩ := hl i p hp
    rw [e2] at hk
    cases hk
    obtain ⟨hi, e3⟩ := getElem?_map_range ho
    rw [e3, e1]
    show i = i / t.threadsPerCore * t.threadsPerCore % U32 + i % t.threadsPerCore
    rw [h.start hi, Nat.mul_comm]
    exact (Nat.div_add_mod i t.threadsPerCore).symm
  · intro i o k q ho hk hq
    obtain ⟨-, rfl⟩ := getElem?_map_range ho
    have hk : some (i / cpp) = some k := hk
    cases hk
    rw [(getElem?_map_range hq).2]
    show i = i / cpp * cpp + i % cpp
    rw [Nat.mul_comm]
    exact (Nat.div_add_mod i cpp).symm

/-- The statement about a machine that is described by numbers: nothing undefined happens, the flag
is stored last and is set unless an allocation fails, and if it is set all tables are consistent. -/
def Even (r : Option (List (Store Elem))) (alloc : Nat → Bool) (u : Elem .uarch)
    (threads cores packages : Nat) : Prop :=
  ∃ st, r = some st ∧ FlagLast st ∧
    ((∀ i < 9, alloc i = true) → (applyAll st (.initial u)).isInitialized = true) ∧
    ((applyAll st (.initial u)).isInitialized = true →
      ∃ ps cs ls pks, Described (applyAll st (.initial u)) ps cs ls pks ∧
        ps.length = threads ∧ cs.length = cores ∧ ls.length = packages ∧ pks.length = packages)

theorem even_of_stores (t : Topo) (x : X86Processor) (uarch cpuid cpp : Nat) (alloc : Nat → Bool)
    (sh : Option Uniform.Shares) (r : Option (List (Store Elem))) (u : Elem .uarch)
    (h : EvenBy t cpp) (hr : Stores t x uarch cpuid cpp alloc sh r) : Even r alloc u t.threads t.cores t.packages := by
  rcases hr with ⟨⟨i, hi, ha⟩, rfl⟩ | ⟨s, c, m, -, hs, hc, -, rfl⟩
  · refine ⟨[], rfl, .inl rfl, fun h => ?_, fun h => by cases h⟩
    rw [h i hi] at ha
    cases ha
  · refine ⟨_, rfl, uniform_flag_last _ _ _ _ _ _ _, fun _ => rfl, fun _ => ?_⟩
    refine ⟨_, _, _, _, uniform_described t x uarch cpuid cpp s c m u h hs hc, ?_, ?_, ?_, ?_⟩
    · rw [hc.length]; unfold evenTables; simp
    · unfold evenTables; simp
    · unfold evenTables; simp
    · unfold evenTables; simp

/-- The bit fields of the APIC ID that CPUID gives stay within 32 bits. -/
def FieldsFit (x : X86Processor) : Prop :=
  x.topology.threadOffset + x.topology.threadLength < 32 ∧
  x.topology.coreOffset + x.topology.coreLength < 32

/-- CPUID reports a cache of this level. -/
def HasLevel (x : X86Processor) : Nat → Prop
  | 1 => x.l1i.size ≠ 0 ∨ x.l1d.size ≠ 0
  | 2 => x.l2.size ≠ 0
  | 3 => x.l3.size ≠ 0
  | 4 => x.l4.size ≠ 0
  | _ => False

/-- Where the system says how many threads share a cache that there is, the number divides that of
the threads. -/
def SharingDivides (m : MachTopology) (x : X86Processor) : Prop :=
  ∀ k r : Nat, HasLevel x k → m.threadsPerCache[k]? = some r → r = 0 ∨ r ∣ m.threads

theorem mach_stores (cores threads packages : Option Int) (config : Option (List Nat))
    (m : MachTopology) (x : X86Processor) (uarch cpuid : Nat) (alloc : Nat → Bool)
    (hm : m = machTopology cores threads packages config) (hw : m.threads < 2 ^ 32)
    (h1 : m.packages ∣ m.cores) (h2 : m.cores ∣ m.threads) (hs : SharingDivides m x)
    (hb : FieldsFit x) :
    EvenBy ⟨m.packages, m.cores, m.threads, m.threads / m.cores⟩ (m.cores / m.packages) ∧
    Stores ⟨m.packages, m.cores, m.threads, m.threads / m.cores⟩ x uarch cpuid
      (m.cores / m.packages) alloc (Uniform.machShares m x) (machInit m x uarch cpuid alloc) := by
  obtain ⟨p1, p2, p3, hl⟩ := Uniform.machTopology_pos cores threads packages config
  rw [← hm] at p1 p2 p3 hl
  have he := Uniform.evenBy_of_dvd m.packages m.cores m.threads p1 p2 p3 h1 h2 hw
  have g : ∀ k, k < 8 → m.threadsPerCache[k]? = some (m.threadsPerCache.getD k 0) := by
    intro k hk
    rw [List.getD_eq_getElem?_getD, List.getElem?_eq_getElem (by omega)]
    rfl
  refine ⟨he, Uniform.machInit_eq m x uarch cpuid alloc _ _ he ⟨hb.1, hb.2⟩ _ _ _ _ (g 1 (by omega))
    (g 2 (by omega)) (g 3 (by omega)) (g 4 (by omega)) ?_ ?_ ?_ ?_⟩
  · exact fun h => hs 1 _ h (g 1 (by omega))
  · exact fun h => hs 2 _ h (g 2 (by omega))
  · exact fun h => hs 3 _ h (g 3 (by omega))
  · exact fun h => hs 4 _ h (g 4 (by omega))

theorem freebsd_stores (spec : Option Bytes) (cores perCore : Option Int) (t : Topo)
    (x : X86Processor) (uarch cpuid : Nat) (alloc : Nat → Bool)
    (ht : freebsdTopology spec cores perCore = some t) (h1 : t.packages ∣ t.cores)
    (h2 : t.threadsPerCore * t.cores < 2 ^ 32) (hb : FieldsFit x) :
    EvenBy t (t.cores / t.packages) ∧
    Stores t x uarch cpuid (t.cores / t.packages) alloc (Uniform.freebsdShares t x)
      (freebsdInit (some t) x uarch cpuid alloc) := by
  obtain ⟨p1, p2, p3, p4⟩ := Uniform.freebsdTopology_eq spec cores perCore t ht
  have he : EvenBy t (t.cores / t.packages) :=
    ⟨p1, Nat.div_pos p2 p1, p3, (Nat.mul_div_cancel' h1).symm, by
      rw [p4, Nat.mod_eq_of_lt h2, Nat.mul_comm], by rw [p4]; exact Nat.mod_lt _ (by decide)⟩
  exact ⟨he, Uniform.freebsdInit_eq t x uarch cpuid alloc _ he ⟨hb.1, hb.2⟩⟩

/-- **C51, Mach.** Whatever the system answers, if packages divide cores, cores divide threads and
the reported numbers of sharing threads divide the threads: initialization does nothing undefined,
and the published tables divide processors, cores and caches consistently.  Missing: numbers that do
not divide, see `C51_violated_…`. -/
theorem C51_mach_partial (cores threads packages : Option Int) (config : Option (List Nat))
    (m : MachTopology) (x : X86Processor) (uarch cpuid : Nat) (alloc : Nat → Bool)
    (hm : m = machTopology cores threads packages config) (hw : m.threads < 2 ^ 32)
    (h1 : m.packages ∣ m.cores) (h2 : m.cores ∣ m.threads) (hs : SharingDivides m x)
    (hb : FieldsFit x) (u : Elem .uarch) :
    Even (machInit m x uarch cpuid alloc) alloc u m.threads m.cores m.packages := by
  obtain ⟨he, hr⟩ := mach_stores cores threads packages config m x uarch cpuid alloc hm hw h1 h2 hs hb
  exact even_of_stores _ x uarch cpuid _ alloc _ _ u he hr

/-- **C51, FreeBSD.** Likewise, if packages divide cores and the number of threads is below 2^32.
Missing: numbers that do not divide, see `C51_violated_…`. -/
theorem C51_freebsd_partial (spec : Option Bytes) (cores perCore : Option Int) (t : Topo)
    (x : X86Processor) (uarch cpuid : Nat) (alloc : Nat → Bool)
    (ht : freebsdTopology spec cores perCore = some t) (h1 : t.packages ∣ t.cores)
    (h2 : t.threadsPerCore * t.cores < 2 ^ 32) (hb : FieldsFit x) (u : Elem .uarch) :
    Even (freebsdInit (some t) x uarch cpuid alloc) alloc u (t.threadsPerCore * t.cores) t.cores
      t.packages := by
  obtain ⟨he, hr⟩ := freebsd_stores spec cores perCore t x uarch cpuid alloc ht h1 h2 hb
  have := even_of_stores _ x uarch cpuid _ alloc _ _ u he hr
  rw [he.threads, Nat.mul_comm] at this
  exact this

/-- The L1 count is that of both tables. -/
theorem uniform_counts (t : Topo) (x : X86Processor) (uarch cpuid cpp : Nat) (alloc : Nat → Bool)
    (sh : Option Uniform.Shares) (r : Option (List (Store Elem))) (u : Elem .uarch)
    (h : EvenBy t cpp) (hr : Stores t x uarch cpuid cpp alloc sh r) (hx : x.l1i.size = 0 ↔ x.l1d.size = 0) :
    ∃ st, r = some st ∧ ∀ k, k ≠ .uarch → CountsMatch (applyAll st (.initial u)) k := by
  rcases hr with ⟨-, rfl⟩ | ⟨s, c, m, -, hs, hc, -, rfl⟩
  · refine ⟨[], rfl, fun k _ => .inl ⟨rfl, rfl⟩⟩
  · refine ⟨_, rfl, fun k hk => ?_⟩
    have hd := uniform_described t x uarch cpuid cpp s c m u h hs hc
    cases k with
    | processor => exact .inr ⟨_, hd.processors, hd.processorCount.symm⟩
    | core => exact .inr ⟨_, hd.cores, hd.coreCount.symm⟩
    | cluster => exact .inr ⟨_, hd.clusters, hd.clusterCount.symm⟩
    | package => exact .inr ⟨_, hd.packages, hd.packageCount.symm⟩
    | uarch => exact absurd rfl hk
    | cache l =>
      rcases uniform_level t x uarch cpuid cpp s c m u h hs hc l with ⟨hz, h1, -⟩ |
        ⟨-, h1, h2, -⟩
      · refine .inl ⟨h1, ?_⟩
        cases l with
        | l1i =>
          have : s.l1 = ⟨0, 0⟩ := hs.l1none hz (hx.mp hz)
          exact congrArg Uniform.Share.count this
        | l1d =>
          have : s.l1 = ⟨0, 0⟩ := hs.l1none (hx.mpr hz) hz
          exact congrArg Uniform.Share.count this
        | l2 => exact share_zero hs.l2 hz
        | l3 => exact share_zero hs.l3 hz
        | l4 => exact share_zero hs.l4 hz
      · refine .inr ⟨_, h1, ?_⟩
        exact (by unfold cacheTable; simp :
          (cacheTable (descOf x l) (shareOf s l)).length = (shareOf s l).count).trans h2.symm

/-- **C52, Mach.** If CPUID describes both L1 caches or neither, a table with as many elements stands
behind every published count.  Missing: a processor with only one of them, see `C52_violated_mach`. -/
theorem C52_mach_partial (cores threads packages : Option Int) (config : Option (List Nat))
    (m : MachTopology) (x : X86Processor) (uarch cpuid : Nat) (alloc : Nat → Bool)
    (hm : m = machTopology cores threads packages config) (hw : m.threads < 2 ^ 32)
    (h1 : m.packages ∣ m.cores) (h2 : m.cores ∣ m.threads) (hs : SharingDivides m x)
    (hb : FieldsFit x) (hx : x.l1i.size = 0 ↔ x.l1d.size = 0) (u : Elem .uarch) :
    ∃ st, machInit m x uarch cpuid alloc = some st ∧
      ∀ k, k ≠ .uarch → CountsMatch (applyAll st (.initial u)) k := by
  obtain ⟨he, hr⟩ := mach_stores cores threads packages config m x uarch cpuid alloc hm hw h1 h2 hs hb
  exact uniform_counts _ x uarch cpuid _ alloc _ _ u he hr hx

/-- **C52, FreeBSD.** Likewise. -/
theorem C52_freebsd_partial (spec : Option Bytes) (cores perCore : Option Int) (t : Topo)
    (x : X86Processor) (uarch cpuid : Nat) (alloc : Nat → Bool)
    (ht : freebsdTopology spec cores perCore = some t) (h1 : t.packages ∣ t.cores)
    (h2 : t.threadsPerCore * t.cores < 2 ^ 32) (hb : FieldsFit x)
    (hx : x.l1i.size = 0 ↔ x.l1d.size = 0) (u : Elem .uarch) :
    ∃ st, freebsdInit (some t) x uarch cpuid alloc = some st ∧
      ∀ k, k ≠ .uarch → CountsMatch (applyAll st (.initial u)) k := by
  obtain ⟨he, hr⟩ := freebsd_stores spec cores perCore t x uarch cpuid alloc ht h1 h2 hb
  exact uniform_counts _ x uarch cpuid _ alloc _ _ u he hr hx

/-- **C52 is violated, Mach**, on every even machine whose CPUID describes an L1 data cache and no L1
instruction cache: L1 instruction caches are counted, and asking for the first one reads through a
null pointer. -/
theorem C52_violated_mach (cores threads packages : Option Int) (config : Option (List Nat))
    (m : MachTopology) (x : X86Processor) (uarch cpuid : Nat)
    (hm : m = machTopology cores threads packages config) (hw : m.threads < 2 ^ 32)
    (h1 : m.packages ∣ m.cores) (h2 : m.cores ∣ m.threads) (hs : SharingDivides m x)
    (hb : FieldsFit x) (hi : x.l1i.size = 0) (hd : x.l1d.size ≠ 0) (b : Build) (u : Elem .uarch) :
    ∃ st n, machInit m x uarch cpuid (fun _ => true) = some st ∧
      (Query.l1iCachesCount.prog b).eval (applyAll st (.initial u)) = .ret (.num n) ∧ 0 < n ∧
      ((Query.l1iCache 0).prog b).eval (applyAll st (.initial u)) = .fault := by
  obtain ⟨he, hr⟩ := mach_stores cores threads packages config m x uarch cpuid (fun _ => true) hm hw
    h1 h2 hs hb
  obtain ⟨-, -, -, -, ht, -⟩ := Uniform.even_dvd he
  rcases hr with ⟨⟨i, -, ha⟩, -⟩ | ⟨s, c, mx, -, hsh, hc, -, e⟩
  · cases ha
  · have hpos := Nat.pos_of_ne_zero (Uniform.count_pos ht (hsh.l1 (.inr hd)).2)
    refine ⟨_, _, e, rfl, hpos, ?_⟩
    exact Once.elem_null _ rfl _ _ _ hpos (hc.l1i.trans (if_neg (fun h => h hi)))

/-- The number in the name of a level. -/
def levelNumber : Level → Nat
  | .l1i => 1
  | .l1d => 1
  | .l2 => 2
  | .l3 => 3
  | .l4 => 4

/-- How many threads share a cache if the system does not say: those of a core share L1, and L2 if
there is an L3; those of a package share the last level up to L3; all share L4. -/
def assumedSharing (threads cores packages : Nat) (x : X86Processor) : Level → Nat
  | .l1i => threads / cores
  | .l1d => threads / cores
  | .l2 => if x.l3.size = 0 then threads / packages else threads / cores
  | .l3 => threads / packages
  | .l4 => threads

/-- The published caches are those that CPUID describes, each level with `per` threads to a cache;
and the published size is that of the last level (instruction caches do not count). -/
def CachesFrom (x : X86Processor) (per : Level → Nat) (g : Globals Elem) : Prop :=
  (∀ l, (descOf x l).size = 0 → g.table (.cache l) = none) ∧
  (∀ l, (descOf x l).size ≠ 0 → ∃ t : List X86Init.Cache, g.table (.cache l) = some t ∧ t ≠ [] ∧
    ∀ c ∈ t, c.size = (descOf x l).size ∧ c.associativity = (descOf x l).associativity ∧
      c.sets = (descOf x l).sets ∧ c.partitions = (descOf x l).partitions ∧
      c.lineSize = (descOf x l).lineSize ∧ c.flags = (descOf x l).flags ∧
      c.processorCount = per l) ∧
  g.maxCacheSize =
    (([x.l4.size, x.l3.size, x.l2.size, x.l1d.size].find? (· ≠ 0)).getD 0)

theorem lastSize_eq (x : X86Processor) : Uniform.lastSize x =
    (([x.l4.size, x.l3.size, x.l2.size, x.l1d.size].find? (· ≠ 0)).getD 0) := by
  unfold Uniform.lastSize computeMaxCacheSize
  by_cases h4 : x.l4.size = 0
  · by_cases h3 : x.l3.size = 0
    · by_cases h2 : x.l2.size = 0
      · by_cases h1 : x.l1d.size = 0
        · simp [h4, h3, h2, h1]
        · simp [h4, h3, h2, h1]
      · simp [h4, h3, h2]
    · simp [h4, h3]
  · simp [h4]

theorem caches_from (t : Topo) (x : X86Processor) (uarch cpuid cpp : Nat)
    (s : Uniform.Shares) (c : Uniform.Caches) (u : Elem .uarch) (h : EvenBy t cpp)
    (hs : SharesOk t.threads x s)
    (hc : CachesOk x s (evenTables t x.topology cpp).processors c) (per : Level → Nat)
    (hper : ∀ l, (descOf x l).size ≠ 0 → (shareOf s l).per = per l) :
    CachesFrom x per (applyAll (commit t uarch cpuid s (evenTables t x.topology cpp) c
      (Uniform.lastSize x)) (.initial u)) := by
  obtain ⟨-, -, -, -, ht, -⟩ := Uniform.even_dvd h
  have hl := uniform_level t x uarch cpuid cpp s c (Uniform.lastSize x) u h hs hc
  refine ⟨fun l hz => ?_, fun l hz => ?_, lastSize_eq x⟩
  · rcases hl l with ⟨-, h1, -⟩ | ⟨h0, -⟩
    · exact h1
    · exact absurd hz h0
  · rcases hl l with ⟨h0, -⟩ | ⟨-, h1, -, -, h4, -⟩
    · exact absurd h0 hz
    · refine ⟨_, h1, ?_, ?_⟩
      · intro h0
        have := Uniform.count_pos ht h4
        have hlen : (cacheTable (descOf x l) (shareOf s l)).length = 0 := by rw [h0]; rfl
        unfold cacheTable at hlen
        rw [List.length_map, List.length_range] at hlen
        exact this hlen
      · intro e he
        obtain ⟨i, -, rfl⟩ := List.mem_map.mp he
        exact ⟨rfl, rfl, rfl, rfl, rfl, rfl, hper l hz⟩

/-- **C95, Mach.** On an even machine the caches are as CPUID describes them, shared as the system
reports or, where it reports nothing, as assumed; the size for the whole machine is that of the last
level.  Missing: numbers that do not divide. -/
theorem C95_mach_partial (cores threads packages : Option Int) (config : Option (List Nat))
    (m : MachTopology) (x : X86Processor) (uarch cpuid : Nat) (alloc : Nat → Bool)
    (hm : m = machTopology cores threads packages config) (hw : m.threads < 2 ^ 32)
    (h1 : m.packages ∣ m.cores) (h2 : m.cores ∣ m.threads) (hs : SharingDivides m x)
    (hb : FieldsFit x) (u : Elem .uarch) :
    ∃ st, machInit m x uarch cpuid alloc = some st ∧
      ((applyAll st (.initial u)).isInitialized = true →
        CachesFrom x (fun l => match m.threadsPerCache[levelNumber l]? with
          | some (r + 1) => r + 1
          | _ => assumedSharing m.threads m.cores m.packages x l) (applyAll st (.initial u))) := by
  obtain ⟨he, hr⟩ := mach_stores cores threads packages config m x uarch cpuid alloc hm hw h1 h2 hs hb
  rcases hr with ⟨-, e⟩ | ⟨s, c, mx, es, hsh, hc, hmx, e⟩
  · exact ⟨_, e, fun h => by cases h⟩
  · refine ⟨_, e, fun _ => ?_⟩
    rw [hmx]
    obtain ⟨r1, r2, r3, r4, g1, g2, g3, g4, p1, p2, p3, p4⟩ := Uniform.machShares_per es
    refine caches_from _ x uarch cpuid _ s c u he hsh hc _ fun l hz => ?_
    cases l with
    | l1i =>
      refine (p1 (.inl hz)).trans ?_
      simp only [levelNumber, g1]
      cases r1 <;> rfl
    | l1d =>
      refine (p1 (.inr hz)).trans ?_
      simp only [levelNumber, g1]
      cases r1 <;> rfl
    | l2 =>
      refine (p2 hz).trans ?_
      simp only [levelNumber, g2, assumedSharing]
      by_cases h3 : x.l3.size = 0 <;> cases r2 <;> simp [h3]
    | l3 =>
      refine (p3 hz).trans ?_
      simp only [levelNumber, g3]
      cases r3 <;> rfl
    | l4 =>
      refine (p4 hz).trans ?_
      simp only [levelNumber, g4]
      cases r4 <;> rfl

/-- **C95, FreeBSD.** Likewise, shared as assumed. -/
theorem C95_freebsd_partial (spec : Option Bytes) (cores perCore : Option Int) (t : Topo)
    (x : X86Processor) (uarch cpuid : Nat) (alloc : Nat → Bool)
    (ht : freebsdTopology spec cores perCore = some t) (h1 : t.packages ∣ t.cores)
    (h2 : t.threadsPerCore * t.cores < 2 ^ 32) (hb : FieldsFit x) (u : Elem .uarch) :
    ∃ st, freebsdInit (some t) x uarch cpuid alloc = some st ∧
      ((applyAll st (.initial u)).isInitialized = true →
        CachesFrom x (assumedSharing (t.threadsPerCore * t.cores) t.cores t.packages x)
          (applyAll st (.initial u))) := by
  obtain ⟨he, hr⟩ := freebsd_stores spec cores perCore t x uarch cpuid alloc ht h1 h2 hb
  rcases hr with ⟨-, e⟩ | ⟨s, c, mx, es, hsh, hc, hmx, e⟩
  · exact ⟨_, e, fun h => by cases h⟩
  · refine ⟨_, e, fun _ => ?_⟩
    rw [hmx]
    obtain ⟨p1, p2, p3, p4⟩ := Uniform.freebsdShares_per es
    rw [Nat.mul_comm, ← he.threads]
    refine caches_from _ x uarch cpuid _ s c u he hsh hc _ fun l hz => ?_
    cases l with
    | l1i => exact p1 (.inl hz)
    | l1d => exact p1 (.inr hz)
    | l2 =>
      refine (p2 hz).trans ?_
      simp only [assumedSharing]
      by_cases h3 : x.l3.size = 0 <;> simp [h3]
    | l3 => exact p3 hz
    | l4 => exact p4 hz

/-- The APIC IDs of published processors differ. -/
def ApicIdsDiffer (g : Globals Elem) : Prop :=
  ∀ ps : List Processor, g.table .processor = some ps → ∀ (i j : Nat) (p q : Processor),
    ps[i]? = some p → ps[j]? = some q → p.apicId = q.apicId → i = j

/-- The bit fields do not overlap, and have room for the threads of a core, the cores of a package
and the packages. -/
def FieldsRoom (x : X86Processor) (threads cores packages : Nat) : Prop :=
  x.topology.threadOffset + x.topology.threadLength ≤ x.topology.coreOffset ∧
  threads / cores ≤ 2 ^ x.topology.threadLength ∧
  cores / packages ≤ 2 ^ x.topology.coreLength ∧
  packages * 2 ^ (x.topology.coreOffset + x.topology.coreLength) ≤ 2 ^ 32

theorem apic_differ (t : Topo) (x : X86Processor) (uarch cpuid cpp : Nat) (alloc : Nat → Bool)
    (sh : Option Uniform.Shares) (r : Option (List (Store Elem))) (u : Elem .uarch)
    (h : EvenBy t cpp) (hr : Stores t x uarch cpuid cpp alloc sh r)
    (hx : x.topology.threadOffset + x.topology.threadLength ≤ x.topology.coreOffset ∧
      t.threadsPerCore ≤ 2 ^ x.topology.threadLength ∧ cpp ≤ 2 ^ x.topology.coreLength ∧
      t.packages * 2 ^ (x.topology.coreOffset + x.topology.coreLength) ≤ 2 ^ 32) :
    ∃ st, r = some st ∧ ApicIdsDiffer (applyAll st (.initial u)) := by
  rcases hr with ⟨-, rfl⟩ | ⟨s, c, m, -, hs, hc, -, rfl⟩
  · exact ⟨[], rfl, fun ps hps => by cases hps⟩
  · refine ⟨_, rfl, fun ps hps i j p q hp hq e => ?_⟩
    have hd := (uniform_described t x uarch cpuid cpp s c m u h hs hc).processors
    rw [hps] at hd
    cases hd
    obtain ⟨hi, -, -, -, -, ei, -⟩ := uniform_links t x cpp s c hc i p hp
    obtain ⟨hj, -, -, -, -, ej, -⟩ := uniform_links t x cpp s c hc j q hq
    rw [ei, ej] at e
    exact Uniform.apicVal_inj t x.topology cpp h hx.1 hx.2.1 hx.2.2.1 hx.2.2.2 i j hi hj e

/-- **C96, Mach.** On an even machine whose bit fields have room, no two processors get the same APIC
ID.  Missing: that the ID is the processor's own, which is false, see `C96_violated`. -/
theorem C96_mach_partial (cores threads packages : Option Int) (config : Option (List Nat))
    (m : MachTopology) (x : X86Processor) (uarch cpuid : Nat) (alloc : Nat → Bool)
    (hm : m = machTopology cores threads packages config) (hw : m.threads < 2 ^ 32)
    (h1 : m.packages ∣ m.cores) (h2 : m.cores ∣ m.threads) (hs : SharingDivides m x)
    (hb : FieldsFit x) (hx : FieldsRoom x m.threads m.cores m.packages) (u : Elem .uarch) :
    ∃ st, machInit m x uarch cpuid alloc = some st ∧ ApicIdsDiffer (applyAll st (.initial u)) := by
  obtain ⟨he, hr⟩ := mach_stores cores threads packages config m x uarch cpuid alloc hm hw h1 h2 hs hb
  exact apic_differ _ x uarch cpuid _ alloc _ _ u he hr hx

/-- **C96, FreeBSD.** Likewise. -/
theorem C96_freebsd_partial (spec : Option Bytes) (cores perCore : Option Int) (t : Topo)
    (x : X86Processor) (uarch cpuid : Nat) (alloc : Nat → Bool)
    (ht : freebsdTopology spec cores perCore = some t) (h1 : t.packages ∣ t.cores)
    (h2 : t.threadsPerCore * t.cores < 2 ^ 32) (hb : FieldsFit x)
    (hx : FieldsRoom x (t.threadsPerCore * t.cores) t.cores t.packages) (u : Elem .uarch) :
    ∃ st, freebsdInit (some t) x uarch cpuid alloc = some st ∧
      ApicIdsDiffer (applyAll st (.initial u)) := by
  obtain ⟨he, hr⟩ := freebsd_stores spec cores perCore t x uarch cpuid alloc ht h1 h2 hb
  obtain ⟨d1, -, -, -, -, hc⟩ := Uniform.even_dvd he
  refine apic_differ _ x uarch cpuid _ alloc _ _ u he hr ⟨hx.1, ?_, hx.2.2⟩
  have := hx.2.1
  rw [Nat.mul_div_cancel _ hc] at this
  exact this

/-- **C97.** On FreeBSD the published numbers are those the system gives: the packages are the groups
of level 2 without a common cache in the description of the scheduler or, if there are none, the
groups of level 1; the cores and the threads per core are the answers of `sysctlbyname`. -/
theorem C97_freebsd (text : Bytes) (cores perCore : Int) (t : Topo)
    (h : freebsdTopology (some text) (some cores) (some perCore) = some t) :
    (0 < startsAt b!"<group level=\"2\" cache-level=\"0\">" text →
      t.packages = startsAt b!"<group level=\"2\" cache-level=\"0\">" text) ∧
    (startsAt b!"<group level=\"2\" cache-level=\"0\">" text = 0 →
      t.packages = startsAt b!"<group level=\"1\" " text) ∧
    t.cores = cores ∧ t.threadsPerCore = perCore ∧ 0 < t.packages ∧ t.packages ≤ t.cores := by
  obtain ⟨e1, e2, e3⟩ := Uniform.freebsdTopology_packages text _ _ t h
  obtain ⟨p1, p2, -⟩ := Uniform.freebsdTopology_eq _ _ _ t h
  rw [Uniform.countPackages_eq] at e1
  refine ⟨fun h => ?_, fun h => ?_, Option.some.inj e2, Option.some.inj e3, p1, p2⟩
  · exact e1.trans (if_pos h)
  · exact e1.trans (if_neg (Nat.not_lt.mpr (Nat.le_of_eq h)))

/-! ### What goes wrong otherwise -/

/-- A processor without caches, one bit for threads and three bits for cores. -/
def plainX86 : X86Processor :=
  { topology := ⟨0, 1, 1, 3⟩, l1i := ⟨0, 0, 0, 0, 0, 0, 0⟩, l1d := ⟨0, 0, 0, 0, 0, 0, 0⟩
    l2 := ⟨0, 0, 0, 0, 0, 0, 0⟩, l3 := ⟨0, 0, 0, 0, 0, 0, 0⟩, l4 := ⟨0, 0, 0, 0, 0, 0, 0⟩ }

/-- A processor with caches of three levels. -/
def cachedX86 : X86Processor :=
  { plainX86 with
    l1i := ⟨32768, 8, 64, 1, 64, 0, 1⟩, l1d := ⟨32768, 8, 64, 1, 64, 0, 1⟩
    l2 := ⟨262144, 8, 512, 1, 64, 0, 1⟩, l3 := ⟨8388608, 16, 8192, 1, 64, 0, 4⟩ }

/-- **C51 is violated, Mach.** Two cores with five threads (an odd number of threads enabled): the
core of the last processor is behind the end of the table of cores. -/
theorem C51_violated_core (u : Elem .uarch) :
    ∃ st, ∃ ps : List Processor, ∃ cs : List Core, ∃ p : Processor,
      machInit (machTopology (some 2) (some 5) (some 1) none) plainX86 0 0 (fun _ => true) =
        some st ∧
      (applyAll st (.initial u)).isInitialized = true ∧
      (applyAll st (.initial u)).table .processor = some ps ∧
      (applyAll st (.initial u)).table .core = some cs ∧
      ps[4]? = some p ∧ p.core = some 2 ∧ cs[2]? = none :=
  ⟨_, _, _, _, rfl, rfl, rfl, rfl, rfl, rfl, rfl⟩

/-- **C51 is violated, Mach.** Four cores with eleven threads: a pointer is formed that is farther
out than one behind the end. -/
theorem C51_violated_pointer :
    machInit (machTopology (some 4) (some 11) (some 1) none) plainX86 0 0 (fun _ => true) = none := by
  rfl

/-- **C51 is violated, Mach.** Fewer threads than cores, or fewer cores than packages: division by
zero.  When `sysctlbyname` fails for the threads only, their number is 1. -/
theorem C51_violated_division :
    machInit (machTopology (some 2) none (some 1) none) plainX86 0 0 (fun _ => true) = none ∧
    machInit (machTopology (some 1) (some 2) (some 2) none) plainX86 0 0 (fun _ => true) = none := by
  exact ⟨rfl, rfl⟩

/-- **C51 is violated, Mach.** Six threads of which, as the system says, four share a cache of level
3 (as with one disabled core in the second complex): the last processors' caches are behind the end
of the table. -/
theorem C51_violated_cache (u : Elem .uarch) :
    ∃ st, ∃ ps : List Processor, ∃ cs : List X86Init.Cache, ∃ p : Processor,
      machInit (machTopology (some 6) (some 6) (some 1) (some [6, 1, 1, 4])) cachedX86 0 0
        (fun _ => true) = some st ∧
      (applyAll st (.initial u)).isInitialized = true ∧
      (applyAll st (.initial u)).table .processor = some ps ∧
      (applyAll st (.initial u)).table (.cache .l3) = some cs ∧
      ps[5]? = some p ∧ p.l3 = some 1 ∧ cs[1]? = none :=
  ⟨_, _, _, _, rfl, rfl, rfl, rfl, rfl, rfl, rfl⟩

/-- **C51 is violated, FreeBSD.** Two packages with five cores: the cluster and the package of the
last core are behind the ends of their tables. -/
theorem C51_violated_freebsd (u : Elem .uarch) :
    ∃ st, ∃ cs : List Core, ∃ ls : List Cluster, ∃ c : Core,
      freebsdInit (some ⟨2, 5, 5, 1⟩) plainX86 0 0 (fun _ => true) = some st ∧
      (applyAll st (.initial u)).isInitialized = true ∧
      (applyAll st (.initial u)).table .core = some cs ∧
      (applyAll st (.initial u)).table .cluster = some ls ∧
      cs[4]? = some c ∧ c.cluster = some 2 ∧ c.package = some 2 ∧ ls[2]? = none :=
  ⟨_, _, _, _, rfl, rfl, rfl, rfl, rfl, rfl, rfl, rfl⟩

/-- **C51 is violated, FreeBSD.** Four packages with seven cores: undefined. -/
theorem C51_violated_freebsd_pointer :
    freebsdInit (some ⟨4, 7, 7, 1⟩) plainX86 0 0 (fun _ => true) = none := by
  rfl

/-- **C96 is violated.** Two packages of six cores, three bits for the core: processor 12 is the
first thread of the first core of the second package, whose APIC ID is 16; 28 is published, an ID
that no processor of the machine has, whose core field is 6. -/
theorem C96_violated (u : Elem .uarch) :
    ∃ st, ∃ ps : List Processor, ∃ cs : List Core, ∃ p : Processor, ∃ c : Core,
      machInit (machTopology (some 12) (some 24) (some 2) none) plainX86 0 0 (fun _ => true) =
        some st ∧
      (applyAll st (.initial u)).table .processor = some ps ∧
      (applyAll st (.initial u)).table .core = some cs ∧
      ps[12]? = some p ∧ p.core = some 6 ∧ p.package = some 1 ∧ p.smtId = 0 ∧
      cs[6]? = some c ∧ c.coreId = 0 ∧
      p.apicId = 28 ∧ p.apicId / 2 ^ 1 % 2 ^ 3 ≠ c.coreId :=
  ⟨_, _, _, _, _, rfl, rfl, rfl, rfl, rfl, rfl, rfl, rfl, rfl, rfl, by decide⟩

/-! ### Cases that meet the hypotheses -/

/-- Two packages of four cores with two threads each; the system reports the sharing of L1 and L3
only. -/
def exampleMach : MachTopology := machTopology (some 8) (some 16) (some 2) (some [16, 2, 0, 8])

example : exampleMach.packages ∣ exampleMach.cores ∧ exampleMach.cores ∣ exampleMach.threads ∧
    SharingDivides exampleMach cachedX86 ∧ FieldsFit cachedX86 ∧ FieldsRoom cachedX86 16 8 2 ∧
    (cachedX86.l1i.size = 0 ↔ cachedX86.l1d.size = 0) := by
  refine ⟨⟨4, rfl⟩, ⟨2, rfl⟩, ?_, by unfold FieldsFit; decide, by unfold FieldsRoom; decide,
    by decide⟩
  intro k r hk h
  match k, hk with
  | 1, _ => cases h; exact .inr ⟨8, rfl⟩
  | 2, _ => cases h; exact .inl rfl
  | 3, _ => cases h; exact .inr ⟨2, rfl⟩
  | 4, hk => exact absurd rfl hk

/-- A processor with an L1 data cache only. -/
example : SharingDivides (machTopology (some 2) (some 2) none none)
      { plainX86 with l1d := cachedX86.l1d } ∧
    ({ plainX86 with l1d := cachedX86.l1d } : X86Processor).l1i.size = 0 ∧
    ({ plainX86 with l1d := cachedX86.l1d } : X86Processor).l1d.size ≠ 0 := by
  refine ⟨?_, rfl, by decide⟩
  intro k r hk h
  match k, hk with
  | 1, _ => cases h; exact .inl rfl
  | 2, hk | 3, hk | 4, hk => exact absurd rfl hk

/-- Two groups of the second level. -/
example : freebsdTopology (some b!"<groups><group level=\"1\" cache-level=\"0\"><children>
<group level=\"2\" cache-level=\"0\"></group><group level=\"2\" cache-level=\"0\"></group>")
    (some 8) (some 2) = some ⟨2, 8, 16, 2⟩ := by
  decide +kernel

end Verif.Props
