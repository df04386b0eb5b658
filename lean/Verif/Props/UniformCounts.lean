import Verif.Props.UniformExact

/-!
C52 and C96: exactly when x86 on Mach and FreeBSD counts caches that there are not, and when the APIC IDs
it publishes are those of the processors.
-/

set_option autoImplicit false

namespace Verif.Props
open Verif.Api Verif.Spec Verif.Platform
open Verif.X86Init (X86Processor CacheDesc)
open Verif.Uniform (MachTopology machTopology machInit freebsdTopology freebsdInit Topo EvenBy
  CachesOk evenTables commit cacheTable TablesOk Sharing)

/-! ### C52: counts -/

/-- Every published counter but that of the kinds of cores has its table. -/
def AllCountsMatch (g : Globals Elem) : Prop := ∀ k, k ≠ .uarch → CountsMatch g k

theorem counts_match_iff (t : Topo) (x : X86Processor) (uarch cpuid : Nat) (s : Uniform.Shares)
    (tb : Uniform.Tables) (c : Uniform.Caches) (n : Nat) (u : Elem .uarch) (ht : TablesOk t tb)
    (hc : CachesOk x s tb.processors c)
    (h1 : ¬ (x.l1i.size ≠ 0 ∨ x.l1d.size ≠ 0) → s.l1 = ⟨0, 0⟩) :
    AllCountsMatch (applyAll (commit t uarch cpuid s tb c n) (.initial u)) ↔
      s.l1.count = 0 ∨ (x.l1i.size = 0 ↔ x.l1d.size = 0) := by
  have len : ∀ (d : CacheDesc) (h : Uniform.Share), (cacheTable d h).length = h.count := by
    intro d h; unfold cacheTable; simp
  have ncores : tb.cores.length = t.cores := by rw [ht.cores]; simp
  have nclusters : tb.clusters.length = t.packages := by rw [ht.clusters]; simp
  have npackages : tb.packages.length = t.packages := by rw [ht.packages]; simp
  constructor
  · intro h
    by_cases h0 : s.l1.count = 0
    · exact .inl h0
    refine .inr ⟨fun hz => ?_, fun hz => ?_⟩
    · rcases h (.cache .l1i) (by intro h; cases h) with ⟨-, h2⟩ | ⟨y, h2, -⟩
      · exact absurd h2 h0
      · have h3 : c.l1i = none := hc.l1i.trans (if_neg fun h => h hz)
        cases h3.symm.trans h2
    · rcases h (.cache .l1d) (by intro h; cases h) with ⟨-, h2⟩ | ⟨y, h2, -⟩
      · exact absurd h2 h0
      · have h3 : c.l1d = none := hc.l1d.trans (if_neg fun h => h hz)
        cases h3.symm.trans h2
  · intro h k hk
    have l1 : ∀ (size : Nat), (size = 0 → x.l1i.size = 0 ∨ x.l1d.size = 0) → size = 0 →
        s.l1.count = 0 := by
      intro size hs hz
      rcases h with h | h
      · exact h
      · have : s.l1 = ⟨0, 0⟩ := h1 (by have := hs hz; omega)
        rw [this]
    have low : ∀ (s : Uniform.Share) (d : CacheDesc) (tab : Option (List X86Init.Cache)),
        tab = (if s.count ≠ 0 then some (cacheTable d s) else none) →
        (tab = none ∧ s.count = 0) ∨ ∃ t, tab = some t ∧ t.length = s.count := by
      intro s d tab e
      by_cases h0 : s.count = 0
      · exact .inl ⟨e.trans (if_neg fun h => h h0), h0⟩
      · exact .inr ⟨_, e.trans (if_pos h0), len _ _⟩
    cases k with
    | processor => exact .inr ⟨c.processors, rfl, hc.length.trans ht.length⟩
    | core => exact .inr ⟨tb.cores, rfl, ncores⟩
    | cluster => exact .inr ⟨tb.clusters, rfl, nclusters⟩
    | package => exact .inr ⟨tb.packages, rfl, npackages⟩
    | uarch => exact absurd rfl hk
    | cache l =>
      cases l with
      | l1i =>
        by_cases hz : x.l1i.size = 0
        · exact .inl ⟨hc.l1i.trans (if_neg fun h => h hz), l1 _ .inl hz⟩
        · exact .inr ⟨_, hc.l1i.trans (if_pos hz), len _ _⟩
      | l1d =>
        by_cases hz : x.l1d.size = 0
        · exact .inl ⟨hc.l1d.trans (if_neg fun h => h hz), l1 _ .inr hz⟩
        · exact .inr ⟨_, hc.l1d.trans (if_pos hz), len _ _⟩
      | l2 => exact low s.l2 x.l2 _ hc.l2
      | l3 => exact low s.l3 x.l3 _ hc.l3
      | l4 => exact low s.l4 x.l4 _ hc.l4

/-- There are no first-level caches on Mach exactly if more threads share one than there are. -/
theorem mach_l1_zero {m : MachTopology} {x : X86Processor} {s : Uniform.Shares}
    (hs : Uniform.machShares m x = some s) (hx : x.l1i.size ≠ 0 ∨ x.l1d.size ≠ 0) :
    s.l1.count = 0 ↔ ∃ r, m.threadsPerCache[1]? = some r ∧ m.threads < r := by
  obtain ⟨r1, r2, r3, r4, g1, -, -, -, s1, -⟩ := Uniform.machShares_some hs
  obtain ⟨e1, e2, e3⟩ := s1.1 hx
  rw [e3]
  by_cases h0 : r1 = 0
  · rw [if_pos h0] at e1
    constructor
    · intro h
      rcases Nat.div_eq_zero_iff.mp h with h | h
      · exact absurd h e2
      · rw [e1] at h
        exact absurd (Nat.div_le_self _ _) (Nat.not_le.mpr h)
    · rintro ⟨r, hr, hlt⟩
      rw [g1] at hr
      cases hr
      omega
  · rw [if_neg h0] at e1
    rw [e1]
    constructor
    · intro h
      exact ⟨r1, g1, (Nat.div_eq_zero_iff.mp h).resolve_left h0⟩
    · rintro ⟨r, hr, hlt⟩
      rw [g1] at hr
      cases hr
      exact Nat.div_eq_of_lt hlt

/-- On FreeBSD there are always some. -/
theorem freebsd_l1_pos {t : Topo} {x : X86Processor} {s : Uniform.Shares}
    (hs : Uniform.freebsdShares t x = some s) (hx : x.l1i.size ≠ 0 ∨ x.l1d.size ≠ 0) :
    s.l1.count ≠ 0 := by
  obtain ⟨s1, -⟩ := Uniform.freebsdShares_some hs
  obtain ⟨e1, e2, e3⟩ := s1.1 hx
  rw [if_pos rfl] at e1
  rw [e3]
  intro h
  rcases Nat.div_eq_zero_iff.mp h with h | h
  · exact e2 h
  · rw [e1] at h
    exact absurd (Nat.div_le_self _ _) (Nat.not_le.mpr h)

/-- **C52, Mach, exactly.** Whatever the system answers, after every successful detection: a table stands
behind every counter if and only if CPUID describes both first-level caches or neither, or the system
reports that more threads share a first-level cache than there are. -/
theorem C52_mach_exact (m : MachTopology) (x : X86Processor) (uarch cpuid : Nat) (alloc : Nat → Bool)
    (u : Elem .uarch) (st : List (Store Elem)) (h : machInit m x uarch cpuid alloc = some st)
    (hf : (applyAll st (.initial u)).isInitialized = true) :
    AllCountsMatch (applyAll st (.initial u)) ↔ (x.l1i.size = 0 ↔ x.l1d.size = 0) ∨
      ∃ r, m.threadsPerCache[1]? = some r ∧ m.threads < r := by
  rcases Uniform.machInit_some m x uarch cpuid alloc st h with
    rfl | ⟨tb, s, c, k, -, ht, hs, hc, -, rfl⟩
  · cases hf
  obtain ⟨_, _, _, _, -, -, -, -, s1, -⟩ := Uniform.machShares_some hs
  rw [counts_match_iff _ x uarch cpuid s tb c k u ht hc s1.2]
  by_cases hx : x.l1i.size ≠ 0 ∨ x.l1d.size ≠ 0
  · rw [mach_l1_zero hs hx]
    exact or_comm
  · have : x.l1i.size = 0 ↔ x.l1d.size = 0 := by omega
    exact ⟨fun _ => .inl this, fun _ => .inr this⟩

/-- **C52, FreeBSD, exactly.** Likewise, if and only if CPUID describes both or neither. -/
theorem C52_freebsd_exact (t : Topo) (x : X86Processor) (uarch cpuid : Nat) (alloc : Nat → Bool)
    (u : Elem .uarch) (st : List (Store Elem)) (h : freebsdInit (some t) x uarch cpuid alloc = some st)
    (hf : (applyAll st (.initial u)).isInitialized = true) :
    AllCountsMatch (applyAll st (.initial u)) ↔ (x.l1i.size = 0 ↔ x.l1d.size = 0) := by
  rcases Uniform.freebsdInit_some t x uarch cpuid alloc st h with
    rfl | ⟨tb, s, c, k, ht, hs, hc, -, rfl⟩
  · cases hf
  obtain ⟨s1, -⟩ := Uniform.freebsdShares_some hs
  rw [counts_match_iff _ x uarch cpuid s tb c k u ht hc s1.2]
  by_cases hx : x.l1i.size ≠ 0 ∨ x.l1d.size ≠ 0
  · exact ⟨fun h => h.resolve_left (freebsd_l1_pos hs hx), .inr⟩
  · have : x.l1i.size = 0 ↔ x.l1d.size = 0 := by omega
    exact ⟨fun _ => this, fun _ => .inr this⟩

/-- The first-level cache of the kind that is not described is counted, and asking for the first one reads
through a null pointer. -/
def FaultsAtL1 (x : X86Processor) (g : Globals Elem) (b : Build) : Prop :=
  (x.l1i.size = 0 → ∃ n, (Query.l1iCachesCount.prog b).eval g = .ret (.num n) ∧ 0 < n ∧
    ((Query.l1iCache 0).prog b).eval g = .fault) ∧
  (x.l1d.size = 0 → ∃ n, (Query.l1dCachesCount.prog b).eval g = .ret (.num n) ∧ 0 < n ∧
    ((Query.l1dCache 0).prog b).eval g = .fault)

theorem faults_at_l1 (t : Topo) (x : X86Processor) (uarch cpuid : Nat) (s : Uniform.Shares)
    (tb : Uniform.Tables) (c : Uniform.Caches) (n : Nat) (u : Elem .uarch) (b : Build)
    (hc : CachesOk x s tb.processors c) (h : s.l1.count ≠ 0) :
    FaultsAtL1 x (applyAll (commit t uarch cpuid s tb c n) (.initial u)) b := by
  have hpos := Nat.pos_of_ne_zero h
  refine ⟨fun hz => ⟨_, rfl, hpos, ?_⟩, fun hz => ⟨_, rfl, hpos, ?_⟩⟩
  · exact Once.elem_null _ rfl _ _ _ hpos (hc.l1i.trans (if_neg (fun h => h hz)))
  · exact Once.elem_null _ rfl _ _ _ hpos (hc.l1d.trans (if_neg (fun h => h hz)))

/-- **C52 is violated, Mach, always.** After every successful detection with exactly one first-level cache
described, unless the system reports that more threads share it than there are. -/
theorem C52_violated_mach_always (m : MachTopology) (x : X86Processor) (uarch cpuid : Nat)
    (alloc : Nat → Bool) (u : Elem .uarch) (b : Build) (st : List (Store Elem))
    (h : machInit m x uarch cpuid alloc = some st)
    (hf : (applyAll st (.initial u)).isInitialized = true) (hx : ¬ (x.l1i.size = 0 ↔ x.l1d.size = 0))
    (hr : ∀ r, m.threadsPerCache[1]? = some r → r ≤ m.threads) :
    FaultsAtL1 x (applyAll st (.initial u)) b := by
  rcases Uniform.machInit_some m x uarch cpuid alloc st h with
    rfl | ⟨tb, s, c, k, -, ht, hs, hc, -, rfl⟩
  · cases hf
  refine faults_at_l1 _ x uarch cpuid s tb c k u b hc fun h0 => ?_
  obtain ⟨r, h1, h2⟩ := (mach_l1_zero hs (by omega)).mp h0
  exact absurd (hr r h1) (Nat.not_le.mpr h2)

/-- **C52 is violated, FreeBSD, always.** -/
theorem C52_violated_freebsd_always (t : Topo) (x : X86Processor) (uarch cpuid : Nat)
    (alloc : Nat → Bool) (u : Elem .uarch) (b : Build) (st : List (Store Elem))
    (h : freebsdInit (some t) x uarch cpuid alloc = some st)
    (hf : (applyAll st (.initial u)).isInitialized = true)
    (hx : ¬ (x.l1i.size = 0 ↔ x.l1d.size = 0)) :
    FaultsAtL1 x (applyAll st (.initial u)) b := by
  rcases Uniform.freebsdInit_some t x uarch cpuid alloc st h with
    rfl | ⟨tb, s, c, k, ht, hs, hc, -, rfl⟩
  · cases hf
  exact faults_at_l1 _ x uarch cpuid s tb c k u b hc (freebsd_l1_pos hs (by omega))

/-! ### C96: APIC IDs -/

/-- The fields of the APIC ID of every published processor are its number within the core, the number of
its core within the package, and the number of its package. -/
def OwnApicIds (x : X86Processor) (g : Globals Elem) : Prop :=
  ∃ (ps : List Processor) (cs : List Core), g.table .processor = some ps ∧ g.table .core = some cs ∧
    ∀ p ∈ ps, ∃ (k q : Nat) (c : Core), p.core = some k ∧ cs[k]? = some c ∧ p.package = some q ∧
      p.apicId / 2 ^ x.topology.threadOffset % 2 ^ x.topology.threadLength = p.smtId ∧
      p.apicId / 2 ^ x.topology.coreOffset % 2 ^ x.topology.coreLength = c.coreId ∧
      p.apicId / 2 ^ (x.topology.coreOffset + x.topology.coreLength) = q

/-- The fields of the value. -/
theorem apicVal_fields (b : X86Init.Topology) (s c p : Nat) (hs : s < 2 ^ b.threadLength)
    (ho : b.threadOffset + b.threadLength ≤ b.coreOffset)
    (hp : (p + 1) * 2 ^ (b.coreOffset + b.coreLength) ≤ U32) :
    Uniform.apicVal b s c p / 2 ^ b.threadOffset % 2 ^ b.threadLength = s ∧
    Uniform.apicVal b s c p / 2 ^ b.coreOffset % 2 ^ b.coreLength = c % 2 ^ b.coreLength ∧
    Uniform.apicVal b s c p / 2 ^ (b.coreOffset + b.coreLength) = p := by
  have hlow : 2 ^ b.threadOffset * s < 2 ^ b.coreOffset := by
    refine Nat.lt_of_lt_of_le ?_ (Nat.pow_le_pow_right (by omega) ho)
    rw [Nat.pow_add]
    exact Nat.mul_lt_mul_of_pos_left hs (Nat.two_pow_pos _)
  have hv := Uniform.apicVal_eq b s c p hs ho hp
  obtain ⟨a1, a2, -⟩ := Uniform.apic_fields b.coreOffset b.threadOffset _ _ p hlow hv b.coreLength
    (by rw [Nat.mul_add_mod, Nat.mod_mod])
  refine ⟨?_, by rw [a1, Nat.mul_add_mod, Nat.mod_mod], a2⟩
  obtain ⟨d, hd⟩ : ∃ d, b.coreOffset = b.threadOffset + (b.threadLength + d) :=
    ⟨b.coreOffset - b.threadOffset - b.threadLength, by omega⟩
  rw [hv, hd, Nat.pow_add, Nat.mul_assoc, ← Nat.mul_add,
    Nat.mul_div_cancel_left _ (Nat.two_pow_pos _), Nat.pow_add, Nat.mul_assoc, Nat.mul_add_mod,
    Nat.mod_eq_of_lt hs]

/-- On an even machine whose fields have room. -/
theorem own_iff (t : Topo) (x : X86Processor) (uarch cpuid cpp : Nat) (s : Uniform.Shares)
    (c : Uniform.Caches) (n : Nat) (u : Elem .uarch) (h : EvenBy t cpp)
    (hc : CachesOk x s (evenTables t x.topology cpp).processors c)
    (hx : x.topology.threadOffset + x.topology.threadLength ≤ x.topology.coreOffset ∧
      t.threadsPerCore ≤ 2 ^ x.topology.threadLength ∧ cpp ≤ 2 ^ x.topology.coreLength ∧
      t.packages * 2 ^ (x.topology.coreOffset + x.topology.coreLength) ≤ 2 ^ 32) :
    OwnApicIds x (applyAll (commit t uarch cpuid s (evenTables t x.topology cpp) c n) (.initial u)) ↔
      t.packages = 1 ∨ cpp = 2 ^ x.topology.coreLength := by
  have hcp := h.cppPos
  have htp := h.perCore
  have hlen : c.processors.length = t.threads := by rw [hc.length]; simp [evenTables]
  have hcore : ∀ k : Nat, k < t.cores →
      (evenTables t x.topology cpp).cores[k]? = some (Uniform.coreOf t cpp k) := by
    intro k hk
    show ((List.range t.cores).map (Uniform.coreOf t cpp))[k]? = _
    rw [List.getElem?_map, List.getElem?_range hk]; rfl
  have hfields : ∀ (i : Nat) (p : Processor), c.processors[i]? = some p →
      i / t.threadsPerCore < t.cores ∧
      p.apicId / 2 ^ x.topology.threadOffset % 2 ^ x.topology.threadLength = i % t.threadsPerCore ∧
      p.apicId / 2 ^ x.topology.coreOffset % 2 ^ x.topology.coreLength =
        i / t.threadsPerCore % 2 ^ x.topology.coreLength ∧
      p.apicId / 2 ^ (x.topology.coreOffset + x.topology.coreLength) =
        i / (cpp * t.threadsPerCore) := by
    intro i p hp
    obtain ⟨hi, -, -, -, -, ei, -⟩ := uniform_links t x cpp s c hc i p hp
    have hk : i / t.threadsPerCore < t.cores := by
      rw [Nat.div_lt_iff_lt_mul htp, ← h.threads]; exact hi
    have hq : i / (cpp * t.threadsPerCore) < t.packages := by
      rw [Nat.div_lt_iff_lt_mul (Nat.mul_pos hcp htp), ← Nat.mul_assoc, ← h.cores, ← h.threads]
      exact hi
    rw [ei]
    exact ⟨hk, apicVal_fields x.topology _ _ _ (Nat.lt_of_lt_of_le (Nat.mod_lt _ htp) hx.2.1) hx.1
      (Nat.le_trans (Nat.mul_le_mul_right _ hq) hx.2.2.2)⟩
  constructor
  · rintro ⟨ps, cs, e1, e2, hall⟩
    cases e1
    cases e2
    by_cases h1 : t.packages = 1
    · exact .inl h1
    refine .inr ?_
    have hp0 := h.packages
    have hi : cpp * t.threadsPerCore < t.threads := by
      rw [h.threads, h.cores]
      refine Nat.mul_lt_mul_of_pos_right ?_ htp
      calc cpp = 1 * cpp := (Nat.one_mul _).symm
        _ < t.packages * cpp := Nat.mul_lt_mul_of_pos_right (by omega) hcp
    obtain ⟨p, hp⟩ : ∃ p, c.processors[cpp * t.threadsPerCore]? = some p :=
      ⟨_, List.getElem?_eq_getElem (by omega)⟩
    obtain ⟨k, q, y, g1, g2, -, -, g3, -⟩ := hall p (List.mem_of_getElem? hp)
    obtain ⟨-, -, f1, -⟩ := uniform_links t x cpp s c hc _ p hp
    obtain ⟨f2, -, f3, -⟩ := hfields _ p hp
    rw [Nat.mul_div_cancel _ htp] at f1 f2 f3
    rw [f1] at g1
    cases g1
    rw [hcore cpp f2] at g2
    cases g2
    rw [f3] at g3
    have g3 : cpp % 2 ^ x.topology.coreLength = cpp % cpp := g3
    rw [Nat.mod_self] at g3
    exact Nat.le_antisymm hx.2.2.1 (Nat.le_of_dvd hcp (Nat.dvd_of_mod_eq_zero g3))
  · intro hor
    refine ⟨c.processors, (evenTables t x.topology cpp).cores, rfl, rfl, fun p hpm => ?_⟩
    obtain ⟨i, hp⟩ := List.getElem?_of_mem hpm
    obtain ⟨hi, l1, l2, -, l3, -⟩ := uniform_links t x cpp s c hc i p hp
    obtain ⟨f1, f2, f3, f4⟩ := hfields i p hp
    refine ⟨_, _, _, l2, hcore _ f1, l3, by rw [f2, l1], ?_, f4⟩
    rw [f3]
    show i / t.threadsPerCore % 2 ^ x.topology.coreLength = i / t.threadsPerCore % cpp
    rcases hor with hor | hor
    · have : t.cores = cpp := by rw [h.cores, hor, Nat.one_mul]
      rw [Nat.mod_eq_of_lt (by omega), Nat.mod_eq_of_lt (by omega)]
    · rw [hor]

/-- **C96, Mach, exactly.** On every even machine whose bit fields have room, with memory: the APIC IDs are
the processors' own if and only if there is one package or the cores of a package fill the core field. -/
theorem C96_mach_exact (cores threads packages : Option Int) (config : Option (List Nat))
    (m : MachTopology) (x : X86Processor) (uarch cpuid : Nat) (alloc : Nat → Bool)
    (hm : m = machTopology cores threads packages config) (hw : m.threads < 2 ^ 32)
    (h1 : m.packages ∣ m.cores) (h2 : m.cores ∣ m.threads) (hs : SharingDivides m x)
    (hb : FieldsFit x) (hx : FieldsRoom x m.threads m.cores m.packages) (ha : ∀ i < 9, alloc i = true)
    (u : Elem .uarch) :
    ∃ st, machInit m x uarch cpuid alloc = some st ∧ (OwnApicIds x (applyAll st (.initial u)) ↔
      m.packages = 1 ∨ m.cores / m.packages = 2 ^ x.topology.coreLength) := by
  obtain ⟨he, hr⟩ := mach_stores cores threads packages config m x uarch cpuid alloc hm hw h1 h2 hs hb
  rcases hr with ⟨⟨i, hi, hi'⟩, -⟩ | ⟨s, c, mx, -, hsh, hc, -, e⟩
  · rw [ha i hi] at hi'; cases hi'
  · exact ⟨_, e, own_iff _ x uarch cpuid _ s c mx u he hc hx⟩

/-- **C96, FreeBSD, exactly.** Likewise. -/
theorem C96_freebsd_exact (spec : Option Bytes) (cores perCore : Option Int) (t : Topo)
    (x : X86Processor) (uarch cpuid : Nat) (alloc : Nat → Bool)
    (ht : freebsdTopology spec cores perCore = some t) (h1 : t.packages ∣ t.cores)
    (h2 : t.threadsPerCore * t.cores < 2 ^ 32) (hb : FieldsFit x)
    (hx : FieldsRoom x (t.threadsPerCore * t.cores) t.cores t.packages) (ha : ∀ i < 9, alloc i = true)
    (u : Elem .uarch) :
    ∃ st, freebsdInit (some t) x uarch cpuid alloc = some st ∧
      (OwnApicIds x (applyAll st (.initial u)) ↔
        t.packages = 1 ∨ t.cores / t.packages = 2 ^ x.topology.coreLength) := by
  obtain ⟨he, hr⟩ := freebsd_stores spec cores perCore t x uarch cpuid alloc ht h1 h2 hb
  obtain ⟨-, -, -, -, -, hcp⟩ := Uniform.even_dvd he
  have hx' := hx.2.1
  rw [Nat.mul_div_cancel _ hcp] at hx'
  rcases hr with ⟨⟨i, hi, hi'⟩, -⟩ | ⟨s, c, mx, -, hsh, hc, -, e⟩
  · rw [ha i hi] at hi'; cases hi'
  · exact ⟨_, e, own_iff _ x uarch cpuid _ s c mx u he hc ⟨hx.1, hx', hx.2.2⟩⟩

/-! ### Cases that meet the hypotheses -/

/-- Three packages with four cores and nine threads, with an L1 data cache only. -/
example (u : Elem .uarch) : ∃ st,
    machInit (machTopology (some 4) (some 9) (some 3) none) { plainX86 with l1d := cachedX86.l1d } 0 0
      (fun _ => true) = some st ∧
    (applyAll st (.initial u)).isInitialized = true ∧ plainX86.l1i.size = 0 ∧
    ∀ r, (machTopology (some 4) (some 9) (some 3) none).threadsPerCache[1]? = some r → r ≤ 9 :=
  ⟨_, rfl, rfl, rfl, fun r hr => by cases hr; omega⟩

/-- The same, nine threads of which sixteen share the caches of the first level, and one of the second
level. -/
example (u : Elem .uarch) : ∃ st,
    machInit (machTopology (some 4) (some 9) (some 3) (some [9, 16, 1]))
      { plainX86 with l1d := cachedX86.l1d, l2 := cachedX86.l2 } 0 0 (fun _ => true) = some st ∧
    (applyAll st (.initial u)).isInitialized = true :=
  ⟨_, rfl, rfl⟩

/-- Two packages of eight cores fill three bits; of six do not. -/
example : (machTopology (some 16) (some 32) (some 2) none).cores /
      (machTopology (some 16) (some 32) (some 2) none).packages = 2 ^ plainX86.topology.coreLength ∧
    FieldsRoom plainX86 32 16 2 ∧ FieldsRoom plainX86 24 12 2 ∧ FieldsFit plainX86 := by
  refine ⟨by decide, ?_, ?_, ?_⟩
  · unfold FieldsRoom; decide
  · unfold FieldsRoom; decide
  · unfold FieldsFit; decide

end Verif.Props
