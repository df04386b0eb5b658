import Verif.Proof.UniformExact
import Verif.Props.Uniform

/-!
C51: for which numbers x86 on Mach and FreeBSD publishes consistent tables, and what it publishes for
the others.
-/

set_option autoImplicit false

namespace Verif.Props
open Verif.Api Verif.Spec Verif.Platform
open Verif.X86Init (X86Processor CacheDesc)
open Verif.Uniform (MachTopology machTopology machInit freebsdTopology freebsdInit Topo EvenBy BitsOk
  SharesOk ShareOk CachesOk evenTables commit cacheTable TablesOk Sharing)

/-- Where the system says how many threads share a cache that there is, the number divides that of
the threads; from the second level on it may also exceed it, then no cache of the level is published. -/
def SharingFits (m : MachTopology) (x : X86Processor) : Prop :=
  ∀ k r : Nat, HasLevel x k → m.threadsPerCache[k]? = some r →
    r = 0 ∨ r ∣ m.threads ∨ (2 ≤ k ∧ m.threads < r)

/-- Detection is defined, is successful and publishes consistent tables. -/
def Consistent (r : Option (List (Store Elem))) (u : Elem .uarch) : Prop :=
  ∃ st ps cs ls pks, r = some st ∧ (applyAll st (.initial u)).isInitialized = true ∧
    Described (applyAll st (.initial u)) ps cs ls pks

theorem consecutive_total {a b : Nat} {rs : List (Nat × Nat)} (h : Consecutive a rs b) :
    a + (rs.map (·.2)).sum = b := by
  induction h with
  | nil => rfl
  | cons hn _ ih => rw [List.map_cons, List.sum_cons, ← ih]; omega

/-- Equal parts divide a number only if they add up to it. -/
theorem divides_total {α β : Type} {ps : List α} {n k : Nat} {f : Nat → β}
    {link : α → Option Nat} {start count : β → Nat}
    (h : Divides ps ((List.range n).map f) link start count) (hf : ∀ i, count (f i) = k) : n * k = ps.length := by
  have := consecutive_total h.1
  rw [← this, List.map_map, List.map_map, Nat.zero_add]
  have e : (((fun x : Nat × Nat => x.2) ∘ (fun e => (start e, count e))) ∘ f) = fun _ => k := by
    funext i; exact hf i
  rw [e, List.map_const', List.length_range, List.sum_replicate_nat]

/-- The cache table of a level. -/
theorem level_table (t : Topo) (x : X86Processor) (uarch cpuid : Nat) (s : Uniform.Shares)
    (tb : Uniform.Tables) (c : Uniform.Caches) (k : Nat) (u : Elem .uarch)
    (hc : CachesOk x s tb.processors c) (l : Level)
    (h1 : levelNumber l = 1 → (descOf x l).size ≠ 0)
    (h2 : 2 ≤ levelNumber l → (shareOf s l).count ≠ 0) :
    (applyAll (commit t uarch cpuid s tb c k) (.initial u)).table (.cache l) =
      some (cacheTable (descOf x l) (shareOf s l)) := by
  cases l with
  | l1i => exact hc.l1i.trans (if_pos (h1 rfl))
  | l1d => exact hc.l1d.trans (if_pos (h1 rfl))
  | l2 => exact hc.l2.trans (if_pos (h2 (by decide)))
  | l3 => exact hc.l3.trans (if_pos (h2 (by decide)))
  | l4 => exact hc.l4.trans (if_pos (h2 (by decide)))

/-- The cache link of a processor. -/
theorem level_link (x : X86Processor) (s : Uniform.Shares) (ps : List Processor)
    (c : Uniform.Caches) (hc : CachesOk x s ps c) (l : Level)
    (h1 : levelNumber l = 1 → (descOf x l).size ≠ 0)
    (h2 : 2 ≤ levelNumber l → (shareOf s l).count ≠ 0) (i : Nat) (p : Processor)
    (hp : c.processors[i]? = some p) : cacheLink l p = some (i / (shareOf s l).per) := by
  rw [hc.processors i] at hp
  obtain ⟨p0, -, rfl⟩ := Option.map_eq_some_iff.mp hp
  cases l with
  | l1i => exact if_pos (h1 rfl)
  | l1d => exact if_pos (h1 rfl)
  | l2 => exact if_pos (h2 (by decide))
  | l3 => exact if_pos (h2 (by decide))
  | l4 => exact if_pos (h2 (by decide))

/-- The links that do not depend on caches. -/
theorem core_link (t : Topo) (x : X86Processor) (s : Uniform.Shares) (tb : Uniform.Tables)
    (c : Uniform.Caches) (ht : TablesOk t tb) (hc : CachesOk x s tb.processors c) (i : Nat)
    (p : Processor) (hp : c.processors[i]? = some p) :
    t.threadsPerCore ≠ 0 ∧ p.core = some (i / t.threadsPerCore) := by
  rw [hc.processors i] at hp
  obtain ⟨p0, h0, rfl⟩ := Option.map_eq_some_iff.mp hp
  obtain ⟨h1, h2, -⟩ := ht.linked i p0 h0
  exact ⟨h1, h2⟩

/-- What the system reports about a level that there is. -/
theorem mach_level {m : MachTopology} {x : X86Processor} {s : Uniform.Shares}
    (hs : Uniform.machShares m x = some s) (l : Level) (hl : HasLevel x (levelNumber l)) (r : Nat)
    (hr : m.threadsPerCache[levelNumber l]? = some r) (h0 : r ≠ 0) :
    (shareOf s l).per = r ∧ (shareOf s l).count = m.threads / r := by
  obtain ⟨r1, r2, r3, r4, g1, g2, g3, g4, s1, s2, s3, s4⟩ := Uniform.machShares_some hs
  have key : ∀ {P : Prop} {r a : Nat} {sh : Uniform.Share}, r ≠ 0 → P →
      Sharing P r a m.threads sh → sh.per = r ∧ sh.count = m.threads / r := by
    intro P r a sh h0 hP h
    obtain ⟨e1, -, e2⟩ := h.1 hP
    rw [if_neg h0] at e1
    exact ⟨e1, by rw [e2, e1]⟩
  cases l with
  | l1i => rw [show levelNumber .l1i = 1 from rfl, g1] at hr; cases hr; exact key h0 hl s1
  | l1d => rw [show levelNumber .l1d = 1 from rfl, g1] at hr; cases hr; exact key h0 hl s1
  | l2 => rw [show levelNumber .l2 = 2 from rfl, g2] at hr; cases hr; exact key h0 hl s2
  | l3 => rw [show levelNumber .l3 = 3 from rfl, g3] at hr; cases hr; exact key h0 hl s3
  | l4 => rw [show levelNumber .l4 = 4 from rfl, g4] at hr; cases hr; exact key h0 hl s4

theorem hasLevel_of (x : X86Processor) (l : Level) (h : (descOf x l).size ≠ 0) :
    HasLevel x (levelNumber l) := by
  cases l with
  | l1i => exact .inl h
  | l1d => exact .inr h
  | l2 => exact h
  | l3 => exact h
  | l4 => exact h

/-- A level has a table or the number of its level has one. -/
theorem level_of (x : X86Processor) (k : Nat) (h : HasLevel x k) :
    ∃ l, levelNumber l = k ∧ (descOf x l).size ≠ 0 := by
  match k, h with
  | 1, .inl h => exact ⟨.l1i, rfl, h⟩
  | 1, .inr h => exact ⟨.l1d, rfl, h⟩
  | 2, h => exact ⟨.l2, rfl, h⟩
  | 3, h => exact ⟨.l3, rfl, h⟩
  | 4, h => exact ⟨.l4, rfl, h⟩

/-- Consistent tables mean numbers that divide. -/
theorem mach_consistent_dvd (m : MachTopology) (x : X86Processor) (uarch cpuid : Nat)
    (alloc : Nat → Bool) (u : Elem .uarch)
    (h : Consistent (machInit m x uarch cpuid alloc) u) :
    m.packages ∣ m.cores ∧ m.cores ∣ m.threads ∧ SharingFits m x := by
  obtain ⟨st, ps, cs, ls, pks, hr, hf, hd⟩ := h
  rcases Uniform.machInit_some m x uarch cpuid alloc st hr with rfl | ⟨tb, s, c, k, -, ht, hs, hc, -, rfl⟩
  · cases hf
  have ep : some c.processors = some ps := hd.processors
  have ec : some tb.cores = some cs := hd.cores
  have eq : some tb.packages = some pks := hd.packages
  have np : m.threads = ps.length := hd.processorCount
  have nc : m.cores = cs.length := hd.coreCount
  cases ep
  cases ec
  cases eq
  have d1 := hd.inCores
  have d2 := hd.coresInPackages
  rw [ht.cores] at d1
  have e1 := divides_total (k := m.threads / m.cores) d1 (fun i => rfl)
  rw [ht.packages] at d2
  have e2 := divides_total (k := m.cores / m.packages) d2 (fun i => rfl)
  rw [← np] at e1
  rw [← nc] at e2
  refine ⟨⟨_, e2.symm⟩, ⟨_, e1.symm⟩, fun n r hl hr => ?_⟩
  by_cases h0 : r = 0
  · exact .inl h0
  obtain ⟨l, rfl, hz⟩ := level_of x n hl
  obtain ⟨q1, q2⟩ := mach_level hs l hl r hr h0
  by_cases hb : 2 ≤ levelNumber l ∧ m.threads < r
  · exact .inr (.inr hb)
  refine .inr (.inl ?_)
  by_cases h2 : 2 ≤ levelNumber l ∧ m.threads / r = 0
  · exact absurd ⟨h2.1, (Nat.div_eq_zero_iff.mp h2.2).resolve_left h0⟩ hb
  have hcount : 2 ≤ levelNumber l → (shareOf s l).count ≠ 0 := by
    intro hl2 h3
    rw [q2] at h3
    exact h2 ⟨hl2, h3⟩
  have htab := level_table ⟨m.packages, m.cores, m.threads, m.threads / m.cores⟩ x uarch cpuid s tb c k
    u hc l (fun _ => hz) hcount
  rcases hd.caches l with ⟨e, -⟩ | ⟨t, e, -, d⟩
  · rw [htab] at e; cases e
  · rw [htab] at e
    cases e
    have e3 := divides_total (k := (shareOf s l).per) d (fun i => rfl)
    rw [q1, ← np] at e3
    exact ⟨_, (e3.symm.trans (Nat.mul_comm _ _))⟩

/-- Numbers that divide mean consistent tables. -/
theorem mach_dvd_consistent (cores threads packages : Option Int) (config : Option (List Nat))
    (m : MachTopology) (x : X86Processor) (uarch cpuid : Nat) (alloc : Nat → Bool)
    (hm : m = machTopology cores threads packages config) (hw : m.threads < 2 ^ 32) (hb : FieldsFit x)
    (ha : ∀ i < 9, alloc i = true) (u : Elem .uarch)
    (h1 : m.packages ∣ m.cores) (h2 : m.cores ∣ m.threads) (h3 : SharingFits m x) :
    Consistent (machInit m x uarch cpuid alloc) u := by
  obtain ⟨p1, p2, p3, hl⟩ := Uniform.machTopology_pos cores threads packages config
  rw [← hm] at p1 p2 p3 hl
  have he := Uniform.evenBy_of_dvd m.packages m.cores m.threads p1 p2 p3 h1 h2 hw
  obtain ⟨d1, d2, d3, d4, -, -⟩ := Uniform.even_dvd he
  dsimp only at d1 d2 d3 d4
  obtain ⟨s, hs⟩ := Uniform.machShares_even m x _ _ he hl
  obtain ⟨r1, r2, r3, r4, g1, g2, g3, g4, s1, s2, s3, s4⟩ := Uniform.machShares_some hs
  have f3 : m.threads / m.cores ∣ m.threads := d3
  have f4 : m.threads / m.packages ∣ m.threads := by rw [d2]; exact d4
  have low : ∀ {size r a : Nat} {sh : Uniform.Share} {d : CacheDesc}, d.size = size →
      Sharing (size ≠ 0) r a m.threads sh → a ∣ m.threads →
      (size ≠ 0 → r = 0 ∨ r ∣ m.threads ∨ m.threads < r) →
      sh.count = 0 ∨ (d.size ≠ 0 ∧ 0 < sh.per ∧ sh.count * sh.per = m.threads) := by
    intro size r a sh d hd h hda hr
    by_cases hz : size = 0
    · left; rw [h.2 (fun h => h hz)]
    obtain ⟨e1, e2, e3⟩ := h.1 hz
    have hdvd : sh.per ∣ m.threads → sh.count = 0 ∨
        (d.size ≠ 0 ∧ 0 < sh.per ∧ sh.count * sh.per = m.threads) := fun hh =>
      .inr ⟨by rw [hd]; exact hz, Nat.pos_of_ne_zero e2, by rw [e3]; exact Nat.div_mul_cancel hh⟩
    by_cases h0 : r = 0
    · rw [if_pos h0] at e1
      exact hdvd (by rw [e1]; exact hda)
    · rw [if_neg h0] at e1
      rcases (hr hz).resolve_left h0 with hh | hh
      · exact hdvd (by rw [e1]; exact hh)
      · left; rw [e3, e1]; exact Nat.div_eq_of_lt hh
  have hso : SharesOk m.threads (Uniform.dropX x s) (Uniform.dropShares s) := by
    refine ⟨?_, ?_, Uniform.share_drop (low rfl s2 (by split <;> assumption) fun h => ?_),
      Uniform.share_drop (low rfl s3 f4 fun h => ?_),
      Uniform.share_drop (low rfl s4 (Nat.dvd_refl _) fun h => ?_)⟩
    · intro h
      obtain ⟨e1, e2, e3⟩ := s1.1 h
      refine ⟨Nat.pos_of_ne_zero e2, ?_⟩
      show s.l1.count * s.l1.per = m.threads
      rw [e3]
      refine Nat.div_mul_cancel ?_
      rw [e1]
      by_cases h0 : r1 = 0
      · rw [if_pos h0]; exact f3
      · rw [if_neg h0]
        rcases (h3 1 r1 h g1).resolve_left h0 with hh | ⟨hh, -⟩
        · exact hh
        · omega
    · intro h h'
      exact s1.2 (fun hh => hh.elim (fun a => a h) (fun a => a h'))
    · rcases h3 2 r2 h g2 with hh | hh | ⟨-, hh⟩
      · exact .inl hh
      · exact .inr (.inl hh)
      · exact .inr (.inr hh)
    · rcases h3 3 r3 h g3 with hh | hh | ⟨-, hh⟩
      · exact .inl hh
      · exact .inr (.inl hh)
      · exact .inr (.inr hh)
    · rcases h3 4 r4 h g4 with hh | hh | ⟨-, hh⟩
      · exact .inl hh
      · exact .inr (.inl hh)
      · exact .inr (.inr hh)
  have f1 : Uniform.div? m.threads m.cores = some (m.threads / m.cores) := by
    unfold Uniform.div?; rw [if_neg (by omega)]
  have hf : machInit m x uarch cpuid alloc =
      Uniform.finish ⟨m.packages, m.cores, m.threads, m.threads / m.cores⟩ (Uniform.dropX x s) uarch
        cpuid alloc (evenTables ⟨m.packages, m.cores, m.threads, m.threads / m.cores⟩
          (Uniform.dropX x s).topology (m.cores / m.packages)) (Uniform.dropShares s) := by
    unfold machInit
    rw [if_pos ⟨ha 0 (by omega), ha 1 (by omega), ha 2 (by omega), ha 3 (by omega)⟩]
    simp only [f1, Option.bind_eq_bind, Option.bind_some,
      Uniform.tables_eq _ x.topology _ he ⟨hb.1, hb.2⟩, hs]
    exact Uniform.finish_drop _ _ _ _ _ _ _
  rcases Uniform.finish_eq ⟨m.packages, m.cores, m.threads, m.threads / m.cores⟩ (Uniform.dropX x s)
    uarch cpuid alloc _ he _ hso with ⟨⟨i, hi, hi'⟩, -⟩ | ⟨c, mx, hc, -, e⟩
  · rw [ha i hi] at hi'; cases hi'
  · exact ⟨_, _, _, _, _, hf.trans e, rfl, uniform_described _ (Uniform.dropX x s) uarch cpuid _ _ c mx u
      he hso hc⟩

/-- Fields that do not fit make the APIC ID undefined. -/
private theorem apicId_wide (b : X86Init.Topology)
    (h : ¬ (b.threadOffset + b.threadLength < 32 ∧ b.coreOffset + b.coreLength < 32)) (i j k : Nat) :
    Uniform.apicId b i j k = none := by
  unfold Uniform.apicId X86Init.bitMask X86Init.shl32
  by_cases h1 : b.threadLength < 32
  · by_cases h2 : b.coreLength < 32
    · by_cases h3 : b.threadOffset < 32
      · by_cases h4 : b.coreOffset < 32
        · have h5 : ¬ max (b.threadOffset + b.threadLength) (b.coreOffset + b.coreLength) < 32 := by
            omega
          simp [h1, h2, h3, h4, h5]
        · simp [h1, h2, h3, h4]
      · simp [h1, h2, h3]
    · simp [h1, h2]
  · simp [h1]

private theorem tables_wide (t : Uniform.Topo) (b : X86Init.Topology) (ht : 0 < t.threads)
    (h : ¬ (b.threadOffset + b.threadLength < 32 ∧ b.coreOffset + b.coreLength < 32)) :
    Uniform.tables t b = none := by
  have hl : ∀ (tpp : Nat) (ps : List Processor), Uniform.processorLoop t b tpp ps = none := by
    intro tpp ps
    unfold Uniform.processorLoop
    obtain ⟨n, hn⟩ : ∃ n, t.threads = n + 1 := ⟨t.threads - 1, by omega⟩
    rw [hn]
    simp only [ArmClusters.forRange, apicId_wide b h]
    cases Uniform.mod? 0 t.threadsPerCore <;> cases Uniform.div? 0 t.threadsPerCore <;>
      cases Uniform.div? 0 tpp <;> rfl
  unfold Uniform.tables
  simp only [hl]
  cases Uniform.div? t.threads t.packages with
  | none => rfl
  | some tpp =>
    cases Uniform.div? t.cores t.packages with
    | none => rfl
    | some cpp =>
      simp only [Option.bind_eq_bind, Option.bind_some]
      cases Uniform.packageLoop t tpp cpp (List.replicate t.packages zeroCluster)
        (List.replicate t.packages zeroPackage) with
      | none => rfl
      | some cp =>
        simp only [Option.bind_some]
        cases Uniform.coreLoop t cpp (List.replicate t.cores zeroCore) <;> rfl

/-- **C51 is violated, Mach, by bit fields.** If the fields of the APIC ID that CPUID gives do not fit in
31 bits, detection shifts by 32 bits or more, whatever the system answers. -/
theorem C51_violated_mach_fields (cores threads packages : Option Int) (config : Option (List Nat))
    (m : MachTopology) (x : X86Processor) (uarch cpuid : Nat) (alloc : Nat → Bool)
    (hm : m = machTopology cores threads packages config) (hb : ¬ FieldsFit x)
    (ha : ∀ i < 4, alloc i = true) : machInit m x uarch cpuid alloc = none := by
  obtain ⟨p1, p2, p3, -⟩ := Uniform.machTopology_pos cores threads packages config
  rw [← hm] at p1 p2 p3
  unfold machInit
  rw [if_pos ⟨ha 0 (by omega), ha 1 (by omega), ha 2 (by omega), ha 3 (by omega)⟩]
  have f1 : Uniform.div? m.threads m.cores = some (m.threads / m.cores) := by
    unfold Uniform.div?; rw [if_neg (by omega)]
  simp only [f1, Option.bind_eq_bind, Option.bind_some]
  rw [tables_wide _ _ p3 hb]
  rfl

/-- **C51, Mach, exactly.** Whatever the system answers, with memory: the tables are published and
consistent if and only if the bit fields fit, packages divide cores, cores divide threads, and the
reported number of threads that share a cache divides the threads at every level that there is (or,
from the second level on, exceeds the threads). -/
theorem C51_mach_exact (cores threads packages : Option Int) (config : Option (List Nat))
    (m : MachTopology) (x : X86Processor) (uarch cpuid : Nat) (alloc : Nat → Bool)
    (hm : m = machTopology cores threads packages config) (hw : m.threads < 2 ^ 32)
    (ha : ∀ i < 9, alloc i = true) (u : Elem .uarch) :
    Consistent (machInit m x uarch cpuid alloc) u ↔
      FieldsFit x ∧ m.packages ∣ m.cores ∧ m.cores ∣ m.threads ∧ SharingFits m x := by
  refine ⟨fun h => ⟨?_, mach_consistent_dvd m x uarch cpuid alloc u h⟩, fun ⟨hb, h1, h2, h3⟩ =>
    mach_dvd_consistent cores threads packages config m x uarch cpuid alloc hm hw hb ha u h1 h2 h3⟩
  refine Classical.byContradiction fun hb => ?_
  obtain ⟨st, ps, cs, ls, pks, hr, -⟩ := h
  rw [C51_violated_mach_fields cores threads packages config m x uarch cpuid alloc hm hb
    fun i hi => ha i (by omega)] at hr
  cases hr

/-- **C51 is violated, Mach, always.** Whenever detection is successful: if cores do not divide threads
the last processor's core, and if packages do not divide cores the last core's package and cluster, are
behind the ends of their tables; and if the reported number of threads that share a cache (at most the
number of threads) does not divide the threads, the last processor's cache of that level is. -/
theorem C51_violated_mach_always (cores threads packages : Option Int) (config : Option (List Nat))
    (m : MachTopology) (x : X86Processor) (uarch cpuid : Nat) (alloc : Nat → Bool)
    (hm : m = machTopology cores threads packages config) (u : Elem .uarch) (st : List (Store Elem))
    (h : machInit m x uarch cpuid alloc = some st)
    (hf : (applyAll st (.initial u)).isInitialized = true) :
    ∃ (ps : List Processor) (cs : List Core) (ls : List Cluster) (pks : List X86Init.Package),
      (applyAll st (.initial u)).table .processor = some ps ∧
      (applyAll st (.initial u)).table .core = some cs ∧
      (applyAll st (.initial u)).table .cluster = some ls ∧
      (applyAll st (.initial u)).table .package = some pks ∧
      ps.length = m.threads ∧ cs.length = m.cores ∧
      (¬ m.cores ∣ m.threads → ∃ p k, ps[m.threads - 1]? = some p ∧ p.core = some k ∧
        cs[k]? = none) ∧
      (¬ m.packages ∣ m.cores → ∃ c k, cs[m.cores - 1]? = some c ∧ c.package = some k ∧
        c.cluster = some k ∧ pks[k]? = none ∧ ls[k]? = none) ∧
      ∀ (l : Level) (r : Nat), (descOf x l).size ≠ 0 → m.threadsPerCache[levelNumber l]? = some r →
        r ≠ 0 → r ≤ m.threads → ¬ r ∣ m.threads → ∃ (t : List X86Init.Cache) (p : Processor) (k : Nat),
          (applyAll st (.initial u)).table (.cache l) = some t ∧
          ps[m.threads - 1]? = some p ∧ cacheLink l p = some k ∧ t[k]? = none := by
  obtain ⟨p1, p2, p3, -⟩ := Uniform.machTopology_pos cores threads packages config
  rw [← hm] at p1 p2 p3
  rcases Uniform.machInit_some m x uarch cpuid alloc st h with rfl | ⟨tb, s, c, k, -, ht, hs, hc, -, rfl⟩
  · cases hf
  have hlen : c.processors.length = m.threads := hc.length.trans ht.length
  obtain ⟨p, hp⟩ : ∃ p, c.processors[m.threads - 1]? = some p :=
    ⟨_, List.getElem?_eq_getElem (by omega)⟩
  have hcl : tb.cores.length = m.cores := by rw [ht.cores]; simp
  refine ⟨c.processors, tb.cores, tb.clusters, tb.packages, rfl, rfl, rfl, rfl, hlen, hcl, ?_, ?_, ?_⟩
  · intro hd
    obtain ⟨h1, h2⟩ := core_link _ x s tb c ht hc _ p hp
    exact ⟨p, _, hp, h2, List.getElem?_eq_none (by rw [hcl]; exact Uniform.last_part h1 hd)⟩
  · intro hd
    have h1 := ht.perPackage p2
    have h2 : tb.cores[m.cores - 1]? = some (Uniform.coreOf
        ⟨m.packages, m.cores, m.threads, m.threads / m.cores⟩ (m.cores / m.packages) (m.cores - 1)) := by
      rw [ht.cores, List.getElem?_map, List.getElem?_range (by dsimp only; omega)]
      rfl
    refine ⟨_, _, h2, rfl, rfl, List.getElem?_eq_none ?_, List.getElem?_eq_none ?_⟩
    · rw [ht.packages, List.length_map, List.length_range]; exact Uniform.last_part h1 hd
    · rw [ht.clusters, List.length_map, List.length_range]; exact Uniform.last_part h1 hd
  · intro l r hz hr h0 hle hd
    obtain ⟨q1, q2⟩ := mach_level hs l (hasLevel_of x l hz) r hr h0
    have hcount : 2 ≤ levelNumber l → (shareOf s l).count ≠ 0 := by
      intro _ h3
      rw [q2] at h3
      rcases Nat.div_eq_zero_iff.mp h3 with h | h
      · exact h0 h
      · omega
    refine ⟨_, p, _, level_table _ x uarch cpuid s tb c k u hc l (fun _ => hz) hcount, hp,
      level_link x s tb.processors c hc l (fun _ => hz) hcount _ p hp, List.getElem?_eq_none ?_⟩
    unfold cacheTable
    rw [List.length_map, List.length_range, q1, q2, Uniform.last_div p3 hd]
    exact Nat.le_refl _

/-- **C51 is violated, FreeBSD, by bit fields.** Likewise, for every number of threads but 0. -/
theorem C51_violated_freebsd_fields (t : Topo) (x : X86Processor) (uarch cpuid : Nat)
    (alloc : Nat → Bool) (ht : 0 < t.threads) (hb : ¬ FieldsFit x) (ha : ∀ i < 4, alloc i = true) :
    freebsdInit (some t) x uarch cpuid alloc = none := by
  unfold freebsdInit
  simp only
  rw [if_pos ⟨ha 0 (by omega), ha 1 (by omega), ha 2 (by omega), ha 3 (by omega)⟩,
    tables_wide _ _ ht hb]
  rfl

/-- **C51, FreeBSD, exactly.** Whatever the system answers, with memory: the tables are published
and consistent if and only if the bit fields fit, packages divide cores and the number of threads is
below 2^32. -/
theorem C51_freebsd_exact (spec : Option Bytes) (cores perCore : Option Int) (t : Topo)
    (x : X86Processor) (uarch cpuid : Nat) (alloc : Nat → Bool)
    (ht : freebsdTopology spec cores perCore = some t)
    (ha : ∀ i < 9, alloc i = true) (u : Elem .uarch) :
    Consistent (freebsdInit (some t) x uarch cpuid alloc) u ↔
      FieldsFit x ∧ t.packages ∣ t.cores ∧ t.threadsPerCore * t.cores < 2 ^ 32 := by
  constructor
  · rintro ⟨st, ps, cs, ls, pks, hr, hf, hd⟩
    rcases Uniform.freebsdInit_some t x uarch cpuid alloc st hr with rfl | ⟨tb, s, c, k, hk, hs, hc, -, rfl⟩
    · cases hf
    have ep : some c.processors = some ps := hd.processors
    have ec : some tb.cores = some cs := hd.cores
    have eq : some tb.packages = some pks := hd.packages
    have np : t.threads = ps.length := hd.processorCount
    have nc : t.cores = cs.length := hd.coreCount
    cases ep
    cases ec
    cases eq
    have d1 := hd.inCores
    have d2 := hd.coresInPackages
    rw [hk.cores] at d1
    have e1 := divides_total (k := t.threadsPerCore) d1 (fun i => rfl)
    rw [hk.packages] at d2
    have e2 := divides_total (k := t.cores / t.packages) d2 (fun i => rfl)
    rw [← np] at e1
    rw [← nc] at e2
    obtain ⟨p1, p2, p3, p4⟩ := Uniform.freebsdTopology_eq spec cores perCore t ht
    refine ⟨Classical.byContradiction fun hb => ?_, ⟨_, e2.symm⟩, ?_⟩
    · have h0 : 0 < t.threads := by
        rw [← e1]; exact Nat.mul_pos (Nat.lt_of_lt_of_le p1 p2) p3
      rw [C51_violated_freebsd_fields t x uarch cpuid alloc h0 hb fun i hi => ha i (by omega)] at hr
      cases hr
    rw [Nat.mul_comm, e1, p4]
    exact Nat.mod_lt _ (by decide)
  · rintro ⟨hb, h1, h2⟩
    obtain ⟨st, hr, -, hi, hd⟩ := C51_freebsd_partial spec cores perCore t x uarch cpuid alloc ht h1 h2 hb u
    obtain ⟨ps, cs, ls, pks, hd, -⟩ := hd (hi ha)
    exact ⟨st, ps, cs, ls, pks, hr, hi ha, hd⟩

/-- **C51 is violated, FreeBSD, always.** Whenever detection is successful: if packages do not divide
cores the last core's package and cluster are behind the ends of their tables, and if threads per core
times cores is not below 2^32 the cores have more processors than there are. -/
theorem C51_violated_freebsd_always (spec : Option Bytes) (cores perCore : Option Int) (t : Topo)
    (x : X86Processor) (uarch cpuid : Nat) (alloc : Nat → Bool)
    (ht : freebsdTopology spec cores perCore = some t) (u : Elem .uarch) (st : List (Store Elem))
    (h : freebsdInit (some t) x uarch cpuid alloc = some st)
    (hf : (applyAll st (.initial u)).isInitialized = true) :
    ∃ (ps : List Processor) (cs : List Core) (ls : List Cluster) (pks : List X86Init.Package) (c : Core),
      (applyAll st (.initial u)).table .processor = some ps ∧
      (applyAll st (.initial u)).table .core = some cs ∧
      (applyAll st (.initial u)).table .cluster = some ls ∧
      (applyAll st (.initial u)).table .package = some pks ∧
      cs.length = t.cores ∧ cs[t.cores - 1]? = some c ∧
      (¬ t.packages ∣ t.cores → ∃ k, c.package = some k ∧ c.cluster = some k ∧ pks[k]? = none ∧
        ls[k]? = none) ∧
      (2 ^ 32 ≤ t.threadsPerCore * t.cores → ps.length < (cs.map (·.processorCount)).sum) := by
  obtain ⟨p1, p2, p3, p4⟩ := Uniform.freebsdTopology_eq spec cores perCore t ht
  rcases Uniform.freebsdInit_some t x uarch cpuid alloc st h with rfl | ⟨tb, s, c, k, hk, hs, hc, -, rfl⟩
  · cases hf
  have hcl : tb.cores.length = t.cores := by rw [hk.cores]; simp
  have h2 : tb.cores[t.cores - 1]? =
      some (Uniform.coreOf t (t.cores / t.packages) (t.cores - 1)) := by
    rw [hk.cores, List.getElem?_map, List.getElem?_range (by omega)]
    rfl
  refine ⟨c.processors, tb.cores, tb.clusters, tb.packages, _, rfl, rfl, rfl, rfl, hcl, h2, ?_, ?_⟩
  · intro hd
    have h1 := hk.perPackage (by omega)
    refine ⟨_, rfl, rfl, List.getElem?_eq_none ?_, List.getElem?_eq_none ?_⟩
    · rw [hk.packages, List.length_map, List.length_range]; exact Uniform.last_part h1 hd
    · rw [hk.clusters, List.length_map, List.length_range]; exact Uniform.last_part h1 hd
  · intro hw
    have e : (tb.cores.map (·.processorCount)).sum = t.threadsPerCore * t.cores := by
      rw [hk.cores, List.map_map]
      show ((List.range t.cores).map fun _ => t.threadsPerCore).sum = _
      rw [List.map_const', List.length_range, List.sum_replicate_nat, Nat.mul_comm]
    rw [hc.length, hk.length, p4, e]
    exact Nat.lt_of_lt_of_le (Nat.mod_lt _ (by decide)) hw

/-! ### Cases that meet the hypotheses -/

/-- Six threads, of which eight share the cache of level 3: consistent, without a table of level 3. -/
example : SharingFits (machTopology (some 6) (some 6) (some 1) (some [6, 1, 1, 8])) cachedX86 ∧
    ¬ SharingDivides (machTopology (some 6) (some 6) (some 1) (some [6, 1, 1, 8])) cachedX86 := by
  constructor
  · intro k r hk h
    match k, hk with
    | 1, _ => cases h; exact .inr (.inl ⟨6, rfl⟩)
    | 2, _ => cases h; exact .inr (.inl ⟨6, rfl⟩)
    | 3, _ => cases h; exact .inr (.inr ⟨by decide, by decide⟩)
    | 4, hk => exact absurd rfl hk
  · intro h
    rcases h 3 8 (by show (8388608 : Nat) ≠ 0; decide) rfl with h | h
    · cases h
    · exact absurd (Nat.le_of_dvd (by decide) h) (by decide)

/-- Three packages with four cores and nine threads are published. -/
example (u : Elem .uarch) : ∃ st,
    machInit (machTopology (some 4) (some 9) (some 3) none) plainX86 0 0 (fun _ => true) = some st ∧
    (applyAll st (.initial u)).isInitialized = true ∧ ¬ (4 ∣ 9) ∧ ¬ (3 ∣ 4) :=
  ⟨_, rfl, rfl, by decide, by decide⟩

end Verif.Props
