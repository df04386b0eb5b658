import Verif.Proof.ArmMach

/-!
# What every successful ARM detection on Mach tells
-/

set_option autoImplicit false

namespace Verif.ArmMach
open X86Init (Cache)
open Platform (Processor zeroProcessor zeroCache put)
open Uniform (div? mod? ptr? orFail linkedSize MachTopology sysctlInt sysctlInt_pos)
open ArmClusters (forRange forRange_inv)

theorem forRange_each {σ : Type} (f : Nat → σ → Option σ) :
    ∀ (n i : Nat) (s s' : σ), forRange f n i s = some s' → ∀ j, i ≤ j → j < i + n →
      ∃ t t', f j t = some t'
  | 0, i, s, s', _, j, h1, h2 => by omega
  | n + 1, i, s, s', h, j, h1, h2 => by
    rw [forRange] at h
    obtain ⟨t, e1, e2⟩ := Option.bind_eq_some_iff.mp h
    by_cases hj : j = i
    · subst hj; exact ⟨s, t, e1⟩
    · exact forRange_each f n (i + 1) t s' e2 j (by omega) (by omega)

theorem put_length {α : Type} {t t' : List α} {i : Nat} {x : α} (h : put t i x = some t') :
    t'.length = t.length := by
  unfold put at h
  split at h
  · cases h; rw [List.length_set]
  · cases h

theorem topology_pos (iphone : Bool) (c t p : Option Int) :
    0 < (topology iphone c t p).cores ∧ 0 < (topology iphone c t p).threads ∧
      0 < (topology iphone c t p).packages := by
  have h1 : 0 < sysctlInt c 1 := sysctlInt_pos c 1 (by omega)
  refine ⟨h1, sysctlInt_pos t _ h1, ?_⟩
  unfold topology
  dsimp only
  split
  · omega
  · exact sysctlInt_pos p 1 (by omega)

theorem div?_some {a b q : Nat} (h : div? a b = some q) : b ≠ 0 ∧ q = a / b := by
  unfold div? at h
  split at h
  · cases h
  · cases h; exact ⟨by assumption, rfl⟩

theorem mod?_some {a b q : Nat} (h : mod? a b = some q) : b ≠ 0 ∧ q = a % b := by
  unfold mod? at h
  split at h
  · cases h
  · cases h; exact ⟨by assumption, rfl⟩

/-- The sizes of the tables of the topology, and what its divisions need. -/
structure TablesSized (m : MachTopology) (t : Tables) : Prop where
  processors : t.processors.length = m.threads
  cores : t.cores.length = m.cores
  clusters : t.clusters.length = t.numClusters
  packages : t.packages.length = m.packages
  uarchs : t.uarchs.length = t.numClusters

theorem packageLoop_length {n tpp cpp : Nat} {name : Bytes} {ps ps' : List Package}
    (h : packageLoop n tpp cpp name ps = some ps') : ps'.length = ps.length :=
  forRange_inv _ (fun _ t => t.length = ps.length) n
    (fun j s s' _ hs e => (put_length e).trans hs) n 0 ps ps' (by omega) rfl h

theorem coreLoop_length {family : Nat} {m : MachTopology} {tpc cpp : Nat} {cs : List Core}
    {r : List Core × Nat} (h : coreLoop family m tpc cpp cs = some r) : r.1.length = cs.length :=
  forRange_inv _ (fun _ t => t.1.length = cs.length) m.cores
    (fun j s s' _ hs e => by
      simp only [bind, pure, Option.bind_eq_some_iff] at e
      obtain ⟨id, -, k, -, c, hc, e⟩ := e
      split at e
      · obtain ⟨n, -, e⟩ := Option.bind_eq_some_iff.mp e
        cases e
        exact (put_length hc).trans hs
      · cases e
        exact (put_length hc).trans hs) m.cores 0 (cs, 1) r (by omega) rfl h

theorem coreLoop_last {family : Nat} {m : MachTopology} {tpc cpp : Nat} {cs : List Core}
    {r : List Core × Nat} (h : coreLoop family m tpc cpp cs = some r) (hc : 0 < m.cores) :
    cpp ≠ 0 ∧ (m.cores - 1) / cpp ≤ m.packages := by
  obtain ⟨s, s', e⟩ := forRange_each _ m.cores 0 _ r h (m.cores - 1) (by omega) (by omega)
  simp only [bind, pure, Option.bind_eq_some_iff] at e
  obtain ⟨id, h1, k, h2, -⟩ := e
  refine ⟨(mod?_some h1).1, ?_⟩
  unfold ptr? at h2
  split at h2
  · assumption
  · cases h2

theorem processorLoop_length {m : MachTopology} {tpc tpp : Nat} {ps ps' : List Processor}
    (h : processorLoop m tpc tpp ps = some ps') : ps'.length = ps.length :=
  forRange_inv _ (fun _ t => t.length = ps.length) m.threads
    (fun j s s' _ hs e => by
      simp only [bind, Option.bind_eq_some_iff] at e
      obtain ⟨_, -, _, -, _, -, _, -, _, -, _, -, e⟩ := e
      exact (put_length e).trans hs) m.threads 0 ps ps' (by omega) rfl h

theorem processorLoop_tpc {m : MachTopology} {tpc tpp : Nat} {ps ps' : List Processor}
    (h : processorLoop m tpc tpp ps = some ps') (ht : 0 < m.threads) : tpc ≠ 0 := by
  obtain ⟨s, s', e⟩ := forRange_each _ m.threads 0 _ ps' h 0 (by omega) (by omega)
  simp only [bind, Option.bind_eq_some_iff] at e
  obtain ⟨id, h1, -⟩ := e
  exact (mod?_some h1).1

theorem clusterStep_length {tpc i : Nat} {s s' : ClusterState} (h : clusterStep tpc i s = some s') :
    s'.cores.length = s.cores.length ∧ s'.clusters.length = s.clusters.length ∧
      s'.uarchs.length = s.uarchs.length := by
  unfold clusterStep at h
  simp only [bind, pure, Option.bind_eq_some_iff] at h
  obtain ⟨c, -, b, -, h⟩ := h
  split at h
  · simp only [Option.bind_eq_some_iff] at h
    obtain ⟨us, h1, cl, h2, cs, h3, h⟩ := h
    cases h
    exact ⟨put_length h3, put_length h2, put_length h1⟩
  · simp only [Option.bind_eq_some_iff] at h
    obtain ⟨_, -, us, h1, _, -, cl, h2, cs, h3, h⟩ := h
    cases h
    exact ⟨put_length h3, put_length h2, put_length h1⟩

theorem clusterLoop_length {tpc n cores : Nat} {cs : List Core} {s : ClusterState}
    (h : clusterLoop tpc n cores cs = some s) :
    s.cores.length = cs.length ∧ s.clusters.length = n ∧ s.uarchs.length = n :=
  forRange_inv _ (fun _ (t : ClusterState) => t.cores.length = cs.length ∧ t.clusters.length = n ∧
      t.uarchs.length = n) cores
    (fun j s s' _ hs e => by
      obtain ⟨h1, h2, h3⟩ := clusterStep_length e
      exact ⟨h1.trans hs.1, h2.trans hs.2.1, h3.trans hs.2.2⟩) cores 0 _ s (by omega)
    ⟨rfl, List.length_replicate, List.length_replicate⟩ h

theorem clusterLinkLoop_length {threads tpc : Nat} {cs : List Core} {ps ps' : List Processor}
    (h : clusterLinkLoop threads tpc cs ps = some ps') : ps'.length = ps.length :=
  forRange_inv _ (fun _ t => t.length = ps.length) threads
    (fun j s s' _ hs e => by
      simp only [bind, Option.bind_eq_some_iff] at e
      obtain ⟨_, -, _, -, _, -, e⟩ := e
      exact (put_length e).trans hs) threads 0 ps ps' (by omega) rfl h

theorem clusterLinkLoop_last {threads tpc : Nat} {cs : List Core} {ps ps' : List Processor}
    (h : clusterLinkLoop threads tpc cs ps = some ps') (ht : 0 < threads) :
    (threads - 1) / tpc < cs.length := by
  obtain ⟨s, s', e⟩ := forRange_each _ threads 0 _ ps' h (threads - 1) (by omega) (by omega)
  simp only [bind, Option.bind_eq_some_iff] at e
  obtain ⟨k, h1, c, h2, -⟩ := e
  rw [← (div?_some h1).2]
  exact (List.getElem?_eq_some_iff.mp h2).1

theorem packageClusterLoop_length {n k : Nat} {ps ps' : List Package}
    (h : packageClusterLoop n k ps = some ps') : ps'.length = ps.length :=
  forRange_inv _ (fun _ t => t.length = ps.length) n
    (fun j s s' _ hs e => by
      simp only [bind, Option.bind_eq_some_iff] at e
      obtain ⟨_, -, e⟩ := e
      exact (put_length e).trans hs) n 0 ps ps' (by omega) rfl h

theorem tables_sized {family : Nat} {m : MachTopology} {name : Bytes} {a : Bool} {t : Tables}
    (hc : 0 < m.cores) (ht : 0 < m.threads)
    (h : tables family m name a = some (some t)) :
    TablesSized m t ∧ m.cores ∣ m.threads ∧ m.cores % m.packages ≤ m.cores / m.packages := by
  unfold tables at h
  simp only [bind, pure, Option.bind_eq_some_iff] at h
  obtain ⟨tpc, h1, tpp, h2, cpp, h3, pk, h4, ⟨cs, n⟩, h5, ps, h6, h⟩ := h
  cases a with
  | false => cases h
  | true =>
    simp only [if_true, Option.bind_eq_some_iff] at h
    obtain ⟨s, h7, ps', h8, pk', h9, h⟩ := h
    cases h
    obtain ⟨g1, g2, g3⟩ := clusterLoop_length h7
    have hcl : s.cores.length = m.cores := by
      rw [g1, coreLoop_length h5, List.length_replicate]
    refine ⟨⟨?_, hcl, g2, ?_, g3⟩, ?_, ?_⟩
    · show ps'.length = _
      rw [clusterLinkLoop_length h8, processorLoop_length h6, List.length_replicate]
    · show pk'.length = _
      rw [packageClusterLoop_length h9, packageLoop_length h4, List.length_replicate]
    · have htpc := processorLoop_tpc h6 ht
      have hlast := clusterLinkLoop_last h8 ht
      rw [hcl, Nat.div_lt_iff_lt_mul (by omega)] at hlast
      have e := (div?_some h1).2
      have hle : m.cores * tpc ≤ m.threads := by
        rw [e]; exact Nat.mul_div_le _ _
      exact ⟨tpc, by omega⟩
    · obtain ⟨hcpp, hlast⟩ := coreLoop_last h5 hc
      obtain ⟨-, e⟩ := div?_some h3
      have hdm := Nat.div_add_mod m.cores m.packages
      have : (m.cores - 1) / cpp < m.packages + 1 := by omega
      rw [Nat.div_lt_iff_lt_mul (by omega), Nat.add_mul, Nat.one_mul] at this
      rw [← e] at hdm ⊢
      omega

theorem level_facts {alloc : Bool} {size assoc line per count threads : Nat} {index : Nat → Nat}
    {link : Processor → Nat → Processor} {ps : List Processor}
    {r : Option (List Cache) × List Processor}
    (h : level alloc size assoc line per count threads index link ps = some (some r)) (hc : 0 < count) :
    r.2.length = ps.length ∧ (size ≠ 0 → assoc * line % U32 ≠ 0) ∧
      ((size = 0 ∧ r.1 = none) ∨ (size ≠ 0 ∧ ∃ t, r.1 = some t ∧ t.length = count)) := by
  unfold level at h
  split at h
  · rename_i hz
    split at h
    · obtain ⟨⟨t, ps'⟩, hf, e⟩ := Option.map_eq_some_iff.mp h
      cases e
      unfold fill at hf
      simp only [bind, pure, Option.bind_eq_some_iff] at hf
      obtain ⟨t, h1, ps', h2, e⟩ := hf
      cases e
      have hl : t.length = count := by
        have := forRange_inv _ (fun _ (t : List Cache) => t.length = count) count
          (fun j s s' _ hs e => by
            simp only [bind, Option.bind_eq_some_iff] at e
            obtain ⟨x, -, e⟩ := e
            exact (put_length e).trans hs) count 0 _ t (by omega) List.length_replicate h1
        exact this
      have hl2 : ps'.length = ps.length :=
        forRange_inv _ (fun _ (t : List Processor) => t.length = ps.length) threads
          (fun j s s' _ hs e => by
            simp only [bind, Option.bind_eq_some_iff] at e
            obtain ⟨_, -, _, -, e⟩ := e
            exact (put_length e).trans hs) threads 0 _ ps' (by omega) rfl h2
      obtain ⟨s, s', e⟩ := forRange_each _ count 0 _ t h1 0 (by omega) (by omega)
      simp only [Option.bind_eq_some_iff] at e
      obtain ⟨x, e, -⟩ := e
      unfold cacheEntry at e
      obtain ⟨sets, e, -⟩ := Option.map_eq_some_iff.mp e
      exact ⟨hl2, fun _ => (div?_some e).1, .inr ⟨hz, t, rfl, hl⟩⟩
    · cases h
  · rename_i hz
    cases h
    exact ⟨rfl, fun h => absurd h hz, .inl ⟨Decidable.not_not.mp hz, rfl⟩⟩

/-- The tables of caches have the sizes that belong to them. -/
structure CachesSized (z : CacheSizes) (m : MachTopology) (c : Caches) : Prop where
  processors : c.processors.length = m.threads
  l1i : (z.l1i = 0 ∧ c.l1i = none) ∨ (z.l1i ≠ 0 ∧ ∃ t, c.l1i = some t ∧ t.length = m.threads)
  l1d : (z.l1d = 0 ∧ c.l1d = none) ∨ (z.l1d ≠ 0 ∧ ∃ t, c.l1d = some t ∧ t.length = m.threads)
  l2 : (z.l2 = 0 ∧ c.l2 = none) ∨ (z.l2 ≠ 0 ∧ ∃ t, c.l2 = some t ∧ t.length = 1)
  l3 : (z.l3 = 0 ∧ c.l3 = none) ∨ (z.l3 ≠ 0 ∧ ∃ t, c.l3 = some t ∧ t.length = 1)

theorem orFail_some {α β : Type} {x : Option (Option α)} {f : α → Option (Option β)} {r : β}
    (h : orFail x f = some (some r)) : ∃ a, x = some (some a) ∧ f a = some (some r) := by
  unfold orFail at h
  obtain ⟨y, hy, h⟩ := Option.bind_eq_some_iff.mp h
  cases y with
  | none => cases h
  | some a => exact ⟨a, hy, h⟩

theorem caches_sized {z : CacheSizes} {m : MachTopology} {alloc : Nat → Bool} {ps : List Processor}
    {c : Caches} (ht : 0 < m.threads) (hlen : ps.length = m.threads)
    (h : caches z m alloc ps = some (some c)) : CachesSized z m c ∧ LineOk z := by
  unfold caches at h
  obtain ⟨r1, h1, h⟩ := orFail_some h
  obtain ⟨r2, h2, h⟩ := orFail_some h
  obtain ⟨r3, h3, h⟩ := orFail_some h
  obtain ⟨r4, h4, h⟩ := orFail_some h
  cases h
  obtain ⟨a1, b1, c1⟩ := level_facts h1 ht
  obtain ⟨a2, b2, c2⟩ := level_facts h2 ht
  obtain ⟨a3, b3, c3⟩ := level_facts h3 (by omega)
  obtain ⟨a4, b4, c4⟩ := level_facts h4 (by omega)
  exact ⟨⟨by dsimp only; omega, c1, c2, c3, c4⟩, fun h => h.elim b1 b2, b3, b4⟩

/-- What every successful detection has done. -/
theorem init_success {e : Env} {o : Outcome} (h : init e = some o) (hne : o.stores ≠ []) :
    ∃ t c mx, o = ⟨some (isaOf e.family.get e.features), commit e.sizes e.topology t c mx⟩ ∧
      TablesSized e.topology t ∧ CachesSized e.sizes e.topology c ∧ LineOk e.sizes ∧
      e.topology.cores ∣ e.topology.threads ∧
      e.topology.cores % e.topology.packages ≤ e.topology.cores / e.topology.packages := by
  obtain ⟨p1, p2, p3⟩ := topology_pos e.iphone e.cores e.threads e.packages
  unfold init at h
  split at h
  · simp only [bind, pure, Option.bind_eq_some_iff] at h
    obtain ⟨t, ht, h⟩ := h
    cases t with
    | none => cases h; exact absurd rfl hne
    | some t =>
      simp only [Option.bind_eq_some_iff] at h
      obtain ⟨c, hc, h⟩ := h
      cases c with
      | none => cases h; exact absurd rfl hne
      | some c =>
        simp only [Option.bind_eq_some_iff] at h
        obtain ⟨mx, -, h⟩ := h
        cases h
        obtain ⟨h1, h2, h3⟩ := tables_sized p1 p2 ht
        obtain ⟨h4, h5⟩ := caches_sized p2 h1.processors hc
        exact ⟨t, c, mx, rfl, h1, h4, h5, h2, h3⟩
  · cases h; exact absurd rfl hne

/-- The numbers with which detection is defined. -/
theorem fits_of {e : Env} (h1 : e.topology.cores ∣ e.topology.threads)
    (h2 : e.topology.cores % e.topology.packages ≤ e.topology.cores / e.topology.packages) :
    ∃ tpc tpp cpp, Fits e.topology tpc tpp cpp := by
  obtain ⟨p1, p2, p3⟩ := topology_pos e.iphone e.cores e.threads e.packages
  change 0 < e.topology.cores at p1
  change 0 < e.topology.threads at p2
  change 0 < e.topology.packages at p3
  obtain ⟨tpc, ht⟩ := h1
  have hdm := Nat.div_add_mod e.topology.cores e.topology.packages
  refine ⟨tpc, _, _, p3, Nat.pos_of_ne_zero fun h0 => ?_, Nat.pos_of_ne_zero fun h0 => ?_, rfl, rfl, ?_, ht⟩
  · rw [h0, Nat.mul_zero] at ht; omega
  · rw [h0] at hdm h2; omega
  · rw [Nat.add_mul, Nat.one_mul]; omega

/-- Every successful detection in closed form. -/
theorem init_closed {e : Env} {o : Outcome} (h : init e = some o) (hne : o.stores ≠ []) :
    ∃ tpc tpp cpp b u v c, Fits e.topology tpc tpp cpp ∧
      Split e.topology.cores (fun i => decodeUarch e.family.get i e.topology.cores) b u v ∧
      o = ⟨some (isaOf e.family.get e.features), commit e.sizes e.topology
        (fitTables (fun i => decodeUarch e.family.get i e.topology.cores) e.topology
          (packageName e.brand e.machine) tpc tpp cpp b u v) c (lastSize e.sizes)⟩ ∧
      CachesOk e.sizes e.topology (processorsFinal tpc tpp e.topology.threads b) c := by
  obtain ⟨p1, p2, p3⟩ := topology_pos e.iphone e.cores e.threads e.packages
  obtain ⟨-, -, -, -, -, -, hz, ht, hp⟩ := init_success h hne
  obtain ⟨tpc, tpp, cpp, he⟩ := fits_of ht hp
  obtain ⟨b, u, v, hs⟩ := decode_split e.family.get e.topology.cores p1
  rcases init_eq e tpc tpp cpp he hz hs with ⟨o', e', hn, -⟩ | ⟨c, e', hc⟩
  · rw [e'] at h; cases h; exact absurd hn hne
  · rw [e'] at h; cases h
    exact ⟨tpc, tpp, cpp, b, u, v, c, he, hs, rfl, hc⟩

end Verif.ArmMach
