import Verif.Proof.ArmMidrExact

/-!
# C78–C82: identities of ARM clusters
-/

set_option autoImplicit false

namespace Verif.Props
open Spec ArmMidr ArmCpuinfo ArmClusters ArmClusterMidr ArmChipset

/-- A usable processor for examples: flags besides "usable", MIDR, maximum frequency, leader, cores of
its cluster. -/
private def exCore (flags midr freq leader cores : Nat) : Proc :=
  { Proc.zero with
    flags := flags ||| 0x1000
    midr := midr
    maxFrequency := freq
    packageLeaderId := leader
    packageProcessorCount := cores }

/-- All bits of a complete description. -/
private def full : Nat := 0x3F0000

theorem mem_identity (d : Detail) : d ∈ identityDetails ↔ OfMidr d := by
  unfold OfMidr identityDetails
  cases d <;> decide

/-! ## C78 -/

/-- **C78 (reported identities are kept).** Completing the identities of the clusters never fails and
reports the number of clusters; it changes no processor but cluster leaders, and of those nothing but
the identity, the maximum frequency and the marks that they are known.  The leader of every cluster
with a completely described member has the identity of the first such member afterwards — unless a
single identity is known, at the end of /proc/cpuinfo, and there are several clusters. -/
theorem C78_reported_kept (a : Arch) (chipset : Chipset) (usable : Nat) (t : List Proc) (hl : Led t) :
    ∃ t', detectClusterMidr a chipset usable t = some ((leaders t).length, t') ∧
      t'.length = t.length ∧
      (∀ (i : Nat) (p q : Proc), t[i]? = some p → t'[i]? = some q → ¬ LeadsItself t i → q = p) ∧
      (∀ (i : Nat) (p q : Proc), t[i]? = some p → t'[i]? = some q → SameButIdentity p q) ∧
      (¬ (OnlyLastIdentified t ∧ 1 < (leaders t).length) →
        ∀ (l m : Nat) (q : Proc), LeadsItself t l → reported t l = some m → t'[l]? = some q →
          SameIdentity q.midr m) := by
  obtain ⟨t', e, h⟩ := detect_spec a chipset usable t hl
  refine ⟨t', e, h.kept.length, ?_, ?_, ?_⟩
  · intro i p q hp hq hn
    have : leadAt t i = false := by
      cases hla : leadAt t i with
      | false => rfl
      | true => exact absurd ((leadAt_iff t i).mp hla) hn
    rw [h.others i this, hp] at hq
    exact (Option.some.inj hq).symm
  · intro i p q hp hq
    exact h.only i p q hp hq
  · intro hn l m q hla hr hq d hd
    have := h.reported hn l m q ((leadAt_iff t l).mpr hla) hr hq d ((mem_identity d).mp hd)
    rw [← this]
    exact value_of d _ _ ((mem_identity d).mp hd) rfl

/-- **C78 (nothing to guess).** If every usable processor is completely described, no identity
changes. -/
theorem C78_complete_unchanged (a : Arch) (chipset : Chipset) (t : List Proc) (hl : Led t)
    (hc : ∀ (i : Nat) (p : Proc), t[i]? = some p → Usable p → Complete p) :
    ∃ t', detectClusterMidr a chipset (usableCount t) t = some ((leaders t).length, t') ∧
      ∀ (i : Nat) (p q : Proc), t[i]? = some p → t'[i]? = some q → q.midr = p.midr := by
  obtain ⟨t', e, h⟩ := detect_spec a chipset (usableCount t) t hl
  exact ⟨t', e, h.same hc (Nat.le_refl _)⟩

/-- Two clusters, both described by their second member. -/
private def exTwo : List Proc :=
  [exCore 0 0 0 0 2, exCore full 0x410FD034 0 0 2, exCore 0 0 0 2 2, exCore full 0x411FD071 0 2 2]

/-- Non-vacuity: the hypotheses hold and the leaders get the identities. -/
example : reported exTwo 0 = some 0x410FD034 ∧ reported exTwo 2 = some 0x411FD071 ∧
    identifiedCount exTwo = 2 ∧
    (detectClusterMidr .arm64 ⟨.unknown, .unknown, 0, []⟩ 4 exTwo).map
      (fun r => (r.1, r.2.map (·.midr))) = some (2, [0x410FD034, 0x410FD034, 0x411FD071, 0x411FD071]) := by
  decide

/-! ## C79 -/

/-- **C79 (partial).** What is known about a cluster is never contradicted by the table of chipsets:
when the table is consulted for clusters with attributable identities and applies, the identity of
every leader agrees with everything known about it.  Missing: the sequential scan, see
`C79_violated`. -/
theorem C79_table_agrees_partial (a : Arch) (chipset : Chipset) (usable : Nat) (t t' : List Proc)
    (h : byChipset a chipset (leaders t).length ((leaders t).take 3) usable t true = some (t', true)) :
    ∀ (l : Nat) (p q : Proc), LeadsItself t l → t[l]? = some p → t'[l]? = some q →
      MayBe p q.midr := by
  obtain ⟨r, e, -, hyes⟩ := byChipset_spec a chipset usable t true _ rfl
  rw [h] at e
  cases e
  intro l p q hl hp hq d hd v hv
  have hod := (mem_identity d).mp hd
  obtain ⟨q', hq', hr⟩ := (hyes rfl).get l p hp
  rw [hq] at hq'; cases hq'
  rcases hr with ⟨-, hn⟩ | ⟨-, m, e, hag⟩
  · rw [(leadAt_iff t l).mpr hl] at hn; cases hn
  · subst e
    rw [← hag rfl d v hod hv]
    exact value_of d _ _ hod rfl

/-- Four Cortex-A53 and a cluster whose leader is known to be Cortex-A72 of unknown variant and
revision. -/
private def exA72 : List Proc :=
  List.replicate 4 (exCore full 0x410FD034 0 0 4) ++
    exCore 0x2A0000 0x4100D080 0 4 4 :: List.replicate 3 (exCore 0x200000 0 0 4 4)

/-- **C79 (violated).** The sequential scan contradicts what is known: of two clusters, the second one
known to be Cortex-A72 except for variant and revision, the second becomes Cortex-A53 like the first
one. -/
theorem C79_violated :
    (∃ p, exA72[4]? = some p ∧ Usable p ∧ known p .part = some 0xD08 ∧ ¬ MayBe p 0x410FD034) ∧
    (detectClusterMidr .arm64 ⟨.unknown, .unknown, 0, []⟩ 8 exA72).map
      (fun r => r.2[4]?.map (·.midr)) = some (some 0x410FD034) := by
  refine ⟨⟨exCore 0x2A0000 0x4100D080 0 4 4, by decide, by decide, by decide, ?_⟩, by decide⟩
  intro h
  have := h .part (by decide) 0xD08 (by decide)
  revert this
  decide

/-! ## C80 -/

theorem configs_distinct (a : Arch) :
    (configs a).Pairwise fun c d => ¬ (c.model = d.model ∧ c.series = d.series) := by
  cases a <;> decide

theorem find_of_pairwise {α : Type} (l : List α) (f : α → Bool) (x : α) (hx : x ∈ l) (hf : f x = true)
    (hd : l.Pairwise fun y z => ¬ (f y = true ∧ f z = true)) : l.find? f = some x := by
  induction l with
  | nil => cases hx
  | cons y l ih =>
    rw [List.pairwise_cons] at hd
    rcases List.mem_cons.mp hx with e | h
    · subst e; rw [List.find?_cons, hf]
    · have : f y = false := by
        cases hy : f y with
        | false => rfl
        | true => exact absurd ⟨hy, hf⟩ (hd.1 x h)
      rw [List.find?_cons, this]
      exact ih h hd.2

/-- **C80 (known chipsets get their cores).** If the table has an entry for the chipset that fits the
clusters found (number of processors, number of clusters, cluster sizes), some cluster has no
completely described member, and nothing reported speaks against the entry, then the leader of every
cluster gets the tabulated MIDR. -/
theorem C80_table_used (a : Arch) (chipset : Chipset) (t : List Proc) (hl : Led t)
    (cfg : ClusterConfig) (hcfg : cfg ∈ configs a) (hser : cfg.series = chipset.series)
    (hmod : cfg.model = chipset.model) (hcores : cfg.cores = usableCount t)
    (hclusters : cfg.clusters = (leaders t).length)
    (hsizes : ∀ (k l : Nat) (p : Proc), (leaders t)[k]? = some l → t[l]? = some p →
      cfg.clusterCores[k]? = some p.packageProcessorCount)
    (hid : identifiedCount t < usableCount t)
    (hun : ¬ (OnlyLastIdentified t ∧ 1 < (leaders t).length))
    (hmiss : ∃ l, LeadsItself t l ∧ reported t l = none)
    (hag : ∀ (k l m : Nat), (leaders t)[k]? = some l → cfg.clusterMidr[k]? = some m →
      ClusterMayBe t l m) :
    ∃ t', detectClusterMidr a chipset (usableCount t) t = some (cfg.clusters, t') ∧
      ∀ (k l m : Nat), (leaders t)[k]? = some l → cfg.clusterMidr[k]? = some m →
        ∃ q, t'[l]? = some q ∧ q.midr = m := by
  have hf : (configs a).find? (fun c => c.model == chipset.model && c.series == chipset.series)
      = some cfg := by
    apply find_of_pairwise _ _ _ hcfg (by simp [hser, hmod])
    refine (configs_distinct a).imp fun {c d} h hh => h ?_
    obtain ⟨h1, h2⟩ := hh
    have h1 : c.model = chipset.model ∧ c.series = chipset.series := by simpa using h1
    have h2 : d.model = chipset.model ∧ d.series = chipset.series := by simpa using h2
    exact ⟨by rw [h1.1, h2.1], by rw [h1.2, h2.2]⟩
  have hthree : ∀ c ∈ configs a, c.clusters ≤ 3 := by cases a <;> decide
  obtain ⟨l, hl1, hl2⟩ := hmiss
  refine table_used a chipset _ t hl cfg hf
    ⟨hcores, hclusters, by rw [← hclusters]; exact hthree cfg hcfg, hsizes⟩ hid hun
    ⟨l, (leadAt_iff t l).mpr hl1, hl2⟩ ?_
  intro k l m hk hm
  obtain ⟨h1, h2⟩ := hag k l m hk hm
  refine ⟨fun r hr d hd => h1 r hr d ((mem_identity d).mpr hd), fun hr p hp d v hd hv => ?_⟩
  rw [← h2 hr p hp d ((mem_identity d).mpr hd) v hv]
  exact value_of d _ _ hd rfl

/-- A Kirin 950 whose /proc/cpuinfo describes only the four Cortex-A53, the first cluster. -/
private def exKirin : List Proc :=
  List.replicate 4 (exCore full 0x410FD034 0 0 4) ++ List.replicate 4 (exCore 0 0 0 4 4)

/-- Non-vacuity: an entry fits, and the second cluster becomes Cortex-A72. -/
example : leaders exKirin = [0, 4] ∧ identifiedCount exKirin = 4 ∧ usableCount exKirin = 8 ∧
    reported exKirin 0 = some 0x410FD034 ∧ reported exKirin 4 = none ∧
    (detectClusterMidr .arm64 ⟨.hisilicon, .hisiliconKirin, 950, []⟩ 8 exKirin).map
      (fun r => (r.1, (r.2[0]?.map (·.midr), r.2[4]?.map (·.midr)))) =
      some (2, (some 0x410FD034, some 0x410FD080)) := by
  decide

/-- **C80 (unknown chipsets).** A chipset without an entry gets nothing from the table. -/
theorem C80_unknown_chipset (a : Arch) (chipset : Chipset) (clusters usable : Nat) (ls : List Nat)
    (t : List Proc) (verify : Bool)
    (hno : ∀ c ∈ configs a, ¬ (c.series = chipset.series ∧ c.model = chipset.model)) :
    byChipset a chipset clusters ls usable t verify = some (t, false) := by
  have hf : (configs a).find? (fun c => c.model == chipset.model && c.series == chipset.series)
      = none := by
    rw [List.find?_eq_none]
    intro c hc h
    have h : c.model = chipset.model ∧ c.series = chipset.series := by simpa using h
    exact hno c hc ⟨h.2, h.1⟩
  unfold byChipset
  rw [hf]
  split <;> rfl

/-- Non-vacuity: there is no entry for a Kirin 8890, though there is one for an Exynos 8890. -/
example : (∀ c ∈ configs .arm64, ¬ (c.series = .hisiliconKirin ∧ c.model = 8890)) ∧
    ∃ c ∈ configs .arm64, c.series = .samsungExynos ∧ c.model = 8890 := by decide

/-- An entry of the table makes sense: one to three clusters, every one with cores and a MIDR of the
CPUID scheme, whose sizes add up to the number of cores. -/
def EntryOk (c : ClusterConfig) : Prop :=
  1 ≤ c.clusters ∧ c.clusters ≤ 3 ∧ c.clusterCores.sum = c.cores ∧
  (∀ k, k < c.clusters → ∃ n m, c.clusterCores[k]? = some n ∧ 1 ≤ n ∧
    c.clusterMidr[k]? = some m ∧ m < 2 ^ 32 ∧ m / 65536 % 16 = 15) ∧
  ∀ k, c.clusters ≤ k → k < 3 → c.clusterCores[k]? = some 0

/-- Decidable form of `EntryOk`. -/
def entryCheck (c : ClusterConfig) : Bool :=
  decide (1 ≤ c.clusters) && decide (c.clusters ≤ 3) && decide (c.clusterCores.sum = c.cores) &&
  (List.range c.clusters).all (fun k => c.clusterCores[k]?.any (1 ≤ ·) &&
    c.clusterMidr[k]?.any (fun m => m < 2 ^ 32 && m / 65536 % 16 == 15)) &&
  (List.range 3).all fun k => k < c.clusters || c.clusterCores[k]? == some 0

theorem entryOk_of_check (c : ClusterConfig) (h : entryCheck c = true) : EntryOk c := by
  unfold entryCheck at h
  simp only [Bool.and_eq_true, decide_eq_true_eq, List.all_eq_true, List.mem_range] at h
  obtain ⟨⟨⟨⟨h1, h2⟩, h3⟩, h4⟩, h5⟩ := h
  refine ⟨h1, h2, h3, fun k hk => ?_, fun k hk hk3 => ?_⟩
  · obtain ⟨ha, hb⟩ := h4 k hk
    cases hn : c.clusterCores[k]? with
    | none => rw [hn] at ha; cases ha
    | some n =>
      cases hm : c.clusterMidr[k]? with
      | none => rw [hm] at hb; cases hb
      | some m =>
        rw [hn] at ha
        rw [hm] at hb
        have hb : m < 2 ^ 32 ∧ m / 65536 % 16 = 15 := by simpa using hb
        exact ⟨n, m, rfl, by simpa using ha, rfl, hb.1, hb.2⟩
  · have := h5 k hk3
    have hlt : ¬ k < c.clusters := by omega
    simpa [hlt] using this

/-- **C80 (partial: the table makes sense).** Every entry but that of MT6592 makes sense.  Missing:
MT6592, see `C80_violated`. -/
theorem C80_table_consistent_partial (a : Arch) (c : ClusterConfig) (hc : c ∈ configs a)
    (hn : ¬ (c.series = .mediatekMt ∧ c.model = 6592)) : EntryOk c := by
  apply entryOk_of_check
  have : ∀ c ∈ configs a, (c.series = .mediatekMt ∧ c.model = 6592) ∨ entryCheck c = true := by
    cases a <;> decide
  rcases this c hc with h | h
  · exact absurd h hn
  · exact h

/-- **C80 (violated).** The entry of the octa-core MT6592 says 4 cores in clusters of 4 and 4, and is
therefore never used: whatever the clusters, when their sizes are right and all usable processors are
counted, the table is of no help for this chipset. -/
theorem C80_violated :
    (∃ c ∈ configs .arm, c.series = .mediatekMt ∧ c.model = 6592 ∧ c.cores = 4 ∧
      c.clusterCores = [4, 4, 0] ∧ ¬ EntryOk c) ∧
    ∀ (t : List Proc) (verify : Bool) (suffix : Bytes), Led t →
      (∀ (l : Nat) (p : Proc), LeadsItself t l → t[l]? = some p →
        p.packageProcessorCount = membersOf t l) →
      byChipset .arm ⟨.mediatek, .mediatekMt, 6592, suffix⟩ (leaders t).length ((leaders t).take 3)
        (usableCount t) t verify = some (t, false) := by
  constructor
  · refine ⟨⟨4, .mediatekMt, 6592, 2, [4, 4, 0], [0x410FC074, 0x410FC074, 0]⟩, by decide, rfl, rfl,
      rfl, rfl, ?_⟩
    intro h
    exact absurd h.2.2.1 (by decide)
  · intro t verify suffix hl hcount
    have hsum := members_sum t hl
    unfold byChipset
    by_cases hc : (leaders t).length ≤ clustersMax
    · rw [if_pos hc]
      have hf : (configs .arm).find? (fun c => c.model == 6592 && c.series == Series.mediatekMt)
          = some ⟨4, .mediatekMt, 6592, 2, [4, 4, 0], [0x410FC074, 0x410FC074, 0]⟩ := by decide
      simp only [hf]
      unfold applyConfig
      by_cases h1 : (4 : Nat) ≠ usableCount t ∨ (2 : Nat) ≠ (leaders t).length
      · simp only [if_pos h1]; rfl
      · simp only [if_neg h1]
        have h4 : usableCount t = 4 := by omega
        have h2 : (leaders t).length = 2 := by omega
        rw [List.take_of_length_le (by omega)]
        obtain ⟨l0, l1, hll⟩ : ∃ l0 l1, leaders t = [l0, l1] := by
          match hh : leaders t, h2 with
          | [x, y], _ => exact ⟨x, y, rfl⟩
        have g0 : (leaders t)[0]? = some l0 := by rw [hll]; rfl
        have g1 : (leaders t)[1]? = some l1 := by rw [hll]; rfl
        obtain ⟨p0, hp0, hu0, hs0, -⟩ := leaders_get t 0 l0 g0
        obtain ⟨p1, hp1, hu1, hs1, -⟩ := leaders_get t 1 l1 g1
        have c0 := hcount l0 p0 ⟨p0, hp0, hu0, hs0⟩ hp0
        have c1 := hcount l1 p1 ⟨p1, hp1, hu1, hs1⟩ hp1
        rw [hll, h4] at hsum
        have hsum : membersOf t l0 + membersOf t l1 = 4 := by simpa using hsum
        rw [h2]
        simp only [allClusters, leaderProc, g0, g1, hp0, hp1, Option.bind_eq_bind, Option.bind_some,
          List.getElem?_cons_zero, List.getElem?_cons_succ, c0, c1]
        by_cases e0 : (4 : Nat) = membersOf t l0
        · have e1 : ¬ (4 : Nat) = membersOf t l1 := by omega
          simp [e0.symm, e1]
        · simp [e0]
    · rw [if_neg hc]

/-- Non-vacuity: an MT6592 with its eight processors in two clusters satisfies the hypotheses. -/
example : (let t := List.replicate 4 (exCore 0 0 0 0 4) ++ List.replicate 4 (exCore 0 0 0 4 4)
    leaders t = [0, 4] ∧ membersOf t 0 = 4 ∧ membersOf t 4 = 4 ∧ usableCount t = 8) := by
  decide

/-! ## C81 -/

/-- **C81 (partial).** When the big.LITTLE heuristic applies, there are two clusters and exactly one
identified processor; completely described clusters stay as they are; of the others, the LITTLE one
gets the LITTLE companion of the known core and the big one the known core.  The LITTLE cluster is the
first one, unless both maximum frequencies are known and that of the first one is higher.  Missing:
the heuristic does not apply to all such systems, see `C81_violated`. -/
theorem C81_big_little_partial (withMidr last : Nat) (t t' : List Proc) (verify : Bool)
    (pl core : Proc) (hpl : t[last]? = some pl) (hk : t[pl.packageLeaderId]? = some core)
    (h : bigLittle (leaders t).length withMidr last ((leaders t).take 3) t verify = some (t', true)) :
    ∃ (l0 l1 : Nat) (p0 p1 : Proc), leaders t = [l0, l1] ∧ withMidr = 1 ∧
      t[l0]? = some p0 ∧ t[l1]? = some p1 ∧
      ∀ (i : Nat) (p q : Proc), t[i]? = some p → t'[i]? = some q →
        (¬ LeadsItself t i ∨ Complete p → q = p) ∧
        (LeadsItself t i → ¬ Complete p →
          let firstFaster := p0.flags.testBit 2 = true ∧ p1.flags.testBit 2 = true ∧
            p0.maxFrequency > p1.maxFrequency
          let little := (firstFaster ∧ i = l1) ∨ (¬ firstFaster ∧ i = l0)
          (little → q.midr = littleCoreForBig core.midr) ∧ (¬ little → q.midr = core.midr)) := by
  obtain ⟨r, e, -, hyes⟩ := bigLittle_spec withMidr last t verify _ rfl pl core hpl hk
  rw [h] at e
  cases e
  obtain ⟨l0, l1, p0, p1, hll, hw, hp0, hp1, hc⟩ := hyes rfl
  refine ⟨l0, l1, p0, p1, hll, hw, hp0, hp1, fun i p q hp hq => ?_⟩
  obtain ⟨q', hq', hr⟩ := hc.get i p hp
  rw [hq] at hq'; cases hq'
  have hfreq : (p0.flags &&& p1.flags &&& flagMaxFrequency ≠ 0) ↔
      (p0.flags.testBit 2 = true ∧ p1.flags.testBit 2 = true) := by
    have e : flagMaxFrequency = 2 ^ 2 := by decide
    rw [e]
    have h := has_pow { Proc.zero with flags := p0.flags &&& p1.flags } 2
    have h : ((p0.flags &&& p1.flags &&& 2 ^ 2 != 0) = (p0.flags &&& p1.flags).testBit 2) := h
    rw [Nat.testBit_and] at h
    rw [← Bool.and_eq_true_iff, ← h, bne_iff_ne]
  rcases hr with ⟨hr, hf⟩ | ⟨hla, hnf, m, hm, hr, -⟩
  · refine ⟨fun _ => hr, fun hl hnc => absurd (hf ((leadAt_iff t i).mpr hl)) hnc⟩
  · refine ⟨fun h => ?_, fun _ _ => ?_⟩
    · rcases h with h | h
      · exact absurd ((leadAt_iff t i).mp hla) h
      · exact absurd h hnf
    · have hqm : q.midr = m := by rw [hr]; rfl
      have hne : l0 ≠ l1 := by
        have := leaders_nodup t
        rw [hll] at this
        simpa using this
      rw [hqm, hm]
      unfold littleOf
      simp only [hfreq]
      by_cases hff : (p0.flags.testBit 2 = true ∧ p1.flags.testBit 2 = true) ∧
          p0.maxFrequency > p1.maxFrequency
      · rw [if_pos hff]
        have hff' : p0.flags.testBit 2 = true ∧ p1.flags.testBit 2 = true ∧
            p0.maxFrequency > p1.maxFrequency := ⟨hff.1.1, hff.1.2, hff.2⟩
        simp only [hff', and_self, true_and, not_true_eq_false, false_and, or_false]
        exact ⟨fun h => if_pos h, fun h => if_neg h⟩
      · rw [if_neg hff]
        have hff' : ¬ (p0.flags.testBit 2 = true ∧ p1.flags.testBit 2 = true ∧
            p0.maxFrequency > p1.maxFrequency) := fun h => hff ⟨⟨h.1, h.2.1⟩, h.2.2⟩
        simp only [hff', false_and, not_false_eq_true, true_and, false_or]
        exact ⟨fun h => if_pos h, fun h => if_neg h⟩

/-- Two clusters of two; only the second one is identified, by its first processor or by both. -/
private def exBig (second : Nat) : List Proc :=
  [exCore 0x200000 0 0 0 2, exCore 0x200000 0 0 0 2, exCore full 0x411FD070 0 2 2,
   exCore second 0x411FD070 0 2 2]

/-- Non-vacuity: with one identified processor the other cluster becomes the LITTLE companion,
Cortex-A53. -/
example : (detectClusterMidr .arm64 ⟨.unknown, .unknown, 0, []⟩ 4 (exBig 0x200000)).map
    (fun r => r.2[0]?.map (·.midr)) = some (some 0x410FD030) := by decide

/-- **C81 (violated).** The heuristic is documented for two clusters of which one is identified, but
it is told the number of identified processors: when both processors of the big cluster are
identified it is refused, and the LITTLE cluster is taken for Cortex-A57 like the big one. -/
theorem C81_violated :
    leaders (exBig full) = [0, 2] ∧ reported (exBig full) 0 = none ∧
    reported (exBig full) 2 = some 0x411FD070 ∧
    littleCoreForBig 0x411FD070 = 0x410FD030 ∧
    (detectClusterMidr .arm64 ⟨.unknown, .unknown, 0, []⟩ 4 (exBig full)).map
      (fun r => r.2[0]?.map (·.midr)) = some (some 0x411FD070) := by decide

/-! ## C82 -/

/-- **C82 (sequential scan of identities).** The scan changes no processor but incompletely described
cluster leaders; such a leader gets the MIDR of the last completely described leader before it, or the
given default if there is none. -/
theorem C82_sequential_midr (dflt : Nat) (t : List Proc) :
    ∃ t', midrScan dflt t = some t' ∧ t'.length = t.length ∧
      ∀ (i : Nat) (p : Proc), t[i]? = some p → ∃ q, t'[i]? = some q ∧
        (¬ LeadsItself t i ∨ Complete p → q = p) ∧
        (LeadsItself t i → ¬ Complete p →
          (∀ j s, LastKnownLeader t i j s → q.midr = s.midr) ∧
          ((∀ j s, ¬ LastKnownLeader t i j s) → q.midr = dflt)) := by
  obtain ⟨t', e, hc⟩ := midrScan_spec dflt t
  refine ⟨t', e, hc.length, fun i p hp => ?_⟩
  obtain ⟨q, hq, hr⟩ := hc.get i p hp
  refine ⟨q, hq, ?_⟩
  rcases hr with ⟨hr, hf⟩ | ⟨hla, hnf, hr⟩
  · exact ⟨fun _ => hr, fun hl hnc => absurd (hf ((leadAt_iff t i).mpr hl)) hnc⟩
  · refine ⟨fun h => ?_, fun _ _ => ?_⟩
    · rcases h with h | h
      · exact absurd ((leadAt_iff t i).mp hla) h
      · exact absurd h hnf
    · have hqm : q.midr = midrBefore dflt t i := by rw [hr]; rfl
      rw [hqm]
      rcases midrBefore_spec dflt t i with ⟨j, s, ⟨h1, h2, h3, h4, h5⟩, h6⟩ | ⟨h1, h2⟩
      · have hlk : LastKnownLeader t i j s :=
          ⟨h1, h2, (leadAt_iff t j).mp h3, h4, fun k q' hk hk' hq' hl =>
            h5 k q' hk hk' hq' ((leadAt_iff t k).mpr hl)⟩
        refine ⟨fun j' s' ⟨g1, g2, g3, g4, g5⟩ => ?_, fun hno => absurd hlk (hno j s)⟩
        rcases Nat.lt_trichotomy j j' with hlt | heq | hgt
        · exact absurd g4 (h5 j' s' hlt g1 g2 ((leadAt_iff t j').mpr g3))
        · subst heq; rw [h2] at g2; cases g2; exact h6
        · exact absurd h4 (g5 j s hgt h1 h2 ((leadAt_iff t j).mp h3))
      · refine ⟨fun j s ⟨g1, g2, g3, g4, _⟩ =>
          absurd g4 (h1 j s g1 g2 ((leadAt_iff t j).mpr g3)), fun _ => h2⟩

/-- **C82 (systems without table entry).** A partly described system whose chipset has no table entry
and that has not two clusters with one identified processor is completed by the scan: a cluster without completely described member
gets the identity reported for the last cluster before it that has one; if there is none, it gets what
is known about the cluster of an identified processor. -/
theorem C82_completed_by_scan (a : Arch) (chipset : Chipset) (usable : Nat) (t : List Proc)
    (hl : Led t)
    (hno : ∀ c ∈ configs a, ¬ (c.series = chipset.series ∧ c.model = chipset.model))
    (h2 : (leaders t).length ≠ 2 ∨ identifiedCount t ≠ 1) (hid0 : identifiedCount t ≠ 0) (hid : identifiedCount t < usable)
    (hun : ¬ (OnlyLastIdentified t ∧ 1 < (leaders t).length))
    (hmiss : ∃ l, LeadsItself t l ∧ reported t l = none) :
    ∃ t', detectClusterMidr a chipset usable t = some ((leaders t).length, t') ∧
      ∀ l, LeadsItself t l → reported t l = none → ∃ q, t'[l]? = some q ∧
        (∀ (j m : Nat), j < l → LeadsItself t j → reported t j = some m →
          (∀ k, j < k → k < l → LeadsItself t k → reported t k = none) → q.midr = m) ∧
        ((∀ j, j < l → LeadsItself t j → reported t j = none) →
          ∃ (i : Nat) (p : Proc), t[i]? = some p ∧ Usable p ∧ Identified p ∧
            (reported t p.packageLeaderId = some q.midr ∨
              reported t p.packageLeaderId = none ∧
                t[p.packageLeaderId]?.map (·.midr) = some q.midr)) := by
  have hf : (configs a).find? (fun c => c.model == chipset.model && c.series == chipset.series)
      = none := by
    rw [List.find?_eq_none]
    intro c hc h
    have h : c.model = chipset.model ∧ c.series = chipset.series := by simpa using h
    exact hno c hc ⟨h.2, h.1⟩
  obtain ⟨l', hl', hr'⟩ := hmiss
  obtain ⟨t', s, i, p, dflt, hp, hpu, hpi, hdf, e, hk, hc, hs⟩ :=
    scan_used a chipset usable t hl hf h2 hid0 hid hun ⟨l', (leadAt_iff t l').mpr hl', hr'⟩
  refine ⟨t', e, fun l hla hr => ?_⟩
  obtain ⟨p0, hp0, hu0, hl0⟩ := hla
  obtain ⟨q0, hq0, -⟩ := hk.get' hp0
  obtain ⟨q, hq, hres⟩ := hc.get l q0 hq0
  have hlat : leadAt t l = true := (leadAt_iff t l).mpr ⟨p0, hp0, hu0, hl0⟩
  have hnf := (hs l p0 q0 hlat hp0 hq0).2 hr
  refine ⟨q, hq, ?_⟩
  have hqm : q.midr = midrBefore dflt s l := by
    rcases hres with ⟨-, h⟩ | ⟨-, -, h⟩
    · exact absurd (h (by rw [hk.leadAt]; exact hlat)) hnf
    · rw [h]; rfl
  have hfull : ∀ (k : Nat) (q1 : Proc), s[k]? = some q1 → leadAt s k = true →
      (Full q1 ↔ reported t k ≠ none) ∧ ∀ m, reported t k = some m → q1.midr = m := by
    intro k q1 hq1 hlak
    rw [hk.leadAt] at hlak
    obtain ⟨p1, hp1, -⟩ := (leadAt_iff t k).mp hlak
    obtain ⟨a1, a2⟩ := hs k p1 q1 hlak hp1 hq1
    refine ⟨⟨fun hf hn => a2 hn hf, fun hn => ?_⟩, fun m hm => (a1 m hm).1⟩
    cases hrk : reported t k with
    | none => exact absurd hrk hn
    | some m => exact (a1 m hrk).2
  rw [hqm]
  rcases midrBefore_spec dflt s l with ⟨j, sj, ⟨g1, g2, g3, g4, g5⟩, g6⟩ | ⟨g1, g2⟩
  · have hjr := ((hfull j sj g2 g3).1).mp g4
    have hjl : LeadsItself t j := (leadAt_iff t j).mp (by rw [← hk.leadAt]; exact g3)
    refine ⟨fun j' m hj' hjl' hjr' hbtw => ?_, fun hnone => absurd (hnone j g1 hjl) hjr⟩
    rcases Nat.lt_trichotomy j j' with hlt | heq | hgt
    · have hlaj : leadAt s j' = true := by rw [hk.leadAt]; exact (leadAt_iff t j').mpr hjl'
      obtain ⟨p1, hp1, -⟩ := hjl'
      obtain ⟨q1, hq1, -⟩ := hk.get' hp1
      exact absurd (((hfull j' q1 hq1 hlaj).1).mpr (by rw [hjr']; simp)) (g5 j' q1 hlt hj' hq1 hlaj)
    · subst heq; rw [g6]; exact (hfull j sj g2 g3).2 m hjr'
    · exact absurd (hbtw j hgt g1 hjl) hjr
  · rw [g2]
    refine ⟨fun j m hj hjl hjr _ => ?_, fun _ => ⟨i, p, hp, hpu, hpi, ?_⟩⟩
    · have hlaj : leadAt s j = true := by rw [hk.leadAt]; exact (leadAt_iff t j).mpr hjl
      obtain ⟨p1, hp1, -⟩ := hjl
      obtain ⟨q1, hq1, -⟩ := hk.get' hp1
      exact absurd (((hfull j q1 hq1 hlaj).1).mpr (by rw [hjr]; simp)) (g1 j q1 hj hq1 hlaj)
    · unfold clusterMidr at hdf
      cases hrr : reported t p.packageLeaderId with
      | some m => rw [hrr] at hdf; exact .inl hdf
      | none => rw [hrr] at hdf; exact .inr ⟨rfl, hdf⟩

/-- Non-vacuity: three clusters of two, the middle one described by its second processor; the first
and the third get its identity. -/
example : (let t := [exCore 0x200000 0 0 0 2, exCore 0x200000 0 0 0 2, exCore 0x200000 0 0 2 2,
      exCore full 0x410FD034 0 2 2, exCore 0x200000 0 0 4 2, exCore 0x200000 0 0 4 2]
    leaders t = [0, 2, 4] ∧ identifiedCount t = 1 ∧ reported t 2 = some 0x410FD034 ∧
    reported t 4 = none ∧
    (detectClusterMidr .arm64 ⟨.unknown, .unknown, 0, []⟩ 6 t).map (fun r => r.2.map (·.midr)) =
      some [0x410FD034, 0, 0x410FD034, 0x410FD034, 0x410FD034, 0]) := by decide

/-- Non-vacuity of the scan itself: clusters of one: unknown, A53, unknown, A72, unknown. -/
example : (midrScan 7 [exCore 0 0 0 0 1, exCore full 0x410FD034 0 1 1, exCore 0 0 0 2 1,
    exCore full 0x410FD080 0 3 1, exCore 0 0 0 4 1]).map (fun t => t.map (·.midr)) =
    some [7, 0x410FD034, 0x410FD034, 0x410FD080, 0x410FD080] := by decide

end Verif.Props
