import Verif.Proof.ArmWinTables

/-!
# Detection on ARM Windows
-/

set_option autoImplicit false

namespace Verif.ArmWin
open Spec
open Windows (Info Visit beforeLoop countLoop countLoop_eq perGroup visitsOf visitsOf_lt firstOf countOf
  relationCore relationPackage)
open X86Init (Cache modify? computeMaxCacheSize)

/-- The processors before the tables are connected, with core `kc i` and package `kp i` of processor `i`. -/
structure ProcsOk (per : List Nat) (ps cs : List Info) (ks : List CacheInfo) (num : Numbers)
    (kc kp : Nat → Nat) (procs : List Processor) : Prop where
  length : procs.length = per.sum
  entry : ∀ i < per.sum, ∃ p, procs[i]? = some p ∧ p.smtId = 0 ∧ p.core = some (kc i) ∧
    p.cluster = kc i ∧ p.package = kp i ∧
    (∃ c, cs[kc i]? = some c ∧ i ∈ winIndices per c) ∧
    (((∀ r ∈ ps, i ∉ winIndices per r) ∧ kp i = 0) ∨
      ∃ r v, ps[kp i]? = some r ∧ v ∈ visitsOf per r ∧ v.index = i ∧
        p.groupId = v.group % 65536 ∧ p.processorId = v.number % 65536) ∧
    ∀ k, (p.cache k = none ∧ ∀ r ∈ levelRecords k ks, i ∉ winIndices per r.toInfo) ∨
      ∃ j r, (levelRecords k ks)[j]? = some r ∧ i ∈ winIndices per r.toInfo ∧
        p.cache k = some (num.base k + j)

/-- The array of caches. -/
structure CachesOk (per : List Nat) (ks : List CacheInfo) (num : Numbers) (caches : List Cache) : Prop where
  number : ∀ k, num.get k = (levelRecords k ks).length
  length : caches.length = ks.length
  entry : ∀ k j r, (levelRecords k ks)[j]? = some r → caches[num.base k + j]? = some (cacheOf per r)

theorem procs_of_steps {per : List Nat} {ps cs : List Info} {ks : List CacheInfo} {num : Numbers}
    {ps1 : List Processor} {s : CacheState} {ps3 : List Processor} {total : Nat}
    (hcomplete : ∀ i < per.sum, ∃ c ∈ cs, i ∈ winIndices per c)
    (h1 : Overwritten per packageEntry ps 0 (List.replicate per.sum zeroProcessor) ps1)
    (h2 : CacheInv per num total ps1 ks s) (h3 : Overwritten per coreEntry cs 0 s.processors ps3) :
    ∃ kc kp, ProcsOk per ps cs ks num kc kp ps3 := by
  have hlen1 : ps1.length = per.sum := by rw [h1.1, List.length_replicate]
  have hlen3 : ps3.length = per.sum := by rw [h3.1, h2.processors, hlen1]
  have key : ∀ i, ∃ kc kp, i < per.sum → ∃ p, ps3[i]? = some p ∧ p.smtId = 0 ∧ p.core = some kc ∧
      p.cluster = kc ∧ p.package = kp ∧
      (∃ c, cs[kc]? = some c ∧ i ∈ winIndices per c) ∧
      (((∀ r ∈ ps, i ∉ winIndices per r) ∧ kp = 0) ∨
        ∃ r v, ps[kp]? = some r ∧ v ∈ visitsOf per r ∧ v.index = i ∧
          p.groupId = v.group % 65536 ∧ p.processorId = v.number % 65536) ∧
      ∀ k, (p.cache k = none ∧ ∀ r ∈ levelRecords k ks, i ∉ winIndices per r.toInfo) ∨
        ∃ j r, (levelRecords k ks)[j]? = some r ∧ i ∈ winIndices per r.toInfo ∧
          p.cache k = some (num.base k + j) := by
    intro i
    by_cases hi : i < per.sum
    rotate_left
    · exact ⟨0, 0, fun h => absurd h hi⟩
    have hz : (List.replicate per.sum zeroProcessor)[i]? = some zeroProcessor := by simp [hi]
    -- the package pass
    have a : ∃ p1 kp, ps1[i]? = some p1 ∧ p1.smtId = 0 ∧ p1.package = kp ∧ (∀ k, p1.cache k = none) ∧
        (((∀ r ∈ ps, i ∉ winIndices per r) ∧ kp = 0) ∨
          ∃ r v, ps[kp]? = some r ∧ v ∈ visitsOf per r ∧ v.index = i ∧
            p1.groupId = v.group % 65536 ∧ p1.processorId = v.number % 65536) := by
      rcases h1.2 i _ hz with ⟨b1, b2⟩ | ⟨k, r, v, b1, b2, b3, b4⟩
      · exact ⟨_, 0, b2, rfl, rfl, (fun k => by cases k <;> rfl), Or.inl ⟨b1, rfl⟩⟩
      · rw [Nat.zero_add] at b4
        exact ⟨_, k, b4, rfl, rfl, (fun k => by cases k <;> rfl), Or.inr ⟨r, v, b1, b2, b3, rfl, rfl⟩⟩
    obtain ⟨p1, kp, a1, a2, a3, a4, a5⟩ := a
    obtain ⟨p2, c1, c2, c3⟩ := h2.links i p1 a1
    unfold SameButCaches at c2
    rcases h3.2 i p2 c1 with ⟨d1, -⟩ | ⟨k, r, v, d1, d2, d3, d4⟩
    · obtain ⟨c, hc, hm⟩ := hcomplete i hi
      exact absurd hm (d1 c hc)
    · rw [Nat.zero_add] at d4
      refine ⟨k, kp, fun _ => ⟨_, d4, ?_, rfl, rfl, ?_, ⟨r, d1, mem_indices.mpr ⟨v, d2, d3⟩⟩, ?_, ?_⟩⟩
      · show p2.smtId = 0
        rw [c2]
        exact a2
      · show p2.package = kp
        rw [c2]
        exact a3
      · show _ ∨ ∃ r v, _ ∧ _ ∧ _ ∧ p2.groupId = _ ∧ p2.processorId = _
        rw [c2]
        exact a5
      · intro k'
        have hk : (coreEntry k v p2).cache k' = p2.cache k' := by cases k' <;> rfl
        rw [hk]
        rcases c3 k' with ⟨e1, e2⟩ | e
        · exact Or.inl ⟨e1.trans (a4 k'), e2⟩
        · exact Or.inr e
  refine ⟨fun i => (key i).choose, fun i => (key i).choose_spec.choose, hlen3, ?_⟩
  intro i hi
  exact (key i).choose_spec.choose_spec hi

/-- Detection up to the point where the tables are connected. -/
theorem init_reach {e : Env} {ps cs : List Info} {ks : List CacheInfo} (h : ArmWinReports e ps cs ks)
    (chip : Chip) :
    ∃ kc kp procs cores num caches,
      ProcsOk (armSizes e) ps cs ks num kc kp procs ∧ CachesOk (armSizes e) ks num caches ∧
      cores.length = cs.length ∧ (∀ g < cs.length, cores[g]? = some (coreOf chip g)) ∧
      initByInfo e chip =
        if ¬ (e.alloc 0 ∧ e.alloc 1) then some none
        else if ¬ (e.alloc 2 ∧ e.alloc 3 ∧ e.alloc 4 ∧ e.alloc 5) then some none
        else ifOk (connect procs (armSizes e).sum ps.length cs.length (Wide.convertName chip.name)
            chip.vendor ⟨cores, List.replicate cs.length zeroCluster,
              List.replicate ps.length zeroPackage⟩) fun t =>
          finish (e.alloc 6) (armSizes e).sum ps.length cs.length num procs caches t := by
  obtain ⟨lp, hlp, hps⟩ := h.packages
  obtain ⟨lc1, hlc1, hcs1⟩ := h.cores1
  obtain ⟨lc2, hlc2, hcs2⟩ := h.cores2
  obtain ⟨lk1, hlk1, hks1⟩ := h.caches1
  obtain ⟨lk2, hlk2, hks2⟩ := h.caches2
  have hper : perGroup e.groupCount e.maxCount = armSizes e := rfl
  have hn : countLoop 0 (armSizes e) = (armSizes e).sum := by
    rw [countLoop_eq _ _ (by have := h.total; omega), Nat.zero_add]
  -- packages
  obtain ⟨ps1, a1, a2⟩ := packages_ok (armSizes e) ps 0 (List.replicate (armSizes e).sum zeroProcessor)
    h.fitsPackages List.length_replicate
  have hpk := readAll_eq (fun r : Info => r.relationship == relationPackage)
    (fun id => parseProcessors (beforeLoop 0 (armSizes e)) (armSizes e).sum (storePackage id))
    (fun id r s => (visitsOf (armSizes e) r).foldlM (storePackage id) s) lp ps hps h.somePackage
    (fun id r hr s => parse_eq _ h.total r (h.fitsPackages r hr) _ s)
    (List.replicate (armSizes e).sum zeroProcessor)
  rw [a1] at hpk
  -- cores, first
  have hc1 := readAll_eq (fun r : Info => r.relationship == relationCore)
    (fun _ => parseProcessors (beforeLoop 0 (armSizes e)) (armSizes e).sum fun s (_ : Visit) => some s)
    (fun _ r s => (visitsOf (armSizes e) r).foldlM (fun s (_ : Visit) => some s) s) lc1 cs hcs1 h.someCore
    (fun id r hr s => parse_eq _ h.total r (h.fitsCores r hr) _ s) ps1
  rw [cores_first] at hc1
  -- caches, first
  obtain ⟨num, b1, b2⟩ := count_ok ks 0 ⟨0, 0, 0, 0⟩
  have b2' : ∀ k, num.get k = (levelRecords k ks).length := by
    intro k
    rw [b2 k]
    cases k <;> exact Nat.zero_add _
  have hk1 := readAll_eq (fun r : CacheInfo => r.relationship == relationCache)
    (fun _ r s => some (some (countCache r s))) (fun _ r s => some (countCache r s)) lk1 ks hks1 h.someCache
    (fun _ _ _ _ => rfl) (⟨0, 0, 0, 0⟩ : Numbers)
  rw [b1] at hk1
  -- caches, second
  have hl1 : ps1.length = (armSizes e).sum := by rw [a2.1, List.length_replicate]
  obtain ⟨s, c1, c2⟩ := caches_ok h.total hl1 ks h.fitsCaches h.lines h.ways h.levels [] 0
    ⟨ps1, resetCaches ks.length num, ⟨0, 0, 0, 0⟩⟩ b2'
    (inv_initial (armSizes e) num ks.length (total_le ks num b2') ps1)
  rw [List.nil_append] at c2
  have hk2 := readAll_eq (fun r : CacheInfo => r.relationship == relationCache)
    (fun _ r s => (parseCache (beforeLoop 0 (armSizes e)) num r s).map some)
    (fun _ r s => parseCache (beforeLoop 0 (armSizes e)) num r s) lk2 ks hks2 h.someCache
    (fun _ _ _ _ => rfl) ⟨ps1, resetCaches ks.length num, ⟨0, 0, 0, 0⟩⟩
  rw [c1] at hk2
  -- cores, second
  obtain ⟨ps3, cs3, d1, d2, d3, -, d5⟩ := cores_ok (armSizes e) chip cs 0 s.processors
    (List.replicate cs.length zeroCore) h.fitsCores h.nonempty (by rw [c2.processors, hl1])
    (by rw [List.length_replicate, Nat.zero_add])
    (by intro g _ hg; rw [List.length_replicate] at hg; simp [hg])
  rw [List.length_replicate] at d3 d5
  have hc2 := readAll_eq (fun r : Info => r.relationship == relationCore)
    (fun id => parseProcessors (beforeLoop 0 (armSizes e)) (armSizes e).sum (storeCore chip id))
    (fun id r s => (visitsOf (armSizes e) r).foldlM (storeCore chip id) s) lc2 cs hcs2 h.someCore
    (fun id r hr s => parse_eq _ h.total r (h.fitsCores r hr) _ s)
    ⟨s.processors, List.replicate cs.length zeroCore⟩
  rw [d1] at hc2
  obtain ⟨kc, kp, hprocs⟩ := procs_of_steps h.complete a2 c2 d2
  refine ⟨kc, kp, ps3, cs3, num, s.caches, hprocs, ⟨b2', c2.length, c2.entry⟩, d3,
    fun g hg => d5 g (Nat.zero_le _) hg, ?_⟩
  unfold initByInfo
  dsimp only
  rw [hper, hn]
  split
  · rfl
  rw [hlp, hpk]
  dsimp only [Option.map_some, ifOk]
  rw [hlc1, hc1]
  dsimp only [Option.map_some, ifOk]
  rw [hlk1, hk1]
  dsimp only [Option.map_some, ifOk]
  split
  · rfl
  unfold fill
  rw [hlk2, hk2]
  dsimp only [Option.map_some, ifOk]
  rw [hlc2, hc2]
  rfl

/-- What is published. -/
structure Facts (e : Env) (ps cs : List Info) (ks : List CacheInfo) (chip : Chip) (name : Bytes)
    (kc kp : Nat → Nat) (pub : Published) : Prop where
  processors : ProcsOk (armSizes e) ps cs ks pub.numbers kc kp pub.processors
  caches : CachesOk (armSizes e) ks pub.numbers pub.caches
  tables : TablesOk kc kp (armSizes e).sum cs.length ps.length chip name
    ⟨pub.cores, pub.clusters, pub.packages⟩
  uarchs : pub.uarchs = uarchsOf chip.uarch cs.length (armSizes e).sum
  uarchsCount : pub.uarchsCount = pub.uarchs.length
  processorsCount : pub.processorsCount = (armSizes e).sum
  packagesCount : pub.packagesCount = ps.length
  coresCount : pub.coresCount = cs.length
  maxCacheSize : ∃ p l3 l2 l1d, pub.processors[0]? = some p ∧ linkedSize pub.caches p.l3 = some l3 ∧
    linkedSize pub.caches p.l2 = some l2 ∧ linkedSize pub.caches p.l1d = some l1d ∧
    pub.maxCacheSize = computeMaxCacheSize none l3 l2 l1d

theorem linked_ok {per : List Nat} {ks : List CacheInfo} {num : Numbers} {caches : List Cache}
    (hc : CachesOk per ks num caches) {i : Nat} {x : Option Nat} {k : Level}
    (h : (x = none ∧ ∀ r ∈ levelRecords k ks, i ∉ winIndices per r.toInfo) ∨
      ∃ j r, (levelRecords k ks)[j]? = some r ∧ i ∈ winIndices per r.toInfo ∧
        x = some (num.base k + j)) : ∃ l, linkedSize caches x = some l := by
  rcases h with ⟨rfl, -⟩ | ⟨j, r, h1, -, rfl⟩
  · exact ⟨none, rfl⟩
  · refine ⟨some (cacheOf per r).size, ?_⟩
    show Option.map (fun c : Cache => some c.size) caches[num.base k + j]? = _
    rw [hc.entry k j r h1]
    rfl

theorem keys_lt {per : List Nat} {ps cs : List Info} {ks : List CacheInfo} {num : Numbers}
    {kc kp : Nat → Nat} {procs : List Processor} (hp : ProcsOk per ps cs ks num kc kp procs)
    (h0 : ps ≠ []) (i : Nat) (hi : i < per.sum) : ∃ p, procs[i]? = some p ∧ p.core = some (kc i) ∧
      p.cluster = kc i ∧ p.package = kp i ∧ kc i < cs.length ∧ kp i < ps.length := by
  obtain ⟨p, h1, -, h2, h3, h4, ⟨c, h5, -⟩, h6, -⟩ := hp.entry i hi
  refine ⟨p, h1, h2, h3, h4, (List.getElem?_eq_some_iff.mp h5).1, ?_⟩
  rcases h6 with ⟨-, h6⟩ | ⟨r, v, h6, -⟩
  · rw [h6]
    exact List.length_pos_iff.mpr h0
  · exact (List.getElem?_eq_some_iff.mp h6).1

/-- The processors that exist: at least one, as every core has one. -/
theorem some_processor {e : Env} {ps cs : List Info} {ks : List CacheInfo} (h : ArmWinReports e ps cs ks) :
    0 < (armSizes e).sum := by
  obtain ⟨c, hc⟩ := List.exists_mem_of_ne_nil _ h.someCore
  obtain ⟨i, hi⟩ := List.exists_mem_of_ne_nil _ (h.nonempty c hc)
  have := Windows.winIndices_lt (h.fitsCores c hc) hi
  omega

theorem init_ok {e : Env} {ps cs : List Info} {ks : List CacheInfo} (h : ArmWinReports e ps cs ks)
    (chip : Chip) (name : Bytes) (hname : Wide.convertName chip.name = some name)
    (halloc : ∀ i < 7, e.alloc i = true) :
    ∃ kc kp pub, initByInfo e chip = some (some (some pub)) ∧ Facts e ps cs ks chip name kc kp pub := by
  obtain ⟨kc, kp, procs, cores, num, caches, hp, hc, hcl, hco, hinit⟩ := init_reach h chip
  have h0 := some_processor h
  obtain ⟨tb, t1, t2⟩ := connect_ok procs kc kp (armSizes e).sum cs.length ps.length chip name cores h0 hcl
    hco (keys_lt hp h.somePackage)
  have htake : tb.cores.take cs.length = tb.cores := by
    rw [List.take_of_length_le (by rw [t2.coresLength]; exact Nat.le_refl _)]
  have hcore : ∀ c ∈ tb.cores, c.uarch = chip.uarch := by
    intro c hcm
    obtain ⟨g, hg⟩ := List.mem_iff_getElem?.mp hcm
    have hlt := (List.getElem?_eq_some_iff.mp hg).1
    rw [t2.coresLength] at hlt
    rw [t2.core g hlt] at hg
    cases hg
    rfl
  have hsum : (tb.cores.map (·.processorCount)).sum = (armSizes e).sum := by
    have hmap : tb.cores.map (·.processorCount) =
        (List.range cs.length).map (countOf (armSizes e).sum kc) := by
      apply List.ext_getElem?
      intro g
      rw [List.getElem?_map, List.getElem?_map]
      by_cases hg : g < cs.length
      · rw [t2.core g hg, List.getElem?_range hg]
        rfl
      · rw [List.getElem?_eq_none (by rw [t2.coresLength]; omega),
          List.getElem?_eq_none (by rw [List.length_range]; omega)]
        rfl
    rw [hmap]
    exact sum_countOf _ _ _ fun i hi => (keys_lt hp h.somePackage i hi).choose_spec.2.2.2.2.1
  have hcne : tb.cores ≠ [] := by
    intro he
    have := t2.coresLength
    rw [he] at this
    exact h.someCore (List.eq_nil_of_length_eq_zero this.symm)
  obtain ⟨u1, us, u2, u3⟩ := uarchs_ok chip.uarch tb.cores hcne hcore
  rw [hsum, t2.coresLength] at u1 u3
  obtain ⟨p0, p1, -, -, -, -, -, -, p2⟩ := hp.entry 0 h0
  obtain ⟨l3, hl3⟩ := linked_ok hc (p2 .l3)
  obtain ⟨l2, hl2⟩ := linked_ok hc (p2 .l2)
  obtain ⟨l1d, hl1d⟩ := linked_ok hc (p2 .l1d)
  refine ⟨kc, kp,
    { processors := procs, packages := tb.packages, clusters := tb.clusters, cores := tb.cores
      uarchs := us.uarchs, caches, processorsCount := (armSizes e).sum, packagesCount := ps.length
      coresCount := cs.length, uarchsCount := countUarchs 0 tb.cores, numbers := num
      maxCacheSize := computeMaxCacheSize none l3 l2 l1d }, ?_, ?_⟩
  · rw [hinit, if_neg (by simp [halloc]), if_neg (by simp [halloc]), hname, t1]
    show finish (e.alloc 6) _ _ _ _ _ _ _ = _
    unfold finish
    dsimp only
    rw [htake]
    have e3 : linkedSize caches p0.l3 = some l3 := hl3
    have e2 : linkedSize caches p0.l2 = some l2 := hl2
    have e1 : linkedSize caches p0.l1d = some l1d := hl1d
    simp only [halloc 6 (by omega), not_true_eq_false, if_false, u2, p1, e3, e2, e1, Option.bind_eq_bind,
      Option.bind_some, Option.pure_def]
  · exact
      { processors := hp, caches := hc, tables := t2, uarchs := u3
        uarchsCount := by rw [u3]; exact u1
        processorsCount := rfl, packagesCount := rfl, coresCount := rfl
        maxCacheSize := ⟨p0, l3, l2, l1d, p1, hl3, hl2, hl1d, rfl⟩ }

/-- Where memory or the name is missing before the tables are connected, detection fails without undefined
behaviour. -/
theorem init_fails {e : Env} {ps cs : List Info} {ks : List CacheInfo} (h : ArmWinReports e ps cs ks)
    (chip : Chip) (hbad : Wide.convertName chip.name = none ∨ ∃ i < 6, e.alloc i = false) :
    initByInfo e chip = some none := by
  obtain ⟨kc, kp, procs, cores, num, caches, hp, hc, hcl, hco, hinit⟩ := init_reach h chip
  have h0 := some_processor h
  rw [hinit]
  by_cases g1 : e.alloc 0 ∧ e.alloc 1
  rotate_left
  · rw [if_pos g1]
  rw [if_neg (not_not_intro g1)]
  by_cases g2 : e.alloc 2 ∧ e.alloc 3 ∧ e.alloc 4 ∧ e.alloc 5
  rotate_left
  · rw [if_pos g2]
  rw [if_neg (not_not_intro g2)]
  cases hname : Wide.convertName chip.name with
  | none =>
    obtain ⟨p, b1, b2, b3, b4, b5, b6⟩ := keys_lt hp h.somePackage ((armSizes e).sum - 1) (by omega)
    have hr : (List.range (armSizes e).sum).reverse =
        ((armSizes e).sum - 1) :: (List.range ((armSizes e).sum - 1)).reverse := by
      have : (armSizes e).sum = ((armSizes e).sum - 1) + 1 := by omega
      rw [this, List.range_succ, List.reverse_append]
      rfl
    unfold connect
    rw [hr, loop]
    unfold connectProcessor
    rw [b1]
    dsimp only
    rw [b3, b4, if_neg (by omega), if_neg (by omega)]
    rfl
  | some name =>
    exfalso
    rcases hbad with hb | ⟨i, hi, hb⟩
    · rw [hname] at hb; cases hb
    · have : i = 0 ∨ i = 1 ∨ i = 2 ∨ i = 3 ∨ i = 4 ∨ i = 5 := by omega
      rcases this with rfl | rfl | rfl | rfl | rfl | rfl <;> simp_all

/-- Where only the memory for the kinds of cores is missing, nothing is published, but the result is
success. -/
theorem init_late {e : Env} {ps cs : List Info} {ks : List CacheInfo} (h : ArmWinReports e ps cs ks)
    (chip : Chip) (name : Bytes) (hname : Wide.convertName chip.name = some name)
    (halloc : ∀ i < 6, e.alloc i = true) (h6 : e.alloc 6 = false) :
    initByInfo e chip = some (some none) := by
  obtain ⟨kc, kp, procs, cores, num, caches, hp, hc, hcl, hco, hinit⟩ := init_reach h chip
  have h0 := some_processor h
  obtain ⟨tb, t1, -⟩ := connect_ok procs kc kp (armSizes e).sum cs.length ps.length chip name cores h0
    hcl hco (keys_lt hp h.somePackage)
  rw [hinit, if_neg (by simp [halloc]), if_neg (by simp [halloc]), hname, t1, h6]
  rfl

/-- The first allocation that fails. -/
theorem alloc_cases (e : Env) : (∀ i < 7, e.alloc i = true) ∨ (∃ i < 6, e.alloc i = false) ∨
    ((∀ i < 6, e.alloc i = true) ∧ e.alloc 6 = false) := by
  by_cases h6 : ∀ i < 6, e.alloc i = true
  · cases hb : e.alloc 6 with
    | true =>
      refine Or.inl fun i hi => ?_
      rcases Nat.lt_or_ge i 6 with hlt | hge
      · exact h6 i hlt
      · have : i = 6 := by omega
        rw [this]; exact hb
    | false => exact Or.inr (Or.inr ⟨h6, rfl⟩)
  · refine Or.inr (Or.inl (Classical.byContradiction fun hn => h6 fun i hi => ?_))
    cases hb : e.alloc i with
    | true => rfl
    | false => exact absurd ⟨i, hi, hb⟩ hn

end Verif.ArmWin
