import Verif.Proof.ArmGather

/-!
# ARM detection as a whole
-/

set_option autoImplicit false

namespace Verif.ArmInit
open Spec ArmMidr ArmCpuinfo ArmClusters ArmClusterMidr ArmChipset Runs
open X86Init (modify? bitmaskAll Cache zeroCache MapTab Tab computeMaxCacheSize)

/-! ## Publishing -/

/-- The microarchitecture at position `k`. -/
def uarchAt (S : List Proc) (k : Nat) : Nat := (procAt S k).uarch
def midrAt (S : List Proc) (k : Nat) : Nat := (procAt S k).midr

/-- Where a new microarchitecture starts. -/
def un (S : List Proc) : Nat → Bool := newUarch (uarchAt S)

/-- The situation of the publishing loops. -/
def ctx {a : Arch} {T S : List Proc} (h : SortedOf a T S) (d : Decoders) (chipset : Chipset)
    (hlen : S.length < U32) (h0 : 0 < usableCount T) : Ctx :=
  { a, d, chipset
    N := usableCount T
    P := fun k => { procAt S k with uarchIndex := gi (un S) k }
    maxLinux := S.length
    clusterCount := (leaders T).length
    hN := Nat.lt_of_le_of_lt h.le hlen
    hid := fun k hk => by
      have := lt_of_get (h.at_id (h.get hk).1)
      rw [h.perm.length_eq]; exact this
    inj := fun i j hi hj e => h.distinct (h.get hi).1 (h.get hj).1 e
    new0 := fun h0 => h.new_zero h0
    hcl := by
      rw [← h.clusters h0]
      have := opened_gi (newAt S) (h.new_zero h0) (usableCount T - 1)
      rw [show usableCount T - 1 + 1 = usableCount T by omega] at this
      exact Nat.le_of_eq this }

theorem split_sorted {a : Arch} {T S : List Proc} (h : SortedOf a T S) :
    (∀ (k : Nat) (p : Proc), (S.take (usableCount T))[k]? = some p →
      valid p = true ∧ p = procAt S k ∧ k < usableCount T) ∧
    (∀ p ∈ S.drop (usableCount T), valid p = false) := by
  constructor
  · intro k p hp
    have hk : k < usableCount T := by
      have := lt_of_get hp
      rw [List.length_take] at this; omega
    rw [List.getElem?_take_of_lt hk] at hp
    obtain ⟨g1, g2⟩ := h.get hk
    rw [g1] at hp
    cases hp
    exact ⟨(valid_iff _).mpr g2, rfl, hk⟩
  · intro p hp
    obtain ⟨i, hi⟩ := List.getElem?_of_mem hp
    rw [List.getElem?_drop] at hi
    have := mt (h.usable_prefix _ p hi).mp (by omega)
    cases hv : valid p with
    | false => rfl
    | true => exact absurd ((valid_iff p).mp hv) this

/-- What is published, apart from L2 and L3 caches. -/
structure Good (x : Ctx) (S : List Proc) (pub : Published) : Prop where
  processors : pub.processors.map bare = (List.range x.N).map fun k => bare (x.processorE k)
  cores : Row x.N x.N x.coreE (fun _ => zeroCore) pub.cores
  clusters : OTab x.nw x.clusterCount x.N x.clusterE zeroCluster pub.clusters
  processorMap : MapTab (fun k => (x.P k).systemProcessorId) x.maxLinux x.N id pub.processorMap
  coreMap : MapTab (fun k => (x.P k).systemProcessorId) x.maxLinux x.N id pub.coreMap
  uarchMap : pub.uarchMap.isSome = decide (pub.uarchsCount > 1) ∧
    ∀ m, pub.uarchMap = some m → x.UMap x.N m
  uarchs : Tab (un S) (opened (un S) x.N) x.N (uarchE (uarchAt S) (midrAt S) x.N) zeroUarch pub.uarchs
  uarchsCount : pub.uarchsCount = opened (un S) x.N
  l1i : Row x.N x.N (fun k => l1iEntry x.a k (x.c k).l1i (x.P k)) (fun _ => zeroCache) pub.l1i
  l1d : Row x.N x.N (fun k => l1dEntry x.a k (x.c k).l1d (x.P k)) (fun _ => zeroCache) pub.l1d
  processorsCount : pub.processorsCount = x.N
  coresCount : pub.coresCount = x.N
  clustersCount : pub.clustersCount = x.clusterCount
  packagesCount : pub.packagesCount = 1
  l1Counts : pub.l1iCount = x.N ∧ pub.l1dCount = x.N
  l2Count : pub.l2Count = opened x.op2 x.N
  l3Count : pub.l3Count = (x.counts x.N).l3
  package : pub.packageProcessorCount = x.N ∧ pub.packageCoreCount = x.N ∧
    pub.packageClusterCount = x.clusterCount
  linuxCpuMax : pub.linuxCpuMax = x.maxLinux
  maxCache : maxCacheSize x.d pub.processors pub.cores pub.l1d pub.l2 pub.l3 = some pub.maxCacheSize

/-- What the L2 and L3 tables are. -/
structure GoodCaches (x : Ctx) (pub : Published) : Prop where
  processors : Row x.N x.N (x.finalE (x.counts x.N).l3 (x.counts x.N).shared) x.processorE pub.processors
  l2 : OTab x.op2 (opened x.op2 x.N) x.N x.e2 zeroCache pub.l2
  l3Length : pub.l3.length = (x.counts x.N).l3
  l3 : ∀ k, k < x.N → x.op3 k = true → opened x.op3 k < (x.counts x.N).l3 →
    pub.l3[opened x.op3 k]? = some (x.e3 (x.counts x.N).shared k)

/-- Before any position. -/
theorem inv_init (x : Ctx) (c : Nat) :
    x.Inv (decide (c > 1)) 0
      { clusterId := U32MAX
        clusters := List.replicate x.clusterCount zeroCluster
        processors := List.replicate x.N zeroProcessor
        cores := List.replicate x.N zeroCore
        processorMap := List.replicate x.maxLinux none
        coreMap := List.replicate x.maxLinux none
        uarchMap := if c > 1 then some (List.replicate x.maxLinux 0) else none
        l1i := List.replicate x.N zeroCache
        l1d := List.replicate x.N zeroCache
        l2Count := 0, l3Count := 0, bigL3Size := 0, sharedL3 := true } := by
  refine ⟨rfl, OTab.init .., Row.init .., Row.init .., MapTab.init .., MapTab.init .., ?_, Row.init ..,
    Row.init .., rfl⟩
  by_cases h : c > 1
  · dsimp only
    rw [if_pos h, decide_eq_true h]
    refine ⟨rfl, fun m h => ?_⟩
    have h := Option.some.inj h
    subst h
    exact ⟨by simp, fun k hk => by omega⟩
  · dsimp only
    rw [if_neg h, decide_eq_false h]
    exact ⟨rfl, fun m h => by cases h⟩

theorem publish_zero (a : Arch) (d : Decoders) (alloc : Nat → Bool) (chipset : Chipset)
    (cc : Nat) (S : List Proc) (pub : Published) :
    publish a d alloc chipset 0 cc S ≠ some (some pub) := by
  intro h
  unfold publish at h
  simp only [Option.bind_eq_bind, Option.pure_def] at h
  split at h
  · cases h
  · split at h
    · cases h
    · split at h
      · cases h
      · obtain ⟨us, -, h⟩ := Option.bind_eq_some_iff.mp h
        rw [if_neg (by omega)] at h
        simp only [List.take_zero, publishLoop, cacheLoop, Option.bind_some] at h
        rw [if_neg (by simp), if_neg (by simp)] at h
        simp [maxCacheSize] at h

theorem no_l3_without_l2 (x : Ctx) (h0 : 0 < x.N) (h : opened x.op2 x.N = 0) : (x.counts x.N).l3 = 0 := by
  rw [x.l3_count h0]
  rcases Nat.eq_zero_or_pos (opened x.op3' x.N) with h1 | h1
  · exact h1
  · obtain ⟨k, hk, ho, -⟩ := opened_surj x.op3' x.N 0 h1
    have : x.op2 k = true := by
      simp only [Ctx.op3', Ctx.op3, Bool.and_eq_true, bne_iff_ne] at ho
      simp [Ctx.op2, ho.1.2]
    have := opened_lt this hk
    omega

theorem cinv_init (x : Ctx) (h0 : 0 < x.N) (shared : Bool) (ps : List Processor)
    (hp : Row x.N x.N x.processorE (fun _ => zeroProcessor) ps) (c2 c3 : Nat)
    (h2 : c2 = opened x.op2 x.N) (h3 : c3 = (x.counts x.N).l3) :
    x.CInv c3 shared 0
      { clusterId := U32MAX, l2Index := U32MAX, l3Index := U32MAX
        l2 := List.replicate c2 zeroCache
        l3 := if c2 ≠ 0 then List.replicate c3 zeroCache else []
        processors := ps } := by
  subst h2 h3
  refine ⟨rfl, rfl, rfl, OTab.init .., ?_, fun k hk => by omega, hp.length, fun k hk => ?_⟩
  · dsimp only
    split
    · simp
    · next h => rw [no_l3_without_l2 x h0 (by omega)]; rfl
  · dsimp only
    rw [hp.get k hk, if_pos hk, if_neg (by omega)]

theorem maxCache_total (x : Ctx) (h0 : 0 < x.N) (hu : x.Uniform) {ps : List Processor}
    {cores : List Core} {l1d l2 l3 : List Cache} {eC : Nat → Cache}
    (hp : Row x.N x.N (x.finalE (x.counts x.N).l3 (x.counts x.N).shared) x.processorE ps)
    (hc : Row x.N x.N x.coreE (fun _ => zeroCore) cores)
    (h1 : Row x.N x.N eC (fun _ => zeroCache) l1d)
    (h2 : OTab x.op2 (opened x.op2 x.N) x.N x.e2 zeroCache l2)
    (h3 : l3.length = (x.counts x.N).l3) :
    ∃ n, maxCacheSize x.d ps cores l1d l2 l3 = some n := by
  unfold maxCacheSize
  have e := hp.get 0 h0
  rw [if_pos h0] at e
  have ec := hc.get 0 h0
  rw [if_pos h0] at ec
  have e1 := h1.get 0 h0
  rw [if_pos h0] at e1
  have s1 : linkedSize (some 0) l1d = some (some (eC 0).size) := by
    unfold linkedSize; simp only [e1]; rfl
  have s2 : ∃ r, linkedSize (x.link2 0) l2 = some r := by
    unfold Ctx.link2
    split
    · next hh =>
      have hlt : idx x.op2 1 < l2.length := by
        have ho : x.op2 0 = true := by
          have hw : x.nw 0 = true := x.new0 h0
          unfold Ctx.has2 at hh
          unfold Ctx.op2
          rw [hw]
          rcases hh with hh | hh <;> simp [hh]
        rw [idx_pos ho, h2.length]
        exact opened_lt ho h0
      exact ⟨_, by unfold linkedSize; simp only [List.getElem?_eq_getElem hlt]; rfl⟩
    · exact ⟨none, rfl⟩
  have s3 : ∃ r, linkedSize (x.link3 (x.counts x.N).l3 (x.counts x.N).shared 0) l3 = some r := by
    have some_of : ∀ j, j < l3.length → ∃ r, linkedSize (some j) l3 = some r := fun j hj =>
      ⟨_, by unfold linkedSize; simp only [List.getElem?_eq_getElem hj]; rfl⟩
    unfold Ctx.link3
    split
    · split
      · next hs =>
        refine some_of 0 ?_
        rw [h3, x.l3_one h0 ((x.shared_iff h0 hu).mp hs)]
        exact Nat.one_pos
      · split
        · next hs => exact some_of _ (by rw [h3]; exact hs)
        · exact ⟨none, rfl⟩
    · exact ⟨none, rfl⟩
  obtain ⟨r2, s2⟩ := s2
  obtain ⟨r3, s3⟩ := s3
  have k1 : (x.finalE (x.counts x.N).l3 (x.counts x.N).shared 0).core = 0 := rfl
  have k2 : (x.finalE (x.counts x.N).l3 (x.counts x.N).shared 0).l1d = 0 := rfl
  have k3 : (x.finalE (x.counts x.N).l3 (x.counts x.N).shared 0).l2 = x.link2 0 := rfl
  have k4 : (x.finalE (x.counts x.N).l3 (x.counts x.N).shared 0).l3 =
    x.link3 (x.counts x.N).l3 (x.counts x.N).shared 0 := rfl
  simp only [Option.bind_eq_bind, Option.pure_def, e, Option.bind_some, k1, k2, k3, k4, ec, s1, s2, s3]
  split
  · exact ⟨_, rfl⟩
  · exact ⟨_, rfl⟩

section
variable {a : Arch} {T S : List Proc} (h : SortedOf a T S) (d : Decoders) (chipset : Chipset)
  (hlen : S.length < U32) (h0 : 0 < usableCount T)

theorem numbered_sorted (k : Nat) (p : Proc)
    (hp : (numbered (un S) 0 (S.take (usableCount T)))[k]? = some p) :
    p = (ctx h d chipset hlen h0).P k ∧ k < usableCount T := by
  have hk := lt_of_get hp
  rw [numbered_length] at hk
  obtain ⟨-, e, hkN⟩ := (split_sorted h).1 k _ (List.getElem?_eq_getElem hk)
  have := numbered_get (un S) _ 0 k _ (List.getElem?_eq_getElem hk)
  rw [hp, e, Nat.zero_add] at this
  exact ⟨Option.some.inj this, hkN⟩

include h in
/-- The list of microarchitectures can be counted and filled. -/
theorem uarchs_sorted :
    ∃ us, countUarchs 0 0 S = (opened (un S) (usableCount T),
        numbered (un S) 0 (S.take (usableCount T)) ++ S.drop (usableCount T)) ∧
      fillUarchs 0 0 (numbered (un S) 0 (S.take (usableCount T)) ++ S.drop (usableCount T))
        (List.replicate (opened (un S) (usableCount T)) zeroUarch) = some us ∧
      Tab (un S) (opened (un S) (usableCount T)) (usableCount T)
        (uarchE (uarchAt S) (midrAt S) (usableCount T)) zeroUarch us := by
  obtain ⟨s1, s2⟩ := split_sorted h
  have hV : (S.take (usableCount T)).length = usableCount T := by
    rw [List.length_take]; have := h.le; omega
  have e1 := countUarchs_spec (uarchAt S) (S.take (usableCount T)) (S.drop (usableCount T)) 0 0
    (fun m hm => by omega) (fun k p hp => by
      obtain ⟨v, e, -⟩ := s1 k p hp
      exact ⟨v, by rw [e, Nat.zero_add]; rfl⟩) s2
  have hn : (numbered (un S) 0 (S.take (usableCount T))).length = usableCount T := by
    rw [numbered_length, hV]
  obtain ⟨us, e2, ht⟩ := fillUarchs_spec (uarchAt S) (midrAt S) (opened (un S) (usableCount T))
    (numbered (un S) 0 (S.take (usableCount T))) (S.drop (usableCount T)) 0 0
    (List.replicate (opened (un S) (usableCount T)) zeroUarch)
    (by rw [hn, Nat.zero_add]; exact Nat.le_refl _) (fun m hm => by omega) (fun k p hp => by
      have hk := lt_of_get hp
      rw [numbered_length] at hk
      obtain ⟨v, e, hkN⟩ := s1 k _ (List.getElem?_eq_getElem hk)
      have := numbered_get (un S) _ 0 k _ (List.getElem?_eq_getElem hk)
      rw [hp] at this
      have this := Option.some.inj this
      rw [this, Nat.zero_add, e]
      exact ⟨by rw [e] at v; exact v, rfl, rfl⟩) s2 (Tab.init ..)
  refine ⟨us, ?_, e2, ?_⟩
  · rw [List.take_append_drop, hV, Nat.zero_add] at e1
    exact e1
  · rw [hn, Nat.zero_add] at ht
    exact ht

/-- Everything up to the second loop. -/
theorem publish_loop :
    ∃ (us : List Uarch) (s : State) (t : List Proc),
      countUarchs 0 0 S = (opened (un S) (usableCount T), t) ∧
      fillUarchs 0 0 t (List.replicate (opened (un S) (usableCount T)) zeroUarch) = some us ∧
      Tab (un S) (opened (un S) (usableCount T)) (usableCount T)
        (uarchE (uarchAt S) (midrAt S) (usableCount T)) zeroUarch us ∧
      t.length = S.length ∧
      publishLoop a d chipset 0 (t.take (usableCount T))
        { clusterId := U32MAX
          clusters := List.replicate (leaders T).length zeroCluster
          processors := List.replicate (usableCount T) zeroProcessor
          cores := List.replicate (usableCount T) zeroCore
          processorMap := List.replicate t.length none
          coreMap := List.replicate t.length none
          uarchMap := if opened (un S) (usableCount T) > 1 then some (List.replicate t.length 0) else none
          l1i := List.replicate (usableCount T) zeroCache
          l1d := List.replicate (usableCount T) zeroCache
          l2Count := 0, l3Count := 0, bigL3Size := 0, sharedL3 := true } = some s ∧
      (ctx h d chipset hlen h0).Inv (decide (opened (un S) (usableCount T) > 1)) (usableCount T) s ∧
      (0 + (t.take (usableCount T)).length = (ctx h d chipset hlen h0).N) ∧
      (∀ k p, (t.take (usableCount T))[k]? = some p → p = (ctx h d chipset hlen h0).P (0 + k)) := by
  obtain ⟨us, e1, e2, ht⟩ := uarchs_sorted h
  have hV : (S.take (usableCount T)).length = usableCount T := by
    rw [List.length_take]; have := h.le; omega
  have hn : (numbered (un S) 0 (S.take (usableCount T))).length = usableCount T := by
    rw [numbered_length, hV]
  have htake : (numbered (un S) 0 (S.take (usableCount T)) ++ S.drop (usableCount T)).take (usableCount T)
      = numbered (un S) 0 (S.take (usableCount T)) := by
    rw [List.take_append_of_le_length (by omega), List.take_of_length_le (by omega)]
  have htl : (numbered (un S) 0 (S.take (usableCount T)) ++ S.drop (usableCount T)).length = S.length := by
    rw [List.length_append, hn, List.length_drop]; have := h.le; omega
  have hP : ∀ k p, (numbered (un S) 0 (S.take (usableCount T)))[k]? = some p →
      p = (ctx h d chipset hlen h0).P (0 + k) := fun k p hp => by
    rw [Nat.zero_add]; exact (numbered_sorted h d chipset hlen h0 k p hp).1
  obtain ⟨s, es, hs⟩ := (ctx h d chipset hlen h0).loop (decide (opened (un S) (usableCount T) > 1))
    (numbered (un S) 0 (S.take (usableCount T))) 0 _ (by rw [hn, Nat.zero_add]; rfl) hP
    (inv_init (ctx h d chipset hlen h0) (opened (un S) (usableCount T)))
  refine ⟨us, s, _, e1, e2, ht, htl, ?_, hs, ?_, ?_⟩
  · rw [htake, htl]; exact es
  · rw [htake, hn, Nat.zero_add]; rfl
  · rw [htake]; exact hP

/-- What is published is as it should be. -/
theorem publish_good (alloc : Nat → Bool) (pub : Published)
    (e : publish a d alloc chipset (usableCount T) (leaders T).length S = some (some pub)) :
    Good (ctx h d chipset hlen h0) S pub ∧
    ((ctx h d chipset hlen h0).Uniform → GoodCaches (ctx h d chipset hlen h0) pub) := by
  obtain ⟨us, s, t, e1, e2, ht, htl, es, hs, hn, hP⟩ := publish_loop h d chipset hlen h0
  generalize hx : ctx h d chipset hlen h0 = x at *
  have hxN : x.N = usableCount T := by rw [← hx]; rfl
  have hxa : x.a = a := by rw [← hx]; rfl
  have hxd : x.d = d := by rw [← hx]; rfl
  have hxc : x.chipset = chipset := by rw [← hx]; rfl
  have hxm : x.maxLinux = S.length := by rw [← hx]; rfl
  have hxl : x.clusterCount = (leaders T).length := by rw [← hx]; rfl
  unfold publish at e
  rw [e1] at e
  simp only [Option.bind_eq_bind, Option.pure_def] at e
  split at e
  · cases e
  · split at e
    · cases e
    · split at e
      · cases e
      · rw [e2, Option.bind_some, if_neg (by rw [htl]; have := h.le; omega), es, Option.bind_some] at e
        split at e
        · cases e
        · split at e
          · cases e
          · obtain ⟨r, hr, e⟩ := Option.bind_eq_some_iff.mp e
            obtain ⟨mc, hmc, e⟩ := Option.bind_eq_some_iff.mp e
            cases e
            rw [← hxN] at hs
            have hc := hs.counts
            have c2 : s.l2Count = opened x.op2 x.N := by
              rw [← x.counts_l2, ← hc]; rfl
            have c3 : s.l3Count = (x.counts x.N).l3 := by rw [← hc]; rfl
            have cs : s.sharedL3 = (x.counts x.N).shared := by rw [← hc]; rfl
            refine ⟨⟨?_, hs.cores, hs.clusters, hs.processorMap, hs.coreMap,
              by rw [← hxN]; exact hs.uarchMap,
              by rw [hxN]; exact ht, by rw [hxN], hs.l1i, hs.l1d, hxN.symm, hxN.symm, hxl.symm, rfl,
              ⟨hxN.symm, hxN.symm⟩, c2, c3, ⟨hxN.symm, hxN.symm, hxl.symm⟩, by rw [hxm]; exact htl,
              by rw [hxd]; exact hmc⟩, ?_⟩
            · rw [cacheLoop_bare _ _ _ _ hr]
              show s.processors.map bare = _
              rw [hs.processors.done, List.map_map]
              rfl
            · intro hu
              obtain ⟨s', es', hs'⟩ := x.cloop hu s.l3Count s.sharedL3 (t.take (usableCount T)) 0 _ hn hP
                (cinv_init x (by omega) s.sharedL3 s.processors hs.processors s.l2Count s.l3Count c2 c3)
              rw [hxd, hxc, hxN] at es'
              rw [es'] at hr
              cases hr
              rw [c3, cs] at hs'
              exact ⟨hs'.processors, hs'.l2, hs'.l3Length, hs'.l3⟩

/-- Publishing gives no undefined result when the processors of a cluster have the same caches, and
succeeds when there is memory. -/
theorem publish_total (alloc : Nat → Bool) (hu : (ctx h d chipset hlen h0).Uniform) :
    ∃ r, publish a d alloc chipset (usableCount T) (leaders T).length S = some r ∧
      ((∀ i, alloc i = true) → r ≠ none) := by
  obtain ⟨us, s, t, e1, e2, ht, htl, es, hs, hn, hP⟩ := publish_loop h d chipset hlen h0
  generalize hx : ctx h d chipset hlen h0 = x at *
  have hxN : x.N = usableCount T := by rw [← hx]; rfl
  have hxa : x.a = a := by rw [← hx]; rfl
  have hxd : x.d = d := by rw [← hx]; rfl
  have hxc : x.chipset = chipset := by rw [← hx]; rfl
  rw [← hxN] at hs
  have hc := hs.counts
  have c2 : s.l2Count = opened x.op2 x.N := by
    rw [← x.counts_l2, ← hc]; rfl
  have c3 : s.l3Count = (x.counts x.N).l3 := by rw [← hc]; rfl
  have cs : s.sharedL3 = (x.counts x.N).shared := by rw [← hc]; rfl
  obtain ⟨s', es', hs'⟩ := x.cloop hu s.l3Count s.sharedL3 (t.take (usableCount T)) 0 _ hn hP
    (cinv_init x (by omega) s.sharedL3 s.processors hs.processors s.l2Count s.l3Count c2 c3)
  rw [hxd, hxc, hxN] at es'
  rw [c3, cs] at hs'
  obtain ⟨mc, hmc⟩ := maxCache_total x (by omega) hu hs'.processors hs.cores hs.l1d hs'.l2 hs'.l3Length
  rw [hxd] at hmc
  unfold publish
  rw [e1]
  simp only [Option.bind_eq_bind, Option.pure_def]
  split
  · next hf => exact ⟨_, rfl, fun ha => absurd ⟨ha 1, ha 2, ha 3, ha 4, ha 5, ha 6⟩ hf⟩
  · split
    · next hf => exact ⟨_, rfl, fun ha => absurd (ha 7) hf.2⟩
    · split
      · next hf => exact ⟨_, rfl, fun ha => absurd ⟨ha 8, ha 9⟩ hf⟩
      · rw [e2, Option.bind_some, if_neg (by rw [htl]; have := h.le; omega), es, Option.bind_some]
        split
        · next hf => exact ⟨_, rfl, fun ha => absurd (ha 10) hf.2⟩
        · split
          · next hf => exact ⟨_, rfl, fun ha => absurd (ha 11) hf.2.2⟩
          · rw [es', Option.bind_some, hmc, Option.bind_some]
            exact ⟨_, rfl, fun _ hh => by cases hh⟩

end

end Verif.ArmInit
