import Verif.Proof.ArmWhole

/-!
# ARM detection when some usable processors are not listed in /proc/cpuinfo

The publishing loops then run over a prefix of the sorted usable processors.
-/

set_option autoImplicit false

namespace Verif.ArmInit
open Spec ArmMidr ArmCpuinfo ArmClusters ArmClusterMidr ArmChipset Runs
open X86Init (modify? bitmaskAll Cache zeroCache MapTab Tab computeMaxCacheSize)

/-! ## Analysis -/

/-- Cluster detection before counting, whenever it ends. -/
theorem clusters_led_of {c : Config} {junk junk' : Attrs} {cl co : Nat → File} {u : Nat}
    {t t'' : List Proc} (h : detectClusters c junk junk' cl co u t = some t'') :
    ∃ t', countProcessors t' = some t'' ∧ SameTable t t' ∧ Led t' := by
  obtain ⟨t1, e1, s1, l1⟩ := readAllSiblings_linked cl co t
  obtain ⟨n, t2, e2, s2, l2, r2⟩ := propagate_rep t1 l1
  have s12 := s1.trans s2
  have led2 := led_of_rep l2 r2
  unfold detectClusters at h
  rw [e1] at h
  simp only [Option.bind_eq_bind, Option.bind_some] at h
  rw [e2] at h
  simp only [Option.bind_some] at h
  by_cases hn : n = u
  · rw [if_neg (fun hh => hh hn)] at h
    exact ⟨t2, h, s12, led2⟩
  · rw [if_pos hn] at h
    obtain ⟨⟨t3, ok⟩, e3, h'⟩ := Option.bind_eq_some_iff.mp h
    cases ok with
    | true =>
      obtain ⟨s3, led3⟩ := heuristic_led c junk u t2 t3 l2 e3
      exact ⟨t3, h', s12.trans s3, led3⟩
    | false =>
      have := heuristic_false c junk u t2 t3 e3
      subst this
      obtain ⟨t4, e4, s4, led4⟩ := scan_led junk' t3 l2 r2
      have h : ((sequentialScan junk' t3).bind fun t => countProcessors t) = some t'' := h'
      rw [e4] at h
      exact ⟨t4, h, s12.trans s4, led4⟩

theorem detectClusters_led_of {c : Config} {junk junk' : Attrs} {cl co : Nat → File} {u : Nat}
    {t t2 : List Proc} (h : detectClusters c junk junk' cl co u t = some t2)
    (hz : ∀ p, p ∈ t → p.packageProcessorCount = 0) :
    SameProcessors t t2 ∧ Led t2 ∧
      ∀ (i : Nat) (p : Proc), t2[i]? = some p → Usable p →
        p.packageProcessorCount = membersOf t2 p.packageLeaderId := by
  obtain ⟨t1, e1, s1, led1⟩ := clusters_led_of h
  obtain ⟨t2', e2, l2, h2⟩ := countProcessors_spec t1 led1 (zero_of_same s1 hz)
  rw [e1] at e2
  cases e2
  obtain ⟨led2, m2⟩ := count_same l2 _ h2 led1
  refine ⟨⟨l2.trans s1.1, fun i p q hp hq => ?_⟩, led2, fun i q hq hqu => ?_⟩
  · obtain ⟨r, hr, hpr⟩ := s1.get' hp
    rw [h2 i r hr] at hq
    cases hq
    have : { counted r (if Usable r then membersOf t1 r.packageLeaderId else 0) with
        packageProcessorCount := p.packageProcessorCount } = r := by
      rw [show p.packageProcessorCount = r.packageProcessorCount by rw [hpr.1]]
      rfl
    rw [this]
    exact hpr
  · have hi : i < t1.length := by rw [← l2]; exact lt_of_get hq
    have hp := List.getElem?_eq_getElem hi
    generalize t1[i] = p at hp
    rw [h2 i p hp] at hq
    cases hq
    rw [m2]
    show (if Usable p then membersOf t1 p.packageLeaderId else 0) = membersOf t1 p.packageLeaderId
    rw [if_pos (show Usable p from hqu)]

/-- The table handed to `qsort`, whichever processors are listed. -/
theorem analyse_of {e : Env} {chipset : Chipset} {t T : List Proc} {c : Nat} (hg : Gathered t)
    (h : analyse e chipset t = some (c, T)) :
    c = (leaders T).length ∧ Ready T ∧ SameBases t T := by
  obtain ⟨t1, e1, m1⟩ := frequency_spec e t
  have b1 : SameBases t t1 := ⟨m1.1, fun i p q hp hq => SameBase.measured (m1.2 i p q hp hq)⟩
  have z1 : ∀ p, p ∈ t1 → p.packageProcessorCount = 0 := by
    intro q hq
    obtain ⟨i, hi⟩ := List.getElem?_of_mem hq
    obtain ⟨p, hp, -⟩ := b1.get hi
    rw [(m1.2 i p q hp hi).1]
    exact hg.sizes p (List.mem_of_getElem? hp)
  unfold analyse at h
  simp only [Option.bind_eq_bind, e1, Option.bind_some, Option.pure_def] at h
  obtain ⟨t2, e2, h⟩ := Option.bind_eq_some_iff.mp h
  obtain ⟨m2, led2, cnt2⟩ := detectClusters_led_of e2 z1
  have b2 : SameBases t1 t2 := ⟨m2.1, fun i p q hp hq => SameBase.cluster (m2.2 i p q hp hq)⟩
  obtain ⟨t3, e3, d3⟩ := detect_spec e.config.arch chipset (countListed t) t2 led2
  have b3 := SameBases.kept d3.kept
  have led3 := d3.kept.led led2
  obtain ⟨T', e4, u4⟩ := uarch_spec e t3 led3
  have b4 := SameBases.kept u4.kept
  have led4 := u4.kept.led led3
  have hall := ((b1.trans b2).trans b3).trans b4
  simp only [e3, e4, Option.bind_some] at h
  cases h
  refine ⟨by rw [u4.kept.leaders, d3.kept.leaders], ⟨?_, led4, ?_, ?_⟩, hall⟩
  · intro i q hq
    obtain ⟨p, hp, s⟩ := hall.get hq
    rw [s.id]; exact hg.ids i p hp
  · intro i q hq hu
    obtain ⟨p3, hp3, s3⟩ := u4.kept.get hq
    obtain ⟨p2, hp2, s2⟩ := d3.kept.get hp3
    have s := s3.trans s2
    rw [skel_count s, skel_leader s, u4.kept.membersOf, d3.kept.membersOf]
    exact cnt2 i p2 hp2 ((skel_usable s).mp hu)
  · intro i p l hp hu hl'
    exact u4.member i p l (by have := lt_of_get hp; rw [u4.kept.length] at this; exact this) hp hu hl'

/-! ## Publishing a prefix -/

/-- The situation of the publishing loops when `n` processors are published. -/
def ctxN {a : Arch} {T S : List Proc} (h : SortedOf a T S) (d : Decoders) (chipset : Chipset)
    (hlen : S.length < U32) (n : Nat) (hn : n ≤ usableCount T) : Ctx :=
  { a, d, chipset
    N := n
    P := fun k => { procAt S k with uarchIndex := gi (un S) k }
    maxLinux := S.length
    clusterCount := (leaders T).length
    hN := Nat.lt_of_le_of_lt (Nat.le_trans hn h.le) hlen
    hid := fun k hk => by
      have := lt_of_get (h.at_id (h.get (Nat.lt_of_lt_of_le hk hn)).1)
      rw [h.perm.length_eq]; exact this
    inj := fun i j hi hj e =>
      h.distinct (h.get (Nat.lt_of_lt_of_le hi hn)).1 (h.get (Nat.lt_of_lt_of_le hj hn)).1 e
    new0 := fun h0 => h.new_zero (Nat.lt_of_lt_of_le h0 hn)
    hcl := by
      rcases Nat.eq_zero_or_pos n with hz | hz
      · subst hz; exact Nat.zero_le _
      · have h0 : 0 < usableCount T := Nat.lt_of_lt_of_le hz hn
        refine Nat.le_trans (opened_mono (newAt S) hn) (Nat.le_of_eq ?_)
        rw [← h.clusters h0]
        have := opened_gi (newAt S) (h.new_zero h0) (usableCount T - 1)
        rw [show usableCount T - 1 + 1 = usableCount T by omega] at this
        exact this }

/-- What is published, apart from L2 and L3 caches, when the first `x.N` of `all` usable processors
are. -/
structure GoodPrefix (x : Ctx) (S : List Proc) (all : Nat) (pub : Published) : Prop where
  processors : pub.processors.map bare = (List.range x.N).map fun k => bare (x.processorE k)
  cores : Row x.N x.N x.coreE (fun _ => zeroCore) pub.cores
  clusters : OTab x.nw x.clusterCount x.N x.clusterE zeroCluster pub.clusters
  processorMap : MapTab (fun k => (x.P k).systemProcessorId) x.maxLinux x.N id pub.processorMap
  coreMap : MapTab (fun k => (x.P k).systemProcessorId) x.maxLinux x.N id pub.coreMap
  uarchMap : pub.uarchMap.isSome = decide (pub.uarchsCount > 1) ∧
    ∀ m, pub.uarchMap = some m → x.UMap x.N m
  uarchs : Tab (un S) (opened (un S) all) all (uarchE (uarchAt S) (midrAt S) all) zeroUarch pub.uarchs
  uarchsCount : pub.uarchsCount = opened (un S) all
  l1i : Row x.N x.N (fun k => l1iEntry x.a k (x.c k).l1i (x.P k)) (fun _ => zeroCache) pub.l1i
  l1d : Row x.N x.N (fun k => l1dEntry x.a k (x.c k).l1d (x.P k)) (fun _ => zeroCache) pub.l1d
  processorsCount : pub.processorsCount = x.N
  coresCount : pub.coresCount = x.N
  clustersCount : pub.clustersCount = x.clusterCount
  packagesCount : pub.packagesCount = 1
  l1Counts : pub.l1iCount = x.N ∧ pub.l1dCount = x.N
  package : pub.packageProcessorCount = x.N ∧ pub.packageCoreCount = x.N ∧
    pub.packageClusterCount = x.clusterCount
  linuxCpuMax : pub.linuxCpuMax = x.maxLinux

theorem publish_prefix {a : Arch} {T S : List Proc} (h : SortedOf a T S) (d : Decoders)
    (chipset : Chipset) (hlen : S.length < U32) (n : Nat) (hn : n ≤ usableCount T)
    (alloc : Nat → Bool) (pub : Published)
    (e : publish a d alloc chipset n (leaders T).length S = some (some pub)) :
    GoodPrefix (ctxN h d chipset hlen n hn) S (usableCount T) pub := by
  obtain ⟨us, e1, e2, ht⟩ := uarchs_sorted h
  have hV : (S.take (usableCount T)).length = usableCount T := by
    rw [List.length_take]; have := h.le; omega
  have hnum : (numbered (un S) 0 (S.take (usableCount T))).length = usableCount T := by
    rw [numbered_length, hV]
  have htl : (numbered (un S) 0 (S.take (usableCount T)) ++ S.drop (usableCount T)).length = S.length := by
    rw [List.length_append, hnum, List.length_drop]; have := h.le; omega
  have htake : (numbered (un S) 0 (S.take (usableCount T)) ++ S.drop (usableCount T)).take n
      = (numbered (un S) 0 (S.take (usableCount T))).take n :=
    List.take_append_of_le_length (by omega)
  have hP : ∀ k p, ((numbered (un S) 0 (S.take (usableCount T))).take n)[k]? = some p →
      p = (ctxN h d chipset hlen n hn).P (0 + k) := fun k p hp => by
    rw [Nat.zero_add]
    have hk := lt_of_get hp
    rw [List.length_take] at hk
    rw [List.getElem?_take_of_lt (by omega)] at hp
    have hk := lt_of_get hp
    rw [numbered_length] at hk
    obtain ⟨-, e, -⟩ := (split_sorted h).1 k _ (List.getElem?_eq_getElem hk)
    have := numbered_get (un S) _ 0 k _ (List.getElem?_eq_getElem hk)
    rw [hp, e, Nat.zero_add] at this
    exact Option.some.inj this
  have hlenN : 0 + ((numbered (un S) 0 (S.take (usableCount T))).take n).length =
      (ctxN h d chipset hlen n hn).N := by
    rw [List.length_take, hnum, Nat.zero_add]
    show min n _ = n
    omega
  obtain ⟨s, es, hs⟩ := (ctxN h d chipset hlen n hn).loop (decide (opened (un S) (usableCount T) > 1))
    ((numbered (un S) 0 (S.take (usableCount T))).take n) 0 _ hlenN hP
    (inv_init (ctxN h d chipset hlen n hn) (opened (un S) (usableCount T)))
  generalize htt : numbered (un S) 0 (S.take (usableCount T)) ++ S.drop (usableCount T) = t at *
  rw [← htake] at es
  have es' : publishLoop a d chipset 0 (t.take n)
        { clusterId := U32MAX
          clusters := List.replicate (leaders T).length zeroCluster
          processors := List.replicate n zeroProcessor
          cores := List.replicate n zeroCore
          processorMap := List.replicate t.length none
          coreMap := List.replicate t.length none
          uarchMap := if opened (un S) (usableCount T) > 1 then some (List.replicate t.length 0) else none
          l1i := List.replicate n zeroCache
          l1d := List.replicate n zeroCache
          l2Count := 0, l3Count := 0, bigL3Size := 0, sharedL3 := true } = some s := by
    rw [htl]; exact es
  clear es
  generalize hx : ctxN h d chipset hlen n hn = x at *
  have hxN : x.N = n := by rw [← hx]; rfl
  have hxm : x.maxLinux = S.length := by rw [← hx]; rfl
  have hxl : x.clusterCount = (leaders T).length := by rw [← hx]; rfl
  unfold publish at e
  rw [e1] at e
  simp only [Option.bind_eq_bind, Option.pure_def] at e
  split at e
  · cases e
  · split at e
    · cases e
    · split at e
      · cases e
      · rw [e2, Option.bind_some, if_neg (by rw [htl]; have := h.le; omega), es', Option.bind_some] at e
        split at e
        · cases e
        · split at e
          · cases e
          · obtain ⟨r, hr, e⟩ := Option.bind_eq_some_iff.mp e
            obtain ⟨mc, hmc, e⟩ := Option.bind_eq_some_iff.mp e
            cases e
            refine ⟨?_, hs.cores, hs.clusters, hs.processorMap, hs.coreMap, hs.uarchMap, ht, rfl,
              hs.l1i, hs.l1d, hxN.symm, hxN.symm, hxl.symm, rfl,
              ⟨hxN.symm, hxN.symm⟩, ⟨hxN.symm, hxN.symm, hxl.symm⟩, by rw [hxm]; exact htl⟩
            rw [cacheLoop_bare _ _ _ _ hr]
            show s.processors.map bare = _
            rw [hs.processors.done, List.map_map]
            rfl

/-! ## The whole -/

theorem countListed_le {t : List Proc} : countListed t ≤ usableCount t := by
  unfold countListed usableCount
  rw [← List.countP_eq_length_filter, ← List.countP_eq_length_filter]
  refine List.countP_mono_left fun p _ h => ?_
  rw [Bool.and_eq_true] at h
  exact (valid_iff p).mp h.1

/-- Detection from a gathered table, whichever processors are listed. -/
structure WholePrefix (e : Env) (t : List Proc) (hw rev : Bytes) (pub : Published) where
  gathered : Gathered t
  T : List Proc
  same : SameBases t T
  sorted : SortedOf e.config.arch T (e.sort T)
  hlen : (e.sort T).length < U32
  h0 : 0 < countListed t
  hle : countListed t ≤ usableCount T
  good : GoodPrefix (ctxN sorted e.dec (e.dec.chipset hw rev (countListed t)) hlen (countListed t) hle)
    (e.sort T) (usableCount T) pub

theorem linuxInit_prefix (e : Env) (hs : SortsProcessors e.config.arch e.sort) (pub : Published)
    (h : linuxInit e = some (some pub)) :
    ∃ t hw rev, gather e = some (some (t, hw, rev)) ∧ Nonempty (WholePrefix e t hw rev pub) := by
  obtain ⟨t, hw, rev, hg, c, T, ha, hp⟩ := linuxInit_unfold e pub h
  refine ⟨t, hw, rev, hg, ?_⟩
  have G := (gather_spec e t hw rev hg).1
  obtain ⟨rfl, R, B⟩ := analyse_of G ha
  have S : SortedOf e.config.arch T (e.sort T) := ⟨R, (hs T).1, (hs T).2⟩
  have hlen : (e.sort T).length < U32 := by
    rw [S.perm.length_eq, B.1]; exact G.length
  have hle : countListed t ≤ usableCount T := by rw [B.usableCount]; exact countListed_le
  have h0 : 0 < countListed t := by
    rcases Nat.eq_zero_or_pos (countListed t) with hz | hz
    · rw [hz] at hp
      exact absurd hp (publish_zero _ _ _ _ _ _ _)
    · exact hz
  exact ⟨⟨G, T, B, S, hlen, h0, hle, publish_prefix S e.dec _ hlen _ hle e.alloc pub hp⟩⟩

end Verif.ArmInit
