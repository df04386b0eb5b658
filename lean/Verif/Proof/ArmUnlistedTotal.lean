import Verif.Proof.ArmUnlistedFacts

/-!
# Detection ends although some usable processors are not listed
-/

set_option autoImplicit false

namespace Verif.ArmInit
open Spec ArmMidr ArmCpuinfo ArmClusters ArmClusterMidr ArmChipset Runs
open X86Init (modify? bitmaskAll Cache zeroCache MapTab Tab computeMaxCacheSize)

/-! ## Publishing a prefix -/

section
variable {a : Arch} {T S : List Proc} (h : SortedOf a T S) (d : Decoders) (chipset : Chipset)
  (hlen : S.length < U32) (n : Nat) (hn : n ≤ usableCount T)

/-- Everything up to the second loop. -/
theorem publish_loopN :
    ∃ (us : List Uarch) (s : State) (t : List Proc),
      countUarchs 0 0 S = (opened (un S) (usableCount T), t) ∧
      fillUarchs 0 0 t (List.replicate (opened (un S) (usableCount T)) zeroUarch) = some us ∧
      t.length = S.length ∧
      publishLoop a d chipset 0 (t.take n)
        { clusterId := U32MAX
          clusters := List.replicate (leaders T).length zeroCluster
          processors := List.replicate n zeroProcessor
          cores := List.replicate n zeroCore
          processorMap := List.replicate t.length none
          coreMap := List.replicate t.length none
          uarchMap := if opened (un S) (usableCount T) > 1 then some (List.replicate t.length 0) else none
          l1i := List.replicate n zeroCache
          l1d := List.replicate n zeroCache
          l2Count := 0, l3Count := 0, bigL3Size := 0, sharedL3 := true } = some s ∧
      (ctxN h d chipset hlen n hn).Inv (decide (opened (un S) (usableCount T) > 1)) n s ∧
      (0 + (t.take n).length = (ctxN h d chipset hlen n hn).N) ∧
      (∀ k p, (t.take n)[k]? = some p → p = (ctxN h d chipset hlen n hn).P (0 + k)) := by
  obtain ⟨us, e1, e2, -⟩ := uarchs_sorted h
  have hV : (S.take (usableCount T)).length = usableCount T := by
    rw [List.length_take]; have := h.le; omega
  have hnum : (numbered (un S) 0 (S.take (usableCount T))).length = usableCount T := by
    rw [numbered_length, hV]
  have htl : (numbered (un S) 0 (S.take (usableCount T)) ++ S.drop (usableCount T)).length = S.length := by
    rw [List.length_append, hnum, List.length_drop]; have := h.le; omega
  have htake : (numbered (un S) 0 (S.take (usableCount T)) ++ S.drop (usableCount T)).take n
      = (numbered (un S) 0 (S.take (usableCount T))).take n :=
    List.take_append_of_le_length (by omega)
  have hP : ∀ k p, ((numbered (un S) 0 (S.take (usableCount T))).take n)[k]? = some p →
      p = (ctxN h d chipset hlen n hn).P (0 + k) := fun k p hp => by
    rw [Nat.zero_add]
    have hk := lt_of_get hp
    rw [List.length_take] at hk
    rw [List.getElem?_take_of_lt (by omega)] at hp
    have hk := lt_of_get hp
    rw [numbered_length] at hk
    obtain ⟨-, e, -⟩ := (split_sorted h).1 k _ (List.getElem?_eq_getElem hk)
    have := numbered_get (un S) _ 0 k _ (List.getElem?_eq_getElem hk)
    rw [hp, e, Nat.zero_add] at this
    exact Option.some.inj this
  have hlenN : 0 + ((numbered (un S) 0 (S.take (usableCount T))).take n).length =
      (ctxN h d chipset hlen n hn).N := by
    rw [List.length_take, hnum, Nat.zero_add]
    show min n _ = n
    omega
  obtain ⟨s, es, hs⟩ := (ctxN h d chipset hlen n hn).loop (decide (opened (un S) (usableCount T) > 1))
    ((numbered (un S) 0 (S.take (usableCount T))).take n) 0 _ hlenN hP
    (inv_init (ctxN h d chipset hlen n hn) (opened (un S) (usableCount T)))
  refine ⟨us, s, _, e1, e2, htl, ?_, hs, ?_, ?_⟩
  · rw [htake, htl]; exact es
  · rw [htake]; exact hlenN
  · rw [htake]; exact hP

/-- The L2 and L3 caches that are published. -/
theorem publish_cachesN (h0 : 0 < n) (alloc : Nat → Bool) (pub : Published)
    (hu : (ctxN h d chipset hlen n hn).Uniform)
    (e : publish a d alloc chipset n (leaders T).length S = some (some pub)) :
    GoodCaches (ctxN h d chipset hlen n hn) pub ∧
      pub.l2Count = opened (ctxN h d chipset hlen n hn).op2 n ∧
      pub.l3Count = ((ctxN h d chipset hlen n hn).counts n).l3 := by
  obtain ⟨us, s, t, e1, e2, htl, es, hs, hnn, hP⟩ := publish_loopN h d chipset hlen n hn
  generalize hx : ctxN h d chipset hlen n hn = x at *
  have hxN : x.N = n := by rw [← hx]; rfl
  have hxd : x.d = d := by rw [← hx]; rfl
  have hxc : x.chipset = chipset := by rw [← hx]; rfl
  unfold publish at e
  rw [e1] at e
  simp only [Option.bind_eq_bind, Option.pure_def] at e
  split at e
  · cases e
  · split at e
    · cases e
    · split at e
      · cases e
      · rw [e2, Option.bind_some, if_neg (by rw [htl]; have := h.le; omega), es, Option.bind_some] at e
        split at e
        · cases e
        · split at e
          · cases e
          · obtain ⟨r, hr, e⟩ := Option.bind_eq_some_iff.mp e
            obtain ⟨mc, hmc, e⟩ := Option.bind_eq_some_iff.mp e
            cases e
            rw [← hxN] at hs
            have hc := hs.counts
            have c2 : s.l2Count = opened x.op2 x.N := by
              rw [← x.counts_l2, ← hc]; rfl
            have c3 : s.l3Count = (x.counts x.N).l3 := by rw [← hc]; rfl
            have cs : s.sharedL3 = (x.counts x.N).shared := by rw [← hc]; rfl
            obtain ⟨s', es', hs'⟩ := x.cloop hu s.l3Count s.sharedL3 (t.take n) 0 _ hnn hP
              (cinv_init x (by omega) s.sharedL3 s.processors hs.processors s.l2Count s.l3Count c2 c3)
            rw [hxd, hxc, hxN] at es'
            rw [es'] at hr
            cases hr
            rw [c3, cs] at hs'
            exact ⟨⟨hs'.processors, hs'.l2, hs'.l3Length, hs'.l3⟩, by rw [← hxN]; exact c2,
              by rw [← hxN]; exact c3⟩

/-- Publishing a prefix gives no undefined result when the processors of a cluster have the same
caches, and succeeds when there is memory. -/
theorem publish_totalN (h0 : 0 < n) (alloc : Nat → Bool) (hu : (ctxN h d chipset hlen n hn).Uniform) :
    ∃ r, publish a d alloc chipset n (leaders T).length S = some r ∧
      ((∀ i, alloc i = true) → r ≠ none) := by
  obtain ⟨us, s, t, e1, e2, htl, es, hs, hnn, hP⟩ := publish_loopN h d chipset hlen n hn
  generalize hx : ctxN h d chipset hlen n hn = x at *
  have hxN : x.N = n := by rw [← hx]; rfl
  have hxd : x.d = d := by rw [← hx]; rfl
  have hxc : x.chipset = chipset := by rw [← hx]; rfl
  rw [← hxN] at hs
  have hc := hs.counts
  have c2 : s.l2Count = opened x.op2 x.N := by
    rw [← x.counts_l2, ← hc]; rfl
  have c3 : s.l3Count = (x.counts x.N).l3 := by rw [← hc]; rfl
  have cs : s.sharedL3 = (x.counts x.N).shared := by rw [← hc]; rfl
  obtain ⟨s', es', hs'⟩ := x.cloop hu s.l3Count s.sharedL3 (t.take n) 0 _ hnn hP
    (cinv_init x (by omega) s.sharedL3 s.processors hs.processors s.l2Count s.l3Count c2 c3)
  rw [hxd, hxc, hxN] at es'
  rw [c3, cs] at hs'
  obtain ⟨mc, hmc⟩ := maxCache_total x (by omega) hu hs'.processors hs.cores hs.l1d hs'.l2 hs'.l3Length
  rw [hxd] at hmc
  unfold publish
  rw [e1]
  simp only [Option.bind_eq_bind, Option.pure_def]
  split
  · next hf => exact ⟨_, rfl, fun ha => absurd ⟨ha 1, ha 2, ha 3, ha 4, ha 5, ha 6⟩ hf⟩
  · split
    · next hf => exact ⟨_, rfl, fun ha => absurd (ha 7) hf.2⟩
    · split
      · next hf => exact ⟨_, rfl, fun ha => absurd ⟨ha 8, ha 9⟩ hf⟩
      · rw [e2, Option.bind_some, if_neg (by rw [htl]; have := h.le; omega), es, Option.bind_some]
        split
        · next hf => exact ⟨_, rfl, fun ha => absurd (ha 10) hf.2⟩
        · split
          · next hf => exact ⟨_, rfl, fun ha => absurd (ha 11) hf.2.2⟩
          · rw [es', Option.bind_some, hmc, Option.bind_some]
            exact ⟨_, rfl, fun _ hh => by cases hh⟩

end

/-! ## Cluster detection -/

theorem verified_iff {t : List Proc} {i u : Nat} (hr : rank t i = u) : Verified t i ↔ GroupsFitBelow t u := by
  have lt_of_rank : ∀ j, rank t j < u → j < i := fun j hj => by
    rcases Nat.lt_or_ge j i with h | h
    · exact h
    · have := rank_mono t h
      omega
  have rank_of_lt : ∀ (j : Nat) (p : Proc), t[j]? = some p → Usable p → j < i → rank t j < u :=
    fun j p hp hu hj => by
      have := rank_lt (t := t) ⟨p, hp, hu⟩ hj
      omega
  constructor
  · intro h
    exact ⟨fun j g p q hj hp => h.same j g p q (lt_of_rank j hj) hp,
      fun j k p q hj hk hp hpu hq => h.agree j k p q (lt_of_rank j hj) (lt_of_rank k hk) hp hpu hq⟩
  · intro h
    exact ⟨fun j g p q hj hp hpu => h.same j g p q (rank_of_lt j p hp hpu hj) hp hpu,
      fun j k p q hj hk hp hpu hq hqu =>
        h.agree j k p q (rank_of_lt j p hp hpu hj) (rank_of_lt k q hq hqu hk) hp hpu hq hqu⟩

theorem heuristic_undefined_iff (c : Config) (junk : Attrs) (u : Nat) (t : List Proc) :
    heuristic c junk u t = none ↔
      (∃ ss, clusterSizes c u = some ss) ∧ u < usableCount t ∧ GroupsFitBelow t u := by
  rw [heuristic_none_iff]
  constructor
  · rintro ⟨hs, i, hU, hr, hV⟩
    exact ⟨hs, by have := rank_lt_count hU; omega, (verified_iff hr).mp hV⟩
  · rintro ⟨hs, hlt, hG⟩
    rw [← rank_length] at hlt
    obtain ⟨i, -, hU, hr⟩ := rank_surj t u t.length hlt
    exact ⟨hs, i, hU, hr, (verified_iff hr).mpr hG⟩

/-- When detection of clusters is undefined. -/
theorem detectClusters_none_iff (c : Config) (junk junk' : Attrs) (cl co : Nat → File) (u : Nat)
    (t : List Proc) (hz : ∀ p, p ∈ t → p.packageProcessorCount = 0) :
    detectClusters c junk junk' cl co u t = none ↔
      ∃ t1 n t2, readAllSiblings cl co t = some t1 ∧ propagate t1 = some (n, t2) ∧ n ≠ u ∧
        (∃ ss, clusterSizes c u = some ss) ∧ u < usableCount t ∧ GroupsFitBelow t2 u := by
  obtain ⟨t1, e1, s1, l1⟩ := readAllSiblings_linked cl co t
  obtain ⟨n, t2, e2, s2, l2, r2⟩ := propagate_rep t1 l1
  have s12 := s1.trans s2
  have led2 := led_of_rep l2 r2
  have hcount : ∀ t3, SameTable t t3 → Led t3 → ∃ t4, countProcessors t3 = some t4 := by
    intro t3 s3 led3
    obtain ⟨t4, e4, -⟩ := countProcessors_spec t3 led3 (zero_of_same s3 hz)
    exact ⟨t4, e4⟩
  have huc : usableCount t2 = usableCount t := usableCount_eq s12
  have hrhs : (∃ t1 n t2, readAllSiblings cl co t = some t1 ∧ propagate t1 = some (n, t2) ∧ n ≠ u ∧
        (∃ ss, clusterSizes c u = some ss) ∧ u < usableCount t ∧ GroupsFitBelow t2 u) ↔
      (n ≠ u ∧ heuristic c junk u t2 = none) := by
    rw [heuristic_undefined_iff, huc]
    constructor
    · rintro ⟨t1', n', t2', e1', e2', h⟩
      rw [e1] at e1'; cases e1'
      rw [e2] at e2'; cases e2'
      exact h
    · intro h
      exact ⟨t1, n, t2, e1, e2, h⟩
  rw [hrhs]
  unfold detectClusters
  rw [e1]
  simp only [Option.bind_eq_bind, Option.bind_some]
  rw [e2]
  simp only [Option.bind_some]
  by_cases hn : n = u
  · rw [if_neg (fun hh => hh hn)]
    obtain ⟨t4, e4⟩ := hcount t2 s12 led2
    constructor
    · intro h
      have h : countProcessors t2 = none := h
      rw [e4] at h; cases h
    · exact fun h => absurd hn h.1
  · rw [if_pos hn]
    cases e3 : heuristic c junk u t2 with
    | none => exact ⟨fun _ => ⟨hn, rfl⟩, fun _ => rfl⟩
    | some r =>
      obtain ⟨t3, ok⟩ := r
      refine ⟨fun h => ?_, fun h => absurd h.2 (Option.some_ne_none _)⟩
      cases ok with
      | true =>
        obtain ⟨s3, led3⟩ := heuristic_led c junk u t2 t3 l2 e3
        obtain ⟨t4, e4⟩ := hcount t3 (s12.trans s3) led3
        have h : countProcessors t3 = none := h
        rw [e4] at h; cases h
      | false =>
        have := heuristic_false c junk u t2 t3 e3
        subst this
        obtain ⟨t4, e4, s4, led4⟩ := scan_led junk' t3 l2 r2
        obtain ⟨t5, e5⟩ := hcount t4 (s12.trans s4) led4
        have h : ((sequentialScan junk' t3).bind fun t => countProcessors t) = none := h
        rw [e4, Option.bind_some, e5] at h
        cases h

/-! ## The whole -/

/-- The analysis is undefined exactly if cluster detection is. -/
theorem analyse_none_iff {e : Env} {chipset : Chipset} {t t1 : List Proc} (hg : Gathered t)
    (e1 : forRange (frequencyStep e) t.length 0 t = some t1) :
    analyse e chipset t = none ↔
      detectClusters e.config e.junk e.junk' e.clusterCpus e.coreSiblings (countListed t) t1 = none := by
  obtain ⟨t1', e1', m1⟩ := frequency_spec e t
  rw [e1] at e1'
  cases e1'
  have b1 : SameBases t t1 := ⟨m1.1, fun i p q hp hq => SameBase.measured (m1.2 i p q hp hq)⟩
  have z1 : ∀ p, p ∈ t1 → p.packageProcessorCount = 0 := by
    intro q hq
    obtain ⟨i, hi⟩ := List.getElem?_of_mem hq
    obtain ⟨p, hp, -⟩ := b1.get hi
    rw [(m1.2 i p q hp hi).1]
    exact hg.sizes p (List.mem_of_getElem? hp)
  unfold analyse
  simp only [Option.bind_eq_bind, e1, Option.bind_some, Option.pure_def]
  cases e2 : detectClusters e.config e.junk e.junk' e.clusterCpus e.coreSiblings (countListed t) t1 with
  | none => exact ⟨fun _ => rfl, fun _ => rfl⟩
  | some t2 =>
    obtain ⟨m2, led2, cnt2⟩ := detectClusters_led_of e2 z1
    obtain ⟨t3, e3, d3⟩ := detect_spec e.config.arch chipset (countListed t) t2 led2
    have led3 := d3.kept.led led2
    obtain ⟨T, e4, u4⟩ := uarch_spec e t3 led3
    rw [Option.bind_some, e3, Option.bind_some]
    dsimp only
    rw [e4, Option.bind_some]
    exact ⟨fun h => (by cases h), fun h => (by cases h)⟩

theorem uniformN {a : Arch} {T S : List Proc} (h : SortedOf a T S) (d : Decoders)
    (chipset : Chipset) (hlen : S.length < U32) (n : Nat) (hn : n ≤ usableCount T)
    (hv : ∀ p ∈ T, ∀ q ∈ T, Usable p → Usable q → p.packageLeaderId = q.packageLeaderId → ∀ g cores,
      (d.caches p.uarch cores p.midr chipset g p.architectureVersion).l2.size =
        (d.caches q.uarch cores q.midr chipset g q.architectureVersion).l2.size ∧
      (d.caches p.uarch cores p.midr chipset g p.architectureVersion).l3.size =
        (d.caches q.uarch cores q.midr chipset g q.architectureVersion).l3.size) :
    (ctxN h d chipset hlen n hn).Uniform := by
  intro k hk hnw
  have hk : k + 1 < n := hk
  have hold := h.old_same (show k + 1 < usableCount T by omega) hnw
  obtain ⟨g1, u1⟩ := h.get (show k < usableCount T by omega)
  obtain ⟨g2, u2⟩ := h.get (show k + 1 < usableCount T by omega)
  have m1 := h.perm.mem_iff.mp (List.mem_of_getElem? g1)
  have m2 := h.perm.mem_iff.mp (List.mem_of_getElem? g2)
  have e1 := h.ready.count _ _ (h.at_id g1) u1
  have e2 := h.ready.count _ _ (h.at_id g2) u2
  rw [hold, ← e1] at e2
  have ecl : (ctxN h d chipset hlen n hn).cl (k + 1) = (ctxN h d chipset hlen n hn).cl k := idx_neg hnw
  have key := hv _ m2 _ m1 u2 u1 hold ((ctxN h d chipset hlen n hn).cl k)
    (procAt S k).packageProcessorCount
  have ek : (ctxN h d chipset hlen n hn).c k = d.caches (procAt S k).uarch
      (procAt S k).packageProcessorCount (procAt S k).midr chipset ((ctxN h d chipset hlen n hn).cl k)
      (procAt S k).architectureVersion := rfl
  have ek' : (ctxN h d chipset hlen n hn).c (k + 1) = d.caches (procAt S (k + 1)).uarch
      (procAt S (k + 1)).packageProcessorCount (procAt S (k + 1)).midr chipset
      ((ctxN h d chipset hlen n hn).cl (k + 1)) (procAt S (k + 1)).architectureVersion := rfl
  rw [ek, ek', ecl, e2]
  exact ⟨key.2, key.1⟩

/-- Detection ends unless cluster detection is undefined. -/
theorem linuxInit_totalN (e : Env) (hs : SortsProcessors e.config.arch e.sort) (t : List Proc)
    (hw rev : Bytes) (hg : gather e = some (some (t, hw, rev))) (h0 : 0 < countListed t)
    (hc : SameCaches e) (n : Nat) (T : List Proc)
    (ha : analyse e (e.dec.chipset hw rev (countListed t)) t = some (n, T)) :
    ∃ r, linuxInit e = some r ∧ ((∀ i, e.alloc i = true) → r ≠ none) := by
  have G := (gather_spec e t hw rev hg).1
  obtain ⟨rfl, R, B⟩ := analyse_of G ha
  have S : SortedOf e.config.arch T (e.sort T) := ⟨R, (hs T).1, (hs T).2⟩
  have hlen : (e.sort T).length < U32 := by
    rw [S.perm.length_eq, B.1]; exact G.length
  have hle : countListed t ≤ usableCount T := by rw [B.usableCount]; exact countListed_le
  have hu := uniformN S e.dec (e.dec.chipset hw rev (countListed t)) hlen (countListed t) hle
    (by
      have := hc t hw rev hg (leaders T).length T
      rw [← countListed_listed] at this
      exact this ha)
  obtain ⟨r, hr, hok⟩ := publish_totalN S e.dec (e.dec.chipset hw rev (countListed t)) hlen
    (countListed t) hle h0 e.alloc hu
  refine ⟨r, ?_, hok⟩
  unfold linuxInit
  simp only [Option.bind_eq_bind, hg, Option.bind_some, ha]
  exact hr

end Verif.ArmInit
