import Verif.Model.ArmApi
import Verif.Proof.ArmWhole

/-!
# Table sizes after ARM detection, whatever the kernel files say
-/

set_option autoImplicit false

namespace Verif.ArmInit
open Spec ArmMidr ArmCpuinfo ArmClusters ArmClusterMidr ArmChipset
open X86Init (modify? Cache zeroCache inc32)

theorem modify_len {α : Type} {t t' : List α} {i : Nat} {f : α → α} (h : modify? t i f = some t') :
    t'.length = t.length := by
  obtain ⟨x, -, rfl⟩ := modify?_some h
  exact List.length_set ..

theorem fillUarchs_len : ∀ (ps : List Proc) (index last : Nat) (us us' : List Uarch),
    fillUarchs index last ps us = some us' → us'.length = us.length
  | [], _, _, us, us', h => by cases h; rfl
  | p :: ps, index, last, us, us', h => by
    rw [fillUarchs] at h
    by_cases hv : valid p
    · rw [if_pos hv] at h
      simp only [Option.bind_eq_bind] at h
      by_cases hn : index = 0 ∨ p.uarch ≠ last
      · simp only [if_pos hn] at h
        obtain ⟨u1, h1, h⟩ := Option.bind_eq_some_iff.mp h
        obtain ⟨u2, h2, h⟩ := Option.bind_eq_some_iff.mp h
        rw [fillUarchs_len ps _ _ _ _ h, modify_len h2, modify_len h1]
      · simp only [if_neg hn, Option.bind_some] at h
        obtain ⟨u2, h2, h⟩ := Option.bind_eq_some_iff.mp h
        rw [fillUarchs_len ps _ _ _ _ h, modify_len h2]
    · rw [if_neg hv] at h
      exact fillUarchs_len ps _ _ _ _ h

/-- Indices handed out are below the final count. -/
theorem countUarchs_bound : ∀ (ps : List Proc) (count last : Nat),
    count ≤ (countUarchs count last ps).1 ∧
    (countUarchs count last ps).2.length = ps.length ∧
    ∀ q ∈ (countUarchs count last ps).2, valid q = true → q.uarchIndex < (countUarchs count last ps).1
  | [], count, last => ⟨Nat.le_refl _, rfl, by intro q hq; cases hq⟩
  | p :: ps, count, last => by
    rw [countUarchs]
    by_cases hv : valid p
    · rw [if_pos hv]
      dsimp only
      obtain ⟨h1, h2, h3⟩ := countUarchs_bound ps (if count = 0 ∨ p.uarch ≠ last then count + 1 else count)
        (if count = 0 ∨ p.uarch ≠ last then p.uarch else last)
      have hc : count ≤ (if count = 0 ∨ p.uarch ≠ last then count + 1 else count) ∧
          0 < (if count = 0 ∨ p.uarch ≠ last then count + 1 else count) := by
        split
        · omega
        · rename_i hn
          have : count ≠ 0 := fun h => hn (Or.inl h)
          omega
      refine ⟨by omega, by simp [h2], ?_⟩
      intro q hq hvq
      rcases List.mem_cons.mp hq with rfl | hq
      · show _ - 1 < _
        omega
      · exact h3 q hq hvq
    · rw [if_neg hv]
      dsimp only
      obtain ⟨h1, h2, h3⟩ := countUarchs_bound ps count last
      refine ⟨h1, by simp [h2], ?_⟩
      intro q hq hvq
      rcases List.mem_cons.mp hq with rfl | hq
      · exact absurd hvq hv
      · exact h3 q hq hvq

/-- What the first publishing loop leaves alone. -/
structure Sizes (n : Nat) (Ix : Nat → Prop) (s s' : State) : Prop where
  clusters : s'.clusters.length = s.clusters.length
  processors : s'.processors.length = s.processors.length
  cores : s'.cores.length = s.cores.length
  processorMap : s'.processorMap.length = s.processorMap.length ∧
    ∀ j, some j ∈ s'.processorMap → some j ∈ s.processorMap ∨ j < n
  coreMap : s'.coreMap.length = s.coreMap.length ∧ ∀ j, some j ∈ s'.coreMap → some j ∈ s.coreMap ∨ j < n
  uarchMap : s'.uarchMap.isSome = s.uarchMap.isSome ∧ ∀ m', s'.uarchMap = some m' →
    ∃ m, s.uarchMap = some m ∧ m'.length = m.length ∧ ∀ x ∈ m', x ∈ m ∨ Ix x
  l1i : s'.l1i.length = s.l1i.length
  l1d : s'.l1d.length = s.l1d.length
  counts : (s.l3Count ≠ 0 → s.l2Count ≠ 0) → s'.l3Count ≠ 0 → s'.l2Count ≠ 0

theorem Sizes.refl (n : Nat) (Ix : Nat → Prop) (s : State) : Sizes n Ix s s :=
  ⟨rfl, rfl, rfl, ⟨rfl, fun _ h => .inl h⟩, ⟨rfl, fun _ h => .inl h⟩,
    ⟨rfl, fun m h => ⟨m, h, rfl, fun _ h => .inl h⟩⟩, rfl, rfl, id⟩

theorem Sizes.trans {n : Nat} {Ix : Nat → Prop} {s s' s'' : State} (a : Sizes n Ix s s')
    (b : Sizes n Ix s' s'') : Sizes n Ix s s'' := by
  refine ⟨b.clusters.trans a.clusters, b.processors.trans a.processors, b.cores.trans a.cores,
    ⟨b.processorMap.1.trans a.processorMap.1, fun j hj => ?_⟩,
    ⟨b.coreMap.1.trans a.coreMap.1, fun j hj => ?_⟩, ⟨b.uarchMap.1.trans a.uarchMap.1, fun m hm => ?_⟩,
    b.l1i.trans a.l1i, b.l1d.trans a.l1d, fun h => b.counts (a.counts h)⟩
  · rcases b.processorMap.2 j hj with h | h
    · exact a.processorMap.2 j h
    · exact .inr h
  · rcases b.coreMap.2 j hj with h | h
    · exact a.coreMap.2 j h
    · exact .inr h
  · obtain ⟨m1, h1, h2, h3⟩ := b.uarchMap.2 m hm
    obtain ⟨m2, h4, h5, h6⟩ := a.uarchMap.2 m1 h1
    refine ⟨m2, h4, h2.trans h5, fun x hx => ?_⟩
    rcases h3 x hx with h | h
    · exact h6 x h
    · exact .inr h

theorem countCaches_eq (c : Caches) (id : Nat) (l : Bool) (s : State) :
    ∃ a b z h, countCaches c id l s = { s with l2Count := a, l3Count := b, bigL3Size := z, sharedL3 := h } ∧
      ((s.l3Count ≠ 0 → s.l2Count ≠ 0) → b ≠ 0 → a ≠ 0) := by
  unfold countCaches
  by_cases h1 : c.l3.size ≠ 0
  · rw [if_pos h1]
    cases l with
    | true =>
      simp only [if_true]
      by_cases h2 : id = 0
      · rw [if_pos h2]; exact ⟨_, _, _, _, rfl, fun _ _ => Nat.succ_ne_zero _⟩
      · rw [if_neg h2]
        split
        · exact ⟨_, _, _, _, rfl, fun _ _ => Nat.succ_ne_zero _⟩
        · exact ⟨_, _, _, _, rfl, fun _ _ => Nat.succ_ne_zero _⟩
    | false => exact ⟨_, _, _, _, rfl, fun _ _ => Nat.succ_ne_zero _⟩
  · rw [if_neg h1]
    dsimp only
    split
    · exact ⟨_, _, _, _, rfl, fun _ _ => Nat.succ_ne_zero _⟩
    · exact ⟨_, _, _, _, rfl, fun h => h⟩

theorem mem_set_some {α : Type} {t : List α} {i : Nat} {x y : α} (h : y ∈ t.set i x) : y ∈ t ∨ y = x :=
  List.mem_or_eq_of_mem_set h

theorem publishStep_sizes {a : Arch} {d : Decoders} {chipset : Chipset} {n i : Nat} {Ix : Nat → Prop}
    {p : Proc} {s s' : State} (h : publishStep a d chipset i p s = some s') (hi : s.processors.length = n)
    (hx : Ix p.uarchIndex) : Sizes n Ix s s' := by
  unfold publishStep at h
  simp only [Option.bind_eq_bind] at h
  generalize (if isLeader p = true then inc32 s.clusterId else s.clusterId) = ci at h
  obtain ⟨cl, h1, h⟩ := Option.bind_eq_some_iff.mp h
  by_cases hci : ¬ ci < cl.length
  · rw [if_pos hci] at h; cases h
  rw [if_neg hci] at h
  obtain ⟨ps, h2, h⟩ := Option.bind_eq_some_iff.mp h
  obtain ⟨pm, h3, h⟩ := Option.bind_eq_some_iff.mp h
  obtain ⟨cs, h4, h⟩ := Option.bind_eq_some_iff.mp h
  obtain ⟨cm, h5, h⟩ := Option.bind_eq_some_iff.mp h
  obtain ⟨um, h6, h⟩ := Option.bind_eq_some_iff.mp h
  obtain ⟨li, h7, h⟩ := Option.bind_eq_some_iff.mp h
  obtain ⟨ld, h8, h⟩ := Option.bind_eq_some_iff.mp h
  obtain ⟨A, B, z, sh, e, hc⟩ := countCaches_eq (cachesOf d chipset ci p) ci (isLeader p)
    { s with
      clusterId := ci
      clusters := cl, processors := ps, cores := cs, processorMap := pm, coreMap := cm, uarchMap := um
      l1i := li, l1d := ld }
  have h := Option.some.inj h
  rw [e] at h
  subst h
  have hin : i < n := by
    obtain ⟨x, hx, -⟩ := modify?_some h2
    rw [← hi]; exact lt_of_get hx
  refine ⟨?_, modify_len h2, modify_len h4, ⟨modify_len h3, ?_⟩, ⟨modify_len h5, ?_⟩, ?_, modify_len h7,
    modify_len h8, hc⟩
  · unfold openCluster at h1
    split at h1
    · exact modify_len h1
    · cases h1; rfl
  · obtain ⟨x, -, rfl⟩ := modify?_some h3
    intro j hj
    rcases mem_set_some hj with h | h
    · exact .inl h
    · cases h; exact .inr hin
  · obtain ⟨x, -, rfl⟩ := modify?_some h5
    intro j hj
    rcases mem_set_some hj with h | h
    · exact .inl h
    · cases h; exact .inr hin
  · dsimp only
    cases hu : s.uarchMap with
    | none =>
      rw [hu] at h6
      cases h6
      exact ⟨rfl, fun m h => by cases h⟩
    | some m =>
      rw [hu] at h6
      obtain ⟨m', h9, rfl⟩ := Option.map_eq_some_iff.mp h6
      refine ⟨rfl, fun m'' hm'' => ?_⟩
      cases hm''
      refine ⟨m, rfl, modify_len h9, fun x hx' => ?_⟩
      obtain ⟨y, -, rfl⟩ := modify?_some h9
      rcases mem_set_some hx' with h | h
      · exact .inl h
      · rw [h]; exact .inr hx

theorem publishLoop_sizes {a : Arch} {d : Decoders} {chipset : Chipset} {n : Nat} {Ix : Nat → Prop} :
    ∀ (ps : List Proc) (i : Nat) (s s' : State), publishLoop a d chipset i ps s = some s' →
      s.processors.length = n → (∀ p ∈ ps, Ix p.uarchIndex) → Sizes n Ix s s'
  | [], _, s, s', h, _, _ => by cases h; exact .refl ..
  | p :: ps, i, s, s', h, hn, hx => by
    rw [publishLoop] at h
    obtain ⟨s1, h1, h⟩ := Option.bind_eq_some_iff.mp h
    have a1 := publishStep_sizes h1 hn (hx p (List.mem_cons_self ..))
    exact a1.trans (publishLoop_sizes ps _ s1 s' h (a1.processors.trans hn)
      fun q hq => hx q (List.mem_cons_of_mem _ hq))

theorem cacheStep_sizes {d : Decoders} {chipset : Chipset} {vp l3Count i : Nat} {shared : Bool} {p : Proc}
    {s s' : CacheState} (h : cacheStep d chipset vp l3Count shared i p s = some s') :
    s'.l2.length = s.l2.length ∧ s'.l3.length = s.l3.length ∧
      s'.processors.length = s.processors.length := by
  unfold cacheStep at h
  simp only [Option.bind_eq_bind] at h
  generalize (if isLeader p = true then inc32 s.clusterId else s.clusterId) = ci at h
  generalize (if isLeader p = true then inc32 s.l3Index else s.l3Index) = i3 at h
  generalize (if isLeader p = true then inc32 s.l2Index else s.l2Index) = i2 at h
  by_cases hz : (cachesOf d chipset ci p).l3.size ≠ 0
  · rw [if_pos hz] at h
    obtain ⟨l2, h1, h⟩ := Option.bind_eq_some_iff.mp h
    obtain ⟨l3, h2, h⟩ := Option.bind_eq_some_iff.mp h
    obtain ⟨ps, h3, h⟩ := Option.bind_eq_some_iff.mp h
    cases h
    refine ⟨modify_len h1, ?_, modify_len h3⟩
    unfold openL3 at h2
    split at h2
    · exact modify_len h2
    · cases h2; rfl
  · rw [if_neg hz] at h
    by_cases hz2 : (cachesOf d chipset ci p).l2.size ≠ 0
    · rw [if_pos hz2] at h
      obtain ⟨l2, h1, h⟩ := Option.bind_eq_some_iff.mp h
      by_cases hc : ¬ i2 < l2.length
      · rw [if_pos hc] at h; cases h
      rw [if_neg hc] at h
      obtain ⟨ps, h3, h⟩ := Option.bind_eq_some_iff.mp h
      cases h
      refine ⟨?_, rfl, modify_len h3⟩
      unfold openL2 at h1
      split at h1
      · exact modify_len h1
      · cases h1; rfl
    · rw [if_neg hz2] at h; cases h; exact ⟨rfl, rfl, rfl⟩

theorem cacheLoop_sizes {d : Decoders} {chipset : Chipset} {vp l3Count : Nat} {shared : Bool} :
    ∀ (ps : List Proc) (i : Nat) (s s' : CacheState),
      cacheLoop d chipset vp l3Count shared i ps s = some s' →
      s'.l2.length = s.l2.length ∧ s'.l3.length = s.l3.length ∧
        s'.processors.length = s.processors.length
  | [], _, s, s', h => by cases h; exact ⟨rfl, rfl, rfl⟩
  | p :: ps, i, s, s', h => by
    rw [cacheLoop] at h
    obtain ⟨s1, h1, h⟩ := Option.bind_eq_some_iff.mp h
    obtain ⟨a1, a2, a3⟩ := cacheStep_sizes h1
    obtain ⟨b1, b2, b3⟩ := cacheLoop_sizes ps _ s1 s' h
    exact ⟨b1.trans a1, b2.trans a2, b3.trans a3⟩

/-- The sizes of everything published. -/
structure PublishedSizes (N U : Nat) (pub : Published) : Prop where
  processors : pub.processors.length = N ∧ pub.processorsCount = N
  cores : pub.cores.length = N ∧ pub.coresCount = N
  clusters : pub.clusters.length = pub.clustersCount
  packages : pub.packagesCount = 1
  uarchs : pub.uarchs.length = U ∧ pub.uarchsCount = U
  l1i : pub.l1i.length = N ∧ pub.l1iCount = N
  l1d : pub.l1d.length = N ∧ pub.l1dCount = N
  l2 : pub.l2.length = pub.l2Count
  l3 : pub.l3.length = pub.l3Count
  l3of2 : pub.l3Count ≠ 0 → pub.l2Count ≠ 0
  processorMap : pub.processorMap.length = pub.linuxCpuMax ∧ ∀ j, some j ∈ pub.processorMap → j < N
  coreMap : pub.coreMap.length = pub.linuxCpuMax ∧ ∀ j, some j ∈ pub.coreMap → j < N
  uarchMap : ∀ m, pub.uarchMap = some m → m.length = pub.linuxCpuMax
  first : 0 < N
  packageCounts : pub.packageProcessorCount = N ∧ pub.packageCoreCount = N ∧
    pub.packageClusterCount = pub.clusters.length

theorem publish_sizes {a : Arch} {d : Decoders} {alloc : Nat → Bool} {chipset : Chipset}
    {N cc : Nat} {S : List Proc} {pub : Published}
    (h : publish a d alloc chipset N cc S = some (some pub)) :
    PublishedSizes N (countUarchs 0 0 S).1 pub ∧
    ((∀ p ∈ (countUarchs 0 0 S).2.take N, valid p = true) → ∀ m, pub.uarchMap = some m →
      ∀ x ∈ m, x < pub.uarchsCount) := by
  unfold publish at h
  simp only [Option.bind_eq_bind, Option.pure_def] at h
  split at h
  · cases h
  split at h
  · cases h
  split at h
  · cases h
  obtain ⟨us, hus, h⟩ := Option.bind_eq_some_iff.mp h
  split at h
  · cases h
  obtain ⟨s, hs, h⟩ := Option.bind_eq_some_iff.mp h
  split at h
  · cases h
  split at h
  · cases h
  obtain ⟨r, hr, h⟩ := Option.bind_eq_some_iff.mp h
  obtain ⟨mx, hmx, h⟩ := Option.bind_eq_some_iff.mp h
  have h := Option.some.inj (Option.some.inj h)
  subst h
  obtain ⟨b1, b2, b3⟩ := countUarchs_bound S 0 0
  have z := publishLoop_sizes (n := N) (Ix := fun _ => True) _ _ _ _ hs (by simp) (fun _ _ => trivial)
  obtain ⟨c1, c2, c3⟩ := cacheLoop_sizes _ _ _ _ hr
  have hl := fillUarchs_len _ _ _ _ _ hus
  have hc := z.counts (fun h => absurd rfl h)
  have h1 := z.clusters
  have h2 := z.processors
  have h3 := z.cores
  have h4 := z.processorMap
  have h5 := z.coreMap
  have h6 := z.uarchMap
  have h7 := z.l1i
  have h8 := z.l1d
  simp only [List.length_replicate] at h1 h2 h3 h4 h5 h7 h8 hl c1 c3
  refine ⟨⟨⟨c3.trans h2, rfl⟩, ⟨h3, rfl⟩, h1, rfl, ⟨hl, rfl⟩, ⟨h7, rfl⟩, ⟨h8, rfl⟩, c1, ?_, hc,
    ⟨h4.1, fun j hj => ?_⟩, ⟨h5.1, fun j hj => ?_⟩, fun m hm => ?_, ?_,
    ⟨rfl, rfl, h1.symm⟩⟩, ?_⟩
  · dsimp only
    rw [c2]
    by_cases hz : s.l2Count ≠ 0
    · rw [if_pos hz, List.length_replicate]
    · rw [if_neg hz]
      have : s.l3Count = 0 := by
        rcases Nat.eq_zero_or_pos s.l3Count with h | h
        · exact h
        · exact absurd (hc (by omega)) hz
      rw [this]; rfl
  · rcases h4.2 j hj with h | h
    · rw [List.mem_replicate] at h
      exact absurd h.2 (by simp)
    · exact h
  · rcases h5.2 j hj with h | h
    · rw [List.mem_replicate] at h
      exact absurd h.2 (by simp)
    · exact h
  · obtain ⟨m0, e1, e2, -⟩ := h6.2 m hm
    split at e1
    · have e1 := Option.some.inj e1
      subst e1
      rw [e2, List.length_replicate]
    · cases e1
  · unfold maxCacheSize at hmx
    simp only [Option.bind_eq_bind] at hmx
    obtain ⟨p, hp, -⟩ := Option.bind_eq_some_iff.mp hmx
    have := lt_of_get hp
    omega
  · intro hv m hm x hx
    have z := publishLoop_sizes (n := N) (Ix := fun x => x < (countUarchs 0 0 S).1) _ _ _ _ hs (by simp)
      (fun p hp => b3 p (List.mem_of_mem_take hp) (hv p hp))
    obtain ⟨m0, e1, e2, e3⟩ := z.uarchMap.2 m hm
    split at e1
    · rename_i hgt
      have e1 := Option.some.inj e1
      subst e1
      rcases e3 x hx with h | h
      · rw [List.mem_replicate] at h
        rw [h.2]
        show 0 < (countUarchs 0 0 S).1
        omega
      · exact h
    · cases e1

theorem countUarchs_valid : ∀ (ps : List Proc) (count last n : Nat),
    (∀ p ∈ ps.take n, valid p = true) → ∀ p ∈ (countUarchs count last ps).2.take n, valid p = true
  | [], _, _, _, _, p, hp => by simp [countUarchs] at hp
  | q :: ps, count, last, 0, _, p, hp => by simp at hp
  | q :: ps, count, last, n + 1, h, p, hp => by
    have hq : valid q = true := h q (by simp)
    rw [countUarchs, if_pos hq] at hp
    dsimp only at hp
    rw [List.take_succ_cons] at hp
    rcases List.mem_cons.mp hp with rfl | hp
    · exact hq
    · exact countUarchs_valid ps _ _ n (fun p hp => h p (by simp [hp])) p hp

/-- The sizes of what detection publishes. -/
theorem linuxInit_sizes {e : Env} {pub : Published} (h : linuxInit e = some (some pub)) :
    ∃ N U, PublishedSizes N U pub := by
  obtain ⟨t, hw, rev, hg, c, T, ha, hp⟩ := linuxInit_unfold e pub h
  exact ⟨_, _, (publish_sizes hp).1⟩

end Verif.ArmInit
