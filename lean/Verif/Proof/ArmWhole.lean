import Verif.Proof.ArmFinal
import Verif.Spec.ArmPublished

/-!
# ARM detection as a whole: from the gathered table to what is published
-/

set_option autoImplicit false

namespace Verif.ArmInit
open Spec ArmMidr ArmCpuinfo ArmClusters ArmClusterMidr ArmChipset Runs
open X86Init (modify? bitmaskAll Cache zeroCache MapTab Tab computeMaxCacheSize)

/-- What a later table says about the processor `p` of the gathered table. -/
structure SameBase (p q : Proc) : Prop where
  usable : Usable q ↔ Usable p
  version : q.architectureVersion = p.architectureVersion
  cache : q.cache = p.cache
  features : q.features = p.features
  id : q.systemProcessorId = p.systemProcessorId
  bits : ∀ k, 22 ≤ k → q.flags.testBit k = p.flags.testBit k

theorem SameBase.trans {p q r : Proc} (h : SameBase p q) (h' : SameBase q r) : SameBase p r :=
  ⟨h'.usable.trans h.usable, h'.version.trans h.version, h'.cache.trans h.cache,
    h'.features.trans h.features, h'.id.trans h.id, fun k hk => (h'.bits k hk).trans (h.bits k hk)⟩

theorem SameBase.measured {p q : Proc} (h : SameButMeasured p q) : SameBase p q := by
  obtain ⟨h1, h2⟩ := h
  refine ⟨?_, by rw [h1], by rw [h1], by rw [h1], by rw [h1], fun k hk => h2 k (by omega) (by omega) (by omega)⟩
  unfold Usable
  rw [h2 12 (by decide) (by decide) (by decide)]

theorem SameBase.cluster {p q : Proc}
    (h : SameButCluster p { q with packageProcessorCount := p.packageProcessorCount }) : SameBase p q := by
  obtain ⟨h1, h2⟩ := h
  have e : ∀ {β : Type} (f : Proc → β), f { q with packageProcessorCount := p.packageProcessorCount } =
      f { p with packageLeaderId := q.packageLeaderId, flags := q.flags } := fun f => congrArg f h1
  refine ⟨?_, e (·.architectureVersion), e (·.cache), e (·.features), e (·.systemProcessorId),
    fun k hk => h2 k (by omega)⟩
  unfold Usable
  rw [show q.flags.testBit 12 = p.flags.testBit 12 from h2 12 (by decide)]

theorem SameBase.skel {p q : Proc} (h : skel q = skel p) : SameBase p q :=
  ⟨skel_usable h, congrArg (fun s => s.1.architectureVersion) h, congrArg (fun s => s.1.cache) h,
    congrArg (fun s => s.1.features) h, skel_id h, fun k hk => skel_bit h k (by
      unfold keptBit
      have h1 : (k == 2) = false := by simp; omega
      have h2 : (decide (k ≤ 21)) = false := by simp; omega
      rw [h1, h2]; simp)⟩

/-- Positionwise. -/
def SameBases (t t' : List Proc) : Prop := t'.length = t.length ∧
  ∀ (i : Nat) (p q : Proc), t[i]? = some p → t'[i]? = some q → SameBase p q

theorem SameBases.get' {t t' : List Proc} (h : SameBases t t') {i : Nat} {p : Proc} (hp : t[i]? = some p) :
    ∃ q, t'[i]? = some q ∧ SameBase p q := by
  have := lt_of_get hp
  rw [← h.1] at this
  exact ⟨_, List.getElem?_eq_getElem this, h.2 i p _ hp (List.getElem?_eq_getElem this)⟩

theorem SameBases.get {t t' : List Proc} (h : SameBases t t') {i : Nat} {q : Proc} (hq : t'[i]? = some q) :
    ∃ p, t[i]? = some p ∧ SameBase p q := by
  have := lt_of_get hq
  rw [h.1] at this
  exact ⟨_, List.getElem?_eq_getElem this, h.2 i _ q (List.getElem?_eq_getElem this) hq⟩

theorem SameBases.trans {a b c : List Proc} (h : SameBases a b) (h' : SameBases b c) : SameBases a c := by
  refine ⟨h'.1.trans h.1, fun i p r hp hr => ?_⟩
  obtain ⟨q, hq, e⟩ := h.get' hp
  exact e.trans (h'.2 i q r hq hr)

theorem SameBases.kept {a b : List Proc} (h : Kept a b) : SameBases a b := by
  refine ⟨h.length, fun i p q hp hq => ?_⟩
  obtain ⟨p', hp', e⟩ := h.get hq
  rw [hp] at hp'; cases hp'
  exact SameBase.skel e

theorem SameBases.usableCount : ∀ {a b : List Proc}, SameBases a b → usableCount b = usableCount a
  | [], [], _ => rfl
  | [], _ :: _, h => by cases h.1
  | _ :: _, [], h => by cases h.1
  | p :: a, q :: b, h => by
    have e : q.flags.testBit 12 = p.flags.testBit 12 := by
      have := (h.2 0 p q rfl rfl).usable
      unfold Usable at this
      cases h1 : q.flags.testBit 12 <;> cases h2 : p.flags.testBit 12 <;> simp [h1, h2] at this ⊢
    have ih := SameBases.usableCount (a := a) (b := b)
      ⟨by have := h.1; simp at this; exact this, fun i p q hp hq => h.2 (i + 1) p q hp hq⟩
    unfold Spec.usableCount at ih ⊢
    rw [List.filter_cons, List.filter_cons, e]
    split
    · simp [ih]
    · exact ih

/-- The table handed to `qsort`. -/
structure Analysed (e : Env) (t T : List Proc) : Prop where
  ready : Ready T
  same : SameBases t T
  decoded : ∀ (i : Nat) (q : Proc), T[i]? = some q → Usable q → ∃ l, T[q.packageLeaderId]? = some l ∧
    (q.vendor, q.uarch) = e.dec.vendorUarch q.midr (vfpv4Of e l)
  midr : (∀ p ∈ t, Usable p → Complete p) → ∀ (i : Nat) (q p l : Proc), T[i]? = some q → Usable q →
    t[i]? = some p → t[q.packageLeaderId]? = some l → q.midr = l.midr

theorem analyse_spec (e : Env) (chipset : Chipset) (t : List Proc) (hg : Gathered t)
    (hl : countListed t = usableCount t) :
    ∃ T, analyse e chipset t = some ((leaders T).length, T) ∧ Analysed e t T := by
  obtain ⟨t1, e1, m1⟩ := frequency_spec e t
  have b1 : SameBases t t1 := ⟨m1.1, fun i p q hp hq => SameBase.measured (m1.2 i p q hp hq)⟩
  have z1 : ∀ p, p ∈ t1 → p.packageProcessorCount = 0 := by
    intro q hq
    obtain ⟨i, hi⟩ := List.getElem?_of_mem hq
    obtain ⟨p, hp, -⟩ := b1.get hi
    rw [(m1.2 i p q hp hi).1]
    exact hg.sizes p (List.mem_of_getElem? hp)
  obtain ⟨t2, e2, m2, led2, cnt2⟩ := detectClusters_led e.config e.junk e.junk' e.clusterCpus e.coreSiblings
    (countListed t) t1 (by rw [hl, b1.usableCount]; exact Nat.le_refl _) z1
  have b2 : SameBases t1 t2 := ⟨m2.1, fun i p q hp hq => SameBase.cluster (m2.2 i p q hp hq)⟩
  obtain ⟨t3, e3, d3⟩ := detect_spec e.config.arch chipset (countListed t) t2 led2
  have b3 := SameBases.kept d3.kept
  have led3 := d3.kept.led led2
  obtain ⟨T, e4, u4⟩ := uarch_spec e t3 led3
  have b4 := SameBases.kept u4.kept
  have led4 := u4.kept.led led3
  have hall := ((b1.trans b2).trans b3).trans b4
  refine ⟨T, ?_, ⟨?_, led4, ?_, ?_⟩, hall, ?_, ?_⟩
  · unfold analyse
    simp only [Option.bind_eq_bind, e1, e2, e3, e4, Option.bind_some, Option.pure_def,
      u4.kept.leaders, d3.kept.leaders]
  · intro i q hq
    obtain ⟨p, hp, s⟩ := hall.get hq
    rw [s.id]; exact hg.ids i p hp
  · intro i q hq hu
    obtain ⟨p3, hp3, s3⟩ := u4.kept.get hq
    obtain ⟨p2, hp2, s2⟩ := d3.kept.get hp3
    have s := s3.trans s2
    rw [skel_count s, skel_leader s, u4.kept.membersOf, d3.kept.membersOf]
    exact cnt2 i p2 hp2 ((skel_usable s).mp hu)
  · intro i p l hp hu hl'
    exact u4.member i p l (by have := lt_of_get hp; rw [u4.kept.length] at this; exact this) hp hu hl'
  · intro i q hq hu
    obtain ⟨h1, ⟨l, hgl, hlu⟩, ⟨l', hgl', hll⟩⟩ := led4 i q hq hu
    rw [hgl] at hgl'; cases hgl'
    refine ⟨l, hgl, ?_⟩
    have hi : i < t3.length := by have := lt_of_get hq; rw [u4.kept.length] at this; exact this
    have sc := u4.member i q l hi hq hu hgl
    obtain ⟨l3, hl3, s3⟩ := u4.kept.get hgl
    have hlead : leadAt t3 q.packageLeaderId = true :=
      (leadAt_iff _ _).mpr ⟨l3, hl3, (skel_usable s3).mp hlu, by rw [← skel_leader s3]; exact hll⟩
    have := u4.leader _ l3 (lt_of_get hl3) hl3 hlead
    rw [hgl] at this
    cases this
    rw [sc.vendor, sc.uarch, sc.midr]
    rfl
  · intro hc i q p l hq hu hp hl'
    obtain ⟨h1, ⟨l4, hgl, hlu⟩, ⟨l4', hgl', hll⟩⟩ := led4 i q hq hu
    rw [hgl] at hgl'; cases hgl'
    have hi : i < t3.length := by have := lt_of_get hq; rw [u4.kept.length] at this; exact this
    have sc := u4.member i q l4 hi hq hu hgl
    obtain ⟨l3, hl3, s3⟩ := u4.kept.get hgl
    obtain ⟨l2, hl2, s2⟩ := d3.kept.get hl3
    obtain ⟨l1, hl1, s1⟩ := b2.get hl2
    have hlead : leadAt t3 q.packageLeaderId = true :=
      (leadAt_iff _ _).mpr ⟨l3, hl3, (skel_usable s3).mp hlu, by rw [← skel_leader s3]; exact hll⟩
    have := u4.leader _ l3 (lt_of_get hl3) hl3 hlead
    rw [hgl] at this
    cases this
    have hc2 : AllComplete t2 := by
      intro j r2 hr2 hru
      obtain ⟨r1, hr1, x1⟩ := b2.get hr2
      obtain ⟨r, hr, x0⟩ := b1.get hr1
      have := hc r (List.mem_of_getElem? hr) (x0.usable.mp (x1.usable.mp hru))
      intro k h16 h21
      have := this k h16 h21
      rw [← (m1.2 j r r1 hr hr1).2 k (by omega) (by omega) (by omega)] at this
      rw [← (m2.2 j r1 r2 hr1 hr2).2 k (by omega)] at this
      exact this
    have same := d3.same hc2 (by rw [hl, b2.usableCount, b1.usableCount]; exact Nat.le_refl _) _ l2 l3 hl2 hl3
    have e21 : l2.midr = l1.midr := (congrArg ArmCpuinfo.Proc.midr (m2.2 _ l1 l2 hl1 hl2).1 :)
    have e10 : l1.midr = l.midr := (congrArg ArmCpuinfo.Proc.midr (m1.2 _ l l1 hl' hl1).1 :)
    rw [sc.midr]
    show l3.midr = _
    rw [same, e21, e10]

/-! ## Same caches in a cluster -/

/-- If all usable processors have the same architecture version, the processors of a cluster have
the same caches. -/
theorem uniform_of_version {a : Arch} {T S : List Proc} (h : SortedOf a T S) (d : Decoders)
    (chipset : Chipset) (hlen : S.length < U32) (h0 : 0 < usableCount T)
    (hv : ∀ p ∈ T, ∀ q ∈ T, Usable p → Usable q → p.packageLeaderId = q.packageLeaderId →
      p.architectureVersion = q.architectureVersion) :
    (ctx h d chipset hlen h0).Uniform := by
  intro k hk hn
  have hk : k + 1 < usableCount T := hk
  have hold := h.old_same hk hn
  obtain ⟨g1, u1⟩ := h.get (show k < usableCount T by omega)
  obtain ⟨g2, u2⟩ := h.get hk
  have sc := h.same_core g1 g2 u1 u2 hold.symm
  have m1 := h.perm.mem_iff.mp (List.mem_of_getElem? g1)
  have m2 := h.perm.mem_iff.mp (List.mem_of_getElem? g2)
  have ev := hv _ m2 _ m1 u2 u1 hold
  have e1 := h.ready.count _ _ (h.at_id g1) u1
  have e2 := h.ready.count _ _ (h.at_id g2) u2
  rw [hold, ← e1] at e2
  have ecl : (ctx h d chipset hlen h0).cl (k + 1) = (ctx h d chipset hlen h0).cl k := idx_neg hn
  have : (ctx h d chipset hlen h0).c (k + 1) = (ctx h d chipset hlen h0).c k := by
    unfold Ctx.c
    rw [ecl]
    unfold cachesOf
    have f1 : ((ctx h d chipset hlen h0).P (k + 1)).uarch = ((ctx h d chipset hlen h0).P k).uarch :=
      sc.2.2.1.symm
    have f2 : ((ctx h d chipset hlen h0).P (k + 1)).midr = ((ctx h d chipset hlen h0).P k).midr :=
      sc.1.symm
    have f3 : ((ctx h d chipset hlen h0).P (k + 1)).packageProcessorCount =
      ((ctx h d chipset hlen h0).P k).packageProcessorCount := e2
    have f4 : ((ctx h d chipset hlen h0).P (k + 1)).architectureVersion =
      ((ctx h d chipset hlen h0).P k).architectureVersion := ev
    rw [f1, f2, f3, f4]
  rw [this]
  exact ⟨rfl, rfl⟩

/-! ## The whole -/

theorem linuxInit_unfold (e : Env) (pub : Published) (h : linuxInit e = some (some pub)) :
    ∃ t hw rev, gather e = some (some (t, hw, rev)) ∧ ∃ clusters T,
      analyse e (e.dec.chipset hw rev (countListed t)) t = some (clusters, T) ∧
      publish e.config.arch e.dec e.alloc (e.dec.chipset hw rev (countListed t)) (countListed t)
        clusters (e.sort T) = some (some pub) := by
  unfold linuxInit at h
  simp only [Option.bind_eq_bind] at h
  obtain ⟨g, hg, h⟩ := Option.bind_eq_some_iff.mp h
  cases g with
  | none => cases h
  | some g =>
    obtain ⟨t, hw, rev⟩ := g
    obtain ⟨r, hr, h⟩ := Option.bind_eq_some_iff.mp h
    exact ⟨t, hw, rev, hg, r.1, r.2, hr, h⟩

/-- Detection from a gathered table whose usable processors are all listed. -/
structure Whole (e : Env) (t : List Proc) (hw rev : Bytes) (pub : Published) where
  gathered : Gathered t
  T : List Proc
  analysed : Analysed e t T
  sorted : SortedOf e.config.arch T (e.sort T)
  hlen : (e.sort T).length < U32
  h0 : 0 < usableCount T
  good : Good (ctx sorted e.dec (e.dec.chipset hw rev (countListed t)) hlen h0) (e.sort T) pub
  caches : (ctx sorted e.dec (e.dec.chipset hw rev (countListed t)) hlen h0).Uniform →
    GoodCaches (ctx sorted e.dec (e.dec.chipset hw rev (countListed t)) hlen h0) pub

theorem sortedOf {e : Env} (hs : SortsProcessors e.config.arch e.sort) {t T : List Proc} (ha : Analysed e t T) :
    SortedOf e.config.arch T (e.sort T) := ⟨ha.ready, (hs T).1, (hs T).2⟩

theorem linuxInit_good (e : Env) (hs : SortsProcessors e.config.arch e.sort) (pub : Published)
    (h : linuxInit e = some (some pub)) (t : List Proc) (hw rev : Bytes)
    (hg : gather e = some (some (t, hw, rev))) (hl : countListed t = usableCount t) :
    Nonempty (Whole e t hw rev pub) := by
  obtain ⟨t', hw', rev', hg', c, T, ha, hp⟩ := linuxInit_unfold e pub h
  rw [hg] at hg'
  cases hg'
  have G := (gather_spec e t hw rev hg).1
  obtain ⟨T', ha', A⟩ := analyse_spec e (e.dec.chipset hw rev (countListed t)) t G hl
  rw [ha] at ha'
  cases ha'
  have S := sortedOf hs A
  have hlen : (e.sort T).length < U32 := by
    rw [S.perm.length_eq, A.same.1]; exact G.length
  have h0 : 0 < usableCount T := by
    rcases Nat.eq_zero_or_pos (usableCount T) with hz | hz
    · rw [hl, ← A.same.usableCount, hz] at hp
      exact absurd hp (publish_zero _ _ _ _ _ _ _)
    · exact hz
  have hp' := hp
  rw [show countListed t = usableCount T by rw [hl, A.same.usableCount]] at hp'
  obtain ⟨g1, g2⟩ := publish_good S e.dec (e.dec.chipset hw rev (usableCount T)) hlen h0 e.alloc pub hp'
  have e1 : countListed t = usableCount T := by rw [hl, A.same.usableCount]
  exact ⟨⟨G, T, A, S, hlen, h0, by rw [e1]; exact g1, by rw [e1]; exact g2⟩⟩

/-- Detection ends without undefined behaviour, and publishes if allocations succeed. -/
theorem linuxInit_total (e : Env) (hs : SortsProcessors e.config.arch e.sort) (t : List Proc)
    (hw rev : Bytes) (hg : gather e = some (some (t, hw, rev)))
    (hl : countListed t = usableCount t) (h0 : 0 < usableCount t)
    (hv : ∀ p ∈ t, ∀ q ∈ t, Usable p → Usable q → p.architectureVersion = q.architectureVersion) :
    ∃ r, linuxInit e = some r ∧ ((∀ i, e.alloc i = true) → r ≠ none) := by
  have G := (gather_spec e t hw rev hg).1
  obtain ⟨T, ha, A⟩ := analyse_spec e (e.dec.chipset hw rev (countListed t)) t G hl
  have S := sortedOf hs A
  have hlen : (e.sort T).length < U32 := by
    rw [S.perm.length_eq, A.same.1]; exact G.length
  have e1 : countListed t = usableCount T := by rw [hl, A.same.usableCount]
  have h0 : 0 < usableCount T := by rw [A.same.usableCount]; exact h0
  have hu := uniform_of_version S e.dec (e.dec.chipset hw rev (countListed t)) hlen h0
    fun p hp q hq up uq _ => by
      obtain ⟨i, hi⟩ := List.getElem?_of_mem hp
      obtain ⟨j, hj⟩ := List.getElem?_of_mem hq
      obtain ⟨p', hp', s⟩ := A.same.get hi
      obtain ⟨q', hq', s'⟩ := A.same.get hj
      rw [s.version, s'.version]
      exact hv p' (List.mem_of_getElem? hp') q' (List.mem_of_getElem? hq') (s.usable.mp up)
        (s'.usable.mp uq)
  obtain ⟨r, hr, hok⟩ := publish_total S e.dec (e.dec.chipset hw rev (countListed t)) hlen h0 e.alloc hu
  refine ⟨r, ?_, hok⟩
  unfold linuxInit
  simp only [Option.bind_eq_bind, hg, Option.bind_some, ha]
  rw [← e1] at hr
  exact hr

end Verif.ArmInit
