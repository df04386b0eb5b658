import Verif.Proof.X86Build

/-!
# What `build` publishes
-/

set_option autoImplicit false

namespace Verif.X86Init
open Runs Spec
open X86Cpuinfo (LinuxProc)

/-- The usable entry test. -/
def usable (p : LinuxProc) : Bool := bitmaskAll p.flags flagValid

theorem cmp32_le {a b : Nat} : cmp32 a b ≤ 0 ↔ a ≤ b := by
  unfold cmp32
  split <;> split <;> omega

/-- A list sorted by the comparator starts with the usable entries in APIC order. -/
theorem sorted_split (ps : List LinuxProc) (h : ps.Pairwise fun a b => cmpProcessor a b ≤ 0) :
    ps = ps.filter usable ++ ps.filter (fun p => !usable p) ∧
      (ps.filter usable).Pairwise (fun a b => a.apicId ≤ b.apicId) := by
  constructor
  · induction ps with
    | nil => rfl
    | cons p ps ih =>
      rw [List.pairwise_cons] at h
      cases hu : usable p
      · have hall : ∀ q ∈ ps, usable q = false := by
          intro q hq
          have := h.1 q hq
          cases hq' : usable q
          · rfl
          · unfold cmpProcessor at this
            rw [show bitmaskAll p.flags flagValid = false from hu,
              show bitmaskAll q.flags flagValid = true from hq'] at this
            simp at this
        rw [List.filter_cons_of_neg (by simp [hu]), List.filter_cons_of_pos (by simp [hu]),
          List.filter_eq_nil_iff.mpr (by intro q hq; simp [hall q hq]), List.nil_append,
          List.filter_eq_self.mpr (by intro q hq; simp [hall q hq])]
      · rw [List.filter_cons_of_pos (by simp [hu]), List.filter_cons_of_neg (by simp [hu]),
          List.cons_append, ← ih h.2]
  · have := h.filter usable
    refine List.Pairwise.imp_of_mem ?_ this
    intro a b ha hb hab
    have ha := (List.mem_filter.mp ha).2
    have hb := (List.mem_filter.mp hb).2
    unfold cmpProcessor at hab
    rw [show bitmaskAll a.flags flagValid = true from ha,
      show bitmaskAll b.flags flagValid = true from hb] at hab
    simpa [cmp32_le] using hab

/-- APIC id at a position of the list of usable processors. -/
def apicAt (v : List LinuxProc) (k : Nat) : Nat := ((v[k]?).map (·.apicId)).getD 0
/-- Linux number at a position of the list of usable processors. -/
def linuxAt (v : List LinuxProc) (k : Nat) : Nat := ((v[k]?).map (·.linuxId)).getD 0

theorem apicAt_get {v : List LinuxProc} {k : Nat} {p : LinuxProc} (h : v[k]? = some p) :
    p.apicId = apicAt v k := by simp [apicAt, h]
theorem linuxAt_get {v : List LinuxProc} {k : Nat} {p : LinuxProc} (h : v[k]? = some p) :
    p.linuxId = linuxAt v k := by simp [linuxAt, h]

/-- What the sorted array given to `build` looks like: usable entries `v` first. -/
structure Input where
  v : List LinuxProc
  w : List LinuxProc
  vm : Nat
  hv : ∀ p ∈ v, bitmaskAll p.flags flagValid = true
  hw : ∀ p ∈ w, bitmaskAll p.flags flagValid = false
  hvm : ∀ p ∈ v ++ w, bitmaskAll p.flags vm = bitmaskAll p.flags flagValid
  sorted : v.Pairwise fun a b => a.apicId ≤ b.apicId
  hapic : ∀ p ∈ v, p.apicId < U32
  hlen : (v ++ w).length < U32
  hlid : ∀ p ∈ v, p.linuxId < (v ++ w).length
  hnodup : (v.map (·.linuxId)).Nodup

namespace Input
variable (I : Input)

theorem hvm_v (p : LinuxProc) (h : p ∈ I.v) : bitmaskAll p.flags I.vm = true := by
  rw [I.hvm p (List.mem_append_left _ h)]; exact I.hv p h
theorem hvm_w (p : LinuxProc) (h : p ∈ I.w) : bitmaskAll p.flags I.vm = false := by
  rw [I.hvm p (List.mem_append_right _ h)]; exact I.hw p h

theorem hN : I.v.length < U32 := by
  have := I.hlen; rw [List.length_append] at this; omega

theorem apic_lt (k : Nat) : apicAt I.v k < U32 := by
  unfold apicAt
  cases h : I.v[k]? with
  | none => simp
  | some p => exact I.hapic p (List.mem_of_getElem? h)

theorem apic_mono (i j : Nat) (hij : i ≤ j) (hj : j < I.v.length) :
    apicAt I.v i ≤ apicAt I.v j := by
  rcases Nat.lt_or_ge i j with h | h
  · rw [← apicAt_get (List.getElem?_eq_getElem hj),
      ← apicAt_get (List.getElem?_eq_getElem (Nat.lt_trans h hj))]
    exact List.pairwise_iff_getElem.mp I.sorted i j _ hj h
  · have : i = j := by omega
    rw [this]; exact Nat.le_refl _

theorem lid_lt (k : Nat) (h : k < I.v.length) : linuxAt I.v k < (I.v ++ I.w).length := by
  rw [← linuxAt_get (List.getElem?_eq_getElem h)]
  exact I.hlid _ (List.getElem_mem h)

theorem lid_inj (i j : Nat) (hi : i < I.v.length) (hj : j < I.v.length)
    (h : linuxAt I.v i = linuxAt I.v j) : i = j := by
  rw [← linuxAt_get (List.getElem?_eq_getElem hi), ← linuxAt_get (List.getElem?_eq_getElem hj)] at h
  have hi' : i < (I.v.map (·.linuxId)).length := by simpa using hi
  have hj' : j < (I.v.map (·.linuxId)).length := by simpa using hj
  refine (List.getElem_inj (h₀ := hi') (h₁ := hj') I.hnodup).mp ?_
  simpa using h

/-- The build-loop context for given masks. -/
def ctx (kc kl kp : Nat) (m : Masks) (hkc : kc ≤ kp) (hkl : kl ≤ kp) (hmc : IsHighMask kc m.core)
    (hml : IsHighMask kl m.cluster) (hmp : IsHighMask kp m.package)
    (firstC : apicAt I.v 0 &&& m.core ≠ U32MAX) (firstL : apicAt I.v 0 &&& m.cluster ≠ U32MAX)
    (firstP : apicAt I.v 0 &&& m.package ≠ U32MAX) : Ctx where
  N := I.v.length
  a := apicAt I.v
  lid := linuxAt I.v
  kc := kc
  kl := kl
  kp := kp
  m := m
  maxLinux := (I.v ++ I.w).length
  hN := I.hN
  ha := I.apic_lt
  mono := I.apic_mono
  hkc := hkc
  hkl := hkl
  hmc := hmc
  hml := hml
  hmp := hmp
  firstC := firstC
  firstL := firstL
  firstP := firstP
  lid_lt := I.lid_lt
  lid_inj := I.lid_inj

/-- What a cache level looks like after detection. -/
inductive LevelOk (d : CacheDesc) (l : CacheLevel) : Prop
  | absent (h : d.size = 0) (hc : l.count = 0) (ht : l.table = [])
      (hl : l.links = List.replicate I.v.length none)
  | present (x : CacheCtx) (hN : x.N = I.v.length) (ha : x.a = apicAt I.v) (hd : x.d = d)
      (hc : l.count = gi x.c (x.N - 1) + 1)
      (ht : Tab x.c (gi x.c (x.N - 1) + 1) x.N (x.cacheE x.N) zeroCache l.table)
      (hl : Tab (fun _ => true) x.N x.N (fun k => some (gi x.c k)) none l.links)

theorem runs_pos (nw : Nat → Bool) {n : Nat} (h : 0 < n) : runs nw n = gi nw (n - 1) + 1 := by
  cases n with
  | zero => omega
  | succ n => rfl

/-- A cache level whose first key is not the sentinel is built without fault. -/
theorem buildCache_ok (al : Bool) (d : CacheDesc) (hN : 0 < I.v.length)
    (hbits : d.size ≠ 0 → d.apicBits < 32)
    (hfirst : d.size ≠ 0 → apicAt I.v 0 &&& not32 (2 ^ d.apicBits - 1) ≠ U32MAX) :
    ∃ r, buildCache al d I.vm I.v.length (I.v ++ I.w) = some r ∧ (al = true → r ≠ none) ∧
      ∀ l, r = some l → I.LevelOk d l := by
  unfold buildCache cacheCount
  by_cases hs : d.size = 0
  · obtain ⟨s', h1, h2, h3⟩ := cacheLoop_absent d hs (I.v ++ I.w) 0
      { processorIndex := U32MAX, index := U32MAX, last := U32MAX,
        table := List.replicate 0 zeroCache, links := List.replicate I.v.length none }
    simp only [hs, ne_eq, not_true_eq_false, if_false, Option.bind_eq_bind, Option.bind_some,
      false_and, h1, Option.pure_def]
    refine ⟨_, rfl, by simp, ?_⟩
    intro l hl
    cases hl
    exact .absent hs rfl h2 h3
  · let x : CacheCtx :=
      { N := I.v.length, a := apicAt I.v, d := d, km := not32 (2 ^ d.apicBits - 1),
        b := 2 ^ d.apicBits - 1, hN := I.hN, hsize := hs, hb := bitMask_isSome (hbits hs),
        hkm := rfl, first := hfirst hs }
    have hcount : countObjects I.vm (not32 (2 ^ d.apicBits - 1)) (I.v ++ I.w) =
        gi x.c (x.N - 1) + 1 := by
      rw [countObjects_runs I.vm _ I.v I.w (apicAt I.v) I.hvm_v I.hvm_w I.hN
        (fun k p h => apicAt_get h) (hfirst hs)]
      exact runs_pos _ hN
    obtain ⟨s', h1, h2⟩ := x.loop I.v rfl I.hv (fun k p h => apicAt_get h) _ 0 _ rfl (by omega)
      x.init_inv
    have h3 : cacheLoop d 0 (I.v ++ I.w)
        { processorIndex := U32MAX, index := U32MAX, last := U32MAX,
          table := List.replicate (gi x.c (x.N - 1) + 1) zeroCache,
          links := List.replicate I.v.length none } = some s' := by
      rw [cacheLoop_append]
      rw [List.drop_zero] at h1
      rw [show cacheLoop d 0 I.v _ = some s' from h1, Option.bind_some]
      exact cacheLoop_skip d I.w I.hw _ _
    simp only [hs, ne_eq, not_false_eq_true, if_true, bitMask_isSome (hbits hs), Option.map_some,
      hcount, Option.bind_eq_bind, Option.bind_some, h3, Option.pure_def]
    cases al with
    | false => exact ⟨none, by simp, by simp, by simp⟩
    | true =>
      refine ⟨some ⟨_, s'.table, s'.links⟩, by simp; rfl, by simp, ?_⟩
      intro l hl
      cases hl
      exact .present x rfl rfl rfl rfl h2.table h2.links

/-- A link of a present level leads to a cache of the level's size. -/
theorem LevelOk.linked {d : CacheDesc} {l : CacheLevel} (h : I.LevelOk d l) (hN : 0 < I.v.length)
    (i : Nat) (hi : i < I.v.length) :
    linkedSize l i = some (if d.size = 0 then none else some d.size) := by
  cases h with
  | absent h hc ht hl =>
    simp [linkedSize, hl, hi, h]
  | present x hN' ha hd hc ht hl =>
    have h1 := hl.done i (by omega)
    rw [gi_true] at h1
    have h2 := ht.done i (by omega)
    have : d.size ≠ 0 := by rw [← hd]; exact x.hsize
    simp [linkedSize, h1, h2, this, CacheCtx.cacheE, hd]

end Input

/-- The facts about the published tables, in terms of the build-loop context. -/
structure Good (I : Input) (x : X86Processor) (c : Ctx) (pub : Published) : Prop where
  hN : c.N = I.v.length
  hpos : 0 < c.N
  ha : c.a = apicAt I.v
  hlid : c.lid = linuxAt I.v
  kc : c.kc = x.topology.threadLength
  kp : c.kp = x.topology.threadLength + x.topology.coreLength
  kl : c.kl = min (x.topology.threadLength + x.topology.coreLength) (llcApicBits x)
  maxLinux : c.maxLinux = (I.v ++ I.w).length
  processors : Tab (fun _ => true) c.N c.N c.processorE zeroProcessor pub.processors
  cores : Tab c.c (gi c.c (c.N - 1) + 1) c.N (c.coreE c.N) zeroCore pub.cores
  clusters : Tab c.l (gi c.l (c.N - 1) + 1) c.N (c.clusterE c.N) zeroCluster pub.clusters
  packages : Tab c.p (gi c.p (c.N - 1) + 1) c.N (c.packageE c.N) zeroPackage pub.packages
  processorMap : MapTab c.lid c.maxLinux c.N id pub.processorMap
  coreMap : MapTab c.lid c.maxLinux c.N (gi c.c) pub.coreMap
  processorsCount : pub.processorsCount = c.N
  coresCount : pub.coresCount = gi c.c (c.N - 1) + 1
  clustersCount : pub.clustersCount = gi c.l (c.N - 1) + 1
  packagesCount : pub.packagesCount = gi c.p (c.N - 1) + 1
  linuxCpuMax : pub.linuxCpuMax = (I.v ++ I.w).length
  maxCacheSize : pub.maxCacheSize = computeMaxCacheSize
    (if x.l4.size = 0 then none else some x.l4.size)
    (if x.l3.size = 0 then none else some x.l3.size)
    (if x.l2.size = 0 then none else some x.l2.size)
    (if x.l1d.size = 0 then none else some x.l1d.size)
  l1i : I.LevelOk x.l1i pub.l1i
  l1d : I.LevelOk x.l1d pub.l1d
  l2 : I.LevelOk x.l2 pub.l2
  l3 : I.LevelOk x.l3 pub.l3
  l4 : I.LevelOk x.l4 pub.l4

/-- The first usable APIC id does not collide with the sentinel at any level in use. -/
structure NoCollision (x : X86Processor) (a : Nat) : Prop where
  core : a ≠ U32MAX ∨ 0 < x.topology.threadLength
  cluster : a ≠ U32MAX ∨ 0 < min (x.topology.threadLength + x.topology.coreLength) (llcApicBits x)
  package : a ≠ U32MAX ∨ 0 < x.topology.threadLength + x.topology.coreLength
  l1i : x.l1i.size ≠ 0 → a ≠ U32MAX ∨ 0 < x.l1i.apicBits
  l1d : x.l1d.size ≠ 0 → a ≠ U32MAX ∨ 0 < x.l1d.apicBits
  l2 : x.l2.size ≠ 0 → a ≠ U32MAX ∨ 0 < x.l2.apicBits
  l3 : x.l3.size ≠ 0 → a ≠ U32MAX ∨ 0 < x.l3.apicBits
  l4 : x.l4.size ≠ 0 → a ≠ U32MAX ∨ 0 < x.l4.apicBits

theorem noCollision_key {k m a : Nat} (hm : IsHighMask k m) (ha : a < U32)
    (h : a ≠ U32MAX ∨ 0 < k) : a &&& m ≠ U32MAX := by
  rcases h with h | h
  · exact key_ne_max ha h
  · intro he
    have h1 := congrArg (fun n => Nat.testBit n 0) he
    simp only [Nat.testBit_and, hm 0, u32max_testBit] at h1
    simp at h1
    omega

/-- Bit fields within 32 bits. -/
structure BitsOk (x : X86Processor) : Prop where
  threadOffset : x.topology.threadOffset = 0
  coreOffset : x.topology.coreOffset = x.topology.threadLength
  threadLength : x.topology.threadLength < 32
  coreLength : x.topology.coreLength < 32
  llc : llcApicBits x < 32
  l1i : x.l1i.size ≠ 0 → x.l1i.apicBits < 32
  l1d : x.l1d.size ≠ 0 → x.l1d.apicBits < 32
  l2 : x.l2.size ≠ 0 → x.l2.apicBits < 32
  l3 : x.l3.size ≠ 0 → x.l3.apicBits < 32
  l4 : x.l4.size ≠ 0 → x.l4.apicBits < 32

theorem build_good (I : Input) (x : X86Processor) (alloc : Nat → Bool) (hb : BitsOk x)
    (hN : 0 < I.v.length) (hc : NoCollision x (apicAt I.v 0)) :
    ∃ r, build alloc x I.vm I.v.length (I.v ++ I.w) = some r ∧
      ((∀ i, alloc i = true) → r ≠ none) ∧
      ∀ pub, r = some pub → ∃ c, Good I x c pub := by
  obtain ⟨m, hm, hmc, hmp, hml⟩ := masks_spec x.topology (llcApicBits x) hb.threadOffset
    hb.coreOffset hb.threadLength hb.coreLength hb.llc
  have ha0 := I.apic_lt 0
  have f1 := noCollision_key hmc ha0 hc.core
  have f2 := noCollision_key hml ha0 hc.cluster
  have f3 := noCollision_key hmp ha0 hc.package
  have cfirst : ∀ (d : CacheDesc), (d.size ≠ 0 → d.apicBits < 32) →
      (d.size ≠ 0 → apicAt I.v 0 ≠ U32MAX ∨ 0 < d.apicBits) →
      (d.size ≠ 0 → apicAt I.v 0 &&& not32 (2 ^ d.apicBits - 1) ≠ U32MAX) := by
    intro d h1 h2 h3
    exact noCollision_key (not32_bitMask (bitMask_isSome (h1 h3))) ha0 (h2 h3)
  obtain ⟨r1, e1, n1, g1⟩ := I.buildCache_ok (alloc 7) x.l1i hN hb.l1i (cfirst _ hb.l1i hc.l1i)
  obtain ⟨r2, e2, n2, g2⟩ := I.buildCache_ok (alloc 8) x.l1d hN hb.l1d (cfirst _ hb.l1d hc.l1d)
  obtain ⟨r3, e3, n3, g3⟩ := I.buildCache_ok (alloc 9) x.l2 hN hb.l2 (cfirst _ hb.l2 hc.l2)
  obtain ⟨r4, e4, n4, g4⟩ := I.buildCache_ok (alloc 10) x.l3 hN hb.l3 (cfirst _ hb.l3 hc.l3)
  obtain ⟨r5, e5, n5, g5⟩ := I.buildCache_ok (alloc 11) x.l4 hN hb.l4 (cfirst _ hb.l4 hc.l4)
  let c := I.ctx _ _ _ m (Nat.le_add_right _ _) (Nat.min_le_left _ _) hmc hml hmp f1 f2 f3
  have cc : countObjects I.vm m.core (I.v ++ I.w) = gi c.c (c.N - 1) + 1 := by
    rw [countObjects_runs I.vm _ I.v I.w (apicAt I.v) I.hvm_v I.hvm_w I.hN
        (fun k p h => apicAt_get h) f1]
    exact Input.runs_pos _ hN
  have cl : countObjects I.vm m.cluster (I.v ++ I.w) = gi c.l (c.N - 1) + 1 := by
    rw [countObjects_runs I.vm _ I.v I.w (apicAt I.v) I.hvm_v I.hvm_w I.hN
        (fun k p h => apicAt_get h) f2]
    exact Input.runs_pos _ hN
  have cp : countObjects I.vm m.package (I.v ++ I.w) = gi c.p (c.N - 1) + 1 := by
    rw [countObjects_runs I.vm _ I.v I.w (apicAt I.v) I.hvm_v I.hvm_w I.hN
        (fun k p h => apicAt_get h) f3]
    exact Input.runs_pos _ hN
  obtain ⟨s, hs1, hs2⟩ := c.loop I.v rfl I.hv (fun k p h => ⟨apicAt_get h, linuxAt_get h⟩) _ 0 _
    rfl (by omega) c.init_inv
  rw [List.drop_zero] at hs1
  have hloop : buildLoop m (I.v ++ I.w) (Ctx.initState I.v.length (gi c.c (c.N - 1) + 1)
      (gi c.l (c.N - 1) + 1) (gi c.p (c.N - 1) + 1) (I.v ++ I.w).length) = some s := by
    have hs1' : buildLoop m I.v (Ctx.initState I.v.length (gi c.c (c.N - 1) + 1)
      (gi c.l (c.N - 1) + 1) (gi c.p (c.N - 1) + 1) (I.v ++ I.w).length) = some s := hs1
    rw [buildLoop_append, hs1', Option.bind_some]
    exact buildLoop_skip m I.w I.hw s
  unfold Ctx.initState at hloop
  unfold build
  simp only [hm, Option.bind_eq_bind, Option.bind_some, e1, e2, e3, e4, e5, cc, cl, cp,
    Option.pure_def]
  by_cases ha1 : alloc 1 = true
  · rw [if_neg (by simp [ha1])]
    by_cases ha2 : alloc 2 = true ∧ alloc 3 = true ∧ alloc 4 = true ∧ alloc 5 = true ∧ alloc 6 = true
    · rw [if_neg (by simpa using ha2)]
      cases r1 with
      | none => exact ⟨none, by simp, fun h => absurd rfl (n1 (h _)), by simp⟩
      | some l1 =>
      cases r2 with
      | none => exact ⟨none, by simp, fun h => absurd rfl (n2 (h _)), by simp⟩
      | some l2 =>
      cases r3 with
      | none => exact ⟨none, by simp, fun h => absurd rfl (n3 (h _)), by simp⟩
      | some l3 =>
      cases r4 with
      | none => exact ⟨none, by simp, fun h => absurd rfl (n4 (h _)), by simp⟩
      | some l4 =>
      cases r5 with
      | none => exact ⟨none, by simp, fun h => absurd rfl (n5 (h _)), by simp⟩
      | some l5 =>
      simp only [hloop, Option.bind_some, (g5 l5 rfl).linked I hN 0 hN,
        (g4 l4 rfl).linked I hN 0 hN, (g3 l3 rfl).linked I hN 0 hN, (g2 l2 rfl).linked I hN 0 hN]
      refine ⟨_, rfl, by simp, ?_⟩
      intro pub hp
      cases hp
      exact ⟨c, ⟨rfl, hN, rfl, rfl, rfl, rfl, rfl, rfl, hs2.processors, hs2.cores, hs2.clusters,
        hs2.packages, hs2.processorMap, hs2.coreMap, rfl, rfl, rfl, rfl, rfl, rfl,
        g1 _ rfl, g2 _ rfl, g3 _ rfl, g4 _ rfl, g5 _ rfl⟩⟩
    · rw [if_pos (by simpa using ha2)]
      exact ⟨none, rfl, fun h => absurd ⟨h _, h _, h _, h _, h _⟩ ha2, by simp⟩
  · rw [if_pos (by simp [ha1])]
    exact ⟨none, rfl, fun h => absurd (h _) ha1, by simp⟩

end Verif.X86Init
