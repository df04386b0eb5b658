import Verif.Proof.Tables
import Verif.Proof.X86Masks

/-!
# Invariant of the build loop
-/

set_option autoImplicit false

namespace Verif.X86Init
open Runs Spec
open X86Cpuinfo (LinuxProc)

/-- Value before position `n` of an index that starts at `UINT32_MAX`. -/
def prev (f : Nat → Nat) : Nat → Nat
  | 0 => U32MAX
  | n + 1 => f n

/-- Value before position `n` of a counter that starts at 0. -/
def prev0 (f : Nat → Nat) : Nat → Nat
  | 0 => 0
  | n + 1 => f n

/-- The situation of the build loop: `a k` and `lid k` are the APIC id and the Linux number of the
k-th usable processor of the sorted array. -/
structure Ctx where
  N : Nat
  a : Nat → Nat
  lid : Nat → Nat
  kc : Nat
  kl : Nat
  kp : Nat
  m : Masks
  maxLinux : Nat
  hN : N < U32
  ha : ∀ k, a k < U32
  mono : ∀ i j, i ≤ j → j < N → a i ≤ a j
  hkc : kc ≤ kp
  hkl : kl ≤ kp
  hmc : IsHighMask kc m.core
  hml : IsHighMask kl m.cluster
  hmp : IsHighMask kp m.package
  firstC : a 0 &&& m.core ≠ U32MAX
  firstL : a 0 &&& m.cluster ≠ U32MAX
  firstP : a 0 &&& m.package ≠ U32MAX
  lid_lt : ∀ k < N, lid k < maxLinux
  lid_inj : ∀ i j, i < N → j < N → lid i = lid j → i = j

namespace Ctx
variable (x : Ctx)

def c : Nat → Bool := byKey fun k => x.a k &&& x.m.core
def l : Nat → Bool := byKey fun k => x.a k &&& x.m.cluster
def p : Nat → Bool := byKey fun k => x.a k &&& x.m.package

def processorE (k : Nat) : Processor :=
  { smtId := k - st x.c k, core := gi x.c k, cluster := gi x.l k, package := gi x.p k,
    linuxId := x.lid k, apicId := x.a k }

def coreE (n k : Nat) : Core :=
  { processorStart := st x.c k, processorCount := cnt x.c (gi x.c k) n,
    coreId := gi x.c (st x.c k) - gi x.c (st x.p (st x.c k)),
    cluster := gi x.l (st x.c k), package := gi x.p (st x.c k) }

def clusterE (n k : Nat) : Cluster :=
  { processorStart := st x.l k, processorCount := cnt x.l (gi x.l k) n,
    coreStart := gi x.c (st x.l k), coreCount := sub x.c x.l (gi x.l k) n,
    clusterId := gi x.l (st x.l k) - gi x.l (st x.p (st x.l k)),
    package := gi x.p (st x.l k) }

def packageE (n k : Nat) : Package :=
  { processorStart := st x.p k, processorCount := cnt x.p (gi x.p k) n,
    coreStart := gi x.c (st x.p k), coreCount := sub x.c x.p (gi x.p k) n,
    clusterStart := gi x.l (st x.p k), clusterCount := sub x.l x.p (gi x.p k) n }

/-- Invariant before position `n`. -/
structure Inv (n : Nat) (s : State) : Prop where
  processorIndex : s.processorIndex = prev id n
  coreIndex : s.coreIndex = prev (gi x.c) n
  clusterIndex : s.clusterIndex = prev (gi x.l) n
  packageIndex : s.packageIndex = prev (gi x.p) n
  coreId : s.coreId = prev0 (fun k => gi x.c k - gi x.c (st x.p k)) n
  clusterId : s.clusterId = prev0 (fun k => gi x.l k - gi x.l (st x.p k)) n
  smtId : s.smtId = prev0 (fun k => k - st x.c k) n
  lastCore : s.lastCore = prev (fun k => x.a k &&& x.m.core) n
  lastCluster : s.lastCluster = prev (fun k => x.a k &&& x.m.cluster) n
  lastPackage : s.lastPackage = prev (fun k => x.a k &&& x.m.package) n
  processors : Tab (fun _ => true) x.N n x.processorE zeroProcessor s.processors
  cores : Tab x.c (gi x.c (x.N - 1) + 1) n (x.coreE n) zeroCore s.cores
  clusters : Tab x.l (gi x.l (x.N - 1) + 1) n (x.clusterE n) zeroCluster s.clusters
  packages : Tab x.p (gi x.p (x.N - 1) + 1) n (x.packageE n) zeroPackage s.packages
  processorMap : MapTab x.lid x.maxLinux n id s.processorMap
  coreMap : MapTab x.lid x.maxLinux n (gi x.c) s.coreMap

end Ctx

theorem gi_true (k : Nat) : gi (fun _ => true) k = k := by
  induction k with
  | zero => rfl
  | succ k ih => simp [gi, ih]

theorem byKey_flag (key : Nat → Nat) (h0 : key 0 ≠ U32MAX) (n : Nat) :
    (key n != prev key n) = byKey key n := by
  cases n with
  | zero => simp [byKey, prev, h0]
  | succ n => simp [byKey, prev]

theorem index_step (key : Nat → Nat) (n : Nat) (hn : n < U32) :
    (if byKey key n then inc32 (prev (gi (byKey key)) n) else prev (gi (byKey key)) n)
      = gi (byKey key) n := by
  cases n with
  | zero => simp [byKey, prev, inc32, gi]
  | succ n =>
    have := gi_le (byKey key) n
    cases h : byKey key (n + 1)
    · simp [prev, gi_succ_old h]
    · simp only [prev, gi_succ_new h, if_true, inc32]
      exact Nat.mod_eq_of_lt (by omega)

theorem inc_prev_id (n : Nat) (hn : n < U32) : inc32 (prev id n) = n := by
  cases n with
  | zero => rfl
  | succ n => exact Nat.mod_eq_of_lt hn

theorem byKey_zero (key : Nat → Nat) : byKey key 0 = true := by simp [byKey]

theorem st_new {nw : Nat → Bool} {n : Nat} (h : nw n = true) : st nw n = n := by
  cases n with
  | zero => rfl
  | succ n => exact st_succ_new h

/-- Running number inside a coarser run. -/
theorem id_step (fine coarse : Nat → Nat) (n : Nat) :
    (if byKey coarse n then 0
      else if byKey fine n
        then prev0 (fun k => gi (byKey fine) k - gi (byKey fine) (st (byKey coarse) k)) n + 1
        else prev0 (fun k => gi (byKey fine) k - gi (byKey fine) (st (byKey coarse) k)) n)
      = gi (byKey fine) n - gi (byKey fine) (st (byKey coarse) n) := by
  cases hc : byKey coarse n
  · cases n with
    | zero => rw [byKey_zero] at hc; cases hc
    | succ n =>
      have h1 := gi_mono (byKey fine) (st_le (byKey coarse) n)
      rw [st_succ_old hc]
      cases hf : byKey fine (n + 1)
      · simp [prev0, gi_succ_old hf]
      · simp only [prev0, gi_succ_new hf]; simp; omega
  · simp [st_new hc]

theorem smt_step (key : Nat → Nat) (n : Nat) :
    (if byKey key n then 0 else prev0 (fun k => k - st (byKey key) k) n + 1)
      = n - st (byKey key) n := by
  cases hc : byKey key n
  · cases n with
    | zero => rw [byKey_zero] at hc; cases hc
    | succ n =>
      have := st_le (byKey key) n
      simp only [prev0, st_succ_old hc]; simp; omega
  · simp [st_new hc]

namespace Ctx
variable (x : Ctx)

theorem coarse (k1 k2 m1 m2 : Nat) (h : k1 ≤ k2) (h1 : IsHighMask k1 m1) (h2 : IsHighMask k2 m2)
    (i : Nat) (hc : byKey (fun k => x.a k &&& m2) (i + 1) = true) :
    byKey (fun k => x.a k &&& m1) (i + 1) = true := by
  rw [byKey_succ] at hc ⊢
  intro heq
  apply hc
  rw [key_eq_iff h1 (x.ha _) (x.ha _)] at heq
  rw [key_eq_iff h2 (x.ha _) (x.ha _)]
  obtain ⟨d, rfl⟩ := Nat.le.dest h
  rw [Nat.pow_add, ← Nat.div_div_eq_div_mul, ← Nat.div_div_eq_div_mul, heq]

theorem p_c (i : Nat) (h : x.p (i + 1) = true) : x.c (i + 1) = true :=
  x.coarse _ _ _ _ x.hkc x.hmc x.hmp i h

theorem p_l (i : Nat) (h : x.p (i + 1) = true) : x.l (i + 1) = true :=
  x.coarse _ _ _ _ x.hkl x.hml x.hmp i h

theorem p_c' (n : Nat) (h : x.p n = true) : x.c n = true := by
  cases n with
  | zero => exact byKey_zero _
  | succ n => exact x.p_c n h

theorem p_l' (n : Nat) (h : x.p n = true) : x.l n = true := by
  cases n with
  | zero => exact byKey_zero _
  | succ n => exact x.p_l n h

end Ctx

theorem cnt_succ_ne {nw : Nat → Bool} {n g : Nat} (h : gi nw n ≠ g) : cnt nw g (n + 1) = cnt nw g n := by
  simp [cnt, h]

theorem cnt_succ_eq {nw : Nat → Bool} {n g : Nat} (h : gi nw n = g) :
    cnt nw g (n + 1) = cnt nw g n + 1 := by
  simp [cnt, h]

theorem cnt_opens {nw : Nat → Bool} {n : Nat} (h : Opens nw n) : cnt nw (gi nw n) n = 0 := by
  apply cnt_zero_of_lt
  intro k hk
  have := gi_mono nw (show k ≤ n by omega)
  have := h k hk
  omega

theorem sub_opens {fine coarse : Nat → Bool} {n : Nat} (h : Opens coarse n) :
    sub fine coarse (gi coarse n) n = 0 := by
  apply sub_zero_of_lt
  intro k hk
  have := gi_mono coarse (show k ≤ n by omega)
  have := h k hk
  omega

theorem sub_succ_ne {fine coarse : Nat → Bool} {n g : Nat} (h : gi coarse n ≠ g) :
    sub fine coarse g (n + 1) = sub fine coarse g n := by
  simp [sub, h]

theorem sub_succ_eq {fine : Nat → Nat} {coarse : Nat → Bool} {n g : Nat} (h : gi coarse n = g) :
    sub (byKey fine) coarse g (n + 1) =
      sub (byKey fine) coarse g n + if byKey fine n = true then 1 else 0 := by
  rw [sub]
  congr 1
  have : (n = 0 ∨ byKey fine n = true) ↔ byKey fine n = true := by
    constructor
    · rintro (rfl | h)
      · exact byKey_zero _
      · exact h
    · exact .inr
  simp only [this, h, and_true]

theorem opens_true_of {key : Nat → Nat} {n : Nat} (h : Opens (byKey key) n) : byKey key n = true := by
  cases hn : byKey key n
  · cases n with
    | zero => rw [byKey_zero] at hn; cases hn
    | succ n => exact absurd (gi_succ_old hn).symm (h n (by omega))
  · rfl

namespace Ctx
variable (x : Ctx)

theorem step (n : Nat) (hn : n < x.N) (s : State) (h : x.Inv n s) (pr : LinuxProc)
    (hpa : pr.apicId = x.a n) (hpl : pr.linuxId = x.lid n) :
    ∃ s', buildStep x.m s pr = some s' ∧ x.Inv (n + 1) s' := by
  have hnU : n < U32 := Nat.lt_trans hn x.hN
  have ePI : inc32 s.processorIndex = n := by rw [h.processorIndex]; exact inc_prev_id n hnU
  have eNC : (x.a n &&& x.m.core != s.lastCore) = x.c n := by
    rw [h.lastCore]; exact byKey_flag (fun k => x.a k &&& x.m.core) x.firstC n
  have eNL : (x.a n &&& x.m.cluster != s.lastCluster) = x.l n := by
    rw [h.lastCluster]; exact byKey_flag (fun k => x.a k &&& x.m.cluster) x.firstL n
  have eNP : (x.a n &&& x.m.package != s.lastPackage) = x.p n := by
    rw [h.lastPackage]; exact byKey_flag (fun k => x.a k &&& x.m.package) x.firstP n
  have eCI : (if x.c n then inc32 s.coreIndex else s.coreIndex) = gi x.c n := by
    rw [h.coreIndex]; exact index_step _ n hnU
  have eLI : (if x.l n then inc32 s.clusterIndex else s.clusterIndex) = gi x.l n := by
    rw [h.clusterIndex]; exact index_step _ n hnU
  have ePI2 : (if x.p n then inc32 s.packageIndex else s.packageIndex) = gi x.p n := by
    rw [h.packageIndex]; exact index_step _ n hnU
  have eSm : (if x.c n then 0 else s.smtId + 1) = n - st x.c n := by
    rw [h.smtId]; exact smt_step _ n
  have eCid : (if x.p n then 0 else if x.c n then s.coreId + 1 else s.coreId)
      = gi x.c n - gi x.c (st x.p n) := by
    rw [h.coreId]; exact id_step _ _ n
  have eLid : (if x.p n then 0 else if x.l n then s.clusterId + 1 else s.clusterId)
      = gi x.l n - gi x.l (st x.p n) := by
    rw [h.clusterId]; exact id_step _ _ n
  have hcl : ∀ nw, gi nw n < gi nw (x.N - 1) + 1 := by
    intro nw; have := gi_mono nw (show n ≤ x.N - 1 by omega); omega
  -- processors
  obtain ⟨t1, e1, i1⟩ := h.processors.step (by rw [gi_true]; exact hn)
    (e' := x.processorE)
    (fun _ => { smtId := n - st x.c n, core := gi x.c n, cluster := gi x.l n,
                package := gi x.p n, linuxId := pr.linuxId, apicId := pr.apicId })
    (by intro _; rw [hpa, hpl]; rfl) (by intro m _ h; cases h)
    (by intro k hk hg; rw [gi_true, gi_true] at hg; omega) (by intro k hk hg; rfl)
  rw [gi_true] at e1
  -- cores
  obtain ⟨t2, e2, i2⟩ := h.cores.step (hcl _) (e' := x.coreE (n + 1))
    (fun c =>
      if x.c n then
        { processorStart := n, processorCount := 1, coreId := gi x.c n - gi x.c (st x.p n),
          cluster := gi x.l n, package := gi x.p n }
      else { c with processorCount := c.processorCount + 1 })
    (by
      intro ho
      have hc : x.c n = true := opens_true_of ho
      simp only [hc, if_true, coreE, st_new hc, cnt_succ_eq, cnt_opens ho])
    (by
      rintro m rfl hm
      simp only [hm, coreE, st_succ_old hm, gi_succ_old hm, Bool.false_eq_true, if_false]
      rw [cnt_succ_eq (gi_succ_old hm)])
    (by
      intro k hk hg
      simp only [coreE, st_eq_of_gi _ _ _ hg, hg])
    (by
      intro k hk hg
      simp only [coreE, cnt_succ_ne (Ne.symm hg)])
  -- clusters
  obtain ⟨t3, e3, i3⟩ := h.clusters.step (hcl _) (e' := x.clusterE (n + 1))
    (fun c =>
      (fun c => if x.l n then
        { c with processorStart := n, processorCount := 1, coreStart := gi x.c n,
                 clusterId := gi x.l n - gi x.l (st x.p n), package := gi x.p n }
      else { c with processorCount := c.processorCount + 1 })
        (if x.c n then { c with coreCount := c.coreCount + 1 } else c))
    (by
      intro ho
      have hl : x.l n = true := opens_true_of ho
      simp only [hl, if_true, clusterE, st_new hl, cnt_succ_eq, cnt_opens ho]
      congr 1
      rw [show sub x.c x.l (gi x.l n) (n + 1) = _ from sub_succ_eq rfl, sub_opens ho]
      show _ = 0 + if x.c n = true then 1 else 0
      cases x.c n <;> rfl)
    (by
      rintro m rfl hm
      simp only [hm, clusterE, st_succ_old hm, gi_succ_old hm, Bool.false_eq_true, if_false]
      rw [cnt_succ_eq (gi_succ_old hm),
        show sub x.c x.l (gi x.l m) (m + 1 + 1) = _ from sub_succ_eq (gi_succ_old hm)]
      show _ = Cluster.mk _ _ _ (_ + if x.c (m + 1) = true then 1 else 0) _ _
      cases x.c (m + 1) <;> rfl)
    (by
      intro k hk hg
      simp only [clusterE, st_eq_of_gi _ _ _ hg, hg])
    (by
      intro k hk hg
      simp only [clusterE, cnt_succ_ne (Ne.symm hg), sub_succ_ne (Ne.symm hg)])
  -- packages
  obtain ⟨t4, e4, i4⟩ := h.packages.step (hcl _) (e' := x.packageE (n + 1))
    (fun q =>
      (fun q => if x.p n then
        { q with processorStart := n, processorCount := 1, coreStart := gi x.c n,
                 clusterStart := gi x.l n }
      else { q with processorCount := q.processorCount + 1 })
        ((fun q => if x.l n then { q with clusterCount := q.clusterCount + 1 } else q)
          (if x.c n then { q with coreCount := q.coreCount + 1 } else q)))
    (by
      intro ho
      have hp : x.p n = true := opens_true_of ho
      have hl := x.p_l' n hp
      have hc := x.p_c' n hp
      simp only [hl, hc, hp, if_true, packageE, st_new hp, cnt_succ_eq, cnt_opens ho]
      rw [show sub x.c x.p (gi x.p n) (n + 1) = _ from sub_succ_eq rfl, sub_opens ho,
        show sub x.l x.p (gi x.p n) (n + 1) = _ from sub_succ_eq rfl, sub_opens ho]
      show _ = Package.mk _ _ _ (0 + if x.c n = true then 1 else 0) _
        (0 + if x.l n = true then 1 else 0)
      rw [hc, hl]; rfl)
    (by
      rintro m rfl hm
      simp only [hm, packageE, st_succ_old hm, gi_succ_old hm, Bool.false_eq_true, if_false]
      rw [cnt_succ_eq (gi_succ_old hm),
        show sub x.c x.p (gi x.p m) (m + 1 + 1) = _ from sub_succ_eq (gi_succ_old hm),
        show sub x.l x.p (gi x.p m) (m + 1 + 1) = _ from sub_succ_eq (gi_succ_old hm)]
      show _ = Package.mk _ _ _ (_ + if x.c (m + 1) = true then 1 else 0) _
        (_ + if x.l (m + 1) = true then 1 else 0)
      cases x.c (m + 1) <;> cases x.l (m + 1) <;> rfl)
    (by
      intro k hk hg
      simp only [packageE, st_eq_of_gi _ _ _ hg, hg])
    (by
      intro k hk hg
      simp only [packageE, cnt_succ_ne (Ne.symm hg), sub_succ_ne (Ne.symm hg)])
  -- maps
  have hinj : ∀ k < n, x.lid k ≠ x.lid n := by
    intro k hk he
    have := x.lid_inj k n (by omega) hn he
    omega
  obtain ⟨t5, e5, i5⟩ := h.processorMap.step (x.lid_lt n hn) hinj
  obtain ⟨t6, e6, i6⟩ := h.coreMap.step (x.lid_lt n hn) hinj
  -- chains of updates of the same entry
  have e3' : ((modifyIf? (x.c n) s.clusters (gi x.l n) fun c =>
        { c with coreCount := c.coreCount + 1 }).bind fun t =>
      modify? t (gi x.l n) fun c => if x.l n then
        { c with processorStart := n, processorCount := 1, coreStart := gi x.c n,
                 clusterId := gi x.l n - gi x.l (st x.p n), package := gi x.p n }
      else { c with processorCount := c.processorCount + 1 }) = some t3 := by
    rw [← e3]
    cases x.c n
    · rfl
    · exact modify?_modify? _ _ _ _
  have e4' : (((modifyIf? (x.c n) s.packages (gi x.p n) fun q =>
        { q with coreCount := q.coreCount + 1 }).bind fun t =>
      (modifyIf? (x.l n) t (gi x.p n) fun q =>
        { q with clusterCount := q.clusterCount + 1 })).bind fun t =>
      modify? t (gi x.p n) fun q => if x.p n then
        { q with processorStart := n, processorCount := 1, coreStart := gi x.c n,
                 clusterStart := gi x.l n }
      else { q with processorCount := q.processorCount + 1 }) = some t4 := by
    rw [← e4]
    cases x.c n <;> cases x.l n
    · rfl
    · exact modify?_modify? _ _ _ _
    · show ((Option.bind (modify? _ _ _) some).bind fun t => modify? t _ _) = _
      rw [Option.bind_fun_some]
      exact modify?_modify? _ _ _ _
    · show ((Option.bind (modify? _ _ _) fun t => modify? t _ _).bind fun t => modify? t _ _) = _
      rw [modify?_modify?, modify?_modify?]; rfl
  obtain ⟨u3, f3, g3⟩ := Option.bind_eq_some_iff.mp e3'
  obtain ⟨u4, f4, g4⟩ := Option.bind_eq_some_iff.mp e4'
  obtain ⟨w4, f4', g4'⟩ := Option.bind_eq_some_iff.mp f4
  refine ⟨⟨n, gi x.c n, gi x.l n, gi x.p n, gi x.l n - gi x.l (st x.p n),
    gi x.c n - gi x.c (st x.p n), n - st x.c n, x.a n &&& x.m.core, x.a n &&& x.m.cluster,
    x.a n &&& x.m.package, t1, t2, t3, t4, t5, t6⟩, ?_,
    ⟨rfl, rfl, rfl, rfl, rfl, rfl, rfl, rfl, rfl, rfl, i1, i2, i3, i4, i5, i6⟩⟩
  simp only [buildStep, hpa, eNC, eNL, eNP, ePI, eCI, eLI, ePI2, eSm, eCid, eLid,
    Option.bind_eq_bind, Option.pure_def]
  rw [hpa] at e1
  simp only [e1, e2, f3, f4', g3, g4', g4, Option.bind_some]
  rw [hpl]
  rw [show modify? s.processorMap (x.lid n) (fun _ => some n) = some t5 from e5,
    show modify? s.coreMap (x.lid n) (fun _ => some (gi x.c n)) = some t6 from e6]
  simp only [Option.bind_some]

end Ctx


namespace Ctx
variable (x : Ctx)

/-- Initial state of the build loop for given table sizes. -/
def initState (processors cores clusters packages maxLinux : Nat) : State :=
  { processorIndex := U32MAX, coreIndex := U32MAX, clusterIndex := U32MAX,
    packageIndex := U32MAX, clusterId := 0, coreId := 0, smtId := 0,
    lastCore := U32MAX, lastCluster := U32MAX, lastPackage := U32MAX,
    processors := List.replicate processors zeroProcessor,
    cores := List.replicate cores zeroCore,
    clusters := List.replicate clusters zeroCluster,
    packages := List.replicate packages zeroPackage,
    processorMap := List.replicate maxLinux none,
    coreMap := List.replicate maxLinux none }

theorem init_inv : x.Inv 0 (initState x.N (gi x.c (x.N - 1) + 1) (gi x.l (x.N - 1) + 1)
    (gi x.p (x.N - 1) + 1) x.maxLinux) :=
  ⟨rfl, rfl, rfl, rfl, rfl, rfl, rfl, rfl, rfl, rfl, Tab.init _ _ _ _, Tab.init _ _ _ _,
    Tab.init _ _ _ _, Tab.init _ _ _ _, MapTab.init _ _ _, MapTab.init _ _ _⟩

theorem loop (v : List LinuxProc) (hv : v.length = x.N)
    (hvalid : ∀ p ∈ v, bitmaskAll p.flags flagValid = true)
    (hget : ∀ k p, v[k]? = some p → p.apicId = x.a k ∧ p.linuxId = x.lid k) :
    ∀ d n s, x.N - n = d → n ≤ x.N → x.Inv n s →
      ∃ s', buildLoop x.m (v.drop n) s = some s' ∧ x.Inv x.N s' := by
  intro d
  induction d with
  | zero =>
    intro n s hd hn h
    have : n = x.N := by omega
    subst this
    exact ⟨s, by rw [List.drop_eq_nil_of_le (by omega)]; rfl, h⟩
  | succ d ih =>
    intro n s hd hn h
    have hlt : n < v.length := by omega
    rw [List.drop_eq_getElem_cons hlt, buildLoop, if_pos (hvalid _ (List.getElem_mem hlt))]
    have hg := hget n v[n] (List.getElem?_eq_getElem hlt)
    obtain ⟨s1, h1, h2⟩ := x.step n (by omega) s h v[n] hg.1 hg.2
    rw [h1]
    exact ih (n + 1) s1 (by omega) (by omega) h2

end Ctx

theorem buildLoop_skip (m : Masks) (w : List LinuxProc)
    (hw : ∀ p ∈ w, bitmaskAll p.flags flagValid = false) (s : State) :
    buildLoop m w s = some s := by
  induction w with
  | nil => rfl
  | cons p w ih =>
    rw [buildLoop, if_neg (by rw [hw p (.head _)]; simp)]
    exact ih fun q hq => hw q (.tail _ hq)

theorem buildLoop_append (m : Masks) (v w : List LinuxProc) (s : State) :
    buildLoop m (v ++ w) s = (buildLoop m v s).bind (buildLoop m w) := by
  induction v generalizing s with
  | nil => rfl
  | cons p v ih =>
    rw [List.cons_append, buildLoop, buildLoop]
    split
    · cases buildStep m s p with
      | none => rfl
      | some s1 => exact ih s1
    · exact ih s

/-! ## Counting -/

theorem countLoop_append (vm km : Nat) (v w : List LinuxProc)
    (hw : ∀ p ∈ w, bitmaskAll p.flags vm = false) (last count : Nat) :
    countLoop vm km (v ++ w) last count = countLoop vm km v last count := by
  induction v generalizing last count with
  | nil =>
    induction w with
    | nil => rfl
    | cons p w ih =>
      rw [List.nil_append] at ih ⊢
      have hp : countLoop vm km (p :: w) last count = countLoop vm km w last count := by
        simp [countLoop, hw p (.head _)]
      rw [hp]
      exact ih fun q hq => hw q (.tail _ hq)
  | cons p v ih =>
    simp only [List.cons_append, countLoop]
    split
    · split
      · exact ih _ _
      · exact ih _ _
    · exact ih _ _

/-- Number of runs among the first `n` positions. -/
def runs (nw : Nat → Bool) : Nat → Nat
  | 0 => 0
  | n + 1 => gi nw n + 1

theorem countLoop_runs (vm km : Nat) (v : List LinuxProc) (a : Nat → Nat)
    (hvalid : ∀ p ∈ v, bitmaskAll p.flags vm = true) (hU : v.length < U32)
    (hget : ∀ k p, v[k]? = some p → p.apicId = a k) (h0 : a 0 &&& km ≠ U32MAX) :
    ∀ d n, v.length - n = d → n ≤ v.length →
      countLoop vm km (v.drop n) (prev (fun k => a k &&& km) n)
        (runs (byKey fun k => a k &&& km) n) = runs (byKey fun k => a k &&& km) v.length := by
  intro d
  induction d with
  | zero =>
    intro n hd hn
    have : n = v.length := by omega
    subst this
    rw [List.drop_length]; rfl
  | succ d ih =>
    intro n hd hn
    have hlt : n < v.length := by omega
    rw [List.drop_eq_getElem_cons hlt, countLoop, if_pos (hvalid _ (List.getElem_mem hlt)),
      hget n v[n] (List.getElem?_eq_getElem hlt)]
    have ih := ih (n + 1) (by omega) (by omega)
    have hf := byKey_flag (fun k => a k &&& km) h0 n
    simp only []
    by_cases hb : byKey (fun k => a k &&& km) n = true
    · rw [hb] at hf
      rw [if_pos (by simpa using hf), ← ih]
      congr 1
      cases n with
      | zero => rfl
      | succ n =>
        have := gi_le (byKey fun k => a k &&& km) n
        show inc32 (gi _ n + 1) = gi _ (n + 1) + 1
        rw [gi_succ_new hb]
        exact Nat.mod_eq_of_lt (by omega)
    · have hb : byKey (fun k => a k &&& km) n = false := by simpa using hb
      rw [hb] at hf
      have hf : a n &&& km = prev (fun k => a k &&& km) n := by simpa using hf
      rw [if_neg (by simpa using hf), ← ih, ← hf]
      congr 1
      cases n with
      | zero => rw [byKey_zero] at hb; cases hb
      | succ n =>
        show gi _ n + 1 = gi _ (n + 1) + 1
        rw [gi_succ_old hb]

theorem countObjects_runs (vm km : Nat) (v w : List LinuxProc) (a : Nat → Nat)
    (hvalid : ∀ p ∈ v, bitmaskAll p.flags vm = true)
    (hw : ∀ p ∈ w, bitmaskAll p.flags vm = false) (hU : v.length < U32)
    (hget : ∀ k p, v[k]? = some p → p.apicId = a k) (h0 : a 0 &&& km ≠ U32MAX) :
    countObjects vm km (v ++ w) = runs (byKey fun k => a k &&& km) v.length := by
  unfold countObjects
  rw [countLoop_append _ _ _ _ hw]
  exact countLoop_runs vm km v a hvalid hU hget h0 _ 0 rfl (by omega)

theorem countLoop_lt (vm km : Nat) (ps : List LinuxProc) (last count : Nat) (h : count < U32) :
    countLoop vm km ps last count < U32 := by
  induction ps generalizing last count with
  | nil => exact h
  | cons p ps ih =>
    rw [countLoop]
    split
    · simp only []
      split
      · exact ih _ _ (Nat.mod_lt _ (by omega))
      · exact ih _ _ h
    · exact ih _ _ h

/-! ## Caches -/

/-- The situation of one cache level in the build loop. -/
structure CacheCtx where
  N : Nat
  a : Nat → Nat
  d : CacheDesc
  km : Nat
  b : Nat
  hN : N < U32
  hsize : d.size ≠ 0
  hb : bitMask d.apicBits = some b
  hkm : km = not32 b
  first : a 0 &&& km ≠ U32MAX

namespace CacheCtx
variable (x : CacheCtx)

def c : Nat → Bool := byKey fun k => x.a k &&& x.km

def cacheE (n k : Nat) : Cache :=
  { size := x.d.size, associativity := x.d.associativity, sets := x.d.sets,
    partitions := x.d.partitions, lineSize := x.d.lineSize, flags := x.d.flags,
    processorStart := st x.c k, processorCount := cnt x.c (gi x.c k) n }

structure Inv (n : Nat) (s : CacheState) : Prop where
  processorIndex : s.processorIndex = prev id n
  index : s.index = prev (gi x.c) n
  last : s.last = prev (fun k => x.a k &&& x.km) n
  table : Tab x.c (gi x.c (x.N - 1) + 1) n (x.cacheE n) zeroCache s.table
  links : Tab (fun _ => true) x.N n (fun k => some (gi x.c k)) none s.links

theorem step (n : Nat) (hn : n < x.N) (s : CacheState) (h : x.Inv n s) (pr : LinuxProc)
    (hpa : pr.apicId = x.a n) :
    ∃ s', cacheStep x.d n s pr = some s' ∧ x.Inv (n + 1) s' := by
  have hnU : n < U32 := Nat.lt_trans hn x.hN
  have ePI : inc32 s.processorIndex = n := by rw [h.processorIndex]; exact inc_prev_id n hnU
  have eNC : (x.a n &&& x.km != s.last) = x.c n := by
    rw [h.last]; exact byKey_flag (fun k => x.a k &&& x.km) x.first n
  have eCI : (if x.c n then inc32 s.index else s.index) = gi x.c n := by
    rw [h.index]; exact index_step _ n hnU
  have hcl : gi x.c n < gi x.c (x.N - 1) + 1 := by
    have := gi_mono x.c (show n ≤ x.N - 1 by omega); omega
  obtain ⟨t2, e2, i2⟩ := h.table.step hcl (e' := x.cacheE (n + 1))
    (fun c =>
      if x.c n then
        { size := x.d.size, associativity := x.d.associativity, sets := x.d.sets,
          partitions := x.d.partitions, lineSize := x.d.lineSize, flags := x.d.flags,
          processorStart := n, processorCount := 1 }
      else { c with processorCount := c.processorCount + 1 })
    (by
      intro ho
      have hc : x.c n = true := opens_true_of ho
      simp only [hc, if_true, cacheE, st_new hc, cnt_succ_eq, cnt_opens ho])
    (by
      rintro m rfl hm
      simp only [hm, cacheE, st_succ_old hm, gi_succ_old hm, Bool.false_eq_true, if_false]
      rw [cnt_succ_eq (gi_succ_old hm)])
    (by
      intro k hk hg
      simp only [cacheE, st_eq_of_gi _ _ _ hg, hg])
    (by
      intro k hk hg
      simp only [cacheE, cnt_succ_ne (Ne.symm hg)])
  obtain ⟨t1, e1, i1⟩ := h.links.step (by rw [gi_true]; exact hn)
    (e' := fun k => some (gi x.c k)) (fun _ => some (gi x.c n))
    (by intro _; rfl) (by intro m _ h; cases h)
    (by intro k hk hg; rw [gi_true, gi_true] at hg; omega) (by intro k hk hg; rfl)
  rw [gi_true] at e1
  refine ⟨⟨n, gi x.c n, x.a n &&& x.km, t2, t1⟩, ?_, ⟨rfl, rfl, rfl, i2, i1⟩⟩
  simp only [cacheStep, if_pos x.hsize, x.hb, Option.bind_eq_bind, Option.bind_some, ← x.hkm, hpa,
    eNC, ePI, eCI, Option.pure_def, e2, e1]

theorem init_inv : x.Inv 0
    { processorIndex := U32MAX, index := U32MAX, last := U32MAX,
      table := List.replicate (gi x.c (x.N - 1) + 1) zeroCache,
      links := List.replicate x.N none } :=
  ⟨rfl, rfl, rfl, Tab.init _ _ _ _, Tab.init _ _ _ _⟩

theorem loop (v : List LinuxProc) (hv : v.length = x.N)
    (hvalid : ∀ p ∈ v, bitmaskAll p.flags flagValid = true)
    (hget : ∀ k p, v[k]? = some p → p.apicId = x.a k) :
    ∀ d n s, x.N - n = d → n ≤ x.N → x.Inv n s →
      ∃ s', cacheLoop x.d n (v.drop n) s = some s' ∧ x.Inv x.N s' := by
  intro d
  induction d with
  | zero =>
    intro n s hd hn h
    have : n = x.N := by omega
    subst this
    exact ⟨s, by rw [List.drop_eq_nil_of_le (by omega)]; rfl, h⟩
  | succ d ih =>
    intro n s hd hn h
    have hlt : n < v.length := by omega
    rw [List.drop_eq_getElem_cons hlt, cacheLoop, if_pos (hvalid _ (List.getElem_mem hlt))]
    obtain ⟨s1, h1, h2⟩ := x.step n (by omega) s h v[n]
      (hget n v[n] (List.getElem?_eq_getElem hlt))
    rw [h1]
    exact ih (n + 1) s1 (by omega) (by omega) h2

end CacheCtx

theorem cacheLoop_skip (d : CacheDesc) (w : List LinuxProc)
    (hw : ∀ p ∈ w, bitmaskAll p.flags flagValid = false) (i : Nat) (s : CacheState) :
    cacheLoop d i w s = some s := by
  induction w generalizing i with
  | nil => rfl
  | cons p w ih =>
    rw [cacheLoop, if_neg (by rw [hw p (.head _)]; simp)]
    exact ih (fun q hq => hw q (.tail _ hq)) _

theorem cacheLoop_append (d : CacheDesc) (v w : List LinuxProc) (i : Nat) (s : CacheState) :
    cacheLoop d i (v ++ w) s = (cacheLoop d i v s).bind (cacheLoop d (i + v.length) w) := by
  induction v generalizing s i with
  | nil => rfl
  | cons p v ih =>
    rw [List.cons_append, cacheLoop, cacheLoop, List.length_cons,
      show i + (v.length + 1) = i + 1 + v.length by omega]
    split
    · cases cacheStep d i s p with
      | none => rfl
      | some s1 => exact ih _ s1
    · exact ih _ s

/-- A level of size zero is left alone. -/
theorem cacheLoop_absent (d : CacheDesc) (hd : d.size = 0) (ps : List LinuxProc) (i : Nat)
    (s : CacheState) : ∃ s', cacheLoop d i ps s = some s' ∧ s'.table = s.table ∧
      s'.links = s.links := by
  induction ps generalizing i s with
  | nil => exact ⟨s, rfl, rfl, rfl⟩
  | cons p ps ih =>
    rw [cacheLoop]
    split
    · have : cacheStep d i s p =
          some { s with processorIndex := inc32 s.processorIndex, last := U32MAX } := by
        simp [cacheStep, hd]
      rw [this]
      exact ih _ _
    · exact ih _ _

end Verif.X86Init
