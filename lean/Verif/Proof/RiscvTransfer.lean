import Verif.Proof.RiscvGather

/-!
# The published tables of RISC-V processors
-/

set_option autoImplicit false

namespace Verif.Riscv
open Platform (put)

/-- The number of processors. -/
def nv (xs : List Proc) : Nat := xs.countP (·.valid)

/-- The number of leaders of a level. -/
def nl (l : Lvl) (xs : List Proc) : Nat := xs.countP fun p => p.valid && p.leads l

theorem nv_append (xs zs : List Proc) : nv (xs ++ zs) = nv xs + nv zs := List.countP_append
theorem nl_append (l : Lvl) (xs zs : List Proc) : nl l (xs ++ zs) = nl l xs + nl l zs :=
  List.countP_append
theorem nv_one {p : Proc} (h : p.valid = true) : nv [p] = 1 := by simp [nv, h]
theorem nl_one {l : Lvl} {p : Proc} (h : p.valid = true) (h' : p.leads l = true) : nl l [p] = 1 := by
  simp [nl, h, h']
theorem nl_none {l : Lvl} {p : Proc} (h' : p.leads l = false) : nl l [p] = 0 := by
  simp [nl, h']
theorem nv_invalid {p : Proc} (h : p.valid = false) : nv [p] = 0 := by simp [nv, h]
theorem nl_invalid {l : Lvl} {p : Proc} (h : p.valid = false) : nl l [p] = 0 := by simp [nl, h]

theorem counts_append (xs : List Proc) (h : ∀ p ∈ xs, p.valid = true → p.uarch = 0) :
    counts xs = ⟨nv xs, nl .core xs, nl .cluster xs, nl .package xs, if nv xs = 0 then 0 else 1, 0⟩ := by
  have key : ∀ (ys : List Proc) (c : Counts), (∀ p ∈ ys, p.valid = true → p.uarch = 0) →
      c.lastUarch = 0 → (c.uarchs = if c.processors = 0 then 0 else 1) →
      ys.foldl countStep c = ⟨c.processors + nv ys, c.cores + nl .core ys, c.clusters + nl .cluster ys,
        c.packages + nl .package ys, if c.processors + nv ys = 0 then 0 else 1, 0⟩ := by
    intro ys
    induction ys with
    | nil =>
      intro c _ hl hu
      obtain ⟨a1, a2, a3, a4, a5, a6⟩ := c
      simp only at hl hu
      subst hl
      rw [hu]
      rfl
    | cons p ys ih =>
      intro c hh hl hu
      rw [List.foldl_cons]
      have hn : nv (p :: ys) = nv [p] + nv ys := nv_append [p] ys
      have hnl : ∀ l, nl l (p :: ys) = nl l [p] + nl l ys := fun l => nl_append l [p] ys
      by_cases hv : p.valid = true
      · have hu0 := hh p (by simp) hv
        have e : countStep c p = ⟨c.processors + 1, c.cores + nl .core [p], c.clusters + nl .cluster [p],
            c.packages + nl .package [p], 1, 0⟩ := by
          unfold countStep
          rw [if_pos hv]
          have f : ∀ (l : Lvl) (k : Nat), (if p.leads l = true then k + 1 else k) = k + nl l [p] := by
            intro l k
            cases hl' : p.leads l with
            | true => rw [if_pos rfl, nl_one hv hl']
            | false => rw [if_neg (by decide), nl_none hl']; rfl
          simp only [f, hu0, hl]
          by_cases h0 : c.processors = 0
          · rw [if_pos h0] at hu
            simp [hu]
          · rw [if_neg h0] at hu
            simp [hu]
        rw [e, ih _ (fun q hq => hh q (by simp [hq])) rfl (by simp)]
        simp only [hn, hnl, nv_one hv, Nat.add_assoc]
      · have hv' : p.valid = false := by simpa using hv
        have e : countStep c p = c := by unfold countStep; rw [if_neg hv]
        rw [e, ih c (fun q hq => hh q (by simp [hq])) hl hu]
        simp only [hn, hnl, nv_invalid hv', nl_invalid hv', Nat.zero_add]
  have := key xs ⟨0, 0, 0, 0, 0, 0⟩ h rfl rfl
  unfold counts
  rw [this]
  simp only [Nat.zero_add]

/-! ### One round -/

theorem lastPtr_some {n k : Nat} (h1 : 0 < k) (h2 : k ≤ n) : lastPtr n k = some (k - 1) := by
  unfold lastPtr; rw [if_neg (by omega), if_pos h2]

theorem modifyLast_some {α : Type} (t : List α) (k : Nat) (f : α → α) (h1 : 0 < k) (h2 : k ≤ t.length) :
    ∃ x t', t[k - 1]? = some x ∧ modifyLast t k f = some t' ∧ t'.length = t.length ∧
      t'[k - 1]? = some (f x) ∧ ∀ i, i ≠ k - 1 → t'[i]? = t[i]? := by
  have hlt : k - 1 < t.length := by omega
  refine ⟨t[k - 1], t.set (k - 1) (f t[k - 1]), List.getElem?_eq_getElem hlt, ?_, List.length_set, ?_, ?_⟩
  · unfold modifyLast
    rw [lastPtr_some h1 h2]
    show Option.bind (t[k - 1]?) _ = _
    rw [List.getElem?_eq_getElem hlt]
    exact if_pos hlt
  · rw [get?_set t _ _ hlt, if_pos rfl]
  · intro i hi
    rw [get?_set t _ _ hlt, if_neg hi]

/-- The state after some of the processors `t`, `pre` of them, have been transferred. -/
structure Inv (t pre : List Proc) (s : State) : Prop where
  pIndex : s.processorsIndex = nv pre
  cIndex : s.coresIndex = nl .core pre
  kIndex : s.clustersIndex = nl .cluster pre
  gIndex : s.packagesIndex = nl .package pre
  pLen : s.processors.length = nv t
  cLen : s.cores.length = nl .core t
  kLen : s.clusters.length = nl .cluster t
  gLen : s.packages.length = nl .package t
  mapLen : s.processorMap.length = t.length
  coreMapLen : s.coreMap.length = t.length
  uarchMapLen : s.uarchMap.length = t.length
  last : s.lastUarch = 0
  uLen : s.uarchs.length = if nv t = 0 then 0 else 1
  uarch : (nv pre = 0 ∧ s.uarchsIndex = 0) ∨
    (0 < nv pre ∧ s.uarchsIndex = 1 ∧ s.uarchs = [⟨0, nv pre, nl .core pre⟩])
  processor : ∀ a p b, pre = a ++ p :: b → p.valid = true →
    s.processors[nv a]? = some ⟨p.linuxId, some (nl .core (a ++ [p]) - 1),
      some (nl .cluster (a ++ [p]) - 1), some (nl .package (a ++ [p]) - 1)⟩ ∧
    s.processorMap[p.linuxId]? = some (some (nv a)) ∧
    s.coreMap[p.linuxId]? = some (some (nl .core (a ++ [p]) - 1)) ∧
    s.uarchMap[p.linuxId]? = some 0
  core : ∀ a p b, pre = a ++ p :: b → p.valid = true → p.leads .core = true →
    s.cores[nl .core a]? = some { p.toCore with
      cluster := some (nl .cluster (a ++ [p]) - 1), package := some (nl .package (a ++ [p]) - 1) }
  cluster : ∀ a p b, pre = a ++ p :: b → p.valid = true → p.leads .cluster = true →
    s.clusters[nl .cluster a]? = some { p.toCluster with package := some (nl .package (a ++ [p]) - 1) }
  package : ∀ a p b, pre = a ++ p :: b → p.valid = true → p.leads .package = true →
    s.packages[nl .package a]? = some p.toPackage
  unmapped : ∀ i, i < t.length → (∀ p ∈ pre, p.valid = true → p.linuxId ≠ i) →
    s.processorMap[i]? = some none ∧ s.coreMap[i]? = some none

/-- What is needed of the sorted table. -/
structure Good (t : List Proc) : Prop where
  uarch : ∀ p ∈ t, p.valid = true → p.uarch = 0
  nested : ∀ p ∈ t, p.valid = true → (p.leads .package = true → p.leads .cluster = true) ∧
    (p.leads .cluster = true → p.leads .core = true)
  led : ∀ a p b, t = a ++ p :: b → p.valid = true → ∀ l, 0 < nl l (a ++ [p])
  bounded : ∀ p ∈ t, p.valid = true → p.linuxId < t.length
  distinct : (t.filter (·.valid)).Pairwise (fun p q => p.linuxId ≠ q.linuxId)

theorem split_snoc {α : Type} {pre a b : List α} {p q : α} (h : pre ++ [p] = a ++ q :: b) :
    (b = [] ∧ a = pre ∧ q = p) ∨ ∃ b', b = b' ++ [p] ∧ pre = a ++ q :: b' := by
  rcases List.eq_nil_or_concat b with rfl | ⟨b', x, rfl⟩
  · have h' : pre ++ [p] = a ++ [q] := h
    have := List.append_inj' h' rfl
    exact .inl ⟨rfl, this.1.symm, (List.cons.inj this.2).1.symm⟩
  · have h' : pre ++ [p] = (a ++ q :: b') ++ [x] := by rw [h]; simp
    have := List.append_inj' h' rfl
    rw [(List.cons.inj this.2).1]
    exact .inr ⟨b', by simp, this.1⟩

theorem nl_snoc (l : Lvl) (pre : List Proc) (p : Proc) (hv : p.valid = true) :
    nl l (pre ++ [p]) = if p.leads l = true then nl l pre + 1 else nl l pre := by
  rw [nl_append]
  cases h : p.leads l with
  | true => rw [nl_one hv h, if_pos rfl]
  | false => rw [nl_none h, if_neg (by decide)]; rfl

theorem transferProcessor_eq {t pre post : List Proc} {p : Proc} {s : State} (hs : Inv t pre s)
    (ht : t = pre ++ p :: post) (hv : p.valid = true) (hu : p.uarch = 0) :
    transferProcessor p s = some { s with
      processors := s.processors.set (nv pre) ⟨p.linuxId, none, none, none⟩
      processorsIndex := nv pre + 1
      uarchs := [⟨0, nv pre + 1, nl .core pre⟩]
      uarchsIndex := 1
      lastUarch := 0 } := by
  have hnt : nv t = nv pre + (1 + nv post) := by
    rw [ht, nv_append, show p :: post = [p] ++ post from rfl, nv_append, nv_one hv]
  have hul : s.uarchs.length = 1 := by rw [hs.uLen, if_neg (by omega)]
  have hp : nv pre < s.processors.length := by rw [hs.pLen]; omega
  obtain ⟨ps, cs, ks, gs, us, pm, cm, um, pi, ci, ki, gi, ui, lu⟩ := s
  obtain ⟨h1, h2, h3, h4, _, _, _, _, _, _, _, h5, _, h6, _, _, _, _, _⟩ := hs
  simp only at h1 h2 h3 h4 h5 h6 hul hp
  subst h5
  unfold transferProcessor
  rcases h6 with ⟨g1, g2⟩ | ⟨g1, g2, g3⟩
  · subst g2
    match us, hul with
    | [u], _ =>
      have hl0 : nl .core pre = 0 := by
        have : nl .core pre ≤ nv pre := List.countP_mono_left (by intro x _ h; simp at h; exact h.1)
        omega
      simp only [hu]
      rw [if_pos (.inr trivial)]
      subst h1
      rw [g1] at hp
      simp [put, modifyLast, lastPtr, g1, hl0]
      rw [if_pos hp]; rfl
  · subst g2 g3
    simp only [hu]
    rw [if_neg (by simp)]
    subst h1
    simp [put, modifyLast, lastPtr]
    rw [if_pos hp]; rfl

theorem transferCore_eq {t pre post : List Proc} {p : Proc} {s : State} {c : Nat}
    (ht : t = pre ++ p :: post) (hv : p.valid = true) (hi : s.coresIndex = nl .core pre)
    (hl : s.cores.length = nl .core t) (hui : s.uarchsIndex = 1)
    (hu : s.uarchs = [⟨0, c, nl .core pre⟩]) :
    transferCore p s = some { s with
      cores := if p.leads .core = true then s.cores.set (nl .core pre) p.toCore else s.cores
      coresIndex := nl .core (pre ++ [p])
      uarchs := [⟨0, c, nl .core (pre ++ [p])⟩] } := by
  rw [nl_snoc .core pre p hv]
  obtain ⟨ps, cs, ks, gs, us, pm, cm, um, pi, ci, ki, gi, ui, lu⟩ := s
  simp only at hi hl hui hu
  subst hi hui hu
  unfold transferCore
  cases h : p.leads .core with
  | true =>
    have hnt : nl .core pre < cs.length := by
      rw [hl, ht, nl_append, show p :: post = [p] ++ post from rfl, nl_append, nl_one hv h]; omega
    simp [put, modifyLast, lastPtr, hnt]
  | false => simp

theorem transferCluster_eq {t pre post : List Proc} {p : Proc} {s : State}
    (ht : t = pre ++ p :: post) (hv : p.valid = true) (hi : s.clustersIndex = nl .cluster pre)
    (hl : s.clusters.length = nl .cluster t) :
    transferCluster p s = some { s with
      clusters := if p.leads .cluster = true then s.clusters.set (nl .cluster pre) p.toCluster
        else s.clusters
      clustersIndex := nl .cluster (pre ++ [p]) } := by
  rw [nl_snoc .cluster pre p hv]
  obtain ⟨ps, cs, ks, gs, us, pm, cm, um, pi, ci, ki, gi, ui, lu⟩ := s
  simp only at hi hl
  subst hi
  unfold transferCluster
  cases h : p.leads .cluster with
  | true =>
    have hnt : nl .cluster pre < ks.length := by
      rw [hl, ht, nl_append, show p :: post = [p] ++ post from rfl, nl_append, nl_one hv h]; omega
    simp [put, hnt]
  | false => simp

theorem transferPackage_eq {t pre post : List Proc} {p : Proc} {s : State}
    (ht : t = pre ++ p :: post) (hv : p.valid = true) (hi : s.packagesIndex = nl .package pre)
    (hl : s.packages.length = nl .package t) :
    transferPackage p s = some { s with
      packages := if p.leads .package = true then s.packages.set (nl .package pre) p.toPackage
        else s.packages
      packagesIndex := nl .package (pre ++ [p]) } := by
  rw [nl_snoc .package pre p hv]
  obtain ⟨ps, cs, ks, gs, us, pm, cm, um, pi, ci, ki, gi, ui, lu⟩ := s
  simp only at hi hl
  subst hi
  unfold transferPackage
  cases h : p.leads .package with
  | true =>
    have hnt : nl .package pre < gs.length := by
      rw [hl, ht, nl_append, show p :: post = [p] ++ post from rfl, nl_append, nl_one hv h]; omega
    simp [put, hnt]
  | false => simp

theorem transferLinks_eq (p : Proc) (s : State) (ps : List Processor) (cs : List Core)
    (ks : List Cluster) (g0 : 0 < s.packagesIndex) (gl : s.packagesIndex ≤ s.packages.length)
    (p0 : 0 < s.processorsIndex) (pl : s.processorsIndex ≤ s.processors.length)
    (c0 : 0 < s.coresIndex) (cl : s.coresIndex ≤ s.cores.length)
    (k0 : 0 < s.clustersIndex) (kl : s.clustersIndex ≤ s.clusters.length)
    (hps : modifyLast s.processors s.processorsIndex (fun q =>
      { q with core := some (s.coresIndex - 1), cluster := some (s.clustersIndex - 1)
               package := some (s.packagesIndex - 1) }) = some ps)
    (hcs : modifyLast s.cores s.coresIndex (fun c =>
      { c with cluster := some (s.clustersIndex - 1), package := some (s.packagesIndex - 1) }) = some cs)
    (hks : modifyLast s.clusters s.clustersIndex (fun c =>
      { c with package := some (s.packagesIndex - 1) }) = some ks)
    (m1 : p.linuxId < s.processorMap.length) (m2 : p.linuxId < s.coreMap.length)
    (m3 : p.linuxId < s.uarchMap.length) :
    transferLinks p s = some { s with
      processors := ps, cores := cs, clusters := ks
      processorMap := s.processorMap.set p.linuxId (some (s.processorsIndex - 1))
      coreMap := s.coreMap.set p.linuxId (some (s.coresIndex - 1))
      uarchMap := s.uarchMap.set p.linuxId (s.uarchsIndex - 1) } := by
  unfold transferLinks
  rw [lastPtr_some c0 cl, lastPtr_some k0 kl, lastPtr_some g0 gl, lastPtr_some p0 pl]
  simp only [Option.bind_eq_bind, Option.bind_some]
  rw [hps, hcs, hks, put_some _ m1, put_some _ m2, put_some _ m3]
  rfl

theorem nl_mono {l l' : Lvl} {xs : List Proc}
    (h : ∀ p ∈ xs, p.valid = true → p.leads l = true → p.leads l' = true) : nl l xs ≤ nl l' xs := by
  refine List.countP_mono_left fun x hx hp => ?_
  simp only [Bool.and_eq_true] at hp ⊢
  exact ⟨hp.1, h x hx hp.1 hp.2⟩

theorem nv_cons_lt {pre a b : List Proc} {q : Proc} (h : pre = a ++ q :: b) (hq : q.valid = true) :
    nv a < nv pre := by
  rw [h, nv_append, show q :: b = [q] ++ b from rfl, nv_append, nv_one hq]; omega

theorem nl_cons_lt {l : Lvl} {pre a b : List Proc} {q : Proc} (h : pre = a ++ q :: b)
    (hq : q.valid = true) (hl : q.leads l = true) : nl l a < nl l pre := by
  rw [h, nl_append, show q :: b = [q] ++ b from rfl, nl_append, nl_one hq hl]; omega

theorem bind_chain {α β : Type} {x : Option α} {a : α} {F : α → Option β} {Q : β → Prop}
    (h : x = some a) (h' : ∃ s', F a = some s' ∧ Q s') : ∃ s', x.bind F = some s' ∧ Q s' := by
  rw [h]; exact h'

theorem transferStep_inv {t pre post : List Proc} {p : Proc} {s : State} (hg : Good t)
    (ht : t = pre ++ p :: post) (hs : Inv t pre s) :
    ∃ s', transferStep p s = some s' ∧ Inv t (pre ++ [p]) s' := by
  have hpt : p ∈ t := by rw [ht]; simp
  unfold transferStep
  by_cases hv : p.valid = true
  · rw [if_pos hv]
    have ht' : t = (pre ++ [p]) ++ post := by rw [ht]; simp
    have hle : ∀ l, nl l (pre ++ [p]) ≤ nl l t := by
      intro l; rw [ht', nl_append l (pre ++ [p])]; omega
    have hled := hg.led pre p post ht hv
    have hnv : nv (pre ++ [p]) = nv pre + 1 := by rw [nv_append, nv_one hv]
    have hnvt : nv pre + 1 ≤ nv t := by rw [ht', nv_append (pre ++ [p]), hnv]; omega
    have hb := hg.bounded p hpt hv
    have e1 := transferProcessor_eq hs ht hv (hg.uarch p hpt hv)
    have hcl : (if p.leads .core = true then s.cores.set (nl .core pre) p.toCore else s.cores).length =
        nl .core t := by
      by_cases e : p.leads .core = true
      · rw [if_pos e, List.length_set, hs.cLen]
      · rw [if_neg e, hs.cLen]
    have hkl : (if p.leads .cluster = true then s.clusters.set (nl .cluster pre) p.toCluster
        else s.clusters).length = nl .cluster t := by
      by_cases e : p.leads .cluster = true
      · rw [if_pos e, List.length_set, hs.kLen]
      · rw [if_neg e, hs.kLen]
    have hgl : (if p.leads .package = true then s.packages.set (nl .package pre) p.toPackage
        else s.packages).length = nl .package t := by
      by_cases e : p.leads .package = true
      · rw [if_pos e, List.length_set, hs.gLen]
      · rw [if_neg e, hs.gLen]
    have hpl : (s.processors.set (nv pre) ⟨p.linuxId, none, none, none⟩).length = nv t := by
      rw [List.length_set, hs.pLen]
    obtain ⟨px, ps, px1, px2, px3, px4, px5⟩ := modifyLast_some
      (s.processors.set (nv pre) ⟨p.linuxId, none, none, none⟩) (nv pre + 1)
      (fun q => { q with core := some (nl .core (pre ++ [p]) - 1)
                         cluster := some (nl .cluster (pre ++ [p]) - 1)
                         package := some (nl .package (pre ++ [p]) - 1) }) (by omega) (by omega)
    obtain ⟨cx, cs, cx1, cx2, cx3, cx4, cx5⟩ := modifyLast_some
      (if p.leads .core = true then s.cores.set (nl .core pre) p.toCore else s.cores)
      (nl .core (pre ++ [p]))
      (fun c => { c with cluster := some (nl .cluster (pre ++ [p]) - 1)
                         package := some (nl .package (pre ++ [p]) - 1) })
      (hled .core) (by rw [hcl]; exact hle .core)
    obtain ⟨kx, ks, kx1, kx2, kx3, kx4, kx5⟩ := modifyLast_some
      (if p.leads .cluster = true then s.clusters.set (nl .cluster pre) p.toCluster else s.clusters)
      (nl .cluster (pre ++ [p]))
      (fun c => { c with package := some (nl .package (pre ++ [p]) - 1) })
      (hled .cluster) (by rw [hkl]; exact hle .cluster)
    obtain ⟨s', e', q1, q2, q3, q4, q5, q6, q7, q8, q9, q10, q11, q12, q13, q14⟩ :
        ∃ s', ((transferProcessor p s).bind fun s => (transferCore p s).bind fun s =>
          (transferCluster p s).bind fun s => (transferPackage p s).bind fun s => transferLinks p s) =
          some s' ∧ s'.processors = ps ∧ s'.cores = cs ∧ s'.clusters = ks ∧
          s'.packages = (if p.leads .package = true then s.packages.set (nl .package pre) p.toPackage
            else s.packages) ∧
          s'.uarchs = [⟨0, nv pre + 1, nl .core (pre ++ [p])⟩] ∧
          s'.processorMap = s.processorMap.set p.linuxId (some (nv pre)) ∧
          s'.coreMap = s.coreMap.set p.linuxId (some (nl .core (pre ++ [p]) - 1)) ∧
          s'.uarchMap = s.uarchMap.set p.linuxId 0 ∧
          s'.processorsIndex = nv pre + 1 ∧ s'.coresIndex = nl .core (pre ++ [p]) ∧
          s'.clustersIndex = nl .cluster (pre ++ [p]) ∧ s'.packagesIndex = nl .package (pre ++ [p]) ∧
          s'.uarchsIndex = 1 ∧ s'.lastUarch = 0 := by
      refine bind_chain e1 (bind_chain (transferCore_eq (c := nv pre + 1) ht hv hs.cIndex hs.cLen rfl rfl)
        (bind_chain (transferCluster_eq ht hv hs.kIndex hs.kLen)
        (bind_chain (transferPackage_eq ht hv hs.gIndex hs.gLen) ?_)))
      exact ⟨_, transferLinks_eq p _ ps cs ks (hled .package) (by rw [hgl]; exact hle .package)
        (Nat.succ_pos _) (by rw [hpl]; exact hnvt) (hled .core) (by rw [hcl]; exact hle .core)
        (hled .cluster) (by rw [hkl]; exact hle .cluster) px2 cx2 kx2
        (by rw [hs.mapLen]; exact hb) (by rw [hs.coreMapLen]; exact hb)
        (by rw [hs.uarchMapLen]; exact hb), rfl, rfl, rfl, rfl, rfl, rfl, rfl, rfl, rfl, rfl, rfl, rfl,
        rfl, rfl⟩
    refine ⟨s', e', ?_⟩
    clear e' e1 px2 cx2 kx2
    have hother : ∀ q ∈ pre, q.valid = true → q.linuxId ≠ p.linuxId := by
      intro q hq hqv
      have := hg.distinct
      rw [ht, List.filter_append, List.pairwise_append] at this
      exact this.2.2 q (List.mem_filter.mpr ⟨hq, hqv⟩) p
        (List.mem_filter.mpr ⟨by simp, hv⟩)
    have hlast : ∀ {l : Lvl} {a b' : List Proc} {q : Proc}, pre = a ++ q :: b' → q.valid = true →
        q.leads l = true → nl l a = nl l (pre ++ [p]) - 1 → p.leads l = false ∧ nl l (b' ++ [p]) = 0 ∧
        (pre ++ [p]) = (a ++ [q]) ++ (b' ++ [p]) := by
      intro l a b' q hpre hq hql hidx
      have h1 : (pre ++ [p]) = (a ++ [q]) ++ (b' ++ [p]) := by rw [hpre]; simp
      have h2 : nl l (pre ++ [p]) = nl l a + 1 + nl l (b' ++ [p]) := by
        rw [h1, nl_append l (a ++ [q]), nl_append l a, nl_one hq hql]
      have h3 : nl l (b' ++ [p]) = 0 := by omega
      refine ⟨?_, h3, h1⟩
      cases e : p.leads l with
      | false => rfl
      | true => rw [nl_append, nl_one hv e] at h3; omega
    have hsub : ∀ {a b' : List Proc} {q : Proc}, pre = a ++ q :: b' → ∀ x ∈ b' ++ [p], x ∈ t := by
      intro a b' q hpre x hx
      rw [ht, hpre]
      rcases List.mem_append.mp hx with h | h
      · simp [h]
      · rw [List.mem_singleton.mp h]; simp
    refine
      { pIndex := q9.trans hnv.symm
        cIndex := q10
        kIndex := q11
        gIndex := q12
        pLen := by rw [q1, px3, hpl]
        cLen := by rw [q2, cx3, hcl]
        kLen := by rw [q3, kx3, hkl]
        gLen := by rw [q4]; exact hgl
        mapLen := by rw [q6, List.length_set, hs.mapLen]
        coreMapLen := by rw [q7, List.length_set, hs.coreMapLen]
        uarchMapLen := by rw [q8, List.length_set, hs.uarchMapLen]
        last := q14
        uLen := by rw [q5, if_neg (by omega)]; rfl
        uarch := .inr ⟨by omega, q13, by rw [q5, hnv]⟩
        processor := ?_
        core := ?_
        cluster := ?_
        package := ?_
        unmapped := ?_ }
    · intro a q b hsplit hq
      rw [q1, q6, q7, q8]
      rcases split_snoc hsplit with ⟨rfl, rfl, rfl⟩ | ⟨b', rfl, hpre⟩
      · refine ⟨?_, ?_, ?_, ?_⟩
        · have h := px4
          rw [Nat.add_sub_cancel] at h px1
          rw [get?_set _ _ _ (by rw [hs.pLen]; omega), if_pos rfl] at px1
          rw [h, ← Option.some.inj px1]
        · rw [get?_set _ _ _ (by rw [hs.mapLen]; exact hb), if_pos rfl]
        · rw [get?_set _ _ _ (by rw [hs.coreMapLen]; exact hb), if_pos rfl]
        · rw [get?_set _ _ _ (by rw [hs.uarchMapLen]; exact hb), if_pos rfl]
      · obtain ⟨i1, i2, i3, i4⟩ := hs.processor a q b' hpre hq
        have hlt := nv_cons_lt hpre hq
        have hne := hother q (by rw [hpre]; simp) hq
        refine ⟨?_, ?_, ?_, ?_⟩
        · rw [px5 _ (by omega), get?_set _ _ _ (by rw [hs.pLen]; omega), if_neg (by omega), i1]
        · rw [get?_set _ _ _ (by rw [hs.mapLen]; exact hb), if_neg hne, i2]
        · rw [get?_set _ _ _ (by rw [hs.coreMapLen]; exact hb), if_neg hne, i3]
        · rw [get?_set _ _ _ (by rw [hs.uarchMapLen]; exact hb), if_neg hne, i4]
    · intro a q b hsplit hq hql
      rw [q2]
      rcases split_snoc hsplit with ⟨rfl, rfl, rfl⟩ | ⟨b', rfl, hpre⟩
      · have hsn := nl_snoc .core a q hv
        rw [if_pos hql] at hsn
        have hle := hle .core
        rw [hsn, Nat.add_sub_cancel] at cx4 cx1
        rw [if_pos hql, get?_set _ _ _ (by rw [hs.cLen]; omega), if_pos rfl] at cx1
        rw [cx4, ← Option.some.inj cx1]
      · have hi := hs.core a q b' hpre hq hql
        have hlt := nl_cons_lt hpre hq hql
        have hle' := hle .core
        have hsame : (if p.leads .core = true then s.cores.set (nl .core pre) p.toCore
            else s.cores)[nl .core a]? = s.cores[nl .core a]? := by
          by_cases e : p.leads .core = true
          · rw [if_pos e]
            rw [List.getElem?_set, if_neg (by omega)]
          · rw [if_neg e]
        by_cases e : nl .core a = nl .core (pre ++ [p]) - 1
        · obtain ⟨g1, g2, g3⟩ := hlast hpre hq hql e
          rw [e, cx4]
          rw [← e, hsame, hi] at cx1
          rw [← Option.some.inj cx1]
          have hk : nl .cluster (b' ++ [p]) = 0 := by
            have := nl_mono (l := .cluster) (l' := .core) (xs := b' ++ [p])
              (fun x hx hxv => (hg.nested x (hsub hpre x hx) hxv).2)
            omega
          have hgk : nl .package (b' ++ [p]) = 0 := by
            have := nl_mono (l := .package) (l' := .cluster) (xs := b' ++ [p])
              (fun x hx hxv => (hg.nested x (hsub hpre x hx) hxv).1)
            omega
          have hk' : nl .cluster (pre ++ [p]) = nl .cluster (a ++ [q]) := by
            rw [g3, nl_append .cluster (a ++ [q]), hk]; rfl
          have hg' : nl .package (pre ++ [p]) = nl .package (a ++ [q]) := by
            rw [g3, nl_append .package (a ++ [q]), hgk]; rfl
          rw [hk', hg']
        · rw [cx5 _ e, hsame, hi]
    · intro a q b hsplit hq hql
      rw [q3]
      rcases split_snoc hsplit with ⟨rfl, rfl, rfl⟩ | ⟨b', rfl, hpre⟩
      · have hsn := nl_snoc .cluster a q hv
        rw [if_pos hql] at hsn
        have hle := hle .cluster
        rw [hsn, Nat.add_sub_cancel] at kx4 kx1
        rw [if_pos hql, get?_set _ _ _ (by rw [hs.kLen]; omega), if_pos rfl] at kx1
        rw [kx4, ← Option.some.inj kx1]
      · have hi := hs.cluster a q b' hpre hq hql
        have hlt := nl_cons_lt hpre hq hql
        have hle' := hle .cluster
        have hsame : (if p.leads .cluster = true then s.clusters.set (nl .cluster pre) p.toCluster
            else s.clusters)[nl .cluster a]? = s.clusters[nl .cluster a]? := by
          by_cases e : p.leads .cluster = true
          · rw [if_pos e]
            rw [List.getElem?_set, if_neg (by omega)]
          · rw [if_neg e]
        by_cases e : nl .cluster a = nl .cluster (pre ++ [p]) - 1
        · obtain ⟨g1, g2, g3⟩ := hlast hpre hq hql e
          rw [e, kx4]
          rw [← e, hsame, hi] at kx1
          rw [← Option.some.inj kx1]
          have hgk : nl .package (b' ++ [p]) = 0 := by
            have := nl_mono (l := .package) (l' := .cluster) (xs := b' ++ [p])
              (fun x hx hxv => (hg.nested x (hsub hpre x hx) hxv).1)
            omega
          have hg' : nl .package (pre ++ [p]) = nl .package (a ++ [q]) := by
            rw [g3, nl_append .package (a ++ [q]), hgk]; rfl
          rw [hg']
        · rw [kx5 _ e, hsame, hi]
    · intro a q b hsplit hq hql
      rw [q4]
      rcases split_snoc hsplit with ⟨rfl, rfl, rfl⟩ | ⟨b', rfl, hpre⟩
      · have hsn := nl_snoc .package a q hv
        rw [if_pos hql] at hsn
        have hle := hle .package
        rw [if_pos hql, get?_set _ _ _ (by rw [hs.gLen]; omega), if_pos rfl]
      · have hi := hs.package a q b' hpre hq hql
        have hlt := nl_cons_lt hpre hq hql
        by_cases e : p.leads .package = true
        · rw [if_pos e, List.getElem?_set, if_neg (by omega), hi]
        · rw [if_neg e, hi]
    · intro i hi hun
      have hne := hun p (by simp) hv
      obtain ⟨u1, u2⟩ := hs.unmapped i hi (fun q hq => hun q (by simp [hq]))
      rw [q6, q7]
      refine ⟨?_, ?_⟩
      · rw [List.getElem?_set, if_neg hne, u1]
      · rw [List.getElem?_set, if_neg hne, u2]
  · rw [if_neg hv]
    have hv' : p.valid = false := by simpa using hv
    have hn : nv (pre ++ [p]) = nv pre := by rw [nv_append, nv_invalid hv']; rfl
    have hl : ∀ l, nl l (pre ++ [p]) = nl l pre := by
      intro l; rw [nl_append, nl_invalid hv']; rfl
    have hsp : ∀ {a q b}, pre ++ [p] = a ++ q :: b → q.valid = true → ∃ b', pre = a ++ q :: b' := by
      intro a q b h hq
      rcases split_snoc h with ⟨rfl, rfl, rfl⟩ | ⟨b', rfl, hpre⟩
      · exact absurd hq hv
      · exact ⟨b', hpre⟩
    refine ⟨s, rfl, ?_⟩
    exact
      { pIndex := by rw [hn]; exact hs.pIndex
        cIndex := by rw [hl]; exact hs.cIndex
        kIndex := by rw [hl]; exact hs.kIndex
        gIndex := by rw [hl]; exact hs.gIndex
        pLen := hs.pLen
        cLen := hs.cLen
        kLen := hs.kLen
        gLen := hs.gLen
        mapLen := hs.mapLen
        coreMapLen := hs.coreMapLen
        uarchMapLen := hs.uarchMapLen
        last := hs.last
        uLen := hs.uLen
        uarch := by rw [hn, hl]; exact hs.uarch
        processor := fun a q b h hq => by
          obtain ⟨b', hb'⟩ := hsp h hq
          exact hs.processor a q b' hb' hq
        core := fun a q b h hq hql => by
          obtain ⟨b', hb'⟩ := hsp h hq
          exact hs.core a q b' hb' hq hql
        cluster := fun a q b h hq hql => by
          obtain ⟨b', hb'⟩ := hsp h hq
          exact hs.cluster a q b' hb' hq hql
        package := fun a q b h hq hql => by
          obtain ⟨b', hb'⟩ := hsp h hq
          exact hs.package a q b' hb' hq hql
        unmapped := fun i hi hun => hs.unmapped i hi (fun q hq => hun q (by simp [hq])) }

/-- The transfer of a good table. -/
theorem transfer_spec {t : List Proc} (hg : Good t) : ∃ s, transfer t = some s ∧ Inv t t s := by
  have key : ∀ (post pre : List Proc) (s : State), t = pre ++ post → Inv t pre s →
      ∃ s', post.foldlM (fun s p => transferStep p s) s = some s' ∧ Inv t t s' := by
    intro post
    induction post with
    | nil =>
      intro pre s ht hs
      rw [List.append_nil] at ht
      exact ⟨s, rfl, ht ▸ hs⟩
    | cons p post ih =>
      intro pre s ht hs
      obtain ⟨s1, e1, h1⟩ := transferStep_inv hg ht hs
      obtain ⟨s2, e2, h2⟩ := ih (pre ++ [p]) s1 (by rw [ht]; simp) h1
      refine ⟨s2, ?_, h2⟩
      rw [List.foldlM_cons, e1]
      exact e2
  unfold transfer
  refine key t [] _ rfl ?_
  rw [counts_append t hg.uarch]
  have hno : ∀ {a : List Proc} {p : Proc} {b : List Proc}, [] = a ++ p :: b → False := by
    intro a p b h
    have := congrArg List.length h
    simp at this
  exact
    { pIndex := rfl, cIndex := rfl, kIndex := rfl, gIndex := rfl
      pLen := List.length_replicate, cLen := List.length_replicate, kLen := List.length_replicate
      gLen := List.length_replicate, mapLen := List.length_replicate
      coreMapLen := List.length_replicate, uarchMapLen := List.length_replicate
      last := rfl, uLen := List.length_replicate
      uarch := .inl ⟨rfl, rfl⟩
      processor := fun _ _ _ h => (hno h).elim
      core := fun _ _ _ h => (hno h).elim
      cluster := fun _ _ _ h => (hno h).elim
      package := fun _ _ _ h => (hno h).elim
      unmapped := fun i hi _ => by
        refine ⟨?_, ?_⟩ <;>
        · show (List.replicate t.length none)[i]? = _
          rw [List.getElem?_replicate, if_pos hi] }

end Verif.Riscv
