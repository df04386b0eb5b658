import Verif.Proof.ArmMidrDetect

/-!
# When the table of chipsets is used, and what the sequential scan does
-/

set_option autoImplicit false

namespace Verif.ArmClusterMidr
open Spec ArmMidr ArmCpuinfo ArmClusters ArmChipset
open X86Init (modify? bitmaskAll)

theorem xor_and_zero' (x y m : Nat) (h : x &&& m = y &&& m) : (x ^^^ y) &&& m = 0 := by
  apply Nat.eq_of_testBit_eq
  intro k
  have := congrArg (fun n => Nat.testBit n k) h
  simp only [Nat.testBit_and] at this
  simp only [Nat.testBit_and, Nat.testBit_xor, Nat.zero_testBit]
  cases hx : x.testBit k <;> cases hy : y.testBit k <;> cases hm : m.testBit k <;> simp_all

theorem check_of_agrees (m : Nat) (p : Proc) (h : Agrees m p) :
    ((p.midr ^^^ m) &&& midrMask p == 0) = true := by
  rw [beq_iff_eq]
  have key : ∀ d, OfMidr d → p.flags.testBit d.bit = true → (p.midr ^^^ m) &&& maskOf d = 0 := by
    intro d hd hk
    apply xor_and_zero'
    have := h d (d.value p) hd (by unfold known; rw [if_pos hk])
    exact (mask_value d p { p with midr := m } hd.1 hd.2).mpr this.symm
  have h17 : has p validImplementer = p.flags.testBit 17 := has_pow p 17
  have h18 : has p validVariant = p.flags.testBit 18 := has_pow p 18
  have h19 : has p validPart = p.flags.testBit 19 := has_pow p 19
  have h20 : has p validRevision = p.flags.testBit 20 := has_pow p 20
  have k17 := key .implementer (by unfold OfMidr; decide)
  have k18 := key .variant (by unfold OfMidr; decide)
  have k19 := key .part (by unfold OfMidr; decide)
  have k20 := key .revision (by unfold OfMidr; decide)
  simp only [Detail.bit, maskOf] at k17 k18 k19 k20
  unfold midrMask
  rw [h17, h18, h19, h20]
  cases b17 : p.flags.testBit 17 <;> cases b18 : p.flags.testBit 18 <;>
    cases b19 : p.flags.testBit 19 <;> cases b20 : p.flags.testBit 20 <;>
    simp_all [Nat.and_or_distrib_left]

/-- The entry fits the clusters of the table. -/
structure Fits (cfg : ClusterConfig) (usable : Nat) (t : List Proc) : Prop where
  cores : cfg.cores = usable
  clusters : cfg.clusters = (leaders t).length
  few : (leaders t).length ≤ 3
  sizes : ∀ (k l : Nat) (p : Proc), (leaders t)[k]? = some l → t[l]? = some p →
    cfg.clusterCores[k]? = some p.packageProcessorCount

theorem byChipset_exact (a : Arch) (chipset : Chipset) (usable : Nat) (t : List Proc)
    (cfg : ClusterConfig)
    (hf : (configs a).find? (fun c => c.model == chipset.model && c.series == chipset.series) = some cfg)
    (hfit : Fits cfg usable t)
    (hag : ∀ (k l m : Nat) (p : Proc), (leaders t)[k]? = some l → t[l]? = some p →
      cfg.clusterMidr[k]? = some m → Agrees m p) :
    ∃ t', byChipset a chipset (leaders t).length (leaders t) usable t true = some (t', true) ∧
      Changed (ByEntry cfg (leaders t) (leaders t).length) t t' := by
  obtain ⟨hcores, hmidr⟩ := configs_three a cfg (List.mem_of_find?_eq_some hf)
  have hc := hfit.few
  unfold byChipset
  rw [if_pos (show (leaders t).length ≤ clustersMax from hc), hf]
  simp only
  unfold applyConfig
  rw [if_neg (by rw [hfit.cores, hfit.clusters]; simp)]
  have hlead : ∀ k, k < (leaders t).length → ∃ l p, (leaders t)[k]? = some l ∧ t[l]? = some p := by
    intro k hk
    obtain ⟨p, hp, -⟩ := leaders_get t k _ (List.getElem?_eq_getElem hk)
    exact ⟨_, p, List.getElem?_eq_getElem hk, hp⟩
  obtain ⟨sizes, hs, hs'⟩ := allClusters_total (fun c => do
      let p ← leaderProc (leaders t) t c
      return (← cfg.clusterCores[c]?) == p.packageProcessorCount)
    (fun _ => true) (leaders t).length 0 (by
    intro k _ hk
    obtain ⟨l, p, hl, hp⟩ := hlead k (by omega)
    have hv := hfit.sizes k l p hl hp
    simp only [leaderProc, hl, hp, hv, Option.bind_eq_bind, Option.bind_some, beq_self_eq_true]
    rfl)
  have hsz : sizes = true := hs'.mpr fun _ _ _ => rfl
  rw [hs]
  simp only [Option.bind_eq_bind, Option.bind_some]
  rw [if_neg (by simp [hsz])]
  simp only [if_true]
  obtain ⟨b, hb, hb'⟩ := allClusters_total (fun c => do
      let p ← leaderProc (leaders t) t c
      return (p.midr ^^^ (← cfg.clusterMidr[c]?)) &&& midrMask p == 0)
    (fun _ => true) (leaders t).length 0 (by
    intro k _ hk
    obtain ⟨l, p, hl, hp⟩ := hlead k (by omega)
    have hv := List.getElem?_eq_getElem (show k < cfg.clusterMidr.length by omega)
    have := check_of_agrees _ p (hag k l _ p hl hp hv)
    simp only [leaderProc, hl, hp, hv, Option.bind_eq_bind, Option.bind_some, this]
    rfl)
  have hbt : b = true := hb'.mpr fun _ _ _ => rfl
  simp only [Option.bind_eq_bind] at hb
  rw [hb]
  simp only [Option.bind_some]
  rw [if_neg (by simp [hbt])]
  obtain ⟨t', e, h⟩ := assign_loop cfg t hmidr (leaders t).length hc (Nat.le_refl _)
  simp only [Option.bind_eq_bind] at e
  rw [e]
  exact ⟨t', rfl, h⟩

theorem filter_lt {α : Type} (p q : α → Bool) (l : List α) (hpq : ∀ x, p x = true → q x = true)
    (x : α) (hx : x ∈ l) (hq : q x = true) (hp : p x = false) :
    (l.filter p).length < (l.filter q).length := by
  rw [← List.countP_eq_length_filter, ← List.countP_eq_length_filter]
  induction l with
  | nil => cases hx
  | cons y l ih =>
    have hle : l.countP p ≤ l.countP q := List.countP_mono_left fun x _ => hpq x
    rw [List.countP_cons, List.countP_cons]
    rcases List.mem_cons.mp hx with e | h
    · subst e; rw [hq, hp]; simp; omega
    · have := ih h
      have : p y = true → q y = true := hpq y
      cases hpy : p y <;> cases hqy : q y <;> simp_all <;> omega

theorem clustersWithMidr_lt (t : List Proc) (l : Nat) (p : Proc) (hp : t[l]? = some p)
    (hla : leadAt t l = true) (hf : ¬ Full p) : clustersWithMidr t < (leaders t).length := by
  unfold clustersWithMidr
  rw [leaders_eq]
  apply filter_lt _ _ _ ?_ l (List.mem_range.mpr (lt_of_get hp)) hla
  · rw [hp]
    cases hb : bitmaskAll p.flags (flagValid ||| validMidr) with
    | false => simp [hb]
    | true =>
      exfalso
      apply hf
      rw [← full_iff]
      unfold bitmaskAll at hb ⊢
      rw [beq_iff_eq] at hb ⊢
      have := congrArg (· &&& validMidr) hb
      simp only [Nat.and_assoc] at this
      have e : (flagValid ||| validMidr) &&& validMidr = validMidr := by decide
      rw [e] at this
      exact this
  · intro i hi
    cases hq : t[i]? with
    | none => rw [hq] at hi; cases hi
    | some q =>
      rw [hq] at hi
      have hi : bitmaskAll q.flags (flagValid ||| validMidr) = true ∧ q.packageLeaderId = i := by
        simpa using hi
      refine (leadAt_iff t i).mpr ⟨q, hq, ?_, hi.2⟩
      have hb := hi.1
      unfold bitmaskAll at hb
      rw [beq_iff_eq] at hb
      unfold Usable
      have := congrArg (fun n => Nat.testBit n 12) hb
      simp only [Nat.testBit_and] at this
      have e : (flagValid ||| validMidr).testBit 12 = true := by decide
      rw [e, Bool.and_true] at this
      exact this

/-- What is known about the cluster led by `l` agrees with the MIDR `m`. -/
def ClusterAgrees (t : List Proc) (l m : Nat) : Prop :=
  (∀ r, reported t l = some r → ∀ d, OfMidr d →
    d.value { Proc.zero with midr := m } = d.value { Proc.zero with midr := r }) ∧
  (reported t l = none → ∀ p, t[l]? = some p → Agrees m p)

theorem value_of (d : Detail) (p q : Proc) (hd : OfMidr d) (h : p.midr = q.midr) :
    d.value p = d.value q := value_congr hd h

theorem table_used (a : Arch) (chipset : Chipset) (usable : Nat) (t : List Proc) (hl : Led t)
    (cfg : ClusterConfig)
    (hf : (configs a).find? (fun c => c.model == chipset.model && c.series == chipset.series) = some cfg)
    (hfit : Fits cfg usable t) (hid : identifiedCount t < usable)
    (hun : ¬ (OnlyLastIdentified t ∧ 1 < (leaders t).length))
    (hmiss : ∃ l, leadAt t l = true ∧ reported t l = none)
    (hag : ∀ (k l m : Nat), (leaders t)[k]? = some l → cfg.clusterMidr[k]? = some m →
      ClusterAgrees t l m) :
    ∃ t', detectClusterMidr a chipset usable t = some (cfg.clusters, t') ∧
      ∀ (k l m : Nat), (leaders t)[k]? = some l → cfg.clusterMidr[k]? = some m →
        ∃ q, t'[l]? = some q ∧ q.midr = m := by
  obtain ⟨s, es, h⟩ := survey_spec t hl
  have hd := survey_data t hl s es
  have hls : s.leaders = (leaders s.table).take 3 := by
    rw [h.leaders, h.kept.leaders]; rfl
  have hcl : s.clusters = (leaders s.table).length := by
    rw [h.clusters, h.kept.leaders]; rfl
  have hlen : leaders s.table = leaders t := h.kept.leaders
  have hls3 : (leaders s.table).take 3 = leaders s.table :=
    List.take_of_length_le (by rw [hlen]; exact hfit.few)
  have hskel : ∀ (l : Nat) (p : Proc), s.table[l]? = some p → ∃ p0, t[l]? = some p0 ∧ skel p = skel p0 := by
    intro l p hp
    have hlt : l < t.length := by rw [← hd.length]; exact lt_of_get hp
    obtain ⟨q, hq, e⟩ := h.kept.get' (List.getElem?_eq_getElem hlt)
    rw [hp] at hq; cases hq
    exact ⟨_, List.getElem?_eq_getElem hlt, e⟩
  have hfit' : Fits cfg usable s.table := by
    refine ⟨hfit.cores, by rw [hlen]; exact hfit.clusters, by rw [hlen]; exact hfit.few, ?_⟩
    intro k l p hk hp
    rw [hlen] at hk
    obtain ⟨p0, hp0, e⟩ := hskel l p hp
    rw [skel_count e]
    exact hfit.sizes k l p0 hk hp0
  have hseen : ∀ (l : Nat) (p0 p : Proc), leadAt t l = true → t[l]? = some p0 → s.table[l]? = some p →
      (∀ m, reported t l = some m → p.midr = m ∧ Full p) ∧
      (reported t l = none → p.midr = p0.midr ∧ ∀ k, 16 ≤ k → k ≤ 21 → p.flags.testBit k = p0.flags.testBit k) := by
    intro l p0 p hla hp0 hp
    have := hd.midr l p0 p hla hp0 hp
    unfold LeaderSeen at this
    rw [List.take_length] at this
    exact this
  have hag' : ∀ (k l m : Nat) (p : Proc), (leaders s.table)[k]? = some l → s.table[l]? = some p →
      cfg.clusterMidr[k]? = some m → Agrees m p := by
    intro k l m p hk hp hm
    rw [hlen] at hk
    obtain ⟨p0, hp0, -⟩ := hskel l p hp
    obtain ⟨-, -, -, -, hla⟩ := leaders_get t k l hk
    obtain ⟨s1, s2⟩ := hseen l p0 p hla hp0 hp
    obtain ⟨a1, a2⟩ := hag k l m hk hm
    intro d v hod hv
    unfold known at hv
    split at hv
    · next hb =>
      cases hv
      cases hr : reported t l with
      | some r =>
        rw [value_of d { p with midr := m } { Proc.zero with midr := m } hod rfl, a1 r hr d hod]
        exact value_of d _ _ hod (s1 r hr).1.symm
      | none =>
        obtain ⟨e1, e2⟩ := s2 hr
        have hb0 : p0.flags.testBit d.bit = true := by
          rw [← e2 d.bit _ _]
          · exact hb
          · cases d <;> first | exact absurd rfl hod.1 | exact absurd rfl hod.2 | decide
          · cases d <;> first | exact absurd rfl hod.1 | exact absurd rfl hod.2 | decide
        have := a2 hr p0 hp0 d (d.value p0) hod (by unfold known; rw [if_pos hb0])
        rw [value_of d { p with midr := m } { p0 with midr := m } hod rfl, this]
        exact value_of d _ _ hod e1.symm
    · cases hv
  obtain ⟨t', e, hc⟩ := byChipset_exact a chipset usable s.table cfg hf hfit' hag'
  have hnun : ¬ Unattributed s := fun hu => hun (only_last h hd hu)
  have hcount : s.withMidr < usable := by
    rw [hd.count, List.take_length]; exact hid
  obtain ⟨l, hla, hr⟩ := hmiss
  have hlt : clustersWithMidr s.table < s.clusters := by
    obtain ⟨p0, hp0, hu0, hl0⟩ := (leadAt_iff t l).mp hla
    obtain ⟨p, hp, -⟩ := h.kept.get' hp0
    rw [hcl]
    refine clustersWithMidr_lt s.table l p hp (by rw [h.kept.leadAt]; exact hla) fun hfull => ?_
    have hb := ((hseen l p0 p hla hp0 hp).2 hr).2
    have hcomp : Complete p0 := fun k h1 h2 => by rw [← hb k h1 h2]; exact hfull k h1 h2
    unfold reported at hr
    rw [Option.map_eq_none_iff, List.find?_eq_none] at hr
    exact hr p0 (List.mem_of_getElem? hp0) (by simp only [decide_eq_true_eq]; exact ⟨hu0, hl0, hcomp⟩)
  refine ⟨t', ?_, ?_⟩
  · unfold detectClusterMidr
    rw [es]
    simp only [Option.bind_eq_bind, Option.bind_some]
    unfold finishMidr
    rw [if_neg (show ¬ (s.withMidr = 1 ∧ _ ∧ _) from hnun)]
    simp only [if_pos hcount, if_pos hlt]
    rw [hcl, hls, hls3, e]
    simp only [Option.bind_eq_bind, Option.bind_some, if_true]
    rw [hlen, ← hfit.clusters]; rfl
  · intro k l m hk hm
    have hk' : (leaders s.table)[k]? = some l := by rw [hlen]; exact hk
    obtain ⟨p, hp, -⟩ := leaders_get s.table k l hk'
    obtain ⟨q, hq, hr⟩ := hc.get l p hp
    refine ⟨q, hq, ?_⟩
    rcases hr with ⟨-, hno⟩ | ⟨k', m', hk1, hk2, hk3, hq'⟩
    · exact absurd hk' (hno k (lt_of_get hk'))
    · have : k = k' := by
        apply (List.getElem?_inj (lt_of_get hk') (leaders_nodup s.table)).mp
        rw [hk', hk2]
      subst this
      rw [hm] at hk3; cases hk3
      rw [hq']; rfl

/-! ## The sequential scan -/

/-- `j` is the last completely described leader before `i`. -/
def LastKnown (t : List Proc) (i j : Nat) (p : Proc) : Prop :=
  j < i ∧ t[j]? = some p ∧ leadAt t j = true ∧ Full p ∧
    ∀ (k : Nat) (q : Proc), j < k → k < i → t[k]? = some q → leadAt t k = true → ¬ Full q

theorem midrBefore_spec (dflt : Nat) (t : List Proc) (i : Nat) :
    (∃ j p, LastKnown t i j p ∧ midrBefore dflt t i = p.midr) ∨
    ((∀ (k : Nat) (q : Proc), k < i → t[k]? = some q → leadAt t k = true → ¬ Full q) ∧
      midrBefore dflt t i = dflt) := by
  induction i with
  | zero => exact .inr ⟨fun k q hk => by omega, rfl⟩
  | succ i ih =>
    have skip : (∀ q, t[i]? = some q → leadAt t i = true → ¬ Full q) →
        midrBefore dflt t (i + 1) = midrBefore dflt t i →
        (∃ j p, LastKnown t (i + 1) j p ∧ midrBefore dflt t (i + 1) = p.midr) ∨
        ((∀ (k : Nat) (q : Proc), k < i + 1 → t[k]? = some q → leadAt t k = true → ¬ Full q) ∧
          midrBefore dflt t (i + 1) = dflt) := by
      intro hno e
      rw [e]
      rcases ih with ⟨j, p, ⟨h1, h2, h3, h4, h5⟩, h6⟩ | ⟨h1, h2⟩
      · refine .inl ⟨j, p, ⟨by omega, h2, h3, h4, fun k q hk hk' => ?_⟩, h6⟩
        by_cases hki : k = i
        · subst hki; exact hno q
        · exact h5 k q hk (by omega)
      · refine .inr ⟨fun k q hk => ?_, h2⟩
        by_cases hki : k = i
        · subst hki; exact hno q
        · exact h1 k q (by omega)
    cases hp : t[i]? with
    | none => exact skip (fun q hq => by rw [hp] at hq; cases hq) (by simp only [midrBefore, hp])
    | some p =>
      by_cases hc : (leadAt t i && bitmaskAll p.flags validMidr) = true
      · have hc' := (Bool.and_eq_true_iff.mp hc)
        refine .inl ⟨i, p, ⟨by omega, hp, hc'.1, (full_iff p).mp hc'.2, fun k q h1 h2 => by omega⟩, ?_⟩
        simp only [midrBefore, hp, if_pos hc]
      · refine skip (fun q hq hla hfull => ?_) (by simp only [midrBefore, hp, if_neg hc])
        rw [hp] at hq; cases hq
        exact hc (Bool.and_eq_true_iff.mpr ⟨hla, (full_iff p).mpr hfull⟩)

/-- The MIDR known for the cluster led by `l`: the reported one, or what the leader has. -/
def clusterMidr (t : List Proc) (l : Nat) : Option Nat :=
  match reported t l with
  | some m => some m
  | none => t[l]?.map (·.midr)

theorem scan_used (a : Arch) (chipset : Chipset) (usable : Nat) (t : List Proc) (hl : Led t)
    (hf : (configs a).find? (fun c => c.model == chipset.model && c.series == chipset.series) = none)
    (h2 : (leaders t).length ≠ 2 ∨ identifiedCount t ≠ 1) (hid0 : identifiedCount t ≠ 0) (hid : identifiedCount t < usable)
    (hun : ¬ (OnlyLastIdentified t ∧ 1 < (leaders t).length))
    (hmiss : ∃ l, leadAt t l = true ∧ reported t l = none) :
    ∃ (t' s : List Proc) (i : Nat) (p : Proc) (dflt : Nat), t[i]? = some p ∧ Usable p ∧ Identified p ∧
      clusterMidr t p.packageLeaderId = some dflt ∧
      detectClusterMidr a chipset usable t = some ((leaders t).length, t') ∧
      Kept t s ∧ Changed (ScanResult s dflt) s t' ∧
      ∀ (l : Nat) (p0 q : Proc), leadAt t l = true → t[l]? = some p0 → s[l]? = some q →
        (∀ m, reported t l = some m → q.midr = m ∧ Full q) ∧ (reported t l = none → ¬ Full q) := by
  obtain ⟨s, es, h⟩ := survey_spec t hl
  have hd := survey_data t hl s es
  have hlen : leaders s.table = leaders t := h.kept.leaders
  have hcl : s.clusters = (leaders t).length := h.clusters
  have hnun : ¬ Unattributed s := fun hu => hun (only_last h hd hu)
  have hcount : s.withMidr < usable := by
    rw [hd.count, List.take_length]; exact hid
  have hw : s.withMidr ≠ 0 := by
    rw [hd.count, List.take_length]; exact hid0
  have hseen : ∀ (l : Nat) (p0 p : Proc), leadAt t l = true → t[l]? = some p0 → s.table[l]? = some p →
      (∀ m, reported t l = some m → p.midr = m ∧ Full p) ∧
      (reported t l = none → p.midr = p0.midr ∧ ∀ k, 16 ≤ k → k ≤ 21 → p.flags.testBit k = p0.flags.testBit k) := by
    intro l p0 p hla hp0 hp
    have := hd.midr l p0 p hla hp0 hp
    unfold LeaderSeen at this
    rw [List.take_length] at this
    exact this
  have hnofull : ∀ (l : Nat) (p0 q : Proc), leadAt t l = true → t[l]? = some p0 → s.table[l]? = some q →
      reported t l = none → ¬ Full q := by
    intro l p0 q hla hp0 hq hr hfull
    obtain ⟨p0', hp0', hu0, hl0⟩ := (leadAt_iff t l).mp hla
    rw [hp0] at hp0'; cases hp0'
    have hb := ((hseen l p0 q hla hp0 hq).2 hr).2
    have hcomp : Complete p0 := fun k h1 h2 => by rw [← hb k h1 h2]; exact hfull k h1 h2
    unfold reported at hr
    rw [Option.map_eq_none_iff, List.find?_eq_none] at hr
    exact hr p0 (List.mem_of_getElem? hp0) (by simp only [decide_eq_true_eq]; exact ⟨hu0, hl0, hcomp⟩)
  obtain ⟨l, hla, hr⟩ := hmiss
  have hlt : clustersWithMidr s.table < s.clusters := by
    obtain ⟨p0, hp0, -, -⟩ := (leadAt_iff t l).mp hla
    obtain ⟨p, hp, -⟩ := h.kept.get' hp0
    rw [hcl, ← hlen]
    exact clustersWithMidr_lt s.table l p hp (by rw [h.kept.leadAt]; exact hla)
      (hnofull l p0 p hla hp0 hp hr)
  obtain ⟨pl, hpl, hplu, hpli⟩ := hd.lastMidr hw
  have hled := h.kept.led hl
  obtain ⟨pl', hpl', epl⟩ := h.kept.get' hpl
  have hldr : pl'.packageLeaderId = pl.packageLeaderId := skel_leader epl
  obtain ⟨-, ⟨l0, hl0, hl0u⟩, ⟨l0', hl0', hl0s⟩⟩ := hl _ pl hpl hplu
  rw [hl0] at hl0'; cases hl0'
  obtain ⟨kn, hkn, -⟩ := h.kept.get' hl0
  have hla0 : leadAt t pl.packageLeaderId = true := (leadAt_iff t _).mpr ⟨l0, hl0, hl0u, hl0s⟩
  have hdflt : clusterMidr t pl.packageLeaderId = some kn.midr := by
    obtain ⟨s1, s2⟩ := hseen _ l0 kn hla0 hl0 hkn
    unfold clusterMidr
    cases hrr : reported t pl.packageLeaderId with
    | some m => simp only; rw [(s1 m hrr).1]
    | none => simp only; rw [hl0, Option.map_some, (s2 hrr).1]
  obtain ⟨t', e, hc⟩ := midrScan_spec kn.midr s.table
  refine ⟨t', s.table, s.lastWithMidr, pl, kn.midr, hpl, hplu, hpli, hdflt, ?_, h.kept, hc, ?_⟩
  · unfold detectClusterMidr
    rw [es]
    simp only [Option.bind_eq_bind, Option.bind_some]
    unfold finishMidr
    rw [if_neg (show ¬ (s.withMidr = 1 ∧ _ ∧ _) from hnun)]
    simp only [if_pos hcount, if_pos hlt]
    have hb : byChipset a chipset s.clusters s.leaders usable s.table true = some (s.table, false) := by
      unfold byChipset
      rw [hf]
      split <;> rfl
    have hbl : bigLittle s.clusters s.withMidr s.lastWithMidr s.leaders s.table true
        = some (s.table, false) := by
      unfold bigLittle
      rw [if_pos (h2.imp (fun e => by rw [hcl]; exact e)
        fun e => by rw [hd.count, List.take_length]; exact e)]; rfl
    rw [hb]
    simp only [Option.bind_eq_bind, Option.bind_some]
    rw [if_neg (by simp)]
    have hne : s.lastWithMidr ≠ s.table.length := by
      have := lt_of_get hpl'
      omega
    rw [if_pos hne, hbl]
    simp only [Option.bind_some]
    rw [if_neg (by simp)]
    unfold scanFrom
    simp only [hpl', hldr, hkn, Option.bind_eq_bind, Option.bind_some, e, hcl]
    rfl
  · intro l p0 q hla hp0 hq
    exact ⟨(hseen l p0 q hla hp0 hq).1, hnofull l p0 q hla hp0 hq⟩

end Verif.ArmClusterMidr
