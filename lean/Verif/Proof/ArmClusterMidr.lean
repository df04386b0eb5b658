import Verif.Model.ArmClusterMidr
import Verif.Proof.ArmLeaders

/-!
# Cluster MIDR detection

`skel` is the part of a processor description that the detection of MIDRs and microarchitectures
leaves alone.
-/

set_option autoImplicit false

namespace Verif.ArmClusterMidr
open Spec ArmMidr ArmCpuinfo ArmClusters ArmChipset
open X86Init (modify? bitmaskAll)

/-- The flag bits that are left alone: all but "maximum frequency" and those of the MIDR. -/
def keptBit (k : Nat) : Bool := !(k == 2 || (16 ≤ k && k ≤ 21 : Bool))

/-- What is left alone. -/
def skel (p : Proc) : Proc × (Nat → Bool) :=
  ({ p with midr := 0, vendor := 0, uarch := 0, maxFrequency := 0, flags := 0 },
    fun k => keptBit k && p.flags.testBit k)

theorem skel_leader {p q : Proc} (h : skel p = skel q) : p.packageLeaderId = q.packageLeaderId :=
  congrArg (fun s => s.1.packageLeaderId) h
theorem skel_id {p q : Proc} (h : skel p = skel q) : p.systemProcessorId = q.systemProcessorId :=
  congrArg (fun s => s.1.systemProcessorId) h
theorem skel_count {p q : Proc} (h : skel p = skel q) :
    p.packageProcessorCount = q.packageProcessorCount :=
  congrArg (fun s => s.1.packageProcessorCount) h
theorem skel_bit {p q : Proc} (h : skel p = skel q) (k : Nat) (hk : keptBit k = true) :
    p.flags.testBit k = q.flags.testBit k := by
  have := congrFun (congrArg Prod.snd h) k
  simpa [skel, hk] using this
theorem skel_usable {p q : Proc} (h : skel p = skel q) : Usable p ↔ Usable q := by
  unfold Usable
  rw [skel_bit h 12 (by decide)]

/-- The bits set are among those of the MIDR. -/
def MidrBits (bits : Nat) : Prop := ∀ k, keptBit k = true → bits.testBit k = false

theorem skel_or (p : Proc) (bits m v u f : Nat) (h : MidrBits bits) :
    skel { p with midr := m, vendor := v, uarch := u, maxFrequency := f,
                  flags := p.flags ||| bits } = skel p := by
  have e : (fun k => keptBit k && (p.flags ||| bits).testBit k)
      = fun k => keptBit k && p.flags.testBit k := by
    funext k
    cases hk : keptBit k with
    | false => rfl
    | true => rw [Nat.testBit_or, h k hk, Bool.or_false]
  exact Prod.ext rfl e

theorem midrBits_of (n : Nat) (h : n &&& (0x003F0000 ||| 4) = n) : MidrBits n := by
  intro k hk
  rw [← h, Nat.testBit_and]
  have : (0x003F0000 ||| 4 : Nat).testBit k = false := by
    by_cases hlt : k < 22
    · have : ∀ j, j < 22 → keptBit j = true → (0x003F0000 ||| 4 : Nat).testBit j = false := by decide
      exact this k hlt hk
    · apply Nat.testBit_lt_two_pow
      calc (0x003F0000 ||| 4 : Nat) < 2 ^ 22 := by decide
        _ ≤ 2 ^ k := Nat.pow_le_pow_right (by decide) (by omega)
  rw [this, Bool.and_false]

theorem midrBits_and (x n : Nat) (h : MidrBits n) : MidrBits (x &&& n) := by
  intro k hk
  rw [Nat.testBit_and, h k hk, Bool.and_false]

theorem midrBits_valid : MidrBits validMidr := midrBits_of _ (by decide)
theorem midrBits_freq : MidrBits flagMaxFrequency := midrBits_of _ (by decide)
theorem midrBits_both : MidrBits (validMidr ||| flagMaxFrequency) := midrBits_of _ (by decide)

theorem skel_assign (m bits : Nat) (p : Proc) (h : MidrBits bits) :
    skel (assignMidr m bits p) = skel p :=
  skel_or p bits m p.vendor p.uarch p.maxFrequency h

theorem skel_copyFrequency (p l : Proc) : skel (copyFrequency p l) = skel l := by
  unfold copyFrequency
  split
  · exact skel_or l flagMaxFrequency l.midr l.vendor l.uarch p.maxFrequency midrBits_freq
  · rfl

theorem skel_copyMidr (p l : Proc) : skel (copyMidr p l) = skel l := by
  unfold copyMidr
  split
  · exact skel_assign _ _ _ midrBits_valid
  · rfl

theorem skel_copyKnown (p l : Proc) : skel (copyKnown p l) = skel l :=
  (skel_copyMidr p _).trans (skel_copyFrequency p l)

/-! ## Tables with the same skeleton -/

/-- Both tables have the same skeleton. -/
def Kept (t t' : List Proc) : Prop := t'.map skel = t.map skel

theorem Kept.refl (t : List Proc) : Kept t t := rfl
theorem Kept.trans {a b c : List Proc} (h : Kept a b) (h' : Kept b c) : Kept a c :=
  Eq.trans h' h
theorem Kept.symm {a b : List Proc} (h : Kept a b) : Kept b a := Eq.symm h
theorem Kept.length {t t' : List Proc} (h : Kept t t') : t'.length = t.length := by
  have := congrArg List.length h
  simpa using this

theorem Kept.get {t t' : List Proc} (h : Kept t t') {i : Nat} {q : Proc} (hq : t'[i]? = some q) :
    ∃ p, t[i]? = some p ∧ skel q = skel p := by
  have := congrArg (fun l => l[i]?) h
  simp only [List.getElem?_map, hq, Option.map_some] at this
  cases hp : t[i]? with
  | none => rw [hp] at this; cases this
  | some p => rw [hp] at this; exact ⟨p, rfl, Option.some.inj this⟩

theorem Kept.get' {t t' : List Proc} (h : Kept t t') {i : Nat} {p : Proc} (hp : t[i]? = some p) :
    ∃ q, t'[i]? = some q ∧ skel q = skel p := by
  obtain ⟨q, hq, e⟩ := h.symm.get hp
  exact ⟨q, hq, e.symm⟩

theorem Kept.set {t t' : List Proc} (h : Kept t t') {i : Nat} {p x : Proc} (hp : t'[i]? = some p)
    (hx : skel x = skel p) : Kept t (t'.set i x) := by
  refine h.trans ?_
  apply List.ext_getElem?
  intro j
  rw [List.getElem?_map, List.getElem?_map, set_get hp]
  split
  · next e => subst e; rw [hp]; simp [hx]
  · rfl

theorem Kept.usableAt {t t' : List Proc} (h : Kept t t') (i : Nat) : UsableAt t' i ↔ UsableAt t i := by
  constructor
  · rintro ⟨q, hq, hu⟩
    obtain ⟨p, hp, e⟩ := h.get hq
    exact ⟨p, hp, (skel_usable e).mp hu⟩
  · rintro ⟨q, hq, hu⟩
    obtain ⟨p, hp, e⟩ := h.get' hq
    exact ⟨p, hp, (skel_usable e).mpr hu⟩

theorem Kept.leads {t t' : List Proc} (h : Kept t t') (l i : Nat) : Leads t' l i ↔ Leads t l i := by
  constructor
  · rintro ⟨q, hq, hu⟩
    obtain ⟨p, hp, e⟩ := h.get hq
    exact ⟨p, hp, (skel_leader e).symm.trans hu⟩
  · rintro ⟨q, hq, hu⟩
    obtain ⟨p, hp, e⟩ := h.get' hq
    exact ⟨p, hp, (skel_leader e).trans hu⟩

theorem Kept.led {t t' : List Proc} (h : Kept t t') (hl : Led t) : Led t' := by
  intro i q hq hu
  obtain ⟨p, hp, e⟩ := h.get hq
  obtain ⟨h1, h2, h3⟩ := hl i p hp ((skel_usable e).mp hu)
  rw [skel_leader e]
  exact ⟨h1, (h.usableAt _).mpr h2, (h.leads _ _).mpr h3⟩

theorem filter_skel (f : Proc → Bool) (hf : ∀ p q, skel p = skel q → f p = f q) :
    ∀ (t t' : List Proc), Kept t t' → (t'.filter f).length = (t.filter f).length := by
  intro t
  induction t with
  | nil => intro t' h; cases t' with
    | nil => rfl
    | cons _ _ => cases h
  | cons p t ih =>
    intro t' h
    cases t' with
    | nil => cases h
    | cons q t' =>
      unfold Kept at h
      rw [List.map_cons, List.map_cons, List.cons.injEq] at h
      rw [List.filter_cons, List.filter_cons, hf q p h.1]
      split
      · rw [List.length_cons, List.length_cons, ih t' h.2]
      · exact ih t' h.2

theorem Kept.usableCount {t t' : List Proc} (h : Kept t t') : usableCount t' = usableCount t :=
  filter_skel _ (fun _ _ e => skel_bit e 12 (by decide)) _ _ h

theorem Kept.membersOf {t t' : List Proc} (h : Kept t t') (l : Nat) :
    membersOf t' l = membersOf t l :=
  filter_skel _ (fun p q e => by rw [skel_bit e 12 (by decide), skel_leader e]) _ _ h

/-- Position `i` holds a usable processor that leads itself. -/
def leadAt (t : List Proc) (i : Nat) : Bool :=
  t[i]?.any fun p => p.flags.testBit 12 && p.packageLeaderId == i

theorem leaders_eq (t : List Proc) : leaders t = (List.range t.length).filter (leadAt t) := rfl

theorem Kept.leadAt {t t' : List Proc} (h : Kept t t') (i : Nat) : leadAt t' i = leadAt t i := by
  unfold ArmClusterMidr.leadAt
  cases hp : t[i]? with
  | none =>
    cases hq : t'[i]? with
    | none => rfl
    | some q => obtain ⟨p, hp', -⟩ := h.get hq; rw [hp] at hp'; cases hp'
  | some p =>
    obtain ⟨q, hq, e⟩ := h.get' hp
    rw [hq]
    simp only [Option.any_some]
    rw [skel_bit e 12 (by decide), skel_leader e]

theorem Kept.leaders {t t' : List Proc} (h : Kept t t') : leaders t' = leaders t := by
  rw [leaders_eq, leaders_eq, h.length]
  exact List.filter_congr fun i _ => h.leadAt i

theorem leadAt_iff (t : List Proc) (i : Nat) :
    leadAt t i = true ↔ ∃ p, t[i]? = some p ∧ Usable p ∧ p.packageLeaderId = i := by
  unfold leadAt Usable
  cases t[i]? with
  | none => simp
  | some p => simp

theorem mem_leaders (t : List Proc) (i : Nat) :
    i ∈ leaders t ↔ ∃ p, t[i]? = some p ∧ Usable p ∧ p.packageLeaderId = i := by
  rw [leaders_eq, List.mem_filter, leadAt_iff, List.mem_range]
  exact ⟨fun h => h.2, fun h => ⟨lt_of_get h.choose_spec.1, h⟩⟩

/-! ## The survey -/

/-- The leaders below position `j`. -/
def leadersBelow (t : List Proc) (j : Nat) : List Nat := (List.range j).filter (leadAt t)

theorem leadersBelow_succ (t : List Proc) (j : Nat) :
    leadersBelow t (j + 1) = leadersBelow t j ++ if leadAt t j then [j] else [] := by
  unfold leadersBelow
  rw [List.range_succ, List.filter_append]
  congr 1
  rw [List.filter_cons]
  rfl

/-- What the survey has found out below position `j`. -/
structure SurveyInv (t : List Proc) (j : Nat) (s : Survey) : Prop where
  kept : Kept t s.table
  clusters : s.clusters = (leadersBelow t j).length
  leaders : s.leaders = (leadersBelow t j).take 3
  last : s.withMidr ≠ 0 → s.lastWithMidr < t.length ∧ UsableAt t s.lastWithMidr
  none : s.withMidr = 0 → s.lastWithMidr = t.length

theorem survey_step (t : List Proc) (hl : Led t) (j : Nat) (s : Survey) (hj : j < t.length)
    (h : SurveyInv t j s) : ∃ s', surveyStep j s = some s' ∧ SurveyInv t (j + 1) s' := by
  have hp0 := List.getElem?_eq_getElem hj
  generalize t[j] = p0 at hp0
  obtain ⟨p, hp, ep⟩ := h.kept.get' hp0
  have hlead : leadAt t j = (p.flags.testBit 12 && p.packageLeaderId == j) := by
    rw [← h.kept.leadAt]; unfold leadAt; rw [hp]; rfl
  unfold surveyStep
  rw [hp]
  simp only [Option.bind_eq_bind, Option.bind_some]
  by_cases hv : valid p = true
  · rw [if_neg (by simp [hv])]
    have hu := (valid_iff p).mp hv
    -- the counters
    generalize hs1 : (if has p validProcessor then { s with lastInCpuinfo := j } else s) = s1
    have h1 : SurveyInv t j s1 := by
      rw [← hs1]; split
      · exact ⟨h.kept, h.clusters, h.leaders, h.last, h.none⟩
      · exact h
    have e1 : s1.table = s.table := by rw [← hs1]; split <;> rfl
    generalize hs2 : (if bitmaskAll p.flags (validImplementer ||| validPart) then
      { s1 with lastWithMidr := j, withMidr := s1.withMidr + 1 } else s1) = s2
    have h2 : SurveyInv t j s2 := by
      rw [← hs2]; split
      · exact ⟨h1.kept, h1.clusters, h1.leaders,
          fun _ => ⟨hj, (h.kept.usableAt j).mp ⟨p, hp, hu⟩⟩, fun e => by simp at e⟩
      · exact h1
    have e2 : s2.table = s.table := by rw [← hs2]; split <;> exact e1
    by_cases hlj : p.packageLeaderId = j
    · rw [if_pos hlj]
      have hla : leadAt t j = true := by
        rw [hlead, hlj]
        unfold Usable at hu
        simp [hu]
      refine ⟨_, rfl, ⟨h2.kept, ?_, ?_, h2.last, h2.none⟩⟩
      · show s2.clusters + 1 = _
        rw [leadersBelow_succ, hla, h2.clusters]
        simp
      · show (if s2.clusters < clustersMax then s2.leaders ++ [j] else s2.leaders) = _
        rw [leadersBelow_succ, hla, h2.leaders, h2.clusters]
        simp only [if_true]
        split
        · next hlt =>
          have hlt : (leadersBelow t j).length < 3 := hlt
          rw [List.take_of_length_le (by omega), List.take_of_length_le (by simp; omega)]
        · next hge =>
          have hge : ¬ (leadersBelow t j).length < 3 := hge
          rw [List.take_append_of_le_length (by omega)]
    · rw [if_neg hlj]
      have hled := (h.kept.led hl) j p hp hu
      obtain ⟨q, hq, hqu⟩ := hled.2.1
      have hlt : leadAt t j = false := by
        rw [hlead]; simp [hlj]
      rw [e2, modify?_eq (copyKnown p) hq]
      refine ⟨_, rfl, ⟨h.kept.set hq (skel_copyKnown p q), ?_, ?_, h2.last, h2.none⟩⟩
      · show s2.clusters = _
        rw [leadersBelow_succ, hlt, h2.clusters]; simp
      · show s2.leaders = _
        rw [leadersBelow_succ, hlt, h2.leaders]; simp
  · rw [if_pos (by simpa using hv)]
    have hlt : leadAt t j = false := by
      rw [hlead]
      have : p.flags.testBit 12 = false := by
        have := mt (valid_iff p).mpr hv
        unfold Usable at this
        simpa using this
      rw [this]; rfl
    refine ⟨s, rfl, ⟨h.kept, ?_, ?_, h.last, h.none⟩⟩
    · rw [leadersBelow_succ, hlt, h.clusters]; simp
    · rw [leadersBelow_succ, hlt, h.leaders]; simp

theorem survey_spec (t : List Proc) (hl : Led t) :
    ∃ s, forRange surveyStep t.length 0 ⟨0, [], t.length, t.length, 0, t⟩ = some s ∧
      SurveyInv t t.length s :=
  forRange_total _ (SurveyInv t) t.length (fun j s hj h => survey_step t hl j s hj h) t.length 0 _
    (by omega) ⟨Kept.refl t, rfl, rfl, fun h => absurd rfl h, fun _ => rfl⟩

end Verif.ArmClusterMidr
