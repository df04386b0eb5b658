import Verif.Proof.ArmSurvey

/-!
# The result of the detection of cluster MIDRs
-/

set_option autoImplicit false

namespace Verif.ArmClusterMidr
open Spec ArmMidr ArmCpuinfo ArmClusters ArmChipset
open X86Init (modify? bitmaskAll)

theorem only_last {t : List Proc} {s : Survey} (h : SurveyInv t t.length s)
    (hd : SurveyData t t.length s) (hu : Unattributed s) :
    OnlyLastIdentified t ∧ 1 < (leaders t).length := by
  obtain ⟨h1, h2, h3⟩ := hu
  refine ⟨⟨?_, ?_⟩, ?_⟩
  · rw [← h1, hd.count, List.take_length]
  · obtain ⟨p, hp, hpu, hpi⟩ := hd.lastMidr (by omega)
    rw [← h2] at hp
    rcases hd.lastListed with h0 | ⟨⟨p', hp', -, hli⟩, h0'⟩
    · have := lt_of_get hp; omega
    · rw [hp] at hp'; cases hp'
      exact ⟨_, p, hp, hpu, hpi, hli, fun j q hj hq => h0' j q hj (lt_of_get hq) hq⟩
  · have : s.clusters = (leaders t).length := h.clusters
    omega

theorem value_congr {d : Detail} (hd : OfMidr d) {p q : Proc} (h : p.midr = q.midr) :
    d.value p = d.value q := by
  cases d with
  | minFrequency => exact absurd rfl hd.1
  | maxFrequency => exact absurd rfl hd.2
  | _ => simp only [Detail.value, h]

/-- All usable processors are completely described. -/
def AllComplete (t : List Proc) : Prop := ∀ (i : Nat) (p : Proc), t[i]? = some p → Usable p → Complete p

theorem all_identified {t : List Proc} (h : AllComplete t) : identifiedCount t = usableCount t := by
  unfold identifiedCount usableCount
  congr 1
  apply List.filter_congr
  intro p hp
  obtain ⟨i, hi⟩ := List.getElem?_of_mem hp
  by_cases hu : Usable p
  · have hc := h i p hi hu
    have hu' : p.flags.testBit 12 = true := hu
    rw [hu']
    exact decide_eq_true ⟨hu, hc 17 (by decide) (by decide), hc 19 (by decide) (by decide)⟩
  · have hu' : p.flags.testBit 12 = false := by simpa [Usable] using hu
    rw [hu', decide_eq_false (fun hh => hu hh.1)]

theorem usableCount_range (t : List Proc) : usableCount t =
    ((List.range t.length).filter fun i => t[i]?.any fun p => p.flags.testBit 12).length := by
  unfold usableCount
  have : t = (List.range t.length).map fun i => (t[i]?).getD Proc.zero := by
    apply List.ext_getElem?
    intro i
    rw [List.getElem?_map]
    by_cases hi : i < t.length
    · rw [List.getElem?_range hi]; simp [List.getElem?_eq_getElem hi]
    · rw [List.getElem?_eq_none (by omega), List.getElem?_eq_none (by simp; omega)]; rfl
  conv => lhs; rw [this]
  rw [List.filter_map, List.length_map]
  congr 1
  apply List.filter_congr
  intro i hi
  have hi : i < t.length := List.mem_range.mp hi
  simp [List.getElem?_eq_getElem hi]

theorem leaders_nodup (t : List Proc) : (leaders t).Nodup := List.nodup_range.filter _

theorem leaders_count_le (t : List Proc) : (leaders t).length ≤ usableCount t := by
  rw [usableCount_range, leaders_eq, ← List.countP_eq_length_filter, ← List.countP_eq_length_filter]
  apply List.countP_mono_left
  intro i _ h
  obtain ⟨p, hp, hu, -⟩ := (leadAt_iff t i).mp h
  rw [hp]; exact hu

theorem sameButIdentity_of_skel {p q : Proc} (h : skel q = skel p) : SameButIdentity p q := by
  constructor
  · have h1 := congrArg Prod.fst h
    cases p; cases q
    simp only [skel, Proc.mk.injEq] at h1 ⊢
    simp_all
  · intro k h2 h3
    refine skel_bit h k ?_
    simp only [keptBit, Bool.not_eq_true', Bool.or_eq_false_iff, beq_eq_false_iff_ne, ne_eq,
      Bool.and_eq_false_iff, decide_eq_false_iff_not]
    omega

/-- What the detection of cluster MIDRs guarantees. -/
structure Detected (t t' : List Proc) (usable : Nat) : Prop where
  kept : Kept t t'
  others : ∀ i, leadAt t i = false → t'[i]? = t[i]?
  only : ∀ (i : Nat) (p q : Proc), t[i]? = some p → t'[i]? = some q → SameButIdentity p q
  reported : ¬ (OnlyLastIdentified t ∧ 1 < (leaders t).length) →
    ∀ (l m : Nat) (q : Proc), leadAt t l = true → Spec.reported t l = some m → t'[l]? = some q →
      ∀ d, OfMidr d → d.value q = d.value { Proc.zero with midr := m }
  same : AllComplete t → usable ≤ usableCount t →
    ∀ (i : Nat) (p q : Proc), t[i]? = some p → t'[i]? = some q → q.midr = p.midr

theorem detect_spec (a : Arch) (chipset : Chipset) (usable : Nat) (t : List Proc) (hl : Led t) :
    ∃ t', detectClusterMidr a chipset usable t = some ((leaders t).length, t') ∧
      Detected t t' usable := by
  obtain ⟨s, es, h⟩ := survey_spec t hl
  have hd := survey_data t hl s es
  obtain ⟨t', ef, hc⟩ := finish_spec a chipset usable t hl s h
  have hcl : s.clusters = (leaders t).length := h.clusters
  have hkept : Kept t t' := h.kept.trans (hc.kept fun i p q hr => hr.1.skel)
  refine ⟨t', ?_, ?_, ?_, ?_, ?_, ?_⟩
  · unfold detectClusterMidr
    rw [es]
    simp only [Option.bind_eq_bind, Option.bind_some, ef, hcl]
    rfl
  · exact hkept
  · intro i hi
    rw [← hd.others i hi]
    cases hp : s.table[i]? with
    | none =>
      have : s.table.length ≤ i := List.getElem?_eq_none_iff.mp hp
      rw [List.getElem?_eq_none (by rw [hc.length]; exact this)]
    | some p =>
      obtain ⟨q, hq, hr⟩ := hc.get i p hp
      rw [hq]
      rcases hr.1 with e | ⟨hla, -⟩
      · rw [e]
      · rw [h.kept.leadAt, hi] at hla; cases hla
  · intro i p q hp hq
    obtain ⟨q', hq', e⟩ := hkept.get' hp
    rw [hq] at hq'; cases hq'
    exact sameButIdentity_of_skel e
  · intro hun l m q hla hrep hq d hod
    obtain ⟨p, hp, -, -⟩ := (leadAt_iff t l).mp hla
    obtain ⟨p1, hp1, -⟩ := h.kept.get' hp
    obtain ⟨q', hq', hr⟩ := hc.get l p1 hp1
    rw [hq] at hq'; cases hq'
    have o := (hd.midr l p p1 hla hp hp1).1 m (by rw [List.take_length]; exact hrep)
    rw [hr.2 (fun hu => hun (only_last h hd hu)) o.2 d hod]
    exact value_congr hod o.1
  · intro hall hus i p q hp hq
    have hid := all_identified hall
    have hnun : ¬ Unattributed s := by
      rintro ⟨h1, -, h3⟩
      have h1' := hd.count
      rw [List.take_length, hid] at h1'
      have := leaders_count_le t
      omega
    have hfin : t' = s.table := by
      unfold finishMidr at ef
      have h1' := hd.count
      rw [List.take_length, hid] at h1'
      rw [if_neg (show ¬ (s.withMidr = 1 ∧ _ ∧ _) from hnun)] at ef
      simp only [if_neg (show ¬ s.withMidr < usable by omega)] at ef
      exact (Option.some.inj ef).symm
    rw [hfin] at hq
    cases hla : leadAt t i with
    | false =>
      rw [hd.others i hla, hp] at hq; cases hq; rfl
    | true =>
      obtain ⟨p0, hp0, hu, hlead⟩ := (leadAt_iff t i).mp hla
      rw [hp] at hp0; cases hp0
      have o := hd.midr i p q hla hp hq
      rw [LeaderSeen, List.take_length] at o
      have : Spec.reported t i = some p.midr := by
        have h1 := reported_succ hp i
        rw [if_pos ⟨hu, hlead, hall i p hp hu⟩] at h1
        have hnone : Spec.reported (t.take i) i = none := by
          unfold Spec.reported
          rw [Option.map_eq_none_iff, List.find?_eq_none]
          intro x hx hxx
          obtain ⟨k, hk⟩ := List.getElem?_of_mem hx
          have hlt : k < i := by
            have := lt_of_get hk
            rw [List.length_take] at this; omega
          rw [List.getElem?_take_of_lt hlt] at hk
          have hxx : Usable x ∧ x.packageLeaderId = i ∧ Complete x := by simpa using hxx
          have := (hl k x hk hxx.1).1
          omega
        rw [hnone] at h1
        have h1 : Spec.reported (t.take (i + 1)) i = some p.midr := h1
        have hsplit : t = t.take (i + 1) ++ t.drop (i + 1) := (List.take_append_drop _ _).symm
        unfold Spec.reported at h1 ⊢
        rw [hsplit, List.find?_append]
        cases hf : (t.take (i + 1)).find? _ with
        | none => rw [hf] at h1; cases h1
        | some x => rw [hf] at h1; exact h1
      exact (o.1 _ this).1

end Verif.ArmClusterMidr
