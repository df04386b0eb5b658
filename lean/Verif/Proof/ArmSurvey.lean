import Verif.Proof.ArmMidrFinish
import Verif.Spec.ArmInit

/-!
# What the survey of clusters finds
-/

set_option autoImplicit false

namespace Verif.ArmClusterMidr
open Spec ArmMidr ArmCpuinfo ArmClusters ArmChipset
open X86Init (modify? bitmaskAll)

theorem full_complete (p : Proc) : Full p ↔ Complete p := Iff.rfl

theorem identified_iff (p : Proc) :
    bitmaskAll p.flags (validImplementer ||| validPart) = true ↔ Identified p := by
  have e : validImplementer ||| validPart = 2 ^ 17 ||| 2 ^ 19 := by decide
  unfold bitmaskAll Identified
  rw [beq_iff_eq, e]
  constructor
  · intro h
    have h17 := congrArg (fun n => Nat.testBit n 17) h
    have h19 := congrArg (fun n => Nat.testBit n 19) h
    simp only [Nat.testBit_and, Nat.testBit_or, Nat.testBit_two_pow] at h17 h19
    simpa using And.intro h17 h19
  · rintro ⟨h1, h2⟩
    apply Nat.eq_of_testBit_eq
    intro k
    simp only [Nat.testBit_and, Nat.testBit_or, Nat.testBit_two_pow]
    by_cases h17 : 17 = k
    · subst h17; simp [h1]
    · by_cases h19 : 19 = k
      · subst h19; simp [h2]
      · simp [h17, h19]

theorem reported_succ {t : List Proc} {j : Nat} {p : Proc} (h : t[j]? = some p) (l : Nat) :
    reported (t.take (j + 1)) l = (reported (t.take j) l).or
      (if Usable p ∧ p.packageLeaderId = l ∧ Complete p then some p.midr else none) := by
  have hj := lt_of_get h
  have : t.take (j + 1) = t.take j ++ [p] := by
    rw [List.take_add_one, h]; rfl
  unfold reported
  rw [this, List.find?_append]
  cases (t.take j).find? _ with
  | some q => rfl
  | none =>
    by_cases hc : Usable p ∧ p.packageLeaderId = l ∧ Complete p
    · rw [List.find?_cons_of_pos (by simpa using hc), if_pos hc]; rfl
    · rw [List.find?_cons_of_neg (by simpa using hc), if_neg hc]; rfl

theorem identifiedCount_succ {t : List Proc} {j : Nat} {p : Proc} (h : t[j]? = some p) :
    identifiedCount (t.take (j + 1)) = identifiedCount (t.take j) +
      (if Usable p ∧ Identified p then 1 else 0) := by
  have : t.take (j + 1) = t.take j ++ [p] := by
    rw [List.take_add_one, h]; rfl
  unfold identifiedCount
  rw [this, List.filter_append, List.length_append]
  congr 1
  by_cases hc : Usable p ∧ Identified p
  · rw [List.filter_cons_of_pos (by simpa using hc), if_pos hc]; rfl
  · rw [List.filter_cons_of_neg (by simpa using hc), if_neg hc]; rfl

/-- What a cluster leader looks like after positions below `j`. -/
def LeaderSeen (t : List Proc) (j l : Nat) (p q : Proc) : Prop :=
  (∀ m, reported (t.take j) l = some m → q.midr = m ∧ Full q) ∧
  (reported (t.take j) l = none →
    q.midr = p.midr ∧ ∀ k, 16 ≤ k → k ≤ 21 → q.flags.testBit k = p.flags.testBit k)

structure SurveyData (t : List Proc) (j : Nat) (s : Survey) : Prop where
  length : s.table.length = t.length
  fresh : ∀ i, j ≤ i → s.table[i]? = t[i]?
  others : ∀ i, leadAt t i = false → s.table[i]? = t[i]?
  midr : ∀ (l : Nat) (p q : Proc), leadAt t l = true → t[l]? = some p → s.table[l]? = some q →
    LeaderSeen t j l p q
  count : s.withMidr = identifiedCount (t.take j)
  lastMidr : s.withMidr ≠ 0 → ∃ p, t[s.lastWithMidr]? = some p ∧ Usable p ∧ Identified p
  lastListed : s.lastInCpuinfo = t.length ∨
    (∃ p, t[s.lastInCpuinfo]? = some p ∧ Usable p ∧ Listed p) ∧
      ∀ (i : Nat) (q : Proc), s.lastInCpuinfo < i → i < j → t[i]? = some q → Usable q → ¬ Listed q

theorem copyFrequency_midr (p l : Proc) : (copyFrequency p l).midr = l.midr ∧
    ∀ k, 16 ≤ k → k ≤ 21 → (copyFrequency p l).flags.testBit k = l.flags.testBit k := by
  unfold copyFrequency
  split
  · refine ⟨rfl, fun k h1 h2 => ?_⟩
    show (l.flags ||| flagMaxFrequency).testBit k = _
    have e : flagMaxFrequency = 2 ^ 2 := by decide
    rw [e, or_testBit, decide_eq_false (by omega), Bool.or_false]
  · exact ⟨rfl, fun _ _ _ => rfl⟩

theorem copyKnown_midr (p l : Proc) :
    (Full l → (copyKnown p l).midr = l.midr ∧ Full (copyKnown p l)) ∧
    (¬ Full l → Full p → (copyKnown p l).midr = p.midr ∧ Full (copyKnown p l)) ∧
    (¬ Full l → ¬ Full p → (copyKnown p l).midr = l.midr ∧
      ∀ k, 16 ≤ k → k ≤ 21 → (copyKnown p l).flags.testBit k = l.flags.testBit k) := by
  obtain ⟨h1, h2⟩ := copyFrequency_midr p l
  have hf : Full (copyFrequency p l) ↔ Full l :=
    ⟨fun h k a b => by rw [← h2 k a b]; exact h k a b, fun h k a b => by rw [h2 k a b]; exact h k a b⟩
  unfold copyKnown copyMidr
  refine ⟨fun h => ?_, fun h h' => ?_, fun h h' => ?_⟩
  · rw [if_neg (by simp [(full_iff _).mpr (hf.mpr h)])]
    exact ⟨h1, hf.mpr h⟩
  · rw [if_pos ⟨by rw [full_iff, hf]; exact h, (full_iff p).mpr h'⟩]
    refine ⟨rfl, fun k a b => ?_⟩
    show ((copyFrequency p l).flags ||| validMidr).testBit k = true
    rw [Nat.testBit_or, validMidr_testBit, decide_eq_true ⟨a, b⟩, Bool.or_true]
  · rw [if_neg (by rintro ⟨-, hh⟩; exact h' ((full_iff p).mp hh))]
    exact ⟨h1, h2⟩

theorem survey_data_step (t : List Proc) (hl : Led t) (j : Nat) (s s' : Survey) (hj : j < t.length)
    (h : SurveyData t j s) (e : surveyStep j s = some s') : SurveyData t (j + 1) s' := by
  have hp := List.getElem?_eq_getElem hj
  generalize t[j] = p at hp
  have hpt := h.fresh j (Nat.le_refl j)
  rw [hp] at hpt
  unfold surveyStep at e
  simp only [hpt, Option.bind_eq_bind, Option.bind_some] at e
  have hrep : ∀ l, reported (t.take (j + 1)) l = (reported (t.take j) l).or
      (if Usable p ∧ p.packageLeaderId = l ∧ Complete p then some p.midr else none) :=
    fun l => reported_succ hp l
  by_cases hv : valid p = true
  · rw [if_neg (by simp [hv])] at e
    have hu := (valid_iff p).mp hv
    generalize hs1 : (if has p validProcessor then { s with lastInCpuinfo := j } else s) = s1 at e
    generalize hs2 : (if bitmaskAll p.flags (validImplementer ||| validPart) then
      { s1 with lastWithMidr := j, withMidr := s1.withMidr + 1 } else s1) = s2 at e
    have hh : has p validProcessor = p.flags.testBit 21 := has_pow p 21
    have e1 : s1.table = s.table ∧ s1.withMidr = s.withMidr ∧ s1.lastWithMidr = s.lastWithMidr := by
      rw [← hs1]; split <;> exact ⟨rfl, rfl, rfl⟩
    have l1 : s1.lastInCpuinfo = t.length ∨
        (∃ p, t[s1.lastInCpuinfo]? = some p ∧ Usable p ∧ Listed p) ∧
        ∀ (i : Nat) (q : Proc), s1.lastInCpuinfo < i → i < j + 1 → t[i]? = some q → Usable q →
          ¬ Listed q := by
      rw [← hs1, hh]
      split
      · next hli =>
        exact .inr ⟨⟨p, hp, hu, hli⟩, fun i q h1 h2 => by
          have h1 : j < i := h1
          omega⟩
      · next hli =>
        rcases h.lastListed with h0 | ⟨h0, h0'⟩
        · exact .inl h0
        · refine .inr ⟨h0, fun i q h1 h2 hq huq => ?_⟩
          by_cases hij : i = j
          · subst hij; rw [hp] at hq; cases hq; exact hli
          · exact h0' i q h1 (by omega) hq huq
    have e2 : s2.table = s.table ∧ s2.lastInCpuinfo = s1.lastInCpuinfo := by
      rw [← hs2]; split <;> exact ⟨e1.1, rfl⟩
    have c2 : s2.withMidr = identifiedCount (t.take (j + 1)) := by
      rw [identifiedCount_succ hp, ← h.count, ← e1.2.1, ← hs2]
      by_cases hid : Identified p
      · rw [if_pos ((identified_iff p).mpr hid), if_pos ⟨hu, hid⟩]
      · rw [if_neg (mt (identified_iff p).mp hid), if_neg (fun h => hid h.2)]; rfl
    have m2 : s2.withMidr ≠ 0 → ∃ p, t[s2.lastWithMidr]? = some p ∧ Usable p ∧ Identified p := by
      rw [← hs2]
      split
      · next hid => exact fun _ => ⟨p, hp, hu, (identified_iff p).mp hid⟩
      · rw [e1.2.1, e1.2.2]; exact h.lastMidr
    by_cases hlj : p.packageLeaderId = j
    · rw [if_pos hlj] at e
      cases e
      refine ⟨?_, ?_, ?_, ?_, c2, m2, ?_⟩
      · show s2.table.length = _; rw [e2.1]; exact h.length
      · intro i hi; show s2.table[i]? = _; rw [e2.1]; exact h.fresh i (by omega)
      · intro i hi; show s2.table[i]? = _; rw [e2.1]; exact h.others i hi
      · intro l p' q' hla hp' hq'
        replace hq' : s.table[l]? = some q' := by rw [← e2.1]; exact hq'
        have old := h.midr l p' q' hla hp' hq'
        unfold LeaderSeen
        rw [hrep l]
        cases hr : reported (t.take j) l with
        | some m =>
          exact ⟨fun m' hm => (old.1 m' (by rw [hr]; exact hm)), fun hm => by cases hm⟩
        | none =>
          by_cases hc : Usable p ∧ p.packageLeaderId = l ∧ Complete p
          · rw [if_pos hc]
            have : l = j := by rw [← hc.2.1]; exact hlj
            subst this
            rw [hp] at hp'; cases hp'
            rw [hpt] at hq'; cases hq'
            exact ⟨fun m hm => by cases hm; exact ⟨rfl, hc.2.2⟩, fun hm => by cases hm⟩
          · rw [if_neg hc]
            exact ⟨fun m hm => by (cases hm), fun _ => old.2 hr⟩
      · show s2.lastInCpuinfo = _ ∨ _; rw [e2.2]; exact l1
    · rw [if_neg hlj] at e
      obtain ⟨hle, ⟨q, hq, hqu⟩, ⟨q1, hq1, hq1l⟩⟩ := hl j p hp hu
      rw [hq] at hq1; cases hq1
      have hll : leadAt t p.packageLeaderId = true := (leadAt_iff _ _).mpr ⟨q, hq, hqu, hq1l⟩
      have hne : p.packageLeaderId < j := by omega
      have : ∃ ql, s.table[p.packageLeaderId]? = some ql := by
        rw [List.getElem?_eq_getElem (show p.packageLeaderId < s.table.length by
          rw [h.length]; omega)]
        exact ⟨_, rfl⟩
      obtain ⟨ql, hql⟩ := this
      rw [e2.1, modify?_eq (copyKnown p) hql] at e
      cases e
      refine ⟨?_, ?_, ?_, ?_, c2, m2, ?_⟩
      · show (s.table.set _ _).length = _; rw [List.length_set]; exact h.length
      · intro i hi; show (s.table.set _ _)[i]? = _
        rw [List.getElem?_set_ne (by omega)]; exact h.fresh i (by omega)
      · intro i hi; show (s.table.set _ _)[i]? = _
        rw [List.getElem?_set_ne (by intro e; rw [e, hi] at hll; cases hll)]; exact h.others i hi
      · intro l p' q' hla hp' hq'
        have hq' : (s.table.set p.packageLeaderId (copyKnown p ql))[l]? = some q' := hq'
        rw [set_get hql] at hq'
        unfold LeaderSeen
        rw [hrep l]
        by_cases hlp : p.packageLeaderId = l
        · rw [if_pos hlp] at hq'
          cases hq'
          subst hlp
          have old := h.midr _ p' ql hla hp' hql
          obtain ⟨k1, k2, k3⟩ := copyKnown_midr p ql
          cases hr : reported (t.take j) p.packageLeaderId with
          | some m =>
            have o := old.1 m hr
            refine ⟨fun m' hm => ?_, fun hm => by cases hm⟩
            have : m = m' := Option.some.inj hm
            subst this
            rw [(k1 o.2).1]
            exact ⟨o.1, (k1 o.2).2⟩
          | none =>
            have o := old.2 hr
            by_cases hf : Complete p
            · rw [if_pos ⟨hu, rfl, hf⟩]
              refine ⟨fun m' hm => ?_, fun hm => by cases hm⟩
              have : p.midr = m' := Option.some.inj hm
              subst this
              by_cases hfl : Full ql
              · -- a complete leader would have been reported
                exfalso
                have hfp : Complete p' := fun k a b => by rw [← o.2 k a b]; exact hfl k a b
                have : p' = q := by rw [hq] at hp'; exact (Option.some.inj hp').symm
                subst this
                have h1 := reported_succ hq p.packageLeaderId
                rw [if_pos ⟨hqu, hq1l, hfp⟩] at h1
                have hmem : p' ∈ t.take j := by
                  have : (t.take j)[p.packageLeaderId]? = some p' := by
                    rw [List.getElem?_take_of_lt hne]; exact hq
                  exact List.mem_of_getElem? this
                unfold reported at hr
                rw [Option.map_eq_none_iff, List.find?_eq_none] at hr
                exact hr p' hmem (by simpa using ⟨hqu, hq1l, hfp⟩)
              · exact k2 hfl hf
            · rw [if_neg (fun hc => hf hc.2.2)]
              refine ⟨fun m' hm => by (cases hm), fun _ => ?_⟩
              by_cases hfl : Full ql
              · exact ⟨(k1 hfl).1.trans o.1, fun k a b => by
                  rw [(k1 hfl).2 k a b, ← o.2 k a b, hfl k a b]⟩
              · obtain ⟨a1, a2⟩ := k3 hfl hf
                exact ⟨a1.trans o.1, fun k a b => (a2 k a b).trans (o.2 k a b)⟩
        · rw [if_neg hlp] at hq'
          have old := h.midr l p' q' hla hp' hq'
          rw [if_neg (fun hc => hlp hc.2.1), Option.or_none]
          exact old
      · show s2.lastInCpuinfo = _ ∨ _; rw [e2.2]; exact l1
  · rw [if_pos (by simpa using hv)] at e
    cases e
    have hu := mt (valid_iff p).mpr hv
    refine ⟨h.length, fun i hi => h.fresh i (by omega), h.others, ?_, ?_, h.lastMidr, ?_⟩
    · intro l p' q' hla hp' hq'
      unfold LeaderSeen
      rw [hrep l, if_neg (fun hc => hu hc.1), Option.or_none]
      exact h.midr l p' q' hla hp' hq'
    · rw [identifiedCount_succ hp, if_neg (fun hc => hu hc.1)]; exact h.count
    · rcases h.lastListed with h0 | ⟨h0, h0'⟩
      · exact .inl h0
      · refine .inr ⟨h0, fun i q h1 h2 hq huq => ?_⟩
        by_cases hij : i = j
        · subst hij; rw [hp] at hq; cases hq; exact absurd huq hu
        · exact h0' i q h1 (by omega) hq huq

theorem survey_data (t : List Proc) (hl : Led t) (s : Survey)
    (e : forRange surveyStep t.length 0 ⟨0, [], t.length, t.length, 0, t⟩ = some s) :
    SurveyData t t.length s :=
  forRange_inv _ (SurveyData t) t.length (fun j s s' hj h e => survey_data_step t hl j s s' hj h e)
    t.length 0 _ s (by omega)
    ⟨rfl, fun _ _ => rfl, fun _ _ => rfl,
      fun l p q _ hp hq => by
        have hq : t[l]? = some q := hq
        rw [hp] at hq; cases hq
        exact ⟨fun m hm => by (cases hm), fun _ => ⟨rfl, fun _ _ _ => rfl⟩⟩,
      rfl, fun h => absurd rfl h, .inl rfl⟩ e

end Verif.ArmClusterMidr
