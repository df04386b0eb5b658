import Verif.Proof.ArmScan

/-!
# The heuristic that guesses clusters from the number of processors
-/

set_option autoImplicit false

namespace Verif.ArmClusters
open Spec ArmMidr ArmCpuinfo
open X86Init (modify? bitmaskAll)

theorem sizes_spec (c : Config) (u : Nat) (ss : List Nat) (h : clusterSizes c u = some ss) (k : Nat) :
    ss[k]? = if 4 * k < u then some (min 4 (u - 4 * k)) else none := by
  unfold clusterSizes at h
  have key : ∀ (a b : Nat) (l : List Nat), l.length = b → b ≤ 3 →
      (∀ k, k < 3 → l[k]? = if 4 * k < a then some (min 4 (a - 4 * k)) else none) → a ≤ 12 →
      l[k]? = if 4 * k < a then some (min 4 (a - 4 * k)) else none := by
    intro a b l hl hb hk ha
    rcases Nat.lt_or_ge k 3 with h3 | h3
    · exact hk k h3
    · rw [if_neg (by omega), List.getElem?_eq_none (by omega)]
  split at h
  · cases h; subst u; exact key 10 3 _ rfl (by omega) (by decide) (by omega)
  · split at h
    · cases h; subst u; exact key 8 2 _ rfl (by omega) (by decide) (by omega)
    · split at h
      · cases h; subst u; exact key 6 2 _ rfl (by omega) (by decide) (by omega)
      · split at h
        · rename_i h5
          cases h
          obtain ⟨h5, -⟩ := h5
          subst u
          exact key 5 2 _ rfl (by omega) (by decide) (by omega)
        · cases h

theorem rank_zero (t : List Proc) : rank t 0 = 0 := by simp [rank]

theorem rank_succ {t : List Proc} {i : Nat} {p : Proc} (h : t[i]? = some p) :
    rank t (i + 1) = rank t i + if p.flags.testBit 12 then 1 else 0 := by
  unfold rank
  rw [List.take_add_one, h, List.filter_append, List.length_append]
  cases hb : p.flags.testBit 12 <;> simp [hb]

theorem rank_usable {t : List Proc} {i : Nat} {p : Proc} (h : t[i]? = some p) (hu : Usable p) :
    rank t (i + 1) = rank t i + 1 := by
  rw [rank_succ h, if_pos (show p.flags.testBit 12 = true from hu)]

theorem rank_unusable {t : List Proc} {i : Nat} {p : Proc} (h : t[i]? = some p) (hu : ¬ Usable p) :
    rank t (i + 1) = rank t i := by
  rw [rank_succ h, if_neg (show ¬ p.flags.testBit 12 = true from hu)]; rfl

theorem rank_le_succ (t : List Proc) (i : Nat) : rank t i ≤ rank t (i + 1) := by
  cases h : t[i]? with
  | some p => rw [rank_succ h]; omega
  | none =>
    unfold rank
    rw [List.take_add_one, h]; simp

theorem rank_mono (t : List Proc) {i j : Nat} (h : i ≤ j) : rank t i ≤ rank t j := by
  induction j with
  | zero => rw [show i = 0 by omega]; exact Nat.le_refl _
  | succ j ih =>
    rcases Nat.lt_or_ge i (j + 1) with hh | hh
    · exact Nat.le_trans (ih (by omega)) (rank_le_succ t j)
    · rw [show i = j + 1 by omega]; exact Nat.le_refl _

theorem rank_length (t : List Proc) : rank t t.length = usableCount t := by
  unfold rank usableCount
  rw [List.take_length]

theorem rank_lt {t : List Proc} {i j : Nat} (hi : UsableAt t i) (h : i < j) : rank t i < rank t j := by
  obtain ⟨p, hp, hu⟩ := hi
  have := rank_usable hp hu
  have := rank_mono t (show i + 1 ≤ j by omega)
  omega

theorem rank_inj {t : List Proc} {i j : Nat} (hi : UsableAt t i) (hj : UsableAt t j)
    (h : rank t i = rank t j) : i = j := by
  rcases Nat.lt_trichotomy i j with hh | hh | hh
  · have := rank_lt hi hh; omega
  · exact hh
  · have := rank_lt hj hh; omega

theorem rank_lt_count {t : List Proc} {i : Nat} (hi : UsableAt t i) : rank t i < usableCount t := by
  obtain ⟨p, hp, hu⟩ := hi
  rw [← rank_length]
  exact rank_lt ⟨p, hp, hu⟩ (lt_of_get hp)

theorem mark_of_clustered {p : Proc} (h : Clustered p) : mark flagCluster p = p := by
  have : p.flags ||| flagCluster = p.flags := by
    apply Nat.eq_of_testBit_eq
    intro i
    rw [show flagCluster = 2 ^ 10 by decide, or_testBit]
    by_cases hi : 10 = i
    · subst hi; rw [show p.flags.testBit 10 = true from h]; rfl
    · simp [hi]
  unfold mark
  rw [this]

theorem placed_of_clustered {p : Proc} {g : Nat} (h : Clustered p) (hl : p.packageLeaderId = g) :
    placed p g = p := by
  unfold placed
  rw [mark_of_clustered h, ← hl]

/-- What verification establishes about the processors at positions below `i`. -/
structure Verified (t : List Proc) (i : Nat) : Prop where
  same : ∀ (j g : Nat) (p q : Proc), j < i → t[j]? = some p → Usable p → t[g]? = some q → Usable q →
    rank t g = rank t j / 4 * 4 →
      (Clustered p ↔ Clustered q) ∧ (Clustered p → p.packageLeaderId = g)
  agree : ∀ (j k : Nat) (p q : Proc), j < i → k < i → t[j]? = some p → Usable p → t[k]? = some q →
    Usable q → rank t j / 4 = rank t k / 4 → rank t j % 4 ≠ 0 → rank t k % 4 ≠ 0 →
    ¬ Clustered p → ¬ Clustered q → ¬ Conflict p q

/-- The invariant of the verification pass. -/
structure VerifyInv (t : List Proc) (u : Nat) (i : Nat) (s : Verify) : Prop where
  done : Verified t i
  le : rank t i ≤ u
  cluster : s.cluster = (rank t i + 3) / 4
  expected : s.expected = min (4 * s.cluster) u - rank t i
  start : s.expected ≠ 0 → ∃ q, t[s.start]? = some q ∧ Usable q ∧ s.start < i ∧
    rank t s.start = 4 * (s.cluster - 1) ∧ (s.exists' = true ↔ Clustered q)
  known1 : s.expected ≠ 0 → s.exists' = false → ∀ d v, cknown s.attrs d = some v →
    ∃ (m : Nat) (p : Proc), m < i ∧ t[m]? = some p ∧ Usable p ∧ ¬ Clustered p ∧
      rank t m / 4 = s.cluster - 1 ∧ rank t m % 4 ≠ 0 ∧ known p d = some v
  known2 : s.expected ≠ 0 → s.exists' = false → ∀ (m : Nat) (p : Proc), m < i → t[m]? = some p →
    Usable p → rank t m / 4 = s.cluster - 1 → rank t m % 4 ≠ 0 →
    ∀ d v, known p d = some v → cknown s.attrs d = some v

theorem conflict_symm {p q : Proc} (h : Conflict p q) : Conflict q p := by
  obtain ⟨d, v, w, h1, h2, h3⟩ := h
  exact ⟨d, w, v, h2, h1, Ne.symm h3⟩

theorem conflict_irrefl (p : Proc) : ¬ Conflict p p := by
  rintro ⟨d, v, w, h1, h2, h3⟩
  rw [h1] at h2; cases h2; exact h3 rfl

theorem verifyStep_inv (c : Config) (t : List Proc) (u : Nat) (ss : List Nat)
    (hss : clusterSizes c u = some ss) (i : Nat) (s : Verify) (hi : i < t.length)
    (h : s.ok = true → VerifyInv t u i s) :
    (∃ s', verifyStep ss t i s = some s' ∧ (s'.ok = true → VerifyInv t u (i + 1) s')) ∨
      (u ≤ rank t i ∧ UsableAt t i) := by
  have hq : t[i]? = some t[i] := List.getElem?_eq_getElem hi
  generalize t[i] = p at hq
  cases hok : s.ok with
  | false =>
    left
    refine ⟨s, ?_, fun hh => absurd hh (by rw [hok]; decide)⟩
    unfold verifyStep
    rw [hok]; rfl
  | true =>
    have h := h hok
    by_cases hu : Usable p
    · have hr : rank t (i + 1) = rank t i + 1 := rank_usable hq hu
      have hUi : UsableAt t i := ⟨p, hq, hu⟩
      have hcl := h.cluster
      have hex := h.expected
      by_cases hfull : u ≤ rank t i
      · exact Or.inr ⟨hfull, hUi⟩
      left
      -- the processor at position i joins a group whose first member is at position g
      have ext : ∀ (g : Nat) (q : Proc), t[g]? = some q → Usable q → rank t g = rank t i / 4 * 4 →
          ((Clustered p ↔ Clustered q) ∧ (Clustered p → p.packageLeaderId = g)) →
          (∀ (m : Nat) (r : Proc), m < i → t[m]? = some r → Usable r →
            rank t m / 4 = rank t i / 4 → rank t m % 4 ≠ 0 → rank t i % 4 ≠ 0 →
            ¬ Clustered r → ¬ Clustered p → ¬ Conflict r p) → Verified t (i + 1) := by
        intro g q hg hgu hgr hcon hag
        refine ⟨?_, ?_⟩
        · intro j g' p' q' hj hp' hu' hg' hgu' hgr'
          by_cases hji : j = i
          · subst hji
            rw [hq] at hp'; cases hp'
            have : g' = g := rank_inj ⟨q', hg', hgu'⟩ ⟨q, hg, hgu⟩ (hgr'.trans hgr.symm)
            subst this
            rw [hg] at hg'; cases hg'
            exact hcon
          · exact h.done.same j g' p' q' (by omega) hp' hu' hg' hgu' hgr'
        · intro j k p' q' hj hk hp' hu' hq' huq' hrr h1 h2 hc hc'
          by_cases hji : j = i
          · subst hji
            rw [hq] at hp'; cases hp'
            by_cases hki : k = j
            · subst hki
              rw [hq] at hq'; cases hq'; exact conflict_irrefl _
            · intro hcon'
              exact hag k q' (by omega) hq' huq' hrr.symm h2 h1 hc' hc (conflict_symm hcon')
          · by_cases hki : k = i
            · subst hki
              rw [hq] at hq'; cases hq'
              exact hag j p' (by omega) hp' hu' hrr h1 h2 hc hc'
            · exact h.done.agree j k p' q' (by omega) (by omega) hp' hu' hq' huq' hrr h1 h2 hc hc'
      unfold verifyStep
      rw [hok, hq]
      simp only [not_true_eq_false, if_false, Option.bind_eq_bind, Option.bind_some]
      rw [if_neg (fun hh => hh ((valid_iff p).mpr hu))]
      by_cases h0 : s.expected = 0
      · rw [if_pos h0]
        have h4 : rank t i = 4 * s.cluster := by omega
        have hrg : rank t i = rank t i / 4 * 4 := by omega
        rw [sizes_spec c u ss hss s.cluster, if_pos (by omega), Option.bind_some]
        by_cases hbad : (has p flagCluster = true) ∧ p.packageLeaderId ≠ i
        · rw [if_pos hbad]
          exact ⟨_, rfl, fun hh => absurd hh Bool.false_ne_true⟩
        · rw [if_neg hbad]
          refine ⟨_, rfl, fun _ => ⟨?_, by omega, ?_, ?_, ?_, ?_, ?_⟩⟩
          · refine ext i p hq hu hrg ⟨Iff.rfl, fun hc => ?_⟩ (fun m r _ _ _ _ _ h3 => by omega)
            apply Classical.byContradiction
            intro hne
            exact hbad ⟨(hasCluster_iff p).mpr hc, hne⟩
          · dsimp only; omega
          · dsimp only; omega
          · intro _
            refine ⟨p, hq, hu, Nat.lt_succ_self i, ?_, hasCluster_iff p⟩
            dsimp only; omega
          · intro _ hex d v hv
            dsimp only at hex hv
            rw [hex] at hv
            simp only [Bool.false_eq_true, if_false] at hv
            rw [(cknown_none _ _).mpr (Nat.zero_testBit _)] at hv
            cases hv
          · intro _ hex m r hm hr' hur hr4 hrm
            dsimp only at hr4
            exfalso
            by_cases hmi : m = i
            · subst hmi; omega
            · have := rank_lt (t := t) ⟨r, hr', hur⟩ (show m < i by omega)
              omega
      · rw [if_neg h0]
        obtain ⟨q, hg, hgu, hgi, hgr, hgc⟩ := h.start h0
        have hri : rank t i / 4 = s.cluster - 1 := by
          have := rank_lt (t := t) ⟨q, hg, hgu⟩ hgi
          omega
        have hne : rank t i % 4 ≠ 0 := by
          have := rank_lt (t := t) ⟨q, hg, hgu⟩ hgi
          omega
        have hgr' : rank t s.start = rank t i / 4 * 4 := by omega
        have keep : ∀ (e : Nat), e = s.expected - 1 →
            e = min (4 * s.cluster) u - rank t (i + 1) := by intro e he; omega
        cases hx : s.exists' with
        | true =>
          simp only [if_true]
          have hcq := hgc.mp hx
          by_cases hpc : has p flagCluster = true
          · rw [if_neg (fun hh => hh hpc)]
            have hcp := (hasCluster_iff p).mp hpc
            by_cases hlead : p.packageLeaderId ≠ s.start
            · rw [if_pos hlead]
              exact ⟨_, rfl, fun hh => absurd hh Bool.false_ne_true⟩
            · rw [if_neg hlead]
              have hlead : p.packageLeaderId = s.start := by
                apply Classical.byContradiction; intro hh; exact hlead hh
              refine ⟨_, rfl, fun _ => ⟨?_, by omega, ?_, ?_, ?_, ?_, ?_⟩⟩
              · exact ext s.start q hg hgu hgr' ⟨⟨fun _ => hcq, fun _ => hcp⟩, fun _ => hlead⟩
                  (fun m r _ _ _ _ _ _ _ hn => absurd hcp hn)
              · dsimp only; omega
              · exact keep _ rfl
              · intro _
                exact ⟨q, hg, hgu, Nat.lt_succ_of_lt hgi, hgr, ⟨fun _ => hcq, fun _ => rfl⟩⟩
              · intro _ hf; cases hf
              · intro _ hf; cases hf
          · rw [if_pos hpc]
            exact ⟨_, rfl, fun hh => absurd hh Bool.false_ne_true⟩
        | false =>
          simp only [Bool.false_eq_true, if_false]
          have hcq : ¬ Clustered q := fun hh => by
            have := hgc.mpr hh
            rw [hx] at this; cases this
          by_cases hpc : has p flagCluster = true
          · rw [if_pos hpc]
            exact ⟨_, rfl, fun hh => absurd hh Bool.false_ne_true⟩
          · rw [if_neg hpc]
            have hcp : ¬ Clustered p := fun hh => hpc ((hasCluster_iff p).mpr hh)
            refine ⟨_, rfl, fun hb => ?_⟩
            dsimp only at hb
            refine ⟨?_, by omega, ?_, ?_, ?_, ?_, ?_⟩
            · refine ext s.start q hg hgu hgr'
                ⟨⟨fun hh => absurd hh hcp, fun hh => absurd hh hcq⟩, fun hh => absurd hh hcp⟩ ?_
              rintro m r hm hr' hur hr4 hrm - - - ⟨d, v, w, hv, hw, hvw⟩
              have := h.known2 h0 hx m r hm hr' hur (hr4.trans hri) hrm d v hv
              exact hvw ((checkAttrs_ok _ _).mp hb d v w this hw)
            · dsimp only; omega
            · exact keep _ rfl
            · intro _
              exact ⟨q, hg, hgu, Nat.lt_succ_of_lt hgi, hgr, by dsimp only; rw [← hx]; exact hgc⟩
            · intro _ _ d v hv
              dsimp only at hv ⊢
              rw [checkAttrs_known _ _ hb] at hv
              cases hc : cknown s.attrs d with
              | some w =>
                rw [hc] at hv; cases hv
                obtain ⟨m, r, a, b⟩ := h.known1 h0 hx d _ hc
                exact ⟨m, r, by omega, b⟩
              | none =>
                rw [hc] at hv
                exact ⟨i, p, by omega, hq, hu, hcp, hri, hne, hv⟩
            · intro _ _ m r hm hr' hur hr4 hrm d v hv
              dsimp only at hr4 ⊢
              rw [checkAttrs_known _ _ hb]
              by_cases hmi : m = i
              · subst hmi
                rw [hq] at hr'; cases hr'
                cases hc : cknown s.attrs d with
                | none => exact hv
                | some w =>
                  rw [(checkAttrs_ok _ _).mp hb d w v hc hv]; rfl
              · rw [h.known2 h0 hx m r (by omega) hr' hur hr4 hrm d v hv]; rfl
    · left
      have hr : rank t (i + 1) = rank t i := rank_unusable hq hu
      refine ⟨s, ?_, fun _ => ?_⟩
      · unfold verifyStep
        rw [hok, hq]
        simp only [not_true_eq_false, if_false, Option.bind_eq_bind, Option.bind_some]
        rw [if_pos (fun hh => hu ((valid_iff p).mp hh))]; rfl
      · have lower : ∀ (j : Nat) (r : Proc), j < i + 1 → t[j]? = some r → Usable r → j < i := by
          intro j r hj hr' hur
          rcases Nat.lt_or_ge j i with hh | hh
          · exact hh
          · have : j = i := by omega
            subst this
            rw [hq] at hr'; cases hr'; exact absurd hur hu
        refine ⟨⟨?_, ?_⟩, by rw [hr]; exact h.le, by rw [hr]; exact h.cluster,
          by rw [hr]; exact h.expected, ?_, ?_, ?_⟩
        · intro j g p' q' hj hp' hu'
          exact h.done.same j g p' q' (lower j p' hj hp' hu') hp' hu'
        · intro j k p' q' hj hk hp' hu' hq' huq'
          exact h.done.agree j k p' q' (lower j p' hj hp' hu') (lower k q' hk hq' huq') hp' hu' hq' huq'
        · intro h0
          obtain ⟨q, a, b, c', d⟩ := h.start h0
          exact ⟨q, a, b, by omega, d⟩
        · intro h0 hx d v hv
          obtain ⟨m, r, a, b⟩ := h.known1 h0 hx d v hv
          exact ⟨m, r, by omega, b⟩
        · intro h0 hx m r hm hr' hur
          exact h.known2 h0 hx m r (lower m r hm hr' hur) hr' hur

/-- The invariant of the assignment pass. -/
structure AssignInv (t : List Proc) (u : Nat) (i : Nat) (s : Assign) : Prop where
  length : s.table.length = t.length
  later : ∀ j, i ≤ j → s.table[j]? = t[j]?
  unusable : ∀ (j : Nat) (p : Proc), t[j]? = some p → ¬ Usable p → s.table[j]? = some p
  first : ∀ (j : Nat) (p : Proc), j < i → t[j]? = some p → Usable p → rank t j % 4 = 0 →
    s.table[j]? = some p
  member : ∀ (j : Nat) (p : Proc), j < i → t[j]? = some p → Usable p → rank t j % 4 ≠ 0 →
    ∃ g, UsableAt t g ∧ g < j ∧ rank t g = rank t j / 4 * 4 ∧ s.table[j]? = some (placed p g)
  le : rank t i ≤ u
  cluster : s.cluster = (rank t i + 3) / 4
  expected : s.expected = min (4 * s.cluster) u - rank t i
  start : s.expected ≠ 0 → UsableAt t s.start ∧ s.start < i ∧ rank t s.start = 4 * (s.cluster - 1)

theorem assignStep_inv (c : Config) (t : List Proc) (u : Nat) (ss : List Nat)
    (hss : clusterSizes c u = some ss) (i : Nat) (s : Assign) (hi : i < t.length)
    (h : AssignInv t u i s) :
    (∃ s', assignStep ss i s = some s' ∧ AssignInv t u (i + 1) s') ∨ (u ≤ rank t i ∧ UsableAt t i) := by
  have hq : t[i]? = some t[i] := List.getElem?_eq_getElem hi
  generalize t[i] = p at hq
  have hsq : s.table[i]? = some p := (h.later i (Nat.le_refl _)).trans hq
  have hcl := h.cluster
  have hex := h.expected
  by_cases hu : Usable p
  · have hr : rank t (i + 1) = rank t i + 1 := rank_usable hq hu
    have hUi : UsableAt t i := ⟨p, hq, hu⟩
    by_cases hfull : u ≤ rank t i
    · exact Or.inr ⟨hfull, hUi⟩
    left
    unfold assignStep
    rw [hsq]
    simp only [Option.bind_eq_bind, Option.bind_some]
    rw [if_neg (fun hh => hh ((valid_iff p).mpr hu))]
    by_cases h0 : s.expected = 0
    · rw [if_pos h0]
      have h4 : rank t i = 4 * s.cluster := by omega
      rw [sizes_spec c u ss hss s.cluster, if_pos (by omega)]
      simp only [Option.bind_some]
      refine ⟨_, rfl, ⟨h.length, fun j hj => h.later j (by omega), h.unusable, ?_, ?_, by omega, ?_, ?_,
        ?_⟩⟩
      · intro j p' hj hp' hu' hr'
        by_cases hji : j = i
        · subst hji; rw [hq] at hp'; cases hp'; exact hsq
        · exact h.first j p' (by omega) hp' hu' hr'
      · intro j p' hj hp' hu' hr'
        by_cases hji : j = i
        · subst hji; omega
        · exact h.member j p' (by omega) hp' hu' hr'
      · dsimp only; omega
      · dsimp only; omega
      · intro _
        refine ⟨hUi, Nat.lt_succ_self i, ?_⟩
        dsimp only; omega
    · rw [if_neg h0]
      obtain ⟨hg, hgi, hgr⟩ := h.start h0
      have hlt := rank_lt hg hgi
      rw [modify?_eq _ hsq]
      simp only [Option.bind_some]
      refine ⟨_, rfl, ⟨?_, ?_, ?_, ?_, ?_, by omega, ?_, ?_, ?_⟩⟩
      · dsimp only; rw [List.length_set]; exact h.length
      · intro j hj
        dsimp only
        rw [List.getElem?_set_ne (by omega)]; exact h.later j (by omega)
      · intro j p' hp' hn
        have : i ≠ j := by
          intro hh; subst hh; rw [hq] at hp'; cases hp'; exact hn hu
        dsimp only
        rw [List.getElem?_set_ne this]; exact h.unusable j p' hp' hn
      · intro j p' hj hp' hu' hr'
        have : i ≠ j := by
          intro hh; subst hh; omega
        dsimp only
        rw [List.getElem?_set_ne this]; exact h.first j p' (by omega) hp' hu' hr'
      · intro j p' hj hp' hu' hr'
        dsimp only
        rw [set_get hsq]
        by_cases hji : i = j
        · subst hji
          rw [hq] at hp'; cases hp'
          exact ⟨s.start, hg, hgi, by omega, if_pos rfl⟩
        · rw [if_neg hji]
          exact h.member j p' (by omega) hp' hu' hr'
      · dsimp only; omega
      · dsimp only; omega
      · intro _; exact ⟨hg, Nat.lt_succ_of_lt hgi, hgr⟩
  · left
    have hr : rank t (i + 1) = rank t i := rank_unusable hq hu
    refine ⟨s, ?_, ?_⟩
    · unfold assignStep
      rw [hsq]
      simp only [Option.bind_eq_bind, Option.bind_some]
      rw [if_pos (fun hh => hu ((valid_iff p).mp hh))]; rfl
    · have lower : ∀ (j : Nat) (r : Proc), j < i + 1 → t[j]? = some r → Usable r → j < i := by
        intro j r hj hr' hur
        rcases Nat.lt_or_ge j i with hh | hh
        · exact hh
        · have : j = i := by omega
          subst this
          rw [hq] at hr'; cases hr'; exact absurd hur hu
      refine ⟨h.length, fun j hj => h.later j (by omega), h.unusable, ?_, ?_, by rw [hr]; exact h.le,
        by rw [hr]; exact h.cluster, by rw [hr]; exact h.expected, ?_⟩
      · intro j p' hj hp' hu'; exact h.first j p' (lower j p' hj hp' hu') hp' hu'
      · intro j p' hj hp' hu'; exact h.member j p' (lower j p' hj hp' hu') hp' hu'
      · intro h0
        obtain ⟨a, b, c'⟩ := h.start h0
        exact ⟨a, by omega, c'⟩

theorem verify_start (t : List Proc) (u : Nat) (junk : Attrs) :
    VerifyInv t u 0 ⟨0, 0, 0, false, junk, true⟩ := by
  refine ⟨⟨fun _ _ _ _ h => absurd h (by omega), fun _ _ _ _ h => absurd h (by omega)⟩,
    by rw [rank_zero]; omega, by rw [rank_zero], by rw [rank_zero]; simp, fun h => absurd rfl h,
    fun h => absurd rfl h, fun h => absurd rfl h⟩

theorem assign_start (t : List Proc) (u : Nat) : AssignInv t u 0 ⟨0, 0, 0, t⟩ := by
  refine ⟨rfl, fun _ _ => rfl, fun _ _ h _ => h, fun _ _ h => absurd h (by omega),
    fun _ _ h => absurd h (by omega), by rw [rank_zero]; omega, by rw [rank_zero],
    by rw [rank_zero]; simp, fun h => absurd rfl h⟩

/-- What a successful run of the heuristic means. -/
theorem heuristic_true (c : Config) (junk : Attrs) (u : Nat) (t t' : List Proc)
    (h : heuristic c junk u t = some (t', true)) :
    ∃ ss, clusterSizes c u = some ss ∧ Verified t t.length ∧
      ∃ s, s.table = t' ∧ AssignInv t u t.length s := by
  unfold heuristic at h
  cases hss : clusterSizes c u with
  | none => rw [hss] at h; cases h
  | some ss =>
    rw [hss] at h
    simp only [Option.bind_eq_bind] at h
    cases hv : forRange (verifyStep ss t) t.length 0 ⟨0, 0, 0, false, junk, true⟩ with
    | none => rw [hv] at h; cases h
    | some v =>
      rw [hv] at h
      simp only [Option.bind_some] at h
      by_cases hok : v.ok = true
      · rw [if_neg (fun hh => hh hok)] at h
        cases ha : forRange (assignStep ss) t.length 0 ⟨0, 0, 0, t⟩ with
        | none => rw [ha] at h; cases h
        | some s =>
          rw [ha] at h
          cases h
          refine ⟨ss, rfl, ?_, s, rfl, ?_⟩
          · refine (forRange_inv (verifyStep ss t)
              (fun i s => s.ok = true → VerifyInv t u i s) t.length ?_ t.length 0 _ v (by omega)
              (fun _ => verify_start t u junk) hv hok).done
            intro j s s' hj hinv e
            intro hok'
            rcases verifyStep_inv c t u ss hss j s hj hinv with ⟨s1, e1, h1⟩ | ⟨hfull, hU⟩
            · rw [e1] at e; cases e; exact h1 hok'
            · exfalso
              obtain ⟨p, hp, hpu⟩ := hU
              unfold verifyStep at e
              cases hsok : s.ok with
              | false =>
                rw [hsok] at e
                cases e
                rw [hsok] at hok'; cases hok'
              | true =>
                have hinv := hinv hsok
                rw [hsok, hp] at e
                simp only [not_true_eq_false, if_false, Option.bind_eq_bind, Option.bind_some] at e
                rw [if_neg (fun hh => hh ((valid_iff p).mpr hpu))] at e
                have hle := hinv.le
                have hcl := hinv.cluster
                have hex := hinv.expected
                rw [if_pos (by omega)] at e
                rw [sizes_spec c u ss hss s.cluster, if_neg (by omega)] at e
                cases e
          · refine forRange_inv (assignStep ss) (AssignInv t u) t.length ?_ t.length 0 _ s (by omega)
              (assign_start t u) ha
            intro j s s' hj hinv e
            rcases assignStep_inv c t u ss hss j s hj hinv with ⟨s1, e1, h1⟩ | ⟨hfull, p, hp, hpu⟩
            · rw [e1] at e; cases e; exact h1
            · exfalso
              unfold assignStep at e
              rw [(hinv.later j (Nat.le_refl _)).trans hp] at e
              simp only [Option.bind_eq_bind, Option.bind_some] at e
              rw [if_neg (fun hh => hh ((valid_iff p).mpr hpu))] at e
              have hle := hinv.le
              have hcl := hinv.cluster
              have hex := hinv.expected
              rw [if_pos (by omega), sizes_spec c u ss hss s.cluster, if_neg (by omega)] at e
              cases e
      · rw [if_pos hok] at h
        cases h

theorem heuristic_false (c : Config) (junk : Attrs) (u : Nat) (t t' : List Proc)
    (h : heuristic c junk u t = some (t', false)) : t' = t := by
  unfold heuristic at h
  cases hss : clusterSizes c u with
  | none => rw [hss] at h; cases h; rfl
  | some ss =>
    rw [hss] at h
    simp only [Option.bind_eq_bind] at h
    cases hv : forRange (verifyStep ss t) t.length 0 ⟨0, 0, 0, false, junk, true⟩ with
    | none => rw [hv] at h; cases h
    | some v =>
      rw [hv] at h
      simp only [Option.bind_some] at h
      by_cases hok : v.ok = true
      · rw [if_neg (fun hh => hh hok)] at h
        cases ha : forRange (assignStep ss) t.length 0 ⟨0, 0, 0, t⟩ with
        | none => rw [ha] at h; cases h
        | some s => rw [ha] at h; cases h
      · rw [if_pos hok] at h
        cases h; rfl

/-- No uninitialised array element is read if there are no more usable processors than the caller
says. -/
theorem heuristic_total (c : Config) (junk : Attrs) (u : Nat) (t : List Proc)
    (hu : usableCount t ≤ u) : ∃ r, heuristic c junk u t = some r := by
  unfold heuristic
  cases hss : clusterSizes c u with
  | none => exact ⟨_, rfl⟩
  | some ss =>
    simp only [Option.bind_eq_bind]
    obtain ⟨v, hv, -⟩ := forRange_total (verifyStep ss t)
      (fun i s => s.ok = true → VerifyInv t u i s) t.length (by
        intro j s hj hinv
        rcases verifyStep_inv c t u ss hss j s hj hinv with h | ⟨h1, h2⟩
        · exact h
        · have := rank_lt_count h2; omega) t.length 0 ⟨0, 0, 0, false, junk, true⟩ (by omega)
      (fun _ => verify_start t u junk)
    rw [hv]
    simp only [Option.bind_some]
    by_cases hok : v.ok = true
    · rw [if_neg (fun hh => hh hok)]
      obtain ⟨s, hs, -⟩ := forRange_total (assignStep ss) (AssignInv t u) t.length (by
        intro j s hj hinv
        rcases assignStep_inv c t u ss hss j s hj hinv with h | ⟨h1, h2⟩
        · exact h
        · have := rank_lt_count h2; omega) t.length 0 ⟨0, 0, 0, t⟩ (by omega) (assign_start t u)
      rw [hs]
      exact ⟨_, rfl⟩
    · rw [if_pos hok]; exact ⟨_, rfl⟩

/-- Verification passes if what it establishes holds. -/
theorem verifyStep_ok (t : List Proc) (u : Nat) (ss : List Nat) (n : Nat) (hn : n ≤ t.length)
    (hV : Verified t n) (i : Nat) (s s' : Verify) (hi : i < n) (hu : UsableAt t i → rank t i < u)
    (hok : s.ok = true)
    (h : VerifyInv t u i s) (e : verifyStep ss t i s = some s') : s'.ok = true := by
  have hq : t[i]? = some t[i] := List.getElem?_eq_getElem (by omega)
  generalize t[i] = p at hq
  unfold verifyStep at e
  rw [hok, hq] at e
  simp only [not_true_eq_false, if_false, Option.bind_eq_bind, Option.bind_some] at e
  by_cases hpu : Usable p
  · rw [if_neg (fun hh => hh ((valid_iff p).mpr hpu))] at e
    have hlt := hu ⟨p, hq, hpu⟩
    have hle := h.le
    have hcl := h.cluster
    have hex := h.expected
    by_cases h0 : s.expected = 0
    · rw [if_pos h0] at e
      have hr : rank t i = rank t i / 4 * 4 := by omega
      have hsame := hV.same i i p p hi hq hpu hq hpu hr
      cases hz : ss[s.cluster]? with
      | none => rw [hz] at e; cases e
      | some z =>
        rw [hz, Option.bind_some] at e
        rw [if_neg (fun hh => hh.2 (hsame.2 ((hasCluster_iff p).mp hh.1)))] at e
        cases e; rfl
    · rw [if_neg h0] at e
      obtain ⟨q, hg, hgu, hgi, hgr, hgc⟩ := h.start h0
      have hr : rank t s.start = rank t i / 4 * 4 := by omega
      have hsame := hV.same i s.start p q hi hq hpu hg hgu hr
      cases hx : s.exists' with
      | true =>
        rw [hx] at e
        have hc := hsame.1.mpr (hgc.mp hx)
        simp only [if_true] at e
        rw [if_neg (fun hh => hh ((hasCluster_iff p).mpr hc)),
          if_neg (fun hh => hh (hsame.2 hc))] at e
        cases e; rfl
      | false =>
        rw [hx] at e
        have hnc : ¬ Clustered p := by
          intro hc
          have := hgc.mpr (hsame.1.mp hc)
          rw [hx] at this; cases this
        simp only [Bool.false_eq_true, if_false] at e
        rw [if_neg (fun hh => hnc ((hasCluster_iff p).mp hh))] at e
        cases e
        show (checkAttrs p s.attrs).2 = true
        rw [checkAttrs_ok]
        intro d v w hv hw
        apply Classical.byContradiction
        intro hne
        obtain ⟨m, r, hm, hr', hur, hcr, hr4, hrm, hkv⟩ := h.known1 h0 hx d v hv
        exact hV.agree m i r p (by omega) hi hr' hur hq hpu (by omega) hrm (by omega) hcr hnc
          ⟨d, v, w, hkv, hw, hne⟩
  · rw [if_pos (fun hh => hpu ((valid_iff p).mp hh))] at e
    cases e; exact hok

theorem heuristic_succeeds (c : Config) (junk : Attrs) (u : Nat) (t : List Proc) (ss : List Nat)
    (hss : clusterSizes c u = some ss) (hu : usableCount t ≤ u) (hV : Verified t t.length) :
    ∃ t', heuristic c junk u t = some (t', true) := by
  unfold heuristic
  rw [hss]
  simp only [Option.bind_eq_bind]
  obtain ⟨v, hv, hok, -⟩ := forRange_total (verifyStep ss t)
    (fun i s => s.ok = true ∧ VerifyInv t u i s) t.length (by
      rintro j s hj ⟨hok, hinv⟩
      rcases verifyStep_inv c t u ss hss j s hj (fun _ => hinv) with ⟨s', e, h⟩ | ⟨h1, h2⟩
      · have := verifyStep_ok t u ss t.length (Nat.le_refl _) hV j s s' hj
          (fun hU => Nat.lt_of_lt_of_le (rank_lt_count hU) hu) hok hinv e
        exact ⟨s', e, this, h this⟩
      · have := rank_lt_count h2; omega) t.length 0 ⟨0, 0, 0, false, junk, true⟩ (by omega)
    ⟨rfl, verify_start t u junk⟩
  rw [hv]
  simp only [Option.bind_some]
  rw [if_neg (fun hh => hh hok)]
  obtain ⟨s, hs, -⟩ := forRange_total (assignStep ss) (AssignInv t u) t.length (by
    intro j s hj hinv
    rcases assignStep_inv c t u ss hss j s hj hinv with h | ⟨h1, h2⟩
    · exact h
    · have := rank_lt_count h2; omega) t.length 0 ⟨0, 0, 0, t⟩ (by omega) (assign_start t u)
  rw [hs]
  exact ⟨_, rfl⟩

/-! ## With more usable processors than the caller says -/

theorem forRange_none {σ : Type} (f : Nat → σ → Option σ) (P : Nat → σ → Prop) (N : Nat)
    (step : ∀ j s s', j < N → P j s → f j s = some s' → P (j + 1) s') :
    ∀ (n i : Nat) (s : σ), i + n = N → P i s → forRange f n i s = none →
      ∃ j s', j < N ∧ P j s' ∧ f j s' = none
  | 0, i, s, _, _, e => by rw [forRange] at e; cases e
  | n + 1, i, s, h, hp, e => by
    rw [forRange] at e
    cases hf : f i s with
    | none => exact ⟨i, s, by omega, hp, hf⟩
    | some s1 =>
      rw [hf, Option.bind_some] at e
      exact forRange_none f P N step n (i + 1) s1 (by omega) (step i s s1 (by omega) hp hf) e

theorem forRange_add {σ : Type} (f : Nat → σ → Option σ) : ∀ (m n i : Nat) (s : σ),
    forRange f (m + n) i s = (forRange f m i s).bind (forRange f n (i + m))
  | 0, n, i, s => by rw [Nat.zero_add, forRange]; rfl
  | m + 1, n, i, s => by
    rw [show m + 1 + n = (m + n) + 1 by omega, forRange, forRange, Option.bind_assoc]
    congr 1
    funext s'
    rw [forRange_add f m n (i + 1) s', show i + 1 + m = i + (m + 1) by omega]

/-- Every rank below the number of usable processors is the rank of one. -/
theorem rank_surj (t : List Proc) (u : Nat) : ∀ n, u < rank t n → ∃ i, i < n ∧ UsableAt t i ∧ rank t i = u
  | 0, h => by rw [rank_zero] at h; omega
  | n + 1, h => by
    by_cases hlt : u < rank t n
    · obtain ⟨i, hi, h1, h2⟩ := rank_surj t u n hlt
      exact ⟨i, by omega, h1, h2⟩
    · cases hp : t[n]? with
      | none =>
        have : rank t (n + 1) = rank t n := by
          unfold rank
          rw [List.take_add_one, hp]; simp
        omega
      | some p =>
        by_cases hu : Usable p
        · have := rank_usable hp hu
          exact ⟨n, by omega, ⟨p, hp, hu⟩, by omega⟩
        · have := rank_unusable hp hu
          omega

/-- The step at a usable processor beyond the count reads an element never written. -/
theorem verifyStep_beyond (c : Config) (t : List Proc) (u : Nat) (ss : List Nat)
    (hss : clusterSizes c u = some ss) (i : Nat) (s : Verify) (hok : s.ok = true)
    (h : VerifyInv t u i s) (hU : UsableAt t i) (hr : u ≤ rank t i) : verifyStep ss t i s = none := by
  obtain ⟨p, hp, hpu⟩ := hU
  have hle := h.le
  have hcl := h.cluster
  have hex := h.expected
  unfold verifyStep
  rw [hok, hp]
  simp only [not_true_eq_false, if_false, Option.bind_eq_bind, Option.bind_some]
  rw [if_neg (fun hh => hh ((valid_iff p).mpr hpu)), if_pos (by omega),
    sizes_spec c u ss hss s.cluster, if_neg (by omega)]
  rfl

/-- When the heuristic reads an element never written. -/
theorem heuristic_none_iff (c : Config) (junk : Attrs) (u : Nat) (t : List Proc) :
    heuristic c junk u t = none ↔ (∃ ss, clusterSizes c u = some ss) ∧
      ∃ i, UsableAt t i ∧ rank t i = u ∧ Verified t i := by
  constructor
  · intro h
    cases hss : clusterSizes c u with
    | none => unfold heuristic at h; rw [hss] at h; cases h
    | some ss =>
      refine ⟨⟨ss, rfl⟩, ?_⟩
      have hstep : ∀ (j : Nat) (s s' : Verify), j < t.length → (s.ok = true → VerifyInv t u j s) →
          verifyStep ss t j s = some s' → (s'.ok = true → VerifyInv t u (j + 1) s') := by
        intro j s s' hj hinv e hok'
        rcases verifyStep_inv c t u ss hss j s hj hinv with ⟨s1, e1, h1⟩ | ⟨hfull, hU⟩
        · rw [e1] at e; cases e; exact h1 hok'
        · exfalso
          cases hsok : s.ok with
          | false =>
            unfold verifyStep at e
            rw [hsok] at e
            cases e
            rw [hsok] at hok'; cases hok'
          | true =>
            rw [verifyStep_beyond c t u ss hss j s hsok (hinv hsok) hU hfull] at e
            cases e
      unfold heuristic at h
      rw [hss] at h
      simp only [Option.bind_eq_bind] at h
      cases hv : forRange (verifyStep ss t) t.length 0 ⟨0, 0, 0, false, junk, true⟩ with
      | none =>
        obtain ⟨j, s, hj, hinv, e⟩ := forRange_none (verifyStep ss t)
          (fun i s => s.ok = true → VerifyInv t u i s) t.length hstep t.length 0 _ (by omega)
          (fun _ => verify_start t u junk) hv
        rcases verifyStep_inv c t u ss hss j s hj hinv with ⟨s1, e1, h1⟩ | ⟨hfull, hU⟩
        · rw [e1] at e; cases e
        · cases hsok : s.ok with
          | false =>
            unfold verifyStep at e
            rw [hsok] at e
            cases e
          | true => exact ⟨j, hU, Nat.le_antisymm (hinv hsok).le hfull, (hinv hsok).done⟩
      | some v =>
        rw [hv, Option.bind_some] at h
        by_cases hok : v.ok = true
        · rw [if_neg (fun hh => hh hok)] at h
          have hle := (forRange_inv (verifyStep ss t) (fun i s => s.ok = true → VerifyInv t u i s)
            t.length hstep t.length 0 _ v (by omega) (fun _ => verify_start t u junk) hv hok).le
          rw [rank_length] at hle
          obtain ⟨s, hs, -⟩ := forRange_total (assignStep ss) (AssignInv t u) t.length (by
            intro j s hj hinv
            rcases assignStep_inv c t u ss hss j s hj hinv with h | ⟨h1, h2⟩
            · exact h
            · have := rank_lt_count h2; omega) t.length 0 ⟨0, 0, 0, t⟩ (by omega) (assign_start t u)
          rw [hs] at h
          cases h
        · rw [if_pos hok] at h
          cases h
  · rintro ⟨⟨ss, hss⟩, i, hU, hr, hV⟩
    have hi : i < t.length := by
      obtain ⟨p, hp, -⟩ := hU
      exact lt_of_get hp
    obtain ⟨s, hs, hok, hinv⟩ := forRange_total (verifyStep ss t)
      (fun i s => s.ok = true ∧ VerifyInv t u i s) i (by
        rintro j s hj ⟨hok, hinv⟩
        have hlt : UsableAt t j → rank t j < u := fun hUj => by
          have := rank_lt hUj hj
          omega
        rcases verifyStep_inv c t u ss hss j s (by omega) (fun _ => hinv) with ⟨s', e, h⟩ | ⟨h1, h2⟩
        · have := verifyStep_ok t u ss i (by omega) hV j s s' hj hlt hok hinv e
          exact ⟨s', e, this, h this⟩
        · have := hlt h2; omega) i 0 ⟨0, 0, 0, false, junk, true⟩ (by omega)
      ⟨rfl, verify_start t u junk⟩
    unfold heuristic
    rw [hss]
    simp only [Option.bind_eq_bind]
    rw [show t.length = i + ((t.length - i - 1) + 1) by omega, forRange_add, hs, Option.bind_some,
      forRange, Nat.zero_add,
      verifyStep_beyond c t u ss hss i s hok hinv hU (Nat.le_of_eq hr.symm)]
    rfl

end Verif.ArmClusters
