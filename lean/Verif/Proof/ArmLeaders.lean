import Verif.Proof.ArmHeuristic
import Verif.Proof.Files

/-!
# Cluster leaders

Sibling lists, propagation, heuristic and scan keep the processors and end in a table whose leaders
are representatives; the counting passes give every processor the size of its cluster.
-/

set_option autoImplicit false

namespace Verif.ArmClusters
open Spec ArmMidr ArmCpuinfo
open X86Init (modify? bitmaskAll)

theorem _root_.Verif.Spec.SameButCluster.refl (p : Proc) : SameButCluster p p := ⟨rfl, fun _ _ => rfl⟩

theorem _root_.Verif.Spec.SameButCluster.trans {p q r : Proc} (h : SameButCluster p q) (h' : SameButCluster q r) :
    SameButCluster p r := by
  obtain ⟨a, b⟩ := h
  obtain ⟨a', b'⟩ := h'
  refine ⟨?_, fun k hk => (b' k hk).trans (b k hk)⟩
  rw [a']
  rw [a]

theorem _root_.Verif.Spec.SameButCluster.usable {p q : Proc} (h : SameButCluster p q) : Usable q ↔ Usable p := by
  unfold Usable
  rw [h.2 12 (by decide)]

theorem same_placed (p : Proc) (l : Nat) : SameButCluster p (placed p l) := by
  refine ⟨rfl, fun k hk => ?_⟩
  have e : (placed p l).flags = p.flags ||| 2 ^ 10 := rfl
  rw [e, Nat.testBit_or, Nat.testBit_two_pow, decide_eq_false (Ne.symm hk), Bool.or_false]

theorem same_leader (p : Proc) (l : Nat) : SameButCluster p { p with packageLeaderId := l } :=
  ⟨rfl, fun _ _ => rfl⟩

theorem _root_.Verif.Spec.SameTable.refl (t : List Proc) : SameTable t t :=
  ⟨rfl, fun i p q h h' => by rw [h] at h'; cases h'; exact .refl _⟩

theorem _root_.Verif.Spec.SameTable.get {t t' : List Proc} (h : SameTable t t') {i : Nat} {q : Proc}
    (hq : t'[i]? = some q) : ∃ p, t[i]? = some p ∧ SameButCluster p q := by
  have hi : i < t.length := by rw [← h.1]; exact lt_of_get hq
  exact ⟨t[i], List.getElem?_eq_getElem hi, h.2 i _ q (List.getElem?_eq_getElem hi) hq⟩

theorem _root_.Verif.Spec.SameTable.get' {t t' : List Proc} (h : SameTable t t') {i : Nat} {p : Proc}
    (hp : t[i]? = some p) : ∃ q, t'[i]? = some q ∧ SameButCluster p q := by
  have hi : i < t'.length := by rw [h.1]; exact lt_of_get hp
  exact ⟨t'[i], List.getElem?_eq_getElem hi, h.2 i p _ hp (List.getElem?_eq_getElem hi)⟩

theorem _root_.Verif.Spec.SameTable.trans {t t' t'' : List Proc} (h : SameTable t t') (h' : SameTable t' t'') :
    SameTable t t'' := by
  refine ⟨h'.1.trans h.1, fun i p r hp hr => ?_⟩
  obtain ⟨q, hq, hqr⟩ := h'.get hr
  exact (h.2 i p q hp hq).trans hqr

theorem _root_.Verif.Spec.SameTable.set {t : List Proc} {i : Nat} {q q' : Proc} (hq : t[i]? = some q)
    (h : SameButCluster q q') : SameTable t (t.set i q') := by
  refine ⟨List.length_set, fun j p r hp hr => ?_⟩
  rw [set_get hq] at hr
  by_cases hij : i = j
  · subst hij
    rw [if_pos rfl] at hr
    cases hr
    rw [hq] at hp; cases hp; exact h
  · rw [if_neg hij, hp] at hr
    cases hr; exact .refl _

theorem _root_.Verif.Spec.SameTable.usableAt {t t' : List Proc} (h : SameTable t t') (i : Nat) :
    UsableAt t' i ↔ UsableAt t i := by
  constructor
  · rintro ⟨q, hq, hu⟩
    obtain ⟨p, hp, hpq⟩ := h.get hq
    exact ⟨p, hp, hpq.usable.mp hu⟩
  · rintro ⟨p, hp, hu⟩
    obtain ⟨q, hq, hpq⟩ := h.get' hp
    exact ⟨q, hq, hpq.usable.mpr hu⟩

/-- Position `l` holds a usable processor that is marked as clustered. -/
def GoodAt (t : List Proc) (l : Nat) : Prop := ∃ q, t[l]? = some q ∧ Usable q ∧ Clustered q

/-- A leader is the processor itself or a marked processor before it; only marked processors have
another leader. -/
def Linked (t : List Proc) : Prop :=
  ∀ (k : Nat) (p : Proc), t[k]? = some p → p.packageLeaderId ≤ k ∧
    (p.packageLeaderId = k ∨ (Usable p ∧ Clustered p ∧ GoodAt t p.packageLeaderId))

theorem clustered_placed (p : Proc) (l : Nat) : Clustered (placed p l) := by
  have e : (placed p l).flags = p.flags ||| 2 ^ 10 := rfl
  unfold Clustered
  rw [e, Nat.testBit_or, Nat.testBit_two_pow_self, Bool.or_true]

theorem usable_placed {p : Proc} (l : Nat) (h : Usable p) : Usable (placed p l) :=
  (same_placed p l).usable.mpr h

theorem good_set {t : List Proc} {i : Nat} {q : Proc} (hq : t[i]? = some q) (hu : Usable q) (l m : Nat)
    (h : GoodAt t m ∨ m = i) : GoodAt (t.set i (placed q l)) m := by
  by_cases hmi : i = m
  · subst hmi
    exact ⟨_, by rw [set_get hq, if_pos rfl], usable_placed l hu, clustered_placed q l⟩
  · rcases h with ⟨r, hr, h1, h2⟩ | h
    · exact ⟨r, by rw [set_get hq, if_neg hmi]; exact hr, h1, h2⟩
    · exact absurd h.symm hmi

theorem linked_set {t : List Proc} {i : Nat} {q : Proc} (h : Linked t) (hq : t[i]? = some q)
    (hu : Usable q) (l : Nat) (hl : l ≤ i) (hg : GoodAt t l ∨ l = i) :
    Linked (t.set i (placed q l)) := by
  intro k p hp
  rw [set_get hq] at hp
  by_cases hik : i = k
  · subst hik
    rw [if_pos rfl] at hp
    cases hp
    refine ⟨hl, ?_⟩
    rcases hg with hg | hg
    · exact .inr ⟨usable_placed l hu, clustered_placed q l, good_set hq hu l l (.inl hg)⟩
    · exact .inl hg
  · rw [if_neg hik] at hp
    obtain ⟨h1, h2⟩ := h k p hp
    refine ⟨h1, h2.imp id ?_⟩
    rintro ⟨a, b, c⟩
    exact ⟨a, b, good_set hq hu l _ (.inl c)⟩

theorem siblingsLoop_linked : ∀ (n s l : Nat) (t : List Proc), (n = 0 ∨ s + n ≤ t.length) →
    Linked t → GoodAt t l →
    ∃ l' t', siblingsLoop n s l t = some (l', t') ∧ l' ≤ l ∧ SameTable t t' ∧ Linked t' ∧ GoodAt t' l'
  | 0, s, l, t, _, h, hg => ⟨l, t, rfl, Nat.le_refl _, .refl t, h, hg⟩
  | n + 1, s, l, t, hn, h, hg => by
    have hs : s < t.length := by omega
    have hq : t[s]? = some t[s] := List.getElem?_eq_getElem hs
    generalize t[s] = q at hq
    rw [siblingsLoop, hq]
    dsimp only
    by_cases hu : Usable q
    · rw [if_pos ((valid_iff q).mpr hu)]
      have hm : ∀ m, m = (if q.packageLeaderId < l then q.packageLeaderId else l) →
          m ≤ l ∧ m ≤ s ∧ (GoodAt t m ∨ m = s) := by
        intro m hm
        obtain ⟨a, b⟩ := h s q hq
        by_cases hlt : q.packageLeaderId < l
        · rw [if_pos hlt] at hm
          subst hm
          refine ⟨by omega, a, ?_⟩
          rcases b with b | ⟨_, _, b⟩
          · exact .inr b
          · exact .inl b
        · rw [if_neg hlt] at hm
          subst hm
          exact ⟨Nat.le_refl _, by omega, .inl hg⟩
      obtain ⟨m1, m2, m3⟩ := hm _ rfl
      generalize (if q.packageLeaderId < l then q.packageLeaderId else l) = m at m1 m2 m3 ⊢
      obtain ⟨l', t', e, h1, h2, h3, h4⟩ := siblingsLoop_linked n (s + 1) m (t.set s (placed q m))
        (by rw [List.length_set]; omega) (linked_set h hq hu m m2 m3) (good_set hq hu m m m3)
      exact ⟨l', t', e, by omega, (SameTable.set hq (same_placed q m)).trans h2, h3, h4⟩
    · rw [if_neg (fun hh => hu ((valid_iff q).mp hh))]
      exact siblingsLoop_linked n (s + 1) l t (by omega) h hg

theorem mark_eq_placed (p : Proc) : mark flagCluster p = placed p p.packageLeaderId := rfl

theorem siblingsParser_linked (t : List Proc) (i a b : Nat) (p : Proc) (hp : t[i]? = some p)
    (hu : Usable p) (hb : b ≤ t.length) (h : Linked t) :
    ∃ t', siblingsParser t i a b = some t' ∧ SameTable t t' ∧ Linked t' := by
  unfold siblingsParser
  rw [modify?_eq _ hp, mark_eq_placed]
  simp only [Option.bind_eq_bind, Option.bind_some]
  obtain ⟨hl, hg⟩ := h i p hp
  have hg' : GoodAt t p.packageLeaderId ∨ p.packageLeaderId = i := by
    rcases hg with hg | ⟨_, _, hg⟩
    · exact .inr hg
    · exact .inl hg
  have hL := linked_set h hp hu p.packageLeaderId hl hg'
  have hp' : (t.set i (placed p p.packageLeaderId))[i]? = some (placed p p.packageLeaderId) := by
    rw [set_get hp, if_pos rfl]
  rw [hp']
  simp only [Option.bind_some]
  have hlen : (t.set i (placed p p.packageLeaderId)).length = t.length := List.length_set
  obtain ⟨l', t', e, h1, h2, h3, h4⟩ := siblingsLoop_linked (b - a) a p.packageLeaderId
    (t.set i (placed p p.packageLeaderId)) (by omega) hL
    (good_set hp hu p.packageLeaderId p.packageLeaderId hg')
  rw [show (placed p p.packageLeaderId).packageLeaderId = p.packageLeaderId from rfl, e]
  simp only [Option.bind_some]
  obtain ⟨q, hq, hpq⟩ := h2.get' hp'
  rw [modify?_eq _ hq]
  have hqu : Usable q := hpq.usable.mpr (usable_placed _ hu)
  refine ⟨_, rfl, ((SameTable.set hp (same_placed p _)).trans h2).trans
    (SameTable.set hq (same_leader q l')), ?_⟩
  intro k r hr
  rw [set_get hq] at hr
  have good : ∀ m, GoodAt t' m → GoodAt (t'.set i { q with packageLeaderId := l' }) m := by
    rintro m ⟨s, hs, s1, s2⟩
    by_cases him : i = m
    · subst him
      rw [hq] at hs; cases hs
      exact ⟨{ q with packageLeaderId := l' }, by rw [set_get hq, if_pos rfl], s1, s2⟩
    · exact ⟨s, by rw [set_get hq, if_neg him]; exact hs, s1, s2⟩
  by_cases hik : i = k
  · subst hik
    rw [if_pos rfl] at hr
    cases hr
    refine ⟨by show l' ≤ i; omega, ?_⟩
    have hqc : l' = i ∨ Clustered q := by
      obtain ⟨a1, a2⟩ := h3 i q hq
      rcases a2 with a2 | ⟨_, a2, _⟩
      · -- q leads itself: its mark survived
        by_cases hli : l' = i
        · exact .inl hli
        · right
          obtain ⟨s, hs, s1, s2⟩ : GoodAt t' i := by
            have : GoodAt (t.set i (placed p p.packageLeaderId)) i := good_set hp hu _ i (.inr rfl)
            exact loop_good _ _ _ _ _ _ e i this
          rw [hq] at hs; cases hs; exact s2
      · exact .inr a2
    rcases hqc with hqc | hqc
    · exact .inl hqc
    · exact .inr ⟨hqu, hqc, good _ h4⟩
  · rw [if_neg hik] at hr
    obtain ⟨a1, a2⟩ := h3 k r hr
    exact ⟨a1, a2.imp id fun ⟨b1, b2, b3⟩ => ⟨b1, b2, good _ b3⟩⟩
where
  loop_good : ∀ (n s l : Nat) (t : List Proc) (l' : Nat) (t' : List Proc),
      siblingsLoop n s l t = some (l', t') → ∀ m, GoodAt t m → GoodAt t' m
    | 0, s, l, t, l', t', e, m, hg => by cases e; exact hg
    | n + 1, s, l, t, l', t', e, m, hg => by
      rw [siblingsLoop] at e
      cases hq : t[s]? with
      | none => rw [hq] at e; cases e
      | some q =>
        rw [hq] at e
        dsimp only at e
        by_cases hu : Usable q
        · rw [if_pos ((valid_iff q).mpr hu)] at e
          exact loop_good n (s + 1) _ _ l' t' e m (good_set hq hu _ m (.inl hg))
        · rw [if_neg (fun hh => hu ((valid_iff q).mp hh))] at e
          exact loop_good n (s + 1) l t l' t' e m hg

theorem readSiblings_linked (f : File) (t : List Proc) (i : Nat) (p : Proc) (hp : t[i]? = some p)
    (hu : Usable p) (h : Linked t) :
    ∃ t' ok, readSiblings f t.length i t = some (t', ok) ∧ SameTable t t' ∧ Linked t' := by
  obtain ⟨s', ok, h1, t', rfl, h2, h3⟩ := CpuList.parse_invariant
    (Processors.siblingsCallback t.length i siblingsCallback)
    (fun s => ∃ t', s = some t' ∧ SameTable t t' ∧ Linked t')
    (by
      rintro s a b ⟨t', rfl, h1, h2⟩
      obtain ⟨q, hq, hpq⟩ := h1.get' hp
      obtain ⟨t'', e, h3, h4⟩ := siblingsParser_linked t' i a (if b > t.length then t.length else b)
        q hq (hpq.usable.mpr hu) (by rw [h1.1]; split <;> omega) h2
      exact ⟨t'', by simpa [Processors.siblingsCallback, siblingsCallback] using e, h1.trans h3, h4⟩)
    f.1 f.2 (some t) ⟨t, rfl, .refl t, h⟩
  refine ⟨t', ok, ?_, h2, h3⟩
  unfold readSiblings Processors.detectSiblings
  rw [h1]; rfl

theorem siblingsStep_linked (cl co : Nat → File) (t0 : List Proc) (i : Nat) (s : Siblings)
    (hi : i < t0.length) (hs : SameTable t0 s.table) (h : Linked s.table) :
    ∃ s', siblingsStep cl co t0.length i s = some s' ∧ SameTable t0 s'.table ∧ Linked s'.table := by
  have hlen : t0.length = s.table.length := hs.1.symm
  rw [hlen]
  have hq : s.table[i]? = some (s.table[i]'(by omega)) := List.getElem?_eq_getElem (by omega)
  generalize s.table[i]'(by omega) = p at hq
  unfold siblingsStep
  rw [hq]
  simp only [Option.bind_eq_bind, Option.bind_some]
  by_cases hu : Usable p
  · rw [if_neg (fun hh => hh ((valid_iff p).mpr hu))]
    by_cases hid : bitmaskAll p.flags flagPackageId = true
    · rw [if_neg (fun hh => hh hid)]
      split
      · obtain ⟨t', ok, e, h1, h2⟩ := readSiblings_linked (cl i) s.table i p hq hu h
        rw [e]
        simp only [Option.bind_some]
        cases ok with
        | true => exact ⟨_, rfl, hs.trans h1, h2⟩
        | false =>
          simp only [Bool.false_eq_true, if_false]
          obtain ⟨q, hq', hpq⟩ := h1.get' hq
          obtain ⟨t'', ok', e', h3, h4⟩ := readSiblings_linked (co i) t' i q hq'
            (hpq.usable.mpr hu) h2
          rw [← h1.1, e']
          exact ⟨_, rfl, (hs.trans h1).trans h3, h4⟩
      · split
        · obtain ⟨t', ok, e, h1, h2⟩ := readSiblings_linked (co i) s.table i p hq hu h
          rw [e]
          exact ⟨_, rfl, hs.trans h1, h2⟩
        · obtain ⟨t', ok, e, h1, h2⟩ := readSiblings_linked (cl i) s.table i p hq hu h
          rw [e]
          exact ⟨_, rfl, hs.trans h1, h2⟩
    · rw [if_pos hid]; exact ⟨s, rfl, hs, h⟩
  · rw [if_pos (fun hh => hu ((valid_iff p).mp hh))]; exact ⟨s, rfl, hs, h⟩

/-- The table after "Initialize topology group IDs". -/
theorem initLeaders (t : List Proc) :
    ∃ t', forRange (fun i t => modify? t i fun p => { p with packageLeaderId := i }) t.length 0 t =
      some t' ∧ t'.length = t.length ∧
      ∀ (k : Nat) (p : Proc), t[k]? = some p → t'[k]? = some { p with packageLeaderId := k } := by
  obtain ⟨t', e, h1, h2⟩ := forRange_total
    (fun i t => modify? t i fun p => { p with packageLeaderId := i })
    (fun i s => s.length = t.length ∧ ∀ (k : Nat) (p : Proc), t[k]? = some p →
      s[k]? = if k < i then some { p with packageLeaderId := k } else some p) t.length (by
      rintro j s hj ⟨h1, h2⟩
      have hq := h2 j t[j] (List.getElem?_eq_getElem hj)
      rw [if_neg (by omega)] at hq
      refine ⟨_, modify?_eq _ hq, by rw [List.length_set]; exact h1, fun k p hp => ?_⟩
      rw [set_get hq]
      by_cases hjk : j = k
      · subst hjk
        rw [if_pos rfl, if_pos (by omega)]
        rw [List.getElem?_eq_getElem hj] at hp; cases hp; rfl
      · rw [if_neg hjk, h2 k p hp]
        by_cases hk : k < j
        · rw [if_pos hk, if_pos (by omega)]
        · rw [if_neg hk, if_neg (by omega)]) t.length 0 t (by omega)
    ⟨rfl, fun k p hp => by rw [if_neg (by omega)]; exact hp⟩
  refine ⟨t', e, h1, fun k p hp => ?_⟩
  rw [h2 k p hp, if_pos (lt_of_get hp)]

theorem initLeaders_linked {t t' : List Proc} (hl : t'.length = t.length)
    (h : ∀ (k : Nat) (p : Proc), t[k]? = some p → t'[k]? = some { p with packageLeaderId := k }) :
    SameTable t t' ∧ Linked t' := by
  refine ⟨⟨hl, fun i p q hp hq => ?_⟩, fun k q hq => ?_⟩
  · rw [h i p hp] at hq; cases hq; exact same_leader p i
  · have hk : k < t.length := by rw [← hl]; exact lt_of_get hq
    rw [h k t[k] (List.getElem?_eq_getElem hk)] at hq
    cases hq
    exact ⟨Nat.le_refl _, .inl rfl⟩

theorem readAllSiblings_linked (cl co : Nat → File) (t : List Proc) :
    ∃ t', readAllSiblings cl co t = some t' ∧ SameTable t t' ∧ Linked t' := by
  obtain ⟨t1, e, h1, h2⟩ := initLeaders t
  obtain ⟨h3, h4⟩ := initLeaders_linked h1 h2
  obtain ⟨s, e', h5, h6⟩ := forRange_total (siblingsStep cl co t1.length)
    (fun _ s => SameTable t1 s.table ∧ Linked s.table) t1.length
    (fun j s hj ⟨a, b⟩ => siblingsStep_linked cl co t1 j s hj a b) t1.length 0 ⟨false, false, t1⟩
    (by omega) ⟨.refl t1, h4⟩
  refine ⟨s.table, ?_, h3.trans h5, h6⟩
  unfold readAllSiblings
  rw [e]
  simp only [Option.bind_eq_bind, Option.bind_some]
  rw [e']; rfl

/-- Leaders lead themselves. -/
def Rep (t : List Proc) (i : Nat) : Prop :=
  ∀ (k : Nat) (p : Proc), k < i → t[k]? = some p → Leads t p.packageLeaderId p.packageLeaderId

theorem both_iff (p : Proc) :
    bitmaskAll p.flags (flagValid ||| flagCluster) = true ↔ Usable p ∧ Clustered p := by
  unfold bitmaskAll
  rw [beq_iff_eq, X86Cpuid.and_or_eq_iff]
  have h1 := bitmask_pow p.flags 12
  have h2 := bitmask_pow p.flags 10
  unfold bitmaskAll at h1 h2
  unfold Usable Clustered
  rw [← h1, ← h2, beq_iff_eq, beq_iff_eq]
  exact Iff.rfl

theorem propagateStep_rep (t0 : List Proc) (i : Nat) (s : Nat × List Proc) (hi : i < t0.length)
    (hs : SameTable t0 s.2) (hl : Linked s.2) (hr : Rep s.2 i) :
    ∃ s', propagateStep i s = some s' ∧ SameTable t0 s'.2 ∧ Linked s'.2 ∧ Rep s'.2 (i + 1) := by
  have hlen : t0.length = s.2.length := hs.1.symm
  have hq : s.2[i]? = some (s.2[i]'(by omega)) := List.getElem?_eq_getElem (by omega)
  generalize s.2[i]'(by omega) = p at hq
  -- nothing changes and the leader of `p` leads itself
  have stay : Leads s.2 p.packageLeaderId p.packageLeaderId → Rep s.2 (i + 1) := by
    intro h k r hk hkr
    by_cases hki : k = i
    · subst hki; rw [hq] at hkr; cases hkr; exact h
    · exact hr k r (by omega) hkr
  obtain ⟨a, b⟩ := hl i p hq
  unfold propagateStep
  rw [hq]
  simp only [Option.bind_eq_bind, Option.bind_some]
  by_cases hboth : Usable p ∧ Clustered p
  · rw [if_pos ((both_iff p).mpr hboth)]
    by_cases hlt : p.packageLeaderId < i
    · rw [if_pos hlt]
      have hll : p.packageLeaderId < s.2.length := by omega
      have hL : s.2[p.packageLeaderId]? = some s.2[p.packageLeaderId] :=
        List.getElem?_eq_getElem hll
      generalize s.2[p.packageLeaderId] = l at hL
      rw [hL]
      simp only [Option.bind_some]
      rw [modify?_eq _ hq]
      simp only [Option.bind_some]
      have hgood : GoodAt s.2 p.packageLeaderId := by
        rcases b with b | ⟨_, _, b⟩
        · omega
        · exact b
      obtain ⟨la, lb⟩ := hl _ l hL
      have hgl : GoodAt s.2 l.packageLeaderId := by
        rcases lb with lb | ⟨_, _, lb⟩
        · rw [lb]; exact hgood
        · exact lb
      have good : ∀ m, GoodAt s.2 m →
          GoodAt (s.2.set i { p with packageLeaderId := l.packageLeaderId }) m := by
        rintro m ⟨r, hr', r1, r2⟩
        by_cases him : i = m
        · subst him
          rw [hq] at hr'; cases hr'
          exact ⟨{ p with packageLeaderId := l.packageLeaderId },
            by rw [set_get hq, if_pos rfl], r1, r2⟩
        · exact ⟨r, by rw [set_get hq, if_neg him]; exact hr', r1, r2⟩
      refine ⟨_, rfl, hs.trans (SameTable.set hq (same_leader p _)), ?_, ?_⟩
      · intro k r hkr
        dsimp only at hkr
        rw [set_get hq] at hkr
        by_cases hik : i = k
        · subst hik
          rw [if_pos rfl] at hkr
          cases hkr
          exact ⟨by show l.packageLeaderId ≤ i; omega,
            .inr ⟨hboth.1, hboth.2, good _ hgl⟩⟩
        · rw [if_neg hik] at hkr
          obtain ⟨c1, c2⟩ := hl k r hkr
          exact ⟨c1, c2.imp id fun ⟨d1, d2, d3⟩ => ⟨d1, d2, good _ d3⟩⟩
      · have lift : ∀ m, m < i → Leads s.2 m m →
            Leads (s.2.set i { p with packageLeaderId := l.packageLeaderId }) m m := by
          rintro m hm ⟨r, hr', r1⟩
          exact ⟨r, by rw [set_get hq, if_neg (by omega)]; exact hr', r1⟩
        intro k r hk hkr
        dsimp only at hkr ⊢
        rw [set_get hq] at hkr
        by_cases hik : i = k
        · subst hik
          rw [if_pos rfl] at hkr
          cases hkr
          exact lift l.packageLeaderId (by omega) (hr _ l (by omega) hL)
        · rw [if_neg hik] at hkr
          have := (hl k r hkr).1
          exact lift _ (by omega) (hr k r (by omega) hkr)
    · rw [if_neg hlt]
      refine ⟨_, rfl, hs, hl, stay ?_⟩
      rw [show p.packageLeaderId = i by omega]
      exact ⟨p, hq, by omega⟩
  · rw [if_neg (fun hh => hboth ((both_iff p).mp hh))]
    refine ⟨s, rfl, hs, hl, stay ?_⟩
    rcases b with b | ⟨b1, b2, _⟩
    · rw [b]; exact ⟨p, hq, b⟩
    · exact absurd ⟨b1, b2⟩ hboth

theorem propagate_rep (t : List Proc) (hl : Linked t) :
    ∃ n t', propagate t = some (n, t') ∧ SameTable t t' ∧ Linked t' ∧ Rep t' t'.length := by
  obtain ⟨s, e, h1, h2, h3⟩ := forRange_total propagateStep
    (fun i s => SameTable t s.2 ∧ Linked s.2 ∧ Rep s.2 i) t.length
    (fun j s hj ⟨a, b, c⟩ => propagateStep_rep t j s hj a b c) t.length 0 (0, t) (by omega)
    ⟨.refl t, hl, fun k p hk => absurd hk (by omega)⟩
  exact ⟨s.1, s.2, e, h1, h2, by rw [h1.1]; exact h3⟩

theorem led_of_rep {t : List Proc} (hl : Linked t) (hr : Rep t t.length) : Led t := by
  intro i p hp hu
  obtain ⟨a, b⟩ := hl i p hp
  refine ⟨a, ?_, hr i p (lt_of_get hp) hp⟩
  rcases b with b | ⟨_, _, q, hq, hqu, _⟩
  · rw [b]; exact ⟨p, hp, hu⟩
  · exact ⟨q, hq, hqu⟩

/-- The heuristic keeps leaders representative. -/
theorem heuristic_led (c : Config) (junk : Attrs) (u : Nat) (t t' : List Proc) (hl : Linked t)
    (h : heuristic c junk u t = some (t', true)) : SameTable t t' ∧ Led t' := by
  obtain ⟨ss, -, hv, s, rfl, ha⟩ := heuristic_true c junk u t t' h
  have self : ∀ (j : Nat) (p : Proc), t[j]? = some p → Usable p → rank t j % 4 = 0 →
      s.table[j]? = some p ∧ p.packageLeaderId = j := by
    intro j p hp hu hr
    refine ⟨ha.first j p (lt_of_get hp) hp hu hr, ?_⟩
    by_cases hc : Clustered p
    · exact (hv.same j j p p (lt_of_get hp) hp hu hp hu (by omega)).2 hc
    · rcases (hl j p hp).2 with h | ⟨_, h, _⟩
      · exact h
      · exact absurd h hc
  have hsame : SameTable t s.table := by
    refine ⟨ha.length, fun i p q hp hq => ?_⟩
    by_cases hu : Usable p
    · by_cases hr : rank t i % 4 = 0
      · rw [(self i p hp hu hr).1] at hq; cases hq; exact .refl _
      · obtain ⟨g, -, -, -, e⟩ := ha.member i p (lt_of_get hp) hp hu hr
        rw [e] at hq; cases hq; exact same_placed p g
    · rw [ha.unusable i p hp hu] at hq; cases hq; exact .refl _
  refine ⟨hsame, fun i q hq hqu => ?_⟩
  obtain ⟨p, hp, hpq⟩ := hsame.get hq
  have hu := hpq.usable.mp hqu
  by_cases hr : rank t i % 4 = 0
  · obtain ⟨e, hlead⟩ := self i p hp hu hr
    rw [e] at hq; cases hq
    rw [hlead]
    exact ⟨Nat.le_refl _, ⟨_, e, hu⟩, ⟨_, e, hlead⟩⟩
  · obtain ⟨g, hg, hgi, hgr, e⟩ := ha.member i p (lt_of_get hp) hp hu hr
    rw [e] at hq; cases hq
    show g ≤ i ∧ UsableAt s.table g ∧ Leads s.table g g
    obtain ⟨r, hr', hru⟩ := hg
    obtain ⟨e', hlead⟩ := self g r hr' hru (by omega)
    exact ⟨by omega, ⟨r, e', hru⟩, ⟨r, e', hlead⟩⟩

/-- The sequential scan keeps leaders representative. -/
theorem scan_led (junk : Attrs) (t : List Proc) (hl : Linked t) (hr : Rep t t.length) :
    ∃ t', sequentialScan junk t = some t' ∧ SameTable t t' ∧ Led t' := by
  obtain ⟨s, lead, e, h⟩ := sequentialScan_inv junk t
  refine ⟨s.table, e, ?_⟩
  have hsame : SameTable t s.table := by
    refine ⟨h.length, fun i p q hp hq => ?_⟩
    by_cases hf : Free p
    · rw [h.free i p (lt_of_get hp) hp hf] at hq; cases hq; exact same_placed p _
    · rw [h.other i p hp hf] at hq; cases hq; exact .refl _
  refine ⟨hsame, fun i q hq hqu => ?_⟩
  obtain ⟨p, hp, hpq⟩ := hsame.get hq
  have hu := hpq.usable.mp hqu
  by_cases hf : Free p
  · rw [h.free i p (lt_of_get hp) hp hf] at hq
    cases hq
    obtain ⟨a, ⟨r, hr', hrf⟩, c⟩ := h.le i (lt_of_get hp) ⟨p, hp, hf⟩
    show lead i ≤ i ∧ UsableAt s.table (lead i) ∧ Leads s.table (lead i) (lead i)
    have e' := h.free (lead i) r (lt_of_get hr') hr' hrf
    exact ⟨a, ⟨_, e', usable_placed _ hrf.1⟩, ⟨_, e', c⟩⟩
  · rw [h.other i p hp hf] at hq
    cases hq
    obtain ⟨a, b⟩ := hl i q hp
    refine ⟨a, ?_⟩
    have hc : Clustered q := by
      apply Classical.byContradiction
      intro hc; exact hf ⟨hu, hc⟩
    obtain ⟨r, hr', r1, r2⟩ : GoodAt t q.packageLeaderId := by
      rcases b with b | ⟨_, _, b⟩
      · rw [b]; exact ⟨q, hp, hu, hc⟩
      · exact b
    have e' := h.other q.packageLeaderId r hr' (fun hh => hh.2 r2)
    obtain ⟨r', hr'', hrl⟩ := hr i q (lt_of_get hp) hp
    rw [hr'] at hr''
    cases hr''
    exact ⟨⟨r, e', r1⟩, ⟨r, e', hrl⟩⟩

/-- The number of usable processors below `i` with leader `l`. -/
def membersBelow (t : List Proc) (i l : Nat) : Nat := membersOf (t.take i) l

theorem membersBelow_succ {t : List Proc} {i : Nat} {p : Proc} (h : t[i]? = some p) (l : Nat) :
    membersBelow t (i + 1) l =
      membersBelow t i l + if Usable p ∧ p.packageLeaderId = l then 1 else 0 := by
  unfold membersBelow membersOf
  rw [List.take_add_one, h, List.filter_append, List.length_append]
  congr 1
  by_cases hu : Usable p
  · by_cases hl : p.packageLeaderId = l
    · simp [show p.flags.testBit 12 = true from hu, hl, hu]
    · simp [hl]
  · have : p.flags.testBit 12 = false := by simpa [Usable] using hu
    simp [this, hu]

theorem membersBelow_zero (t : List Proc) (l : Nat) : membersBelow t 0 l = 0 := by
  simp [membersBelow, membersOf]

theorem membersBelow_length (t : List Proc) (l : Nat) : membersBelow t t.length l = membersOf t l := by
  simp [membersBelow]

/-- A processor with another cluster size. -/
def counted (p : Proc) (n : Nat) : Proc := { p with packageProcessorCount := n }

theorem counted_leader (p : Proc) (n : Nat) : (counted p n).packageLeaderId = p.packageLeaderId := rfl

theorem valid_counted (p : Proc) (n : Nat) : valid (counted p n) = true ↔ Usable p := valid_iff p

/-- The counting passes give every usable processor the number of processors with its leader. -/
theorem countProcessors_spec (t : List Proc) (hled : Led t)
    (hz : ∀ p, p ∈ t → p.packageProcessorCount = 0) :
    ∃ t', countProcessors t = some t' ∧ t'.length = t.length ∧
      ∀ (i : Nat) (p : Proc), t[i]? = some p → t'[i]? = 
        some (counted p (if Usable p then membersOf t p.packageLeaderId else 0)) := by
  obtain ⟨t1, e1, l1, h1⟩ := forRange_total countStep
    (fun i s => s.length = t.length ∧ ∀ (k : Nat) (p : Proc), t[k]? = some p →
      s[k]? = some (counted p (membersBelow t i k))) t.length (by
      rintro j s hj ⟨h1, h2⟩
      have hp := List.getElem?_eq_getElem hj
      generalize t[j] = p at hp
      have hs := h2 j p hp
      unfold countStep
      rw [hs]
      simp only [Option.bind_eq_bind, Option.bind_some]
      by_cases hu : Usable p
      · rw [if_pos ((valid_counted p _).mpr hu)]
        obtain ⟨-, ⟨l, hl, hlu⟩, -⟩ := hled j p hp hu
        have hls := h2 p.packageLeaderId l hl
        rw [counted_leader]
        refine ⟨_, modify?_eq _ hls, by rw [List.length_set]; exact h1, fun k q hq => ?_⟩
        rw [set_get hls, membersBelow_succ hp]
        by_cases hk : p.packageLeaderId = k
        · subst hk
          rw [if_pos rfl, if_pos ⟨hu, rfl⟩]
          rw [hl] at hq; cases hq; rfl
        · rw [if_neg hk, if_neg (fun hh => hk hh.2)]
          exact h2 k q hq
      · rw [if_neg (fun hh => hu ((valid_counted p _).mp hh))]
        refine ⟨_, rfl, h1, fun k q hq => ?_⟩
        rw [membersBelow_succ hp, if_neg (fun hh => hu hh.1)]
        exact h2 k q hq) t.length 0 t (by omega)
    ⟨rfl, fun k p hp => by
      rw [membersBelow_zero, hp, ← hz p (List.mem_of_getElem? hp)]; rfl⟩
  have members : ∀ (k : Nat) (p : Proc), t[k]? = some p →
      t1[k]? = some (counted p (membersOf t k)) := by
    intro k p hp
    rw [h1 k p hp, membersBelow_length]
  obtain ⟨t2, e2, l2, h2⟩ := forRange_total copyCountStep
    (fun i s => s.length = t.length ∧ ∀ (k : Nat) (p : Proc), t[k]? = some p →
      s[k]? = some (counted p (if k < i ∧ Usable p then membersOf t p.packageLeaderId
          else membersOf t k))) t.length (by
      rintro j s hj ⟨h1, h2⟩
      have hp := List.getElem?_eq_getElem hj
      generalize t[j] = p at hp
      have hs := h2 j p hp
      unfold copyCountStep
      rw [hs]
      simp only [Option.bind_eq_bind, Option.bind_some]
      by_cases hu : Usable p
      · rw [if_pos ((valid_counted p _).mpr hu)]
        obtain ⟨-, ⟨l, hl, hlu⟩, ⟨l', hl', hll⟩⟩ := hled j p hp hu
        rw [hl] at hl'; cases hl'
        have hls := h2 p.packageLeaderId l hl
        have hcount : (if p.packageLeaderId < j ∧ Usable l then membersOf t l.packageLeaderId
            else membersOf t p.packageLeaderId) = membersOf t p.packageLeaderId := by
          rw [hll, ite_self]
        rw [hcount] at hls
        rw [counted_leader, hls]
        simp only [Option.bind_some]
        refine ⟨_, modify?_eq _ hs, by rw [List.length_set]; exact h1, fun k q hq => ?_⟩
        rw [set_get hs]
        by_cases hk : j = k
        · subst hk
          rw [hp] at hq; cases hq
          rw [if_pos rfl, if_pos (show j < j + 1 ∧ Usable p from ⟨Nat.lt_succ_self j, hu⟩)]
          rfl
        · rw [if_neg hk, h2 k q hq]
          by_cases hkj : k < j
          · simp [hkj, show k < j + 1 by omega]
          · simp [hkj, show ¬ k < j + 1 by omega]
      · rw [if_neg (fun hh => hu ((valid_counted p _).mp hh))]
        refine ⟨_, rfl, h1, fun k q hq => ?_⟩
        rw [h2 k q hq]
        by_cases hk : k = j
        · subst hk
          rw [hp] at hq; cases hq
          simp [hu]
        · by_cases hkj : k < j
          · simp [hkj, show k < j + 1 by omega]
          · simp [hkj, show ¬ k < j + 1 by omega]) t.length 0 t1 (by omega)
    ⟨l1, fun k p hp => by
      rw [members k p hp]; simp⟩
  have hnone : ∀ (i : Nat) (p : Proc), t[i]? = some p → ¬ Usable p → membersOf t i = 0 := by
    intro i p hp hu
    unfold membersOf
    rw [List.length_eq_zero_iff, List.filter_eq_nil_iff]
    intro q hq hh
    rw [Bool.and_eq_true, beq_iff_eq] at hh
    obtain ⟨k, hk⟩ := List.getElem?_of_mem hq
    obtain ⟨-, ⟨r, hr, hru⟩, -⟩ := hled k q hk hh.1
    rw [hh.2, hp] at hr
    cases hr
    exact hu hru
  refine ⟨t2, ?_, l2, fun i p hp => ?_⟩
  · unfold countProcessors
    rw [e1]
    simp only [Option.bind_eq_bind, Option.bind_some]
    rw [l1]; exact e2
  · rw [h2 i p hp]
    by_cases hu : Usable p
    · rw [if_pos ⟨lt_of_get hp, hu⟩, if_pos hu]
    · rw [if_neg (fun hh => hu hh.2), if_neg hu, hnone i p hp hu]

/-- Counting only changes the counts. -/
theorem count_same {t t' : List Proc} (hl : t'.length = t.length) (f : Proc → Nat)
    (h : ∀ (i : Nat) (p : Proc), t[i]? = some p → t'[i]? = some (counted p (f p))) (hled : Led t) :
    Led t' ∧ ∀ l, membersOf t' l = membersOf t l := by
  have hmap : t' = t.map fun p => counted p (f p) := by
    apply List.ext_getElem?
    intro i
    rw [List.getElem?_map]
    by_cases hi : i < t.length
    · rw [List.getElem?_eq_getElem hi, h i _ (List.getElem?_eq_getElem hi)]; rfl
    · rw [List.getElem?_eq_none (show t.length ≤ i by omega),
        List.getElem?_eq_none (show t'.length ≤ i by omega)]; rfl
  refine ⟨fun i q hq hqu => ?_, fun l => ?_⟩
  · have hi : i < t.length := by rw [← hl]; exact lt_of_get hq
    have hp := List.getElem?_eq_getElem hi
    generalize t[i] = p at hp
    rw [h i p hp] at hq
    cases hq
    obtain ⟨a, ⟨r', hr', hru⟩, ⟨r, hr, hrl⟩⟩ := hled i p hp hqu
    exact ⟨a, ⟨_, h _ r' hr', hru⟩, ⟨_, h _ r hr, hrl⟩⟩
  · unfold membersOf
    rw [hmap, List.filter_map, List.length_map]
    rfl

theorem usableCount_eq {t t' : List Proc} (h : SameTable t t') : usableCount t' = usableCount t := by
  unfold usableCount
  have : t'.map (fun p => p.flags.testBit 12) = t.map (fun p => p.flags.testBit 12) := by
    apply List.ext_getElem?
    intro i
    rw [List.getElem?_map, List.getElem?_map]
    by_cases hi : i < t.length
    · obtain ⟨q, hq, hpq⟩ := h.get' (List.getElem?_eq_getElem hi)
      rw [List.getElem?_eq_getElem hi, hq]
      simp only [Option.map_some]
      rw [hpq.2 12 (by decide)]
    · rw [List.getElem?_eq_none (show t.length ≤ i by omega),
        List.getElem?_eq_none (show t'.length ≤ i by rw [h.1]; omega)]
  have h2 := congrArg (fun l => (l.filter id).length) this
  simpa [List.filter_map, Function.comp_def] using h2

theorem zero_of_same {t t' : List Proc} (h : SameTable t t')
    (hz : ∀ p, p ∈ t → p.packageProcessorCount = 0) (q : Proc) (hq : q ∈ t') :
    q.packageProcessorCount = 0 := by
  obtain ⟨i, hi⟩ := List.getElem?_of_mem hq
  obtain ⟨p, hp, hpq⟩ := h.get hi
  rw [hpq.1]
  exact hz p (List.mem_of_getElem? hp)

/-- Cluster detection before counting, on a table whose usable processors are all counted. -/
theorem clusters_led (c : Config) (junk junk' : Attrs) (cl co : Nat → File) (u : Nat)
    (t : List Proc) (hu : usableCount t ≤ u) :
    ∃ t', (∀ t'', countProcessors t' = some t'' →
      detectClusters c junk junk' cl co u t = some t'') ∧ SameTable t t' ∧ Led t' := by
  obtain ⟨t1, e1, s1, l1⟩ := readAllSiblings_linked cl co t
  obtain ⟨n, t2, e2, s2, l2, r2⟩ := propagate_rep t1 l1
  have s12 := s1.trans s2
  have led2 := led_of_rep l2 r2
  unfold detectClusters
  rw [e1]
  simp only [Option.bind_eq_bind, Option.bind_some]
  rw [e2]
  simp only [Option.bind_some]
  by_cases hn : n = u
  · rw [if_neg (fun hh => hh hn)]
    exact ⟨t2, fun t'' h => h, s12, led2⟩
  · rw [if_pos hn]
    obtain ⟨⟨t3, ok⟩, e3⟩ := heuristic_total c junk u t2 (by rw [usableCount_eq s12]; exact hu)
    rw [e3]
    simp only [Option.bind_some]
    cases ok with
    | true =>
      obtain ⟨s3, led3⟩ := heuristic_led c junk u t2 t3 l2 e3
      exact ⟨t3, fun t'' h => h, s12.trans s3, led3⟩
    | false =>
      have := heuristic_false c junk u t2 t3 e3
      subst this
      obtain ⟨t4, e4, s4, led4⟩ := scan_led junk' t3 l2 r2
      refine ⟨t4, fun t'' h => ?_, s12.trans s4, led4⟩
      simp only [Bool.false_eq_true, if_false]
      rw [e4]
      exact h

/-- Cluster detection never fails on a table whose usable processors are all counted, keeps the
processors, and ends with representative leaders and the sizes of the clusters. -/
theorem detectClusters_led (c : Config) (junk junk' : Attrs) (cl co : Nat → File) (u : Nat)
    (t : List Proc) (hu : usableCount t ≤ u) (hz : ∀ p, p ∈ t → p.packageProcessorCount = 0) :
    ∃ t', detectClusters c junk junk' cl co u t = some t' ∧ SameProcessors t t' ∧ Led t' ∧
      ∀ (i : Nat) (p : Proc), t'[i]? = some p → Usable p →
        p.packageProcessorCount = membersOf t' p.packageLeaderId := by
  obtain ⟨t1, e1, s1, led1⟩ := clusters_led c junk junk' cl co u t hu
  obtain ⟨t2, e2, l2, h2⟩ := countProcessors_spec t1 led1 (zero_of_same s1 hz)
  obtain ⟨led2, m2⟩ := count_same l2 _ h2 led1
  refine ⟨t2, e1 t2 e2, ⟨l2.trans s1.1, fun i p q hp hq => ?_⟩, led2, fun i q hq hqu => ?_⟩
  · obtain ⟨r, hr, hpr⟩ := s1.get' hp
    rw [h2 i r hr] at hq
    cases hq
    have : { counted r (if Usable r then membersOf t1 r.packageLeaderId else 0) with
        packageProcessorCount := p.packageProcessorCount } = r := by
      rw [show p.packageProcessorCount = r.packageProcessorCount by rw [hpr.1]]
      rfl
    rw [this]
    exact hpr
  · have hi : i < t1.length := by rw [← l2]; exact lt_of_get hq
    have hp := List.getElem?_eq_getElem hi
    generalize t1[i] = p at hp
    rw [h2 i p hp] at hq
    cases hq
    rw [m2]
    show (if Usable p then membersOf t1 p.packageLeaderId else 0) = membersOf t1 p.packageLeaderId
    rw [if_pos (show Usable p from hqu)]

theorem sum_add (g h : Nat → Nat) : ∀ l : List Nat,
    (l.map fun x => g x + h x).sum = (l.map g).sum + (l.map h).sum
  | [] => rfl
  | x :: l => by
    simp only [List.map_cons, List.sum_cons]
    rw [sum_add g h l]; omega

theorem sum_single (a : Nat) : ∀ l : List Nat, l.Nodup → a ∈ l →
    (l.map fun x => if a = x then 1 else 0).sum = 1
  | [], _, h => by cases h
  | x :: l, hn, h => by
    simp only [List.map_cons, List.sum_cons]
    rw [List.nodup_cons] at hn
    have zero : ∀ l' : List Nat, a ∉ l' → (l'.map fun x => if a = x then 1 else 0).sum = 0 := by
      intro l'
      induction l' with
      | nil => intro _; rfl
      | cons y l' ih =>
        intro h
        rw [List.mem_cons, not_or] at h
        simp only [List.map_cons, List.sum_cons]
        rw [if_neg h.1, ih h.2]
    by_cases hax : a = x
    · subst hax
      rw [if_pos rfl, zero l hn.1]
    · rw [if_neg hax, sum_single a l hn.2 (by
        rcases List.mem_cons.mp h with h | h
        · exact absurd h hax
        · exact h)]

theorem sum_members (S : List Nat) (hS : S.Nodup) : ∀ t : List Proc,
    (∀ p, p ∈ t → Usable p → p.packageLeaderId ∈ S) → (S.map (membersOf t)).sum = usableCount t
  | [], _ => by
    have : ∀ l : List Nat, (l.map (membersOf [])).sum = 0 := by
      intro l
      induction l with
      | nil => rfl
      | cons x l ih => simp only [List.map_cons, List.sum_cons, ih]; rfl
    exact this S
  | p :: t, h => by
    have ih := sum_members S hS t fun q hq => h q (List.mem_cons_of_mem p hq)
    by_cases hu : Usable p
    · have hb : p.flags.testBit 12 = true := hu
      have e : membersOf (p :: t) = fun l => (if p.packageLeaderId = l then 1 else 0) + membersOf t l := by
        funext l
        unfold membersOf
        by_cases hl : p.packageLeaderId = l
        · rw [List.filter_cons_of_pos (by simp [hb, hl]), if_pos hl, List.length_cons]; omega
        · rw [List.filter_cons_of_neg (by simp [hl]), if_neg hl]; omega
      rw [e, sum_add, sum_single _ S hS (h p List.mem_cons_self hu), ih]
      unfold usableCount
      rw [List.filter_cons, if_pos hb, List.length_cons]; omega
    · have hb : ¬ p.flags.testBit 12 = true := hu
      have e : membersOf (p :: t) = membersOf t := by
        funext l
        unfold membersOf
        rw [List.filter_cons_of_neg (by simp [hb])]
      rw [e, ih]
      unfold usableCount
      rw [List.filter_cons, if_neg hb]

/-- The sizes of the clusters add up: every usable processor is counted at exactly one leader. -/
theorem members_sum (t : List Proc) (h : Led t) :
    ((leaders t).map (membersOf t)).sum = usableCount t := by
  apply sum_members
  · exact List.nodup_range.filter _
  · intro p hp hu
    obtain ⟨i, hi⟩ := List.getElem?_of_mem hp
    obtain ⟨-, ⟨q, hq, hqu⟩, ⟨q', hq', hl⟩⟩ := h i p hi hu
    rw [hq] at hq'; cases hq'
    unfold leaders
    rw [List.mem_filter, List.mem_range]
    refine ⟨lt_of_get hq, ?_⟩
    rw [hq]
    simp [hl, show q.flags.testBit 12 = true from hqu]

end Verif.ArmClusters
