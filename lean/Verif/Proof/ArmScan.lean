import Verif.Proof.ArmAttrs

/-!
# The sequential scan over processors without a cluster
-/

set_option autoImplicit false

namespace Verif.ArmClusters
open Spec ArmMidr ArmCpuinfo
open X86Init (modify? bitmaskAll)

theorem forRange_total {σ : Type} (f : Nat → σ → Option σ) (P : Nat → σ → Prop) (N : Nat)
    (step : ∀ j s, j < N → P j s → ∃ s', f j s = some s' ∧ P (j + 1) s') :
    ∀ (n i : Nat) (s : σ), i + n = N → P i s → ∃ s', forRange f n i s = some s' ∧ P N s'
  | 0, i, s, h, hp => ⟨s, rfl, by rw [← h]; exact hp⟩
  | n + 1, i, s, h, hp => by
    obtain ⟨s', e, hp'⟩ := step i s (by omega) hp
    obtain ⟨s'', e', hp''⟩ := forRange_total f P N step n (i + 1) s' (by omega) hp'
    exact ⟨s'', by rw [forRange, e]; exact e', hp''⟩

theorem forRange_inv {σ : Type} (f : Nat → σ → Option σ) (P : Nat → σ → Prop) (N : Nat)
    (step : ∀ j s s', j < N → P j s → f j s = some s' → P (j + 1) s') :
    ∀ (n i : Nat) (s s' : σ), i + n = N → P i s → forRange f n i s = some s' → P N s'
  | 0, i, s, s', h, hp, e => by
    rw [forRange] at e
    cases e
    rw [← h]; exact hp
  | n + 1, i, s, s', h, hp, e => by
    rw [forRange] at e
    cases hf : f i s with
    | none => rw [hf] at e; cases e
    | some s1 =>
      rw [hf] at e
      exact forRange_inv f P N step n (i + 1) s1 s' (by omega) (step i s s1 (by omega) hp hf) e

theorem modify?_eq {α : Type} {t : List α} {i : Nat} {x : α} (f : α → α) (h : t[i]? = some x) :
    modify? t i f = some (t.set i (f x)) := by
  unfold modify?; rw [h]

theorem modify?_some {α : Type} {t t' : List α} {i : Nat} {f : α → α} (h : modify? t i f = some t') :
    ∃ x, t[i]? = some x ∧ t' = t.set i (f x) := by
  unfold modify? at h
  cases hx : t[i]? with
  | none => rw [hx] at h; cases h
  | some x => rw [hx] at h; cases h; exact ⟨x, rfl, rfl⟩

theorem lt_of_get {α : Type} {t : List α} {i : Nat} {x : α} (h : t[i]? = some x) : i < t.length :=
  (List.getElem?_eq_some_iff.mp h).1

theorem set_get {α : Type} {t : List α} {i j : Nat} {x y : α} (h : t[i]? = some x) :
    (t.set i y)[j]? = if i = j then some y else t[j]? := by
  by_cases hij : i = j
  · subst hij
    rw [if_pos rfl, List.getElem?_set_self (lt_of_get h)]
  · rw [if_neg hij, List.getElem?_set_ne hij]

theorem free_iff (p : Proc) : (p.flags &&& (flagValid ||| flagCluster) = flagValid) ↔ Free p := by
  constructor
  · intro h
    have h12 := congrArg (fun y => Nat.testBit y 12) h
    have h10 := congrArg (fun y => Nat.testBit y 10) h
    simp only [Nat.testBit_and, Nat.testBit_or] at h12 h10
    have a1 : flagValid.testBit 12 = true := by decide
    have a2 : flagValid.testBit 10 = false := by decide
    have a3 : flagCluster.testBit 12 = false := by decide
    have a4 : flagCluster.testBit 10 = true := by decide
    rw [a1, a3] at h12
    rw [a2, a4] at h10
    refine ⟨by simpa [Usable] using h12, ?_⟩
    unfold Clustered
    rw [show p.flags.testBit 10 = false by simpa using h10]
    decide
  · intro ⟨h1, h2⟩
    unfold Usable at h1
    unfold Clustered at h2
    apply Nat.eq_of_testBit_eq
    intro i
    rw [Nat.testBit_and, Nat.testBit_or]
    rw [show flagValid = 2 ^ 12 by decide, show flagCluster = 2 ^ 10 by decide,
      Nat.testBit_two_pow, Nat.testBit_two_pow]
    by_cases hi : 12 = i
    · subst hi; rw [h1]; decide
    · by_cases hj : 10 = i
      · subst hj
        rw [show p.flags.testBit 10 = false by simpa using h2]; decide
      · rw [decide_eq_false hi, decide_eq_false hj]; simp

/-- The record of a free processor once it has leader `l`. -/
def placed (p : Proc) (l : Nat) : Proc := { mark flagCluster p with packageLeaderId := l }

/-- The invariant of the scan. -/
structure ScanInv (t : List Proc) (i : Nat) (s : Scan) (lead : Nat → Nat) : Prop where
  length : s.table.length = t.length
  later : ∀ j, i ≤ j → s.table[j]? = t[j]?
  other : ∀ (j : Nat) (p : Proc), t[j]? = some p → ¬ Free p → s.table[j]? = some p
  free : ∀ (j : Nat) (p : Proc), j < i → t[j]? = some p → Free p → s.table[j]? = some (placed p (lead j))
  spec : ∀ j, j < i → FreeAt t j → ScanLeader t lead j
  le : ∀ j, j < i → FreeAt t j → lead j ≤ j ∧ FreeAt t (lead j) ∧ lead (lead j) = lead j
  none : s.processors = 0 → ∀ k, k < i → ¬ FreeAt t k
  last : s.processors ≠ 0 → ∃ k, k < i ∧ FreeAt t k ∧ (∀ m, k < m → m < i → ¬ FreeAt t m) ∧
    lead k = s.start
  known1 : s.processors ≠ 0 → ∀ d v, cknown s.attrs d = some v →
    ∃ (m : Nat) (p : Proc), m < i ∧ t[m]? = some p ∧ Free p ∧ lead m = s.start ∧ known p d = some v
  known2 : s.processors ≠ 0 → ∀ (m : Nat) (p : Proc), m < i → t[m]? = some p → Free p →
    lead m = s.start → ∀ d v, known p d = some v → cknown s.attrs d = some v

theorem ScanLeader_congr {t : List Proc} {lead lead' : Nat → Nat} {j : Nat}
    (h : ∀ k, k ≤ j → lead' k = lead k) (hs : ScanLeader t lead j) : ScanLeader t lead' j := by
  refine ⟨fun h1 => (h j (Nat.le_refl _)).trans (hs.1 h1), fun k hk hf hl => ?_⟩
  obtain ⟨h1, h2⟩ := hs.2 k hk hf hl
  dsimp only at h1 h2 ⊢
  rw [h j (Nat.le_refl _), h k (by omega)]
  refine ⟨fun hn => h1 ?_, fun ⟨m, p, q, hm, a, b, c, d⟩ => h2 ⟨m, p, q, hm, a, b, ?_, d⟩⟩
  · rintro ⟨m, p, q, hm, a, b, c, d⟩
    exact hn ⟨m, p, q, hm, a, b, by rw [h m (by omega)]; exact c, d⟩
  · rw [← h m (by omega)]; exact c

theorem conflict_iff {t : List Proc} {i : Nat} {s : Scan} {lead : Nat → Nat}
    (h : ScanInv t i s lead) (hp : s.processors ≠ 0) (q : Proc) :
    (checkAttrs q s.attrs).2 = false ↔
      ∃ (m : Nat) (p : Proc), m < i ∧ t[m]? = some p ∧ Free p ∧ lead m = s.start ∧ Conflict p q := by
  constructor
  · intro hf
    have : ¬ ∀ d v w, cknown s.attrs d = some v → known q d = some w → v = w := by
      intro hh
      rw [(checkAttrs_ok q s.attrs).mpr hh] at hf; cases hf
    have : ∃ d v w, cknown s.attrs d = some v ∧ known q d = some w ∧ v ≠ w := by
      apply Classical.byContradiction
      intro hn
      apply this
      intro d v w hv hw
      apply Classical.byContradiction
      intro hne
      exact hn ⟨d, v, w, hv, hw, hne⟩
    obtain ⟨d, v, w, hv, hw, hne⟩ := this
    obtain ⟨m, p, h1, h2, h3, h4, h5⟩ := h.known1 hp d v hv
    exact ⟨m, p, h1, h2, h3, h4, d, v, w, h5, hw, hne⟩
  · rintro ⟨m, p, h1, h2, h3, h4, d, v, w, h5, hw, hne⟩
    have := h.known2 hp m p h1 h2 h3 h4 d v h5
    cases hb : (checkAttrs q s.attrs).2 with
    | false => rfl
    | true => exact absurd ((checkAttrs_ok q s.attrs).mp hb d v w this hw) hne

theorem scanStep_inv (t : List Proc) (i : Nat) (s : Scan) (hi : i < t.length)
    (h : ∃ lead, ScanInv t i s lead) :
    ∃ s', scanStep i s = some s' ∧ ∃ lead, ScanInv t (i + 1) s' lead := by
  obtain ⟨lead, h⟩ := h
  have hq : t[i]? = some t[i] := List.getElem?_eq_getElem hi
  generalize t[i] = q at hq
  have hsq : s.table[i]? = some q := (h.later i (Nat.le_refl _)).trans hq
  by_cases hfree : Free q
  · have hFi : FreeAt t i := ⟨q, hq, hfree⟩
    -- the new leader, and what is common to both outcomes
    have common : ∀ (l : Nat) (s' : Scan), s'.table = s.table.set i (placed q l) →
        ScanLeader t (fun k => if k = i then l else lead k) i →
        (l ≤ i ∧ FreeAt t l ∧ (if l = i then l else lead l) = l) →
        s'.processors ≠ 0 → s'.start = l →
        (∀ d v, cknown s'.attrs d = some v →
          ∃ (m : Nat) (p : Proc), m < i + 1 ∧ t[m]? = some p ∧ Free p ∧
            (if m = i then l else lead m) = l ∧ known p d = some v) →
        (∀ (m : Nat) (p : Proc), m < i + 1 → t[m]? = some p → Free p →
          (if m = i then l else lead m) = l → ∀ d v, known p d = some v →
          cknown s'.attrs d = some v) →
        ScanInv t (i + 1) s' (fun k => if k = i then l else lead k) := by
      intro l s' ht hspec hle hne hst h1 h2
      refine ⟨?_, ?_, ?_, ?_, ?_, ?_, ?_, ?_, ?_, ?_⟩
      · rw [ht, List.length_set]; exact h.length
      · intro j hj
        rw [ht, List.getElem?_set_ne (by omega)]
        exact h.later j (by omega)
      · intro j p hp hn
        have : i ≠ j := by
          intro hij; subst hij
          rw [hq] at hp; cases hp; exact hn hfree
        rw [ht, List.getElem?_set_ne this]
        exact h.other j p hp hn
      · intro j p hj hp hf
        rw [ht, set_get hsq]
        by_cases hij : j = i
        · subst hij
          rw [if_pos rfl, if_pos rfl]
          rw [hq] at hp; cases hp; rfl
        · rw [if_neg (Ne.symm hij), if_neg hij]
          exact h.free j p (by omega) hp hf
      · intro j hj hf
        by_cases hij : j = i
        · subst hij; exact hspec
        · exact ScanLeader_congr (fun k hk => if_neg (by omega)) (h.spec j (by omega) hf)
      · intro j hj hf
        by_cases hij : j = i
        · subst hij
          rw [if_pos rfl]; exact hle
        · rw [if_neg hij]
          obtain ⟨a, b, c⟩ := h.le j (by omega) hf
          rw [if_neg (show lead j ≠ i by omega)]
          exact ⟨a, b, c⟩
      · intro h0; exact absurd h0 hne
      · intro _
        refine ⟨i, by omega, hFi, fun m a b => by omega, ?_⟩
        rw [if_pos rfl, hst]
      · intro _ d v hv
        rw [hst]; exact h1 d v hv
      · intro _ m p hm hp hf hl d v hv
        rw [hst] at hl
        exact h2 m p hm hp hf hl d v hv
    unfold scanStep
    rw [hsq]
    simp only [Option.bind_eq_bind, Option.bind_some]
    rw [if_pos ((free_iff q).mpr hfree)]
    rw [modify?_eq _ hsq, modify?_eq _ hsq]
    simp only [Option.bind_some]
    -- starting a new cluster
    have fresh : ∀ (c : Attrs), ScanLeader t (fun k => if k = i then i else lead k) i →
        ScanInv t (i + 1)
          { processors := 1, start := i, attrs := recordAttrs q c, table := s.table.set i (placed q i) }
          (fun k => if k = i then i else lead k) := by
      intro c hspec
      refine common i _ rfl hspec ⟨Nat.le_refl _, hFi, if_pos rfl⟩ Nat.one_ne_zero rfl ?_ ?_
      · intro d v hv
        dsimp only at hv
        rw [recordAttrs_known] at hv
        exact ⟨i, q, by omega, hq, hfree, if_pos rfl, hv⟩
      · intro m p hm hp hf hl d v hv
        dsimp only
        rw [recordAttrs_known]
        by_cases hmi : m = i
        · subst hmi
          rw [hq] at hp; cases hp; exact hv
        · rw [if_neg hmi] at hl
          have := (h.le m (by omega) ⟨p, hp, hf⟩).1
          omega
    by_cases h0 : s.processors = 0
    · rw [if_pos h0]
      refine ⟨_, rfl, _, fresh s.attrs ⟨fun _ => if_pos rfl, fun k hk hf => ?_⟩⟩
      exact absurd hf (h.none h0 k hk)
    · rw [if_neg h0]
      obtain ⟨k, hk, hfk, hlast, hstart⟩ := h.last h0
      have unique : ∀ k', k' < i → FreeAt t k' → (∀ m, k' < m → m < i → ¬ FreeAt t m) → k' = k := by
        intro k' a b c
        rcases Nat.lt_trichotomy k' k with hh | hh | hh
        · exact absurd hfk (c k hh hk)
        · exact hh
        · exact absurd b (hlast k' hh a)
      have ck := conflict_iff h h0 q
      have translate : (∃ (m : Nat) (p q : Proc), m < i ∧ t[m]? = some p ∧ Free p ∧
          lead m = lead k ∧ t[i]? = some q ∧ Conflict p q) ↔
          ∃ (m : Nat) (p : Proc), m < i ∧ t[m]? = some p ∧ Free p ∧ lead m = s.start ∧
            Conflict p q := by
        rw [hstart]
        constructor
        · rintro ⟨m, p, q', a, b, c, d, e, f⟩
          rw [hq] at e; cases e
          exact ⟨m, p, a, b, c, d, f⟩
        · rintro ⟨m, p, a, b, c, d, f⟩
          exact ⟨m, p, q, a, b, c, d, hq, f⟩
      cases hb : (checkAttrs q s.attrs).2 with
      | true =>
        simp only [if_true]
        refine ⟨_, rfl, _, common s.start _ rfl ?_ ?_ (Nat.succ_ne_zero _) rfl ?_ ?_⟩
        · refine ⟨fun hn => absurd hfk (hn k hk), fun k' a b c => ?_⟩
          have := unique k' a b c
          subst this
          dsimp only
          rw [if_pos rfl, if_neg (show k' ≠ i by omega), hstart]
          refine ⟨fun _ => rfl, ?_⟩
          rintro ⟨m, p, q', a', b', c', d', e', f'⟩
          rw [if_neg (show m ≠ i by omega)] at d'
          have := ck.mpr (translate.mp ⟨m, p, q', a', b', c', hstart ▸ d', e', f'⟩)
          rw [hb] at this; cases this
        · obtain ⟨a, b, c⟩ := h.le k hk hfk
          rw [hstart] at a b c
          refine ⟨by omega, b, ?_⟩
          rw [if_neg (by omega)]; exact c
        · intro d v hv
          dsimp only at hv
          rw [checkAttrs_known _ _ hb] at hv
          cases hc : cknown s.attrs d with
          | some w =>
            rw [hc] at hv
            cases hv
            obtain ⟨m, p, a, b, c, e, f⟩ := h.known1 h0 d _ hc
            exact ⟨m, p, by omega, b, c, by rw [if_neg (show m ≠ i by omega)]; exact e, f⟩
          | none =>
            rw [hc] at hv
            exact ⟨i, q, by omega, hq, hfree, if_pos rfl, hv⟩
        · intro m p hm hp hf hl d v hv
          dsimp only
          rw [checkAttrs_known _ _ hb]
          by_cases hmi : m = i
          · subst hmi
            rw [hq] at hp
            cases hp
            cases hc : cknown s.attrs d with
            | none => exact hv
            | some w =>
              have := (checkAttrs_ok _ _).mp hb d w v hc hv
              rw [this]; rfl
          · rw [if_neg hmi] at hl
            rw [h.known2 h0 m p (by omega) hp hf hl d v hv]; rfl
      | false =>
        simp only [Bool.false_eq_true, if_false]
        refine ⟨_, rfl, _, fresh _ ⟨fun _ => if_pos rfl, fun k' a b c => ?_⟩⟩
        have := unique k' a b c
        subst this
        dsimp only
        rw [if_pos rfl, if_neg (show k' ≠ i by omega)]
        refine ⟨fun hn => ?_, fun _ => rfl⟩
        obtain ⟨m, p, q', a', b', c', d', e'⟩ := translate.mpr (ck.mp hb)
        exact absurd ⟨m, p, q', a', b', c', (if_neg (show m ≠ i by omega)).trans d', e'⟩ hn
  · refine ⟨s, ?_, lead, ?_⟩
    · unfold scanStep
      rw [hsq]
      simp only [Option.bind_eq_bind, Option.bind_some]
      rw [if_neg (fun hh => hfree ((free_iff q).mp hh))]; rfl
    · have hnf : ¬ FreeAt t i := by
        rintro ⟨p, hp, hf⟩
        rw [hq] at hp; cases hp; exact hfree hf
      have lower : ∀ j, j < i + 1 → FreeAt t j → j < i := by
        intro j hj hf
        rcases Nat.lt_or_ge j i with hh | hh
        · exact hh
        · have : j = i := by omega
          subst this; exact absurd hf hnf
      refine ⟨h.length, fun j hj => h.later j (by omega), h.other, ?_, ?_, ?_, ?_, ?_, ?_, ?_⟩
      · intro j p hj hp hf
        exact h.free j p (lower j hj ⟨p, hp, hf⟩) hp hf
      · intro j hj hf; exact h.spec j (lower j hj hf) hf
      · intro j hj hf; exact h.le j (lower j hj hf) hf
      · intro h0 k hk hf
        exact h.none h0 k (lower k hk hf) hf
      · intro h0
        obtain ⟨k, a, b, c, d⟩ := h.last h0
        refine ⟨k, by omega, b, fun m hm hm' hf => ?_, d⟩
        exact c m hm (lower m hm' hf) hf
      · intro h0 d v hv
        obtain ⟨m, p, a, b⟩ := h.known1 h0 d v hv
        exact ⟨m, p, by omega, b⟩
      · intro h0 m p hm hp hf
        exact h.known2 h0 m p (lower m hm ⟨p, hp, hf⟩) hp hf

theorem sequentialScan_inv (junk : Attrs) (t : List Proc) :
    ∃ s lead, sequentialScan junk t = some s.table ∧ ScanInv t t.length s lead := by
  obtain ⟨s, e, lead, h⟩ := forRange_total scanStep (fun i s => ∃ lead, ScanInv t i s lead) t.length
    (fun j s hj h => scanStep_inv t j s hj h) t.length 0 ⟨0, 0, { junk with flags := 0 }, t⟩
    (by omega)
    ⟨fun _ => 0, ⟨rfl, fun _ _ => rfl, fun _ _ h _ => h, fun _ _ h => absurd h (by omega),
      fun _ h => absurd h (by omega), fun _ h => absurd h (by omega),
      fun _ _ h => absurd h (by omega), fun h => absurd rfl h, fun h => absurd rfl h,
      fun h => absurd rfl h⟩⟩
  refine ⟨s, lead, ?_, h⟩
  unfold sequentialScan
  rw [e]; rfl

end Verif.ArmClusters
