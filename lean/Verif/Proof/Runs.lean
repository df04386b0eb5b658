import Verif.Base

/-!
# Runs of a sequence

`nw k` says that a new run starts at position `k` (position 0 always starts the first run).
-/

set_option autoImplicit false

namespace Verif.Runs

/-- Index of the run that position `k` belongs to. -/
def gi (nw : Nat → Bool) : Nat → Nat
  | 0 => 0
  | k + 1 => gi nw k + if nw (k + 1) then 1 else 0

/-- First position of the run that position `k` belongs to. -/
def st (nw : Nat → Bool) : Nat → Nat
  | 0 => 0
  | k + 1 => if nw (k + 1) then k + 1 else st nw k

/-- Number of positions below `n` that belong to run `g`. -/
def cnt (nw : Nat → Bool) (g : Nat) : Nat → Nat
  | 0 => 0
  | n + 1 => cnt nw g n + if gi nw n = g then 1 else 0

theorem gi_succ_new {nw : Nat → Bool} {k : Nat} (h : nw (k + 1) = true) : gi nw (k + 1) = gi nw k + 1 := by
  simp [gi, h]

theorem gi_succ_old {nw : Nat → Bool} {k : Nat} (h : nw (k + 1) = false) : gi nw (k + 1) = gi nw k := by
  simp [gi, h]

theorem st_succ_new {nw : Nat → Bool} {k : Nat} (h : nw (k + 1) = true) : st nw (k + 1) = k + 1 := by
  simp [st, h]

theorem st_succ_old {nw : Nat → Bool} {k : Nat} (h : nw (k + 1) = false) : st nw (k + 1) = st nw k := by
  simp [st, h]

variable (nw : Nat → Bool)

theorem gi_succ_le (k : Nat) : gi nw k ≤ gi nw (k + 1) ∧ gi nw (k + 1) ≤ gi nw k + 1 := by
  cases h : nw (k + 1)
  · rw [gi_succ_old h]; omega
  · rw [gi_succ_new h]; omega

theorem gi_mono {i j : Nat} (h : i ≤ j) : gi nw i ≤ gi nw j := by
  induction j with
  | zero => have : i = 0 := by omega
            subst this; omega
  | succ j ih =>
    by_cases hj : i = j + 1
    · subst hj; omega
    · have := ih (by omega)
      have := gi_succ_le nw j
      omega

theorem gi_le (k : Nat) : gi nw k ≤ k := by
  induction k with
  | zero => simp [gi]
  | succ k ih => have := gi_succ_le nw k; omega

theorem st_le (k : Nat) : st nw k ≤ k := by
  induction k with
  | zero => simp [st]
  | succ k ih =>
    cases h : nw (k + 1)
    · rw [st_succ_old h]; omega
    · rw [st_succ_new h]; omega

theorem gi_st (k : Nat) : gi nw (st nw k) = gi nw k := by
  induction k with
  | zero => rfl
  | succ k ih =>
    cases h : nw (k + 1)
    · rw [st_succ_old h, gi_succ_old h, ih]
    · rw [st_succ_new h]

/-- The start of a run is the least position of the run. -/
theorem st_least (i k : Nat) (h : gi nw i = gi nw k) : st nw k ≤ i := by
  induction k with
  | zero => simp [st]
  | succ k ih =>
    cases hn : nw (k + 1)
    · rw [st_succ_old hn]; rw [gi_succ_old hn] at h; exact ih h
    · rw [st_succ_new hn]; rw [gi_succ_new hn] at h
      by_cases hi : i ≤ k
      · have := gi_mono nw hi; omega
      · omega

theorem st_eq_of_gi (i k : Nat) (h : gi nw i = gi nw k) : st nw i = st nw k := by
  have h1 := st_least nw (st nw i) k (by rw [gi_st, h])
  have h2 := st_least nw (st nw k) i (by rw [gi_st, h])
  omega

theorem st_st (k : Nat) : st nw (st nw k) = st nw k := st_eq_of_gi nw _ _ (gi_st nw k)

theorem cnt_zero_of_lt (g n : Nat) (h : ∀ k < n, gi nw k < g) : cnt nw g n = 0 := by
  induction n with
  | zero => rfl
  | succ n ih =>
    have := h n (by omega)
    simp only [cnt]
    rw [ih (fun k hk => h k (by omega)), if_neg (by omega)]

theorem cnt_self (k : Nat) : cnt nw (gi nw k) (k + 1) = k + 1 - st nw k := by
  induction k with
  | zero => simp [cnt, st]
  | succ k ih =>
    rw [cnt, if_pos rfl]
    cases hn : nw (k + 1)
    · rw [gi_succ_old hn, st_succ_old hn, ih]
      have := st_le nw k; omega
    · rw [gi_succ_new hn, st_succ_new hn, cnt_zero_of_lt nw (gi nw k + 1) (k + 1)
        (fun j hj => by have := gi_mono nw (show j ≤ k by omega); omega)]
      omega

/-- The positions of a run are the interval from its start with its length. -/
theorem mem_run (n k : Nat) (hk : k < n) (i : Nat) :
    (i < n ∧ gi nw i = gi nw k) ↔ (st nw k ≤ i ∧ i < st nw k + cnt nw (gi nw k) n) := by
  induction n with
  | zero => omega
  | succ n ih =>
    have hle := st_le nw k
    by_cases hg : gi nw n = gi nw k
    · have h1 := cnt_self nw n
      rw [hg, st_eq_of_gi nw n k hg] at h1
      rw [h1]
      constructor
      · rintro ⟨h2, h3⟩
        have := st_least nw i k h3
        omega
      · rintro ⟨h2, h3⟩
        have h4 := gi_mono nw h2
        have h5 := gi_mono nw (show i ≤ n by omega)
        rw [gi_st] at h4
        omega
    · have hkn : k ≠ n := by intro h; subst h; exact hg rfl
      have ih := ih (by omega)
      rw [cnt, if_neg hg, Nat.add_zero (cnt nw (gi nw k) n), ← ih]
      constructor
      · rintro ⟨h1, h2⟩
        refine ⟨?_, h2⟩
        by_cases h : i = n
        · subst h; exact absurd h2 hg
        · omega
      · rintro ⟨h1, h2⟩; exact ⟨by omega, h2⟩

theorem cnt_pos (n k : Nat) (hk : k < n) : 0 < cnt nw (gi nw k) n := by
  have := (mem_run nw n k hk k).mp ⟨hk, rfl⟩
  omega

/-- Every run index up to the last one is taken by some position. -/
theorem gi_surj (n g : Nat) (h : g ≤ gi nw n) : ∃ k, k ≤ n ∧ gi nw k = g := by
  induction n with
  | zero => exact ⟨0, by omega, by simp [gi] at *; omega⟩
  | succ n ih =>
    have := gi_succ_le nw n
    by_cases hg : g ≤ gi nw n
    · obtain ⟨k, h1, h2⟩ := ih hg; exact ⟨k, by omega, h2⟩
    · exact ⟨n + 1, by omega, by omega⟩

/-! ## Two levels: coarse runs are unions of fine runs -/

/-- Number of fine runs that start below `n` while the coarse run is `g`. -/
def sub (fine coarse : Nat → Bool) (g : Nat) : Nat → Nat
  | 0 => 0
  | n + 1 => sub fine coarse g n + if (n = 0 ∨ fine n = true) ∧ gi coarse n = g then 1 else 0

variable {fine coarse : Nat → Bool}

theorem coarse_of_fine (hc : ∀ k, coarse (k + 1) = true → fine (k + 1) = true) (i j : Nat)
    (h : gi fine i = gi fine j) : gi coarse i = gi coarse j := by
  have key : ∀ i d, gi fine i = gi fine (i + d) → gi coarse i = gi coarse (i + d) := by
    intro i d
    induction d with
    | zero => intro _; rfl
    | succ d ih =>
      intro h
      have h1 := gi_mono fine (show i ≤ i + d by omega)
      have h2 := gi_succ_le fine (i + d)
      have e : i + (d + 1) = i + d + 1 := by omega
      rw [e] at h ⊢
      have h3 : fine (i + d + 1) = false := by
        cases hf : fine (i + d + 1)
        · rfl
        · rw [gi_succ_new hf] at h; omega
      have h4 : coarse (i + d + 1) = false := by
        cases hf : coarse (i + d + 1)
        · rfl
        · have := hc _ hf; rw [h3] at this; contradiction
      rw [gi_succ_old h4]
      rw [gi_succ_old h3] at h
      exact ih h
  rcases Nat.le_total i j with hij | hij
  · obtain ⟨d, rfl⟩ := Nat.le.dest hij; exact key i d h
  · obtain ⟨d, rfl⟩ := Nat.le.dest hij; exact (key j d h.symm).symm

theorem sub_zero_of_lt (g n : Nat) (h : ∀ k < n, gi coarse k < g) : sub fine coarse g n = 0 := by
  induction n with
  | zero => rfl
  | succ n ih =>
    have := h n (by omega)
    simp only [sub]
    rw [ih (fun k hk => h k (by omega)), if_neg (by omega)]

theorem sub_self (hc : ∀ k, coarse (k + 1) = true → fine (k + 1) = true) (k : Nat) :
    sub fine coarse (gi coarse k) (k + 1) = gi fine k + 1 - gi fine (st coarse k) := by
  induction k with
  | zero => simp [sub, st]
  | succ k ih =>
    rw [sub]
    have hm := gi_mono fine (st_le coarse k)
    cases hn : coarse (k + 1)
    · rw [gi_succ_old hn, st_succ_old hn, ih]
      cases hf : fine (k + 1)
      · rw [gi_succ_old hf, if_neg (by simp)]; omega
      · rw [gi_succ_new hf, if_pos (by simp)]; omega
    · rw [gi_succ_new hn, st_succ_new hn, sub_zero_of_lt (gi coarse k + 1) (k + 1)
        (fun j hj => by have := gi_mono coarse (show j ≤ k by omega); omega)]
      rw [if_pos ⟨.inr (hc k hn), rfl⟩]; omega

/-- The fine runs inside a coarse run are an interval of run indices. -/
theorem mem_sub (hc : ∀ k, coarse (k + 1) = true → fine (k + 1) = true) (n k : Nat) (hk : k < n)
    (i : Nat) (hi : i < n) :
    gi coarse i = gi coarse k ↔
      (gi fine (st coarse k) ≤ gi fine i ∧
        gi fine i < gi fine (st coarse k) + sub fine coarse (gi coarse k) n) := by
  induction n with
  | zero => omega
  | succ n ih =>
    have hle := st_le coarse k
    by_cases hg : gi coarse n = gi coarse k
    · have h1 := sub_self hc n
      rw [hg, st_eq_of_gi coarse n k hg] at h1
      rw [h1]
      have hkn := gi_mono fine (show st coarse k ≤ n by omega)
      constructor
      · intro h3
        have h4 := gi_mono fine (st_least coarse i k h3)
        have h5 := gi_mono fine (show i ≤ n by omega)
        omega
      · rintro ⟨h2, _⟩
        by_cases hik : st coarse k ≤ i
        · have h4 := gi_mono coarse hik
          have h5 := gi_mono coarse (show i ≤ n by omega)
          rw [gi_st] at h4; omega
        · have h4 := gi_mono fine (show i ≤ st coarse k by omega)
          have := coarse_of_fine hc i (st coarse k) (by omega)
          rw [this, gi_st]
    · have hkn : k ≠ n := by intro h; subst h; exact hg rfl
      rw [sub, if_neg (by intro h; exact hg h.2), Nat.add_zero]
      by_cases hin : i < n
      · exact ih (by omega) hin
      · have hin : i = n := by omega
        subst hin
        -- position `i` lies behind the whole coarse run of `k`
        constructor
        · intro h; exact absurd h hg
        · rintro ⟨h1, h2⟩
          exfalso
          have hki := gi_mono coarse (show k ≤ i by omega)
          -- the last position of the coarse run of `k`
          have hend : ∀ m, k ≤ m → m < i → gi coarse m = gi coarse k →
              gi fine m + 1 ≥ gi fine (st coarse k) + sub fine coarse (gi coarse k) (m + 1) := by
            intro m _ _ hm
            have := sub_self hc m
            rw [hm, st_eq_of_gi coarse m k hm] at this
            have := gi_mono fine (show st coarse k ≤ m by omega)
            omega
          have key : ∀ d, k + d < i + 1 →
              gi coarse (k + d) ≠ gi coarse k →
              gi fine (k + d) ≥ gi fine (st coarse k) + sub fine coarse (gi coarse k) (k + d) := by
            intro d
            induction d with
            | zero => intro _ h; exact absurd rfl h
            | succ d ihd =>
              intro hd hne
              have e : k + (d + 1) = k + d + 1 := by omega
              rw [e] at hne ⊢
              by_cases hd2 : gi coarse (k + d) = gi coarse k
              · have hb := hend (k + d) (by omega) (by omega) hd2
                have hnew : coarse (k + d + 1) = true := by
                  cases hf : coarse (k + d + 1)
                  · rw [gi_succ_old hf] at hne; exact absurd hd2 hne
                  · rfl
                rw [gi_succ_new (hc _ hnew)]
                omega
              · have := ihd (by omega) hd2
                rw [sub, if_neg (by intro h; exact hd2 h.2), Nat.add_zero]
                have := gi_succ_le fine (k + d)
                omega
          have := key (i - k) (by omega) (by rw [show k + (i - k) = i by omega]; exact hg)
          rw [show k + (i - k) = i by omega] at this
          omega

/-! ## Runs of equal keys -/

/-- A new run starts where the key changes. -/
def byKey (key : Nat → Nat) (k : Nat) : Bool := k == 0 || key k != key (k - 1)

theorem byKey_succ (key : Nat → Nat) (k : Nat) : byKey key (k + 1) = true ↔ key (k + 1) ≠ key k := by
  simp [byKey]

/-- For a monotone key, positions are in the same run exactly when their keys are equal. -/
theorem gi_eq_iff (key : Nat → Nat) (n : Nat) (hm : ∀ i j, i ≤ j → j < n → key i ≤ key j)
    (i j : Nat) (hi : i < n) (hj : j < n) :
    gi (byKey key) i = gi (byKey key) j ↔ key i = key j := by
  have key' : ∀ i d, i + d < n → (gi (byKey key) i = gi (byKey key) (i + d) ↔ key i = key (i + d)) := by
    intro i d
    induction d with
    | zero => simp
    | succ d ih =>
      intro h
      have e : i + (d + 1) = i + d + 1 := by omega
      rw [e] at h ⊢
      have ih := ih (by omega)
      have h1 := gi_mono (byKey key) (show i ≤ i + d by omega)
      have h2 := hm i (i + d) (by omega) (by omega)
      have h3 := hm (i + d) (i + d + 1) (by omega) h
      cases hn : byKey key (i + d + 1)
      · rw [gi_succ_old hn]
        have : ¬ key (i + d + 1) ≠ key (i + d) := by rw [← byKey_succ, hn]; simp
        rw [ih]; omega
      · rw [gi_succ_new hn]
        have := (byKey_succ key (i + d)).mp hn
        omega
  rcases Nat.le_total i j with hij | hij
  · obtain ⟨d, rfl⟩ := Nat.le.dest hij; exact key' i d hj
  · obtain ⟨d, rfl⟩ := Nat.le.dest hij
    have := key' j d hi
    constructor
    · intro h; exact (this.mp h.symm).symm
    · intro h; exact (this.mpr h.symm).symm

end Verif.Runs
