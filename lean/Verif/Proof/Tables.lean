import Verif.Proof.Runs
import Verif.Model.X86Init
import Verif.Spec.Ranges

/-!
# Tables filled run by run
-/

set_option autoImplicit false

namespace Verif.X86Init
open Runs Spec

theorem modify?_eq {α : Type} {t : List α} {i : Nat} {x : α} (h : t[i]? = some x) (f : α → α) :
    modify? t i f = some (t.set i (f x)) := by simp [modify?, h]

theorem modify?_lt {α : Type} {t : List α} {i : Nat} (h : i < t.length) (f : α → α) :
    ∃ t', modify? t i f = some t' := by
  simp [modify?, List.getElem?_eq_getElem h]

theorem modify?_none {α : Type} {t : List α} {i : Nat} (h : t.length ≤ i) (f : α → α) :
    modify? t i f = none := by
  simp [modify?, List.getElem?_eq_none h]

theorem modify?_modify? {α : Type} (t : List α) (i : Nat) (f g : α → α) :
    ((modify? t i f).bind fun t => modify? t i g) = modify? t i (fun x => g (f x)) := by
  unfold modify?
  cases h : t[i]? with
  | none => rfl
  | some x =>
    have hi : i < t.length := by
      rcases Nat.lt_or_ge i t.length with h' | h'
      · exact h'
      · rw [List.getElem?_eq_none h'] at h; cases h
    simp [hi]

/-- The first `n` positions have been entered in the table: run `gi k` holds `e k`, the entries of
runs not yet reached hold `zero`. -/
structure Tab {α : Type} (nw : Nat → Bool) (len n : Nat) (e : Nat → α) (zero : α)
    (t : List α) : Prop where
  length : t.length = len
  done : ∀ k < n, t[gi nw k]? = some (e k)
  rest : ∀ g < len, (∀ k < n, gi nw k ≠ g) → t[g]? = some zero

theorem Tab.init {α : Type} (nw : Nat → Bool) (len : Nat) (e : Nat → α) (zero : α) :
    Tab nw len 0 e zero (List.replicate len zero) :=
  ⟨by simp, by intro k hk; omega, by intro g hg _; simp [hg]⟩

/-- Position `n` opens a new run. -/
def Opens (nw : Nat → Bool) (n : Nat) : Prop := ∀ k < n, gi nw k ≠ gi nw n

theorem opens_of_new {nw : Nat → Bool} {n : Nat} (h : n = 0 ∨ nw n = true) : Opens nw n := by
  intro k hk
  cases n with
  | zero => omega
  | succ n =>
    rcases h with h | h
    · omega
    · rw [gi_succ_new h]
      have := gi_mono nw (show k ≤ n by omega)
      omega

theorem Tab.step {α : Type} {nw : Nat → Bool} {len n : Nat} {e e' : Nat → α} {zero : α}
    {t : List α} (h : Tab nw len n e zero t) (hlen : gi nw n < len) (f : α → α)
    (hnew : Opens nw n → f zero = e' n)
    (hold : ∀ m, n = m + 1 → nw n = false → f (e m) = e' n)
    (hsame : ∀ k < n, gi nw k = gi nw n → e' k = e' n)
    (hother : ∀ k < n, gi nw k ≠ gi nw n → e' k = e k) :
    ∃ t', modify? t (gi nw n) f = some t' ∧ Tab nw len (n + 1) e' zero t' := by
  have hval : ∃ x, t[gi nw n]? = some x ∧ f x = e' n := by
    by_cases hn : n = 0 ∨ nw n = true
    · have ho := opens_of_new hn
      exact ⟨zero, h.rest _ hlen ho, hnew ho⟩
    · obtain ⟨m, rfl⟩ : ∃ m, n = m + 1 := ⟨n - 1, by omega⟩
      have hf : nw (m + 1) = false := by
        cases hh : nw (m + 1)
        · rfl
        · exact absurd (.inr hh) hn
      refine ⟨e m, ?_, hold m rfl hf⟩
      rw [gi_succ_old hf]; exact h.done m (by omega)
  obtain ⟨x, hx, hfx⟩ := hval
  refine ⟨_, modify?_eq hx f, ⟨by simp [h.length], ?_, ?_⟩⟩
  · intro k hk
    by_cases hg : gi nw k = gi nw n
    · have : e' k = e' n := by
        by_cases hkn : k = n
        · rw [hkn]
        · exact hsame k (by omega) hg
      rw [hg, this, ← hfx]
      simp [h.length, hlen]
    · have hkn : k ≠ n := fun h => hg (by rw [h])
      rw [hother k (by omega) hg, List.getElem?_set_ne (fun h => hg h.symm)]
      exact h.done k (by omega)
  · intro g hg hk
    rw [List.getElem?_set_ne (hk n (by omega))]
    exact h.rest g hg fun k hkn => hk k (by omega)

/-- The table after all `n` positions. -/
theorem Tab.get {α : Type} {nw : Nat → Bool} {n : Nat} {e : Nat → α} {zero : α} {t : List α}
    (h : Tab nw (gi nw n + 1) (n + 1) e zero t) (g : Nat) (x : α) (hg : t[g]? = some x) :
    ∃ k ≤ n, gi nw k = g ∧ x = e k := by
  have hlt : g < t.length := by
    rcases Nat.lt_or_ge g t.length with h' | h'
    · exact h'
    · rw [List.getElem?_eq_none h'] at hg; cases hg
  rw [h.length] at hlt
  obtain ⟨k, hk, hgk⟩ := gi_surj nw n g (by omega)
  refine ⟨k, hk, hgk, ?_⟩
  have := h.done k (by omega)
  rw [hgk, hg] at this
  exact Option.some.inj this

/-! ## A number map -/

/-- Map from numbers `lid k` to values, after `n` positions. -/
structure MapTab (lid : Nat → Nat) (len n : Nat) (v : Nat → Nat) (t : List (Option Nat)) : Prop where
  length : t.length = len
  done : ∀ k < n, t[lid k]? = some (some (v k))
  rest : ∀ j < len, (∀ k < n, lid k ≠ j) → t[j]? = some none

theorem MapTab.init (lid : Nat → Nat) (len : Nat) (v : Nat → Nat) :
    MapTab lid len 0 v (List.replicate len none) :=
  ⟨by simp, by intro k hk; omega, by intro g hg _; simp [hg]⟩

theorem MapTab.step {lid : Nat → Nat} {len n : Nat} {v : Nat → Nat} {t : List (Option Nat)}
    (h : MapTab lid len n v t) (hlen : lid n < len) (hinj : ∀ k < n, lid k ≠ lid n) :
    ∃ t', modify? t (lid n) (fun _ => some (v n)) = some t' ∧ MapTab lid len (n + 1) v t' := by
  refine ⟨_, modify?_eq (h.rest _ hlen hinj) _, ⟨by simp [h.length], ?_, ?_⟩⟩
  · intro k hk
    by_cases hkn : k = n
    · subst hkn; simp [h.length, hlen]
    · rw [List.getElem?_set_ne (fun h => hinj k (by omega) h.symm)]
      exact h.done k (by omega)
  · intro g hg hk
    rw [List.getElem?_set_ne (hk n (by omega))]
    exact h.rest g hg fun k hkn => hk k (by omega)

/-! ## Runs are consecutive ranges -/

theorem next_run (nw : Nat → Bool) (n k : Nat) (hk : k < n)
    (he : st nw k + cnt nw (gi nw k) n < n) :
    gi nw (st nw k + cnt nw (gi nw k) n) = gi nw k + 1 ∧
      st nw (st nw k + cnt nw (gi nw k) n) = st nw k + cnt nw (gi nw k) n := by
  have hpos := cnt_pos nw n k hk
  obtain ⟨e, hee⟩ : ∃ e, st nw k + cnt nw (gi nw k) n = e + 1 :=
    ⟨st nw k + cnt nw (gi nw k) n - 1, by omega⟩
  have h1 := (mem_run nw n k hk e).mpr (by omega)
  have h2 : gi nw (e + 1) ≠ gi nw k := by
    intro h
    have := (mem_run nw n k hk (e + 1)).mp ⟨by omega, h⟩
    omega
  rw [hee]
  cases hn : nw (e + 1)
  · rw [gi_succ_old hn] at h2; exact absurd h1.2 h2
  · rw [gi_succ_new hn, st_succ_new hn, h1.2]; exact ⟨rfl, rfl⟩

theorem run_end_le (nw : Nat → Bool) (n k : Nat) (hk : k < n) :
    st nw k + cnt nw (gi nw k) n ≤ n := by
  have hpos := cnt_pos nw n k hk
  have := (mem_run nw n k hk (st nw k + cnt nw (gi nw k) n - 1)).mpr (by omega)
  omega

theorem consecutive_of_runs (nw : Nat → Bool) (n : Nat) (rs : List (Nat × Nat))
    (hlen : rs.length = gi nw n + 1)
    (hget : ∀ k < n + 1, rs[gi nw k]? = some (st nw k, cnt nw (gi nw k) (n + 1))) :
    Consecutive 0 rs (n + 1) := by
  have key : ∀ d k, n + 1 - k ≤ d → k < n + 1 → st nw k = k →
      Consecutive k (rs.drop (gi nw k)) (n + 1) := by
    intro d
    induction d with
    | zero => intro k h1 h2; omega
    | succ d ih =>
      intro k hd hk hst
      have hlt : gi nw k < rs.length := by
        have := gi_mono nw (show k ≤ n by omega); omega
      have hk1 := hget k hk
      rw [List.getElem?_eq_getElem hlt] at hk1
      have hk1 := Option.some.inj hk1
      rw [List.drop_eq_getElem_cons hlt, hk1, hst]
      have hpos := cnt_pos nw (n + 1) k hk
      refine .cons hpos ?_
      have hend := run_end_le nw (n + 1) k hk
      rw [hst] at hend
      by_cases he : k + cnt nw (gi nw k) (n + 1) < n + 1
      · have hnx := next_run nw (n + 1) k hk (by rw [hst]; exact he)
        rw [hst] at hnx
        rw [← hnx.1]
        exact ih _ (by omega) he hnx.2
      · have heq : k + cnt nw (gi nw k) (n + 1) = n + 1 := by omega
        have hrun := (mem_run nw (n + 1) k hk n).mpr (by rw [hst]; omega)
        rw [List.drop_eq_nil_of_le (by omega), heq]
        exact .nil _
  have := key (n + 1) 0 (by omega) (by omega) rfl
  simpa [gi] using this

end Verif.X86Init
