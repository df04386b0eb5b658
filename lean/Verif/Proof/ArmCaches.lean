import Verif.Proof.ArmPublish

/-!
# Publishing the L2 and L3 caches
-/

set_option autoImplicit false

namespace Verif.ArmInit
open Spec ArmMidr ArmCpuinfo ArmClusters ArmClusterMidr ArmChipset Runs
open X86Init (modify? bitmaskAll inc32 Cache zeroCache MapTab prev)

namespace Ctx
variable (x : Ctx)

/-- The processors of a cluster have the same caches. -/
def Uniform : Prop := ∀ k, k + 1 < x.N → x.nw (k + 1) = false →
  (x.c (k + 1)).l3.size = (x.c k).l3.size ∧ (x.c (k + 1)).l2.size = (x.c k).l2.size

/-- Position `k` opens an L2 cache. -/
def op2 (k : Nat) : Bool := (x.c k).l3.size != 0 || (x.nw k && (x.c k).l2.size != 0)

/-- Position `k` opens an L3 cache (if there is room). -/
def op3 (k : Nat) : Bool := x.nw k && (x.c k).l3.size != 0

/-- Whether position `k` has an L2 cache. -/
def has2 (k : Nat) : Prop := (x.c k).l3.size ≠ 0 ∨ (x.c k).l2.size ≠ 0

instance (k : Nat) : Decidable (x.has2 k) := inferInstanceAs (Decidable (_ ∨ _))

def e2 (k : Nat) : Cache :=
  cacheEntry (x.c k).l2 k (if (x.c k).l3.size ≠ 0 then 1 else (x.P k).packageProcessorCount)

def e3 (shared : Bool) (k : Nat) : Cache :=
  cacheEntry (x.c k).l3 k (if shared then x.N else (x.P k).packageProcessorCount)

def link2 (k : Nat) : Option Nat := if x.has2 k then some (idx x.op2 (k + 1)) else none

def link3 (l3Count : Nat) (shared : Bool) (k : Nat) : Option Nat :=
  if (x.c k).l3.size ≠ 0 then
    if shared then some 0 else if idx x.op3 (k + 1) < l3Count then some (idx x.op3 (k + 1)) else none
  else none

def finalE (l3Count : Nat) (shared : Bool) (k : Nat) : Processor :=
  { x.processorE k with l2 := x.link2 k, l3 := x.link3 l3Count shared k }

/-- Invariant of the second loop. -/
structure CInv (l3Count : Nat) (shared : Bool) (n : Nat) (s : CacheState) : Prop where
  clusterId : s.clusterId = idx x.nw n
  l2Index : s.l2Index = idx x.op2 n
  l3Index : s.l3Index = idx x.op3 n
  l2 : OTab x.op2 (opened x.op2 x.N) n x.e2 zeroCache s.l2
  l3Length : s.l3.length = l3Count
  l3 : ∀ k, k < n → x.op3 k = true → opened x.op3 k < l3Count →
    s.l3[opened x.op3 k]? = some (x.e3 shared k)
  processors : Row x.N n (x.finalE l3Count shared) x.processorE s.processors

theorem first_open2 (hu : x.Uniform) : ∀ n, n < x.N → x.has2 n → 0 < opened x.op2 (n + 1) := by
  intro n
  induction n with
  | zero =>
    intro hn h2
    have hn0 := x.new0 (by omega)
    have : x.op2 0 = true := by
      unfold op2
      have : x.nw 0 = true := hn0
      rcases h2 with h | h
      · simp [h]
      · simp [this, h]
    rw [opened_pos this]; omega
  | succ n ih =>
    intro hn h2
    by_cases ho : x.op2 (n + 1) = true
    · rw [opened_pos ho]; omega
    · have hnw : x.nw (n + 1) = false ∨ (x.c (n + 1)).l2.size = 0 := by
        cases hw : x.nw (n + 1) with
        | false => exact .inl rfl
        | true => right; simp [op2, hw] at ho; exact ho.2
      have h30 : (x.c (n + 1)).l3.size = 0 := by
        simp [op2] at ho; exact ho.1
      rcases h2 with h | h
      · exact absurd h30 h
      · rcases hnw with hnw | h0
        · obtain ⟨u3, u2⟩ := hu n hn hnw
          have := ih (by omega) (.inr (by rw [← u2]; exact h))
          have := opened_mono x.op2 (show n + 1 ≤ n + 1 + 1 by omega)
          omega
        · exact absurd h0 h

theorem cstep (hu : x.Uniform) (l3Count : Nat) (shared : Bool) (n : Nat) (hn : n < x.N)
    (s : CacheState) (h : x.CInv l3Count shared n s) :
    ∃ s', cacheStep x.d x.chipset x.N l3Count shared n (x.P n) s = some s' ∧
      x.CInv l3Count shared (n + 1) s' := by
  have hnU : n < U32 := Nat.lt_trans hn x.hN
  have hcl : (if isLeader (x.P n) = true then inc32 s.clusterId else s.clusterId) = x.cl n := by
    rw [h.clusterId]; exact idx_step x.nw n hnU
  have hlt2 : ∀ m, m ≤ x.N → opened x.op2 m ≤ opened x.op2 x.N := fun m hm => opened_mono _ hm
  unfold cacheStep
  rw [hcl]
  simp only [Option.bind_eq_bind]
  have hc : cachesOf x.d x.chipset (x.cl n) (x.P n) = x.c n := rfl
  rw [hc]
  by_cases h3 : (x.c n).l3.size ≠ 0
  · rw [if_pos h3]
    have ho2 : x.op2 n = true := by simp [op2, h3]
    have e2i : inc32 s.l2Index = opened x.op2 n := by rw [h.l2Index]; exact inc_idx _ n hnU
    have hl : opened x.op2 n < opened x.op2 x.N := opened_lt ho2 hn
    obtain ⟨t2, et2, it2⟩ := h.l2.step ho2 hl (fun _ => cacheEntry (x.c n).l2 n 1) (by
      unfold e2; rw [if_pos h3])
    have hnw3 : x.op3 n = isLeader (x.P n) := by
      show (x.nw n && _) = x.nw n
      simp [h3]
    have e3i : (if isLeader (x.P n) = true then inc32 s.l3Index else s.l3Index) = idx x.op3 (n + 1) := by
      rw [h.l3Index, ← hnw3]; exact idx_step x.op3 n hnU
    rw [e2i, et2, e3i]
    simp only [Option.bind_some]
    have eL3 : ∃ t3, openL3 (isLeader (x.P n)) (idx x.op3 (n + 1)) l3Count n
        (if shared then x.N else (x.P n).packageProcessorCount) (x.c n).l3 s.l3 = some t3 ∧
        t3.length = l3Count ∧ ∀ k, k < n + 1 → x.op3 k = true → opened x.op3 k < l3Count →
          t3[opened x.op3 k]? = some (x.e3 shared k) := by
      unfold openL3
      by_cases hw : isLeader (x.P n) = true ∧ idx x.op3 (n + 1) < l3Count
      · rw [if_pos hw]
        have ho3 : x.op3 n = true := by rw [hnw3]; exact hw.1
        have ei := idx_pos ho3
        rw [ei] at hw ⊢
        have hg := List.getElem?_eq_getElem (show opened x.op3 n < s.l3.length by
          rw [h.l3Length]; exact hw.2)
        refine ⟨_, modify?_eq _ hg, by rw [List.length_set]; exact h.l3Length, fun k hk hk3 hkl => ?_⟩
        rw [set_get hg]
        by_cases hkn : k = n
        · subst hkn; rw [if_pos rfl]; rfl
        · have := opened_lt hk3 (show k < n by omega)
          rw [if_neg (by omega)]
          exact h.l3 k (by omega) hk3 hkl
      · rw [if_neg hw]
        refine ⟨s.l3, rfl, h.l3Length, fun k hk hk3 hkl => ?_⟩
        by_cases hkn : k = n
        · subst hkn
          exfalso
          apply hw
          rw [idx_pos hk3]
          exact ⟨by rw [← hnw3]; exact hk3, hkl⟩
        · exact h.l3 k (by omega) hk3 hkl
    obtain ⟨t3, et3, il3, it3⟩ := eL3
    rw [et3]
    simp only [Option.bind_some]
    obtain ⟨tp, etp, itp⟩ := h.processors.step hn (fun q =>
      { q with
        l2 := some (opened x.op2 n)
        l3 := if shared then some 0 else if idx x.op3 (n + 1) < l3Count then some (idx x.op3 (n + 1))
          else q.l3 }) (by
      unfold finalE link2 link3
      rw [if_pos (show x.has2 n from .inl h3), if_pos h3, idx_pos ho2]
      rfl)
    rw [etp]
    simp only [Option.bind_some]
    exact ⟨_, rfl, rfl, (idx_pos ho2).symm, rfl, it2, il3, it3, itp⟩
  · rw [if_neg h3]
    have ho3 : x.op3 n = false := by
      have h3 : (x.c n).l3.size = 0 := by simpa using h3
      simp [op3, h3]
    have hno3 : ∀ k, k < n + 1 → x.op3 k = true → opened x.op3 k < l3Count →
        s.l3[opened x.op3 k]? = some (x.e3 shared k) := by
      intro k hk hk3 hkl
      by_cases hkn : k = n
      · subst hkn; rw [ho3] at hk3; cases hk3
      · exact h.l3 k (by omega) hk3 hkl
    by_cases h2 : (x.c n).l2.size ≠ 0
    · rw [if_pos h2]
      have ho2 : x.op2 n = isLeader (x.P n) := by
        have h3 : (x.c n).l3.size = 0 := by simpa using h3
        show (_ || (x.nw n && _)) = x.nw n
        simp [h3, h2]
      have e2i : (if isLeader (x.P n) = true then inc32 s.l2Index else s.l2Index) = idx x.op2 (n + 1) := by
        rw [h.l2Index, ← ho2]; exact idx_step x.op2 n hnU
      rw [e2i]
      have eL2 : ∃ t2, openL2 (isLeader (x.P n)) (idx x.op2 (n + 1)) n (x.P n).packageProcessorCount
          (x.c n).l2 s.l2 = some t2 ∧
          OTab x.op2 (opened x.op2 x.N) (n + 1) x.e2 zeroCache t2 := by
        unfold openL2
        cases hw : isLeader (x.P n) with
        | true =>
          rw [if_pos rfl]
          have ho : x.op2 n = true := by rw [ho2, hw]
          rw [idx_pos ho]
          exact h.l2.step ho (opened_lt ho hn) _ (by unfold e2; rw [if_neg h3])
        | false =>
          rw [if_neg (by simp)]
          exact ⟨s.l2, rfl, h.l2.skip (by rw [ho2, hw])⟩
      obtain ⟨t2, et2, it2⟩ := eL2
      rw [et2]
      simp only [Option.bind_some]
      have hpos := x.first_open2 hu n hn (.inr h2)
      have hidx : idx x.op2 (n + 1) < t2.length := by
        rw [it2.length]
        have := hlt2 (n + 1) hn
        unfold idx
        rw [if_neg (by omega)]; omega
      rw [if_neg (fun hh => hh hidx)]
      obtain ⟨tp, etp, itp⟩ := h.processors.step hn (fun q => { q with l2 := some (idx x.op2 (n + 1)) }) (by
        unfold finalE link2 link3
        rw [if_pos (show x.has2 n from .inr h2), if_neg h3]
        rfl)
      rw [etp]
      simp only [Option.bind_some]
      exact ⟨_, rfl, rfl, rfl, by rw [idx_neg ho3]; exact h.l3Index, it2, h.l3Length, hno3, itp⟩
    · rw [if_neg h2]
      have h2' : ¬ x.has2 n := fun hh => hh.elim h3 h2
      have ho2 : x.op2 n = false := by
        have h3 : (x.c n).l3.size = 0 := by simpa using h3
        have h2 : (x.c n).l2.size = 0 := by simpa using h2
        simp [op2, h3, h2]
      have hp := h.processors
      have hfin : x.finalE l3Count shared n = x.processorE n := by
        unfold finalE link2 link3
        rw [if_neg h2', if_neg h3]
        rfl
      refine ⟨_, rfl, rfl, by rw [idx_neg ho2]; exact h.l2Index, by rw [idx_neg ho3]; exact h.l3Index,
        h.l2.skip ho2, h.l3Length, hno3, hp.length, fun k hk => ?_⟩
      show s.processors[k]? = _
      rw [hp.get k hk]
      by_cases hkn : k = n
      · subst hkn; rw [if_neg (by omega), if_pos (by omega), hfin]
      · by_cases hlt : k < n
        · rw [if_pos hlt, if_pos (by omega)]
        · rw [if_neg hlt, if_neg (by omega)]

theorem cloop (hu : x.Uniform) (l3Count : Nat) (shared : Bool) :
    ∀ (v : List Proc) (n : Nat) (s : CacheState), n + v.length = x.N →
    (∀ k p, v[k]? = some p → p = x.P (n + k)) → x.CInv l3Count shared n s →
    ∃ s', cacheLoop x.d x.chipset x.N l3Count shared n v s = some s' ∧ x.CInv l3Count shared x.N s'
  | [], n, s, hl, _, h => by
    have : n = x.N := by simpa using hl
    exact ⟨s, rfl, this ▸ h⟩
  | p :: v, n, s, hl, hp, h => by
    rw [List.length_cons] at hl
    have hpn : p = x.P n := hp 0 p rfl
    obtain ⟨s', e, h'⟩ := x.cstep hu l3Count shared n (by omega) s h
    obtain ⟨s'', e', h''⟩ := cloop hu l3Count shared v (n + 1) s' (by omega) (fun k q hq => by
      rw [show n + 1 + k = n + (k + 1) by omega]; exact hp (k + 1) q hq) h'
    refine ⟨s'', ?_, h''⟩
    rw [cacheLoop, hpn, e]
    exact e'

/-! ## The counters -/

theorem counts_l2 (n : Nat) : (x.counts n).l2 = opened x.op2 n := by
  induction n with
  | zero => rfl
  | succ n ih =>
    rw [counts, opened, ← ih]
    by_cases h3 : (x.c n).l3.size ≠ 0
    · have ho : x.op2 n = true := by simp [op2, h3]
      rw [if_pos ho]
      unfold countStep
      rw [if_pos h3]
      (repeat' split) <;> rfl
    · have h3' : (x.c n).l3.size = 0 := by simpa using h3
      unfold countStep
      rw [if_neg h3]
      by_cases h2 : (x.c n).l2.size ≠ 0
      · cases hw : x.nw n with
        | true => simp [op2, h3', h2, hw]
        | false => simp [op2, h3', hw]
      · have h2 : (x.c n).l2.size = 0 := by simpa using h2
        simp [op2, h3', h2]

end Ctx

end Verif.ArmInit
