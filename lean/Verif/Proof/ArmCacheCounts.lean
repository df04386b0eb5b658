import Verif.Proof.ArmCaches

/-!
# The number of L3 caches, and what the second loop leaves alone
-/

set_option autoImplicit false

namespace Verif.ArmInit
open Spec ArmMidr ArmCpuinfo ArmClusters ArmClusterMidr ArmChipset Runs
open X86Init (modify? bitmaskAll inc32 Cache zeroCache MapTab prev)

/-! ## Fields the second loop does not touch -/

/-- A processor without its L2 and L3 links. -/
def bare (q : Processor) : Processor := { q with l2 := none, l3 := none }

theorem modify_bare {t t' : List Processor} {i : Nat} {f : Processor → Processor}
    (h : modify? t i f = some t') (hf : ∀ q, bare (f q) = bare q) : t'.map bare = t.map bare := by
  obtain ⟨q, hq, rfl⟩ := modify?_some h
  rw [List.map_set, hf]
  apply List.ext_getElem?
  intro k
  have hq' : (t.map bare)[i]? = some (bare q) := by rw [List.getElem?_map, hq]; rfl
  rw [set_get hq']
  by_cases hk : i = k
  · subst hk; rw [if_pos rfl, hq']
  · rw [if_neg hk]

theorem cacheStep_bare {d : Decoders} {chipset : Chipset} {vp l3Count : Nat} {shared : Bool} {i : Nat}
    {p : Proc} {s s' : CacheState} (h : cacheStep d chipset vp l3Count shared i p s = some s') :
    s'.processors.map bare = s.processors.map bare := by
  unfold cacheStep at h
  simp only [Option.bind_eq_bind] at h
  generalize (if isLeader p = true then inc32 s.clusterId else s.clusterId) = id at h
  generalize (if isLeader p = true then inc32 s.l3Index else s.l3Index) = j3 at h
  generalize (if isLeader p = true then inc32 s.l2Index else s.l2Index) = j2 at h
  by_cases h3 : (cachesOf d chipset id p).l3.size ≠ 0
  · rw [if_pos h3] at h
    obtain ⟨l2, -, h⟩ := Option.bind_eq_some_iff.mp h
    obtain ⟨l3, -, h⟩ := Option.bind_eq_some_iff.mp h
    obtain ⟨ps, hps, h⟩ := Option.bind_eq_some_iff.mp h
    cases h
    exact modify_bare hps fun q => rfl
  · rw [if_neg h3] at h
    by_cases h2 : (cachesOf d chipset id p).l2.size ≠ 0
    · rw [if_pos h2] at h
      obtain ⟨l2, -, h⟩ := Option.bind_eq_some_iff.mp h
      by_cases hj : j2 < l2.length
      · rw [if_neg (fun hh => hh hj)] at h
        obtain ⟨ps, hps, h⟩ := Option.bind_eq_some_iff.mp h
        cases h
        exact modify_bare hps fun q => rfl
      · rw [if_pos hj] at h
        cases h
    · rw [if_neg h2] at h
      cases h; rfl

theorem cacheLoop_bare {d : Decoders} {chipset : Chipset} {vp l3Count : Nat} {shared : Bool} :
    ∀ (v : List Proc) (i : Nat) (s s' : CacheState),
    cacheLoop d chipset vp l3Count shared i v s = some s' →
    s'.processors.map bare = s.processors.map bare
  | [], _, _, _, h => by cases h; rfl
  | p :: v, i, s, s', h => by
    rw [cacheLoop] at h
    obtain ⟨s1, h1, h⟩ := Option.bind_eq_some_iff.mp h
    rw [cacheLoop_bare v (i + 1) s1 s' h, cacheStep_bare h1]

/-! ## The counters -/

namespace Ctx
variable (x : Ctx)

theorem cl_zero (h0 : 0 < x.N) : x.cl 0 = 0 := by
  rw [cl, idx_gi x.nw (x.new0 h0)]; rfl

theorem cl_pos (h0 : 0 < x.N) {k : Nat} (hk : 0 < k) (hw : x.nw k = true) : x.cl k ≠ 0 := by
  have e : x.cl k = opened x.nw k := idx_pos hw
  have := opened_lt (op := x.nw) (x.new0 h0) hk
  omega

/-- Position `k` is counted as having an L3 cache of its own. -/
def op3' (k : Nat) : Bool := x.op3 k && (k == 0 || (x.c k).l3.size != (x.c 0).l3.size)

/-- All the counters say about L3 caches. -/
theorem counts_l3 (h0 : 0 < x.N) (n : Nat) :
    (x.counts (n + 1)).big = (x.c 0).l3.size ∧ (x.counts (n + 1)).l3 = opened x.op3' (n + 1) ∧
    ((x.counts (n + 1)).shared = true ↔
      ∀ k, k < n + 1 → (x.c k).l3.size ≠ 0 ∧ (x.nw k = true → (x.c k).l3.size = (x.c 0).l3.size)) := by
  induction n with
  | zero =>
    have hw : x.nw 0 = true := x.new0 h0
    have hc := x.cl_zero h0
    rw [counts]
    unfold countStep
    by_cases h3 : (x.c 0).l3.size ≠ 0
    · rw [if_pos h3, if_pos hw, if_pos hc]
      refine ⟨rfl, ?_, ?_⟩
      · simp [opened, op3', op3, hw, h3]
      · constructor
        · intro _ k hk
          have : k = 0 := by omega
          subst this
          exact ⟨h3, fun _ => rfl⟩
        · intro _; rfl
    · rw [if_neg h3]
      have h3 : (x.c 0).l3.size = 0 := by simpa using h3
      refine ⟨h3.symm, by simp [opened, op3', op3, hw, h3]; rfl, ?_⟩
      constructor
      · intro h; cases h
      · intro h; exact absurd h3 (h 0 (by omega)).1
  | succ n ih =>
    obtain ⟨i1, i2, i3⟩ := ih
    rw [counts, opened]
    have key : ∀ b : Bool, (b = true ↔ ((x.c (n + 1)).l3.size ≠ 0 ∧
        (x.nw (n + 1) = true → (x.c (n + 1)).l3.size = (x.c 0).l3.size) ∧ (x.counts (n + 1)).shared = true)) →
        (b = true ↔ ∀ k, k < n + 1 + 1 → (x.c k).l3.size ≠ 0 ∧
          (x.nw k = true → (x.c k).l3.size = (x.c 0).l3.size)) := by
      intro b hb
      rw [hb]
      constructor
      · rintro ⟨g1, g2, g3⟩ k hk
        by_cases hkn : k = n + 1
        · subst hkn; exact ⟨g1, g2⟩
        · exact i3.mp g3 k (by omega)
      · intro g
        exact ⟨(g _ (by omega)).1, (g _ (by omega)).2, i3.mpr fun k hk => g k (by omega)⟩
    unfold countStep
    by_cases h3 : (x.c (n + 1)).l3.size ≠ 0
    · rw [if_pos h3]
      cases hw : x.nw (n + 1) with
      | false =>
        have ho : x.op3' (n + 1) = false := by simp [op3', op3, hw]
        rw [if_neg (by simp), ho]
        refine ⟨i1, i2, key _ ?_⟩
        rw [hw]
        exact ⟨fun h => ⟨h3, fun h => by (cases h), h⟩, fun h => h.2.2⟩
      | true =>
        rw [if_pos rfl, if_neg (x.cl_pos h0 (by omega) hw), i1]
        by_cases hd : (x.c (n + 1)).l3.size ≠ (x.c 0).l3.size
        · have ho : x.op3' (n + 1) = true := by simp [op3', op3, hw, h3, hd]
          rw [if_pos hd, ho]
          refine ⟨rfl, by rw [i2]; rfl, key _ ?_⟩
          rw [hw]
          exact ⟨fun h => by (cases h), fun h => absurd (h.2.1 rfl) hd⟩
        · have hd' : (x.c (n + 1)).l3.size = (x.c 0).l3.size := by simpa using hd
          have ho : x.op3' (n + 1) = false := by simp [op3', hd']
          rw [if_neg hd, ho]
          refine ⟨rfl, i2, key _ ?_⟩
          rw [hw]
          exact ⟨fun h => ⟨h3, fun _ => hd', h⟩, fun h => h.2.2⟩
    · have h3' : (x.c (n + 1)).l3.size = 0 := by simpa using h3
      have ho : x.op3' (n + 1) = false := by simp [op3', op3, h3']
      rw [if_neg h3, ho]
      refine ⟨i1, i2, key _ ?_⟩
      exact ⟨fun h => by (cases h), fun h => absurd h3' h.1⟩

/-- The L3 caches are counted properly: either one for all processors, or the clusters after the
first all have an L3 cache of another size than the first (or none). -/
def L3Regular : Prop := (∀ k, k < x.N → (x.c k).l3.size ≠ 0 ∧ (x.c k).l3.size = (x.c 0).l3.size) ∨
  ∀ k, k < x.N → 0 < k → x.nw k = true → (x.c k).l3.size ≠ 0 → (x.c k).l3.size ≠ (x.c 0).l3.size

/-- Processors of a cluster have L3 caches of the size of the leader's. -/
theorem uniform_start (hu : x.Uniform) (k : Nat) (hk : k < x.N) :
    (x.c k).l3.size = (x.c (st x.nw k)).l3.size ∧ (x.c k).l2.size = (x.c (st x.nw k)).l2.size := by
  induction k with
  | zero => exact ⟨rfl, rfl⟩
  | succ k ih =>
    cases hw : x.nw (k + 1) with
    | true => rw [st_succ_new hw]; exact ⟨rfl, rfl⟩
    | false =>
      rw [st_succ_old hw]
      obtain ⟨u1, u2⟩ := hu k hk hw
      obtain ⟨i1, i2⟩ := ih (by omega)
      exact ⟨u1.trans i1, u2.trans i2⟩

theorem start_new (h0 : 0 < x.N) (k : Nat) : x.nw (st x.nw k) = true := by
  induction k with
  | zero => exact x.new0 h0
  | succ k ih =>
    cases hw : x.nw (k + 1) with
    | true => rw [st_succ_new hw]; exact hw
    | false => rw [st_succ_old hw]; exact ih

/-- When the L3 cache is published as shared by all processors. -/
theorem shared_iff (h0 : 0 < x.N) (hu : x.Uniform) : (x.counts x.N).shared = true ↔
    ∀ k, k < x.N → (x.c k).l3.size ≠ 0 ∧ (x.c k).l3.size = (x.c 0).l3.size := by
  obtain ⟨n, hn⟩ : ∃ n, x.N = n + 1 := ⟨x.N - 1, by omega⟩
  rw [hn, (x.counts_l3 h0 n).2.2]
  constructor
  · intro h k hk
    refine ⟨(h k hk).1, ?_⟩
    have hs : st x.nw k < n + 1 := Nat.lt_of_le_of_lt (st_le _ k) hk
    rw [(x.uniform_start hu k (by omega)).1]
    exact (h _ hs).2 (x.start_new h0 k)
  · intro h k hk
    exact ⟨(h k hk).1, fun _ => (h k hk).2⟩

theorem l3_count (h0 : 0 < x.N) : (x.counts x.N).l3 = opened x.op3' x.N := by
  obtain ⟨n, hn⟩ : ∃ n, x.N = n + 1 := ⟨x.N - 1, by omega⟩
  rw [hn]; exact (x.counts_l3 h0 n).2.1

theorem opened_congr {p q : Nat → Bool} : ∀ n, (∀ k, k < n → p k = q k) → opened p n = opened q n
  | 0, _ => rfl
  | n + 1, h => by
    rw [opened, opened, opened_congr n fun k hk => h k (by omega), h n (by omega)]

theorem opened_one {p : Nat → Bool} (h0 : p 0 = true) : ∀ n, 0 < n → (∀ k, 0 < k → k < n → p k = false) →
    opened p n = 1
  | 1, _, _ => by simp [opened, h0]
  | n + 2, _, h => by
    rw [opened_neg (h (n + 1) (by omega) (by omega))]
    exact opened_one h0 (n + 1) (by omega) fun k h1 h2 => h k h1 (by omega)

/-- One L3 cache if it is shared. -/
theorem l3_one (h0 : 0 < x.N) (h : ∀ k, k < x.N → (x.c k).l3.size ≠ 0 ∧ (x.c k).l3.size = (x.c 0).l3.size) :
    (x.counts x.N).l3 = 1 := by
  rw [x.l3_count h0]
  refine opened_one ?_ _ h0 fun k h1 h2 => ?_
  · have hw : x.nw 0 = true := x.new0 h0
    simp [op3', op3, hw, (h 0 h0).1]
  · have : k ≠ 0 := by omega
    simp [op3', (h k h2).2, this]

/-- One per cluster with L3 otherwise, if the sizes are different. -/
theorem l3_each (h0 : 0 < x.N) (h : ∀ k, k < x.N → 0 < k → x.nw k = true → (x.c k).l3.size ≠ 0 →
    (x.c k).l3.size ≠ (x.c 0).l3.size) : (x.counts x.N).l3 = opened x.op3 x.N := by
  rw [x.l3_count h0]
  refine opened_congr _ fun k hk => ?_
  unfold op3'
  cases ho : x.op3 k with
  | false => rfl
  | true =>
    simp only [op3, Bool.and_eq_true, bne_iff_ne] at ho
    by_cases hk0 : k = 0
    · simp [hk0]
    · simp [h k hk (by omega) ho.1 ho.2]

/-- Every L3 index formed is within the table when the sizes are different. -/
theorem idx3_lt (hu : x.Uniform) : ∀ k, k < x.N → (x.c k).l3.size ≠ 0 →
    0 < opened x.op3 (k + 1) := by
  intro k hk h3
  have h0 : 0 < x.N := by omega
  have hs := x.uniform_start hu k hk
  have ho : x.op3 (st x.nw k) = true := by
    have : (x.c (st x.nw k)).l3.size ≠ 0 := by rw [← hs.1]; exact h3
    simp [op3, x.start_new h0 k, this]
  have := opened_lt ho (show st x.nw k < k + 1 by have := st_le x.nw k; omega)
  omega

end Ctx

end Verif.ArmInit
