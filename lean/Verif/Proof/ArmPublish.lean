import Verif.Proof.ArmSorted
import Verif.Proof.X86Build

/-!
# Publishing the tables
-/

set_option autoImplicit false

namespace Verif.ArmInit
open Spec ArmMidr ArmCpuinfo ArmClusters ArmClusterMidr ArmChipset Runs
open X86Init (modify? bitmaskAll inc32 Cache zeroCache MapTab prev)

/-! ## Rows: one table entry per position -/

/-- The first `n` of `N` entries are `e`, the others `base`. -/
structure Row {α : Type} (N n : Nat) (e base : Nat → α) (t : List α) : Prop where
  length : t.length = N
  get : ∀ k, k < N → t[k]? = some (if k < n then e k else base k)

theorem Row.init {α : Type} (N : Nat) (e : Nat → α) (zero : α) :
    Row N 0 e (fun _ => zero) (List.replicate N zero) :=
  ⟨by simp, fun k hk => by simp [hk]⟩

theorem Row.step {α : Type} {N n : Nat} {e base : Nat → α} {t : List α} (h : Row N n e base t)
    (hn : n < N) (f : α → α) (hf : f (base n) = e n) :
    ∃ t', modify? t n f = some t' ∧ Row N (n + 1) e base t' := by
  have hg := h.get n hn
  rw [if_neg (Nat.lt_irrefl n)] at hg
  refine ⟨_, modify?_eq f hg, by rw [List.length_set]; exact h.length, fun k hk => ?_⟩
  rw [set_get hg]
  by_cases hkn : n = k
  · subst hkn
    rw [if_pos rfl, if_pos (by omega), hf]
  · rw [if_neg hkn, h.get k hk]
    by_cases hlt : k < n
    · rw [if_pos hlt, if_pos (by omega)]
    · rw [if_neg hlt, if_neg (by omega)]

theorem Row.done {α : Type} {N : Nat} {e base : Nat → α} {t : List α} (h : Row N N e base t) :
    t = (List.range N).map e := by
  apply List.ext_getElem?
  intro k
  by_cases hk : k < N
  · rw [h.get k hk, if_pos hk, List.getElem?_map, List.getElem?_range hk]; rfl
  · rw [List.getElem?_eq_none (by rw [h.length]; omega), List.getElem?_eq_none (by simp; omega)]

/-! ## Tables with an entry for some positions -/

/-- The number of positions below `n` that open an entry. -/
def opened (op : Nat → Bool) : Nat → Nat
  | 0 => 0
  | n + 1 => opened op n + if op n then 1 else 0

theorem opened_pos {op : Nat → Bool} {n : Nat} (h : op n = true) : opened op (n + 1) = opened op n + 1 := by
  simp [opened, h]

theorem opened_neg {op : Nat → Bool} {n : Nat} (h : op n = false) : opened op (n + 1) = opened op n := by
  simp [opened, h]

theorem opened_mono (op : Nat → Bool) {i j : Nat} (h : i ≤ j) : opened op i ≤ opened op j := by
  induction j with
  | zero => have : i = 0 := by omega
            subst this; exact Nat.le_refl _
  | succ j ih =>
    by_cases hj : i = j + 1
    · subst hj; exact Nat.le_refl _
    · have := ih (by omega)
      have : opened op j ≤ opened op (j + 1) := by rw [opened]; omega
      omega

theorem opened_lt {op : Nat → Bool} {i j : Nat} (hi : op i = true) (h : i < j) :
    opened op i < opened op j := by
  have := opened_mono op (show i + 1 ≤ j from h)
  rw [opened_pos hi] at this; omega

theorem opened_inj {op : Nat → Bool} {i j : Nat} (hi : op i = true) (hj : op j = true)
    (h : opened op i = opened op j) : i = j := by
  rcases Nat.lt_trichotomy i j with h1 | h1 | h1
  · have := opened_lt hi h1; omega
  · exact h1
  · have := opened_lt hj h1; omega

theorem opened_le (op : Nat → Bool) (n : Nat) : opened op n ≤ n := by
  induction n with
  | zero => exact Nat.le_refl _
  | succ n ih => unfold opened; split <;> omega

theorem opened_surj (op : Nat → Bool) (n g : Nat) (h : g < opened op n) :
    ∃ k, k < n ∧ op k = true ∧ opened op k = g := by
  induction n with
  | zero => cases h
  | succ n ih =>
    cases hn : op n with
    | false =>
      rw [opened_neg hn] at h
      obtain ⟨k, h1, h2⟩ := ih h
      exact ⟨k, by omega, h2⟩
    | true =>
      rw [opened_pos hn] at h
      by_cases he : g = opened op n
      · exact ⟨n, by omega, hn, he.symm⟩
      · obtain ⟨k, h1, h2⟩ := ih (by omega)
        exact ⟨k, by omega, h2⟩

/-- The value of an index variable that starts at `UINT32_MAX`. -/
def idx (op : Nat → Bool) (n : Nat) : Nat := if opened op n = 0 then U32MAX else opened op n - 1

theorem inc_idx (op : Nat → Bool) (n : Nat) (hn : n < U32) : inc32 (idx op n) = opened op n := by
  unfold idx
  have := opened_le op n
  split
  · next h => rw [h]; rfl
  · unfold inc32
    rw [show opened op n - 1 + 1 = opened op n by omega]
    exact Nat.mod_eq_of_lt (by omega)

theorem idx_pos {op : Nat → Bool} {n : Nat} (h : op n = true) : idx op (n + 1) = opened op n := by
  unfold idx; rw [opened_pos h, if_neg (by omega)]; rfl

theorem idx_neg {op : Nat → Bool} {n : Nat} (h : op n = false) : idx op (n + 1) = idx op n := by
  unfold idx; rw [opened_neg h]

theorem idx_step (op : Nat → Bool) (n : Nat) (hn : n < U32) :
    (if op n = true then inc32 (idx op n) else idx op n) = idx op (n + 1) := by
  cases h : op n with
  | true => rw [if_pos rfl, inc_idx op n hn, idx_pos h]
  | false => rw [if_neg (by simp), idx_neg h]

theorem opened_gi (nw : Nat → Bool) (h0 : nw 0 = true) (n : Nat) : opened nw (n + 1) = gi nw n + 1 := by
  induction n with
  | zero => simp [opened, h0, gi]
  | succ n ih =>
    rw [opened, ih, gi]; split <;> omega

theorem idx_gi (nw : Nat → Bool) (h0 : nw 0 = true) (n : Nat) : idx nw (n + 1) = gi nw n := by
  unfold idx; rw [opened_gi nw h0, if_neg (by omega)]; rfl

/-- Entries opened by positions below `n`. -/
structure OTab {α : Type} (op : Nat → Bool) (len n : Nat) (e : Nat → α) (zero : α) (t : List α) :
    Prop where
  length : t.length = len
  done : ∀ k, k < n → op k = true → t[opened op k]? = some (e k)
  rest : ∀ g, opened op n ≤ g → g < len → t[g]? = some zero

theorem OTab.init {α : Type} (op : Nat → Bool) (len : Nat) (e : Nat → α) (zero : α) :
    OTab op len 0 e zero (List.replicate len zero) :=
  ⟨by simp, fun k hk => by omega, fun g _ hg => by simp [hg]⟩

theorem OTab.step {α : Type} {op : Nat → Bool} {len n : Nat} {e : Nat → α} {zero : α} {t : List α}
    (h : OTab op len n e zero t) (hop : op n = true) (hlen : opened op n < len) (f : α → α)
    (hf : f zero = e n) :
    ∃ t', modify? t (opened op n) f = some t' ∧ OTab op len (n + 1) e zero t' := by
  have hg := h.rest _ (Nat.le_refl _) hlen
  refine ⟨_, modify?_eq f hg, by rw [List.length_set]; exact h.length, fun k hk hk' => ?_, fun g h1 h2 => ?_⟩
  · rw [set_get hg]
    by_cases hkn : k = n
    · subst hkn; rw [if_pos rfl, hf]
    · have := opened_lt hk' (show k < n by omega)
      rw [if_neg (by omega)]
      exact h.done k (by omega) hk'
  · rw [opened_pos hop] at h1
    rw [List.getElem?_set_ne (by omega)]
    exact h.rest g (by omega) h2

theorem OTab.skip {α : Type} {op : Nat → Bool} {len n : Nat} {e : Nat → α} {zero : α} {t : List α}
    (h : OTab op len n e zero t) (hop : op n = false) : OTab op len (n + 1) e zero t := by
  refine ⟨h.length, fun k hk hk' => ?_, fun g h1 h2 => h.rest g (by rw [← opened_neg hop]; exact h1) h2⟩
  by_cases hkn : k = n
  · subst hkn; rw [hop] at hk'; cases hk'
  · exact h.done k (by omega) hk'

theorem OTab.full {α : Type} {op : Nat → Bool} {len n : Nat} {e : Nat → α} {zero : α} {t : List α}
    (h : OTab op len n e zero t) (hlen : len = opened op n) {g : Nat} {x : α} (hx : t[g]? = some x) :
    ∃ k, k < n ∧ op k = true ∧ opened op k = g ∧ x = e k := by
  have hg : g < opened op n := by rw [← hlen, ← h.length]; exact lt_of_get hx
  obtain ⟨k, h1, h2, h3⟩ := opened_surj op n g hg
  refine ⟨k, h1, h2, h3, ?_⟩
  have := h.done k h1 h2
  rw [h3, hx] at this
  exact Option.some.inj this

/-! ## The first loop -/

/-- The situation of the publishing loops: `P k` is the processor at position `k`. -/
structure Ctx where
  a : Arch
  d : Decoders
  chipset : Chipset
  N : Nat
  P : Nat → Proc
  maxLinux : Nat
  clusterCount : Nat
  hN : N < U32
  hid : ∀ k, k < N → (P k).systemProcessorId < maxLinux
  inj : ∀ i j, i < N → j < N → (P i).systemProcessorId = (P j).systemProcessorId → i = j
  new0 : 0 < N → isLeader (P 0) = true
  hcl : opened (fun k => isLeader (P k)) N ≤ clusterCount

namespace Ctx
variable (x : Ctx)

/-- A cluster starts at position `k`. -/
def nw (k : Nat) : Bool := isLeader (x.P k)

/-- The cluster of position `k`. -/
def cl (k : Nat) : Nat := idx x.nw (k + 1)

/-- The caches decoded at position `k`. -/
def c (k : Nat) : Caches := cachesOf x.d x.chipset (x.cl k) (x.P k)

def processorE (k : Nat) : Processor :=
  { zeroProcessor with core := k, cluster := x.cl k, linuxId := (x.P k).systemProcessorId,
                       l1i := k, l1d := k }

def coreE (k : Nat) : Core :=
  { processorStart := k, processorCount := 1, coreId := k, cluster := x.cl k,
    vendor := (x.P k).vendor, uarch := (x.P k).uarch, midr := (x.P k).midr }

def clusterE (k : Nat) : Cluster := clusterEntry k (x.cl k) (x.P k)

/-- The counters of L2 and L3 caches. -/
structure Counts where
  l2 : Nat
  l3 : Nat
  big : Nat
  shared : Bool

/-- What `countCaches` does to the counters. -/
def countStep (c : Caches) (clusterId : Nat) (leader : Bool) (s : Counts) : Counts :=
  if c.l3.size ≠ 0 then
    if leader then
      if clusterId = 0 then ⟨s.l2 + 1, 1, c.l3.size, s.shared⟩
      else if c.l3.size ≠ s.big then ⟨s.l2 + 1, s.l3 + 1, s.big, false⟩
      else ⟨s.l2 + 1, s.l3, s.big, s.shared⟩
    else ⟨s.l2 + 1, s.l3, s.big, s.shared⟩
  else ⟨if c.l2.size ≠ 0 ∧ leader then s.l2 + 1 else s.l2, s.l3, s.big, false⟩

/-- The counters before position `n`. -/
def counts : Nat → Counts
  | 0 => ⟨0, 0, 0, true⟩
  | n + 1 => countStep (x.c n) (x.cl n) (x.nw n) (counts n)

def countsOf (s : State) : Counts := ⟨s.l2Count, s.l3Count, s.bigL3Size, s.sharedL3⟩

theorem countCaches_counts (c : Caches) (id : Nat) (l : Bool) (s : State) :
    countsOf (countCaches c id l s) = countStep c id l (countsOf s) := by
  unfold countCaches countStep
  split
  · cases l with
    | false => rfl
    | true =>
      simp only [if_true]
      split
      · rfl
      · split
        · next h => rw [if_pos (show c.l3.size ≠ (countsOf s).big from h)]; rfl
        · next h => rw [if_neg (show ¬ c.l3.size ≠ (countsOf s).big from h)]; rfl
  · split <;> rfl

/-- The fields `countCaches` leaves alone. -/
theorem countCaches_rest (c : Caches) (id : Nat) (l : Bool) (s : State) :
    (countCaches c id l s).clusterId = s.clusterId ∧ (countCaches c id l s).clusters = s.clusters ∧
    (countCaches c id l s).processors = s.processors ∧ (countCaches c id l s).cores = s.cores ∧
    (countCaches c id l s).processorMap = s.processorMap ∧ (countCaches c id l s).coreMap = s.coreMap ∧
    (countCaches c id l s).uarchMap = s.uarchMap ∧ (countCaches c id l s).l1i = s.l1i ∧
    (countCaches c id l s).l1d = s.l1d := by
  unfold countCaches
  split
  · cases l with
    | false => exact ⟨rfl, rfl, rfl, rfl, rfl, rfl, rfl, rfl, rfl⟩
    | true =>
      simp only [if_true]
      split
      · exact ⟨rfl, rfl, rfl, rfl, rfl, rfl, rfl, rfl, rfl⟩
      · split <;> exact ⟨rfl, rfl, rfl, rfl, rfl, rfl, rfl, rfl, rfl⟩
  · split <;> exact ⟨rfl, rfl, rfl, rfl, rfl, rfl, rfl, rfl, rfl⟩

/-- The uarch map after positions below `n`. -/
structure UMap (n : Nat) (m : List Nat) : Prop where
  length : m.length = x.maxLinux
  done : ∀ k, k < n → m[(x.P k).systemProcessorId]? = some (x.P k).uarchIndex

/-- Invariant of the first loop. -/
structure Inv (several : Bool) (n : Nat) (s : State) : Prop where
  clusterId : s.clusterId = idx x.nw n
  clusters : OTab x.nw x.clusterCount n x.clusterE zeroCluster s.clusters
  processors : Row x.N n x.processorE (fun _ => zeroProcessor) s.processors
  cores : Row x.N n x.coreE (fun _ => zeroCore) s.cores
  processorMap : MapTab (fun k => (x.P k).systemProcessorId) x.maxLinux n id s.processorMap
  coreMap : MapTab (fun k => (x.P k).systemProcessorId) x.maxLinux n id s.coreMap
  uarchMap : s.uarchMap.isSome = several ∧ ∀ m, s.uarchMap = some m → x.UMap n m
  l1i : Row x.N n (fun k => l1iEntry x.a k (x.c k).l1i (x.P k)) (fun _ => zeroCache) s.l1i
  l1d : Row x.N n (fun k => l1dEntry x.a k (x.c k).l1d (x.P k)) (fun _ => zeroCache) s.l1d
  counts : countsOf s = x.counts n

theorem cl_lt (n : Nat) (hn : n < x.N) : x.cl n < x.clusterCount := by
  rw [cl, idx_gi x.nw (x.new0 (by omega))]
  have := opened_mono x.nw (show n + 1 ≤ x.N from hn)
  rw [opened_gi x.nw (x.new0 (by omega))] at this
  exact Nat.lt_of_lt_of_le this x.hcl

theorem step (several : Bool) (n : Nat) (hn : n < x.N) (s : State) (h : x.Inv several n s) :
    ∃ s', publishStep x.a x.d x.chipset n (x.P n) s = some s' ∧ x.Inv several (n + 1) s' := by
  have hnU : n < U32 := Nat.lt_trans hn x.hN
  have hcl : (if isLeader (x.P n) = true then inc32 s.clusterId else s.clusterId) = x.cl n := by
    rw [h.clusterId]; exact idx_step x.nw n hnU
  have hlt := x.cl_lt n hn
  have e1 : ∃ t', openCluster n (x.cl n) (x.P n) s.clusters = some t' ∧ OTab x.nw x.clusterCount (n + 1) x.clusterE zeroCluster t' := by
    unfold openCluster
    cases hl : isLeader (x.P n) with
    | true =>
      have hop : x.nw n = true := hl
      have ec : x.cl n = opened x.nw n := idx_pos hop
      rw [if_pos rfl]
      obtain ⟨t', e, ht⟩ := h.clusters.step hop (by rw [← ec]; exact hlt)
        (fun _ => clusterEntry n (x.cl n) (x.P n)) rfl
      exact ⟨t', by rw [← e, ec], ht⟩
    | false =>
      rw [if_neg (by simp)]
      exact ⟨s.clusters, rfl, h.clusters.skip hl⟩
  obtain ⟨t1, e1, i1⟩ := e1
  obtain ⟨t2, e2, i2⟩ := h.processors.step hn (fun q => { q with smtId := 0, core := n, cluster := x.cl n, linuxId := (x.P n).systemProcessorId, l1i := n, l1d := n }) rfl
  have hinj : ∀ k < n, (x.P k).systemProcessorId ≠ (x.P n).systemProcessorId := by
    intro k hk e
    have := x.inj k n (by omega) hn e
    omega
  obtain ⟨t3, e3, i3⟩ := h.processorMap.step (x.hid n hn) hinj
  obtain ⟨t4, e4, i4⟩ := h.cores.step hn (fun _ => x.coreE n) rfl
  obtain ⟨t5, e5, i5⟩ := h.coreMap.step (x.hid n hn) hinj
  have e6 : ∃ um, recordUarch (x.P n) s.uarchMap = some um ∧ (um.isSome = several ∧ ∀ m, um = some m → x.UMap (n + 1) m) := by
    cases hm : s.uarchMap with
    | none =>
      refine ⟨none, rfl, ?_, fun m h => by cases h⟩
      rw [← h.uarchMap.1, hm]
    | some m =>
      have hu := h.uarchMap.2 m hm
      have hg := List.getElem?_eq_getElem (show (x.P n).systemProcessorId < m.length by
        rw [hu.length]; exact x.hid n hn)
      refine ⟨_, by unfold recordUarch; simp only; rw [modify?_eq _ hg]; rfl, ?_, ?_⟩
      · rw [← h.uarchMap.1, hm]; rfl
      · intro m' hm'
        have hm' := Option.some.inj hm'
        subst hm'
        refine ⟨by rw [List.length_set]; exact hu.length, fun k hk => ?_⟩
        rw [set_get hg]
        by_cases hkn : k = n
        · subst hkn; rw [if_pos rfl]
        · rw [if_neg (fun e => hinj k (by omega) e.symm)]
          exact hu.done k (by omega)
  obtain ⟨um, e6, i6⟩ := e6
  obtain ⟨t7, e7, i7⟩ := h.l1i.step hn (fun _ => l1iEntry x.a n (x.c n).l1i (x.P n)) rfl
  obtain ⟨t8, e8, i8⟩ := h.l1d.step hn (fun _ => l1dEntry x.a n (x.c n).l1d (x.P n)) rfl
  unfold publishStep
  rw [hcl]
  simp only [Option.bind_eq_bind]
  rw [e1]
  simp only [Option.bind_some]
  rw [if_neg (by rw [i1.length]; exact fun hh => hh hlt)]
  rw [e2]
  simp only [Option.bind_some]
  have e3 : modify? s.processorMap (x.P n).systemProcessorId (fun _ => some n) = some t3 := e3
  have e4 : modify? s.cores n (fun _ => { processorStart := n, processorCount := 1, coreId := n, cluster := x.cl n, vendor := (x.P n).vendor, uarch := (x.P n).uarch, midr := (x.P n).midr }) = some t4 := e4
  have e5 : modify? s.coreMap (x.P n).systemProcessorId (fun _ => some n) = some t5 := e5
  rw [e3]
  simp only [Option.bind_some]
  rw [e4]
  simp only [Option.bind_some]
  rw [e5]
  simp only [Option.bind_some]
  rw [e6]
  simp only [Option.bind_some]
  have e7 : modify? s.l1i n (fun _ => l1iEntry x.a n (cachesOf x.d x.chipset (x.cl n) (x.P n)).l1i (x.P n)) = some t7 := e7
  have e8 : modify? s.l1d n (fun _ => l1dEntry x.a n (cachesOf x.d x.chipset (x.cl n) (x.P n)).l1d (x.P n)) = some t8 := e8
  rw [e7]
  simp only [Option.bind_some]
  rw [e8]
  simp only [Option.bind_some]
  refine ⟨_, rfl, ?_⟩
  obtain ⟨r1, r2, r3, r4, r5, r6, r7, r8, r9⟩ := countCaches_rest (cachesOf x.d x.chipset (x.cl n) (x.P n))
    (x.cl n) (isLeader (x.P n)) { s with clusterId := x.cl n, clusters := t1, processors := t2, cores := t4, processorMap := t3, coreMap := t5, uarchMap := um, l1i := t7, l1d := t8 }
  exact ⟨by rw [r1]; rfl, by rw [r2]; exact i1, by rw [r3]; exact i2, by rw [r4]; exact i4,
    by rw [r5]; exact i3, by rw [r6]; exact i5, by rw [r7]; exact i6, by rw [r8]; exact i7,
    by rw [r9]; exact i8, by
      rw [countCaches_counts]
      have hh : countsOf { s with clusterId := x.cl n, clusters := t1, processors := t2, cores := t4, processorMap := t3, coreMap := t5, uarchMap := um, l1i := t7, l1d := t8 } = countsOf s := rfl
      rw [hh, h.counts]; rfl⟩

theorem loop (several : Bool) : ∀ (v : List Proc) (n : Nat) (s : State), n + v.length = x.N →
    (∀ k p, v[k]? = some p → p = x.P (n + k)) → x.Inv several n s →
    ∃ s', publishLoop x.a x.d x.chipset n v s = some s' ∧ x.Inv several x.N s'
  | [], n, s, hl, _, h => by
    have : n = x.N := by simpa using hl
    exact ⟨s, rfl, this ▸ h⟩
  | p :: v, n, s, hl, hp, h => by
    rw [List.length_cons] at hl
    have hpn : p = x.P n := hp 0 p rfl
    obtain ⟨s', e, h'⟩ := x.step several n (by omega) s h
    obtain ⟨s'', e', h''⟩ := loop several v (n + 1) s' (by omega) (fun k q hq => by
      rw [show n + 1 + k = n + (k + 1) by omega]; exact hp (k + 1) q hq) h'
    refine ⟨s'', ?_, h''⟩
    rw [publishLoop, hpn, e]
    exact e'

end Ctx

end Verif.ArmInit
