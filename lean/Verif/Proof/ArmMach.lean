import Verif.Model.ArmMach
import Verif.Proof.Uniform

/-!
# The tables of ARM detection on Mach in closed form
-/

set_option autoImplicit false

namespace Verif.ArmMach
open X86Init (Cache computeMaxCacheSize)
open Platform (Processor zeroProcessor zeroCache put Filled filled_zero filled_put filled_full)
open Uniform (div? mod? ptr? orFail linkedSize MachTopology sysctlInt)
open ArmClusters (forRange forRange_total forRange_inv)

/-- The kinds of `n` cores: `b` of kind `u`, then the others of kind `v`. -/
structure Split (n : Nat) (f : Nat → Uarch) (b : Nat) (u v : Uarch) : Prop where
  pos : 0 < b
  le : b ≤ n
  first : ∀ i, i < b → f i = u
  second : ∀ i, b ≤ i → i < n → f i = v
  ne : b < n → u ≠ v

theorem split_const {n : Nat} {f : Nat → Uarch} {u : Uarch} (hn : 0 < n) (h : ∀ i, i < n → f i = u) :
    Split n f n u u :=
  ⟨hn, Nat.le_refl _, h, fun i h1 h2 => by omega, fun h => by omega⟩

theorem split_last4 {n : Nat} {u v : Uarch} (hn : 0 < n) (h : u ≠ v) :
    ∃ b u' v', Split n (fun i => if i + 4 < n then u else v) b u' v' := by
  by_cases h4 : 4 < n
  · exact ⟨n - 4, u, v, by omega, by omega, fun i hi => if_pos (by omega),
      fun i h1 h2 => if_neg (by omega), fun _ => h⟩
  · exact ⟨n, v, v, split_const hn fun i hi => if_neg (by omega)⟩

theorem decode_split (family n : Nat) (hn : 0 < n) :
    ∃ b u v, Split n (fun i => decodeUarch family i n) b u v := by
  have const : ∀ u : Uarch, (∀ i, decodeUarch family i n = u) →
      ∃ b u v, Split n (fun i => decodeUarch family i n) b u v :=
    fun u h => ⟨n, u, u, split_const hn fun i _ => h i⟩
  unfold decodeUarch at const ⊢
  split
  · exact ⟨n, _, _, split_const hn fun i _ => rfl⟩
  split
  · exact ⟨n, _, _, split_const hn fun i _ => rfl⟩
  split
  · exact ⟨n, _, _, split_const hn fun i _ => rfl⟩
  split
  · exact ⟨n, _, _, split_const hn fun i _ => rfl⟩
  split
  · by_cases h2 : 2 < n
    · exact ⟨2, .monsoon, .mistral, by omega, by omega, fun i hi => if_pos (by omega),
        fun i h1 h2 => if_neg (by omega), fun _ => by decide⟩
    · exact ⟨n, .monsoon, .monsoon, split_const hn fun i hi => if_pos (by omega)⟩
  split
  · exact split_last4 hn (by decide)
  split
  · exact split_last4 hn (by decide)
  split
  · exact split_last4 hn (by decide)
  split
  · exact split_last4 hn (by decide)
  exact ⟨n, _, _, split_const hn fun i _ => rfl⟩

/-- Two neighbouring cores differ exactly at the border. -/
theorem Split.differ {n : Nat} {f : Nat → Uarch} {b : Nat} {u v : Uarch} (h : Split n f b u v)
    {i : Nat} (hi : i < n) (h0 : i ≠ 0) : f i ≠ f (i - 1) ↔ i = b := by
  by_cases hb : i = b
  · subst hb
    rw [h.second i (Nat.le_refl _) hi, h.first (i - 1) (by omega)]
    exact ⟨fun _ => rfl, fun _ e => h.ne hi e.symm⟩
  · refine ⟨fun hne => absurd ?_ hne, fun e => absurd e hb⟩
    by_cases hlt : i < b
    · rw [h.first i hlt, h.first (i - 1) (by omega)]
    · rw [h.second i (by omega) hi, h.second (i - 1) (by omega) (by omega)]

/-- The number of kinds of cores. -/
def kinds (n b : Nat) : Nat := if b < n then 2 else 1

theorem begins_eq {n : Nat} {f : Nat → Uarch} {b : Nat} {u v : Uarch} (h : Split n f b u v)
    {cores : List Core} {i : Nat} (hi : i < n)
    (hc : ∀ j, j ≤ i → ∃ c, cores[j]? = some c ∧ c.uarch = f j) :
    begins i cores = some (decide (i = 0 ∨ i = b)) := by
  unfold begins
  by_cases h0 : i = 0
  · rw [if_pos h0]; simp [h0]
  · obtain ⟨c, e1, e2⟩ := hc i (Nat.le_refl _)
    obtain ⟨c', e1', e2'⟩ := hc (i - 1) (by omega)
    rw [if_neg h0]
    simp only [e1, e1', Option.bind_eq_bind, Option.bind_some, Option.pure_def, e2, e2']
    congr 1
    have := h.differ hi h0
    by_cases hb : i = b
    · simp [hb, hb ▸ this.mpr hb]
    · have h3 : ¬ (f i ≠ f (i - 1)) := fun e => hb (this.mp e)
      simp [h0, hb] at h3 ⊢
      exact h3

/-- Machines whose numbers keep every pointer within its table or one element behind it: the cores that
are left over when each package has got its `cpp` cores are at most `cpp`. -/
structure Fits (m : MachTopology) (tpc tpp cpp : Nat) : Prop where
  packages : 0 < m.packages
  tpcPos : 0 < tpc
  cppPos : 0 < cpp
  cppEq : cpp = m.cores / m.packages
  tppEq : tpp = m.threads / m.packages
  cores : m.cores ≤ (m.packages + 1) * cpp
  threads : m.threads = m.cores * tpc

theorem Fits.packagesLe {m : MachTopology} {tpc tpp cpp : Nat} (h : Fits m tpc tpp cpp) :
    m.packages ≤ m.cores := by
  have h1 := h.cppPos
  rw [h.cppEq] at h1
  exact (Nat.div_pos_iff.mp h1).2

theorem Fits.coresPos {m : MachTopology} {tpc tpp cpp : Nat} (h : Fits m tpc tpp cpp) :
    0 < m.cores := Nat.lt_of_lt_of_le h.packages h.packagesLe

theorem Fits.threadsPos {m : MachTopology} {tpc tpp cpp : Nat} (h : Fits m tpc tpp cpp) :
    0 < m.threads := by
  rw [h.threads]; exact Nat.mul_pos h.coresPos h.tpcPos

theorem Fits.tppLe {m : MachTopology} {tpc tpp cpp : Nat} (h : Fits m tpc tpp cpp) :
    cpp * tpc ≤ tpp := by
  rw [h.tppEq, Nat.le_div_iff_mul_le h.packages, h.threads, Nat.mul_right_comm]
  refine Nat.mul_le_mul_right _ ?_
  rw [h.cppEq]
  exact Nat.div_mul_le_self _ _

theorem Fits.tppPos {m : MachTopology} {tpc tpp cpp : Nat} (h : Fits m tpc tpp cpp) : 0 < tpp :=
  Nat.lt_of_lt_of_le (Nat.mul_pos h.cppPos h.tpcPos) h.tppLe

theorem Fits.corePackage {m : MachTopology} {tpc tpp cpp : Nat} (h : Fits m tpc tpp cpp) {j : Nat}
    (hj : j < m.cores) : j / cpp ≤ m.packages := by
  have : j / cpp < m.packages + 1 := by
    rw [Nat.div_lt_iff_lt_mul h.cppPos]; exact Nat.lt_of_lt_of_le hj h.cores
  omega

theorem Fits.threadPackage {m : MachTopology} {tpc tpp cpp : Nat} (h : Fits m tpc tpp cpp) {j : Nat}
    (hj : j < m.threads) : j / tpp ≤ m.packages := by
  have : j / tpp < m.packages + 1 := by
    rw [Nat.div_lt_iff_lt_mul h.tppPos]
    refine Nat.lt_of_lt_of_le hj ?_
    rw [h.threads]
    refine Nat.le_trans (Nat.mul_le_mul_right _ h.cores) ?_
    rw [Nat.mul_assoc]
    exact Nat.mul_le_mul_left _ h.tppLe
  omega

/-- Entry `i` of the packages. -/
def packageOf (name : Bytes) (tpp cpp clusters i : Nat) : Package :=
  ⟨name, i * tpp, tpp, i * cpp, cpp, 0, clusters⟩

/-- Entry `i` of the cores. -/
def coreOf (f : Nat → Uarch) (tpc cpp : Nat) (cluster : Option Nat) (i : Nat) : Core :=
  ⟨i * tpc, tpc, i % cpp, cluster, some (i / cpp), f i⟩

/-- Entry `i` of the processors. -/
def procOf (tpc tpp : Nat) (cluster : Option Nat) (i : Nat) : Processor :=
  { zeroProcessor with
    smtId := i % tpc, core := some (i / tpc), cluster, package := some (i / tpp) }

/-- The cluster of core `i`. -/
def clusterIdx (b i : Nat) : Nat := if i < b then 0 else 1

/-- A cluster of `k` cores from core `a` on. -/
def clusterOf (tpc cpp a k idx : Nat) (u : Uarch) : Cluster :=
  ⟨a * tpc, k, a, k, idx, some (a / cpp), u⟩

theorem packageLoop_eq (n tpp cpp : Nat) (name : Bytes) :
    packageLoop n tpp cpp name (List.replicate n zeroPackage) =
      some ((List.range n).map (packageOf name tpp cpp 0)) := by
  unfold packageLoop
  obtain ⟨s, e, h1⟩ := forRange_total
    (fun i ps => put ps i ⟨name, i * tpp, tpp, i * cpp, cpp, 0, 0⟩)
    (fun i s => Filled (packageOf name tpp cpp 0) (List.replicate n zeroPackage) i s) n
    (fun j t hj ht => filled_put ht (by rw [List.length_replicate]; omega))
    n 0 (List.replicate n zeroPackage) (by omega) (filled_zero _ _)
  rw [e, ← filled_full h1 (by rw [List.length_replicate])]

theorem coreLoop_eq (family : Nat) (m : MachTopology) (tpc tpp cpp : Nat)
    (h : Fits m tpc tpp cpp) {b : Nat} {u v : Uarch} (hs : Split m.cores (fun i => decodeUarch family i m.cores) b u v) :
    coreLoop family m tpc cpp (List.replicate m.cores zeroCore) =
      some ((List.range m.cores).map (coreOf (fun i => decodeUarch family i m.cores) tpc cpp none),
        kinds m.cores b) := by
  unfold coreLoop
  obtain ⟨s, e, h1, h2⟩ := forRange_total
    (fun i (s : List Core × Nat) => do
      let id ← mod? i cpp
      let k ← ptr? m.packages (i / cpp)
      let cores ← put s.1 i ⟨i * tpc, tpc, id, none, some k, decodeUarch family i m.cores⟩
      let n ← if i ≠ 0 then (begins i cores).map fun b => if b then s.2 + 1 else s.2 else some s.2
      return (cores, n))
    (fun i s => Filled (coreOf (fun i => decodeUarch family i m.cores) tpc cpp none)
      (List.replicate m.cores zeroCore) i s.1 ∧ s.2 = if b < i then 2 else 1) m.cores
    (by
      intro j s hj ⟨hs1, hs2⟩
      obtain ⟨c, e1, f1⟩ := filled_put hs1 (by rw [List.length_replicate]; omega)
      have hd : j / cpp ≤ m.packages := h.corePackage hj
      have := h.cppPos
      have hb := begins_eq hs hj (cores := c) (by
        intro k hk
        refine ⟨_, (f1.2.2 k).trans (if_pos (by omega)), rfl⟩)
      unfold coreOf at e1
      unfold mod? ptr?
      rw [if_neg (by omega), if_pos hd]
      simp only [Option.bind_eq_bind, Option.bind_some, e1, hb, Option.map_some, Option.pure_def,
        decide_eq_true_eq]
      have := hs.pos
      by_cases h0 : j = 0
      · subst h0
        refine ⟨_, rfl, f1, ?_⟩
        dsimp only
        rw [hs2, if_neg (by omega), if_neg (by omega)]
      · rw [if_pos h0]
        refine ⟨_, rfl, f1, ?_⟩
        dsimp only
        rw [hs2]
        by_cases hjb : j = b
        · rw [if_pos (Or.inr hjb), if_neg (by omega), if_pos (by omega)]
        · rw [if_neg (by omega)]
          by_cases hlt : b < j
          · rw [if_pos hlt, if_pos (by omega)]
          · rw [if_neg hlt, if_neg (by omega)])
    m.cores 0 (List.replicate m.cores zeroCore, 1) (by omega) ⟨filled_zero _ _, by
      rw [if_neg (by omega)]⟩
  rw [e, ← filled_full h1 (by rw [List.length_replicate]), show kinds m.cores b = s.2 from h2.symm]

theorem processorLoop_eq (m : MachTopology) (tpc tpp cpp : Nat) (h : Fits m tpc tpp cpp) :
    processorLoop m tpc tpp (List.replicate m.threads zeroProcessor) =
      some ((List.range m.threads).map (procOf tpc tpp none)) := by
  unfold processorLoop
  obtain ⟨s, e, h1⟩ := forRange_total
    (fun i ps => do
      let smtId ← mod? i tpc
      let coreId ← div? i tpc
      let packageId ← div? i tpp
      let core ← ptr? m.cores coreId
      let package ← ptr? m.packages packageId
      let p ← ps[i]?
      put ps i { p with smtId, core := some core, package := some package })
    (fun i s => Filled (procOf tpc tpp none) (List.replicate m.threads zeroProcessor) i s)
    m.threads
    (by
      intro j s hj hs
      obtain ⟨c, e1, f1⟩ := filled_put hs (by rw [List.length_replicate]; omega)
      have hpos : 0 < tpp := h.tppPos
      have hd : j / tpp ≤ m.packages := h.threadPackage hj
      have hd' : j / tpc ≤ m.cores := by
        have : j / tpc < m.cores := by
          rw [Nat.div_lt_iff_lt_mul h.tpcPos, ← h.threads]; exact hj
        omega
      have hz : s[j]? = some zeroProcessor := by
        rw [hs.2.2 j, if_neg (by omega), List.getElem?_replicate, if_pos hj]
      have := h.tpcPos
      unfold mod? div? ptr?
      simp only [if_neg (by omega : ¬ tpc = 0), if_neg (by omega : ¬ tpp = 0),
        Option.bind_eq_bind, Option.bind_some, if_pos hd, if_pos hd', hz]
      exact ⟨c, e1, f1⟩)
    m.threads 0 (List.replicate m.threads zeroProcessor) (by omega) (filled_zero _ _)
  rw [e, ← filled_full h1 (by rw [List.length_replicate])]

/-- The tables of kinds and clusters after `i` cores. -/
def uarchsAt (n b : Nat) (u v : Uarch) (i : Nat) : List UarchInfo :=
  if b < n then
    [⟨u, min i b, min i b⟩, if i ≤ b then zeroUarch else ⟨v, i - b, i - b⟩]
  else [⟨u, i, i⟩]
@[inherit_doc uarchsAt] def clustersAt (tpc cpp n b : Nat) (u v : Uarch) (i : Nat) : List Cluster :=
  if b < n then
    [clusterOf tpc cpp 0 (min i b) 0 u,
      if i ≤ b then zeroCluster else clusterOf tpc cpp b (i - b) 1 v]
  else [clusterOf tpc cpp 0 i 0 u]

/-- The state of the loop that makes the clusters. -/
structure AtCore (f : Nat → Uarch) (tpc cpp n b : Nat) (u v : Uarch) (i : Nat) (s : ClusterState) :
    Prop where
  cores : Filled (fun i => coreOf f tpc cpp (some (clusterIdx b i)) i)
    ((List.range n).map (coreOf f tpc cpp none)) i s.cores
  start : i = 0 → s.idx = U32MAX ∧ s.uarchs = List.replicate (kinds n b) zeroUarch ∧
    s.clusters = List.replicate (kinds n b) zeroCluster
  later : 0 < i → s.idx = clusterIdx b (i - 1) ∧ s.uarchs = uarchsAt n b u v i ∧
    s.clusters = clustersAt tpc cpp n b u v i

theorem clusterStep_eq (f : Nat → Uarch) (tpc cpp n b : Nat) (u v : Uarch) (hs : Split n f b u v)
    (i : Nat) (s : ClusterState) (hi : i < n) (h : AtCore f tpc cpp n b u v i s) :
    ∃ s', clusterStep tpc i s = some s' ∧ AtCore f tpc cpp n b u v (i + 1) s' := by
  obtain ⟨cores, e1, f1⟩ := filled_put h.cores (by simp; exact hi)
  have hget : ∀ j, j ≤ i → ∃ c, s.cores[j]? = some c ∧ c.uarch = f j := by
    intro j hj
    by_cases hji : j < i
    · exact ⟨_, (h.cores.2.2 j).trans (if_pos hji), rfl⟩
    · refine ⟨coreOf f tpc cpp none j, (h.cores.2.2 j).trans ?_, rfl⟩
      rw [if_neg hji, List.getElem?_map, List.getElem?_range (by omega)]; rfl
  have hi' : s.cores[i]? = some (coreOf f tpc cpp none i) := by
    rw [h.cores.2.2 i, if_neg (by omega), List.getElem?_map, List.getElem?_range hi]; rfl
  have hb := begins_eq hs hi hget
  have hpos := hs.pos
  have hle := hs.le
  unfold clusterStep
  simp only [hi', hb, Option.bind_eq_bind, Option.bind_some, decide_eq_true_eq, Option.pure_def]
  dsimp only [coreOf] at e1 ⊢
  by_cases h0 : i = 0
  · obtain ⟨a1, a2, a3⟩ := h.start h0
    rw [if_pos (Or.inl h0), a1, a2, a3]
    have hk : 0 < kinds n b := by unfold kinds; split <;> omega
    have p1 : put (List.replicate (kinds n b) zeroUarch) 0 ⟨f i, 1, 1⟩ =
        some (uarchsAt n b u v 1) := by
      unfold put uarchsAt
      rw [List.length_replicate, if_pos hk, hs.first i (by omega)]
      unfold kinds
      split
      · rw [if_pos (by omega), Nat.min_eq_left (by omega)]; rfl
      · rfl
    have p2 : put (List.replicate (kinds n b) zeroCluster) 0
        ⟨i * tpc, 1, i, 1, 0, some (i / cpp), f i⟩ = some (clustersAt tpc cpp n b u v 1) := by
      unfold put clustersAt clusterOf
      rw [List.length_replicate, if_pos hk, hs.first i (by omega), h0]
      unfold kinds
      split
      · rw [if_pos (by omega), Nat.min_eq_left (by omega)]; rfl
      · rfl
    have hc : clusterIdx b i = 0 := if_pos (by omega)
    simp only [show (U32MAX + 1) % U32 = 0 from rfl, p1, p2, Option.bind_some]
    rw [hc] at e1
    simp only [e1, Option.bind_some]
    exact ⟨_, rfl, f1, fun e => by omega, fun _ => ⟨by rw [Nat.add_sub_cancel, hc], by rw [h0],
      by rw [h0]⟩⟩
  · obtain ⟨a1, a2, a3⟩ := h.later (by omega)
    by_cases hib : i = b
    · subst hib
      have a1' : s.idx = 0 := a1.trans (if_pos (by omega))
      rw [if_pos (Or.inr rfl), a1', a2, a3]
      have p1 : put (uarchsAt n i u v i) 1 ⟨f i, 1, 1⟩ = some (uarchsAt n i u v (i + 1)) := by
        unfold put uarchsAt
        rw [if_pos hi, if_pos hi, if_pos (by simp), hs.second i (by omega) hi]
        simp [show ¬ i + 1 ≤ i by omega, show i + 1 - i = 1 by omega]
      have p2 : put (clustersAt tpc cpp n i u v i) 1
          ⟨i * tpc, 1, i, 1, 1, some (i / cpp), f i⟩ =
          some (clustersAt tpc cpp n i u v (i + 1)) := by
        unfold put clustersAt clusterOf
        rw [if_pos hi, if_pos hi, if_pos (by simp), hs.second i (by omega) hi]
        simp [show ¬ i + 1 ≤ i by omega, show i + 1 - i = 1 by omega]
      have hc : clusterIdx i i = 1 := if_neg (by omega)
      simp only [show (0 + 1) % U32 = 1 from rfl, p1, p2, Option.bind_some]
      rw [hc] at e1
      simp only [e1, Option.bind_some]
      exact ⟨_, rfl, f1, fun e => by omega, fun _ => ⟨by rw [Nat.add_sub_cancel, hc], rfl, rfl⟩⟩
    · rw [if_neg (by omega), a2, a3]
      have hc : clusterIdx b i = s.idx := by
        rw [a1]; unfold clusterIdx
        by_cases hlt : i < b
        · rw [if_pos hlt, if_pos (by omega)]
        · rw [if_neg hlt, if_neg (by omega)]
      have p1 : ((uarchsAt n b u v i)[s.idx]?).bind (fun u' => put (uarchsAt n b u v i) s.idx
          { u' with processorCount := u'.processorCount + 1, coreCount := u'.coreCount + 1 }) =
          some (uarchsAt n b u v (i + 1)) := by
        rw [← hc]
        unfold put uarchsAt clusterIdx
        by_cases hbn : b < n
        · simp only [if_pos hbn]
          by_cases hlt : i < b
          · simp [hlt, show i ≤ b by omega, show i + 1 ≤ b by omega, Nat.min_eq_left]
          · simp [hlt, show ¬ i ≤ b by omega, show ¬ i + 1 ≤ b by omega,
              show min i b = b by omega, show min (i + 1) b = b by omega]
            omega
        · simp [hbn, show i < b by omega]
      have p2 : ((clustersAt tpc cpp n b u v i)[s.idx]?).bind (fun l =>
          put (clustersAt tpc cpp n b u v i) s.idx
          { l with processorCount := l.processorCount + 1, coreCount := l.coreCount + 1 }) =
          some (clustersAt tpc cpp n b u v (i + 1)) := by
        rw [← hc]
        unfold put clustersAt clusterIdx clusterOf
        by_cases hbn : b < n
        · simp only [if_pos hbn]
          by_cases hlt : i < b
          · simp [hlt, show i ≤ b by omega, show i + 1 ≤ b by omega, Nat.min_eq_left]
          · simp [hlt, show ¬ i ≤ b by omega, show ¬ i + 1 ≤ b by omega,
              show min i b = b by omega, show min (i + 1) b = b by omega]
            omega
        · simp [hbn, show i < b by omega]
      obtain ⟨u', q1, q2⟩ := Option.bind_eq_some_iff.mp p1
      obtain ⟨l, q3, q4⟩ := Option.bind_eq_some_iff.mp p2
      rw [hc] at e1
      simp only [q1, q2, q3, q4, e1, Option.bind_some]
      exact ⟨_, rfl, f1, fun e => by omega, fun _ => ⟨by rw [Nat.add_sub_cancel, hc], rfl, rfl⟩⟩

/-- The cores with their clusters. -/
def coresFinal (f : Nat → Uarch) (tpc cpp n b : Nat) : List Core :=
  (List.range n).map fun i => coreOf f tpc cpp (some (clusterIdx b i)) i

theorem clusterLoop_eq (f : Nat → Uarch) (tpc cpp n b : Nat) (u v : Uarch) (hs : Split n f b u v) :
    ∃ s, clusterLoop tpc (kinds n b) n ((List.range n).map (coreOf f tpc cpp none)) = some s ∧
      s.cores = coresFinal f tpc cpp n b ∧ s.uarchs = uarchsAt n b u v n ∧
      s.clusters = clustersAt tpc cpp n b u v n := by
  have := hs.pos
  have := hs.le
  obtain ⟨s, e, h⟩ := forRange_total (clusterStep tpc) (AtCore f tpc cpp n b u v) n
    (fun i s hi h => clusterStep_eq f tpc cpp n b u v hs i s hi h) n 0
    ⟨U32MAX, List.replicate (kinds n b) zeroUarch, List.replicate (kinds n b) zeroCluster,
      (List.range n).map (coreOf f tpc cpp none)⟩ (by omega)
    ⟨filled_zero _ _, fun _ => ⟨rfl, rfl, rfl⟩, fun h => by omega⟩
  exact ⟨s, e, filled_full h.cores (by simp), (h.later (by omega)).2⟩

/-- The processors before the caches. -/
def processorsFinal (tpc tpp threads b : Nat) : List Processor :=
  (List.range threads).map fun i => procOf tpc tpp (some (clusterIdx b (i / tpc))) i

theorem clusterLinkLoop_eq (f : Nat → Uarch) (tpc tpp cpp n threads b : Nat) (ht : 0 < tpc)
    (hn : threads = n * tpc) :
    clusterLinkLoop threads tpc (coresFinal f tpc cpp n b)
      ((List.range threads).map (procOf tpc tpp none)) =
      some (processorsFinal tpc tpp threads b) := by
  unfold clusterLinkLoop
  obtain ⟨s, e, h1⟩ := forRange_total
    (fun i ps => do
      let coreId ← div? i tpc
      let c ← (coresFinal f tpc cpp n b)[coreId]?
      let p ← ps[i]?
      put ps i { p with cluster := c.cluster })
    (fun i s => Filled (fun i => procOf tpc tpp (some (clusterIdx b (i / tpc))) i)
      ((List.range threads).map (procOf tpc tpp none)) i s) threads
    (by
      intro j s hj hs
      obtain ⟨c, e1, f1⟩ := filled_put hs (by simp; exact hj)
      have hd : j / tpc < n := by rw [Nat.div_lt_iff_lt_mul ht, ← hn]; exact hj
      have hc : (coresFinal f tpc cpp n b)[j / tpc]? =
          some (coreOf f tpc cpp (some (clusterIdx b (j / tpc))) (j / tpc)) := by
        unfold coresFinal
        rw [List.getElem?_map, List.getElem?_range hd]; rfl
      have hp : s[j]? = some (procOf tpc tpp none j) := by
        rw [hs.2.2 j, if_neg (by omega), List.getElem?_map, List.getElem?_range hj]; rfl
      unfold div?
      simp only [if_neg (by omega : ¬ tpc = 0), Option.bind_eq_bind, Option.bind_some, hc, hp]
      exact ⟨c, e1, f1⟩)
    threads 0 _ (by omega) (filled_zero _ _)
  rw [e, filled_full h1 (by simp)]; rfl

theorem packageClusterLoop_eq (n tpp cpp clusters : Nat) (name : Bytes) :
    packageClusterLoop n clusters ((List.range n).map (packageOf name tpp cpp 0)) =
      some ((List.range n).map (packageOf name tpp cpp clusters)) := by
  unfold packageClusterLoop
  obtain ⟨s, e, h1⟩ := forRange_total
    (fun i ps => do
      let p ← ps[i]?
      put ps i { p with clusterStart := 0, clusterCount := clusters })
    (fun i s => Filled (packageOf name tpp cpp clusters)
      ((List.range n).map (packageOf name tpp cpp 0)) i s) n
    (by
      intro j s hj hs
      obtain ⟨c, e1, f1⟩ := filled_put hs (by simp; exact hj)
      have hp : s[j]? = some (packageOf name tpp cpp 0 j) := by
        rw [hs.2.2 j, if_neg (by omega), List.getElem?_map, List.getElem?_range hj]; rfl
      simp only [Option.bind_eq_bind, Option.bind_some, hp]
      exact ⟨c, e1, f1⟩)
    n 0 _ (by omega) (filled_zero _ _)
  rw [e, ← filled_full h1 (by simp)]

/-- The tables of such a machine. -/
def fitTables (f : Nat → Uarch) (m : MachTopology) (name : Bytes) (tpc tpp cpp b : Nat) (u v : Uarch) :
    Tables :=
  { processors := processorsFinal tpc tpp m.threads b
    cores := coresFinal f tpc cpp m.cores b
    clusters := clustersAt tpc cpp m.cores b u v m.cores
    packages := (List.range m.packages).map (packageOf name tpp cpp (kinds m.cores b))
    uarchs := uarchsAt m.cores b u v m.cores
    numClusters := kinds m.cores b }

theorem tables_eq (family : Nat) (m : MachTopology) (name : Bytes) (allocOk : Bool)
    (tpc tpp cpp : Nat) (h : Fits m tpc tpp cpp) {b : Nat} {u v : Uarch}
    (hs : Split m.cores (fun i => decodeUarch family i m.cores) b u v) :
    tables family m name allocOk = some (if allocOk then
      some (fitTables (fun i => decodeUarch family i m.cores) m name tpc tpp cpp b u v) else none) := by
  have hp := h.packages
  have hc := h.coresPos
  have e0 : div? m.threads m.cores = some tpc := by
    unfold div?
    rw [if_neg (by omega), h.threads, Nat.mul_div_cancel_left _ hc]
  have e1 : div? m.cores m.packages = some cpp := by
    unfold div?
    rw [if_neg (by omega), h.cppEq]
  have e2 : div? m.threads m.packages = some tpp := by
    unfold div?
    rw [if_neg (by omega), h.tppEq]
  obtain ⟨s, e3, c1, c2, c3⟩ := clusterLoop_eq (fun i => decodeUarch family i m.cores) tpc cpp
    m.cores b u v hs
  unfold tables
  simp only [e0, e1, e2, packageLoop_eq, coreLoop_eq family m tpc tpp cpp h hs,
    processorLoop_eq m tpc tpp cpp h, Option.bind_eq_bind, Option.bind_some, Option.pure_def]
  cases allocOk with
  | false => rfl
  | true =>
    simp only [if_true, e3, Option.bind_some, c1, c2, c3,
      clusterLinkLoop_eq _ tpc tpp cpp m.cores m.threads b h.tpcPos h.threads, packageClusterLoop_eq]
    rfl

/-! ### Caches -/

/-- A table of caches. -/
def cacheTable (size assoc line per count : Nat) : List Cache :=
  (List.range count).map fun c =>
    ⟨size, assoc, size / (assoc * line % U32), 1, line, 0, c * per, per⟩

theorem fill_eq (size assoc line per count threads : Nat) (index : Nat → Nat)
    (link : Processor → Nat → Processor) (ps : List Processor) (hlen : ps.length = threads)
    (hline : assoc * line % U32 ≠ 0) (hi : ∀ t, t < threads → index t ≤ count) :
    ∃ ps', fill size assoc line per count threads index link ps =
        some (cacheTable size assoc line per count, ps') ∧ ps'.length = threads ∧
      ∀ i : Nat, ps'[i]? = (ps[i]?).map fun p => link p (index i) := by
  obtain ⟨t, e, h1⟩ := forRange_total (fun c t => do
      let x ← cacheEntry size assoc line per c
      put t c x)
    (fun i t => Filled (fun c =>
      (⟨size, assoc, size / (assoc * line % U32), 1, line, 0, c * per, per⟩ : Cache))
      (List.replicate count zeroCache) i t) count
    (fun j t hj ht => by
      unfold cacheEntry div?
      rw [if_neg hline]
      exact filled_put ht (by rw [List.length_replicate]; omega))
    count 0 (List.replicate count zeroCache) (by omega) (filled_zero _ _)
  have ht := filled_full h1 (by rw [List.length_replicate])
  obtain ⟨ps', e', h2⟩ := forRange_total
    (fun t ps => do
      let k ← ptr? count (index t)
      let p ← ps[t]?
      put ps t (link p k))
    (fun i t => Filled (fun i => link (ps.getD i zeroProcessor) (index i)) ps i t) threads
    (by
      intro j t hj ht
      obtain ⟨c, e1, f1⟩ := filled_put ht (by omega)
      have hget : t[j]? = some (ps.getD j zeroProcessor) := by
        rw [ht.2.2 j, if_neg (by omega), List.getD_eq_getElem?_getD,
          List.getElem?_eq_getElem (by omega)]
        rfl
      unfold ptr?
      simp only [Option.bind_eq_bind, Option.bind_some, if_pos (hi j hj), hget]
      exact ⟨c, e1, f1⟩)
    threads 0 ps (by omega) (filled_zero _ _)
  unfold fill
  simp only [Option.bind_eq_bind] at e e'
  simp only [e, e', Option.bind_eq_bind, Option.bind_some, Option.pure_def]
  refine ⟨ps', by rw [ht]; rfl, by rw [h2.2.1, hlen], fun i => ?_⟩
  rw [h2.2.2 i]
  by_cases hi : i < threads
  · rw [if_pos hi]
    dsimp only
    rw [List.getD_eq_getElem?_getD, List.getElem?_eq_getElem (by omega)]
    rfl
  · rw [if_neg hi, List.getElem?_eq_none (by omega)]
    rfl

theorem level_eq (alloc : Bool) (size assoc line per count threads : Nat) (index : Nat → Nat)
    (link : Processor → Nat → Processor) (ps : List Processor) (hlen : ps.length = threads)
    (hline : size ≠ 0 → assoc * line % U32 ≠ 0) (hi : ∀ t, t < threads → index t ≤ count) :
    (size ≠ 0 ∧ alloc = false ∧
      level alloc size assoc line per count threads index link ps = some none) ∨
    ∃ ps', level alloc size assoc line per count threads index link ps =
        some (some (if size ≠ 0 then some (cacheTable size assoc line per count) else none, ps')) ∧
      ps'.length = threads ∧
      ∀ i : Nat, ps'[i]? = (ps[i]?).map fun p => if size ≠ 0 then link p (index i) else p := by
  unfold level
  by_cases hz : size = 0
  · right
    rw [if_neg (fun h => h hz), if_neg (fun h => h hz)]
    refine ⟨ps, rfl, hlen, fun i => ?_⟩
    simp only [if_neg (fun h : size ≠ 0 => h hz)]
    cases ps[i]? <;> rfl
  · rw [if_pos hz]
    cases alloc with
    | false => left; exact ⟨hz, rfl, rfl⟩
    | true =>
      right
      obtain ⟨ps', e, hl, hp⟩ :=
        fill_eq size assoc line per count threads index link ps hlen (hline hz) hi
      simp only [if_true, e, Option.map_some]
      rw [if_pos hz]
      refine ⟨ps', rfl, hl, fun i => ?_⟩
      rw [hp i]
      simp only [if_pos hz]

/-- The cache line is such that no division by zero happens. -/
def LineOk (z : CacheSizes) : Prop :=
  (z.l1i ≠ 0 ∨ z.l1d ≠ 0 → 4 * z.line % U32 ≠ 0) ∧ (z.l2 ≠ 0 → 8 * z.line % U32 ≠ 0) ∧
  (z.l3 ≠ 0 → 16 * z.line % U32 ≠ 0)

/-- The caches in closed form. -/
structure CachesOk (z : CacheSizes) (m : MachTopology) (ps : List Processor) (c : Caches) : Prop where
  l1i : c.l1i = if z.l1i ≠ 0 then some (cacheTable z.l1i 4 z.line 1 m.threads) else none
  l1d : c.l1d = if z.l1d ≠ 0 then some (cacheTable z.l1d 4 z.line 1 m.threads) else none
  l2 : c.l2 = if z.l2 ≠ 0 then some (cacheTable z.l2 8 z.line m.cores 1) else none
  l3 : c.l3 = if z.l3 ≠ 0 then some (cacheTable z.l3 16 z.line m.cores 1) else none
  length : c.processors.length = ps.length
  processors : ∀ i : Nat, c.processors[i]? = (ps[i]?).map fun p =>
    { p with
      l1i := if z.l1i ≠ 0 then some i else p.l1i
      l1d := if z.l1d ≠ 0 then some i else p.l1d
      l2 := if z.l2 ≠ 0 then some 0 else p.l2
      l3 := if z.l3 ≠ 0 then some 0 else p.l3 }

theorem caches_eq (z : CacheSizes) (m : MachTopology) (alloc : Nat → Bool) (ps : List Processor)
    (hlen : ps.length = m.threads) (hz : LineOk z) :
    ((∃ i < 9, alloc i = false) ∧ caches z m alloc ps = some none) ∨
    ∃ c, caches z m alloc ps = some (some c) ∧ CachesOk z m ps c := by
  unfold caches
  rcases level_eq (alloc 5) z.l1i 4 z.line 1 m.threads m.threads id
    (fun p k => { p with l1i := some k }) ps hlen (fun h => hz.1 (.inl h)) (fun t ht => by
      show t ≤ _; omega) with ⟨-, ha, e⟩ | ⟨p1, e1, hl1, h1⟩
  · exact .inl ⟨⟨5, by omega, ha⟩, by rw [e]; rfl⟩
  rcases level_eq (alloc 6) z.l1d 4 z.line 1 m.threads m.threads id
    (fun p k => { p with l1d := some k }) p1 hl1 (fun h => hz.1 (.inr h)) (fun t ht => by
      show t ≤ _; omega) with ⟨-, ha, e⟩ | ⟨p2, e2, hl2, h2⟩
  · exact .inl ⟨⟨6, by omega, ha⟩, by rw [e1]; simp only [orFail, Option.bind_some]; rw [e]; rfl⟩
  rcases level_eq (alloc 7) z.l2 8 z.line m.cores 1 m.threads (fun _ => 0)
    (fun p k => { p with l2 := some k }) p2 hl2 hz.2.1 (fun _ _ => Nat.zero_le _)
    with ⟨-, ha, e⟩ | ⟨p3, e3, hl3, h3⟩
  · exact .inl ⟨⟨7, by omega, ha⟩, by
      rw [e1]; simp only [orFail, Option.bind_some]; rw [e2]; simp only [Option.bind_some]; rw [e]; rfl⟩
  rcases level_eq (alloc 8) z.l3 16 z.line m.cores 1 m.threads (fun _ => 0)
    (fun p k => { p with l3 := some k }) p3 hl3 hz.2.2 (fun _ _ => Nat.zero_le _)
    with ⟨-, ha, e⟩ | ⟨p4, e4, hl4, h4⟩
  · exact .inl ⟨⟨8, by omega, ha⟩, by
      rw [e1]; simp only [orFail, Option.bind_some]; rw [e2]; simp only [Option.bind_some]
      rw [e3]; simp only [Option.bind_some]; rw [e]; rfl⟩
  refine .inr ⟨⟨p4, if z.l1i ≠ 0 then some (cacheTable z.l1i 4 z.line 1 m.threads) else none,
    if z.l1d ≠ 0 then some (cacheTable z.l1d 4 z.line 1 m.threads) else none,
    if z.l2 ≠ 0 then some (cacheTable z.l2 8 z.line m.cores 1) else none,
    if z.l3 ≠ 0 then some (cacheTable z.l3 16 z.line m.cores 1) else none⟩, by
    rw [e1]; simp only [orFail, Option.bind_some]; rw [e2]; simp only [Option.bind_some]
    rw [e3]; simp only [Option.bind_some]; rw [e4]; simp only [Option.bind_some], rfl, rfl, rfl, rfl,
    by dsimp only; omega, fun i => ?_⟩
  dsimp only
  rw [h4, h3, h2, h1]
  cases ps[i]? with
  | none => rfl
  | some p =>
    simp only [Option.map_some]
    congr 1
    repeat' split
    all_goals rfl

/-- The size of the last cache there is. -/
def lastSize (z : CacheSizes) : Nat :=
  computeMaxCacheSize none (if z.l3 ≠ 0 then some z.l3 else none)
    (if z.l2 ≠ 0 then some z.l2 else none) (if z.l1d ≠ 0 then some z.l1d else none)

theorem linkedSize_table (size assoc line per count : Nat) (hc : count ≠ 0) :
    linkedSize (some (cacheTable size assoc line per count)) (some 0) = some (some size) := by
  unfold linkedSize cacheTable
  simp only [Option.getD_some, List.getElem?_map, List.getElem?_range (by omega : 0 < count)]
  rfl

theorem maxCacheSize_eq (z : CacheSizes) (m : MachTopology) (ps : List Processor) (c : Caches)
    (hlen : ps.length = m.threads) (ht : 0 < m.threads) (hc : CachesOk z m ps c)
    (hz : ∀ p ∈ ps, p.l1d = none ∧ p.l2 = none ∧ p.l3 = none) :
    maxCacheSize c = some (lastSize z) := by
  have h0 := hc.processors 0
  obtain ⟨p, hp⟩ : ∃ p, ps[0]? = some p := ⟨ps[0], List.getElem?_eq_getElem (by omega)⟩
  obtain ⟨z1, z2, z3⟩ := hz p (List.mem_of_getElem? hp)
  rw [hp, Option.map_some, z1, z2, z3] at h0
  have one : ∀ (size assoc per count : Nat), count ≠ 0 →
      linkedSize (if size ≠ 0 then some (cacheTable size assoc z.line per count) else none)
        (if size ≠ 0 then some 0 else none) = some (if size ≠ 0 then some size else none) := by
    intro size assoc per count hcount
    by_cases hs : size ≠ 0
    · rw [if_pos hs, if_pos hs, if_pos hs, linkedSize_table _ _ _ _ _ hcount]
    · rw [if_neg hs, if_neg hs, if_neg hs]; rfl
  unfold maxCacheSize lastSize
  simp only [h0, Option.bind_eq_bind, Option.bind_some, hc.l3, hc.l2, hc.l1d,
    one z.l3 16 m.cores 1 (by omega), one z.l2 8 m.cores 1 (by omega),
    one z.l1d 4 1 m.threads (by omega)]
  rfl

/-- The whole detection of such a machine. -/
theorem init_eq (e : Env) (tpc tpp cpp : Nat) (h : Fits e.topology tpc tpp cpp) (hz : LineOk e.sizes)
    {b : Nat} {u v : Uarch}
    (hs : Split e.topology.cores (fun i => decodeUarch e.family.get i e.topology.cores) b u v) :
    (∃ o, init e = some o ∧ o.stores = [] ∧ ∃ i < 9, e.alloc i = false) ∨
    ∃ c, init e = some ⟨some (isaOf e.family.get e.features), commit e.sizes e.topology
        (fitTables (fun i => decodeUarch e.family.get i e.topology.cores) e.topology
          (packageName e.brand e.machine) tpc tpp cpp b u v) c (lastSize e.sizes)⟩ ∧
      CachesOk e.sizes e.topology (processorsFinal tpc tpp e.topology.threads b) c := by
  unfold init
  by_cases ha : e.alloc 0 = true ∧ e.alloc 1 = true ∧ e.alloc 2 = true
  · rw [if_pos ha]
    simp only [tables_eq e.family.get e.topology _ _ tpc tpp cpp h hs, Option.bind_eq_bind,
      Option.bind_some]
    by_cases hb : e.alloc 3 = true ∧ e.alloc 4 = true
    · simp only [hb, and_self, decide_true, if_true]
      rcases caches_eq e.sizes e.topology e.alloc (processorsFinal tpc tpp e.topology.threads b)
        (by simp [processorsFinal]) hz with ⟨ha, e1⟩ | ⟨c, e1, hc⟩
      · left
        refine ⟨⟨some (isaOf e.family.get e.features), []⟩, ?_, rfl, ha⟩
        simp only [fitTables, e1, Option.bind_some]; rfl
      · right
        refine ⟨c, ?_, hc⟩
        simp only [fitTables, e1, Option.bind_some,
          maxCacheSize_eq e.sizes e.topology _ c (by simp [processorsFinal]) h.threadsPos hc (by
            intro p hp
            obtain ⟨i, -, rfl⟩ := List.mem_map.mp hp
            exact ⟨rfl, rfl, rfl⟩)]
        rfl
    · left
      refine ⟨⟨some (isaOf e.family.get e.features), []⟩, ?_, rfl, ?_⟩
      · simp only [hb, decide_false]; rfl
      · by_cases h3 : e.alloc 3 = true
        · exact ⟨4, by omega, by simpa [h3] using hb⟩
        · exact ⟨3, by omega, by simpa using h3⟩
  · left
    rw [if_neg ha]
    refine ⟨_, rfl, rfl, ?_⟩
    by_cases h0 : e.alloc 0 = true
    · by_cases h1 : e.alloc 1 = true
      · exact ⟨2, by omega, by simpa [h0, h1] using ha⟩
      · exact ⟨1, by omega, by simpa using h1⟩
    · exact ⟨0, by omega, by simpa using h0⟩

end Verif.ArmMach
