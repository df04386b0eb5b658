import Verif.Proof.ArmUarch
import Verif.Proof.Tables

/-!
# The sorted processor table

Processors of a cluster are neighbours, the leader comes first.
-/

set_option autoImplicit false

namespace Verif.ArmInit
open Spec ArmMidr ArmCpuinfo ArmClusters ArmClusterMidr ArmChipset Runs
open X86Init (modify? bitmaskAll)

/-- A table ready for sorting. -/
structure Ready (T : List Proc) : Prop where
  id : ∀ (i : Nat) (p : Proc), T[i]? = some p → p.systemProcessorId = i
  led : Led T
  count : ∀ (i : Nat) (p : Proc), T[i]? = some p → Usable p →
    p.packageProcessorCount = membersOf T p.packageLeaderId
  core : ∀ (i : Nat) (p l : Proc), T[i]? = some p → Usable p → T[p.packageLeaderId]? = some l →
    SameCore l p

/-- `S` is `T` sorted. -/
structure SortedOf (a : Arch) (T S : List Proc) : Prop where
  ready : Ready T
  perm : S.Perm T
  sorted : S.Pairwise fun x y => cmpProcessor a x y ≤ 0

theorem prefix_of (S : List Proc) (h : S.Pairwise fun x y => Usable y → Usable x) :
    ∀ (k : Nat) (p : Proc), S[k]? = some p → (Usable p ↔ k < usableCount S) := by
  induction S with
  | nil => intro k p hp; cases hp
  | cons x xs ih =>
    rw [List.pairwise_cons] at h
    intro k p hp
    by_cases hx : Usable x
    · have e : usableCount (x :: xs) = usableCount xs + 1 := by
        unfold usableCount
        rw [List.filter_cons_of_pos (p := fun p : Proc => p.flags.testBit 12) hx]; rfl
      cases k with
      | zero =>
        have : x = p := Option.some.inj hp
        subst this
        rw [e]; exact ⟨fun _ => by omega, fun _ => hx⟩
      | succ k =>
        have := ih h.2 k p hp
        rw [e, this]; omega
    · have e : usableCount (x :: xs) = 0 := by
        unfold usableCount
        rw [List.length_eq_zero_iff, List.filter_eq_nil_iff]
        intro y hy
        rcases List.mem_cons.mp hy with rfl | hy
        · exact hx
        · exact fun hu => hx (h.1 y hy hu)
      rw [e]
      refine ⟨fun hu => ?_, fun h => by omega⟩
      exfalso
      cases k with
      | zero => exact hx (by have : x = p := Option.some.inj hp
                             rw [this]; exact hu)
      | succ k =>
        have hp : xs[k]? = some p := hp
        exact hx (h.1 p (List.mem_of_getElem? hp) hu)

section
variable {a : Arch} {T S : List Proc} (h : SortedOf a T S)
include h

theorem SortedOf.usable_prefix (k : Nat) (p : Proc) (hp : S[k]? = some p) :
    Usable p ↔ k < usableCount T := by
  have e : usableCount S = usableCount T := (h.perm.filter _).length_eq
  rw [← e]
  refine prefix_of S (h.sorted.imp ?_) k p hp
  intro x y hxy hy
  by_cases hx : Usable x
  · exact hx
  · exfalso
    have : Before a y x := .inl ⟨hy, hx⟩
    have := (cmp_before a x y).2.mpr this
    omega

theorem SortedOf.le : usableCount T ≤ S.length := by
  rw [h.perm.length_eq]; exact List.length_filter_le _ _

theorem SortedOf.at_id {k : Nat} {p : Proc} (hp : S[k]? = some p) : T[p.systemProcessorId]? = some p := by
  have : p ∈ T := h.perm.subset (List.mem_of_getElem? hp)
  obtain ⟨i, hi⟩ := List.getElem?_of_mem this
  rw [h.ready.id i p hi]; exact hi

theorem SortedOf.ids : (T.map (·.systemProcessorId)) = List.range T.length := by
  apply List.ext_getElem?
  intro i
  rw [List.getElem?_map]
  by_cases hi : i < T.length
  · rw [List.getElem?_range hi, List.getElem?_eq_getElem hi, Option.map_some,
      h.ready.id i _ (List.getElem?_eq_getElem hi)]
  · rw [List.getElem?_eq_none (by omega), List.getElem?_eq_none (by simp; omega)]; rfl

theorem SortedOf.distinct {i j : Nat} {p q : Proc} (hp : S[i]? = some p) (hq : S[j]? = some q)
    (e : p.systemProcessorId = q.systemProcessorId) : i = j := by
  have hn : (S.map (·.systemProcessorId)).Nodup := by
    refine (h.perm.map _).nodup_iff.mpr ?_
    rw [h.ids]; exact List.nodup_range
  have hi : i < (S.map (·.systemProcessorId)).length := by
    rw [List.length_map]; exact lt_of_get hp
  refine (List.getElem?_inj hi hn).mp ?_
  rw [List.getElem?_map, List.getElem?_map, hp, hq, Option.map_some, Option.map_some, e]

theorem SortedOf.order {i j : Nat} {p q : Proc} (hp : S[i]? = some p) (hq : S[j]? = some q)
    (hij : i < j) : ¬ Before a q p := by
  have hj := lt_of_get hq
  have := List.pairwise_iff_getElem.mp h.sorted i j (by omega) hj hij
  intro hb
  have hb := (cmp_before a p q).2.mpr hb
  have e1 : S[i]'(by omega) = p := (List.getElem?_eq_some_iff.mp hp).2
  have e2 : S[j]'hj = q := (List.getElem?_eq_some_iff.mp hq).2
  rw [e1, e2] at this
  omega

/-- The leader of a usable processor, and that it shares the core type. -/
theorem SortedOf.leader {k : Nat} {p : Proc} (hp : S[k]? = some p) (hu : Usable p) :
    ∃ (m : Nat) (l : Proc), S[m]? = some l ∧ Usable l ∧ l.systemProcessorId = p.packageLeaderId ∧
      l.packageLeaderId = p.packageLeaderId ∧ SameCore l p ∧
      p.packageLeaderId ≤ p.systemProcessorId := by
  have hT := h.at_id hp
  obtain ⟨h1, ⟨l, hl, hlu⟩, ⟨l', hl', hll⟩⟩ := h.ready.led _ p hT hu
  rw [hl] at hl'; cases hl'
  have : l ∈ S := h.perm.symm.subset (List.mem_of_getElem? hl)
  obtain ⟨m, hm⟩ := List.getElem?_of_mem this
  exact ⟨m, l, hm, hlu, h.ready.id _ l hl, hll, h.ready.core _ p l hT hu hl, h1⟩

/-- Usable processors of the same cluster have the same core type. -/
theorem SortedOf.same_core {i j : Nat} {p q : Proc} (hp : S[i]? = some p) (hq : S[j]? = some q)
    (hpu : Usable p) (hqu : Usable q) (e : p.packageLeaderId = q.packageLeaderId) :
    p.midr = q.midr ∧ p.maxFrequency = q.maxFrequency ∧ p.uarch = q.uarch ∧ p.vendor = q.vendor := by
  obtain ⟨m, l, hm, -, hid, -, hc, -⟩ := h.leader hp hpu
  obtain ⟨m', l', hm', -, hid', -, hc', -⟩ := h.leader hq hqu
  have : m = m' := h.distinct hm hm' (by rw [hid, hid', e])
  subst this
  rw [hm] at hm'; cases hm'
  exact ⟨hc.midr.trans hc'.midr.symm, hc.freq.trans hc'.freq.symm, hc.uarch.trans hc'.uarch.symm,
    hc.vendor.trans hc'.vendor.symm⟩

/-- Clusters are not interleaved. -/
theorem SortedOf.between {i j k : Nat} {p q r : Proc} (hp : S[i]? = some p) (hq : S[j]? = some q)
    (hr : S[k]? = some r) (hij : i ≤ j) (hjk : j ≤ k) (hru : Usable r)
    (e : p.packageLeaderId = r.packageLeaderId) : q.packageLeaderId = r.packageLeaderId := by
  rcases Nat.eq_or_lt_of_le hij with h1 | h1
  · subst h1; rw [hp] at hq; cases hq; exact e
  rcases Nat.eq_or_lt_of_le hjk with h2 | h2
  · subst h2; rw [hq] at hr; cases hr; rfl
  have hk := (h.usable_prefix k r hr).mp hru
  have hqu := (h.usable_prefix j q hq).mpr (by omega)
  have hpu := (h.usable_prefix i p hp).mpr (by omega)
  have b1 := h.order hp hq h1
  have b2 := h.order hq hr h2
  obtain ⟨em, ef, -, -⟩ := h.same_core hp hr hpu hru e
  unfold Before at b1 b2
  rw [em, ef, e] at b1
  generalize scoreCore a q.midr = sq at *
  generalize scoreCore a r.midr = sr at *
  have t1 : (Usable q ↔ Usable p) := ⟨fun _ => hpu, fun _ => hqu⟩
  have t2 : (Usable r ↔ Usable q) := ⟨fun _ => hqu, fun _ => hru⟩
  simp only [hqu, hpu, hru, not_true_eq_false, and_false, false_or, iff_self, true_and] at b1 b2
  omega

/-- A usable processor follows one of its cluster unless it is the leader. -/
theorem SortedOf.leader_first {k : Nat} {p : Proc} (hp : S[k]? = some p) (hu : Usable p) :
    (isLeader p = false → ∃ q, 0 < k ∧ S[k - 1]? = some q ∧ q.packageLeaderId = p.packageLeaderId) ∧
    (isLeader p = true → ∀ q, 0 < k → S[k - 1]? = some q → q.packageLeaderId ≠ p.packageLeaderId) := by
  have hk := (h.usable_prefix k p hp).mp hu
  constructor
  · intro hl
    have hl : p.packageLeaderId ≠ p.systemProcessorId := by simpa [isLeader] using hl
    obtain ⟨m, l, hm, hlu, hid, hll, hc, hle⟩ := h.leader hp hu
    have hb : Before a l p := by
      refine .inr ⟨⟨fun _ => hu, fun _ => hlu⟩, ?_⟩
      rw [hc.midr, hc.freq, hll, hid]
      exact .inr ⟨rfl, .inr ⟨rfl, .inr ⟨rfl, by omega⟩⟩⟩
    have hmk : m < k := by
      rcases Nat.lt_trichotomy m k with h1 | h1 | h1
      · exact h1
      · subst h1; rw [hm] at hp; cases hp; exact absurd hb (before_irrefl a _)
      · exact absurd hb (h.order hp hm h1)
    have hlt : k - 1 < S.length := by have := lt_of_get hp; omega
    refine ⟨_, by omega, List.getElem?_eq_getElem hlt, ?_⟩
    exact h.between hm (List.getElem?_eq_getElem hlt) hp (by omega) (by omega) hu hll
  · intro hl q hk0 hq e
    have hl : p.packageLeaderId = p.systemProcessorId := by simpa [isLeader] using hl
    have hqu := (h.usable_prefix _ q hq).mpr (by omega)
    obtain ⟨em, ef, -, -⟩ := h.same_core hq hp hqu hu e
    obtain ⟨-, -, -, -, -, -, -, hle⟩ := h.leader hq hqu
    have b := h.order hq hp (by omega)
    have hne : q.systemProcessorId ≠ p.systemProcessorId := by
      intro e'
      have := h.distinct hq hp e'
      omega
    apply b
    refine .inr ⟨⟨fun _ => hqu, fun _ => hu⟩, ?_⟩
    rw [em, ef, e]
    exact .inr ⟨rfl, .inr ⟨rfl, .inr ⟨rfl, by omega⟩⟩⟩

end

/-! ## Clusters as runs -/

/-- The processor at position `k`. -/
def procAt (S : List Proc) (k : Nat) : Proc := (S[k]?).getD Proc.zero

theorem procAt_get {S : List Proc} {k : Nat} (h : k < S.length) : S[k]? = some (procAt S k) := by
  unfold procAt; rw [List.getElem?_eq_getElem h]; rfl

/-- A new cluster starts at position `k`. -/
def newAt (S : List Proc) (k : Nat) : Bool := isLeader (procAt S k)

section
variable {a : Arch} {T S : List Proc} (h : SortedOf a T S)
include h

theorem SortedOf.get {k : Nat} (hk : k < usableCount T) :
    S[k]? = some (procAt S k) ∧ Usable (procAt S k) := by
  have := procAt_get (show k < S.length by have := h.le; omega)
  exact ⟨this, (h.usable_prefix k _ this).mpr hk⟩

theorem SortedOf.new_zero (h0 : 0 < usableCount T) : newAt S 0 = true := by
  obtain ⟨h1, h2⟩ := h.get h0
  cases hl : newAt S 0 with
  | true => rfl
  | false =>
    obtain ⟨q, hq, -⟩ := (h.leader_first h1 h2).1 hl
    omega

theorem SortedOf.old_same {k : Nat} (hk : k + 1 < usableCount T) (hn : newAt S (k + 1) = false) :
    (procAt S (k + 1)).packageLeaderId = (procAt S k).packageLeaderId := by
  obtain ⟨h1, h2⟩ := h.get hk
  obtain ⟨q, -, hq, e⟩ := (h.leader_first h1 h2).1 hn
  have hq : S[k]? = some q := hq
  rw [(h.get (show k < usableCount T by omega)).1] at hq
  cases hq
  exact e.symm

theorem SortedOf.start_leader (k : Nat) (hk : k < usableCount T) :
    newAt S (st (newAt S) k) = true ∧
    (procAt S k).packageLeaderId = (procAt S (st (newAt S) k)).systemProcessorId := by
  induction k with
  | zero =>
    have := h.new_zero hk
    refine ⟨this, ?_⟩
    show (procAt S 0).packageLeaderId = (procAt S 0).systemProcessorId
    simpa [newAt, isLeader] using this
  | succ k ih =>
    cases hn : newAt S (k + 1) with
    | true =>
      rw [st_succ_new hn]
      refine ⟨hn, ?_⟩
      simpa [newAt, isLeader] using hn
    | false =>
      rw [st_succ_old hn, h.old_same hk hn]
      exact ih (by omega)

theorem SortedOf.run_iff {i k : Nat} (hi : i < usableCount T) (hk : k < usableCount T) :
    gi (newAt S) i = gi (newAt S) k ↔ (procAt S i).packageLeaderId = (procAt S k).packageLeaderId := by
  obtain ⟨-, hi2⟩ := h.start_leader i hi
  obtain ⟨-, hk2⟩ := h.start_leader k hk
  constructor
  · intro e
    rw [hi2, hk2, st_eq_of_gi _ i k e]
  · intro e
    rw [hi2, hk2] at e
    have := h.distinct (h.get (Nat.lt_of_le_of_lt (st_le _ i) hi)).1
      (h.get (Nat.lt_of_le_of_lt (st_le _ k) hk)).1 e
    rw [← gi_st (newAt S) i, this, gi_st]

theorem SortedOf.cnt_members {k : Nat} (hk : k < usableCount T) : ∀ n, n ≤ usableCount T →
    cnt (newAt S) (gi (newAt S) k) n = membersOf (S.take n) (procAt S k).packageLeaderId := by
  intro n
  induction n with
  | zero => intro _; rfl
  | succ n ih =>
    intro hn
    obtain ⟨h1, h2⟩ := h.get (show n < usableCount T by omega)
    have := membersBelow_succ h1 (procAt S k).packageLeaderId
    unfold membersBelow at this
    rw [this, cnt, ih (by omega)]
    congr 1
    have hr := h.run_iff (show n < usableCount T by omega) hk
    have h2 : (procAt S n).flags.testBit 12 = true := h2
    by_cases hc : (procAt S n).packageLeaderId = (procAt S k).packageLeaderId
    · rw [if_pos (hr.mpr hc)]; simp [Usable, h2, hc]
    · rw [if_neg (fun e => hc (hr.mp e))]; simp [hc]

theorem SortedOf.members_take (l : Nat) : membersOf (S.take (usableCount T)) l = membersOf T l := by
  have e : membersOf T l = membersOf S l := ((h.perm.filter _).length_eq).symm
  rw [e]
  have hs : S = S.take (usableCount T) ++ S.drop (usableCount T) := (List.take_append_drop _ _).symm
  have hz : (S.drop (usableCount T)).filter (fun p => p.flags.testBit 12 && p.packageLeaderId == l) = [] := by
    rw [List.filter_eq_nil_iff]
    intro x hx
    obtain ⟨i, hi⟩ := List.getElem?_of_mem hx
    rw [List.getElem?_drop] at hi
    have := mt (h.usable_prefix _ x hi).mp (by omega)
    unfold Usable at this
    simp [this]
  conv => rhs; rw [hs]
  unfold membersOf
  rw [List.filter_append, hz, List.append_nil]

/-- The size of a run is the size of the cluster. -/
theorem SortedOf.run_size {k : Nat} (hk : k < usableCount T) :
    cnt (newAt S) (gi (newAt S) k) (usableCount T) = (procAt S k).packageProcessorCount := by
  rw [h.cnt_members hk _ (Nat.le_refl _), h.members_take]
  obtain ⟨h1, h2⟩ := h.get hk
  exact (h.ready.count _ _ (h.at_id h1) h2).symm

/-- The runs are the clusters. -/
theorem SortedOf.clusters (h0 : 0 < usableCount T) :
    gi (newAt S) (usableCount T - 1) + 1 = (leaders T).length := by
  have e1 : (leaders T).length = (T.filter fun p => p.flags.testBit 12 && isLeader p).length := by
    have : T = (List.range T.length).map fun i => (T[i]?).getD Proc.zero := by
      apply List.ext_getElem?
      intro i
      rw [List.getElem?_map]
      by_cases hi : i < T.length
      · rw [List.getElem?_range hi]; simp [List.getElem?_eq_getElem hi]
      · rw [List.getElem?_eq_none (by omega), List.getElem?_eq_none (by simp; omega)]; rfl
    conv => rhs; rw [this]
    rw [List.filter_map, List.length_map, leaders_eq]
    congr 1
    apply List.filter_congr
    intro i hi
    have hi : i < T.length := List.mem_range.mp hi
    have hid := h.ready.id i _ (List.getElem?_eq_getElem hi)
    unfold leadAt isLeader
    simp only [Function.comp, List.getElem?_eq_getElem hi, Option.any_some, Option.getD_some, hid]
  have e2 : (S.filter fun p => p.flags.testBit 12 && isLeader p).length = (leaders T).length := by
    rw [e1]; exact (h.perm.filter _).length_eq
  have e3 : ∀ n, n < usableCount T →
      ((S.take (n + 1)).filter fun p => p.flags.testBit 12 && isLeader p).length
        = gi (newAt S) n + 1 := by
    intro n
    induction n with
    | zero =>
      intro hn
      obtain ⟨g1, g2⟩ := h.get hn
      have hz := h.new_zero hn
      rw [List.take_add_one, g1]
      have hz : isLeader (procAt S 0) = true := hz
      have g2 : (procAt S 0).flags.testBit 12 = true := g2
      simp [hz, g2, gi]
    | succ n ih =>
      intro hn
      obtain ⟨g1, g2⟩ := h.get hn
      have g2 : (procAt S (n + 1)).flags.testBit 12 = true := g2
      rw [List.take_add_one, g1, List.filter_append, List.length_append, ih (by omega), gi]
      cases hz : newAt S (n + 1) with
      | true =>
        have hz : isLeader (procAt S (n + 1)) = true := hz
        simp [hz, g2]
      | false =>
        have hz : isLeader (procAt S (n + 1)) = false := hz
        simp [hz]
  have := e3 (usableCount T - 1) (by omega)
  rw [← this, show usableCount T - 1 + 1 = usableCount T by omega, ← e2]
  have hs : S = S.take (usableCount T) ++ S.drop (usableCount T) := (List.take_append_drop _ _).symm
  have hz : (S.drop (usableCount T)).filter (fun p => p.flags.testBit 12 && isLeader p) = [] := by
    rw [List.filter_eq_nil_iff]
    intro x hx
    obtain ⟨i, hi⟩ := List.getElem?_of_mem hx
    rw [List.getElem?_drop] at hi
    have := mt (h.usable_prefix _ x hi).mp (by omega)
    unfold Usable at this
    simp [this]
  conv => rhs; rw [hs]
  rw [List.filter_append, hz, List.append_nil]

end

end Verif.ArmInit
