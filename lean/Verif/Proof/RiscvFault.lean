import Verif.Proof.RiscvTables

/-!
# When the transfer of the RISC-V processors goes out of bounds, and the maps
-/

set_option autoImplicit false

namespace Verif.Riscv
open Spec

theorem transferProcessor_index {p : Proc} {s s' : State} (h : transferProcessor p s = some s') :
    s'.coresIndex = s.coresIndex ∧ s'.clustersIndex = s.clustersIndex ∧
      s'.packagesIndex = s.packagesIndex := by
  unfold transferProcessor at h
  by_cases e : s.lastUarch ≠ p.uarch ∨ s.uarchsIndex = 0
  · rw [if_pos e] at h
    simp only [Option.bind_eq_bind, Option.bind_eq_some_iff] at h
    obtain ⟨_, _, _, h1, _, _, _, _, h⟩ := h
    cases h1
    cases h
    exact ⟨rfl, rfl, rfl⟩
  · rw [if_neg e] at h
    simp only [Option.bind_eq_bind, Option.bind_eq_some_iff] at h
    obtain ⟨_, h1, _, _, _, _, h⟩ := h
    cases h1
    cases h
    exact ⟨rfl, rfl, rfl⟩

theorem transferCore_index {p : Proc} {s s' : State} (h : transferCore p s = some s') :
    (p.leads .core = false → s'.coresIndex = s.coresIndex) ∧ s'.clustersIndex = s.clustersIndex ∧
      s'.packagesIndex = s.packagesIndex := by
  unfold transferCore at h
  by_cases e : p.leads .core = true
  · rw [if_pos e] at h
    simp only [Option.bind_eq_bind, Option.bind_eq_some_iff] at h
    obtain ⟨_, _, _, _, h⟩ := h
    cases h
    exact ⟨fun h => Bool.noConfusion (h.symm.trans e), rfl, rfl⟩
  · rw [if_neg e] at h
    cases h
    exact ⟨fun _ => rfl, rfl, rfl⟩

theorem transferCluster_index {p : Proc} {s s' : State} (h : transferCluster p s = some s') :
    s'.coresIndex = s.coresIndex ∧ (p.leads .cluster = false → s'.clustersIndex = s.clustersIndex) ∧
      s'.packagesIndex = s.packagesIndex := by
  unfold transferCluster at h
  by_cases e : p.leads .cluster = true
  · rw [if_pos e] at h
    simp only [Option.bind_eq_bind, Option.bind_eq_some_iff] at h
    obtain ⟨_, _, h⟩ := h
    cases h
    exact ⟨rfl, fun h => Bool.noConfusion (h.symm.trans e), rfl⟩
  · rw [if_neg e] at h
    cases h
    exact ⟨rfl, fun _ => rfl, rfl⟩

theorem transferPackage_index {p : Proc} {s s' : State} (h : transferPackage p s = some s') :
    s'.coresIndex = s.coresIndex ∧ s'.clustersIndex = s.clustersIndex ∧
      (p.leads .package = false → s'.packagesIndex = s.packagesIndex) := by
  unfold transferPackage at h
  by_cases e : p.leads .package = true
  · rw [if_pos e] at h
    simp only [Option.bind_eq_bind, Option.bind_eq_some_iff] at h
    obtain ⟨_, _, h⟩ := h
    cases h
    exact ⟨rfl, rfl, fun h => Bool.noConfusion (h.symm.trans e)⟩
  · rw [if_neg e] at h
    cases h
    exact ⟨rfl, rfl, fun _ => rfl⟩

theorem lastPtr_pos {n i k : Nat} (h : lastPtr n i = some k) : i ≠ 0 := by
  rintro rfl
  cases h

/-- The first processor must lead all its groups. -/
theorem step_unled {p : Proc} {s : State} (hv : p.valid = true) (l : Lvl) (hl : p.leads l = false)
    (h1 : s.coresIndex = 0) (h2 : s.clustersIndex = 0) (h3 : s.packagesIndex = 0) :
    transferStep p s = none := by
  cases h : transferStep p s with
  | none => rfl
  | some s' =>
    exfalso
    unfold transferStep at h
    rw [if_pos hv] at h
    simp only [Option.bind_eq_bind, Option.bind_eq_some_iff] at h
    obtain ⟨s1, e1, s2, e2, s3, e3, s4, e4, e5⟩ := h
    unfold transferLinks at e5
    simp only [Option.bind_eq_bind, Option.bind_eq_some_iff] at e5
    obtain ⟨c, hc, k, hk, g, hg, _⟩ := e5
    have hc := lastPtr_pos hc
    have hk := lastPtr_pos hk
    have hg := lastPtr_pos hg
    have i1 := transferProcessor_index e1
    have i2 := transferCore_index e2
    have i3 := transferCluster_index e3
    have i4 := transferPackage_index e4
    cases l with
    | core => have := i2.1 hl; omega
    | cluster => have := i3.2.1 hl; omega
    | package => have := i4.2.2 hl; omega

theorem transfer_unled {t a b : List Proc} {p : Proc} (ht : t = a ++ p :: b)
    (ha : ∀ q ∈ a, q.valid = false) (hv : p.valid = true) (l : Lvl) (hl : p.leads l = false) :
    transfer t = none := by
  have skip : ∀ (xs : List Proc) (s : State), (∀ q ∈ xs, q.valid = false) →
      xs.foldlM (fun s p => transferStep p s) s = some s := by
    intro xs
    induction xs with
    | nil => intro s _; rfl
    | cons x xs ih =>
      intro s hx
      rw [List.foldlM_cons]
      have : transferStep x s = some s := by
        unfold transferStep
        rw [if_neg (by rw [hx x (by simp)]; decide)]
      rw [this]
      exact ih s fun q hq => hx q (by simp [hq])
  have : ∀ s : State, s.coresIndex = 0 → s.clustersIndex = 0 → s.packagesIndex = 0 →
      (a ++ p :: b).foldlM (fun s p => transferStep p s) s = none := by
    intro s h1 h2 h3
    rw [List.foldlM_append, skip a s ha]
    show Option.bind (some s) _ = none
    rw [Option.bind_some]
    rw [List.foldlM_cons, step_unled hv l hl h1 h2 h3]
    rfl
  unfold transfer
  rw [← ht] at this
  exact this _ rfl rfl rfl

section
variable {y : System} {n : Nat} {present : Nat → Prop} {mem : Lvl → Nat → List Nat}

/-- A first processor that does not lead one of its groups is fatal. -/
theorem ordered_unled {i : Nat} {rest : List Nat} {t : List Proc}
    (O : Ordered y n present mem (i :: rest) t) (l : Lvl) (hl : lead mem l i ≠ i) :
    transfer t = none := by
  have h0 : (t.filter (·.valid))[0]? = some (full y mem i) := by rw [O.valid]; rfl
  obtain ⟨a, b, h1, _, _, h4⟩ := filter_get _ t 0 _ h0
  refine transfer_unled h1 (fun q hq => ?_) (full_valid y mem i) l ?_
  · have := List.countP_eq_zero.mp h4 q hq
    simpa using this
  · rw [full_leads]; simpa using hl

/-- The maps follow the order of the sorted processors. -/
theorem maps {t : List Proc} (hg : Good t)
    {order : List Nat} (O : Ordered y n present mem order t) {s : State} (I : Inv t t s) :
    s.processorMap.length = n ∧ s.coreMap.length = n ∧ s.uarchMap.length = n ∧
    (∀ i, present i → ∃ k p c, s.processorMap[i]? = some (some k) ∧ s.processors[k]? = some p ∧
      p.linuxId = i ∧ s.coreMap[i]? = some (some c) ∧ p.core = some c ∧ c < s.cores.length ∧
      s.uarchMap[i]? = some 0) ∧
    ∀ i, i < n → ¬ present i → s.processorMap[i]? = some none ∧ s.coreMap[i]? = some none := by
  refine ⟨I.mapLen.trans O.len, I.coreMapLen.trans O.len, I.uarchMapLen.trans O.len,
    fun i hi => ?_, fun i hi hp => ?_⟩
  · have hm : full y mem i ∈ t.filter (·.valid) := by
      rw [O.valid]; exact List.mem_map_of_mem ((O.mem_iff i).mpr hi)
    obtain ⟨a, b, h⟩ := List.append_of_mem (List.mem_filter.mp hm).1
    obtain ⟨h1, h2, h3, h4⟩ := I.processor a _ b h (full_valid y mem i)
    refine ⟨_, _, _, h2, h1, rfl, h3, rfl, ?_, h4⟩
    have hpos := hg.led a _ b h (full_valid y mem i) .core
    have happ := nl_append .core (a ++ [full y mem i]) b
    rw [I.cLen, h, show a ++ full y mem i :: b = (a ++ [full y mem i]) ++ b by simp]
    omega
  · refine I.unmapped i (by rw [O.len]; exact hi) fun p hp' hv => ?_
    obtain ⟨j, hj, rfl⟩ := ordered_mem O hp' hv
    rintro rfl
    exact hp hj

end

end Verif.Riscv
