import Verif.Props.Riscv
import Verif.Proof.RiscvFirst
import Verif.Proof.RiscvUarch
import Mathlib.Data.Nat.Find

/-!
# C102: exactly which contradictory sibling lists are harmful on RISC-V

`Props/Riscv.lean` shows one machine whose lists lead to a write out of bounds.  Here the lists are
arbitrary: they need not agree with one another, nor name the processor that they belong to.
-/

set_option autoImplicit false

namespace Verif.Props
open Spec Riscv Api Once

/-- The files name the processors that are present and give some list for each of them and each level:
ranges in ascending order, as the kernel prints every list. -/
structure SomeLists (y : System) (n : Nat) (present : Nat → Prop) (lists : Lvl → Nat → List (Nat × Nat)) :
    Prop where
  limit : ∃ v, y.kernelMax.1 = some (printNat v ++ [10]) ∧ y.kernelMax.2.NoError ∧ v < U32MAX ∧ n ≤ v + 1
  list : ∃ rs, y.present.1 = some (printCpuList rs) ∧ y.present.2.NoError ∧ rs ≠ [] ∧
    (∀ r ∈ rs, r.1 ≤ r.2 ∧ r.2 < n) ∧ (∃ r ∈ rs, r.2 + 1 = n) ∧ ∀ i, present i ↔ i ∈ cover rs
  files : ∀ l i, present i →
    (listFile y l i).1 = some (printCpuList (lists l i)) ∧ (listFile y l i).2.NoError
  ranges : ∀ l i, present i → lists l i ≠ [] ∧ (∀ r ∈ lists l i, r.1 ≤ r.2 ∧ r.2 < U32MAX) ∧
    (lists l i).Pairwise fun r s => r.2 < s.1

/-- Every range of every core list contains a processor that is present. -/
def CoreRangesInhabited (present : Nat → Prop) (lists : Lvl → Nat → List (Nat × Nat)) : Prop :=
  ∀ i, present i → ∀ r ∈ lists .core i, ∃ k, r.1 ≤ k ∧ k ≤ r.2 ∧ present k

/-- At each level the list of some processor names the processor. -/
def NamedEverywhere (present : Nat → Prop) (lists : Lvl → Nat → List (Nat × Nat)) (m : Nat) : Prop :=
  ∀ l, ∃ j, present j ∧ m ∈ cover (lists l j)

/-- The valid processor with the least number is the first. -/
theorem first_valid : ∀ (t : List Proc) (m : Nat) (p : Proc), t[m]? = some p → p.valid = true →
    (∀ k q, t[k]? = some q → q.valid = true → m ≤ k) → (t.filter (·.valid)).head? = some p
  | [], m, p, h, _, _ => by simp at h
  | x :: t, m, p, h, hv, hmin => by
    cases m with
    | zero =>
      cases Option.some.inj h
      rw [List.filter_cons_of_pos hv]; rfl
    | succ m =>
      have hx : ¬ x.valid = true := fun hx => absurd (hmin 0 x rfl hx) (by omega)
      rw [List.filter_cons_of_neg hx]
      exact first_valid t m p h hv fun k q hk hq => by have := hmin (k + 1) q hk hq; omega

section
variable {y : System} {n : Nat} {present : Nat → Prop} {lists : Lvl → Nat → List (Nat × Nat)}

/-- **C102, exactly.** Let the sort be stable and all allocations succeed, and let `m` be the first
processor that is present.  Whatever the sibling lists say, initialization fails if a range of a core
list contains no present processor; otherwise it accesses memory out of bounds if no list of
some level names `m`, and it succeeds if at each level some list names `m`. -/
theorem C102_riscv_exact (F : SomeLists y n present lists) (hq : StableSort y)
    (alloc : Nat → Bool) (ha : ∀ i, alloc i = true) (u : Elem .uarch)
    (m : Nat) (hm : present m) (hmin : ∀ k, present k → m ≤ k) :
    (init y alloc = some [] ↔ ¬ CoreRangesInhabited present lists) ∧
    (init y alloc = none ↔ CoreRangesInhabited present lists ∧ ¬ NamedEverywhere present lists m) ∧
    ((∃ st, init y alloc = some st ∧ FlagLast st ∧ (applyAll st (.initial u)).isInitialized = true) ↔
      CoreRangesInhabited present lists ∧ NamedEverywhere present lists m) := by
  have hl : ∀ l i, present i → lists l i ≠ [] ∧ AscFrom 0 (lists l i) ∧
      (y.cpus l i).1 = some (printCpuList (lists l i)) ∧ (y.cpus l i).2.NoError := by
    intro l i hi
    obtain ⟨h1, h2, h3⟩ := F.ranges l i hi
    rw [cpus_eq]
    exact ⟨h1, ascFrom_of _ 0 (fun r hr => ⟨Nat.zero_le _, h2 r hr⟩) h3, F.files l i hi⟩
  obtain ⟨g1, g2⟩ := gather_lists F.limit F.list hl hm hmin
  by_cases hc : CoreRangesInhabited present lists
  · obtain ⟨t, e1, e2, e3, e4, e5⟩ := g1 hc
    have hinit : init y alloc = (transfer t).map (commit t.length (counts t)) := by
      have := init_some (y := y) ha e1
      rwa [hq t (gather_unknown e1)] at this
    obtain ⟨p, hp, hv⟩ := (e3 m).mpr hm
    have hfirst : (t.filter (·.valid)).head? = some p :=
      first_valid t m p hp hv fun k q hk hqv => hmin k ((e3 k).mp ⟨q, hk, hqv⟩)
    have hid := e4 m p hp hv
    have hlead : ∀ l, p.leads l = true ↔ ∃ j, present j ∧ m ∈ cover (lists l j) := by
      intro l
      rw [← e5 l]
      unfold Own Proc.leads grpAt
      rw [hp, hid, decide_eq_true_iff]
      exact ⟨fun h => ⟨_, rfl, h⟩, fun ⟨g, h1, h2⟩ => by cases Option.some.inj h1; exact h2⟩
    have hdef : (∃ s, transfer t = some s) ↔ NamedEverywhere present lists m := by
      rw [transfer_defined t fun q hq hqv => by
        obtain ⟨k, hk⟩ := List.getElem?_of_mem hq
        have := (List.getElem?_eq_some_iff.mp hk).1
        rw [e4 k q hk hqv]; exact this]
      rw [hfirst]
      exact ⟨fun h l => (hlead l).mp (h p rfl l), fun h q hq l => by
        cases Option.some.inj hq; exact (hlead l).mpr (h l)⟩
    rw [hinit]
    cases ht : transfer t with
    | none =>
      have hn : ¬ NamedEverywhere present lists m := fun h => by
        obtain ⟨s, hs⟩ := hdef.mpr h
        rw [ht] at hs; cases hs
      exact ⟨⟨fun h => (by cases h), fun h => absurd hc h⟩, ⟨fun _ => ⟨hc, hn⟩, fun _ => rfl⟩,
        ⟨fun ⟨_, h, _⟩ => (by cases h), fun h => absurd h.2 hn⟩⟩
    | some s =>
      have hn := hdef.mp ⟨s, ht⟩
      refine ⟨⟨fun h => ?_, fun h => absurd hc h⟩, ⟨fun h => (by cases h), fun h => absurd hn h.2⟩,
        ⟨fun _ => ⟨hc, hn⟩, fun _ => ⟨_, rfl, riscv_flag_last _ _ s, rfl⟩⟩⟩
      have := Option.some.inj h
      unfold commit at this
      simp at this
  · have hbad : ∃ i, present i ∧ ∃ r ∈ lists .core i, ∀ k, r.1 ≤ k → k ≤ r.2 → ¬ present k := by
      refine Classical.byContradiction fun h => hc fun i hi r hr => Classical.byContradiction fun h' => ?_
      exact h ⟨i, hi, r, hr, fun k k1 k2 k3 => h' ⟨k, k1, k2, k3⟩⟩
    have hinit : init y alloc = some [] := by
      unfold init
      rw [if_pos (ha 0), g2 hbad]
      rfl
    rw [hinit]
    refine ⟨⟨fun _ => hc, fun _ => rfl⟩, ⟨fun h => (by cases h), fun h => absurd h.1 hc⟩,
      ⟨fun ⟨st, h1, _, h3⟩ => ?_, fun h => absurd h.1 hc⟩⟩
    cases Option.some.inj h1
    cases h3

/-- **C102, partly.** Sibling lists that name the processor that they belong to are harmless, however
they contradict one another. -/
theorem C102_own_named_partial (F : SomeLists y n present lists) (hq : StableSort y)
    (alloc : Nat → Bool) (ha : ∀ i, alloc i = true) (hown : ∀ l i, present i → i ∈ cover (lists l i)) :
    init y alloc ≠ none := by
  obtain ⟨m, hm, hmin⟩ : ∃ m, present m ∧ ∀ k, present k → m ≤ k := by
    classical
    obtain ⟨rs, _, _, _, r4, ⟨r, hr, hr'⟩, r6⟩ := F.list
    have hex : ∃ k, present k := ⟨r.2, (r6 r.2).mpr (mem_cover.mpr ⟨r, hr, (r4 r hr).1, Nat.le_refl _⟩)⟩
    exact ⟨Nat.find hex, Nat.find_spec hex, fun k hk => Nat.find_min' hex hk⟩
  intro h
  obtain ⟨_, hn⟩ := (C102_riscv_exact F hq alloc ha ⟨0, 0, 0⟩ m hm hmin).2.1.mp h
  exact hn fun l => ⟨m, hm, hown l m hm⟩

end

/-! ## Examples -/

/-- Contradictory lists: processor 0 claims 1 as a thread of its core, 1 claims 2, and 2 only itself;
the cluster list of 2 leaves it out. -/
def contradictory : System :=
  machine [(0, 2)] (fun i => if i = 2 then [(2, 2)] else [(i, i), (i + 1, i + 1)])
    (fun i => if i = 2 then [(0, 1)] else [(0, 0), (2, 2)]) (fun i => [(0, i)]) id

/-- The lists of that machine. -/
def contradictoryLists : Lvl → Nat → List (Nat × Nat)
  | .core, i => if i = 2 then [(2, 2)] else [(i, i), (i + 1, i + 1)]
  | .cluster, i => if i = 2 then [(0, 1)] else [(0, 0), (2, 2)]
  | .package, i => [(0, i)]

/-- The hypotheses of `C102_riscv_exact` are met. -/
theorem contradictory_lists : SomeLists contradictory 3 (· < 3) contradictoryLists := by
  have d : ∀ rs : List (Nat × Nat), (∀ r ∈ rs, r.1 < 10 ∧ r.2 < 10) →
      some (digits rs) = some (printCpuList rs) := fun rs h => congrArg some (digits_eq rs h)
  have ne : (fullSched 100).NoError := fun _ h => by cases h
  have three : ∀ {i : Nat}, i < 3 → i = 0 ∨ i = 1 ∨ i = 2 := fun h => by omega
  refine ⟨⟨63, congrArg some kernelMax_eq, ne, by decide, by decide⟩,
    ⟨[(0, 2)], d [(0, 2)] (by decide), ne, by decide, by decide, by decide, fun i => ?_⟩,
    fun l i hi => ?_, fun l i hi => ?_⟩
  · show _ ↔ i ∈ [0, 1, 2]
    simp; omega
  · cases l with
    | core =>
      refine ⟨d (contradictoryLists .core i) ?_, ne⟩
      rcases three hi with rfl | rfl | rfl <;> decide
    | cluster =>
      refine ⟨d (contradictoryLists .cluster i) ?_, ne⟩
      rcases three hi with rfl | rfl | rfl <;> decide
    | package =>
      refine ⟨d (contradictoryLists .package i) ?_, ne⟩
      rcases three hi with rfl | rfl | rfl <;> decide
  · rcases three hi with rfl | rfl | rfl <;> cases l <;> decide

/-- Initialization succeeds, for processor 0 is named at each level. -/
example : ∃ st, init contradictory (fun _ => true) = some st ∧ FlagLast st ∧
    (applyAll st (.initial (E := Elem) ⟨0, 0, 0⟩)).isInitialized = true := by
  refine (C102_riscv_exact contradictory_lists (fun t _ => rfl) _ (fun _ => rfl) ⟨0, 0, 0⟩ 0
    (by decide) (fun k _ => Nat.zero_le k)).2.2.mpr ⟨fun i hi r hr => ?_, fun l => ⟨0, by decide, ?_⟩⟩
  · have : r.1 < 3 ∧ r.1 ≤ r.2 := by
      have hi : i = 0 ∨ i = 1 ∨ i = 2 := by omega
      rcases hi with rfl | rfl | rfl <;> simp [contradictoryLists] at hr <;>
        rcases hr with rfl | rfl <;> decide
    exact ⟨r.1, Nat.le_refl _, this.2, this.1⟩
  · cases l <;> decide

end Verif.Props
