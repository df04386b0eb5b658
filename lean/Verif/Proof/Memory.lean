import Verif.Spec.Memory

/-!
# All executions of a list of steps

A list of steps has finitely many executions: `runs` lists their results, and every run in any
environment is among them.
-/

set_option autoImplicit false

namespace Verif.Memory
open Spec

/-- The results of all executions. -/
def runs (nullOk : Bool) : List Step → Option Label → St → List (Option St)
  | [], _, s => [some s]
  | st :: rest, some l, s => runs nullOk rest (if st = .label l then none else some l) s
  | st :: rest, none, s =>
    st.choices.flatMap fun c =>
      match exec nullOk c s st with
      | none => [none]
      | some (s, j) => runs nullOk rest j s

theorem choice_mem (nullOk : Bool) (o : Nat → Choice) (s : St) (st : Step) :
    ∃ c ∈ st.choices, exec nullOk (st.choice o) s st = exec nullOk c s st := by
  cases st with
  | alloc n v l =>
    show ∃ c ∈ [Choice.ok, .fail], exec nullOk (o n) s _ = _
    cases o n <;> first
      | exact ⟨.ok, by simp, rfl⟩
      | exact ⟨.fail, by simp, rfl⟩
  | allocIf n v l =>
    show ∃ c ∈ [Choice.ok, .fail, .skip], exec nullOk (o n) s _ = _
    exact ⟨o n, by cases o n <;> simp, rfl⟩
  | allocOr n v l =>
    show ∃ c ∈ [Choice.ok, .fail], exec nullOk (o n) s _ = _
    cases o n <;> first
      | exact ⟨.ok, by simp, rfl⟩
      | exact ⟨.fail, by simp, rfl⟩
  | test n l =>
    show ∃ c ∈ [Choice.ok, .fail], exec nullOk (o n) s _ = _
    cases o n <;> first
      | exact ⟨.ok, by simp, rfl⟩
      | exact ⟨.fail, by simp, rfl⟩
  | branch n l =>
    show ∃ c ∈ [Choice.ok, .skip], exec nullOk (o n) s _ = _
    cases o n <;> first
      | exact ⟨.ok, by simp, rfl⟩
      | exact ⟨.skip, by simp, rfl⟩
  | _ => exact ⟨.ok, List.mem_singleton.mpr rfl, rfl⟩

/-- Every run is among the listed ones. -/
theorem run_mem (nullOk : Bool) (o : Nat → Choice) (p : List Step) (j : Option Label) (s : St) :
    run nullOk o p j s ∈ runs nullOk p j s := by
  induction p generalizing j s with
  | nil => exact List.mem_singleton.mpr rfl
  | cons st rest ih =>
    cases j with
    | some l => exact ih _ _
    | none =>
      obtain ⟨c, hc, he⟩ := choice_mem nullOk o s st
      rw [run, runs, List.mem_flatMap]
      refine ⟨c, hc, ?_⟩
      rw [he]
      cases exec nullOk c s st with
      | none => exact List.mem_singleton.mpr rfl
      | some r => exact ih _ _

/-- What holds of all listed results holds in every environment. -/
theorem every_run {nullOk : Bool} {p : List Step} {P : St → Prop}
    (h : ∀ r ∈ runs nullOk p none start, ∃ s, r = some s ∧ P s) (o : Nat → Choice) :
    ∃ s, final nullOk o p = some s ∧ P s :=
  h _ (run_mem nullOk o p none start)

instance (s : St) : Decidable (NoFailure s) := by unfold NoFailure; infer_instance

instance (t : List Var) (s : St) : Decidable (Balanced t s) :=
  decidable_of_iff
    ((s.flag = false → s.heap = [] ∧ s.globals = []) ∧
      (s.flag = true → ∀ b ∈ s.heap, b ∈ s.globals.map (·.2)) ∧
      (∀ g ∈ s.globals, g.2 ∈ s.heap) ∧
      (s.flag = true → ∀ v ∈ t, v ∈ s.globals.map (·.1)) ∧
      (s.flag = true ↔ NoFailure s))
    ⟨fun ⟨a, b, c, d, e⟩ => ⟨a, b, c, d, e⟩, fun ⟨a, b, c, d, e⟩ => ⟨a, b, c, d, e⟩⟩

instance (b : Nat) (s : St) : Decidable (Leaked b s) := by unfold Leaked; infer_instance
instance (p : List Step) : Decidable (DistinctSites p) := by unfold DistinctSites; infer_instance

/-- All results are defined and have a property, as a computation. -/
def allRuns (nullOk : Bool) (p : List Step) (P : St → Bool) : Bool :=
  (runs nullOk p none start).all fun r => match r with
    | none => false
    | some s => P s

theorem allRuns_sound {nullOk : Bool} {p : List Step} {P : St → Bool}
    (h : allRuns nullOk p P = true) (o : Nat → Choice) :
    ∃ s, final nullOk o p = some s ∧ P s = true := by
  refine every_run (P := fun s => P s = true) (fun r hr => ?_) o
  have := List.all_eq_true.mp h r hr
  cases r with
  | none => cases this
  | some s => exact ⟨s, rfl, this⟩

/-- The form in which the functions are checked. -/
theorem holds {nullOk : Bool} {p : List Step} {P : St → Prop} [DecidablePred P]
    (h : allRuns nullOk p (fun s => decide (P s)) = true) (o : Nat → Choice) :
    ∃ s, final nullOk o p = some s ∧ P s := by
  obtain ⟨s, h1, h2⟩ := allRuns_sound h o
  exact ⟨s, h1, of_decide_eq_true h2⟩

end Verif.Memory
