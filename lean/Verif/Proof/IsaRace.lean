import Verif.Model.IsaRace

/-!
# Feature queries during initialization: invariants

A set flag is never cleared (`Grows`), so every query that finds all its flags set is right for good.
-/

set_option autoImplicit false

namespace Verif.IsaRace

/-! ### Writes -/

section
variable {F Q : Type} [DecidableEq F] [DecidableEq Q]

/-- No write clears a flag that is set. -/
def Grows : List (Write F) → (F → Bool) → Prop
  | [], _ => True
  | w :: ws, m => (m w.1 = true → w.2 = true) ∧ Grows ws (write w m)

/-- Every flag that is set in the first is set in the second. -/
def Below (m n : F → Bool) : Prop := ∀ f : F, m f = true → n f = true

theorem Below.refl (m : F → Bool) : Below m m := fun _ h => h

theorem Below.trans {a b c : F → Bool} (h : Below a b) (k : Below b c) : Below a c :=
  fun f x => k f (h f x)

theorem write_below {w : Write F} {m : F → Bool} (h : m w.1 = true → w.2 = true) :
    Below m (write w m) := by
  intro f hf
  simp only [write]
  by_cases e : f = w.1
  · subst e; rw [if_pos rfl]; exact h hf
  · rw [if_neg e]; exact hf

theorem run_below : ∀ (ws : List (Write F)) (m : F → Bool), Grows ws m → Below m (run ws m)
  | [], m, _ => Below.refl m
  | w :: ws, m, h => (write_below h.1).trans (run_below ws (write w m) h.2)

theorem run_append (ws vs : List (Write F)) (m : F → Bool) : run (ws ++ vs) m = run vs (run ws m) := by
  induction ws generalizing m with
  | nil => rfl
  | cons w ws ih => exact ih (write w m)

theorem grows_append (ws vs : List (Write F)) (m : F → Bool) :
    Grows (ws ++ vs) m ↔ Grows ws m ∧ Grows vs (run ws m) := by
  induction ws generalizing m with
  | nil => exact ⟨fun h => ⟨True.intro, h⟩, fun h => h.2⟩
  | cons w ws ih =>
    show (_ ∧ Grows (ws ++ vs) (write w m)) ↔ _
    rw [ih (write w m)]
    exact ⟨fun h => ⟨⟨h.1, h.2.1⟩, h.2.2⟩, fun h => ⟨h.1.1, h.1.2, h.2⟩⟩

theorem run_setIf (c : Bool) (g f : F) (m : F → Bool) :
    run (setIf c g) m f = if f = g then c || m f else m f := by
  cases c
  · simp [setIf, run]
  · simp [setIf, run, write]

theorem grows_true : ∀ (ws : List (Write F)) (m : F → Bool),
    (∀ w : Write F, w ∈ ws → w.2 = true) → Grows ws m
  | [], _, _ => True.intro
  | w :: ws, m, h => ⟨fun _ => h w (by simp), grows_true ws _ fun v hv => h v (by simp [hv])⟩

theorem grows_setIf (c : Bool) (g : F) (m : F → Bool) : Grows (setIf c g) m := by
  cases c
  · exact True.intro
  · exact ⟨fun _ => rfl, True.intro⟩

theorem Cond.mono {m n : F → Bool} (h : Below m n) (c : Cond F) (hc : c.holds m = true) :
    c.holds n = true := by
  cases c with
  | const b => exact hc
  | all fs =>
    simp only [Cond.holds, List.all_eq_true] at hc ⊢
    exact fun f hf => h f (hc f hf)

/-! ### The invariant -/

/-- What holds of a thread that is inside a query. -/
structure Asking (cond : Q → Cond F) (guard : Guard) (m : F → Bool) (q : Q) (late confirmed : Bool)
    (rest : Cond F) : Prop where
  sound : ∀ n : F → Bool, Below m n → rest.holds n = true → (cond q).holds n = true
  late : late = true → guard = .done ∧ rest.holds m = (cond q).holds m
  confirmed : confirmed = true → rest.holds m = true

/-- The invariant of all executions. -/
structure Inv (cond : Q → Cond F) (ws : List (Write F)) (m0 : F → Bool) (w : World F Q) : Prop where
  fresh : w.guard = .fresh → w.mem = m0
  running : w.guard = .running → ∃ (t : Nat) (rest : List (Write F)), w.pc t = .running rest
  inside : ∀ (t : Nat) (rest : List (Write F)), w.pc t = .running rest → w.guard = .running ∧
    Grows rest w.mem ∧ run rest w.mem = run ws m0 ∧
    ∀ (t' : Nat) (rest' : List (Write F)), w.pc t' = .running rest' → t' = t
  leaving : ∀ t : Nat, w.pc t = .leaving → w.guard = .done
  done : w.guard = .done → w.mem = run ws m0
  returned : w.returned = true → w.guard = .done
  asking : ∀ (t : Nat) (q : Q) (late confirmed : Bool) (rest : Cond F),
    w.pc t = .asking q late confirmed rest → Asking cond w.guard w.mem q late confirmed rest
  answers : ∀ a : Answer Q, a ∈ w.answers →
    (a.result = true → (cond a.query).holds w.mem = true) ∧
    (a.late = true → a.result = (cond a.query).holds (run ws m0)) ∧
    (a.confirmed = true → a.result = true)

theorem Inv.initial (cond : Q → Cond F) (ws : List (Write F)) (m0 : F → Bool) :
    Inv cond ws m0 (World.initial m0) where
  fresh _ := rfl
  running h := by cases h
  inside t rest h := by cases h
  leaving t h := by cases h
  done h := by cases h
  returned h := by cases h
  asking t q l c rest h := by cases h
  answers a h := by cases h

theorem goto_same (w : World F Q) (t : Nat) (p : Pc F Q) : (w.goto t p).pc t = p := by
  simp [World.goto]

theorem goto_other (w : World F Q) (t t' : Nat) (p : Pc F Q) (h : t' ≠ t) :
    (w.goto t p).pc t' = w.pc t' := by
  simp [World.goto, h]

/-- Moving a thread that is not in the routine to a place that is neither the routine nor a query. -/
theorem Inv.move {cond : Q → Cond F} {ws : List (Write F)} {m0 : F → Bool} {w : World F Q}
    (i : Inv cond ws m0 w) (t : Nat) (p : Pc F Q)
    (hw : ∀ rest : List (Write F), w.pc t ≠ .running rest)
    (hr : ∀ rest : List (Write F), p ≠ .running rest)
    (hl : p = .leaving → w.guard = .done)
    (ha : ∀ (q : Q) (late confirmed : Bool) (rest : Cond F),
      p = .asking q late confirmed rest → Asking cond w.guard w.mem q late confirmed rest) :
    Inv cond ws m0 (w.goto t p) where
  fresh := i.fresh
  running h := by
    obtain ⟨t', rest, h'⟩ := i.running h
    have : t' ≠ t := fun e => hw rest (e ▸ h')
    exact ⟨t', rest, by rw [goto_other w t t' p this]; exact h'⟩
  inside t' rest h := by
    have : t' ≠ t := fun e => hr rest (by rw [e, goto_same] at h; exact h)
    rw [goto_other w t t' p this] at h
    obtain ⟨a, b, c, d⟩ := i.inside t' rest h
    refine ⟨a, b, c, fun t'' rest' h' => ?_⟩
    have : t'' ≠ t := fun e => hr rest' (by rw [e, goto_same] at h'; exact h')
    rw [goto_other w t t'' p this] at h'
    exact d t'' rest' h'
  leaving t' h := by
    by_cases e : t' = t
    · rw [e, goto_same] at h; exact hl h
    · rw [goto_other w t t' p e] at h; exact i.leaving t' h
  done := i.done
  returned := i.returned
  asking t' q l c rest h := by
    by_cases e : t' = t
    · rw [e, goto_same] at h; exact ha q l c rest h
    · rw [goto_other w t t' p e] at h; exact i.asking t' q l c rest h
  answers := i.answers

theorem Inv.step {cond : Q → Cond F} {ws : List (Write F)} {m0 : F → Bool} (g : Grows ws m0)
    {v w : World F Q} (i : Inv cond ws m0 v) (s : Step cond ws v w) : Inv cond ws m0 w := by
  cases s with
  | call t h =>
    exact i.move t .waiting (fun rest e => by rw [h] at e; cases e) (fun rest e => by cases e)
      (fun e => by cases e) (fun q l c rest e => by cases e)
  | start t h hg =>
    have none : ∀ (t' : Nat) (rest : List (Write F)), v.pc t' ≠ .running rest := fun t' rest e => by
      have := (i.inside t' rest e).1; rw [hg] at this; cases this
    refine ⟨?_, ?_, ?_, ?_, ?_, ?_, ?_, ?_⟩
    · intro e; cases e
    · intro _; exact ⟨t, ws, goto_same v t (.running ws)⟩
    · intro t' rest e
      have : t' = t := by
        by_cases x : t' = t
        · exact x
        · have e' : (v.goto t (.running ws)).pc t' = .running rest := e
          rw [goto_other v t t' _ x] at e'
          exact absurd e' (none t' rest)
      have e' : (v.goto t (.running ws)).pc t' = .running rest := e
      rw [this, goto_same] at e'
      cases e'
      refine ⟨rfl, ?_, ?_, fun t'' rest' e'' => ?_⟩
      · show Grows ws v.mem; rw [i.fresh hg]; exact g
      · show run ws v.mem = _; rw [i.fresh hg]
      · by_cases x : t'' = t
        · rw [x, this]
        · have e3 : (v.goto t (.running ws)).pc t'' = .running rest' := e''
          rw [goto_other v t t'' _ x] at e3
          exact absurd e3 (none t'' rest')
    · intro t' e
      have e' : (v.goto t (.running ws)).pc t' = .leaving := e
      by_cases x : t' = t
      · rw [x, goto_same] at e'; cases e'
      · rw [goto_other v t t' _ x] at e'
        have := i.leaving t' e'; rw [hg] at this; cases this
    · intro e; cases e
    · intro e
      have := i.returned e; rw [hg] at this; cases this
    · intro t' q l c rest e
      have e' : (v.goto t (.running ws)).pc t' = .asking q l c rest := e
      by_cases x : t' = t
      · rw [x, goto_same] at e'; cases e'
      · rw [goto_other v t t' _ x] at e'
        have a := i.asking t' q l c rest e'
        refine ⟨a.sound, fun h' => ?_, a.confirmed⟩
        have := (a.late h').1; rw [hg] at this; cases this
    · exact i.answers
  | store t s rest h =>
    obtain ⟨hg, hgrow, hrun, huniq⟩ := i.inside t (s :: rest) h
    have below : Below v.mem (write s v.mem) := write_below hgrow.1
    refine ⟨?_, ?_, ?_, ?_, ?_, ?_, ?_, ?_⟩
    · intro e
      have e' : v.guard = .fresh := e
      rw [hg] at e'; cases e'
    · intro _; exact ⟨t, rest, goto_same v t (.running rest)⟩
    · intro t' rest' e
      have e' : (v.goto t (.running rest)).pc t' = .running rest' := e
      have only : ∀ (t'' : Nat) (r : List (Write F)),
          (v.goto t (.running rest)).pc t'' = .running r → t'' = t := fun t'' r x => by
        by_cases y : t'' = t
        · exact y
        · rw [goto_other v t t'' _ y] at x
          exact huniq t'' r x
      have ht := only t' rest' e'
      rw [ht, goto_same] at e'
      cases e'
      exact ⟨hg, hgrow.2, hrun, fun t'' r x => (only t'' r x).trans ht.symm⟩
    · intro t' e
      have e' : (v.goto t (.running rest)).pc t' = .leaving := e
      by_cases x : t' = t
      · rw [x, goto_same] at e'; cases e'
      · rw [goto_other v t t' _ x] at e'
        exact i.leaving t' e'
    · intro e
      have e' : v.guard = .done := e
      rw [hg] at e'; cases e'
    · exact i.returned
    · intro t' q l c r e
      have e' : (v.goto t (.running rest)).pc t' = .asking q l c r := e
      by_cases x : t' = t
      · rw [x, goto_same] at e'; cases e'
      · rw [goto_other v t t' _ x] at e'
        have a := i.asking t' q l c r e'
        refine ⟨fun n hn => a.sound n (below.trans hn), fun h' => ?_,
          fun h' => Cond.mono below r (a.confirmed h')⟩
        have := (a.late h').1; rw [hg] at this; cases this
    · intro a ha
      obtain ⟨p, q, r⟩ := i.answers a ha
      exact ⟨fun h' => Cond.mono below _ (p h'), q, r⟩
  | finish t h =>
    obtain ⟨hg, _, hrun, huniq⟩ := i.inside t [] h
    have none : ∀ (t' : Nat) (rest : List (Write F)),
        (v.goto t .leaving).pc t' ≠ .running rest := fun t' rest e => by
      by_cases x : t' = t
      · rw [x, goto_same] at e; cases e
      · rw [goto_other v t t' _ x] at e
        exact x (huniq t' rest e)
    refine ⟨?_, ?_, ?_, ?_, ?_, ?_, ?_, ?_⟩
    · intro e; cases e
    · intro e; cases e
    · intro t' rest e
      exact absurd e (none t' rest)
    · intro _ _; rfl
    · intro _; exact hrun
    · intro _; rfl
    · intro t' q l c r e
      have e' : (v.goto t .leaving).pc t' = .asking q l c r := e
      by_cases x : t' = t
      · rw [x, goto_same] at e'; cases e'
      · rw [goto_other v t t' _ x] at e'
        have a := i.asking t' q l c r e'
        exact ⟨a.sound, fun h' => ⟨rfl, (a.late h').2⟩, a.confirmed⟩
    · exact i.answers
  | pass t h hg =>
    exact i.move t .leaving (fun rest e => by rw [h] at e; cases e) (fun rest e => by cases e)
      (fun _ => hg) (fun q l c rest e => by cases e)
  | back t h =>
    have m := i.move t .idle (fun rest e => by rw [h] at e; cases e) (fun rest e => by cases e)
      (fun e => by cases e) (fun q l c rest e => by cases e)
    exact ⟨m.fresh, m.running, m.inside, m.leaving, m.done, fun _ => i.leaving t h, m.asking,
      m.answers⟩
  | ask t q h =>
    refine i.move t _ (fun rest e => by rw [h] at e; cases e) (fun rest e => by cases e)
      (fun e => by cases e) (fun q' l c rest e => ?_)
    cases e
    refine ⟨fun _ _ x => x, fun x => ⟨i.returned x, rfl⟩, fun x => ?_⟩
    simp only [World.confirmed, List.any_eq_true, Bool.and_eq_true, beq_iff_eq] at x
    obtain ⟨a, ha, hq, hr⟩ := x
    rw [← hq]
    exact (i.answers a ha).1 hr
  | read t q l c f fs h =>
    have a := i.asking t q l c _ h
    refine i.move t _ (fun rest e => by rw [h] at e; cases e)
      (fun rest e => by cases e) (fun e => by cases e) (fun q' l' c' rest e => ?_)
    cases e
    by_cases hf : v.mem f = true
    · rw [if_pos hf]
      refine ⟨fun n hn x => a.sound n hn ?_, fun x => ⟨(a.late x).1, ?_⟩, fun x => ?_⟩
      · simp only [Cond.holds, List.all_cons, Bool.and_eq_true] at x ⊢
        exact ⟨hn f hf, x⟩
      · rw [← (a.late x).2]
        simp only [Cond.holds, List.all_cons, hf, Bool.true_and]
      · have := a.confirmed x
        simp only [Cond.holds, List.all_cons, hf, Bool.true_and] at this ⊢
        exact this
    · rw [if_neg hf]
      have hf' : v.mem f = false := by simpa using hf
      refine ⟨fun n hn x => (by cases x), fun x => ⟨(a.late x).1, ?_⟩, fun x => ?_⟩
      · rw [← (a.late x).2]
        simp only [Cond.holds, List.all_cons, hf', Bool.false_and]
      · have := a.confirmed x
        simp only [Cond.holds, List.all_cons, hf', Bool.false_and] at this
        cases this
  | constant t q l c b h =>
    have a := i.asking t q l c _ h
    have m := i.move t .idle (fun rest e => by rw [h] at e; cases e) (fun rest e => by cases e)
      (fun e => by cases e) (fun q l c rest e => by cases e)
    refine ⟨m.fresh, m.running, m.inside, m.leaving, m.done, m.returned, m.asking, fun x hx => ?_⟩
    rcases List.mem_cons.mp hx with e | hx
    · subst e
      refine ⟨fun y => a.sound v.mem (Below.refl _) y, fun y => ?_, fun y => a.confirmed y⟩
      rw [← i.done (a.late y).1]
      exact (a.late y).2
    · exact i.answers x hx
  | last t q l c h =>
    have a := i.asking t q l c _ h
    have m := i.move t .idle (fun rest e => by rw [h] at e; cases e) (fun rest e => by cases e)
      (fun e => by cases e) (fun q l c rest e => by cases e)
    refine ⟨m.fresh, m.running, m.inside, m.leaving, m.done, m.returned, m.asking, fun x hx => ?_⟩
    rcases List.mem_cons.mp hx with e | hx
    · subst e
      refine ⟨fun _ => a.sound v.mem (Below.refl _) rfl, fun y => ?_, fun _ => rfl⟩
      rw [← i.done (a.late y).1]
      exact (a.late y).2
    · exact i.answers x hx

theorem Inv.steps {cond : Q → Cond F} {ws : List (Write F)} {m0 : F → Bool} (g : Grows ws m0)
    {w : World F Q} (s : Steps cond ws (World.initial m0) w) : Inv cond ws m0 w := by
  generalize hu : World.initial m0 = u at s
  induction s with
  | refl => rw [← hu]; exact Inv.initial cond ws m0
  | tail v w _ st ih => exact ih.step g st

omit [DecidableEq Q] in
theorem Inv.below {cond : Q → Cond F} {ws : List (Write F)} {m0 : F → Bool} (g : Grows ws m0)
    {w : World F Q} (i : Inv cond ws m0 w) : Below w.mem (run ws m0) := by
  cases h : w.guard with
  | fresh => rw [i.fresh h]; exact run_below ws m0 g
  | running =>
    obtain ⟨t, rest, ht⟩ := i.running h
    obtain ⟨_, hgrow, hrun, _⟩ := i.inside t rest ht
    rw [← hrun]
    exact run_below rest w.mem hgrow
  | done => rw [i.done h]; exact Below.refl _

/-- The invariant of executions whose routine writes nothing. -/
structure Still (cond : Q → Cond F) (m0 : F → Bool) (w : World F Q) : Prop where
  mem : w.mem = m0
  inside : ∀ (t : Nat) (rest : List (Write F)), w.pc t = .running rest → rest = []
  asking : ∀ (t : Nat) (q : Q) (late confirmed : Bool) (rest : Cond F),
    w.pc t = .asking q late confirmed rest → rest.holds m0 = (cond q).holds m0
  answers : ∀ a : Answer Q, a ∈ w.answers → a.result = (cond a.query).holds m0

theorem Still.move {cond : Q → Cond F} {m0 : F → Bool} {w : World F Q} (i : Still cond m0 w) (t : Nat)
    (p : Pc F Q) (hr : ∀ rest : List (Write F), p = .running rest → rest = [])
    (ha : ∀ (q : Q) (late confirmed : Bool) (rest : Cond F), p = .asking q late confirmed rest →
      rest.holds m0 = (cond q).holds m0) : Still cond m0 (w.goto t p) where
  mem := i.mem
  inside t' rest h := by
    by_cases e : t' = t
    · rw [e, goto_same] at h; exact hr rest h
    · rw [goto_other w t t' p e] at h; exact i.inside t' rest h
  asking t' q l c rest h := by
    by_cases e : t' = t
    · rw [e, goto_same] at h; exact ha q l c rest h
    · rw [goto_other w t t' p e] at h; exact i.asking t' q l c rest h
  answers := i.answers

theorem Still.step {cond : Q → Cond F} {m0 : F → Bool} {v w : World F Q} (i : Still cond m0 v)
    (s : Step cond [] v w) : Still cond m0 w := by
  cases s with
  | call t h => exact i.move t .waiting (fun _ e => by cases e) (fun _ _ _ _ e => by cases e)
  | start t h hg =>
    have k := i.move t (.running []) (fun _ e => by cases e; rfl) (fun _ _ _ _ e => by cases e)
    exact ⟨k.mem, k.inside, k.asking, k.answers⟩
  | store t x rest h => cases i.inside t _ h
  | finish t h =>
    have k := i.move t .leaving (fun _ e => by cases e) (fun _ _ _ _ e => by cases e)
    exact ⟨k.mem, k.inside, k.asking, k.answers⟩
  | pass t h hg => exact i.move t .leaving (fun _ e => by cases e) (fun _ _ _ _ e => by cases e)
  | back t h =>
    have k := i.move t .idle (fun _ e => by cases e) (fun _ _ _ _ e => by cases e)
    exact ⟨k.mem, k.inside, k.asking, k.answers⟩
  | ask t q h =>
    exact i.move t _ (fun _ e => by cases e) (fun _ _ _ _ e => by cases e; rfl)
  | read t q l c f fs h =>
    refine i.move t _ (fun _ e => by cases e) (fun _ _ _ _ e => ?_)
    cases e
    rw [← i.asking t q l c _ h, i.mem]
    cases hf : m0 f <;> simp [Cond.holds, hf]
  | constant t q l c b h =>
    have k := i.move t .idle (fun _ e => by cases e) (fun _ _ _ _ e => by cases e)
    refine ⟨k.mem, k.inside, k.asking, fun a ha => ?_⟩
    rcases List.mem_cons.mp ha with ha | ha
    · rw [ha]; exact i.asking t q l c _ h
    · exact i.answers a ha
  | last t q l c h =>
    have k := i.move t .idle (fun _ e => by cases e) (fun _ _ _ _ e => by cases e)
    refine ⟨k.mem, k.inside, k.asking, fun a ha => ?_⟩
    rcases List.mem_cons.mp ha with ha | ha
    · rw [ha]; exact i.asking t q l c _ h
    · exact i.answers a ha

/-- If the routine writes nothing, every query has the answer of the initial flags. -/
theorem unchanged {cond : Q → Cond F} {m0 : F → Bool} {w : World F Q}
    (s : Steps cond [] (World.initial m0) w) :
    ∀ a : Answer Q, a ∈ w.answers → a.result = (cond a.query).holds m0 := by
  suffices h : Still cond m0 w from h.answers
  generalize hu : World.initial m0 = u at s
  induction s with
  | refl =>
    rw [← hu]
    exact ⟨rfl, fun _ _ h => (by cases h), fun _ _ _ _ _ h => (by cases h), fun _ h => (by cases h)⟩
  | tail v w _ st ih => exact ih.step st

end

end Verif.IsaRace
