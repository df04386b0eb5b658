import Verif.Spec.Once

/-! The invariant behind `cpuinfo_initialize` under every interleaving. -/

set_option autoImplicit false

namespace Verif.Once

open Api Spec

variable {E : Kind → Type} {b : Build} {Outcome : List (Store E) → Prop} {u : E .uarch}

theorem applyAll_append (xs ys : List (Store E)) (g : Globals E) :
    applyAll (xs ++ ys) g = applyAll ys (applyAll xs g) := by
  induction xs generalizing g with
  | nil => rfl
  | cons x xs ih => simp only [List.cons_append, applyAll, ih]

theorem applyAll_keeps (xs : List (Store E)) (h : ∀ s ∈ xs, KeepsFlag s) (g : Globals E) :
    (applyAll xs g).isInitialized = g.isInitialized := by
  induction xs generalizing g with
  | nil => rfl
  | cons x xs ih =>
    rw [applyAll, ih (fun s hs => h s (List.mem_cons_of_mem _ hs)), h x (List.mem_cons_self ..)]

/-- While assignments remain, the flag is still false. -/
theorem flag_false (past rest : List (Store E)) (s : Store E) (h : FlagLast (past ++ s :: rest)) :
    (applyAll past (Globals.initial u)).isInitialized = false := by
  rcases h with h | ⟨body, v, hb, h⟩
  · simp at h
  · rw [applyAll_keeps]
    · rfl
    · intro x hx
      refine hb x ?_
      have hlen := congrArg List.length h
      simp only [List.length_append, List.length_cons, List.length_nil] at hlen
      have hp : past <+: body := by
        have h1 : past <+: body ++ [Store.flag v] := ⟨s :: rest, h⟩
        have h2 : body <+: body ++ [Store.flag v] := ⟨_, rfl⟩
        exact List.prefix_of_prefix_length_le h1 h2 (by omega)
      exact hp.subset hx

theorem prog_guarded (b : Build) (q : Query) : ∃ body : Prog E, q.prog b = guarded body := by
  cases q <;> first
    | exact ⟨_, rfl⟩
    | (simp only [Query.prog, uarchsProg, uarchProg, uarchsCountProg]
       split <;> exact ⟨_, rfl⟩)

structure Inv (b : Build) (Outcome : List (Store E) → Prop) (u : E .uarch) (w : World E)
    (past rest : List (Store E)) : Prop where
  mem : w.mem = applyAll past (.initial u)
  fresh : w.guard = .fresh → past = [] ∧ w.starts = 0 ∧ w.verdicts = [] ∧
    (∀ t r, w.pc t ≠ .running r) ∧ (∀ t, w.pc t ≠ .leaving)
  running : w.guard = .running → Outcome (past ++ rest) ∧ w.starts = 1 ∧ w.verdicts = [] ∧
    (∃ t, w.pc t = .running rest ∧ ∀ t' r, t' ≠ t → w.pc t' ≠ .running r) ∧
    (∀ t, w.pc t ≠ .leaving)
  done : w.guard = .done → Outcome past ∧ w.starts = 1 ∧ (∀ t r, w.pc t ≠ .running r)
  verdicts : ∀ v ∈ w.verdicts, v = w.mem.isInitialized
  asking : ∀ t q p, w.pc t = .asking q p → p = q.prog b ∨ p = .done .abort ∨
    (w.mem.isInitialized = true ∧ p.eval w.mem = (q.prog b).eval w.mem)
  answers : ∀ q r, (q, r) ∈ w.answers → r = .abort ∨
    (w.mem.isInitialized = true ∧ r = (q.prog b).eval w.mem)

theorem goto_pc (w : World E) (t t' : Nat) (p : Pc E) :
    (w.goto t p).pc t' = if t' = t then p else w.pc t' := rfl

theorem inv_initial : Inv b Outcome u (World.initial u) [] [] where
  mem := rfl
  fresh := fun _ => ⟨rfl, rfl, rfl, fun _ _ => by simp [World.initial],
    fun _ => by simp [World.initial]⟩
  running := fun h => by simp [World.initial] at h
  done := fun h => by simp [World.initial] at h
  verdicts := fun v h => by simp [World.initial] at h
  asking := fun t q p h => by simp [World.initial] at h
  answers := fun q r h => by simp [World.initial] at h

/-- A thread moves between positions that play no part in the guard. -/
theorem Inv.move {w : World E} {past rest : List (Store E)} (i : Inv b Outcome u w past rest)
    (t : Nat) (p : Pc E) (hr : ∀ r, w.pc t ≠ .running r) (hp : ∀ r, p ≠ .running r)
    (hl : p = .leaving → w.guard = .done)
    (ha : ∀ q x, p = .asking q x → x = q.prog b ∨ x = .done .abort ∨
      (w.mem.isInitialized = true ∧ x.eval w.mem = (q.prog b).eval w.mem)) :
    Inv b Outcome u (w.goto t p) past rest where
  mem := i.mem
  fresh := fun h => by
    obtain ⟨h1, h2, h3, h4, h5⟩ := i.fresh h
    refine ⟨h1, h2, h3, fun t' r => ?_, fun t' => ?_⟩
    · rw [goto_pc]; split
      · exact hp r
      · exact h4 t' r
    · rw [goto_pc]; split
      · intro hc
        exact absurd ((hl hc).symm.trans h) (by decide)
      · exact h5 t'
  running := fun h => by
    obtain ⟨h1, h2, h3, ⟨t₀, h4, h5⟩, h6⟩ := i.running h
    have hne : t₀ ≠ t := fun e => hr rest (e ▸ h4)
    refine ⟨h1, h2, h3, ⟨t₀, ?_, fun t' r hne' => ?_⟩, fun t' => ?_⟩
    · rw [goto_pc, if_neg hne]; exact h4
    · rw [goto_pc]; split
      · exact hp r
      · exact h5 t' r hne'
    · rw [goto_pc]; split
      · intro hc
        exact absurd ((hl hc).symm.trans h) (by decide)
      · exact h6 t'
  done := fun h => by
    obtain ⟨h1, h2, h3⟩ := i.done h
    refine ⟨h1, h2, fun t' r => ?_⟩
    rw [goto_pc]; split
    · exact hp r
    · exact h3 t' r
  verdicts := i.verdicts
  asking := fun t' q x h => by
    rw [goto_pc] at h
    split at h
    · exact ha q x h
    · exact i.asking t' q x h
  answers := i.answers

theorem inv_step (hO : ∀ c, Outcome c → FlagLast c) {w w' : World E} {past rest : List (Store E)}
    (i : Inv b Outcome u w past rest) (h : Step b Outcome w w') :
    ∃ past' rest', Inv b Outcome u w' past' rest' := by
  cases h with
  | call t hp =>
    exact ⟨past, rest, i.move t _ (by rw [hp]; simp) (by simp) (by simp) (by simp)⟩
  | start t c hp hg hc =>
    obtain ⟨h1, h2, h3, h4, h5⟩ := i.fresh hg
    subst h1
    refine ⟨[], c, ⟨i.mem, fun h => by simp at h, fun _ => ⟨hc, by simp [h2], h3, ⟨t, ?_, ?_⟩, ?_⟩,
      fun h => by simp at h, i.verdicts, ?_, i.answers⟩⟩
    · simp [goto_pc]
    · intro t' r hne
      simp only [goto_pc, if_neg hne]
      exact h4 t' r
    · intro t'
      simp only [goto_pc]
      split
      · simp
      · exact h5 t'
    · intro t' q x hx
      simp only [goto_pc] at hx
      split at hx
      · simp at hx
      · exact i.asking t' q x hx
  | store t s rest' hp =>
    have hg : w.guard = .running := by
      cases hgd : w.guard with
      | fresh => exact absurd hp ((i.fresh hgd).2.2.2.1 t _)
      | running => rfl
      | done => exact absurd hp ((i.done hgd).2.2 t _)
    obtain ⟨h1, h2, h3, ⟨t₀, h4, h5⟩, h6⟩ := i.running hg
    have ht : t = t₀ := by
      by_cases ht : t = t₀
      · exact ht
      · exact absurd hp (h5 t _ ht)
    subst ht
    rw [hp] at h4
    cases h4
    have hf : w.mem.isInitialized = false := by
      rw [i.mem]; exact flag_false past rest' s (hO _ h1)
    have hpast : s.apply w.mem = applyAll (past ++ [s]) (.initial u) := by
      rw [applyAll_append, ← i.mem]; rfl
    refine ⟨past ++ [s], rest', ⟨hpast, fun h => ?_, fun _ => ⟨by simpa using h1, h2, h3,
      ⟨t, ?_, ?_⟩, ?_⟩, fun h => ?_, ?_, ?_, ?_⟩⟩
    · change w.guard = .fresh at h
      rw [hg] at h; cases h
    · simp [goto_pc]
    · intro t' r hne
      simp only [goto_pc, if_neg hne]
      exact h5 t' r hne
    · intro t'
      simp only [goto_pc]
      split
      · simp
      · exact h6 t'
    · change w.guard = .done at h
      rw [hg] at h; cases h
    · intro v hv
      change v ∈ w.verdicts at hv
      rw [h3] at hv
      simp at hv
    · intro t' q x hx
      simp only [goto_pc] at hx
      split at hx
      · simp at hx
      · rcases i.asking t' q x hx with h | h | ⟨h, _⟩
        · exact Or.inl h
        · exact Or.inr (Or.inl h)
        · rw [hf] at h; cases h
    · intro q r hr
      rcases i.answers q r hr with h | ⟨h, _⟩
      · exact Or.inl h
      · rw [hf] at h; cases h
  | finish t hp =>
    have hg : w.guard = .running := by
      cases hgd : w.guard with
      | fresh => exact absurd hp ((i.fresh hgd).2.2.2.1 t _)
      | running => rfl
      | done => exact absurd hp ((i.done hgd).2.2 t _)
    obtain ⟨h1, h2, h3, ⟨t₀, h4, h5⟩, h6⟩ := i.running hg
    have ht : t = t₀ := by
      by_cases ht : t = t₀
      · exact ht
      · exact absurd hp (h5 t _ ht)
    subst ht
    rw [hp] at h4
    cases h4
    refine ⟨past, [], ⟨i.mem, fun h => by simp at h, fun h => by simp at h,
      fun _ => ⟨by simpa using h1, h2, ?_⟩, i.verdicts, ?_, i.answers⟩⟩
    · intro t' r
      simp only [goto_pc]
      split
      · simp
      · rename_i hne; exact h5 t' r hne
    · intro t' q x hx
      simp only [goto_pc] at hx
      split at hx
      · simp at hx
      · exact i.asking t' q x hx
  | pass t hp hg =>
    exact ⟨past, rest, i.move t _ (by rw [hp]; simp) (by simp) (fun _ => hg) (by simp)⟩
  | verdict t hp =>
    have hg : w.guard = .done := by
      cases hgd : w.guard with
      | fresh => exact absurd hp ((i.fresh hgd).2.2.2.2 t)
      | running => exact absurd hp ((i.running hgd).2.2.2.2 t)
      | done => rfl
    have j := i.move t .idle (by rw [hp]; simp) (by simp) (by simp) (by simp)
    refine ⟨past, rest, ⟨j.mem, fun h => ?_, fun h => ?_, j.done, fun v hv => ?_, j.asking,
      j.answers⟩⟩
    · change w.guard = .fresh at h
      rw [hg] at h; cases h
    · change w.guard = .running at h
      rw [hg] at h; cases h
    · rcases List.mem_cons.mp hv with h | h
      · exact h
      · exact i.verdicts v h
  | deinitialize t hp => exact ⟨past, rest, i⟩
  | ask t q hp =>
    refine ⟨past, rest, i.move t _ (by rw [hp]; simp) (by simp) (by simp) ?_⟩
    intro q' x h
    cases h
    exact Or.inl rfl
  | read t q k hp =>
    refine ⟨past, rest, i.move t _ (by rw [hp]; simp) (by simp) (by simp) ?_⟩
    intro q' x h
    cases h
    rcases i.asking t q _ hp with h | h | ⟨h1, h2⟩
    · obtain ⟨body, hb⟩ := prog_guarded (E := E) b q
      rw [hb] at h ⊢
      unfold guarded at h
      cases h
      by_cases hf : w.mem.isInitialized = true
      · simp only [hf, if_true]
        refine Or.inr (Or.inr ⟨trivial, ?_⟩)
        simp only [guarded, Prog.eval, hf, if_true]
      · simp [hf]
    · cases h
    · exact Or.inr (Or.inr ⟨h1, h2⟩)
  | answer t q r hp =>
    have j := i.move t (afterQuery r) (by rw [hp]; simp)
      (by cases r <;> simp [afterQuery]) (by cases r <;> simp [afterQuery])
      (by cases r <;> simp [afterQuery])
    refine ⟨past, rest, ⟨j.mem, j.fresh, j.running, j.done, j.verdicts, j.asking, ?_⟩⟩
    intro q' r' h
    rcases List.mem_cons.mp h with h | h
    · cases h
      rcases i.asking t q _ hp with h | h | ⟨h1, h2⟩
      · obtain ⟨body, hb⟩ := prog_guarded (E := E) b q
        rw [hb] at h
        cases h
      · cases h; exact Or.inl rfl
      · exact Or.inr ⟨h1, h2⟩
    · exact i.answers q' r' h

theorem inv_of_reachable (hO : ∀ c, Outcome c → FlagLast c) {w : World E}
    (h : Reachable b Outcome u w) : ∃ past rest, Inv b Outcome u w past rest := by
  unfold Reachable at h
  generalize hw : World.initial u = w₀ at h
  induction h with
  | refl => subst hw; exact ⟨[], [], inv_initial⟩
  | tail v w' hs hst ih =>
    obtain ⟨p, r, i⟩ := ih
    exact inv_step hO i hst

theorem steps_trans {w v x : World E} (h : Steps b Outcome w v) (h' : Steps b Outcome v x) :
    Steps b Outcome w x := by
  induction h' with
  | refl => exact h
  | tail y z _ hst ih => exact .tail _ _ _ ih hst

/-- Verdicts and answers are never taken back. -/
theorem step_history {w w' : World E} (h : Step b Outcome w w') :
    (∃ vs, w'.verdicts = vs ++ w.verdicts) ∧ ∃ qs, w'.answers = qs ++ w.answers := by
  cases h with
  | verdict t hp => exact ⟨⟨[_], rfl⟩, [], rfl⟩
  | answer t q r hp => exact ⟨⟨[], rfl⟩, [_], rfl⟩
  | _ => exact ⟨⟨[], rfl⟩, [], rfl⟩

theorem steps_verdicts {w w' : World E} (h : Steps b Outcome w w') :
    ∃ vs, w'.verdicts = vs ++ w.verdicts := by
  induction h with
  | refl => exact ⟨[], rfl⟩
  | tail x y _ hst ih =>
    obtain ⟨vs, hv⟩ := ih
    obtain ⟨⟨vs', hv'⟩, _⟩ := step_history hst
    exact ⟨vs' ++ vs, by rw [hv', hv, List.append_assoc]⟩

/-- Once the flag is set, nothing is written any more. -/
theorem mem_final (hO : ∀ c, Outcome c → FlagLast c) {w w' : World E}
    (hr : Reachable b Outcome u w) (hf : w.mem.isInitialized = true)
    (h : Steps b Outcome w w') : w'.mem = w.mem := by
  induction h with
  | refl => rfl
  | tail x y hs hst ih =>
    obtain ⟨past, rest, i⟩ := inv_of_reachable hO (steps_trans hr hs)
    cases hst with
    | store t s rest' hp =>
      exfalso
      have hg : x.guard = .running := by
        cases hgd : x.guard with
        | fresh => exact absurd hp ((i.fresh hgd).2.2.2.1 t _)
        | running => rfl
        | done => exact absurd hp ((i.done hgd).2.2 t _)
      obtain ⟨h1, _, _, ⟨t₀, h4, h5⟩, _⟩ := i.running hg
      have ht : t = t₀ := by
        by_cases ht : t = t₀
        · exact ht
        · exact absurd hp (h5 t _ ht)
      subst ht
      rw [hp] at h4
      cases h4
      have := flag_false (u := u) past rest' s (hO _ h1)
      rw [← i.mem, ih, hf] at this
      cases this
    | _ => exact ih

/-- If the flag is set, all assignments of one possible outcome have been made. -/
theorem mem_complete (hO : ∀ c, Outcome c → FlagLast c) {w : World E}
    (hr : Reachable b Outcome u w) (hf : w.mem.isInitialized = true) :
    ∃ c, Outcome c ∧ w.mem = applyAll c (.initial u) := by
  obtain ⟨past, rest, i⟩ := inv_of_reachable hO hr
  cases hg : w.guard with
  | fresh =>
    obtain ⟨h1, _⟩ := i.fresh hg
    rw [i.mem, h1] at hf
    cases hf
  | running =>
    obtain ⟨h1, _⟩ := i.running hg
    cases rest with
    | nil => exact ⟨past, by simpa using h1, i.mem⟩
    | cons s rest =>
      rw [i.mem, flag_false past rest s (hO _ h1)] at hf
      cases hf
  | done => exact ⟨past, (i.done hg).1, i.mem⟩

theorem currentProcessor_eval (g : Globals E) (hf : g.isInitialized = true) (os : Option Nat) :
    (currentProcessorProg b os).eval g = if b.linux then
      match os with
      | none => .ret (.elem .processor none)
      | some cpu => if cpu % U32 ≥ g.linuxCpuMax then .ret (.elem .processor none)
        else mapEntry .processor g.processorMap (g.table .processor) cpu
      else .ret (.elem .processor none) := by
  simp only [currentProcessorProg, guarded, Prog.eval, hf, if_true]
  cases b.linux with
  | false => rfl
  | true =>
    cases os with
    | none => rfl
    | some cpu =>
      simp only [if_true, Prog.eval]
      by_cases h : cpu % U32 ≥ g.linuxCpuMax
      · simp only [if_pos h, Prog.eval]
      · simp only [if_neg h, Prog.eval]

theorem currentCore_eval (g : Globals E) (hf : g.isInitialized = true) (os : Option Nat) :
    (currentCoreProg b os).eval g = if b.linux then
      match os with
      | none => .ret (.elem .core none)
      | some cpu => if cpu % U32 ≥ g.linuxCpuMax then .ret (.elem .core none)
        else mapEntry .core g.coreMap (g.table .core) cpu
      else .ret (.elem .core none) := by
  simp only [currentCoreProg, guarded, Prog.eval, hf, if_true]
  cases b.linux with
  | false => rfl
  | true =>
    cases os with
    | none => rfl
    | some cpu =>
      simp only [if_true, Prog.eval]
      by_cases h : cpu % U32 ≥ g.linuxCpuMax
      · simp only [if_pos h, Prog.eval]
      · simp only [if_neg h, Prog.eval]

theorem currentUarchDefault_eval (g : Globals E) (hf : g.isInitialized = true) (os : Option Nat)
    (d : Nat) :
    (currentUarchDefaultProg b os d).eval g = if b.manyUarchs then
      if b.linux then
        match g.uarchMap with
        | none => .ret (.num 0)
        | some m =>
          match os with
          | none => .ret (.num d)
          | some cpu => if cpu % U32 ≥ g.linuxCpuMax then .ret (.num d) else uarchEntry m cpu
      else .ret (.num d)
      else .ret (.num 0) := by
  simp only [currentUarchDefaultProg, guarded, Prog.eval, hf, if_true]
  cases b.manyUarchs with
  | false => rfl
  | true =>
    cases b.linux with
    | false => rfl
    | true =>
      simp only [if_true, Prog.eval]
      cases hm : g.uarchMap with
      | none => rfl
      | some m =>
        cases os with
        | none => rfl
        | some cpu =>
          simp only [Prog.eval]
          by_cases h : cpu % U32 ≥ g.linuxCpuMax
          · simp only [if_pos h, Prog.eval]
          · simp only [if_neg h, Prog.eval, hm]

theorem currentUarch_eval (g : Globals E) (hf : g.isInitialized = true) (os : Option Nat) :
    (currentUarchProg b os).eval g = if b.manyUarchs then
      if b.linux then
        match g.uarchMap with
        | none => .ret (.num 0)
        | some m =>
          match os with
          | none => .ret (.num 0)
          | some cpu => if cpu % U32 ≥ g.linuxCpuMax then .ret (.num 0) else uarchEntry m cpu
      else .ret (.num 0)
      else .ret (.num 0) := by
  simp only [currentUarchProg, guarded, Prog.eval, hf, if_true]
  cases b.manyUarchs with
  | false => rfl
  | true =>
    cases b.linux with
    | false => rfl
    | true =>
      simp only [if_true, Prog.eval]
      cases hm : g.uarchMap with
      | none => rfl
      | some m =>
        cases os with
        | none => rfl
        | some cpu =>
          simp only [Prog.eval]
          by_cases h : cpu % U32 ≥ g.linuxCpuMax
          · simp only [if_pos h, Prog.eval]
          · simp only [if_neg h, Prog.eval, hm]

theorem elem_eval (g : Globals E) (hf : g.isInitialized = true) (k n : Kind) (i : Nat) :
    (elemProg k n i).eval g =
      if i ≥ g.count n then .ret (.elem k none) else pointTo k (g.table k) i := by
  simp only [elemProg, guarded, Prog.eval, hf, if_true]
  split
  · rfl
  · rfl

theorem elem_some (g : Globals E) (hf : g.isInitialized = true) (k n : Kind)
    (i : Nat) (t : List (E k)) (x : E k) (hi : i < g.count n) (ht : g.table k = some t)
    (hx : t[i]? = some x) : (elemProg k n i).eval g = .ret (.elem k (some x)) := by
  simp only [elemProg, guarded, Prog.eval, hf, if_true, if_neg (by omega : ¬ i ≥ g.count n), ht,
    pointTo, hx]

theorem elem_fault (g : Globals E) (hf : g.isInitialized = true) (k n : Kind)
    (i : Nat) (t : List (E k)) (hi : i < g.count n) (ht : g.table k = some t)
    (hx : t[i]? = none) : (elemProg k n i).eval g = .fault := by
  simp only [elemProg, guarded, Prog.eval, hf, if_true, if_neg (by omega : ¬ i ≥ g.count n), ht,
    pointTo, hx]

theorem elem_null (g : Globals E) (hf : g.isInitialized = true) (k n : Kind)
    (i : Nat) (hi : i < g.count n) (ht : g.table k = none) :
    (elemProg k n i).eval g = .fault := by
  simp only [elemProg, guarded, Prog.eval, hf, if_true, if_neg (by omega : ¬ i ≥ g.count n), ht,
    pointTo]

/-- A query that passes the check does not end fatally. -/
theorem body_not_abort (g : Globals E) (hf : g.isInitialized = true) (q : Query) :
    (q.prog b).eval g ≠ .abort := by
  have hm : ∀ (k : Kind) (t : Option (List (E k))) (i : Nat), pointTo k t i ≠ .abort := by
    intro k t i
    unfold pointTo
    repeat' split
    all_goals simp
  have he : ∀ (k : Kind) (m : Option (List (Option Nat))) (t : Option (List (E k))) (i : Nat),
      mapEntry k m t i ≠ .abort := by
    intro k m t i
    unfold mapEntry
    repeat' split
    all_goals first | exact hm _ _ _ | simp
  have hu : ∀ (m : List Nat) (i : Nat), (uarchEntry m i : Res E) ≠ .abort := by
    intro m i
    unfold uarchEntry
    split <;> simp
  have hel : ∀ (k n : Kind) (i : Nat), (elemProg k n i : Prog E).eval g ≠ .abort := by
    intro k n i
    simp only [elemProg, guarded, Prog.eval, hf, if_true]
    split
    · simp [Prog.eval]
    · exact hm _ _ _
  have hta : ∀ (k : Kind), (tableProg k : Prog E).eval g ≠ .abort := by
    intro k; simp [tableProg, guarded, Prog.eval, hf]
  have hco : ∀ (k : Kind), (countProg k : Prog E).eval g ≠ .abort := by
    intro k; simp [countProg, guarded, Prog.eval, hf]
  cases q <;> simp only [Query.prog] <;> first | exact hel _ _ _ | exact hta _ | exact hco _ | skip
  · unfold uarchsProg; split
    · exact hta _
    · simp [guarded, Prog.eval, hf]
  · unfold uarchProg; split
    · exact hel _ _ _
    · simp only [guarded, Prog.eval, hf, if_true]
      split <;> simp [Prog.eval]
  · unfold uarchsCountProg; split
    · exact hco _
    · simp [guarded, Prog.eval, hf]
  · simp [guarded, Prog.eval, hf]
  · rw [currentProcessor_eval g hf]
    repeat' split
    all_goals first | exact he _ _ _ _ | simp
  · rw [currentCore_eval g hf]
    repeat' split
    all_goals first | exact he _ _ _ _ | simp
  · rw [currentUarch_eval g hf]
    repeat' split
    all_goals first | exact hu _ _ | simp
  · rw [currentUarchDefault_eval g hf]
    repeat' split
    all_goals first | exact hu _ _ | simp

end Verif.Once
