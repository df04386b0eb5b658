import Verif.Spec.Riscv
import Verif.Proof.ArmScan

/-!
# The parsers of RISC-V processor lists
-/

set_option autoImplicit false

namespace Verif.Riscv
open Platform (put)
open ArmClusters (forRange)

theorem forRange_list {σ : Type} (f : Nat → σ → Option σ) : ∀ (n i : Nat) (s : σ),
    forRange f n i s = (List.range' i n).foldlM (fun s j => f j s) s
  | 0, _, _ => rfl
  | n + 1, i, s => by
    rw [forRange, List.range'_succ, List.foldlM_cons]
    congr 1
    funext s
    exact forRange_list f n (i + 1) s

/-- The leader of the visited processors is set. -/
def mark (l : Lvl) (st : Nat) (cs : List Nat) (j : Nat) (p : Proc) : Proc :=
  if j ∈ cs then p.set l { p.get l with leader := st } else p

theorem get_set (p : Proc) (l : Lvl) (g : Group) : (p.set l g).get l = g := by cases l <;> rfl
theorem set_set (p : Proc) (l : Lvl) (g h : Group) : (p.set l g).set l h = p.set l h := by
  cases l <;> rfl
theorem set_get (p : Proc) (l : Lvl) : p.set l (p.get l) = p := by cases l <;> rfl
theorem set_valid (p : Proc) (l : Lvl) (g : Group) : (p.set l g).valid = p.valid := by
  cases l <;> rfl

theorem get?_set {α : Type} (t : List α) (i : Nat) (x : α) (hi : i < t.length) (j : Nat) :
    (t.set i x)[j]? = if j = i then some x else t[j]? := by
  rw [List.getElem?_set]
  by_cases h : i = j
  · subst h; rw [if_pos rfl, if_pos hi, if_pos rfl]
  · rw [if_neg h, if_neg (fun e => h e.symm)]

theorem scan_list (l : Lvl) (cl kl : Nat → Nat) : ∀ (cs : List Nat) (t : List Proc) (s : Scan),
    (∀ j ∈ cs, j < U32MAX ∧ ∃ p, t[j]? = some p ∧ p.valid = true ∧ (l ≠ .core → p.core.leader = cl j) ∧
      (l = .package → p.cluster.leader = kl j)) →
    ∃ t' : List Proc, cs.foldlM (fun s j => scanStep l j s) (t, s) = some (t',
        ⟨if s.start = U32MAX then cs.headD U32MAX else s.start, s.processors + cs.length,
          s.cores + if l ≠ .core then cs.countP (fun j => cl j = j) else 0,
          s.clusters + if l = .package then cs.countP (fun j => kl j = j) else 0⟩) ∧
      t'.length = t.length ∧
      ∀ j, t'[j]? = (t[j]?).map (mark l (if s.start = U32MAX then cs.headD U32MAX else s.start) cs j)
  | [], t, s, _ => by
    refine ⟨t, ?_, rfl, fun j => ?_⟩
    · rw [List.foldlM_nil]
      show some (t, s) = _
      have : (if s.start = U32MAX then ([] : List Nat).headD U32MAX else s.start) = s.start := by
        by_cases h : s.start = U32MAX
        · rw [if_pos h, h]; rfl
        · rw [if_neg h]
      rw [this]
      simp
    · cases t[j]? with
      | none => rfl
      | some p => simp [mark]
  | c :: cs, t, s, h => by
    obtain ⟨hc, p, hp, hv, hcl, hkl⟩ := h c (by simp)
    have hlt : c < t.length := (List.getElem?_eq_some_iff.mp hp).1
    let st := if s.start = U32MAX then c else s.start
    have hst : st ≠ U32MAX := by
      show (if s.start = U32MAX then c else s.start) ≠ U32MAX
      by_cases e : s.start = U32MAX
      · rw [if_pos e]; omega
      · rw [if_neg e]; exact e
    have hstep : scanStep l c (t, s) = some (t.set c (p.set l { p.get l with leader := st }),
        ⟨st, s.processors + 1, s.cores + (if l ≠ .core ∧ cl c = c then 1 else 0),
          s.clusters + (if l = .package ∧ kl c = c then 1 else 0)⟩) := by
      unfold scanStep
      show Option.bind (t[c]?) _ = _
      rw [hp, Option.bind_some, if_pos hv]
      refine (congrArg (fun x => Option.bind x _)
        (if_pos hlt : put t c (p.set l { p.get l with leader := st }) = some _)).trans ?_
      rw [Option.bind_some]
      simp only [Option.pure_def, Option.some.injEq, Prod.mk.injEq, Scan.mk.injEq, true_and]
      refine ⟨rfl, ?_, ?_⟩
      · by_cases e : l = .core
        · rw [if_neg (by simp [e]), if_neg (by simp [e])]; rfl
        · rw [hcl e]
          by_cases e' : cl c = c
          · rw [if_pos ⟨e, e'⟩, if_pos ⟨e, e'⟩]
          · rw [if_neg (by simp [e']), if_neg (by simp [e'])]; rfl
      · by_cases e : l = .package
        · rw [hkl e]
          by_cases e' : kl c = c
          · rw [if_pos ⟨e, e'⟩, if_pos ⟨e, e'⟩]
          · rw [if_neg (by simp [e']), if_neg (by simp [e'])]; rfl
        · rw [if_neg (by simp [e]), if_neg (by simp [e])]; rfl
    have hnext : ∀ j ∈ cs, j < U32MAX ∧ ∃ q,
        (t.set c (p.set l { p.get l with leader := st }))[j]? = some q ∧
        q.valid = true ∧ (l ≠ .core → q.core.leader = cl j) ∧
        (l = .package → q.cluster.leader = kl j) := by
      intro j hj
      obtain ⟨h1, q, h2, h3, h4, h5⟩ := h j (by simp [hj])
      refine ⟨h1, ?_⟩
      rw [get?_set t c _ hlt]
      by_cases e : j = c
      · subst e
        rw [hp] at h2
        cases h2
        refine ⟨_, if_pos rfl, by rw [set_valid]; exact h3, fun e => ?_, fun e => ?_⟩
        · rw [← h4 e]; cases l with
          | core => exact absurd rfl e
          | _ => rfl
        · subst e; rw [← h5 rfl]; rfl
      · exact ⟨q, by rw [if_neg e]; exact h2, h3, h4, h5⟩
    obtain ⟨t', e1, e2, e3⟩ := scan_list l cl kl cs _ _ hnext
    refine ⟨t', ?_, by rw [e2, List.length_set], fun j => ?_⟩
    · rw [List.foldlM_cons, hstep]
      refine e1.trans ?_
      simp only [Option.some.injEq, Prod.mk.injEq, Scan.mk.injEq, true_and]
      refine ⟨?_, ?_, ?_, ?_⟩
      · rw [if_neg hst]; rfl
      · simp; omega
      · by_cases e : l = .core
        · simp [e]
        · simp only [ne_eq, e, not_false_eq_true, true_and, if_true, List.countP_cons]
          by_cases e' : cl c = c <;> simp [e'] <;> omega
      · by_cases e : l = .package
        · simp only [e, true_and, if_true, List.countP_cons]
          by_cases e' : kl c = c <;> simp [e'] <;> omega
        · simp [e]
    · rw [e3 j, get?_set t c _ hlt, if_neg hst]
      show _ = (t[j]?).map (mark l st (c :: cs) j)
      by_cases e : j = c
      · subst e
        rw [if_pos rfl, hp]
        simp only [Option.map_some, mark, List.mem_cons, true_or, if_true, Option.some.injEq]
        by_cases e : j ∈ cs
        · rw [if_pos e, get_set, set_set]
        · rw [if_neg e]
      · rw [if_neg e]
        cases t[j]? with
        | none => rfl
        | some q => simp [mark, e]

/-- What the end of a parser does to the group of its processor. -/
def fin (l : Lvl) (cl kl : Nat → Nat) (st : Nat) (ds : List Nat) (g : Group) : Group :=
  { (if ¬ g.seen ∨ g.start > st then { g with start := st, leader := st } else g) with
    processorCount := (g.processorCount + ds.length) % U32
    coreCount := (g.coreCount + if l ≠ .core then ds.countP (fun j => cl j = j) else 0) % U32
    clusterCount := (g.clusterCount + if l = .package then ds.countP (fun j => kl j = j) else 0) % U32
    seen := true }

theorem parser_spec (l : Lvl) (cl kl : Nat → Nat) (i a b st : Nat) (t : List Proc) (p : Proc)
    (hp : t[i]? = some p)
    (hst : st = if (if (p.get l).seen then (p.get l).leader else U32MAX) = U32MAX
      then (List.range' a (b - a)).headD U32MAX else (p.get l).leader)
    (h : ∀ j ∈ List.range' a (b - a), j < U32MAX ∧ ∃ p, t[j]? = some p ∧ p.valid = true ∧
      (l ≠ .core → p.core.leader = cl j) ∧ (l = .package → p.cluster.leader = kl j)) :
    ∃ t' : List Proc, parser l i a b t = some (t', b - a) ∧ t'.length = t.length ∧
      ∀ j, t'[j]? = (t[j]?).map fun q =>
        let q := mark l st (List.range' a (b - a)) j q
        if j = i then q.set l (fin l cl kl st (List.range' a (b - a)) (q.get l)) else q := by
  obtain ⟨t', e1, e2, e3⟩ := scan_list l cl kl _ t
    ⟨if (p.get l).seen then (p.get l).leader else U32MAX, 0, 0, 0⟩ h
  have est : (if (if (p.get l).seen then (p.get l).leader else U32MAX) = U32MAX
      then (List.range' a (b - a)).headD U32MAX
      else (if (p.get l).seen then (p.get l).leader else U32MAX)) = st := by
    rw [hst]
    by_cases e : (p.get l).seen = true
    · rw [if_pos e]
    · rw [if_neg e, if_pos rfl, if_pos rfl]
  dsimp only at e1 e3
  rw [est] at e1 e3
  have hi := e3 i
  rw [hp, Option.map_some] at hi
  have hlt : i < t'.length := (List.getElem?_eq_some_iff.mp hi).1
  let q := mark l st (List.range' a (b - a)) i p
  refine ⟨t'.set i (q.set l (fin l cl kl st (List.range' a (b - a)) (q.get l))), ?_,
    by rw [List.length_set, e2], fun j => ?_⟩
  · unfold parser
    show Option.bind (t[i]?) _ = _
    rw [hp, Option.bind_some]
    show Option.bind (forRange (scanStep l) (b - a) a (t, _)) _ = _
    rw [forRange_list, e1, Option.bind_some]
    have hf : finishParser l i t' ⟨st, 0 + (List.range' a (b - a)).length,
          0 + (if l ≠ .core then (List.range' a (b - a)).countP (fun j => cl j = j) else 0),
          0 + (if l = .package then (List.range' a (b - a)).countP (fun j => kl j = j) else 0)⟩ =
        some (t'.set i (q.set l (fin l cl kl st (List.range' a (b - a)) (q.get l)))) := by
      unfold finishParser
      show Option.bind (t'[i]?) _ = _
      rw [hi, Option.bind_some]
      refine Eq.trans (if_pos hlt) ?_
      simp only [Nat.zero_add]
      refine congrArg (fun g => some (t'.set i (q.set l g))) ?_
      unfold fin
      by_cases e : ¬ ((q.get l).seen = true) ∨ (q.get l).start > st
      · rw [if_pos e]
      · rw [if_neg e]
    show Option.bind (finishParser l i t' _) _ = _
    rw [hf, Option.bind_some]
    show some (_, 0 + (List.range' a (b - a)).length) = _
    rw [List.length_range', Nat.zero_add]
  · rw [get?_set t' i _ hlt, e3 j]
    by_cases e : j = i
    · subst e
      rw [if_pos rfl, hp]
      simp only [Option.map_some, if_true]
      rfl
    · rw [if_neg e]
      cases t[j]? with
      | none => rfl
      | some q => simp only [Option.map_some, if_neg e]

end Verif.Riscv
