import Verif.Proof.RiscvScan
import Verif.Proof.Decimal
import Verif.Props.CpuList

/-!
# Reading the lists of RISC-V processors
-/

set_option autoImplicit false

namespace Verif.Riscv
open Spec Processors
open Platform (put)

/-- The group that the list `cs` describes. -/
def grp (l : Lvl) (cl kl : Nat → Nat) (cs : List Nat) : Group :=
  ⟨true, cs.headD 0, cs.headD 0, cs.length, if l ≠ .core then cs.countP (fun j => cl j = j) else 0,
    if l = .package then cs.countP (fun j => kl j = j) else 0⟩

/-- The table entry after the numbers `cs` were listed for processor `i`. -/
def ent (l : Lvl) (cl kl : Nat → Nat) (i : Nat) (cs : List Nat) (j : Nat) (q : Proc) : Proc :=
  let q := mark l (cs.headD 0) cs j q
  if j = i then q.set l (grp l cl kl cs) else q

/-- What the parsers read of other entries. -/
def Reads (l : Lvl) (cl kl : Nat → Nat) (j : Nat) (q : Proc) : Prop :=
  q.valid = true ∧ (l ≠ .core → q.core.leader = cl j) ∧ (l = .package → q.cluster.leader = kl j)

theorem reads_set {l : Lvl} {cl kl : Nat → Nat} {j : Nat} {q : Proc} (h : Reads l cl kl j q) (g : Group) :
    Reads l cl kl j (q.set l g) := by
  obtain ⟨h1, h2, h3⟩ := h
  refine ⟨by rw [set_valid]; exact h1, fun e => ?_, fun e => ?_⟩
  · rw [← h2 e]; cases l with
    | core => exact absurd rfl e
    | _ => rfl
  · subst e; exact h3 rfl

theorem reads_mark {l : Lvl} {cl kl : Nat → Nat} {j : Nat} {q : Proc} (h : Reads l cl kl j q)
    (st : Nat) (cs : List Nat) : Reads l cl kl j (mark l st cs j q) := by
  unfold mark
  by_cases e : j ∈ cs
  · rw [if_pos e]; exact reads_set h _
  · rw [if_neg e]; exact h

theorem reads_ent {l : Lvl} {cl kl : Nat → Nat} {j : Nat} {q : Proc} (h : Reads l cl kl j q)
    (i : Nat) (cs : List Nat) : Reads l cl kl j (ent l cl kl i cs j q) := by
  unfold ent
  by_cases e : j = i
  · simp only [if_pos e]; exact reads_set (reads_mark h _ _) _
  · simp only [if_neg e]; exact reads_mark h _ _

theorem mark_mark (l : Lvl) (st : Nat) (cs ds : List Nat) (j : Nat) (q : Proc) :
    mark l st ds j (mark l st cs j q) = mark l st (cs ++ ds) j q := by
  unfold mark
  by_cases e : j ∈ cs <;> by_cases e' : j ∈ ds <;> simp [e, e', get_set, set_set]

theorem mark_set (l : Lvl) (st : Nat) (cs : List Nat) (j : Nat) (q : Proc) (g : Group)
    (hg : g.leader = st) : mark l st cs j (q.set l g) = q.set l g := by
  unfold mark
  by_cases e : j ∈ cs
  · rw [if_pos e, get_set, set_set]; subst hg; rfl
  · rw [if_neg e]

theorem set_mark (l : Lvl) (st : Nat) (cs : List Nat) (j : Nat) (q : Proc) (g : Group) :
    (mark l st cs j q).set l g = q.set l g := by
  unfold mark
  by_cases e : j ∈ cs
  · rw [if_pos e, set_set]
  · rw [if_neg e]

/-- The first range of a list. -/
theorem parser_first (l : Lvl) (cl kl : Nat → Nat) (i a b : Nat) (t : List Proc) (p : Proc)
    (hp : t[i]? = some p) (hz : (p.get l).seen = false ∧ (p.get l).processorCount = 0 ∧
      (p.get l).coreCount = 0 ∧ (p.get l).clusterCount = 0)
    (hab : a < b) (hb : b ≤ U32MAX)
    (h : ∀ j ∈ List.range' a (b - a), ∃ p, t[j]? = some p ∧ Reads l cl kl j p) :
    ∃ t' : List Proc, parser l i a b t = some (t', b - a) ∧ t'.length = t.length ∧
      ∀ j, t'[j]? = (t[j]?).map (ent l cl kl i (List.range' a (b - a)) j) := by
  have hd : (List.range' a (b - a)).headD U32MAX = a := by
    rw [show b - a = (b - a - 1) + 1 by omega, List.range'_succ]; rfl
  have hd0 : (List.range' a (b - a)).headD 0 = a := by
    rw [show b - a = (b - a - 1) + 1 by omega, List.range'_succ]; rfl
  obtain ⟨t', e1, e2, e3⟩ := parser_spec l cl kl i a b a t p hp
    (by rw [hd]; simp [hz.1])
    (fun j hj => ⟨by have := List.mem_range'_1.mp hj; omega, h j hj⟩)
  refine ⟨t', e1, e2, fun j => ?_⟩
  rw [e3 j]
  unfold ent
  rw [hd0]
  by_cases e : j = i
  · subst e
    rw [hp]
    simp only [Option.map_some, if_true, Option.some.injEq]
    refine congrArg _ ?_
    have hs : ∀ g : Group, g.seen = false → g.processorCount = 0 → g.coreCount = 0 →
        g.clusterCount = 0 → fin l cl kl a (List.range' a (b - a)) g =
          grp l cl kl (List.range' a (b - a)) := by
      intro g g1 g2 g3 g4
      unfold fin grp
      have c1 : (List.range' a (b - a)).countP (fun j => cl j = j) ≤ b - a := by
        have := List.countP_le_length (p := fun j => decide (cl j = j)) (l := List.range' a (b - a))
        rwa [List.length_range'] at this
      have c2 : (List.range' a (b - a)).countP (fun j => kl j = j) ≤ b - a := by
        have := List.countP_le_length (p := fun j => decide (kl j = j)) (l := List.range' a (b - a))
        rwa [List.length_range'] at this
      rw [if_pos (.inl (by rw [g1]; decide)), g2, g3, g4, hd0]
      simp only [Group.mk.injEq, true_and, Nat.zero_add, List.length_range']
      refine ⟨Nat.mod_eq_of_lt (by omega), ?_, ?_⟩
      · by_cases e : l = .core
        · simp [e]
        · rw [if_pos e]; exact Nat.mod_eq_of_lt (by omega)
      · by_cases e : l = .package
        · rw [if_pos e]; exact Nat.mod_eq_of_lt (by omega)
        · simp [e]
    refine hs _ ?_ ?_ ?_ ?_ <;> unfold mark <;> by_cases e : j ∈ List.range' a (b - a) <;>
      simp [e, get_set, hz]
  · simp [if_neg e]

/-- Every further range. -/
theorem parser_next (l : Lvl) (cl kl : Nat → Nat) (i a b : Nat) (t0 t : List Proc) (cs : List Nat)
    (hi : i < t0.length) (hcs : cs ≠ []) (hm : cs.headD 0 < U32MAX)
    (ht : ∀ j : Nat, t[j]? = (t0[j]?).map (ent l cl kl i cs j))
    (hb : b ≤ U32MAX) (hlen : cs.length + (b - a) < U32)
    (h : ∀ j ∈ List.range' a (b - a), ∃ p, t0[j]? = some p ∧ Reads l cl kl j p) :
    ∃ t' : List Proc, parser l i a b t = some (t', b - a) ∧ t'.length = t.length ∧
      ∀ j, t'[j]? = (t0[j]?).map (ent l cl kl i (cs ++ List.range' a (b - a)) j) := by
  obtain ⟨p0, hp0⟩ : ∃ p, t0[i]? = some p := ⟨_, List.getElem?_eq_getElem hi⟩
  have hp : t[i]? = some ((mark l (cs.headD 0) cs i p0).set l (grp l cl kl cs)) := by
    rw [ht i, hp0]
    simp only [Option.map_some, ent, if_true]
  have hd : (cs ++ List.range' a (b - a)).headD 0 = cs.headD 0 := by
    cases cs with
    | nil => contradiction
    | cons c cs => rfl
  obtain ⟨t', e1, e2, e3⟩ := parser_spec l cl kl i a b (cs.headD 0) t _ hp
    (by
      rw [get_set, if_neg]
      · rfl
      · show ¬ ((if true = true then cs.headD 0 else U32MAX) = U32MAX)
        rw [if_pos rfl]; omega)
    (fun j hj => ⟨by have := List.mem_range'_1.mp hj; omega, by
      obtain ⟨q, g1, g2⟩ := h j hj
      exact ⟨ent l cl kl i cs j q, by rw [ht j, g1]; rfl, reads_ent g2 i cs⟩⟩)
  refine ⟨t', e1, e2, fun j => ?_⟩
  rw [e3 j, ht j]
  by_cases e : j = i
  · subst e
    rw [hp0]
    simp only [Option.map_some, if_true, Option.some.injEq, ent]
    rw [mark_set l (cs.headD 0) _ _ _ (grp l cl kl cs) rfl, get_set, set_set, set_mark, set_mark]
    refine congrArg _ ?_
    unfold fin grp
    have c1 : cs.countP (fun j => cl j = j) + (List.range' a (b - a)).countP (fun j => cl j = j) ≤
        cs.length + (b - a) := by
      rw [← List.countP_append]
      refine Nat.le_trans List.countP_le_length ?_
      rw [List.length_append, List.length_range']; exact Nat.le_refl _
    have c2 : cs.countP (fun j => kl j = j) + (List.range' a (b - a)).countP (fun j => kl j = j) ≤
        cs.length + (b - a) := by
      rw [← List.countP_append]
      refine Nat.le_trans List.countP_le_length ?_
      rw [List.length_append, List.length_range']; exact Nat.le_refl _
    rw [if_neg (by simp)]
    simp only [Group.mk.injEq, true_and, List.length_append, List.length_range', hd,
      List.countP_append]
    refine ⟨Nat.mod_eq_of_lt (by omega), ?_, ?_⟩
    · by_cases e : l = .core
      · simp [e]
      · rw [if_pos e, if_pos e, if_pos e]; exact Nat.mod_eq_of_lt (by omega)
    · by_cases e : l = .package
      · rw [if_pos e, if_pos e, if_pos e]; exact Nat.mod_eq_of_lt (by omega)
      · simp [e]
  · cases hq : t0[j]? with
    | none => rfl
    | some q =>
      simp only [Option.map_some, if_neg e, ent, Option.some.injEq]
      rw [mark_mark, hd]

theorem cover_cons (r : Nat × Nat) (rs : List (Nat × Nat)) :
    cover (r :: rs) = List.range' r.1 (r.2 + 1 - r.1) ++ cover rs := rfl

theorem callback_some {l : Lvl} {t t' : List Proc} {i a b n : Nat} (h : parser l i a b t = some (t', n))
    (hn : 0 < n) : callback l (some t) i a b = (some t', true) := by
  unfold callback
  rw [Option.bind_some, h]
  simp only [Prod.mk.injEq, true_and, decide_eq_true_eq]
  exact .inr (by omega)

/-- The ranges after the first. -/
theorem run_next (l : Lvl) (cl kl : Nat → Nat) (i : Nat) (t0 : List Proc) (hi : i < t0.length)
    (hn : t0.length ≤ U32MAX) : ∀ (rs : List (Nat × Nat)) (cs : List Nat) (t : List Proc),
    cs ≠ [] → cs.headD 0 < U32MAX → (∀ j : Nat, t[j]? = (t0[j]?).map (ent l cl kl i cs j)) →
    (∀ r ∈ rs, r.1 ≤ r.2 ∧ r.2 < t0.length) → cs.length + (cover rs).length < U32 →
    (∀ j ∈ cover rs, ∃ p, t0[j]? = some p ∧ Reads l cl kl j p) →
    ∃ t', runEntries (siblingsCallback t0.length i (callback l)) (some t) (rs.map some) =
      (some t', true) ∧ ∀ j : Nat, t'[j]? = (t0[j]?).map (ent l cl kl i (cs ++ cover rs) j)
  | [], cs, t, _, _, ht, _, _, _ => ⟨t, rfl, by
      intro j
      show _ = (t0[j]?).map (ent l cl kl i (cs ++ []) j)
      rw [List.append_nil]; exact ht j⟩
  | r :: rs, cs, t, hcs, hm, ht, hrs, hlen, h => by
    have hr := hrs r (by simp)
    rw [cover_cons, List.length_append, List.length_range'] at hlen
    obtain ⟨t1, e1, e2, e3⟩ := parser_next l cl kl i r.1 (r.2 + 1) t0 t cs hi hcs hm ht (by omega)
      (by omega) (fun j hj => h j (by rw [cover_cons]; simp only [List.mem_append]; exact .inl hj))
    have hd : (cs ++ List.range' r.1 (r.2 + 1 - r.1)).headD 0 = cs.headD 0 := by
      cases cs with
      | nil => contradiction
      | cons c cs => rfl
    obtain ⟨t2, f1, f2⟩ := run_next l cl kl i t0 hi hn rs (cs ++ List.range' r.1 (r.2 + 1 - r.1)) t1
      (by simp [hcs]) (by rw [hd]; exact hm) e3 (fun r' hr' => hrs r' (by simp [hr']))
      (by rw [List.length_append, List.length_range']; omega)
      (fun j hj => h j (by rw [cover_cons]; simp only [List.mem_append]; exact .inr hj))
    refine ⟨t2, ?_, fun j => by rw [f2 j, cover_cons, List.append_assoc]⟩
    rw [List.map_cons, runEntries]
    have hcall : siblingsCallback t0.length i (callback l) (some t) r.1 ((r.2 + 1) % U32) =
        (some t1, true) := by
      unfold siblingsCallback
      rw [Nat.mod_eq_of_lt (by omega), if_neg (by omega)]
      exact callback_some e1 (by omega)
    rw [hcall]
    dsimp only
    rw [f1]
    rfl

/-- A whole list. -/
theorem run_first (l : Lvl) (cl kl : Nat → Nat) (i : Nat) (t0 : List Proc) (p : Proc)
    (hp : t0[i]? = some p) (hz : (p.get l).seen = false ∧ (p.get l).processorCount = 0 ∧
      (p.get l).coreCount = 0 ∧ (p.get l).clusterCount = 0)
    (hn : t0.length ≤ U32MAX) (rs : List (Nat × Nat)) (hne : rs ≠ [])
    (hrs : ∀ r ∈ rs, r.1 ≤ r.2 ∧ r.2 < t0.length) (hlen : (cover rs).length < U32)
    (h : ∀ j ∈ cover rs, ∃ p, t0[j]? = some p ∧ Reads l cl kl j p) :
    ∃ t', runEntries (siblingsCallback t0.length i (callback l)) (some t0) (rs.map some) =
      (some t', true) ∧ ∀ j : Nat, t'[j]? = (t0[j]?).map (ent l cl kl i (cover rs) j) := by
  have hi : i < t0.length := (List.getElem?_eq_some_iff.mp hp).1
  cases rs with
  | nil => contradiction
  | cons r rs =>
    have hr := hrs r (by simp)
    rw [cover_cons, List.length_append, List.length_range'] at hlen
    obtain ⟨t1, e1, e2, e3⟩ := parser_first l cl kl i r.1 (r.2 + 1) t0 p hp hz (by omega) (by omega)
      (fun j hj => h j (by rw [cover_cons]; simp only [List.mem_append]; exact .inl hj))
    have hd : (List.range' r.1 (r.2 + 1 - r.1)).headD 0 = r.1 := by
      rw [show r.2 + 1 - r.1 = (r.2 - r.1) + 1 by omega, List.range'_succ]; rfl
    obtain ⟨t2, f1, f2⟩ := run_next l cl kl i t0 hi hn rs (List.range' r.1 (r.2 + 1 - r.1)) t1
      (by
        rw [show r.2 + 1 - r.1 = (r.2 - r.1) + 1 by omega, List.range'_succ]; simp)
      (by rw [hd]; omega) e3 (fun r' hr' => hrs r' (by simp [hr']))
      (by rw [List.length_range']; omega)
      (fun j hj => h j (by rw [cover_cons]; simp only [List.mem_append]; exact .inr hj))
    refine ⟨t2, ?_, fun j => by rw [f2 j, cover_cons]⟩
    rw [List.map_cons, runEntries]
    have hcall : siblingsCallback t0.length i (callback l) (some t0) r.1 ((r.2 + 1) % U32) =
        (some t1, true) := by
      unfold siblingsCallback
      rw [Nat.mod_eq_of_lt (by omega), if_neg (by omega)]
      exact callback_some e1 (by omega)
    rw [hcall]
    dsimp only
    rw [f1]
    rfl

theorem mem_cover_last {r : Nat × Nat} {rs : List (Nat × Nat)} (h : r ∈ rs) (hr : r.1 ≤ r.2) :
    r.2 ∈ cover rs :=
  List.mem_flatMap.mpr ⟨r, h, List.mem_range'_1.mpr (by omega)⟩

theorem mem_cover {i : Nat} {rs : List (Nat × Nat)} :
    i ∈ cover rs ↔ ∃ r ∈ rs, r.1 ≤ i ∧ i ≤ r.2 := by
  unfold cover
  rw [List.mem_flatMap]
  refine ⟨fun ⟨r, h1, h2⟩ => ⟨r, h1, ?_⟩, fun ⟨r, h1, h2⟩ => ⟨r, h1, List.mem_range'_1.mpr (by omega)⟩⟩
  have := List.mem_range'_1.mp h2
  omega

/-- One list file of a processor. -/
theorem readGroup_spec (y : System) (l : Lvl) (cl kl : Nat → Nat) (i : Nat) (t0 : List Proc) (p : Proc)
    (hp : t0[i]? = some p) (hz : (p.get l).seen = false ∧ (p.get l).processorCount = 0 ∧
      (p.get l).coreCount = 0 ∧ (p.get l).clusterCount = 0)
    (hn : t0.length ≤ U32MAX) (rs : List (Nat × Nat)) (hne : rs ≠ [])
    (hf : (y.cpus l i).1 = some (printCpuList rs)) (hs : (y.cpus l i).2.NoError)
    (hrs : ∀ r ∈ rs, r.1 ≤ r.2) (hlen : (cover rs).length < U32)
    (h : ∀ j ∈ cover rs, ∃ p, t0[j]? = some p ∧ Reads l cl kl j p) :
    ∃ t', readGroup y l i t0 = some (some t') ∧
      ∀ j : Nat, t'[j]? = (t0[j]?).map (ent l cl kl i (cover rs) j) := by
  have hrs' : ∀ r ∈ rs, r.1 ≤ r.2 ∧ r.2 < t0.length := by
    intro r hr
    obtain ⟨q, hq, _⟩ := h _ (mem_cover_last hr (hrs r hr))
    exact ⟨hrs r hr, (List.getElem?_eq_some_iff.mp hq).1⟩
  obtain ⟨t', e1, e2⟩ := run_first l cl kl i t0 p hp hz hn rs hne hrs' hlen h
  refine ⟨t', ?_, e2⟩
  obtain ⟨es, he1, he2, he3, he4, he5⟩ := printed_entries rs hne
    (fun r hr => ⟨(hrs r hr), by have := (hrs' r hr).2; omega⟩)
  unfold readGroup detectSiblings
  rw [hf, he1, Props.C01_cpulist_independent_of_reads _ (some t0) _ hs es (rs.map some) he2 he3 he4
    ⟨fun e he => by have := he5 e (List.dropLast_subset _ he); omega,
     fun e he => by have := he5 e (List.mem_of_getLast? he); omega⟩, e1]
  rfl

end Verif.Riscv
