import Verif.Props.Riscv

/-!
# C48: where the links of RISC-V tables lead, for groups of any shape

`Props/Riscv.lean` proves the links right for groups that are not interleaved and shows a machine on
which they are wrong.  Here they are stated for all groups: a link leads to the group that was begun
last, so the links of a level are right exactly if no group of that level is interleaved with another.
-/

set_option autoImplicit false

namespace Verif.Props
open Spec Riscv Api Once

/-- Among the present processors up to `i` that are the least of their group, `j` is the last. -/
def LatestLeast (present : Nat → Prop) (members : Nat → List Nat) (i j : Nat) : Prop :=
  (present j ∧ (members j).head? = some j ∧ j ≤ i) ∧
  ∀ k, present k → (members k).head? = some k → k ≤ i → k ≤ j

/-- The first processor of the group that a link leads to. -/
def startOf {α : Type} (start : α → Nat) (table : List α) (link : Option Nat) : Option Nat :=
  link.bind fun c => table[c]?.map start

/-- The first processor of the core, cluster or package that a processor is linked to. -/
def linkedStart (cs : List Core) (ks : List Cluster) (gs : List Package) (p : Processor) : Lvl → Option Nat
  | .core => startOf (·.processorStart) cs p.core
  | .cluster => startOf (·.processorStart) ks p.cluster
  | .package => startOf (·.processorStart) gs p.package

section
variable {y : System} {n : Nat} {present : Nat → Prop} {mem : Lvl → Nat → List Nat}

/-- In place, the group counted last at a processor is that of the latest least processor. -/
theorem latest_leader (L : Layout y n present mem) (l : Lvl)
    {t a b : List Proc} {p : Proc} (h : InPlace y n present mem t) (ht : t = a ++ p :: b)
    (hv : p.valid = true) :
    ∃ a' q b', t = a' ++ q :: b' ∧ q.valid = true ∧ q.leads l = true ∧ q = full y mem a'.length ∧
      lead mem l a'.length = a'.length ∧ LatestLeast present (mem l) a.length a'.length ∧
      nl l (a ++ [p]) - 1 = nl l a' := by
  obtain ⟨hj, hp⟩ := inPlace_split h ht hv
  have hle := lead_le L (l := l) hj ((L.grouping l).self _ hj)
  have han : a.length < n := by rw [← h.1, ht]; simp
  have hget : ∀ k, k ≤ a.length → present k → (a ++ [p])[k]? = some (full y mem k) := by
    intro k hk hpk
    have h1 := (h.2 k (by omega)).1 hpk
    have h2 : (t.take (a.length + 1)) = a ++ [p] := by rw [ht]; rw [List.take_append]; simp [List.take_of_length_le]
    rw [← h2, List.getElem?_take_of_lt (by omega)]
    exact h1
  have hpos : 0 < (a ++ [p]).countP (fun p => p.valid && p.leads l) := by
    refine List.countP_pos_iff.mpr
      ⟨_, List.mem_of_getElem? (hget _ hle (lead_present L hj)), ?_⟩
    rw [full_valid, full_leads, lead_lead L hj]; simp
  obtain ⟨a', q, b', e1, e2, e3, e4⟩ := last_split _ _ hpos
  simp only [Bool.and_eq_true] at e2
  have ht' : t = a' ++ q :: (b' ++ b) := by
    rw [ht, show a ++ p :: b = (a ++ [p]) ++ b by simp, e1]; simp
  obtain ⟨hk, hq⟩ := inPlace_split h ht' e2.1
  have hlen : a'.length ≤ a.length := by
    have := congrArg List.length e1
    simp at this; omega
  have hlead : lead mem l a'.length = a'.length := by
    have := e2.2; rw [hq, full_leads] at this; simpa using this
  refine ⟨a', q, b' ++ b, ht', e2.1, e2.2, hq, hlead,
    ⟨⟨hk, (lead_head_iff L hk).mpr hlead, hlen⟩, fun k hpk hkl hka => ?_⟩, e4⟩
  refine Classical.byContradiction fun hgt => ?_
  have hg := hget k hka hpk
  rw [e1, List.getElem?_append_right (by omega)] at hg
  obtain ⟨m, hm⟩ : ∃ m, k - a'.length = m + 1 := ⟨k - a'.length - 1, by omega⟩
  rw [hm, List.getElem?_cons_succ] at hg
  have := e3 _ (List.mem_of_getElem? hg)
  rw [full_valid, full_leads, (lead_head_iff L hpk).mp hkl] at this
  simp at this

/-- The latest least processor is everybody's own exactly if no groups are interleaved. -/
theorem latest_own_iff (L : Layout y n present mem) (l : Lvl) :
    (∀ i, present i → LatestLeast present (mem l) i (lead mem l i)) ↔ Convex present (mem l) := by
  have same : ∀ {i k : Nat}, present i → k ∈ mem l i → present k ∧ mem l k = mem l i :=
    fun hi hk => (L.grouping l).closed _ hi _ hk
  constructor
  · intro h i j k hi hj hk hij hjk
    obtain ⟨hk', he⟩ := same hi hk
    have hlk : lead mem l k = lead mem l i := by
      show (mem l k).headD 0 = _
      rw [he]; rfl
    have h1 : lead mem l i ≤ lead mem l j := by
      refine (h j hj).2 _ (h i hi).1.1 (h i hi).1.2.1 ?_
      have := (h i hi).1.2.2
      omega
    have h2 : lead mem l j ≤ lead mem l k := by
      refine (h k hk').2 _ (h j hj).1.1 (h j hj).1.2.1 ?_
      have := (h j hj).1.2.2
      omega
    have h3 : lead mem l j = lead mem l i := by omega
    have a1 := (same hi (lead_mem L hi)).2
    have a2 := (same hj (lead_mem L hj)).2
    rw [h3] at a2
    rw [← a1, a2]
    exact (L.grouping l).self j hj
  · intro hc i hi
    have hp := lead_present L (l := l) hi
    refine ⟨⟨hp, (lead_head_iff L hp).mpr (lead_lead L hi),
      lead_le L hi ((L.grouping l).self i hi)⟩, fun k hk hkl hki => ?_⟩
    refine Classical.byContradiction fun hgt => ?_
    have a1 := (same hi (lead_mem L hi)).2
    have hm : k ∈ mem l (lead mem l i) :=
      hc _ k i hp hk (by rw [a1]; exact (L.grouping l).self i hi) (by omega) hki
    have : lead mem l k = lead mem l (lead mem l i) := by
      show (mem l k).headD 0 = _
      rw [(same hp hm).2]; rfl
    rw [lead_lead L hi, (lead_head_iff L hk).mp hkl] at this
    omega

theorem latest_unique {P : Nat → Prop} {m : Nat → List Nat} {i j k : Nat}
    (h1 : LatestLeast P m i j) (h2 : LatestLeast P m i k) : j = k :=
  Nat.le_antisymm (h2.2 j h1.1.1 h1.1.2.1 h1.1.2.2) (h1.2 k h2.1.1 h2.1.2.1 h2.1.2.2)

/-- **C48, exactly.** If the sort is stable, then for groups of any shape: every processor is linked
to the core, cluster and package whose least processor is the last one up to it that is the least of
its group; every core to the cluster and package, every cluster to the package of the last such
processor up to its own least one.  So the links of a level name the groups of the sibling lists
exactly if no group of that level is interleaved with another. -/
theorem C48_riscv_links_exact (L : Layout y n present mem)
    (w1 : Within present (mem .core) (mem .cluster)) (w2 : Within present (mem .cluster) (mem .package))
    (hq : StableSort y) (alloc : Nat → Bool) (ha : ∀ i, alloc i = true) (u : Elem .uarch) :
    ∃ st ps cs ks gs, init y alloc = some st ∧ RiscvPublished (applyAll st (.initial u)) ps cs ks gs ∧
    (∀ i, present i ↔ ∃ p ∈ ps, p.linuxId = i) ∧
    (∀ p ∈ ps, ∀ l, ∃ j, linkedStart cs ks gs p l = some j ∧
      LatestLeast present (mem l) p.linuxId j) ∧
    (∀ q ∈ cs, (∃ j, startOf (·.processorStart) ks q.cluster = some j ∧
        LatestLeast present (mem .cluster) q.processorStart j) ∧
      ∃ j, startOf (·.processorStart) gs q.package = some j ∧
        LatestLeast present (mem .package) q.processorStart j) ∧
    (∀ q ∈ ks, ∃ j, startOf (·.processorStart) gs q.package = some j ∧
        LatestLeast present (mem .package) q.processorStart j) ∧
    ∀ l, (∀ p ∈ ps, linkedStart cs ks gs p l = (mem l p.linuxId).head?) ↔ Convex present (mem l) := by
  classical
  obtain ⟨hn0, _, hn, t, h1, h2, h3⟩ := gather_spec L
  have hin : InPlace y n present mem t := ⟨h2, h3⟩
  have O := inPlace_ordered hn hin
  have hg := ordered_good L hn w1 w2 O (inPlace_first L hn)
  obtain ⟨s, e1, I⟩ := transfer_spec hg
  have hne : (List.range n).filter (present ·) ≠ [] := by
    obtain ⟨rs, _, _, _, r4, ⟨r, hr, hr'⟩, r6⟩ := L.list
    have : present r.2 := (r6 r.2).mpr (mem_cover.mpr ⟨r, hr, (r4 r hr).1, Nat.le_refl _⟩)
    intro e
    have := (O.mem_iff r.2).mpr this
    rw [e] at this
    cases this
  have g1 := (tables L O I).1
  have hids : ∀ i, present i ↔ ∃ p ∈ s.processors, p.linuxId = i := by
    intro i
    rw [← O.mem_iff i, ← g1, List.mem_map]
  have hcore : ∀ a p b, t = a ++ p :: b → p.valid = true → ∃ j,
      startOf (·.processorStart) s.cores (some (nl .core (a ++ [p]) - 1)) = some j ∧
        LatestLeast present (mem .core) p.linuxId j := by
    intro a p b ht hv
    obtain ⟨_, hp⟩ := inPlace_split hin ht hv
    obtain ⟨a', q, b', k1, k2, k3, k4, k5, k6, k7⟩ := latest_leader L .core hin ht hv
    refine ⟨a'.length, ?_, by rw [hp]; exact k6⟩
    unfold startOf
    rw [Option.bind_some, k7, I.core a' q b' k1 k2 k3, k4]
    exact congrArg some k5
  have hcluster : ∀ a p b, t = a ++ p :: b → p.valid = true → ∃ j,
      startOf (·.processorStart) s.clusters (some (nl .cluster (a ++ [p]) - 1)) = some j ∧
        LatestLeast present (mem .cluster) p.linuxId j := by
    intro a p b ht hv
    obtain ⟨_, hp⟩ := inPlace_split hin ht hv
    obtain ⟨a', q, b', k1, k2, k3, k4, k5, k6, k7⟩ := latest_leader L .cluster hin ht hv
    refine ⟨a'.length, ?_, by rw [hp]; exact k6⟩
    unfold startOf
    rw [Option.bind_some, k7, I.cluster a' q b' k1 k2 k3, k4]
    exact congrArg some k5
  have hpackage : ∀ a p b, t = a ++ p :: b → p.valid = true → ∃ j,
      startOf (·.processorStart) s.packages (some (nl .package (a ++ [p]) - 1)) = some j ∧
        LatestLeast present (mem .package) p.linuxId j := by
    intro a p b ht hv
    obtain ⟨_, hp⟩ := inPlace_split hin ht hv
    obtain ⟨a', q, b', k1, k2, k3, k4, k5, k6, k7⟩ := latest_leader L .package hin ht hv
    refine ⟨a'.length, ?_, by rw [hp]; exact k6⟩
    unfold startOf
    rw [Option.bind_some, k7, I.package a' q b' k1 k2 k3, k4]
    exact congrArg some k5
  have find : ∀ (P : Proc → Bool) (k : Nat), k < t.countP P →
      ∃ a p b, t = a ++ p :: b ∧ P p = true ∧ a.countP P = k := by
    intro P k hk
    rw [List.countP_eq_length_filter] at hk
    obtain ⟨a, b, h1, h2, _, h4⟩ := filter_get P t k _ (List.getElem?_eq_getElem hk)
    exact ⟨a, _, b, h1, h2, h4⟩
  have hps : ∀ p ∈ s.processors, ∀ l, ∃ j, linkedStart s.cores s.clusters s.packages p l = some j ∧
      LatestLeast present (mem l) p.linuxId j := by
    intro p hp
    obtain ⟨k, hk⟩ := List.getElem?_of_mem hp
    have hlt := (List.getElem?_eq_some_iff.mp hk).1
    rw [I.pLen] at hlt
    obtain ⟨a, p', b, ht, hv, he⟩ := find _ k hlt
    have he : nv a = k := he
    have hp := (I.processor a p' b ht hv).1
    rw [he, hk] at hp
    cases Option.some.inj hp
    intro l
    cases l with
    | core => exact hcore a p' b ht hv
    | cluster => exact hcluster a p' b ht hv
    | package => exact hpackage a p' b ht hv
  refine ⟨commit t.length (counts t) s, s.processors, s.cores, s.clusters, s.packages, ?_,
    riscv_published hg (nv_pos O hne) I t.length u, hids, hps, fun q hm => ?_, fun q hm => ?_,
    fun l => ?_⟩
  · rw [init_some ha h1, hq t (inPlace_uarch hin), e1]; rfl
  · obtain ⟨k, hk⟩ := List.getElem?_of_mem hm
    have hlt := (List.getElem?_eq_some_iff.mp hk).1
    rw [I.cLen] at hlt
    obtain ⟨a, p', b, ht, hv, he⟩ := find _ k hlt
    simp only [Bool.and_eq_true] at hv
    have he : nl .core a = k := he
    have hp := I.core a p' b ht hv.1 hv.2
    rw [he, hk] at hp
    cases Option.some.inj hp
    obtain ⟨hj, hp'⟩ := inPlace_split hin ht hv.1
    have hl : p'.core.start = p'.linuxId := by
      have := hv.2
      rw [hp', full_leads] at this
      rw [hp']
      exact of_decide_eq_true this
    obtain ⟨x2, g3, g4⟩ := hcluster a p' b ht hv.1
    obtain ⟨x3, g5, g6⟩ := hpackage a p' b ht hv.1
    rw [← hl] at g4 g6
    exact ⟨⟨x2, g3, g4⟩, x3, g5, g6⟩
  · obtain ⟨k, hk⟩ := List.getElem?_of_mem hm
    have hlt := (List.getElem?_eq_some_iff.mp hk).1
    rw [I.kLen] at hlt
    obtain ⟨a, p', b, ht, hv, he⟩ := find _ k hlt
    simp only [Bool.and_eq_true] at hv
    have he : nl .cluster a = k := he
    have hp := I.cluster a p' b ht hv.1 hv.2
    rw [he, hk] at hp
    cases Option.some.inj hp
    obtain ⟨hj, hp'⟩ := inPlace_split hin ht hv.1
    have hl : p'.cluster.start = p'.linuxId := by
      have := hv.2
      rw [hp', full_leads] at this
      rw [hp']
      exact of_decide_eq_true this
    obtain ⟨x3, g5, g6⟩ := hpackage a p' b ht hv.1
    rw [← hl] at g6
    exact ⟨x3, g5, g6⟩
  · rw [← latest_own_iff L l]
    constructor
    · intro h i hi
      obtain ⟨p, hp, rfl⟩ := (hids i).mp hi
      obtain ⟨j, k1, k2⟩ := hps p hp l
      rw [h p hp, lead_head L hi] at k1
      cases Option.some.inj k1
      exact k2
    · intro h p hp
      have hi := (hids p.linuxId).mpr ⟨p, hp, rfl⟩
      obtain ⟨j, k1, k2⟩ := hps p hp l
      rw [k1, lead_head L hi, latest_unique k2 (h _ hi)]

/-- **C48 (broken), in general.** On every machine with two interleaved groups of a level, some
processor is linked to the wrong group of that level. -/
theorem C48_violated_always (L : Layout y n present mem)
    (w1 : Within present (mem .core) (mem .cluster)) (w2 : Within present (mem .cluster) (mem .package))
    (hq : StableSort y) (alloc : Nat → Bool) (ha : ∀ i, alloc i = true) (u : Elem .uarch)
    (l : Lvl) (i j k : Nat) (hi : present i) (hj : present j) (hk : k ∈ mem l i) (hij : i < j)
    (hjk : j < k) (hout : j ∉ mem l i) :
    ∃ st ps cs ks gs, init y alloc = some st ∧ RiscvPublished (applyAll st (.initial u)) ps cs ks gs ∧
    ∃ p ∈ ps, ∃ x, linkedStart cs ks gs p l = some x ∧ (mem l p.linuxId).head? ≠ some x := by
  obtain ⟨st, ps, cs, ks, gs, h1, h2, h3, h4, h5, h6, h7⟩ :=
    C48_riscv_links_exact L w1 w2 hq alloc ha u
  refine ⟨st, ps, cs, ks, gs, h1, h2, Classical.byContradiction fun hno => ?_⟩
  have hc := (h7 l).mp fun p hp => by
    obtain ⟨x, hx, -⟩ := h4 p hp l
    rw [hx]
    exact Classical.byContradiction fun he => hno ⟨p, hp, x, hx, fun e => he e.symm⟩
  exact hout (hc i j k hi hj hk (by omega) (by omega))

end

/-! ## Example -/

/-- The groups of the machine with threads 0, 2 and 1, 3. -/
def interleavedMembers : Lvl → Nat → List Nat
  | .core, i => [i % 2, i % 2 + 2]
  | _, _ => [0, 1, 2, 3]

/-- That machine meets the hypotheses of `C48_riscv_links_exact` and, with the processors 0, 1 and 2,
of `C48_violated_always`. -/
example : Layout interleaved 4 (· < 4) interleavedMembers ∧
    Within (· < 4) (interleavedMembers .core) (interleavedMembers .cluster) ∧
    Within (· < 4) (interleavedMembers .cluster) (interleavedMembers .package) ∧
    StableSort interleaved ∧
    2 ∈ interleavedMembers .core 0 ∧ 1 ∉ interleavedMembers .core 0 := by
  have d : ∀ rs : List (Nat × Nat), (∀ r ∈ rs, r.1 < 10 ∧ r.2 < 10) →
      some (digits rs) = some (printCpuList rs) := fun rs h => congrArg some (digits_eq rs h)
  have ne : (fullSched 100).NoError := fun _ h => by cases h
  have four : ∀ {i : Nat}, i < 4 → i = 0 ∨ i = 1 ∨ i = 2 ∨ i = 3 := fun h => by omega
  refine ⟨⟨⟨63, congrArg some kernelMax_eq, ne, by decide, by decide⟩,
    ⟨[(0, 3)], d [(0, 3)] (by decide), ne, by decide, by decide, by decide, fun i => ?_⟩, fun l => ?_,
    fun l i hi => ?_⟩, ?_, fun i _ j hj => hj, fun t _ => rfl, by decide, by decide⟩
  · show _ ↔ i ∈ [0, 1, 2, 3]
    simp only [List.mem_cons, List.not_mem_nil, or_false]
    omega
  · refine ⟨?_, ?_, ?_⟩
    · intro i hi
      rcases four hi with rfl | rfl | rfl | rfl <;> cases l <;> decide
    · intro i hi
      rcases four hi with rfl | rfl | rfl | rfl <;> cases l <;> decide
    · intro i hi
      rcases four hi with rfl | rfl | rfl | rfl <;> cases l <;> decide
  · cases l with
    | core =>
      rcases four hi with rfl | rfl | rfl | rfl
      · exact ⟨[(0, 0), (2, 2)], d [(0, 0), (2, 2)] (by decide), ne, by decide, by decide, rfl⟩
      · exact ⟨[(1, 1), (3, 3)], d [(1, 1), (3, 3)] (by decide), ne, by decide, by decide, rfl⟩
      · exact ⟨[(0, 0), (2, 2)], d [(0, 0), (2, 2)] (by decide), ne, by decide, by decide, rfl⟩
      · exact ⟨[(1, 1), (3, 3)], d [(1, 1), (3, 3)] (by decide), ne, by decide, by decide, rfl⟩
    | cluster => exact ⟨[(0, 3)], d [(0, 3)] (by decide), ne, by decide, by decide, rfl⟩
    | package => exact ⟨[(0, 3)], d [(0, 3)] (by decide), ne, by decide, by decide, rfl⟩
  · intro i hi
    rcases four hi with rfl | rfl | rfl | rfl <;> decide

end Verif.Props
