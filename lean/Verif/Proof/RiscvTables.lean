import Verif.Proof.RiscvTransfer
import Verif.Proof.RiscvGather

/-!
# The tables that RISC-V initialization publishes
-/

set_option autoImplicit false

namespace Verif.Riscv
open Spec

/-! ### Lists -/

theorem filter_get {α : Type} (P : α → Bool) : ∀ (xs : List α) (c : Nat) (p : α),
    (xs.filter P)[c]? = some p → ∃ a b, xs = a ++ p :: b ∧ P p = true ∧ xs.countP P ≥ c + 1 ∧
      a.countP P = c := by
  intro xs
  induction xs with
  | nil => intro c p h; simp at h
  | cons x xs ih =>
    intro c p h
    by_cases e : P x = true
    · rw [List.filter_cons_of_pos e] at h
      cases c with
      | zero =>
        simp only [List.getElem?_cons_zero, Option.some.injEq] at h
        subst h
        exact ⟨[], xs, rfl, e, by rw [List.countP_cons_of_pos e]; omega, rfl⟩
      | succ c =>
        rw [List.getElem?_cons_succ] at h
        obtain ⟨a, b, h1, h2, h3, h4⟩ := ih c p h
        refine ⟨x :: a, b, by rw [h1]; rfl, h2, ?_, ?_⟩
        · rw [List.countP_cons_of_pos e]; omega
        · rw [List.countP_cons_of_pos e, h4]
    · rw [List.filter_cons_of_neg e] at h
      obtain ⟨a, b, h1, h2, h3, h4⟩ := ih c p h
      refine ⟨x :: a, b, by rw [h1]; rfl, h2, ?_, ?_⟩
      · rw [List.countP_cons_of_neg e]; exact h3
      · rw [List.countP_cons_of_neg e, h4]

theorem last_split {α : Type} (P : α → Bool) (xs : List α) (h : 0 < xs.countP P) :
    ∃ a q b, xs = a ++ q :: b ∧ P q = true ∧ (∀ r ∈ b, P r = false) ∧
      xs.countP P - 1 = a.countP P := by
  induction xs with
  | nil => simp at h
  | cons x xs ih =>
    by_cases e : 0 < xs.countP P
    · obtain ⟨a, q, b, h1, h2, h3, h4⟩ := ih e
      refine ⟨x :: a, q, b, by rw [h1]; rfl, h2, h3, ?_⟩
      rw [List.countP_cons, List.countP_cons]
      omega
    · have hz : xs.countP P = 0 := by omega
      have hall := List.countP_eq_zero.mp hz
      by_cases hx : P x = true
      · refine ⟨[], x, xs, rfl, hx, fun r hr => by simpa using hall r hr, ?_⟩
        rw [List.countP_cons_of_pos hx, hz]; rfl
      · rw [List.countP_cons_of_neg hx] at h; omega

/-! ### Leaders -/

section
variable {y : System} {n : Nat} {present : Nat → Prop} {mem : Lvl → Nat → List Nat}

theorem lead_head (L : Layout y n present mem) {l : Lvl} {j : Nat} (hj : present j) :
    (mem l j).head? = some (lead mem l j) := by
  unfold lead
  have := (L.grouping l).self j hj
  cases h : mem l j with
  | nil => rw [h] at this; cases this
  | cons a as => rfl

theorem lead_mem (L : Layout y n present mem) {l : Lvl} {j : Nat} (hj : present j) :
    lead mem l j ∈ mem l j := List.mem_of_head? (lead_head L hj)

theorem lead_le (L : Layout y n present mem) {l : Lvl} {j k : Nat} (hj : present j)
    (hk : k ∈ mem l j) : lead mem l j ≤ k := by
  have h := lead_head L (l := l) hj
  have ha := (L.grouping l).ascending j hj
  cases e : mem l j with
  | nil => rw [e] at h; cases h
  | cons a as =>
    rw [e] at h ha hk
    cases h
    rcases List.mem_cons.mp hk with rfl | hk
    · omega
    · have := (List.pairwise_cons.mp ha).1 k hk; omega

theorem lead_present (L : Layout y n present mem) {l : Lvl} {j : Nat} (hj : present j) :
    present (lead mem l j) := ((L.grouping l).closed j hj _ (lead_mem L hj)).1

theorem lead_lead (L : Layout y n present mem) {l : Lvl} {j : Nat} (hj : present j) :
    lead mem l (lead mem l j) = lead mem l j := by
  have := ((L.grouping l).closed j hj _ (lead_mem L hj)).2
  show (mem l (lead mem l j)).headD 0 = _
  rw [this]; rfl

theorem full_leads (y : System) (mem : Lvl → Nat → List Nat) (l : Lvl) (j : Nat) :
    (full y mem j).leads l = decide (lead mem l j = j) := by
  cases l <;> rfl

theorem full_valid (y : System) (mem : Lvl → Nat → List Nat) (j : Nat) :
    (full y mem j).valid = true := rfl
theorem full_id (y : System) (mem : Lvl → Nat → List Nat) (j : Nat) :
    (full y mem j).linuxId = j := rfl
theorem full_uarch (y : System) (mem : Lvl → Nat → List Nat) (j : Nat) :
    (full y mem j).uarch = 0 := by
  show (hwprobe (y.hwprobe j)).2 = 0
  unfold hwprobe
  cases y.hwprobe j <;> rfl

/-- A leader of an outer group leads the inner one. -/
theorem leader_inner (L : Layout y n present mem) {l l' : Lvl} (hw : Within present (mem l) (mem l'))
    {j : Nat} (hj : present j) (h : lead mem l' j = j) : lead mem l j = j := by
  have h1 := lead_le L (l := l) hj ((L.grouping l).self j hj)
  have h2 := lead_le L (l := l') hj (hw j hj _ (lead_mem L (l := l) hj))
  omega

/-! ### The gathered table in any order -/

/-- `t` has what is gathered, in some order. -/
structure Ordered (y : System) (n : Nat) (present : Nat → Prop) (mem : Lvl → Nat → List Nat)
    (order : List Nat) (t : List Proc) : Prop where
  len : t.length = n
  valid : t.filter (·.valid) = order.map (full y mem)
  mem_iff : ∀ i, i ∈ order ↔ present i
  nodup : order.Nodup

theorem gathered_filter {t : List Proc} [DecidablePred present] (hl : t.length = n)
    (h : ∀ j, j < n → (present j → t[j]? = some (full y mem j)) ∧ (¬ present j → t[j]? = some zeroProc)) :
    t.filter (·.valid) = ((List.range n).filter (present ·)).map (full y mem) := by
  have ht : t = (List.range n).map fun j => if present j then full y mem j else zeroProc := by
    refine List.ext_getElem? fun j => ?_
    by_cases hj : j < n
    · rw [List.getElem?_map, List.getElem?_range hj, Option.map_some]
      by_cases hp : present j
      · rw [if_pos hp]; exact (h j hj).1 hp
      · rw [if_neg hp]; exact (h j hj).2 hp
    · rw [List.getElem?_eq_none (by omega), List.getElem?_eq_none (by simp; omega)]
  rw [ht, List.filter_map]
  have : ∀ xs : List Nat, (xs.filter ((fun p : Proc => p.valid) ∘ fun j =>
        if present j then full y mem j else zeroProc)) = xs.filter (present ·) := by
    intro xs
    refine List.filter_congr fun j _ => ?_
    by_cases hp : present j
    · simp [hp, full_valid]
    · simp [hp, zeroProc]
  rw [this]
  refine List.map_congr_left fun j hj => ?_
  rw [if_pos (by simpa using (List.mem_filter.mp hj).2)]

theorem ordered_mem {order : List Nat} {t : List Proc} (O : Ordered y n present mem order t)
    {p : Proc} (hp : p ∈ t) (hv : p.valid = true) : ∃ j, present j ∧ p = full y mem j := by
  have : p ∈ t.filter (·.valid) := List.mem_filter.mpr ⟨hp, hv⟩
  rw [O.valid] at this
  obtain ⟨j, h1, h2⟩ := List.mem_map.mp this
  exact ⟨j, (O.mem_iff j).mp h1, h2.symm⟩

/-- A table whose first processor leads all its groups can be transferred. -/
theorem ordered_good (L : Layout y n present mem) (hn : ∀ i, present i → i < n)
    (w1 : Within present (mem .core) (mem .cluster)) (w2 : Within present (mem .cluster) (mem .package))
    {order : List Nat} {t : List Proc} (O : Ordered y n present mem order t)
    (hf : ∀ i rest, order = i :: rest → ∀ l, lead mem l i = i) : Good t := by
  refine ⟨fun p hp hv => ?_, fun p hp hv => ?_, fun a p b ht hv l => ?_, fun p hp hv => ?_, ?_⟩
  · obtain ⟨j, _, rfl⟩ := ordered_mem O hp hv
    exact full_uarch y mem j
  · obtain ⟨j, hj, rfl⟩ := ordered_mem O hp hv
    simp only [full_leads, decide_eq_true_eq]
    exact ⟨leader_inner L w2 hj, leader_inner L w1 hj⟩
  · have hpos : 0 < ((a ++ [p]).filter (·.valid)).length := by
      rw [List.filter_append, List.length_append, List.filter_cons_of_pos (by simpa using hv)]
      simp
    cases hfl : (a ++ [p]).filter (·.valid) with
    | nil => rw [hfl] at hpos; simp at hpos
    | cons q qs =>
      have hO := O.valid
      rw [ht, show a ++ p :: b = (a ++ [p]) ++ b by simp, List.filter_append, hfl] at hO
      cases ho : order with
      | nil => rw [ho] at hO; simp at hO
      | cons i rest =>
        rw [ho] at hO
        rw [List.cons_append, List.map_cons] at hO
        have hq : q = full y mem i := (List.cons.inj hO).1
        have hl := hf i rest ho l
        have hmem : q ∈ (a ++ [p]).filter (·.valid) := by rw [hfl]; simp
        unfold nl
        refine List.countP_pos_iff.mpr ⟨q, (List.mem_filter.mp hmem).1, ?_⟩
        rw [hq, full_valid, full_leads, hl]
        simp
  · obtain ⟨j, hj, rfl⟩ := ordered_mem O hp hv
    rw [O.len]; exact hn j hj
  · rw [O.valid, List.pairwise_map]
    exact O.nodup

/-- The published tables in the order of the sorted processors. -/
theorem tables (L : Layout y n present mem)
    {order : List Nat} {t : List Proc} (O : Ordered y n present mem order t) {s : State}
    (I : Inv t t s) :
    s.processors.map (·.linuxId) = order ∧
    s.cores.map (fun c => (c.processorStart, c.processorCount, c.coreId, c.vendor, c.uarch, c.frequency)) =
      (order.filter fun i => lead mem .core i = i).map (fun i =>
        (i, (mem .core i).length, (full y mem i).coreId, (full y mem i).vendor, (full y mem i).uarch,
          (full y mem i).frequency)) ∧
    s.clusters.map (fun c => (c.processorStart, c.processorCount, c.coreStart, c.coreCount)) =
      (order.filter fun i => lead mem .cluster i = i).map (fun i =>
        (i, (mem .cluster i).length, i, (mem .cluster i).countP (fun j => lead mem .core j = j))) ∧
    s.packages.map (fun c => (c.processorStart, c.processorCount, c.coreStart, c.coreCount,
        c.clusterStart, c.clusterCount)) =
      (order.filter fun i => lead mem .package i = i).map (fun i =>
        (i, (mem .package i).length, i, (mem .package i).countP (fun j => lead mem .core j = j), i,
          (mem .package i).countP (fun j => lead mem .cluster j = j))) := by
  have hfil : ∀ l, t.filter (fun p => p.valid && p.leads l) =
      (order.filter fun i => lead mem l i = i).map (full y mem) := by
    intro l
    have : t.filter (fun p => p.valid && p.leads l) = (t.filter (·.valid)).filter (·.leads l) := by
      rw [List.filter_filter]
      exact List.filter_congr fun p _ => Bool.and_comm _ _
    rw [this, O.valid, List.filter_map]
    refine congrArg (List.map _) (List.filter_congr fun j _ => ?_)
    simp only [Function.comp_apply, full_leads]
  have gen : ∀ {α β : Type} (l : Lvl) (xs : List α) (f : α → β) (g : Proc → β),
      xs.length = nl l t →
      (∀ a p b, t = a ++ p :: b → p.valid = true → p.leads l = true →
        ∃ x, xs[nl l a]? = some x ∧ f x = g p) →
      xs.map f = (order.filter fun i => lead mem l i = i).map (fun i => g (full y mem i)) := by
    intro α β l xs f g hlen h
    have e : (order.filter fun i => lead mem l i = i).map (fun i => g (full y mem i)) =
        (t.filter (fun p => p.valid && p.leads l)).map g := by
      rw [hfil, List.map_map]; rfl
    rw [e]
    have hl2 : (t.filter (fun p => p.valid && p.leads l)).length = nl l t := by
      rw [← List.countP_eq_length_filter]; rfl
    refine List.ext_getElem? fun c => ?_
    rw [List.getElem?_map, List.getElem?_map]
    cases hc : (t.filter (fun p => p.valid && p.leads l))[c]? with
    | none =>
      rw [List.getElem?_eq_none (by have := List.getElem?_eq_none_iff.mp hc; omega)]
      rfl
    | some p =>
      obtain ⟨a, b, h1, h2, _, h4⟩ := filter_get _ t c p hc
      simp only [Bool.and_eq_true] at h2
      obtain ⟨x, hx, hfx⟩ := h a p b h1 h2.1 h2.2
      have : nl l a = c := h4
      rw [this] at hx
      rw [hx, Option.map_some, Option.map_some, hfx]
  have hself : ∀ l, ∀ i ∈ order.filter (fun i => lead mem l i = i), lead mem l i = i := by
    intro l i hi; simpa using (List.mem_filter.mp hi).2
  refine ⟨?_, ?_, ?_, ?_⟩
  · have hl2 : (t.filter (·.valid)).length = nv t := by
      rw [← List.countP_eq_length_filter]; rfl
    have e : order = (t.filter (·.valid)).map (·.linuxId) := by
      rw [O.valid, List.map_map]
      exact (List.map_id' order).symm.trans (List.map_congr_left fun _ _ => rfl)
    rw [e]
    refine List.ext_getElem? fun c => ?_
    rw [List.getElem?_map, List.getElem?_map]
    cases hc : (t.filter (·.valid))[c]? with
    | none =>
      rw [List.getElem?_eq_none (by
        have := List.getElem?_eq_none_iff.mp hc; have := I.pLen; omega)]
      rfl
    | some p =>
      obtain ⟨a, b, h1, h2, _, h4⟩ := filter_get _ t c p hc
      have hx := (I.processor a p b h1 h2).1
      have : nv a = c := h4
      rw [this] at hx
      rw [hx]; rfl
  · rw [gen .core s.cores _ (fun p => (p.core.start, p.core.processorCount, p.coreId, p.vendor, p.uarch,
      p.frequency)) I.cLen (fun a p b h1 h2 h3 => ⟨_, I.core a p b h1 h2 h3, rfl⟩)]
    refine List.map_congr_left fun i hi => ?_
    show (lead mem .core i, _, _, _, _, _) = _
    rw [hself .core i hi]
    rfl
  · rw [gen .cluster s.clusters _ (fun p => (p.cluster.start, p.cluster.processorCount, p.cluster.start,
      p.cluster.coreCount)) I.kLen (fun a p b h1 h2 h3 => ⟨_, I.cluster a p b h1 h2 h3, rfl⟩)]
    refine List.map_congr_left fun i hi => ?_
    show (lead mem .cluster i, _, lead mem .cluster i, _) = _
    rw [hself .cluster i hi]
    rfl
  · rw [gen .package s.packages _ (fun p => (p.package.start, p.package.processorCount, p.package.start,
      p.package.coreCount, p.package.start, p.package.clusterCount)) I.gLen
      (fun a p b h1 h2 h3 => ⟨_, I.package a p b h1 h2 h3, rfl⟩)]
    refine List.map_congr_left fun i hi => ?_
    show (lead mem .package i, _, lead mem .package i, _, lead mem .package i, _) = _
    rw [hself .package i hi]
    rfl

end

end Verif.Riscv
