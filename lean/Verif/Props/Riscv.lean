import Verif.Proof.RiscvLinks
import Verif.Proof.Once
import Verif.Spec.Once
import Mathlib.Data.Nat.Bitwise

/-!
# C48, C49, C98–C103: RISC-V on Linux

All theorems are about `init`, the whole of `cpuinfo_riscv_linux_init` from the sysfs texts to the
published tables, or about its first part `gather`, which ends before the sort.  `none` stands for an
access out of bounds, `some []` for a failed initialization.  `Layout y n present members` says that the
files of `y` describe the processors `present` (below `n`) and the groups `members`.
-/

set_option autoImplicit false

namespace Verif.Props
open Spec Riscv Api Once

/-! ## Machines -/

/-- A processor is the least of its core, cluster and package. -/
def LeadsAll (mem : Lvl → Nat → List Nat) (i : Nat) : Prop := ∀ l, (mem l i).head? = some i

/-- The least members of groups, among some processors. -/
def leasts (mem : Lvl → Nat → List Nat) (l : Lvl) (xs : List Nat) : List Nat :=
  xs.filter fun i => (mem l i).head? = some i

/-- The sort leaves a table of equal elements as it is; all RISC-V processors are of the same
(unknown) microarchitecture, which is what is compared. -/
def StableSort (y : System) : Prop := ∀ t : List Proc, (∀ p ∈ t, p.uarch = 0) → y.qsort t = t

/-- The published tables. -/
structure RiscvPublished (g : Globals Elem) (ps : List Processor) (cs : List Core) (ks : List Cluster)
    (gs : List Package) : Prop where
  initialized : g.isInitialized = true
  processors : g.table .processor = some ps ∧ g.count .processor = ps.length
  cores : g.table .core = some cs ∧ g.count .core = cs.length
  clusters : g.table .cluster = some ks ∧ g.count .cluster = ks.length
  packages : g.table .package = some gs ∧ g.count .package = gs.length
  uarchs : g.table .uarch = some [⟨0, ps.length, cs.length⟩] ∧ g.count .uarch = 1
  caches : ∀ k, g.table (.cache k) = none ∧ g.count (.cache k) = 0

section
variable {y : System} {n : Nat} {present : Nat → Prop} {mem : Lvl → Nat → List Nat}

theorem lead_head_iff (L : Layout y n present mem) {l : Lvl} {i : Nat} (hi : present i) :
    (mem l i).head? = some i ↔ lead mem l i = i := by
  rw [lead_head L hi, Option.some.injEq]

theorem leasts_eq (L : Layout y n present mem) (l : Lvl) {xs : List Nat} (h : ∀ i ∈ xs, present i) :
    leasts mem l xs = xs.filter fun i => lead mem l i = i :=
  List.filter_congr fun i hi => by
    simp only [lead_head_iff L (h i hi)]

/-- The order of the processors after the sort. -/
def sortedIds (y : System) (t : List Proc) : List Nat :=
  ((y.qsort t).filter (·.valid)).map (·.linuxId)

theorem sorted_ordered {t : List Proc} (hn : ∀ i, present i → i < n)
    (h : InPlace y n present mem t) (hq : (y.qsort t).Perm t) :
    Ordered y n present mem (sortedIds y t) (y.qsort t) := by
  classical
  have O := inPlace_ordered hn h
  have hp : ((y.qsort t).filter (·.valid)).Perm (((List.range n).filter (present ·)).map (full y mem)) := by
    rw [← O.valid]; exact hq.filter _
  have hval : ∀ p ∈ (y.qsort t).filter (·.valid), p = full y mem p.linuxId := by
    intro p hm
    obtain ⟨j, _, rfl⟩ := List.mem_map.mp (hp.mem_iff.mp hm)
    rfl
  have hids : (sortedIds y t).Perm ((List.range n).filter (present ·)) := by
    have := hp.map (·.linuxId)
    rw [List.map_map] at this
    refine this.trans ?_
    rw [show ((fun p : Proc => p.linuxId) ∘ full y mem) = id from rfl, List.map_id]
  refine ⟨hq.length_eq.trans h.1, ?_, fun i => ?_, ?_⟩
  · unfold sortedIds
    rw [List.map_map]
    exact ((List.map_congr_left fun p hm => (hval p hm).symm).trans (List.map_id' _)).symm
  · rw [hids.mem_iff]; exact O.mem_iff i
  · exact hids.nodup_iff.mpr O.nodup

theorem inPlace_uarch {t : List Proc} (h : InPlace y n present mem t) : ∀ p ∈ t, p.uarch = 0 := by
  intro p hp
  obtain ⟨j, hj⟩ := List.getElem?_of_mem hp
  have hjn : j < n := by
    have := (List.getElem?_eq_some_iff.mp hj).1
    have := h.1
    omega
  by_cases e : present j
  · rw [(h.2 j hjn).1 e] at hj
    cases Option.some.inj hj
    exact full_uarch y mem j
  · rw [(h.2 j hjn).2 e] at hj
    cases Option.some.inj hj
    rfl

theorem init_some {t : List Proc} {alloc : Nat → Bool} (ha : ∀ i, alloc i = true)
    (h : gather y = some (some t)) :
    init y alloc = (transfer (y.qsort t)).map (commit t.length (counts (y.qsort t))) := by
  unfold init
  rw [if_pos (ha 0), h, Option.bind_some]
  exact if_pos (by simp [ha])

theorem nv_pos {order : List Nat} {t : List Proc} (O : Ordered y n present mem order t)
    (h : order ≠ []) : 0 < nv t := by
  have : nv t = order.length := by
    have := congrArg List.length O.valid
    rw [List.length_map, ← List.countP_eq_length_filter] at this
    exact this
  rw [this]
  exact List.length_pos_iff.mpr h

/-- What is published for a table that can be transferred. -/
theorem riscv_published {t : List Proc} (hg : Good t) (hpos : 0 < nv t) {s : State} (I : Inv t t s)
    (k : Nat) (u : Elem .uarch) :
    RiscvPublished (applyAll (commit k (counts t) s) (.initial u)) s.processors s.cores s.clusters
      s.packages := by
  have hc := counts_append t hg.uarch
  have hu : s.uarchs = [⟨0, nv t, nl .core t⟩] := by
    rcases I.uarch with ⟨h, _⟩ | ⟨_, _, h⟩
    · omega
    · exact h
  rw [hc]
  refine ⟨rfl, ⟨rfl, I.pLen.symm⟩, ⟨rfl, I.cLen.symm⟩, ⟨rfl, I.kLen.symm⟩, ⟨rfl, I.gLen.symm⟩,
    ⟨?_, ?_⟩, fun _ => ⟨rfl, rfl⟩⟩
  · show some s.uarchs = _
    rw [hu, I.pLen, I.cLen]
    rfl
  · show (if nv t = 0 then 0 else 1) = 1
    rw [if_neg (by omega)]

theorem riscv_flag_last (k : Nat) (c : Counts) (s : State) : FlagLast (commit k c s) := by
  refine .inr ⟨(commit k c s).dropLast, true, fun x hx => ?_, rfl⟩
  intro g
  cases x with
  | flag b => unfold commit at hx; simp at hx
  | _ => rfl

/-! ## C98 -/

/-- **C98.** Whatever the files contain and however they are read, reading them never leads to an
access out of bounds: it fails or yields a table. -/
theorem C98_riscv_reading_in_bounds (y : System) : gather y ≠ none := by
  rcases gather_total y with h | ⟨t, h, -⟩
  · rw [h]; exact fun h => nomatch h
  · rw [h]; exact fun h => nomatch h

/-! ## C99 -/

/-- **C99 (broken).** One present processor without a sibling list — Linux removes the
`topology` directory of a processor that is taken offline — makes initialization fail
altogether, whatever the other files say. -/
theorem C99_violated_missing_list (y : System) (alloc : Nat → Bool) (n : Nat) (present : Nat → Prop)
    (limit : ∃ v, y.kernelMax.1 = some (printNat v ++ [10]) ∧ y.kernelMax.2.NoError ∧ v < U32MAX ∧
      n ≤ v + 1)
    (list : ∃ rs, y.present.1 = some (printCpuList rs) ∧ y.present.2.NoError ∧ rs ≠ [] ∧
      (∀ r ∈ rs, r.1 ≤ r.2 ∧ r.2 < n) ∧ (∃ r ∈ rs, r.2 + 1 = n) ∧ ∀ i, present i ↔ i ∈ cover rs)
    (i : Nat) (hi : present i) (l : Lvl) (hm : (listFile y l i).1 = none) : init y alloc = some [] := by
  unfold init
  rw [gather_missing limit list i hi l hm]
  by_cases h : alloc 0 = true
  · rw [if_pos h]; rfl
  · rw [if_neg h]

/-- **C99.** If all present processors have their lists, detection succeeds (the sort being
stable) and publishes. -/
theorem C99_riscv_initializes_partial (L : Layout y n present mem)
    (w1 : Within present (mem .core) (mem .cluster)) (w2 : Within present (mem .cluster) (mem .package))
    (hq : StableSort y) (alloc : Nat → Bool) (ha : ∀ i, alloc i = true) (u : Elem .uarch) :
    ∃ st, init y alloc = some st ∧ FlagLast st ∧
      (applyAll st (.initial u)).isInitialized = true := by
  classical
  obtain ⟨hn0, _, hn, t, h1, h2, h3⟩ := gather_spec L
  have O := inPlace_ordered hn ⟨h2, h3⟩
  obtain ⟨s, e1, I⟩ := transfer_spec (ordered_good L hn w1 w2 O (inPlace_first L hn))
  refine ⟨_, ?_, riscv_flag_last t.length (counts t) s, rfl⟩
  rw [init_some ha h1, hq t (inPlace_uarch ⟨h2, h3⟩), e1]
  rfl

/-! ## C100 -/

/-- **C100.** For every order that the sort may leave (all elements are equal to it), the processors
are published in that order, and every core, cluster and package exactly once, in the order of its
least processor, with the number of its processors, cores and clusters; there is one
microarchitecture.  That is, if the first processor of the order is the least of all its groups;
otherwise the tables are written out of bounds. -/
theorem C100_riscv_groups (L : Layout y n present mem)
    (w1 : Within present (mem .core) (mem .cluster)) (w2 : Within present (mem .cluster) (mem .package))
    (hq : ∀ t, (y.qsort t).Perm t) (alloc : Nat → Bool) (ha : ∀ i, alloc i = true) (u : Elem .uarch) :
    ∃ t order, gather y = some (some t) ∧ order = sortedIds y t ∧
    order.Nodup ∧ (∀ i, i ∈ order ↔ present i) ∧
    ((∃ i, order.head? = some i ∧ LeadsAll mem i) → ∃ st ps cs ks gs, init y alloc = some st ∧
      FlagLast st ∧ RiscvPublished (applyAll st (.initial u)) ps cs ks gs ∧
      ps.map (·.linuxId) = order ∧
      cs.map (fun c => (c.processorStart, c.processorCount)) =
        (leasts mem .core order).map (fun i => (i, (mem .core i).length)) ∧
      ks.map (fun c => (c.processorStart, c.processorCount, c.coreCount)) =
        (leasts mem .cluster order).map
          (fun i => (i, (mem .cluster i).length, (leasts mem .core (mem .cluster i)).length)) ∧
      gs.map (fun c => (c.processorStart, c.processorCount, c.coreCount, c.clusterCount)) =
        (leasts mem .package order).map
          (fun i => (i, (mem .package i).length, (leasts mem .core (mem .package i)).length,
            (leasts mem .cluster (mem .package i)).length))) ∧
    ((∃ i, order.head? = some i ∧ ¬ LeadsAll mem i) → init y alloc = none) := by
  obtain ⟨hn0, _, hn, t, h1, h2, h3⟩ := gather_spec L
  have O := sorted_ordered hn ⟨h2, h3⟩ (hq t)
  have hpres : ∀ i ∈ sortedIds y t, present i := fun i hi => (O.mem_iff i).mp hi
  refine ⟨t, _, h1, rfl, O.nodup, O.mem_iff, ?_, ?_⟩
  · rintro ⟨i, hi, hl⟩
    have hg := ordered_good L hn w1 w2 O (by
      intro j rest e l
      rw [e] at hi
      cases hi
      exact (lead_head_iff L (hpres _ (by rw [e]; simp))).mp (hl l))
    obtain ⟨s, e1, I⟩ := transfer_spec hg
    have hpos := nv_pos O (by intro e; rw [e] at hi; cases hi)
    obtain ⟨g1, g2, g3, g4⟩ := tables L O I
    have cnt : ∀ l l' i, i ∈ leasts mem l (sortedIds y t) →
        (leasts mem l' (mem l i)).length = (mem l i).countP (fun j => lead mem l' j = j) := by
      intro l l' i hm
      have hpi := hpres i (List.mem_filter.mp hm).1
      rw [leasts_eq L l' (fun j hj => ((L.grouping l).closed i hpi j hj).1), List.countP_eq_length_filter]
    refine ⟨_, s.processors, s.cores, s.clusters, s.packages, ?_,
      riscv_flag_last t.length (counts (y.qsort t)) s, riscv_published hg hpos I t.length u, g1, ?_, ?_, ?_⟩
    · rw [init_some ha h1, e1]; rfl
    · have := congrArg (List.map fun x => (x.1, x.2.1)) g2
      rw [List.map_map, List.map_map] at this
      rw [leasts_eq L .core hpres]
      exact this
    · have := congrArg (List.map fun x => (x.1, x.2.1, x.2.2.2)) g3
      rw [List.map_map, List.map_map, ← leasts_eq L .cluster hpres] at this
      refine this.trans (List.map_congr_left fun i hi => ?_)
      rw [cnt .cluster .core i hi]; rfl
    · have := congrArg (List.map fun x => (x.1, x.2.1, x.2.2.2.1, x.2.2.2.2.2)) g4
      rw [List.map_map, List.map_map, ← leasts_eq L .package hpres] at this
      refine this.trans (List.map_congr_left fun i hi => ?_)
      rw [cnt .package .core i hi, cnt .package .cluster i hi]; rfl
  · rintro ⟨i, hi, hl⟩
    have hpi := hpres i (List.mem_of_head? hi)
    obtain ⟨l, hl⟩ : ∃ l, lead mem l i ≠ i := by
      refine Classical.byContradiction fun hno => hl fun l => ?_
      exact (lead_head_iff L hpi).mpr (Classical.byContradiction fun e => hno ⟨l, e⟩)
    cases e : sortedIds y t with
    | nil => rw [e] at hi; cases hi
    | cons j rest =>
      rw [e] at hi O
      cases hi
      rw [init_some ha h1, ordered_unled O l hl]
      rfl

/-- Initialization that published something transferred a table in some order. -/
theorem init_inv (L : Layout y n present mem)
    (w1 : Within present (mem .core) (mem .cluster)) (w2 : Within present (mem .cluster) (mem .package))
    (hq : ∀ t, (y.qsort t).Perm t) {alloc : Nat → Bool}
    {st : List (Store Elem)} (hst : init y alloc = some st) (hne : st ≠ []) :
    ∃ (t : List Proc) (s : State), Ordered y n present mem (sortedIds y t) (y.qsort t) ∧
      Good (y.qsort t) ∧ Riscv.Inv (y.qsort t) (y.qsort t) s ∧ t.length = n ∧
      st = commit t.length (counts (y.qsort t)) s := by
  obtain ⟨hn0, hn1, hn, t, h1, h2, h3⟩ := gather_spec L
  have O := sorted_ordered hn ⟨h2, h3⟩ (hq t)
  have hst' : (transfer (y.qsort t)).map (commit t.length (counts (y.qsort t))) = some st := by
    unfold init at hst
    by_cases a0 : alloc 0 = true
    · rw [if_pos a0, h1, Option.bind_some] at hst
      dsimp only at hst
      by_cases a1 : (List.range 9).all alloc = true
      · rw [if_pos a1] at hst; exact hst
      · rw [if_neg a1] at hst; exact absurd (Option.some.inj hst).symm hne
    · rw [if_neg a0] at hst; exact absurd (Option.some.inj hst).symm hne
  obtain ⟨s, e1, hs⟩ := Option.map_eq_some_iff.mp hst'
  have hg : Good (y.qsort t) := by
    refine ordered_good L hn w1 w2 O fun j rest e l => Classical.byContradiction fun hl => ?_
    rw [e] at O
    rw [ordered_unled O l hl] at e1
    cases e1
  obtain ⟨s', e1', I⟩ := transfer_spec hg
  rw [e1] at e1'
  cases Option.some.inj e1'
  exact ⟨t, s, O, hg, I, h2, hs.symm⟩

/-! ## C101 -/

/-- RISC-V Linux. -/
def riscvLinux : Build := ⟨true, true⟩

/-- **C101.** For every order that the sort may leave: on CPU `i`,
`cpuinfo_get_current_processor` gives the processor with `linux_id` `i`,
`cpuinfo_get_current_core` the core that this processor is linked to, the index of the
microarchitecture is 0; on a CPU that is not there both are null. -/
theorem C101_riscv_current (L : Layout y n present mem)
    (w1 : Within present (mem .core) (mem .cluster)) (w2 : Within present (mem .cluster) (mem .package))
    (hq : ∀ t, (y.qsort t).Perm t) (alloc : Nat → Bool) (u : Elem .uarch)
    (st : List (Store Elem)) (hst : init y alloc = some st) (hne : st ≠ []) :
    let run := fun q : Query => (q.prog riscvLinux).eval (applyAll st (.initial u))
    (∀ i, present i → ∃ (p : Processor) (c : Nat) (x : Core), p.linuxId = i ∧ p.core = some c ∧
      (∃ cs : List Core, (applyAll st (.initial u)).table .core = some cs ∧ cs[c]? = some x) ∧
      run (.currentProcessor (some i)) = .ret (.elem .processor (some p)) ∧
      run (.currentCore (some i)) = .ret (.elem .core (some x)) ∧
      run (.currentUarchIndex (some i)) = .ret (.num 0)) ∧
    ∀ i, i < U32 → ¬ present i →
      run (.currentProcessor (some i)) = .ret (.elem .processor none) ∧
      run (.currentCore (some i)) = .ret (.elem .core none) := by
  intro run
  obtain ⟨hn0, hn1, hn, -⟩ := gather_spec L
  obtain ⟨t, s, O, hg, I, h2, rfl⟩ := init_inv L w1 w2 hq hst hne
  obtain ⟨m1, m2, m3, m4, m5⟩ := maps hg O I
  have hP : ∀ cpu, cpu < U32 → run (.currentProcessor (some cpu)) =
      if cpu ≥ t.length then .ret (.elem .processor none)
      else mapEntry .processor (some s.processorMap)
        (some (s.processors : List (Elem .processor))) cpu := by
    intro cpu hcpu
    have := currentProcessor_eval (b := riscvLinux)
      (applyAll (commit t.length (counts (y.qsort t)) s) (.initial u)) rfl (some cpu)
    simp only [Nat.mod_eq_of_lt hcpu] at this
    exact this
  have hC : ∀ cpu, cpu < U32 → run (.currentCore (some cpu)) =
      if cpu ≥ t.length then .ret (.elem .core none)
      else mapEntry .core (some s.coreMap) (some (s.cores : List (Elem .core))) cpu := by
    intro cpu hcpu
    have := currentCore_eval (b := riscvLinux)
      (applyAll (commit t.length (counts (y.qsort t)) s) (.initial u)) rfl (some cpu)
    simp only [Nat.mod_eq_of_lt hcpu] at this
    exact this
  refine ⟨fun i hi => ?_, fun i hi hp => ?_⟩
  · have hin := hn i hi
    obtain ⟨k, p, c, q1, q2, q3, q4, q5, q6, q7⟩ := m4 i hi
    refine ⟨p, c, s.cores[c], q3, q5, ⟨s.cores, rfl, List.getElem?_eq_getElem q6⟩, ?_, ?_, ?_⟩
    · rw [hP i (by omega), if_neg (by omega)]
      simp only [mapEntry, q1, pointTo]
      erw [q2]
    · rw [hC i (by omega), if_neg (by omega)]
      simp only [mapEntry, q4, pointTo]
      erw [List.getElem?_eq_getElem q6]
    · refine (currentUarch_eval (b := riscvLinux)
        (applyAll (commit t.length (counts (y.qsort t)) s) (.initial u)) rfl (some i)).trans ?_
      show (if i % U32 ≥ t.length then Res.ret (E := Elem) (.num 0)
        else uarchEntry s.uarchMap i) = _
      rw [if_neg (by rw [Nat.mod_eq_of_lt (by omega)]; omega), uarchEntry, q7]
  · rw [hP i hi, hC i hi]
    by_cases e : i ≥ t.length
    · rw [if_pos e, if_pos e]; exact ⟨rfl, rfl⟩
    · rw [if_neg e, if_neg e]
      obtain ⟨q1, q2⟩ := m5 i (by omega) hp
      simp only [mapEntry, q1, q2]
      exact ⟨trivial, trivial⟩

/-! ## C103 -/

/-- **C103.** For every order that the sort may leave: the identifier and frequency of a published
core are the numbers in the files of its least processor (0 if there is no file); its vendor is SiFive
(17) exactly if the kernel answers a probe of that processor with vendor number 0x489, else unknown;
the microarchitecture is unknown. -/
theorem C103_riscv_core_details (L : Layout y n present mem)
    (w1 : Within present (mem .core) (mem .cluster)) (w2 : Within present (mem .cluster) (mem .package))
    (hq : ∀ t, (y.qsort t).Perm t) (alloc : Nat → Bool) (u : Elem .uarch)
    (st : List (Store Elem)) (hst : init y alloc = some st) (hne : st ≠ []) (cs : List Core)
    (hcs : (applyAll st (.initial u)).table .core = some cs) (c : Core) (hc : c ∈ cs) :
    (∀ v, v < U32 → (y.coreId c.processorStart).1 = some (printNat v ++ [10]) →
      (y.coreId c.processorStart).2.NoError → c.coreId = v) ∧
    ((y.coreId c.processorStart).1 = none → c.coreId = 0) ∧
    (∀ v, v < U32 → (y.frequency c.processorStart).1 = some (printNat v ++ [10]) →
      (y.frequency c.processorStart).2.NoError → c.frequency = v) ∧
    ((y.frequency c.processorStart).1 = none → c.frequency = 0) ∧
    (∀ v a m, v < U32 → y.hwprobe c.processorStart = some [(0, v), (1, a), (2, m)] →
      (c.vendor = 17 ↔ v = 0x489) ∧ (c.vendor = 0 ↔ v ≠ 0x489)) ∧
    (y.hwprobe c.processorStart = none → c.vendor = 0) ∧ c.uarch = 0 := by
  obtain ⟨t, s, O, hg, I, h2, rfl⟩ := init_inv L w1 w2 hq hst hne
  cases Option.some.inj hcs
  have hm := List.mem_map_of_mem (f := fun c : Core => (c.processorStart, c.processorCount, c.coreId,
      c.vendor, c.uarch, c.frequency)) hc
  rw [(tables L O I).2.1] at hm
  obtain ⟨i, hi, he⟩ := List.mem_map.mp hm
  have e1 : i = c.processorStart := congrArg Prod.fst he
  have e2 : (full y mem i).coreId = c.coreId := congrArg (fun x => x.2.2.1) he
  have e3 : (full y mem i).vendor = c.vendor := congrArg (fun x => x.2.2.2.1) he
  have e4 : (full y mem i).uarch = c.uarch := congrArg (fun x => x.2.2.2.2.1) he
  have e5 : (full y mem i).frequency = c.frequency := congrArg (fun x => x.2.2.2.2.2) he
  rw [← e1, ← e2, ← e3, ← e4, ← e5]
  have d1 : (full y mem i).coreId =
    ((Processors.processorId (y.coreId i).1 (y.coreId i).2).getD none).getD 0 := rfl
  have d2 : (full y mem i).vendor = (hwprobe (y.hwprobe i)).1 := rfl
  have d3 : (full y mem i).frequency =
      (Processors.processorFrequency (y.frequency i).1 (y.frequency i).2).getD 0 := by
    show (if _ ≠ 0 then _ else 0) = _
    generalize (Processors.processorFrequency (y.frequency i).1 (y.frequency i).2).getD 0 = x
    by_cases h : x ≠ 0
    · rw [if_pos h]
    · rw [if_neg h]; omega
  rw [d1, d2, d3]
  refine ⟨fun v hv h1 h2 => ?_, fun h => ?_, fun v hv h1 h2 => ?_, fun h => ?_, fun v a m hv h => ?_,
    fun h => ?_, full_uarch y mem i⟩
  · rw [h1]
    unfold Processors.processorId
    rw [C09_value_round_trip v hv [10] (.inr rfl) _ h2]; rfl
  · rw [h]; rfl
  · rw [h1, (C09_frequency v hv [10] (.inr rfl) _ h2).1]; rfl
  · rw [h]; rfl
  · rw [h]
    have : hwprobe (some [(0, v), (1, a), (2, m)]) = (if v = 0x489 then 17 else 0, 0) := by
      show ((if v % U32 = 0x489 then 17 else 0), 0) = _
      rw [Nat.mod_eq_of_lt hv]
    rw [this]
    dsimp only
    by_cases h : v = 0x489
    · rw [if_pos h]; exact ⟨⟨fun _ => h, fun _ => rfl⟩, ⟨fun h' => (by cases h'), fun h' => absurd h h'⟩⟩
    · rw [if_neg h]; exact ⟨⟨fun h' => (by cases h'), fun h' => absurd h' h⟩, ⟨fun _ => h, fun _ => rfl⟩⟩
  · rw [h]; rfl

/-! ## C48 -/

/-- **C48 (partial).** If the sort is stable and no group is interleaved with another, every
processor is linked to the core, cluster and package of its sibling lists, every core to its cluster
and package, and every cluster to its package. -/
theorem C48_riscv_links_partial (L : Layout y n present mem)
    (w1 : Within present (mem .core) (mem .cluster)) (w2 : Within present (mem .cluster) (mem .package))
    (hc : ∀ l, Convex present (mem l))
    (hq : StableSort y) (alloc : Nat → Bool) (ha : ∀ i, alloc i = true) (u : Elem .uarch) :
    ∃ st ps cs ks gs, init y alloc = some st ∧ RiscvPublished (applyAll st (.initial u)) ps cs ks gs ∧
    (∀ p ∈ ps,
      (∃ (c : Nat) (x : Core), p.core = some c ∧ cs[c]? = some x ∧
        (mem .core p.linuxId).head? = some x.processorStart) ∧
      (∃ (c : Nat) (x : Cluster), p.cluster = some c ∧ ks[c]? = some x ∧
        (mem .cluster p.linuxId).head? = some x.processorStart) ∧
      ∃ (c : Nat) (x : Package), p.package = some c ∧ gs[c]? = some x ∧
        (mem .package p.linuxId).head? = some x.processorStart) ∧
    (∀ q ∈ cs,
      (∃ (c : Nat) (x : Cluster), q.cluster = some c ∧ ks[c]? = some x ∧
        (mem .cluster q.processorStart).head? = some x.processorStart) ∧
      ∃ (c : Nat) (x : Package), q.package = some c ∧ gs[c]? = some x ∧
        (mem .package q.processorStart).head? = some x.processorStart) ∧
    (∀ q ∈ ks, ∃ (c : Nat) (x : Package), q.package = some c ∧ gs[c]? = some x ∧
        (mem .package q.processorStart).head? = some x.processorStart) ∧
    ((∀ i, i < n → present i) →
      Divides ps cs (·.core) (·.processorStart) (·.processorCount) ∧
      Divides ps ks (·.cluster) (·.processorStart) (·.processorCount) ∧
      Divides ps gs (·.package) (·.processorStart) (·.processorCount) ∧
      ((∀ i, i < n → mem .core i = [i]) →
        Divides cs ks (·.cluster) (·.coreStart) (·.coreCount) ∧
        Divides cs gs (·.package) (·.coreStart) (·.coreCount)) ∧
      ((∀ i, i < n → mem .package i = List.range n) →
        Divides ks gs (·.package) (·.clusterStart) (·.clusterCount))) := by
  classical
  obtain ⟨hn0, _, hn, t, h1, h2, h3⟩ := gather_spec L
  have hin : InPlace y n present mem t := ⟨h2, h3⟩
  have O := inPlace_ordered hn hin
  have hpres : ∀ i ∈ (List.range n).filter (present ·), present i := fun i hi => (O.mem_iff i).mp hi
  have hg := ordered_good L hn w1 w2 O (inPlace_first L hn)
  obtain ⟨s, e1, I⟩ := transfer_spec hg
  have hne : (List.range n).filter (present ·) ≠ [] := by
    obtain ⟨rs, _, _, _, r4, ⟨r, hr, hr'⟩, r6⟩ := L.list
    have : present r.2 := (r6 r.2).mpr (mem_cover.mpr ⟨r, hr, (r4 r hr).1, Nat.le_refl _⟩)
    intro e
    have := (O.mem_iff r.2).mpr this
    rw [e] at this
    cases this
  obtain ⟨g1, g2, g3, g4⟩ := tables L O I
  obtain ⟨k1, k2, k3⟩ := links L hc hin I
  have hpid : ∀ p ∈ s.processors, present p.linuxId := by
    intro p hp
    have : p.linuxId ∈ s.processors.map (·.linuxId) := List.mem_map_of_mem hp
    rw [g1] at this
    exact hpres _ this
  have hcid : ∀ q ∈ s.cores, present q.processorStart := by
    intro q hq'
    have := List.mem_map_of_mem (f := fun c : Core => (c.processorStart, c.processorCount, c.coreId,
      c.vendor, c.uarch, c.frequency)) hq'
    rw [g2] at this
    obtain ⟨i, hi, he⟩ := List.mem_map.mp this
    have : i = q.processorStart := congrArg Prod.fst he
    exact this ▸ hpres i (List.mem_filter.mp hi).1
  have hkid : ∀ q ∈ s.clusters, present q.processorStart := by
    intro q hq'
    have := List.mem_map_of_mem (f := fun c : Cluster => (c.processorStart, c.processorCount,
      c.coreStart, c.coreCount)) hq'
    rw [g3] at this
    obtain ⟨i, hi, he⟩ := List.mem_map.mp this
    have : i = q.processorStart := congrArg Prod.fst he
    exact this ▸ hpres i (List.mem_filter.mp hi).1
  refine ⟨commit t.length (counts t) s, s.processors, s.cores, s.clusters, s.packages, ?_,
    riscv_published hg (nv_pos O hne) I t.length u, fun p hp => ?_, fun q hq' => ?_, fun q hq' => ?_,
    fun hall => ?_⟩
  · rw [init_some ha h1, hq t (inPlace_uarch hin), e1]; rfl
  · obtain ⟨k, hk⟩ := List.getElem?_of_mem hp
    obtain ⟨⟨c1, x1, a1, a2, a3⟩, ⟨c2, x2, a4, a5, a6⟩, c3, x3, a7, a8, a9⟩ := k1 k p hk
    have hh := fun l => lead_head L (l := l) (hpid p hp)
    exact ⟨⟨c1, x1, a1, a2, by rw [hh, a3]⟩, ⟨c2, x2, a4, a5, by rw [hh, a6]⟩, c3, x3, a7, a8,
      by rw [hh, a9]⟩
  · obtain ⟨k, hk⟩ := List.getElem?_of_mem hq'
    obtain ⟨⟨c2, x2, a4, a5, a6⟩, c3, x3, a7, a8, a9⟩ := k2 k q hk
    have hh := fun l => lead_head L (l := l) (hcid q hq')
    exact ⟨⟨c2, x2, a4, a5, by rw [hh, a6]⟩, c3, x3, a7, a8, by rw [hh, a9]⟩
  · obtain ⟨k, hk⟩ := List.getElem?_of_mem hq'
    obtain ⟨c3, x3, a7, a8, a9⟩ := k3 k q hk
    exact ⟨c3, x3, a7, a8, by rw [lead_head L (l := .package) (hkid q hq'), a9]⟩
  · have hord : (List.range n).filter (present ·) = List.range n :=
      List.filter_eq_self.mpr fun i hi => by simpa using hall i (List.mem_range.mp hi)
    rw [hord] at g1 g2 g3 g4
    have c2 : s.cores.map (fun c => (c.processorStart, c.processorCount)) =
        ((List.range n).filter fun i => lead mem .core i = i).map fun i => (i, (mem .core i).length) := by
      have := congrArg (List.map fun x => (x.1, x.2.1)) g2
      rw [List.map_map, List.map_map] at this
      exact this
    have c3 : s.clusters.map (fun c => (c.processorStart, c.processorCount)) =
        ((List.range n).filter fun i => lead mem .cluster i = i).map
          fun i => (i, (mem .cluster i).length) := by
      have := congrArg (List.map fun x => (x.1, x.2.1)) g3
      rw [List.map_map, List.map_map] at this
      exact this
    have c4 : s.packages.map (fun c => (c.processorStart, c.processorCount)) =
        ((List.range n).filter fun i => lead mem .package i = i).map
          fun i => (i, (mem .package i).length) := by
      have := congrArg (List.map fun x => (x.1, x.2.1)) g4
      rw [List.map_map, List.map_map] at this
      exact this
    refine ⟨divides_groups L hall hn (hc .core) _ g1 _ _ _ _ c2 fun k p hk => (k1 k p hk).1,
      divides_groups L hall hn (hc .cluster) _ g1 _ _ _ _ c3 fun k p hk => (k1 k p hk).2.1,
      divides_groups L hall hn (hc .package) _ g1 _ _ _ _ c4 fun k p hk => (k1 k p hk).2.2,
      fun hsmt => ?_, fun hone => ?_⟩
    · have hlead : ∀ i, i < n → lead mem .core i = i := fun i hi => by
        show (mem .core i).headD 0 = i
        rw [hsmt i hi]; rfl
      have hcs : s.cores.map (·.processorStart) = List.range n := by
        have := congrArg (List.map Prod.fst) c2
        rw [List.map_map, List.map_map] at this
        refine Eq.trans this ?_
        rw [List.filter_eq_self.mpr fun i hi => by simpa using hlead i (List.mem_range.mp hi)]
        exact List.map_id' _
      have hcnt : ∀ l, ∀ i ∈ (List.range n).filter (fun i => lead mem l i = i),
          (mem l i).countP (fun j => lead mem .core j = j) = (mem l i).length := by
        intro l i hi
        have hi' := hall i (List.mem_range.mp (List.mem_filter.mp hi).1)
        refine List.countP_eq_length.mpr fun j hj => ?_
        simpa using hlead j (hn j ((L.grouping l).closed i hi' j hj).1)
      constructor
      · refine divides_groups L hall hn (hc .cluster) (·.processorStart) hcs _ _ _ _ ?_ ?_
        · have := congrArg (List.map fun x => (x.2.2.1, x.2.2.2)) g3
          rw [List.map_map, List.map_map] at this
          refine Eq.trans this (List.map_congr_left fun i hi => ?_)
          exact congrArg (Prod.mk i) (hcnt .cluster i hi)
        · intro k q hk
          obtain ⟨c, x, b1, b2, b3⟩ := (k2 k q hk).1
          refine ⟨c, x, b1, b2, ?_⟩
          have := List.mem_map_of_mem (f := fun c : Cluster => (c.processorStart, c.processorCount,
            c.coreStart, c.coreCount)) (List.mem_of_getElem? b2)
          rw [g3] at this
          obtain ⟨i, _, he⟩ := List.mem_map.mp this
          have e1 : i = x.processorStart := congrArg Prod.fst he
          have e2 : i = x.coreStart := congrArg (fun y => y.2.2.1) he
          rw [← e2, e1, b3]
      · refine divides_groups L hall hn (hc .package) (·.processorStart) hcs _ _ _ _ ?_ ?_
        · have := congrArg (List.map fun x => (x.2.2.1, x.2.2.2.1)) g4
          rw [List.map_map, List.map_map] at this
          refine Eq.trans this (List.map_congr_left fun i hi => ?_)
          exact congrArg (Prod.mk i) (hcnt .package i hi)
        · intro k q hk
          obtain ⟨c, x, b1, b2, b3⟩ := (k2 k q hk).2
          refine ⟨c, x, b1, b2, ?_⟩
          have := List.mem_map_of_mem (f := fun c : Package => (c.processorStart, c.processorCount,
            c.coreStart, c.coreCount, c.clusterStart, c.clusterCount)) (List.mem_of_getElem? b2)
          rw [g4] at this
          obtain ⟨i, _, he⟩ := List.mem_map.mp this
          have e1 : i = x.processorStart := congrArg Prod.fst he
          have e2 : i = x.coreStart := congrArg (fun y => y.2.2.1) he
          rw [← e2, e1, b3]
    · have hlead : ∀ i, i < n → lead mem .package i = 0 := fun i hi => by
        show (mem .package i).headD 0 = 0
        rw [hone i hi]
        obtain ⟨m, rfl⟩ : ∃ m, n = m + 1 := ⟨n - 1, by omega⟩
        rw [List.range_succ_eq_map]; rfl
      have hf : (List.range n).filter (fun i => lead mem .package i = i) = [0] := by
        obtain ⟨m, rfl⟩ : ∃ m, n = m + 1 := ⟨n - 1, by omega⟩
        rw [List.range_succ_eq_map, List.filter_cons_of_pos (by simpa using hlead 0 (by omega))]
        refine congrArg _ (List.filter_eq_nil_iff.mpr fun j hj => ?_)
        obtain ⟨i, hi, rfl⟩ := List.mem_map.mp hj
        have := hlead (i + 1) (by have := List.mem_range.mp hi; omega)
        simp only [Nat.succ_eq_add_one, this, decide_eq_true_eq]
        omega
      rw [hf] at g4
      have hgl : s.packages.length = 1 := by
        have := congrArg List.length g4
        simpa using this
      obtain ⟨x, hx⟩ := List.length_eq_one_iff.mp hgl
      rw [hx] at g4 ⊢
      have hkl : s.clusters.length = (List.range n).countP fun i => lead mem .cluster i = i := by
        have := congrArg List.length g3
        rw [List.length_map, List.length_map, ← List.countP_eq_length_filter] at this
        exact this
      have hx' := (List.cons.inj g4).1
      refine divides_one _ x _ _ _ ?_ ?_ ?_ fun k q hk => ?_
      · rw [hkl]
        refine List.countP_pos_iff.mpr ⟨0, List.mem_range.mpr hn0, ?_⟩
        have := lead_le L (l := .cluster) (hall 0 hn0) ((L.grouping .cluster).self 0 (hall 0 hn0))
        simpa using Nat.le_zero.mp this
      · exact congrArg (fun y => y.2.2.2.2.1) hx'
      · have e2 := congrArg (fun y => y.2.2.2.2.2) hx'
        refine Eq.trans e2 ?_
        show (mem .package 0).countP _ = _
        rw [hone 0 hn0, hkl]
      · obtain ⟨c, z, b1, b2, _⟩ := k3 k q hk
        rw [hx] at b2
        have := (List.getElem?_eq_some_iff.mp b2).1
        simp at this
        subst this
        exact b1

end

/-! ## Machines that break the properties -/

/-- A list of ranges of numbers below 10, as the kernel prints it. -/
def digits (rs : List (Nat × Nat)) : Bytes :=
  joinComma (rs.map fun r => if r.1 = r.2 then [48 + r.1] else [48 + r.1, 45, 48 + r.2]) ++ [10]

theorem digits_eq (rs : List (Nat × Nat)) (h : ∀ r ∈ rs, r.1 < 10 ∧ r.2 < 10) :
    digits rs = printCpuList rs := by
  have hd : ∀ n, n < 10 → printNat n = [48 + n] := fun n hn => by unfold printNat; rw [dif_pos hn]
  unfold digits printCpuList
  refine congrArg (fun x => joinComma x ++ [10]) (List.map_congr_left fun r hr => ?_)
  unfold printRange
  rw [hd _ (h r hr).1, hd _ (h r hr).2]
  rfl

theorem kernelMax_eq : b!"63\n" = printNat 63 ++ [10] := by
  simp +decide [printNat]

/-- A system of files for lists of ranges; nothing else can be read. -/
def machine (present : List (Nat × Nat)) (core cluster package : Nat → List (Nat × Nat))
    (qsort : List Proc → List Proc) : System where
  kernelMax := (some b!"63\n", fullSched 100)
  present := (some (digits present), fullSched 100)
  coreCpus i := (some (digits (core i)), fullSched 100)
  clusterCpus i := (some (digits (cluster i)), fullSched 100)
  packageCpus i := (some (digits (package i)), fullSched 100)
  coreId _ := (none, fullSched 100)
  frequency _ := (none, fullSched 100)
  hwprobe _ := none
  qsort := qsort

/-- What is published by a system when all allocations succeed. -/
def riscvShown (y : System) : Option (Globals Elem) :=
  (init y fun _ => true).map fun st => applyAll st (.initial (E := Elem) ⟨0, 0, 0⟩)

/-- A table that is shown. -/
def riscvTable (y : System) (k : Kind) : Option (List (Elem k)) := (riscvShown y).bind fun g => g.table k

/-- Four processors whose threads are numbered 0, 2 and 1, 3. -/
def interleaved : System :=
  machine [(0, 3)] (fun i => [(i % 2, i % 2), (i % 2 + 2, i % 2 + 2)]) (fun _ => [(0, 3)])
    (fun _ => [(0, 3)]) id

/-- **C48 (broken).** Threads of a core need not have neighbouring numbers.  With siblings 0, 2 and
1, 3 processor 2 is linked to the core of processors 1 and 3. -/
theorem C48_violated_interleaved :
    ∃ (ps : List Processor) (cs : List Core), riscvTable interleaved .processor = some ps ∧
      riscvTable interleaved .core = some cs ∧
      ps.map (fun p => (p.linuxId, p.core)) = [(0, some 0), (1, some 1), (2, some 1), (3, some 1)] ∧
      cs.map (fun c => (c.processorStart, c.processorCount)) = [(0, 2), (1, 2)] :=
  ⟨_, _, rfl, rfl, rfl, rfl⟩

/-- Two clusters of one core with two threads each. -/
def threads : System :=
  machine [(0, 3)] (fun i => [(i / 2 * 2, i / 2 * 2 + 1)]) (fun i => [(i / 2 * 2, i / 2 * 2 + 1)])
    (fun _ => [(0, 3)]) id

/-- **C48 (broken).** `core_start` of a cluster is a processor number, not the index of a core: with
two threads per core the second cluster starts at core 2 of two. -/
theorem C48_violated_core_start :
    ∃ (cs : List Core) (ks : List Cluster), riscvTable threads .core = some cs ∧
      riscvTable threads .cluster = some ks ∧ cs.length = 2 ∧
      ks.map (fun k => (k.coreStart, k.coreCount)) = [(0, 1), (2, 1)] ∧
      ¬ Divides cs ks (·.cluster) (·.coreStart) (·.coreCount) := by
  refine ⟨_, _, rfl, rfl, rfl, rfl, fun h => ?_⟩
  obtain ⟨k, e, h1, h2, h3⟩ := h.2 1 _ rfl
  cases h1
  cases h2
  exact absurd h3 (by unfold InRange; decide)

/-- Two packages of two clusters with two cores each. -/
def packages : System :=
  machine [(0, 7)] (fun i => [(i, i)]) (fun i => [(i / 2 * 2, i / 2 * 2 + 1)])
    (fun i => [(i / 4 * 4, i / 4 * 4 + 3)]) id

/-- **C48 (broken).** `cluster_start` of a package is a processor number, not the index of a
cluster. -/
theorem C48_violated_cluster_start :
    ∃ (ks : List Cluster) (gs : List Package), riscvTable packages .cluster = some ks ∧
      riscvTable packages .package = some gs ∧ ks.length = 4 ∧
      gs.map (fun k => (k.clusterStart, k.clusterCount)) = [(0, 2), (4, 2)] ∧
      ¬ Divides ks gs (·.package) (·.clusterStart) (·.clusterCount) := by
  refine ⟨_, _, rfl, rfl, rfl, rfl, fun h => ?_⟩
  obtain ⟨k, e, h1, h2, h3⟩ := h.2 2 _ rfl
  cases h1
  cases h2
  exact absurd h3 (by unfold InRange; decide)

/-- Processor 1 is missing. -/
def hole : System :=
  machine [(0, 0), (2, 3)] (fun i => [(i, i)]) (fun i => if i = 0 then [(0, 0)] else [(2, 3)])
    (fun _ => [(0, 0), (2, 3)]) id

/-- **C48 (broken).** `processor_start` is a processor number, not an index into the table, which
leaves out processors that are not present. -/
theorem C48_violated_processor_start :
    ∃ (ps : List Processor) (ks : List Cluster), riscvTable hole .processor = some ps ∧
      riscvTable hole .cluster = some ks ∧ ps.length = 3 ∧
      ks.map (fun k => (k.processorStart, k.processorCount)) = [(0, 1), (2, 2)] ∧
      ¬ Divides ps ks (·.cluster) (·.processorStart) (·.processorCount) := by
  refine ⟨_, _, rfl, rfl, rfl, rfl, fun h => ?_⟩
  obtain ⟨k, e, h1, h2, h3⟩ := h.2 1 _ rfl
  cases h1
  cases h2
  exact absurd h3 (by unfold InRange; decide)

/-- **C100 (broken).** The sort may leave equal elements in any order; `qsort` of the C library need
not be stable.  If it puts the second thread of a core first, the core's cluster is written before the
beginning of the table. -/
theorem C100_violated_unstable_sort :
    ∃ y : System, (∀ t, (y.qsort t).Perm t) ∧
      (∃ present mem, Layout y 2 present mem ∧ Within present (mem .core) (mem .cluster) ∧
        Within present (mem .cluster) (mem .package)) ∧ init y (fun _ => true) = none := by
  refine ⟨machine [(0, 1)] (fun _ => [(0, 1)]) (fun _ => [(0, 1)]) (fun _ => [(0, 1)]) List.reverse,
    fun t => t.reverse_perm, ⟨fun i => i < 2, fun _ _ => [0, 1], ?_, fun i _ j h => h,
      fun i _ j h => h⟩, rfl⟩
  have hall : ∀ i, i ∈ [0, 1] ↔ i < 2 := by
    intro i; simp only [List.mem_cons, List.not_mem_nil, or_false]; omega
  refine ⟨⟨63, congrArg some kernelMax_eq, fun _ h => (by cases h), by decide, by decide⟩,
    ⟨[(0, 1)], congrArg some (digits_eq _ (by decide)), fun _ h => (by cases h), by decide, by decide,
      by decide, fun i => (hall i).symm⟩,
    fun l => ⟨fun i hi => (hall i).mpr hi, fun i _ j hj => ⟨(hall j).mp hj, rfl⟩, fun _ _ => by decide⟩,
    fun l i _ => ⟨[(0, 1)], ?_, ?_, by decide, by decide, rfl⟩⟩
  · cases l <;> exact congrArg some (digits_eq [(0, 1)] (by decide))
  · cases l <;> exact fun _ h => (by cases h)

/-! ## C102 -/

/-- **C102 (broken).** Inconsistent lists — processor 0 is listed as a thread of the core of processor
1 only — lead to a write before the beginning of the table of cores, even with a stable sort. -/
theorem C102_violated_inconsistent_lists :
    init (machine [(0, 1)] (fun _ => [(1, 1)]) (fun _ => [(0, 1)]) (fun _ => [(0, 1)]) id)
      (fun _ => true) = none := rfl

/-! ## Examples -/

/-- The machine with holes meets the hypotheses of C48, C99, C100, C101. -/
def holeMembers : Lvl → Nat → List Nat
  | .core, i => [i]
  | .cluster, i => if i = 0 then [0] else [2, 3]
  | .package, _ => [0, 2, 3]

example : Layout hole 4 (fun i => i = 0 ∨ i = 2 ∨ i = 3) holeMembers ∧
    Within (fun i => i = 0 ∨ i = 2 ∨ i = 3) (holeMembers .core) (holeMembers .cluster) ∧
    Within (fun i => i = 0 ∨ i = 2 ∨ i = 3) (holeMembers .cluster) (holeMembers .package) ∧
    (∀ l, Convex (fun i => i = 0 ∨ i = 2 ∨ i = 3) (holeMembers l)) ∧ StableSort hole := by
  have d : ∀ rs : List (Nat × Nat), (∀ r ∈ rs, r.1 < 10 ∧ r.2 < 10) →
      some (digits rs) = some (printCpuList rs) := fun rs h => congrArg some (digits_eq rs h)
  have ne : (fullSched 100).NoError := fun _ h => by cases h
  refine ⟨⟨⟨63, congrArg some kernelMax_eq, ne, by decide, by decide⟩,
    ⟨[(0, 0), (2, 3)], d [(0, 0), (2, 3)] (by decide), ne, by decide, by decide, by decide, fun i => ?_⟩, fun l => ?_,
    fun l i hi => ?_⟩, ?_, ?_, fun l => ?_, fun t _ => rfl⟩
  · show _ ↔ i ∈ [0, 2, 3]
    simp
  · refine ⟨?_, ?_, ?_⟩
    · rintro i (rfl | rfl | rfl) <;> cases l <;> decide
    · rintro i (rfl | rfl | rfl) <;> cases l <;> decide
    · rintro i (rfl | rfl | rfl) <;> cases l <;> decide
  · cases l with
    | core => exact ⟨[(i, i)], d [(i, i)] (by simp; omega), ne, by simp, by simp, by simp [cover, holeMembers]⟩
    | cluster =>
      rcases hi with rfl | rfl | rfl
      · exact ⟨[(0, 0)], d [(0, 0)] (by decide), ne, by decide, by decide, rfl⟩
      · exact ⟨[(2, 3)], d [(2, 3)] (by decide), ne, by decide, by decide, rfl⟩
      · exact ⟨[(2, 3)], d [(2, 3)] (by decide), ne, by decide, by decide, rfl⟩
    | package => exact ⟨[(0, 0), (2, 3)], d [(0, 0), (2, 3)] (by decide), ne, by decide, by decide, rfl⟩
  · rintro i (rfl | rfl | rfl) <;> decide
  · rintro i (rfl | rfl | rfl) <;> decide
  · rintro i j k (rfl | rfl | rfl) (rfl | rfl | rfl) hk h1 h2 <;> revert hk h1 h2 <;> cases l <;>
      simp [holeMembers] <;> omega

/-- The tables of that machine. -/
example : (riscvTable hole .processor).map (fun ps : List Processor =>
      ps.map fun p => (p.linuxId, p.core, p.cluster, p.package)) =
    some [(0, some 0, some 0, some 0), (2, some 1, some 1, some 0), (3, some 2, some 1, some 0)] := rfl

/-- A machine whose processor 1 is offline. -/
example : init { threads with coreCpus := fun i => if i = 1 then (none, fullSched 1) else threads.coreCpus i }
    (fun _ => true) = some [] := rfl

/-! ## C49 -/

/-- The instruction set record before initialization. -/
def noIsa : Isa := ⟨false, false, false, false, false, false, false, false⟩

theorem hwcapBit_eq (hwcap letter : Nat) : hwcapBit hwcap letter = hwcap.testBit (letter - 65) := by
  unfold hwcapBit
  rw [Nat.and_two_pow]
  cases hwcap.testBit (letter - 65) <;> simp

/-- **C49.** `cpuinfo_has_riscv_i` and so on are the bits of the hardware capabilities for their
letter ('A' is bit 0); `g` stands for `i`, `m`, `a`, `f` and `d` together; `e` is never reported. -/
theorem C49_riscv_isa (hwcap : Nat) :
    let isa := decodeIsa hwcap noIsa
    hasI isa = hwcap.testBit 8 ∧ hasM isa = hwcap.testBit 12 ∧ hasA isa = hwcap.testBit 0 ∧
    hasF isa = hwcap.testBit 5 ∧ hasD isa = hwcap.testBit 3 ∧ hasC isa = hwcap.testBit 2 ∧
    hasV isa = hwcap.testBit 21 ∧ hasE isa = false ∧
    (hasG isa = true ↔ ∀ k ∈ [8, 12, 0, 5, 3], hwcap.testBit k = true) := by
  have h : decodeIsa hwcap noIsa = ⟨hwcapBit hwcap 73, false, hwcapBit hwcap 77, hwcapBit hwcap 65,
      hwcapBit hwcap 70, hwcapBit hwcap 68, hwcapBit hwcap 67, hwcapBit hwcap 86⟩ := by
    unfold decodeIsa
    generalize hwcapBit hwcap 73 = b1
    generalize hwcapBit hwcap 77 = b2
    generalize hwcapBit hwcap 65 = b3
    generalize hwcapBit hwcap 70 = b4
    generalize hwcapBit hwcap 68 = b5
    generalize hwcapBit hwcap 67 = b6
    generalize hwcapBit hwcap 86 = b7
    cases b1 <;> cases b2 <;> cases b3 <;> cases b4 <;> cases b5 <;> cases b6 <;> cases b7 <;> rfl
  intro isa
  have hi : isa = _ := h
  rw [hi]
  simp only [hasI, hasE, hasM, hasA, hasF, hasD, hasG, hasC, hasV, hwcapBit_eq, Nat.reduceSub, true_and,
    Bool.and_eq_true, List.mem_cons, List.not_mem_nil, or_false, forall_eq_or_imp, forall_eq, and_assoc]

example : hasV (decodeIsa 0x20112d noIsa) = true ∧ hasG (decodeIsa 0x20112d noIsa) = true ∧
    hasG (decodeIsa 0x1105 noIsa) = false := by decide

end Verif.Props
