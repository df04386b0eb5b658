import Verif.Proof.RiscvPhase
import Verif.Props.Processors

/-!
# The gathered table of RISC-V processors
-/

set_option autoImplicit false

namespace Verif.Riscv
open Spec Processors
open Platform (put)

/-- The least processor of the group of a processor. -/
def lead (mem : Lvl → Nat → List Nat) (l : Lvl) (j : Nat) : Nat := (mem l j).headD 0

theorem cpus_eq (y : System) (l : Lvl) (i : Nat) : y.cpus l i = listFile y l i := by
  cases l <;> rfl

/-- What is gathered about a present processor. -/
def full (y : System) (mem : Lvl → Nat → List Nat) (j : Nat) : Proc :=
  det y j
    { valid := true, linuxId := j, coreId := 0, vendor := 0, uarch := 0, frequency := 0
      core := grp .core (lead mem .core) (lead mem .cluster) (mem .core j)
      cluster := grp .cluster (lead mem .core) (lead mem .cluster) (mem .cluster j)
      package := grp .package (lead mem .core) (lead mem .cluster) (mem .package j) }

/-- The processor numbers and the valid flags that are read. -/
theorem present_spec {y : System} {n : Nat} {present : Nat → Prop}
    (limit : ∃ v, y.kernelMax.1 = some (printNat v ++ [10]) ∧ y.kernelMax.2.NoError ∧ v < U32MAX ∧
      n ≤ v + 1)
    (list : ∃ rs, y.present.1 = some (printCpuList rs) ∧ y.present.2.NoError ∧ rs ≠ [] ∧
      (∀ r ∈ rs, r.1 ≤ r.2 ∧ r.2 < n) ∧ (∃ r ∈ rs, r.2 + 1 = n) ∧ ∀ i, present i ↔ i ∈ cover rs) :
    0 < n ∧ n ≤ U32MAX ∧ (∀ i, present i → i < n) ∧ ∃ m flags,
      maxProcessorsCount y.kernelMax.1 y.kernelMax.2 = some m ∧
      maxProcessor y.present.1 y.present.2 m = some (n - 1) ∧
      detectProcessors y.present.1 y.present.2 n 1 (List.replicate n 0) = some (some flags, true) ∧
      ∀ i, i < n → ((flags.getD i 0).testBit 0 = true ↔ present i) := by
  obtain ⟨v, v1, v2, v3, v4⟩ := limit
  obtain ⟨rs, r1, r2, r3, r4, r5, r6⟩ := list
  have hn0 : 0 < n := by obtain ⟨r, _, h⟩ := r5; omega
  have hn1 : n ≤ U32MAX := by omega
  have hlt : ∀ i, present i → i < n := by
    intro i hi
    obtain ⟨r, h1, _, h2⟩ := mem_cover.mp ((r6 i).mp hi)
    have := (r4 r h1).2
    omega
  refine ⟨hn0, hn1, hlt, ?_⟩
  have e1 : maxProcessorsCount y.kernelMax.1 y.kernelMax.2 = some (v + 1) := by
    rw [v1]; exact (Props.C09_kernel_max v v3 [10] (.inr rfl) _ v2).1
  obtain ⟨es, he1, he2, he3, he4, he5⟩ := printed_entries rs r3
    (fun r hr => ⟨(r4 r hr).1, by have := (r4 r hr).2; omega⟩)
  have hfit : Props.EntriesFit es :=
    ⟨fun e he => by have := he5 e (List.dropLast_subset _ he); omega,
     fun e he => by have := he5 e (List.mem_of_getLast? he); omega⟩
  have e2 : maxProcessor y.present.1 y.present.2 (v + 1) = some (n - 1) := by
    obtain ⟨largest, l1, l2, l3⟩ := Props.C05_max_is_largest y.present.2 r2 es rs (v + 1) he2 he3 he4 hfit
      (fun r hr => by have := (r4 r hr).2; omega) (by omega) (by omega)
    rw [r1, he1, l3]
    obtain ⟨r, hr, hr'⟩ := r5
    obtain ⟨q, hq, hq'⟩ := l1
    have h1 := l2 r hr
    have h2 := (r4 q hq).2
    rw [Nat.min_def]
    by_cases e : largest ≤ v + 1 - 1
    · rw [if_pos e]; exact congrArg some (by omega)
    · rw [if_neg e]; exact congrArg some (by omega)
  obtain ⟨flags, d1, d2, d3⟩ := Props.C04_detect_printed y.present.2 r2 rs r3
    (fun r hr => ⟨(r4 r hr).1, by have := (r4 r hr).2; omega⟩) n 1 (List.replicate n 0) (by simp)
  have hflag : ∀ i, i < n → ((flags.getD i 0).testBit 0 = true ↔ present i) := by
    intro i hi
    have h := d3 i
    rw [List.getElem?_replicate, if_pos hi, Option.map_some] at h
    rw [List.getD_eq_getElem?_getD, h, Option.getD_some, r6 i, mem_cover]
    by_cases e : i < n ∧ ∃ r ∈ rs, r.1 ≤ i ∧ i ≤ r.2
    · rw [if_pos e]; exact ⟨fun _ => e.2, fun _ => by decide⟩
    · rw [if_neg e]; exact ⟨fun h => absurd h (by decide), fun h => absurd ⟨hi, h⟩ e⟩
  exact ⟨v + 1, flags, e1, e2, r1 ▸ d1, hflag⟩

theorem gather_spec {y : System} {n : Nat} {present : Nat → Prop} {mem : Lvl → Nat → List Nat}
    (L : Layout y n present mem) :
    0 < n ∧ n ≤ U32MAX ∧ (∀ i, present i → i < n) ∧
    ∃ t : List Proc, gather y = some (some t) ∧ t.length = n ∧
      ∀ j, j < n → (present j → t[j]? = some (full y mem j)) ∧ (¬ present j → t[j]? = some zeroProc) := by
  obtain ⟨hn0, hn1, hlt, m, flags, e1, e2, d1, hflag⟩ := present_spec L.limit L.list
  refine ⟨hn0, hn1, hlt, ?_⟩
  let base : Nat → Proc := fun i =>
    let valid := (flags.getD i 0).testBit 0
    { zeroProc with valid := valid, linuxId := if valid then i else 0 }
  let t0 := (List.range n).map base
  have hl0 : t0.length = n := by simp [t0]
  have ht0 : ∀ j, j < n → t0[j]? = some (base j) := by
    intro j hj
    show ((List.range n).map base)[j]? = _
    rw [List.getElem?_map, List.getElem?_range hj]; rfl
  have hbv : ∀ j, (base j).valid = (flags.getD j 0).testBit 0 := fun _ => rfl
  have hlen : ∀ (t t' : List Proc) (f : Nat → Proc → Proc),
      (∀ j : Nat, t'[j]? = (t[j]?).map (f j)) → t.length = n → t'.length = n := by
    intro t t' f h e
    refine Nat.le_antisymm ?_ ?_
    · refine Nat.le_of_not_lt fun hlt => ?_
      have := h n
      rw [List.getElem?_eq_getElem hlt, List.getElem?_eq_none (by omega)] at this
      cases this
    · refine Nat.le_of_not_lt fun hlt => ?_
      have := h t'.length
      rw [List.getElem?_eq_none (Nat.le_refl _), List.getElem?_eq_getElem (by omega)] at this
      cases this
  have hb0 : ∀ (j : Nat) b, t0[j]? = some b → j < n ∧ b = base j := by
    intro j b hb
    have hj : j < n := by have := (List.getElem?_eq_some_iff.mp hb).1; omega
    rw [ht0 j hj] at hb
    exact ⟨hj, (Option.some.inj hb).symm⟩
  -- the core phase
  obtain ⟨t1, f1, g1⟩ := phase y .core (lead mem .core) (lead mem .cluster) (mem .core) present t0
    (by omega) (L.grouping .core) (fun i hi => cpus_eq y .core i ▸ L.files .core i hi) (fun i hi => by rw [hl0]; exact hlt i hi)
    (by
      intro j b hb
      obtain ⟨hj, rfl⟩ := hb0 j b hb
      exact ⟨hflag j hj, fun h => ⟨rfl, h, fun e => absurd rfl e, fun e => by cases e⟩⟩)
  have hl1 := hlen t0 t1 _ g1 hl0
  have hb1 : ∀ (j : Nat) b, t1[j]? = some b → j < n ∧
      b = phaseEnd y .core (lead mem .core) (lead mem .cluster) (mem .core) j (base j) := by
    intro j b hb
    have hj : j < n := by have := (List.getElem?_eq_some_iff.mp hb).1; omega
    rw [g1 j, ht0 j hj] at hb
    exact ⟨hj, (Option.some.inj hb).symm⟩
  have hval1 : ∀ j, (base j).valid = true →
      phaseEnd y .core (lead mem .core) (lead mem .cluster) (mem .core) j (base j) =
        det y j ((base j).set .core (grp .core (lead mem .core) (lead mem .cluster) (mem .core j))) := by
    intro j h; unfold phaseEnd; rw [if_pos h]; rfl
  have hinv1 : ∀ j, ¬ (base j).valid = true →
      phaseEnd y .core (lead mem .core) (lead mem .cluster) (mem .core) j (base j) = base j := by
    intro j h; unfold phaseEnd; rw [if_neg h]
  -- the cluster phase
  obtain ⟨t2, f2, g2⟩ := phase y .cluster (lead mem .core) (lead mem .cluster) (mem .cluster) present t1
    (by omega) (L.grouping .cluster) (fun i hi => cpus_eq y .cluster i ▸ L.files .cluster i hi) (fun i hi => by rw [hl1]; exact hlt i hi)
    (by
      intro j b hb
      obtain ⟨hj, rfl⟩ := hb1 j b hb
      by_cases h : (base j).valid = true
      · rw [hval1 j h]
        exact ⟨⟨fun _ => (hflag j hj).mp h, fun _ => h⟩,
          fun _ => ⟨rfl, h, fun _ => rfl, fun e => by cases e⟩⟩
      · rw [hinv1 j h]
        exact ⟨hflag j hj, fun h' => absurd h' h⟩)
  have hl2 := hlen t1 t2 _ g2 hl1
  have hb2 : ∀ (j : Nat) b, t2[j]? = some b → j < n ∧
      b = phaseEnd y .cluster (lead mem .core) (lead mem .cluster) (mem .cluster) j
        (phaseEnd y .core (lead mem .core) (lead mem .cluster) (mem .core) j (base j)) := by
    intro j b hb
    have hj : j < n := by have := (List.getElem?_eq_some_iff.mp hb).1; omega
    rw [g2 j, g1 j, ht0 j hj] at hb
    exact ⟨hj, (Option.some.inj hb).symm⟩
  have hval2 : ∀ j, (base j).valid = true →
      phaseEnd y .cluster (lead mem .core) (lead mem .cluster) (mem .cluster) j
        (phaseEnd y .core (lead mem .core) (lead mem .cluster) (mem .core) j (base j)) =
      (det y j ((base j).set .core (grp .core (lead mem .core) (lead mem .cluster) (mem .core j)))).set
        .cluster (grp .cluster (lead mem .core) (lead mem .cluster) (mem .cluster j)) := by
    intro j h
    rw [hval1 j h]
    unfold phaseEnd
    refine Eq.trans (if_pos ?_) rfl
    exact h
  have hinv2 : ∀ j, ¬ (base j).valid = true →
      phaseEnd y .cluster (lead mem .core) (lead mem .cluster) (mem .cluster) j
        (phaseEnd y .core (lead mem .core) (lead mem .cluster) (mem .core) j (base j)) = base j := by
    intro j h; rw [hinv1 j h]; unfold phaseEnd; rw [if_neg h]
  -- the package phase
  obtain ⟨t3, f3, g3⟩ := phase y .package (lead mem .core) (lead mem .cluster) (mem .package) present t2
    (by omega) (L.grouping .package) (fun i hi => cpus_eq y .package i ▸ L.files .package i hi) (fun i hi => by rw [hl2]; exact hlt i hi)
    (by
      intro j b hb
      obtain ⟨hj, rfl⟩ := hb2 j b hb
      by_cases h : (base j).valid = true
      · rw [hval2 j h]
        exact ⟨⟨fun _ => (hflag j hj).mp h, fun _ => h⟩,
          fun _ => ⟨rfl, h, fun _ => rfl, fun _ => rfl⟩⟩
      · rw [hinv2 j h]
        exact ⟨hflag j hj, fun h' => absurd h' h⟩)
  have hl3 := hlen t2 t3 _ g3 hl2
  refine ⟨t3, ?_, hl3, fun j hj => ?_⟩
  · unfold gather
    rw [e1]
    show Option.bind (maxProcessor y.present.1 y.present.2 m) _ = _
    rw [e2, Option.bind_some]
    have hne : ¬ (1 + (n - 1)) % U32 = 0 := by
      rw [Nat.mod_eq_of_lt (by omega)]; omega
    have hn' : (1 + (n - 1)) % U32 = n := by rw [Nat.mod_eq_of_lt (by omega)]; omega
    simp only [hn']
    rw [if_neg (by omega)]
    show Option.bind (detectProcessors y.present.1 y.present.2 n 1 (List.replicate n 0)) _ = _
    rw [d1, Option.bind_some]
    show Option.bind (some flags) _ = _
    rw [Option.bind_some]
    refine Eq.trans (if_neg (fun h => h rfl)) ?_
    show orFail (overProcessors (groupRound y .core) n 0 t0) _ = _
    rw [hl0] at f1
    rw [hl1] at f2
    rw [hl2] at f3
    rw [f1]
    show orFail (overProcessors (groupRound y .cluster) n 0 t1) _ = _
    rw [f2]
    exact f3
  · rw [g3 j, g2 j, g1 j, ht0 j hj]
    simp only [Option.map_some, Option.some.injEq]
    refine ⟨fun hp => ?_, fun hp => ?_⟩
    · have h := (hflag j hj).mpr hp
      rw [hval2 j h]
      unfold phaseEnd
      refine Eq.trans (if_pos ?_) ?_
      · exact h
      have hbase : base j = { zeroProc with valid := true, linuxId := j } := by
        show ({ zeroProc with valid := (flags.getD j 0).testBit 0,
                              linuxId := if (flags.getD j 0).testBit 0 then j else 0 } : Proc) = _
        rw [h]; rfl
      rw [hbase]
      rfl
    · have h : ¬ (base j).valid = true := fun h => hp ((hflag j hj).mp h)
      rw [hinv2 j h]
      unfold phaseEnd
      rw [if_neg h]
      show ({ zeroProc with valid := (flags.getD j 0).testBit 0,
                            linuxId := if (flags.getD j 0).testBit 0 then j else 0 } : Proc) = _
      have h' : (flags.getD j 0).testBit 0 = false := by
        have : ¬ (flags.getD j 0).testBit 0 = true := h
        simpa using this
      rw [h']; rfl

/-! ### No access outside the table, whatever the files contain -/

theorem put_some {α : Type} {t : List α} {i : Nat} (x : α) (h : i < t.length) :
    put t i x = some (t.set i x) := if_pos h

theorem set_linuxId (p : Proc) (l : Lvl) (g : Group) : (p.set l g).linuxId = p.linuxId := by
  cases l <;> rfl

/-- The valid processors of a table and the numbers. -/
def vs (t : List Proc) : List (Bool × Nat) := t.map fun p => (p.valid, p.linuxId)

theorem vs_length {t t' : List Proc} (h : vs t' = vs t) : t'.length = t.length := by
  have := congrArg List.length h
  simpa [vs] using this

theorem vs_set {t : List Proc} {i : Nat} {p q : Proc} (hp : t[i]? = some p) (h : q.valid = p.valid)
    (h' : q.linuxId = p.linuxId) :
    vs (t.set i q) = vs t := by
  unfold vs
  rw [List.map_set, h, h']
  refine List.ext_getElem? fun j => ?_
  rw [List.getElem?_set]
  by_cases e : i = j
  · subst e
    rw [if_pos rfl, List.getElem?_map, hp]
    have := (List.getElem?_eq_some_iff.mp hp).1
    rw [if_pos (by simpa using this)]; rfl
  · rw [if_neg e]

theorem scanStep_total (l : Lvl) (c : Nat) (s : List Proc × Scan) (h : c < s.1.length) :
    ∃ s', scanStep l c s = some s' ∧ vs s'.1 = vs s.1 := by
  unfold scanStep
  show ∃ s', Option.bind (s.1[c]?) _ = some s' ∧ _
  rw [List.getElem?_eq_getElem h, Option.bind_some]
  by_cases hv : s.1[c].valid = true
  · rw [if_pos hv]
    refine ⟨_, congrArg (fun x => Option.bind x _) (put_some _ h),
      vs_set (List.getElem?_eq_getElem h) (set_valid _ _ _) (set_linuxId _ _ _)⟩
  · rw [if_neg hv]
    exact ⟨s, rfl, rfl⟩

theorem parser_total (l : Lvl) (i a b : Nat) (t : List Proc) (hi : i < t.length) (hb : b ≤ t.length) :
    ∃ t' k, parser l i a b t = some (t', k) ∧ vs t' = vs t := by
  unfold parser
  show ∃ t' k, Option.bind (t[i]?) _ = some (t', k) ∧ _
  rw [List.getElem?_eq_getElem hi, Option.bind_some]
  by_cases hab : a ≤ b
  · obtain ⟨s, e1, e2⟩ := ArmClusters.forRange_total (scanStep l)
      (fun _ (s : List Proc × Scan) => vs s.1 = vs t) b
      (fun j s hj hs => by
        obtain ⟨s', h1, h2⟩ := scanStep_total l j s (by have := vs_length hs; omega)
        exact ⟨s', h1, h2.trans hs⟩)
      (b - a) a (t, ⟨if (t[i].get l).seen then (t[i].get l).leader else U32MAX, 0, 0, 0⟩)
      (by omega) rfl
    show ∃ t' k, Option.bind (ArmClusters.forRange (scanStep l) (b - a) a (t, _)) _ = some (t', k) ∧ _
    rw [e1, Option.bind_some]
    unfold finishParser
    have e3 := vs_length e2
    show ∃ t' k, Option.bind (Option.bind (s.1[i]?) _) _ = some (t', k) ∧ _
    rw [List.getElem?_eq_getElem (by omega), Option.bind_some]
    refine ⟨_, _, congrArg (fun x => Option.bind x _) (put_some _ (by omega)), ?_⟩
    exact (vs_set (List.getElem?_eq_getElem (by omega)) (set_valid _ _ _) (set_linuxId _ _ _)).trans e2
  · rw [show b - a = 0 by omega]
    show ∃ t' k, Option.bind (finishParser l i t _) _ = some (t', k) ∧ _
    unfold finishParser
    show ∃ t' k, Option.bind (Option.bind (t[i]?) _) _ = some (t', k) ∧ _
    rw [List.getElem?_eq_getElem hi, Option.bind_some]
    exact ⟨_, _, congrArg (fun x => Option.bind x _) (put_some _ hi),
      vs_set (List.getElem?_eq_getElem hi) (set_valid _ _ _) (set_linuxId _ _ _)⟩

theorem readGroup_total (y : System) (l : Lvl) (i : Nat) (t : List Proc) (hi : i < t.length) :
    readGroup y l i t = some none ∨
      ∃ t', readGroup y l i t = some (some t') ∧ vs t' = vs t := by
  unfold readGroup detectSiblings
  obtain ⟨s, ok, h1, t', h2, h3⟩ := CpuList.parse_invariant
    (siblingsCallback t.length i (callback l))
    (fun s => ∃ t' : List Proc, s = some t' ∧ vs t' = vs t)
    (by
      rintro s a b ⟨t', rfl, ht'⟩
      have hl := vs_length ht'
      unfold siblingsCallback callback
      obtain ⟨t2, k, e1, e2⟩ := parser_total l i a (if b > t.length then t.length else b) t' (by omega)
        (by by_cases e : b > t.length <;> simp [e] <;> omega)
      rw [Option.bind_some, e1]
      exact ⟨t2, rfl, e2.trans ht'⟩)
    (y.cpus l i).1 (y.cpus l i).2 (some t) ⟨t, rfl, rfl⟩
  subst h2
  rw [h1, Option.bind_some]
  dsimp only
  cases ok with
  | true => exact .inr ⟨t', rfl, h3⟩
  | false => exact .inl rfl

theorem groupRound_total (y : System) (l : Lvl) (i : Nat) (t : List Proc) (hi : i < t.length) :
    groupRound y l i t = some none ∨
      ∃ t', groupRound y l i t = some (some t') ∧ vs t' = vs t := by
  unfold groupRound
  show Option.bind (t[i]?) _ = _ ∨ ∃ t', Option.bind (t[i]?) _ = _ ∧ _
  rw [List.getElem?_eq_getElem hi, Option.bind_some]
  by_cases hv : t[i].valid = true
  · rw [if_pos hv]
    rcases readGroup_total y l i t hi with h | ⟨t', h, h'⟩
    · rw [h]; exact .inl rfl
    · rw [h]
      show (if l = .core then (coreDetails y i t').map some else some (some t')) = _ ∨ ∃ t'',
        (if l = .core then (coreDetails y i t').map some else some (some t')) = _ ∧ _
      by_cases e : l = .core
      · have hl := vs_length h'
        rw [if_pos e, coreDetails_eq y i t' t'[i] (List.getElem?_eq_getElem (by omega))]
        exact .inr ⟨_, rfl, Eq.trans (vs_set
          (List.getElem?_eq_getElem (show i < t'.length by omega)) (q := det y i _) rfl rfl) h'⟩
      · rw [if_neg e]; exact .inr ⟨t', rfl, h'⟩
  · rw [if_neg hv]
    exact .inr ⟨t, rfl, rfl⟩

theorem maxCount_total (file : Option Bytes) (sched : Sched) :
    ∃ m, maxProcessorsCount file sched = some m := by
  obtain ⟨r, hr⟩ := readNumber_total file sched
  unfold maxProcessorsCount
  rw [hr]
  exact ⟨_, rfl⟩

theorem maxProcessor_total (file : Option Bytes) (sched : Sched) (m : Nat) :
    ∃ k, maxProcessor file sched m = some k := by
  obtain ⟨s', ok, h, _⟩ := CpuList.parse_invariant maxNumberCallback (fun _ => True)
    (by simp) file sched 0 trivial
  unfold maxProcessor
  rw [h]
  exact ⟨_, rfl⟩

theorem groupRound_missing (y : System) (l : Lvl) (i : Nat) (t : List Proc)
    (hv : (vs t)[i]?.map Prod.fst = some true) (hf : (y.cpus l i).1 = none) : groupRound y l i t = some none := by
  unfold vs at hv
  rw [List.getElem?_map, Option.map_map] at hv
  obtain ⟨p, hp, hv⟩ := Option.map_eq_some_iff.mp hv
  unfold groupRound
  show Option.bind (t[i]?) _ = _
  rw [hp, Option.bind_some, if_pos (show p.valid = true from hv)]
  have : readGroup y l i t = some none := by
    unfold readGroup detectSiblings
    rw [hf]
    rfl
  rw [this]
  rfl

/-- A phase keeps the valid processors, or fails; it fails if a file is missing. -/
theorem phase_total (y : System) (l : Lvl) (t : List Proc) :
    overProcessors (groupRound y l) t.length 0 t = some none ∨
      ∃ t', overProcessors (groupRound y l) t.length 0 t = some (some t') ∧ vs t' = vs t ∧
        ∀ i, (vs t)[i]?.map Prod.fst = some true → (y.cpus l i).1 ≠ none := by
  have key : ∀ (n i : Nat) (s : List Proc), i + n = t.length → vs s = vs t →
      (∀ j < i, (vs t)[j]?.map Prod.fst = some true → (y.cpus l j).1 ≠ none) →
      overProcessors (groupRound y l) n i s = some none ∨
        ∃ t', overProcessors (groupRound y l) n i s = some (some t') ∧ vs t' = vs t ∧
          ∀ j < t.length, (vs t)[j]?.map Prod.fst = some true → (y.cpus l j).1 ≠ none := by
    intro n
    induction n with
    | zero => intro i s hi hs hj; exact .inr ⟨s, rfl, hs, fun j h => hj j (by omega)⟩
    | succ n ih =>
      intro i s hi hs hj
      have hl := vs_length hs
      rw [overProcessors]
      by_cases hm : (vs t)[i]?.map Prod.fst = some true ∧ (y.cpus l i).1 = none
      · rw [groupRound_missing y l i s (by rw [hs]; exact hm.1) hm.2]
        exact .inl rfl
      · rcases groupRound_total y l i s (by omega) with h | ⟨s', h, h'⟩
        · rw [h]; exact .inl rfl
        · rw [h]
          refine ih (i + 1) s' (by omega) (h'.trans hs) fun j hj' hv => ?_
          by_cases e : j = i
          · subst e; exact fun hf => hm ⟨hv, hf⟩
          · exact hj j (by omega) hv
  rcases key t.length 0 t (by omega) rfl (fun j hj => absurd hj (Nat.not_lt_zero _)) with h | ⟨t', h, h', h''⟩
  · exact .inl h
  · refine .inr ⟨t', h, h', fun i hi => h'' i ?_ hi⟩
    obtain ⟨_, hx, _⟩ := Option.map_eq_some_iff.mp hi
    have := (List.getElem?_eq_some_iff.mp hx).1
    simpa [vs] using this

/-- The phases fail or keep the valid processors; they fail if a file is missing. -/
theorem phases_total (y : System) (t0 : List Proc) :
    (orFail (overProcessors (groupRound y .core) t0.length 0 t0) fun t =>
      orFail (overProcessors (groupRound y .cluster) t0.length 0 t) fun t =>
      overProcessors (groupRound y .package) t0.length 0 t) = some none ∨
    ∃ t, (orFail (overProcessors (groupRound y .core) t0.length 0 t0) fun t =>
      orFail (overProcessors (groupRound y .cluster) t0.length 0 t) fun t =>
      overProcessors (groupRound y .package) t0.length 0 t) = some (some t) ∧ vs t = vs t0 ∧
      ∀ i, (vs t0)[i]?.map Prod.fst = some true → ∀ l, (y.cpus l i).1 ≠ none := by
  rcases phase_total y .core t0 with h | ⟨t1, h, h1, m1⟩
  · rw [h]; exact .inl rfl
  rw [h]
  show orFail (overProcessors (groupRound y .cluster) t0.length 0 t1) _ = _ ∨
    ∃ t, orFail (overProcessors (groupRound y .cluster) t0.length 0 t1) _ = _ ∧ _
  have l1 := vs_length h1
  rw [← l1]
  rcases phase_total y .cluster t1 with h | ⟨t2, h, h2, m2⟩
  · rw [h]; exact .inl rfl
  rw [h]
  show overProcessors (groupRound y .package) t1.length 0 t2 = _ ∨
    ∃ t, overProcessors (groupRound y .package) t1.length 0 t2 = _ ∧ _
  have l2 := vs_length h2
  rw [← l2]
  rcases phase_total y .package t2 with h | ⟨t3, h, h3, m3⟩
  · exact .inl h
  · refine .inr ⟨t3, h, by rw [h3, h2, h1], fun i hi l => ?_⟩
    cases l with
    | package => exact m3 i (by rw [h2, h1]; exact hi)
    | cluster => exact m2 i (by rw [h1]; exact hi)
    | core => exact m1 i hi

/-- Reading fails or yields a table; it fails if a file of a processor that is there is missing. -/
theorem gather_total' (y : System) (m k : Nat)
    (e1 : maxProcessorsCount y.kernelMax.1 y.kernelMax.2 = some m)
    (e2 : maxProcessor y.present.1 y.present.2 m = some k) : gather y = some none ∨
    ∃ flags t, detectProcessors y.present.1 y.present.2 ((1 + k) % U32) 1
        (List.replicate ((1 + k) % U32) 0) = some (some flags, true) ∧
      gather y = some (some t) ∧ t.length = (1 + k) % U32 ∧
      (∀ i, i < t.length → (vs t)[i]? = some ((flags.getD i 0).testBit 0,
        if (flags.getD i 0).testBit 0 then i else 0)) ∧
      ∀ i, (vs t)[i]?.map Prod.fst = some true → ∀ l, (y.cpus l i).1 ≠ none := by
  unfold gather
  rw [e1]
  show Option.bind (maxProcessor y.present.1 y.present.2 m) _ = _ ∨
    ∃ flags t, _ ∧ Option.bind (maxProcessor y.present.1 y.present.2 m) _ = _ ∧ _
  rw [e2, Option.bind_some]
  generalize (1 + k) % U32 = n
  dsimp only
  by_cases h0 : n = 0
  · rw [if_pos h0]; exact .inl rfl
  · rw [if_neg h0]
    obtain ⟨flags, ok, d1, d2⟩ := Props.C04_detect_in_bounds y.present.1 y.present.2 n 1
      (List.replicate n 0) (by simp)
    show Option.bind (detectProcessors y.present.1 y.present.2 n 1 (List.replicate n 0)) _ = _ ∨
      ∃ flags t, _ ∧ Option.bind (detectProcessors y.present.1 y.present.2 n 1 (List.replicate n 0)) _ = _ ∧ _
    rw [d1, Option.bind_some]
    show Option.bind (some flags) _ = _ ∨ ∃ flags' t, _ ∧ Option.bind (some flags) _ = _ ∧ _
    rw [Option.bind_some]
    cases ok with
    | false => exact .inl (if_pos (fun h => by cases h))
    | true =>
      rw [if_neg (fun h => h rfl)]
      generalize ht0 : ((List.range n).map fun i =>
          let valid := (flags.getD i 0).testBit 0
          ({ zeroProc with valid := valid, linuxId := if valid then i else 0 } : Proc)) = t0
      have hl0 : t0.length = n := by rw [← ht0]; simp
      have hv0 : ∀ i, i < n → (vs t0)[i]? = some ((flags.getD i 0).testBit 0,
          if (flags.getD i 0).testBit 0 then i else 0) := by
        intro i hi
        rw [← ht0, vs, List.getElem?_map, List.getElem?_map, List.getElem?_range hi]
        rfl
      have key := phases_total y t0
      rw [hl0] at key
      rcases key with h | ⟨t, h, h1, h2⟩
      · exact .inl h
      · have := vs_length h1
        refine .inr ⟨flags, t, rfl, h, by omega, fun i hi => ?_, fun i hi => h2 i (h1 ▸ hi)⟩
        rw [h1]; exact hv0 i (by omega)

/-- Reading never goes out of bounds. -/
theorem gather_total (y : System) : gather y = some none ∨
    ∃ t, gather y = some (some t) ∧ t.length < U32 ∧
      ∀ (i : Nat) p, t[i]? = some p → p.valid = true → p.linuxId = i := by
  obtain ⟨m, e1⟩ := maxCount_total y.kernelMax.1 y.kernelMax.2
  obtain ⟨k, e2⟩ := maxProcessor_total y.present.1 y.present.2 m
  rcases gather_total' y m k e1 e2 with h | ⟨_, t, _, h, h', h'', _⟩
  · exact .inl h
  · refine .inr ⟨t, h, h' ▸ Nat.mod_lt _ (by decide), fun i p hp hv => ?_⟩
    have := h'' i (List.getElem?_eq_some_iff.mp hp).1
    rw [vs, List.getElem?_map, hp] at this
    have := Option.some.inj this
    have e1 := congrArg Prod.fst this
    have e2 := congrArg Prod.snd this
    dsimp only at e1 e2
    rw [e2, ← e1, if_pos hv]

/-- A present processor without one of its lists makes everything fail. -/
theorem gather_missing {y : System} {n : Nat} {present : Nat → Prop}
    (limit : ∃ v, y.kernelMax.1 = some (printNat v ++ [10]) ∧ y.kernelMax.2.NoError ∧ v < U32MAX ∧
      n ≤ v + 1)
    (list : ∃ rs, y.present.1 = some (printCpuList rs) ∧ y.present.2.NoError ∧ rs ≠ [] ∧
      (∀ r ∈ rs, r.1 ≤ r.2 ∧ r.2 < n) ∧ (∃ r ∈ rs, r.2 + 1 = n) ∧ ∀ i, present i ↔ i ∈ cover rs)
    (i : Nat) (hi : present i) (l : Lvl) (hm : (listFile y l i).1 = none) : gather y = some none := by
  rw [← cpus_eq] at hm
  obtain ⟨hn0, hn1, hlt, m, flags, e1, e2, d1, hflag⟩ := present_spec limit list
  have hn : (1 + (n - 1)) % U32 = n := by
    rw [Nat.mod_eq_of_lt (by omega)]; omega
  rcases gather_total' y m (n - 1) e1 e2 with h | ⟨flags', t, d1', h, h1, h2, h3⟩
  · exact h
  · rw [hn] at d1' h1
    rw [d1] at d1'
    cases Option.some.inj d1'
    have hv := h2 i (by rw [h1]; exact hlt i hi)
    rw [(hflag i (hlt i hi)).mpr hi] at hv
    exact absurd hm (h3 i (by rw [hv]; rfl) l)

end Verif.Riscv
