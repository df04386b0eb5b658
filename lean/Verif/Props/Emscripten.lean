import Verif.Proof.Emscripten
import Verif.Proof.Divides
import Verif.Props.Api

/-!
C50 and C94: what src/emscripten/init.c publishes, for every answer of
`emscripten_num_logical_cores`.
-/

set_option autoImplicit false

namespace Verif.Props
open Verif.Api Verif.Spec Verif.Platform
open Verif.Once (elem_some elem_fault)
open Verif.Emscripten (init counts countsOf countsOf_ok counts_ok commit init_eq processorCount_pos)

/-- The builds for Emscripten: one kind of cores, not Linux. -/
def emscriptenBuild : Build := ⟨false, false⟩

/-- How many logical processors there are. -/
def logicalProcessors (answer : Int) : Nat := if answer ≤ 0 then 1 else answer.toNat

/-- How many cores there are: pairs of logical processors on x86 if their number is even. -/
def emscriptenCores (isX86 : Bool) (answer : Int) : Nat :=
  if isX86 = true ∧ logicalProcessors answer % 2 = 0 then logicalProcessors answer / 2
  else logicalProcessors answer

theorem emscripten_count (answer : Int) :
    Emscripten.processorCount answer = logicalProcessors answer := by
  unfold Emscripten.processorCount logicalProcessors
  split <;> rfl

theorem emscripten_cores (isX86 : Bool) (answer : Int) :
    (counts isX86 answer).cores = emscriptenCores isX86 answer := by
  unfold counts emscriptenCores countsOf
  rw [emscripten_count]
  cases isX86 with
  | true =>
    by_cases he : logicalProcessors answer % 2 = 0 <;> simp [he]
  | false =>
    by_cases he : logicalProcessors answer > 4 <;> simp [he]

theorem emscripten_processors (isX86 : Bool) (answer : Int) :
    (counts isX86 answer).processors = logicalProcessors answer := by
  unfold counts countsOf
  rw [emscripten_count]
  cases isX86 with
  | true =>
    by_cases he : logicalProcessors answer % 2 = 0 <;> simp [he]
  | false =>
    by_cases he : logicalProcessors answer > 4 <;> simp [he]

theorem emscripten_isX86 (isX86 : Bool) (answer : Int) : (counts isX86 answer).isX86 = isX86 := by
  unfold counts countsOf
  rw [emscripten_count]
  cases isX86 with
  | true =>
    by_cases he : logicalProcessors answer % 2 = 0 <;> simp [he]
  | false =>
    by_cases he : logicalProcessors answer > 4 <;> simp [he]

theorem emscripten_flag_last (c : Emscripten.Counts) (s : Emscripten.State) :
    FlagLast (commit c s) := by
  refine .inr ⟨(commit c s).dropLast, true, fun x hx => ?_, ?_⟩
  · intro g
    cases x with
    | flag b =>
      unfold commit at hx
      cases hc : c.isX86 <;> rw [hc] at hx <;> simp at hx
    | _ => rfl
  · unfold commit
    cases c.isX86 <;> rfl

theorem emscripten_flag (c : Emscripten.Counts) (s : Emscripten.State) (g : Globals Elem) :
    (applyAll (commit c s) g).isInitialized = true := by
  unfold commit
  cases c.isX86 <;> rfl

/-- **C94.** Initialization does nothing undefined; it stores nothing if an allocation fails, and
otherwise reports success with its last store. -/
theorem C94_no_fault (isX86 : Bool) (answer : Int) (alloc : Nat → Bool) (u : Elem .uarch) :
    ∃ st, init isX86 answer alloc = some st ∧ FlagLast st ∧
      ((applyAll st (.initial u)).isInitialized = true ↔ ∀ i < 6, alloc i = true) := by
  rcases init_eq isX86 answer alloc with ⟨⟨i, hi, hf⟩, h⟩ | ⟨ha, s, -, h⟩
  · refine ⟨_, h, .inl rfl, ?_⟩
    constructor
    · intro h; cases h
    · intro h; rw [h i hi] at hf; cases hf
  · refine ⟨_, h, emscripten_flag_last _ _, ?_⟩
    exact ⟨fun _ => ha, fun _ => emscripten_flag _ _ _⟩

/-- What is published. -/
structure EmscriptenTables (g : Globals Elem) where
  processors : List Processor
  cores : List Core
  clusters : List Cluster
  package : X86Init.Package
  l1i : List X86Init.Cache
  l1d : List X86Init.Cache
  l2 : List X86Init.Cache
  l3 : Option X86Init.Cache
  hprocessors : g.table .processor = some processors
  hcores : g.table .core = some cores
  hclusters : g.table .cluster = some clusters
  hpackage : g.table .package = some [package]
  hl1i : g.table (.cache .l1i) = some l1i
  hl1d : g.table (.cache .l1d) = some l1d
  hl2 : g.table (.cache .l2) = some l2
  hl3 : g.table (.cache .l3) = l3.map fun c => [c]
  hl4 : g.table (.cache .l4) = none

/-- **C94.** For every number of logical processors, on both architectures: the processors are
divided among the cores, the clusters, the package and the caches of every level, the cores among
the clusters and the package, and all links agree with these ranges.  Of the table of cores this is
about its beginning; see `C50_violated` for the rest. -/
theorem C94_tables (isX86 : Bool) (answer : Int) (alloc : Nat → Bool) (u : Elem .uarch)
    (st : List (Store Elem)) (h : init isX86 answer alloc = some st)
    (hok : (applyAll st (.initial u)).isInitialized = true) :
    ∃ t : EmscriptenTables (applyAll st (.initial u)),
      t.processors.length = logicalProcessors answer ∧
      (applyAll st (.initial u)).count .processor = logicalProcessors answer ∧
      Divides t.processors (t.cores.take (emscriptenCores isX86 answer)) (·.core)
        (·.processorStart) (·.processorCount) ∧
      Divides t.processors t.clusters (·.cluster) (·.processorStart) (·.processorCount) ∧
      Divides t.processors [t.package] (·.package) (·.processorStart) (·.processorCount) ∧
      Divides t.processors t.l1i (·.l1i) (·.processorStart) (·.processorCount) ∧
      Divides t.processors t.l1d (·.l1d) (·.processorStart) (·.processorCount) ∧
      Divides t.processors t.l2 (·.l2) (·.processorStart) (·.processorCount) ∧
      (t.l3.isSome = isX86) ∧
      (∀ c, t.l3 = some c →
        Divides t.processors [c] (·.l3) (·.processorStart) (·.processorCount)) ∧
      Divides (t.cores.take (emscriptenCores isX86 answer)) t.clusters (·.cluster) (·.coreStart)
        (·.coreCount) ∧
      Divides (t.cores.take (emscriptenCores isX86 answer)) [t.package] (·.package) (·.coreStart)
        (·.coreCount) ∧
      Divides t.clusters [t.package] (·.package) (·.clusterStart) (·.clusterCount) ∧
      (∀ (i : Nat) (p : Processor) (o : Core), t.processors[i]? = some p →
        (p.core.bind fun k => t.cores[k]?) = some o →
        o.cluster = p.cluster ∧ i = o.processorStart + p.smtId) := by
  have hcores := emscripten_cores isX86 answer
  have hproc := emscripten_processors isX86 answer
  have hx := emscripten_isX86 isX86 answer
  have hc := counts_ok isX86 answer
  rcases init_eq isX86 answer alloc with ⟨-, h'⟩ | ⟨-, s, ht, h'⟩
  · rw [h'] at h
    cases h
    cases hok
  rw [h'] at h
  cases h
  rw [← hcores, ← hproc]
  generalize counts isX86 answer = c at hx hc ht
  subst hx
  refine ⟨⟨s.processors, s.cores, s.clusters, Emscripten.package c, s.l1i, s.l1d, s.l2,
    if c.isX86 then some (Emscripten.x86L3 c) else none, ?_, ?_, ?_, ?_, ?_, ?_, ?_, ?_, ?_⟩,
    Emscripten.processors_length ht, ?_, Emscripten.divides_cores hc ht,
    Emscripten.divides_clusters hc ht, Emscripten.divides_package hc ht,
    Emscripten.divides_l1i hc ht, Emscripten.divides_l1d hc ht, Emscripten.divides_l2 hc ht, ?_, ?_,
    Emscripten.divides_core_clusters hc ht, Emscripten.divides_core_package hc ht,
    Emscripten.divides_cluster_package hc ht, Emscripten.core_of_processor hc ht⟩
  case refine_11 =>
    show (if c.isX86 = true then some (Emscripten.x86L3 c) else none).isSome = c.isX86
    cases c.isX86 <;> rfl
  case refine_12 =>
    intro l3 hl3
    have hl3 : (if c.isX86 = true then some (Emscripten.x86L3 c) else none) = some l3 := hl3
    by_cases hx : c.isX86 = true
    · rw [if_pos hx] at hl3
      cases hl3
      exact Emscripten.divides_l3 hc ht hx
    · rw [if_neg hx] at hl3; cases hl3
  all_goals
    unfold commit
    cases c.isX86 <;> rfl

theorem emscripten_geometry (k : X86Init.Cache) (size ways sets kb : Nat) (h1 : k.size = size)
    (h2 : k.associativity = ways) (h3 : k.sets = sets) (h4 : k.partitions = 1) (h5 : k.lineSize = 64)
    (h6 : k.flags = 0) (h : size = ways * sets * 1 * 64) (hk : size = kb * 1024) :
    k.size = k.associativity * k.sets * k.partitions * k.lineSize ∧ k.partitions = 1 ∧
      k.lineSize = 64 ∧ k.flags = 0 ∧ k.size = kb * 1024 := by
  refine ⟨?_, h4, h5, h6, ?_⟩
  · rw [h1, h2, h3, h4, h5]; exact h
  · rw [h1]; exact hk

/-- Size in KB of a cache that starts at processor `start`. -/
def emscriptenKB (isX86 : Bool) (start : Nat) : Level → Nat
  | .l1i => 32
  | .l1d => 32
  | .l2 => if isX86 = false ∧ start = 0 then 1024 else 256
  | _ => 2048

/-- **C94 (sizes).** Every published cache has the size that its ways, sets, partitions and line size
make, one partition, lines of 64 bytes and no flags; the sizes are 32 KB on the first level, 2 MB on the
third, and on the second 256 KB, or 1 MB for the first cluster of an ARM machine. -/
theorem C94_sizes (isX86 : Bool) (answer : Int) (alloc : Nat → Bool) (u : Elem .uarch)
    (st : List (Store Elem)) (h : init isX86 answer alloc = some st)
    (l : Level) (t : List X86Init.Cache) (ht : (applyAll st (.initial u)).table (.cache l) = some t)
    (k : X86Init.Cache) (hk : k ∈ t) :
    k.size = k.associativity * k.sets * k.partitions * k.lineSize ∧ k.partitions = 1 ∧
      k.lineSize = 64 ∧ k.flags = 0 ∧ k.size = emscriptenKB isX86 k.processorStart l * 1024 := by
  have hx := emscripten_isX86 isX86 answer
  have hc := counts_ok isX86 answer
  rcases init_eq isX86 answer alloc with ⟨-, h'⟩ | ⟨-, s, hs, h'⟩
  · rw [h'] at h
    cases h
    cases l <;> cases ht
  rw [h'] at h
  cases h
  clear h'
  generalize counts isX86 answer = c at hx hc hs ht
  subst hx
  have hl1i := hs.l1i
  have hl1d := hs.l1d
  have hl2 := hs.l2
  have hb : 0 < c.bigCores := by
    rcases hc.clusters with h | h
    · rw [h.2]; exact hc.cores
    · exact h.2.1
  cases l with
  | l1i =>
    have e : t = s.l1i := by
      unfold commit at ht
      cases hx : c.isX86 <;> rw [hx] at ht <;> cases ht <;> rfl
    rw [e, hl1i] at hk
    obtain ⟨i, _, rfl⟩ := List.mem_map.1 hk
    exact emscripten_geometry _ (32 * 1024) 4 128 _ rfl rfl rfl rfl rfl rfl (by decide) (by rfl)
  | l1d =>
    have e : t = s.l1d := by
      unfold commit at ht
      cases hx : c.isX86 <;> rw [hx] at ht <;> cases ht <;> rfl
    rw [e, hl1d] at hk
    obtain ⟨i, _, rfl⟩ := List.mem_map.1 hk
    exact emscripten_geometry _ (32 * 1024) 4 128 _ rfl rfl rfl rfl rfl rfl (by decide) (by rfl)
  | l2 =>
    have e : t = s.l2 := by
      unfold commit at ht
      cases hx : c.isX86 <;> rw [hx] at ht <;> cases ht <;> rfl
    rw [e, hl2] at hk
    cases hx : c.isX86 with
    | true =>
      rw [hx, if_pos rfl] at hk
      obtain ⟨i, _, rfl⟩ := List.mem_map.1 hk
      exact emscripten_geometry _ (256 * 1024) 8 512 _ rfl rfl rfl rfl rfl rfl (by decide) (by simp [emscriptenKB])
    | false =>
      rw [hx] at hk
      simp only [Bool.false_eq_true, if_false] at hk
      have hb' : c.bigCores ≠ 0 := by omega
      split at hk
      · rcases List.mem_cons.1 hk with rfl | hk
        · exact emscripten_geometry _ (1024 * 1024) 8 2048 _ rfl rfl rfl rfl rfl rfl (by decide) (by simp [emscriptenKB, Emscripten.bigL2])
        · cases List.mem_singleton.1 hk
          exact emscripten_geometry _ (256 * 1024) 8 512 _ rfl rfl rfl rfl rfl rfl (by decide) (by simp [emscriptenKB, Emscripten.smallL2, hb'])
      · cases List.mem_singleton.1 hk
        exact emscripten_geometry _ (1024 * 1024) 8 2048 _ rfl rfl rfl rfl rfl rfl (by decide) (by simp [emscriptenKB, Emscripten.bigL2])
  | l3 =>
    have e : t = [Emscripten.x86L3 c] := by
      unfold commit at ht
      cases hx : c.isX86 <;> rw [hx] at ht <;> cases ht <;> rfl
    rw [e] at hk
    cases List.mem_singleton.1 hk
    exact emscripten_geometry _ (2 * 1024 * 1024) 16 2048 _ rfl rfl rfl rfl rfl rfl (by decide) (by rfl)
  | l4 =>
    unfold commit at ht
    cases hx : c.isX86 <;> rw [hx] at ht <;> cases ht

/-- On an ARM machine with eight processors the second-level caches have 1 MB and 256 KB. -/
example : ((init false 8 fun _ => true).bind fun st =>
    (applyAll st (.initial (⟨0, 0, 0, 0⟩ : GlobalUarch))).table (.cache .l2)).map
      (fun t => t.map X86Init.Cache.size) =
    some [1024 * 1024, 256 * 1024] := by
  decide +kernel

/-- **C50, partly.** Except for an even number of processors on x86, every published count is the
length of the published table, so that every index below a count has an element; with
`C94_tables`, where the whole table of cores is then meant, every element is filled in. -/
theorem C50_counts_partial (isX86 : Bool) (answer : Int) (alloc : Nat → Bool) (u : Elem .uarch)
    (st : List (Store Elem)) (h : init isX86 answer alloc = some st)
    (hodd : ¬ (isX86 = true ∧ logicalProcessors answer % 2 = 0)) :
    (∀ k, CountsMatch (applyAll st (.initial u)) k) ∧
    (∀ cs : List Core, (applyAll st (.initial u)).table .core = some cs →
      cs.length = emscriptenCores isX86 answer) := by
  rcases init_eq isX86 answer alloc with ⟨-, h'⟩ | ⟨-, s, ht, h'⟩
  · rw [h'] at h
    cases h
    refine ⟨fun k => .inl ⟨rfl, rfl⟩, fun cs hcs => by cases hcs⟩
  rw [h'] at h
  cases h
  have hcores := emscripten_cores isX86 answer
  have hproc := emscripten_processors isX86 answer
  have hx := emscripten_isX86 isX86 answer
  have hc := counts_ok isX86 answer
  have hcp : emscriptenCores isX86 answer = logicalProcessors answer := by
    unfold emscriptenCores; rw [if_neg hodd]
  rw [hcp] at hcores ⊢
  rw [← hproc] at hcores ⊢
  clear hproc hodd hcp h'
  generalize counts isX86 answer = c at hx hc ht hcores
  subst hx
  have hlen : s.cores.length = c.processors := by
    rw [ht.cores]; simp; omega
  refine ⟨fun k => ?_, ?_⟩
  · cases k with
    | processor =>
      exact .inr ⟨s.processors, by unfold commit; cases c.isX86 <;> rfl,
        (Emscripten.processors_length ht).trans (by unfold commit; cases c.isX86 <;> rfl)⟩
    | core =>
      exact .inr ⟨s.cores, by unfold commit; cases c.isX86 <;> rfl,
        hlen.trans (by unfold commit; cases c.isX86 <;> rfl)⟩
    | cluster =>
      exact .inr ⟨s.clusters, by unfold commit; cases c.isX86 <;> rfl,
        (Emscripten.clusters_length hc ht).trans (by unfold commit; cases c.isX86 <;> rfl)⟩
    | package =>
      exact .inr ⟨[Emscripten.package c], by unfold commit; cases c.isX86 <;> rfl, by
        unfold commit; cases c.isX86 <;> rfl⟩
    | uarch => exact .inl (by unfold commit; cases c.isX86 <;> exact ⟨rfl, rfl⟩)
    | cache l =>
      cases l with
      | l1i =>
        exact .inr ⟨s.l1i, by unfold commit; cases c.isX86 <;> rfl,
          (Emscripten.l1i_length ht).trans (hcores.trans (by unfold commit; cases c.isX86 <;> rfl))⟩
      | l1d =>
        exact .inr ⟨s.l1d, by unfold commit; cases c.isX86 <;> rfl,
          (Emscripten.l1d_length ht).trans (hcores.trans (by unfold commit; cases c.isX86 <;> rfl))⟩
      | l2 =>
        exact .inr ⟨s.l2, by unfold commit; cases c.isX86 <;> rfl,
          (Emscripten.l2_length hc ht).trans (by unfold commit; cases c.isX86 <;> rfl)⟩
      | l3 =>
        cases hx : c.isX86 with
        | true =>
          exact .inr ⟨[Emscripten.x86L3 c], by unfold commit; rw [hx]; rfl, by
            unfold commit; rw [hx]; rfl⟩
        | false => exact .inl (by unfold commit; rw [hx]; exact ⟨rfl, rfl⟩)
      | l4 => exact .inl (by unfold commit; cases c.isX86 <;> exact ⟨rfl, rfl⟩)
  · intro cs hcs
    have : (applyAll (commit c s) (.initial u)).table .core = some s.cores := by
      unfold commit; cases c.isX86 <;> rfl
    rw [this] at hcs
    cases hcs
    exact hlen

/-- **C50 is violated.** For every even number of logical processors on x86, all of them: the number
of cores is given as the number of processors, `cpuinfo_get_core` hands out an element without
processors, cluster and package for the first index that is not a core, and `cpuinfo_get_l1i_cache`
and `cpuinfo_get_l1d_cache` run past the end of their tables. -/
theorem C50_violated (n : Nat) (hn : 0 < n) (he : n % 2 = 0) (alloc : Nat → Bool)
    (ha : ∀ i < 6, alloc i = true) (u : Elem .uarch) :
    ∃ st, init true n alloc = some st ∧
      ((Query.coresCount.prog emscriptenBuild).eval (applyAll st (.initial u)) = .ret (.num n)) ∧
      ((Query.core (n / 2)).prog emscriptenBuild).eval (applyAll st (.initial u)) =
        .ret (.elem .core (some (⟨0, 0, 0, none, none⟩ : Core))) ∧
      ((Query.l1iCache (n / 2)).prog emscriptenBuild).eval (applyAll st (.initial u)) = .fault ∧
      ((Query.l1dCache (n / 2)).prog emscriptenBuild).eval (applyAll st (.initial u)) = .fault := by
  rcases init_eq true n alloc with ⟨⟨i, hi, hf⟩, -⟩ | ⟨-, s, ht, h'⟩
  · rw [ha i hi] at hf; cases hf
  refine ⟨_, h', ?_⟩
  have hl : logicalProcessors n = n := by
    unfold logicalProcessors; rw [if_neg (by omega)]; rfl
  have hcores := emscripten_cores true n
  have hproc := emscripten_processors true n
  have hx := emscripten_isX86 true n
  unfold emscriptenCores at hcores
  rw [hl, if_pos ⟨rfl, he⟩] at hcores
  rw [hl] at hproc
  clear h'
  generalize counts true n = c at hx ht hcores hproc
  have hcore : s.cores[n / 2]? = some zeroCore := by
    rw [ht.cores, List.getElem?_append_right (by simp; omega)]
    rw [List.length_map, List.length_range, hcores, Nat.sub_self, List.getElem?_replicate,
      if_pos (by omega)]
  have h1 : s.l1i[n / 2]? = none := by
    rw [ht.l1i, List.getElem?_eq_none_iff]; simp; omega
  have h2 : s.l1d[n / 2]? = none := by
    rw [ht.l1d, List.getElem?_eq_none_iff]; simp; omega
  have hg : (applyAll (commit c s) (.initial u)).isInitialized = true := emscripten_flag c s _
  have e1 : (applyAll (commit c s) (.initial u)).table .core = some s.cores := by
    unfold commit; rw [hx]; rfl
  have e2 : (applyAll (commit c s) (.initial u)).table (.cache .l1i) = some s.l1i := by
    unfold commit; rw [hx]; rfl
  have e3 : (applyAll (commit c s) (.initial u)).table (.cache .l1d) = some s.l1d := by
    unfold commit; rw [hx]; rfl
  have n1 : (applyAll (commit c s) (.initial u)).count .core = n := by
    rw [← hproc]; unfold commit; rw [hx]; rfl
  have n2 : (applyAll (commit c s) (.initial u)).count (.cache .l1i) = n := by
    rw [← hproc]; unfold commit; rw [hx]; rfl
  have n3 : (applyAll (commit c s) (.initial u)).count (.cache .l1d) = n := by
    rw [← hproc]; unfold commit; rw [hx]; rfl
  generalize applyAll (commit c s) (.initial u) = g at hg e1 e2 e3 n1 n2 n3
  refine ⟨?_, ?_, ?_, ?_⟩
  · simp only [Query.prog, countProg, guarded, Prog.eval, hg, if_true, n1]
  · exact elem_some g hg .core .core _ s.cores zeroCore (by omega) e1 hcore
  · exact elem_fault g hg (.cache .l1i) (.cache .l1i) _ s.l1i (by omega) e2 h1
  · exact elem_fault g hg (.cache .l1d) (.cache .l1d) _ s.l1d (by omega) e3 h2

/-! ### Examples -/

/-- Six processors on ARM: two big cores and four small ones. -/
example : ∃ st, init false 6 (fun _ => true) = some st ∧
    (applyAll st (.initial (⟨0, 0, 0, 0⟩ : GlobalUarch))).table .cluster =
      some ([⟨0, 2, 0, 2, 0, some 0⟩, ⟨2, 4, 2, 4, 1, some 0⟩] : List Cluster) ∧
    ¬ (false = true ∧ logicalProcessors 6 % 2 = 0) ∧ emscriptenCores false 6 = 6 :=
  ⟨_, rfl, rfl, by decide, rfl⟩

/-- Four processors on x86 are two cores. -/
example : ∃ st, init true 4 (fun _ => true) = some st ∧
    (applyAll st (.initial (⟨0, 0, 0, 0⟩ : GlobalUarch))).count .core = 4 ∧
    emscriptenCores true 4 = 2 := ⟨_, rfl, rfl, rfl⟩

end Verif.Props
