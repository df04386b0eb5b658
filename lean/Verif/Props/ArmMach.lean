import Verif.Proof.ArmMachFacts
import Verif.Spec.ArmMach
import Verif.Spec.Described
import Verif.Props.UniformExact
import Verif.Proof.Divides

/-!
C129, C130, C131, C133: topology, clusters and caches of ARM detection on Mach.
-/

set_option autoImplicit false

namespace Verif.Props
open Verif.ArmMach Verif.Spec Verif.Api
open Verif.Platform (Processor)
open Verif.X86Init (Cache)
open Verif.Uniform (MachTopology)

/-- The global variables after a detection. -/
def machGlobals (o : Outcome) (u : ArmMach.Elem .uarch) : Globals ArmMach.Elem :=
  applyAll o.stores (.initial u)

/-! ### C129: undefined behaviour -/

/-- All cache sizes that are reported come with a usable size of the cache line: its product with the
number of ways is not a multiple of 2^32 (in particular not 0). -/
def LinesUsable (e : Env) : Prop :=
  ∀ c ∈ [(e.l1i.get, 4), (e.l1d.get, 4), (e.l2.get, 8), (e.l3.get, 16)],
    c.1 ≠ 0 → ¬ 2 ^ 32 ∣ c.2 * e.line.get

theorem linesUsable_iff (e : Env) : LinesUsable e ↔ LineOk e.sizes := by
  have hd : ∀ a : Nat, ¬ 2 ^ 32 ∣ a ↔ a % U32 ≠ 0 := fun a => by
    rw [Nat.dvd_iff_mod_eq_zero]
  unfold LinesUsable LineOk Env.sizes
  simp only [List.mem_cons, List.not_mem_nil, or_false, forall_eq_or_imp, forall_eq, hd]
  exact ⟨fun ⟨a, b, c, d⟩ => ⟨fun h => h.elim a b, c, d⟩,
    fun ⟨a, c, d⟩ => ⟨fun h => a (.inl h), fun h => a (.inr h), c, d⟩⟩

/-- **C129, partial.** If the number of threads is a multiple of the number of cores, no more cores are
left over than each package has when they are divided among the packages, and the cache line is usable,
then detection is defined whatever the system answers otherwise, and it publishes tables unless an
allocation fails. -/
theorem C129_defined_partial (e : Env) (h1 : e.topology.cores ∣ e.topology.threads)
    (h2 : e.topology.cores % e.topology.packages ≤ e.topology.cores / e.topology.packages)
    (h3 : LinesUsable e) :
    ∃ o, init e = some o ∧ (o.stores = [] → ∃ i < 9, e.alloc i = false) := by
  obtain ⟨p1, -, -⟩ := topology_pos e.iphone e.cores e.threads e.packages
  obtain ⟨tpc, tpp, cpp, he⟩ := fits_of h1 h2
  obtain ⟨b, u, v, hs⟩ := decode_split e.family.get e.topology.cores p1
  rcases init_eq e tpc tpp cpp he ((linesUsable_iff e).mp h3) hs with ⟨o, e', -, ha⟩ | ⟨c, e', -⟩
  · exact ⟨o, e', fun _ => ha⟩
  · exact ⟨_, e', fun h => by cases h⟩

private theorem undefined_of (e : Env) (ha : ∀ i < 9, e.alloc i = true)
    (h : ∀ o, init e = some o → o.stores ≠ [] → False) : init e = none := by
  cases hi : init e with
  | none => rfl
  | some o =>
    exfalso
    refine h o hi fun hn => ?_
    unfold init at hi
    rw [if_pos ⟨ha 0 (by omega), ha 1 (by omega), ha 2 (by omega)⟩] at hi
    simp only [bind, pure, Option.bind_eq_some_iff] at hi
    obtain ⟨t, ht, hi⟩ := hi
    cases t with
    | none =>
      unfold tables at ht
      simp only [bind, pure, Option.bind_eq_some_iff, ha 3 (by omega), ha 4 (by omega), and_self,
        decide_true, if_true] at ht
      obtain ⟨_, -, _, -, _, -, _, -, _, -, _, -, _, -, _, -, _, -, ht⟩ := ht
      cases ht
    | some t =>
      simp only [Option.bind_eq_some_iff] at hi
      obtain ⟨c, hc, hi⟩ := hi
      cases c with
      | none =>
        have lv : ∀ (a : Bool) (size assoc line per count threads : Nat) (ix : Nat → Nat)
            (lk : Processor → Nat → Processor) (ps : List Processor), a = true →
            ArmMach.level a size assoc line per count threads ix lk ps ≠ some none := by
          intro a size assoc line per count threads ix lk ps ha hl
          subst ha
          unfold ArmMach.level at hl
          split at hl
          · rw [if_pos rfl] at hl
            obtain ⟨_, -, hl⟩ := Option.map_eq_some_iff.mp hl
            cases hl
          · cases hl
        have step : ∀ {α β : Type} (x : Option (Option α)) (f : α → Option (Option β)),
            Uniform.orFail x f = some none → x ≠ some none →
            ∃ a, x = some (some a) ∧ f a = some none := by
          intro α β x f hx hne
          unfold Uniform.orFail at hx
          obtain ⟨y, hy, hx⟩ := Option.bind_eq_some_iff.mp hx
          cases y with
          | none => exact absurd hy hne
          | some a => exact ⟨a, hy, hx⟩
        unfold caches at hc
        obtain ⟨_, -, hc⟩ := step _ _ hc (lv _ _ _ _ _ _ _ _ _ _ (ha 5 (by omega)))
        obtain ⟨_, -, hc⟩ := step _ _ hc (lv _ _ _ _ _ _ _ _ _ _ (ha 6 (by omega)))
        obtain ⟨_, -, hc⟩ := step _ _ hc (lv _ _ _ _ _ _ _ _ _ _ (ha 7 (by omega)))
        obtain ⟨_, -, hc⟩ := step _ _ hc (lv _ _ _ _ _ _ _ _ _ _ (ha 8 (by omega)))
        cases hc
      | some c =>
        simp only [Option.bind_eq_some_iff] at hi
        obtain ⟨mx, -, hi⟩ := hi
        cases hi
        cases hn

/-- **C129 violated.** Whenever the number of threads is not a multiple of the number of cores, detection
divides by zero or reads behind the table of cores. -/
theorem C129_violated_threads (e : Env) (ha : ∀ i < 9, e.alloc i = true)
    (h : ¬ e.topology.cores ∣ e.topology.threads) : init e = none :=
  undefined_of e ha fun _ hi hn => h (let ⟨_, _, _, _, _, _, _, hd, _⟩ := init_success hi hn; hd)

/-- **C129 violated.** Whenever more cores are left over than each package has, in particular when there
are more packages than cores, detection divides by zero or makes a pointer far behind the table of
packages. -/
theorem C129_violated_packages (e : Env) (ha : ∀ i < 9, e.alloc i = true)
    (h : e.topology.cores / e.topology.packages < e.topology.cores % e.topology.packages) :
    init e = none :=
  undefined_of e ha fun _ hi hn => by
    obtain ⟨_, _, _, _, _, _, _, _, hp⟩ := init_success hi hn
    omega

/-- **C129 violated.** Whenever the system reports a cache but no cache line (or not as a 32-bit
number), detection divides by zero. -/
theorem C129_violated_line (e : Env) (ha : ∀ i < 9, e.alloc i = true) (h : ¬ LinesUsable e) :
    init e = none :=
  undefined_of e ha fun _ hi hn =>
    h ((linesUsable_iff e).mpr (let ⟨_, _, _, _, _, _, hz, _⟩ := init_success hi hn; hz))

/-- **C129, exactly.** Detection is defined if and only if the threads are a multiple of the cores, no
more cores are left over than each package has, and the cache line is usable. -/
theorem C129_defined_iff (e : Env) (ha : ∀ i < 9, e.alloc i = true) :
    init e ≠ none ↔ e.topology.cores ∣ e.topology.threads ∧
      e.topology.cores % e.topology.packages ≤ e.topology.cores / e.topology.packages ∧
      LinesUsable e := by
  constructor
  · intro h
    refine ⟨Classical.byContradiction fun hn => h (C129_violated_threads e ha hn),
      Nat.le_of_not_lt fun hn => h (C129_violated_packages e ha hn),
      Classical.byContradiction fun hn => h (C129_violated_line e ha hn)⟩
  · rintro ⟨h1, h2, h3⟩ hn
    obtain ⟨o, ho, -⟩ := C129_defined_partial e h1 h2 h3
    rw [ho] at hn; cases hn

/-! ### Examples -/

/-- A 32-bit answer, and no answer. -/
def sysNum (n : Nat) : ArmMach.Answer := ⟨some 4, some n⟩
@[inherit_doc sysNum] def sysNone : ArmMach.Answer := ⟨none, none⟩

/-- A computer with an M1. -/
def machM1 : Env where
  iphone := false
  cores := some 8
  threads := some 8
  packages := some 1
  brand := some b!"Apple M1"
  machine := some b!"arm64"
  family := sysNum firestormIcestorm
  features := ⟨sysNone, sysNone, sysNone, sysNone, sysNone, sysNone, sysNone, sysNone, sysNone,
    sysNone, sysNone, sysNone⟩
  line := sysNum 128
  l1d := sysNum 65536
  l1i := sysNum 131072
  l2 := sysNum 4194304
  l3 := sysNone
  alloc := fun _ => true

/-- The stores of a detection are those of the commit block. -/
def machCommits (e : Env) : Bool := ((init e).map fun o => o.stores.length) = some 20

example : machCommits machM1 = true := by decide +kernel
example : machM1.topology.cores ∣ machM1.topology.threads ∧
    machM1.topology.packages ∣ machM1.topology.cores ∧ machM1.topology.packages = 1 ∧
    machM1.topology.cores % machM1.topology.packages ≤
      machM1.topology.cores / machM1.topology.packages := by decide
example : LinesUsable machM1 := by unfold LinesUsable; decide

/-- The number of threads is not answered: one thread on eight cores. -/
example : init { machM1 with threads := none } = none :=
  C129_violated_threads _ (fun _ _ => rfl) (by decide)

/-- The cache line is answered as a 64-bit number. -/
example : init { machM1 with line := ⟨some 8, some 128⟩ } = none :=
  C129_violated_line _ (fun _ _ => rfl) (by unfold LinesUsable; decide)

/-- Sixteen packages of eight cores. -/
example : init { machM1 with packages := some 16 } = none :=
  C129_violated_packages _ (fun _ _ => rfl) (by decide)

/-- Eight cores in five packages: each has one, three are left over. -/
example : init { machM1 with packages := some 5 } = none :=
  C129_violated_packages _ (fun _ _ => rfl) (by decide)

/-! ### C130: processors, cores and packages -/

/-- The processors that are published. -/
theorem mach_processor {e : Env} {tpc tpp b : Nat} {c : Caches}
    (hc : CachesOk e.sizes e.topology (processorsFinal tpc tpp e.topology.threads b) c) (i : Nat)
    (p : Processor) (hp : c.processors[i]? = some p) :
    i < e.topology.threads ∧ p.smtId = i % tpc ∧ p.core = some (i / tpc) ∧
    p.cluster = some (clusterIdx b (i / tpc)) ∧ p.package = some (i / tpp) ∧
    p.l1i = (if e.sizes.l1i ≠ 0 then some i else none) ∧
    p.l1d = (if e.sizes.l1d ≠ 0 then some i else none) ∧
    p.l2 = (if e.sizes.l2 ≠ 0 then some 0 else none) ∧
    p.l3 = (if e.sizes.l3 ≠ 0 then some 0 else none) ∧ p.l4 = none := by
  rw [hc.processors i] at hp
  obtain ⟨p0, h0, rfl⟩ := Option.map_eq_some_iff.mp hp
  obtain ⟨hi, rfl⟩ := getElem?_map_range h0
  exact ⟨hi, rfl, rfl, rfl, rfl, rfl, rfl, rfl, rfl, rfl⟩

theorem mach_processors_length {e : Env} {tpc tpp b : Nat} {c : Caches}
    (hc : CachesOk e.sizes e.topology (processorsFinal tpc tpp e.topology.threads b) c) :
    c.processors.length = e.topology.threads := by
  rw [hc.length]; simp [processorsFinal]

/-- The number the system answers is used if it is positive. -/
theorem mach_numbers (e : Env) :
    (∀ n : Int, e.cores = some n → 0 < n → (e.topology.cores : Int) = n) ∧
    (∀ n : Int, e.threads = some n → 0 < n → (e.topology.threads : Int) = n) ∧
    (∀ n : Int, e.iphone = false → e.packages = some n → 0 < n → (e.topology.packages : Int) = n) ∧
    (e.iphone = true → e.topology.packages = 1) := by
  have one : ∀ (a : Option Int) (d : Nat) (n : Int), a = some n → 0 < n →
      (Uniform.sysctlInt a d : Int) = n := by
    intro a d n ha hn
    subst ha
    unfold Uniform.sysctlInt
    dsimp only
    rw [if_neg (by omega)]
    omega
  refine ⟨one _ _, one _ _, fun n h => ?_, fun h => ?_⟩
  · unfold Env.topology ArmMach.topology
    dsimp only
    rw [h]
    exact one _ _ n
  · unfold Env.topology ArmMach.topology
    dsimp only
    rw [h]; rfl

/-- **C130.** After every successful detection the tables have the numbers of elements that the system gave;
the processors are divided among the cores; a processor's number within its core and a core's number
within its package are their positions.  The cores are divided among the packages if and only if the
packages divide the cores; the processors are, if and only if the packages divide the threads. -/
theorem C130_topology (e : Env) (o : Outcome) (h : init e = some o) (hne : o.stores ≠ [])
    (w : ArmMach.Elem .uarch) :
    ∃ (ps : List Processor) (cs : List ArmMach.Core) (pks : List ArmMach.Package),
      (machGlobals o w).table .processor = some ps ∧ (machGlobals o w).count .processor = ps.length ∧
      (machGlobals o w).table .core = some cs ∧ (machGlobals o w).count .core = cs.length ∧
      (machGlobals o w).table .package = some pks ∧ (machGlobals o w).count .package = pks.length ∧
      (∀ n : Int, e.threads = some n → 0 < n → (ps.length : Int) = n) ∧
      (∀ n : Int, e.cores = some n → 0 < n → (cs.length : Int) = n) ∧
      (∀ n : Int, e.iphone = false → e.packages = some n → 0 < n → (pks.length : Int) = n) ∧
      Divides ps cs (·.core) (·.processorStart) (·.processorCount) ∧
      (∀ (i : Nat) (p : Processor) (k : Nat) (c : ArmMach.Core), ps[i]? = some p →
        p.core = some k → cs[k]? = some c → i = c.processorStart + p.smtId) ∧
      (∀ (i : Nat) (c : ArmMach.Core) (k : Nat) (q : ArmMach.Package), cs[i]? = some c →
        c.package = some k → pks[k]? = some q → i = q.coreStart + c.coreId) ∧
      (Divides cs pks (·.package) (·.coreStart) (·.coreCount) ↔ pks.length ∣ cs.length) ∧
      (Divides ps pks (·.package) (·.processorStart) (·.processorCount) ↔
        pks.length ∣ ps.length) := by
  obtain ⟨tpc, tpp, cpp, b, u, v, c, he, hs, rfl, hc⟩ := init_closed h hne
  have hlen := mach_processors_length hc
  have hp := mach_processor hc
  obtain ⟨n1, n2, n3, -⟩ := mach_numbers e
  have hcl : (coresFinal (fun i => decodeUarch e.family.get i e.topology.cores) tpc cpp
      e.topology.cores b).length = e.topology.cores := by simp [coresFinal]
  have hpl : ((List.range e.topology.packages).map (ArmMach.packageOf (packageName e.brand e.machine)
      tpp cpp (kinds e.topology.cores b))).length = e.topology.packages := by simp
  refine ⟨c.processors, coresFinal (fun i => decodeUarch e.family.get i e.topology.cores) tpc cpp
    e.topology.cores b, (List.range e.topology.packages).map (ArmMach.packageOf
    (packageName e.brand e.machine) tpp cpp (kinds e.topology.cores b)),
    rfl, hlen.symm, rfl, hcl.symm, rfl, hpl.symm,
    fun n => by rw [hlen]; exact n2 n, fun n => by rw [hcl]; exact n1 n,
    fun n => by rw [hpl]; exact n3 n, ?_, ?_, ?_, ?_, ?_⟩
  · exact divides_uniform _ _ tpc _ _ _ _ he.tpcPos (by rw [hlen, he.threads]) (fun i _ => ⟨rfl, rfl⟩)
      fun i p h => (hp i p h).2.2.1
  · intro i p k x h1 h2 h3
    obtain ⟨-, h4, h5, -⟩ := hp i p h1
    obtain ⟨-, rfl⟩ := getElem?_map_range h3
    rw [h5] at h2; cases h2
    rw [h4]
    show i = i / tpc * tpc + i % tpc
    rw [Nat.div_add_mod']
  · intro i x k q h1 h2 h3
    obtain ⟨-, rfl⟩ := getElem?_map_range h1
    obtain ⟨-, rfl⟩ := getElem?_map_range h3
    cases h2
    show i = i / cpp * cpp + i % cpp
    rw [Nat.div_add_mod']
  · rw [hpl, hcl]
    constructor
    · intro hdv
      have := divides_total (k := cpp) hdv fun i => rfl
      rw [hcl] at this
      exact ⟨cpp, this.symm⟩
    · intro hd
      refine divides_uniform _ _ cpp _ _ _ _ he.cppPos
        (by rw [hcl, he.cppEq, Nat.mul_div_cancel' hd]) (fun i _ => ⟨rfl, rfl⟩) fun i p h => ?_
      obtain ⟨-, rfl⟩ := getElem?_map_range h
      rfl
  · rw [hpl, hlen]
    constructor
    · intro hdv
      have := divides_total (k := tpp) hdv fun i => rfl
      rw [hlen] at this
      exact ⟨tpp, this.symm⟩
    · intro hd
      exact divides_uniform _ _ tpp _ _ _ _ he.tppPos
        (by rw [hlen, he.tppEq, Nat.mul_div_cancel' hd]) (fun i _ => ⟨rfl, rfl⟩)
        fun i p h => (hp i p h).2.2.2.2.1

/-- **C130, partial.** If the packages divide the cores the cores and the processors are divided among
them. -/
theorem C130_topology_partial (e : Env) (o : Outcome) (h : init e = some o) (hne : o.stores ≠ [])
    (hd : e.topology.packages ∣ e.topology.cores) (w : ArmMach.Elem .uarch) :
    ∃ (ps : List Processor) (cs : List ArmMach.Core) (pks : List ArmMach.Package),
      (machGlobals o w).table .processor = some ps ∧ (machGlobals o w).table .core = some cs ∧
      (machGlobals o w).table .package = some pks ∧
      Divides cs pks (·.package) (·.coreStart) (·.coreCount) ∧
      Divides ps pks (·.package) (·.processorStart) (·.processorCount) := by
  obtain ⟨ps, cs, pks, h1, h2, h3, h4, h5, h6, -, -, -, -, -, -, h7, h8⟩ := C130_topology e o h hne w
  obtain ⟨-, -, -, -, -, -, -, ht, -⟩ := init_success h hne
  have n1 : ps.length = e.topology.threads := by
    obtain ⟨tpc, tpp, cpp, b, u, v, c, he, hs, rfl, hc⟩ := init_closed h hne
    exact h2.symm
  have n2 : cs.length = e.topology.cores := by
    obtain ⟨tpc, tpp, cpp, b, u, v, c, he, hs, rfl, hc⟩ := init_closed h hne
    exact h4.symm
  have n3 : pks.length = e.topology.packages := by
    obtain ⟨tpc, tpp, cpp, b, u, v, c, he, hs, rfl, hc⟩ := init_closed h hne
    exact h6.symm
  exact ⟨ps, cs, pks, h1, h3, h5, h7.mpr (by rw [n2, n3]; exact hd),
    h8.mpr (by rw [n1, n3]; exact Nat.dvd_trans hd ht)⟩

/-- **C130 violated, always.** Whenever detection is successful and the packages do not divide the cores,
the last core is linked to the package behind the table; if they do not divide the threads, so is the
last processor. -/
theorem C130_violated_always (e : Env) (o : Outcome) (h : init e = some o) (hne : o.stores ≠ [])
    (w : ArmMach.Elem .uarch) :
    ∃ (ps : List Processor) (cs : List ArmMach.Core) (pks : List ArmMach.Package),
      (machGlobals o w).table .processor = some ps ∧ (machGlobals o w).table .core = some cs ∧
      (machGlobals o w).table .package = some pks ∧
      (¬ pks.length ∣ cs.length → ∃ c, cs.getLast? = some c ∧ c.package = some pks.length) ∧
      (¬ pks.length ∣ ps.length → ∃ p, ps.getLast? = some p ∧ p.package = some pks.length) := by
  obtain ⟨tpc, tpp, cpp, b, u, v, c, he, hs, rfl, hc⟩ := init_closed h hne
  have hlen := mach_processors_length hc
  have hp := mach_processor hc
  have hcl : (coresFinal (fun i => decodeUarch e.family.get i e.topology.cores) tpc cpp
      e.topology.cores b).length = e.topology.cores := by simp [coresFinal]
  have hpl : ((List.range e.topology.packages).map (ArmMach.packageOf (packageName e.brand e.machine)
      tpp cpp (kinds e.topology.cores b))).length = e.topology.packages := by simp
  have c1 := he.coresPos
  have c2 := he.threadsPos
  refine ⟨c.processors, coresFinal (fun i => decodeUarch e.family.get i e.topology.cores) tpc cpp
    e.topology.cores b, (List.range e.topology.packages).map (ArmMach.packageOf
    (packageName e.brand e.machine) tpp cpp (kinds e.topology.cores b)), rfl, rfl, rfl, ?_, ?_⟩
  · rw [hpl, hcl]
    intro hd
    have h1 : e.topology.packages ≤ (e.topology.cores - 1) / cpp := by
      rw [he.cppEq]
      exact Uniform.last_part (by rw [← he.cppEq]; exact Nat.ne_of_gt he.cppPos) hd
    have h2 := he.corePackage (j := e.topology.cores - 1) (by omega)
    refine ⟨coreOf (fun i => decodeUarch e.family.get i e.topology.cores) tpc cpp
      (some (clusterIdx b (e.topology.cores - 1))) (e.topology.cores - 1), ?_, ?_⟩
    · rw [List.getLast?_eq_getElem?, hcl, coresFinal, List.getElem?_map,
        List.getElem?_range (by omega)]
      rfl
    · show some _ = some _
      rw [Nat.le_antisymm h2 h1]
  · rw [hpl, hlen]
    intro hd
    have h1 : e.topology.packages ≤ (e.topology.threads - 1) / tpp := by
      rw [he.tppEq]
      exact Uniform.last_part (by rw [← he.tppEq]; exact Nat.ne_of_gt he.tppPos) hd
    have h2 := he.threadPackage (j := e.topology.threads - 1) (by omega)
    obtain ⟨p, hpx⟩ : ∃ p, c.processors[e.topology.threads - 1]? = some p :=
      ⟨_, List.getElem?_eq_getElem (by omega)⟩
    refine ⟨p, ?_, ?_⟩
    · rw [List.getLast?_eq_getElem?, hlen]; exact hpx
    · rw [(hp _ p hpx).2.2.2.2.1, Nat.le_antisymm h2 h1]

/-- Three cores in two packages. -/
def machOdd : Env := { machM1 with cores := some 3, threads := some 3, packages := some 2 }

/-- **C130 violated.** Three cores in two packages: detection succeeds, and the last core is linked behind
the table of packages. -/
theorem C130_violated : ∃ o, init machOdd = some o ∧ ∀ w : ArmMach.Elem .uarch,
    ∃ (cs : List ArmMach.Core) (pks : List ArmMach.Package) (c : ArmMach.Core),
      (machGlobals o w).table .core = some cs ∧ (machGlobals o w).table .package = some pks ∧
      cs[2]? = some c ∧ c.package = some pks.length := by
  have hk : ((tables machOdd.family.get machOdd.topology (packageName machOdd.brand machOdd.machine)
      true).bind fun t => t.map fun t => (t.cores[2]?.map (·.package), t.packages.length)) =
      some (some (some 2), 2) := by decide +kernel
  have hi : machCommits machOdd = true := by decide +kernel
  unfold machCommits at hi
  cases hl : init machOdd with
  | none => rw [hl] at hi; cases hi
  | some o =>
    rw [hl] at hi
    have hne : o.stores ≠ [] := fun h => by simp [h] at hi
    unfold init at hl
    rw [if_pos ⟨rfl, rfl, rfl⟩] at hl
    simp only [bind, pure, Option.bind_eq_some_iff] at hl
    obtain ⟨t, ht, hl⟩ := hl
    change tables machOdd.family.get machOdd.topology (packageName machOdd.brand machOdd.machine)
      true = some t at ht
    rw [ht] at hk
    cases t with
    | none => cases hk
    | some t =>
      simp only [Option.bind_some, Option.map_some, Option.some.injEq, Prod.mk.injEq] at hk
      simp only [Option.bind_eq_some_iff] at hl
      obtain ⟨c, hc, hl⟩ := hl
      cases c with
      | none => cases hl; exact absurd rfl hne
      | some c =>
        simp only [Option.bind_eq_some_iff] at hl
        obtain ⟨mx, -, hl⟩ := hl
        cases hl
        obtain ⟨x, hx, hx'⟩ := Option.map_eq_some_iff.mp hk.1
        exact ⟨_, rfl, fun w => ⟨t.cores, t.packages, x, rfl, rfl, hx, by rw [hx', hk.2]⟩⟩

/-! ### C131: clusters -/

/-- The clusters that are published. -/
theorem mach_clusters_get {tpc cpp n b : Nat} {u v : Uarch} {f : Nat → Uarch} (hs : Split n f b u v)
    (k : Nat) (l : ArmMach.Cluster) (h : (clustersAt tpc cpp n b u v n)[k]? = some l) :
    (k = 0 ∧ l = clusterOf tpc cpp 0 b 0 u) ∨ (b < n ∧ k = 1 ∧ l = clusterOf tpc cpp b (n - b) 1 v) := by
  have := hs.le
  unfold clustersAt at h
  split at h
  · rename_i hb
    rw [Nat.min_eq_right hs.le, if_neg (by omega)] at h
    match k with
    | 0 => cases h; exact .inl ⟨rfl, rfl⟩
    | 1 => cases h; exact .inr ⟨hb, rfl, rfl⟩
    | k + 2 => cases h
  · rename_i hb
    have : n = b := by omega
    subst this
    match k with
    | 0 => cases h; exact .inl ⟨rfl, rfl⟩
    | k + 1 => cases h

theorem mach_clusters_length (tpc cpp n b : Nat) (u v : Uarch) (i : Nat) :
    (clustersAt tpc cpp n b u v i).length = kinds n b := by
  unfold clustersAt kinds
  split <;> rfl

theorem mach_uarchs_length (n b : Nat) (u v : Uarch) (i : Nat) :
    (uarchsAt n b u v i).length = kinds n b := by
  unfold uarchsAt kinds
  split <;> rfl

/-- `m` elements, one range for each kind of core with `k` elements for each core. -/
theorem divides_clusters {α : Type} (ps : List α) (k : Nat) {tpc cpp n b : Nat} {u v : Uarch}
    {f : Nat → Uarch} (hs : Split n f b u v) (link : α → Option Nat)
    (start count : ArmMach.Cluster → Nat) (hk : 0 < k) (hlen : ps.length = n * k)
    (h1 : start (clusterOf tpc cpp 0 b 0 u) = 0) (h2 : count (clusterOf tpc cpp 0 b 0 u) = b * k)
    (h3 : start (clusterOf tpc cpp b (n - b) 1 v) = b * k)
    (h4 : count (clusterOf tpc cpp b (n - b) 1 v) = (n - b) * k)
    (hl : ∀ (i : Nat) p, ps[i]? = some p → link p = some (clusterIdx b (i / k))) :
    Divides ps (clustersAt tpc cpp n b u v n) link start count := by
  have := hs.pos
  have := hs.le
  unfold clustersAt
  by_cases hb : b < n
  · rw [if_pos hb, Nat.min_eq_right hs.le, if_neg (by omega)]
    refine divides_two ps _ _ (b * k) link start count (Nat.mul_pos hs.pos hk) ?_ h1 h2 h3 ?_ ?_
    · rw [hlen]; exact Nat.mul_lt_mul_of_pos_right hb hk
    · rw [h4, hlen, Nat.sub_mul]
    · intro i p hp
      rw [hl i p hp]
      unfold clusterIdx
      by_cases hi : i < b * k
      · rw [if_pos ((Nat.div_lt_iff_lt_mul hk).mpr hi), if_neg (by omega)]
      · rw [if_neg (fun h => hi ((Nat.div_lt_iff_lt_mul hk).mp h)), if_pos (by omega)]
  · rw [if_neg hb]
    have : n = b := by omega
    subst this
    refine divides_one ps _ link start count (by rw [hlen]; exact Nat.mul_pos hs.pos hk) h1
      (by rw [h2, hlen]) fun i p hp => ?_
    rw [hl i p hp]
    have : i < n * k := by rw [← hlen]; exact (List.getElem?_eq_some_iff.mp hp).1
    unfold clusterIdx
    rw [if_pos ((Nat.div_lt_iff_lt_mul hk).mpr this)]

/-- The lengths of consecutive ranges add up. -/
theorem consecutive_sum {a b : Nat} {rs : List (Nat × Nat)} (h : Consecutive a rs b) :
    a + (rs.map (·.2)).sum = b := by
  induction h with
  | nil => rfl
  | cons hn _ ih => rw [List.map_cons, List.sum_cons, ← ih]; omega

theorem mach_sum {tpc cpp n b : Nat} {u v : Uarch} {f : Nat → Uarch} (hs : Split n f b u v) :
    ((clustersAt tpc cpp n b u v n).map (·.processorCount)).sum = n ∧
    ((uarchsAt n b u v n).map (·.processorCount)).sum = n := by
  have := hs.le
  unfold clustersAt uarchsAt
  split
  · rw [Nat.min_eq_right hs.le, if_neg (by omega), if_neg (by omega)]
    simp [clusterOf]
    omega
  · simp [clusterOf]

/-- **C131.** After every successful detection: the cores are divided among the clusters; cores of a cluster have its kind, different clusters
have different kinds; a cluster's number is its position; a processor is in the cluster of its core; and
the list of kinds names the kind and the number of cores of each cluster. -/
theorem C131_clusters (e : Env) (o : Outcome) (h : init e = some o) (hne : o.stores ≠ [])
    (w : ArmMach.Elem .uarch) :
    ∃ (ps : List Processor) (cs : List ArmMach.Core) (ls : List ArmMach.Cluster)
      (us : List ArmMach.UarchInfo),
      (machGlobals o w).table .processor = some ps ∧ (machGlobals o w).table .core = some cs ∧
      (machGlobals o w).table .cluster = some ls ∧ (machGlobals o w).count .cluster = ls.length ∧
      (machGlobals o w).table .uarch = some us ∧ (machGlobals o w).count .uarch = us.length ∧
      Divides cs ls (·.cluster) (·.coreStart) (·.coreCount) ∧
      (∀ c ∈ cs, ∃ k l, c.cluster = some k ∧ ls[k]? = some l ∧ l.uarch = c.uarch) ∧
      (ls.map (·.uarch)).Nodup ∧
      (∀ (k : Nat) (l : ArmMach.Cluster), ls[k]? = some l → l.clusterId = k) ∧
      (∀ (p : Processor), p ∈ ps → ∃ k c, p.core = some k ∧ cs[k]? = some c ∧
        p.cluster = c.cluster) ∧
      us.map (fun u => (u.uarch, u.coreCount)) = ls.map (fun l => (l.uarch, l.coreCount)) := by
  obtain ⟨tpc, tpp, cpp, b, u, v, c, he, hs, rfl, hc⟩ := init_closed h hne
  have hp := mach_processor hc
  have hcl : (coresFinal (fun i => decodeUarch e.family.get i e.topology.cores) tpc cpp
      e.topology.cores b).length = e.topology.cores := by simp [coresFinal]
  have hle := hs.le
  refine ⟨c.processors, _, _, _, rfl, rfl, rfl, (mach_clusters_length _ _ _ _ _ _ _).symm, rfl,
    (mach_uarchs_length _ _ _ _ _).symm, ?_, ?_, ?_, ?_, ?_, ?_⟩
  · refine divides_clusters _ 1 hs _ _ _ (by omega) (by rw [Nat.mul_one]; exact hcl) rfl
      (Nat.mul_one _).symm (Nat.mul_one _).symm (Nat.mul_one _).symm fun i x hx => ?_
    obtain ⟨-, rfl⟩ := getElem?_map_range hx
    rw [Nat.div_one]; rfl
  · intro x hx
    obtain ⟨i, hi⟩ := List.getElem?_of_mem hx
    obtain ⟨hlt, rfl⟩ := getElem?_map_range hi
    refine ⟨clusterIdx b i, ?_⟩
    show ∃ l, _ ∧ (clustersAt tpc cpp e.topology.cores b u v e.topology.cores)[clusterIdx b i]? = _ ∧ _
    have hcx : (clustersAt tpc cpp e.topology.cores b u v e.topology.cores)[clusterIdx b i]? =
        some (if i < b then clusterOf tpc cpp 0 b 0 u
          else clusterOf tpc cpp b (e.topology.cores - b) 1 v) := by
      unfold clusterIdx clustersAt
      by_cases hib : i < b
      · rw [if_pos hib, if_pos hib]
        by_cases hb : b < e.topology.cores
        · rw [if_pos hb, Nat.min_eq_right hs.le]; rfl
        · rw [if_neg hb, show e.topology.cores = b by omega]; rfl
      · rw [if_neg hib, if_neg hib, if_pos (by omega), if_neg (by omega)]; rfl
    refine ⟨_, rfl, hcx, ?_⟩
    by_cases hib : i < b
    · rw [if_pos hib]; exact (hs.first i hib).symm
    · rw [if_neg hib]; exact (hs.second i (by omega) hlt).symm
  · show ((clustersAt tpc cpp e.topology.cores b u v e.topology.cores).map _).Nodup
    unfold clustersAt
    by_cases hb : b < e.topology.cores
    · rw [if_pos hb, if_neg (by omega)]
      simp [clusterOf, hs.ne hb]
    · rw [if_neg hb]; simp
  · intro k l hl
    rcases mach_clusters_get hs k l hl with ⟨rfl, rfl⟩ | ⟨-, rfl, rfl⟩ <;> rfl
  · intro p hpm
    obtain ⟨i, hi⟩ := List.getElem?_of_mem hpm
    obtain ⟨h1, -, h2, h3, -⟩ := hp i p hi
    have : i / tpc < e.topology.cores := by
      rw [Nat.div_lt_iff_lt_mul he.tpcPos, ← he.threads]; exact h1
    refine ⟨_, coreOf (fun i => decodeUarch e.family.get i e.topology.cores) tpc cpp
      (some (clusterIdx b (i / tpc))) (i / tpc), h2, ?_, h3⟩
    show (coresFinal _ _ _ _ _)[_]? = _
    unfold coresFinal
    rw [List.getElem?_map, List.getElem?_range this]; rfl
  · show (uarchsAt _ _ _ _ _).map _ = (clustersAt _ _ _ _ _ _ _).map _
    unfold uarchsAt clustersAt
    split
    · rw [if_neg (by omega), if_neg (by omega)]; rfl
    · rfl

/-- **C132, published.** The published cores have the kinds that C132 describes, in order. -/
theorem C132_published (e : Env) (o : Outcome) (h : init e = some o) (hne : o.stores ≠ [])
    (w : ArmMach.Elem .uarch) :
    ∃ cs : List ArmMach.Core, (machGlobals o w).table .core = some cs ∧
      cs.map (·.uarch) =
        (List.range cs.length).map fun i => decodeUarch e.family.get i cs.length := by
  obtain ⟨tpc, tpp, cpp, b, u, v, c, he, hs, rfl, hc⟩ := init_closed h hne
  have hcl : (coresFinal (fun i => decodeUarch e.family.get i e.topology.cores) tpc cpp
      e.topology.cores b).length = e.topology.cores := by simp [coresFinal]
  refine ⟨coresFinal (fun i => decodeUarch e.family.get i e.topology.cores) tpc cpp
    e.topology.cores b, rfl, ?_⟩
  rw [hcl, coresFinal, List.map_map]; rfl

/-- **C135, published.** Every published package has the name that C135 describes. -/
theorem C135_published (e : Env) (o : Outcome) (h : init e = some o) (hne : o.stores ≠ [])
    (w : ArmMach.Elem .uarch) :
    ∃ pks : List ArmMach.Package, (machGlobals o w).table .package = some pks ∧ pks ≠ [] ∧
      ∀ q ∈ pks, q.name = packageName e.brand e.machine := by
  obtain ⟨tpc, tpp, cpp, b, u, v, c, he, hs, rfl, hc⟩ := init_closed h hne
  refine ⟨_, rfl, fun hn => ?_, fun q hq => ?_⟩
  · have := congrArg List.length hn
    simp [fitTables] at this
    have := he.packages
    omega
  · obtain ⟨i, -, rfl⟩ := List.mem_map.mp hq
    rfl

/-- **C131.** The ranges of processors of the clusters divide the processors if, and only if, every core
has one thread; then the list of kinds counts the processors. -/
theorem C131_processors_iff (e : Env) (o : Outcome) (h : init e = some o) (hne : o.stores ≠ [])
    (w : ArmMach.Elem .uarch) :
    ∃ (ps : List Processor) (ls : List ArmMach.Cluster) (us : List ArmMach.UarchInfo),
      (machGlobals o w).table .processor = some ps ∧ (machGlobals o w).table .cluster = some ls ∧
      (machGlobals o w).table .uarch = some us ∧
      (Divides ps ls (·.cluster) (·.processorStart) (·.processorCount) ↔
        e.topology.threads = e.topology.cores) ∧
      ((us.map (·.processorCount)).sum = ps.length ↔ e.topology.threads = e.topology.cores) := by
  obtain ⟨tpc, tpp, cpp, b, u, v, c, he, hs, rfl, hc⟩ := init_closed h hne
  have hp := mach_processor hc
  have hlen := mach_processors_length hc
  have hpos := he.coresPos
  refine ⟨c.processors, clustersAt tpc cpp e.topology.cores b u v e.topology.cores,
    uarchsAt e.topology.cores b u v e.topology.cores, rfl, rfl, rfl,
    ⟨fun hdv => ?_, fun ht => ?_⟩, ?_⟩
  · have := consecutive_sum hdv.1
    rw [List.map_map, hlen, Nat.zero_add] at this
    rw [← this]
    exact (mach_sum hs).1
  · have h1 : tpc = 1 := by
      have h2 := he.threads
      rw [ht] at h2
      exact Nat.eq_of_mul_eq_mul_left hpos (by rw [Nat.mul_one]; exact h2.symm)
    subst h1
    exact divides_clusters _ 1 hs _ _ _ (by omega) (by rw [hlen, ht, Nat.mul_one])
      (Nat.zero_mul _) (Nat.mul_one _).symm rfl (Nat.mul_one _).symm
      fun i p hi => (hp i p hi).2.2.2.1
  · rw [(mach_sum (tpc := tpc) (cpp := cpp) hs).2, hlen]
    exact ⟨Eq.symm, Eq.symm⟩

/-- **C131 violated.** On every machine with several threads per core the clusters do not cover the
processors. -/
theorem C131_violated_threads (e : Env) (o : Outcome) (h : init e = some o) (hne : o.stores ≠ [])
    (ht : e.topology.cores < e.topology.threads)
    (w : ArmMach.Elem .uarch) :
    ∃ (ps : List Processor) (ls : List ArmMach.Cluster),
      (machGlobals o w).table .processor = some ps ∧ (machGlobals o w).table .cluster = some ls ∧
      ¬ Divides ps ls (·.cluster) (·.processorStart) (·.processorCount) := by
  obtain ⟨ps, ls, us, h1, h2, -, h3, -⟩ := C131_processors_iff e o h hne w
  exact ⟨ps, ls, h1, h2, fun hdv => by have := h3.mp hdv; omega⟩

/-- **C131.** The clusters are divided among the packages if, and only if, there is one package. -/
theorem C131_packages_iff (e : Env) (o : Outcome) (h : init e = some o) (hne : o.stores ≠ [])
    (w : ArmMach.Elem .uarch) :
    ∃ (ls : List ArmMach.Cluster) (pks : List ArmMach.Package),
      (machGlobals o w).table .cluster = some ls ∧ (machGlobals o w).table .package = some pks ∧
      (Divides ls pks (·.package) (·.clusterStart) (·.clusterCount) ↔ pks.length = 1) := by
  obtain ⟨tpc, tpp, cpp, b, u, v, c, he, hs, rfl, hc⟩ := init_closed h hne
  have hpos := he.packages
  have hll := mach_clusters_length tpc cpp e.topology.cores b u v e.topology.cores
  have hk : 0 < kinds e.topology.cores b := by unfold kinds; split <;> omega
  refine ⟨clustersAt tpc cpp e.topology.cores b u v e.topology.cores,
    (List.range e.topology.packages).map (ArmMach.packageOf (packageName e.brand e.machine)
      tpp cpp (kinds e.topology.cores b)), rfl, rfl, fun hdv => ?_, fun h1 => ?_⟩
  · rw [List.length_map, List.length_range]
    obtain ⟨n, hn⟩ : ∃ n, e.topology.packages = n + 1 := ⟨_, (Nat.succ_pred (by omega)).symm⟩
    cases n with
    | zero => exact hn
    | succ n =>
      have hcs := hdv.1
      rw [hn, List.range_succ_eq_map, List.range_succ_eq_map, List.map_map] at hcs
      simp only [List.map_cons, Function.comp_apply] at hcs
      cases hcs with
      | cons _ h2 =>
        generalize hx : (0 + _ : Nat) = x at h2
        exfalso
        cases h2
        simp only [packageOf] at hx
        omega
  · rw [List.length_map, List.length_range] at h1
    rw [h1]
    refine divides_one _ _ _ _ _ (by rw [hll]; exact hk) rfl hll.symm fun i l hl => ?_
    have hcpp : e.topology.cores = cpp := by rw [he.cppEq, h1, Nat.div_one]
    rcases mach_clusters_get hs i l hl with ⟨rfl, rfl⟩ | ⟨hb, rfl, rfl⟩
    · show some (0 / cpp) = _
      rw [Nat.zero_div]
    · show some (b / cpp) = _
      rw [Nat.div_eq_of_lt (by omega)]

/-- **C131 violated.** With several packages every package claims every cluster. -/
theorem C131_violated_packages (e : Env) (o : Outcome) (h : init e = some o) (hne : o.stores ≠ [])
    (hp : 1 < e.topology.packages)
    (w : ArmMach.Elem .uarch) :
    ∃ (ls : List ArmMach.Cluster) (pks : List ArmMach.Package),
      (machGlobals o w).table .cluster = some ls ∧ (machGlobals o w).table .package = some pks ∧
      1 < pks.length ∧ ¬ Divides ls pks (·.package) (·.clusterStart) (·.clusterCount) ∧
      ∀ q ∈ pks, q.clusterStart = 0 ∧ q.clusterCount = ls.length := by
  obtain ⟨ls, pks, h1, h2, h3⟩ := C131_packages_iff e o h hne w
  obtain ⟨tpc, tpp, cpp, b, u, v, c, he, hs, rfl, hc⟩ := init_closed h hne
  cases h1
  cases h2
  have hlen : (fitTables (fun i => decodeUarch e.family.get i e.topology.cores) e.topology
      (packageName e.brand e.machine) tpc tpp cpp b u v).packages.length = e.topology.packages := by
    simp [fitTables]
  refine ⟨_, _, rfl, rfl, by rw [hlen]; exact hp, fun hdv => ?_, fun q hq => ?_⟩
  · have := h3.mp hdv
    omega
  · obtain ⟨i, -, rfl⟩ := List.mem_map.mp hq
    exact ⟨rfl, (mach_clusters_length _ _ _ _ _ _ _).symm⟩

/-! ### C133: caches -/

/-- What the system reports about a level: the size; and the number of ways that is assumed. -/
def machReported (e : Env) : Level → Nat
  | .l1i => e.l1i.get
  | .l1d => e.l1d.get
  | .l2 => e.l2.get
  | .l3 => e.l3.get
  | .l4 => 0
@[inherit_doc machReported] def machWays : Level → Nat
  | .l1i | .l1d => 4
  | .l2 => 8
  | .l3 => 16
  | .l4 => 0

/-- The caches of a table describe what the system reported; their sets and ways do not exceed the size,
and make up all of it up to a remainder smaller than one more set. -/
def MachGeometry (e : Env) (l : Level) (c : Cache) : Prop :=
  c.size = machReported e l ∧ c.lineSize = e.line.get ∧ c.associativity = machWays l ∧
  c.partitions = 1 ∧ c.flags = 0 ∧
  (machWays l * e.line.get < 2 ^ 32 →
    c.associativity * c.sets * c.partitions * c.lineSize ≤ c.size ∧
    c.size < c.associativity * (c.sets + 1) * c.partitions * c.lineSize)

theorem mach_geometry (e : Env) (l : Level) (per count : Nat) (h0 : machWays l * e.line.get % U32 ≠ 0) :
    ∀ c ∈ cacheTable (machReported e l) (machWays l) e.line.get per count, MachGeometry e l c := by
  intro c hc
  obtain ⟨i, -, rfl⟩ := List.mem_map.mp hc
  refine ⟨rfl, rfl, rfl, rfl, rfl, fun hlt => ?_⟩
  dsimp only
  have hm : machWays l * e.line.get % U32 = machWays l * e.line.get := Nat.mod_eq_of_lt hlt
  rw [hm] at h0 ⊢
  generalize hr : machReported e l = r
  have key : ∀ x, machWays l * x * 1 * e.line.get = x * (machWays l * e.line.get) := fun x => by
    rw [Nat.mul_one, Nat.mul_comm (machWays l) x, Nat.mul_assoc]
  rw [key, key]
  refine ⟨Nat.div_mul_le_self _ _, ?_⟩
  rw [Nat.add_mul, Nat.one_mul]
  exact Nat.lt_div_mul_add (Nat.pos_of_ne_zero h0)

/-- **C133.** After every successful detection: a level whose size is not reported has no table and no links; each processor has its own
first-level cache; and all caches have the reported geometry. -/
theorem C133_first_level (e : Env) (o : Outcome) (h : init e = some o) (hne : o.stores ≠ [])
    (w : ArmMach.Elem .uarch) :
    ∃ ps : List Processor, (machGlobals o w).table .processor = some ps ∧
      (∀ l : Level, machReported e l = 0 →
        (machGlobals o w).table (.cache l) = none ∧ ∀ p ∈ ps, cacheLink l p = none) ∧
      (∀ l : Level, l = .l1i ∨ l = .l1d → machReported e l ≠ 0 →
        ∃ t : List Cache, (machGlobals o w).table (.cache l) = some t ∧
          (machGlobals o w).count (.cache l) = t.length ∧ t.length = ps.length ∧
          Divides ps t (cacheLink l) (·.processorStart) (·.processorCount)) ∧
      (∀ (l : Level) (t : List Cache), (machGlobals o w).table (.cache l) = some t →
        ∀ c ∈ t, MachGeometry e l c) := by
  have hz : LineOk e.sizes := let ⟨_, _, _, _, _, _, hz, _⟩ := init_success h hne; hz
  obtain ⟨tpc, tpp, cpp, b, u, v, c, he, hs, rfl, hc⟩ := init_closed h hne
  have hp := mach_processor hc
  have hlen := mach_processors_length hc
  obtain ⟨z1, z2, z3⟩ := hz
  refine ⟨c.processors, rfl, fun l hl => ?_, fun l hl hr => ?_, fun l t ht => ?_⟩
  · refine ⟨?_, fun p hpm => ?_⟩
    · cases l with
      | l1i => exact hc.l1i.trans (if_neg fun h => h hl)
      | l1d => exact hc.l1d.trans (if_neg fun h => h hl)
      | l2 => exact hc.l2.trans (if_neg fun h => h hl)
      | l3 => exact hc.l3.trans (if_neg fun h => h hl)
      | l4 => rfl
    · obtain ⟨i, hi⟩ := List.getElem?_of_mem hpm
      obtain ⟨-, -, -, -, -, h1, h2, h3, h4, h5⟩ := hp i p hi
      cases l with
      | l1i => exact h1.trans (if_neg fun h => h hl)
      | l1d => exact h2.trans (if_neg fun h => h hl)
      | l2 => exact h3.trans (if_neg fun h => h hl)
      | l3 => exact h4.trans (if_neg fun h => h hl)
      | l4 => exact h5
  · rcases hl with rfl | rfl
    · refine ⟨cacheTable (machReported e .l1i) 4 e.line.get 1 e.topology.threads,
        hc.l1i.trans (if_pos hr), ?_, by rw [hlen]; simp [cacheTable], ?_⟩
      · show l1Count e.sizes e.topology = _
        exact (if_pos (Or.inl hr)).trans (by simp [cacheTable])
      · refine divides_uniform _ _ 1 _ _ _ _ (by omega) (by rw [hlen, Nat.mul_one])
          (fun i _ => ⟨rfl, rfl⟩) fun i p hi => ?_
        obtain ⟨-, -, -, -, -, h1, -⟩ := hp i p hi
        rw [Nat.div_one]
        exact h1.trans (if_pos hr)
    · refine ⟨cacheTable (machReported e .l1d) 4 e.line.get 1 e.topology.threads,
        hc.l1d.trans (if_pos hr), ?_, by rw [hlen]; simp [cacheTable], ?_⟩
      · show l1Count e.sizes e.topology = _
        exact (if_pos (Or.inr hr)).trans (by simp [cacheTable])
      · refine divides_uniform _ _ 1 _ _ _ _ (by omega) (by rw [hlen, Nat.mul_one])
          (fun i _ => ⟨rfl, rfl⟩) fun i p hi => ?_
        obtain ⟨-, -, -, -, -, -, h1, -⟩ := hp i p hi
        rw [Nat.div_one]
        exact h1.trans (if_pos hr)
  · have table : ∀ (s : Nat) (x y : List Cache), (if s ≠ 0 then some x else none) = some y →
        s ≠ 0 ∧ x = y := by
      intro s x y hxy
      split at hxy
      · rename_i hs; cases hxy; exact ⟨hs, rfl⟩
      · cases hxy
    cases l with
    | l1i =>
      obtain ⟨hr, rfl⟩ := table _ _ _ (hc.l1i.symm.trans ht)
      exact mach_geometry e .l1i _ _ (z1 (.inl hr))
    | l1d =>
      obtain ⟨hr, rfl⟩ := table _ _ _ (hc.l1d.symm.trans ht)
      exact mach_geometry e .l1d _ _ (z1 (.inr hr))
    | l2 =>
      obtain ⟨hr, rfl⟩ := table _ _ _ (hc.l2.symm.trans ht)
      exact mach_geometry e .l2 _ _ (z2 hr)
    | l3 =>
      obtain ⟨hr, rfl⟩ := table _ _ _ (hc.l3.symm.trans ht)
      exact mach_geometry e .l3 _ _ (z3 hr)
    | l4 => cases ht

/-- **C133.** A second or third level that is reported has one cache, which every processor is linked to;
its range is all processors if, and only if, every core has one thread. -/
theorem C133_shared_iff (e : Env) (o : Outcome) (h : init e = some o) (hne : o.stores ≠ [])
    (w : ArmMach.Elem .uarch) (l : Level)
    (hl : l = .l2 ∨ l = .l3) (hr : machReported e l ≠ 0) :
    ∃ (ps : List Processor) (c : Cache), (machGlobals o w).table .processor = some ps ∧
      (machGlobals o w).table (.cache l) = some [c] ∧ (machGlobals o w).count (.cache l) = 1 ∧
      (∀ p ∈ ps, cacheLink l p = some 0) ∧ c.processorStart = 0 ∧
      (Divides ps [c] (cacheLink l) (·.processorStart) (·.processorCount) ↔
        e.topology.threads = e.topology.cores) := by
  obtain ⟨tpc, tpp, cpp, b, u, v, c, he, hs, rfl, hc⟩ := init_closed h hne
  have hp := mach_processor hc
  have hlen := mach_processors_length hc
  have hpos := he.threadsPos
  have fin : ∀ (x : Cache), x.processorStart = 0 → x.processorCount = e.topology.cores →
      (∀ p ∈ c.processors, cacheLink l p = some 0) →
      (Divides c.processors [x] (cacheLink l) (·.processorStart) (·.processorCount) ↔
        e.topology.threads = e.topology.cores) := by
    intro x h1 h2 h3
    refine ⟨fun hdv => ?_, fun ht => ?_⟩
    · have := consecutive_sum hdv.1
      simp at this
      omega
    · exact divides_one _ _ _ _ _ (by omega) h1 (by omega)
        fun i p hi => h3 p (List.mem_of_getElem? hi)
  rcases hl with rfl | rfl
  · have hall : ∀ p ∈ c.processors, cacheLink .l2 p = some 0 := by
      intro p hpm
      obtain ⟨i, hi⟩ := List.getElem?_of_mem hpm
      obtain ⟨-, -, -, -, -, -, -, h1, -⟩ := hp i p hi
      exact h1.trans (if_pos hr)
    exact ⟨c.processors, ⟨e.sizes.l2, 8, e.sizes.l2 / (8 * e.sizes.line % U32), 1, e.sizes.line, 0,
      0 * e.topology.cores, e.topology.cores⟩, rfl, hc.l2.trans (if_pos hr), if_pos hr, hall,
      Nat.zero_mul _, fin _ (Nat.zero_mul _) rfl hall⟩
  · have hall : ∀ p ∈ c.processors, cacheLink .l3 p = some 0 := by
      intro p hpm
      obtain ⟨i, hi⟩ := List.getElem?_of_mem hpm
      obtain ⟨-, -, -, -, -, -, -, -, h1, -⟩ := hp i p hi
      exact h1.trans (if_pos hr)
    exact ⟨c.processors, ⟨e.sizes.l3, 16, e.sizes.l3 / (16 * e.sizes.line % U32), 1, e.sizes.line, 0,
      0 * e.topology.cores, e.topology.cores⟩, rfl, hc.l3.trans (if_pos hr), if_pos hr, hall,
      Nat.zero_mul _, fin _ (Nat.zero_mul _) rfl hall⟩

/-- **C133 violated.** On every machine with several threads per core the shared caches do not cover the
processors that are linked to them. -/
theorem C133_violated_threads (e : Env) (o : Outcome) (h : init e = some o) (hne : o.stores ≠ [])
    (ht : e.topology.cores < e.topology.threads)
    (w : ArmMach.Elem .uarch) (l : Level) (hl : l = .l2 ∨ l = .l3) (hr : machReported e l ≠ 0) :
    ∃ (ps : List Processor) (t : List Cache), (machGlobals o w).table .processor = some ps ∧
      (machGlobals o w).table (.cache l) = some t ∧
      ¬ Divides ps t (cacheLink l) (·.processorStart) (·.processorCount) := by
  obtain ⟨ps, c, h1, h2, -, -, -, h3⟩ := C133_shared_iff e o h hne w l hl hr
  exact ⟨ps, [c], h1, h2, fun hdv => by have := h3.mp hdv; omega⟩

/-- **C133.** The maximal size of a cache is the size of the last level that the system reports, not
counting caches for instructions; 0 if it reports none. -/
theorem C133_max_size (e : Env) (o : Outcome) (h : init e = some o) (hne : o.stores ≠ [])
    (w : ArmMach.Elem .uarch) :
    (machGlobals o w).maxCacheSize =
      (([e.l3.get, e.l2.get, e.l1d.get].find? (· ≠ 0)).getD 0) := by
  obtain ⟨tpc, tpp, cpp, b, u, v, c, he, hs, rfl, hc⟩ := init_closed h hne
  show lastSize e.sizes = _
  unfold lastSize Env.sizes
  dsimp only
  by_cases h3 : e.l3.get = 0
  · by_cases h2 : e.l2.get = 0
    · by_cases h1 : e.l1d.get = 0
      · simp [h1, h2, h3, X86Init.computeMaxCacheSize]
      · simp [h1, h2, h3, X86Init.computeMaxCacheSize]
    · simp [h2, h3, X86Init.computeMaxCacheSize]
  · simp [h3, X86Init.computeMaxCacheSize]

/-- Non-vacuity: an M1, the same with two threads for each core, and with two packages. -/
example : (∃ o, init machM1 = some o ∧ o.stores ≠ []) ∧
    machM1.topology.threads = machM1.topology.cores ∧ machReported machM1 .l2 ≠ 0 ∧
    machWays .l2 * machM1.line.get < 2 ^ 32 := by
  refine ⟨?_, by decide, by decide, by decide⟩
  have h : machCommits machM1 = true := by decide +kernel
  unfold machCommits at h
  cases hi : init machM1 with
  | none => rw [hi] at h; cases h
  | some o => exact ⟨o, rfl, fun hn => by rw [hi] at h; simp [hn] at h⟩
example : machCommits { machM1 with threads := some 16, packages := some 2 } = true ∧
    Env.topology { machM1 with threads := some 16, packages := some 2 } = ⟨2, 8, 16, []⟩ := by
  decide +kernel

end Verif.Props
