import Verif.Proof.ArmUnlistedTotal
import Verif.Props.ArmCache
import Verif.Props.ArmUnlisted

/-!
# C158: when ARM/Linux detection is defined although processors are offline
-/

set_option autoImplicit false

namespace Verif.Props
open Spec ArmMidr ArmCpuinfo ArmClusters ArmInit ArmChipset Runs
open X86Init (Cache)
open ArmCache (Target decoders)

/-- **C158 (heuristic).** The cluster heuristic reads an array element that was never written exactly
if the number it is told is a known one, more processors are usable, and those within the number fit
the groups of four. -/
theorem C158_heuristic_undefined_iff (c : Config) (junk : Attrs) (u : Nat) (t : List Proc) :
    heuristic c junk u t = none ↔ KnownCount c u ∧ u < usableCount t ∧ GroupsFitBelow t u := by
  rw [heuristic_undefined_iff, knownCount_iff]

section Detection
variable (e : Env) (hs : SortsProcessors e.config.arch e.sort) (t : List Proc) (hw rev : Bytes)
  (hr : Reads e t hw rev) (h0 : 0 < listedCount t) (hc : SameCaches e)
include hs hr h0 hc

/-- **C158 (detection).** If /proc/cpuinfo lists a usable processor and the processors of a cluster get
the same caches, detection is undefined exactly if the number of listed processors is one the cluster
heuristic knows, more processors are usable, the sibling lists give clusters to another number of
processors than are listed, and the first processors fit the groups of four. -/
theorem C158_undefined_iff :
    linuxInit e = none ↔ KnownCount e.config (listedCount t) ∧ listedCount t < usableCount t ∧
      ∃ n T, Siblings e t n T ∧ n ≠ listedCount t ∧ GroupsFitBelow T (listedCount t) := by
  have G := (gather_spec e t hw rev hr).1
  obtain ⟨t1, e1, m1⟩ := frequency_spec e t
  have b1 : SameBases t t1 := ⟨m1.1, fun i p q hp hq => SameBase.measured (m1.2 i p q hp hq)⟩
  have z1 : ∀ p, p ∈ t1 → p.packageProcessorCount = 0 := by
    intro q hq
    obtain ⟨i, hi⟩ := List.getElem?_of_mem hq
    obtain ⟨p, hp, -⟩ := b1.get hi
    rw [(m1.2 i p q hp hi).1]
    exact G.sizes p (List.mem_of_getElem? hp)
  have hkey : (KnownCount e.config (listedCount t) ∧ listedCount t < usableCount t ∧
      ∃ n T, Siblings e t n T ∧ n ≠ listedCount t ∧ GroupsFitBelow T (listedCount t)) ↔
      detectClusters e.config e.junk e.junk' e.clusterCpus e.coreSiblings (countListed t) t1 = none := by
    rw [detectClusters_none_iff _ _ _ _ _ _ _ z1, ← knownCount_iff, ← countListed_listed, b1.usableCount]
    constructor
    · rintro ⟨hk, hlt, n, T, ⟨t1', t2, e1', e2, e3⟩, hn, hg⟩
      rw [e1] at e1'
      cases e1'
      exact ⟨t2, n, T, e2, e3, hn, hk, hlt, hg⟩
    · rintro ⟨t2, n, T, e2, e3, hn, hk, hlt, hg⟩
      exact ⟨hk, hlt, n, T, ⟨t1, t2, e1, e2, e3⟩, hn, hg⟩
  rw [hkey, ← analyse_none_iff (chipset := e.dec.chipset hw rev (countListed t)) G e1]
  have hg : gather e = some (some (t, hw, rev)) := hr
  cases ha : analyse e (e.dec.chipset hw rev (countListed t)) t with
  | none =>
    refine ⟨fun _ => rfl, fun _ => ?_⟩
    unfold linuxInit
    simp only [Option.bind_eq_bind, hg, Option.bind_some, ha]
    rfl
  | some r =>
    obtain ⟨r', hr', -⟩ := linuxInit_totalN e hs t hw rev hr (by rw [countListed_listed]; exact h0) hc
      r.1 r.2 ha
    rw [hr']
    exact ⟨fun h => (by cases h), fun h => (by cases h)⟩

/-- **C158 (partial).** If all usable processors are listed or the number of listed processors is not
10, 8, 6 (or 5 on 32-bit Android), detection is defined, and publishes something if all allocations
succeed.  Missing: the other numbers, see `C158_violated_offline`, and clusters whose processors get
different caches, see `C158_violated_unlisted_leader`. -/
theorem C158_defined_partial
    (hk : KnownCount e.config (listedCount t) → ∀ p ∈ t, Usable p → Spec.Listed p) :
    linuxInit e ≠ none ∧ ((∀ i, e.alloc i = true) → ∃ pub, linuxInit e = some (some pub)) := by
  have hd : linuxInit e ≠ none := by
    rw [Ne, C158_undefined_iff e hs t hw rev hr h0 hc]
    rintro ⟨h1, h2, -⟩
    have := (listed_all_iff t).mpr (hk h1)
    omega
  refine ⟨hd, fun ha => ?_⟩
  have hg : gather e = some (some (t, hw, rev)) := hr
  cases han : analyse e (e.dec.chipset hw rev (countListed t)) t with
  | none =>
    refine absurd ?_ hd
    unfold linuxInit
    simp only [Option.bind_eq_bind, hg, Option.bind_some, han]
    rfl
  | some r =>
    obtain ⟨r', hr', hok⟩ := linuxInit_totalN e hs t hw rev hr (by rw [countListed_listed]; exact h0) hc
      r.1 r.2 han
    cases r' with
    | none => exact absurd rfl (hok ha)
    | some pub => exact ⟨pub, hr'⟩

end Detection

/-! ## When the processors of a cluster get the same caches -/

private theorem same_of {e : Env} {t T : List Proc} {hw rev : Bytes} {n : Nat} (hr : Reads e t hw rev)
    (ha : analyse e (e.dec.chipset hw rev (listedCount t)) t = some (n, T)) {p q : Proc} (hp : p ∈ T)
    (hq : q ∈ T) (up : Usable p) (uq : Usable q) (hl : p.packageLeaderId = q.packageLeaderId) :
    p.uarch = q.uarch ∧ p.midr = q.midr := by
  obtain ⟨-, R, -⟩ := analyse_of (gather_spec e t hw rev hr).1 ha
  obtain ⟨i, hi⟩ := List.getElem?_of_mem hp
  obtain ⟨j, hj⟩ := List.getElem?_of_mem hq
  obtain ⟨-, ⟨l, hgl, -⟩, -⟩ := R.led i p hi up
  have s1 := R.core i p l hi up hgl
  have s2 := R.core j q l hj uq (by rw [← hl]; exact hgl)
  exact ⟨s1.uarch.trans s2.uarch.symm, s1.midr.trans s2.midr.symm⟩

/-- **C158 (one version).** That is the case if /proc/cpuinfo gives one architecture version. -/
theorem C158_one_version (e : Env) (hv : OneVersion e) : SameCaches e := by
  intro t hw rev hr n T ha p hp q hq up uq hl g cores
  obtain ⟨eu, em⟩ := same_of hr ha hp hq up uq hl
  obtain ⟨-, -, B⟩ := analyse_of (gather_spec e t hw rev hr).1 ha
  obtain ⟨i, hi⟩ := List.getElem?_of_mem hp
  obtain ⟨j, hj⟩ := List.getElem?_of_mem hq
  obtain ⟨p', hp', s⟩ := B.get hi
  obtain ⟨q', hq', s'⟩ := B.get hj
  have ev : p.architectureVersion = q.architectureVersion := by
    rw [s.version, s'.version]
    exact hv t hw rev hr p' (List.mem_of_getElem? hp') q' (List.mem_of_getElem? hq') (s.usable.mp up)
      (s'.usable.mp uq)
  dsimp only
  rw [eu, em, ev]
  exact ⟨rfl, rfl⟩

/-- **C158 (known microarchitectures).** That is the case, too, if the table of caches has the
microarchitectures of all usable processors. -/
theorem C158_known_uarchs (e : Env) (t : Target) (ch : Bytes → Bytes → Nat → Chipset)
    (hd : e.dec = decoders t ch)
    (hk : ∀ tb hw rev, Reads e tb hw rev → ∀ n T,
      analyse e (e.dec.chipset hw rev (listedCount tb)) tb = some (n, T) → ∀ p ∈ T, Usable p →
      ∀ g cores, ArmCache.known t p.uarch cores p.midr (e.dec.chipset hw rev (listedCount tb)) g ≠ none) :
    SameCaches e := by
  intro tb hw rev hr n T ha p hp q hq up uq hl g cores
  obtain ⟨eu, em⟩ := same_of hr ha hp hq up uq hl
  have hkp := hk tb hw rev hr n T ha p hp up g cores
  dsimp only
  rw [← eu, ← em]
  generalize e.dec.chipset hw rev (listedCount tb) = c at *
  rw [hd]
  have : ∀ v v', (decoders t ch).caches p.uarch cores p.midr c g v =
      (decoders t ch).caches p.uarch cores p.midr c g v' := by
    intro v v'
    show (ArmCache.decode t p.uarch cores p.midr c g v).getD _ =
      (ArmCache.decode t p.uarch cores p.midr c g v').getD _
    unfold ArmCache.decode
    cases hkn : ArmCache.known t p.uarch cores p.midr c g with
    | none => exact absurd hkn hkp
    | some d => rfl
  rw [this p.architectureVersion q.architectureVersion]
  exact ⟨rfl, rfl⟩

/-! ## Examples and violations -/

/-- Processors of one kind in a single package, of which /proc/cpuinfo lists only some; the kernel
gives no lists of siblings. -/
private def offline (listed : List Bytes) (part last : Bytes) : Env :=
  { acServer (listed.flatMap fun n => acBlock n b!"41" part) last with
    coreSiblings := fun _ => acNone }

/-- Eight Cortex-A53 processors, of which CPUs 6 and 7 are offline; the kernel gives no siblings. -/
private def offline6 : Env := offline [b!"0", b!"1", b!"2", b!"3", b!"4", b!"5"] b!"d03" b!"7\n"

/-- Four Cortex-A53 processors, of which CPU 3 is offline. -/
private def offline3 : Env := offline [b!"0", b!"1", b!"2"] b!"d03" b!"3\n"

/-- Three processors of an unknown kind, of which CPU 0 is offline. -/
private def offline0 : Env := offline [b!"1", b!"2"] b!"fff" b!"2\n"

private def counts (e : Env) : Option (Option (Nat × Nat)) :=
  (gather e).map fun r => r.map fun x => (listedCount x.1, usableCount x.1)

private theorem of_counts {e : Env} {a b : Nat} (h : counts e = some (some (a, b))) :
    ∃ t hw rev, Reads e t hw rev ∧ listedCount t = a ∧ usableCount t = b := by
  obtain ⟨r, hr, hx⟩ := Option.map_eq_some_iff.mp h
  obtain ⟨⟨t, hw, rev⟩, rfl, ht⟩ := Option.map_eq_some_iff.mp hx
  cases ht
  exact ⟨t, hw, rev, hr, rfl, rfl⟩

private theorem known_a53 (cores midr : Nat) (c : Chipset) (g : Nat) :
    ArmCache.known .arm64 ArmUarch.Uarch.cortexA53 cores midr c g ≠ none := by
  have : ∃ d, ArmCache.known .arm64 ArmUarch.Uarch.cortexA53 cores midr c g = some d := ⟨_, rfl⟩
  obtain ⟨d, hd⟩ := this
  rw [hd]
  exact Option.some_ne_none _

/-- The hypotheses of `C158_known_uarchs` and `C158_defined_partial` hold for `offline3`, where three of
four processors are listed. -/
example : SameCaches offline3 ∧ ∃ t hw rev, Reads offline3 t hw rev ∧ listedCount t = 3 ∧
    usableCount t = 4 ∧ ¬ KnownCount offline3.config 3 := by
  refine ⟨C158_known_uarchs offline3 .arm64 (fun _ _ _ => ⟨.unknown, .unknown, 0, []⟩) rfl ?_, ?_⟩
  · intro tb hw rev hr n T ha p hp up g cores
    have h : (gather offline3).map (fun r => r.map fun x =>
        (analyse offline3 (offline3.dec.chipset x.2.1 x.2.2 (listedCount x.1)) x.1).map fun y =>
          y.2.all fun p => decide (Usable p → p.uarch = ArmUarch.Uarch.cortexA53)) =
        some (some (some true)) := by decide +kernel
    have hr : gather offline3 = some (some (tb, hw, rev)) := hr
    rw [hr] at h
    have h := Option.some.inj (Option.some.inj h)
    dsimp only at h
    rw [ha] at h
    have h := of_decide_eq_true (List.all_eq_true.mp (Option.some.inj h) p hp) up
    rw [h]
    exact known_a53 _ _ _ _
  · obtain ⟨t, hw, rev, h1, h2, h3⟩ :=
      of_counts (show counts offline3 = some (some (3, 4)) by decide +kernel)
    refine ⟨t, hw, rev, h1, h2, h3, ?_⟩
    unfold KnownCount
    decide

/-- What is published for `offline3`: CPUs 0-2 with an L2 cache that is said to be shared by four. -/
example : acShown offline3 (fun pub => (pub.processors.map (·.linuxId), pub.l2.map fun c =>
    (c.processorStart, c.processorCount))) = some ([0, 1, 2], [(0, 4)]) := by decide +kernel

/-- **C158 is violated (heuristic).** Of eight usable processors of one kind two are offline.
Detection counts six, takes them for clusters of four and two, and reads the size of a third cluster,
which was never written, for the first offline processor. -/
theorem C158_violated_offline :
    ∃ (e : Env) (t : List Proc) (hw rev : Bytes), SortsProcessors e.config.arch e.sort ∧
      (∀ i, e.alloc i = true) ∧ Reads e t hw rev ∧ listedCount t = 6 ∧ usableCount t = 8 ∧
      linuxInit e = none := by
  obtain ⟨t, hw, rev, h1, h2, h3⟩ := of_counts (show counts offline6 = some (some (6, 8)) by decide +kernel)
  exact ⟨offline6, t, hw, rev, armSort_sorts _, fun _ => rfl, h1, h2, h3, by decide +kernel⟩

/-- **C158 is violated (caches).** The first processor of a cluster is offline, so its architecture
version is not known; for cores not in the table of caches it then has no L2 cache, while the second
has one and is linked to element `UINT32_MAX` of the table of L2 caches. -/
theorem C158_violated_unlisted_leader :
    ∃ (e : Env) (t : List Proc) (hw rev : Bytes), SortsProcessors e.config.arch e.sort ∧
      (∀ i, e.alloc i = true) ∧ Reads e t hw rev ∧ listedCount t = 2 ∧ usableCount t = 3 ∧
      linuxInit e = none := by
  obtain ⟨t, hw, rev, h1, h2, h3⟩ := of_counts (show counts offline0 = some (some (2, 3)) by decide +kernel)
  exact ⟨offline0, t, hw, rev, armSort_sorts _, fun _ => rfl, h1, h2, h3, by decide +kernel⟩

end Verif.Props
