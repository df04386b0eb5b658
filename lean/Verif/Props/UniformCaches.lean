import Verif.Props.UniformExact

/-!
C95: the caches that x86 on Mach and FreeBSD publishes, whatever the numbers.
-/

set_option autoImplicit false

namespace Verif.Props
open Verif.Api Verif.Spec Verif.Platform
open Verif.X86Init (X86Processor CacheDesc)
open Verif.Uniform (MachTopology machTopology machInit freebsdTopology freebsdInit Topo
  CachesOk commit cacheTable TablesOk Sharing)

/-- The published caches are those that CPUID describes, as many as fill the threads with `per` threads
to a cache.  A level that CPUID does not describe has no table; from the second level on, neither has
one of which a cache would have more threads than there are.  The published size is that of the last
level with a table (instruction caches do not count). -/
def CachesFilled (x : X86Processor) (threads : Nat) (per : Level → Nat) (g : Globals Elem) : Prop :=
  (∀ l, (descOf x l).size = 0 → g.table (.cache l) = none) ∧
  (∀ l, (descOf x l).size ≠ 0 → per l ≠ 0 ∧
    (levelNumber l ≠ 1 → threads < per l → g.table (.cache l) = none) ∧
    (levelNumber l = 1 ∨ per l ≤ threads → ∃ t : List X86Init.Cache, g.table (.cache l) = some t ∧
      t.length = threads / per l ∧
      ∀ (i : Nat) (c : X86Init.Cache), t[i]? = some c → c.size = (descOf x l).size ∧
        c.associativity = (descOf x l).associativity ∧ c.sets = (descOf x l).sets ∧
        c.partitions = (descOf x l).partitions ∧ c.lineSize = (descOf x l).lineSize ∧
        c.flags = (descOf x l).flags ∧ c.processorStart = i * per l ∧ c.processorCount = per l)) ∧
  g.maxCacheSize = ((([.l4, .l3, .l2, .l1d] : List Level).find? fun l =>
    (g.table (.cache l)).isSome).map fun l => (descOf x l).size).getD 0

/-- Reading behind the first link of a table of equal caches gives their size. -/
theorem sizeOr_table {present : Prop} [Decidable present] {d : CacheDesc} {s : Uniform.Share}
    {k : Nat} {next : Option Nat} {v : Nat}
    (h : Uniform.sizeOr (if present then some (cacheTable d s) else none)
      (if present then some k else none) next = some v) :
    (present → v = d.size) ∧ (¬ present → next = some v) := by
  unfold Uniform.sizeOr Uniform.linkedSize at h
  by_cases hp : present
  · rw [if_pos hp, if_pos hp] at h
    obtain ⟨r, hr, h⟩ := Option.bind_eq_some_iff.mp h
    obtain ⟨c, hc, rfl⟩ := Option.map_eq_some_iff.mp hr
    cases h
    obtain ⟨-, rfl⟩ := getElem?_map_range hc
    exact ⟨fun _ => rfl, fun h => absurd hp h⟩
  · rw [if_neg hp, if_neg hp] at h
    exact ⟨fun h => absurd h hp, fun _ => h⟩

/-- What is committed, for the numbers of sharing threads. -/
theorem caches_filled (t : Topo) (x : X86Processor) (uarch cpuid : Nat) (s : Uniform.Shares)
    (tb : Uniform.Tables) (c : Uniform.Caches) (k : Nat) (u : Elem .uarch) (reported : Nat → Nat)
    (ht : TablesOk t tb) (hc : CachesOk x s tb.processors c) (hk : Uniform.maxCacheSize c = some k)
    (h1 : Sharing (x.l1i.size ≠ 0 ∨ x.l1d.size ≠ 0) (reported 1) (t.threads / t.cores) t.threads s.l1)
    (h2 : Sharing (x.l2.size ≠ 0) (reported 2)
      (if x.l3.size ≠ 0 then t.threads / t.cores else t.threads / t.packages) t.threads s.l2)
    (h3 : Sharing (x.l3.size ≠ 0) (reported 3) (t.threads / t.packages) t.threads s.l3)
    (h4 : Sharing (x.l4.size ≠ 0) (reported 4) t.threads t.threads s.l4) :
    CachesFilled x t.threads
      (fun l => if reported (levelNumber l) = 0 then assumedSharing t.threads t.cores t.packages x l
        else reported (levelNumber l))
      (applyAll (commit t uarch cpuid s tb c k) (.initial u)) := by
  -- The share of a level that CPUID describes.
  have hshare : ∀ l, (descOf x l).size ≠ 0 →
      (shareOf s l).per = (if reported (levelNumber l) = 0 then
        assumedSharing t.threads t.cores t.packages x l else reported (levelNumber l)) ∧
      (shareOf s l).per ≠ 0 ∧ (shareOf s l).count = t.threads / (shareOf s l).per := by
    intro l hz
    cases l with
    | l1i => exact h1.1 (.inl hz)
    | l1d => exact h1.1 (.inr hz)
    | l2 =>
      have h := h2.1 hz
      simp only [ne_eq, ite_not] at h
      exact h
    | l3 => exact h3.1 hz
    | l4 => exact h4.1 hz
  have habsent : ∀ l, levelNumber l ≠ 1 → (descOf x l).size = 0 → (shareOf s l).count = 0 := by
    intro l hl hz
    cases l with
    | l1i => exact absurd rfl hl
    | l1d => exact absurd rfl hl
    | l2 => exact congrArg (·.count) (h2.2 (fun h => h hz))
    | l3 => exact congrArg (·.count) (h3.2 (fun h => h hz))
    | l4 => exact congrArg (·.count) (h4.2 (fun h => h hz))
  -- A level without caches has no table.
  have hnone : ∀ l, levelNumber l ≠ 1 → (shareOf s l).count = 0 →
      (applyAll (commit t uarch cpuid s tb c k) (.initial u)).table (.cache l) = none := by
    intro l hl hz
    cases l with
    | l1i => exact absurd rfl hl
    | l1d => exact absurd rfl hl
    | l2 => exact hc.l2.trans (if_neg (fun h => h hz))
    | l3 => exact hc.l3.trans (if_neg (fun h => h hz))
    | l4 => exact hc.l4.trans (if_neg (fun h => h hz))
  refine ⟨fun l hz => ?_, fun l hz => ?_, ?_⟩
  · by_cases hl : levelNumber l = 1
    · cases l with
      | l1i => exact hc.l1i.trans (if_neg (fun h => h hz))
      | l1d => exact hc.l1d.trans (if_neg (fun h => h hz))
      | l2 => cases hl
      | l3 => cases hl
      | l4 => cases hl
    · exact hnone l hl (habsent l hl hz)
  · obtain ⟨e1, e2, e3⟩ := hshare l hz
    dsimp only
    rw [← e1]
    refine ⟨e2, fun hl hlt => hnone l hl ?_, fun hle => ?_⟩
    · rw [e3]; exact Nat.div_eq_of_lt hlt
    · have hcount : 2 ≤ levelNumber l → (shareOf s l).count ≠ 0 := by
        intro hl h0
        rw [e3] at h0
        rcases Nat.div_eq_zero_iff.mp h0 with h | h
        · exact e2 h
        · rcases hle with h' | h' <;> omega
      refine ⟨_, level_table t x uarch cpuid s tb c k u hc l (fun _ => hz) hcount, ?_, ?_⟩
      · unfold cacheTable
        rw [List.length_map, List.length_range, e3]
      · intro i e he
        obtain ⟨-, rfl⟩ := getElem?_map_range he
        exact ⟨rfl, rfl, rfl, rfl, rfl, rfl, rfl, rfl⟩
  · show k = ((([.l4, .l3, .l2, .l1d] : List Level).find? fun l =>
      ((applyAll (commit t uarch cpuid s tb c k) (.initial u)).table (.cache l)).isSome).map
        fun l => (descOf x l).size).getD 0
    have t4 : (applyAll (commit t uarch cpuid s tb c k) (.initial u)).table (.cache .l4) = c.l4 := rfl
    have t3 : (applyAll (commit t uarch cpuid s tb c k) (.initial u)).table (.cache .l3) = c.l3 := rfl
    have t2 : (applyAll (commit t uarch cpuid s tb c k) (.initial u)).table (.cache .l2) = c.l2 := rfl
    have t1 : (applyAll (commit t uarch cpuid s tb c k) (.initial u)).table (.cache .l1d) = c.l1d := rfl
    unfold Uniform.maxCacheSize at hk
    obtain ⟨p, hp, hk⟩ := Option.bind_eq_some_iff.mp hk
    rw [hc.processors 0] at hp
    obtain ⟨p0, h0, rfl⟩ := Option.map_eq_some_iff.mp hp
    obtain ⟨-, -, -, -, -, z1, z2, z3, z4⟩ := ht.linked 0 p0 h0
    dsimp only at hk
    rw [z1, z2, z3, z4, hc.l4, hc.l3, hc.l2, hc.l1d] at hk
    obtain ⟨y4, n4⟩ := sizeOr_table hk
    simp only [List.find?_cons, List.find?_nil, t1, t2, t3, t4, hc.l4, hc.l3, hc.l2, hc.l1d]
    by_cases b4 : s.l4.count ≠ 0
    · rw [if_pos b4]; exact y4 b4
    obtain ⟨y3, n3⟩ := sizeOr_table (n4 b4)
    rw [if_neg b4]
    by_cases b3 : s.l3.count ≠ 0
    · rw [if_pos b3]; exact y3 b3
    obtain ⟨y2, n2⟩ := sizeOr_table (n3 b3)
    rw [if_neg b3]
    by_cases b2 : s.l2.count ≠ 0
    · rw [if_pos b2]; exact y2 b2
    obtain ⟨y1, n1⟩ := sizeOr_table (n2 b2)
    rw [if_neg b2]
    by_cases b1 : x.l1d.size ≠ 0
    · rw [if_pos b1]; exact y1 b1
    rw [if_neg b1]
    have := n1 b1
    cases this
    rfl

/-- **C95, Mach.** Whatever the system answers, and whether or not the numbers divide: whenever
detection is successful the caches are as CPUID describes them, shared as the system reports or, where
it reports nothing, as assumed, and the size for the whole machine is that of the last level that is
published. -/
theorem C95_mach (m : MachTopology) (x : X86Processor) (uarch cpuid : Nat) (alloc : Nat → Bool)
    (u : Elem .uarch) (st : List (Store Elem)) (h : machInit m x uarch cpuid alloc = some st)
    (hf : (applyAll st (.initial u)).isInitialized = true) :
    CachesFilled x m.threads (fun l => match m.threadsPerCache[levelNumber l]? with
      | some (r + 1) => r + 1
      | _ => assumedSharing m.threads m.cores m.packages x l) (applyAll st (.initial u)) := by
  rcases Uniform.machInit_some m x uarch cpuid alloc st h with
    rfl | ⟨tb, s, c, k, -, ht, hs, hc, hk, rfl⟩
  · cases hf
  obtain ⟨r1, r2, r3, r4, g1, g2, g3, g4, s1, s2, s3, s4⟩ := Uniform.machShares_some hs
  have hr : ∀ (n r : Nat), m.threadsPerCache[n]? = some r → m.threadsPerCache.getD n 0 = r := by
    intro n r h
    rw [List.getD_eq_getElem?_getD, h]
    rfl
  have := caches_filled ⟨m.packages, m.cores, m.threads, m.threads / m.cores⟩ x uarch cpuid s tb c k u
    (fun n => m.threadsPerCache.getD n 0) ht hc hk (by rw [hr 1 r1 g1]; exact s1)
    (by rw [hr 2 r2 g2]; exact s2) (by rw [hr 3 r3 g3]; exact s3) (by rw [hr 4 r4 g4]; exact s4)
  have e : (fun l => if m.threadsPerCache.getD (levelNumber l) 0 = 0 then
      assumedSharing m.threads m.cores m.packages x l else m.threadsPerCache.getD (levelNumber l) 0) =
      (fun l => match m.threadsPerCache[levelNumber l]? with
      | some (r + 1) => r + 1
      | _ => assumedSharing m.threads m.cores m.packages x l) := by
    funext l
    rw [List.getD_eq_getElem?_getD]
    cases m.threadsPerCache[levelNumber l]? with
    | none => rfl
    | some r => cases r <;> rfl
  rw [← e]
  exact this

/-- **C95, FreeBSD.** Likewise, shared as assumed. -/
theorem C95_freebsd (t : Topo) (x : X86Processor) (uarch cpuid : Nat) (alloc : Nat → Bool)
    (u : Elem .uarch) (st : List (Store Elem)) (h : freebsdInit (some t) x uarch cpuid alloc = some st)
    (hf : (applyAll st (.initial u)).isInitialized = true) :
    CachesFilled x t.threads (assumedSharing t.threads t.cores t.packages x)
      (applyAll st (.initial u)) := by
  rcases Uniform.freebsdInit_some t x uarch cpuid alloc st h with
    rfl | ⟨tb, s, c, k, ht, hs, hc, hk, rfl⟩
  · cases hf
  obtain ⟨s1, s2, s3, s4⟩ := Uniform.freebsdShares_some hs
  exact caches_filled t x uarch cpuid s tb c k u (fun _ => 0) ht hc hk s1 s2 s3 s4

/-! ### Cases that meet the hypotheses -/

/-- Nine threads on four cores in three packages, with caches, on Mach: published, though nothing
divides. -/
example (u : Elem .uarch) : ∃ st,
    machInit (machTopology (some 4) (some 9) (some 3) none) cachedX86 0 0 (fun _ => true) = some st ∧
    (applyAll st (.initial u)).isInitialized = true := ⟨_, rfl, rfl⟩

/-- Three packages with four cores, two threads each, on FreeBSD. -/
example (u : Elem .uarch) : ∃ st,
    freebsdInit (some ⟨3, 4, 8, 2⟩) cachedX86 0 0 (fun _ => true) = some st ∧
    (applyAll st (.initial u)).isInitialized = true := ⟨_, rfl, rfl⟩

end Verif.Props
