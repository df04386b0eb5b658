import Verif.Proof.ArmTopology
import Verif.Proof.ArmOrder

/-!
# C36–C39: order and clusters of ARM processors
-/

set_option autoImplicit false

namespace Verif.Props
open Spec ArmMidr ArmCpuinfo ArmClusters

/-- A usable processor for examples: flags besides "usable", MIDR, maximum frequency, leader,
number. -/
private def exProc (flags midr freq leader id : Nat) : Proc :=
  { Proc.zero with
    flags := flags ||| 0x1000
    midr := midr
    maxFrequency := freq
    packageLeaderId := leader
    systemProcessorId := id }

/-! ## C36 -/

/-- **C36 (documented order).** The comparison function puts usable processors first, then faster
core types, then higher maximum frequency, then clusters with a higher leader, then lower processor
numbers. -/
theorem C36_documented_order (a : Arch) (x y : Proc) :
    (cmpProcessor a x y < 0 ↔ Before a x y) ∧ (cmpProcessor a x y > 0 ↔ Before a y x) :=
  cmp_before a x y

/-- **C36 (total order).** The comparison function is a consistent total order on processor records:
swapping the arguments reverses the result, equality of processors compares as zero and only equal
processor numbers do, and "not after" is transitive. -/
theorem C36_total_order (a : Arch) (x y z : Proc) :
    (cmpProcessor a x y < 0 ↔ cmpProcessor a y x > 0) ∧
    cmpProcessor a x x = 0 ∧
    (cmpProcessor a x y = 0 → x.systemProcessorId = y.systemProcessorId) ∧
    (cmpProcessor a x y ≤ 0 → cmpProcessor a y z ≤ 0 → cmpProcessor a x z ≤ 0) := by
  have hxy := cmp_before a x y
  have hyx := cmp_before a y x
  have hxx := cmp_before a x x
  have hyz := cmp_before a y z
  have hxz := cmp_before a x z
  refine ⟨hxy.1.trans hyx.2.symm, ?_, ?_, ?_⟩
  · have h1 := mt hxx.1.mp (before_irrefl a x)
    have h2 := mt hxx.2.mp (before_irrefl a x)
    omega
  · intro h
    have h1 : ¬ Before a x y := mt hxy.1.mpr (by omega)
    have h2 : ¬ Before a y x := mt hxy.2.mpr (by omega)
    rcases before_total a x y with h | h | h
    · exact absurd h h1
    · exact absurd h h2
    · exact h.2.2.2.2
  · intro h1 h2
    have h1 : ¬ Before a y x := mt hxy.2.mpr (by omega)
    have h2 : ¬ Before a z y := mt hyz.2.mpr (by omega)
    have h3 : ¬ Before a z x := by
      intro h
      rcases before_total a x y with g | g | g
      · exact h2 (before_trans a h g)
      · exact h1 g
      · rcases before_total a y z with g' | g' | g'
        · exact h1 (before_trans a g' h)
        · exact h2 g'
        · unfold Before at h
          obtain ⟨a1, a2, a3, a4, a5⟩ := g
          obtain ⟨b1, b2, b3, b4, b5⟩ := g'
          rcases h with ⟨hz, hx⟩ | ⟨-, h⟩
          · exact hx (a1.mpr (b1.mpr hz))
          · omega
    have := mt hxz.2.mp h3
    omega

/-- **C36 (sorting is deterministic).** Whatever sorting algorithm is used, two arrays that hold the
same processors with distinct numbers and are ordered by the comparison function are equal. -/
theorem C36_sorting_deterministic (a : Arch) (t s s' : List Proc)
    (hid : (t.map (·.systemProcessorId)).Nodup) (hs : s.Perm t) (hs' : s'.Perm t)
    (ho : s.Pairwise fun x y => cmpProcessor a x y ≤ 0)
    (ho' : s'.Pairwise fun x y => cmpProcessor a x y ≤ 0) : s = s' := by
  refine (hs.trans hs'.symm).eq_of_pairwise (le := fun x y => cmpProcessor a x y ≤ 0) ?_ ho ho'
  intro x y hx hy h1 h2
  have h0 : cmpProcessor a x y = 0 := by
    have := (C36_total_order a x y x).1
    have := (C36_total_order a y x x).1
    omega
  have hids := (C36_total_order a x y x).2.2.1 h0
  have hxt := hs.mem_iff.mp hx
  have hyt := hs'.mem_iff.mp hy
  obtain ⟨i, hi⟩ := List.getElem?_of_mem hxt
  obtain ⟨j, hj⟩ := List.getElem?_of_mem hyt
  have hij : i = j := by
    have hi' : i < (t.map (·.systemProcessorId)).length := by
      rw [List.length_map]; exact lt_of_get hi
    apply (List.getElem?_inj hi' hid).mp
    rw [List.getElem?_map, List.getElem?_map, hi, hj]
    simp [hids]
  subst hij
  rw [hi] at hj
  exact Option.some.inj hj

/-- Non-vacuity: a Cortex-A72 sorts before a Cortex-A53 of higher frequency, among A53 the frequency
decides, then the higher leader, then the lower number; an unusable processor is last. -/
example :
    cmpProcessor .arm64 (exProc 0 0x410FD080 1000 4 5) (exProc 0 0x410FD030 2000 0 0) < 0 ∧
    cmpProcessor .arm64 (exProc 0 0x410FD030 2000 0 1) (exProc 0 0x410FD030 1000 2 3) < 0 ∧
    cmpProcessor .arm64 (exProc 0 0x410FD030 1000 4 5) (exProc 0 0x410FD030 1000 0 1) < 0 ∧
    cmpProcessor .arm64 (exProc 0 0x410FD030 1000 0 1) (exProc 0 0x410FD030 1000 0 2) < 0 ∧
    cmpProcessor .arm64 { exProc 0 0x410FD080 9 9 0 with flags := 0 } (exProc 0 0x410FD030 1 0 9) > 0 := by
  decide

/-! ## C37 -/

/-- Unclustered usable processors lead themselves (as the initialisation of the leaders leaves
them). -/
def SelfLed (t : List Proc) : Prop :=
  ∀ (i : Nat) (p : Proc), t[i]? = some p → Usable p → ¬ Clustered p → p.packageLeaderId = i

theorem knownCount_iff (c : Config) (u : Nat) :
    (∃ ss, clusterSizes c u = some ss) ↔ KnownCount c u := by
  unfold clusterSizes KnownCount
  by_cases h1 : u = 10
  · simp [h1]
  · by_cases h2 : u = 8
    · simp [h2]
    · by_cases h3 : u = 6
      · simp [h3]
      · by_cases h4 : u = 5 ∧ c.android = true ∧ c.arch = .arm
        · simp [h4]
        · rw [if_neg h1, if_neg h2, if_neg h3, if_neg h4]
          constructor
          · rintro ⟨ss, h⟩; cases h
          · rintro (h | h | h | h)
            · exact absurd h h1
            · exact absurd h h2
            · exact absurd h h3
            · exact absurd h h4

/-- **C37 (all or nothing).** If the heuristic reports failure, the table is unchanged.  If it reports
success, the number of usable processors was a known one (10, 8, 6, or 5), and the usable processors
are in consecutive groups of 4 (the last one holds the remaining 2 or 1): the leader of the r-th
usable processor is the usable processor of rank `r / 4 * 4`, everything else is unchanged. -/
theorem C37_all_or_nothing (c : Config) (junk : Attrs) (u : Nat) (t t' : List Proc) (ok : Bool)
    (hself : SelfLed t) (h : heuristic c junk u t = some (t', ok)) :
    (ok = false → t' = t) ∧
    (ok = true → KnownCount c u ∧ usableCount t ≤ u ∧ SameTable t t' ∧
      (∀ (i : Nat) (p : Proc), t[i]? = some p → ¬ Usable p → t'[i]? = some p) ∧
      ∀ (i : Nat) (p : Proc), t'[i]? = some p → Usable p →
        UsableAt t p.packageLeaderId ∧ p.packageLeaderId ≤ i ∧
          rank t p.packageLeaderId = rank t i / 4 * 4) := by
  refine ⟨?_, ?_⟩
  · rintro rfl; exact heuristic_false c junk u t t' h
  · rintro rfl
    obtain ⟨ss, hss, hv, s, rfl, ha⟩ := heuristic_true c junk u t t' h
    have self : ∀ (j : Nat) (p : Proc), t[j]? = some p → Usable p → rank t j % 4 = 0 →
        s.table[j]? = some p ∧ p.packageLeaderId = j := by
      intro j p hp hu hr
      refine ⟨ha.first j p (lt_of_get hp) hp hu hr, ?_⟩
      by_cases hc : Clustered p
      · exact (hv.same j j p p (lt_of_get hp) hp hu hp hu (by omega)).2 hc
      · exact hself j p hp hu hc
    have hsame : SameTable t s.table := by
      refine ⟨ha.length, fun i p q hp hq => ?_⟩
      by_cases hu : Usable p
      · by_cases hr : rank t i % 4 = 0
        · rw [(self i p hp hu hr).1] at hq; cases hq; exact SameButCluster.refl _
        · obtain ⟨g, -, -, -, e⟩ := ha.member i p (lt_of_get hp) hp hu hr
          rw [e] at hq; cases hq; exact same_placed p g
      · rw [ha.unusable i p hp hu] at hq; cases hq; exact SameButCluster.refl _
    refine ⟨(knownCount_iff c u).mp ⟨ss, hss⟩, by rw [← rank_length]; exact ha.le, hsame,
      ha.unusable, fun i q hq hqu => ?_⟩
    obtain ⟨p, hp, hpq⟩ := hsame.get hq
    have hu := hpq.usable.mp hqu
    by_cases hr : rank t i % 4 = 0
    · obtain ⟨e, hl⟩ := self i p hp hu hr
      rw [e] at hq; cases hq
      rw [hl]
      exact ⟨⟨_, hp, hqu⟩, Nat.le_refl _, by omega⟩
    · obtain ⟨g, hg, hgi, hgr, e⟩ := ha.member i p (lt_of_get hp) hp hu hr
      rw [e] at hq; cases hq
      exact ⟨hg, Nat.le_of_lt hgi, hgr⟩

/-- **C37 (when it succeeds).** With all usable processors counted, the heuristic runs without
touching uninitialised memory, and it succeeds exactly if the number is a known one and the groups
of four respect what is known about the processors.  Partial: the details of the first member of a
group are not taken into account (see `C37_first_member_ignored_broken`). -/
theorem C37_success_iff_partial (c : Config) (junk : Attrs) (u : Nat) (t : List Proc)
    (hu : usableCount t ≤ u) :
    ∃ t' ok, heuristic c junk u t = some (t', ok) ∧ (ok = true ↔ KnownCount c u ∧ GroupsFit t) := by
  obtain ⟨⟨t', ok⟩, e⟩ := heuristic_total c junk u t hu
  refine ⟨t', ok, e, ?_, ?_⟩
  · rintro rfl
    obtain ⟨ss, hss, hv, -⟩ := heuristic_true c junk u t t' e
    exact ⟨(knownCount_iff c u).mp ⟨ss, hss⟩,
      fun j g p q hp => hv.same j g p q (lt_of_get hp) hp,
      fun j k p q hp hpu hq => hv.agree j k p q (lt_of_get hp) (lt_of_get hq) hp hpu hq⟩
  · rintro ⟨hk, hg⟩
    obtain ⟨ss, hss⟩ := (knownCount_iff c u).mpr hk
    obtain ⟨t'', e'⟩ := heuristic_succeeds c junk u t ss hss hu
      ⟨fun j g p q _ hp => hg.same j g p q hp, fun j k p q _ _ hp hpu hq => hg.agree j k p q hp hpu hq⟩
    rw [e] at e'
    cases e'; rfl

/-- Non-vacuity: six Cortex-A53/A57 processors with an unusable one in between become 4 + 2. -/
private def exSix : List Proc :=
  [exProc 0x20000 0x41000000 0 0 0, exProc 0x20000 0x41000000 0 1 1,
   { exProc 0 0 0 2 2 with flags := 0 },
   exProc 0x20000 0x41000000 0 3 3, exProc 0 0 0 4 4, exProc 0x4 0 1500 5 5, exProc 0x4 0 1500 6 6]

example : (heuristic ⟨.arm64, false⟩ ⟨0, 0, 0, 0⟩ 6 exSix).map
    (fun r => (r.1.map (·.packageLeaderId), r.2)) = some ([0, 0, 2, 0, 0, 5, 5], true) ∧
    usableCount exSix = 6 ∧ SelfLed exSix := by
  refine ⟨by decide, by decide, ?_⟩
  intro i p hp hu hc
  match i, hp with
  | 0, hp | 1, hp | 3, hp | 4, hp | 5, hp | 6, hp => cases hp; rfl
  | 2, hp => cases hp; cases hu
  | n + 7, hp => cases hp

/-- Non-vacuity: a differing part number in a group makes it fail and leaves the table alone. -/
example : heuristic ⟨.arm64, false⟩ ⟨0, 0, 0, 0⟩ 6 (exSix.set 3 (exProc 0x20000 0x42000000 0 3 3)) =
    some (exSix.set 3 (exProc 0x20000 0x42000000 0 3 3), false) := by decide

/-- **C37 (violation).** The heuristic never looks at the details of the first member of a group it
creates: eight processors of which the first has another implementer and another maximum frequency
than the second are put into the same cluster. -/
theorem C37_first_member_ignored_broken :
    ∃ t t', heuristic ⟨.arm64, false⟩ ⟨0, 0, 0, 0⟩ 8 t = some (t', true) ∧
      ∃ p q, t'[0]? = some p ∧ t'[1]? = some q ∧ Conflict p q ∧
        p.packageLeaderId = q.packageLeaderId := by
  refine ⟨exProc 0x20004 0x51000000 2400 0 0 ::
    (List.range 7).map fun i => exProc 0x20004 0x41000000 1800 (i + 1) (i + 1), _, rfl, ?_⟩
  refine ⟨_, _, rfl, rfl, ⟨.implementer, 0x51, 0x41, ?_, ?_, by decide⟩, ?_⟩ <;> decide

/-- **C37 (violation).** If more processors are usable than were counted (the caller only counts
those listed in /proc/cpuinfo), the heuristic reads array elements it never wrote: ten usable
processors of which eight were counted. -/
theorem C37_uninitialised_read_broken :
    ∃ t, usableCount t = 10 ∧ SelfLed t ∧ heuristic ⟨.arm64, false⟩ ⟨0, 0, 0, 0⟩ 8 t = none := by
  refine ⟨(List.range 10).map fun i => exProc 0 0 0 i i, by decide, ?_, by decide⟩
  intro i p hp _ _
  rw [List.getElem?_map] at hp
  by_cases hi : i < 10
  · rw [List.getElem?_range hi] at hp
    cases hp; rfl
  · rw [List.getElem?_eq_none (by rw [List.length_range]; omega)] at hp
    cases hp

/-! ## C38 -/

/-- **C38.** The sequential scan always succeeds and only touches usable processors without a
cluster; each of those gets a leader that is such a processor at a position not above and leads
itself.  The first starts a cluster; every later one joins the cluster of the preceding one unless
it has a known detail (frequencies, implementer, variant, part, revision) that differs from one
known for a member of that cluster, and then starts a new cluster. -/
theorem C38_sequential_scan (junk : Attrs) (t : List Proc) :
    ∃ t' lead, sequentialScan junk t = some t' ∧ SameTable t t' ∧
      (∀ (i : Nat) (p : Proc), t[i]? = some p → ¬ Free p → t'[i]? = some p) ∧
      ∀ (i : Nat) (p : Proc), t[i]? = some p → Free p →
        (∃ q, t'[i]? = some q ∧ q.packageLeaderId = lead i ∧ Clustered q) ∧
        lead i ≤ i ∧ FreeAt t (lead i) ∧ lead (lead i) = lead i ∧ ScanLeader t lead i := by
  obtain ⟨s, lead, e, h⟩ := sequentialScan_inv junk t
  refine ⟨s.table, lead, e, ⟨h.length, fun i p q hp hq => ?_⟩, h.other, fun i p hp hf => ?_⟩
  · by_cases hf : Free p
    · rw [h.free i p (lt_of_get hp) hp hf] at hq; cases hq; exact same_placed p _
    · rw [h.other i p hp hf] at hq; cases hq; exact SameButCluster.refl _
  · obtain ⟨a, b, c⟩ := h.le i (lt_of_get hp) ⟨p, hp, hf⟩
    exact ⟨⟨_, h.free i p (lt_of_get hp) hp hf, rfl, clustered_placed p _⟩, a, b, c,
      h.spec i (lt_of_get hp) ⟨p, hp, hf⟩⟩

/-- The rule of C38 determines the leaders. -/
theorem scanLeader_unique (t : List Proc) (lead lead' : Nat → Nat)
    (h : ∀ i, FreeAt t i → ScanLeader t lead i) (h' : ∀ i, FreeAt t i → ScanLeader t lead' i) :
    ∀ n i, i < n → FreeAt t i → lead i = lead' i := by
  intro n
  induction n with
  | zero => intro i hi; omega
  | succ n ih =>
    intro i hi hf
    -- the free processor preceding i, if any
    have prev : (∀ k, k < i → ¬ FreeAt t k) ∨ ∃ k, k < i ∧ FreeAt t k ∧
        ∀ m, k < m → m < i → ¬ FreeAt t m := by
      clear hi hf
      induction i with
      | zero => left; intro k hk; omega
      | succ i ih' =>
        by_cases hfi : FreeAt t i
        · exact .inr ⟨i, by omega, hfi, fun m hm hm' => by omega⟩
        · rcases ih' with g | ⟨k, hk, hk', g⟩
          · left; intro k hk
            by_cases hki : k = i
            · subst hki; exact hfi
            · exact g k (by omega)
          · refine .inr ⟨k, by omega, hk', fun m hm hm' => ?_⟩
            by_cases hmi : m = i
            · subst hmi; exact hfi
            · exact g m hm (by omega)
    rcases prev with g | ⟨k, hk, hk', g⟩
    · rw [(h i hf).1 g, (h' i hf).1 g]
    · have hkk := ih k (by omega) hk'
      obtain ⟨a1, a2⟩ := (h i hf).2 k hk hk' g
      obtain ⟨b1, b2⟩ := (h' i hf).2 k hk hk' g
      by_cases hc : ∃ (m : Nat) (p q : Proc), m < i ∧ t[m]? = some p ∧ Free p ∧
          lead m = lead k ∧ t[i]? = some q ∧ Conflict p q
      · rw [a2 hc]
        obtain ⟨m, p, q, hm, hp, hfp, hl, hq, hcon⟩ := hc
        refine (b2 ⟨m, p, q, hm, hp, hfp, ?_, hq, hcon⟩).symm
        rw [← ih m (by omega) ⟨p, hp, hfp⟩, ← hkk]
        exact hl
      · rw [a1 hc, hkk]
        refine (b1 ?_).symm
        rintro ⟨m, p, q, hm, hp, hfp, hl, hq, hcon⟩
        refine hc ⟨m, p, q, hm, hp, hfp, ?_, hq, hcon⟩
        rw [ih m (by omega) ⟨p, hp, hfp⟩, hkk]
        exact hl

/-- **C38 (deterministic).** The result does not depend on the content of the uninitialised local
variables the code declares. -/
theorem C38_deterministic (junk junk' : Attrs) (t : List Proc) :
    sequentialScan junk t = sequentialScan junk' t := by
  obtain ⟨s, lead, e, h⟩ := sequentialScan_inv junk t
  obtain ⟨s', lead', e', h'⟩ := sequentialScan_inv junk' t
  rw [e, e']
  congr 1
  have hl := scanLeader_unique t lead lead'
    (fun i hf => h.spec i (by obtain ⟨p, hp, -⟩ := hf; exact lt_of_get hp) hf)
    (fun i hf => h'.spec i (by obtain ⟨p, hp, -⟩ := hf; exact lt_of_get hp) hf)
  apply List.ext_getElem?
  intro i
  by_cases hi : i < t.length
  · have hp := List.getElem?_eq_getElem hi
    generalize t[i] = p at hp
    by_cases hf : Free p
    · rw [h.free i p hi hp hf, h'.free i p hi hp hf, hl (i + 1) i (by omega) ⟨p, hp, hf⟩]
    · rw [h.other i p hp hf, h'.other i p hp hf]
  · rw [List.getElem?_eq_none (show s.table.length ≤ i by rw [h.length]; omega),
      List.getElem?_eq_none (show s'.table.length ≤ i by rw [h'.length]; omega)]

/-- Non-vacuity: unknown details are filled in (processor 1 has no frequency), a differing frequency
starts a new cluster, clustered and unusable processors are skipped. -/
example : (sequentialScan ⟨7, 7, 7, 7⟩
    [exProc 0x4 0 1000 0 0, exProc 0 0 0 0 1, exProc 0x400 0 0 9 2, exProc 0x4 0 1000 0 3,
     { exProc 0x4 0 5 8 4 with flags := 4 }, exProc 0x4 0 2000 0 5, exProc 0 0 0 0 6]).map
    (·.map (·.packageLeaderId)) = some [0, 0, 9, 0, 8, 5, 5] := by decide

/-! ## C39 -/

/-- **C39 (representatives and counts).** For every table without preset cluster sizes, every content
and read behaviour of the topology files, with all usable processors counted: cluster detection
completes without undefined behaviour, changes nothing but leaders, cluster marks and cluster sizes,
the leader of every usable processor is a usable processor not above that leads itself, the recorded
cluster size is the number of usable processors with the same leader, and the sizes over all leaders
add up to the number of usable processors. -/
theorem C39_representatives (c : Config) (junk junk' : Attrs) (clusterCpus coreSiblings : Nat → File)
    (u : Nat) (t : List Proc) (hu : usableCount t ≤ u)
    (hz : ∀ p, p ∈ t → p.packageProcessorCount = 0) :
    ∃ t', detectClusters c junk junk' clusterCpus coreSiblings u t = some t' ∧
      SameProcessors t t' ∧ Led t' ∧
      (∀ (i : Nat) (p : Proc), t'[i]? = some p → Usable p →
        p.packageProcessorCount = membersOf t' p.packageLeaderId) ∧
      ((leaders t').map (membersOf t')).sum = usableCount t' := by
  obtain ⟨t', e, h1, h2, h3⟩ := detectClusters_led c junk junk' clusterCpus coreSiblings u t hu hz
  exact ⟨t', e, h1, h2, h3, members_sum t' h2⟩

/-- **C39 (same cluster, same leader).** If the kernel describes the clusters (see `KernelClusters`),
then two usable processors have the same leader iff they are in the same cluster, and the leader is
the first usable processor of the cluster. -/
theorem C39_kernel_clusters (c : Config) (junk junk' : Attrs) (clusterCpus coreSiblings : Nat → File)
    (u : Nat) (t t' : List Proc) (cls : Nat → Nat) (lists : Nat → List (Nat × Nat))
    (hk : KernelClusters t cls lists clusterCpus coreSiblings)
    (hz : ∀ p, p ∈ t → p.packageProcessorCount = 0)
    (h : detectClusters c junk junk' clusterCpus coreSiblings u t = some t')
    (hsame : SameProcessors t t') (i j : Nat) (p q : Proc) (hp : t'[i]? = some p) (hpu : Usable p)
    (hq : t'[j]? = some q) (hqu : Usable q) :
    FirstOfClass t cls i p.packageLeaderId ∧
      (p.packageLeaderId = q.packageLeaderId ↔ cls i = cls j) := by
  have key := detectClusters_class c junk junk' hk hz u t' h
  have use : ∀ (i : Nat) (p : Proc), t'[i]? = some p → Usable p → UsableAt t i := by
    intro i p hp hpu
    have hi : i < t.length := by rw [← hsame.1]; exact lt_of_get hp
    have hr := List.getElem?_eq_getElem hi
    generalize t[i] = r at hr
    have := (hsame.2 i r p hr hp).2 12 (by decide)
    exact ⟨r, hr, this.symm.trans hpu⟩
  obtain ⟨m, hm⟩ := exists_first t cls i (use i p hp hpu)
  obtain ⟨n, hn⟩ := exists_first t cls j (use j q hq hqu)
  rw [key i m p hp hpu hm, key j n q hq hqu hn]
  refine ⟨hm, fun e => ?_, fun e => first_unique hm hn e⟩
  rw [← hm.2.1, ← hn.2.1, e]

/-- **C39 (without topology files).** If the kernel has no topology files, the clusters are
consecutive groups of four when the number of processors is a known one and these groups respect
what is known (see C37), and the clusters of the sequential scan (see C38) in every other case. -/
theorem C39_without_topology (c : Config) (junk junk' : Attrs) (clusterCpus coreSiblings : Nat → File)
    (hcl : ∀ i, (clusterCpus i).1 = none) (hco : ∀ i, (coreSiblings i).1 = none) (u : Nat)
    (t : List Proc) (hu : usableCount t ≤ u) (hz : ∀ p, p ∈ t → p.packageProcessorCount = 0)
    (hn : ∀ p, p ∈ t → ¬ Clustered p) :
    ∃ t', detectClusters c junk junk' clusterCpus coreSiblings u t = some t' ∧
      (KnownCount c u ∧ GroupsFit t → ∀ (i : Nat) (p : Proc), t'[i]? = some p → Usable p →
        UsableAt t p.packageLeaderId ∧ rank t p.packageLeaderId = rank t i / 4 * 4) ∧
      (¬ (KnownCount c u ∧ GroupsFit t) → ∃ lead : Nat → Nat, ∀ (i : Nat) (p : Proc),
        t'[i]? = some p → Usable p → p.packageLeaderId = lead i ∧ ScanLeader t lead i) := by
  rw [← knownCount_iff]
  exact detectClusters_plain c junk junk' clusterCpus coreSiblings hcl hco u t hu hz hn

/-- Non-vacuity: three processors, the last with another maximum frequency. -/
example : (detectClusters ⟨.arm64, true⟩ ⟨0, 0, 0, 0⟩ ⟨0, 0, 0, 0⟩
    (fun _ => (none, fun n => some n)) (fun _ => (none, fun n => some n)) 3
    [exProc 4 0 1000 0 0, exProc 4 0 1000 0 1, exProc 4 0 2000 0 2]).map
    (·.map fun p => (p.packageLeaderId, p.packageProcessorCount)) =
    some [(0, 2), (0, 2), (2, 1)] := by decide

/-- Non-vacuity: four processors in two interleaved clusters, {0, 2} and {1, 3}, described by
`cluster_cpus_list` files. -/
private def exFour : List Proc := (List.range 4).map fun i => exProc 0x40 0 0 0 i
private def exLists (i : Nat) : List (Nat × Nat) := [(i % 2, i % 2), (i % 2 + 2, i % 2 + 2)]
private def exFiles (i : Nat) : File := (some (printCpuList (exLists i)), fun n => some n)

example : KernelClusters exFour (· % 2) exLists exFiles exFiles := by
  have small : ∀ i, UsableAt exFour i → i < 4 := by
    rintro i ⟨p, hp, -⟩
    exact lt_of_get hp
  refine ⟨fun i p hp _ => ?_, fun i _ => ⟨List.cons_ne_nil _ _, ?_⟩, fun i j hi hj => ?_,
    .inl fun i _ => ⟨rfl, fun n h => by cases h⟩⟩
  · have all : ∀ q ∈ exFour, q.flags.testBit 6 = true := by decide
    exact all p (List.mem_of_getElem? hp)
  · have hlt : i % 2 < 2 := Nat.mod_lt _ (by decide)
    intro r hr
    rcases List.mem_cons.mp hr with rfl | hr
    · exact ⟨Nat.le_refl _, by show i % 2 < U32MAX; omega⟩
    · rw [List.mem_singleton] at hr
      subst hr
      exact ⟨Nat.le_refl _, by show i % 2 + 2 < U32MAX; omega⟩
  · have := small j hj
    constructor
    · rintro ⟨r, hr, h1, h2⟩
      rcases List.mem_cons.mp hr with rfl | hr
      · dsimp only at h1 h2; omega
      · rw [List.mem_singleton] at hr
        subst hr
        dsimp only at h1 h2; omega
    · intro h
      by_cases h2 : j < 2
      · exact ⟨(i % 2, i % 2), List.mem_cons_self, by dsimp only at h ⊢; omega⟩
      · exact ⟨(i % 2 + 2, i % 2 + 2), List.mem_cons_of_mem _ (List.mem_singleton.mpr rfl),
          by dsimp only at h ⊢; omega⟩

/-- What the code makes of these files. -/
example : (detectClusters ⟨.arm64, true⟩ ⟨0, 0, 0, 0⟩ ⟨0, 0, 0, 0⟩
    (fun i => (some (if i % 2 = 0 then b!"0,2\n" else b!"1,3\n"), fun n => some n))
    (fun _ => (none, fun n => some n)) 4 exFour).map
    (·.map fun p => (p.packageLeaderId, p.packageProcessorCount)) =
    some [(0, 2), (1, 2), (0, 2), (1, 2)] := by decide

end Verif.Props
