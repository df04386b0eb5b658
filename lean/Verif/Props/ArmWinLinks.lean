import Verif.Props.ArmWin
import Verif.Proof.ArmWinLinks

/-!
# C169: links between tables on ARM Windows, whatever the system answers

C137 and C138 are about systems that describe every processor consistently (`ArmWinReports`).  Here
nothing is assumed about the records: they may overlap, be incomplete, and differ between the two
queries.
-/

set_option autoImplicit false

namespace Verif.Props
open Spec
open Windows (Info relationCore relationPackage)
open Verif.ArmWin (Env Published Chip CacheInfo Level initByInfo chipOf init_linked init_sized)

/-- **C169.** Whatever Windows answers, if tables are published, every processor is linked to a core, a
cluster and a package below the published counts, the core and the cluster having the same number; its links
to caches are within the array of caches. -/
theorem C169_processors (e : Env) (chip : Chip) (pub : Published)
    (h : initByInfo e chip = some (some (some pub))) (p : ArmWin.Processor) (hp : p ∈ pub.processors) :
    p.core = some p.cluster ∧ p.cluster < pub.coresCount ∧ p.package < pub.packagesCount ∧
    ∀ i, p.l1i = some i ∨ p.l1d = some i ∨ p.l2 = some i ∨ p.l3 = some i → i < pub.caches.length := by
  have L := init_linked h
  refine ⟨L.core p hp, L.cluster p hp, L.package p hp, ?_⟩
  rintro i (hi | hi | hi | hi)
  · exact L.cache p hp .l1i i hi
  · exact L.cache p hp .l1d i hi
  · exact L.cache p hp .l2 i hi
  · exact L.cache p hp .l3 i hi

/-- **C169.** Whatever Windows answers, the cores below the published count are in the table and are linked
to a cluster and a package below the published counts; clusters below the count are in the table, and the
package they are linked to, if any, is below the count. -/
theorem C169_cores_partial (e : Env) (chip : Chip) (pub : Published)
    (h : initByInfo e chip = some (some (some pub))) (j : Nat) (hj : j < pub.coresCount) :
    (∃ c, pub.cores[j]? = some c ∧ c.cluster < pub.coresCount ∧ c.package < pub.packagesCount) ∧
    ∃ q, pub.clusters[j]? = some q ∧ ∀ k, q.package = some k → k < pub.packagesCount := by
  have L := init_linked h
  have S := init_sized h
  obtain ⟨c, hc, h1, h2⟩ := L.cores j hj
  have hl : j < pub.clusters.length := Nat.lt_of_lt_of_le hj S.clusters
  exact ⟨⟨c, hc, h2, h1⟩, pub.clusters[j], List.getElem?_eq_getElem hl, L.clusters _ (List.getElem_mem hl)⟩

/-- **C169 (records that are never accepted).** Whatever else Windows answers: if its second answer about
caches has a record without line size, without associativity, or of a level or type that has no table
(first-level unified and trace caches, fourth level), then nothing is published. -/
theorem C169_bad_cache (e : Env) (chip : Chip) (pub : Published) (l : List CacheInfo)
    (hl : e.caches2 = some l) (r : CacheInfo) (hr : r ∈ cacheRecords l)
    (hb : r.lineSize = 0 ∨ r.associativity = 0 ∨ r.level = 0 ∨ 4 ≤ r.level ∨
      (r.level = 1 ∧ r.type ≠ 1 ∧ r.type ≠ 2)) :
    initByInfo e chip ≠ some (some (some pub)) := by
  intro h
  obtain ⟨l', hl', hall⟩ := (init_linked h).records
  rw [hl] at hl'
  cases hl'
  obtain ⟨⟨k, hk⟩, h1, h2⟩ := hall r hr
  rcases hb with hb | hb | hb | hb | ⟨hb, h3, h4⟩
  · exact h1 hb
  · exact h2 hb
  all_goals
    cases k
    · obtain ⟨a, b⟩ := hk; omega
    · obtain ⟨a, b⟩ := hk; omega
    · have a : r.level = 2 := hk; omega
    · have a : r.level = 3 := hk; omega

/-- Non-vacuity: processor 1 is in two cores of the second answer, which has only three of eight caches; tables
are published. -/
example : armWinPublished { armWinEnv with
      cores2 := some (⟨0, [⟨0, 3⟩]⟩ :: armWinCores.drop 1), caches2 := some (armWinCaches.take 3) }
    (fun p => p.processors.map fun p => (p.core, p.package, p.l1d)) =
    some [(some 0, 0, some 1), (some 1, 0, some 2), (some 2, 0, none), (some 2, 0, none), (some 3, 1, none),
      (some 4, 1, none)] := by decide +kernel

/-- **C169 is violated by a record of a core without processors**: after the other cores, it is published as a
cluster whose pointer to a package is null, and as a core of the cluster of processor 0. -/
theorem C169_violated_empty_core :
    armWinPublished { armWinEnv with
        cores1 := some (armWinCores ++ [⟨relationCore, []⟩])
        cores2 := some (armWinCores ++ [⟨relationCore, []⟩]) }
      (fun p => (p.coresCount, p.clusters.map (·.package), p.cores.map (·.cluster))) =
    some (6, [some 0, some 0, some 0, some 1, some 1, none], [0, 1, 2, 3, 4, 0]) := by
  decide +kernel

end Verif.Props
