import Verif.Model.ArmWin
import Verif.Spec.Windows

/-!
# What the records of Windows on ARM mean

Stated without the loops of the model; masks and the numbering of processors as in `Spec.Windows`.
-/

set_option autoImplicit false

namespace Verif.Spec
open Windows (Info relationCore relationPackage)
open ArmWin (Env CacheInfo Level)

/-- The numbers of processors of the groups. -/
def armSizes (e : Env) : List Nat := (List.range e.groupCount).map e.maxCount

/-- The records about caches. -/
def cacheRecords (infos : List CacheInfo) : List CacheInfo :=
  infos.filter fun r => r.relationship == 2

/-- A record about a cache of this level (0 unified, 1 instructions, 2 data, 3 trace). -/
def OfLevel (k : Level) (r : CacheInfo) : Prop :=
  match k with
  | .l1i => r.level = 1 ∧ r.type = 1
  | .l1d => r.level = 1 ∧ r.type = 2
  | .l2 => r.level = 2
  | .l3 => r.level = 3

instance (k : Level) (r : CacheInfo) : Decidable (OfLevel k r) := by
  cases k <;> unfold OfLevel <;> infer_instance

/-- The records about caches of one level, in their order. -/
def levelRecords (k : Level) (ks : List CacheInfo) : List CacheInfo := ks.filter fun r => OfLevel k r

/-- The system describes packages `ps`, cores `cs` and caches `ks`, the same in both queries, within the
processors that the groups have; every cache has a line size and an associativity, and is a first-level cache
of instructions or data or a second- or third-level cache. -/
structure ArmWinReports (e : Env) (ps cs : List Info) (ks : List CacheInfo) : Prop where
  packages : ∃ l, e.packages = some l ∧ ps = recordsOf relationPackage l
  cores1 : ∃ l, e.cores1 = some l ∧ cs = recordsOf relationCore l
  cores2 : ∃ l, e.cores2 = some l ∧ cs = recordsOf relationCore l
  caches1 : ∃ l, e.caches1 = some l ∧ ks = cacheRecords l
  caches2 : ∃ l, e.caches2 = some l ∧ ks = cacheRecords l
  total : (armSizes e).sum < U32
  fewGroups : e.groupCount ≤ 65536
  fitsPackages : ∀ i ∈ ps, WinFits (armSizes e) i
  fitsCores : ∀ i ∈ cs, WinFits (armSizes e) i
  fitsCaches : ∀ r ∈ ks, WinFits (armSizes e) r.toInfo
  somePackage : ps ≠ []
  someCore : cs ≠ []
  someCache : ks ≠ []
  lines : ∀ r ∈ ks, r.lineSize ≠ 0
  ways : ∀ r ∈ ks, r.associativity ≠ 0
  levels : ∀ r ∈ ks, ∃ k, OfLevel k r
  /-- Every processor is in a core. -/
  complete : ∀ i < (armSizes e).sum, ∃ c ∈ cs, i ∈ winIndices (armSizes e) c
  /-- Every core has a processor. -/
  nonempty : ∀ c ∈ cs, winIndices (armSizes e) c ≠ []

/-- No processor is in two packages or in two cores, and every core is in one package. -/
structure ArmWinDisjoint (per : List Nat) (ps cs : List Info) : Prop where
  packages : (ps.flatMap (winIndices per)).Nodup
  cores : (cs.flatMap (winIndices per)).Nodup
  inPackage : ∀ c ∈ cs, ∃ p ∈ ps, ∀ i ∈ winIndices per c, i ∈ winIndices per p

/-- No two caches of a level share a processor. -/
def CachesDisjoint (per : List Nat) (k : Level) (ks : List CacheInfo) : Prop :=
  ((levelRecords k ks).flatMap fun r => winIndices per r.toInfo).Nodup

/-- The indices of a record follow one another. -/
def IndicesFollow (per : List Nat) (info : Info) : Prop :=
  ∀ a b d, a < b → b < d → a ∈ winIndices per info → d ∈ winIndices per info → b ∈ winIndices per info

end Verif.Spec
