import Verif.Spec.Platform
import Verif.Model.Platform

/-!
# Published tables that describe a machine consistently
-/

set_option autoImplicit false

namespace Verif.Spec
open Api Platform

/-- The link of a processor to its cache of a level. -/
def cacheLink : Level → Processor → Option Nat
  | .l1i, p => p.l1i
  | .l1d, p => p.l1d
  | .l2, p => p.l2
  | .l3, p => p.l3
  | .l4, p => p.l4

/-- The published tables are these; every table has as many elements as its count says; processors
are divided among cores, clusters and packages, cores among clusters and packages, clusters among
packages; where there are caches of a level the processors are divided among them, elsewhere the
links are null; and the numbers of a thread within its core and of a core within its package are
their positions. -/
structure Described (g : Globals Elem) (ps : List Processor) (cs : List Core) (ls : List Cluster)
    (pks : List X86Init.Package) : Prop where
  processors : g.table .processor = some ps
  cores : g.table .core = some cs
  clusters : g.table .cluster = some ls
  packages : g.table .package = some pks
  processorCount : g.count .processor = ps.length
  coreCount : g.count .core = cs.length
  clusterCount : g.count .cluster = ls.length
  packageCount : g.count .package = pks.length
  inCores : Divides ps cs (·.core) (·.processorStart) (·.processorCount)
  inClusters : Divides ps ls (·.cluster) (·.processorStart) (·.processorCount)
  inPackages : Divides ps pks (·.package) (·.processorStart) (·.processorCount)
  coresInClusters : Divides cs ls (·.cluster) (·.coreStart) (·.coreCount)
  coresInPackages : Divides cs pks (·.package) (·.coreStart) (·.coreCount)
  clustersInPackages : Divides ls pks (·.package) (·.clusterStart) (·.clusterCount)
  caches : ∀ l : Level,
    (g.table (.cache l) = none ∧ ∀ p ∈ ps, cacheLink l p = none) ∨
    ∃ t : List X86Init.Cache, g.table (.cache l) = some t ∧ t.length = g.count (.cache l) ∧
      Divides ps t (cacheLink l) (·.processorStart) (·.processorCount)
  smtId : ∀ (i : Nat) (p : Processor) (k : Nat) (c : Core), ps[i]? = some p → p.core = some k →
    cs[k]? = some c → i = c.processorStart + p.smtId
  coreId : ∀ (i : Nat) (c : Core) (k : Nat) (q : X86Init.Package), cs[i]? = some c →
    c.package = some k → pks[k]? = some q → i = q.coreStart + c.coreId

/-- How many positions of a text a word starts at. -/
def startsAt (word text : Bytes) : Nat :=
  (List.range text.length).countP fun i => word.isPrefixOf (text.drop i)

end Verif.Spec
