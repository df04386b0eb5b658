import Verif.Model.Api
import Verif.Model.ArmInit

/-!
# The commit block of ARM Linux, src/arm/linux/init.c:835-864
-/

set_option autoImplicit false

namespace Verif.Api

/-- `struct cpuinfo_package` as ARM detection fills it, src/arm/linux/init.c:513-516; `name` is `none`
when a null pointer was printed. -/
structure ArmPackage where
  name : Option Bytes
  processorCount : Nat
  coreCount : Nat
  clusterCount : Nat
deriving DecidableEq, Repr

/-- The element types on ARM Linux. -/
def ArmElem : Kind → Type
  | .processor => ArmInit.Processor
  | .core => ArmInit.Core
  | .cluster => ArmInit.Cluster
  | .package => ArmPackage
  | .uarch => ArmInit.Uarch
  | .cache _ => X86Init.Cache

/-- The static `package`, src/arm/linux/init.c:22 and 513-516. -/
def armPackage (p : ArmInit.Published) : ArmPackage :=
  ⟨p.packageName, p.packageProcessorCount, p.packageCoreCount, p.packageClusterCount⟩

/-- The L2 table is allocated only when its count is not zero (src/arm/linux/init.c:732-740), otherwise
its pointer stays NULL (line 115). -/
def armL2 (p : ArmInit.Published) : Option (List X86Init.Cache) :=
  if p.l2Count = 0 then none else some p.l2

/-- The L3 table is allocated only when neither count is zero (src/arm/linux/init.c:732-751). -/
def armL3 (p : ArmInit.Published) : Option (List X86Init.Cache) :=
  if p.l2Count = 0 ∨ p.l3Count = 0 then none else some p.l3

/-- The assignments of src/arm/linux/init.c:835-864 in program order. -/
def armLinuxCommit (p : ArmInit.Published) : List (Store ArmElem) :=
  [ .table .processor (some p.processors),
    .table .core (some p.cores),
    .table .cluster (some p.clusters),
    .table .package (some [armPackage p]),
    .table .uarch (some p.uarchs),
    .table (.cache .l1i) (some p.l1i),
    .table (.cache .l1d) (some p.l1d),
    .table (.cache .l2) (armL2 p),
    .table (.cache .l3) (armL3 p),
    .count .processor p.processorsCount,
    .count .core p.coresCount,
    .count .cluster p.clustersCount,
    .count .package p.packagesCount,
    .count .uarch p.uarchsCount,
    .count (.cache .l1i) p.l1iCount,
    .count (.cache .l1d) p.l1dCount,
    .count (.cache .l2) p.l2Count,
    .count (.cache .l3) p.l3Count,
    .maxCacheSize p.maxCacheSize,
    .linuxCpuMax p.linuxCpuMax,
    .processorMap (some p.processorMap),
    .coreMap (some p.coreMap),
    .uarchMap p.uarchMap,
    .flag true ]

end Verif.Api
