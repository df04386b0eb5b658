import Verif.Model.X86Name
import Verif.Model.Windows
import Verif.Model.Uniform

/-!
The fields `vendor`, `uarch` and `cpuid` of cores and clusters and `name` of packages on x86, which the models
of detection (`X86Init`, `Uniform`, `Windows`) leave out.

They are kept in tables of their own beside those of detection: `none` in such a table is an entry
that still has the zeros of `calloc`.  Writes go to the same indices and under the same conditions as in the
code; writes outside of a table are undefined (`none`), as everywhere.
-/

set_option autoImplicit false

namespace Verif.X86Labels

open Verif.X86Cpuinfo (LinuxProc)
open Verif.X86Init (Masks State modify? modifyIf? bitmaskAll flagValid)
open Verif.X86Cpuid (Vendor Uarch Target Cpuid)

/-- Who made the core and what it is. -/
structure Label where
  vendor : Vendor
  uarch : Uarch
  cpuid : Nat
deriving DecidableEq, Repr

/-- The fields, table by table. -/
structure Labels where
  cores : List (Option Label)
  clusters : List (Option Label)
  names : List (Option Bytes)
deriving DecidableEq, Repr

/-- What `cpuinfo_x86_init_processor` finds and the name formed from it, for all four systems:
src/x86/linux/init.c:219-223, src/x86/mach/init.c:66-69, src/x86/freebsd/init.c:71-74,
src/x86/windows/init.c:120-124. -/
def identity (t : Target) (c : Cpuid) (fuel : Nat) : Option (X86Init.X86Processor × Label × Bytes) := do
  let d ← X86Cpuid.initProcessor t c fuel
  let name ← X86Name.packageName t c
  return (d.cpu, ⟨d.vendor, d.uarch, d.cpuid⟩, name)

/-- Zeroed tables. -/
def blank (cores clusters packages : Nat) : Labels :=
  ⟨List.replicate cores none, List.replicate clusters none, List.replicate packages none⟩

/-- One usable processor, src/x86/linux/init.c:431-482: a new core, a new cluster and a new package get
their fields. -/
def linuxStep (m : Masks) (l : Label) (name : Bytes) (s : State × Labels) (p : LinuxProc) :
    Option (State × Labels) := do
  let t ← X86Init.buildStep m s.1 p
  let cores ← modifyIf? (p.apicId &&& m.core != s.1.lastCore) s.2.cores t.coreIndex fun _ => some l
  let clusters ← modifyIf? (p.apicId &&& m.cluster != s.1.lastCluster) s.2.clusters t.clusterIndex
    fun _ => some l
  let names ← modifyIf? (p.apicId &&& m.package != s.1.lastPackage) s.2.names t.packageIndex
    fun _ => some name
  return (t, ⟨cores, clusters, names⟩)

/-- The build loop, src/x86/linux/init.c:394-485 and 617-618. -/
def linuxLoop (m : Masks) (l : Label) (name : Bytes) : List LinuxProc → State × Labels →
    Option (State × Labels)
  | [], s => some s
  | p :: ps, s =>
    if bitmaskAll p.flags flagValid then (linuxStep m l name s p).bind (linuxLoop m l name ps)
    else linuxLoop m l name ps s

/-- The state before the build loop, src/x86/linux/init.c:258-393. -/
def linuxStart (processors cores clusters packages entries : Nat) : State :=
  { processorIndex := U32MAX, coreIndex := U32MAX, clusterIndex := U32MAX,
    packageIndex := U32MAX, clusterId := 0, coreId := 0, smtId := 0,
    lastCore := U32MAX, lastCluster := U32MAX, lastPackage := U32MAX,
    processors := List.replicate processors X86Init.zeroProcessor,
    cores := List.replicate cores X86Init.zeroCore,
    clusters := List.replicate clusters X86Init.zeroCluster,
    packages := List.replicate packages X86Init.zeroPackage,
    processorMap := List.replicate entries none,
    coreMap := List.replicate entries none }

/-- `cpuinfo_x86_linux_init` with the fields.  (The tables come from `X86Init.build`; the loop is run
beside it, as it reads nothing of the fields.) -/
def linuxInit (e : X86Init.Env) (l : Label) (name : Bytes) :
    Option (Option (X86Init.Published × Labels)) := do
  match ← X86Init.gather e with
  | none => return none
  | some (t, mask) =>
    match ← X86Init.build e.alloc e.cpu mask (X86Init.countValid t) (e.sort t) with
    | none => return none
    | some pub =>
      let m ← X86Init.masks e.cpu.topology (X86Init.llcApicBits e.cpu)
      let s ← linuxLoop m l name (e.sort t)
        (linuxStart (X86Init.countValid t) pub.coresCount pub.clustersCount pub.packagesCount
          (e.sort t).length, blank pub.coresCount pub.clustersCount pub.packagesCount)
      return some (pub, s.2)

/-- src/x86/mach/init.c:74-105, src/x86/freebsd/init.c:79-110: every cluster, package and core. -/
def uniformLabels (t : Uniform.Topo) (l : Label) (name : Bytes) : Option Labels := do
  let b := blank t.cores t.packages t.packages
  let cp ← ArmClusters.forRange (fun i (s : List (Option Label) × List (Option Bytes)) => do
    let clusters ← Platform.put s.1 i (some l)
    let names ← Platform.put s.2 i (some name)
    return (clusters, names)) t.packages 0 (b.clusters, b.names)
  let cores ← ArmClusters.forRange (fun i s => Platform.put s i (some l)) t.cores 0 b.cores
  return ⟨cores, cp.1, cp.2⟩

/-- src/x86/windows/init.c:374-410: every core, then every cluster from the first of its cores, and every
package. -/
def windowsLabels (pub : Windows.Published) (l : Label) (name : Bytes) : Option Labels := do
  let b := blank pub.coresCount pub.clustersCount pub.packagesCount
  let cores ← Windows.downFrom pub.coresCount (fun s i => Platform.put s i (some l)) b.cores
  let s ← (List.range pub.packagesCount).foldlM
    (fun (s : List (Option Label) × List (Option Bytes)) i => do
      let q ← pub.clusters[i]?
      let f ← cores[q.coreStart]?
      let clusters ← Platform.put s.1 i f
      let names ← Platform.put s.2 i (some name)
      return (clusters, names)) (b.clusters, b.names)
  return ⟨cores, s.1, s.2⟩

/-- `cpuinfo_x86_windows_init` with the fields. -/
def windowsInit (e : Windows.Env) (l : Label) (name : Bytes) :
    Option (Option (Windows.Published × Labels)) := do
  match ← Windows.windowsInit e with
  | none => return none
  | some pub => return some (pub, ← windowsLabels pub l name)

end Verif.X86Labels
