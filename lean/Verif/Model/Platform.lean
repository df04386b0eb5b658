import Verif.Model.Api

/-!
# Published tables with cache links, for the smaller platforms

The tables `struct cpuinfo_processor`, `struct cpuinfo_core`, `struct cpuinfo_cluster` of
include/cpuinfo.h.  A pointer into a table is the index of the element, `none` is NULL.  Vendor,
microarchitecture, frequency and names are left out.
-/

set_option autoImplicit false

namespace Verif.Platform
open X86Init (Package Cache)

/-- `struct cpuinfo_processor`, include/cpuinfo.h. -/
structure Processor where
  smtId : Nat
  core : Option Nat
  cluster : Option Nat
  package : Option Nat
  apicId : Nat
  l1i : Option Nat
  l1d : Option Nat
  l2 : Option Nat
  l3 : Option Nat
  l4 : Option Nat
deriving DecidableEq, Repr

/-- `struct cpuinfo_core`, include/cpuinfo.h. -/
structure Core where
  processorStart : Nat
  processorCount : Nat
  coreId : Nat
  cluster : Option Nat
  package : Option Nat
deriving DecidableEq, Repr

/-- `struct cpuinfo_cluster`, include/cpuinfo.h. -/
structure Cluster where
  processorStart : Nat
  processorCount : Nat
  coreStart : Nat
  coreCount : Nat
  clusterId : Nat
  package : Option Nat
deriving DecidableEq, Repr

/-- Zeroed entries, as `calloc` returns them. -/
def zeroProcessor : Processor := ⟨0, none, none, none, 0, none, none, none, none, none⟩
@[inherit_doc zeroProcessor] def zeroCore : Core := ⟨0, 0, 0, none, none⟩
@[inherit_doc zeroProcessor] def zeroCluster : Cluster := ⟨0, 0, 0, 0, 0, none⟩
@[inherit_doc zeroProcessor] def zeroPackage : Package := ⟨0, 0, 0, 0, 0, 0⟩
@[inherit_doc zeroProcessor] def zeroCache : Cache := ⟨0, 0, 0, 0, 0, 0, 0, 0⟩

/-- `t[i] = x`; outside the table undefined. -/
def put {α : Type} (t : List α) (i : Nat) (x : α) : Option (List α) :=
  if i < t.length then some (t.set i x) else none

/-- The element types of the published tables. -/
def Elem : Api.Kind → Type
  | .processor => Processor
  | .core => Core
  | .cluster => Cluster
  | .package => Package
  | .uarch => Api.GlobalUarch
  | .cache _ => Cache

end Verif.Platform
