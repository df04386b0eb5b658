import Verif.Model.ArmWin

/-!
How the records of `GetLogicalProcessorInformationEx` are read from the buffer that Windows filled:
src/x86/windows/init.c:145-313 and src/arm/windows/init-by-logical-sys-info.c:450-546.

A buffer is a list of cells; a cell that nobody has written is `none`.  Reading such a cell, or one outside
of the buffer, is undefined (`fault`).  Offsets replace pointers; a pointer that wraps around is left out.
The models `Windows` and `ArmWin` take lists of records, which are the results of the functions here.

The layout of the records is that of winnt.h, part of the trusted base; `w` is the size of KAFFINITY,
4 or 8 bytes.
-/

set_option autoImplicit false

namespace Verif.WinBuffer

open Verif.Windows Verif.ArmWin

/-- The cells of a block. -/
abbrev Cells := List (Option Nat)

/-- Value of bytes, the lowest first. -/
def value : List Nat → Nat
  | [] => 0
  | b :: bs => b + 256 * value bs

/-- Read of a field of `k` bytes at offset `p`. -/
def field (m : Cells) (p k : Nat) : Option Nat :=
  if p + k ≤ m.length then (((m.drop p).take k).mapM id).map value else none

/-- The masks of a record: GROUP_AFFINITY has Mask at 0, Group at `w`, 6 reserved bytes.  Reads of
`GroupMask[i]` for `i < GroupCount`, src/x86/windows/init.c:218-226, 274-282 and
src/arm/windows/init-by-logical-sys-info.c:556-561, 698-706. -/
def masks (w : Nat) (m : Cells) : (count p : Nat) → Option (List GroupAffinity)
  | 0, _ => some []
  | n + 1, p => do
    let group ← field m (p + w) 2
    let mask ← field m p w
    let rest ← masks w m n (p + w + 8)
    some (⟨group, mask⟩ :: rest)

/-- A record for processors: Relationship at 0, Processor.GroupCount at 30, Processor.GroupMask at 32.  Of a
record with another Relationship nothing else is read, src/x86/windows/init.c:203-208, 255-260 and
src/arm/windows/init-by-logical-sys-info.c:499-504. -/
def info (w kind : Nat) (m : Cells) (p : Nat) : Option Info := do
  let relationship ← field m p 4
  if relationship ≠ kind then some ⟨relationship, []⟩ else
    let count ← field m (p + 30) 2
    let groups ← masks w m count (p + 32)
    some ⟨relationship, groups⟩

/-- A record for a cache: Cache.Level at 8, Associativity at 9, LineSize at 10, CacheSize at 12, Type at 16,
GroupCount at 38, GroupMasks at 40, src/arm/windows/init-by-logical-sys-info.c:596-706. -/
def cacheInfo (w : Nat) (m : Cells) (p : Nat) : Option CacheInfo := do
  let relationship ← field m p 4
  if relationship ≠ relationCache then some ⟨⟨relationship, []⟩, 0, 0, 0, 0, 0⟩ else
    let level ← field m (p + 8) 1
    let associativity ← field m (p + 9) 1
    let lineSize ← field m (p + 10) 2
    let size ← field m (p + 12) 4
    let type ← field m (p + 16) 4
    let count ← field m (p + 38) 2
    let groups ← masks w m count (p + 40)
    some ⟨⟨relationship, groups⟩, level, type, associativity, lineSize, size⟩

/-- What a loop over records has come to. -/
inductive Outcome (α : Type) where
  | done (records : List α)
  | fault
  | running
deriving DecidableEq, Repr

/-- The loops `for (info = infos; info < info_end; info = info + info->Size)`,
src/x86/windows/init.c:201-239, 253-313 and src/arm/windows/init-by-logical-sys-info.c:497-542, after at
most `fuel` turns.  (A failure of the parsing of a record, which ends the ARM loop, belongs to `ArmWin`.) -/
def walk {α : Type} (read : Cells → Nat → Option α) (m : Cells) (stop : Nat) : (fuel p : Nat) → Outcome α
  | 0, _ => .running
  | n + 1, p =>
    if stop ≤ p then .done [] else
      match read m p with
      | none => .fault
      | some r =>
        match field m (p + 4) 4 with
        | none => .fault
        | some size =>
          match walk read m stop n (p + size) with
          | .done rs => .done (r :: rs)
          | o => o

/-- `HeapAlloc(heap, 0, size)`: nothing is written yet. -/
def fresh (size : Nat) : Cells := List.replicate size none

/-- A successful `GetLogicalProcessorInformationEx`: the answer is written at the start of the buffer. -/
def fill (answer : List Nat) (m : Cells) : Cells := answer.map some ++ m.drop answer.length

/-- x86: the buffer is as large as the larger of the two sizes that were asked for first,
src/x86/windows/init.c:184-187; the packages are read up to the size that was asked for first, 199-201.
`none`: the answer does not fit, so the call fails, 194-198. -/
def x86Packages (w packagesSize coresSize : Nat) (answer : List Nat) (fuel : Nat) : Option (Outcome Info) :=
  if answer.length ≤ max coresSize packagesSize then
    some (walk (info w relationPackage) (fill answer (fresh (max coresSize packagesSize))) packagesSize
      fuel 0)
  else none

/-- x86: the cores are then read from the same buffer, up to the size that was asked for first,
src/x86/windows/init.c:241-254. -/
def x86Cores (w packagesSize coresSize : Nat) (packages answer : List Nat) (fuel : Nat) :
    Option (Outcome Info) :=
  if answer.length ≤ max coresSize packagesSize then
    some (walk (info w relationCore)
      (fill answer (fill packages (fresh (max coresSize packagesSize)))) coresSize fuel 0)
  else none

/-- ARM: `read_all_logical_processor_info_of_relation`,
src/arm/windows/init-by-logical-sys-info.c:467-497: the end is that of the answer. -/
def armRecords {α : Type} (read : Cells → Nat → Option α) (size : Nat) (answer : List Nat) (fuel : Nat) :
    Option (Outcome α) :=
  if answer.length ≤ size then some (walk read (fill answer (fresh size)) answer.length fuel 0) else none

end Verif.WinBuffer
