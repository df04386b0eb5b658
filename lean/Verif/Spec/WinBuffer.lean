import Verif.Model.WinBuffer

/-!
What a record of `GetLogicalProcessorInformationEx` is, as bytes: written down from winnt.h as an encoding,
independently of how the code reads it.
-/

set_option autoImplicit false

namespace Verif.Spec

open Verif.Windows Verif.ArmWin

/-- `k` bytes of a number, the lowest first. -/
def leBytes : Nat → Nat → List Nat
  | 0, _ => []
  | k + 1, n => n % 256 :: leBytes k (n / 256)

/-- One GROUP_AFFINITY: mask, group and reserved bytes. -/
def affinityBytes (w : Nat) (g : GroupAffinity × List Nat) : List Nat :=
  leBytes w g.1.mask ++ leBytes 2 g.1.group ++ g.2

/-- The values fit their fields. -/
def MasksFit (w : Nat) (gs : List (GroupAffinity × List Nat)) : Prop :=
  gs.length < 65536 ∧ ∀ g ∈ gs, g.1.mask < 256 ^ w ∧ g.1.group < 65536 ∧ g.2.length = 6

/-- `bytes` is a record with Relationship `r`: Relationship, Size, rest. -/
def IsRecord (r : Nat) (bytes rest : List Nat) : Prop :=
  r < 2 ^ 32 ∧ bytes.length < 2 ^ 32 ∧ bytes = leBytes 4 r ++ leBytes 4 bytes.length ++ rest

/-- `bytes` is the record `r` as asked for by `kind`: for processors, with Flags, EfficiencyClass and 20
reserved bytes (`head`), the number of groups, the groups and maybe more bytes; records of other kinds have
any content. -/
def IsInfo (w kind : Nat) (r : Info) (bytes : List Nat) : Prop :=
  ∃ rest, IsRecord r.relationship bytes rest ∧
    if r.relationship = kind then
      ∃ (head : List Nat) (gs : List (GroupAffinity × List Nat)) (tail : List Nat), head.length = 22 ∧
        MasksFit w gs ∧ gs.map Prod.fst = r.groups ∧
        rest = head ++ leBytes 2 gs.length ++ gs.flatMap (affinityBytes w) ++ tail
    else r.groups = []

/-- `bytes` is the record of the cache `r`: Level, Associativity, LineSize, CacheSize, Type, 18 reserved
bytes, the number of groups, the groups and maybe more bytes. -/
def IsCacheInfo (w : Nat) (r : CacheInfo) (bytes : List Nat) : Prop :=
  ∃ rest, IsRecord r.relationship bytes rest ∧
    if r.relationship = 2 then
      ∃ (reserved : List Nat) (gs : List (GroupAffinity × List Nat)) (tail : List Nat),
        reserved.length = 18 ∧ MasksFit w gs ∧ gs.map Prod.fst = r.groups ∧
        r.level < 256 ∧ r.associativity < 256 ∧ r.lineSize < 65536 ∧ r.size < 2 ^ 32 ∧ r.type < 2 ^ 32 ∧
        rest = leBytes 1 r.level ++ leBytes 1 r.associativity ++ leBytes 2 r.lineSize ++ leBytes 4 r.size ++
          leBytes 4 r.type ++ reserved ++ leBytes 2 gs.length ++ gs.flatMap (affinityBytes w) ++ tail
    else r = (⟨⟨r.relationship, []⟩, 0, 0, 0, 0, 0⟩ : CacheInfo)

/-- `bytes` is the sequence of the records `rs`. -/
inductive AreRecords {α : Type} (Is : α → List Nat → Prop) : List α → List Nat → Prop
  | nil : AreRecords Is [] []
  | cons {r : α} {rs : List α} {bytes more : List Nat} (h : Is r bytes) (t : AreRecords Is rs more) :
      AreRecords Is (r :: rs) (bytes ++ more)

end Verif.Spec
