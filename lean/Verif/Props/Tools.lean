import Verif.Spec.Tools
import Verif.Proof.Tools
import Verif.Model.Riscv
import Verif.Props.X86Init
import Verif.Props.X86Cpuid

/-!
C148: cpu-info prints cores by name.  C149: the ranges it prints are the processors.  C150: what
cache-info prints tells the cache.
-/

set_option autoImplicit false

namespace Verif.Props

open Verif.Spec
open Verif.Tools
open Verif.Proof.Tools
open Verif.Spec.Chipsets (Digit)

/-! ## C148 -/

/-- **C148.** No two microarchitectures have the same name, and no two vendors. -/
theorem C148_distinct :
    (∀ a b s, uarchToString a = some s → uarchToString b = some s → a = b) ∧
    (∀ a b s, vendorToString a = some s → vendorToString b = some s → a = b) := by
  have key : ∀ (t : List (Nat × Bytes)), (t.map (·.2)).Nodup →
      ∀ (a b : Nat) (s : Bytes), t.lookup a = some s → t.lookup b = some s → a = b := by
    intro t ht a b s ha hb
    have mem : ∀ x, t.lookup x = some s → (x, s) ∈ t := by
      intro x hx
      obtain ⟨l1, l2, h1, -⟩ := List.lookup_eq_some_iff.1 hx
      rw [h1]; simp
    have ma := mem a ha
    have mb := mem b hb
    clear ha hb mem
    induction t with
    | nil => cases ma
    | cons x t ih =>
      rw [List.map_cons, List.nodup_cons] at ht
      rcases List.mem_cons.1 ma with h1 | h1 <;> rcases List.mem_cons.1 mb with h2 | h2
      · exact (Prod.mk.inj (h1.trans h2.symm)).1
      · exact absurd (List.mem_map.2 ⟨(b, s), h2, by rw [← h1]⟩) ht.1
      · exact absurd (List.mem_map.2 ⟨(a, s), h1, by rw [← h2]⟩) ht.1
      · exact ih ht.2 h1 h2
  exact ⟨key uarchNames (by decide +kernel), key vendorNames (by decide +kernel)⟩

/-- **C148.** The names are those of the enumerators, up to case, spaces, hyphens and underscores; but
`apm` is printed as `Applied Micro`.  The enumerators have different values (deprecated ones aside). -/
theorem C148_as_declared :
    (∀ e ∈ uarchEnum, ∀ s, uarchToString e.2 = some s → plain s = plain e.1) ∧
    (∀ e ∈ vendorEnum, e.1 ≠ b!"apm" → ∀ s, vendorToString e.2 = some s → plain s = plain e.1) ∧
    (uarchEnum.map (·.2)).Nodup ∧ (vendorEnum.map (·.2)).Nodup := by
  refine ⟨?_, ?_, by decide +kernel, by decide +kernel⟩
  · have h : ∀ e ∈ uarchEnum, (uarchToString e.2).all fun s => plain s = plain e.1 := by decide +kernel
    intro e he s hs
    have := h e he
    rw [hs] at this
    simpa using this
  · have h : ∀ e ∈ vendorEnum, e.1 ≠ b!"apm" →
        (vendorToString e.2).all fun s => plain s = plain e.1 := by decide +kernel
    intro e he hn s hs
    have := h e he hn
    rw [hs] at this
    simpa using this

/-- `value` is a declared microarchitecture that is printed by a name. -/
def NamedUarch (value : Nat) : Prop :=
  (∃ id, (id, value) ∈ uarchEnum) ∧ ∃ s, uarchToString value = some s

/-- `value` is a declared vendor that is printed by a name. -/
def NamedVendor (value : Nat) : Prop :=
  (∃ id, (id, value) ∈ vendorEnum) ∧ ∃ s, vendorToString value = some s

/-- **C148, x86 and Apple.** Every microarchitecture that can be found is printed by its name. -/
theorem C148_uarch_x86_apple :
    (∀ u, ∃ value, (x86UarchId u, value) ∈ uarchEnum ∧ ∃ s, uarchToString value = some s) ∧
    (∀ u, ∃ value, (appleUarchId u, value) ∈ uarchEnum ∧ ∃ s, uarchToString value = some s) := by
  have key : ∀ id : Bytes, (uarchEnum.any fun e => e.1 = id && (uarchToString e.2).isSome) = true →
      ∃ value, (id, value) ∈ uarchEnum ∧ ∃ s, uarchToString value = some s := by
    intro id h
    obtain ⟨e, he, h⟩ := List.any_eq_true.1 h
    rw [Bool.and_eq_true, decide_eq_true_iff] at h
    obtain ⟨s, hs⟩ := Option.isSome_iff_exists.1 h.2
    exact ⟨e.2, by rw [← h.1]; exact he, s, hs⟩
  constructor
  · intro u
    apply key
    cases u <;> decide +kernel
  · intro u
    apply key
    cases u <;> decide +kernel

private theorem named_of {P : Nat × Nat → Bool} {r : Nat × Nat} (h : P r = true)
    (hP : ∀ r, P r = (uarchEnum.any (fun e => e.2 = r.2) && (uarchToString r.2).isSome)) :
    NamedUarch r.2 := by
  rw [hP, Bool.and_eq_true] at h
  obtain ⟨e, he, h1⟩ := List.any_eq_true.1 h.1
  exact ⟨⟨e.1, by rw [← of_decide_eq_true h1]; exact he⟩, Option.isSome_iff_exists.1 h.2⟩

private def okUarch (r : Nat × Nat) : Bool := uarchEnum.any (fun e => e.2 = r.2) && (uarchToString r.2).isSome

/-- A property of all results holds of every result. -/
private theorem decode_all {P : Nat × Nat → Prop} (a : ArmMidr.Arch) (midr : Nat) (vfpv4 : Bool)
    (h0 : P (0, 0)) (hA : ∀ e ∈ ArmUarch.armParts32 ++ ArmUarch.armParts ++ ArmUarch.armParts64 ++
      ArmUarch.armFamilies32, P e.2)
    (hA5 : P (3, ArmUarch.Uarch.cortexA55r0) ∧ P (3, ArmUarch.Uarch.cortexA55) ∧ P (3, 0))
    (hT : ∀ e ∈ ArmUarch.broadcomParts a ++ ArmUarch.caviumParts ++ ArmUarch.huaweiParts a ++
      ArmUarch.intelFamilies ++ ArmUarch.nvidiaParts ++ ArmUarch.apmParts ++
      ArmUarch.qualcommParts a vfpv4 ++ ArmUarch.samsungCores, P e.2)
    (hM : a = .arm → P (31, ArmUarch.Uarch.pj4) ∧ P (31, 0))
    (hD : ∀ v ∈ [13, 12, 15, 1, 7, 14, 4, 6], P (v, 0)) :
    P (ArmUarch.decode a midr vfpv4) := by
  simp only [List.mem_append] at hA hT
  unfold ArmUarch.decode
  split
  · unfold ArmUarch.decodeArm
    split
    · split
      · exact hA5.1
      · exact hA5.2.1
    · cases a with
      | arm =>
        dsimp only
        split
        · rename_i r hr
          obtain ⟨l1, l2, h1, -⟩ := List.lookup_eq_some_iff.1 hr
          have hm : (ArmMidr.getPart midr, r) ∈ ArmUarch.armParts32 ++ ArmUarch.armParts := by
            rw [h1]; simp
          rcases List.mem_append.1 hm with hm | hm
          · exact hA _ (Or.inl (Or.inl (Or.inl hm)))
          · exact hA _ (Or.inl (Or.inl (Or.inr hm)))
        · exact select_all (fun e he => hA e (Or.inr he)) hA5.2.2 _
      | arm64 =>
        refine select_all (fun e he => ?_) hA5.2.2 _
        rcases List.mem_append.1 he with he | he
        · exact hA e (Or.inl (Or.inl (Or.inr he)))
        · exact hA e (Or.inl (Or.inr he))
  · exact select_all (fun e he => hT e (by simp [he])) (hD 13 (by decide)) _
  · cases a with
    | arm => exact h0
    | arm64 => exact select_all (fun e he => hT e (by simp [he])) (hD 12 (by decide)) _
  · exact select_all (fun e he => hT e (by simp [he])) (hD 15 (by decide)) _
  · cases a with
    | arm => exact select_all (fun e he => hT e (by simp [he])) (hD 1 (by decide)) _
    | arm64 => exact h0
  · exact select_all (fun e he => hT e (by simp [he])) (hD 7 (by decide)) _
  · exact select_all (fun e he => hT e (by simp [he])) (hD 14 (by decide)) _
  · exact select_all (fun e he => hT e (by simp [he])) (hD 4 (by decide)) _
  · exact select_all (fun e he => hT e (by simp [he])) (hD 6 (by decide)) _
  · cases a with
    | arm =>
      refine select_all (fun e he => ?_) (hM rfl).2 _
      have : e.2 = (31, ArmUarch.Uarch.pj4) := by
        have h : ∀ e ∈ ArmUarch.marvellParts, e.2 = (31, ArmUarch.Uarch.pj4) := by decide
        exact h e he
      rw [this]; exact (hM rfl).1
    | arm64 => exact h0
  · exact h0

/-- **C148, ARM.** Whatever the main id register says: the microarchitecture is printed by its name. -/
theorem C148_uarch_arm (a : ArmMidr.Arch) (midr : Nat) (vfpv4 : Bool) :
    NamedUarch (ArmUarch.decode a midr vfpv4).2 := by
  refine named_of (P := okUarch) ?_ (fun _ => rfl)
  refine decode_all (P := fun r => okUarch r = true) a midr vfpv4 ?_ ?_ ?_ ?_ ?_ ?_ <;>
    cases a <;> cases vfpv4 <;> decide +kernel

private def okVendor (r : Nat × Nat) : Bool :=
  (vendorEnum.any (fun e => e.2 = r.1) && (vendorToString r.1).isSome) || r.1 = 31

/-- **C148, ARM.** So is the vendor, but for Marvell, and that on 32-bit ARM only, see
`C148_violated_marvell`. -/
theorem C148_vendor_arm_partial (a : ArmMidr.Arch) (midr : Nat) (vfpv4 : Bool)
    (h : a = .arm64 ∨ (ArmUarch.decode a midr vfpv4).1 ≠ 31) :
    NamedVendor (ArmUarch.decode a midr vfpv4).1 := by
  have hs : okVendor (ArmUarch.decode a midr vfpv4) = true ∧
      (a = .arm64 → (ArmUarch.decode a midr vfpv4).1 ≠ 31) := by
    refine ⟨?_, fun h => ?_⟩
    · refine decode_all (P := fun r => okVendor r = true) a midr vfpv4 ?_ ?_ ?_ ?_ ?_ ?_ <;>
        cases a <;> cases vfpv4 <;> decide +kernel
    · subst h
      refine decode_all (P := fun r => r.1 ≠ 31) .arm64 midr vfpv4 ?_ ?_ ?_ ?_ (fun h => by cases h) ?_ <;>
        cases vfpv4 <;> decide +kernel
  have hn : (ArmUarch.decode a midr vfpv4).1 ≠ 31 := by
    rcases h with h | h
    · exact hs.2 h
    · exact h
  have := hs.1
  unfold okVendor at this
  rw [Bool.or_eq_true, Bool.and_eq_true] at this
  rcases this with this | this
  · obtain ⟨e, he, h1⟩ := List.any_eq_true.1 this.1
    exact ⟨⟨e.1, by rw [← of_decide_eq_true h1]; exact he⟩, Option.isSome_iff_exists.1 this.2⟩
  · exact absurd (of_decide_eq_true this) hn

/-- **C148, x86.** In 64-bit builds every vendor that can be found is printed by its name. -/
theorem C148_vendor_x86_partial (t : X86Cpuid.Target) (ht : t.x86_32 = false) (ebx ecx edx : Nat) :
    ∃ value, (x86VendorId (X86Cpuid.decodeVendor t ebx ecx edx), value) ∈ vendorEnum ∧
      ∃ s, vendorToString value = some s := by
  have hv : X86Cpuid.decodeVendor t ebx ecx edx ∈
      [X86Cpuid.Vendor.unknown, .intel, .amd, .via, .hygon] := by
    unfold X86Cpuid.decodeVendor
    rw [ht]
    simp only [Bool.false_eq_true, false_and, if_false]
    repeat' split
    all_goals decide
  revert hv
  generalize X86Cpuid.decodeVendor t ebx ecx edx = v
  intro hv
  simp only [List.mem_cons, List.not_mem_nil, or_false] at hv
  rcases hv with rfl | rfl | rfl | rfl | rfl
  · exact ⟨0, by decide +kernel, _, rfl⟩
  · exact ⟨1, by decide +kernel, _, rfl⟩
  · exact ⟨2, by decide +kernel, _, rfl⟩
  · exact ⟨11, by decide +kernel, _, rfl⟩
  · exact ⟨16, by decide +kernel, _, rfl⟩

/-- **C148 is violated.** A Marvell PJ4 is not printed by any name, though the microarchitecture has one. -/
theorem C148_violated_marvell :
    ArmUarch.decode .arm 0x560F5810 false = (31, 0x00900100) ∧
    (b!"marvell", 31) ∈ vendorEnum ∧ vendorToString 31 = none ∧
    uarchToString 0x00900100 = some b!"PJ4" ∧
    coreLine 0 0 1 31 0x00900100 =
      b!"\t0: 1 processor (0), vendor 0x0000001f uarch 0x00900100\n" := by
  decide +kernel

/-- **C148 is violated.** SiFive has no name, nor have nine vendors of 32-bit x86 processors. -/
theorem C148_violated_others :
    Riscv.decodeVendorUarch 0x489 0 0 = (17, 0) ∧ (b!"sifive", 17) ∈ vendorEnum ∧
    vendorToString 17 = none ∧
    X86Cpuid.decodeVendor ⟨true, false⟩ 0x756E6547 0x3638784D 0x54656E69 = .transmeta ∧
    ∀ v ∈ [X86Cpuid.Vendor.transmeta, .rdc, .dmp, .cyrix, .rise, .nsc, .sis, .nexgen, .umc],
      ∃ e ∈ vendorEnum, e.1 = x86VendorId v ∧ vendorToString e.2 = none := by
  decide +kernel

/-- What comes first after the comma: `vendor` or a name. -/
private def heads : List Bytes := b!"vendor" :: vendorNames.map (·.2)

private theorem head_cut {s t r q : Bytes} (hs : s ∈ heads) (ht : t ∈ heads)
    (h : s ++ 32 :: r = t ++ 32 :: q) : s = t ∧ r = q := by
  have pf : ∀ s ∈ heads, ∀ t ∈ heads, (s ++ [32]).isPrefixOf (t ++ [32]) = true → s = t := by
    decide +kernel
  have hp : (s ++ [32]) <+: (t ++ [32]) ∨ (t ++ [32]) <+: (s ++ [32]) := by
    have e : (s ++ [32]) ++ r = (t ++ [32]) ++ q := by simpa using h
    exact List.prefix_or_prefix_of_prefix (List.prefix_append _ r) (e ▸ List.prefix_append _ q)
  have hst : s = t := by
    rcases hp with hp | hp
    · exact pf s hs t ht (List.isPrefixOf_iff_prefix.2 hp)
    · exact (pf t ht s hs (List.isPrefixOf_iff_prefix.2 hp)).symm
  subst hst
  exact ⟨rfl, by simpa using h⟩

private theorem uarch_not {u : Nat} {s r q : Bytes} (h : uarchToString u = some s)
    (he : s ++ [10] = b!"uarch" ++ r ++ q) : False := by
  have : ∀ s ∈ uarchNames.map (·.2), s.head? ≠ some 117 ∨ s.take 2 = b!"un" := by decide +kernel
  have hm := lookup_mem h
  have ne : ∀ s ∈ uarchNames.map (·.2), 2 ≤ s.length := by decide +kernel
  have h2 := ne s hm
  match s, h2 with
  | a :: b :: s, _ =>
    simp only [List.cons_append, List.nil_append, List.cons.injEq] at he
    rcases this _ hm with h' | h'
    · exact h' (by rw [he.1]; rfl)
    · simp only [List.take_succ_cons, List.take_zero, List.cons.injEq, and_true] at h'
      omega

/-- **C148.** The end of a line, names or numbers, tells vendor and microarchitecture. -/
theorem C148_line_tells (v w u x : Nat) (hv : v < U32) (hw : w < U32) (hu : u < U32) (hx : x < U32)
    (h : makerText v u = makerText w x) : v = w ∧ u = x := by
  have hmem : ∀ {v : Nat} {s : Bytes}, vendorToString v = some s → s ∈ heads := fun h =>
    List.mem_cons_of_mem _ (lookup_mem h)
  have hvend : b!"vendor" ∈ heads := by simp [heads]
  have hnot : ∀ {v : Nat} {s : Bytes}, vendorToString v = some s → s ≠ b!"vendor" := by
    intro v s h e
    have : b!"vendor" ∉ vendorNames.map (·.2) := by decide +kernel
    exact this (e ▸ lookup_mem h)
  have cutHex : ∀ {a b : Nat} {r q : Bytes}, hex8 a ++ r = hex8 b ++ q → hex8 a = hex8 b ∧ r = q :=
    fun h => List.append_inj h rfl
  unfold makerText at h
  cases hv1 : vendorToString v with
  | none =>
    cases hw1 : vendorToString w with
    | none =>
      rw [hv1, hw1] at h
      simp only [List.append_assoc] at h
      obtain ⟨h1, h⟩ := cutHex (List.append_cancel_left h)
      obtain ⟨h2, -⟩ := cutHex (List.append_cancel_left h)
      exact ⟨hex8_inj hv hw h1, hex8_inj hu hx h2⟩
    | some t =>
      rw [hv1, hw1] at h
      exfalso
      cases hx1 : uarchToString x with
      | none =>
        rw [hx1] at h
        simp only [List.append_assoc] at h
        have h : b!"vendor" ++ 32 :: (b!"0x" ++ (hex8 v ++ (b!" uarch 0x" ++ (hex8 u ++ [10])))) =
          t ++ 32 :: (b!"uarch 0x" ++ (hex8 x ++ [10])) := List.append_cancel_left (as := b!", ") h
        exact hnot hw1 (head_cut hvend (hmem hw1) h).1.symm
      | some y =>
        rw [hx1] at h
        simp only [List.append_assoc] at h
        have h : b!"vendor" ++ 32 :: (b!"0x" ++ (hex8 v ++ (b!" uarch 0x" ++ (hex8 u ++ [10])))) =
          t ++ 32 :: (y ++ [10]) := List.append_cancel_left (as := b!", ") h
        exact hnot hw1 (head_cut hvend (hmem hw1) h).1.symm
  | some s =>
    cases hw1 : vendorToString w with
    | none =>
      rw [hv1, hw1] at h
      exfalso
      cases hu1 : uarchToString u with
      | none =>
        rw [hu1] at h
        simp only [List.append_assoc] at h
        have h : s ++ 32 :: (b!"uarch 0x" ++ (hex8 u ++ [10])) =
          b!"vendor" ++ 32 :: (b!"0x" ++ (hex8 w ++ (b!" uarch 0x" ++ (hex8 x ++ [10])))) :=
          List.append_cancel_left (as := b!", ") h
        exact hnot hv1 (head_cut (hmem hv1) hvend h).1
      | some y =>
        rw [hu1] at h
        simp only [List.append_assoc] at h
        have h : s ++ 32 :: (y ++ [10]) =
          b!"vendor" ++ 32 :: (b!"0x" ++ (hex8 w ++ (b!" uarch 0x" ++ (hex8 x ++ [10])))) :=
          List.append_cancel_left (as := b!", ") h
        exact hnot hv1 (head_cut (hmem hv1) hvend h).1
    | some t =>
      rw [hv1, hw1] at h
      cases hu1 : uarchToString u with
      | none =>
        cases hx1 : uarchToString x with
        | none =>
          rw [hu1, hx1] at h
          simp only [List.append_assoc] at h
          have h : s ++ 32 :: (b!"uarch 0x" ++ (hex8 u ++ [10])) =
            t ++ 32 :: (b!"uarch 0x" ++ (hex8 x ++ [10])) := List.append_cancel_left (as := b!", ") h
          obtain ⟨e1, h⟩ := head_cut (hmem hv1) (hmem hw1) h
          obtain ⟨h2, -⟩ := cutHex (List.append_cancel_left h)
          exact ⟨C148_distinct.2 v w s hv1 (e1 ▸ hw1), hex8_inj hu hx h2⟩
        | some y =>
          rw [hu1, hx1] at h
          simp only [List.append_assoc] at h
          have h : s ++ 32 :: (b!"uarch 0x" ++ (hex8 u ++ [10])) =
            t ++ 32 :: (y ++ [10]) := List.append_cancel_left (as := b!", ") h
          obtain ⟨-, h⟩ := head_cut (hmem hv1) (hmem hw1) h
          exact (uarch_not (r := b!" 0x") (q := hex8 u ++ [10]) hx1 h.symm).elim
      | some z =>
        cases hx1 : uarchToString x with
        | none =>
          rw [hu1, hx1] at h
          simp only [List.append_assoc] at h
          have h : s ++ 32 :: (z ++ [10]) =
            t ++ 32 :: (b!"uarch 0x" ++ (hex8 x ++ [10])) := List.append_cancel_left (as := b!", ") h
          obtain ⟨-, h⟩ := head_cut (hmem hv1) (hmem hw1) h
          exact (uarch_not (r := b!" 0x") (q := hex8 x ++ [10]) hu1 h).elim
        | some y =>
          rw [hu1, hx1] at h
          simp only [List.append_assoc] at h
          have h : s ++ 32 :: (z ++ [10]) =
            t ++ 32 :: (y ++ [10]) := List.append_cancel_left (as := b!", ") h
          obtain ⟨e1, h⟩ := head_cut (hmem hv1) (hmem hw1) h
          have e2 := List.append_cancel_right h
          exact ⟨C148_distinct.2 v w s hv1 (e1 ▸ hw1), C148_distinct.1 u x z hu1 (e2 ▸ hx1)⟩

/-! ## C149 -/

/-- **C149.** What stands in parentheses is a list that denotes the objects from the first to the last. -/
theorem C149_members (what : Bytes) (start count : Nat) (h1 : 1 ≤ count) (h2 : start + count ≤ U32)
    (hw : 40 ∉ what) :
    ∃ head inner, members what start count = head ++ 40 :: inner ++ [41] ∧ 40 ∉ head ∧ 41 ∉ inner ∧
      BodyDenotes inner start (start + count - 1) := by
  have hdig : ∀ n c, ¬ Digit c → c ∉ ArmChipset.decimal n := fun n c hc hm =>
    hc (ArmChipset.decimal_digits n c hm)
  have h40 : ¬ Digit 40 := by unfold Digit; omega
  have h41 : ¬ Digit 41 := by unfold Digit; omega
  unfold members
  by_cases hc : count = 1
  · rw [if_pos hc]
    refine ⟨b!"1 " ++ what ++ [32], ArmChipset.decimal start, by simp, by simp [hw], hdig _ _ h41, ?_⟩
    have := BodyDenotes.single _ (decimal_numeral start)
    rw [decimal_reads, Nat.mod_eq_of_lt (by omega)] at this
    rw [hc, Nat.add_sub_cancel]
    exact this
  · rw [if_neg hc]
    have he : (start + count + U32MAX) % U32 = start + count - 1 := by
      omega
    rw [he]
    refine ⟨ArmChipset.decimal count ++ [32] ++ what ++ b!"s ", ArmChipset.decimal start ++ 45 ::
      (ArmChipset.decimal (start + count - 1) ++ []), by simp, ?_, ?_, ?_⟩
    · simp [hw, hdig _ _ h40]
    · simp [hdig _ _ h41]
    · have := BodyDenotes.range _ _ [] (decimal_numeral start) (decimal_numeral (start + count - 1))
        (fun c hc => by cases hc) (by
          rw [decimal_reads, decimal_reads, Nat.mod_eq_of_lt (by omega), Nat.mod_eq_of_lt (by omega)]
          omega)
      rw [decimal_reads, decimal_reads, Nat.mod_eq_of_lt (by omega), Nat.mod_eq_of_lt (by omega)] at this
      exact this

private theorem inConsecutive {a b : Nat} {rs : List (Nat × Nat)} (h : Consecutive a rs b) :
    ∀ r ∈ rs, 1 ≤ r.2 ∧ r.1 + r.2 ≤ b := by
  have ha : ∀ {a b : Nat} {rs : List (Nat × Nat)}, Consecutive a rs b → a ≤ b := by
    intro a b rs h
    induction h with
    | nil => exact Nat.le_refl _
    | cons hn _ ih => omega
  induction h with
  | nil => intro r hr; cases hr
  | cons hn h ih =>
    intro r hr
    rcases List.mem_cons.1 hr with rfl | hr
    · exact ⟨hn, ha h⟩
    · exact ih r hr

/-- **C149, x86 Linux.** The line of a published core tells in parentheses exactly the processors of this
core, whatever the vendor and the microarchitecture. -/
theorem C149_linux_cores (e : X86Init.Env) (hs : QSorts e.sort) (hlow : LowFields e.cpu.topology)
    (pub : X86Init.Published) (h : X86Init.linuxInit e = some (some pub)) (k : Nat) (o : X86Init.Core)
    (ho : pub.cores[k]? = some o) (vendor uarch : Nat) :
    ∃ head inner tail a b,
      coreLine k o.processorStart o.processorCount vendor uarch = head ++ 40 :: inner ++ 41 :: tail ∧
      40 ∉ head ∧ 41 ∉ inner ∧ BodyDenotes inner a b ∧
      ∀ j, (a ≤ j ∧ j ≤ b) ↔ ∃ p, pub.processors[j]? = some p ∧ p.core = k := by
  obtain ⟨-, hc, -⟩ := C17_ranges_partition e hs hlow pub h
  have hU : pub.processors.length < U32 := by
    obtain ⟨t, mask, I, c, -, -, -, -, g⟩ := X86Init.linuxInit_good e hs hlow pub h
    rw [g.processors_length]
    exact c.hN
  obtain ⟨h1, h2⟩ := inConsecutive hc (o.processorStart, o.processorCount)
    (List.mem_map.2 ⟨o, List.mem_of_getElem? ho, rfl⟩)
  dsimp only at h1 h2
  obtain ⟨head, inner, e1, e2, e3, e4⟩ := C149_members b!"processor" o.processorStart o.processorCount h1
    (by omega) (by decide)
  refine ⟨[9] ++ ArmChipset.decimal k ++ b!": " ++ head, inner, makerText vendor uarch, _, _,
    by simp [coreLine, e1], ?_, e3, e4, ?_⟩
  · have : 40 ∉ ArmChipset.decimal k := fun hm => by
      have := ArmChipset.decimal_digits k 40 hm
      unfold Digit at this; omega
    simp [this, e2]
  · intro j
    rw [← (C19_range_iff_link e hs hlow pub h k).1 o ho j]
    unfold InRange
    constructor <;> intro ⟨ha, hb⟩ <;> exact ⟨ha, by omega⟩

/-- **C149, x86 Linux.** When the last-level cache is shared by at least the threads of a core, the line of a
published cluster tells, in the first parentheses, exactly its processors, and in the second, exactly its
cores.  Missing: other last-level caches, see `C149_violated`. -/
theorem C149_linux_clusters_partial (e : X86Init.Env) (hs : QSorts e.sort) (hlow : LowFields e.cpu.topology)
    (pub : X86Init.Published) (h : X86Init.linuxInit e = some (some pub))
    (llc : Nat) (hllc : LastLevelBits e.cpu llc) (hshare : e.cpu.topology.threadLength ≤ llc)
    (k : Nat) (l : X86Init.Cluster) (hl : pub.clusters[k]? = some l) (vendor uarch : Nat) :
    ∃ head first middle second tail a b f g,
      clusterLine k l.processorStart l.processorCount l.coreStart l.coreCount vendor uarch =
        head ++ 40 :: first ++ 41 :: middle ++ 40 :: second ++ 41 :: tail ∧
      40 ∉ head ∧ 41 ∉ first ∧ 40 ∉ middle ∧ 41 ∉ second ∧ BodyDenotes first a b ∧ BodyDenotes second f g ∧
      (∀ j, (a ≤ j ∧ j ≤ b) ↔ ∃ p, pub.processors[j]? = some p ∧ p.cluster = k) ∧
      (∀ j, (f ≤ j ∧ j ≤ g) ↔ ∃ o, pub.cores[j]? = some o ∧ o.cluster = k) := by
  obtain ⟨-, hcc, hc, -⟩ := C17_ranges_partition e hs hlow pub h
  have hr := C19_range_iff_link e hs hlow pub h
  have hq := (C19_cluster_core_range_partial e hs hlow pub h llc hllc hshare k l hl).1
  have hU : pub.processors.length < U32 := by
    obtain ⟨t, mask, I, c, -, -, -, -, g⟩ := X86Init.linuxInit_good e hs hlow pub h
    rw [g.processors_length]
    exact c.hN
  have hlen : ∀ {a b : Nat} {rs : List (Nat × Nat)}, Consecutive a rs b → a + rs.length ≤ b := by
    intro a b rs h
    induction h with
    | nil => exact Nat.le_refl _
    | cons hn _ ih => simp only [List.length_cons]; omega
  have hcl : pub.cores.length ≤ pub.processors.length := by
    have := hlen hcc
    rw [List.length_map] at this
    omega
  obtain ⟨h1, h2⟩ := inConsecutive hc (l.processorStart, l.processorCount)
    (List.mem_map.2 ⟨l, List.mem_of_getElem? hl, rfl⟩)
  dsimp only at h1 h2
  have h3 : 1 ≤ l.coreCount := by
    obtain ⟨t, mask, I, c, -, -, -, -, g⟩ := X86Init.linuxInit_good e hs hlow pub h
    have hkk : c.kc ≤ c.kl := by
      rw [g.kc, g.kl, X86Init.lastLevel_eq hllc]; omega
    have l_c : ∀ i, c.l (i + 1) = true → c.c (i + 1) = true :=
      fun i => c.coarse _ _ _ _ hkk c.hmc c.hml i
    obtain ⟨i, hi, rfl, rfl⟩ := g.clusters.full g.hpos hl
    have := (X86Init.sub_range l_c c.N i hi _ ⟨i, hi, rfl⟩).mpr ⟨i, hi, rfl, rfl⟩
    exact Nat.pos_of_ne_zero fun h0 => by
      have h5 := this.2
      have h6 := this.1
      have h7 : (c.clusterE c.N i).coreCount = 0 := h0
      simp only [X86Init.Ctx.clusterE] at h7
      omega
  have h4 : l.coreStart + l.coreCount ≤ U32 := by
    obtain ⟨o, ho, -⟩ := (hq (l.coreStart + l.coreCount - 1)).1 ⟨by omega, by omega⟩
    have := (List.getElem?_eq_some_iff.1 ho).1
    omega
  obtain ⟨head, inner, e1, e2, e3, e4⟩ := C149_members b!"processor" l.processorStart l.processorCount h1
    (by omega) (by decide)
  obtain ⟨head', inner', f1, f2, f3, f4⟩ := C149_members b!"core" l.coreStart l.coreCount h3 h4 (by decide)
  have hk : 40 ∉ ArmChipset.decimal k := fun hm => by
    have := ArmChipset.decimal_digits k 40 hm
    unfold Digit at this; omega
  refine ⟨[9] ++ ArmChipset.decimal k ++ b!": " ++ head, inner,
    b!",\t" ++ ArmChipset.decimal k ++ b!": " ++ head', inner', makerText vendor uarch, _, _, _, _,
    by simp [clusterLine, e1, f1], ?_, e3, ?_, f3, e4, f4, ?_, ?_⟩
  · simp [hk, e2]
  · simp [hk, f2]
  · intro j
    rw [← (hr k).2.1 l hl j]
    unfold InRange
    constructor <;> intro ⟨ha, hb⟩ <;> exact ⟨ha, by omega⟩
  · intro j
    rw [← hq j]
    unfold InRange
    constructor <;> intro ⟨ha, hb⟩ <;> exact ⟨ha, by omega⟩

/-- **C149 is violated.** A processor without caches in CPUID whose cores have two threads: clusters without
cores are published (C19) and printed as having cores up to 4294967295. -/
theorem C149_violated :
    published smtEnv (·.clusters[1]?) = some (some ⟨1, 1, 0, 0, 1, 0⟩) ∧
    clusterLine 1 1 1 0 0 1 0x00100205 =
      b!"\t1: 1 processor (1),\t1: 0 cores (0-4294967295), Intel Nehalem\n" := by
  decide +kernel

/-- The lines of `exampleEnv` (published by C19's example). -/
example : coreLine 1 2 2 1 0x0010020A = b!"\t1: 2 processors (2-3), Intel Sky Lake\n" ∧
    clusterLine 0 0 4 0 2 1 0x0010020A =
      b!"\t0: 4 processors (0-3),\t0: 2 cores (0-1), Intel Sky Lake\n" := by
  decide +kernel

/-! ## C150 -/

/-- **C150.** The printed size and unit are the size. -/
theorem C150_size (size : Nat) : ∃ n unit factor, sizeText size = ArmChipset.decimal n ++ b!" " ++ unit ∧
    (unit, factor) ∈ [(b!"bytes", 1), (b!"KB", 1024), (b!"MB", 1048576)] ∧ n * factor = size := by
  unfold sizeText
  split
  · exact ⟨size / 1048576, b!"MB", 1048576, by simp, by decide, by omega⟩
  · split
    · exact ⟨size / 1024, b!"KB", 1024, by simp, by decide, by omega⟩
    · exact ⟨size, b!"bytes", 1, by simp, by decide, by omega⟩

/-- The fields of a cache that a report tells. -/
structure SameReport (level : Nat) (n m : Nat) (c d : X86Init.Cache) : Prop where
  count : n = m
  size : c.size = d.size
  lineSize : c.lineSize = d.lineSize
  processors : c.processorCount = d.processorCount
  sets : c.sets = d.sets
  partitions : c.sets ≠ 0 → c.partitions = d.partitions
  unified : c.flags &&& 1 ≠ 0 ↔ d.flags &&& 1 ≠ 0
  inclusive : level ≠ 1 → (c.flags &&& 2 ≠ 0 ↔ d.flags &&& 2 ≠ 0)
  complex : c.sets ≠ 0 → (c.flags &&& 4 ≠ 0 ↔ d.flags &&& 4 ≠ 0)
  ways : c.associativity = d.associativity ∨
    (c.associativity * c.lineSize % U32 = c.size ∧ d.associativity * d.lineSize % U32 = d.size)

private theorem nn {α : Type} {a b : α} (h : a = b) : ¬ (a ≠ b) := fun k => k h

private theorem nd {c : Byte} (h : c < 48 ∨ 57 < c := by omega) : ¬ Digit c := by
  unfold Digit; omega

private theorem shared_inj {c d : X86Init.Cache} (h : sharedText c = sharedText d) :
    c.processorCount = d.processorCount := by
  unfold sharedText at h
  by_cases h1 : c.processorCount = 0 <;> by_cases h2 : d.processorCount = 0
  · rw [h1, h2]
  · rw [if_neg (nn h1), if_pos h2] at h
    simp at h
  · rw [if_pos h1, if_neg (nn h2)] at h
    simp at h
  · rw [if_pos h1, if_pos h2] at h
    simp only [List.append_assoc] at h
    have h := List.append_cancel_left h
    exact (cutNumber (x := 32) (y := 32) nd nd h).1

private theorem lines_inj {c d : X86Init.Cache}
    (h : ArmChipset.decimal c.lineSize ++ (b!" byte lines" ++ sharedText c) =
      ArmChipset.decimal d.lineSize ++ (b!" byte lines" ++ sharedText d)) :
    c.lineSize = d.lineSize ∧ c.processorCount = d.processorCount := by
  obtain ⟨h1, -, h⟩ := cutNumber (x := 32) (y := 32) nd nd h
  exact ⟨h1, shared_inj (List.append_cancel_left (as := b!"byte lines") h)⟩

private theorem sets_inj {c d : X86Init.Cache} {r s : Bytes}
    (h : setsText c ++ (ArmChipset.decimal c.lineSize ++ r) =
      setsText d ++ (ArmChipset.decimal d.lineSize ++ s)) :
    c.sets = d.sets ∧ (c.sets ≠ 0 → c.partitions = d.partitions) ∧
    (c.sets ≠ 0 → (c.flags &&& 4 ≠ 0 ↔ d.flags &&& 4 ≠ 0)) ∧
    ArmChipset.decimal c.lineSize ++ r = ArmChipset.decimal d.lineSize ++ s := by
  unfold setsText at h
  by_cases h1 : c.sets = 0 <;> by_cases h2 : d.sets = 0
  · rw [if_neg (nn h1), if_neg (nn h2)] at h
    exact ⟨by rw [h1, h2], fun h => absurd h1 h, fun h => absurd h1 h, h⟩
  · rw [if_neg (nn h1), if_pos h2] at h
    exact (decimal_not (x := 32) nd (by simpa using h)).elim
  · rw [if_pos h1, if_neg (nn h2)] at h
    exact (decimal_not (x := 32) nd (by simpa using h.symm)).elim
  · rw [if_pos h1, if_pos h2] at h
    simp only [List.append_assoc] at h
    have h := List.append_cancel_left h
    obtain ⟨e1, -, h⟩ := cutNumber (x := 32) (y := 32) nd nd h
    have h := List.append_cancel_left (as := b!"sets") h
    refine ⟨e1, ?_⟩
    by_cases p1 : c.partitions = 1 <;> by_cases p2 : d.partitions = 1
    · rw [if_neg (nn p1), if_neg (nn p2)] at h
      by_cases f1 : c.flags &&& 4 = 0 <;> by_cases f2 : d.flags &&& 4 = 0
      · rw [if_neg (nn f1), if_neg (nn f2)] at h
        exact ⟨fun _ => by rw [p1, p2], fun _ => by simp [f1, f2], by simpa using h⟩
      · rw [if_neg (nn f1), if_pos f2] at h
        simp at h
      · rw [if_pos f1, if_neg (nn f2)] at h
        simp at h
      · rw [if_pos f1, if_pos f2] at h
        exact ⟨fun _ => by rw [p1, p2], fun _ => by simp [f1, f2], by simpa using h⟩
    · rw [if_neg (nn p1), if_pos p2] at h
      exfalso
      by_cases f1 : c.flags &&& 4 = 0
      · rw [if_neg (nn f1)] at h
        simp at h
      · rw [if_pos f1] at h
        simp only [List.nil_append, List.cons_append, List.append_assoc, List.cons.injEq, true_and] at h
        exact decimal_not (x := 99) nd h.symm
    · rw [if_pos p1, if_neg (nn p2)] at h
      exfalso
      by_cases f2 : d.flags &&& 4 = 0
      · rw [if_neg (nn f2)] at h
        simp at h
      · rw [if_pos f2] at h
        simp only [List.nil_append, List.cons_append, List.append_assoc, List.cons.injEq, true_and] at h
        exact decimal_not (x := 99) nd h
    · rw [if_pos p1, if_pos p2] at h
      simp only [List.append_assoc] at h
      have h := List.append_cancel_left h
      obtain ⟨e2, -, h⟩ := cutNumber (x := 32) (y := 32) nd nd h
      have h := List.append_cancel_left (as := b!"partitions") h
      by_cases f1 : c.flags &&& 4 = 0 <;> by_cases f2 : d.flags &&& 4 = 0
      · rw [if_neg (nn f1), if_neg (nn f2)] at h
        exact ⟨fun _ => e2, fun _ => by simp [f1, f2], by simpa using h⟩
      · rw [if_neg (nn f1), if_pos f2] at h
        simp at h
      · rw [if_pos f1, if_neg (nn f2)] at h
        simp at h
      · rw [if_pos f1, if_pos f2] at h
        exact ⟨fun _ => e2, fun _ => by simp [f1, f2], by simpa using h⟩

private theorem ways_inj {c d : X86Init.Cache} {r s : Bytes} (h : waysText c ++ r = waysText d ++ s) :
    (c.associativity = d.associativity ∨
      (c.associativity * c.lineSize % U32 = c.size ∧ d.associativity * d.lineSize % U32 = d.size)) ∧
    r = s := by
  unfold waysText at h
  split at h
  · rename_i h1
    split at h
    · rename_i h2
      exact ⟨Or.inr ⟨h1, h2⟩, List.append_cancel_left h⟩
    · simp only [List.cons_append, List.append_assoc] at h
      exact (decimal_not (x := 102) nd h.symm).elim
  · split at h
    · simp only [List.cons_append, List.append_assoc] at h
      exact (decimal_not (x := 102) nd h).elim
    · simp only [List.append_assoc] at h
      obtain ⟨e1, -, h⟩ := cutNumber (x := 45) (y := 45) nd nd h
      exact ⟨Or.inl e1, List.append_cancel_left (as := b!"way set associative") h⟩

private theorem size_shape (size : Nat) : ∃ n u us f, sizeText size = ArmChipset.decimal n ++ 32 :: u :: us ∧
    (u, us, f) ∈ [(98, b!"ytes", 1), (75, b!"B", 1024), (77, b!"B", 1048576)] ∧ n * f = size := by
  unfold sizeText
  split
  · exact ⟨_, _, _, 1048576, rfl, by decide, by omega⟩
  · split
    · exact ⟨_, _, _, 1024, rfl, by decide, by omega⟩
    · exact ⟨_, _, _, 1, rfl, by decide, by omega⟩

private theorem size_inj {n m : Nat} {r s : Bytes} (h : sizeText n ++ r = sizeText m ++ s) : n = m ∧ r = s := by
  obtain ⟨a, u, us, f, e1, m1, p1⟩ := size_shape n
  obtain ⟨b, v, vs, g, e2, m2, p2⟩ := size_shape m
  rw [e1, e2] at h
  simp only [List.append_assoc, List.cons_append] at h
  obtain ⟨e, -, h⟩ := cutNumber (x := 32) (y := 32) nd nd h
  simp only [List.mem_cons, Prod.mk.injEq, List.not_mem_nil, or_false] at m1 m2
  rcases m1 with ⟨rfl, rfl, rfl⟩ | ⟨rfl, rfl, rfl⟩ | ⟨rfl, rfl, rfl⟩ <;>
    rcases m2 with ⟨rfl, rfl, rfl⟩ | ⟨rfl, rfl, rfl⟩ | ⟨rfl, rfl, rfl⟩ <;>
    simp at h <;> exact ⟨by omega, h⟩

private theorem count_inj {n m k l : Nat} {r s : Bytes}
    (h : (if n ≠ 1 then ArmChipset.decimal n ++ b!" x " else []) ++ (sizeText k ++ r) =
      (if m ≠ 1 then ArmChipset.decimal m ++ b!" x " else []) ++ (sizeText l ++ s)) :
    n = m ∧ sizeText k ++ r = sizeText l ++ s := by
  have key : ∀ {n k : Nat} {t r : Bytes}, ArmChipset.decimal n ++ (b!" x " ++ t) = sizeText k ++ r → False := by
    intro n k t r h
    obtain ⟨a, u, us, f, e1, m1, -⟩ := size_shape k
    rw [e1] at h
    simp only [List.append_assoc, List.cons_append] at h
    obtain ⟨-, -, h⟩ := cutNumber (x := 32) (y := 32) nd nd h
    simp only [List.mem_cons, Prod.mk.injEq, List.not_mem_nil, or_false] at m1
    rcases m1 with ⟨rfl, rfl, rfl⟩ | ⟨rfl, rfl, rfl⟩ | ⟨rfl, rfl, rfl⟩ <;> simp at h
  by_cases h1 : n = 1 <;> by_cases h2 : m = 1
  · rw [if_neg (nn h1), if_neg (nn h2)] at h
    exact ⟨by rw [h1, h2], h⟩
  · rw [if_neg (nn h1), if_pos h2, List.append_assoc] at h
    exact (key h.symm).elim
  · rw [if_pos h1, if_neg (nn h2), List.append_assoc] at h
    exact (key h).elim
  · rw [if_pos h1, if_pos h2] at h
    simp only [List.append_assoc] at h
    obtain ⟨e, -, h⟩ := cutNumber (x := 32) (y := 32) nd nd h
    exact ⟨e, List.append_cancel_left (as := b!"x ") h⟩

/-- **C150.** Equal reports of one level come from equal caches: number, size, line size, ways (unless both
are fully associative), sets, partitions, sharing, and whether it is unified, inclusive and has complex
indexing. -/
theorem C150_report_tells (n m : Nat) (c d : X86Init.Cache) (level : Nat) (type : Bytes)
    (ht : type = b!"instruction" ∨ type = b!"data")
    (h : reportCache n c level type = reportCache m d level type) : SameReport level n m c d := by
  unfold reportCache at h
  simp only [List.append_assoc] at h
  have h := List.append_cancel_left (List.append_cancel_left (List.append_cancel_left h))
  have step : (c.flags &&& 1 ≠ 0 ↔ d.flags &&& 1 ≠ 0) ∧
      (if n ≠ 1 then ArmChipset.decimal n ++ b!" x " else []) ++ (sizeText c.size ++ (
        (if level = 1 then b!", "
          else b!" (" ++ ((if c.flags &&& 2 ≠ 0 then b!"inclusive" else b!"exclusive") ++ b!"), ")) ++
        (waysText c ++ (setsText c ++ (ArmChipset.decimal c.lineSize ++
          (b!" byte lines" ++ sharedText c)))))) =
      (if m ≠ 1 then ArmChipset.decimal m ++ b!" x " else []) ++ (sizeText d.size ++ (
        (if level = 1 then b!", "
          else b!" (" ++ ((if d.flags &&& 2 ≠ 0 then b!"inclusive" else b!"exclusive") ++ b!"), ")) ++
        (waysText d ++ (setsText d ++ (ArmChipset.decimal d.lineSize ++
          (b!" byte lines" ++ sharedText d)))))) := by
    by_cases h1 : c.flags &&& 1 = 0 <;> by_cases h2 : d.flags &&& 1 = 0
    · rw [if_neg (nn h1), if_neg (nn h2)] at h
      exact ⟨iff_of_false (nn h1) (nn h2), List.append_cancel_left (List.append_cancel_left h)⟩
    · rw [if_neg (nn h1), if_pos h2] at h
      rcases ht with rfl | rfl <;> simp at h
    · rw [if_pos h1, if_neg (nn h2)] at h
      rcases ht with rfl | rfl <;> simp at h
    · rw [if_pos h1, if_pos h2] at h
      exact ⟨iff_of_true h1 h2, List.append_cancel_left (List.append_cancel_left h)⟩
  obtain ⟨hu, h⟩ := step
  obtain ⟨hn, h⟩ := count_inj h
  obtain ⟨hz, h⟩ := size_inj h
  have step2 : (level ≠ 1 → (c.flags &&& 2 ≠ 0 ↔ d.flags &&& 2 ≠ 0)) ∧
      waysText c ++ (setsText c ++ (ArmChipset.decimal c.lineSize ++ (b!" byte lines" ++ sharedText c))) =
      waysText d ++ (setsText d ++ (ArmChipset.decimal d.lineSize ++ (b!" byte lines" ++ sharedText d))) := by
    by_cases hl : level = 1
    · rw [if_pos hl, if_pos hl] at h
      exact ⟨fun h => absurd hl h, List.append_cancel_left h⟩
    · rw [if_neg hl, if_neg hl] at h
      simp only [List.append_assoc] at h
      have h := List.append_cancel_left h
      by_cases h1 : c.flags &&& 2 = 0 <;> by_cases h2 : d.flags &&& 2 = 0
      · rw [if_neg (nn h1), if_neg (nn h2)] at h
        exact ⟨fun _ => by simp [h1, h2], List.append_cancel_left (List.append_cancel_left h)⟩
      · rw [if_neg (nn h1), if_pos h2] at h
        simp at h
      · rw [if_pos h1, if_neg (nn h2)] at h
        simp at h
      · rw [if_pos h1, if_pos h2] at h
        exact ⟨fun _ => by simp [h1, h2], List.append_cancel_left (List.append_cancel_left h)⟩
  obtain ⟨hi, h⟩ := step2
  obtain ⟨hw, h⟩ := ways_inj h
  obtain ⟨hs, hp, hx, h⟩ := sets_inj h
  obtain ⟨hl, hpc⟩ := lines_inj h
  exact ⟨hn, hz, hl, hpc, hs, hp, hu, hi, hx, hw⟩

/-- **C150.** For a cache whose size is the product of its parameters, `fully associative` is printed exactly
if there is only one set. -/
theorem C150_fully_associative (c : X86Init.Cache)
    (hs : c.size = c.associativity * c.sets * c.partitions * c.lineSize) (hU : c.size < U32)
    (h0 : c.size ≠ 0) : waysText c = b!"fully associative" ↔ c.sets = 1 ∧ c.partitions = 1 := by
  have ha : 0 < c.associativity := Nat.pos_of_ne_zero fun h => h0 (by rw [hs, h]; simp)
  have hl : 0 < c.lineSize := Nat.pos_of_ne_zero fun h => h0 (by rw [hs, h]; simp)
  have hsp : c.sets * c.partitions ≠ 0 := fun h => h0 (by
    rw [hs, Nat.mul_assoc c.associativity, h]; simp)
  have e : c.size = c.associativity * c.lineSize * (c.sets * c.partitions) := by
    rw [hs, Nat.mul_assoc c.associativity, Nat.mul_assoc, Nat.mul_comm (c.sets * c.partitions),
      Nat.mul_assoc]
  have hle : c.associativity * c.lineSize ≤ c.size := by
    rw [e]; exact Nat.le_mul_of_pos_right _ (Nat.pos_of_ne_zero hsp)
  have key : c.associativity * c.lineSize % U32 = c.size ↔ c.sets = 1 ∧ c.partitions = 1 := by
    rw [Nat.mod_eq_of_lt (by omega)]
    constructor
    · intro h
      have h1 : c.sets * c.partitions = 1 := by
        rw [e] at h
        have hp : 0 < c.associativity * c.lineSize := Nat.mul_pos ha hl
        exact (Nat.eq_of_mul_eq_mul_left hp (by rw [Nat.mul_one]; exact h)).symm
      exact ⟨Nat.eq_one_of_mul_eq_one_right h1, Nat.eq_one_of_mul_eq_one_left h1⟩
    · rintro ⟨h1, h2⟩
      rw [e, h1, h2, Nat.mul_one]
  unfold waysText
  rw [← key]
  constructor
  · intro h
    split at h
    · assumption
    · exact (decimal_not (x := 102) nd h).elim
  · intro h; rw [if_pos h]

/-- Non-vacuity: a level 3 cache, and its report. -/
example : reportCache 2 ⟨8388608, 16, 8192, 1, 64, 7, 0, 8⟩ 3 b!"data" =
    b!"L3 unified cache: 2 x 8 MB (inclusive), 16-way set associative (8192 sets, complex indexing), 64 byte lines, shared by 8 processors\n" := by
  decide +kernel

/-- A fully associative one, and one whose size is no multiple of 1 MB. -/
example : reportCache 1 ⟨49152, 12, 64, 1, 64, 0, 0, 2⟩ 1 b!"data" =
    b!"L1 data cache: 48 KB, 12-way set associative (64 sets), 64 byte lines, shared by 2 processors\n" := by
  decide +kernel

end Verif.Props
