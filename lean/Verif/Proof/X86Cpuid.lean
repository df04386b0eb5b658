import Verif.Spec.X86Cpuid

/-!
# Lemmas about registers, `bit_length`, vendor strings and signatures
-/

set_option autoImplicit false

namespace Verif.X86Cpuid
open Spec

theorem and_ones (x k : Nat) : x &&& (2 ^ k - 1) = x % 2 ^ k := Nat.and_two_pow_sub_one_eq_mod x k

theorem and_7 (x : Nat) : x &&& 0x7 = x % 8 := and_ones x 3
theorem and_3 (x : Nat) : x &&& 0x3 = x % 4 := and_ones x 2
theorem and_F (x : Nat) : x &&& 0xF = x % 16 := and_ones x 4
theorem and_1F (x : Nat) : x &&& 0x1F = x % 32 := and_ones x 5
theorem and_FF (x : Nat) : x &&& 0xFF = x % 256 := and_ones x 8
theorem and_3FF (x : Nat) : x &&& 0x3FF = x % 1024 := and_ones x 10
theorem and_FFF (x : Nat) : x &&& 0xFFF = x % 4096 := and_ones x 12

theorem and_bit (x k : Nat) : x &&& 2 ^ k ≠ 0 ↔ x.testBit k = true := by
  constructor
  · intro h
    cases hb : x.testBit k with
    | true => rfl
    | false =>
      exfalso
      apply h
      apply Nat.eq_of_testBit_eq
      intro i
      rw [Nat.testBit_and, Nat.testBit_two_pow, Nat.zero_testBit]
      by_cases hi : k = i
      · subst hi; simp [hb]
      · simp [hi]
  · intro h h0
    have : (x &&& 2 ^ k).testBit k = true := by
      rw [Nat.testBit_and, Nat.testBit_two_pow]; simp [h]
    rw [h0] at this
    simp at this

theorem isBits_bitLength (n : Nat) (h0 : 0 < n) (h : n ≤ U32) : IsBits n (bitLength n) := by
  unfold bitLength
  have e : (n + U32MAX) % U32 = n - 1 := by omega
  simp only [e]
  split
  · next h1 =>
    have : n = 1 := by omega
    subst this
    exact ⟨by decide, fun j _ => Nat.zero_le j⟩
  · next h1 =>
    have hl : Nat.log2 (n - 1) < 32 := (Nat.log2_lt h1).mpr (by omega)
    have e2 : 32 - (31 - Nat.log2 (n - 1)) = Nat.log2 (n - 1) + 1 := by omega
    rw [e2]
    constructor
    · have : n - 1 < 2 ^ (Nat.log2 (n - 1) + 1) := Nat.lt_log2_self
      omega
    · intro j hj
      have : Nat.log2 (n - 1) < j := (Nat.log2_lt h1).mpr (by omega)
      omega

theorem IsBits.unique {n j k : Nat} (h : IsBits n j) (h' : IsBits n k) : j = k :=
  Nat.le_antisymm (h.2 k h'.1) (h'.2 j h.1)

theorem IsBits.mono {m n j k : Nat} (h : IsBits m j) (h' : IsBits n k) (hm : m ≤ n) : j ≤ k :=
  h.2 k (Nat.le_trans hm h'.1)

theorem bitLength_le (n k : Nat) (h0 : 0 < n) (hk : k ≤ 32) (h : n ≤ 2 ^ k) : bitLength n ≤ k :=
  (isBits_bitLength n h0 (Nat.le_trans h (Nat.pow_le_pow_right (by decide) hk))).2 k h

/-! ### Vendor strings -/

theorem chars_inj {a b : Nat} (ha : a < U32) (hb : b < U32) : chars a = chars b ↔ a = b := by
  constructor
  · intro h
    simp only [chars, List.cons.injEq, and_true] at h
    omega
  · rintro rfl; rfl

theorem chars3_inj {a b c x y z : Nat} (ha : a < U32) (hb : b < U32) (hc : c < U32) (hx : x < U32)
    (hy : y < U32) (hz : z < U32) :
    chars a ++ chars b ++ chars c = chars x ++ chars y ++ chars z ↔ a = x ∧ b = y ∧ c = z := by
  constructor
  · intro h
    obtain ⟨h1, h2⟩ := List.append_inj h rfl
    obtain ⟨h3, h4⟩ := List.append_inj h1 rfl
    exact ⟨(chars_inj ha hx).mp h3, (chars_inj hb hy).mp h4, (chars_inj hc hz).mp h2⟩
  · rintro ⟨rfl, rfl, rfl⟩; rfl

/-- The known vendors by register values ebx, edx, ecx. -/
def vendorRegs (t : Target) : List ((Nat × Nat × Nat) × Vendor) :=
  [((0x756E6547, 0x49656E69, 0x6C65746E), .intel), ((0x68747541, 0x69746E65, 0x444D4163), .amd),
   ((0x746E6543, 0x48727561, 0x736C7561), .via), ((0x6F677948, 0x6E65476E, 0x656E6975), .hygon)] ++
  if t.x86_32 then
    [((0x756E6547, 0x54656E69, 0x3638784D), .transmeta),
     ((0x756E6547, 0x20656E69, 0x43445220), .rdc), ((0x69444D41, 0x74656273, 0x21726574), .amd),
     ((0x20444D41, 0x45425349, 0x52455454), .amd), ((0x20414956, 0x20414956, 0x20414956), .via),
     ((0x6E617254, 0x74656D73, 0x55504361), .transmeta),
     ((0x69727943, 0x736E4978, 0x64616574), .cyrix), ((0x65736952, 0x65736952, 0x65736952), .rise),
     ((0x646F6547, 0x79622065, 0x43534E20), .nsc), ((0x20536953, 0x20536953, 0x20536953), .sis),
     ((0x4778654E, 0x72446E65, 0x6E657669), .nexgen),
     ((0x20434D55, 0x20434D55, 0x20434D55), .umc), ((0x74726F56, 0x36387865, 0x436F5320), .dmp)]
  else []

theorem knownVendors_eq (t : Target) :
    knownVendors t =
      (vendorRegs t).map fun r => (chars r.1.1 ++ chars r.1.2.1 ++ chars r.1.2.2, r.2) := by
  cases t with
  | mk b a => cases a <;> cases b <;> decide +kernel

theorem vendorRegs_u32 (t : Target) :
    ∀ r ∈ vendorRegs t, r.1.1 < U32 ∧ r.1.2.1 < U32 ∧ r.1.2.2 < U32 := by
  cases t with
  | mk b a => cases a <;> cases b <;> decide +kernel

/-- The rows of `vendorRegs` with an ebx value of their own. -/
def vendorRegs32 : List ((Nat × Nat × Nat) × Vendor) :=
  [((0x69444D41, 0x74656273, 0x21726574), .amd),
   ((0x20444D41, 0x45425349, 0x52455454), .amd), ((0x20414956, 0x20414956, 0x20414956), .via),
   ((0x6E617254, 0x74656D73, 0x55504361), .transmeta),
   ((0x69727943, 0x736E4978, 0x64616574), .cyrix), ((0x65736952, 0x65736952, 0x65736952), .rise),
   ((0x646F6547, 0x79622065, 0x43534E20), .nsc), ((0x20536953, 0x20536953, 0x20536953), .sis),
   ((0x4778654E, 0x72446E65, 0x6E657669), .nexgen),
   ((0x20434D55, 0x20434D55, 0x20434D55), .umc), ((0x74726F56, 0x36387865, 0x436F5320), .dmp)]

/-- A `switch` on ebx whose cases compare edx and ecx. -/
def chain (ebx ecx edx : Nat) : List ((Nat × Nat × Nat) × Vendor) → Vendor
  | [] => .unknown
  | r :: rest =>
    if ebx = r.1.1 then (if edx = r.1.2.1 ∧ ecx = r.1.2.2 then r.2 else .unknown)
    else chain ebx ecx edx rest

theorem chain_eq (ebx ecx edx : Nat) (v : Vendor) (hv : v ≠ .unknown)
    (l : List ((Nat × Nat × Nat) × Vendor)) (hn : (l.map fun r => r.1.1).Nodup) :
    chain ebx ecx edx l = v ↔ ((ebx, edx, ecx), v) ∈ l := by
  induction l with
  | nil => simpa [chain] using Ne.symm hv
  | cons r rest ih =>
    obtain ⟨⟨x, y, z⟩, w⟩ := r
    simp only [List.map_cons, List.nodup_cons] at hn
    simp only [chain, List.mem_cons, Prod.mk.injEq]
    by_cases hx : ebx = x
    · subst hx
      have hr : ((ebx, edx, ecx), v) ∉ rest := fun hm =>
        hn.1 (List.mem_map.mpr ⟨_, hm, rfl⟩)
      by_cases hyz : edx = y ∧ ecx = z
      · simp [hyz, eq_comm]
        intro hm
        obtain ⟨rfl, rfl⟩ := hyz
        exact absurd hm hr
      · rw [if_pos rfl, if_neg hyz]
        constructor
        · intro h; exact absurd h.symm hv
        · rintro (⟨⟨-, h1, h2⟩, -⟩ | h)
          · exact absurd ⟨h1, h2⟩ hyz
          · exact absurd h hr
    · rw [if_neg hx, ih hn.2]
      simp [hx]

theorem decodeVendor_chain (t : Target) (ebx ecx edx : Nat) :
    decodeVendor t ebx ecx edx =
      if ebx = 0x756E6547 then
        chain edx ecx ebx <|
          ((0x49656E69, 0x756E6547, 0x6C65746E), .intel) ::
            if t.x86_32 then
              [((0x54656E69, 0x756E6547, 0x3638784D), .transmeta),
               ((0x20656E69, 0x756E6547, 0x43445220), .rdc)]
            else []
      else
        chain ebx ecx edx <|
          [((0x68747541, 0x69746E65, 0x444D4163), .amd),
           ((0x746E6543, 0x48727561, 0x736C7561), .via),
           ((0x6F677948, 0x6E65476E, 0x656E6975), .hygon)] ++
          if t.x86_32 then vendorRegs32 else [] := by
  by_cases h : ebx = 0x756E6547
  · subst h
    cases ht : t.x86_32 <;> simp [decodeVendor, chain, ht]
  · cases ht : t.x86_32
    · simp only [decodeVendor, if_neg h, ht]; rfl
    · simp only [decodeVendor, if_neg h, ht]; rfl

theorem decodeVendor_regs (t : Target) (ebx ecx edx : Nat) (v : Vendor) (hv : v ≠ .unknown) :
    decodeVendor t ebx ecx edx = v ↔ ((ebx, edx, ecx), v) ∈ vendorRegs t := by
  rw [decodeVendor_chain]
  by_cases h : ebx = 0x756E6547
  · subst h
    rw [if_pos rfl, chain_eq edx ecx _ v hv _ (by cases t.x86_32 <;> decide)]
    cases ht : t.x86_32 <;>
      simp [vendorRegs, ht]
  · rw [if_neg h, chain_eq ebx ecx edx v hv _ (by cases t.x86_32 <;> decide +kernel)]
    cases ht : t.x86_32 <;>
      simp [vendorRegs, vendorRegs32, ht, h]

theorem decodeVendor_chars (t : Target) (ebx ecx edx : Nat) (hb : ebx < U32) (hc : ecx < U32)
    (hd : edx < U32) (v : Vendor) (hv : v ≠ .unknown) :
    decodeVendor t ebx ecx edx = v ↔ (chars ebx ++ chars edx ++ chars ecx, v) ∈ knownVendors t := by
  rw [decodeVendor_regs t ebx ecx edx v hv, knownVendors_eq, List.mem_map]
  constructor
  · intro h; exact ⟨_, h, rfl⟩
  · rintro ⟨⟨⟨x, y, z⟩, w⟩, hr, e⟩
    have hu := vendorRegs_u32 t _ hr
    simp only [Prod.mk.injEq] at e
    obtain ⟨e1, rfl⟩ := e
    obtain ⟨rfl, rfl, rfl⟩ := (chars3_inj hu.1 hu.2.1 hu.2.2 hb hd hc).mp e1
    exact hr

theorem knownVendors_known (t : Target) : ∀ r ∈ knownVendors t, r.2 ≠ .unknown := by
  cases t with
  | mk b a => cases a <;> cases b <;> decide +kernel

/-! ### Signatures -/

theorem modelInfo_eq (eax : Nat) :
    decodeModelInfo eax =
      { stepping := eax % 16
        baseModel := eax / 16 % 16
        baseFamily := eax / 256 % 16
        processorType := eax / 4096 % 4
        extendedModel := eax / 65536 % 16
        extendedFamily := eax / 1048576 % 256
        family := eax / 256 % 16 + eax / 1048576 % 256
        model := eax / 16 % 16 + 16 * (eax / 65536 % 16) } := by
  simp only [decodeModelInfo, and_F, and_3, and_FF, Nat.shiftRight_eq_div_pow,
    Nat.shiftLeft_eq, Nat.mul_comm _ (2 ^ 4)]

end Verif.X86Cpuid
