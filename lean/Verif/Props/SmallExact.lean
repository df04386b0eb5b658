import Verif.Props.X86Cpuid
import Verif.Props.ArmCpuinfo
import Verif.Props.ArmClusterMidr

/-!
# C23, C30, C70, C71, C81: exactly which inputs are decoded wrongly
-/

set_option autoImplicit false

namespace Verif.Props
open Spec X86Cpuid

/-- **C30 (exact).** Family and model are the documented ones exactly if the extended fields count for
the family or are zero. -/
theorem C30_exact (eax : Nat) :
    ((decodeModelInfo eax).family = displayFamily eax ↔
      eax / 256 % 16 = 15 ∨ eax / 1048576 % 256 = 0) ∧
    ((decodeModelInfo eax).model = displayModel eax ↔
      eax / 256 % 16 = 6 ∨ eax / 256 % 16 = 15 ∨ eax / 65536 % 16 = 0) := by
  simp only [modelInfo_eq, displayFamily, displayModel]
  constructor <;> split <;> omega

/-- **C23 (exact).** With an SMT level of shift `s₁` and a core level of shift `s₂` in leaf 0xB, two
processors get the wrong answer to the question whether they are in one package exactly if their APIC
IDs agree from bit `s₁ + s₂` on but not from bit `s₂` on; processors of one package are never
separated. -/
theorem C23_exact (t : Target) (c : Cpuid) (fuel n4 n8 s₁ s₂ : Nat)
    (rest : List (Nat × Nat)) (ha : Answers c fuel n4 n8 ((1, s₁) :: (2, s₂) :: rest))
    (ho : OtherLevels rest) (hb : 11 ≤ (c.leaf 0).eax) (hx : (c.leaf 1).ecx.testBit 21 = true)
    (e : X86Init.Env) (hs : QSorts e.sort)
    (he : (initProcessor t c fuel).map (·.cpu) = some e.cpu) (pub : X86Init.Published)
    (h : X86Init.linuxInit e = some (some pub)) (i j : Nat) (p q : X86Init.Processor)
    (hp : pub.processors[i]? = some p) (hq : pub.processors[j]? = some q) :
    (¬ (p.package = q.package ↔ AgreeFrom s₂ p.apicId q.apicId) ↔
      AgreeFrom (s₁ + s₂) p.apicId q.apicId ∧ ¬ AgreeFrom s₂ p.apicId q.apicId) ∧
    (AgreeFrom s₂ p.apicId q.apicId → p.package = q.package) := by
  have key := (C23_package_sharing t c fuel n4 n8 s₁ s₂ rest ha ho hb hx e hs he pub h i j p q hp hq).2
  have mono : AgreeFrom s₂ p.apicId q.apicId → AgreeFrom (s₁ + s₂) p.apicId q.apicId :=
    fun hm k hk => hm k (by omega)
  rw [key]
  refine ⟨?_, mono⟩
  by_cases h1 : AgreeFrom s₂ p.apicId q.apicId <;>
    by_cases h2 : AgreeFrom (s₁ + s₂) p.apicId q.apicId <;> simp [h1, h2]
  exact h2 (mono h1)

open ArmMidr ArmCpuinfo

/-- **C71 (exact).** Every decimal value is stored modulo 2^32 and flagged, zero, odd line lengths and
the empty value included; any other value changes nothing. -/
theorem C71_exact (v : Bytes) (set : Nat → CacheNumbers → CacheNumbers) (mask : Nat) (p : Proc) :
    ((∀ c ∈ v, IsDigit c) → parseCacheNumber v set mask p =
      { p with cache := set (decimal v % U32) p.cache, flags := p.flags ||| (mask ||| 0x200000) }) ∧
    ((¬ ∀ c ∈ v, IsDigit c) → parseCacheNumber v set mask p = p) := by
  refine ⟨fun h => ?_, (C71_cache_number_partial v set mask p).2⟩
  unfold parseCacheNumber
  rw [decimalLoop_spec v h]
  rfl

/-- **C70 (malformed values, exact).** A value that is neither `AArch64` nor starts with a decimal number
other than 0 (modulo 2^32) changes exactly the architecture field of the register, to the code of the
version and letters given before (15 if none were): the processor stays unchanged exactly if that was
the code already. -/
theorem C70_exact (a : Arch) (p : Proc) (hp : p.midr < U32) (ds rest : Bytes)
    (hv : ds ++ rest ≠ b!"AArch64") (hd : ∀ c ∈ ds, IsDigit c)
    (hr : ∀ c, rest.head? = some c → ¬ IsDigit c) (hz : ds = [] ∨ decimal ds % U32 = 0) :
    ∃ x : Nat, parseArchitecture a (ds ++ rest) p = { p with midr := x } ∧
      Midr.of x = { Midr.of p.midr with
        architecture := documentedCode a p.architectureVersion (p.architectureFlags.testBit 0 = true)
          (p.architectureFlags.testBit 1 = true) (p.architectureFlags.testBit 2 = true) } := by
  have hcode : architectureCode a p.architectureVersion p.architectureFlags % 16 =
      documentedCode a p.architectureVersion (p.architectureFlags.testBit 0 = true)
        (p.architectureFlags.testBit 1 = true) (p.architectureFlags.testBit 2 = true) := by
    have hb : ∀ k : Nat, p.architectureFlags.testBit k = (p.architectureFlags % 8).testBit k ∨ 3 ≤ k := by
      intro k
      by_cases hk : k < 3
      · left
        rw [show (8 : Nat) = 2 ^ 3 from rfl, Nat.testBit_mod_two_pow]
        simp [hk]
      · right; omega
    have b0 := (hb 0).resolve_right (by omega)
    have b1 := (hb 1).resolve_right (by omega)
    have b2 := (hb 2).resolve_right (by omega)
    have m7 : p.architectureFlags &&& 7 = p.architectureFlags % 8 :=
      Nat.and_two_pow_sub_one_eq_mod p.architectureFlags 3
    have m3 : p.architectureFlags &&& 3 = p.architectureFlags % 8 % 4 := by
      rw [show (3 : Nat) = 2 ^ 2 - 1 from rfl, Nat.and_two_pow_sub_one_eq_mod]
      omega
    have hlt : p.architectureFlags % 8 < 8 := Nat.mod_lt _ (by decide)
    unfold architectureCode documentedCode
    simp only [b0, b1, b2, m7, m3]
    generalize p.architectureFlags % 8 = f at hlt
    cases a with
    | arm64 => rfl
    | arm =>
      by_cases h6 : p.architectureVersion = 6
      · simp [h6]
      · by_cases h5 : p.architectureVersion = 5
        · simp only [h5]
          revert f
          decide
        · simp [h6, h5]
  refine ⟨setArchitecture p.midr (architectureCode a p.architectureVersion p.architectureFlags), ?_, ?_⟩
  · unfold parseArchitecture
    rw [if_neg hv, architectureDigits_eq ds rest hd hr 0 (by decide)]
    dsimp only
    have hnum : rest.length = (ds ++ rest).length ∨ CpuList.decFrom 0 ds % U32 = 0 := by
      rcases hz with rfl | hz
      · left; rfl
      · right; rw [CpuList.decimal_eq] at hz; exact hz
    by_cases hl : rest.length = (ds ++ rest).length
    · rw [if_pos hl]
    · rw [if_neg hl, if_neg (fun hn => hn (hnum.resolve_left hl))]
  · rw [(C35_write p.midr _ hp).2.2.1, hcode]

/-- The value "0" rewrites the architecture field of an ARMv5 register to 15. -/
example : (parseArchitecture .arm b!"0" { Proc.zero with midr := 0x41069260 }).midr = 0x410F9260 := by
  decide

end Verif.Props
