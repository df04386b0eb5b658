import Verif.Props.ArmIsa

/-!
# C108: exactly when the order of the processors matters
-/

set_option autoImplicit false

namespace Verif.Props
open Spec ArmMidr ArmCpuinfo ArmClusters ArmInit ArmChipset ArmIsa

/-- **C108 (exact).** On a 64-bit machine the answer to a query is right for every completely described
processor exactly if the answers for all of them are the same; if they differ, the answer is that for
the last one. -/
theorem C108_exact (e : Env) (s : Source) (hs : Answers e.config.arch s)
    (ha : e.config.arch = .arm64) (i : Isa) (h : linuxIsa e s = some (some i)) (b : Basis)
    (hb : DecidesFrom e s b) (t : List Proc) (hw rev : Bytes) (hr : Reads e t hw rev)
    (hsome : ∃ p ∈ t, Usable p ∧ Complete p) (q : Query) :
    ((∀ p ∈ t, Usable p → Complete p → (has .arm64 i q = true ↔ Has64 { b with midr := p.midr } q)) ↔
      ∀ p ∈ t, ∀ p' ∈ t, Usable p → Complete p → Usable p' → Complete p' →
        (Has64 { b with midr := p.midr } q ↔ Has64 { b with midr := p'.midr } q)) ∧
    ∃ (j : Nat) (p : Proc), t[j]? = some p ∧ Usable p ∧ Complete p ∧
      (∀ (k : Nat) (p' : Proc), j < k → t[k]? = some p' → ¬ (Usable p' ∧ Complete p')) ∧
      (has .arm64 i q = true ↔ Has64 { b with midr := p.midr } q) := by
  have hans := C55_answers e s hs ha i h b hb q
  obtain ⟨t', hw', rev', hr', hm, -⟩ := hb
  have ht : t' = t := by
    have : gather e = _ := hr'
    rw [show gather e = _ from hr] at this
    cases this; rfl
  subst ht
  rcases hm with ⟨j, pl, hj, hu, hc, hm, hlast⟩ | ⟨-, hno⟩
  · have hpl : has .arm64 i q = true ↔ Has64 { b with midr := pl.midr } q := by
      rw [hans, hm]
    refine ⟨⟨fun h p hp p' hp' u1 c1 u2 c2 => (h p hp u1 c1).symm.trans (h p' hp' u2 c2),
      fun h p hp u1 c1 => hpl.trans (h pl (List.mem_of_getElem? hj) p hp hu hc u1 c1)⟩,
      j, pl, hj, hu, hc, hlast, hpl⟩
  · obtain ⟨p, hp, hup⟩ := hsome
    exact absurd hup (hno p hp)

/-- **C108 (exact).** Only half precision arithmetic, rounding multiplication and dot products depend on
the core: every other answer is right for all processors, whatever their cores are. -/
theorem C108_kernel_decides (e : Env) (s : Source) (hs : Answers e.config.arch s)
    (ha : e.config.arch = .arm64) (i : Isa) (h : linuxIsa e s = some (some i)) (b : Basis)
    (hb : DecidesFrom e s b) (q : Query)
    (hq : q ∉ [Query.fp16Arith, .neonFp16Arith, .neonRdm, .neonDot]) (midr : Nat) :
    has .arm64 i q = true ↔ Has64 { b with midr := midr } q := by
  rw [C55_answers e s hs ha i h b hb q]
  cases q <;> first | exact Iff.rfl | exact absurd (by simp) hq

/-- **C108 is violated** by every machine with a Cortex-A53 whose last identified processor is a
Cortex-A76, other than Exynos 9810, if the kernel reports neither half precision nor dot products: all
four are reported though the Cortex-A53 has none of them. -/
theorem C108_violated_mixed (e : Env) (s : Source) (hs : Answers e.config.arch s)
    (ha : e.config.arch = .arm64) (i : Isa) (h : linuxIsa e s = some (some i)) (b : Basis)
    (hb : DecidesFrom e s b) (hx : ¬ IsExynos9810 b.chipset) (h9 : b.hwcap.testBit 9 = false)
    (h12 : b.hwcap.testBit 12 = false) (h20 : b.hwcap.testBit 20 = false)
    (hbig : coreOf b.midr = (0x41, 0xD0B)) (little : Nat) (hlittle : coreOf little = (0x41, 0xD03)) :
    ∀ q ∈ [Query.fp16Arith, .neonFp16Arith, .neonRdm, .neonDot],
      has .arm64 i q = true ∧ ¬ Has64 { b with midr := little } q := by
  have a1 : ((0x41, 0xD0B) : Nat × Nat) ∈ fp16Known64 := by decide
  have a2 : ((0x41, 0xD0B) : Nat × Nat) ∈ dotKnown64 := by decide
  have b1 : ((0x41, 0xD03) : Nat × Nat) ∉ fp16Known64 := by decide
  have b2 : ((0x41, 0xD03) : Nat × Nat) ∉ dotKnown64 := by decide
  intro q hq
  rw [C55_answers e s hs ha i h b hb q]
  simp only [List.mem_cons, List.not_mem_nil, or_false] at hq
  rcases hq with rfl | rfl | rfl | rfl <;> simp [Has64, hbig, hlittle, hx, h9, h12, h20, a1, a2, b1, b2]

/-- Non-vacuity: MIDR values of the two cores; for a machine that is decided so see `C108_violated`. -/
example : coreOf 0x413FD0B1 = (0x41, 0xD0B) ∧ coreOf 0x410FD034 = (0x41, 0xD03) := by decide

end Verif.Props
