import Verif.Proof.IsaRace

/-!
# The writes of each platform: what they add up to, and that they never clear a flag
-/

set_option autoImplicit false

namespace Verif.IsaRace
open ArmIsa ArmMidr ArmChipset

/-! ### Lists of conditional writes -/

section
variable {F : Type} [DecidableEq F]

theorem run_nil (m : F → Bool) (f : F) : run [] m f = m f := rfl

theorem run_cons (g f : F) (b : Bool) (ws : List (Write F)) (m : F → Bool) :
    run ((g, b) :: ws) m f = run ws (fun f => if f = g then b else m f) f := rfl

theorem run_setIf_ne (c : Bool) (g f : F) (m : F → Bool) (h : f ≠ g) :
    run (setIf c g) m f = m f := by
  rw [run_setIf, if_neg h]

theorem run_setIf_same (c : Bool) (g : F) (m : F → Bool) : run (setIf c g) m g = (c || m g) := by
  rw [run_setIf, if_pos rfl]

theorem grows_one (g : F) (b : Bool) (m : F → Bool) (h : m g = false) : Grows [(g, b)] m :=
  ⟨fun x => absurd x (by rw [h]; decide), True.intro⟩

end

/-! ### 64-bit ARM -/

theorem run_fp16Writes64 (features midr : Nat) (chipset : Chipset) (m : ArmFlag → Bool) (f : ArmFlag) :
    run (fp16Writes64 features midr chipset) m f =
      if f = .fp16arith then fp16arith64 features midr chipset || m f
      else if f = .rdm then rdm64 features midr chipset || m f else m f := by
  simp only [fp16Writes64, fp16arith64, rdm64]
  by_cases h1 : exynos9810 chipset = true
  · simp [h1, run]
  · rw [if_neg h1, if_neg h1, if_neg h1]
    by_cases h2 : midr &&& coreMask ∈ fp16Cores64
    · simp only [h2, run_cons, run_nil, if_true]
      cases f <;> simp
    · simp only [h2, if_false, run_append]
      cases f <;> simp [run_setIf]

theorem run_dotWrites64_ne (features midr : Nat) (m : ArmFlag → Bool) (f : ArmFlag) (hf : f ≠ .dot) :
    run (dotWrites64 features midr) m f = m f := by
  simp only [dotWrites64]
  by_cases h1 : midr &&& coreMask ∈ dotCores64
  · simp [h1, run_cons, run_nil, hf]
  · rw [if_neg h1]
    by_cases h2 : midr &&& coreMask = 0x4100D050
    · simp [h2, run_cons, run_nil, hf]
    · rw [if_neg h2]
      by_cases h3 : midr &&& coreMask = 0x4100D0A0
      · simp [h3, run_cons, run_nil, hf]
      · rw [if_neg h3, run_setIf, if_neg hf]

theorem run_dotWrites64 (features midr : Nat) (m : ArmFlag → Bool) (hm : m .dot = false) :
    run (dotWrites64 features midr) m .dot = dot64 features midr := by
  simp only [dotWrites64, dot64]
  by_cases h1 : midr &&& coreMask ∈ dotCores64
  · rw [if_pos h1, if_pos h1]; rfl
  · rw [if_neg h1, if_neg h1]
    by_cases h2 : midr &&& coreMask = 0x4100D050
    · rw [if_pos h2, if_pos h2]; rfl
    · rw [if_neg h2, if_neg h2]
      by_cases h3 : midr &&& coreMask = 0x4100D0A0
      · rw [if_pos h3, if_pos h3]; rfl
      · rw [if_neg h3, if_neg h3, run_setIf, if_pos rfl, hm, Bool.or_false]

theorem run_writes64 (features features2 midr : Nat) (chipset : Chipset) (ret : Int) (f : ArmFlag) :
    run (writes64 features features2 midr chipset) (fun _ => false) f =
      f.get (decode64 features features2 midr chipset ret) := by
  unfold writes64
  simp only [run_append]
  cases f <;>
    simp [run_setIf_ne, run_setIf_same, run_fp16Writes64, run_dotWrites64_ne, run_dotWrites64,
      ArmFlag.get, decode64]

theorem grows_fp16Writes64 (features midr : Nat) (chipset : Chipset) (m : ArmFlag → Bool) :
    Grows (fp16Writes64 features midr chipset) m := by
  simp only [fp16Writes64]
  by_cases h1 : exynos9810 chipset = true
  · simp [h1, Grows]
  · rw [if_neg h1]
    by_cases h2 : midr &&& coreMask ∈ fp16Cores64
    · rw [if_pos h2]; exact grows_true _ _ (by simp)
    · rw [if_neg h2, grows_append]
      exact ⟨grows_setIf _ _ _, grows_setIf _ _ _⟩

theorem grows_dotWrites64 (features midr : Nat) (m : ArmFlag → Bool) (hm : m .dot = false) :
    Grows (dotWrites64 features midr) m := by
  simp only [dotWrites64]
  by_cases h1 : midr &&& coreMask ∈ dotCores64
  · rw [if_pos h1]; exact grows_one _ _ _ hm
  · rw [if_neg h1]
    by_cases h2 : midr &&& coreMask = 0x4100D050
    · rw [if_pos h2]; exact grows_one _ _ _ hm
    · rw [if_neg h2]
      by_cases h3 : midr &&& coreMask = 0x4100D0A0
      · rw [if_pos h3]; exact grows_one _ _ _ hm
      · rw [if_neg h3]; exact grows_setIf _ _ _

attribute [local irreducible] Grows in
theorem grows_writes64 (features features2 midr : Nat) (chipset : Chipset) :
    Grows (writes64 features features2 midr chipset) (fun _ => false) := by
  unfold writes64
  simp only [grows_append, grows_setIf, grows_fp16Writes64, and_true, true_and]
  apply grows_dotWrites64
  simp [run_append, run_setIf_ne, run_fp16Writes64]

/-! ### 32-bit ARM -/

theorem run_dotWrites32_ne (midr : Nat) (chipset : Chipset) (m : ArmFlag → Bool) (f : ArmFlag)
    (hf : f ≠ .dot) : run (dotWrites32 midr chipset) m f = m f := by
  simp only [dotWrites32]
  by_cases h0 : dotFails chipset = true
  · rw [if_pos h0]; rfl
  · rw [if_neg h0]
    by_cases h1 : midr &&& coreMask ∈ dotCores32
    · simp [h1, run_cons, run_nil, hf]
    · rw [if_neg h1]
      by_cases h2 : midr &&& coreMask = 0x4100D050
      · simp [h2, run_cons, run_nil, hf]
      · rw [if_neg h2]
        by_cases h3 : midr &&& coreMask = 0x4100D0A0
        · simp [h3, run_cons, run_nil, hf]
        · rw [if_neg h3]; rfl

theorem run_dotWrites32 (midr : Nat) (chipset : Chipset) (m : ArmFlag → Bool) (hm : m .dot = false) :
    run (dotWrites32 midr chipset) m .dot = dot32 midr chipset := by
  simp only [dotWrites32, dot32]
  by_cases h0 : dotFails chipset = true
  · rw [if_pos h0, if_pos h0]; exact hm
  · rw [if_neg h0, if_neg h0]
    by_cases h1 : midr &&& coreMask ∈ dotCores32
    · rw [if_pos h1, if_pos h1]; rfl
    · rw [if_neg h1, if_neg h1]
      by_cases h2 : midr &&& coreMask = 0x4100D050
      · rw [if_pos h2, if_pos h2]; rfl
      · rw [if_neg h2, if_neg h2]
        by_cases h3 : midr &&& coreMask = 0x4100D0A0
        · rw [if_pos h3, if_pos h3]; rfl
        · rw [if_neg h3, if_neg h3]; exact hm

theorem run_fp16Writes32 (midr : Nat) (chipset : Chipset) (m : ArmFlag → Bool) (f : ArmFlag) :
    run (fp16Writes32 midr chipset) m f =
      if f = .fp16arith ∨ f = .rdm then fp16arith32 midr chipset || m f else m f := by
  simp only [fp16Writes32, fp16arith32]
  by_cases h1 : exynos9810 chipset = true
  · simp [h1, run]
  · rw [if_neg h1, if_neg h1]
    by_cases h2 : midr &&& coreMask ∈ fp16Cores32
    · simp only [h2, run_cons, run_nil, if_true]
      cases f <;> simp
    · simp [h2, run]

theorem run_armv8Writes (midr : Nat) (chipset : Chipset) (f : ArmFlag) :
    run (armv8Writes midr chipset) (fun _ => false) f = f.get (armv8Isa midr chipset) := by
  cases f <;>
    simp [armv8Writes, run_append, run_cons, run_nil, run_fp16Writes32, run_dotWrites32_ne,
      run_dotWrites32, ArmFlag.get, armv8Isa]

theorem run_armv7Writes_ne (features midr version : Nat) (m : ArmFlag → Bool) (f : ArmFlag)
    (h6 : f ≠ .armv6k) (h7 : f ≠ .armv7) (hf : f ≠ .armv7mp) :
    run (armv7Writes features midr version) m f = m f := by
  simp only [armv7Writes]
  by_cases h1 : version ≥ 7
  · rw [if_pos h1]
    by_cases h2 : midr &&& coreMask ∈ [0x4100C050, 0x4100C090, 0x510002D0, 0x510004D0, 0x510006F0]
    · rw [if_pos h2]; simp [run_cons, run_nil, h6, h7, hf]
    · rw [if_neg h2]; simp [run_cons, run_nil, h6, h7, hf]
  · rw [if_neg h1]; rfl

theorem run_armv7Writes_v7 (features midr version : Nat) (m : ArmFlag → Bool) (f : ArmFlag)
    (hf : f = .armv6k ∨ f = .armv7) :
    run (armv7Writes features midr version) m f = (decide (version ≥ 7) || m f) := by
  simp only [armv7Writes]
  by_cases h1 : version ≥ 7
  · rw [if_pos h1]
    by_cases h2 : midr &&& coreMask ∈ [0x4100C050, 0x4100C090, 0x510002D0, 0x510004D0, 0x510006F0]
    · rw [if_pos h2]; rcases hf with hf | hf <;> subst hf <;> simp [run_cons, run_nil, h1]
    · rw [if_neg h2]; rcases hf with hf | hf <;> subst hf <;> simp [run_cons, run_nil, h1]
  · rw [if_neg h1]; simp [run_nil, h1]

theorem run_armv7Writes_mp (features midr version : Nat) (m : ArmFlag → Bool)
    (hm : m .armv7mp = false) :
    run (armv7Writes features midr version) m .armv7mp = armv7mpOld features midr version := by
  simp only [armv7Writes, armv7mpOld]
  by_cases h1 : version ≥ 7
  · rw [if_pos h1, if_pos h1]
    by_cases h2 : midr &&& coreMask ∈ [0x4100C050, 0x4100C090, 0x510002D0, 0x510004D0, 0x510006F0]
    · rw [if_pos h2, if_pos h2]; simp [run_cons, run_nil]
    · rw [if_neg h2, if_neg h2]; simp [run_cons, run_nil]
  · rw [if_neg h1, if_neg h1]; exact hm

theorem run_wmmxWrites (t : Target32) (features : Nat) (m : ArmFlag → Bool) (f : ArmFlag) :
    run (wmmxWrites t features) m f =
      if f = .wmmx then wmmxOld t features 0x10 || m f
      else if f = .wmmx2 then wmmxOld t features 0x20 || m f else m f := by
  simp only [wmmxWrites, wmmxOld]
  by_cases h1 : on features 0x00000200 = true
  · by_cases h2 : t.armArch < 8
    · by_cases h3 : (t.wcid >>> 8) &&& 0xFF ≥ 0x10
      · simp only [h1, h2, h3, if_true, run_cons, run_setIf]
        cases f <;> simp
      · have h4 : ¬ (t.wcid >>> 8) &&& 0xFF ≥ 0x20 := by omega
        simp only [h1, h2, h3, h4, if_true, if_false, run_nil]
        cases f <;> simp
    · simp only [h1, h2, if_true, if_false, run_nil]
      cases f <;> simp
  · simp only [h1, run_nil]
    cases f <;> simp [run_nil]

theorem run_thumbWrites (features midr version archFlags : Nat) (m : ArmFlag → Bool) (f : ArmFlag) :
    run (thumbWrites features midr version archFlags) m f =
      if f = .thumb then thumbOld features archFlags || m f
      else if f = .thumb2 then
        (thumbOld features archFlags && (decide (version ≥ 7) || isArm1156 midr)) || m f
      else m f := by
  simp only [thumbWrites, thumbOld]
  by_cases h1 : (on features 0x00000004 || on archFlags 1) = true
  · simp only [h1, if_true, run_cons, run_setIf]
    cases f <;> simp
  · simp only [h1]
    cases f <;> simp [run_nil]

theorem run_vfpWrites (t : Target32) (features version : Nat) (m : ArmFlag → Bool) (f : ArmFlag) :
    run (vfpWrites t features version) m f =
      if f = .vfpv2 then (vfpOld t features version).1 || m f
      else if f = .vfpv3 then (vfpOld t features version).2.1 || m f
      else if f = .d32 then (vfpOld t features version).2.2 || m f else m f := by
  simp only [vfpWrites, vfpOld]
  by_cases h1 : on features (0x00000040 ||| vfpv3Mask) = true
  · by_cases h2 : version ≥ 7 ∨ on features vfpv3Mask = true
    · simp only [h1, h2, if_true, run_cons, run_setIf]
      cases f <;> simp
    · by_cases h3 : t.armArch ≥ 7
      · simp only [h1, h2, h3, if_true, if_false, run_cons, run_nil]
        cases f <;> simp
      · simp only [h1, h2, h3, if_true, if_false, run_setIf]
        cases f <;> simp
  · simp only [h1]
    cases f <;> simp [run_nil]

theorem run_oldWrites (t : Target32) (features midr version archFlags : Nat) (f : ArmFlag) :
    run (oldWrites t features midr version archFlags) (fun _ => false) f =
      f.get (oldIsa t features midr version archFlags) := by
  cases f <;>
    simp [oldWrites, run_append, run_setIf, run_vfpWrites, run_thumbWrites, run_wmmxWrites,
      run_armv7Writes_ne, run_armv7Writes_v7, run_armv7Writes_mp, ArmFlag.get, oldIsa]

theorem run_writes32 (t : Target32) (features features2 midr version archFlags : Nat)
    (chipset : Chipset) (f : ArmFlag) :
    run (writes32 t features features2 midr version archFlags chipset) (fun _ => false) f =
      f.get (decode32 t features features2 midr version archFlags chipset) := by
  simp only [writes32, decode32]
  generalize (if version < 8 ∧ on features2 (1 ||| 2 ||| 4 ||| 8 ||| 16) = true then 8 else version)
    = version
  by_cases h : version ≥ 8
  · rw [if_pos h, if_pos h]
    cases f <;> simp [run_append, run_setIf, run_armv8Writes, ArmFlag.get, armv8Isa]
  · rw [if_neg h, if_neg h]
    cases f <;> simp [run_append, run_setIf, run_oldWrites, ArmFlag.get, oldIsa]

theorem grows_dotWrites32 (midr : Nat) (chipset : Chipset) (m : ArmFlag → Bool)
    (hm : m .dot = false) : Grows (dotWrites32 midr chipset) m := by
  simp only [dotWrites32]
  by_cases h0 : dotFails chipset = true
  · rw [if_pos h0]; exact True.intro
  · rw [if_neg h0]
    by_cases h1 : midr &&& coreMask ∈ dotCores32
    · rw [if_pos h1]; exact grows_one _ _ _ hm
    · rw [if_neg h1]
      by_cases h2 : midr &&& coreMask = 0x4100D050
      · rw [if_pos h2]; exact grows_one _ _ _ hm
      · rw [if_neg h2]
        by_cases h3 : midr &&& coreMask = 0x4100D0A0
        · rw [if_pos h3]; exact grows_one _ _ _ hm
        · rw [if_neg h3]; exact True.intro

theorem grows_fp16Writes32 (midr : Nat) (chipset : Chipset) (m : ArmFlag → Bool) :
    Grows (fp16Writes32 midr chipset) m := by
  simp only [fp16Writes32]
  by_cases h1 : exynos9810 chipset = true
  · simp [h1, Grows]
  · rw [if_neg h1]
    by_cases h2 : midr &&& coreMask ∈ fp16Cores32
    · rw [if_pos h2]; exact grows_true _ _ (by simp)
    · rw [if_neg h2]; exact True.intro

theorem grows_armv8Writes (midr : Nat) (chipset : Chipset) :
    Grows (armv8Writes midr chipset) (fun _ => false) := by
  simp only [armv8Writes, grows_append, grows_fp16Writes32, and_true]
  refine ⟨grows_true _ _ (by simp), ?_⟩
  apply grows_dotWrites32
  simp [run_append, run_fp16Writes32, run_cons, run_nil]

theorem grows_armv7Writes (features midr version : Nat) (m : ArmFlag → Bool)
    (hm : m .armv7mp = false) : Grows (armv7Writes features midr version) m := by
  simp only [armv7Writes]
  by_cases h1 : version ≥ 7
  · rw [if_pos h1, grows_append]
    refine ⟨grows_true _ _ (by simp), ?_⟩
    have : run [(ArmFlag.armv6k, true), (ArmFlag.armv7, true)] m .armv7mp = false := by
      simp only [run_cons, run_nil]; simp [hm]
    by_cases h2 : midr &&& coreMask ∈ [0x4100C050, 0x4100C090, 0x510002D0, 0x510004D0, 0x510006F0]
    · rw [if_pos h2]; exact grows_one _ _ _ this
    · rw [if_neg h2]; exact grows_one _ _ _ this
  · rw [if_neg h1]; exact True.intro

theorem grows_wmmxWrites (t : Target32) (features : Nat) (m : ArmFlag → Bool) :
    Grows (wmmxWrites t features) m := by
  simp only [wmmxWrites]
  by_cases h1 : on features 0x00000200 = true
  · rw [if_pos h1]
    by_cases h2 : t.armArch < 8
    · rw [if_pos h2]
      by_cases h3 : (t.wcid >>> 8) &&& 0xFF ≥ 0x10
      · rw [if_pos h3]; exact ⟨fun _ => rfl, grows_setIf _ _ _⟩
      · rw [if_neg h3]; exact True.intro
    · rw [if_neg h2]; exact True.intro
  · rw [if_neg h1]; exact True.intro

theorem grows_thumbWrites (features midr version archFlags : Nat) (m : ArmFlag → Bool) :
    Grows (thumbWrites features midr version archFlags) m := by
  simp only [thumbWrites]
  by_cases h1 : (on features 0x00000004 || on archFlags 1) = true
  · rw [if_pos h1]; exact ⟨fun _ => rfl, grows_setIf _ _ _⟩
  · rw [if_neg h1]; exact True.intro

theorem grows_vfpWrites (t : Target32) (features version : Nat) (m : ArmFlag → Bool) :
    Grows (vfpWrites t features version) m := by
  simp only [vfpWrites]
  by_cases h1 : on features (0x00000040 ||| vfpv3Mask) = true
  · rw [if_pos h1]
    by_cases h2 : version ≥ 7 ∨ on features vfpv3Mask = true
    · rw [if_pos h2]; exact ⟨fun _ => rfl, grows_setIf _ _ _⟩
    · rw [if_neg h2]
      by_cases h3 : t.armArch ≥ 7
      · rw [if_pos h3]; exact ⟨fun _ => rfl, True.intro⟩
      · rw [if_neg h3]; exact grows_setIf _ _ _
  · rw [if_neg h1]; exact True.intro

theorem grows_oldWrites (t : Target32) (features midr version archFlags : Nat) :
    Grows (oldWrites t features midr version archFlags) (fun _ => false) := by
  simp only [oldWrites, grows_append, grows_setIf, grows_wmmxWrites, grows_thumbWrites,
    grows_vfpWrites, and_true, true_and]
  apply grows_armv7Writes
  simp [run_append, run_setIf]

theorem grows_writes32 (t : Target32) (features features2 midr version archFlags : Nat)
    (chipset : Chipset) :
    Grows (writes32 t features features2 midr version archFlags chipset) (fun _ => false) := by
  simp only [writes32, grows_append, grows_setIf, and_true]
  generalize (if version < 8 ∧ on features2 (1 ||| 2 ||| 4 ||| 8 ||| 16) = true then 8 else version)
    = version
  by_cases h : version ≥ 8
  · rw [if_pos h]; exact grows_armv8Writes midr chipset
  · rw [if_neg h]; exact grows_oldWrites t features midr _ archFlags

theorem armCond_holds (a : Arch) (i : Isa) (q : Query) :
    (armCond a q).holds (fun f => f.get i) = has a i q := by
  cases a
  · cases q <;> simp [armCond, cond32, has, has32, Cond.holds, ArmFlag.get, Bool.and_assoc]
  · cases q <;> simp [armCond, cond64, has, has64, Cond.holds, ArmFlag.get]

/-! ### Apple's systems and Windows -/

/-- One feature is written as it is set in the structure. -/
theorem run_machFeature (a : ArmMach.Answer) (fallback : Bool) (g : ArmFlag) (set : Isa → Isa)
    (hs : ∀ (i : Isa) (f : ArmFlag), f.get (set i) = if f = g then true else f.get i) (isa : Isa) :
    run (machFeature a fallback g) (fun f => f.get isa) =
      fun f => f.get (ArmMach.feature a fallback set isa) := by
  funext f
  simp only [machFeature, ArmMach.feature]
  by_cases h : a.get ≠ 0
  · rw [if_pos h, if_pos h, hs]; rfl
  · rw [if_neg h, if_neg h]
    cases fallback
    · rfl
    · rw [if_pos rfl, if_pos rfl, hs]; rfl

theorem grows_machFeature (a : ArmMach.Answer) (fallback : Bool) (g : ArmFlag) (m : ArmFlag → Bool) :
    Grows (machFeature a fallback g) m := by
  simp only [machFeature]
  by_cases h : a.get ≠ 0
  · rw [if_pos h]; exact ⟨fun _ => rfl, True.intro⟩
  · rw [if_neg h]
    cases fallback
    · exact True.intro
    · exact ⟨fun _ => rfl, True.intro⟩

theorem run_machWrites (family : Nat) (x : ArmMach.Features) :
    run (machWrites family x) (fun f => f.get ArmMach.isaInitial) =
      fun f => f.get (ArmMach.isaOf family x) := by
  simp only [machWrites, run_append]
  rw [run_machFeature x.lse _ .atomics (fun i => { i with atomics := true })
      (by intro i f; cases f <;> rfl),
    run_machFeature x.rdm _ .rdm (fun i => { i with rdm := true }) (by intro i f; cases f <;> rfl),
    run_machFeature x.fp16 _ .fp16arith (fun i => { i with fp16arith := true })
      (by intro i f; cases f <;> rfl),
    run_machFeature x.fhm _ .fhm (fun i => { i with fhm := true }) (by intro i f; cases f <;> rfl),
    run_machFeature x.bf16 _ .bf16 (fun i => { i with bf16 := true }) (by intro i f; cases f <;> rfl),
    run_machFeature x.fcma _ .fcma (fun i => { i with fcma := true }) (by intro i f; cases f <;> rfl),
    run_machFeature x.jscvt _ .jscvt (fun i => { i with jscvt := true })
      (by intro i f; cases f <;> rfl),
    run_machFeature x.dotProd _ .dot (fun i => { i with dot := true }) (by intro i f; cases f <;> rfl),
    run_machFeature x.i8mm _ .i8mm (fun i => { i with i8mm := true }) (by intro i f; cases f <;> rfl),
    run_machFeature x.sme _ .sme (fun i => { i with sme := true }) (by intro i f; cases f <;> rfl),
    run_machFeature x.sme2 _ .sme2 (fun i => { i with sme2 := true }) (by intro i f; cases f <;> rfl)]
  rfl

theorem grows_machWrites (family : Nat) (x : ArmMach.Features) (m : ArmFlag → Bool) :
    Grows (machWrites family x) m := by
  simp only [machWrites, grows_append, grows_machFeature, and_true]

theorem run_winWrites (x : ArmWin.Features) (f : ArmFlag) :
    run (winWrites x) (fun _ => false) f = f.get (ArmWin.isaOf x) := by
  simp only [winWrites, run_cons, run_nil, ArmWin.isaOf]
  cases f <;> simp [ArmFlag.get]

theorem grows_winWrites (x : ArmWin.Features) : Grows (winWrites x) (fun _ => false) := by
  simp [winWrites, Grows, write]

/-! ### RISC-V -/

/-- One extension is written as it is set in the structure. -/
theorem run_extension (c : Bool) (g : RiscvFlag) (set : Riscv.Isa → Riscv.Isa)
    (hs : ∀ (i : Riscv.Isa) (x : RiscvFlag), x.get (set i) = if x = g then true else x.get i)
    (isa : Riscv.Isa) : run (setIf c g) (fun x => x.get isa) =
      fun x => x.get (if c = true then set isa else isa) := by
  funext x
  cases c
  · rfl
  · rw [if_pos rfl, hs]; rfl

theorem run_riscvWrites (hwcap : Nat) (isa : Riscv.Isa) :
    run (riscvWrites hwcap) (fun x => x.get isa) = fun x => x.get (Riscv.decodeIsa hwcap isa) := by
  simp only [riscvWrites, run_append]
  rw [run_extension _ .i (fun i => { i with i := true }) (by intro i x; cases x <;> rfl),
    run_extension _ .m (fun i => { i with m := true }) (by intro i x; cases x <;> rfl),
    run_extension _ .a (fun i => { i with a := true }) (by intro i x; cases x <;> rfl),
    run_extension _ .f (fun i => { i with f := true }) (by intro i x; cases x <;> rfl),
    run_extension _ .d (fun i => { i with d := true }) (by intro i x; cases x <;> rfl),
    run_extension _ .c (fun i => { i with c := true }) (by intro i x; cases x <;> rfl),
    run_extension _ .v (fun i => { i with v := true }) (by intro i x; cases x <;> rfl)]
  rfl

theorem grows_riscvWrites (hwcap : Nat) (m : RiscvFlag → Bool) : Grows (riscvWrites hwcap) m := by
  simp only [riscvWrites, grows_append, grows_setIf, and_true]

theorem riscvCond_holds (x : Riscv.Isa) (q : RiscvQuery) :
    (riscvCond q).holds (fun y => y.get x) = riscvHas x q := by
  cases q <;> simp [riscvCond, riscvHas, Cond.holds, RiscvFlag.get, Riscv.hasI, Riscv.hasE, Riscv.hasM,
    Riscv.hasA, Riscv.hasF, Riscv.hasD, Riscv.hasG, Riscv.hasC, Riscv.hasV, Bool.and_assoc]

/-! ### x86 -/

section
variable {F : Type} [DecidableEq F]

theorem copy_grows (isa : F → Bool) : ∀ (ws : List (Write F)) (m : F → Bool),
    (∀ w : Write F, w ∈ ws → w.2 = isa w.1) → (∀ f : F, m f = true → isa f = true) → Grows ws m
  | [], _, _, _ => True.intro
  | w :: ws, m, h, hm => by
    have hw := h w (by simp)
    refine ⟨fun x => by rw [hw]; exact hm _ x, copy_grows isa ws _ (fun v hv => h v (by simp [hv])) ?_⟩
    intro f hf
    simp only [write] at hf
    by_cases e : f = w.1
    · rw [if_pos e, hw, ← e] at hf; exact hf
    · rw [if_neg e] at hf; exact hm f hf

theorem copy_run (isa : F → Bool) : ∀ (ws : List (Write F)) (m : F → Bool) (f : F),
    (∀ w : Write F, w ∈ ws → w.2 = isa w.1) → (m f = isa f ∨ ∃ b : Bool, (f, b) ∈ ws) →
    run ws m f = isa f
  | [], m, f, _, h => by
    rcases h with h | ⟨b, hb⟩
    · exact h
    · cases hb
  | w :: ws, m, f, h, hf => by
    show run ws (write w m) f = isa f
    refine copy_run isa ws _ f (fun v hv => h v (by simp [hv])) ?_
    by_cases e : f = w.1
    · left
      simp only [write]
      rw [if_pos e, h w (by simp), e]
    · rcases hf with hf | ⟨b, hb⟩
      · left
        simp only [write]
        rw [if_neg e]
        exact hf
      · rcases List.mem_cons.mp hb with hb | hb
        · exact absurd (by rw [← hb]) e
        · exact .inr ⟨b, hb⟩

end

theorem x86Cond_holds (t : X86Cpuid.Target) (isa : X86Cpuid.Feature → Bool) (f : X86Cpuid.Feature)
    (b : Bool) (h : X86Cpuid.hasX86 t isa f = some b) : (x86Cond t f).holds isa = b := by
  obtain ⟨x, y⟩ := t
  revert h
  cases x <;> cases y <;> cases f <;> simp [X86Cpuid.hasX86, x86Cond, Cond.holds]

end Verif.IsaRace
