import Verif.Model.ArmMach
import Verif.Model.ArmWin
import Verif.Model.Riscv
import Verif.Model.X86Isa

/-!
# The feature queries while initialization is running

Unlike the queries of src/api.c, the functions `cpuinfo_has_*` of include/cpuinfo.h do not test
`cpuinfo_is_initialized`: they read the fields of `cpuinfo_isa` at any time, also while another thread
is inside `cpuinfo_initialize` and writes these fields one after the other.  This file has the writes
to the fields in program order, the reads of the queries in program order, and the executions of any
number of threads.  One step is one call, one return, one write or one read; memory is sequentially
consistent.  The contract of `pthread_once` and `InitOnceExecuteOnce` is part of the model, as in
`Verif/Model/Once.lean`.

Simplification: `svelen`, the only field that is not a flag, is left out.
-/

set_option autoImplicit false

namespace Verif.IsaRace

/-! ### Writes -/

/-- A write of a value to a flag. -/
abbrev Write (F : Type) : Type := F × Bool

/-- The flags after a write. -/
def write {F : Type} [DecidableEq F] (w : Write F) (m : F → Bool) : F → Bool :=
  fun f => if f = w.1 then w.2 else m f

/-- The flags after writes in program order. -/
def run {F : Type} [DecidableEq F] : List (Write F) → (F → Bool) → F → Bool
  | [], m => m
  | w :: ws, m => run ws (write w m)

/-- `if (condition) isa->flag = true;`. -/
def setIf {F : Type} (condition : Bool) (f : F) : List (Write F) :=
  if condition then [(f, true)] else []

/-! ### Queries -/

/-- What a query returns: a constant or a conjunction of flags, read from the left until one is
false. -/
inductive Cond (F : Type) where
  | const (b : Bool)
  | all (fs : List F)
deriving DecidableEq, Repr

/-- The answer of a query that is not interrupted. -/
def Cond.holds {F : Type} (m : F → Bool) : Cond F → Bool
  | .const b => b
  | .all fs => fs.all m

/-! ### Executions -/

/-- The state of `init_guard`, src/init.c:15-21. -/
inductive Guard where
  | fresh | running | done
deriving DecidableEq, Repr

/-- Where a thread is. -/
inductive Pc (F Q : Type) where
  | idle
  /-- inside `cpuinfo_initialize`, before the guard lets it through -/
  | waiting
  /-- inside the routine, with these writes still to do -/
  | running (rest : List (Write F))
  /-- the guard has let it through -/
  | leaving
  /-- inside a query.  `late`: when the query was called, a call of `cpuinfo_initialize` had returned.
  `confirmed`: when the query was called, a call of the same query had returned true.  `rest` is what
  remains to be read. -/
  | asking (q : Q) (late confirmed : Bool) (rest : Cond F)

/-- What is recorded of a query that has returned. -/
structure Answer (Q : Type) where
  query : Q
  late : Bool
  confirmed : Bool
  result : Bool
deriving DecidableEq, Repr

/-- The state of the process.  `returned` (a call of `cpuinfo_initialize` has returned) and `answers`
are records that the program does not read. -/
structure World (F Q : Type) where
  guard : Guard
  mem : F → Bool
  pc : Nat → Pc F Q
  returned : Bool
  answers : List (Answer Q)

/-- The start of the process, with the static initial values of the flags. -/
def World.initial {F Q : Type} (m : F → Bool) : World F Q := ⟨.fresh, m, fun _ => .idle, false, []⟩

/-- Move thread `t`. -/
def World.goto {F Q : Type} (w : World F Q) (t : Nat) (p : Pc F Q) : World F Q :=
  { w with pc := fun t' => if t' = t then p else w.pc t' }

/-- Has some call of this query returned true? -/
def World.confirmed {F Q : Type} [DecidableEq Q] (w : World F Q) (q : Q) : Bool :=
  w.answers.any fun a => a.query == q && a.result

/-- One step: `cond` is the code of the queries, `ws` are the writes of the initialization routine. -/
inductive Step {F Q : Type} [DecidableEq F] [DecidableEq Q] (cond : Q → Cond F)
    (ws : List (Write F)) : World F Q → World F Q → Prop where
  /-- a thread calls `cpuinfo_initialize`, src/init.c:23 -/
  | call (w : World F Q) (t : Nat) : w.pc t = .idle → Step cond ws w (w.goto t .waiting)
  /-- the first thread to reach the guard starts the routine -/
  | start (w : World F Q) (t : Nat) : w.pc t = .waiting → w.guard = .fresh →
      Step cond ws w { w.goto t (.running ws) with guard := .running }
  /-- one write of the routine -/
  | store (w : World F Q) (t : Nat) (s : Write F) (rest : List (Write F)) :
      w.pc t = .running (s :: rest) →
      Step cond ws w { w.goto t (.running rest) with mem := write s w.mem }
  /-- the routine returns -/
  | finish (w : World F Q) (t : Nat) : w.pc t = .running [] →
      Step cond ws w { w.goto t .leaving with guard := .done }
  /-- the guard lets a thread through once the routine has finished -/
  | pass (w : World F Q) (t : Nat) : w.pc t = .waiting → w.guard = .done →
      Step cond ws w (w.goto t .leaving)
  /-- `cpuinfo_initialize` returns, src/init.c:64 -/
  | back (w : World F Q) (t : Nat) : w.pc t = .leaving →
      Step cond ws w { w.goto t .idle with returned := true }
  /-- a thread calls a query -/
  | ask (w : World F Q) (t : Nat) (q : Q) : w.pc t = .idle →
      Step cond ws w (w.goto t (.asking q w.returned (w.confirmed q) (cond q)))
  /-- a query reads a flag -/
  | read (w : World F Q) (t : Nat) (q : Q) (late confirmed : Bool) (f : F) (fs : List F) :
      w.pc t = .asking q late confirmed (.all (f :: fs)) →
      Step cond ws w
        (w.goto t (.asking q late confirmed (if w.mem f then .all fs else .const false)))
  /-- a query returns a constant -/
  | constant (w : World F Q) (t : Nat) (q : Q) (late confirmed b : Bool) :
      w.pc t = .asking q late confirmed (.const b) →
      Step cond ws w
        { w.goto t .idle with answers := ⟨q, late, confirmed, b⟩ :: w.answers }
  /-- a query returns true after it has read its last flag -/
  | last (w : World F Q) (t : Nat) (q : Q) (late confirmed : Bool) :
      w.pc t = .asking q late confirmed (.all []) →
      Step cond ws w
        { w.goto t .idle with answers := ⟨q, late, confirmed, true⟩ :: w.answers }

/-- The states a process can get into. -/
inductive Steps {F Q : Type} [DecidableEq F] [DecidableEq Q] (cond : Q → Cond F)
    (ws : List (Write F)) : World F Q → World F Q → Prop where
  | refl (w : World F Q) : Steps cond ws w w
  | tail (u v w : World F Q) : Steps cond ws u v → Step cond ws v w → Steps cond ws u w

/-! ### ARM -/

/-- The flags of `struct cpuinfo_arm_isa`, include/cpuinfo.h:1657-1717. -/
inductive ArmFlag where
  | thumb | thumb2 | thumbee | jazelle | armv5e | armv6 | armv6k | armv7 | armv7mp | armv8 | idiv
  | vfpv2 | vfpv3 | d32 | fp16 | fma | wmmx | wmmx2 | neon | atomics | bf16 | sve | sve2 | i8mm
  | sme | sme2 | sme2p1 | smeI16I32 | smeBi32I32 | smeB16B16 | smeF16F16 | rdm | fp16arith | dot
  | jscvt | fcma | fhm | aes | sha1 | sha2 | pmull | crc32
deriving DecidableEq, Repr

/-- The flag in the structure. -/
def ArmFlag.get (i : ArmIsa.Isa) : ArmFlag → Bool
  | thumb => i.thumb | thumb2 => i.thumb2 | thumbee => i.thumbee | jazelle => i.jazelle
  | armv5e => i.armv5e | armv6 => i.armv6 | armv6k => i.armv6k | armv7 => i.armv7
  | armv7mp => i.armv7mp | armv8 => i.armv8 | idiv => i.idiv | vfpv2 => i.vfpv2
  | vfpv3 => i.vfpv3 | d32 => i.d32 | fp16 => i.fp16 | fma => i.fma | wmmx => i.wmmx
  | wmmx2 => i.wmmx2 | neon => i.neon | atomics => i.atomics | bf16 => i.bf16 | sve => i.sve
  | sve2 => i.sve2 | i8mm => i.i8mm | sme => i.sme | sme2 => i.sme2 | sme2p1 => i.sme2p1
  | smeI16I32 => i.smeI16I32 | smeBi32I32 => i.smeBi32I32 | smeB16B16 => i.smeB16B16
  | smeF16F16 => i.smeF16F16 | rdm => i.rdm | fp16arith => i.fp16arith | dot => i.dot
  | jscvt => i.jscvt | fcma => i.fcma | fhm => i.fhm | aes => i.aes | sha1 => i.sha1
  | sha2 => i.sha2 | pmull => i.pmull | crc32 => i.crc32

/-- The queries of 64-bit builds, include/cpuinfo.h:1722-2134. -/
def cond64 : ArmIsa.Query → Cond ArmFlag
  | .thumb | .thumb2 | .v5e | .v6 | .v6k | .v7 | .v7mp | .vfpv2 | .wmmx | .wmmx2 => .const false
  | .v8 | .idiv | .vfpv3 | .vfpv3D32 | .vfpv3Fp16 | .vfpv3Fp16D32 | .vfpv4 | .vfpv4D32 | .neon
  | .neonFp16 | .neonFma | .neonV8 => .const true
  | .fp16Arith => .all [.fp16arith]
  | .bf16 => .all [.bf16]
  | .atomics => .all [.atomics]
  | .neonRdm => .all [.rdm]
  | .neonFp16Arith => .all [.fp16arith]
  | .fhm => .all [.fhm]
  | .neonDot => .all [.dot]
  | .neonBf16 => .all [.bf16]
  | .jscvt => .all [.jscvt]
  | .fcma => .all [.fcma]
  | .i8mm => .all [.i8mm]
  | .aes => .all [.aes]
  | .sha1 => .all [.sha1]
  | .sha2 => .all [.sha2]
  | .pmull => .all [.pmull]
  | .crc32 => .all [.crc32]
  | .sve => .all [.sve]
  | .sveBf16 => .all [.sve, .bf16]
  | .sve2 => .all [.sve2]
  | .sme => .all [.sme]
  | .sme2 => .all [.sme2]
  | .sme2p1 => .all [.sme2p1]
  | .smeI16I32 => .all [.smeI16I32]
  | .smeBi32I32 => .all [.smeBi32I32]
  | .smeB16B16 => .all [.smeB16B16]
  | .smeF16F16 => .all [.smeF16F16]

/-- The queries of 32-bit builds, include/cpuinfo.h:1722-2134. -/
def cond32 : ArmIsa.Query → Cond ArmFlag
  | .thumb => .all [.thumb]
  | .thumb2 => .all [.thumb2]
  | .v5e => .all [.armv5e]
  | .v6 => .all [.armv6]
  | .v6k => .all [.armv6k]
  | .v7 => .all [.armv7]
  | .v7mp => .all [.armv7mp]
  | .v8 => .all [.armv8]
  | .idiv => .all [.idiv]
  | .vfpv2 => .all [.vfpv2]
  | .vfpv3 => .all [.vfpv3]
  | .vfpv3D32 => .all [.vfpv3, .d32]
  | .vfpv3Fp16 => .all [.vfpv3, .fp16]
  | .vfpv3Fp16D32 => .all [.vfpv3, .fp16, .d32]
  | .vfpv4 => .all [.vfpv3, .fma]
  | .vfpv4D32 => .all [.vfpv3, .fma, .d32]
  | .fp16Arith => .all [.fp16arith]
  | .wmmx => .all [.wmmx]
  | .wmmx2 => .all [.wmmx2]
  | .neon => .all [.neon]
  | .neonFp16 => .all [.neon, .fp16]
  | .neonFma => .all [.neon, .fma]
  | .neonV8 => .all [.neon, .armv8]
  | .neonRdm => .all [.rdm]
  | .neonFp16Arith => .all [.neon, .fp16arith]
  | .fhm => .all [.fhm]
  | .neonDot => .all [.dot]
  | .jscvt => .all [.jscvt]
  | .fcma => .all [.fcma]
  | .aes => .all [.aes]
  | .sha1 => .all [.sha1]
  | .sha2 => .all [.sha2]
  | .pmull => .all [.pmull]
  | .crc32 => .all [.crc32]
  | .bf16 | .atomics | .neonBf16 | .i8mm | .sve | .sveBf16 | .sve2 | .sme | .sme2 | .sme2p1
  | .smeI16I32 | .smeBi32I32 | .smeB16B16 | .smeF16F16 => .const false

/-- The queries of a build. -/
def armCond : ArmMidr.Arch → ArmIsa.Query → Cond ArmFlag
  | .arm => cond32
  | .arm64 => cond64

section
open ArmIsa ArmMidr ArmChipset ArmCpuinfo

/-- FP16 arithmetics and RDM, src/arm/linux/aarch64-isa.c:50-93. -/
def fp16Writes64 (features midr : Nat) (chipset : Chipset) : List (Write ArmFlag) :=
  if exynos9810 chipset then []
  else if midr &&& coreMask ∈ fp16Cores64 then [(.fp16arith, true), (.rdm, true)]
  else setIf (features &&& 0x00000600 == 0x00000600) .fp16arith ++ setIf (on features 0x00001000) .rdm

/-- Dot products, src/arm/linux/aarch64-isa.c:103-131. -/
def dotWrites64 (features midr : Nat) : List (Write ArmFlag) :=
  if midr &&& coreMask ∈ dotCores64 then [(.dot, true)]
  else if midr &&& coreMask = 0x4100D050 then [(.dot, getVariant midr ≥ 1)]
  else if midr &&& coreMask = 0x4100D0A0 then [(.dot, getVariant midr ≥ 2)]
  else setIf (on features 0x00100000) .dot

/-- The writes of `cpuinfo_arm64_linux_decode_isa_from_proc_cpuinfo`,
src/arm/linux/aarch64-isa.c:14-176. -/
def writes64 (features features2 midr : Nat) (chipset : Chipset) : List (Write ArmFlag) :=
  setIf (on features 0x00000008) .aes ++
  setIf (on features 0x00000010) .pmull ++
  setIf (on features 0x00000020) .sha1 ++
  setIf (on features 0x00000040) .sha2 ++
  setIf (on features 0x00000080) .crc32 ++
  setIf (on features 0x00000100) .atomics ++
  fp16Writes64 features midr chipset ++
  setIf (on features2 0x00002000) .i8mm ++
  dotWrites64 features midr ++
  setIf (on features 0x00002000) .jscvt ++
  setIf (on features 0x00002000) .jscvt ++
  setIf (on features 0x00004000) .fcma ++
  setIf (on features 0x00400000) .sve ++
  setIf (on features2 0x00000002) .sve2 ++
  setIf (on features2 0x00800000) .sme ++
  setIf (on features2 0x0000002000000000) .sme2 ++
  setIf (on features2 0x0000004000000000) .sme2p1 ++
  setIf (on features2 0x0000008000000000) .smeI16I32 ++
  setIf (on features2 0x0000010000000000) .smeBi32I32 ++
  setIf (on features2 0x0000020000000000) .smeB16B16 ++
  setIf (on features2 0x0000040000000000) .smeF16F16 ++
  setIf (on features2 (0x00004000 ||| 0x00001000)) .bf16 ++
  setIf (on features 0x00800000) .fhm

/-- Dot products, src/arm/linux/aarch32-isa.c:146-190. -/
def dotWrites32 (midr : Nat) (chipset : Chipset) : List (Write ArmFlag) :=
  if dotFails chipset then []
  else if midr &&& coreMask ∈ dotCores32 then [(.dot, true)]
  else if midr &&& coreMask = 0x4100D050 then [(.dot, getVariant midr ≥ 1)]
  else if midr &&& coreMask = 0x4100D0A0 then [(.dot, getVariant midr ≥ 2)]
  else []

/-- FP16 arithmetics and RDM, src/arm/linux/aarch32-isa.c:85-124. -/
def fp16Writes32 (midr : Nat) (chipset : Chipset) : List (Write ArmFlag) :=
  if exynos9810 chipset then []
  else if midr &&& coreMask ∈ fp16Cores32 then [(.fp16arith, true), (.rdm, true)]
  else []

/-- ARMv8, src/arm/linux/aarch32-isa.c:42-190. -/
def armv8Writes (midr : Nat) (chipset : Chipset) : List (Write ArmFlag) :=
  [(.armv5e, true), (.armv6, true), (.armv6k, true), (.armv7, true), (.armv7mp, true),
   (.armv8, true), (.thumb, true), (.thumb2, true), (.idiv, true), (.vfpv3, true), (.d32, true),
   (.fp16, true), (.fma, true), (.neon, true)] ++
  fp16Writes32 midr chipset ++ dotWrites32 midr chipset

/-- ARMv7, src/arm/linux/aarch32-isa.c:219-255. -/
def armv7Writes (features midr version : Nat) : List (Write ArmFlag) :=
  if version ≥ 7 then
    [(.armv6k, true), (.armv7, true)] ++
    (if midr &&& coreMask ∈ [0x4100C050, 0x4100C090, 0x510002D0, 0x510004D0, 0x510006F0] then
      [(.armv7mp, true)]
    else [(.armv7mp, hasIdiv features)])
  else []

/-- WMMX, src/arm/linux/aarch32-isa.c:257-279. -/
def wmmxWrites (t : Target32) (features : Nat) : List (Write ArmFlag) :=
  if on features 0x00000200 then
    if t.armArch < 8 then
      if (t.wcid >>> 8) &&& 0xFF ≥ 0x10 then
        (.wmmx, true) :: setIf ((t.wcid >>> 8) &&& 0xFF ≥ 0x20) .wmmx2
      else []
    else []
  else []

/-- Thumb, src/arm/linux/aarch32-isa.c:281-291. -/
def thumbWrites (features midr version archFlags : Nat) : List (Write ArmFlag) :=
  if on features 0x00000004 || on archFlags 1 then
    (.thumb, true) :: setIf (decide (version ≥ 7) || isArm1156 midr) .thumb2
  else []

/-- The floating point units, src/arm/linux/aarch32-isa.c:306-336. -/
def vfpWrites (t : Target32) (features version : Nat) : List (Write ArmFlag) :=
  if on features (0x00000040 ||| vfpv3Mask) then
    if version ≥ 7 ∨ on features vfpv3Mask then
      (.vfpv3, true) :: setIf (on features (0x00080000 ||| 0x00001000)) .d32
    else if t.armArch ≥ 7 then [(.vfpv3, true)]
    else setIf ((t.fpsid >>> 16) &&& 0x7F ≥ 0x01) .vfpv2
  else []

/-- ARMv7 and lower, src/arm/linux/aarch32-isa.c:191-353, for the version of `oldVersion`. -/
def oldWrites (t : Target32) (features midr version archFlags : Nat) : List (Write ArmFlag) :=
  setIf (decide (version ≥ 6) || on features 0x00000080 || on archFlags 2) .armv5e ++
  setIf (version ≥ 6) .armv6 ++
  armv7Writes features midr version ++
  wmmxWrites t features ++
  thumbWrites features midr version archFlags ++
  setIf (on features 0x00000800) .thumbee ++
  setIf (on features 0x00000100 || on archFlags 4) .jazelle ++
  setIf (hasIdiv features || isKrait midr) .idiv ++
  vfpWrites t features version ++
  setIf (on features 0x00001000) .neon ++
  setIf (on features 0x00010000 || isCortexA9 midr || isScorpion midr) .fp16 ++
  setIf (on features 0x00010000) .fma

/-- The writes of `cpuinfo_arm_linux_decode_isa_from_proc_cpuinfo`,
src/arm/linux/aarch32-isa.c:33-370. -/
def writes32 (t : Target32) (features features2 midr version archFlags : Nat) (chipset : Chipset) :
    List (Write ArmFlag) :=
  let version := if version < 8 ∧ on features2 (1 ||| 2 ||| 4 ||| 8 ||| 16) then 8 else version
  (if version ≥ 8 then armv8Writes midr chipset
    else oldWrites t features midr (oldVersion features midr version) archFlags) ++
  setIf (on features2 1) .aes ++
  setIf (on features2 2) .pmull ++
  setIf (on features2 4) .sha1 ++
  setIf (on features2 8) .sha2 ++
  setIf (on features2 16) .crc32

/-- The writes of src/arm/linux/init.c:246-308, from the gathered table and the chipset. -/
def linuxWrites (a : Arch) (s : Source) (t : List Proc) (chipset : Chipset) :
    Option (List (Write ArmFlag)) :=
  match a with
  | .arm => do
    let f ← features32 s t
    return writes32 s.target f.1 f.2 (lastMidr t) (lastArchitecture t).1 (lastArchitecture t).2
      chipset
  | .arm64 =>
    let v := s.auxval.getD (0, 0)
    some (writes64 (v.1 % U32) (v.2 % 2 ^ 64) (lastMidr t) chipset)

/-- The writes of a whole run, src/arm/linux/init.c:121-308: none if detection fails before. -/
def linuxRunWrites (e : ArmInit.Env) (s : Source) : Option (List (Write ArmFlag)) := do
  match ← ArmInit.gather e with
  | none => return []
  | some (t, hw, rev) =>
    linuxWrites e.config.arch s t (e.dec.chipset hw rev (ArmInit.countListed t))

end

/-- One feature on Apple's systems, e.g. src/arm/mach/init.c:308-321. -/
def machFeature (a : ArmMach.Answer) (fallback : Bool) (f : ArmFlag) : List (Write ArmFlag) :=
  if a.get ≠ 0 then [(f, true)] else if fallback then [(f, true)] else []

/-- The writes of src/arm/mach/init.c:308-430. -/
def machWrites (family : Nat) (f : ArmMach.Features) : List (Write ArmFlag) :=
  machFeature f.lse (ArmMach.since2017 family) .atomics ++
  machFeature f.rdm (ArmMach.since2017 family) .rdm ++
  machFeature f.fp16 (ArmMach.since2017 family) .fp16arith ++
  machFeature f.fhm (f.fhmLegacy.get ≠ 0 || ArmMach.since2019 family) .fhm ++
  machFeature f.bf16 false .bf16 ++
  machFeature f.fcma (ArmMach.since2019 family) .fcma ++
  machFeature f.jscvt (ArmMach.since2019 family) .jscvt ++
  machFeature f.dotProd (ArmMach.since2019 family) .dot ++
  machFeature f.i8mm false .i8mm ++
  machFeature f.sme false .sme ++
  machFeature f.sme2 false .sme2

/-- The writes of `set_cpuinfo_isa_fields`, src/arm/windows/init.c:192-222; both branches on the
processor level are the same. -/
def winWrites (f : ArmWin.Features) : List (Write ArmFlag) :=
  [(.atomics, f.atomics), (.dot, f.dot), (.fp16arith, f.dot), (.rdm, f.dot), (.aes, f.crypto),
   (.sha1, f.crypto), (.sha2, f.crypto), (.pmull, f.crypto), (.crc32, f.crc32)]

/-! ### RISC-V -/

/-- The flags of `struct cpuinfo_riscv_isa`, include/cpuinfo.h:2143-2166. -/
inductive RiscvFlag where
  | i | e | m | a | f | d | c | v
deriving DecidableEq, Repr

/-- The flag in the structure. -/
def RiscvFlag.get (x : Riscv.Isa) : RiscvFlag → Bool
  | i => x.i | e => x.e | m => x.m | a => x.a | f => x.f | d => x.d | c => x.c | v => x.v

/-- The queries, include/cpuinfo.h:2171-2237. -/
inductive RiscvQuery where
  | i | e | m | a | f | d | g | c | v
deriving DecidableEq, Repr

/-- What they read; `cpuinfo_has_riscv_g` (lines 2219-2223) asks five others. -/
def riscvCond : RiscvQuery → Cond RiscvFlag
  | .i => .all [.i] | .e => .all [.e] | .m => .all [.m] | .a => .all [.a] | .f => .all [.f]
  | .d => .all [.d] | .g => .all [.i, .m, .a, .f, .d] | .c => .all [.c] | .v => .all [.v]

/-- Their answers when nothing interferes. -/
def riscvHas (x : Riscv.Isa) : RiscvQuery → Bool
  | .i => Riscv.hasI x | .e => Riscv.hasE x | .m => Riscv.hasM x | .a => Riscv.hasA x
  | .f => Riscv.hasF x | .d => Riscv.hasD x | .g => Riscv.hasG x | .c => Riscv.hasC x
  | .v => Riscv.hasV x

/-- The writes of `cpuinfo_riscv_linux_decode_isa_from_hwcap`, src/riscv/linux/riscv-isa.c:22-42. -/
def riscvWrites (hwcap : Nat) : List (Write RiscvFlag) :=
  setIf (Riscv.hwcapBit hwcap 73) .i ++
  setIf (Riscv.hwcapBit hwcap 77) .m ++
  setIf (Riscv.hwcapBit hwcap 65) .a ++
  setIf (Riscv.hwcapBit hwcap 70) .f ++
  setIf (Riscv.hwcapBit hwcap 68) .d ++
  setIf (Riscv.hwcapBit hwcap 67) .c ++
  setIf (Riscv.hwcapBit hwcap 86) .v

/-! ### x86 -/

/-- What the functions `cpuinfo_has_x86_*` of include/cpuinfo.h:874-1660 read: the flag, or nothing
where the build's target decides. -/
def x86Cond (t : X86Cpuid.Target) (f : X86Cpuid.Feature) : Cond X86Cpuid.Feature :=
  match X86Cpuid.hasX86 t (fun _ => true) f, X86Cpuid.hasX86 t (fun _ => false) f with
  | some true, some true => .const true
  | some true, some false => .all [f]
  | _, _ => .const false

/-- Writes that the assignment `cpuinfo_isa = cpuinfo_x86_detect_isa(…)`, src/x86/init.c:67, may
consist of: the structure is copied flag by flag, in any order.  Without leaf 1 there is no assignment
(src/x86/init.c:27). -/
def X86Writes (t : X86Cpuid.Target) (c : X86Cpuid.Cpuid) (xcr0 mxcsrMask : Nat)
    (ws : List (Write X86Cpuid.Feature)) : Prop :=
  if (c.leaf 0).eax ≥ 1 then
    (∀ w : Write X86Cpuid.Feature, w ∈ ws → w.2 = X86Cpuid.initIsa t c xcr0 mxcsrMask w.1) ∧
    (∀ f : X86Cpuid.Feature, ∃ b : Bool, (f, b) ∈ ws)
  else ws = []

end Verif.IsaRace
