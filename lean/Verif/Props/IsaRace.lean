import Verif.Proof.IsaRaceFlags

/-!
# C166: feature queries while initialization is running

The functions `cpuinfo_has_*` may be called at any time: before, during and after the initialization
by other threads.  The theorems are about every execution of any number of threads that call
`cpuinfo_initialize` and the queries in any order, interleaved at every single read and write.
-/

set_option autoImplicit false

namespace Verif.Props
open IsaRace ArmIsa ArmMidr

/-- What a caller relies on, for the answers given so far in an execution in which detection ends with
the answers `final`: yes is never said without reason, the answer is the final one for every call that
begins after some call of `cpuinfo_initialize` has returned, and once yes has been said to anyone,
every later call says yes. -/
def Dependable {Q : Type} (final : Q → Bool) (answers : List (IsaRace.Answer Q)) : Prop :=
  ∀ a : IsaRace.Answer Q, a ∈ answers →
    (a.result = true → final a.query = true) ∧
    (a.late = true → a.result = final a.query) ∧
    (a.confirmed = true → a.result = true)

/-- Writes that never clear a flag make the queries dependable. -/
private theorem dependable {F Q : Type} [DecidableEq F] [DecidableEq Q] {cond : Q → Cond F}
    {ws : List (Write F)} {m0 : F → Bool} (g : Grows ws m0) {w : World F Q}
    (s : Steps cond ws (World.initial m0) w) :
    Dependable (fun q => (cond q).holds (run ws m0)) w.answers := by
  intro a ha
  have i := Inv.steps g s
  obtain ⟨h1, h2, h3⟩ := i.answers a ha
  exact ⟨fun h => Cond.mono (i.below g) _ (h1 h), h2, h3⟩

attribute [local irreducible] Grows in
/-- The writes on Linux lead from no features to those detected, and clear none. -/
private theorem armLinux_writes (e : ArmInit.Env) (s : Source) (i : Isa)
    (h : linuxIsa e s = some (some i)) :
    ∃ ws : List (Write ArmFlag), linuxRunWrites e s = some ws ∧
      Grows ws (fun _ => false) ∧ run ws (fun _ => false) = fun f => f.get i := by
  unfold linuxIsa at h
  cases hg : ArmInit.gather e with
  | none => rw [hg] at h; cases h
  | some r =>
    cases r with
    | none => rw [hg] at h; cases h
    | some r =>
      obtain ⟨t, hw, rev⟩ := r
      rw [hg] at h
      simp only [Option.bind_eq_bind, Option.bind_some] at h
      cases hd : detectIsa e.config.arch s t (e.dec.chipset hw rev (ArmInit.countListed t)) with
      | none => rw [hd] at h; cases h
      | some j =>
        rw [hd] at h
        cases h
        have key : ∃ ws : List (Write ArmFlag),
            linuxWrites e.config.arch s t (e.dec.chipset hw rev (ArmInit.countListed t)) = some ws ∧
            Grows ws (fun _ => false) ∧ run ws (fun _ => false) = fun f => f.get i := by
          cases ha : e.config.arch with
          | arm64 =>
            rw [ha] at hd
            simp only [detectIsa] at hd
            cases hd
            exact ⟨_, rfl, grows_writes64 _ _ _ _, funext fun f => run_writes64 _ _ _ _ _ f⟩
          | arm =>
            rw [ha] at hd
            simp only [detectIsa] at hd
            cases hf : features32 s t with
            | none => rw [hf] at hd; cases hd
            | some p =>
              rw [hf] at hd
              cases hd
              exact ⟨_, by simp only [linuxWrites]; rw [hf]; rfl, grows_writes32 _ _ _ _ _ _ _,
                funext fun f => run_writes32 _ _ _ _ _ _ _ f⟩
        obtain ⟨ws, hws, g, hr⟩ := key
        refine ⟨ws, ?_, g, hr⟩
        unfold linuxRunWrites
        rw [hg]
        simp only [Option.bind_eq_bind, Option.bind_some]
        exact hws

attribute [local irreducible] Grows in
/-- **C166 (ARM on Linux).** For every machine and every answer of the C library: the queries are
dependable with respect to the instruction set that detection ends with. -/
theorem C166_arm_linux (e : ArmInit.Env) (s : Source) (i : Isa)
    (h : linuxIsa e s = some (some i)) :
    ∃ ws : List (Write ArmFlag), linuxRunWrites e s = some ws ∧
      ∀ w : World ArmFlag Query,
        Steps (armCond e.config.arch) ws (World.initial fun _ => false) w →
        Dependable (has e.config.arch i) w.answers := by
  obtain ⟨ws, hws, g, hr⟩ := armLinux_writes e s i h
  refine ⟨ws, hws, fun w hsteps => ?_⟩
  have d := dependable g hsteps
  rw [hr] at d
  exact funext (fun q => armCond_holds e.config.arch i q) ▸ d

/-- **C166 (ARM on Linux, failure).** If initialization gives up before it detects the instruction set,
the queries are dependable too: they always have the answers of a processor without any of the
features. -/
theorem C166_arm_linux_failed (e : ArmInit.Env) (s : Source) (h : linuxIsa e s = some none) :
    ∃ ws : List (Write ArmFlag), linuxRunWrites e s = some ws ∧
      ∀ w : World ArmFlag Query,
        Steps (armCond e.config.arch) ws (World.initial fun _ => false) w →
        ∀ a : IsaRace.Answer Query, a ∈ w.answers → a.result = has e.config.arch {} a.query := by
  unfold linuxIsa at h
  cases hg : ArmInit.gather e with
  | none => rw [hg] at h; cases h
  | some r =>
    cases r with
    | some r =>
      obtain ⟨t, hw, rev⟩ := r
      rw [hg] at h
      simp only [Option.bind_eq_bind, Option.bind_some] at h
      cases hd : detectIsa e.config.arch s t (e.dec.chipset hw rev (ArmInit.countListed t)) with
      | none => rw [hd] at h; cases h
      | some j => rw [hd] at h; cases h
    | none =>
      refine ⟨[], by unfold linuxRunWrites; rw [hg]; rfl, fun w s a ha => ?_⟩
      have hs : ∀ a : IsaRace.Answer Query, a ∈ w.answers →
          a.result = (armCond e.config.arch a.query).holds (fun _ => false) := unchanged s
      rw [hs a ha, ← armCond_holds]
      have : (fun f : ArmFlag => f.get ({} : Isa)) = fun _ => false := by
        funext f; cases f <;> rfl
      rw [this]

/-- **C166 (Apple).** The same on Apple's ARM systems, where five flags are set before the process
starts. -/
theorem C166_arm_mach (family : Nat) (x : ArmMach.Features) (w : World ArmFlag Query)
    (s : Steps (armCond .arm64) (machWrites family x)
      (World.initial fun f => f.get ArmMach.isaInitial) w) :
    Dependable (has .arm64 (ArmMach.isaOf family x)) w.answers := by
  have d := dependable (grows_machWrites family x _) s
  rw [run_machWrites] at d
  exact funext (fun q => armCond_holds .arm64 (ArmMach.isaOf family x) q) ▸ d

/-- **C166 (Windows on ARM).** The same on Windows, where every flag is written, to true or to
false. -/
theorem C166_arm_windows (x : ArmWin.Features) (w : World ArmFlag Query)
    (s : Steps (armCond .arm64) (winWrites x) (World.initial fun _ => false) w) :
    Dependable (has .arm64 (ArmWin.isaOf x)) w.answers := by
  have d := dependable (grows_winWrites x) s
  rw [funext (run_winWrites x)] at d
  exact funext (fun q => armCond_holds .arm64 (ArmWin.isaOf x) q) ▸ d

/-- The static initial value of `cpuinfo_isa` on RISC-V. -/
def noExtension : Riscv.Isa := ⟨false, false, false, false, false, false, false, false⟩

/-- **C166 (RISC-V).** The same on RISC-V, for every `AT_HWCAP`. -/
theorem C166_riscv (hwcap : Nat) (w : World RiscvFlag RiscvQuery)
    (s : Steps riscvCond (riscvWrites hwcap) (World.initial fun _ => false) w) :
    Dependable (riscvHas (Riscv.decodeIsa hwcap noExtension)) w.answers := by
  have s' : Steps riscvCond (riscvWrites hwcap)
      (World.initial fun x => x.get noExtension) w := by
    have : (fun x : RiscvFlag => x.get noExtension) = fun _ => false := by
      funext x; cases x <;> rfl
    rw [this]; exact s
  have d := dependable (grows_riscvWrites hwcap _) s'
  rw [run_riscvWrites] at d
  exact funext (fun q => riscvCond_holds (Riscv.decodeIsa hwcap noExtension) q) ▸ d

private theorem x86_writes (t : X86Cpuid.Target) (c : X86Cpuid.Cpuid) (xcr0 mxcsrMask : Nat)
    (ws : List (Write X86Cpuid.Feature)) (hw : X86Writes t c xcr0 mxcsrMask ws) :
    Grows ws (fun _ => false) ∧ run ws (fun _ => false) = X86Cpuid.initIsa t c xcr0 mxcsrMask := by
  unfold X86Writes at hw
  by_cases h : (c.leaf 0).eax ≥ 1
  · rw [if_pos h] at hw
    exact ⟨copy_grows _ ws _ hw.1 fun _ e => (by cases e),
      funext fun f => copy_run _ ws _ f hw.1 (.inr (hw.2 f))⟩
  · rw [if_neg h] at hw
    subst hw
    refine ⟨True.intro, ?_⟩
    simp only [X86Cpuid.initIsa]
    rw [if_neg h]
    rfl

/-- **C166 (x86).** The same on x86, for every processor and every order in which the structure may be
copied: the queries that have a function are dependable with respect to the detected instruction
set. -/
theorem C166_x86 (t : X86Cpuid.Target) (c : X86Cpuid.Cpuid) (xcr0 mxcsrMask : Nat)
    (ws : List (Write X86Cpuid.Feature)) (hw : X86Writes t c xcr0 mxcsrMask ws)
    (w : World X86Cpuid.Feature X86Cpuid.Feature)
    (s : Steps (x86Cond t) ws (World.initial fun _ => false) w)
    (a : IsaRace.Answer X86Cpuid.Feature) (ha : a ∈ w.answers) (b : Bool)
    (hb : X86Cpuid.hasX86 t (X86Cpuid.initIsa t c xcr0 mxcsrMask) a.query = some b) :
    (a.result = true → b = true) ∧ (a.late = true → a.result = b) ∧
    (a.confirmed = true → a.result = true) := by
  obtain ⟨g, hr⟩ := x86_writes t c xcr0 mxcsrMask ws hw
  obtain ⟨h1, h2, h3⟩ := dependable g s a ha
  rw [hr] at h1 h2
  dsimp only at h1 h2
  rw [x86Cond_holds t _ _ b hb] at h1 h2
  exact ⟨h1, h2, h3⟩

/-- **C166 (x86, failure).** If initialization gives up before the assignment, every query has the
answer of a processor without any of the features. -/
theorem C166_x86_failed (t : X86Cpuid.Target) (w : World X86Cpuid.Feature X86Cpuid.Feature)
    (s : Steps (x86Cond t) [] (World.initial fun _ => false) w)
    (a : IsaRace.Answer X86Cpuid.Feature) (ha : a ∈ w.answers) (b : Bool)
    (hb : X86Cpuid.hasX86 t (fun _ => false) a.query = some b) : a.result = b := by
  rw [unchanged s a ha, x86Cond_holds t _ _ b hb]

/-! ### Weak memory -/

/-- A value that a read of a flag may give in the weakest of memories: the one from before, or that of
some write of the program, done or still to come, seen by others or not.  Only values out of thin air
are excluded. -/
def MayRead {F : Type} (ws : List (Write F)) (m0 : F → Bool) (f : F) (v : Bool) : Prop :=
  v = m0 f ∨ (f, v) ∈ ws

/-- An answer that a query may give in such a memory, each read for itself. -/
inductive MayAnswer {F : Type} (ws : List (Write F)) (m0 : F → Bool) : Cond F → Bool → Prop where
  | const (b : Bool) : MayAnswer ws m0 (.const b) b
  | done : MayAnswer ws m0 (.all []) true
  | no (f : F) (fs : List F) : MayRead ws m0 f false → MayAnswer ws m0 (.all (f :: fs)) false
  | go (f : F) (fs : List F) (b : Bool) : MayRead ws m0 f true → MayAnswer ws m0 (.all fs) b →
      MayAnswer ws m0 (.all (f :: fs)) b

private theorem grows_mem {F : Type} [DecidableEq F] : ∀ (ws : List (Write F)) (m : F → Bool) (f : F),
    Grows ws m → (f, true) ∈ ws → run ws m f = true
  | [], _, _, _, h => by cases h
  | w :: ws, m, f, g, h => by
    rcases List.mem_cons.mp h with e | h
    · refine run_below ws _ g.2 f ?_
      rw [← e]
      simp [write]
    · exact grows_mem ws _ f g.2 h

private theorem weak {F : Type} [DecidableEq F] {ws : List (Write F)} {m0 : F → Bool}
    (g : Grows ws m0) {c : Cond F} (a : MayAnswer ws m0 c true) : c.holds (run ws m0) = true := by
  have key : ∀ (c : Cond F) (b : Bool), MayAnswer ws m0 c b → b = true → c.holds (run ws m0) = true := by
    intro c b a
    induction a with
    | const b => intro h; exact h
    | done => intro _; rfl
    | no f fs _ => intro h; cases h
    | go f fs b hr _ ih =>
      intro h
      have hf : run ws m0 f = true := by
        rcases hr with h | h
        · exact run_below ws m0 g f h.symm
        · exact grows_mem ws m0 f g h
      have := ih h
      simp only [Cond.holds, List.all_cons, hf, Bool.true_and] at this ⊢
      exact this
  exact key c true a rfl

attribute [local irreducible] Grows in
/-- **C166 (ARM on Linux, weak memory).** However weak the memory, no query says yes without reason. -/
theorem C166_arm_linux_weak (e : ArmInit.Env) (s : Source) (i : Isa)
    (h : linuxIsa e s = some (some i)) :
    ∃ ws : List (Write ArmFlag), linuxRunWrites e s = some ws ∧
      ∀ q : Query, MayAnswer ws (fun _ => false) (armCond e.config.arch q) true →
        has e.config.arch i q = true := by
  obtain ⟨ws, hws, g, hr⟩ := armLinux_writes e s i h
  refine ⟨ws, hws, fun q a => ?_⟩
  rw [← armCond_holds, ← hr]
  exact weak g a

/-- **C166 (Apple, weak memory).** -/
theorem C166_arm_mach_weak (family : Nat) (x : ArmMach.Features) (q : Query)
    (a : MayAnswer (machWrites family x) (fun f => f.get ArmMach.isaInitial) (armCond .arm64 q) true) :
    has .arm64 (ArmMach.isaOf family x) q = true := by
  rw [← armCond_holds, ← run_machWrites]
  exact weak (grows_machWrites family x _) a

/-- **C166 (Windows on ARM, weak memory).** -/
theorem C166_arm_windows_weak (x : ArmWin.Features) (q : Query)
    (a : MayAnswer (winWrites x) (fun _ => false) (armCond .arm64 q) true) :
    has .arm64 (ArmWin.isaOf x) q = true := by
  rw [← armCond_holds, ← funext (run_winWrites x)]
  exact weak (grows_winWrites x) a

/-- **C166 (RISC-V, weak memory).** -/
theorem C166_riscv_weak (hwcap : Nat) (q : RiscvQuery)
    (a : MayAnswer (riscvWrites hwcap) (fun _ => false) (riscvCond q) true) :
    riscvHas (Riscv.decodeIsa hwcap noExtension) q = true := by
  have e : (fun x : RiscvFlag => x.get noExtension) = fun _ => false := by
    funext x; cases x <;> rfl
  rw [← e] at a
  rw [← riscvCond_holds, ← run_riscvWrites]
  exact weak (grows_riscvWrites hwcap _) a

/-- **C166 (x86, weak memory).** -/
theorem C166_x86_weak (t : X86Cpuid.Target) (c : X86Cpuid.Cpuid) (xcr0 mxcsrMask : Nat)
    (ws : List (Write X86Cpuid.Feature)) (hw : X86Writes t c xcr0 mxcsrMask ws)
    (q : X86Cpuid.Feature) (b : Bool)
    (hb : X86Cpuid.hasX86 t (X86Cpuid.initIsa t c xcr0 mxcsrMask) q = some b)
    (a : MayAnswer ws (fun _ => false) (x86Cond t q) true) : b = true := by
  obtain ⟨g, hr⟩ := x86_writes t c xcr0 mxcsrMask ws hw
  have := weak g a
  rw [hr, x86Cond_holds t _ _ b hb] at this
  exact this

/-! ### Concrete executions -/

/-- A RISC-V processor with the extensions I and V.  Thread 0 initializes; thread 1 asks between the
two writes and is told that there is I but not yet V; after the return of thread 0 it is told V. -/
example : ∃ w : World RiscvFlag RiscvQuery,
    Steps riscvCond (riscvWrites (2 ^ 8 + 2 ^ 21)) (World.initial fun _ => false) w ∧
    w.answers = [⟨.v, true, false, true⟩, ⟨.v, false, false, false⟩, ⟨.i, false, false, true⟩] := by
  have h : riscvWrites (2 ^ 8 + 2 ^ 21) = [(.i, true), (.v, true)] := by decide +kernel
  rw [h]
  have s0 := Steps.refl (cond := riscvCond) (ws := [(.i, true), (.v, true)])
    (World.initial fun _ => false)
  have s1 := Steps.tail _ _ _ s0 (.call _ 0 rfl)
  have s2 := Steps.tail _ _ _ s1 (.start _ 0 rfl rfl)
  have s3 := Steps.tail _ _ _ s2 (.store _ 0 (.i, true) [(.v, true)] rfl)
  have s4 := Steps.tail _ _ _ s3 (.ask _ 1 .i rfl)
  have s5 := Steps.tail _ _ _ s4 (.read _ 1 .i false false .i [] rfl)
  have s6 := Steps.tail _ _ _ s5 (.last _ 1 .i false false rfl)
  have s7 := Steps.tail _ _ _ s6 (.ask _ 1 .v rfl)
  have s8 := Steps.tail _ _ _ s7 (.read _ 1 .v false false .v [] rfl)
  have s9 := Steps.tail _ _ _ s8 (.constant _ 1 .v false false false rfl)
  have s10 := Steps.tail _ _ _ s9 (.store _ 0 (.v, true) [] rfl)
  have s11 := Steps.tail _ _ _ s10 (.finish _ 0 rfl)
  have s12 := Steps.tail _ _ _ s11 (.back _ 0 rfl)
  have s13 := Steps.tail _ _ _ s12 (.ask _ 1 .v rfl)
  have s14 := Steps.tail _ _ _ s13 (.read _ 1 .v true false .v [] rfl)
  have s15 := Steps.tail _ _ _ s14 (.last _ 1 .v true false rfl)
  exact ⟨_, s15, rfl⟩

/-- Windows on ARM, atomics but no dot products.  Two threads initialize: the second waits for the first.
A query that starts before the first write is told the truth, because it reads after it; a query for dot
products is told no, before and after. -/
example : ∃ w : World ArmFlag Query,
    Steps (armCond .arm64) (winWrites { atomics := true, crypto := false, crc32 := false, dot := false })
      (World.initial fun _ => false) w ∧
    w.answers = [⟨.neonDot, true, false, false⟩, ⟨.atomics, false, false, true⟩] ∧
    w.pc 1 = .waiting := by
  have s0 := Steps.refl (cond := armCond .arm64)
    (ws := winWrites { atomics := true, crypto := false, crc32 := false, dot := false })
    (World.initial fun _ => false)
  have s1 := Steps.tail _ _ _ s0 (.call _ 0 rfl)
  have s2 := Steps.tail _ _ _ s1 (.call _ 1 rfl)
  have s3 := Steps.tail _ _ _ s2 (.start _ 0 rfl rfl)
  have s4 := Steps.tail _ _ _ s3 (.ask _ 2 .atomics rfl)
  have s5 := Steps.tail _ _ _ s4 (.store _ 0 _ _ rfl)
  have s6 := Steps.tail _ _ _ s5 (.read _ 2 .atomics false false .atomics [] rfl)
  have s7 := Steps.tail _ _ _ s6 (.last _ 2 .atomics false false rfl)
  have s8 := Steps.tail _ _ _ s7 (.store _ 0 _ _ rfl)
  have s9 := Steps.tail _ _ _ s8 (.store _ 0 _ _ rfl)
  have s10 := Steps.tail _ _ _ s9 (.store _ 0 _ _ rfl)
  have s11 := Steps.tail _ _ _ s10 (.store _ 0 _ _ rfl)
  have s12 := Steps.tail _ _ _ s11 (.store _ 0 _ _ rfl)
  have s13 := Steps.tail _ _ _ s12 (.store _ 0 _ _ rfl)
  have s14 := Steps.tail _ _ _ s13 (.store _ 0 _ _ rfl)
  have s15 := Steps.tail _ _ _ s14 (.store _ 0 _ _ rfl)
  have s16 := Steps.tail _ _ _ s15 (.finish _ 0 rfl)
  have s17 := Steps.tail _ _ _ s16 (.back _ 0 rfl)
  have s18 := Steps.tail _ _ _ s17 (.ask _ 2 .neonDot rfl)
  have s19 := Steps.tail _ _ _ s18 (.read _ 2 .neonDot true false .dot [] rfl)
  have s20 := Steps.tail _ _ _ s19 (.constant _ 2 .neonDot true false false rfl)
  exact ⟨_, s20, rfl, rfl⟩

/-- Machines on which the hypothesis of `C166_arm_linux` holds: the examples of Props/ArmIsa.lean.  For a
Cortex-A55 of variant 0 the routine writes `dot = false`, which is not a step back. -/
example : dotWrites64 0x100000 0x410FD050 = [(.dot, false)] ∧
    dotWrites64 0x100000 0x411FD050 = [(.dot, true)] := by
  decide +kernel

/-- A structure copied in any order: the writes of a copy satisfy the hypothesis of `C166_x86`. -/
example (t : X86Cpuid.Target) (c : X86Cpuid.Cpuid) (xcr0 mxcsrMask : Nat)
    (order : List X86Cpuid.Feature) (h1 : (c.leaf 0).eax ≥ 1)
    (h : ∀ f : X86Cpuid.Feature, f ∈ order) :
    X86Writes t c xcr0 mxcsrMask
      (order.map fun f => (f, X86Cpuid.initIsa t c xcr0 mxcsrMask f)) := by
  unfold X86Writes
  rw [if_pos h1]
  refine ⟨fun w hw => ?_, fun f => ⟨_, List.mem_map.mpr ⟨f, h f, rfl⟩⟩⟩
  obtain ⟨f, -, hf⟩ := List.mem_map.mp hw
  rw [← hf]

/-- A RISC-V processor with the extensions I and V, in a weak memory: V may be seen before I, but nobody ever
sees G. -/
example : MayAnswer (riscvWrites (2 ^ 8 + 2 ^ 21)) (fun _ => false) (riscvCond .v) true ∧
    MayAnswer (riscvWrites (2 ^ 8 + 2 ^ 21)) (fun _ => false) (riscvCond .i) false ∧
    ¬ MayAnswer (riscvWrites (2 ^ 8 + 2 ^ 21)) (fun _ => false) (riscvCond .g) true := by
  have h : riscvWrites (2 ^ 8 + 2 ^ 21) = [(.i, true), (.v, true)] := by decide +kernel
  refine ⟨?_, ?_, fun a => ?_⟩
  · rw [h]; exact .go RiscvFlag.v [] true (.inr (by simp)) .done
  · exact .no RiscvFlag.i [] (.inl rfl)
  · have := C166_riscv_weak _ _ a
    revert this
    decide +kernel

end Verif.Props
