import Verif.Proof.IsaInfo

/-!
# C163: what isa-info prints
-/
set_option autoImplicit false

namespace Verif.Props
open IsaInfo X86Cpuid ArmIsa

/-! ## x86 -/

private theorem x86_plain : ∀ b ∈ [true, false], PlainSections (x86Sections b) := by
  unfold PlainSections; decide +kernel

private theorem x86_distinct : ∀ b ∈ [true, false], Distinct (pairs (x86Sections b)) := by
  unfold Distinct; decide +kernel

private theorem mem_bools' (b : Bool) : b ∈ [true, false] := by cases b <;> decide

/-- Every query is printed. -/
private theorem x86_pairs (b : Bool) (f : Feature) (n : Bytes) (hn : x86Name f = some n)
    (hf : b = true ∨ ¬ AlwaysIn64 f) : (n, f) ∈ pairs (x86Sections b) := by
  have : ∀ n' ∈ x86Name f, (b = true ∨ ¬ (f = .fpu ∨ f = .cmov ∨ f = .cmpxchg8b ∨ f = .rdtsc)) →
      (n', f) ∈ pairs (x86Sections b) := by
    clear hn hf
    cases b <;> cases f <;> decide +kernel
  exact this n hn hf

/-- The text of a name has no colon and no newline. -/
private theorem x86_text (f : Feature) (n : Bytes) (hn : x86Name f = some n) : 10 ∉ n ∧ 58 ∉ n := by
  have : ∀ n' ∈ x86Name f, 10 ∉ n' ∧ 58 ∉ n' := by cases f <;> decide
  exact this n hn

/-- **C163 (x86).** isa-info prints "yes" beside the name of an instruction set exactly if its query
answers yes, and "no" exactly if it answers no; for every query, except that 64-bit builds do not
print the four that all 64-bit processors have. -/
theorem C163_x86 (t : Target) (isa : Feature → Bool) (f : Feature) (n : Bytes)
    (hn : x86Name f = some n) (hf : t.x86_32 = true ∨ ¬ AlwaysIn64 f) :
    (HasLine (isaInfo (.x86 t isa)) (entry n b!"yes") ↔ hasX86 t isa f = some true) ∧
    (HasLine (isaInfo (.x86 t isa)) (entry n b!"no") ↔ hasX86 t isa f = some false) := by
  obtain ⟨h10, h58⟩ := x86_text f n hn
  have hp := plain_sections (fun f => (hasX86 t isa f).getD false) _ (x86_plain t.x86_32 (mem_bools' _))
  have hr := read_answer (fun f => (hasX86 t isa f).getD false) _ (x86_distinct t.x86_32 (mem_bools' _))
    n f (x86_pairs t.x86_32 f n hn hf)
  have hq : ∃ b, hasX86 t isa f = some b := by cases f <;> first | exact ⟨_, rfl⟩ | cases hn
  obtain ⟨q, hq⟩ := hq
  rw [hq] at hr
  simp only [Option.getD_some] at hr
  obtain ⟨h1, h2⟩ := read_line _ hp n h10 h58 q hr (fun v => number_not_mem _ _ _ _)
  rw [hq, Option.some.injEq, Option.some.injEq]
  exact ⟨h1, h2⟩

/-- **C163 (x86, all queries).** The features with a name are those with a query. -/
theorem C163_x86_queries (t : Target) (isa : Feature → Bool) (f : Feature) :
    (x86Name f).isSome = (hasX86 t isa f).isSome := by
  cases f <;> rfl

/-- A 64-bit processor with AVX2 and without AVX-512. -/
example :
    HasLine (isaInfo (.x86 ⟨false, false⟩ fun f => f = .avx2)) (entry b!"AVX2" b!"yes") ∧
    HasLine (isaInfo (.x86 ⟨false, false⟩ fun f => f = .avx2)) (entry b!"AVX512F" b!"no") ∧
    ¬ HasLine (isaInfo (.x86 ⟨false, false⟩ fun f => f = .avx2)) (entry b!"AVX512F" b!"yes") := by
  refine ⟨?_, ?_, ?_⟩
  · exact (C163_x86 _ _ .avx2 _ rfl (Or.inr (by unfold AlwaysIn64; decide))).1.mpr (by decide)
  · exact (C163_x86 _ _ .avx512f _ rfl (Or.inr (by unfold AlwaysIn64; decide))).2.mpr (by decide)
  · exact fun h => absurd
      ((C163_x86 _ _ .avx512f _ rfl (Or.inr (by unfold AlwaysIn64; decide))).1.mp h) (by decide)

/-! ## ARM -/

private theorem arm_plain : PlainSections armSections := by unfold PlainSections; decide +kernel

private theorem arm_distinct : Distinct (pairs armSections) := by unfold Distinct; decide +kernel

private theorem arm_pairs (q : ArmIsa.Query) (n : Bytes) (hn : armName q = some n) :
    (n, q) ∈ pairs armSections ∧ 10 ∉ n ∧ 58 ∉ n := by
  have : ∀ n' ∈ armName q, (n', q) ∈ pairs armSections ∧ 10 ∉ n' ∧ 58 ∉ n' := by
    clear hn; cases q <;> decide +kernel
  exact this n hn

/-- **C163 (32-bit ARM).** isa-info prints "yes" beside the name of an instruction set exactly if its
query answers yes, and "no" exactly if it answers no. -/
theorem C163_arm (isa : ArmIsa.Isa) (q : ArmIsa.Query) (n : Bytes) (hn : armName q = some n) :
    (HasLine (isaInfo (.arm isa)) (entry n b!"yes") ↔ ArmIsa.has .arm isa q = true) ∧
    (HasLine (isaInfo (.arm isa)) (entry n b!"no") ↔ ArmIsa.has .arm isa q = false) := by
  obtain ⟨hx, h10, h58⟩ := arm_pairs q n hn
  exact read_line _ (plain_sections _ _ arm_plain) n h10 h58 _
    (read_answer _ _ arm_distinct n q hx) (fun v => number_not_mem _ _ _ _)

private theorem arm64_plain : PlainSections arm64First ∧ PlainSections arm64Last := by
  unfold PlainSections; decide +kernel

private theorem arm64_distinct : Distinct (pairs arm64First) ∧ Distinct (pairs arm64Last) := by
  unfold Distinct; decide +kernel

private theorem arm64_pairs (q : ArmIsa.Query) (n : Bytes) (hn : arm64Name q = some n) :
    ((n, q) ∈ pairs arm64First ∧ (∀ x ∈ pairs arm64Last, x.1 ≠ n) ∨
      (n, q) ∈ pairs arm64Last ∧ (∀ x ∈ pairs arm64First, x.1 ≠ n)) ∧
    n ≠ b!"SVE max length" ∧ 10 ∉ n ∧ 58 ∉ n := by
  have : ∀ n' ∈ arm64Name q, ((n', q) ∈ pairs arm64First ∧ (∀ x ∈ pairs arm64Last, x.1 ≠ n') ∨
      (n', q) ∈ pairs arm64Last ∧ (∀ x ∈ pairs arm64First, x.1 ≠ n')) ∧
      n' ≠ b!"SVE max length" ∧ 10 ∉ n' ∧ 58 ∉ n' := by
    clear hn; cases q <;> decide +kernel
  exact this n hn

private theorem arm64_items_plain (isa : ArmIsa.Isa) : ∀ i ∈ items (.arm64 isa), i.Plain := by
  intro i hi
  simp only [items, List.mem_append, List.mem_cons, List.not_mem_nil, or_false] at hi
  rcases hi with (hi | rfl | rfl) | hi
  · exact plain_sections _ _ arm64_plain.1 i hi
  · show _ ∧ _ ∧ _; decide
  · show _ ∧ _; decide
  · exact plain_sections _ _ arm64_plain.2 i hi

/-- **C163 (64-bit ARM).** isa-info prints "yes" beside the name of an instruction set exactly if its
query answers yes, and "no" exactly if it answers no. -/
theorem C163_arm64 (isa : ArmIsa.Isa) (q : ArmIsa.Query) (n : Bytes) (hn : arm64Name q = some n) :
    (HasLine (isaInfo (.arm64 isa)) (entry n b!"yes") ↔ ArmIsa.has .arm64 isa q = true) ∧
    (HasLine (isaInfo (.arm64 isa)) (entry n b!"no") ↔ ArmIsa.has .arm64 isa q = false) := by
  obtain ⟨hx, hs, h10, h58⟩ := arm64_pairs q n hn
  refine read_line _ (arm64_items_plain isa) n h10 h58 _ (fun b => ?_) (fun v => ?_)
  · simp only [items, List.mem_append, List.mem_cons, List.not_mem_nil, or_false, reduceCtorEq]
    rcases hx with ⟨hx, hy⟩ | ⟨hx, hy⟩
    · rw [read_answer _ _ arm64_distinct.1 n q hx, answer_mem]
      constructor
      · rintro (h | ⟨x, h, e, -⟩)
        · exact h
        · exact absurd e (hy x h)
      · exact Or.inl
    · rw [read_answer _ _ arm64_distinct.2 n q hx, answer_mem]
      constructor
      · rintro (⟨x, h, e, -⟩ | h)
        · exact absurd e (hy x h)
        · exact h
      · exact Or.inr
  · simp only [items, List.mem_append, List.mem_cons, List.not_mem_nil, or_false, reduceCtorEq,
      Item.number.injEq, number_not_mem, hs, false_and, not_false_eq_true]

/-- **C163 (64-bit ARM, vector length).** The vector length that is printed is that of the query. -/
theorem C163_sve_length (isa : ArmIsa.Isa) (n : Nat) :
    HasLine (isaInfo (.arm64 isa)) (entry b!"SVE max length" (ArmChipset.decimal n)) ↔
      n = ArmIsa.maxSveLength .arm64 isa := by
  rw [isaInfo, hasLine_items _ (arm64_items_plain isa) _ _ (by decide) (by decide)
    (decimal_no_newline n)]
  have ha : ∀ b, Item.answer b!"SVE max length" b ∉ items (.arm64 isa) := by
    intro b
    simp only [items, List.mem_append, List.mem_cons, List.not_mem_nil, or_false, reduceCtorEq,
      answer_mem]
    rintro (⟨x, h, e, -⟩ | ⟨x, h, e, -⟩)
    · exact (by decide +kernel : ∀ x ∈ pairs arm64First, x.1 ≠ b!"SVE max length") x h e
    · exact (by decide +kernel : ∀ x ∈ pairs arm64Last, x.1 ≠ b!"SVE max length") x h e
  constructor
  · rintro (⟨b, hb, -⟩ | ⟨m, hm, e⟩)
    · exact absurd hb (ha b)
    · simp only [items, List.mem_append, List.mem_cons, List.not_mem_nil, or_false, reduceCtorEq,
        Item.number.injEq, number_not_mem, false_or, true_and] at hm
      rw [Proof.Tools.decimal_inj e, hm]
  · rintro rfl
    exact Or.inr ⟨_, by simp [items], rfl⟩

/-- A Neoverse V1: SVE with 256-bit vectors. -/
example :
    HasLine (isaInfo (.arm64 { sve := true, svelen := 32 })) (entry b!"ARM SVE" b!"yes") ∧
    HasLine (isaInfo (.arm64 { sve := true, svelen := 32 })) (entry b!"ARM SVE 2" b!"no") ∧
    HasLine (isaInfo (.arm64 { sve := true, svelen := 32 })) (entry b!"SVE max length" b!"256") :=
  ⟨(C163_arm64 _ .sve _ rfl).1.mpr rfl, (C163_arm64 _ .sve2 _ rfl).2.mpr rfl,
    (C163_sve_length _ 256).mpr (by decide)⟩

/-- `isa` with other answers to the five queries. -/
def withSme (isa : ArmIsa.Isa) (a b c d e : Bool) : ArmIsa.Isa :=
  { isa with
    sme2p1 := a
    smeI16I32 := b
    smeBi32I32 := c
    smeB16B16 := d
    smeF16F16 := e }

/-- **C163 is violated on 64-bit ARM.** Five queries are not printed: the output is the same whatever
they answer. -/
theorem C163_violated_arm64 (isa : ArmIsa.Isa) (a b c d e : Bool) :
    isaInfo (.arm64 (withSme isa a b c d e)) = isaInfo (.arm64 isa) ∧
    [Query.sme2p1, .smeI16I32, .smeBi32I32, .smeB16B16, .smeF16F16].map
      (ArmIsa.has .arm64 (withSme isa a b c d e)) = [a, b, c, d, e] :=
  ⟨rfl, rfl⟩

/-- All other queries of 64-bit ARM are printed, or follow from what is printed, or are the same on
all machines. -/
theorem C163_arm64_others (isa : ArmIsa.Isa) (q : ArmIsa.Query)
    (hq : q ∉ [.sme2p1, .smeI16I32, .smeBi32I32, .smeB16B16, .smeF16F16]) :
    (arm64Name q).isSome = true ∨
    ArmIsa.has .arm64 isa q = ArmIsa.has .arm64 {} q ∨
    (q = .neonFp16Arith ∧ ArmIsa.has .arm64 isa q = ArmIsa.has .arm64 isa .fp16Arith) ∨
    (q = .neonBf16 ∧ ArmIsa.has .arm64 isa q = ArmIsa.has .arm64 isa .bf16) ∨
    (q = .sveBf16 ∧ ArmIsa.has .arm64 isa q =
      (ArmIsa.has .arm64 isa .sve && ArmIsa.has .arm64 isa .bf16)) := by
  cases q <;> simp [arm64Name, ArmIsa.has, has64] at hq ⊢

/-! ## RISC-V -/

/-- **C163 (RISC-V).** isa-info prints "yes" beside the name of an extension exactly if the processor has
it, and "no" exactly if not. -/
theorem C163_riscv (isa : Riscv.Isa) (x : Bytes × (Riscv.Isa → Bool)) (hx : x ∈ riscvNames) :
    (HasLine (isaInfo (.riscv isa)) (entry x.1 b!"yes") ↔ x.2 isa = true) ∧
    (HasLine (isaInfo (.riscv isa)) (entry x.1 b!"no") ↔ x.2 isa = false) := by
  have hp : PlainSections riscvSections := by unfold PlainSections; decide +kernel
  have hd : Distinct (pairs riscvSections) := by unfold Distinct; decide +kernel
  have key : ∀ (n : Bytes) (q : RiscvQuery), (n, q) ∈ pairs riscvSections → 10 ∉ n → 58 ∉ n →
      (HasLine (isaInfo (.riscv isa)) (entry n b!"yes") ↔ riscvAsk q isa = true) ∧
      (HasLine (isaInfo (.riscv isa)) (entry n b!"no") ↔ riscvAsk q isa = false) :=
    fun n q hn h10 h58 => read_line (items (.riscv isa))
      (plain_sections (fun q => riscvAsk q isa) riscvSections hp) n h10 h58 (riscvAsk q isa)
      (read_answer (fun q => riscvAsk q isa) riscvSections hd n q hn)
      (fun v => number_not_mem (fun q => riscvAsk q isa) riscvSections n v)
  have all : ∀ x ∈ riscvNames,
      (HasLine (isaInfo (.riscv isa)) (entry x.1 b!"yes") ↔ x.2 isa = true) ∧
      (HasLine (isaInfo (.riscv isa)) (entry x.1 b!"no") ↔ x.2 isa = false) := by
    unfold riscvNames
    refine List.forall_mem_cons.mpr ⟨key b!"Base Integer" .i (by decide +kernel) (by decide)
      (by decide), ?_⟩
    refine List.forall_mem_cons.mpr ⟨key b!"Integer Multiply/Divide" .m (by decide +kernel) (by decide)
      (by decide), ?_⟩
    refine List.forall_mem_cons.mpr ⟨key b!"Atomics" .a (by decide +kernel) (by decide)
      (by decide), ?_⟩
    refine List.forall_mem_cons.mpr ⟨key b!"Single-Precision Floating-Point" .f (by decide +kernel) (by decide)
      (by decide), ?_⟩
    refine List.forall_mem_cons.mpr ⟨key b!"Double-Precision Floating-Point" .d (by decide +kernel) (by decide)
      (by decide), ?_⟩
    refine List.forall_mem_cons.mpr ⟨key b!"Compressed" .c (by decide +kernel) (by decide)
      (by decide), ?_⟩
    refine List.forall_mem_cons.mpr ⟨key b!"Vector" .v (by decide +kernel) (by decide)
      (by decide), ?_⟩
    simp
  exact all x hx

end Verif.Props
