import Verif.Proof.X86Cpuinfo
import Verif.Props.Files

/-!
# C11, C12: x86 /proc/cpuinfo
-/

set_option autoImplicit false

namespace Verif.Props
open Spec X86Cpuinfo

/-- **C11.** For every /proc/cpuinfo text made of blocks with distinct processor numbers whose
lines fit the 2048-byte buffer, and every split of the reads: every listed processor below the
table size is flagged as listed and gets its APIC id; every other entry is unchanged. -/
theorem C11_every_processor_gets_its_apic_id (sched : Sched) (hs : sched.NoError)
    (bs : List ProcBlock) (tail : List Bytes) (maxCount : Nat) (table : List LinuxProc)
    (hbs : ∀ b ∈ bs, b.Ok) (htail : ∀ l ∈ tail, OtherLine l)
    (hnonempty : bs.flatMap ProcBlock.lines ++ tail ≠ [])
    (hnl : ∀ l ∈ bs.flatMap ProcBlock.lines ++ tail, 10 ∉ l)
    (hfit : LinesFit 2048 (bs.flatMap ProcBlock.lines ++ tail))
    (hdistinct : (bs.map ProcBlock.number).Nodup) (hsize : maxCount ≤ table.length) :
    ∃ idx table', parseProcCpuinfo (some (joinLines (bs.flatMap ProcBlock.lines ++ tail))) sched
        maxCount table = some (some ⟨idx, table'⟩, true) ∧
      (∀ b ∈ bs, b.number < maxCount → table'[b.number]? = (table[b.number]?).map fun p =>
        { p with apicId := b.apic, flags := p.flags ||| 0x800 ||| 0x80 }) ∧
      (∀ i, (∀ b ∈ bs, b.number = i → maxCount ≤ i) → table'[i]? = table[i]?) := by
  unfold parseProcCpuinfo
  rw [C06_lines_independent_of_reads _ _ _ _ hs _ hnonempty hnl hfit]
  obtain ⟨idx, h⟩ := run_blocks maxCount 0 table bs hbs tail htail 1 hsize
  refine ⟨idx, _, by rw [h], ?_, ?_⟩
  · intro b hb hlt
    exact (foldl_apply_get maxCount bs table b.number hdistinct).1 b hb rfl hlt
  · intro i hi
    apply (foldl_apply_get maxCount bs table i hdistinct).2
    intro b hb hbi; have := hi b hb hbi; omega

/-- **C11 (memory safety).** For every file and every read behaviour, the parser accesses only
existing table entries. -/
theorem C11_in_bounds (file : Option Bytes) (sched : Sched) (maxCount : Nat)
    (table : List LinuxProc) (hsize : maxCount ≤ table.length) :
    ∃ idx table' ok, parseProcCpuinfo file sched maxCount table =
        some (some ⟨idx, table'⟩, ok) ∧ table'.length = table.length := by
  unfold parseProcCpuinfo Multiline.parse
  cases file with
  | none => exact ⟨0, table, false, rfl, rfl⟩
  | some content =>
    obtain ⟨s', ok, h1, st, rfl, h3⟩ := Multiline.loop_invariant (parseLine maxCount)
      (fun s => ∃ st : State, s = some st ∧ st.table.length = table.length)
      (by
        rintro s l n ⟨st, rfl, ht⟩
        unfold parseLine
        simp only [Option.bind_some]
        split
        · exact ⟨st, rfl, ht⟩
        · split
          · split
            · rw [modifyAt_eq _ _ _ (by omega)]
              exact ⟨_, rfl, by simp [ht]⟩
            · exact ⟨st, rfl, ht⟩
          · split
            · split
              · exact ⟨_, rfl, ht⟩
              · rw [modifyAt_eq _ _ _ (by omega)]
                exact ⟨_, rfl, by simp [ht]⟩
            · exact ⟨st, rfl, ht⟩)
      2048 sched (content.length + 1) 0 [] content (some ⟨0, table⟩) 1 ⟨_, rfl, rfl⟩ (by omega)
    exact ⟨st.index, st.table, ok, h1, h3⟩

/-- Non-vacuity of C11: two processors, the second beyond the table. -/
example : parseProcCpuinfo (some b!"processor\t: 1\nflags\t\t: fpu\napicid\t\t: 6\n\nprocessor\t: 2\napicid\t\t: 7\n")
    (fun _ => some 4) 2 [⟨0, 0, 1⟩, ⟨0, 1, 1⟩] =
    some (some ⟨2, [⟨0, 0, 1⟩, ⟨6, 1, 0x881⟩]⟩, true) := by decide +kernel

/-- The block hypotheses of C11 are met by a typical block. -/
example : (ProcBlock.mk 1 [b!"flags\t\t: fpu"] 6 [[]]).Ok := by
  refine ⟨by decide, by decide, ?_, ?_⟩
  · intro l hl; simp at hl; subst hl
    intro key hk ws rest hws h
    rcases hk with rfl | rfl <;> simp at h
  · intro l hl; simp at hl; subst hl
    intro key hk ws rest hws h
    rcases hk with rfl | rfl <;> simp at h

/-- **C12 is violated.** A value with a non-digit character is not read as its leading decimal
digits: `1:` is read as 20. -/
theorem C12_violated :
    ¬ ∀ (ds junk : Bytes), IsNumeral ds → (∀ c, junk.head? = some c → ¬ IsDigit c) →
      parseProcessorNumber (ds ++ junk) = decimal ds % U32 := by
  intro h
  have := h b!"1" b!":" ⟨by decide, by simp [IsDigit]⟩ (by simp [IsDigit])
  exact absurd this (by decide)

/-- **C12 is violated** end to end: the line `processor : 1:` selects processor 20. -/
theorem C12_violated_in_file :
    parseProcCpuinfo (some b!"processor\t: 1:\n") (fun _ => some 100) 2 [⟨0, 0, 0⟩, ⟨0, 1, 0⟩] =
      some (some ⟨20, [⟨0, 0, 0⟩, ⟨0, 1, 0⟩]⟩, true) := by decide +kernel

/-- **C12, what holds.** A value whose digits are followed by anything but `:` is read as its
leading digits.  Missing for the full C12: `:` after the digits (false, see `C12_violated`). -/
theorem C12_plain_decimal_partial (ds junk : Bytes) (hds : ∀ d ∈ ds, IsDigit d)
    (hj : ∀ c, junk.head? = some c → ¬ IsDigit c ∧ c ≠ 58) :
    parseProcessorNumber (ds ++ junk) = decimal ds % U32 :=
  numberLoop_run ds junk 0 hds (by omega) hj

/-- Non-vacuity: `12 (offline)`. -/
example : parseProcessorNumber b!"12 (offline)" = 12 := by decide +kernel

end Verif.Props
