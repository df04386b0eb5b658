import Verif.Proof.X86Cores

/-!
# C162: the microarchitecture of x86 processors
-/
set_option autoImplicit false

namespace Verif.Props
open X86Cpuid Spec X86Cores

/-- Decoding agrees with the table, for a signature in display form. -/
private theorem x86_agrees (t : Target) (v : Vendor) (eax : Nat) (hp : PlainSignature eax)
    (hh : v = .hygon → displayFamily eax ≠ 0) :
    agreesB (rowsOf v (displayFamily eax)) (missedOf v (displayFamily eax)) t.x86_32
      (displayModel eax) (decodeUarch t v (decodeModelInfo eax)) = true := by
  have hf : (decodeModelInfo eax).family = displayFamily eax := by
    simp only [modelInfo_eq, displayFamily]; have := hp.1; split <;> omega
  have hm : (decodeModelInfo eax).model = displayModel eax := by
    simp only [modelInfo_eq, displayModel]; have := hp.2; split <;> omega
  rw [← hf, ← hm]
  refine decoded_agrees t v _ ?_ ?_ (fun e => hf ▸ hh e)
  · simp only [modelInfo_eq]; omega
  · simp only [modelInfo_eq]; omega

/-- **C162, soundness.** A known microarchitecture is only reported for processors that have it: for
every vendor and every signature whose reserved fields are zero. -/
theorem C162_sound_partial (t : Target) (v : Vendor) (eax : Nat) (hp : PlainSignature eax)
    (hh : v = .hygon → displayFamily eax ≠ 0)
    (hu : decodeUarch t v (decodeModelInfo eax) ≠ .unknown) :
    Has t.x86_32 v (displayFamily eax) (displayModel eax) (decodeUarch t v (decodeModelInfo eax)) :=
  (agreesB_sound _ _ _ _ _ (x86_agrees t v eax hp hh)).1 hu

/-- **C162, completeness.** Every processor of the table is reported with its microarchitecture, the
missed ones excepted. -/
theorem C162_complete_partial (t : Target) (v : Vendor) (eax : Nat) (hp : PlainSignature eax)
    (u : Uarch) (h : Has t.x86_32 v (displayFamily eax) (displayModel eax) u)
    (hg : ¬ Missed v (displayFamily eax) (displayModel eax)) :
    decodeUarch t v (decodeModelInfo eax) = u := by
  refine ((agreesB_sound _ _ _ _ _ (x86_agrees t v eax hp ?_)).2 u h).2 hg
  rintro - h0
  obtain ⟨r, hr, _, hv, hf, _⟩ := h
  exact rows_family r hr (hf.trans h0)

/-- Sapphire Rapids (family 6, model 0x8F) is in no row; Ice Lake client, Zen 2 (Matisse) and
a 32-bit Pentium III are reported, the last only by a 32-bit build. -/
example :
    (PlainSignature 0x706E5 ∧
      decodeUarch ⟨false, false⟩ .intel (decodeModelInfo 0x706E5) = .sunnyCove) ∧
    (PlainSignature 0x870F10 ∧ decodeUarch ⟨false, false⟩ .amd (decodeModelInfo 0x870F10) = .zen2) ∧
    (PlainSignature 0x6B1 ∧ decodeUarch ⟨true, false⟩ .intel (decodeModelInfo 0x6B1) = .p6 ∧
      decodeUarch ⟨false, false⟩ .intel (decodeModelInfo 0x6B1) = .unknown) ∧
    (PlainSignature 0x806F8 ∧
      decodeUarch ⟨false, false⟩ .intel (decodeModelInfo 0x806F8) = .unknown) := by decide

/-- No processor has two microarchitectures. -/
theorem C162_unique (t : Target) (v : Vendor) (eax : Nat) (hp : PlainSignature eax) (u u' : Uarch)
    (h : Has t.x86_32 v (displayFamily eax) (displayModel eax) u)
    (h' : Has t.x86_32 v (displayFamily eax) (displayModel eax) u')
    (hg : ¬ Missed v (displayFamily eax) (displayModel eax)) : u = u' :=
  (C162_complete_partial t v eax hp u h hg).symm.trans (C162_complete_partial t v eax hp u' h' hg)

/-- **C162, exactly when the answer is "unknown".** For a processor that is in no row of the table,
or in a missed range. -/
theorem C162_unknown_iff (t : Target) (v : Vendor) (eax : Nat) (hp : PlainSignature eax)
    (hh : v = .hygon → displayFamily eax ≠ 0) :
    decodeUarch t v (decodeModelInfo eax) = .unknown ↔
      (∀ u, ¬ Has t.x86_32 v (displayFamily eax) (displayModel eax) u) ∨
      Missed v (displayFamily eax) (displayModel eax) := by
  constructor
  · intro hu
    by_cases hg : Missed v (displayFamily eax) (displayModel eax)
    · exact Or.inr hg
    · refine Or.inl fun u h => ?_
      have := C162_complete_partial t v eax hp u h hg
      obtain ⟨r, hr, hru, _⟩ := h
      exact rows_known r hr (hru.trans (this.symm.trans hu))
  · rintro (h | h)
    · by_cases hu : decodeUarch t v (decodeModelInfo eax) = .unknown
      · exact hu
      · exact absurd (C162_sound_partial t v eax hp hh hu) (h _)
    · obtain ⟨u, _, hu⟩ := missed_has t.x86_32 v _ _ h
      exact ((agreesB_sound _ _ _ _ _ (x86_agrees t v eax hp hh)).2 u hu).1 h

/-- **C162 is violated.** The microarchitecture of each of the missed processors is reported as
unknown, although it has an enumerator and the table has the processor. -/
theorem C162_violated (t : Target) (v : Vendor) (eax : Nat) (hp : PlainSignature eax)
    (hg : Missed v (displayFamily eax) (displayModel eax)) :
    decodeUarch t v (decodeModelInfo eax) = .unknown ∧
    ∃ u, u ≠ .unknown ∧ Has t.x86_32 v (displayFamily eax) (displayModel eax) u := by
  refine ⟨(C162_unknown_iff t v eax hp ?_).mpr (Or.inr hg), missed_has _ _ _ _ hg⟩
  rintro - h0
  obtain ⟨_, _, h⟩ := missed_has t.x86_32 v _ _ hg
  obtain ⟨r, hr, _, _, hf, _⟩ := h
  exact rows_family r hr (hf.trans h0)

/-- Dali (family 0x17, model 0x20), Mendocino (model 0xA0) and MI300A (family 0x19, model 0x90). -/
example :
    (PlainSignature 0x820F01 ∧ Missed .amd (displayFamily 0x820F01) (displayModel 0x820F01) ∧
      displayFamily 0x820F01 = 0x17 ∧ displayModel 0x820F01 = 0x20) ∧
    (PlainSignature 0x8A0F00 ∧ Missed .amd (displayFamily 0x8A0F00) (displayModel 0x8A0F00) ∧
      displayFamily 0x8A0F00 = 0x17 ∧ displayModel 0x8A0F00 = 0xA0) ∧
    (PlainSignature 0xA90F00 ∧ Missed .amd (displayFamily 0xA90F00) (displayModel 0xA90F00) ∧
      displayFamily 0xA90F00 = 0x19 ∧ displayModel 0xA90F00 = 0x90) := by decide

end Verif.Props
