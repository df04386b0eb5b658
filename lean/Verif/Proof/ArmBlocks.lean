import Verif.Proof.ArmCpuinfo

/-! Running the ARM /proc/cpuinfo parser over the blocks a 64-bit kernel prints. -/

set_option autoImplicit false

namespace Verif.ArmCpuinfo
open Spec ArmMidr

/-- The effect of the register and feature lines of a block on its processor. -/
def blockProc (a : Arch) (b : ArmBlock) (p : Proc) : Proc :=
  parseRevision (printNat b.midr.revision)
    (parsePart (b!"0x" ++ printHex 3 b.midr.part)
      (parseVariant (b!"0x" ++ printHex 1 b.midr.variant)
        (parseArchitecture a b!"8"
          (parseImplementer (b!"0x" ++ printHex 2 b.midr.implementer)
            (b.features.foldl (fun p w => applyFeature a w p)
              { p with flags := p.flags ||| validProcessor |||
                  (validFeatures ||| validProcessor) })))))

theorem blockProc_spec (a : Arch) (b : ArmBlock) (hb : b.Ok) (p : Proc) (hp : p.midr < U32) :
    ∃ f f2 : Nat, blockProc a b p =
      { p with features := f, features2 := f2, architectureVersion := 8, midr := b.midr.word,
               flags := p.flags ||| 0x7F0000 } ∧
    (∀ k, f.testBit k = true ↔ p.features.testBit k = true ∨
      ∃ w ∈ b.features, (w, 1, k) ∈ featureTable a) ∧
    (∀ k, f2.testBit k = true ↔ p.features2.testBit k = true ∨
      ∃ w ∈ b.features, (w, 2, k) ∈ featureTable a) := by
  obtain ⟨_, _, _, _, ⟨m1, m2, m3, m4, m5⟩, h15⟩ := hb
  obtain ⟨f, f2, e, h1, h2⟩ := applyFeatures_spec a b.features
    { p with flags := p.flags ||| validProcessor ||| (validFeatures ||| validProcessor) }
  refine ⟨f, f2, ?_, h1, h2⟩
  unfold blockProc
  rw [e, parseImplementer_print _ m1, parseArchitecture_8, parseVariant_print _ m2,
    parsePart_print _ m4, parseRevision_print _ m5]
  dsimp only
  have ew : setRevision (setPart (setVariant (setArchitecture (setImplementer p.midr
      b.midr.implementer) 15) b.midr.variant) b.midr.part) b.midr.revision = b.midr.word := by
    have ho := of_ok hp
    generalize hm : Midr.of p.midr = m at ho
    have hpm : p.midr = m.word := by rw [← hm, word_of]
    obtain ⟨o1, o2, o3, o4, o5⟩ := ho
    rw [hpm, setImplementer_word (m := m) ⟨o1, o2, o3, o4, o5⟩, Nat.mod_eq_of_lt m1,
      setArchitecture_word (m := { m with implementer := b.midr.implementer })
        ⟨m1, o2, o3, o4, o5⟩]
    dsimp only
    rw [setVariant_word (m := ⟨b.midr.implementer, m.variant, 15 % 16, m.part, m.revision⟩)
        ⟨m1, o2, by dsimp only; omega, o4, o5⟩, Nat.mod_eq_of_lt m2]
    dsimp only
    rw [setPart_word (m := ⟨b.midr.implementer, b.midr.variant, 15 % 16, m.part, m.revision⟩)
        ⟨m1, m2, by dsimp only; omega, o4, o5⟩, Nat.mod_eq_of_lt m4]
    dsimp only
    rw [setRevision_word (m := ⟨b.midr.implementer, b.midr.variant, 15 % 16, b.midr.part,
        m.revision⟩) ⟨m1, m2, by dsimp only; omega, m4, o5⟩, Nat.mod_eq_of_lt m5]
    unfold Midr.word
    dsimp only
    rw [h15]
  have ef : p.flags ||| validProcessor ||| (validFeatures ||| validProcessor) |||
      (validImplementer ||| validProcessor) ||| (validArchitecture ||| validProcessor) |||
      (validVariant ||| validProcessor) ||| (validPart ||| validProcessor) |||
      (validRevision ||| validProcessor) = p.flags ||| 0x7F0000 := by
    simp only [Nat.or_assoc]
    congr 1
  rw [ew, ef]

theorem splitLine_features (ws : List Bytes) (hne : ws ≠ []) (h : ∀ w ∈ ws, w ≠ [] ∧ 32 ∉ w) :
    X86Cpuinfo.splitLine (b!"Features\t: " ++ joinWords ws) =
      some (b!"Features", joinWords ws) := by
  have hj : joinWords ws ≠ [] := by
    intro e
    have := words_joinWords ws h
    rw [e] at this
    exact hne (by rw [← this]; rfl)
  have h1 := joinWords_head ws h
  have h2 := joinWords_last ws h
  have := X86Cpuinfo.splitLine_eq b!"Features" b!"\t" [32] (joinWords ws) [] (by decide)
    (by decide) (by decide) (by decide) (by simp) (by simp) hj
    (by intro c hc e; subst e; exact h1 hc) (by intro c hc e; subst e; exact h2 hc)
  simpa using this

theorem splitLine_revision (n : Nat) :
    X86Cpuinfo.splitLine (b!"CPU revision\t: " ++ printNat n) =
      some (b!"CPU revision", printNat n) := by
  have := X86Cpuinfo.splitLine_number b!"CPU revision" b!"\t" n (by decide) (by decide) (by decide)
    (by decide)
  simpa using this

theorem runLines_cons (a : Arch) (m : Nat) (st st' : State) (l : Bytes) (k : Nat) (rest : List Bytes)
    (h : parseLine a m (some st) l k = (some st', true)) :
    runLines (parseLine a m) (some st) k (l :: rest) =
      runLines (parseLine a m) (some st') (k + 1) rest := by
  rw [runLines, h]; rfl

theorem run_block (a : Arch) (m : Nat) (st : State) (b : ArmBlock) (hb : b.Ok) (rest : List Bytes)
    (k : Nat) (hm : m ≤ st.table.length) :
    runLines (parseLine a m) (some st) k (b.lines ++ rest) =
      runLines (parseLine a m) (some { st with
        index := b.number, table := upd m b.number (blockProc a b) st.table }) (k + 9) rest := by
  obtain ⟨h1, h2, h3, h4, ⟨m1, m2, m3, m4, m5⟩, h15⟩ := hb
  have hw : ∀ w ∈ b.features, w ≠ [] ∧ 32 ∉ w := fun w hw => ⟨(h3 w hw).1, (h3 w hw).2.1⟩
  have el : b.lines ++ rest = (b!"processor\t: " ++ printNat b.number) ::
      (b!"BogoMIPS\t: " ++ b.bogomips) :: (b!"Features\t: " ++ joinWords b.features) ::
      (b!"CPU implementer\t: 0x" ++ printHex 2 b.midr.implementer) :: b!"CPU architecture: 8" ::
      (b!"CPU variant\t: 0x" ++ printHex 1 b.midr.variant) ::
      (b!"CPU part\t: 0x" ++ printHex 3 b.midr.part) ::
      (b!"CPU revision\t: " ++ printNat b.midr.revision) :: [] :: rest := rfl
  rw [el]
  rw [runLines_cons a m st _ _ k _ (parseLine_processor a m st
    (b!"processor\t: " ++ printNat b.number) (printNat b.number) b.number k
    (X86Cpuinfo.splitLine_processor b.number) (X86Cpuinfo.parseProcessorNumber_print h1) hm)]
  rw [runLines_cons a m _ _ _ _ _ (parseLine_silent a m _ (b!"BogoMIPS\t: " ++ b.bogomips)
    b!"BogoMIPS" _
    (by
      have := splitLine_key_value b!"BogoMIPS" b!"\t" (32 :: b.bogomips) (by decide) (by decide)
        (by decide) (by decide)
      simpa using this)
    (by decide) (by decide) (by decide) (by intro v; cases a <;> rfl))]
  rw [runLines_cons a m _ _ _ _ _ (parseLine_field a m _
    (b!"Features\t: " ++ joinWords b.features) b!"Features" (joinWords b.features) _
    (parseFeatures a (joinWords b.features))
    (fun p => b.features.foldl (fun p w => applyFeature a w p)
      { p with flags := p.flags ||| (validFeatures ||| validProcessor) })
    (splitLine_features b.features h2 hw) (by decide) (by decide) (by decide)
    (by cases a <;> rfl)
    (by
      intro p
      unfold parseFeatures
      rw [featuresLoop_spec a _ _ _ (by omega), words_joinWords _ hw]
      · intro e
        have := words_joinWords _ hw
        rw [e] at this
        exact h2 (by rw [← this]; rfl)
      · exact joinWords_head _ hw
      · exact joinWords_last _ hw)
    (by simpa [upd_length] using hm))]
  rw [runLines_cons a m _ _ _ _ _ (parseLine_field a m _
    (b!"CPU implementer\t: 0x" ++ printHex 2 b.midr.implementer) b!"CPU implementer" (b!"0x" ++ printHex 2 b.midr.implementer) _
    (fun p => some (parseImplementer (b!"0x" ++ printHex 2 b.midr.implementer) p))
    (parseImplementer (b!"0x" ++ printHex 2 b.midr.implementer))
    (by simpa using splitLine_hex b!"CPU implementer" b!"\t" 2 b.midr.implementer (by decide)
          (by decide) (by decide) (by decide) (by omega) (by omega))
    (by decide) (by decide) (by decide)
    (by cases a <;> rfl) (fun _ => rfl)
    (by simpa [upd_length] using hm))]
  rw [runLines_cons a m _ _ _ _ _ (parseLine_field a m _ b!"CPU architecture: 8" b!"CPU architecture" b!"8" _
    (fun p => some (parseArchitecture a b!"8" p))
    (parseArchitecture a b!"8") (by decide)
    (by decide) (by decide) (by decide)
    (by cases a <;> rfl) (fun _ => rfl)
    (by simpa [upd_length] using hm))]
  rw [runLines_cons a m _ _ _ _ _ (parseLine_field a m _
    (b!"CPU variant\t: 0x" ++ printHex 1 b.midr.variant) b!"CPU variant" (b!"0x" ++ printHex 1 b.midr.variant) _
    (fun p => some (parseVariant (b!"0x" ++ printHex 1 b.midr.variant) p))
    (parseVariant (b!"0x" ++ printHex 1 b.midr.variant))
    (by simpa using splitLine_hex b!"CPU variant" b!"\t" 1 b.midr.variant (by decide)
          (by decide) (by decide) (by decide) (by omega) (by omega))
    (by decide) (by decide) (by decide)
    (by cases a <;> rfl) (fun _ => rfl)
    (by simpa [upd_length] using hm))]
  rw [runLines_cons a m _ _ _ _ _ (parseLine_field a m _
    (b!"CPU part\t: 0x" ++ printHex 3 b.midr.part) b!"CPU part" (b!"0x" ++ printHex 3 b.midr.part) _
    (fun p => some (parsePart (b!"0x" ++ printHex 3 b.midr.part) p))
    (parsePart (b!"0x" ++ printHex 3 b.midr.part))
    (by simpa using splitLine_hex b!"CPU part" b!"\t" 3 b.midr.part (by decide)
          (by decide) (by decide) (by decide) (by omega) (by omega))
    (by decide) (by decide) (by decide)
    (by cases a <;> rfl) (fun _ => rfl)
    (by simpa [upd_length] using hm))]
  rw [runLines_cons a m _ _ _ _ _ (parseLine_field a m _
    (b!"CPU revision\t: " ++ printNat b.midr.revision) b!"CPU revision" (printNat b.midr.revision) _
    (fun p => some (parseRevision (printNat b.midr.revision) p))
    (parseRevision (printNat b.midr.revision))
    (splitLine_revision b.midr.revision)
    (by decide) (by decide) (by decide)
    (by cases a <;> rfl) (fun _ => rfl)
    (by simpa [upd_length] using hm))]
  rw [runLines_cons a m _ _ _ _ _ (parseLine_silent a m _ [] [] _ (.inl rfl) (by decide)
    (by decide) (by decide) (by intro v; cases a <;> rfl))]
  simp only [upd_upd]
  rfl

theorem run_blocks (a : Arch) (m : Nat) (bs : List ArmBlock) (hb : ∀ b ∈ bs, b.Ok)
    (rest : List Bytes) : ∀ (st : State) (k : Nat), m ≤ st.table.length →
    ∃ idx k' : Nat, runLines (parseLine a m) (some st) k (bs.flatMap ArmBlock.lines ++ rest) =
      runLines (parseLine a m) (some { st with
        index := idx
        table := bs.foldl (fun t b => upd m b.number (blockProc a b) t) st.table }) k' rest := by
  induction bs with
  | nil => intro st k _; exact ⟨st.index, k, rfl⟩
  | cons b bs ih =>
    intro st k hm
    rw [List.flatMap_cons, List.append_assoc, run_block a m st b (hb b (by simp)) _ k hm]
    obtain ⟨idx, k', h⟩ := ih (fun x hx => hb x (by simp [hx])) { st with
      index := b.number, table := upd m b.number (blockProc a b) st.table } (k + 9)
      (by simpa [upd_length] using hm)
    exact ⟨idx, k', h⟩

theorem foldl_upd_get (a : Arch) (m : Nat) (bs : List ArmBlock) (i : Nat)
    (hd : (bs.map ArmBlock.number).Nodup) : ∀ (t : List Proc),
    (∀ b ∈ bs, b.number = i → i < m →
      (bs.foldl (fun t b => upd m b.number (blockProc a b) t) t)[i]? = t[i]?.map (blockProc a b)) ∧
    ((∀ b ∈ bs, b.number = i → ¬ i < m) →
      (bs.foldl (fun t b => upd m b.number (blockProc a b) t) t)[i]? = t[i]?) := by
  induction bs with
  | nil => intro t; simp
  | cons b bs ih =>
    intro t
    simp only [List.map_cons, List.nodup_cons] at hd
    obtain ⟨ih1, ih2⟩ := ih hd.2 (upd m b.number (blockProc a b) t)
    constructor
    · intro x hx hxi him
      simp only [List.foldl_cons]
      rcases List.mem_cons.mp hx with rfl | hx
      · rw [ih2 (by
          intro y hy hyi
          exfalso; apply hd.1
          rw [hxi, ← hyi]; exact List.mem_map_of_mem hy), upd_get, if_pos ⟨hxi, by omega⟩]
      · have : b.number ≠ i := by
          intro h; apply hd.1; rw [h, ← hxi]; exact List.mem_map_of_mem hx
        rw [ih1 x hx hxi him, upd_get, if_neg (by simp [this])]
    · intro h
      simp only [List.foldl_cons]
      rw [ih2 (fun y hy => h y (by simp [hy])), upd_get, if_neg]
      rintro ⟨e, hlt⟩
      exact h b (by simp) e (by omega)

end Verif.ArmCpuinfo
