import Verif.Model.ArmCpuinfo
import Verif.Spec.ArmCpuinfo
import Verif.Proof.ArmMidr
import Verif.Proof.Words
import Verif.Proof.X86Cpuinfo

/-! Helper lemmas for the ARM /proc/cpuinfo parser. -/

set_option autoImplicit false

namespace Verif.ArmCpuinfo
open Spec ArmMidr

/-! ## Feature words -/

theorem words_cons_run (w r : Bytes) (hw : w ≠ []) (h : 32 ∉ w) (hr : ∀ c, r.head? = some c → c = 32) :
    words (w ++ r) = w :: words r := by
  unfold words
  rw [wordsFrom_append w h, List.nil_append]
  cases r with
  | nil => simp [wordsFrom, hw]
  | cons c r => simp [wordsFrom, hr c rfl, hw]

theorem words_skip (r : Bytes) : words (r.dropWhile (· == 32)) = words r := by
  induction r with
  | nil => rfl
  | cons c r ih =>
    by_cases hc : c = 32
    · subst hc
      have e : words (32 :: r) = words r := by unfold words; simp [wordsFrom]
      rw [e]
      simpa using ih
    · have : (c == 32) = false := by simpa using hc
      simp [this]

theorem dropWhile_nil (p : Byte → Bool) (l : Bytes) (h : l.dropWhile p = []) :
    ∀ x ∈ l, p x = true := by
  induction l with
  | nil => simp
  | cons c l ih =>
    by_cases hc : p c = true
    · rw [List.dropWhile_cons_of_pos hc] at h
      intro x hx
      rcases List.mem_cons.mp hx with rfl | hx
      · exact hc
      · exact ih h x hx
    · rw [List.dropWhile_cons_of_neg hc] at h
      cases h

theorem featuresLoop_spec (a : Arch) : ∀ (n : Nat) (v : Bytes) (p : Proc), v.length < n → v ≠ [] →
    v.head? ≠ some 32 → v.getLast? ≠ some 32 →
    featuresLoop a n v p = some ((words v).foldl (fun p w => applyFeature a w p) p) := by
  intro n
  induction n with
  | zero => intro v p h; omega
  | succ n ih =>
    intro v p hn hv hh hl
    cases v with
    | nil => exact absurd rfl hv
    | cons c cs =>
      rw [featuresLoop]
      have hc : c ≠ 32 := fun e => hh (by simp [e])
      have hsplit : c :: cs = (c :: cs.takeWhile (· != 32)) ++ cs.dropWhile (· != 32) := by
        simp [List.takeWhile_append_dropWhile]
      have hw : 32 ∉ c :: cs.takeWhile (· != 32) := by
        intro hm
        rcases List.mem_cons.mp hm with e | e
        · exact hc e.symm
        · have := List.all_eq_true.mp (List.all_takeWhile (p := (· != 32)) (l := cs)) 32 e
          simp at this
      have hr : ∀ x, (cs.dropWhile (· != 32)).head? = some x → x = 32 := by
        intro x hx
        have := List.head?_dropWhile_not (fun y : Byte => y != 32) cs
        rw [hx] at this
        simpa using this
      have hwords : words (c :: cs) =
          (c :: cs.takeWhile (· != 32)) :: words (cs.dropWhile (· != 32)) := by
        rw [hsplit]
        exact words_cons_run _ _ (by simp) hw hr
      rw [hwords]
      cases hrest : cs.dropWhile (· != 32) with
      | nil => simp [words, wordsFrom]
      | cons d ds =>
        dsimp only
        have hd : d = 32 := hr d (by rw [hrest]; rfl)
        have hlen : (d :: ds).length ≤ cs.length := by
          rw [← hrest]; exact (List.dropWhile_sublist _).length_le
        have hdl : ((d :: ds).dropWhile (· == 32)).length ≤ ds.length := by
          rw [hd]
          simp only [BEq.rfl, List.dropWhile_cons_of_pos]
          exact (List.dropWhile_sublist _).length_le
        have hlast : (d :: ds).getLast? = (c :: cs).getLast? := by
          rw [hsplit, hrest, List.getLast?_append]
          simp [List.getLast?_cons]
        have hne : (d :: ds).dropWhile (· == 32) ≠ [] := by
          intro e
          have hall : ∀ x ∈ d :: ds, x = 32 := by
            intro x hx
            have := dropWhile_nil _ _ e x hx
            simpa using this
          have hg : (d :: ds).getLast? = some ((d :: ds).getLast (by simp)) :=
            List.getLast?_eq_some_getLast (by simp)
          have := hall _ (List.getLast_mem (l := d :: ds) (by simp))
          rw [hlast] at hg
          exact hl (by rw [hg, this])
        rw [ih ((d :: ds).dropWhile (· == 32)) _ (by simp at hn hlen hdl; omega) hne ?_ ?_, words_skip]
        · rfl
        · intro e
          have := List.head?_dropWhile_not (fun y : Byte => y == 32) (d :: ds)
          rw [e] at this
          simp at this
        · intro e
          have hsuf : (d :: ds).dropWhile (· == 32) <:+ d :: ds := List.dropWhile_suffix _
          obtain ⟨t, ht⟩ := hsuf
          have : (d :: ds).getLast? = some 32 := by
            rw [← ht, List.getLast?_append, e]; rfl
          rw [hlast] at this
          exact hl this

/-- Words that are accepted without effect by the 32-bit parser. -/
def silentWords : List Bytes :=
  [b!"fp", b!"fphp", b!"fcma", b!"i8mm", b!"asimd", b!"cpuid", b!"jscvt", b!"lrcpc", b!"atomics",
    b!"asimdhp", b!"asimdrdm", b!"asimdfhm"]

/-- All words the parser compares with. -/
def knownWords (a : Arch) : List Bytes := (featureTable a).map (·.1) ++ silentWords

theorem featureWord_none (a : Arch) (w : Bytes) (h : w ∉ knownWords a) : featureWord a w = none := by
  cases a with
  | arm64 =>
    simp only [knownWords, featureTable, featureWords64, silentWords, List.map_cons, List.map_nil,
      List.mem_append, List.mem_cons, List.not_mem_nil, or_false, not_or] at h
    simp only [featureWord, h, if_false]
  | arm =>
    simp only [knownWords, featureTable, featureWords32, silentWords, List.map_cons, List.map_nil,
      List.mem_append, List.mem_cons, List.not_mem_nil, or_false, not_or] at h
    simp only [featureWord, h, if_false]

/-- The bits a word stands for; the whole table is checked. -/
theorem featureWord_known (a : Arch) : ∀ w ∈ knownWords a,
    ((featureWord a w).getD (0, 0)).1 < 2 ^ 32 ∧ ((featureWord a w).getD (0, 0)).2 < 2 ^ 32 ∧
    ∀ k < 32,
      (((featureWord a w).getD (0, 0)).1.testBit k = true ↔ (w, 1, k) ∈ featureTable a) ∧
      (((featureWord a w).getD (0, 0)).2.testBit k = true ↔ (w, 2, k) ∈ featureTable a) := by
  cases a <;> decide +kernel

theorem featureTable_bits (a : Arch) : ∀ e ∈ featureTable a, e.1 ∈ knownWords a ∧ e.2.2 < 32 := by
  cases a <;> decide +kernel

theorem featureWord_spec (a : Arch) (w : Bytes) (k : Nat) :
    (((featureWord a w).getD (0, 0)).1.testBit k = true ↔ (w, 1, k) ∈ featureTable a) ∧
    (((featureWord a w).getD (0, 0)).2.testBit k = true ↔ (w, 2, k) ∈ featureTable a) := by
  by_cases hw : w ∈ knownWords a
  · obtain ⟨h1, h2, h3⟩ := featureWord_known a w hw
    by_cases hk : k < 32
    · exact h3 k hk
    · have hp : 2 ^ 32 ≤ 2 ^ k := Nat.pow_le_pow_right (by omega) (by omega)
      rw [Nat.testBit_lt_two_pow (Nat.lt_of_lt_of_le h1 hp),
        Nat.testBit_lt_two_pow (Nat.lt_of_lt_of_le h2 hp)]
      have : ∀ n, (w, n, k) ∉ featureTable a := fun n hm => hk (featureTable_bits a _ hm).2
      simp [this]
  · rw [featureWord_none a w hw]
    have : ∀ n, (w, n, k) ∉ featureTable a := fun n hm => hw (featureTable_bits a _ hm).1
    simp [this]

theorem applyFeature_eq (a : Arch) (w : Bytes) (p : Proc) :
    applyFeature a w p =
      { p with features := p.features ||| ((featureWord a w).getD (0, 0)).1,
               features2 := p.features2 ||| ((featureWord a w).getD (0, 0)).2 } := by
  unfold applyFeature
  cases featureWord a w with
  | none => simp
  | some e => rfl

/-- The effect of a list of words. -/
theorem applyFeatures_spec (a : Arch) (ws : List Bytes) : ∀ (p : Proc), ∃ f f2 : Nat,
    ws.foldl (fun p w => applyFeature a w p) p = { p with features := f, features2 := f2 } ∧
    (∀ k, f.testBit k = true ↔ p.features.testBit k = true ∨ ∃ w ∈ ws, (w, 1, k) ∈ featureTable a) ∧
    (∀ k, f2.testBit k = true ↔ p.features2.testBit k = true ∨
      ∃ w ∈ ws, (w, 2, k) ∈ featureTable a) := by
  induction ws with
  | nil => intro p; exact ⟨p.features, p.features2, rfl, by simp, by simp⟩
  | cons w ws ih =>
    intro p
    obtain ⟨f, f2, e, h1, h2⟩ := ih (applyFeature a w p)
    rw [applyFeature_eq] at e h1 h2
    refine ⟨f, f2, ?_, ?_, ?_⟩
    · rw [List.foldl_cons, applyFeature_eq]; exact e
    · intro k
      rw [h1 k, Nat.testBit_or, Bool.or_eq_true, (featureWord_spec a w k).1]
      simp [or_assoc]
    · intro k
      rw [h2 k, Nat.testBit_or, Bool.or_eq_true, (featureWord_spec a w k).2]
      simp [or_assoc]

/-! ## Values of fields -/

theorem hexDigit_spec (c : Byte) :
    (IsHexDigit c → hexDigit c = some (hexDigitValue c) ∧ hexDigitValue c < 16) ∧
    (¬ IsHexDigit c → hexDigit c = none) := by
  unfold IsHexDigit hexDigit hexDigitValue
  constructor
  · intro h
    rcases h with h | h | h
    · rw [if_pos h, if_pos h.2]; constructor
      · rfl
      · omega
    · rw [if_neg (by omega), if_pos (by omega), if_neg (by omega), if_pos (by omega)]
      constructor
      · congr 1; omega
      · omega
    · rw [if_neg (by omega), if_neg (by omega), if_pos (by omega), if_neg (by omega),
        if_neg (by omega)]
      constructor
      · congr 1; omega
      · omega
  · intro h
    rw [if_neg (by omega), if_neg (by omega), if_neg (by omega)]

theorem hexLoop_bad (ds : Bytes) : ∀ n, (¬ ∀ c ∈ ds, IsHexDigit c) → hexLoop ds n = none := by
  induction ds with
  | nil => intro n h; exact absurd (by simp) h
  | cons c cs ih =>
    intro n h
    rw [hexLoop]
    by_cases hc : IsHexDigit c
    · rw [((hexDigit_spec c).1 hc).1]
      apply ih
      intro hall
      exact h (by simpa [hc] using hall)
    · rw [(hexDigit_spec c).2 hc]

theorem hexLoop_good (ds : Bytes) : ∀ n, (∀ c ∈ ds, IsHexDigit c) → n * 16 ^ ds.length < U32 →
    (n + 1) * 16 ^ ds.length ≤ U32 →
    hexLoop ds n = some (ds.foldl (fun n c => n * 16 + hexDigitValue c) n) ∧
    ds.foldl (fun n c => n * 16 + hexDigitValue c) n < (n + 1) * 16 ^ ds.length := by
  induction ds with
  | nil => intro n _ _ _; simp [hexLoop]
  | cons c cs ih =>
    intro n h h1 h2
    obtain ⟨e, hlt⟩ := (hexDigit_spec c).1 (h c (by simp))
    rw [hexLoop, e]
    dsimp only
    rw [List.length_cons, Nat.pow_succ] at h1 h2
    have hp : 1 ≤ 16 ^ cs.length := Nat.one_le_pow _ _ (by omega)
    have hb : (n * 16 + hexDigitValue c + 1) * 16 ^ cs.length ≤ (n + 1) * (16 ^ cs.length * 16) := by
      have : n * 16 + hexDigitValue c + 1 ≤ (n + 1) * 16 := by omega
      calc (n * 16 + hexDigitValue c + 1) * 16 ^ cs.length ≤ (n + 1) * 16 * 16 ^ cs.length :=
            Nat.mul_le_mul_right _ this
        _ = (n + 1) * (16 ^ cs.length * 16) := by rw [Nat.mul_assoc, Nat.mul_comm 16]
    have hx : n * 16 + hexDigitValue c + 1 ≤ (n * 16 + hexDigitValue c + 1) * 16 ^ cs.length :=
      Nat.le_mul_of_pos_right _ hp
    have hy : (n * 16 + hexDigitValue c) * 16 ^ cs.length <
        (n * 16 + hexDigitValue c + 1) * 16 ^ cs.length := Nat.mul_lt_mul_of_pos_right (by omega) hp
    rw [Nat.mod_eq_of_lt (by omega)]
    obtain ⟨e1, e2⟩ := ih (n * 16 + hexDigitValue c) (fun x hx => h x (by simp [hx]))
      (by omega) (by omega)
    rw [List.foldl_cons, List.length_cons, Nat.pow_succ]
    exact ⟨e1, by omega⟩

theorem hexNumber_lt (ds : Bytes) (h : ∀ c ∈ ds, IsHexDigit c) (hl : ds.length ≤ 7) :
    hexLoop ds 0 = some (hexNumber ds) ∧ hexNumber ds < 16 ^ ds.length := by
  have hp : 16 ^ ds.length ≤ 16 ^ 7 := Nat.pow_le_pow_right (by omega) hl
  have := hexLoop_good ds 0 h (by omega) (by omega)
  unfold hexNumber
  exact ⟨this.1, by omega⟩

theorem parseHex_good (most : Nat) (v ds : Bytes) (hm : most ≤ 7) (h : IsHexText most v ds) :
    parseHex 3 (most + 2) v = some (hexNumber ds) ∧ hexNumber ds < 16 ^ most := by
  obtain ⟨rfl, h1, h2, h3⟩ := h
  obtain ⟨e, hlt⟩ := hexNumber_lt ds h3 (by omega)
  unfold parseHex
  rw [if_neg (by simp; omega)]
  refine ⟨e, Nat.lt_of_lt_of_le hlt (Nat.pow_le_pow_right (by omega) h2)⟩

theorem parseHex_bad (most : Nat) (v : Bytes) (h : ∀ ds, ¬ IsHexText most v ds) :
    parseHex 3 (most + 2) v = none := by
  unfold parseHex
  split
  · rfl
  · rename_i hlen
    split
    · rename_i ds
      apply hexLoop_bad
      intro hall
      simp only [List.length_cons] at hlen
      exact h ds ⟨rfl, by omega, by omega, hall⟩
    · rfl

theorem decimalLoop_bad (ds : Bytes) : ∀ n, (¬ ∀ c ∈ ds, IsDigit c) → decimalLoop ds n = none := by
  induction ds with
  | nil => intro n h; exact absurd (by simp) h
  | cons c cs ih =>
    intro n h
    rw [decimalLoop]
    by_cases hc : IsDigit c
    · rw [if_neg (by have := (CpuList.digitVal_lt c).mpr hc; omega)]
      apply ih
      intro hall
      exact h (by simpa [hc] using hall)
    · rw [if_pos (by have := mt (CpuList.digitVal_lt c).mp hc; omega)]

theorem decimalLoop_good (ds : Bytes) : ∀ n, (∀ c ∈ ds, IsDigit c) → n < U32 →
    decimalLoop ds n = some (CpuList.decFrom n ds % U32) := by
  induction ds with
  | nil => intro n _ hn; simp [decimalLoop, CpuList.decFrom]; omega
  | cons d ds ih =>
    intro n h hn
    have hd := h d (by simp)
    have h1 := (CpuList.digitVal_lt d).mpr hd
    rw [decimalLoop, if_neg (by omega), ih _ (fun x hx => h x (by simp [hx])) (by omega),
      CpuList.digitVal_eq hd]
    rw [CpuList.decFrom_mod]
    rfl

theorem decimalLoop_spec (ds : Bytes) (h : ∀ c ∈ ds, IsDigit c) :
    decimalLoop ds 0 = some (decimal ds % U32) := by
  rw [decimalLoop_good ds 0 h (by omega), CpuList.decimal_eq]

/-! ## Lines -/

theorem splitLine_value {line key value : Bytes} (h : X86Cpuinfo.splitLine line = some (key, value)) :
    value ≠ [] ∧ value.head? ≠ some 32 ∧ value.getLast? ≠ some 32 := by
  unfold X86Cpuinfo.splitLine at h
  dsimp only at h
  split at h
  · cases h
  · rename_i x after heq
    split at h
    · cases h
    · split at h
      · cases h
      · rename_i hne
        have hv := (Prod.mk.inj (Option.some.inj h)).2
        have hhead := List.head?_dropWhile_not (fun y : Byte => y == 32) after
        generalize after.dropWhile (· == 32) = w at hne hhead hv
        obtain ⟨t, h1, h2⟩ := X86Cpuinfo.dropTrailing_spec (· == 32) w
        rw [hv] at h1
        have hlast : value.getLast? ≠ some 32 := by
          rw [← hv]
          unfold X86Cpuinfo.dropTrailing
          rw [List.getLast?_reverse]
          intro e
          have := List.head?_dropWhile_not (fun y : Byte => y == 32) w.reverse
          rw [e] at this
          simp at this
        cases value with
        | nil =>
          exfalso
          cases w with
          | nil => exact hne rfl
          | cons c w =>
            simp only [List.head?_cons] at hhead
            have := h2 c (by rw [← List.nil_append t, ← h1]; simp)
            simp at hhead this
            exact hhead this
        | cons c value =>
          refine ⟨by simp, ?_, hlast⟩
          rw [h1] at hhead
          simpa using hhead

theorem splitLine_key_value (key ws rest : Bytes) (hk : 58 ∉ key) (hk0 : key ≠ [])
    (hkl : ∀ c, key.getLast? = some c → c ≠ 32 ∧ c ≠ 9) (hws : ∀ c ∈ ws, c = 32 ∨ c = 9) :
    X86Cpuinfo.splitLine (key ++ ws ++ 58 :: rest) = none ∨
    ∃ value, X86Cpuinfo.splitLine (key ++ ws ++ 58 :: rest) = some (key, value) := by
  unfold X86Cpuinfo.splitLine
  have h58 : 58 ∉ key ++ ws := by
    intro h; simp at h
    rcases h with h | h
    · exact hk h
    · have := hws _ h; omega
  obtain ⟨e1, e2⟩ := X86Cpuinfo.takeDrop_colon (key ++ ws) rest h58
  rw [e1, e2]
  dsimp only
  rw [X86Cpuinfo.dropTrailing_eq _ key ws (by simpa using hws) (by
    intro c hc; have := hkl c hc; simp [this])]
  rw [if_neg hk0]
  split
  · exact .inl rfl
  · exact .inr ⟨_, rfl⟩

/-- Apply `f` to entry `i` if it is below the limit. -/
def upd (m i : Nat) (f : Proc → Proc) (t : List Proc) : List Proc :=
  if i < m then t.modify i f else t

theorem upd_length (m i : Nat) (f : Proc → Proc) (t : List Proc) :
    (upd m i f t).length = t.length := by
  unfold upd; split <;> simp

theorem upd_upd (m i : Nat) (f g : Proc → Proc) (t : List Proc) :
    upd m i g (upd m i f t) = upd m i (fun p => g (f p)) t := by
  unfold upd
  split
  · apply List.ext_getElem?
    intro j
    simp only [List.getElem?_modify]
    cases t[j]? with
    | none => simp
    | some p => simp; split <;> simp
  · rfl

theorem upd_get (m i j : Nat) (f : Proc → Proc) (t : List Proc) :
    (upd m i f t)[j]? = if i = j ∧ i < m then t[j]?.map f else t[j]? := by
  unfold upd
  by_cases h : i < m
  · rw [if_pos h, List.getElem?_modify]
    by_cases hj : i = j
    · subst hj; simp [h]
    · simp [hj]
  · simp [h]

theorem set_eq_modify (t : List Proc) (i : Nat) (f : Proc → Proc) (p : Proc) (h : t[i]? = some p) :
    t.set i (f p) = t.modify i f := by
  apply List.ext_getElem?
  intro j
  rw [List.getElem?_modify]
  by_cases hj : j = i
  · subst hj
    have : j < t.length := (List.getElem?_eq_some_iff.mp h).1
    have e : t[j] = p := (List.getElem?_eq_some_iff.mp h).2
    simp [this, e]
  · rw [List.getElem?_set_ne (Ne.symm hj)]
    simp [Ne.symm hj]

theorem update_eq (st : State) (m : Nat) (f : Proc → Option Proc) (g : Proc → Proc)
    (hf : ∀ p, f p = some (g p)) (hm : m ≤ st.table.length) :
    st.update m f = some { st with table := upd m st.index g st.table } := by
  unfold State.update upd
  by_cases h : st.index < m
  · rw [if_pos h, if_pos h]
    have hlt : st.index < st.table.length := by omega
    have hg : st.table[st.index]? = some st.table[st.index] := List.getElem?_eq_getElem hlt
    rw [hg]
    dsimp only
    rw [hf, Option.map_some, set_eq_modify _ _ g _ hg]
  · rw [if_neg h, if_neg h]

/-- A line about the current processor. -/
theorem parseLine_field (a : Arch) (m : Nat) (st : State) (line key value : Bytes) (k : Nat)
    (f : Proc → Option Proc) (g : Proc → Proc)
    (hs : X86Cpuinfo.splitLine line = some (key, value))
    (h1 : key ≠ b!"Hardware") (h2 : key ≠ b!"Revision") (h3 : key ≠ b!"processor")
    (hp : fieldParser a key value = some f) (hf : ∀ p, f p = some (g p))
    (hm : m ≤ st.table.length) :
    parseLine a m (some st) line k =
      (some { st with table := upd m st.index g st.table }, true) := by
  unfold parseLine
  simp only [Option.bind_some, hs]
  unfold parseKeyValue
  rw [if_neg h1, if_neg h2, if_neg h3, hp]
  dsimp only
  rw [update_eq st m f g hf hm]

/-- A line without effect. -/
theorem parseLine_silent (a : Arch) (m : Nat) (st : State) (line key : Bytes) (k : Nat)
    (hs : X86Cpuinfo.splitLine line = none ∨
      ∃ value, X86Cpuinfo.splitLine line = some (key, value))
    (h1 : key ≠ b!"Hardware") (h2 : key ≠ b!"Revision") (h3 : key ≠ b!"processor")
    (hp : ∀ value, fieldParser a key value = none) :
    parseLine a m (some st) line k = (some st, true) := by
  unfold parseLine
  rcases hs with hs | ⟨value, hs⟩
  · simp only [Option.bind_some, hs]
  · simp only [Option.bind_some, hs]
    unfold parseKeyValue
    rw [if_neg h1, if_neg h2, if_neg h3, hp]

/-- The line announcing a processor. -/
theorem parseLine_processor (a : Arch) (m : Nat) (st : State) (line value : Bytes) (n k : Nat)
    (hs : X86Cpuinfo.splitLine line = some (b!"processor", value))
    (hn : X86Cpuinfo.parseProcessorNumber value = n) (hm : m ≤ st.table.length) :
    parseLine a m (some st) line k =
      (some { st with
        index := n
        table := upd m n (fun p => { p with flags := p.flags ||| validProcessor }) st.table },
       true) := by
  unfold parseLine
  simp only [Option.bind_some, hs]
  unfold parseKeyValue upd
  rw [if_neg (by decide), if_neg (by decide), if_pos rfl, hn]
  by_cases h : n < m
  · have hlt : n < st.table.length := by omega
    have hg : st.table[n]? = some st.table[n] := List.getElem?_eq_getElem hlt
    dsimp only
    rw [if_pos h, if_pos h, hg]
    dsimp only
    rw [set_eq_modify _ _ (fun p => { p with flags := p.flags ||| validProcessor }) _ hg]
  · rw [if_neg h, if_neg h]

/-! ## Blocks of 64-bit kernels -/

theorem hexChar_spec (d : Nat) (h : d < 16) : IsHexDigit (hexChar d) ∧ hexDigitValue (hexChar d) = d := by
  unfold hexChar IsHexDigit hexDigitValue
  split
  · constructor
    · omega
    · rw [if_pos (by omega)]; omega
  · constructor
    · omega
    · rw [if_neg (by omega), if_neg (by omega)]; omega

theorem printHex_spec (k n : Nat) (h : n < 16 ^ k) :
    (printHex k n).length = k ∧ (∀ c ∈ printHex k n, IsHexDigit c) ∧ hexNumber (printHex k n) = n := by
  induction k generalizing n with
  | zero => simp [printHex, hexNumber]; omega
  | succ k ih =>
    rw [Nat.pow_succ] at h
    obtain ⟨h1, h2, h3⟩ := ih (n / 16) (by omega)
    obtain ⟨c1, c2⟩ := hexChar_spec (n % 16) (by omega)
    refine ⟨by simp [printHex, h1], ?_, ?_⟩
    · intro c hc
      rw [printHex, List.mem_append] at hc
      rcases hc with hc | hc
      · exact h2 c hc
      · rw [List.mem_singleton.mp hc]; exact c1
    · rw [printHex]
      unfold hexNumber at h3 ⊢
      rw [List.foldl_append, h3]
      simp only [List.foldl_cons, List.foldl_nil, c2]
      omega

theorem hexText_print (most k n : Nat) (hk : 1 ≤ k) (hm : k ≤ most) (h : n < 16 ^ k) :
    IsHexText most (b!"0x" ++ printHex k n) (printHex k n) := by
  obtain ⟨h1, h2, _⟩ := printHex_spec k n h
  exact ⟨rfl, by omega, by omega, h2⟩

theorem hexDigit_ne (c : Byte) (h : IsHexDigit c) : c ≠ 32 := by
  unfold IsHexDigit at h; omega

theorem splitLine_hex (key ws : Bytes) (k n : Nat) (hk : 58 ∉ key) (hk0 : key ≠ [])
    (hkl : ∀ c, key.getLast? = some c → c ≠ 32 ∧ c ≠ 9) (hws : ∀ c ∈ ws, c = 32 ∨ c = 9)
    (hn : n < 16 ^ k) (hpos : 1 ≤ k) :
    X86Cpuinfo.splitLine (key ++ ws ++ 58 :: (b!" 0x" ++ printHex k n)) =
      some (key, b!"0x" ++ printHex k n) := by
  obtain ⟨h1, h2, _⟩ := printHex_spec k n hn
  have := X86Cpuinfo.splitLine_eq key ws [32] (b!"0x" ++ printHex k n) [] hk hk0 hkl hws (by simp)
    (by simp) (by simp) (by intro c hc; simp at hc; omega)
    (by
      intro c hc
      rw [List.getLast?_append] at hc
      cases hl : (printHex k n).getLast? with
      | none =>
        rw [List.getLast?_eq_none_iff] at hl
        rw [hl] at h1
        simp at h1; omega
      | some d =>
        rw [hl] at hc
        simp at hc
        subst hc
        exact hexDigit_ne d (h2 d (List.mem_of_getLast? hl)))
  simpa using this

theorem parsePart_print (n : Nat) (h : n < 4096) (p : Proc) :
    parsePart (b!"0x" ++ printHex 3 n) p =
      { p with midr := setPart p.midr n, flags := p.flags ||| (validPart ||| validProcessor) } := by
  unfold parsePart
  rw [(parseHex_good 3 _ _ (by omega) (hexText_print 3 3 n (by omega) (by omega) (by omega))).1,
    (printHex_spec 3 n (by omega)).2.2]

theorem parseImplementer_print (n : Nat) (h : n < 256) (p : Proc) :
    parseImplementer (b!"0x" ++ printHex 2 n) p =
      { p with midr := setImplementer p.midr n,
               flags := p.flags ||| (validImplementer ||| validProcessor) } := by
  unfold parseImplementer
  rw [(parseHex_good 2 _ _ (by omega) (hexText_print 2 2 n (by omega) (by omega) (by omega))).1,
    (printHex_spec 2 n (by omega)).2.2]

theorem parseVariant_print (n : Nat) (h : n < 16) (p : Proc) :
    parseVariant (b!"0x" ++ printHex 1 n) p =
      { p with midr := setVariant p.midr n,
               flags := p.flags ||| (validVariant ||| validProcessor) } := by
  unfold parseVariant
  rw [(parseHex_good 1 _ _ (by omega) (hexText_print 1 1 n (by omega) (by omega) (by omega))).1,
    (printHex_spec 1 n (by omega)).2.2]

theorem parseRevision_print (n : Nat) (h : n < 16) (p : Proc) :
    parseRevision (printNat n) p =
      { p with midr := setRevision p.midr n,
               flags := p.flags ||| (validRevision ||| validProcessor) } := by
  unfold parseRevision
  rw [decimalLoop_spec _ (printNat_numeral n).2, decimal_printNat, Nat.mod_eq_of_lt (by omega)]

theorem parseArchitecture_8 (a : Arch) (p : Proc) :
    parseArchitecture a b!"8" p =
      { p with architectureVersion := 8, midr := setArchitecture p.midr 0xF,
               flags := p.flags ||| (validArchitecture ||| validProcessor) } := by
  unfold parseArchitecture
  rw [if_neg (by decide)]
  have e : architectureDigits b!"8" 0 = (8, []) := by decide
  rw [e]
  cases a <;> rfl

end Verif.ArmCpuinfo
