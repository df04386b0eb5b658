import Verif.Model.ArmChipsetDecode
import Verif.Spec.ArmChipsetDecode
import Verif.Proof.ChipsetSafe
import Verif.Proof.ChipsetExactPlatform

/-!
# The chipset decoders
-/

set_option autoImplicit false

namespace Verif.ArmChipset
open Spec.Chipsets

/-! ## The first check that succeeds -/

/-- A check stays inside the string and decides the pattern. -/
structure Decider (s : Bytes) (m : Match Chipset) (P : Pattern) : Prop where
  safe : Safe m
  iff : ∀ c, m = .yes c ↔ P s c

/-- The checks decide the patterns one by one. -/
inductive Deciders (s : Bytes) : List (Match Chipset) → List Pattern → Prop
  | nil : Deciders s [] []
  | cons {m : Match Chipset} {P : Pattern} {ms : List (Match Chipset)} {ps : List Pattern} :
      Decider s m P → Deciders s ms ps → Deciders s (m :: ms) (P :: ps)

theorem deciders_append {s : Bytes} {ms ns : List (Match Chipset)} {ps qs : List Pattern}
    (h : Deciders s ms ps) (h' : Deciders s ns qs) : Deciders s (ms ++ ns) (ps ++ qs) := by
  induction h with
  | nil => exact h'
  | cons h1 _ ih => exact .cons h1 ih

theorem deciders_only {s : Bytes} {arm32 : Bool} {ms : List (Match Chipset)} {ps : List Pattern}
    (h : Deciders s ms ps) : Deciders s (onlyArm32 arm32 ms) (on32 arm32 ps) := by
  cases arm32
  · exact .nil
  · exact h

theorem firstMatch_decides {s : Bytes} {ms : List (Match Chipset)} {ps : List Pattern}
    (h : Deciders s ms ps) : Decider s (firstMatch ms) (First ps) := by
  induction h with
  | nil => exact ⟨safe_no, by simp [firstMatch, First]⟩
  | @cons m P ms ps h1 _ ih =>
    obtain ⟨hs, hi⟩ := h1
    cases m with
    | outside => exact absurd rfl hs
    | no =>
      have hno : ¬ ∃ d, P s d := by
        rintro ⟨d, hd⟩
        exact absurd ((hi d).mpr hd) (by simp)
      refine ⟨ih.safe, fun c => ?_⟩
      simp only [firstMatch, First, ih.iff]
      constructor
      · exact fun h => .inr ⟨hno, h⟩
      · rintro (h | h)
        · exact absurd ⟨c, h⟩ hno
        · exact h.2
    | yes a =>
      refine ⟨safe_yes _, fun c => ?_⟩
      simp only [firstMatch, First, ← hi]
      constructor
      · exact .inl
      · rintro (h | ⟨h, _⟩)
        · exact h
        · exact absurd ⟨a, rfl⟩ h

theorem orUnknown_decodes {s : Bytes} {m : Match Chipset} {ps : List Pattern}
    (h : Decider s m (First ps)) : Decider s (orUnknown m) (Decodes ps) := by
  obtain ⟨hs, hi⟩ := h
  cases m with
  | outside => exact absurd rfl hs
  | no =>
    refine ⟨safe_yes _, fun c => ?_⟩
    have hno : ∀ d, ¬ First ps s d := fun d hd => absurd ((hi d).mpr hd) (by simp)
    simp only [orUnknown, Decodes, Match.yes.injEq, hno, exists_false, not_false_eq_true, false_or,
      true_and]
    exact eq_comm
  | yes a =>
    refine ⟨safe_yes _, fun c => ?_⟩
    simp only [orUnknown, Decodes, ← hi]
    constructor
    · exact .inl
    · rintro (h | ⟨h, _⟩)
      · exact h
      · exact absurd ⟨a, rfl⟩ h

/-! ## Words -/

theorem wordChecks_decides {s : Bytes} (hs : IsBytes s) :
    Decider s (wordChecks s) (First wordPatterns) :=
  firstMatch_decides
    (.cons ⟨msmApq_safe s, fun _ => msmApq_iff hs⟩ <| .cons ⟨sdm_safe s, fun _ => sdm_iff hs⟩ <|
     .cons ⟨sm_safe s, fun _ => sm_iff hs⟩ <| .cons ⟨mt_safe s true, fun _ => mtWhole_iff hs⟩ <|
     .cons ⟨kirin_safe s, fun _ => kirin_iff hs⟩ <| .cons ⟨rk_safe s, fun _ => rk_iff hs⟩ .nil)

/-- A word starts at position `i` of `s`, where `start` says whether one can start at 0. -/
def WordIn (start : Bool) (s : Bytes) (i : Nat) : Prop :=
  (∃ c, s[i]? = some c ∧ Letter c) ∧
    ((i = 0 ∧ start = true) ∨ (0 < i ∧ ∃ c, s[i - 1]? = some c ∧ Separator c))

theorem wordIn_zero {start : Bool} {a : Byte} {s : Bytes} :
    WordIn start (a :: s) 0 ↔ Letter a ∧ start = true := by
  simp [WordIn]

theorem wordIn_succ {start : Bool} {a : Byte} {s : Bytes} {i : Nat} :
    WordIn start (a :: s) (i + 1) ↔ ∃ b, WordIn b s i ∧ (b = true ↔ Separator a) := by
  unfold WordIn
  cases i with
  | zero =>
    simp only [Nat.zero_add, List.getElem?_cons_succ, Nat.sub_self, List.getElem?_cons_zero,
      Option.some.injEq, Nat.lt_irrefl, false_and, or_false, true_and]
    constructor
    · rintro ⟨h, h1 | ⟨_, c, rfl, hc⟩⟩
      · exact absurd h1.1 (by omega)
      · exact ⟨true, ⟨h, rfl⟩, by simpa using hc⟩
    · rintro ⟨b, ⟨h, rfl⟩, hb⟩
      exact ⟨h, .inr ⟨by omega, a, rfl, hb.mp rfl⟩⟩
  | succ i =>
    simp only [List.getElem?_cons_succ, Nat.add_sub_cancel]
    constructor
    · rintro ⟨h, h1 | ⟨_, h2⟩⟩
      · exact absurd h1.1 (by omega)
      · by_cases hs : Separator a
        · exact ⟨true, ⟨h, .inr ⟨by omega, h2⟩⟩, by simpa using hs⟩
        · exact ⟨false, ⟨h, .inr ⟨by omega, h2⟩⟩, by simpa using hs⟩
    · rintro ⟨b, ⟨h, h1 | ⟨_, h2⟩⟩, _⟩
      · exact absurd h1.1 (by omega)
      · exact ⟨h, .inr ⟨by omega, h2⟩⟩

/-- The leftmost fitting word, where `start` says whether a word can start at 0. -/
def LeftmostIn (start : Bool) (s : Bytes) (c : Chipset) : Prop :=
  ∃ i, WordIn start s i ∧ First wordPatterns (s.drop i) c ∧
    ∀ j < i, WordIn start s j → ¬ ∃ d, First wordPatterns (s.drop j) d

theorem separator_not_letter {c : Byte} (h : Separator c) : ¬ Letter c := by
  unfold Separator at h; unfold Letter; omega

/-- The word that starts at the first character, or one further right. -/
theorem leftmost_cons {start : Bool} {a : Byte} {s : Bytes} {c : Chipset} {b : Bool}
    (hb : b = true ↔ Separator a) :
    LeftmostIn start (a :: s) c ↔
      (Letter a ∧ start = true ∧ First wordPatterns (a :: s) c) ∨
      (¬ (Letter a ∧ start = true ∧ ∃ d, First wordPatterns (a :: s) d) ∧ LeftmostIn b s c) := by
  have hsucc : ∀ i, WordIn start (a :: s) (i + 1) ↔ WordIn b s i := by
    intro i
    rw [wordIn_succ]
    constructor
    · rintro ⟨b', h, hb'⟩
      have : b' = b := by
        cases b <;> cases b' <;> simp_all
      rwa [this] at h
    · exact fun h => ⟨b, h, hb⟩
  constructor
  · rintro ⟨i, hi, hf, hmin⟩
    cases i with
    | zero =>
      obtain ⟨h1, h2⟩ := wordIn_zero.mp hi
      exact .inl ⟨h1, h2, hf⟩
    | succ i =>
      refine .inr ⟨?_, i, (hsucc i).mp hi, hf, ?_⟩
      · rintro ⟨h1, h2, h3⟩
        exact hmin 0 (by omega) (wordIn_zero.mpr ⟨h1, h2⟩) h3
      · intro j hj hw
        exact hmin (j + 1) (by omega) ((hsucc j).mpr hw)
  · rintro (⟨h1, h2, h3⟩ | ⟨h, i, hi, hf, hmin⟩)
    · exact ⟨0, wordIn_zero.mpr ⟨h1, h2⟩, h3, by omega⟩
    · refine ⟨i + 1, (hsucc i).mpr hi, hf, ?_⟩
      intro j hj hw
      cases j with
      | zero =>
        obtain ⟨h1, h2⟩ := wordIn_zero.mp hw
        exact fun h3 => h ⟨h1, h2, h3⟩
      | succ j => exact hmin j (by omega) ((hsucc j).mp hw)

theorem wordLoop_decides : ∀ {s : Bytes} {start : Bool}, IsBytes s →
    Decider s (wordLoop s start) (LeftmostIn start)
  | [], start, _ => by
    refine ⟨safe_no, fun c => ?_⟩
    simp only [wordLoop, reduceCtorEq, false_iff]
    rintro ⟨i, ⟨⟨x, hx, _⟩, _⟩, _⟩
    simp at hx
  | a :: s, start, hs => by
    obtain ⟨ha, hs0⟩ := bytes_cons hs
    unfold wordLoop
    by_cases h1 : a = 32 ∨ a = 9 ∨ a = 44
    · rw [if_pos h1]
      have hnl : ¬ Letter a := separator_not_letter h1
      obtain ⟨h2, h3⟩ := wordLoop_decides (start := true) hs0
      refine ⟨h2, fun c => ?_⟩
      rw [h3, leftmost_cons (b := true) (by simp only [true_iff]; exact h1)]
      simp [hnl]
    · rw [if_neg h1]
      have hb : ((false : Bool) = true) ↔ Separator a := by
        simp only [Bool.false_eq_true, false_iff]; exact h1
      obtain ⟨h2, h3⟩ := wordLoop_decides (start := false) hs0
      split
      · rename_i h4
        simp only [Bool.and_eq_true, alphabetic_iff ha] at h4
        obtain ⟨h5, h6⟩ := wordChecks_decides hs
        have : Deciders (a :: s) [wordChecks (a :: s), wordLoop s false]
            [First wordPatterns, fun _ c => LeftmostIn false s c] :=
          .cons ⟨h5, h6⟩ (.cons ⟨h2, h3⟩ .nil)
        obtain ⟨h7, h8⟩ := firstMatch_decides this
        refine ⟨h7, fun c => ?_⟩
        rw [h8, leftmost_cons hb]
        simp [First, h4.1, h4.2]
      · rename_i h4
        simp only [Bool.and_eq_true, alphabetic_iff ha] at h4
        refine ⟨h2, fun c => ?_⟩
        rw [h3, leftmost_cons hb]
        have h9 : ∀ P : Prop, ¬ (Letter a ∧ start = true ∧ P) :=
          fun P h => h4 ⟨h.2.1, h.1⟩
        simp [h9]

theorem wordLoop_iff {s : Bytes} (hs : IsBytes s) :
    Decider s (wordLoop s true) LeftmostWord := by
  obtain ⟨h1, h2⟩ := wordLoop_decides (start := true) hs
  refine ⟨h1, fun c => ?_⟩
  rw [h2]
  have : ∀ i, WordIn true s i ↔ WordAt s i := by
    intro i
    unfold WordIn WordAt
    refine and_congr_right fun _ => ?_
    constructor
    · rintro (h | h)
      · exact .inl h.1
      · exact .inr h.2
    · rintro (h | h)
      · exact .inl ⟨h, rfl⟩
      · by_cases h0 : i = 0
        · exact .inl ⟨h0, rfl⟩
        · exact .inr ⟨by omega, h⟩
  unfold LeftmostIn LeftmostWord
  simp only [this]

/-! ## Tables -/

theorem lookup_some {arm32 : Bool} {table : List SpecialEntry} {s : Bytes} {e : SpecialEntry}
    (h : lookup arm32 table s = some e) :
    e ∈ table ∧ (arm32 = true ∨ e.arm32Only = false) ∧ e.platform = s := by
  have h1 := List.mem_of_find?_eq_some h
  have h2 := List.find?_some h
  simp only [inBuild, Bool.and_eq_true, Bool.or_eq_true, Bool.not_eq_true', beq_iff_eq,
    List.isPrefixOf_iff_prefix] at h2
  exact ⟨h1, h2.1.1, (h2.1.2.eq_of_length h2.2.symm).symm⟩

theorem lookup_none {arm32 : Bool} {table : List SpecialEntry} {s : Bytes}
    (h : lookup arm32 table s = none) {e : SpecialEntry} (he : e ∈ table)
    (ha : arm32 = true ∨ e.arm32Only = false) : e.platform ≠ s := by
  rintro rfl
  have := List.find?_eq_none.mp h e he
  simp [inBuild, ha] at this

/-- Search by platform in a table where platforms occur once. -/
theorem lookup_decides {arm32 : Bool} {table : List SpecialEntry} {s : Bytes}
    {f : SpecialEntry → Chipset} {m : Match Chipset}
    (hu : ∀ e ∈ table, ∀ g ∈ table, e.platform = g.platform → e = g)
    (hm : m = match lookup arm32 table s with | some e => .yes (f e) | none => .no) :
    Decider s m fun s c => ∃ e ∈ table, (arm32 = true ∨ e.arm32Only = false) ∧ e.platform = s ∧
      c = f e := by
  subst hm
  cases h : lookup arm32 table s with
  | none =>
    refine ⟨safe_no, fun c => ?_⟩
    simp only [reduceCtorEq, false_iff]
    rintro ⟨e, h1, h2, h3, _⟩
    exact lookup_none h h1 h2 h3
  | some e =>
    obtain ⟨h1, h2, h3⟩ := lookup_some h
    refine ⟨safe_yes _, fun c => ?_⟩
    simp only [Match.yes.injEq]
    constructor
    · rintro rfl; exact ⟨e, h1, h2, h3, rfl⟩
    · rintro ⟨g, h4, _, h5, rfl⟩
      rw [hu e h1 g h4 (h3.trans h5.symm)]

theorem ofEntry_eq (e : SpecialEntry) : ofEntry e =
    chip (seriesVendor e.series) e.series e.model (if e.suffix = 0 then [] else [e.suffix]) := by
  unfold ofEntry
  split
  · rename_i h; rw [h]; rfl
  · rfl

theorem ofBoardEntry_eq (e : SpecialEntry) : ofBoardEntry e =
    chip (seriesVendor e.series) e.series e.model
      (if e.suffix = 0 then [] else if e.suffix = 80 then b!"PRO" else [e.suffix]) := by
  unfold ofBoardEntry
  by_cases h : e.suffix = 80
  · rw [h]; rfl
  · rw [if_neg h, if_neg h, if_neg h]
    split
    · rename_i h; rw [h]; rfl
    · rfl

theorem table_decides {arm32 : Bool} {table : List SpecialEntry} {s : Bytes}
    (hu : ∀ e ∈ table, ∀ g ∈ table, e.platform = g.platform → e = g) :
    Decider s (tableMatch arm32 table s) (Listed table arm32) := by
  obtain ⟨h1, h2⟩ := lookup_decides (arm32 := arm32) (s := s) (f := ofEntry)
    (m := tableMatch arm32 table s) hu rfl
  refine ⟨h1, fun c => ?_⟩
  rw [h2]
  simp only [Listed, ofEntry_eq]

theorem hardware_unique : ∀ e ∈ hardwareEntries, ∀ g ∈ hardwareEntries,
    e.platform = g.platform → e = g := by decide +kernel

theorem tegra_unique : ∀ e ∈ tegraEntries, ∀ g ∈ tegraEntries,
    e.platform = g.platform → e = g := by decide +kernel

theorem board_unique : ∀ e ∈ boardEntries, ∀ g ∈ boardEntries,
    e.platform = g.platform → e = g := by decide +kernel

theorem platform_unique : ∀ e ∈ platformEntries, ∀ g ∈ platformEntries,
    e.platform = g.platform → e = g := by decide +kernel

theorem board_decides {arm32 : Bool} {s : Bytes} :
    Decider s (boardMatch arm32 s) (Boards arm32) := by
  obtain ⟨h1, h2⟩ := lookup_decides (arm32 := arm32) (s := s) (f := ofBoardEntry)
    (m := boardMatch arm32 s) board_unique rfl
  refine ⟨h1, fun c => ?_⟩
  rw [h2]
  simp only [Boards, ofBoardEntry_eq]

/-! ## The decoders -/

theorem hardware_decodes {arm32 : Bool} {s : Bytes} {cores freq : Nat} (hs : IsBytes s) :
    Decider s (decodeHardware arm32 s cores freq false)
      (Decodes (hardwarePatterns arm32 cores freq)) := by
  refine orUnknown_decodes (firstMatch_decides ?_)
  refine deciders_append (deciders_append (deciders_append (deciders_append (deciders_append
    (deciders_append ?_ (deciders_only ?_)) ?_) (deciders_only ?_)) ?_) (deciders_only ?_)) ?_
  · exact .cons (wordLoop_iff hs) <| .cons ⟨samsungExynos_safe s, fun _ => samsungExynos_iff hs⟩ <|
      .cons ⟨universal_safe s, fun _ => universal_iff hs⟩ .nil
  · exact .cons ⟨smdk_safe s cores, fun _ => smdk_iff hs⟩ .nil
  · exact .cons ⟨sc_safe s, fun _ => sc_iff hs⟩ <| .cons ⟨t_safe s, fun _ => t_iff hs⟩ <|
      .cons ⟨ums_safe s, fun _ => ums_iff hs⟩ .nil
  · exact .cons ⟨pxa_safe s, fun _ => pxa_iff hs⟩ .nil
  · exact .cons ⟨sunxi_safe arm32 s cores, fun _ => sunxi_iff hs⟩ <|
      .cons ⟨bcm_safe s, fun _ => bcm_iff hs⟩ .nil
  · exact .cons ⟨omap_safe s, fun _ => omap_iff hs⟩ <|
      .cons ⟨wmt_safe s cores freq, fun _ => wmt_iff hs⟩ .nil
  · exact .cons ⟨tcc_safe s, fun _ => tcc_iff hs⟩ <| .cons (table_decides hardware_unique) .nil

theorem tegraHardware_decodes {arm32 : Bool} {s : Bytes} {cores freq : Nat} :
    Decider s (decodeHardware arm32 s cores freq true) (Decodes [Listed tegraEntries arm32]) := by
  refine orUnknown_decodes ?_
  obtain ⟨h1, h2⟩ := table_decides (arm32 := arm32) (s := s) tegra_unique
  refine ⟨h1, fun c => ?_⟩
  rw [h2]
  simp [First]

theorem decodeBoard_decodes {arm32 : Bool} {s : Bytes} {cores freq : Nat} (hs : IsBytes s) :
    Decider s (decodeBoard arm32 s cores freq) (Decodes (boardPatterns arm32 cores freq)) := by
  refine orUnknown_decodes (firstMatch_decides ?_)
  refine deciders_append (deciders_append (deciders_append
    (deciders_append ?_ (deciders_only ?_)) ?_) (deciders_only ?_)) ?_
  · exact .cons ⟨msmApq_safe s, fun _ => msmApq_iff hs⟩ <|
      .cons ⟨universal_safe s, fun _ => universal_iff hs⟩ .nil
  · exact .cons ⟨smdk_safe s cores, fun _ => smdk_iff hs⟩ .nil
  · exact .cons ⟨mt_safe s true, fun _ => mtWhole_iff hs⟩ <|
      .cons ⟨sc_safe s, fun _ => sc_iff hs⟩ .nil
  · exact .cons ⟨pxa_safe s, fun _ => pxa_iff hs⟩ <| .cons ⟨lc_safe s, fun _ => lc_iff hs⟩ <|
      .cons ⟨broadcom_safe s cores freq, fun _ => broadcom_iff hs⟩ .nil
  · exact .cons ⟨huawei_safe s, fun _ => huawei_iff hs⟩ <| .cons board_decides .nil

theorem omap4_decides {s : Bytes} {cores freq : Nat} :
    Decider s (matchOmap4 s cores freq) (Omap4 cores freq) := by
  unfold matchOmap4 Omap4
  split
  · rename_i h
    refine ⟨safe_yes _, fun c => ?_⟩
    obtain ⟨_, h1, h2, h3⟩ := h
    simp only [Match.yes.injEq, mk_eq, h1, h2, h3, true_and]
    exact eq_comm
  · rename_i h
    refine ⟨safe_no, fun c => ?_⟩
    simp only [reduceCtorEq, false_iff]
    rintro ⟨rfl, h1, h2, _⟩
    exact h ⟨rfl, h1, h2, rfl⟩

theorem mp523x_decides {s : Bytes} : Decider s (matchMp523x s) Mp523x := by
  unfold matchMp523x Mp523x
  split
  · rename_i h
    refine ⟨safe_yes _, fun c => ?_⟩
    simp only [Match.yes.injEq, mk_eq, h.2, true_and]
    exact eq_comm
  · rename_i h
    refine ⟨safe_no, fun c => ?_⟩
    simp only [reduceCtorEq, false_iff]
    rintro ⟨rfl, _⟩
    exact h ⟨rfl, rfl⟩

/-- A text has no zero character. -/
def NoZero (s : Bytes) : Prop := ∀ c ∈ s, c ≠ 0

theorem six_inj {s t : Bytes} (hs : NoZero s) (ht : NoZero t) (h1 : s.length ≤ 6)
    (h2 : t.length ≤ 6) : six s = six t ↔ s = t := by
  constructor
  · intro h
    have e : ∀ {u : Bytes}, NoZero u → u.length ≤ 6 → (six u).takeWhile (· != 0) = u := by
      intro u hu hl
      have hpre : six u = u ++ List.replicate (6 - u.length) 0 := by
        unfold six
        rw [List.take_append, List.take_of_length_le hl, List.take_replicate, Nat.min_eq_left (by omega)]
      rw [hpre, List.takeWhile_append_of_pos (fun c hc => by simpa using hu c hc)]
      cases 6 - u.length <;> simp [List.replicate_succ]
    rw [← e hs h1, ← e ht h2, h]
  · rintro rfl; rfl

theorem amlogic_decides {arm32 : Bool} {s : Bytes} (hz : NoZero s) :
    Decider s (matchAmlogic arm32 s) (Amlogic arm32) := by
  have hall : ∀ e ∈ amlogicEntries, NoZero e.platform ∧ e.platform.length ≤ 6 := by
    unfold NoZero; decide +kernel
  have huniq : ∀ e ∈ amlogicEntries, ∀ g ∈ amlogicEntries, e.platform = g.platform → e = g := by
    decide +kernel
  unfold matchAmlogic
  split
  · rename_i hl
    have hp : ∀ e ∈ amlogicEntries, ((inBuild arm32 e.arm32Only && six e.platform == six s) = true ↔
        (arm32 = true ∨ e.arm32Only = false) ∧ e.platform = s) := by
      intro e he
      simp only [inBuild, Bool.and_eq_true, Bool.or_eq_true, Bool.not_eq_true', beq_iff_eq,
        six_inj (hall e he).1 hz (hall e he).2 hl]
    split
    · rename_i e he
      have h1 := List.mem_of_find?_eq_some he
      have h2 := (hp e h1).mp (by simpa only using List.find?_some (p := fun (e : AmlogicEntry) =>
        inBuild arm32 e.arm32Only && six e.platform == six s) he)
      refine ⟨safe_yes _, fun c => ?_⟩
      simp only [Match.yes.injEq]
      constructor
      · rintro rfl; exact ⟨e, h1, h2.1, h2.2, rfl⟩
      · rintro ⟨g, h4, _, h5, rfl⟩
        rw [huniq e h1 g h4 (h2.2.trans h5.symm)]; rfl
    · rename_i he
      refine ⟨safe_no, fun c => ?_⟩
      simp only [reduceCtorEq, false_iff]
      rintro ⟨e, h1, h2, h3, _⟩
      exact List.find?_eq_none.mp he e h1 ((hp e h1).mpr ⟨h2, h3⟩)
  · rename_i hl
    refine ⟨safe_no, fun c => ?_⟩
    simp only [reduceCtorEq, false_iff]
    rintro ⟨e, h1, _, rfl, _⟩
    exact hl (hall e h1).2

theorem decodePlatform_decodes {arm32 : Bool} {s : Bytes} {cores freq : Nat} (hs : IsBytes s)
    (hz : NoZero s) :
    Decider s (decodePlatform arm32 s cores freq)
      (Decodes (platformPatterns arm32 cores freq)) := by
  refine orUnknown_decodes (firstMatch_decides ?_)
  refine deciders_append (deciders_append (deciders_append
    (deciders_append ?_ (deciders_only ?_)) ?_) (deciders_only ?_)) ?_
  · exact .cons ⟨msmApq_safe s, fun _ => msmApq_iff hs⟩ <|
      .cons ⟨exynos_safe s, fun _ => exynos_iff hs⟩ <|
      .cons ⟨mt_safe s true, fun _ => mtWhole_iff hs⟩ <|
      .cons ⟨kirin_safe s, fun _ => kirin_iff hs⟩ <| .cons ⟨sc_safe s, fun _ => sc_iff hs⟩ <|
      .cons ⟨rk_safe s, fun _ => rk_iff hs⟩ .nil
  · exact .cons ⟨lc_safe s, fun _ => lc_iff hs⟩ .nil
  · exact .cons ⟨huawei_safe s, fun _ => huawei_iff hs⟩ .nil
  · exact .cons ⟨broadcom_safe s cores freq, fun _ => broadcom_iff hs⟩ <| .cons omap4_decides .nil
  · exact .cons (amlogic_decides hz) <| .cons (table_decides platform_unique) .nil

theorem decodeMediatek_decodes {s : Bytes} (hs : IsBytes s) :
    Decider s (decodeMediatek s) (Decodes [MtPrefix]) :=
  orUnknown_decodes ⟨mt_safe s false, fun c => by rw [mtPrefix_iff hs]; simp [First]⟩

theorem decodeArch_decodes {s : Bytes} (hs : IsBytes s) :
    Decider s (decodeArch s) (Decodes [Exynos]) :=
  orUnknown_decodes ⟨exynos_safe s, fun c => by rw [exynos_iff hs]; simp [First]⟩

theorem decodeChipname_decodes {arm32 : Bool} {s : Bytes} (hs : IsBytes s) :
    Decider s (decodeChipname arm32 s) (Decodes (chipnamePatterns arm32)) := by
  refine orUnknown_decodes (firstMatch_decides (deciders_append ?_ (deciders_only ?_)))
  · exact .cons ⟨msmApq_safe s, fun _ => msmApq_iff hs⟩ <| .cons ⟨sm_safe s, fun _ => sm_iff hs⟩ <|
      .cons ⟨exynos_safe s, fun _ => exynos_iff hs⟩ <|
      .cons ⟨universal_safe s, fun _ => universal_iff hs⟩ <|
      .cons ⟨mt_safe s true, fun _ => mtWhole_iff hs⟩ <| .cons ⟨sc_safe s, fun _ => sc_iff hs⟩ .nil
  · exact .cons ⟨pxa_safe s, fun _ => pxa_iff hs⟩ <| .cons mp523x_decides .nil

end Verif.ArmChipset
