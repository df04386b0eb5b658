import Verif.Model.FileDump
import Verif.Spec.FileDump
import Verif.Proof.ChipsetName
import Verif.Proof.Tools

/-!
# Reading back a dumped file system
-/

set_option autoImplicit false

namespace Verif.FileDump
open ArmChipset (decimal digitChar_toNat)

/-! ## The reader of tokens -/

theorem begin_pre (ts us : List Token) (c : Byte) :
    begin (ts ++ us) c = (ts ++ (begin us c).1, (begin us c).2) := by
  unfold begin
  split
  · rfl
  · split
    · rfl
    · split
      · rfl
      · split
        · rfl
        · split
          · simp
          · rfl

theorem inString_pre (ts us : List Token) (s : Bytes) (c : Byte) :
    inString (ts ++ us) s c = (ts ++ (inString us s c).1, (inString us s c).2) := by
  unfold inString
  split
  · simp
  · split
    · rfl
    · split <;> rfl

theorem step_pre (ts us : List Token) (m : Mode) (c : Byte) :
    step (ts ++ us, m) c = (ts ++ (step (us, m) c).1, (step (us, m) c).2) := by
  cases m with
  | outside => exact begin_pre ts us c
  | word w =>
    dsimp only [step]
    split
    · rfl
    · rw [List.append_assoc]; exact begin_pre ts _ c
  | number n =>
    dsimp only [step]
    split
    · split <;> rfl
    · split
      · rfl
      · rw [List.append_assoc]; exact begin_pre ts _ c
  | string s => exact inString_pre ts us s c
  | escape s =>
    dsimp only [step]
    split
    · rfl
    · split
      · rfl
      · split
        · rfl
        · split
          · rfl
          · split <;> rfl
  | octal s v k =>
    dsimp only [step]
    split
    · rfl
    · split
      · rw [inString_pre ts us (s ++ [v]) c]
      · rfl
  | bad => rfl

theorem run_pre (text : Bytes) : ∀ (ts us : List Token) (m : Mode),
    text.foldl step (ts ++ us, m) =
      (ts ++ (text.foldl step (us, m)).1, (text.foldl step (us, m)).2) := by
  induction text with
  | nil => intro ts us m; rfl
  | cons c r ih =>
    intro ts us m
    rw [List.foldl_cons, List.foldl_cons, step_pre]
    exact ih ts _ _

/-- The tokens of a text do not depend on what was before. -/
theorem run_from {text : Bytes} {m m' : Mode} {us : List Token}
    (h : text.foldl step ([], m) = (us, m')) (ts : List Token) :
    text.foldl step (ts, m) = (ts ++ us, m') := by
  have := run_pre text ts [] m
  rw [List.append_nil, h] at this
  exact this

/-! ## Numbers -/

theorem digit_plus (k : Nat) (hk : k < 10) : isDigit (48 + k) = true ∧ isLetter (48 + k) = false := by
  rcases k with _ | _ | _ | _ | _ | _ | _ | _ | _ | _ | k
  all_goals first | omega | exact ⟨rfl, rfl⟩

theorem begin_digit (k : Nat) (hk : k < 10) : begin [] (48 + k) = ([], .number k) := by
  rcases k with _ | _ | _ | _ | _ | _ | _ | _ | _ | _ | k
  all_goals first | omega | rfl

theorem run_decimal_pos (n : Nat) (hn : 0 < n) :
    (decimal n).foldl step ([], .outside) = ([], .number n) := by
  induction n using Nat.strongRecOn with
  | ind n ih =>
    by_cases h : n < 10
    · unfold decimal
      rw [Nat.toDigits_of_lt_base h, List.map_cons, List.map_nil, digitChar_toNat h]
      exact begin_digit n h
    · have he : decimal n = decimal (n / 10) ++ [48 + n % 10] := by
        unfold decimal
        rw [Nat.toDigits_of_base_le (by decide) (by omega), List.map_append, List.map_cons, List.map_nil,
          digitChar_toNat (by omega)]
      rw [he, List.foldl_append, ih (n / 10) (by omega) (by omega)]
      have hd := digit_plus (n % 10) (by omega)
      show step ([], .number (n / 10)) (48 + n % 10) = _
      dsimp only [step]
      rw [if_pos hd.1]
      rw [if_neg (by omega)]
      have : 10 * (n / 10) + (48 + n % 10 - 48) = n := by omega
      rw [this]

theorem run_decimal (n : Nat) : (decimal n).foldl step ([], .outside) = ([], .number n) := by
  by_cases h : n = 0
  · subst h; decide +kernel
  · exact run_decimal_pos n (by omega)

/-! ## String literals -/

/-- What the compiler makes of what the script writes for a byte. -/
def readByte (c : Byte) : Bytes :=
  if c = 0 ∨ c = 9 ∨ c = 10 ∨ c = 13 ∨ (32 ≤ c ∧ c < 127) then [c]
  else [120, hexDigit (c / 16), hexDigit (c % 16)]

/-- What the compiler makes of what the script writes for a text. -/
def readText (s : Bytes) : Bytes := s.flatMap readByte

/-- The reader is in a string literal that has the bytes `s`, perhaps after `\0`. -/
def In (m : Mode) (s : Bytes) : Prop := m = .string s ∨ ∃ t, m = .octal t 0 1 ∧ s = t ++ [0]

theorem step_in (ts : List Token) {m : Mode} {s : Bytes} (h : In m s) (c : Byte)
    (hc : m ≠ .string s → isOctal c = false) : step (ts, m) c = inString ts s c := by
  rcases h with rfl | ⟨t, rfl, rfl⟩
  · rfl
  · dsimp only [step]
    rw [hc (by intro h; cases h)]
    simp

theorem hexDigit_safe (n : Nat) (hn : n < 16) (ts : List Token) (s : Bytes) :
    inString ts s (hexDigit n) = (ts, .string (s ++ [hexDigit n])) := by
  have h : hexDigit n ≠ 34 ∧ hexDigit n ≠ 92 ∧ hexDigit n ≠ 10 := by
    unfold hexDigit
    split <;> omega
  unfold inString
  rw [if_neg h.1, if_neg h.2.1, if_neg h.2.2]

theorem run_escapeByte (ts : List Token) {m : Mode} {s : Bytes} (h : In m s) (c : Byte) (hb : c < 256)
    (hc : m ≠ .string s → isOctal c = false) :
    ∃ m', (escapeByte c).foldl step (ts, m) = (ts, m') ∧ In m' (s ++ readByte c) ∧
      (m' ≠ .string (s ++ readByte c) → c = 0) := by
  have h92 : step (ts, m) 92 = (ts, .escape s) := step_in ts h 92 (fun _ => rfl)
  have h120 : step (ts, m) 120 = (ts, .string (s ++ [120])) := step_in ts h 120 (fun _ => rfl)
  unfold escapeByte
  by_cases h1 : c = 92
  · subst h1
    refine ⟨.string (s ++ [92]), ?_, .inl rfl, fun hn => absurd rfl hn⟩
    show step (step (ts, m) 92) 92 = _
    rw [h92]; rfl
  rw [if_neg h1]
  by_cases h2 : c = 34
  · subst h2
    refine ⟨.string (s ++ [34]), ?_, .inl rfl, fun hn => absurd rfl hn⟩
    show step (step (ts, m) 92) 34 = _
    rw [h92]; rfl
  rw [if_neg h2]
  by_cases h3 : c = 9
  · subst h3
    refine ⟨.string (s ++ [9]), ?_, .inl rfl, fun hn => absurd rfl hn⟩
    show step (step (ts, m) 92) 116 = _
    rw [h92]; rfl
  rw [if_neg h3]
  by_cases h4 : c = 10
  · subst h4
    refine ⟨.string (s ++ [10]), ?_, .inl rfl, fun hn => absurd rfl hn⟩
    show step (step (ts, m) 92) 110 = _
    rw [h92]; rfl
  rw [if_neg h4]
  by_cases h5 : c = 13
  · subst h5
    refine ⟨.string (s ++ [13]), ?_, .inl rfl, fun hn => absurd rfl hn⟩
    show step (step (ts, m) 92) 114 = _
    rw [h92]; rfl
  rw [if_neg h5]
  by_cases h6 : c = 0
  · subst h6
    refine ⟨.octal s 0 1, ?_, .inr ⟨s, rfl, rfl⟩, fun _ => rfl⟩
    show step (step (ts, m) 92) 48 = _
    rw [h92]; rfl
  rw [if_neg h6]
  by_cases h7 : 32 ≤ c ∧ c < 127
  · have hr : readByte c = [c] := by
      unfold readByte
      rw [if_pos (.inr (.inr (.inr (.inr h7))))]
    rw [if_pos h7, hr]
    refine ⟨.string (s ++ [c]), ?_, .inl rfl, fun hn => absurd rfl hn⟩
    show step (ts, m) c = _
    rw [step_in ts h c hc]
    unfold inString
    rw [if_neg h2, if_neg h1, if_neg h4]
  · have hr : readByte c = [120, hexDigit (c / 16), hexDigit (c % 16)] := by
      unfold readByte
      rw [if_neg (by rintro (h | h | h | h | h) <;> contradiction)]
    rw [if_neg h7, hr]
    refine ⟨.string (s ++ [120, hexDigit (c / 16), hexDigit (c % 16)]), ?_, .inl rfl,
      fun hn => absurd rfl hn⟩
    show step (step (step (ts, m) 120) (hexDigit (c / 16))) (hexDigit (c % 16)) = _
    rw [h120]
    show step (inString ts (s ++ [120]) (hexDigit (c / 16))) _ = _
    rw [hexDigit_safe _ (by omega)]
    show inString ts _ (hexDigit (c % 16)) = _
    rw [hexDigit_safe _ (by omega)]
    simp

theorem noDigit_tail {c : Byte} {r : Bytes} (h : NoDigitAfterZero (c :: r)) : NoDigitAfterZero r := by
  intro a b d he
  exact h (c :: a) b d (by rw [he]; rfl)

theorem isOctal_false {d : Byte} (h : ¬(48 ≤ d ∧ d ≤ 55)) : isOctal d = false := by
  unfold isOctal
  rw [Bool.eq_false_iff]
  intro hh
  rw [Bool.and_eq_true, Nat.ble_eq, Nat.ble_eq] at hh
  exact h hh

theorem run_cEscape (ts : List Token) (c : Bytes) : ∀ {m : Mode} {s : Bytes}, In m s →
    (∀ b ∈ c, b < 256) → NoDigitAfterZero c →
    (m ≠ .string s → ∀ d r, c = d :: r → isOctal d = false) →
    ∃ m', (cEscape c).foldl step (ts, m) = (ts, m') ∧ In m' (s ++ readText c) := by
  induction c with
  | nil =>
    intro m s h _ _ _
    exact ⟨m, rfl, by simpa [readText] using h⟩
  | cons b r ih =>
    intro m s h hb hn hp
    obtain ⟨m₁, h₁, hin₁, hz⟩ := run_escapeByte ts h b (hb b List.mem_cons_self)
      (fun hm => hp hm b r rfl)
    obtain ⟨m₂, h₂, hin₂⟩ := ih hin₁ (fun x hx => hb x (List.mem_cons_of_mem _ hx)) (noDigit_tail hn)
      (by
        intro hm d r' hr
        have h0 := hz hm
        subst h0 hr
        exact isOctal_false (hn [] r' d rfl))
    refine ⟨m₂, ?_, ?_⟩
    · show List.foldl step (ts, m) (escapeByte b ++ cEscape r) = _
      rw [List.foldl_append, h₁, h₂]
    · have : s ++ readText (b :: r) = s ++ readByte b ++ readText r := by
        unfold readText
        rw [List.flatMap_cons, List.append_assoc]
      rw [this]
      exact hin₂

/-- A literal with its quotation marks is one token. -/
theorem run_literal (c : Bytes) (hb : ∀ b ∈ c, b < 256) (hn : NoDigitAfterZero c) :
    (34 :: (cEscape c ++ [34])).foldl step ([], .outside) = ([.string (readText c)], .outside) := by
  rw [List.foldl_cons, List.foldl_append]
  have h0 : step ([], .outside) 34 = ([], .string []) := rfl
  rw [h0]
  obtain ⟨m', h', hin⟩ := run_cEscape [] c (m := .string []) (s := []) (.inl rfl) hb hn
    (fun hm => absurd rfl hm)
  rw [h']
  show step ([], m') 34 = _
  rw [step_in [] hin 34 (fun _ => rfl)]
  rfl

/-! ## Lines -/

theorem splitLines_flatten (c : Bytes) : (splitLines c).flatten = c := by
  induction c using splitLines.induct with
  | case1 => rfl
  | case2 r ih => unfold splitLines; simp [ih]
  | case3 c r hx hc ih =>
    unfold splitLines
    split
    · contradiction
    · rename_i heq; injection heq with h1 h2; exact absurd h2 (by intro h; exact hx _ h1 h)
    · rename_i heq; injection heq with h1 h2; subst h1 h2; simp [hc, ih]
  | case4 c r hx hc hs ih =>
    unfold splitLines
    split
    · contradiction
    · rename_i heq; injection heq with h1 h2; exact absurd h2 (by intro h; exact hx _ h1 h)
    · rename_i heq
      injection heq with h1 h2
      subst h1 h2
      rw [hs] at ih
      simp only [List.flatten_nil] at ih
      rw [if_neg hc, hs]
      simp [← ih]
  | case5 c r hx hc l ls hs ih =>
    unfold splitLines
    split
    · contradiction
    · rename_i heq; injection heq with h1 h2; exact absurd h2 (by intro h; exact hx _ h1 h)
    · rename_i heq
      injection heq with h1 h2
      subst h1 h2
      rw [hs] at ih
      simp only [List.flatten_cons] at ih
      rw [if_neg hc, hs]
      simp [ih]

theorem noDigit_part {a b c : Bytes} (h : NoDigitAfterZero (a ++ b ++ c)) : NoDigitAfterZero b := by
  intro x y d he
  refine h (a ++ x) (y ++ c) d ?_
  rw [he]
  simp

/-- The literals that the script writes for a content. -/
def pieces (c : Bytes) : List Bytes := if (splitLines c).length > 1 then splitLines c else [c]

theorem pieces_flatten (c : Bytes) : (pieces c).flatten = c := by
  unfold pieces
  split
  · exact splitLines_flatten c
  · simp

theorem pieces_ne_nil (c : Bytes) : pieces c ≠ [] := by
  unfold pieces
  split
  · rename_i h
    intro h0
    rw [h0] at h
    simp at h
  · simp

theorem piece_part {c l : Bytes} (h : l ∈ pieces c) : ∃ a b, c = a ++ l ++ b := by
  obtain ⟨x, y, hxy⟩ := List.append_of_mem h
  refine ⟨x.flatten, y.flatten, ?_⟩
  conv => lhs; rw [← pieces_flatten c, hxy]
  simp

theorem run_white {w : Bytes} (hw : w.foldl step ([], .outside) = ([], .outside)) (c : Bytes)
    (hb : ∀ b ∈ c, b < 256) (hn : NoDigitAfterZero c) (ts : List Token) :
    (w ++ 34 :: (cEscape c ++ [34])).foldl step (ts, .outside) =
      (ts ++ [.string (readText c)], .outside) := by
  rw [List.foldl_append, run_from hw, List.append_nil, run_from (run_literal c hb hn)]

theorem run_lines (ls : List Bytes) (hb : ∀ l ∈ ls, (∀ b ∈ l, b < 256) ∧ NoDigitAfterZero l) :
    ∀ ts : List Token,
    (ls.flatMap (fun l => b!"\n\t\t\t\"" ++ cEscape l ++ b!"\"")).foldl step (ts, .outside) =
      (ts ++ ls.map (fun l => .string (readText l)), .outside) := by
  induction ls with
  | nil => intro ts; simp
  | cons l r ih =>
    intro ts
    have hl := hb l List.mem_cons_self
    have he : b!"\n\t\t\t\"" ++ cEscape l ++ b!"\"" = b!"\n\t\t\t" ++ 34 :: (cEscape l ++ [34]) := by
      simp
    rw [List.flatMap_cons, List.foldl_append, he, run_white (by decide +kernel) l hl.1 hl.2,
      ih (fun x hx => hb x (List.mem_cons_of_mem _ hx))]
    simp

theorem run_content (c : Bytes) (hb : ∀ b ∈ c, b < 256) (hn : NoDigitAfterZero c) :
    (contentText c).foldl step ([], .outside) =
      ([.punct 46, .word b!"content", .punct 61] ++ ((pieces c).map (fun l => .string (readText l)) ++
        [.punct 44]), .outside) := by
  have h1 : (b!"\t\t.content =").foldl step ([], .outside) =
      ([.punct 46, .word b!"content", .punct 61], .outside) := by decide +kernel
  have h2 : (b!",\n").foldl step ([], .outside) = ([.punct 44], .outside) := by decide +kernel
  have hp : ∀ l ∈ pieces c, (∀ b ∈ l, b < 256) ∧ NoDigitAfterZero l := by
    intro l hl
    obtain ⟨x, y, hxy⟩ := piece_part hl
    refine ⟨fun b hbl => hb b ?_, ?_⟩
    · rw [hxy]; simp [hbl]
    · rw [hxy] at hn; exact noDigit_part hn
  unfold contentText
  by_cases h : (splitLines c).length > 1
  · have he : pieces c = splitLines c := if_pos h
    rw [if_pos h, List.foldl_append, List.foldl_append, h1, run_lines _ (by rw [← he]; exact hp),
      run_from h2, he, List.append_assoc]
  · have he : pieces c = [c] := if_neg h
    have ht : b!"\t\t.content = \"" ++ cEscape c ++ b!"\",\n" =
        b!"\t\t.content =" ++ (b!" " ++ 34 :: (cEscape c ++ [34])) ++ b!",\n" := by
      simp
    rw [if_neg h, ht, List.foldl_append, List.foldl_append, h1, run_white (by decide +kernel) c hb hn,
      run_from h2, he, List.append_assoc]
    rfl

/-! ## Entries -/

/-- Bytes of a path are written as they are. -/
def pathByte (b : Byte) : Bool :=
  Nat.ble 32 b && Nat.blt b 127 && !Nat.beq b 34 && !Nat.beq b 92

theorem pathByte_iff {b : Byte} (h : pathByte b = true) : 32 ≤ b ∧ b < 127 ∧ b ≠ 34 ∧ b ≠ 92 := by
  unfold pathByte at h
  simp only [Bool.and_eq_true, Nat.ble_eq, Nat.blt_eq, Bool.not_eq_true'] at h
  refine ⟨h.1.1.1, h.1.1.2, ?_, ?_⟩
  · intro h0; subst h0; exact absurd h.1.2 (by decide)
  · intro h0; subst h0; exact absurd h.2 (by decide)

theorem escape_path {p : Bytes} (h : p.all pathByte = true) : cEscape p = p ∧ readText p = p := by
  induction p with
  | nil => exact ⟨rfl, rfl⟩
  | cons b r ih =>
    rw [List.all_cons, Bool.and_eq_true] at h
    obtain ⟨h1, h2, h3, h4⟩ := pathByte_iff h.1
    have he : escapeByte b = [b] := by
      unfold escapeByte
      rw [if_neg h4, if_neg h3, if_neg (by omega), if_neg (by omega), if_neg (by omega), if_neg (by omega),
        if_pos ⟨h1, h2⟩]
    have hr : readByte b = [b] := by
      unfold readByte
      rw [if_pos (.inr (.inr (.inr (.inr ⟨h1, h2⟩))))]
    have := ih h.2
    constructor
    · show escapeByte b ++ cEscape r = _
      rw [he, this.1]; rfl
    · show readByte b ++ readText r = _
      rw [hr, this.2]; rfl

/-- The tokens of an entry. -/
def entryTokens (p c : Bytes) : List Token :=
  [.punct 123, .punct 46, .word b!"path", .punct 61, .string p, .punct 44, .punct 46, .word b!"size",
    .punct 61, .number c.length, .punct 44, .punct 46, .word b!"content", .punct 61] ++
    ((pieces c).map (fun l => .string (readText l)) ++ [.punct 44, .punct 125, .punct 44])

theorem run_entry (p c : Bytes) (hp : p.all pathByte = true) (hb : ∀ b ∈ c, b < 256)
    (hn : NoDigitAfterZero c) (ts : List Token) :
    (entryText p c).foldl step (ts, .outside) = (ts ++ entryTokens p c, .outside) := by
  apply run_from
  have hpz : NoDigitAfterZero p := by
    intro a b d he
    have h0 : (0 : Byte) ∈ p := by rw [he]; simp
    have := pathByte_iff (List.all_eq_true.1 hp 0 h0)
    omega
  have hpb : ∀ b ∈ p, b < 256 := by
    intro b hb
    have := pathByte_iff (List.all_eq_true.1 hp b hb)
    omega
  have h1 : (b!"\t{\n\t\t.path =").foldl step ([], .outside) =
      ([.punct 123, .punct 46, .word b!"path", .punct 61], .outside) := by decide +kernel
  have h2 : (b!",\n\t\t.size = ").foldl step ([], .outside) =
      ([.punct 44, .punct 46, .word b!"size", .punct 61], .outside) := by decide +kernel
  have h3 : (b!",\n").foldl step ([], .number c.length) =
      ([.number c.length, .punct 44], .outside) := rfl
  have h4 : (b!"\t},\n").foldl step ([], .outside) = ([.punct 125, .punct 44], .outside) := by
    decide +kernel
  have he : entryText p c = b!"\t{\n\t\t.path =" ++ (b!" " ++ 34 :: (cEscape p ++ [34])) ++
      b!",\n\t\t.size = " ++ decimal c.length ++ b!",\n" ++ contentText c ++ b!"\t},\n" := by
    rw [(escape_path hp).1]
    simp [entryText]
  rw [he]
  rw [List.foldl_append, List.foldl_append, List.foldl_append, List.foldl_append, List.foldl_append,
    List.foldl_append, h1, run_white (by decide +kernel) p hpb hpz, (escape_path hp).2, run_from h2,
    run_from (run_decimal _), run_from h3, run_from (run_content c hb hn), run_from h4]
  simp [entryTokens]

/-! ## Adjacent literals -/

theorem glue_strings (ls : List Bytes) (c : Byte) (r : List Token) :
    glue (ls.map (fun l => .string (readText l)) ++ .punct c :: r) =
      (if ls = [] then [] else [.string (readText ls.flatten)]) ++ .punct c :: glue r := by
  induction ls with
  | nil => simp [glue]
  | cons l ls ih =>
    rw [List.map_cons, List.cons_append]
    rw [glue, ih]
    by_cases h : ls = []
    · subst h; simp
    · simp [h, readText]

theorem glue_entry (p c : Bytes) (r : List Token) :
    glue (entryTokens p c ++ r) =
      [.punct 123, .punct 46, .word b!"path", .punct 61, .string p, .punct 44, .punct 46, .word b!"size",
        .punct 61, .number c.length, .punct 44, .punct 46, .word b!"content", .punct 61,
        .string (readText c), .punct 44, .punct 125, .punct 44] ++ glue r := by
  have h := glue_strings (pieces c) 44 (.punct 125 :: .punct 44 :: r)
  rw [if_neg (pieces_ne_nil c), pieces_flatten] at h
  unfold entryTokens
  simp only [List.cons_append, List.nil_append, List.append_assoc]
  simp only [glue] at h ⊢
  rw [h]
  rfl

/-! ## The whole header -/

/-- The entries of the files that can be read. -/
def entriesOf (device : Bytes → Option Bytes) (ps : List Bytes) : List (Bytes × Nat × Bytes) :=
  ps.filterMap fun p => (device p).map fun c => (p, c.length, readText c)

/-- What is asked of the files of a device. -/
def Readable (device : Bytes → Option Bytes) (ps : List Bytes) : Prop :=
  ∀ p ∈ ps, ∀ c, device p = some c → (∀ b ∈ c, b < 256) ∧ NoDigitAfterZero c

/-- The tokens of what is written for a path. -/
def fileTokens (device : Bytes → Option Bytes) (p : Bytes) : List Token :=
  match device p with
  | some c => entryTokens p c
  | none => []

theorem run_files (device : Bytes → Option Bytes) (ps : List Bytes)
    (hp : ∀ p ∈ ps, p.all pathByte = true) (hr : Readable device ps) : ∀ ts : List Token,
    (ps.flatMap (dumpFile device)).foldl step (ts, .outside) =
      (ts ++ ps.flatMap (fileTokens device), .outside) := by
  induction ps with
  | nil => intro ts; simp
  | cons p ps ih =>
    intro ts
    have ih' := ih (fun q hq => hp q (List.mem_cons_of_mem _ hq)) (fun q hq => hr q (List.mem_cons_of_mem _ hq))
    rw [List.flatMap_cons, List.flatMap_cons, List.foldl_append]
    unfold dumpFile fileTokens
    cases hd : device p with
    | none =>
      dsimp only
      rw [List.foldl_nil, List.nil_append]
      exact ih' ts
    | some c =>
      dsimp only
      have hc := hr p List.mem_cons_self c hd
      rw [run_entry p c (hp p List.mem_cons_self) hc.1 hc.2, ← List.append_assoc]
      exact ih' _

/-- The end of the array. -/
def lastTokens : List Token :=
  [.punct 123, .word b!"NULL", .punct 125, .punct 44, .punct 125, .punct 59]

theorem initialisers_files (device : Bytes → Option Bytes) (ps : List Bytes) :
    initialisers (glue (ps.flatMap (fileTokens device) ++ lastTokens)) = some (entriesOf device ps) := by
  induction ps with
  | nil =>
    show initialisers (glue lastTokens) = some []
    decide +kernel
  | cons p ps ih =>
    rw [List.flatMap_cons, List.append_assoc]
    unfold entriesOf
    rw [List.filterMap_cons]
    cases hd : device p with
    | none =>
      have h0 : fileTokens device p = [] := by unfold fileTokens; rw [hd]
      rw [h0]
      exact ih
    | some c =>
      have h0 : fileTokens device p = entryTokens p c := by unfold fileTokens; rw [hd]
      rw [h0, glue_entry]
      simp only [List.cons_append, List.nil_append]
      rw [initialisers, if_pos ⟨rfl, rfl, rfl⟩, ih]
      rfl

theorem readText_length (c : Bytes) : c.length ≤ (readText c).length := by
  induction c with
  | nil => simp
  | cons b r ih =>
    have : 1 ≤ (readByte b).length := by
      unfold readByte
      split <;> simp
    show _ ≤ (readByte b ++ readText r).length
    rw [List.length_append, List.length_cons]
    omega

/-- The file that the mock file system has for a content. -/
def readBack (c : Bytes) : Bytes := (readText c).take c.length

theorem mapM_files (device : Bytes → Option Bytes) (ps : List Bytes)
    (hp : ∀ p ∈ ps, p.all pathByte = true) :
    (entriesOf device ps).mapM fileOf =
      some (ps.filterMap fun p => (device p).map fun c => (⟨p, readBack c, 0⟩ : Mock.File)) := by
  induction ps with
  | nil => rfl
  | cons p ps ih =>
    have ih' := ih (fun q hq => hp q (List.mem_cons_of_mem _ hq))
    unfold entriesOf at ih' ⊢
    rw [List.filterMap_cons, List.filterMap_cons]
    cases hd : device p with
    | none => exact ih'
    | some c =>
      have hl := readText_length c
      have ht : p.takeWhile (· ≠ 0) = p := by
        have h := List.takeWhile_append_of_pos (p := fun b : Byte => decide (b ≠ 0)) (l₁ := p) (l₂ := [])
          (fun b hb => by
            have := pathByte_iff (List.all_eq_true.1 (hp p List.mem_cons_self) b hb)
            exact decide_eq_true (by omega))
        rw [List.takeWhile_nil, List.append_nil] at h
        exact h
      have hf : fileOf (p, c.length, readText c) = some ⟨p, readBack c, 0⟩ := by
        unfold fileOf readBack
        dsimp only
        rw [if_pos (by omega), ht, List.take_append_of_le_length hl]
      simp only [Option.map_some, List.mapM_cons, hf, ih']
      rfl

theorem paths_ok : ∀ p ∈ paths, p.all pathByte = true := by
  have : paths.all (fun p => p.all pathByte) = true := by decide +kernel
  exact List.all_eq_true.1 this

/-- The mock file system that an array of files defines. -/
theorem mockFiles_headerOf (ps : List Bytes) (hok : ∀ p ∈ ps, p.all pathByte = true)
    (device : Bytes → Option Bytes) (hr : Readable device ps) :
    mockFiles (headerOf ps device) =
      some (ps.filterMap fun p => (device p).map fun c => (⟨p, readBack c, 0⟩ : Mock.File)) := by
  have h1 : (b!"struct cpuinfo_mock_file filesystem[] = {\n").foldl step ([], .outside) =
      ([.word b!"struct", .word b!"cpuinfo_mock_file", .word b!"filesystem", .punct 91, .punct 93,
        .punct 61, .punct 123], .outside) := by decide +kernel
  have h2 : (b!"\t{ NULL },\n" ++ b!"};\n").foldl step ([], .outside) = (lastTokens, .outside) := by
    decide +kernel
  have ht : tokens (headerOf ps device) =
      some ([.word b!"struct", .word b!"cpuinfo_mock_file", .word b!"filesystem", .punct 91, .punct 93,
        .punct 61, .punct 123] ++ ps.flatMap (fileTokens device) ++ lastTokens) := by
    have hrun : (headerOf ps device).foldl step ([], .outside) = ([.word b!"struct",
        .word b!"cpuinfo_mock_file", .word b!"filesystem", .punct 91, .punct 93,
        .punct 61, .punct 123] ++ ps.flatMap (fileTokens device) ++ lastTokens, .outside) := by
      have h3 := run_files device ps hok hr
      unfold headerOf
      generalize b!"struct cpuinfo_mock_file filesystem[] = {\n" = x at h1 ⊢
      rw [List.append_assoc _ (b!"\t{ NULL },\n")]
      generalize b!"\t{ NULL },\n" ++ b!"};\n" = y at h2 ⊢
      rw [List.foldl_append, List.foldl_append, h1, h3, run_from h2]
    unfold tokens
    rw [hrun]
  unfold mockFiles
  rw [ht, Option.bind_some]
  have hg := initialisers_files device ps
  have hd : definition (glue ([.word b!"struct", .word b!"cpuinfo_mock_file", .word b!"filesystem",
        .punct 91, .punct 93, .punct 61, .punct 123] ++ ps.flatMap (fileTokens device) ++ lastTokens)) =
      some (entriesOf device ps) := by
    rw [List.append_assoc]
    generalize ps.flatMap (fileTokens device) ++ lastTokens = r at hg ⊢
    simp only [List.cons_append, List.nil_append, glue]
    rw [definition, if_pos ⟨rfl, rfl, rfl⟩]
    exact hg
  rw [hd, Option.bind_some]
  exact mapM_files device ps hok

/-- The mock file system that the header of a device defines. -/
theorem mockFiles_header (device : Bytes → Option Bytes) (hr : Readable device paths) :
    mockFiles (header device) =
      some (paths.filterMap fun p => (device p).map fun c => (⟨p, readBack c, 0⟩ : Mock.File)) :=
  mockFiles_headerOf paths paths_ok device hr

theorem contentOf_files (device : Bytes → Option Bytes) (ps : List Bytes) (path : Bytes) :
    Mock.contentOf (ps.filterMap fun p => (device p).map fun c => (⟨p, readBack c, 0⟩ : Mock.File)) path =
      if path ∈ ps then (device path).map readBack else none := by
  unfold Mock.contentOf
  induction ps with
  | nil => rfl
  | cons p ps ih =>
    rw [List.filterMap_cons]
    by_cases he : p = path
    · subst he
      rw [if_pos List.mem_cons_self]
      cases hd : device p with
      | none =>
        rw [hd] at ih
        simp only [Option.map_none, ite_self] at ih ⊢
        exact ih
      | some c => simp
    · have hm : (path ∈ p :: ps) = (path ∈ ps) := by
        rw [List.mem_cons]
        exact propext ⟨fun h => h.resolve_left (fun h => he h.symm), .inr⟩
      simp only [hm]
      rw [← ih]
      cases hd : device p with
      | none => rfl
      | some c =>
        simp only [Option.map_some]
        rw [List.find?_cons_of_neg (by simpa using he)]

/-! ## Which contents survive -/

theorem readByte_plain {b : Byte} (h : Plain b) : readByte b = [b] := if_pos h

theorem readText_plain {c : Bytes} (h : ∀ b ∈ c, Plain b) : readText c = c := by
  induction c with
  | nil => rfl
  | cons b r ih =>
    show readByte b ++ readText r = _
    rw [readByte_plain (h b List.mem_cons_self), ih (fun x hx => h x (List.mem_cons_of_mem _ hx))]
    rfl

theorem readBack_iff (c : Bytes) : readBack c = c ↔ ∀ b ∈ c, Plain b := by
  constructor
  · intro h
    induction c with
    | nil => intro b hb; cases hb
    | cons x r ih =>
      unfold readBack at h
      have hx : Plain x := by
        by_cases hp : Plain x
        · exact hp
        · exfalso
          have he : readText (x :: r) = [120, hexDigit (x / 16), hexDigit (x % 16)] ++ readText r := by
            have hrb : readByte x = [120, hexDigit (x / 16), hexDigit (x % 16)] := if_neg hp
            show readByte x ++ _ = _
            rw [hrb]
            rfl
          rw [he, List.length_cons, List.cons_append, List.take_succ_cons] at h
          have h120 := (List.cons.inj h).1
          exact hp (.inr (.inr (.inr (.inr ⟨by omega, by omega⟩))))
      have he : readText (x :: r) = x :: readText r := by
        show readByte x ++ _ = _
        rw [readByte_plain hx]
        rfl
      rw [he, List.length_cons, List.take_succ_cons] at h
      intro b hb
      rcases List.mem_cons.1 hb with rfl | hb
      · exact hx
      · exact ih (List.cons.inj h).2 b hb
  · intro h
    unfold readBack
    rw [readText_plain h, List.take_length]

end Verif.FileDump
