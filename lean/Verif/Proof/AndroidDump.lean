import Verif.Model.AndroidDump
import Verif.Spec.AndroidDump
import Verif.Proof.FileDump

/-!
# Reading back the files and properties of an Android device
-/

set_option autoImplicit false

namespace Verif.AndroidDump
open FileDump
open ArmChipset (decimal digitChar_toNat)

/-! ## getprop -/

theorem dropWhile_white (w r : Bytes) (hw : ∀ c ∈ w, isWhite c = true) :
    (w ++ r).dropWhile isWhite = r.dropWhile isWhite := by
  induction w with
  | nil => rfl
  | cons c w ih =>
    rw [List.cons_append, List.dropWhile_cons, if_pos (hw c List.mem_cons_self)]
    exact ih (fun x hx => hw x (List.mem_cons_of_mem _ hx))

theorem strip_core (w : Bytes) (a : Byte) (m : Bytes) (z : Byte) (w' : Bytes)
    (hw : ∀ c ∈ w, isWhite c = true) (hw' : ∀ c ∈ w', isWhite c = true) (ha : isWhite a = false)
    (hz : isWhite z = false) : strip (w ++ (a :: (m ++ [z]) ++ w')) = a :: (m ++ [z]) := by
  unfold strip
  rw [dropWhile_white w _ hw, List.cons_append, List.dropWhile_cons, ha]
  simp only [Bool.false_eq_true, if_false]
  rw [← List.cons_append, List.reverse_append,
    dropWhile_white _ _ (fun c hc => hw' c (List.mem_reverse.1 hc)), ← List.cons_append,
    List.reverse_append]
  simp only [List.reverse_cons, List.reverse_nil, List.nil_append, List.cons_append, List.dropWhile_cons, hz]
  simp

theorem strip_white (w : Bytes) (hw : ∀ c ∈ w, isWhite c = true) : strip w = [] := by
  have := dropWhile_white w [] hw
  rw [List.append_nil] at this
  unfold strip
  rw [this]
  rfl

theorem splitBracket_eq (k r : Bytes) (hk : 93 ∉ k) : splitBracket (k ++ 93 :: r) = some (k, r) := by
  induction k with
  | nil => rfl
  | cons c k ih =>
    have hc : c ≠ 93 := fun h => hk (by rw [h]; exact List.mem_cons_self)
    rw [List.cons_append, splitBracket, if_neg hc, ih (fun h => hk (List.mem_cons_of_mem _ h))]
    rfl

/-- What getprop prints without the last line end. -/
def core : List (Bytes × Bytes) → Bytes
  | [] => []
  | [p] => b!"[" ++ p.1 ++ b!"]: [" ++ p.2 ++ b!"]"
  | p :: q :: l => b!"[" ++ p.1 ++ b!"]: [" ++ p.2 ++ b!"]\n" ++ core (q :: l)

theorem core_ends (p : Bytes × Bytes) (l : List (Bytes × Bytes)) :
    ∃ m, core (p :: l) = 91 :: (m ++ [93]) := by
  induction l generalizing p with
  | nil => exact ⟨p.1 ++ b!"]: [" ++ p.2, by simp [core]⟩
  | cons q l ih =>
    obtain ⟨m, hm⟩ := ih q
    refine ⟨p.1 ++ b!"]: [" ++ p.2 ++ b!"]\n" ++ 91 :: m, ?_⟩
    rw [core, hm]
    simp

theorem text_core (p : Bytes × Bytes) (l : List (Bytes × Bytes)) :
    getpropText (p :: l) = core (p :: l) ++ [10] := by
  induction l generalizing p with
  | nil => simp [getpropText, core]
  | cons q l ih =>
    have : getpropText (p :: q :: l) = b!"[" ++ p.1 ++ b!"]: [" ++ p.2 ++ b!"]\n" ++ getpropText (q :: l) := by
      unfold getpropText
      rw [List.flatMap_cons]
    rw [this, ih q, core]
    simp

/-- One round: the key, the value, and what is left. -/
theorem round (k v tail : Bytes) (hk : 93 ∉ k) (hv : 93 ∉ v) (w' : Bytes) (hw' : ∀ c ∈ w', isWhite c = true)
    (ht : tail = [] ∨ ∃ m, tail = m ++ [93]) (fuel : Nat) :
    getpropLoop (fuel + 1) (b!"[" ++ k ++ b!"]: [" ++ v ++ b!"]" ++ tail ++ w') =
      (getpropLoop fuel (strip tail)).map fun l => (k, v) :: l := by
  have hm : ∃ m, v ++ 93 :: tail = m ++ [93] := by
    rcases ht with rfl | ⟨m, rfl⟩
    · exact ⟨v, rfl⟩
    · exact ⟨v ++ 93 :: m, by simp⟩
  obtain ⟨m, hm⟩ := hm
  have h1 : strip (58 :: 32 :: 91 :: (v ++ 93 :: tail) ++ w') = 58 :: 32 :: 91 :: (v ++ 93 :: tail) := by
    rw [hm]
    exact strip_core [] 58 (32 :: 91 :: m) 93 w' (fun c hc => by cases hc) hw' rfl rfl
  have h2 : strip (32 :: 91 :: (v ++ 93 :: tail)) = 91 :: (v ++ 93 :: tail) := by
    rw [hm]
    have := strip_core [32] 91 m 93 [] (by decide) (fun c hc => by cases hc) rfl rfl
    simpa using this
  have he : b!"[" ++ k ++ b!"]: [" ++ v ++ b!"]" ++ tail ++ w' =
      91 :: (k ++ 93 :: (58 :: 32 :: 91 :: (v ++ 93 :: tail) ++ w')) := by simp
  rw [he, getpropLoop]
  simp only [expect, if_true, Option.bind_eq_bind, Option.bind_some, splitBracket_eq _ _ hk, h1, h2,
    splitBracket_eq _ _ hv]
  cases getpropLoop fuel (strip tail) <;> rfl

theorem loop_core (l : List (Bytes × Bytes)) (hl : ∀ p ∈ l, 93 ∉ p.1 ∧ 93 ∉ p.2) :
    ∀ (w' : Bytes) (fuel : Nat), (∀ c ∈ w', isWhite c = true) → l.length ≤ fuel → (l = [] → w' = []) →
    getpropLoop fuel (core l ++ w') = some l := by
  induction l with
  | nil =>
    intro w' fuel _ _ h0
    rw [h0 rfl]
    cases fuel <;> rfl
  | cons p l ih =>
    intro w' fuel hw' hf _
    have hp := hl p List.mem_cons_self
    have hl' : ∀ q ∈ l, 93 ∉ q.1 ∧ 93 ∉ q.2 := fun q hq => hl q (List.mem_cons_of_mem _ hq)
    cases fuel with
    | zero => simp at hf
    | succ fuel =>
      have hf' : l.length ≤ fuel := by simpa using hf
      cases l with
      | nil =>
        have := round p.1 p.2 [] hp.1 hp.2 w' hw' (.inl rfl) fuel
        rw [List.append_nil] at this
        rw [core, this]
        cases fuel <;> rfl
      | cons q l =>
        obtain ⟨m, hm⟩ := core_ends q l
        have := round p.1 p.2 (10 :: core (q :: l)) hp.1 hp.2 w' hw'
          (.inr ⟨10 :: 91 :: m, by rw [hm]; simp⟩) fuel
        have hs : strip (10 :: core (q :: l)) = core (q :: l) := by
          rw [hm]
          have := strip_core [10] 91 m 93 [] (by decide) (fun c hc => by cases hc) rfl rfl
          simpa using this
        have hi := ih hl' [] fuel (fun c hc => by cases hc) hf' (fun _ => rfl)
        rw [List.append_nil] at hi
        rw [hs, hi] at this
        have he : core (p :: q :: l) ++ w' =
            b!"[" ++ p.1 ++ b!"]: [" ++ p.2 ++ b!"]" ++ 10 :: core (q :: l) ++ w' := by
          rw [core]; simp
        rw [he, this]
        rfl

theorem text_length (l : List (Bytes × Bytes)) : l.length ≤ (getpropText l).length := by
  induction l with
  | nil => simp
  | cons p l ih =>
    have : getpropText (p :: l) = b!"[" ++ p.1 ++ b!"]: [" ++ p.2 ++ b!"]\n" ++ getpropText l := by
      unfold getpropText
      rw [List.flatMap_cons]
    rw [this]
    simp only [List.length_append, List.length_cons, List.length_nil]
    omega

theorem getprop_eq (l : List (Bytes × Bytes)) (hl : ∀ p ∈ l, 93 ∉ p.1 ∧ 93 ∉ p.2) :
    getprop (getpropText l) = some l := by
  unfold getprop
  cases l with
  | nil => rfl
  | cons p l =>
    have h := text_length (p :: l)
    generalize (getpropText (p :: l)).length = n at h ⊢
    rw [text_core]
    exact loop_core (p :: l) hl [10] n (by decide) h (fun h0 => by cases h0)

/-! ## The array of properties -/

/-- The tokens of a property. -/
def propertyTokens (p : Bytes × Bytes) : List Token :=
  [.punct 123, .punct 46, .word b!"key", .punct 61, .string (readText p.1), .punct 44, .punct 46,
    .word b!"value", .punct 61, .string (readText p.2), .punct 44, .punct 125, .punct 44]

theorem noDigit_of {c : Bytes} (h : ∀ b ∈ c, b ≠ 0) : NoDigitAfterZero c := by
  intro a b d he
  exact absurd rfl (h 0 (by rw [he]; simp))

theorem run_property (p : Bytes × Bytes) (h1 : ∀ b ∈ p.1, b < 256 ∧ b ≠ 0) (h2 : ∀ b ∈ p.2, b < 256 ∧ b ≠ 0)
    (ts : List Token) :
    (propertyText p).foldl step (ts, .outside) = (ts ++ propertyTokens p, .outside) := by
  apply run_from
  have hA : (b!"\t{\n\t\t.key =").foldl step ([], .outside) =
      ([.punct 123, .punct 46, .word b!"key", .punct 61], .outside) := by decide +kernel
  have hB : (b!",\n\t\t.value =").foldl step ([], .outside) =
      ([.punct 44, .punct 46, .word b!"value", .punct 61], .outside) := by decide +kernel
  have hC : (b!",\n\t},\n").foldl step ([], .outside) = ([.punct 44, .punct 125, .punct 44], .outside) := by
    decide +kernel
  have he : propertyText p = b!"\t{\n\t\t.key =" ++ (b!" " ++ 34 :: (cEscape p.1 ++ [34])) ++
      b!",\n\t\t.value =" ++ (b!" " ++ 34 :: (cEscape p.2 ++ [34])) ++ b!",\n\t},\n" := by
    simp [propertyText]
  have hK := run_white (w := b!" ") (by decide +kernel) p.1 (fun b hb => (h1 b hb).1)
    (noDigit_of fun b hb => (h1 b hb).2)
  have hV := run_white (w := b!" ") (by decide +kernel) p.2 (fun b hb => (h2 b hb).1)
    (noDigit_of fun b hb => (h2 b hb).2)
  rw [he]
  generalize b!" " ++ 34 :: (cEscape p.1 ++ [34]) = x at hK ⊢
  generalize b!" " ++ 34 :: (cEscape p.2 ++ [34]) = y at hV ⊢
  rw [List.foldl_append, List.foldl_append, List.foldl_append, List.foldl_append, hA, hK, run_from hB, hV,
    run_from hC]
  simp [propertyTokens]

theorem run_properties (l : List (Bytes × Bytes))
    (h : ∀ p ∈ l, (∀ b ∈ p.1, b < 256 ∧ b ≠ 0) ∧ ∀ b ∈ p.2, b < 256 ∧ b ≠ 0) : ∀ ts : List Token,
    (l.flatMap propertyText).foldl step (ts, .outside) = (ts ++ l.flatMap propertyTokens, .outside) := by
  induction l with
  | nil => intro ts; simp
  | cons p l ih =>
    intro ts
    have hp := h p List.mem_cons_self
    rw [List.flatMap_cons, List.flatMap_cons, List.foldl_append, run_property p hp.1 hp.2,
      ih (fun q hq => h q (List.mem_cons_of_mem _ hq)), List.append_assoc]

theorem takeWhile_self {c : Bytes} (h : ∀ b ∈ c, b ≠ 0) : c.takeWhile (· ≠ 0) = c := by
  have := List.takeWhile_append_of_pos (p := fun b : Byte => decide (b ≠ 0)) (l₁ := c) (l₂ := [])
    (fun b hb => decide_eq_true (h b hb))
  rw [List.takeWhile_nil, List.append_nil] at this
  exact this

theorem propertyInitialisers_eq (l : List (Bytes × Bytes))
    (h : ∀ p ∈ l, (∀ b ∈ p.1, Plain b ∧ b ≠ 0) ∧ ∀ b ∈ p.2, Plain b ∧ b ≠ 0) :
    propertyInitialisers (glue (l.flatMap propertyTokens ++ lastTokens)) = some l := by
  induction l with
  | nil =>
    show propertyInitialisers (glue lastTokens) = some []
    decide +kernel
  | cons p l ih =>
    have hp := h p List.mem_cons_self
    have ih' := ih (fun q hq => h q (List.mem_cons_of_mem _ hq))
    rw [List.flatMap_cons, List.append_assoc]
    generalize l.flatMap propertyTokens ++ lastTokens = r at ih' ⊢
    unfold propertyTokens
    rw [readText_plain (fun b hb => (hp.1 b hb).1), readText_plain (fun b hb => (hp.2 b hb).1)]
    simp only [List.cons_append, List.nil_append, glue]
    rw [propertyInitialisers, if_pos ⟨rfl, rfl⟩, ih', takeWhile_self (fun b hb => (hp.1 b hb).2),
      takeWhile_self (fun b hb => (hp.2 b hb).2)]
    rfl

theorem mockProperties_header (l : List (Bytes × Bytes))
    (h : ∀ p ∈ l, (∀ b ∈ p.1, Plain b ∧ b ≠ 0) ∧ ∀ b ∈ p.2, Plain b ∧ b ≠ 0) :
    mockProperties (propertiesHeader l) = some l := by
  have hlt : ∀ b, Plain b ∧ b ≠ 0 → b < 256 ∧ b ≠ 0 := by
    intro b hb
    have := hb.1
    unfold Plain at this
    exact ⟨by omega, hb.2⟩
  have h1 : (b!"struct cpuinfo_mock_property properties[] = {\n").foldl step ([], .outside) =
      ([.word b!"struct", .word b!"cpuinfo_mock_property", .word b!"properties", .punct 91, .punct 93,
        .punct 61, .punct 123], .outside) := by decide +kernel
  have h2 : (b!"\t{ NULL },\n" ++ b!"};\n").foldl step ([], .outside) = (lastTokens, .outside) := by
    decide +kernel
  have h3 := run_properties l (fun p hp => ⟨fun b hb => hlt b ((h p hp).1 b hb),
    fun b hb => hlt b ((h p hp).2 b hb)⟩)
  have hrun : (propertiesHeader l).foldl step ([], .outside) = ([.word b!"struct",
      .word b!"cpuinfo_mock_property", .word b!"properties", .punct 91, .punct 93,
      .punct 61, .punct 123] ++ l.flatMap propertyTokens ++ lastTokens, .outside) := by
    unfold propertiesHeader
    generalize b!"struct cpuinfo_mock_property properties[] = {\n" = x at h1 ⊢
    rw [List.append_assoc _ (b!"\t{ NULL },\n")]
    generalize b!"\t{ NULL },\n" ++ b!"};\n" = y at h2 ⊢
    rw [List.foldl_append, List.foldl_append, h1, h3, run_from h2]
  unfold mockProperties tokens
  rw [hrun]
  dsimp only
  rw [Option.bind_some, List.append_assoc]
  have hg := propertyInitialisers_eq l h
  generalize l.flatMap propertyTokens ++ lastTokens = r at hg ⊢
  simp only [List.cons_append, List.nil_append, glue]
  rw [propertyDefinition, if_pos ⟨rfl, rfl, rfl⟩]
  exact hg

/-! ## The paths -/

theorem digits_ok (n : Nat) : (decimal n).all pathByte = true := by
  rw [List.all_eq_true]
  intro c hc
  have := ArmChipset.decimal_digits n c hc
  unfold Spec.Chipsets.Digit at this
  unfold pathByte
  simp only [Bool.and_eq_true, Nat.ble_eq, Nat.blt_eq, Bool.not_eq_true']
  refine ⟨⟨⟨by omega, by omega⟩, ?_⟩, ?_⟩
  · cases h : Nat.beq c 34 with
    | false => rfl
    | true => have := Nat.eq_of_beq_eq_true h; omega
  · cases h : Nat.beq c 92 with
    | false => rfl
    | true => have := Nat.eq_of_beq_eq_true h; omega

theorem cpuDir_ok (cpu : Nat) : (cpuDir cpu).all pathByte = true := by
  unfold cpuDir
  rw [List.all_append, List.all_append, digits_ok, Bool.and_true]
  decide +kernel

theorem paths_ok (k : Nat) : ∀ p ∈ paths k, p.all pathByte = true := by
  intro p hp
  rcases List.mem_append.1 hp with h | h
  · have : systemFiles.all (fun p => p.all pathByte) = true := by decide +kernel
    exact List.all_eq_true.1 this p h
  · obtain ⟨cpu, _, h⟩ := List.mem_flatMap.1 h
    rcases List.mem_append.1 h with h | h
    · obtain ⟨f, hf, rfl⟩ := List.mem_map.1 h
      have : cpuFiles.all (fun p => p.all pathByte) = true := by decide +kernel
      rw [List.all_append, cpuDir_ok, List.all_eq_true.1 this f hf]
      rfl
    · obtain ⟨i, _, h⟩ := List.mem_flatMap.1 h
      obtain ⟨f, hf, rfl⟩ := List.mem_map.1 h
      have : cacheFiles.all (fun p => p.all pathByte) = true := by decide +kernel
      rw [List.all_append, List.all_append, List.all_append, List.all_append, cpuDir_ok, digits_ok,
        List.all_eq_true.1 this f hf]
      decide +kernel

/-! ## Numbers and lines -/

theorem foldl_decimal (n : Nat) : (decimal n).foldl (fun n c => 10 * n + (c - 48)) 0 = n := by
  induction n using Nat.strongRecOn with
  | ind n ih =>
    by_cases h : n < 10
    · unfold decimal
      rw [Nat.toDigits_of_lt_base h, List.map_cons, List.map_nil, digitChar_toNat h]
      simp
    · have he : decimal n = decimal (n / 10) ++ [48 + n % 10] := by
        unfold decimal
        rw [Nat.toDigits_of_base_le (by decide) (by omega), List.map_append, List.map_cons, List.map_nil,
          digitChar_toNat (by omega)]
      rw [he, List.foldl_append, ih (n / 10) (by omega)]
      simp only [List.foldl_cons, List.foldl_nil]
      omega

theorem pyInt_decimal (n : Nat) : pyInt (decimal n) = some n := by
  unfold pyInt
  rw [if_pos, foldl_decimal]
  refine ⟨Proof.Tools.decimal_ne_nil n, List.all_eq_true.2 fun c hc => ?_⟩
  have := ArmChipset.decimal_digits n c hc
  unfold Spec.Chipsets.Digit at this
  unfold pyInt.isDigitByte
  rw [Bool.and_eq_true, Nat.ble_eq, Nat.ble_eq]
  exact this

theorem digit_not_white {c : Byte} (h : 48 ≤ c ∧ c ≤ 57) : isWhite c = false := by
  obtain ⟨k, rfl⟩ : ∃ k, c = 48 + k := ⟨c - 48, by omega⟩
  have hk : k < 10 := by omega
  rcases k with _ | _ | _ | _ | _ | _ | _ | _ | _ | _ | k
  all_goals first | omega | rfl

theorem strip_decimal (n : Nat) (w : Bytes) (hw : ∀ c ∈ w, isWhite c = true) :
    strip (decimal n ++ w) = decimal n := by
  have hd : ∀ c ∈ decimal n, isWhite c = false := fun c hc =>
    digit_not_white (ArmChipset.decimal_digits n c hc)
  have hne := Proof.Tools.decimal_ne_nil n
  generalize decimal n = ds at hd hne ⊢
  unfold strip
  have hrev : ∀ l : Bytes, (∀ c ∈ l, isWhite c = false) → l.dropWhile isWhite = l := by
    intro l hl
    cases l with
    | nil => rfl
    | cons c l => rw [List.dropWhile_cons, hl c List.mem_cons_self]; rfl
  have h1 : (ds ++ w).dropWhile isWhite = ds ++ w := by
    cases ds with
    | nil => exact absurd rfl hne
    | cons c l => rw [List.cons_append, List.dropWhile_cons, hd c List.mem_cons_self]; rfl
  rw [h1, List.reverse_append, dropWhile_white _ _ (fun c hc => hw c (List.mem_reverse.1 hc)),
    hrev _ (fun c hc => hd c (List.mem_reverse.1 hc)), List.reverse_reverse]

/-- Joining the lines of a text without carriage returns gives the text without its last line end. -/
theorem join_split (t : Bytes) (h : 13 ∉ t) :
    (joinLines (splitPlain t) = t ∧ (t = [] ∨ t.getLast? ≠ some 10)) ∨
      (joinLines (splitPlain t) ++ [10] = t ∧ splitPlain t ≠ []) := by
  induction t with
  | nil => exact .inl ⟨rfl, .inl rfl⟩
  | cons c r ih =>
    have hc13 : c ≠ 13 := fun h0 => h (by rw [h0]; exact List.mem_cons_self)
    have ih := ih (fun h0 => h (List.mem_cons_of_mem _ h0))
    have hs : splitPlain (c :: r) = if c = 10 ∨ c = 13 then [] :: splitPlain r else
        match splitPlain r with
        | [] => [[c]]
        | l :: ls => (c :: l) :: ls := by
      rw [splitPlain.eq_def]
      split
      · contradiction
      · rename_i heq; injection heq with h1 _; exact absurd h1 hc13
      · rename_i heq; injection heq with h1 h2; subst h1 h2; rfl
    have hsr : splitPlain r = [] → r = [] := by
      intro h0
      rcases ih with ⟨hj, _⟩ | ⟨_, hn⟩
      · rw [h0] at hj; exact hj.symm
      · exact absurd h0 hn
    rw [hs]
    by_cases hc : c = 10
    · subst hc
      rw [if_pos (.inl rfl)]
      cases hsp : splitPlain r with
      | nil =>
        have := hsr hsp
        subst this
        exact .inr ⟨rfl, by simp⟩
      | cons l ls =>
        rw [hsp] at ih
        have hj : joinLines ([] :: l :: ls) = 10 :: joinLines (l :: ls) := rfl
        rw [hj]
        rcases ih with ⟨hj, hl⟩ | ⟨hj, _⟩
        · left
          rw [hj]
          refine ⟨rfl, .inr ?_⟩
          rcases hl with rfl | hl
          · cases hsp
          · cases r with
            | nil => cases hsp
            | cons x r => rw [List.getLast?_cons_cons]; exact hl
        · right
          exact ⟨by rw [List.cons_append, hj], by simp⟩
    · rw [if_neg (by rintro (h | h); exact hc h; exact hc13 h)]
      cases hsp : splitPlain r with
      | nil =>
        have := hsr hsp
        subst this
        left
        refine ⟨rfl, .inr ?_⟩
        intro h0
        exact hc (by simpa using h0)
      | cons l ls =>
        rw [hsp] at ih
        dsimp only
        have hj : joinLines ((c :: l) :: ls) = c :: joinLines (l :: ls) := by
          cases ls <;> rfl
        rw [hj]
        rcases ih with ⟨hj, hl⟩ | ⟨hj, _⟩
        · left
          rw [hj]
          refine ⟨rfl, .inr ?_⟩
          rcases hl with rfl | hl
          · cases hsp
          · cases r with
            | nil => cases hsp
            | cons x r => rw [List.getLast?_cons_cons]; exact hl
        · right
          exact ⟨by rw [List.cons_append, hj], by simp⟩

theorem dump_all (sched : Nat → Nat) (file : Bytes) : ∀ (fuel call : Nat), file.length < fuel →
    dumpLoop sched fuel call file = file := by
  intro fuel
  induction fuel generalizing file with
  | zero => intro call h; omega
  | succ fuel ih =>
    intro call h
    cases file with
    | nil => rfl
    | cons c r =>
      rw [dumpLoop, ih _ (call + 1) (by
        rw [List.length_drop]
        simp only [List.length_cons] at h ⊢
        omega)]
      exact List.take_append_drop _ _

theorem split_free : ∀ (text : Bytes) (x : Bytes × Bytes), splitBracket text = some x → 93 ∉ x.1
  | [], _, h => by cases h
  | c :: r, x, h => by
    unfold splitBracket at h
    split at h
    · cases h
      exact List.not_mem_nil
    · rename_i hc
      obtain ⟨y, hy, rfl⟩ := Option.map_eq_some_iff.mp h
      intro hm
      rcases List.mem_cons.mp hm with e | hm
      · exact hc e.symm
      · exact split_free r y hy hm

/-- The script never finds a property with a closing bracket. -/
theorem getpropLoop_free : ∀ (fuel : Nat) (text : Bytes) (l : List (Bytes × Bytes)),
    getpropLoop fuel text = some l → ∀ p ∈ l, 93 ∉ p.1 ∧ 93 ∉ p.2
  | 0, [], l, h => by
    unfold getpropLoop at h
    cases h
    intro p hp
    cases hp
  | _ + 1, [], l, h => by
    unfold getpropLoop at h
    cases h
    intro p hp
    cases hp
  | 0, _ :: _, l, h => by
    unfold getpropLoop at h
    cases h
  | fuel + 1, c :: r, l, h => by
    unfold getpropLoop at h
    simp only [bind, pure, Option.bind_eq_some_iff] at h
    obtain ⟨a, -, x, hx, b, -, d, -, y, hy, m, hm, h⟩ := h
    cases h
    intro p hp
    rcases List.mem_cons.mp hp with rfl | hp
    · exact ⟨split_free _ x hx, split_free _ y hy⟩
    · exact getpropLoop_free fuel _ m hm p hp

end Verif.AndroidDump
