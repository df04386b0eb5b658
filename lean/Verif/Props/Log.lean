import Verif.Model.Log

/-!
# C54, C93: log messages
-/

set_option autoImplicit false

namespace Verif.Props
open Log

theorem put_eq {buf : Bytes} {off : Nat} {bs : Bytes} (h : off + bs.length ≤ buf.length) :
    put buf off bs = some (buf.take off ++ bs ++ buf.drop (off + bs.length)) := if_pos h

theorem put_length {buf : Bytes} {off : Nat} {bs : Bytes} (h : off + bs.length ≤ buf.length) :
    (buf.take off ++ bs ++ buf.drop (off + bs.length)).length = buf.length := by
  simp only [List.length_append, List.length_take, List.length_drop]
  omega

theorem vsnprintf_eq {buf : Bytes} {off size : Nat} {text : Bytes} (hs : 0 < size)
    (h : off + min (size - 1) text.length + 1 ≤ buf.length) :
    vsnprintf buf off size text =
      some (buf.take off ++ (text.take (size - 1) ++ [0]) ++ buf.drop (off + min (size - 1) text.length + 1)) := by
  unfold vsnprintf
  rw [if_neg (by omega), put_eq (by simp only [List.length_append, List.length_take, List.length_singleton]; omega)]
  simp only [List.length_append, List.length_take, List.length_singleton, Nat.add_assoc]

theorem fresh_length (f : Nat → Byte) (n : Nat) : (fresh f n).length = n := by simp [fresh]

/-- A buffer that starts with `a`, over which `b` is put at the end of `a`. -/
theorem put_after (a b c : Bytes) (off : Nat) (ho : off = a.length) (h : b.length ≤ c.length) :
    put (a ++ c) off b = some (a ++ b ++ c.drop b.length) := by
  subst ho
  rw [put_eq (by simp only [List.length_append]; omega)]
  rw [List.take_left, List.drop_append, List.drop_of_length_le (by omega : a.length ≤ a.length + b.length)]
  simp

/-- What the steps after the prefix do, in a buffer that starts with the prefix. -/
theorem finish_eq (pre text newline c : Bytes) (size : Nat) (hs : 0 < size)
    (hc : min (size - 1) text.length + 1 ≤ c.length) (hc' : text.length + newline.length ≤ c.length) :
    ((vsnprintf (pre ++ c) pre.length size text).bind fun b =>
      (put b (pre.length + text.length) newline).map (·.take (pre.length + text.length + newline.length))) =
    some (pre ++ ((text.take (size - 1) ++ [0] ++ c.drop (min (size - 1) text.length + 1)).take text.length)
      ++ newline) := by
  unfold vsnprintf
  have hl : (text.take (size - 1) ++ [0]).length = min (size - 1) text.length + 1 := by simp
  rw [if_neg (by omega), put_after _ _ _ _ rfl (by omega), Option.bind_some, hl]
  generalize hd : text.take (size - 1) ++ [0] ++ c.drop (min (size - 1) text.length + 1) = d
  have hdl : d.length = c.length := by
    rw [← hd]; simp only [List.length_append, List.length_take, List.length_drop, List.length_singleton]; omega
  rw [List.append_assoc, hd]
  have : pre ++ d = (pre ++ d.take text.length) ++ d.drop text.length := by
    rw [List.append_assoc, List.take_append_drop]
  rw [this, put_after _ _ _ _ (by simp only [List.length_append, List.length_take]; omega)
    (by rw [List.length_drop]; omega)]
  simp only [Option.map_some]
  congr 1
  rw [List.take_append_of_le_length (by simp only [List.length_append, List.length_take]; omega)]
  exact List.take_of_length_le (by simp only [List.length_append, List.length_take]; omega)

/-- The whole text fits before the terminator. -/
theorem fits_eq (text c : Bytes) (size : Nat) (h : text.length < size) :
    (text.take (size - 1) ++ [0] ++ c).take text.length = text := by
  rw [List.take_of_length_le (by omega : text.length ≤ size - 1), List.append_assoc, List.take_left]

/-- The text is one character too long. -/
theorem cut_eq (text c : Bytes) (size : Nat) (h : text.length = size) (h0 : 0 < size) :
    (text.take (size - 1) ++ [0] ++ c).take text.length = text.dropLast ++ [0] := by
  rw [← h, ← List.dropLast_eq_take, List.take_append_of_le_length (by simp; omega)]
  exact List.take_of_length_le (by simp; omega)

theorem put_prefix (pre stack : Bytes) (h : pre.length ≤ stack.length) :
    put stack 0 pre = some (pre ++ stack.drop pre.length) := by
  rw [put_eq (by omega)]; simp

/-- The three ways through `vlog`. -/
theorem vlog_eq (newline pre stack : Bytes) (heap : Option (Nat → Byte)) (text : Bytes)
    (hst : stack.length = 1024) (hp : pre.length + newline.length < 1024) (hn : 0 < newline.length) :
    vlog newline pre stack heap (some text) =
      if pre.length + text.length + newline.length > 1024 then
        some (heap.map fun _ => pre ++ text ++ newline)
      else if pre.length + text.length + newline.length = 1024 then
        some (some (pre ++ (text.dropLast ++ [0]) ++ newline))
      else some (some (pre ++ text ++ newline)) := by
  unfold vlog
  simp only [put_prefix pre stack (by omega), Option.bind_eq_bind, Option.bind_some, Option.pure_def]
  have hcl : (stack.drop pre.length).length = 1024 - pre.length := by rw [List.length_drop, hst]
  by_cases h1 : pre.length + text.length + newline.length > 1024
  · simp only [if_pos h1]
    have hv : ∃ b, vsnprintf (pre ++ stack.drop pre.length) pre.length
        (1024 - (pre.length + newline.length)) text = some b := by
      refine ⟨_, vsnprintf_eq (by omega) ?_⟩
      rw [List.length_append, hcl]; omega
    obtain ⟨b, hb⟩ := hv
    rw [hb, Option.bind_some]
    cases heap with
    | none => rfl
    | some fill =>
      simp only [put_prefix pre _ (by rw [fresh_length]; omega : pre.length ≤
        (fresh fill (pre.length + text.length + newline.length)).length), Option.bind_some]
      have hfl : ((fresh fill (pre.length + text.length + newline.length)).drop pre.length).length =
          text.length + newline.length := by rw [List.length_drop, fresh_length]; omega
      have := finish_eq pre text newline
        ((fresh fill (pre.length + text.length + newline.length)).drop pre.length)
        (text.length + newline.length) (by omega) (by rw [hfl]; omega) (by rw [hfl]; omega)
      rw [fits_eq _ _ _ (by omega)] at this
      obtain ⟨b', hb', hb2⟩ := Option.bind_eq_some_iff.mp this
      obtain ⟨b'', hb3, hb4⟩ := Option.map_eq_some_iff.mp hb2
      rw [hb', Option.bind_some, hb3, Option.bind_some, hb4]
      rfl
  · simp only [if_neg h1]
    have := finish_eq pre text newline (stack.drop pre.length) (1024 - (pre.length + newline.length))
      (by omega) (by rw [hcl]; omega) (by rw [hcl]; omega)
    obtain ⟨b', hb', hb2⟩ := Option.bind_eq_some_iff.mp this
    obtain ⟨b'', hb3, hb4⟩ := Option.map_eq_some_iff.mp hb2
    rw [hb', Option.bind_some, hb3, Option.bind_some, hb4]
    by_cases h2 : pre.length + text.length + newline.length = 1024
    · rw [if_pos h2, cut_eq _ _ _ (by omega) (by omega)]
    · rw [if_neg h2, fits_eq _ _ _ (by omega)]

/-! ## C54 -/

/-- The bytes that end a line. -/
def lineEnd (windows : Bool) : Bytes := if windows then b!"\r\n" else b!"\n"

theorem prefix_short (l : LogLevel) : (prefixOf l).length ≤ 24 := by cases l <;> decide

theorem lineEnd_length (w : Bool) : 0 < (lineEnd w).length ∧ (lineEnd w).length ≤ 2 := by
  cases w <;> decide

theorem log_eq (windows : Bool) (l : LogLevel) (stack : Bytes) (hst : stack.length = 1024)
    (heap : Option (Nat → Byte)) (text : Bytes) :
    log windows l stack heap (some text) =
      if (prefixOf l).length + text.length + (lineEnd windows).length > 1024 then
        some (heap.map fun _ => prefixOf l ++ text ++ lineEnd windows)
      else if (prefixOf l).length + text.length + (lineEnd windows).length = 1024 then
        some (some (prefixOf l ++ (text.dropLast ++ [0]) ++ lineEnd windows))
      else some (some (prefixOf l ++ text ++ lineEnd windows)) := by
  have h1 := prefix_short l
  have h2 := lineEnd_length windows
  exact vlog_eq (lineEnd windows) (prefixOf l) stack heap text hst (by omega) (by omega)

/-- **C54 (partial).** A message is written as prefix, text and line end, whatever is in the buffers
before.  Missing for the full C54: messages whose total length is exactly 1024 bytes. -/
theorem C54_written_partial (windows : Bool) (l : LogLevel) (stack : Bytes)
    (hst : stack.length = 1024) (fill : Nat → Byte) (text : Bytes)
    (h : (prefixOf l ++ text ++ lineEnd windows).length ≠ 1024) :
    log windows l stack (some fill) (some text) = some (some (prefixOf l ++ text ++ lineEnd windows)) := by
  rw [log_eq _ _ _ hst]
  simp only [List.length_append] at h
  by_cases h1 : (prefixOf l).length + text.length + (lineEnd windows).length > 1024
  · rw [if_pos h1]; rfl
  · rw [if_neg h1, if_neg h]

/-- **C54.** A log call never leaves its buffers.  Nothing is written exactly when formatting fails,
or `malloc` fails for a message of more than 1024 bytes. -/
theorem C54_no_overrun (windows : Bool) (l : LogLevel) (stack : Bytes) (hst : stack.length = 1024)
    (heap : Option (Nat → Byte)) (text : Option Bytes) :
    ∃ r, log windows l stack heap text = some r ∧
      (r = none ↔ (text = none ∨ heap = none ∧
        ∃ t, text = some t ∧ 1024 < (prefixOf l ++ t ++ lineEnd windows).length)) := by
  cases text with
  | none =>
    refine ⟨none, ?_, by simp⟩
    have h1 := prefix_short l
    unfold log vlog
    rw [put_prefix _ _ (by omega)]
    rfl
  | some t =>
    rw [log_eq _ _ _ hst]
    simp only [List.length_append]
    by_cases h1 : (prefixOf l).length + t.length + (lineEnd windows).length > 1024
    · rw [if_pos h1]
      refine ⟨_, rfl, ?_⟩
      cases heap with
      | none => exact ⟨fun _ => .inr ⟨rfl, t, rfl, h1⟩, fun _ => rfl⟩
      | some f =>
        refine ⟨fun h => (by cases h), fun h => ?_⟩
        rcases h with h | ⟨h, _⟩ <;> cases h
    · rw [if_neg h1]
      have no : ¬ ((some t : Option Bytes) = none ∨ heap = none ∧
          ∃ t', some t = some t' ∧ 1024 < (prefixOf l).length + t'.length + (lineEnd windows).length) := by
        rintro (h | ⟨_, t', ht, h⟩)
        · cases h
        · cases ht; exact h1 h
      split
      · exact ⟨_, rfl, fun h => (by cases h), fun h => absurd h no⟩
      · exact ⟨_, rfl, fun h => (by cases h), fun h => absurd h no⟩

/-- **C54 is violated** by every message of exactly 1024 bytes: the last character of the text is
replaced by a NUL byte. -/
theorem C54_violated (windows : Bool) (l : LogLevel) (stack : Bytes) (hst : stack.length = 1024)
    (heap : Option (Nat → Byte)) (text : Bytes)
    (h : (prefixOf l ++ text ++ lineEnd windows).length = 1024) :
    log windows l stack heap (some text) =
      some (some (prefixOf l ++ text.dropLast ++ [0] ++ lineEnd windows)) := by
  rw [log_eq _ _ _ hst]
  simp only [List.length_append] at h
  rw [if_neg (by omega), if_pos h]
  simp only [List.append_assoc]

/-- A message of 1024 bytes, and a short one. -/
example : (prefixOf .debug ++ List.replicate 1006 97 ++ lineEnd false).length = 1024 ∧
    log false .error (List.replicate 1024 7) none (some b!"oops") = some (some b!"Error in cpuinfo: oops\n") ∧
    log true .debug (List.replicate 1024 7) (some fun _ => 9) (some (List.replicate 2000 97)) =
      some (some (b!"Debug (cpuinfo): " ++ List.replicate 2000 97 ++ b!"\r\n")) := by
  refine ⟨by decide +kernel, by decide +kernel, by decide +kernel⟩

/-! ## C93 -/

/-- The prefix a clog message should have. -/
def clogText (l : LogLevel) : Option (Option Bytes) → Bytes
  | none => clogPlain l
  | some none => []
  | some (some m) => clogFormat l m

theorem clogPlain_short (l : LogLevel) : (clogPlain l).length ≤ 13 := by cases l <;> decide

/-- The stack buffer after the prefix. -/
theorem clogPrefix_eq (l : LogLevel) (modul : Option (Option Bytes)) (stack : Bytes)
    (hst : stack.length = 1024) :
    ∃ st, clogPrefix l modul stack = some (st, clogText l modul) ∧ st.length = 1024 ∧
      ((clogText l modul).length < 1024 → ∃ c, st = clogText l modul ++ c) ∧
      ((clogText l modul).length ≥ 1024 → st = (clogText l modul).take 1023 ++ [0]) := by
  cases modul with
  | none =>
    have := clogPlain_short l
    refine ⟨clogPlain l ++ stack.drop (clogPlain l).length, ?_, ?_, fun _ => ⟨_, rfl⟩, ?_⟩
    · unfold clogPrefix
      simp only [put_prefix _ stack (by omega : (clogPlain l).length ≤ stack.length)]
      rfl
    · rw [List.length_append, List.length_drop, hst]; omega
    · intro h; simp only [clogText] at h; omega
  | some m =>
    cases m with
    | none => exact ⟨stack, rfl, hst, fun _ => ⟨stack, rfl⟩, fun h => by simp [clogText] at h⟩
    | some m =>
      have e : clogText l (some (some m)) = clogFormat l m := rfl
      have e2 : clogPrefix l (some (some m)) stack =
          (vsnprintf stack 0 1024 (clogFormat l m)).map fun st => (st, clogFormat l m) := by
        show ((vsnprintf stack 0 1024 (clogFormat l m)).bind fun st => some (st, clogFormat l m)) = _
        cases vsnprintf stack 0 1024 (clogFormat l m) <;> rfl
      rw [e, e2]
      generalize clogFormat l m = pre
      have hv := vsnprintf_eq (buf := stack) (off := 0) (size := 1024) (text := pre) (by omega)
        (by rw [hst]; omega)
      rw [hv]
      refine ⟨_, rfl, ?_, ?_, ?_⟩
      · simp only [List.length_append, List.length_take, List.length_drop, List.length_singleton, hst]
        omega
      · intro h
        rw [List.take_of_length_le (by omega : pre.length ≤ 1023)]
        refine ⟨[0] ++ stack.drop (0 + min 1023 pre.length + 1), by simp⟩
      · intro h
        rw [List.drop_of_length_le (by rw [hst]; omega)]
        simp

theorem clog_eq (l : LogLevel) (modul : Option (Option Bytes)) (stack : Bytes)
    (hst : stack.length = 1024) (heap : Option (Nat → Byte)) (text : Bytes) :
    clog l modul stack heap (some text) =
      if (clogText l modul).length + text.length + 1 > 1024 then
        some (heap.map fun _ => (if (clogText l modul).length = 1024 then
          (clogText l modul).dropLast ++ [0] else clogText l modul) ++ text ++ [10])
      else if (clogText l modul).length + text.length + 1 = 1024 ∧ text ≠ [] then
        some (some (clogText l modul ++ (text.dropLast ++ [0]) ++ [10]))
      else some (some (clogText l modul ++ text ++ [10])) := by
  obtain ⟨st, e1, hsl, s1, s2⟩ := clogPrefix_eq l modul stack hst
  unfold clog
  rw [e1]
  generalize clogText l modul = pre at *
  simp only [Option.bind_eq_bind, Option.bind_some, Option.pure_def]
  by_cases h0 : pre.length < 1024
  · obtain ⟨c, rfl⟩ := s1 h0
    have hcl : c.length = 1024 - pre.length := by rw [List.length_append] at hsl; omega
    by_cases h1 : pre.length + text.length + 1 > 1024
    · simp only [if_pos h1]
      have hv : ∃ b, b.take pre.length = pre ∧ b.length = 1024 ∧ clogStackText (pre ++ c) pre text = some b := by
        unfold clogStackText
        by_cases h2 : pre.length + 1 ≥ 1024
        · rw [if_pos h2]
          exact ⟨_, List.take_left .., hsl, rfl⟩
        · rw [if_neg h2]
          refine ⟨_, ?_, ?_, vsnprintf_eq (by omega) ?_⟩
          · simp
          · simp only [List.length_append, List.length_take, List.length_drop, List.length_singleton, hsl]
            rw [List.length_append] at hsl
            omega
          · rw [hsl]; omega
      obtain ⟨b, hb1, hb2, hb⟩ := hv
      rw [hb, Option.bind_some]
      cases heap with
      | none => rfl
      | some fill =>
        simp only [clogHeapPrefix, if_neg (by omega : ¬ pre.length > 1024),
          if_pos (by omega : pre.length ≤ b.length), hb1, if_neg (by omega : ¬ pre.length = 1024)]
        simp only [put_prefix pre _ (by rw [fresh_length]; omega : pre.length ≤
          (fresh fill (pre.length + text.length + 1)).length), Option.bind_some]
        have hfl : ((fresh fill (pre.length + text.length + 1)).drop pre.length).length =
            text.length + 1 := by rw [List.length_drop, fresh_length]; omega
        have := finish_eq pre text [10]
          ((fresh fill (pre.length + text.length + 1)).drop pre.length)
          (text.length + 1) (by omega) (by rw [hfl]; omega) (by rw [hfl]; simp)
        rw [fits_eq _ _ _ (by omega)] at this
        obtain ⟨b', hb', hb2⟩ := Option.bind_eq_some_iff.mp this
        obtain ⟨b'', hb3, hb4⟩ := Option.map_eq_some_iff.mp hb2
        rw [hb', Option.bind_some, hb3, Option.bind_some]
        exact congrArg (fun x => some (some x)) hb4
    · simp only [if_neg h1]
      by_cases h2 : pre.length + 1 ≥ 1024
      · have ht : text = [] := List.eq_nil_of_length_eq_zero (by omega)
        subst ht
        simp only [clogStackText, if_pos h2, Option.bind_some, List.length_nil, Nat.add_zero]
        rw [put_after _ _ _ _ rfl (by simp; omega), Option.bind_some, if_neg (fun h => h.2 rfl),
          List.take_append_of_le_length (by simp), List.append_nil]
        exact congrArg (fun x => some (some x)) (List.take_of_length_le (by simp))
      · simp only [clogStackText, if_neg h2]
        have := finish_eq pre text [10] c (1024 - pre.length - 1)
          (by omega) (by rw [hcl]; omega) (by rw [hcl]; simp; omega)
        obtain ⟨b', hb', hb2⟩ := Option.bind_eq_some_iff.mp this
        obtain ⟨b'', hb3, hb4⟩ := Option.map_eq_some_iff.mp hb2
        rw [hb', Option.bind_some, hb3, Option.bind_some]
        refine (congrArg (fun x => some (some x)) hb4).trans ?_
        by_cases h3 : pre.length + text.length + 1 = 1024
        · rw [if_pos ⟨h3, by rintro rfl; simp at h3; omega⟩, cut_eq _ _ _ (by omega) (by omega)]
        · rw [if_neg (fun h => h3 h.1), fits_eq _ _ _ (by omega)]
  · have hs2 := s2 (by omega)
    have h1 : pre.length + text.length + 1 > 1024 := by omega
    simp only [clogStackText, if_pos h1, if_pos (by omega : pre.length + 1 ≥ 1024),
      Option.bind_some]
    cases heap with
    | none => rfl
    | some fill =>
      have hfl : ((fresh fill (pre.length + text.length + 1)).drop pre.length).length =
          text.length + 1 := by rw [List.length_drop, fresh_length]; omega
      by_cases h2 : pre.length > 1024
      · simp only [clogHeapPrefix, if_pos h2, if_neg (by omega : ¬ pre.length = 1024)]
        have hv := vsnprintf_eq (buf := fresh fill (pre.length + text.length + 1)) (off := 0)
          (size := pre.length + 1) (text := pre) (by omega) (by rw [fresh_length]; omega)
        rw [hv, Option.bind_some, List.take_zero, List.nil_append,
          List.take_of_length_le (by omega : pre.length ≤ pre.length + 1 - 1), List.append_assoc]
        have := finish_eq pre text [10] ([0] ++ (fresh fill (pre.length + text.length + 1)).drop
          (0 + min (pre.length + 1 - 1) pre.length + 1))
          (text.length + 1) (by omega)
          (by simp only [List.length_append, List.length_drop, fresh_length, List.length_singleton]; omega)
          (by simp only [List.length_append, List.length_drop, fresh_length, List.length_singleton]; omega)
        rw [fits_eq _ _ _ (by omega)] at this
        obtain ⟨b', hb', hb2⟩ := Option.bind_eq_some_iff.mp this
        obtain ⟨b'', hb3, hb4⟩ := Option.map_eq_some_iff.mp hb2
        rw [hb', Option.bind_some, hb3, Option.bind_some]
        exact congrArg (fun x => some (some x)) hb4
      · have h3 : pre.length = 1024 := by omega
        have hd : st.take pre.length = pre.dropLast ++ [0] := by
          rw [hs2, List.dropLast_eq_take, h3]
          exact List.take_of_length_le (by simp; omega)
        have hdl : (pre.dropLast ++ [0]).length = pre.length := by simp; omega
        simp only [clogHeapPrefix, if_neg h2, if_pos (by omega : pre.length ≤ st.length), hd,
          if_pos h3]
        simp only [put_prefix (pre.dropLast ++ [0]) _ (by rw [fresh_length, hdl]; omega :
          (pre.dropLast ++ [0]).length ≤ (fresh fill (pre.length + text.length + 1)).length),
          Option.bind_some]
        have := finish_eq (pre.dropLast ++ [0]) text [10]
          ((fresh fill (pre.length + text.length + 1)).drop (pre.dropLast ++ [0]).length)
          (text.length + 1) (by omega) (by rw [hdl, hfl]; omega) (by rw [hdl, hfl]; simp)
        rw [fits_eq _ _ _ (by omega)] at this
        obtain ⟨b', hb', hb2⟩ := Option.bind_eq_some_iff.mp this
        obtain ⟨b'', hb3, hb4⟩ := Option.map_eq_some_iff.mp hb2
        rw [hdl] at hb' hb3 hb4 ⊢
        rw [hb', Option.bind_some, hb3, Option.bind_some]
        exact congrArg (fun x => some (some x)) hb4

/-- **C93 (partial).** A clog message is written as prefix, text and newline, whatever is in the
buffers before, for every module name.  Missing: messages, or prefixes, of exactly 1024 bytes. -/
theorem C93_written_partial (l : LogLevel) (modul : Option (Option Bytes)) (stack : Bytes)
    (hst : stack.length = 1024) (fill : Nat → Byte) (text : Bytes)
    (h : (clogText l modul ++ text ++ b!"\n").length ≠ 1024) (hp : (clogText l modul).length ≠ 1024) :
    clog l modul stack (some fill) (some text) = some (some (clogText l modul ++ text ++ b!"\n")) := by
  rw [clog_eq _ _ _ hst]
  simp only [List.length_append, List.length_singleton] at h
  by_cases h1 : (clogText l modul).length + text.length + 1 > 1024
  · rw [if_pos h1, if_neg hp]; rfl
  · rw [if_neg h1, if_neg (fun hh => h hh.1)]

/-- **C93.** A clog call never leaves its buffers. -/
theorem C93_no_overrun (l : LogLevel) (modul : Option (Option Bytes)) (stack : Bytes)
    (hst : stack.length = 1024) (heap : Option (Nat → Byte)) (text : Option Bytes) :
    clog l modul stack heap text ≠ none := by
  cases text with
  | none =>
    obtain ⟨st, e1, -⟩ := clogPrefix_eq l modul stack hst
    unfold clog
    rw [e1]
    intro h; cases h
  | some t =>
    rw [clog_eq _ _ _ hst]
    split
    · intro h; cases h
    · split <;> (intro h; cases h)

/-- **C93 is violated** by messages and by prefixes of exactly 1024 bytes: the last character of the
text, or of the prefix, is replaced by a NUL byte. -/
theorem C93_violated (l : LogLevel) (modul : Option (Option Bytes)) (stack : Bytes)
    (hst : stack.length = 1024) (fill : Nat → Byte) (text : Bytes) :
    ((clogText l modul ++ text ++ b!"\n").length = 1024 → text ≠ [] →
      clog l modul stack (some fill) (some text) =
        some (some (clogText l modul ++ text.dropLast ++ [0] ++ b!"\n"))) ∧
    ((clogText l modul).length = 1024 →
      clog l modul stack (some fill) (some text) =
        some (some ((clogText l modul).dropLast ++ [0] ++ text ++ b!"\n"))) := by
  rw [clog_eq _ _ _ hst]
  constructor
  · intro h ht
    simp only [List.length_append, List.length_singleton] at h
    rw [if_neg (by omega), if_pos ⟨h, ht⟩]
    simp only [List.append_assoc]
  · intro h
    rw [if_pos (by omega), if_pos h]
    rfl

/-- The documented prefixes. -/
example : clogText .info (some (some b!"cpuinfo")) = b!"Note (cpuinfo): " ∧
    clog .fatal none (List.replicate 1024 7) none (some b!"oops") = some (some b!"Fatal error: oops\n") ∧
    (clogText .error (some (some (List.replicate 1013 97)))).length = 1024 := by
  refine ⟨by decide, by decide +kernel, by decide +kernel⟩

end Verif.Props
