import Verif.Model.LogHexagon
import Verif.Props.Log

/-!
# C167: log messages on Hexagon
-/

set_option autoImplicit false

namespace Verif.Props
open Log

theorem printS_zero (a rest : Bytes) (h : 0 ∉ a) : printS (a ++ 0 :: rest) = some a := by
  induction a with
  | nil => rfl
  | cons b bs ih =>
    have hb : b ≠ 0 := fun e => h (e ▸ List.mem_cons_self)
    rw [List.cons_append]
    unfold printS
    rw [if_neg hb, ih fun e => h (List.mem_cons_of_mem _ e)]
    rfl

theorem printS_none (a : Bytes) (h : 0 ∉ a) : printS a = none := by
  induction a with
  | nil => rfl
  | cons b bs ih =>
    have hb : b ≠ 0 := fun e => h (e ▸ List.mem_cons_self)
    unfold printS
    rw [if_neg hb, ih fun e => h (List.mem_cons_of_mem _ e)]
    rfl

theorem put_size {buf : Bytes} {off : Nat} {bs out : Bytes} (h : put buf off bs = some out) :
    out.length = buf.length := by
  unfold put at h
  split at h
  · next hle => cases h; exact put_length hle
  · cases h

theorem vsnprintf_size {buf : Bytes} {off size : Nat} {text out : Bytes}
    (h : vsnprintf buf off size text = some out) : out.length = buf.length := by
  unfold vsnprintf at h
  split at h
  · cases h; rfl
  · exact put_size h

/-- `vsnprintf` behind a prefix. -/
theorem vsnprintf_after (a c text : Bytes) (size : Nat) (hs : 0 < size)
    (h : min (size - 1) text.length + 1 ≤ c.length) :
    vsnprintf (a ++ c) a.length size text =
      some (a ++ text.take (size - 1) ++ 0 :: c.drop (min (size - 1) text.length + 1)) := by
  unfold vsnprintf
  have hl : (text.take (size - 1) ++ [0]).length = min (size - 1) text.length + 1 := by simp
  rw [if_neg (by omega), put_after _ _ _ _ rfl (by omega), hl]
  simp

theorem prefix_no_zero (l : LogLevel) : 0 ∉ prefixOf l := by cases l <;> decide

/-- **C167, cpuinfo.** On Hexagon a message of text without NUL bytes is printed as prefix and text,
whatever is in the buffers before, unless prefix and text have 1023 bytes together, or more and `malloc`
fails; no buffer is left. -/
theorem C167_cpuinfo_partial (l : LogLevel) (stack : Bytes) (hst : stack.length = 1024)
    (heap : Option (Nat → Byte)) (text : Bytes) (h0 : 0 ∉ text) :
    logHexagon l stack heap (some text) =
      if 1023 < (prefixOf l ++ text).length then some (heap.map fun _ => prefixOf l ++ text)
      else if (prefixOf l ++ text).length = 1023 then some (some (prefixOf l ++ text.dropLast))
      else some (some (prefixOf l ++ text)) := by
  have hp := prefix_short l
  have hz := prefix_no_zero l
  unfold logHexagon vlogHexagon
  generalize prefixOf l = pre at hp hz ⊢
  have hno : 0 ∉ pre ++ text := fun h => (List.mem_append.mp h).elim hz h0
  simp only [put_prefix pre stack (by omega), Option.bind_eq_bind, Option.bind_some, Option.pure_def,
    List.length_append]
  have hcl : (stack.drop pre.length).length = 1024 - pre.length := by rw [List.length_drop, hst]
  rw [vsnprintf_after _ _ _ _ (by omega) (by omega), Option.bind_some]
  by_cases h1 : pre.length + text.length + 1 > 1024
  · rw [if_pos h1, if_pos (by omega)]
    cases heap with
    | none => rfl
    | some fill =>
      simp only [put_prefix pre _ (by rw [fresh_length]; omega : pre.length ≤
        (fresh fill (pre.length + text.length + 1)).length), Option.bind_some]
      rw [vsnprintf_after _ _ _ _ (by omega) (by rw [List.length_drop, fresh_length]; omega),
        Option.bind_some, List.take_of_length_le (by omega), printS_zero _ _ hno]
      rfl
  · rw [if_neg h1, if_neg (by omega)]
    by_cases h2 : pre.length + text.length = 1023
    · rw [if_pos h2]
      have e : 1024 - (pre.length + 1) - 1 = text.length - 1 := by omega
      rw [e, ← List.dropLast_eq_take, printS_zero]
      · rfl
      · intro h
        rcases List.mem_append.mp h with h | h
        · exact hz h
        · exact h0 ((List.dropLast_sublist text).subset h)
    · rw [if_neg h2, List.take_of_length_le (by omega), printS_zero _ _ hno]
      rfl

/-- **C167 is violated, cpuinfo, line ends.** What is printed on Hexagon never ends its line, unless the
text has a line end of its own. -/
theorem C167_violated_line_end (l : LogLevel) (stack : Bytes) (hst : stack.length = 1024)
    (heap : Option (Nat → Byte)) (text : Bytes) (h0 : 0 ∉ text) (h10 : 10 ∉ text) (out : Bytes)
    (h : logHexagon l stack heap (some text) = some (some out)) : 10 ∉ out := by
  have hz : 10 ∉ prefixOf l := by cases l <;> decide
  rw [C167_cpuinfo_partial l stack hst heap text h0] at h
  have key : ∀ t : Bytes, 10 ∉ t → 10 ∉ prefixOf l ++ t := fun t ht h =>
    (List.mem_append.mp h).elim hz ht
  split at h
  · cases heap with
    | none => cases h
    | some f => cases h; exact key _ h10
  · split at h
    · cases h; exact key _ fun h => h10 ((List.dropLast_sublist text).subset h)
    · cases h; exact key _ h10

/-- The stack buffer after the prefix: behind the terminator it is as before. -/
theorem clogPrefix_rest (l : LogLevel) (modul : Option (Option Bytes)) (stack : Bytes)
    (hst : stack.length = 1024) (hs : (clogText l modul).length < 1024) :
    ∃ b, clogPrefix l modul stack =
      some (clogText l modul ++ b :: stack.drop ((clogText l modul).length + 1), clogText l modul) := by
  have hd : ∀ k, k < 1024 → ∃ b, stack.drop k = b :: stack.drop (k + 1) := fun k hk =>
    ⟨_, (List.drop_eq_getElem_cons (by omega))⟩
  cases modul with
  | none =>
    obtain ⟨b, hb⟩ := hd (clogPlain l).length hs
    refine ⟨b, ?_⟩
    unfold clogPrefix
    have := clogPlain_short l
    simp only [put_prefix _ stack (by omega : (clogPlain l).length ≤ stack.length), hb]
    rfl
  | some m =>
    cases m with
    | none =>
      obtain ⟨b, hb⟩ := hd 0 (by omega)
      rw [List.drop_zero] at hb
      exact ⟨b, congrArg (fun s => some (s, ([] : Bytes))) hb⟩
    | some m =>
      refine ⟨0, ?_⟩
      have e2 : clogPrefix l (some (some m)) stack =
          (vsnprintf stack 0 1024 (clogFormat l m)).map fun st => (st, clogFormat l m) := by
        show ((vsnprintf stack 0 1024 (clogFormat l m)).bind fun st => some (st, clogFormat l m)) = _
        cases vsnprintf stack 0 1024 (clogFormat l m) <;> rfl
      have hs' : (clogFormat l m).length < 1024 := hs
      have hv := vsnprintf_after [] stack (clogFormat l m) 1024 (by omega) (by omega)
      simp only [List.nil_append, List.length_nil] at hv
      rw [e2, hv, List.take_of_length_le (by omega), Nat.min_eq_right (by omega)]
      rfl

/-- A short message: the buffer that is printed. -/
theorem clogHexagon_short (l : LogLevel) (modul : Option (Option Bytes)) (stack : Bytes)
    (hst : stack.length = 1024) (heap : Option (Nat → Byte)) (text : Bytes)
    (hs : (clogText l modul ++ text ++ b!"\n").length < 1024) :
    clogHexagon l modul stack heap (some text) =
      (printS (clogText l modul ++ text ++ b!"\n" ++
        stack.drop (clogText l modul ++ text ++ b!"\n").length)).map some := by
  have hs' : (clogText l modul).length + text.length + 1 < 1024 := by
    simpa [List.length_append, Nat.add_assoc] using hs
  obtain ⟨b, hb⟩ := clogPrefix_rest l modul stack hst (by omega)
  unfold clogHexagon
  rw [hb]
  have hlen : (clogText l modul ++ text ++ b!"\n").length = (clogText l modul).length + text.length + 1 := by
    simp only [List.length_append]; rfl
  rw [hlen]
  generalize clogText l modul = pre at hs' ⊢
  simp only [Option.bind_eq_bind, Option.bind_some, Option.pure_def]
  have hcl : (b :: stack.drop (pre.length + 1)).length = 1024 - pre.length := by
    rw [List.length_cons, List.length_drop, hst]; omega
  unfold clogStackText
  rw [if_neg (by omega), vsnprintf_after _ _ _ _ (by omega) (by omega), Option.bind_some,
    List.take_of_length_le (by omega), Nat.min_eq_right (by omega), if_neg (by omega),
    put_after _ _ _ _ (by rw [List.length_append]) (by simp), Option.bind_some]
  have e : pre ++ text ++ [10] ++ (0 :: (b :: stack.drop (pre.length + 1)).drop (text.length + 1)).drop 1 =
      pre ++ text ++ b!"\n" ++ stack.drop (pre.length + text.length + 1) := by
    rw [List.drop_succ_cons, List.drop_zero, List.drop_succ_cons, List.drop_drop]
    rw [show pre.length + 1 + text.length = pre.length + text.length + 1 by omega]
  simp only [List.length_singleton]
  rw [e]
  cases printS (pre ++ text ++ b!"\n" ++ stack.drop (pre.length + text.length + 1)) <;> rfl

theorem clog_no_zero {a text : Bytes} (h0 : 0 ∉ text) (h1 : 0 ∉ a) : 0 ∉ a ++ text ++ b!"\n" := by
  intro h
  rcases List.mem_append.mp h with h | h
  · exact (List.mem_append.mp h).elim h1 h0
  · exact absurd h (by decide)

/-- **C167 is violated, clog, garbage.** A message on Hexagon that fits into the 1024 bytes on the stack
with a byte to spare is printed with whatever the stack holds behind it, up to the next NUL byte. -/
theorem C167_violated_garbage (l : LogLevel) (modul : Option (Option Bytes)) (stack : Bytes)
    (hst : stack.length = 1024) (heap : Option (Nat → Byte)) (text garbage rest : Bytes)
    (h0 : 0 ∉ text) (h1 : 0 ∉ clogText l modul)
    (hs : (clogText l modul ++ text ++ b!"\n").length < 1024) (hg : 0 ∉ garbage)
    (hd : stack.drop (clogText l modul ++ text ++ b!"\n").length = garbage ++ 0 :: rest) :
    clogHexagon l modul stack heap (some text) =
      some (some (clogText l modul ++ text ++ b!"\n" ++ garbage)) := by
  rw [clogHexagon_short l modul stack hst heap text hs, hd, ← List.append_assoc, printS_zero]
  · rfl
  · intro h
    exact (List.mem_append.mp h).elim (clog_no_zero h0 h1) hg

/-- **C167, clog, exactly.** Such a message is printed as it should be if and only if the byte behind it on
the stack, which nobody has written, is NUL. -/
theorem C167_clog_exact (l : LogLevel) (modul : Option (Option Bytes)) (stack : Bytes)
    (hst : stack.length = 1024) (heap : Option (Nat → Byte)) (text : Bytes)
    (h0 : 0 ∉ text) (h1 : 0 ∉ clogText l modul)
    (hs : (clogText l modul ++ text ++ b!"\n").length < 1024) :
    clogHexagon l modul stack heap (some text) = some (some (clogText l modul ++ text ++ b!"\n")) ↔
      stack[(clogText l modul ++ text ++ b!"\n").length]? = some 0 := by
  have hz := clog_no_zero h0 h1
  generalize hm : clogText l modul ++ text ++ b!"\n" = msg at hs hz ⊢
  have hdrop : stack.drop msg.length = stack[msg.length] :: stack.drop (msg.length + 1) :=
    List.drop_eq_getElem_cons (by omega)
  have e := clogHexagon_short l modul stack hst heap text (by rw [hm]; exact hs)
  rw [hm, hdrop] at e
  rw [e, List.getElem?_eq_getElem (by omega)]
  generalize stack[msg.length] = b
  constructor
  · intro h
    by_cases hb : b = 0
    · rw [hb]
    · exfalso
      rw [show msg ++ b :: stack.drop (msg.length + 1) = (msg ++ [b]) ++ stack.drop (msg.length + 1) by
        simp] at h
      have hzb : 0 ∉ msg ++ [b] := by
        intro h
        rcases List.mem_append.mp h with h | h
        · exact hz h
        · exact hb (List.mem_singleton.mp h).symm
      obtain ⟨out, ho, h⟩ := Option.map_eq_some_iff.mp h
      cases h
      have key : ∀ (a c o : Bytes), 0 ∉ a → printS (a ++ c) = some o → a.length ≤ o.length := by
        intro a
        induction a with
        | nil => intro c o _ _; exact Nat.zero_le _
        | cons x xs ih =>
          intro c o ha h
          rw [List.cons_append] at h
          unfold printS at h
          rw [if_neg fun e : x = 0 => ha (e ▸ List.mem_cons_self)] at h
          obtain ⟨o', ho', rfl⟩ := Option.map_eq_some_iff.mp h
          have := ih c o' (fun h => ha (List.mem_cons_of_mem _ h)) ho'
          simp only [List.length_cons]
          omega
      have := key _ _ _ hzb ho
      simp only [List.length_append, List.length_singleton] at this
      omega
  · intro h
    cases h
    rw [printS_zero _ _ hz]
    rfl

/-- **C167 is violated, clog, overrun.** If nothing behind a short message on the stack is NUL, the
stack buffer is left. -/
theorem C167_violated_stack (l : LogLevel) (modul : Option (Option Bytes)) (stack : Bytes)
    (hst : stack.length = 1024) (heap : Option (Nat → Byte)) (text : Bytes)
    (h0 : 0 ∉ text) (h1 : 0 ∉ clogText l modul)
    (hs : (clogText l modul ++ text ++ b!"\n").length < 1024)
    (hd : 0 ∉ stack.drop (clogText l modul ++ text ++ b!"\n").length) :
    clogHexagon l modul stack heap (some text) = none := by
  rw [clogHexagon_short l modul stack hst heap text hs, printS_none]
  · rfl
  · intro h
    exact (List.mem_append.mp h).elim (clog_no_zero h0 h1) hd

/-- What is printed, if it is defined, is printed from the bytes that are written elsewhere, where these
fill their buffer. -/
theorem clogHexagon_long (l : LogLevel) (modul : Option (Option Bytes)) (stack : Bytes)
    (fill : Nat → Byte) (text out : Bytes)
    (hs : 1024 < (clogText l modul).length + text.length + 1)
    (h : clog l modul stack (some fill) (some text) = some (some out))
    (hp : ∀ st pre, clogPrefix l modul stack = some (st, pre) → pre = clogText l modul) :
    clogHexagon l modul stack (some fill) (some text) = (printS out).map some := by
  unfold clog at h
  unfold clogHexagon
  simp only [Option.bind_eq_bind, Option.pure_def] at h ⊢
  obtain ⟨⟨st, pre⟩, e1, h⟩ := Option.bind_eq_some_iff.mp h
  have e := hp st pre e1
  subst e
  rw [e1, Option.bind_some]
  dsimp only at h ⊢
  obtain ⟨st', e2, h⟩ := Option.bind_eq_some_iff.mp h
  rw [e2, Option.bind_some]
  rw [if_pos hs] at h ⊢
  obtain ⟨a, e3, h⟩ := Option.bind_eq_some_iff.mp h
  obtain ⟨b, e4, h⟩ := Option.bind_eq_some_iff.mp h
  obtain ⟨c, e5, h⟩ := Option.bind_eq_some_iff.mp h
  rw [e3, Option.bind_some, e4, Option.bind_some, e5, Option.bind_some]
  have hl : c.length = (clogText l modul).length + text.length + 1 := by
    rw [put_size e5, vsnprintf_size e4]
    unfold clogHeapPrefix at e3
    split at e3
    · rw [vsnprintf_size e3, fresh_length]
    · split at e3
      · rw [put_size e3, fresh_length]
      · cases e3
  rw [List.take_of_length_le (by omega)] at h
  cases h
  cases printS out <;> rfl

/-- **C167 is violated, clog, long messages.** On Hexagon every message of more than 1024 bytes is
undefined if there is memory: the allocated buffer is printed up to a NUL byte that it does not have.  (With
a prefix of exactly 1024 bytes the cut of C93 comes first.) -/
theorem C167_violated_heap (l : LogLevel) (modul : Option (Option Bytes)) (stack : Bytes)
    (hst : stack.length = 1024) (fill : Nat → Byte) (text : Bytes)
    (h0 : 0 ∉ text) (h1 : 0 ∉ clogText l modul) (hp : (clogText l modul).length ≠ 1024)
    (hs : 1024 < (clogText l modul ++ text ++ b!"\n").length) :
    clogHexagon l modul stack (some fill) (some text) = none := by
  have hs' : 1024 < (clogText l modul).length + text.length + 1 := by
    simpa [List.length_append, Nat.add_assoc] using hs
  obtain ⟨st, e1, -⟩ := clogPrefix_eq l modul stack hst
  have e := clog_eq l modul stack hst (some fill) text
  rw [if_pos hs', if_neg hp] at e
  rw [clogHexagon_long l modul stack fill text _ hs' e (fun st' pre h => by rw [e1] at h; cases h; rfl),
    printS_none _ (clog_no_zero h0 h1)]
  rfl

/-! ### Cases that meet the hypotheses -/

/-- A short message, a stack with other things on it. -/
example : clogHexagon .error (some (some b!"m")) (List.replicate 20 55 ++ [0] ++ List.replicate 1003 7) none
      (some b!"oops") = some (some (b!"Error in m: oops\n" ++ [55, 55, 55])) ∧
    logHexagon .error (List.replicate 1024 7) none (some b!"oops") =
      some (some b!"Error in cpuinfo: oops") ∧
    clogHexagon .error none (List.replicate 1024 7) none (some b!"oops") = none := by
  refine ⟨by decide +kernel, by decide +kernel, by decide +kernel⟩

end Verif.Props
