import Verif.Model.LogLevels
import Verif.Props.Log

/-!
# C168: log levels
-/

set_option autoImplicit false

namespace Verif.Props
open Log LogLevels

/-- What the documentation of the setting says (CMakeLists.txt:14-15): the levels from the one that
lets everything through to the one that lets nothing through. -/
def levelNames : List Bytes := [b!"debug", b!"info", b!"warning", b!"error", b!"fatal", b!"none"]

/-- The name of the function that is called. -/
def nameOfLevel : LogLevel → Bytes
  | .debug => b!"debug"
  | .info => b!"info"
  | .warning => b!"warning"
  | .error => b!"error"
  | .fatal => b!"fatal"

/-- Messages with lower severity than the setting are ignored; by default errors are shown. -/
def Shown (setting : Bytes) (l : LogLevel) : Prop :=
  levelNames.idxOf (if setting = b!"default" then b!"error" else setting) ≤ levelNames.idxOf (nameOfLevel l)

instance (s : Bytes) (l : LogLevel) : Decidable (Shown s l) := by unfold Shown; infer_instance

/-- The calls that are made: all up to the first of `cpuinfo_log_fatal`. -/
def callsMade : List Call → List Call
  | [] => []
  | c :: cs => if c.level = .fatal then [c] else c :: callsMade cs

/-- Notes and debug messages go to the standard output, the others to standard error. -/
def stream (l : LogLevel) : Sink := if l = .info ∨ l = .debug then .stdout else .stderr

/-- What tells the reader how severe a message is. -/
def severityWords : LogLevel → Bytes
  | .debug => b!"Debug (cpuinfo): "
  | .info => b!"Note (cpuinfo): "
  | .warning => b!"Warning in cpuinfo: "
  | .error => b!"Error in cpuinfo: "
  | .fatal => b!"Fatal error in cpuinfo: "

/-- The line a call stands for. -/
def lineOf (windows : Bool) (l : LogLevel) (t : Bytes) : Bytes := severityWords l ++ t ++ lineEnd windows

/-- The message can be formatted, memory suffices, and it is not of the one length that C54 is about. -/
def Sound (windows : Bool) (c : Call) (t : Bytes) : Prop :=
  c.text = some t ∧ c.stack.length = 1024 ∧ c.heap.isSome ∧ (lineOf windows c.level t).length ≠ 1024

theorem setting_shown {s : Bytes} {n : Nat} (h : settingNumber s = some n) (l : LogLevel) :
    n ≥ number l ↔ Shown s l := by
  unfold settingNumber at h
  repeat' split at h
  all_goals first
    | (next e => subst e; cases h; cases l <;> decide)
    | cases h

theorem log_sound {windows : Bool} {c : Call} {t : Bytes} (h : Sound windows c t) :
    log windows c.level c.stack c.heap c.text = some (some (lineOf windows c.level t)) := by
  obtain ⟨ht, hs, hh, hl⟩ := h
  obtain ⟨f, hf⟩ := Option.isSome_iff_exists.mp hh
  have hw : severityWords c.level = prefixOf c.level := by cases c.level <;> rfl
  unfold lineOf at hl ⊢
  rw [hw] at hl ⊢
  simp only [List.length_append] at hl
  rw [ht, log_eq _ _ _ hs, if_neg hl, hf]
  split <;> simp

theorem handle_stream (l : LogLevel) : handle l = stream l := by cases l <;> rfl

/-- The build with the handles, on Windows or elsewhere. -/
def stdioBuild (windows : Bool) : Build := if windows then .windows else .posix

theorem vlogLevel_sound {windows : Bool} {c : Call} {t : Bytes} (h : Sound windows c t) :
    vlogLevel (stdioBuild windows) c = some (some (stream c.level, lineOf windows c.level t)) := by
  have := log_sound h
  cases windows <;> simp [stdioBuild, vlogLevel, this, handle_stream]

/-- **C168.** Built with a setting that CMake accepts, and for every sequence of log calls with texts
that can be formatted: the process ends exactly if one of the calls is of `cpuinfo_log_fatal`, no call
after that is made, and the lines written are those of the calls made whose level the setting shows, in
order, notes and debug messages to the standard output and the others to standard error. -/
theorem C168_written (windows : Bool) (setting : Bytes) (n : Nat) (hn : settingNumber setting = some n)
    (text : Call → Bytes) (cs : List Call) (hs : ∀ c ∈ cs, Sound windows c (text c)) :
    run n (stdioBuild windows) cs =
      some (((callsMade cs).filter fun c => Shown setting c.level).map
          (fun c => (stream c.level, lineOf windows c.level (text c))),
        decide (∃ c ∈ cs, c.level = .fatal)) := by
  induction cs with
  | nil => rfl
  | cons c cs ih =>
    have hc := vlogLevel_sound (hs c List.mem_cons_self)
    have ih := ih fun d hd => hs d (List.mem_cons_of_mem _ hd)
    have hsh := setting_shown hn c.level
    unfold run call callsMade
    rw [hc]
    by_cases hf : c.level = .fatal
    · by_cases hx : n ≥ number c.level
      · have hy := hsh.mp hx
        simp only [if_pos hx, if_pos hf]
        simp [hf, hf ▸ hy]
      · have hy : ¬ Shown setting c.level := fun e => hx (hsh.mpr e)
        simp only [if_neg hx, if_pos hf]
        simp [hf, hf ▸ hy]
    · have hfb : (c.level == LogLevel.fatal) = false := by simpa using hf
      by_cases hx : n ≥ number c.level
      · have hy := hsh.mp hx
        simp only [if_pos hx, if_neg hf, hfb, ih]
        simp [hf, hy]
      · have hy : ¬ Shown setting c.level := fun e => hx (hsh.mpr e)
        simp only [if_neg hx, if_neg hf, hfb, ih]
        simp [hf, hy]

/-- **C168.** A setting is accepted exactly if it is `default` or one of the names of the levels. -/
theorem C168_accepted (s : Bytes) : (settingNumber s).isSome ↔ s = b!"default" ∨ s ∈ levelNames := by
  constructor
  · intro h
    unfold settingNumber at h
    repeat' split at h
    all_goals first
      | (next e => subst e; decide)
      | cases h
  · rintro (h | h)
    · subst h; rfl
    · unfold levelNames at h
      simp only [List.mem_cons, List.not_mem_nil, or_false] at h
      rcases h with h | h | h | h | h | h <;> subst h <;> decide

theorem call_some {n : Nat} {b : Build} {c : Call} {o : Option (Sink × Bytes)} {e : Bool}
    (h : call n b c = some (o, e)) :
    e = (c.level == .fatal) ∧ (if n ≥ number c.level then vlogLevel b c else some none) = some o := by
  unfold call at h
  by_cases hx : n ≥ number c.level
  · simp only [if_pos hx, Option.bind_eq_bind, Option.bind_eq_some_iff, Option.pure_def, Option.some.injEq,
      Prod.mk.injEq] at h
    obtain ⟨o', h1, h2, h3⟩ := h
    exact ⟨h3.symm, by rw [if_pos hx, h1, h2]⟩
  · simp only [if_neg hx, Option.bind_eq_bind, Option.bind_some, Option.pure_def, Option.some.injEq,
      Prod.mk.injEq] at h
    exact ⟨h.2.symm, by rw [if_neg hx, h.1]⟩

/-- **C168.** `cpuinfo_log_fatal` ends the process whatever the setting and the build are, also if the
message cannot be formatted, memory is exhausted, or nothing is to be shown. -/
theorem C168_fatal_ends (n : Nat) (b : Build) (cs : List Call) (out : List (Sink × Bytes)) (e : Bool)
    (h : run n b cs = some (out, e)) : e = true ↔ ∃ c ∈ cs, c.level = .fatal := by
  induction cs generalizing out e with
  | nil => cases h; simp
  | cons c cs ih =>
    unfold run at h
    simp only [Option.bind_eq_bind, Option.bind_eq_some_iff, Option.pure_def] at h
    obtain ⟨⟨o, b'⟩, hc, h⟩ := h
    obtain ⟨rfl, _⟩ := call_some hc
    by_cases hf : c.level = .fatal
    · simp [hf] at h
      simp [hf, ← h.2]
    · have hfb : (c.level == LogLevel.fatal) = false := by simpa using hf
      rw [hfb] at h
      simp only [Bool.false_eq_true, if_false, Option.bind_eq_some_iff, Option.some.injEq] at h
      obtain ⟨⟨r, e'⟩, hr, h⟩ := h
      cases h
      rw [ih _ _ hr]
      simp [hf]

/-- **C168.** With stack buffers of 1024 bytes no sequence of calls is undefined, and a build that shows
less writes a part of what a build that shows more writes, in the same order. -/
theorem C168_less_is_part (n m : Nat) (hnm : n ≤ m) (b : Build) (cs : List Call)
    (hs : ∀ c ∈ cs, c.stack.length = 1024) :
    ∃ out out' e, run n b cs = some (out, e) ∧ run m b cs = some (out', e) ∧ out.Sublist out' := by
  induction cs with
  | nil => exact ⟨[], [], false, rfl, rfl, List.Sublist.refl _⟩
  | cons c cs ih =>
    obtain ⟨o1, o2, e, h1, h2, h3⟩ := ih fun d hd => hs d (List.mem_cons_of_mem _ hd)
    have hlog : ∀ w, ∃ o, log w c.level c.stack c.heap c.text = some o := by
      intro w
      cases ht : c.text with
      | some t =>
        rw [log_eq _ _ _ (hs c List.mem_cons_self)]
        split
        · exact ⟨_, rfl⟩
        · split <;> exact ⟨_, rfl⟩
      | none =>
        have hp := prefix_short c.level
        have h4 := hs c List.mem_cons_self
        unfold log vlog
        rw [put_prefix _ _ (by omega)]
        exact ⟨none, rfl⟩
    have hv : ∃ o, vlogLevel b c = some o := by
      obtain ⟨x, hx⟩ := hlog false
      obtain ⟨y, hy⟩ := hlog true
      cases b
      · exact ⟨x.map fun m => (handle c.level, m), by unfold vlogLevel; rw [hx]; rfl⟩
      · exact ⟨y.map fun m => (handle c.level, m), by unfold vlogLevel; rw [hy]; rfl⟩
      · exact ⟨_, rfl⟩
    obtain ⟨o, ho⟩ := hv
    have hcall : ∀ k, call k b c =
        some (if k ≥ number c.level then o else none, c.level == .fatal) := by
      intro k
      unfold call
      rw [ho]
      by_cases hk : k ≥ number c.level
      · rw [if_pos hk, if_pos hk]; rfl
      · rw [if_neg hk, if_neg hk]; rfl
    have hpart : (if n ≥ number c.level then o else none).toList.Sublist
        (if m ≥ number c.level then o else none).toList := by
      by_cases hk : n ≥ number c.level
      · rw [if_pos hk, if_pos (by omega)]; exact List.Sublist.refl _
      · rw [if_neg hk]; exact List.nil_sublist _
    unfold run
    rw [hcall n, hcall m, h1, h2]
    cases hb : (c.level == LogLevel.fatal) with
    | true => exact ⟨_, _, true, rfl, rfl, hpart⟩
    | false => exact ⟨_, _, e, rfl, rfl, hpart.append h3⟩

/-- **C168 is violated** on Android: every message carries the name of another library as its tag, so
that nothing is found in the log under `cpuinfo`. -/
theorem C168_violated_tag (n : Nat) (cs : List Call) (out : List (Sink × Bytes)) (e : Bool)
    (h : run n .android cs = some (out, e)) :
    ∀ m ∈ out, ∃ l : LogLevel, m.1 = .androidLog (androidPriority l) b!"XNNPACK" := by
  induction cs generalizing out e with
  | nil => cases h; intro m hm; cases hm
  | cons c cs ih =>
    unfold run at h
    simp only [Option.bind_eq_bind, Option.bind_eq_some_iff, Option.pure_def] at h
    obtain ⟨⟨o, b'⟩, hc, h⟩ := h
    obtain ⟨rfl, ho'⟩ := call_some hc
    have hone : ∀ m ∈ o.toList, m.1 = .androidLog (androidPriority c.level) b!"XNNPACK" := by
      intro m hm
      split at ho'
      · unfold vlogLevel at ho'
        cases ho'
        cases ht : c.text with
        | none => rw [ht] at hm; cases hm
        | some t =>
          rw [ht] at hm
          simp only [Option.map_some, Option.toList_some, List.mem_singleton] at hm
          rw [hm]; rfl
      · cases ho'; cases hm
    split at h
    · cases h
      exact fun m hm => ⟨_, hone m hm⟩
    · simp only [Option.bind_eq_some_iff, Option.some.injEq] at h
      obtain ⟨⟨r, e'⟩, hr, h⟩ := h
      cases h
      intro m hm
      rcases List.mem_append.mp hm with hm | hm
      · exact ⟨_, hone m hm⟩
      · exact ih _ _ hr m hm

/-- **C168.** On Android a message with a text reaches the log exactly if the setting shows its level,
with a priority that grows with the severity. -/
theorem C168_android (setting : Bytes) (n : Nat) (hn : settingNumber setting = some n) (c : Call) (t : Bytes)
    (ht : c.text = some t) :
    call n .android c = some (if Shown setting c.level then
      some (.androidLog (3 + levelNames.idxOf (nameOfLevel c.level)) b!"XNNPACK", t) else none,
      decide (c.level = .fatal)) := by
  have hsh := setting_shown hn c.level
  have hp : androidPriority c.level = 3 + levelNames.idxOf (nameOfLevel c.level) := by
    cases c.level <;> decide
  have hb : (c.level == LogLevel.fatal) = decide (c.level = .fatal) := rfl
  unfold call vlogLevel
  by_cases hx : n ≥ number c.level
  · rw [if_pos hx, if_pos (hsh.mp hx), ht, hp, hb]; rfl
  · rw [if_neg hx, if_neg fun e => hx (hsh.mpr e), hb]; rfl

/-- A debug message, a warning, an error, a fatal error, and a note that is never reached. -/
def exampleCalls : List Call :=
  [⟨.debug, some b!"a", fresh (fun _ => 7) 1024, some fun _ => 9⟩,
   ⟨.warning, some b!"b", fresh (fun _ => 7) 1024, some fun _ => 9⟩,
   ⟨.error, some b!"c", fresh (fun _ => 7) 1024, some fun _ => 9⟩,
   ⟨.fatal, some b!"d", fresh (fun _ => 7) 1024, some fun _ => 9⟩,
   ⟨.info, some b!"e", fresh (fun _ => 7) 1024, some fun _ => 9⟩]

/-- The hypotheses hold for the example, by default an error and the fatal error are shown. -/
example : (∀ c ∈ exampleCalls, Sound false c (c.text.getD [])) ∧
    run 2 .posix exampleCalls =
      some ([(.stderr, b!"Error in cpuinfo: c\n"), (.stderr, b!"Fatal error in cpuinfo: d\n")], true) ∧
    run 0 .posix exampleCalls = some ([], true) ∧
    settingNumber b!"default" = some 2 ∧ settingNumber b!"none" = some 0 ∧ settingNumber b!"all" = none := by
  refine ⟨?_, by decide +kernel, by decide +kernel, by decide, by decide, by decide⟩
  have h : ∀ c ∈ exampleCalls, c.text = some (c.text.getD []) ∧ c.stack.length = 1024 ∧
      c.heap.isSome ∧ (lineOf false c.level (c.text.getD [])).length ≠ 1024 := by decide +kernel
  exact h

/-- On Android everything is shown with the setting `debug`, under the wrong tag. -/
example : run 5 .android (exampleCalls.take 2) =
    some ([(.androidLog 3 b!"XNNPACK", b!"a"), (.androidLog 5 b!"XNNPACK", b!"b")], false) := by
  decide +kernel

end Verif.Props
