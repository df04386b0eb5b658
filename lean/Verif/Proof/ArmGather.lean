import Verif.Proof.ArmCacheCounts
import Verif.Proof.ArmUarchList
import Verif.Proof.X86Gather

/-!
# The ARM processor table before sorting
-/

set_option autoImplicit false

namespace Verif.ArmInit
open Spec ArmMidr ArmCpuinfo ArmClusters ArmClusterMidr ArmChipset Runs
open X86Init (modify? bitmaskAll)

/-! ## Reading the files -/

/-- What reading /proc/cpuinfo changes neither of an entry: the cluster size and the low flags. -/
def Low (p q : Proc) : Prop := q.packageProcessorCount = p.packageProcessorCount ∧
  ∀ k, k < 16 → q.flags.testBit k = p.flags.testBit k

theorem Low.refl (p : Proc) : Low p p := ⟨rfl, fun _ _ => rfl⟩

theorem Low.trans {p q r : Proc} (h : Low p q) (h' : Low q r) : Low p r :=
  ⟨h'.1.trans h.1, fun k hk => (h'.2 k hk).trans (h.2 k hk)⟩

theorem low_or {p q : Proc} {bits : Nat} (hb : bits % 65536 = 0)
    (hq : q.packageProcessorCount = p.packageProcessorCount) (hf : q.flags = p.flags ||| bits) :
    Low p q := by
  refine ⟨hq, fun k hk => ?_⟩
  have : bits.testBit k = false := by
    have h1 := Nat.testBit_mod_two_pow bits 16 k
    rw [show (2 : Nat) ^ 16 = 65536 from rfl, hb] at h1
    simpa [hk] using h1.symm
  rw [hf, Nat.testBit_or, this, Bool.or_false]

theorem low_applyFeature (a : Arch) (w : Bytes) (p : Proc) : Low p (applyFeature a w p) := by
  unfold applyFeature
  split
  · exact .refl p
  · exact ⟨rfl, fun _ _ => rfl⟩

theorem low_featuresLoop (a : Arch) : ∀ (n : Nat) (v : Bytes) (p q : Proc),
    featuresLoop a n v p = some q → Low p q
  | 0, _, _, _, e => by cases e
  | _ + 1, [], _, _, e => by cases e
  | n + 1, c :: cs, p, q, e => by
    rw [featuresLoop] at e
    have h' := low_applyFeature a (c :: cs.takeWhile (· != 32)) p
    simp only at e
    split at e
    · cases e; exact h'
    · exact h'.trans (low_featuresLoop a n _ _ q e)

theorem low_field (a : Arch) (key value : Bytes) (f : Proc → Option Proc)
    (hf : fieldParser a key value = some f) (p q : Proc) (e : f p = some q) : Low p q := by
  have part : ∀ (r : Option Nat) (g : Nat → Proc), (∀ n, Low p (g n)) →
      Low p (match r with | none => p | some n => g n) := by
    intro r g hg
    cases r with
    | none => exact .refl p
    | some n => exact hg n
  unfold fieldParser at hf
  have pass : ∀ (c : Prop) [Decidable c] (x y : Option (Proc → Option Proc)),
      (x = some f → Low p q) → (y = some f → Low p q) → (if c then x else y) = some f → Low p q := by
    intro c _ x y hx hy h
    by_cases hc : c
    · rw [if_pos hc] at h; exact hx h
    · rw [if_neg hc] at h; exact hy h
  have one : ∀ g : Proc → Proc, Low p (g p) → (some fun p => some (g p)) = some f → Low p q := by
    intro g hg h
    have h := Option.some.inj h
    subst h
    cases e
    exact hg
  have cache : ∀ (s : Nat → CacheNumbers → CacheNumbers) (m : Nat), (m ||| validProcessor) % 65536 = 0 →
      Low p (parseCacheNumber value s m p) := by
    intro s m hm
    unfold parseCacheNumber
    exact part _ _ fun n => low_or hm rfl rfl
  revert hf
  refine pass _ _ _ (one _ ?_) (pass _ _ _ ?_ (pass _ _ _ (one _ ?_) (pass _ _ _ (one _ ?_)
    (pass _ _ _ (one _ ?_) (pass _ _ _ (one _ ?_) (pass _ _ _ (one _ ?_) ?_))))))
  · unfold parsePart; exact part _ _ fun n => low_or (bits := _) (by decide) rfl rfl
  · intro hh
    have hh := Option.some.inj hh
    subst hh
    unfold parseFeatures at e
    refine Low.trans ?_ (low_featuresLoop a _ _ _ _ e)
    exact low_or (bits := validFeatures ||| validProcessor) (by decide) rfl rfl
  · unfold parseVariant; exact part _ _ fun n => low_or (by decide) rfl rfl
  · unfold parseRevision; exact part _ _ fun n => low_or (by decide) rfl rfl
  · unfold parseImplementer; exact part _ _ fun n => low_or (by decide) rfl rfl
  · unfold parseImplementer; exact part _ _ fun n => low_or (by decide) rfl rfl
  · unfold parseArchitecture
    split
    · exact low_or (bits := validArchitecture ||| validProcessor) (by decide) rfl rfl
    · dsimp only
      split
      · exact ⟨rfl, fun _ _ => rfl⟩
      · split
        · exact low_or (bits := validArchitecture ||| validProcessor) (by decide) rfl rfl
        · exact ⟨rfl, fun _ _ => rfl⟩
  · cases a with
    | arm64 => intro h; cases h
    | arm =>
      exact pass _ _ _ (one _ (cache _ _ (by decide))) (pass _ _ _ (one _ (cache _ _ (by decide)))
        (pass _ _ _ (one _ (cache _ _ (by decide))) (pass _ _ _ (one _ (cache _ _ (by decide)))
        (pass _ _ _ (one _ (cache _ _ (by decide))) (pass _ _ _ (one _ (cache _ _ (by decide)))
        (pass _ _ _ (one _ (cache _ _ (by decide))) (pass _ _ _ (one _ (cache _ _ (by decide)))
          (fun h => by cases h))))))))

/-- Tables that agree in what reading /proc/cpuinfo does not change. -/
def LowTable (t t' : List Proc) : Prop := t'.length = t.length ∧
  ∀ (i : Nat) (q : Proc), t'[i]? = some q → ∃ p, t[i]? = some p ∧ Low p q

theorem low_set {t t' : List Proc} (h : LowTable t t') {i : Nat} {p q : Proc} (hp : t'[i]? = some p)
    (hq : Low p q) : LowTable t (t'.set i q) := by
  refine ⟨by rw [List.length_set]; exact h.1, fun j r hr => ?_⟩
  rw [set_get hp] at hr
  by_cases hij : i = j
  · rw [if_pos hij] at hr
    cases hr
    subst hij
    obtain ⟨p0, h0, hl⟩ := h.2 i p hp
    exact ⟨p0, h0, hl.trans hq⟩
  · rw [if_neg hij] at hr
    exact h.2 j r hr

theorem low_line (a : Arch) (m : Nat) (t : List Proc) (s : Option ArmCpuinfo.State) (l : Bytes) (k : Nat)
    (h : ∀ st, s = some st → LowTable t st.table) :
    ∀ st, (parseLine a m s l k).1 = some st → LowTable t st.table := by
  intro st' e
  cases s with
  | none => cases e
  | some st =>
    have hst := h st rfl
    unfold parseLine at e
    simp only [Option.bind_some] at e
    split at e
    · cases e; exact hst
    · rename_i key value _
      unfold parseKeyValue at e
      by_cases c1 : key = b!"Hardware"
      · rw [if_pos c1] at e
        obtain ⟨b, -, rfl⟩ := Option.map_eq_some_iff.mp e
        exact hst
      · rw [if_neg c1] at e
        by_cases c2 : key = b!"Revision"
        · rw [if_pos c2] at e
          obtain ⟨b, -, rfl⟩ := Option.map_eq_some_iff.mp e
          exact hst
        · rw [if_neg c2] at e
          by_cases c3 : key = b!"processor"
          · rw [if_pos c3] at e
            dsimp only at e
            split at e
            · split at e
              · cases e
              · rename_i p hp
                cases e
                exact low_set hst hp (low_or (bits := validProcessor) (by decide) rfl rfl)
            · cases e; exact hst
          · rw [if_neg c3] at e
            split at e
            · cases e; exact hst
            · rename_i f hf
              unfold ArmCpuinfo.State.update at e
              split at e
              · split at e
                · cases e
                · rename_i p hp
                  obtain ⟨p', hp', rfl⟩ := Option.map_eq_some_iff.mp e
                  exact low_set hst hp (low_field a key value f hf p p' hp')
              · cases e; exact hst

theorem low_parse (a : Arch) (file : Option Bytes) (sched : Sched) (hardware revision : Bytes)
    (m : Nat) (t : List Proc) (st : ArmCpuinfo.State) (ok : Bool)
    (e : parseProcCpuinfo a file sched hardware revision m t = some (some st, ok)) :
    LowTable t st.table := by
  have h : LowTable t t := ⟨rfl, fun i q hq => ⟨q, hq, .refl q⟩⟩
  unfold parseProcCpuinfo Multiline.parse at e
  cases file with
  | none => cases e; exact h
  | some content =>
    obtain ⟨s', ok', e', h'⟩ := Multiline.loop_invariant (parseLine a m)
      (fun s => ∀ st, s = some st → LowTable t st.table)
      (fun s l k hs => low_line a m t s l k hs)
      1024 sched (content.length + 1) 0 [] content
      (some { hardware := hardware.set 0 0, revision, index := 0, table := t }) 1
      (fun st hst => by cases hst; exact h) (by omega)
    simp only at e
    rw [e'] at e
    cases e
    exact h' st rfl

/-- What reading files neither changes nor uses: the cluster size and the VALID mark. -/
def Plain (p : Proc) : Prop := p.packageProcessorCount = 0 ∧ p.flags.testBit 12 = false

/-- A table of `n` plain entries. -/
def PlainTable (n : Nat) (t : List Proc) : Prop := t.length = n ∧ ∀ p ∈ t, Plain p

theorem plain_parse (a : Arch) (file : Option Bytes) (sched : Sched) (hardware revision : Bytes)
    (m n : Nat) (t : List Proc) (h : PlainTable n t) (st : ArmCpuinfo.State) (ok : Bool)
    (e : parseProcCpuinfo a file sched hardware revision m t = some (some st, ok)) :
    PlainTable n st.table := by
  obtain ⟨l1, l2⟩ := low_parse a file sched hardware revision m t st ok e
  refine ⟨l1.trans h.1, fun q hq => ?_⟩
  obtain ⟨i, hi⟩ := List.getElem?_of_mem hq
  obtain ⟨p, hp, hl⟩ := l2 i q hi
  have := h.2 p (List.mem_of_getElem? hp)
  exact ⟨hl.1.trans this.1, (hl.2 12 (by omega)).trans this.2⟩

theorem withFlags_length (t : List Proc) (fs : List Nat) (h : fs.length = t.length) :
    (withFlags t fs).length = t.length := by
  induction t generalizing fs with
  | nil => cases fs <;> simp [withFlags]
  | cons p t ih =>
    cases fs with
    | nil => simp at h
    | cons f fs => simp [withFlags, ih fs (by simpa using h)]

theorem withFlags_mem : ∀ (t : List Proc) (fs : List Nat) (q : Proc), q ∈ withFlags t fs →
    ∃ p ∈ t, ∃ f ∈ fs, q = { p with flags := f }
  | [], fs, q, h => by cases fs <;> simp [withFlags] at h
  | p :: t, [], q, h => by simp [withFlags] at h
  | p :: t, f :: fs, q, h => by
    rw [withFlags] at h
    rcases List.mem_cons.mp h with h | h
    · exact ⟨p, List.mem_cons_self .., f, List.mem_cons_self .., h⟩
    · obtain ⟨p', h1, f', h2, e⟩ := withFlags_mem t fs q h
      exact ⟨p', List.mem_cons_of_mem _ h1, f', List.mem_cons_of_mem _ h2, e⟩

/-- A detector pass cannot fault and keeps entries plain. -/
theorem plain_detect (known : Bool) (file : File) (n flag : Nat) (t : List Proc)
    (hflag : flag.testBit 12 = false) (h : PlainTable n t) :
    ∃ t', detect known file n flag t = some t' ∧ PlainTable n t' := by
  unfold detect
  cases known with
  | false => exact ⟨t, rfl, h⟩
  | true =>
    obtain ⟨s', ok, h1, t', h2, h3, h4⟩ := CpuList.parse_invariant
      (Processors.detectCallback n flag)
      (fun s => ∃ t' : List Nat, s = some t' ∧ t'.length = n ∧ ∀ f ∈ t', f.testBit 12 = false)
      (by
        rintro s a b ⟨t', rfl, ht', hb⟩
        obtain ⟨t'', g1, g2, g3⟩ := Processors.detectLoop_spec n flag (b - a) a t' (by omega)
        refine ⟨t'', by simp [Processors.detectCallback, g1], by omega, ?_⟩
        intro f hfm
        obtain ⟨i, hi⟩ := X86Init.mem_iff_get.mp hfm
        rw [g3 i] at hi
        obtain ⟨w, hw, rfl⟩ := Option.map_eq_some_iff.mp hi
        have := hb w (X86Init.mem_iff_get.mpr ⟨i, hw⟩)
        split
        · rw [Nat.testBit_or, this, hflag]; rfl
        · exact this)
      file.1 file.2 (some (t.map (·.flags)))
      ⟨_, rfl, by simpa using h.1, by
        intro f hfm
        obtain ⟨p, hp, rfl⟩ := List.mem_map.mp hfm
        exact (h.2 p hp).2⟩
    subst h2
    have e : Processors.detectProcessors file.1 file.2 n flag (t.map (·.flags)) = some (some t', ok) := h1
    simp only [if_true, e, Option.bind_eq_bind, Option.bind_some, Option.pure_def]
    refine ⟨_, rfl, by rw [withFlags_length _ _ (by rw [h3, h.1])]; exact h.1, fun q hq => ?_⟩
    obtain ⟨p, hp, f, hf, rfl⟩ := withFlags_mem _ _ q hq
    exact ⟨(h.2 p hp).1, h4 f hf⟩

theorem assignIds_get : ∀ (j : Nat) (t : List Proc) (i : Nat),
    (assignIds j t)[i]? = (t[i]?).map fun p => { p with systemProcessorId := j + i }
  | _, [], i => by simp [assignIds]
  | j, p :: t, 0 => by simp [assignIds]
  | j, p :: t, i + 1 => by simp [assignIds, assignIds_get (j + 1) t i, Nat.add_assoc, Nat.add_comm 1 i]

theorem assignIds_length (j : Nat) (t : List Proc) : (assignIds j t).length = t.length := by
  induction t generalizing j with
  | nil => rfl
  | cons p t ih => simp [assignIds, ih]

/-- The marks a usable processor needs: those of the sysfs lists there are. -/
def requiredMarks (t : List Proc) (mask : Nat) : Prop :=
  (mask = 1 ∨ mask = 2 ∨ mask = 3) ∧ ∀ p ∈ t, Usable p ↔ bitmaskAll p.flags mask = true

/-- What the gathered table looks like. -/
structure Gathered (t : List Proc) : Prop where
  length : t.length < U32
  ids : ∀ (i : Nat) (p : Proc), t[i]? = some p → p.systemProcessorId = i
  sizes : ∀ p ∈ t, p.packageProcessorCount = 0
  usable : ∃ mask, requiredMarks t mask

theorem gathered_of_plain (t : List Proc) (mask : Nat) (hl : t.length < U32) (h : ∀ p ∈ t, Plain p)
    (hm : mask = 1 ∨ mask = 2 ∨ mask = 3) : Gathered (assignIds 0 (markValid mask t)) := by
  have hm12 : mask.testBit 12 = false := by rcases hm with rfl | rfl | rfl <;> decide
  have key : ∀ (i : Nat) (p : Proc), (assignIds 0 (markValid mask t))[i]? = some p → ∃ q ∈ t,
      p = { (if bitmaskAll q.flags mask then mark flagValid q else q) with systemProcessorId := i } := by
    intro i p hp
    rw [assignIds_get] at hp
    obtain ⟨q', hq', rfl⟩ := Option.map_eq_some_iff.mp hp
    rw [markValid, List.getElem?_map] at hq'
    obtain ⟨q, hq, rfl⟩ := Option.map_eq_some_iff.mp hq'
    exact ⟨q, List.mem_of_getElem? hq, by rw [Nat.zero_add]⟩
  refine ⟨by rw [assignIds_length, markValid, List.length_map]; exact hl, ?_, ?_, mask, hm, ?_⟩
  · intro i p hp
    obtain ⟨q, -, rfl⟩ := key i p hp
    rfl
  · intro p hp
    obtain ⟨i, hi⟩ := List.getElem?_of_mem hp
    obtain ⟨q, hq, rfl⟩ := key i p hi
    have := (h q hq).1
    dsimp only
    split
    · exact this
    · exact this
  · intro p hp
    obtain ⟨i, hi⟩ := List.getElem?_of_mem hp
    obtain ⟨q, hq, rfl⟩ := key i p hi
    have h12 := (h q hq).2
    unfold Usable
    dsimp only
    by_cases hb : bitmaskAll q.flags mask = true
    · rw [if_pos hb]
      show (q.flags ||| flagValid).testBit 12 = true ↔ bitmaskAll (q.flags ||| flagValid) mask = true
      constructor
      · intro _
        rw [X86Init.bitmaskAll_iff] at hb ⊢
        intro j hj
        rw [Nat.testBit_or, hb j hj]; rfl
      · intro _
        rw [Nat.testBit_or, show flagValid.testBit 12 = true from by decide, Bool.or_true]
    · rw [if_neg hb, h12]
      exact ⟨fun h => by (cases h), fun h => absurd h hb⟩

theorem tableShape_spec (a b c : Nat) : (tableShape a b c).1 ≤ a ∧
    (¬ (¬ (tableShape a b c).2.2.1 = true ∧ ¬ (tableShape a b c).2.2.2 = true) →
      (tableShape a b c).2.1 = 1 ∨ (tableShape a b c).2.1 = 2 ∨ (tableShape a b c).2.1 = 3) := by
  unfold tableShape flagPresent flagPossible
  by_cases h1 : (1 + c) % U32 = 0 <;> by_cases h2 : (1 + b) % U32 = 0 <;> simp [h1, h2] <;> omega

theorem gather_spec (e : Env) (t : List Proc) (hw rev : Bytes)
    (h : gather e = some (some (t, hw, rev))) : Gathered t ∧ e.alloc 0 = true := by
  obtain ⟨mc, h1, hmc⟩ := X86Init.maxProcessorsCount_total e.kernelMax.1 e.kernelMax.2
  obtain ⟨mp, h2⟩ := X86Init.maxProcessor_total e.possibleMax.1 e.possibleMax.2 mc
  obtain ⟨mq, h3⟩ := X86Init.maxProcessor_total e.presentMax.1 e.presentMax.2 mc
  obtain ⟨s1, s2⟩ := tableShape_spec mc mp mq
  unfold gather at h
  simp only [h1, h2, h3, Option.bind_eq_bind, Option.bind_some, Option.pure_def] at h
  generalize tableShape mc mp mq = sh at *
  obtain ⟨n, mask, pk, qk⟩ := sh
  dsimp only at h s1 s2
  by_cases hk : ¬ pk = true ∧ ¬ qk = true
  · rw [if_pos hk] at h; cases h
  · rw [if_neg hk] at h
    by_cases ha : e.alloc 0 = true
    · rw [if_neg (fun hh => hh ha)] at h
      obtain ⟨t1, g1, p1⟩ := plain_detect pk e.possible n flagPossible (List.replicate n Proc.zero)
        (by decide) ⟨by simp, fun p hp => by rw [List.eq_of_mem_replicate hp]; exact ⟨rfl, rfl⟩⟩
      obtain ⟨t2, g2, p2⟩ := plain_detect qk e.present n flagPresent t1 (by decide) p1
      rw [g1, Option.bind_some, g2, Option.bind_some] at h
      obtain ⟨⟨st, ok⟩, h4, h⟩ := Option.bind_eq_some_iff.mp h
      dsimp only at h
      cases st with
      | none => cases h
      | some st =>
        rw [Option.bind_some] at h
        have p3 := plain_parse _ _ _ _ _ n n t2 p2 st ok h4
        cases ok with
        | false => cases h
        | true =>
          rw [if_neg (by simp)] at h
          cases h
          exact ⟨gathered_of_plain st.table mask (by rw [p3.1]; omega) p3.2 (s2 hk), ha⟩
    · rw [if_pos ha] at h; cases h

/-! ## Frequencies and package ids -/

theorem frequencyStep_spec (e : Env) (i : Nat) (t : List Proc) (hi : i < t.length) :
    ∃ (p q : Proc), t[i]? = some p ∧ frequencyStep e i t = some (t.set i q) ∧ SameButMeasured p q := by
  have hp := List.getElem?_eq_getElem hi
  generalize t[i] = p at hp
  have num : ∀ (f : Option Bytes) (s : Sched), ∃ r, Processors.readNumber f 32 s = some r := by
    intro f s
    unfold Processors.readNumber SmallFile.parse
    cases f with
    | none => exact ⟨_, rfl⟩
    | some c =>
      rcases SmallFile.loop_total 32 s (c.length + 1) 0 [] c (by omega) with h | ⟨h, _⟩
      · simp only [h]; exact ⟨_, rfl⟩
      · simp only [h]; exact ⟨_, rfl⟩
  have freq : ∀ (f : Option Bytes) (s : Sched), ∃ r, Processors.processorFrequency f s = some r := by
    intro f s
    obtain ⟨r, h⟩ := num f s
    unfold Processors.processorFrequency
    rw [h]
    exact ⟨_, rfl⟩
  obtain ⟨mx, e1⟩ := freq (e.maxFrequency i).1 (e.maxFrequency i).2
  obtain ⟨mn, e2⟩ := freq (e.minFrequency i).1 (e.minFrequency i).2
  obtain ⟨r3, e3⟩ := num (e.packageId i).1 (e.packageId i).2
  have trans : ∀ {p q r : Proc}, SameButMeasured p q → SameButMeasured q r → SameButMeasured p r := by
    intro p q r h h'
    refine ⟨?_, fun k h1 h2 h3 => (h'.2 k h1 h2 h3).trans (h.2 k h1 h2 h3)⟩
    rw [h'.1, h.1]
  have same : ∀ (q : Proc), SameButMeasured q q := fun q => ⟨rfl, fun _ _ _ _ => rfl⟩
  have bit : ∀ (q : Proc) (m : Nat) (q' : Proc), q' = { q with packageId := q'.packageId, minFrequency := q'.minFrequency, maxFrequency := q'.maxFrequency, flags := q'.flags } →
      q'.flags = q.flags ||| m → (∀ k, k ≠ 2 → k ≠ 3 → k ≠ 6 → m.testBit k = false) → SameButMeasured q q' := by
    intro q m q' h1 h2 h3
    refine ⟨h1, fun k k1 k2 k3 => ?_⟩
    rw [h2, Nat.testBit_or, h3 k k1 k2 k3, Bool.or_false]
  have pow : ∀ (j : Nat), (j = 2 ∨ j = 3 ∨ j = 6) → ∀ k, k ≠ 2 → k ≠ 3 → k ≠ 6 → (2 ^ j).testBit k = false := by
    intro j hj k h1 h2 h3
    rw [Nat.testBit_two_pow]
    simp only [decide_eq_false_iff_not]
    omega
  refine ⟨p, ?_⟩
  unfold frequencyStep
  simp only [hp, Option.bind_eq_bind, Option.bind_some]
  by_cases hv : valid p = true
  · rw [if_neg (by simp [hv])]
    unfold Processors.processorId
    rw [e1, e2, e3]
    simp only [Option.bind_some]
    have s1 : SameButMeasured p (if mx ≠ 0 then mark flagMaxFrequency { p with maxFrequency := mx } else p) := by
      split
      · exact bit p (2 ^ 2) _ rfl rfl (pow 2 (.inl rfl))
      · exact same p
    generalize (if mx ≠ 0 then mark flagMaxFrequency { p with maxFrequency := mx } else p) = p1 at *
    have s2 : SameButMeasured p1 (if mn ≠ 0 then mark flagMinFrequency { p1 with minFrequency := mn } else p1) := by
      split
      · exact bit p1 (2 ^ 3) _ rfl rfl (pow 3 (.inr (.inl rfl)))
      · exact same p1
    generalize (if mn ≠ 0 then mark flagMinFrequency { p1 with minFrequency := mn } else p1) = p2 at *
    cases r3 with
    | none => exact ⟨p2, trivial, rfl, trans s1 s2⟩
    | some id =>
      exact ⟨mark flagPackageId { p2 with packageId := id }, trivial, rfl, trans (trans s1 s2) (bit p2 (2 ^ 6) _ rfl rfl (pow 6 (.inr (.inr rfl))))⟩
  · rw [if_pos hv]
    refine ⟨p, trivial, ?_, same p⟩
    rw [show t.set i p = t from ?_]
    · rfl
    · apply List.ext_getElem?
      intro k
      rw [set_get hp]
      split
      · next h => rw [← h, hp]
      · rfl

/-- The measured table. -/
def Measured (t t' : List Proc) : Prop := t'.length = t.length ∧
  ∀ (i : Nat) (p q : Proc), t[i]? = some p → t'[i]? = some q → SameButMeasured p q

theorem frequency_spec (e : Env) (t : List Proc) :
    ∃ t', forRange (frequencyStep e) t.length 0 t = some t' ∧ Measured t t' := by
  have trans : ∀ {p q r : Proc}, SameButMeasured p q → SameButMeasured q r → SameButMeasured p r := by
    intro p q r h h'
    refine ⟨?_, fun k h1 h2 h3 => (h'.2 k h1 h2 h3).trans (h.2 k h1 h2 h3)⟩
    rw [h'.1, h.1]
  refine forRange_total _ (fun _ => Measured t) t.length (fun j s hj h => ?_) t.length 0 t (by omega)
    ⟨rfl, fun i p q h1 h2 => by rw [h1] at h2; cases h2; exact ⟨rfl, fun _ _ _ _ => rfl⟩⟩
  obtain ⟨p, q, hp, hs, hm⟩ := frequencyStep_spec e j s (by rw [h.1]; exact hj)
  refine ⟨_, hs, by rw [List.length_set]; exact h.1, fun i x y hx hy => ?_⟩
  rw [set_get hp] at hy
  by_cases hij : j = i
  · subst hij
    rw [if_pos rfl] at hy
    cases hy
    exact trans (h.2 j x p hx hp) hm
  · rw [if_neg hij] at hy
    exact h.2 i x y hx hy

end Verif.ArmInit
