import Verif.Spec.Mock

/-!
# Proofs about the mock file system
-/

set_option autoImplicit false

namespace Verif.Mock

/-- Offsets are those of closed files or inside the contents. -/
def Sound (sizeMax : Nat) (fs : FS) : Prop :=
  ∀ f ∈ fs, f.content.length < sizeMax ∧ (f.offset = sizeMax ∨ f.offset ≤ f.content.length)

theorem sound_mount (sizeMax : Nat) (files : FS) (h : ∀ f ∈ files, f.content.length < sizeMax) :
    Sound sizeMax (mount sizeMax files) := by
  intro f hf
  obtain ⟨g, hg, rfl⟩ := List.mem_map.1 hf
  exact ⟨h g hg, Or.inl rfl⟩

theorem sound_set {sizeMax : Nat} {fs : FS} (h : Sound sizeMax fs) {fd : Nat} {f : File}
    (hf : f.content.length < sizeMax ∧ (f.offset = sizeMax ∨ f.offset ≤ f.content.length)) :
    Sound sizeMax (fs.set fd f) := by
  intro g hg
  rcases List.mem_or_eq_of_mem_set hg with hg | rfl
  · exact h g hg
  · exact hf

/-- Reading through an open descriptor. -/
theorem read_open {sizeMax : Nat} {fs : FS} (h : Sound sizeMax fs) {fd : Nat} {f : File}
    (hf : fs[fd]? = some f) (ho : f.offset ≠ sizeMax) (cap : Nat) :
    mockRead sizeMax fs fd cap = some (.ok ((f.content.drop f.offset).take cap),
      fs.set fd { f with offset := f.offset + min cap (f.content.length - f.offset) }) := by
  obtain ⟨h1, h2⟩ := h f (List.mem_of_getElem? hf)
  have h3 : f.offset ≤ f.content.length := by
    rcases h2 with h2 | h2
    · exact absurd h2 ho
    · exact h2
  have hr : (f.content.length + (sizeMax + 1) - f.offset) % (sizeMax + 1) =
      f.content.length - f.offset := by
    rw [show f.content.length + (sizeMax + 1) - f.offset =
      f.content.length - f.offset + (sizeMax + 1) by omega, Nat.add_mod_right]
    exact Nat.mod_eq_of_lt (by omega)
  have hc : (if f.content.length - f.offset > cap then cap else f.content.length - f.offset) =
      min cap (f.content.length - f.offset) := by split <;> omega
  unfold mockRead
  rw [hf]
  simp only [if_neg ho, hr, hc]
  rw [if_pos (by omega), Nat.mod_eq_of_lt (by omega)]
  congr 3
  by_cases hcap : cap ≤ f.content.length - f.offset
  · rw [Nat.min_eq_left hcap]
  · rw [Nat.min_eq_right (by omega), List.take_of_length_le (by simp),
      List.take_of_length_le (by simp; omega)]

theorem read_closed {sizeMax : Nat} {fs : FS} {fd : Nat} (h : view sizeMax fs fd = none) (cap : Nat) :
    mockRead sizeMax fs fd cap = some (.error .ebadf, fs) := by
  unfold mockRead
  unfold view at h
  cases hf : fs[fd]? with
  | none => rfl
  | some f =>
    rw [hf] at h
    simp only [Option.bind_some] at h
    split at h
    · rename_i h0; simp only [if_pos h0]
    · cases h

/-- `open` finds the first file with the path. -/
theorem openFrom_spec (sizeMax : Nat) (path : Bytes) (rdonly : Bool) (fs : FS) (i : Nat) :
    (contentOf fs path = none ∧ openFrom sizeMax path rdonly i fs = (.error .enoent, fs)) ∨
    (∃ (k : Nat) (f : File), fs[k]? = some f ∧ f.path = path ∧ contentOf fs path = some f.content ∧
      (∀ (j : Nat) (g : File), j < k → fs[j]? = some g → g.path ≠ path) ∧
      openFrom sizeMax path rdonly i fs =
        if !rdonly then (.error .eacces, fs)
        else if f.offset ≠ sizeMax then (.error .enfile, fs)
        else (.ok (i + k), fs.set k { f with offset := 0 })) := by
  induction fs generalizing i with
  | nil => exact Or.inl ⟨rfl, rfl⟩
  | cons f fs ih =>
    by_cases hp : f.path = path
    · refine Or.inr ⟨0, f, rfl, hp, ?_, fun j g hj => by omega, ?_⟩
      · simp [contentOf, hp]
      · unfold openFrom
        rw [if_pos hp]
        rfl
    · have hc : contentOf (f :: fs) path = contentOf fs path := by
        simp [contentOf, hp]
      rcases ih (i + 1) with ⟨h1, h2⟩ | ⟨k, g, h1, h2, h3, h4, h5⟩
      · refine Or.inl ⟨by rw [hc, h1], ?_⟩
        unfold openFrom
        rw [if_neg hp, h2]
      · refine Or.inr ⟨k + 1, g, by simpa using h1, h2, by rw [hc, h3], ?_, ?_⟩
        · intro j g' hj hg'
          cases j with
          | zero => simp at hg'; subst hg'; exact hp
          | succ j => exact h4 j g' (by omega) (by simpa using hg')
        · unfold openFrom
          rw [if_neg hp, h5]
          dsimp only
          split
          · rfl
          · split
            · rfl
            · rw [show i + 1 + k = i + (k + 1) by omega]; rfl

theorem sound_open {sizeMax : Nat} {fs : FS} (h : Sound sizeMax fs) (path : Bytes) (rdonly : Bool) :
    Sound sizeMax (mockOpen sizeMax fs path rdonly).2 := by
  unfold mockOpen
  rcases openFrom_spec sizeMax path rdonly fs 0 with ⟨_, h2⟩ | ⟨k, f, h1, _, _, _, h2⟩
  · rw [h2]; exact h
  · rw [h2]
    split
    · exact h
    · split
      · exact h
      · exact sound_set h ⟨(h f (List.mem_of_getElem? h1)).1, Or.inr (Nat.zero_le _)⟩

theorem sound_close {sizeMax : Nat} {fs : FS} (h : Sound sizeMax fs) (fd : Nat) :
    Sound sizeMax (mockClose sizeMax fs fd).2 := by
  unfold mockClose
  split
  · exact h
  · rename_i f hf
    split
    · exact h
    · exact sound_set h ⟨(h f (List.mem_of_getElem? hf)).1, Or.inl rfl⟩

theorem sound_read {sizeMax : Nat} {fs : FS} (h : Sound sizeMax fs) (fd cap : Nat) :
    ∃ r : Except Errno Bytes × FS, mockRead sizeMax fs fd cap = some r ∧ Sound sizeMax r.2 := by
  cases hf : fs[fd]? with
  | none => exact ⟨_, read_closed (by unfold view; rw [hf]; rfl) cap, h⟩
  | some f =>
    by_cases ho : f.offset = sizeMax
    · refine ⟨_, read_closed ?_ cap, h⟩
      unfold view
      rw [hf]
      simp [ho]
    · have hl := h f (List.mem_of_getElem? hf)
      refine ⟨_, read_open h hf ho cap, sound_set h ⟨hl.1, Or.inr ?_⟩⟩
      rcases hl.2 with h2 | h2
      · exact absurd h2 ho
      · show f.offset + min cap (f.content.length - f.offset) ≤ f.content.length
        omega

/-- Opening a file that is closed, reading it in some way and closing it leaves everything as
before. -/
structure Reading (sizeMax : Nat) (fs fs' : FS) (fd : Nat) (f : File) : Prop where
  sound : Sound sizeMax fs'
  start : fs[fd]? = some f
  closed : f.offset = sizeMax
  now : ∃ o : Nat, o ≤ f.content.length ∧ fs' = fs.set fd { f with offset := o }

theorem Reading.get {sizeMax : Nat} {fs fs' : FS} {fd : Nat} {f : File}
    (r : Reading sizeMax fs fs' fd f) {o : Nat} (h : fs' = fs.set fd { f with offset := o }) :
    fs'[fd]? = some { f with offset := o } := by
  rw [h, List.getElem?_set_self (List.getElem?_eq_some_iff.1 r.start).1]

theorem Reading.size {sizeMax : Nat} {fs fs' : FS} {fd : Nat} {f : File}
    (r : Reading sizeMax fs fs' fd f) : f.content.length < sizeMax := by
  obtain ⟨o, _, h⟩ := r.now
  exact (r.sound _ (List.mem_of_getElem? (r.get h))).1

theorem Reading.close {sizeMax : Nat} {fs fs' : FS} {fd : Nat} {f : File}
    (r : Reading sizeMax fs fs' fd f) : (mockClose sizeMax fs' fd).2 = fs := by
  obtain ⟨o, ho, h⟩ := r.now
  have := r.size
  unfold mockClose
  rw [r.get h]
  simp only
  rw [if_neg (by omega)]
  simp only
  rw [h, List.set_set]
  refine List.ext_getElem? fun i => ?_
  by_cases hi : fd = i
  · subst hi
    rw [List.getElem?_set_self (List.getElem?_eq_some_iff.1 r.start).1, r.start, ← r.closed]
  · rw [List.getElem?_set_ne hi]

/-- One read of the mock file system is one read of the kernel that returns all that fits. -/
theorem Reading.read {sizeMax : Nat} {fs fs' : FS} {fd : Nat} {f : File}
    (r : Reading sizeMax fs fs' fd f) (rest : Bytes) (hv : view sizeMax fs' fd = some rest)
    (cap n : Nat) (hn : f.content.length ≤ n) :
    ∃ fs'' : FS, mockRead sizeMax fs' fd cap = some (.ok (rest.take cap), fs'') ∧
      Reading sizeMax fs fs'' fd f ∧ view sizeMax fs'' fd = some (rest.drop cap) ∧
      sysRead (some n) cap rest = some (rest.take cap, rest.drop cap) := by
  obtain ⟨o, ho, h⟩ := r.now
  have hs := r.size
  have hg := r.get h
  have hne : o ≠ sizeMax := by omega
  have hrest : rest = f.content.drop o := by
    unfold view at hv
    rw [hg] at hv
    simp only [Option.bind_some, if_neg hne, Option.some.injEq] at hv
    exact hv.symm
  have hrd := read_open r.sound hg hne cap
  simp only at hrd
  obtain ⟨r2, hr2, hsound⟩ := sound_read r.sound fd cap
  rw [hrd] at hr2
  cases hr2
  simp only at hsound
  refine ⟨_, by rw [hrd, hrest], ⟨hsound, r.start, r.closed, o + min cap (f.content.length - o),
    by omega, by rw [h, List.set_set]⟩, ?_, ?_⟩
  · unfold view
    rw [List.getElem?_set_self (List.getElem?_eq_some_iff.1 hg).1]
    simp only [Option.bind_some]
    rw [if_neg (by omega), hrest, List.drop_drop]
    by_cases hcap : cap ≤ f.content.length - o
    · rw [Nat.min_eq_left hcap]
    · rw [Nat.min_eq_right (by omega), List.drop_of_length_le (by omega),
        List.drop_of_length_le (by omega)]
  · unfold sysRead
    simp only
    have hl : rest.length ≤ n := by rw [hrest, List.length_drop]; omega
    by_cases hcap : cap ≤ n + 1
    · rw [Nat.min_eq_right hcap]
    · rw [Nat.min_eq_left (by omega), List.take_of_length_le (by omega),
        List.drop_of_length_le (by omega), List.take_of_length_le (by omega),
        List.drop_of_length_le (by omega)]

theorem Reading.small {sizeMax : Nat} {fs : FS} {fd : Nat} {f : File} (size n : Nat)
    (hn : f.content.length ≤ n) (fuel : Nat) : ∀ (fs' : FS) (i : Nat) (buf rest : Bytes),
    Reading sizeMax fs fs' fd f → view sizeMax fs' fd = some rest →
    (smallLoop sizeMax size fuel fs' fd buf).map (fun r => (r.1, (mockClose sizeMax r.2 fd).2)) =
      (SmallFile.loop size (fullSched n) fuel i buf rest).map fun r => (r, fs) := by
  induction fuel with
  | zero => intros; rfl
  | succ fuel ih =>
    intro fs' i buf rest r hv
    obtain ⟨fs'', h1, h2, h3, h4⟩ := r.read rest hv (size - buf.length) n hn
    unfold smallLoop SmallFile.loop
    rw [h1]
    unfold fullSched
    rw [h4]
    simp only
    split
    · simp [h2.close]
    · split
      · simp [h2.close]
      · exact ih fs'' (i + 1) _ _ h2 h3

theorem Reading.multi {σ : Type} {sizeMax : Nat} {fs : FS} {fd : Nat} {f : File} (size n : Nat)
    (cb : Multiline.Handler σ) (hn : f.content.length ≤ n) (fuel : Nat) :
    ∀ (fs' : FS) (i : Nat) (buf rest : Bytes) (s : σ) (k : Nat),
    Reading sizeMax fs fs' fd f → view sizeMax fs' fd = some rest →
    (multiLoop sizeMax size cb fuel fs' fd buf s k).map (fun r => (r.1, (mockClose sizeMax r.2 fd).2)) =
      (Multiline.loop size (fullSched n) cb fuel i buf rest s k).map fun r => (r, fs) := by
  induction fuel with
  | zero => intros; rfl
  | succ fuel ih =>
    intro fs' i buf rest s k r hv
    obtain ⟨fs'', h1, h2, h3, h4⟩ := r.read rest hv (size - buf.length) n hn
    unfold multiLoop Multiline.loop
    rw [h1]
    unfold fullSched
    rw [h4]
    cases hg : rest.take (size - buf.length) with
    | nil => simp [h2.close]
    | cons g gs =>
      simp only
      cases hd : Multiline.drain cb [] (buf ++ g :: gs) s k with
      | stopped s' => simp [h2.close]
      | more s' k' left => exact ih fs'' (i + 1) _ _ _ _ h2 h3

theorem Reading.list {σ : Type} {sizeMax : Nat} {fs : FS} {fd : Nat} {f : File} (n : Nat)
    (cb : σ → Nat → Nat → σ × Bool) (hn : f.content.length ≤ n) (fuel : Nat) :
    ∀ (fs' : FS) (i : Nat) (buf rest : Bytes) (s : σ) (ok : Bool),
    Reading sizeMax fs fs' fd f → view sizeMax fs' fd = some rest →
    (listLoop sizeMax cb fuel fs' fd buf s ok).map (fun r => (r.1, (mockClose sizeMax r.2 fd).2)) =
      (CpuList.loop (fullSched n) cb fuel i buf rest s ok).map fun r => (r, fs) := by
  induction fuel with
  | zero => intros; rfl
  | succ fuel ih =>
    intro fs' i buf rest s ok r hv
    obtain ⟨fs'', h1, h2, h3, h4⟩ := r.read rest hv (CpuList.bufferSize - buf.length) n hn
    unfold listLoop CpuList.loop
    rw [h1]
    unfold fullSched
    rw [h4]
    cases hg : rest.take (CpuList.bufferSize - buf.length) with
    | nil => simp [h2.close]
    | cons g gs => exact ih fs'' (i + 1) _ _ _ _ h2 h3

/-- Opening in a file system where all files are closed. -/
theorem open_closed {sizeMax : Nat} {fs : FS} (h : Sound sizeMax fs) (hc : ∀ f ∈ fs, f.offset = sizeMax)
    (path : Bytes) :
    (contentOf fs path = none ∧ mockOpen sizeMax fs path true = (.error .enoent, fs)) ∨
    (∃ (fd : Nat) (f : File) (fs' : FS), contentOf fs path = some f.content ∧
      mockOpen sizeMax fs path true = (.ok fd, fs') ∧ Reading sizeMax fs fs' fd f ∧
      view sizeMax fs' fd = some f.content) := by
  have hso := sound_open h path true
  unfold mockOpen at hso ⊢
  rcases openFrom_spec sizeMax path true fs 0 with h1 | ⟨k, f, h1, _, h3, _, h5⟩
  · exact Or.inl h1
  · have hf := hc f (List.mem_of_getElem? h1)
    rw [if_neg (by simp), if_neg (by simp [hf]), Nat.zero_add] at h5
    rw [h5] at hso ⊢
    simp only at hso
    refine Or.inr ⟨k, f, _, h3, rfl, ⟨hso, h1, hf, 0, Nat.zero_le _, rfl⟩, ?_⟩
    unfold view
    rw [List.getElem?_set_self (List.getElem?_eq_some_iff.1 h1).1]
    have := (h f (List.mem_of_getElem? h1)).1
    simp only [Option.bind_some]
    rw [if_neg (by omega), List.drop_zero]

theorem small_eq {sizeMax : Nat} {fs : FS} (h : Sound sizeMax fs) (hc : ∀ f ∈ fs, f.offset = sizeMax)
    (path : Bytes) (size n : Nat) (hn : ∀ f ∈ fs, f.content.length ≤ n) :
    smallParse sizeMax fs path size (((contentOf fs path).getD []).length + 1) =
      (SmallFile.parse (contentOf fs path) size (fullSched n)).map fun r => (r, fs) := by
  unfold smallParse SmallFile.parse
  rcases open_closed h hc path with ⟨h1, h2⟩ | ⟨fd, f, fs', h1, h2, h3, h4⟩
  · rw [h1, h2]; rfl
  · rw [h1, h2]
    exact Reading.small size n (hn f (List.mem_of_getElem? h3.start)) _ _ 0 [] _ h3 h4

theorem multi_eq {σ : Type} {sizeMax : Nat} {fs : FS} (h : Sound sizeMax fs)
    (hc : ∀ f ∈ fs, f.offset = sizeMax) (path : Bytes) (size n : Nat)
    (hn : ∀ f ∈ fs, f.content.length ≤ n) (cb : Multiline.Handler σ) (s : σ) :
    multiParse sizeMax fs path size (((contentOf fs path).getD []).length + 1) cb s =
      (Multiline.parse (contentOf fs path) size (fullSched n) cb s).map fun r => (r, fs) := by
  unfold multiParse Multiline.parse
  rcases open_closed h hc path with ⟨h1, h2⟩ | ⟨fd, f, fs', h1, h2, h3, h4⟩
  · rw [h1, h2]; rfl
  · rw [h1, h2]
    exact Reading.multi size n cb (hn f (List.mem_of_getElem? h3.start)) _ _ 0 [] _ s 1 h3 h4

theorem list_eq {σ : Type} {sizeMax : Nat} {fs : FS} (h : Sound sizeMax fs)
    (hc : ∀ f ∈ fs, f.offset = sizeMax) (path : Bytes) (n : Nat)
    (hn : ∀ f ∈ fs, f.content.length ≤ n) (cb : σ → Nat → Nat → σ × Bool) (s : σ) :
    listParse sizeMax fs path (((contentOf fs path).getD []).length + 1) cb s =
      (CpuList.parse (contentOf fs path) (fullSched n) cb s).map fun r => (r, fs) := by
  unfold listParse CpuList.parse
  rcases open_closed h hc path with ⟨h1, h2⟩ | ⟨fd, f, fs', h1, h2, h3, h4⟩
  · rw [h1, h2]; rfl
  · rw [h1, h2]
    exact Reading.list n cb (hn f (List.mem_of_getElem? h3.start)) _ _ 0 [] _ s true h3 h4

end Verif.Mock
