import Verif.Proof.Mock

/-!
# C155, C156: the mock file system and Android properties
-/

set_option autoImplicit false

namespace Verif.Props
open Verif.Mock

theorem mock_sound {sizeMax : Nat} {files : FS} (hs : ∀ f ∈ files, f.content.length < sizeMax) {fs : FS}
    (h : Reachable sizeMax files fs) : Sound sizeMax fs := by
  induction h with
  | start => exact sound_mount sizeMax files hs
  | step call _ hc ih =>
    cases call with
    | opens path rdonly => cases hc; exact sound_open ih path rdonly
    | closes fd => cases hc; exact sound_close ih fd
    | reads fd cap =>
      obtain ⟨r, h1, h2⟩ := sound_read ih fd cap
      simp only [Call.step, h1, Option.map_some, Option.some.injEq] at hc
      subst hc
      exact h2

/-- **C155 (memory).** No sequence of calls reads memory outside the contents of the files, and none
changes paths or contents. -/
theorem C155_memory (sizeMax : Nat) (files : FS) (hs : ∀ f ∈ files, f.content.length < sizeMax) (fs : FS)
    (h : Reachable sizeMax files fs) :
    (∀ call : Call, call.step sizeMax fs ≠ none) ∧
    fs.map (fun f => (f.path, f.content)) = files.map fun f => (f.path, f.content) := by
  constructor
  · intro call
    cases call with
    | opens path rdonly => simp [Call.step]
    | closes fd => simp [Call.step]
    | reads fd cap =>
      obtain ⟨r, h1, _⟩ := sound_read (mock_sound hs h) fd cap
      simp [Call.step, h1]
  · have hset : ∀ (fs : FS) (k : Nat) (f : File) (o : Nat), fs[k]? = some f →
        (fs.set k { f with offset := o }).map (fun f => (f.path, f.content)) =
          fs.map fun f => (f.path, f.content) := by
      intro fs k f o hf
      rw [List.map_set]
      refine List.ext_getElem? fun i => ?_
      by_cases hi : k = i
      · subst hi
        rw [List.getElem?_set_self (by simpa using (List.getElem?_eq_some_iff.1 hf).1)]
        simp [hf]
      · rw [List.getElem?_set_ne hi]
    induction h with
    | start => simp [mount, List.map_map, Function.comp_def]
    | step call hr hc ih =>
      rename_i fs0 fs1
      rw [← ih]
      cases call with
      | opens path rdonly =>
        cases hc
        unfold mockOpen
        rcases openFrom_spec sizeMax path rdonly fs0 0 with ⟨_, h2⟩ | ⟨k, f, h1, _, _, _, h2⟩
        · rw [h2]
        · rw [h2]
          split
          · rfl
          · split
            · rfl
            · exact hset _ _ _ _ h1
      | closes fd =>
        cases hc
        unfold mockClose
        split
        · rfl
        · rename_i f hf
          split
          · rfl
          · exact hset _ _ _ _ hf
      | reads fd cap =>
        have hso := mock_sound hs hr
        cases hf : fs0[fd]? with
        | none =>
          simp only [Call.step, read_closed (show view sizeMax fs0 fd = none by unfold view; rw [hf]; rfl) cap,
            Option.map_some, Option.some.injEq] at hc
          rw [hc]
        | some f =>
          by_cases ho : f.offset = sizeMax
          · simp only [Call.step, read_closed (show view sizeMax fs0 fd = none by
              unfold view; rw [hf]; simp [ho]) cap, Option.map_some, Option.some.injEq] at hc
            rw [hc]
          · simp only [Call.step, read_open hso hf ho cap, Option.map_some, Option.some.injEq] at hc
            rw [← hc]
            exact hset _ _ _ _ hf

/-- **C155 (descriptors).** Descriptors behave like those of an operating system: opening gives a new
one on the whole content of the first file with the path, reading gives the next bytes, as many as fit,
closing makes it invalid; other descriptors are untouched.  Opening fails for unknown paths and, unlike
in an operating system, for files that are open; it never succeeds for writing. -/
theorem C155_descriptors (sizeMax : Nat) (files : FS) (hs : ∀ f ∈ files, f.content.length < sizeMax)
    (fs : FS) (h : Reachable sizeMax files fs) :
    (∀ path : Bytes,
      (contentOf files path = none ∧ mockOpen sizeMax fs path true = (.error .enoent, fs)) ∨
      (∃ (fd : Nat) (content : Bytes), contentOf files path = some content ∧
        (files[fd]?).map File.path = some path ∧
        (∀ j : Nat, j < fd → (files[j]?).map File.path ≠ some path) ∧
        ((view sizeMax fs fd ≠ none ∧ mockOpen sizeMax fs path true = (.error .enfile, fs)) ∨
          (view sizeMax fs fd = none ∧ ∃ fs' : FS, mockOpen sizeMax fs path true = (.ok fd, fs') ∧
            view sizeMax fs' fd = some content ∧
            ∀ other : Nat, other ≠ fd → view sizeMax fs' other = view sizeMax fs other)))) ∧
    (∀ path : Bytes, (mockOpen sizeMax fs path false).2 = fs ∧
      ∀ fd : Nat, (mockOpen sizeMax fs path false).1 ≠ .ok fd) ∧
    (∀ fd cap : Nat, (view sizeMax fs fd = none → mockRead sizeMax fs fd cap = some (.error .ebadf, fs)) ∧
      ∀ rest : Bytes, view sizeMax fs fd = some rest →
        ∃ fs' : FS, mockRead sizeMax fs fd cap = some (.ok (rest.take cap), fs') ∧
          view sizeMax fs' fd = some (rest.drop cap) ∧
          ∀ other : Nat, other ≠ fd → view sizeMax fs' other = view sizeMax fs other) ∧
    (∀ fd : Nat, (view sizeMax fs fd = none → mockClose sizeMax fs fd = (.error .ebadf, fs)) ∧
      (view sizeMax fs fd ≠ none → ∃ fs' : FS, mockClose sizeMax fs fd = (.ok (), fs') ∧
          view sizeMax fs' fd = none ∧
          ∀ other : Nat, other ≠ fd → view sizeMax fs' other = view sizeMax fs other)) := by
  have hso := mock_sound hs h
  have hother : ∀ (fd : Nat) (f : File) (other : Nat), other ≠ fd →
      view sizeMax (fs.set fd f) other = view sizeMax fs other := by
    intro fd f other ho
    unfold view
    rw [List.getElem?_set_ne (fun h => ho h.symm)]
  have hcont : ∀ path : Bytes, contentOf fs path = contentOf files path := by
    have key : ∀ (a b : FS) (path : Bytes),
        a.map (fun f => (f.path, f.content)) = b.map (fun f => (f.path, f.content)) →
        contentOf a path = contentOf b path := by
      intro a
      induction a with
      | nil => intro b path h; cases b with
        | nil => rfl
        | cons y b => simp at h
      | cons x a ih =>
        intro b path h
        cases b with
        | nil => simp at h
        | cons y b =>
          simp only [List.map_cons, List.cons.injEq, Prod.mk.injEq] at h
          obtain ⟨⟨h1, h2⟩, h3⟩ := h
          have := ih b path h3
          unfold contentOf at this ⊢
          simp only [List.find?_cons, h1]
          split
          · simp [h2]
          · exact this
    exact fun path => key _ _ path (C155_memory sizeMax files hs fs h).2
  have hpath : ∀ k : Nat, (files[k]?).map File.path = (fs[k]?).map File.path := by
    intro k
    have := congrArg (fun l : List (Bytes × Bytes) => (l[k]?).map Prod.fst)
      (C155_memory sizeMax files hs fs h).2
    simpa [List.getElem?_map, Option.map_map, Function.comp_def] using this.symm
  refine ⟨fun path => ?_, fun path => ?_, fun fd cap => ⟨fun hv => read_closed hv cap, fun rest hv => ?_⟩,
    fun fd => ⟨fun hv => ?_, fun hv => ?_⟩⟩
  · rw [← hcont]
    unfold mockOpen
    rcases openFrom_spec sizeMax path true fs 0 with h1 | ⟨k, f, h1, h2, h3, h4, h5⟩
    · exact Or.inl h1
    · rw [h5]
      refine Or.inr ⟨k, f.content, h3, by rw [hpath, h1, ← h2]; rfl, fun j hj => ?_, ?_⟩
      · rw [hpath]
        intro hp
        obtain ⟨g, hg, hgp⟩ := Option.map_eq_some_iff.1 hp
        exact h4 j g hj hg hgp
      by_cases ho : f.offset = sizeMax
      · refine Or.inr ⟨by unfold view; rw [h1]; simp [ho], fs.set k { f with offset := 0 }, ?_, ?_,
          hother k _⟩
        · rw [if_neg (by simp), if_neg (by simp [ho]), Nat.zero_add]
        · have := (hso f (List.mem_of_getElem? h1)).1
          unfold view
          rw [List.getElem?_set_self (List.getElem?_eq_some_iff.1 h1).1]
          simp only [Option.bind_some]
          rw [if_neg (by omega), List.drop_zero]
      · refine Or.inl ⟨by unfold view; rw [h1]; simp [ho], ?_⟩
        rw [if_neg (by simp), if_pos ho]
  · unfold mockOpen
    rcases openFrom_spec sizeMax path false fs 0 with ⟨_, h2⟩ | ⟨k, f, _, _, _, _, h2⟩ <;> rw [h2]
    · exact ⟨rfl, fun fd h => by cases h⟩
    · exact ⟨rfl, fun fd h => by cases h⟩
  · cases hf : fs[fd]? with
    | none => unfold view at hv; rw [hf] at hv; cases hv
    | some f =>
      unfold view at hv
      rw [hf] at hv
      simp only [Option.bind_some] at hv
      by_cases ho : f.offset = sizeMax
      · rw [if_pos ho] at hv; cases hv
      · rw [if_neg ho] at hv
        cases hv
        obtain ⟨hl, hl2⟩ := hso f (List.mem_of_getElem? hf)
        refine ⟨_, read_open hso hf ho cap, ?_, hother fd _⟩
        unfold view
        rw [List.getElem?_set_self (List.getElem?_eq_some_iff.1 hf).1]
        simp only [Option.bind_some]
        rw [if_neg (by omega), List.drop_drop]
        by_cases hcap : cap ≤ f.content.length - f.offset
        · rw [Nat.min_eq_left hcap]
        · rw [Nat.min_eq_right (by omega), List.drop_of_length_le (by omega),
            List.drop_of_length_le (by omega)]
  · unfold mockClose
    unfold view at hv
    cases hf : fs[fd]? with
    | none => rfl
    | some f =>
      rw [hf] at hv
      simp only [Option.bind_some] at hv
      split at hv
      · rename_i h0; simp only [if_pos h0]
      · cases hv
  · unfold view at hv
    cases hf : fs[fd]? with
    | none => rw [hf] at hv; exact absurd rfl hv
    | some f =>
      rw [hf] at hv
      simp only [Option.bind_some] at hv
      by_cases ho : f.offset = sizeMax
      · rw [if_pos ho] at hv; exact absurd rfl hv
      · refine ⟨fs.set fd { f with offset := sizeMax }, ?_, ?_, hother fd _⟩
        · unfold mockClose
          rw [hf]
          simp only [if_neg ho]
        · unfold view
          rw [List.getElem?_set_self (List.getElem?_eq_some_iff.1 hf).1]
          simp

/-- **C155 (readers).** On a mock file system with all files closed, the three readers of the library
find what they find on the same files of an operating system that returns as much as fits, and all
files are closed again, so that they can be read any number of times. -/
theorem C155_readers (sizeMax : Nat) (files : FS) (hs : ∀ f ∈ files, f.content.length < sizeMax)
    (path : Bytes) {σ : Type} (s : σ) (handler : Multiline.Handler σ) (cb : σ → Nat → Nat → σ × Bool)
    (size : Nat) :
    smallParse sizeMax (mount sizeMax files) path size (((contentOf files path).getD []).length + 1) =
      (SmallFile.parse (contentOf files path) size (fullSched sizeMax)).map
        (fun r => (r, mount sizeMax files)) ∧
    multiParse sizeMax (mount sizeMax files) path size (((contentOf files path).getD []).length + 1)
        handler s =
      (Multiline.parse (contentOf files path) size (fullSched sizeMax) handler s).map
        (fun r => (r, mount sizeMax files)) ∧
    listParse sizeMax (mount sizeMax files) path (((contentOf files path).getD []).length + 1) cb s =
      (CpuList.parse (contentOf files path) (fullSched sizeMax) cb s).map
        (fun r => (r, mount sizeMax files)) := by
  have hso := sound_mount sizeMax files hs
  have hcl : ∀ f ∈ mount sizeMax files, f.offset = sizeMax := by
    intro f hf
    obtain ⟨g, _, rfl⟩ := List.mem_map.1 hf
    rfl
  have hn : ∀ f ∈ mount sizeMax files, f.content.length ≤ sizeMax := fun f hf => by
    have := (hso f hf).1; omega
  have hc : contentOf (mount sizeMax files) path = contentOf files path := by
    unfold contentOf mount
    rw [List.find?_map, Option.map_map]
    rfl
  refine ⟨?_, ?_, ?_⟩
  · rw [← hc]; exact small_eq hso hcl path size sizeMax hn
  · rw [← hc]; exact multi_eq hso hcl path size sizeMax hn handler s
  · rw [← hc]; exact list_eq hso hcl path sizeMax hn cb s

/-- Two files; the list of possible processors is read in the mock build. -/
example : listParse (2 ^ 64 - 1) (mount (2 ^ 64 - 1)
      [⟨b!"/proc/cpuinfo", b!"x", 0⟩, ⟨b!"/sys/devices/system/cpu/possible", b!"0-3", 0⟩])
    b!"/sys/devices/system/cpu/possible" 4 CpuList.record [] =
    some (([(0, 4)], true), mount (2 ^ 64 - 1)
      [⟨b!"/proc/cpuinfo", b!"x", 0⟩, ⟨b!"/sys/devices/system/cpu/possible", b!"0-3", 0⟩]) := by
  decide +kernel

/-- A shorter key than 32 bytes is compared completely. -/
theorem strncmpEq_iff (a b : Bytes) (ha : a.length < 32) (hz : 0 ∉ a) (hb : 0 ∉ b) :
    strncmpEq a b 32 = (b == a) := by
  rw [Bool.eq_iff_iff]
  unfold strncmpEq
  simp only [beq_iff_eq]
  constructor
  · intro h
    have h1 : (a ++ [0]).take 32 = a ++ [0] := List.take_of_length_le (by simp; omega)
    rw [h1] at h
    have key : ∀ (a b r : Bytes) (n : Nat), 0 ∉ a → 0 ∉ b → a.length < n →
        (b ++ [0]).take n = a ++ [0] → b = a := by
      intro a
      induction a with
      | nil =>
        intro b r n _ hb hn h
        cases n with
        | zero => simp at hn
        | succ n =>
          cases b with
          | nil => rfl
          | cons x b =>
            simp only [List.cons_append, List.take_succ_cons, List.nil_append, List.cons.injEq] at h
            exact absurd (by simp [h.1]) hb
      | cons y a ih =>
        intro b r n ha hb hn h
        cases n with
        | zero => simp at hn
        | succ n =>
          cases b with
          | nil =>
            simp only [List.nil_append, List.take_succ_cons, List.cons_append, List.cons.injEq] at h
            exact absurd (by simp [h.1]) ha
          | cons x b =>
            simp only [List.cons_append, List.take_succ_cons, List.cons.injEq] at h
            rw [h.1, ih b r n (fun h => ha (List.mem_cons_of_mem _ h))
              (fun h => hb (List.mem_cons_of_mem _ h)) (by simpa using hn) h.2]
    exact key a b [] 32 hz hb ha h.symm
  · rintro rfl; rfl

/-- One property. -/
theorem property_text (props : List (Bytes × Bytes)) (hz : ∀ p ∈ props, 0 ∉ p.1 ∧ 0 ∉ p.2)
    (key old : Bytes) (hk : key.length < 32) (hk0 : 0 ∉ key) :
    propertyText (propertyGet props key old) = ((lookup props key).getD []).take 92 := by
  have hf : (props.find? fun p => strncmpEq key p.1 propNameMax) = props.find? fun p => p.1 == key := by
    have : ∀ l : List (Bytes × Bytes), (∀ p ∈ l, 0 ∉ p.1 ∧ 0 ∉ p.2) →
        (l.find? fun p => strncmpEq key p.1 propNameMax) = l.find? fun p => p.1 == key := by
      intro l
      induction l with
      | nil => intro _; rfl
      | cons p l ih =>
        intro hl
        rw [List.find?_cons, List.find?_cons, show propNameMax = 32 from rfl,
          strncmpEq_iff key p.1 hk hk0 (hl p (List.mem_cons_self ..)).1]
        rw [show (l.find? fun p => strncmpEq key p.1 32) = l.find? fun p => p.1 == key from
          ih fun p hp => hl p (List.mem_cons_of_mem _ hp)]
    exact this props hz
  unfold propertyGet lookup
  rw [hf]
  cases hp : props.find? fun p => p.1 == key with
  | none => rfl
  | some p =>
    have h0 := (hz p (List.mem_of_find?_eq_some hp)).2
    simp only [Option.map_some, Option.getD_some]
    unfold propertyText strncpy
    rw [show propValueMax = 92 from rfl]
    have hall : ∀ b ∈ p.2.take 92, (b != 0) = true := fun b hb => by
      simp only [bne_iff_ne]
      rintro rfl
      exact h0 (List.mem_of_mem_take hb)
    by_cases hl : p.2.length < 92
    · rw [List.take_of_length_le (by simp; omega), List.takeWhile_append_of_pos hall]
      obtain ⟨k, hk⟩ : ∃ k : Nat, 92 - p.2.length = k + 1 := ⟨91 - p.2.length, by omega⟩
      rw [hk, List.replicate_succ, List.takeWhile_cons_of_neg (by simp), List.append_nil]
    · rw [show 92 - p.2.length = 0 by omega, List.replicate_zero, List.append_nil,
        List.take_of_length_le (by simp; omega)]
      have := List.takeWhile_append_of_pos hall (l₂ := [])
      simpa using this

/-- **C156.** Each of the six names that chipset detection looks at is the value of the Android property
of this name, cut to 92 bytes, and empty if there is no such property, whatever the memory held before. -/
theorem C156_properties (props : List (Bytes × Bytes)) (hz : ∀ p ∈ props, 0 ∉ p.1 ∧ 0 ∉ p.2)
    (old : Properties) :
    propertyText (parseProperties props old).productBoard =
      ((lookup props b!"ro.product.board").getD []).take 92 ∧
    propertyText (parseProperties props old).boardPlatform =
      ((lookup props b!"ro.board.platform").getD []).take 92 ∧
    propertyText (parseProperties props old).mediatekPlatform =
      ((lookup props b!"ro.mediatek.platform").getD []).take 92 ∧
    propertyText (parseProperties props old).arch = ((lookup props b!"ro.arch").getD []).take 92 ∧
    propertyText (parseProperties props old).chipname =
      ((lookup props b!"ro.chipname").getD []).take 92 ∧
    propertyText (parseProperties props old).hardwareChipname =
      ((lookup props b!"ro.hardware.chipname").getD []).take 92 :=
  ⟨property_text props hz _ _ (by decide) (by decide), property_text props hz _ _ (by decide) (by decide),
    property_text props hz _ _ (by decide) (by decide), property_text props hz _ _ (by decide) (by decide),
    property_text props hz _ _ (by decide) (by decide), property_text props hz _ _ (by decide) (by decide)⟩

/-- A phone with a board name and a platform. -/
example : propertyText (parseProperties
      [(b!"ro.board.platform", b!"msm8996"), (b!"ro.product.board", b!"MSM8996")]
      ⟨[7], [7], [7], [7], [7], [7]⟩).boardPlatform = b!"msm8996" := by
  decide +kernel

end Verif.Props
