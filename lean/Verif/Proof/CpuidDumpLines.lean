import Verif.Proof.CpuidDump

/-!
# The lines of a dump: true, complete, ordered
-/

set_option autoImplicit false

namespace Verif.CpuidDump
open X86Cpuid (Regs Cpuid)

theorem mem_subs {leaf : Nat} {sub : Nat → Regs} {a n : Nat} {i : Item} :
    i ∈ subs leaf sub a n ↔ ∃ e : Nat, a ≤ e ∧ e < a + n ∧ i = Item.sub leaf e (sub e) := by
  unfold subs
  rw [List.mem_map]
  constructor
  · rintro ⟨e, he, rfl⟩
    rw [List.mem_range'_1] at he
    exact ⟨e, he.1, he.2, rfl⟩
  · rintro ⟨e, h1, h2, rfl⟩
    exact ⟨e, List.mem_range'_1.2 ⟨h1, h2⟩, rfl⟩

theorem subs_ordered (leaf : Nat) (sub : Nat → Regs) (a n : Nat) :
    (subs leaf sub a n).Pairwise Item.Before := by
  unfold subs
  rw [List.pairwise_map]
  exact (List.pairwise_lt_range' (s := a) (n := n)).imp fun h => Or.inr ⟨rfl, h⟩

/-- The possible contents of a basic leaf: nothing, one line, or lines of sub-leaves. -/
theorem leaf_cases {c : Cpuid} {n : Nat} {l : List Item} (h : Leaf c n l) :
    (l = [.vendor n (c.leaf n)] ∧ n = 0) ∨ l = [.plain n (c.sub n 0)] ∨
      ∃ k : Nat, k < U32 ∧ l = subs n (c.sub n) 0 k := by
  unfold Leaf at h
  by_cases h0 : n = 0
  · rw [if_pos h0] at h; subst h0; exact Or.inl ⟨h, rfl⟩
  rw [if_neg h0] at h
  by_cases h4 : n = 4
  · rw [if_pos h4] at h
    obtain ⟨k, hk, _, rfl⟩ := h
    subst h4; exact Or.inr (Or.inr ⟨k, hk, rfl⟩)
  rw [if_neg h4] at h
  by_cases hB : n = 0xB
  · rw [if_pos hB] at h
    obtain ⟨k, hk, _, rfl⟩ := h
    subst hB; exact Or.inr (Or.inr ⟨k, hk, rfl⟩)
  rw [if_neg hB] at h
  by_cases h12 : n = 0x12
  · rw [if_pos h12] at h
    subst h12
    by_cases hg : (c.sub 7 0).ebx &&& 4 ≠ 0
    · rw [if_pos hg] at h
      obtain ⟨k, hk, _, rfl⟩ := h
      exact Or.inr (Or.inr ⟨k, hk, rfl⟩)
    · rw [if_neg hg] at h
      exact Or.inr (Or.inr ⟨0, by omega, by rw [h]; rfl⟩)
  rw [if_neg h12] at h
  by_cases hc : n = 7 ∨ n = 0x14 ∨ n = 0x17 ∨ n = 0x24
  · rw [if_pos hc] at h
    exact Or.inr (Or.inr ⟨_, h.1, h.2⟩)
  · rw [if_neg hc] at h
    exact Or.inr (Or.inl h)

theorem leaf_mem {c : Cpuid} {n : Nat} {l : List Item} {i : Item} (h : Leaf c n l) (hi : i ∈ l) :
    i.leaf = n ∧ i.Correct c ∧ i.ecx < U32 ∧ ∀ (m : Nat) (r : Regs), i ≠ .brand m r := by
  rcases leaf_cases h with ⟨rfl, _⟩ | rfl | ⟨k, hk, rfl⟩
  · rw [List.mem_singleton] at hi
    subst hi
    exact ⟨rfl, rfl, by simp [Item.ecx], fun m r h => by cases h⟩
  · rw [List.mem_singleton] at hi
    subst hi
    exact ⟨rfl, rfl, by simp [Item.ecx], fun m r h => by cases h⟩
  · obtain ⟨e, _, h2, rfl⟩ := mem_subs.1 hi
    exact ⟨rfl, rfl, by simp only [Item.ecx]; omega, fun m r h => by cases h⟩

theorem leaf_ordered {c : Cpuid} {n : Nat} {l : List Item} (h : Leaf c n l) :
    l.Pairwise Item.Before := by
  rcases leaf_cases h with ⟨rfl, _⟩ | rfl | ⟨k, _, rfl⟩
  · exact List.pairwise_singleton _ _
  · exact List.pairwise_singleton _ _
  · exact subs_ordered _ _ _ _

theorem extLeaf_leaf (c : Cpuid) (n : Nat) :
    (extLeaf c n).leaf = n ∧ (extLeaf c n).Correct c ∧ (extLeaf c n).ecx = 0 := by
  unfold extLeaf
  split
  · exact ⟨rfl, rfl, rfl⟩
  split <;> exact ⟨rfl, rfl, rfl⟩

/-- Lines of successive leaves are in order if the lines of each are. -/
theorem flat_ordered {f : Nat → List Item} :
    ∀ (n a : Nat), (∀ m : Nat, a ≤ m → m < a + n → (f m).Pairwise Item.Before ∧ ∀ i ∈ f m, i.leaf = m) →
      ((List.range' a n).flatMap f).Pairwise Item.Before := by
  intro n
  induction n with
  | zero => intro a _; exact List.Pairwise.nil
  | succ n ih =>
    intro a h
    rw [List.range'_succ, List.flatMap_cons, List.pairwise_append]
    refine ⟨(h a (by omega) (by omega)).1, ih (a + 1) fun m h1 h2 => h m (by omega) (by omega), ?_⟩
    intro x hx y hy
    rw [List.mem_flatMap] at hy
    obtain ⟨m, hm, hy⟩ := hy
    rw [List.mem_range'_1] at hm
    have h1 := (h a (by omega) (by omega)).2 x hx
    have h2 := (h m (by omega) (by omega)).2 y hy
    exact Or.inl (by omega)

theorem dump_true {c : Cpuid} {fuel : Nat} {l : List Item} (h : dump c fuel = some l) {i : Item}
    (hi : i ∈ l) : i.Correct c ∧ HasLeaf c i.leaf ∧ i.leaf < U32 ∧ i.ecx < U32 := by
  obtain ⟨h1, h2, f, hf, rfl⟩ := dump_some h
  rw [List.mem_append, List.mem_flatMap, List.mem_map] at hi
  rcases hi with ⟨n, hn, hi⟩ | ⟨n, hn, rfl⟩
  · rw [List.mem_range'_1] at hn
    obtain ⟨a, b, d, _⟩ := leaf_mem (hf n (by omega)) hi
    exact ⟨b, Or.inl (by omega), by omega, d⟩
  · rw [List.mem_range'_1] at hn
    obtain ⟨a, b, d⟩ := extLeaf_leaf c n
    exact ⟨b, Or.inr (by omega), by omega, by rw [d]; omega⟩

/-- The lines up to a basic leaf and those of extended leaves are in order if the numbers of the
basic leaves are below those of the extended ones. -/
theorem dump_ordered {c : Cpuid} {fuel : Nat} {l : List Item} (h : dump c fuel = some l)
    (hb : (c.leaf 0).eax < 0x80000000) : l.Pairwise Item.Before := by
  obtain ⟨h1, h2, f, hf, rfl⟩ := dump_some h
  rw [List.pairwise_append]
  refine ⟨flat_ordered _ _ fun m _ hm => ⟨leaf_ordered (hf m (by omega)),
    fun i hi => (leaf_mem (hf m (by omega)) hi).1⟩, ?_, ?_⟩
  · rw [List.pairwise_map]
    exact (List.pairwise_lt_range' (s := 0x80000000)).imp fun h =>
      Or.inl (by rw [(extLeaf_leaf c _).1, (extLeaf_leaf c _).1]; exact h)
  · intro x hx y hy
    rw [List.mem_flatMap] at hx
    rw [List.mem_map] at hy
    obtain ⟨m, hm, hx⟩ := hx
    obtain ⟨n, hn, rfl⟩ := hy
    rw [List.mem_range'_1] at hm hn
    have := (leaf_mem (hf m (by omega)) hx).1
    exact Or.inl (by rw [(extLeaf_leaf c _).1]; omega)

theorem mem_base {c : Cpuid} {fuel : Nat} {l : List Item} (h : dump c fuel = some l) {n : Nat}
    (hn : n ≤ (c.leaf 0).eax) : ∃ l' : List Item, Leaf c n l' ∧ ∀ i ∈ l', i ∈ l := by
  obtain ⟨h1, h2, f, hf, rfl⟩ := dump_some h
  refine ⟨f n, hf n hn, fun i hi => List.mem_append_left _ (List.mem_flatMap.2 ⟨n, ?_, hi⟩)⟩
  rw [List.mem_range'_1]
  omega

theorem mem_ext {c : Cpuid} {fuel : Nat} {l : List Item} (h : dump c fuel = some l) {n : Nat}
    (h0 : 0x80000000 ≤ n) (hn : n ≤ (c.leaf 0x80000000).eax) : extLeaf c n ∈ l := by
  obtain ⟨h1, h2, f, hf, rfl⟩ := dump_some h
  refine List.mem_append_right _ (List.mem_map.2 ⟨n, ?_, rfl⟩)
  rw [List.mem_range'_1]
  omega

/-- With basic leaves below the extended ones, a line is in the dump exactly if it is among the lines
of its leaf. -/
theorem mem_iff {c : Cpuid} {fuel : Nat} {l : List Item} (h : dump c fuel = some l) {n : Nat}
    (hn : n ≤ (c.leaf 0).eax) (hb : (c.leaf 0).eax < 0x80000000) :
    ∃ l' : List Item, Leaf c n l' ∧ ∀ i : Item, i.leaf = n → (i ∈ l ↔ i ∈ l') := by
  obtain ⟨h1, h2, f, hf, rfl⟩ := dump_some h
  refine ⟨f n, hf n hn, fun i hi => ⟨fun hm => ?_, fun hm =>
    List.mem_append_left _ (List.mem_flatMap.2 ⟨n, List.mem_range'_1.2 (by omega), hm⟩)⟩⟩
  rw [List.mem_append, List.mem_flatMap, List.mem_map] at hm
  rcases hm with ⟨m, hm, hx⟩ | ⟨m, hm, rfl⟩
  · rw [List.mem_range'_1] at hm
    have := (leaf_mem (hf m (by omega)) hx).1
    rw [show n = m by omega]
    exact hx
  · rw [List.mem_range'_1] at hm
    rw [(extLeaf_leaf c m).1] at hi
    omega

/-! ## The script reads the lines back -/

theorem foldl_hex8 (n : Nat) (hn : n < U32) :
    (hexUp8 n).foldl (fun n c => n * 16 + hexUpValue c) 0 = n := by
  have key : ∀ d : Nat, d < 16 → hexUpValue (upDigit d) = d := by decide
  simp only [hexUp8, List.map_cons, List.map_nil, List.foldl_cons, List.foldl_nil]
  rw [key _ (Nat.mod_lt _ (by omega)), key _ (Nat.mod_lt _ (by omega)), key _ (Nat.mod_lt _ (by omega)),
    key _ (Nat.mod_lt _ (by omega)), key _ (Nat.mod_lt _ (by omega)), key _ (Nat.mod_lt _ (by omega)),
    key _ (Nat.mod_lt _ (by omega)), key _ (Nat.mod_lt _ (by omega))]
  omega

theorem upDigit_hex : ∀ d : Nat, d < 16 → isHexUp (upDigit d) = true := by decide

theorem hexUp8_length (n : Nat) : (hexUp8 n).length = 8 := rfl

theorem hexUp8_all (n : Nat) : (hexUp8 n).all isHexUp = true := by
  simp only [hexUp8, List.map_cons, List.map_nil, List.all_cons, List.all_nil, Bool.and_true]
  rw [upDigit_hex _ (Nat.mod_lt _ (by omega)), upDigit_hex _ (Nat.mod_lt _ (by omega)),
    upDigit_hex _ (Nat.mod_lt _ (by omega)), upDigit_hex _ (Nat.mod_lt _ (by omega)),
    upDigit_hex _ (Nat.mod_lt _ (by omega)), upDigit_hex _ (Nat.mod_lt _ (by omega)),
    upDigit_hex _ (Nat.mod_lt _ (by omega)), upDigit_hex _ (Nat.mod_lt _ (by omega))]
  rfl

theorem readHex8_hexUp8 (n : Nat) (hn : n < U32) (s : Bytes) :
    readHex8 (hexUp8 n ++ s) = some (n, s) := by
  unfold readHex8
  rw [List.take_left' (hexUp8_length n), List.drop_left' (hexUp8_length n),
    if_pos ⟨hexUp8_length n, hexUp8_all n⟩, foldl_hex8 n hn]

theorem readText_append (t s : Bytes) : readText t (t ++ s) = some s := by
  unfold readText
  rw [if_pos (by simp), List.drop_left]

theorem parseLine_head (n : Nat) (r : Regs) (s : Bytes) (hn : n < U32) (hr : Wide32 r) :
    parseLine (lineHead n r ++ s) = some ⟨n, subLeaf s, r⟩ := by
  obtain ⟨h1, h2, h3, h4⟩ := hr
  unfold parseLine lineHead
  simp only [List.append_assoc, Option.bind_eq_bind, Option.pure_def]
  rw [readText_append, Option.bind_some, readHex8_hexUp8 _ hn, Option.bind_some]
  dsimp only
  rw [readText_append, Option.bind_some, readHex8_hexUp8 _ h1, Option.bind_some]
  dsimp only
  rw [readText_append, Option.bind_some, readHex8_hexUp8 _ h2, Option.bind_some]
  dsimp only
  rw [readText_append, Option.bind_some, readHex8_hexUp8 _ h3, Option.bind_some]
  dsimp only
  rw [readText_append, Option.bind_some, readHex8_hexUp8 _ h4, Option.bind_some]

/-- A line that the script accepts has 51 bytes or more. -/
theorem readText_length {t s u : Bytes} (h : readText t s = some u) : s.length = t.length + u.length := by
  unfold readText at h
  split at h
  · rename_i hp
    cases h
    have := List.IsPrefix.length_le (List.isPrefixOf_iff_prefix.1 hp)
    rw [List.length_drop]
    omega
  · cases h

theorem readHex8_length {s u : Bytes} {n : Nat} (h : readHex8 s = some (n, u)) :
    s.length = 8 + u.length := by
  unfold readHex8 at h
  split at h
  · rename_i hp
    cases h
    have := hp.1
    rw [List.length_take] at this
    rw [List.length_drop]
    omega
  · cases h

theorem parseLine_length {s : Bytes} {e : Entry} (h : parseLine s = some e) : 51 ≤ s.length := by
  unfold parseLine at h
  simp only [Option.bind_eq_bind, Option.bind_eq_some_iff, Prod.exists] at h
  obtain ⟨s1, h1, n1, s2, h2, s3, h3, n2, s4, h4, s5, h5, n3, s6, h6, s7, h7, n4, s8, h8, s9, h9,
    n5, s10, h10, _⟩ := h
  have a1 := readText_length h1
  have a2 := readHex8_length h2
  have a3 := readText_length h3
  have a4 := readHex8_length h4
  have a5 := readText_length h5
  have a6 := readHex8_length h6
  have a7 := readText_length h7
  have a8 := readHex8_length h8
  have a9 := readText_length h9
  have a10 := readHex8_length h10
  simp only [List.length_cons, List.length_nil] at a1 a3 a5 a7 a9
  omega

/-- Splitting never gives the empty list. -/
theorem splitLines_ne (sep : Byte → Bool) (s : Bytes) : splitLines sep s ≠ [] := by
  cases s with
  | nil => simp [splitLines]
  | cons c s =>
    unfold splitLines
    split
    · simp
    · split <;> simp

theorem splitLines_clean (sep : Byte → Bool) (a s : Bytes) (ha : ∀ b ∈ a, sep b = false) :
    ∃ (l : Bytes) (ls : List Bytes), splitLines sep s = l :: ls ∧
      splitLines sep (a ++ s) = (a ++ l) :: ls := by
  induction a with
  | nil =>
    cases h : splitLines sep s with
    | nil => exact absurd h (splitLines_ne sep s)
    | cons l ls => exact ⟨l, ls, rfl, by simpa using h⟩
  | cons c a ih =>
    obtain ⟨l, ls, h1, h2⟩ := ih (fun b hb => ha b (List.mem_cons_of_mem _ hb))
    refine ⟨l, ls, h1, ?_⟩
    rw [List.cons_append, splitLines, if_neg (by rw [ha c (List.mem_cons_self ..)]; simp), h2]
    rfl

theorem splitLines_append_sep (sep : Byte → Bool) (a s : Bytes) (n : Nat) (hn : sep n = true) :
    splitLines sep (a ++ n :: s) = splitLines sep a ++ splitLines sep s := by
  induction a with
  | nil => simp [splitLines, hn]
  | cons c a ih =>
    rw [List.cons_append, splitLines, ih]
    by_cases hc : sep c = true
    · rw [if_pos hc, splitLines, if_pos hc]; rfl
    · rw [if_neg hc, splitLines, if_neg hc]
      cases h : splitLines sep a with
      | nil => exact absurd h (splitLines_ne sep a)
      | cons l ls => rfl

theorem splitLines_short (sep : Byte → Bool) (s : Bytes) :
    ∀ l ∈ splitLines sep s, l.length ≤ s.length := by
  induction s with
  | nil => intro l hl; simp [splitLines] at hl; simp [hl]
  | cons c s ih =>
    intro l hl
    unfold splitLines at hl
    split at hl
    · rw [List.mem_cons] at hl
      rcases hl with rfl | hl
      · simp
      · have := ih l hl; simp; omega
    · cases h : splitLines sep s with
      | nil => exact absurd h (splitLines_ne sep s)
      | cons l₀ ls =>
        rw [h] at hl
        rw [h] at ih
        rw [List.mem_cons] at hl
        rcases hl with rfl | hl
        · have := ih l₀ (List.mem_cons_self ..); simp; omega
        · have := ih l (List.mem_cons_of_mem _ hl); simp; omega

theorem script_short (sep : Byte → Bool) (s : Bytes) (hs : s.length < 51) : script sep s = [] := by
  unfold script
  rw [List.filterMap_eq_nil_iff]
  intro l hl
  cases h : parseLine l with
  | none => rfl
  | some e =>
    have := parseLine_length h
    have := splitLines_short sep s l hl
    omega

/-- What the script reads in the part of a line behind the registers is one entry, whatever bytes the
text between the brackets has. -/
theorem script_line (sep : Byte → Bool) (hs : LineEnds sep) (n : Nat) (r : Regs) (hn : n < U32)
    (hr : Wide32 r) (t : Bytes) (ht : t.length < 51) (rest : Bytes)
    (hh : ∀ b ∈ lineHead n r, sep b = false) :
    ∃ x : Nat, script sep (lineHead n r ++ t ++ 10 :: rest) = ⟨n, x, r⟩ :: script sep rest ∧
      ((∀ b ∈ t, sep b = false) → x = subLeaf t) := by
  unfold script
  rw [splitLines_append_sep sep _ rest 10 hs.1, List.filterMap_append]
  obtain ⟨l, ls, h1, h2⟩ := splitLines_clean sep (lineHead n r) t hh
  rw [h2, List.filterMap_cons, parseLine_head n r l hn hr]
  have hls : ls.filterMap parseLine = [] := by
    rw [List.filterMap_eq_nil_iff]
    intro k hk
    cases h : parseLine k with
    | none => rfl
    | some e =>
      have := parseLine_length h
      have := splitLines_short sep t k (by rw [h1]; exact List.mem_cons_of_mem _ hk)
      omega
  refine ⟨subLeaf l, by rw [hls]; rfl, fun hc => ?_⟩
  obtain ⟨l', ls', e1, e2⟩ := splitLines_clean sep t [] hc
  rw [List.append_nil, h1] at e2
  have e3 : l' = [] := by
    simp only [splitLines] at e1
    injection e1 with e1 _
    exact e1.symm
  injection e2 with e2 _
  rw [e2, e3, List.append_nil]

theorem hexUp8_plain (n : Nat) : ∀ b ∈ hexUp8 n, 32 ≤ b ∧ b ≤ 126 := by
  have key : ∀ d : Nat, d < 16 → 32 ≤ upDigit d ∧ upDigit d ≤ 126 := by decide
  intro b hb
  unfold hexUp8 at hb
  obtain ⟨d, hd, rfl⟩ := List.mem_map.1 hb
  refine key d ?_
  simp only [List.mem_cons, List.not_mem_nil, or_false] at hd
  omega

theorem lineHead_plain (n : Nat) (r : Regs) : ∀ b ∈ lineHead n r, 32 ≤ b ∧ b ≤ 126 := by
  intro b hb
  unfold lineHead at hb
  simp only [List.mem_append] at hb
  have lit : ∀ t : Bytes, (∀ b ∈ t, 32 ≤ b ∧ b ≤ 126) → b ∈ t → 32 ≤ b ∧ b ≤ 126 := fun t h hb => h b hb
  rcases hb with (((((((((h | h) | h) | h) | h) | h) | h) | h) | h) | h)
  · exact lit _ (by decide) h
  · exact hexUp8_plain _ b h
  · exact lit _ (by decide) h
  · exact hexUp8_plain _ b h
  · exact lit _ (by decide) h
  · exact hexUp8_plain _ b h
  · exact lit _ (by decide) h
  · exact hexUp8_plain _ b h
  · exact lit _ (by decide) h
  · exact hexUp8_plain _ b h

theorem hexUp2_plain (e : Nat) (he : e < U32) : (∀ b ∈ hexUp2 e, 32 ≤ b ∧ b ≤ 126) ∧ (hexUp2 e).length ≤ 8 := by
  have key : ∀ d : Nat, d < 16 → 32 ≤ upDigit d ∧ upDigit d ≤ 126 := by decide
  unfold hexUp2
  split
  · refine ⟨fun b hb => ?_, by simp⟩
    obtain ⟨d, hd, rfl⟩ := List.mem_map.1 hb
    refine key d ?_
    simp only [List.mem_cons, List.not_mem_nil, or_false] at hd
    omega
  · refine ⟨fun b hb => hexUp8_plain e b (List.IsSuffix.mem hb (List.dropWhile_suffix _)), ?_⟩
    exact List.IsSuffix.length_le (List.dropWhile_suffix (l := hexUp8 e) (· == 48))

/-- A sub-leaf with two decimal digits is read back. -/
theorem subLeaf_decimal (e : Nat) (he : Decimal2 e) :
    subLeaf (b!" [SL " ++ hexUp2 e ++ b!"]") = e := by
  obtain ⟨h1, h2⟩ := he
  have h3 : e < 256 := by omega
  unfold hexUp2
  rw [if_pos h3]
  have d1 : upDigit (e / 16) = 48 + e / 16 := by unfold upDigit; rw [if_pos h1]
  have d2 : upDigit (e % 16) = 48 + e % 16 := by unfold upDigit; rw [if_pos h2]
  simp only [List.map_cons, List.map_nil, d1, d2]
  have e1 : (b!" [SL " ++ [48 + e / 16, 48 + e % 16] ++ b!"]").dropWhile isSpace =
      b!"[SL " ++ [48 + e / 16, 48 + e % 16, 93] := by
    simp [isSpace, List.dropWhile]
  unfold subLeaf
  rw [e1, readText_append]
  dsimp only
  rw [if_pos ⟨⟨by omega, by omega⟩, ⟨by omega, by omega⟩, rfl⟩]
  omega

/-- Other sub-leaves are read as sub-leaf 0. -/
theorem subLeaf_other (e : Nat) (he : ¬ Decimal2 e) (h32 : e < U32) :
    subLeaf (b!" [SL " ++ hexUp2 e ++ b!"]") = 0 := by
  have e1 : (b!" [SL " ++ hexUp2 e ++ b!"]").dropWhile isSpace = b!"[SL " ++ (hexUp2 e ++ [93]) := by
    simp [isSpace, List.dropWhile]
  unfold subLeaf
  rw [e1, readText_append]
  by_cases h3 : e < 256
  · unfold hexUp2
    rw [if_pos h3]
    simp only [List.map_cons, List.map_nil, List.cons_append, List.nil_append]
    rw [if_neg]
    rintro ⟨⟨_, a⟩, ⟨_, b⟩, _⟩
    refine he ⟨?_, ?_⟩
    · unfold upDigit at a; split at a <;> omega
    · unfold upDigit at b; split at b <;> omega
  · -- three digits or more: the third is no bracket
    have key : ∀ d : Nat, d < 16 → upDigit d ≠ 93 := by decide
    have hdig : ∀ b ∈ hexUp2 e, b ≠ 93 := by
      intro b hb
      unfold hexUp2 at hb
      rw [if_neg h3] at hb
      have hb := List.IsSuffix.mem hb (List.dropWhile_suffix _)
      unfold hexUp8 at hb
      obtain ⟨d, hd, rfl⟩ := List.mem_map.1 hb
      refine key d ?_
      simp only [List.mem_cons, List.not_mem_nil, or_false] at hd
      omega
    have hlen : 3 ≤ (hexUp2 e).length := by
      unfold hexUp2
      rw [if_neg h3]
      have z : ∀ d : Nat, d < 16 → (upDigit d = 48 ↔ d = 0) := by decide
      by_cases hz : e / 0x100 % 16 = 0 ∧ e / 0x1000 % 16 = 0 ∧ e / 0x10000 % 16 = 0 ∧
          e / 0x100000 % 16 = 0 ∧ e / 0x1000000 % 16 = 0 ∧ e / 0x10000000 % 16 = 0
      · omega
      · have sub3 : ∀ (p q : Bytes) (x : Nat), x ∈ p → x ≠ 48 → 2 ≤ q.length →
            3 ≤ ((p ++ q).dropWhile (· == 48)).length := by
          intro p q x hx hne hq
          induction p with
          | nil => cases hx
          | cons y p ih =>
            rw [List.cons_append, List.dropWhile_cons]
            by_cases hy : y = 48
            · rw [if_pos (by simp [hy])]
              rcases List.mem_cons.1 hx with rfl | hx
              · exact absurd hy hne
              · exact ih hx
            · rw [if_neg (by simp [hy])]
              simp
              omega
        have split8 : hexUp8 e = [e / 0x10000000 % 16, e / 0x1000000 % 16, e / 0x100000 % 16,
            e / 0x10000 % 16, e / 0x1000 % 16, e / 0x100 % 16].map upDigit ++
            [e / 16 % 16, e % 16].map upDigit := rfl
        rw [split8]
        have ex : ∃ d : Nat, d ∈ [e / 0x10000000 % 16, e / 0x1000000 % 16, e / 0x100000 % 16,
            e / 0x10000 % 16, e / 0x1000 % 16, e / 0x100 % 16] ∧ d < 16 ∧ d ≠ 0 := by
          by_cases a1 : e / 0x10000000 % 16 = 0
          · by_cases a2 : e / 0x1000000 % 16 = 0
            · by_cases a3 : e / 0x100000 % 16 = 0
              · by_cases a4 : e / 0x10000 % 16 = 0
                · by_cases a5 : e / 0x1000 % 16 = 0
                  · exact ⟨e / 0x100 % 16, by simp, Nat.mod_lt _ (by omega), by omega⟩
                  · exact ⟨_, by simp, Nat.mod_lt _ (by omega), a5⟩
                · exact ⟨_, by simp, Nat.mod_lt _ (by omega), a4⟩
              · exact ⟨_, by simp, Nat.mod_lt _ (by omega), a3⟩
            · exact ⟨_, by simp, Nat.mod_lt _ (by omega), a2⟩
          · exact ⟨_, by simp, Nat.mod_lt _ (by omega), a1⟩
        obtain ⟨d, hd, hd16, hd0⟩ := ex
        exact sub3 _ _ (upDigit d) (List.mem_map.2 ⟨d, hd, rfl⟩) (fun h => hd0 ((z d hd16).1 h)) (by simp)
    match h : hexUp2 e, hlen, hdig with
    | a :: b :: c :: t, _, hdig =>
      simp only [List.cons_append]
      rw [if_neg]
      rintro ⟨_, _, h⟩
      exact hdig c (by simp) h

end Verif.CpuidDump
