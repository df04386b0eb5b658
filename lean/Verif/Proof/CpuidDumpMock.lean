import Verif.Proof.CpuidDumpLines
import Verif.Model.X86Isa
import Verif.Model.X86Name

/-!
# A dump given to the mock build answers like the processor
-/

set_option autoImplicit false

namespace Verif.CpuidDump
open X86Cpuid (Regs Cpuid Caches)
open X86Init (Topology)

/-- The entry that the script writes for a line. -/
def EntryOf (i : Item) (e : Entry) : Prop :=
  e.inEax = i.leaf ∧ e.regs = i.regs ∧
    match i with
    | .plain _ _ => e.inEcx = 0
    | .sub _ x _ => (Decimal2 x → e.inEcx = x) ∧ (¬ Decimal2 x → e.inEcx = 0)
    | .vendor _ _ | .brand _ _ => True

/-- A table with one entry for every line. -/
inductive Rows : List Item → List Entry → Prop
  | nil : Rows [] []
  | cons {i : Item} {e : Entry} {l : List Item} {d : List Entry} : EntryOf i e → Rows l d →
      Rows (i :: l) (e :: d)

theorem takeWhile_short {p : Nat → Bool} (l : Bytes) : (l.takeWhile p).length ≤ l.length :=
  List.IsPrefix.length_le (List.takeWhile_prefix p)

theorem script_item (sep : Byte → Bool) (hs : LineEnds sep) (i : Item) (hl : i.leaf < U32)
    (he : i.ecx < U32) (hr : Wide32 i.regs) (rest : Bytes) :
    ∃ e : Entry, EntryOf i e ∧ script sep (i.text ++ rest) = e :: script sep rest := by
  have hh : ∀ (n : Nat) (r : Regs), ∀ b ∈ lineHead n r, sep b = false :=
    fun n r b hb => hs.2 b (lineHead_plain n r b hb).1 (lineHead_plain n r b hb).2
  have plain : ∀ (n : Nat) (r : Regs), n < U32 → Wide32 r →
      script sep (lineHead n r ++ [10] ++ rest) = ⟨n, 0, r⟩ :: script sep rest := by
    intro n r hn hr
    obtain ⟨x, h1, h2⟩ := script_line sep hs n r hn hr [] (by simp) rest (hh n r)
    have : x = 0 := h2 (fun b hb => by cases hb)
    subst this
    rw [List.append_assoc]
    rw [List.append_nil] at h1
    exact h1
  have text : ∀ (n : Nat) (r : Regs) (t : Bytes), n < U32 → Wide32 r → t.length < 40 →
      ∃ x : Nat, script sep (lineHead n r ++ b!" [" ++ t ++ b!"]" ++ [10] ++ rest) =
        ⟨n, x, r⟩ :: script sep rest := by
    intro n r t hn hr ht
    obtain ⟨x, h1, _⟩ := script_line sep hs n r hn hr (b!" [" ++ t ++ b!"]")
      (by simp only [List.length_append, List.length_cons, List.length_nil]; omega) rest (hh n r)
    refine ⟨x, ?_⟩
    rw [← h1]
    simp only [List.append_assoc, List.cons_append, List.nil_append]
  cases i with
  | plain n r => exact ⟨⟨n, 0, r⟩, ⟨rfl, rfl, rfl⟩, plain n r hl hr⟩
  | sub n x r =>
    obtain ⟨y, h1, h2⟩ := script_line sep hs n r hl hr (b!" [SL " ++ hexUp2 x ++ b!"]")
      (by
        have := (hexUp2_plain x he).2
        simp only [List.length_append, List.length_cons, List.length_nil]; omega) rest (hh n r)
    have hy := h2 (by
      intro b hb
      simp only [List.mem_append] at hb
      have lit : ∀ t : Bytes, (∀ b ∈ t, 32 ≤ b ∧ b ≤ 126) → b ∈ t → sep b = false :=
        fun t h hb => hs.2 b (h b hb).1 (h b hb).2
      rcases hb with (hb | hb) | hb
      · exact lit _ (by decide) hb
      · exact lit _ (hexUp2_plain x he).1 hb
      · exact lit _ (by decide) hb)
    refine ⟨⟨n, y, r⟩, ⟨rfl, rfl, fun hd => ?_, fun hd => ?_⟩, ?_⟩
    · rw [hy]; exact subLeaf_decimal x hd
    · rw [hy]; exact subLeaf_other x hd he
    · rw [← h1]
      simp only [Item.text, List.append_assoc, List.cons_append, List.nil_append]
  | vendor n r =>
    by_cases hz : r.ebx ||| r.ecx ||| r.edx ≠ 0
    · obtain ⟨x, h⟩ := text n r (vendorText r) hl hr (by
        have := takeWhile_short (p := (· != 0)) (X86Cpuid.regBytes r.ebx ++ X86Cpuid.regBytes r.edx ++ X86Cpuid.regBytes r.ecx)
        unfold vendorText
        simp only [X86Cpuid.regBytes, List.length_append, List.length_cons, List.length_nil] at this ⊢
        omega)
      have ht : (Item.vendor n r).text = lineHead n r ++ b!" [" ++ vendorText r ++ b!"]" ++ [10] := if_pos hz
      rw [ht]
      exact ⟨⟨n, x, r⟩, ⟨rfl, rfl, trivial⟩, h⟩
    · have ht : (Item.vendor n r).text = lineHead n r ++ [10] := if_neg hz
      rw [ht]
      exact ⟨⟨n, 0, r⟩, ⟨rfl, rfl, trivial⟩, plain n r hl hr⟩
  | brand n r =>
    obtain ⟨x, h⟩ := text n r (brandText r) hl hr (by
      have := takeWhile_short (p := (· != 0))
        (X86Cpuid.regBytes r.eax ++ X86Cpuid.regBytes r.ebx ++ X86Cpuid.regBytes r.ecx ++ X86Cpuid.regBytes r.edx)
      unfold brandText
      simp only [X86Cpuid.regBytes, List.length_append, List.length_cons, List.length_nil] at this ⊢
      omega)
    have ht : (Item.brand n r).text = lineHead n r ++ b!" [" ++ brandText r ++ b!"]" ++ [10] := rfl
    rw [ht]
    exact ⟨⟨n, x, r⟩, ⟨rfl, rfl, trivial⟩, h⟩

theorem script_output (sep : Byte → Bool) (hs : LineEnds sep) (l : List Item)
    (hl : ∀ i ∈ l, i.leaf < U32 ∧ i.ecx < U32 ∧ Wide32 i.regs) :
    Rows l (script sep (output l)) := by
  induction l with
  | nil =>
    have : script sep (output []) = [] := script_short sep _ (by simp [output])
    rw [this]
    exact Rows.nil
  | cons i l ih =>
    obtain ⟨h1, h2, h3⟩ := hl i (List.mem_cons_self ..)
    obtain ⟨e, he, hsc⟩ := script_item sep hs i h1 h2 h3 (output l)
    have : output (i :: l) = i.text ++ output l := by simp [output]
    rw [this, hsc]
    exact Rows.cons he (ih fun j hj => hl j (List.mem_cons_of_mem _ hj))

/-! ## Looking up -/

theorem leaf_found {l : List Item} {d : List Entry} (h : Rows l d) {n : Nat} {r : Regs}
    (hn : n ≠ 4) (hex : ∃ i ∈ l, i.leaf = n) (hall : ∀ i ∈ l, i.leaf = n → i.regs = r) :
    (mockCpuid d 0 n).1 = r := by
  unfold mockCpuid
  rw [if_neg hn]
  have key : ∃ e : Entry, (d.find? fun e => e.inEax == n) = some e ∧ e.regs = r := by
    induction h with
    | nil => obtain ⟨i, hi, _⟩ := hex; cases hi
    | @cons i e l d he _ ih =>
      rw [List.find?_cons]
      by_cases hin : i.leaf = n
      · have : (e.inEax == n) = true := by rw [he.1, hin]; simp
        rw [this]
        exact ⟨e, rfl, by rw [he.2.1]; exact hall i (List.mem_cons_self ..) hin⟩
      · have : (e.inEax == n) = false := by rw [he.1]; simpa using hin
        rw [this]
        refine ih ?_ fun j hj => hall j (List.mem_cons_of_mem _ hj)
        obtain ⟨j, hj, hjn⟩ := hex
        rcases List.mem_cons.1 hj with rfl | hj
        · exact absurd hjn hin
        · exact ⟨j, hj, hjn⟩
  obtain ⟨e, h1, h2⟩ := key
  rw [h1]
  exact h2

theorem leaf_absent {l : List Item} {d : List Entry} (h : Rows l d) {n : Nat}
    (hn : n ≠ 4) (hall : ∀ i ∈ l, i.leaf ≠ n) : (mockCpuid d 0 n).1 = ⟨0, 0, 0, 0⟩ := by
  unfold mockCpuid
  rw [if_neg hn]
  have key : (d.find? fun e => e.inEax == n) = none := by
    induction h with
    | nil => rfl
    | @cons i e l d he _ ih =>
      rw [List.find?_cons]
      have : (e.inEax == n) = false := by rw [he.1]; simpa using hall i (List.mem_cons_self ..)
      rw [this]
      exact ih fun j hj => hall j (List.mem_cons_of_mem _ hj)
  rw [key]

/-- The line gives a sub-leaf number, or none and no text. -/
def Item.Plain : Item → Prop
  | .plain _ _ | .sub _ _ _ => True
  | .vendor _ _ | .brand _ _ => False

theorem entry_ecx {i : Item} {e : Entry} (h : EntryOf i e) (hp : i.Plain) (hd : Decimal2 i.ecx) :
    e.inEcx = i.ecx := by
  cases i with
  | plain n r => exact h.2.2
  | sub n x r => exact h.2.2.1 hd
  | vendor n r => cases hp
  | brand n r => cases hp

theorem decimal2_small {e : Nat} (h : e ≤ 9) : Decimal2 e := ⟨by omega, by omega⟩

theorem sub_found {l : List Item} {d : List Entry} (h : Rows l d)
    (ho : l.Pairwise Item.Before) {n x : Nat} (hx : x ≤ 9) (hp : ∀ i ∈ l, i.leaf = n → i.Plain)
    {i : Item} (hi : i ∈ l) (hl : i.leaf = n) (hix : i.ecx = x) : mockCpuidex d n x = i.regs := by
  unfold mockCpuidex
  have key : ∃ e : Entry, (d.find? fun e => e.inEax == n && e.inEcx == x) = some e ∧ e.regs = i.regs := by
    induction h with
    | nil => cases hi
    | @cons j e l d he _ ih =>
      rw [List.find?_cons]
      rw [List.pairwise_cons] at ho
      rcases List.mem_cons.1 hi with rfl | hi
      · have h1 : e.inEcx = x := by
          rw [entry_ecx he (hp i (List.mem_cons_self ..) hl) (by rw [hix]; exact decimal2_small hx), hix]
        have : (e.inEax == n && e.inEcx == x) = true := by rw [he.1, hl, h1]; simp
        rw [this]
        exact ⟨e, rfl, he.2.1⟩
      · have : (e.inEax == n && e.inEcx == x) = false := by
          rcases ho.1 i hi with hb | ⟨hb, hb'⟩
          · have : e.inEax ≠ n := by rw [he.1]; omega
            simp [this]
          · have h1 : e.inEcx = j.ecx := entry_ecx he (hp j (List.mem_cons_self ..) (by omega))
              (decimal2_small (by omega))
            have : e.inEcx ≠ x := by rw [h1]; omega
            simp [this]
        rw [this]
        exact ih ho.2 (fun k hk => hp k (List.mem_cons_of_mem _ hk)) hi
  obtain ⟨e, h1, h2⟩ := key
  rw [h1]
  exact h2

theorem sub_absent {l : List Item} {d : List Entry} (h : Rows l d) {n x : Nat}
    (hall : ∀ i ∈ l, i.leaf = n → i.Plain ∧ Decimal2 i.ecx ∧ i.ecx ≠ x) :
    mockCpuidex d n x = ⟨0, 0, 0, 0⟩ := by
  unfold mockCpuidex
  have key : (d.find? fun e => e.inEax == n && e.inEcx == x) = none := by
    induction h with
    | nil => rfl
    | @cons i e l d he _ ih =>
      rw [List.find?_cons]
      have : (e.inEax == n && e.inEcx == x) = false := by
        by_cases hin : i.leaf = n
        · obtain ⟨h1, h2, h3⟩ := hall i (List.mem_cons_self ..) hin
          have : e.inEcx ≠ x := by rw [entry_ecx he h1 h2]; exact h3
          simp [this]
        · have : e.inEax ≠ n := by rw [he.1]; exact hin
          simp [this]
      rw [this]
      exact ih fun j hj => hall j (List.mem_cons_of_mem _ hj)
  rw [key]

/-! ## The answers that detection asks for -/

/-- The setting: a dump of a regular processor, and the table made from it. -/
structure Setting (c : Cpuid) (l : List Item) (d : List Entry) : Prop where
  reg : Regular c
  dumped : ∃ fuel : Nat, dump c fuel = some l
  table : Rows l d
  short : l.length < U32

section
variable {c : Cpuid} {l : List Item} {d : List Entry}

theorem rows_length (h : Rows l d) : l.length = d.length := by
  induction h with
  | nil => rfl
  | cons _ _ ih => simp [ih]

theorem Setting.data (s : Setting c l d) : d.take (d.length % U32) = d := by
  have h1 := rows_length s.table
  have h2 := s.short
  rw [Nat.mod_eq_of_lt (by omega), List.take_length]

theorem Setting.leaf_eq (s : Setting c l d) (n : Nat) : (mocked d).leaf n = (mockCpuid d 0 n).1 := by
  unfold mocked
  dsimp only
  rw [s.data]

theorem Setting.sub_eq (s : Setting c l d) (n e : Nat) : (mocked d).sub n e = mockCpuidex d n e := by
  unfold mocked
  dsimp only
  rw [s.data]

theorem Setting.leaf2_eq (s : Setting c l d) (k : Nat) : (mocked d).leaf2 k = (mockCpuid d 0 2).1 := by
  unfold mocked
  dsimp only
  rw [s.data]

theorem Setting.ordered (s : Setting c l d) : l.Pairwise Item.Before := by
  obtain ⟨f, hf⟩ := s.dumped
  exact dump_ordered hf s.reg.base

theorem Setting.tells (s : Setting c l d) {i : Item} (hi : i ∈ l) : i.Correct c ∧ HasLeaf c i.leaf := by
  obtain ⟨f, hf⟩ := s.dumped
  exact ⟨(dump_true hf hi).1, (dump_true hf hi).2.1⟩

/-- Only the leaves 0 and 0x80000000 have a vendor text, only 0x80000002-4 a brand text. -/
theorem Setting.texts (s : Setting c l d) {i : Item} (hi : i ∈ l) (h0 : i.leaf ≠ 0)
    (h1 : i.leaf ≠ 0x80000000) (h2 : i.leaf ≠ 0x80000002) (h3 : i.leaf ≠ 0x80000003)
    (h4 : i.leaf ≠ 0x80000004) : i.Plain := by
  obtain ⟨f, hf⟩ := s.dumped
  obtain ⟨_, _, g, hg, rfl⟩ := dump_some hf
  rw [List.mem_append, List.mem_flatMap, List.mem_map] at hi
  rcases hi with ⟨m, hm, hi⟩ | ⟨m, hm, rfl⟩
  · rw [List.mem_range'_1] at hm
    have hl := hg m (by omega)
    have hm0 := (leaf_mem hl hi).1
    rcases leaf_cases hl with ⟨_, he⟩ | he | ⟨k, _, he⟩
    · omega
    · rw [he, List.mem_singleton] at hi
      subst hi; trivial
    · rw [he] at hi
      obtain ⟨e, _, _, rfl⟩ := mem_subs.1 hi
      trivial
  · rw [(extLeaf_leaf c m).1] at h0 h1 h2 h3 h4
    unfold extLeaf
    rw [if_neg h1, if_neg (by omega)]
    trivial

/-- Leaf 0 and the extended leaves with a text. -/
theorem Setting.leaf0 (s : Setting c l d) : (mocked d).leaf 0 = c.leaf 0 := by
  rw [s.leaf_eq]
  obtain ⟨f, hf⟩ := s.dumped
  obtain ⟨l', h1, h2⟩ := mem_iff hf (Nat.zero_le _) s.reg.base
  simp only [Leaf] at h1
  rw [if_pos trivial] at h1
  subst h1
  refine leaf_found s.table (by omega) ⟨.vendor 0 (c.leaf 0), (h2 _ rfl).2 (by simp), rfl⟩ fun i hi h0 => ?_
  have := (h2 i h0).1 hi
  rw [List.mem_singleton] at this
  subst this; rfl

theorem Setting.ext (s : Setting c l d) {n : Nat} (h0 : 0x80000000 ≤ n)
    (hn : n ≤ (c.leaf 0x80000000).eax) : (mocked d).leaf n = (extLeaf c n).regs := by
  rw [s.leaf_eq]
  obtain ⟨f, hf⟩ := s.dumped
  refine leaf_found s.table (by omega) ⟨_, mem_ext hf h0 hn, (extLeaf_leaf c n).1⟩ fun i hi hl => ?_
  obtain ⟨_, _, g, hg, rfl⟩ := dump_some hf
  have hb := s.reg.base
  rw [List.mem_append, List.mem_flatMap, List.mem_map] at hi
  rcases hi with ⟨m, hm, hi⟩ | ⟨m, hm, rfl⟩
  · rw [List.mem_range'_1] at hm
    have := (leaf_mem (hg m (by omega)) hi).1
    omega
  · rw [(extLeaf_leaf c m).1] at hl
    rw [hl]

theorem Setting.absent (s : Setting c l d) {n : Nat} (h : ¬ HasLeaf c n) (hn : n ≠ 4) :
    (mocked d).leaf n = ⟨0, 0, 0, 0⟩ := by
  rw [s.leaf_eq]
  refine leaf_absent s.table hn fun i hi hl => h ?_
  rw [← hl]
  exact (s.tells hi).2

theorem Setting.subAbsentLeaf (s : Setting c l d) {n : Nat} (h : ¬ HasLeaf c n) (e : Nat) :
    (mocked d).sub n e = ⟨0, 0, 0, 0⟩ := by
  rw [s.sub_eq]
  refine sub_absent s.table fun i hi hl => absurd ?_ h
  rw [← hl]
  exact (s.tells hi).2

/-- A basic leaf with one line. -/
theorem Setting.single (s : Setting c l d) {n : Nat} (hn : n ≤ (c.leaf 0).eax)
    (hs : n ≠ 0 ∧ n ≠ 4 ∧ n ≠ 0xB ∧ n ≠ 0x12 ∧ n ≠ 7 ∧ n ≠ 0x14 ∧ n ≠ 0x17 ∧ n ≠ 0x24) :
    (mocked d).leaf n = c.sub n 0 ∧ (mocked d).sub n 0 = c.sub n 0 := by
  obtain ⟨f, hf⟩ := s.dumped
  have hb := s.reg.base
  obtain ⟨l', h1, h2⟩ := mem_iff hf hn hb
  unfold Leaf at h1
  rw [if_neg (by omega), if_neg (by omega), if_neg (by omega), if_neg (by omega), if_neg (by omega)] at h1
  subst h1
  have hm : Item.plain n (c.sub n 0) ∈ l := (h2 _ rfl).2 (by simp)
  refine ⟨?_, ?_⟩
  · rw [s.leaf_eq]
    refine leaf_found s.table hs.2.1 ⟨_, hm, rfl⟩ fun i hi hl => ?_
    have := (h2 i hl).1 hi
    rw [List.mem_singleton] at this
    subst this; rfl
  · rw [s.sub_eq]
    refine sub_found s.table s.ordered (by omega) (fun i hi hl => ?_) hm rfl rfl
    exact s.texts hi (by omega) (by omega) (by omega) (by omega) (by omega)

/-- A leaf with a list of sub-leaves. -/
theorem Setting.listed (s : Setting c l d) {n k : Nat} (hn : n ≤ (c.leaf 0).eax) (hn0 : n ≠ 0)
    (huniq : ∀ l' : List Item, Leaf c n l' → l' = subs n (c.sub n) 0 k) :
    (∀ e : Nat, e < k → e ≤ 9 → (mocked d).sub n e = c.sub n e) ∧
    (∀ e : Nat, k ≤ e → k ≤ 10 → (mocked d).sub n e = ⟨0, 0, 0, 0⟩) := by
  obtain ⟨f, hf⟩ := s.dumped
  have hb := s.reg.base
  obtain ⟨l', h1, h2⟩ := mem_iff hf hn hb
  rw [huniq l' h1] at h2
  refine ⟨fun e he h9 => ?_, fun e he h10 => ?_⟩
  · rw [s.sub_eq]
    have hm : Item.sub n e (c.sub n e) ∈ l := (h2 _ rfl).2 (mem_subs.2 ⟨e, by omega, by omega, rfl⟩)
    refine sub_found s.table s.ordered h9 (fun i hi hl => ?_) hm rfl rfl
    exact s.texts hi (by omega) (by omega) (by omega) (by omega) (by omega)
  · rw [s.sub_eq]
    refine sub_absent s.table fun i hi hl => ?_
    obtain ⟨x, _, hx, rfl⟩ := mem_subs.1 ((h2 i hl).1 hi)
    exact ⟨trivial, decimal2_small (by simp only [Item.ecx]; omega), by simp only [Item.ecx]; omega⟩

theorem first_unique {p : Nat → Prop} {a b : Nat} (ha : First p a) (hb : First p b) : a = b := by
  rcases Nat.lt_trichotomy a b with h | h | h
  · exact absurd ha.1 (hb.2 a h)
  · exact h
  · exact absurd hb.1 (ha.2 b h)

theorem first_exists {p : Nat → Prop} [DecidablePred p] {k : Nat} (h : p k) :
    ∃ m : Nat, m ≤ k ∧ First p m := by
  induction k using Nat.strongRecOn with
  | ind k ih =>
    by_cases hj : ∃ j : Nat, j < k ∧ p j
    · obtain ⟨j, hj, hp⟩ := hj
      obtain ⟨m, hm, hf⟩ := ih j hj hp
      exact ⟨m, by omega, hf⟩
    · exact ⟨k, Nat.le_refl _, h, fun j hj' hp => hj ⟨j, hj', hp⟩⟩

theorem Setting.sub4 (s : Setting c l d) (h4 : 4 ≤ (c.leaf 0).eax) :
    ∃ k : Nat, k ≤ 10 ∧ (c.sub 4 k).eax &&& 0x1F = 0 ∧ ((mocked d).sub 4 k).eax &&& 0x1F = 0 ∧
      ∀ j : Nat, j < k → (mocked d).sub 4 j = c.sub 4 j := by
  obtain ⟨k₀, hk₀, hp⟩ := s.reg.leaf4 h4
  obtain ⟨k, hk, hF⟩ := first_exists (p := fun j => (c.sub 4 j).eax &&& 0x1F = 0) hp
  obtain ⟨a, b⟩ := s.listed h4 (by omega) (k := k) (fun l' hl' => by
    unfold Leaf at hl'
    rw [if_neg (by omega), if_pos rfl] at hl'
    obtain ⟨k', _, hF', rfl⟩ := hl'
    rw [first_unique hF' hF])
  exact ⟨k, by omega, hF.1, by rw [b k (Nat.le_refl _) (by omega)]; rfl, fun j hj => a j hj (by omega)⟩

theorem Setting.subB (s : Setting c l d) (hB : 0xB ≤ (c.leaf 0).eax) :
    ∃ k : Nat, k ≤ 10 ∧ (c.sub 0xB k).ecx &&& 0xFF00 = 0 ∧ ((mocked d).sub 0xB k).ecx &&& 0xFF00 = 0 ∧
      ∀ j : Nat, j < k → (mocked d).sub 0xB j = c.sub 0xB j := by
  obtain ⟨k₀, hk₀, hp⟩ := s.reg.leafB hB
  obtain ⟨k, hk, hF⟩ := first_exists (p := fun j => (c.sub 0xB j).ecx &&& 0xFF00 = 0) hp
  obtain ⟨a, b⟩ := s.listed hB (by omega) (k := k) (fun l' hl' => by
    unfold Leaf at hl'
    rw [if_neg (by omega), if_neg (by omega), if_pos rfl] at hl'
    obtain ⟨k', _, hF', rfl⟩ := hl'
    rw [first_unique hF' hF])
  exact ⟨k, by omega, hF.1, by rw [b k (Nat.le_refl _) (by omega)]; rfl, fun j hj => a j hj (by omega)⟩

theorem Setting.counted (s : Setting c l d) {n : Nat} (hc : n = 7 ∨ n = 0x14 ∨ n = 0x17 ∨ n = 0x24)
    (hn : n ≤ (c.leaf 0).eax) :
    (∀ e : Nat, e ≤ (c.sub n 0).eax → e ≤ 9 → (mocked d).sub n e = c.sub n e) ∧
    (∀ e : Nat, (c.sub n 0).eax < e → (c.sub n 0).eax ≤ 9 → (mocked d).sub n e = ⟨0, 0, 0, 0⟩) := by
  obtain ⟨f, hf⟩ := s.dumped
  have he := (ends_of_dump hf).counted n hc hn
  obtain ⟨a, b⟩ := s.listed hn (by omega) (k := (c.sub n 0).eax + 1) (fun l' hl' => by
    unfold Leaf at hl'
    rw [if_neg (by omega), if_neg (by omega), if_neg (by omega), if_neg (by omega), if_pos hc] at hl'
    exact hl'.2)
  exact ⟨fun e h1 h2 => a e (by omega) h2, fun e h1 h2 => b e (by omega) (by omega)⟩

theorem Setting.maxExt (s : Setting c l d) :
    X86Cpuid.maxExtendedIndex (mocked d) = X86Cpuid.maxExtendedIndex c := by
  unfold X86Cpuid.maxExtendedIndex
  by_cases h : (c.leaf 0x80000000).eax ≥ 0x80000000
  · have : (mocked d).leaf 0x80000000 = c.leaf 0x80000000 := by
      rw [s.ext (by omega) h]
      simp [extLeaf, Item.regs]
    rw [this]
  · have hb := s.reg.base
    rw [s.absent (n := 0x80000000) (by unfold HasLeaf; omega) (by omega), if_neg h, if_neg (by simp)]

theorem Setting.extPlain (s : Setting c l d) {n : Nat} (hn : n = 0x80000001 ∨ n = 0x80000008)
    (h : X86Cpuid.maxExtendedIndex c ≥ n) : (mocked d).leaf n = c.leaf n := by
  have hm : n ≤ (c.leaf 0x80000000).eax := by
    unfold X86Cpuid.maxExtendedIndex at h
    split at h <;> omega
  rw [s.ext (by omega) hm, s.reg.same n (Or.inr hn)]
  unfold extLeaf
  rw [if_neg (by omega), if_neg (by omega)]
  rfl

theorem Setting.extBrand (s : Setting c l d) {n : Nat}
    (hn : n = 0x80000002 ∨ n = 0x80000003 ∨ n = 0x80000004)
    (h : X86Cpuid.maxExtendedIndex c ≥ 0x80000004) : (mocked d).leaf n = c.leaf n := by
  have hm : 0x80000004 ≤ (c.leaf 0x80000000).eax := by
    unfold X86Cpuid.maxExtendedIndex at h
    split at h <;> omega
  rw [s.ext (by omega) (by omega)]
  unfold extLeaf
  rw [if_neg (by omega), if_pos hn]
  rfl

theorem Setting.extInfo (s : Setting c l d) :
    X86Cpuid.extendedInfo (mocked d) = X86Cpuid.extendedInfo c := by
  unfold X86Cpuid.extendedInfo
  rw [s.maxExt]
  split
  · rename_i h; exact s.extPlain (Or.inl rfl) h
  · rfl

/-- Sub-leaf 0 of a plain extended leaf, and none behind it. -/
theorem Setting.extSub (s : Setting c l d) {n : Nat} (h0 : 0x80000005 ≤ n)
    (hn : n ≤ (c.leaf 0x80000000).eax) :
    (mocked d).sub n 0 = c.sub n 0 ∧ ∀ e : Nat, e ≠ 0 → (mocked d).sub n e = ⟨0, 0, 0, 0⟩ := by
  obtain ⟨f, hf⟩ := s.dumped
  have hm := mem_ext hf (n := n) (by omega) hn
  have hx : extLeaf c n = .plain n (c.sub n 0) := by
    unfold extLeaf
    rw [if_neg (by omega), if_neg (by omega)]
  rw [hx] at hm
  refine ⟨?_, fun e he => ?_⟩
  · rw [s.sub_eq]
    refine sub_found s.table s.ordered (by omega) (fun i hi hl => ?_) hm rfl rfl
    exact s.texts hi (by omega) (by omega) (by omega) (by omega) (by omega)
  · rw [s.sub_eq]
    refine sub_absent s.table fun i hi hl => ?_
    have hb := s.reg.base
    obtain ⟨_, _, g, hg, rfl⟩ := dump_some hf
    rw [List.mem_append, List.mem_flatMap, List.mem_map] at hi
    rcases hi with ⟨m, hm, hi⟩ | ⟨m, hm, rfl⟩
    · rw [List.mem_range'_1] at hm
      have := (leaf_mem (hg m (by omega)) hi).1
      omega
    · rw [(extLeaf_leaf c m).1] at hl
      subst hl
      rw [hx]
      exact ⟨trivial, decimal2_small (by simp [Item.ecx]), fun h => he h.symm⟩

/-! ## Detection -/

theorem leaf4Loop_congr {p q : Nat → Regs} {k : Nat} (hk : k ≤ 10) (hp : (p k).eax &&& 0x1F = 0)
    (hq : (q k).eax &&& 0x1F = 0) (h : ∀ j : Nat, j < k → p j = q j) :
    ∀ (fuel i : Nat) (s : Caches × Nat), i ≤ k →
      X86Cpuid.leaf4Loop p fuel i s = X86Cpuid.leaf4Loop q fuel i s := by
  intro fuel
  induction fuel with
  | zero => intro i s _; rfl
  | succ fuel ih =>
    intro i s hi
    unfold X86Cpuid.leaf4Loop
    by_cases hik : i = k
    · subst hik
      have a : X86Cpuid.decodeLeaf4 (p i) s.1 = none := by unfold X86Cpuid.decodeLeaf4; simp [hp]
      have b : X86Cpuid.decodeLeaf4 (q i) s.1 = none := by unfold X86Cpuid.decodeLeaf4; simp [hq]
      rw [a, b]
    · rw [h i (by omega)]
      cases X86Cpuid.decodeLeaf4 (q i) s.1 with
      | none => rfl
      | some s' =>
        dsimp only
        rw [Nat.mod_eq_of_lt (by omega)]
        exact ih (i + 1) s' (by omega)

theorem type_zero {x : Nat} (h : x &&& 0xFF00 = 0) : (x >>> 8) &&& 0xFF = 0 := by
  refine Nat.eq_of_testBit_eq fun i => ?_
  have h1 : (x &&& 0xFF00).testBit (8 + i) = false := by rw [h]; simp
  rw [Nat.testBit_and, show (0xFF00 : Nat) = 0xFF <<< 8 by decide, Nat.testBit_shiftLeft] at h1
  rw [Nat.testBit_and, Nat.testBit_shiftRight, Nat.zero_testBit]
  simpa using h1

theorem levelLoop_congr {p q : Nat → Regs} {k : Nat} (hk : k ≤ 10) (hp : (p k).ecx &&& 0xFF00 = 0)
    (hq : (q k).ecx &&& 0xFF00 = 0) (h : ∀ j : Nat, j < k → p j = q j) :
    ∀ (fuel i total : Nat) (t : Topology), i ≤ k →
      X86Cpuid.levelLoop p fuel i total t = X86Cpuid.levelLoop q fuel i total t := by
  intro fuel
  induction fuel with
  | zero => intro i total t _; rfl
  | succ fuel ih =>
    intro i total t hi
    unfold X86Cpuid.levelLoop
    dsimp only
    by_cases hik : i = k
    · subst hik
      rw [type_zero hp, type_zero hq, if_pos rfl, if_pos rfl]
      unfold X86Cpuid.applyLevel
      rw [if_neg (by omega), if_neg (by omega), if_neg (by omega), if_neg (by omega)]
    · rw [h i (by omega)]
      split
      · rfl
      · rw [Nat.mod_eq_of_lt (by omega : i + 1 < U32)]
        exact ih (i + 1) _ _ (by omega)

theorem leafDLoop_congr {p q : Nat → Regs} (h0 : p 0 = q 0) (hp : (p 1).eax &&& 0x1F = 0)
    (hq : (q 1).eax &&& 0x1F = 0) (fuel : Nat) (c : Caches) :
    X86Cpuid.leaf8000001DLoop p fuel 0 c = X86Cpuid.leaf8000001DLoop q fuel 0 c := by
  cases fuel with
  | zero => rfl
  | succ fuel =>
    unfold X86Cpuid.leaf8000001DLoop
    rw [h0]
    cases X86Cpuid.decodeLeaf8000001D (q 0) c with
    | none => rfl
    | some c' =>
      dsimp only
      cases fuel with
      | zero => rfl
      | succ fuel =>
        have one : (0 + 1) % U32 = 1 := by omega
        unfold X86Cpuid.leaf8000001DLoop
        rw [one]
        have a : X86Cpuid.decodeLeaf8000001D (p 1) c' = none := by
          unfold X86Cpuid.decodeLeaf8000001D; simp [hp]
        have b : X86Cpuid.decodeLeaf8000001D (q 1) c' = none := by
          unfold X86Cpuid.decodeLeaf8000001D; simp [hq]
        rw [a, b]

theorem Setting.cacheBase (s : Setting c l d) (t : X86Cpuid.Target) (fuel : Nat) (v : X86Cpuid.Vendor)
    (m : X86Cpuid.ModelInfo) (cc : Caches) (x : Nat) :
    X86Cpuid.detectCacheBase t (mocked d) fuel (c.leaf 0).eax v m cc x =
      X86Cpuid.detectCacheBase t c fuel (c.leaf 0).eax v m cc x := by
  unfold X86Cpuid.detectCacheBase
  by_cases h2 : (c.leaf 0).eax ≥ 2
  · rw [if_pos h2, if_pos h2]
    have e2 : (mocked d).leaf2 = c.leaf2 := by
      funext k
      rw [s.leaf2_eq, ← s.leaf_eq, s.reg.same2,
        (s.single h2 ⟨by omega, by omega, by omega, by omega, by omega, by omega, by omega, by omega⟩).1]
    rw [e2]
    dsimp only
    by_cases h4 : v ≠ .amd ∧ v ≠ .hygon ∧ (c.leaf 0).eax ≥ 4
    · rw [if_pos h4, if_pos h4]
      obtain ⟨k, hk, a1, a2, a3⟩ := s.sub4 h4.2.2
      rw [leaf4Loop_congr hk a2 a1 a3 fuel 0 _ (Nat.zero_le _)]
    · rw [if_neg h4, if_neg h4]
  · rw [if_neg h2, if_neg h2]

theorem Setting.cache (s : Setting c l d) (ha : FewAmdCaches c) (t : X86Cpuid.Target) (fuel : Nat)
    (v : X86Cpuid.Vendor) (m : X86Cpuid.ModelInfo) (cc : Caches) (x : Nat) :
    X86Cpuid.detectCache t (mocked d) fuel (c.leaf 0).eax (X86Cpuid.maxExtendedIndex c)
        ((X86Cpuid.extendedInfo c).ecx &&& 0x00400000 != 0) v m cc x =
      X86Cpuid.detectCache t c fuel (c.leaf 0).eax (X86Cpuid.maxExtendedIndex c)
        ((X86Cpuid.extendedInfo c).ecx &&& 0x00400000 != 0) v m cc x := by
  unfold X86Cpuid.detectCache
  rw [s.cacheBase]
  cases X86Cpuid.detectCacheBase t c fuel (c.leaf 0).eax v m cc x with
  | none => rfl
  | some r =>
    obtain ⟨cc', x'⟩ := r
    dsimp only
    by_cases h : ((X86Cpuid.extendedInfo c).ecx &&& 0x00400000 != 0) = true ∧
        X86Cpuid.maxExtendedIndex c ≥ 0x8000001D
    · rw [if_pos h, if_pos h]
      have hm : 0x8000001D ≤ (c.leaf 0x80000000).eax := by
        have := h.2
        unfold X86Cpuid.maxExtendedIndex at this
        split at this <;> omega
      obtain ⟨a, b⟩ := s.extSub (n := 0x8000001D) (by omega) hm
      have h1 : (c.sub 0x8000001D 1).eax &&& 0x1F = 0 := by
        rcases ha with ha | ha | ha
        · have := h.1; rw [ha] at this; cases this
        · omega
        · exact ha
      rw [leafDLoop_congr a (by rw [b 1 (by omega)]; rfl) h1 fuel cc']
    · rw [if_neg h, if_neg h]

theorem Setting.topology (s : Setting c l d) (fuel : Nat) (r : Regs) (t : Topology) :
    X86Cpuid.detectTopology (mocked d) fuel (c.leaf 0).eax (X86Cpuid.maxExtendedIndex c) r t =
      X86Cpuid.detectTopology c fuel (c.leaf 0).eax (X86Cpuid.maxExtendedIndex c) r t := by
  have hl : X86Cpuid.legacyTopology (mocked d) (X86Cpuid.maxExtendedIndex c) r t =
      X86Cpuid.legacyTopology c (X86Cpuid.maxExtendedIndex c) r t := by
    unfold X86Cpuid.legacyTopology
    by_cases h1 : X86Cpuid.maxExtendedIndex c ≥ 0x80000001
    · rw [s.extPlain (Or.inl rfl) h1]
      by_cases h8 : X86Cpuid.maxExtendedIndex c ≥ 0x80000008
      · rw [s.extPlain (Or.inr rfl) h8]
      · simp only [if_neg h8]
    · have : decide (X86Cpuid.maxExtendedIndex c ≥ 0x80000001) = false := by simpa using h1
      simp only [this, Bool.false_and, Bool.false_eq_true, if_false]
  unfold X86Cpuid.detectTopology
  rw [hl]
  dsimp only
  by_cases h : r.ecx &&& 0x00200000 ≠ 0 ∧ (c.leaf 0).eax ≥ 0xB
  · rw [if_pos h, if_pos h]
    obtain ⟨k, hk, a1, a2, a3⟩ := s.subB h.2
    exact levelLoop_congr hk a2 a1 a3 fuel 0 0 _ (Nat.zero_le _)
  · rw [if_neg h, if_neg h]

theorem Setting.leaf1 (s : Setting c l d) (h : (c.leaf 0).eax ≥ 1) : (mocked d).leaf 1 = c.leaf 1 := by
  rw [(s.single h ⟨by omega, by omega, by omega, by omega, by omega, by omega, by omega, by omega⟩).1,
    s.reg.same 1 (Or.inl rfl)]

theorem Setting.processor (s : Setting c l d) (ha : FewAmdCaches c) (t : X86Cpuid.Target) (fuel : Nat) :
    X86Cpuid.initProcessor t (mocked d) fuel = X86Cpuid.initProcessor t c fuel := by
  unfold X86Cpuid.initProcessor
  rw [s.leaf0]
  dsimp only
  by_cases h1 : (c.leaf 0).eax ≥ 1
  · rw [if_pos h1, if_pos h1, s.leaf1 h1, s.maxExt, s.extInfo, s.cache ha]
    simp only [s.topology]
  · rw [if_neg h1, if_neg h1]

theorem Setting.name (s : Setting c l d) (t : X86Cpuid.Target) :
    X86Name.packageName t (mocked d) = X86Name.packageName t c := by
  have hr : X86Name.rawBrand (mocked d) = X86Name.rawBrand c := by
    unfold X86Name.rawBrand
    rw [s.maxExt]
    by_cases h : X86Cpuid.maxExtendedIndex c ≥ 0x80000004
    · rw [if_pos h, if_pos h, s.extBrand (Or.inl rfl) h, s.extBrand (Or.inr (Or.inl rfl)) h,
        s.extBrand (Or.inr (Or.inr rfl)) h]
    · rw [if_neg h, if_neg h]
  unfold X86Name.packageName
  rw [hr, s.leaf0]

/-- What flags are decoded from, with the dump: the same but for VIA's own leaf. -/
theorem Setting.isaSource (s : Setting c l d) (t : X86Cpuid.Target) (xcr0 mask : Nat) :
    X86Cpuid.isaSource (mocked d) xcr0 mask (c.leaf 1) (X86Cpuid.extendedInfo c) (c.leaf 0).eax
        (X86Cpuid.maxExtendedIndex c)
        (X86Cpuid.decodeVendor t (c.leaf 0).ebx (c.leaf 0).ecx (c.leaf 0).edx) =
      { X86Cpuid.isaSource c xcr0 mask (c.leaf 1) (X86Cpuid.extendedInfo c) (c.leaf 0).eax
          (X86Cpuid.maxExtendedIndex c)
          (X86Cpuid.decodeVendor t (c.leaf 0).ebx (c.leaf 0).ecx (c.leaf 0).edx) with
        padlock := ⟨0, 0, 0, 0⟩ } := by
  have hb := s.reg.base
  have hx := s.reg.ext
  have e7 : (if (c.leaf 0).eax ≥ 7 then (mocked d).sub 7 0 else ⟨0, 0, 0, 0⟩) =
      (if (c.leaf 0).eax ≥ 7 then c.sub 7 0 else ⟨0, 0, 0, 0⟩) := by
    split
    · rename_i h; exact (s.counted (Or.inl rfl) h).1 0 (Nat.zero_le _) (by omega)
    · rfl
  have e71 : (if (c.leaf 0).eax ≥ 7 then (mocked d).sub 7 1 else ⟨0, 0, 0, 0⟩) =
      (if (c.leaf 0).eax ≥ 7 then c.sub 7 1 else ⟨0, 0, 0, 0⟩) := by
    split
    · rename_i h
      by_cases h0 : (c.sub 7 0).eax = 0
      · rw [(s.counted (Or.inl rfl) h).2 1 (by omega) (by omega), s.reg.leaf7 h0]
      · exact (s.counted (Or.inl rfl) h).1 1 (by omega) (by omega)
    · rfl
  have e24 : (if (c.leaf 0).eax ≥ 7 then (mocked d).sub 0x24 0 else ⟨0, 0, 0, 0⟩) =
      (if (c.leaf 0).eax ≥ 7 then c.sub 0x24 0 else ⟨0, 0, 0, 0⟩) := by
    split
    · rename_i h
      by_cases h24 : (c.leaf 0).eax < 0x24
      · rw [s.reg.leaf24 h24, s.subAbsentLeaf (n := 0x24) (by unfold HasLeaf; omega)]
      · exact (s.counted (Or.inr (Or.inr (Or.inr rfl))) (by omega)).1 0 (Nat.zero_le _) (by omega)
    · rfl
  have e8 : (if X86Cpuid.maxExtendedIndex c ≥ 0x80000008 then (mocked d).leaf 0x80000008 else ⟨0, 0, 0, 0⟩) =
      (if X86Cpuid.maxExtendedIndex c ≥ 0x80000008 then c.leaf 0x80000008 else ⟨0, 0, 0, 0⟩) := by
    split
    · rename_i h; exact s.extPlain (Or.inr rfl) h
    · rfl
  have eD : ∀ m : Nat, X86Cpuid.xcr0Valid (mocked d) (c.leaf 0).eax = X86Cpuid.xcr0Valid c (c.leaf 0).eax := by
    intro _
    unfold X86Cpuid.xcr0Valid
    split
    · rename_i h
      rw [(s.single h ⟨by omega, by omega, by omega, by omega, by omega, by omega, by omega, by omega⟩).2]
    · rfl
  have eP : X86Cpuid.padlockInfo (mocked d)
      (X86Cpuid.decodeVendor t (c.leaf 0).ebx (c.leaf 0).ecx (c.leaf 0).edx) = ⟨0, 0, 0, 0⟩ := by
    unfold X86Cpuid.padlockInfo
    split
    · rw [s.absent (n := 0xC0000000) (by unfold HasLeaf; omega) (by omega), if_neg (by simp)]
    · rfl
  unfold X86Cpuid.isaSource X86Cpuid.osRegs
  rw [e7, e71, e24, e8, eP, eD 0]

theorem Setting.isa (s : Setting c l d) (t : X86Cpuid.Target) (hv : NoPadlock t c) (xcr0 mask : Nat) :
    X86Cpuid.initIsa t (mocked d) xcr0 mask = X86Cpuid.initIsa t c xcr0 mask := by
  unfold X86Cpuid.initIsa
  rw [s.leaf0]
  dsimp only
  by_cases h1 : (c.leaf 0).eax ≥ 1
  · rw [if_pos h1, if_pos h1, s.leaf1 h1, s.maxExt, s.extInfo, s.isaSource t]
    have eP : X86Cpuid.padlockInfo c
        (X86Cpuid.decodeVendor t (c.leaf 0).ebx (c.leaf 0).ecx (c.leaf 0).edx) = ⟨0, 0, 0, 0⟩ := by
      unfold X86Cpuid.padlockInfo
      split
      · rename_i h
        rcases hv with hv | hv
        · exact absurd h hv
        · rw [if_neg (by omega)]
      · rfl
    rw [← eP]
    rfl
  · rw [if_neg h1, if_neg h1]

/-- The flags VIA's own leaf decides. -/
theorem Setting.isa_flags (s : Setting c l d) (t : X86Cpuid.Target) (xcr0 mask : Nat)
    (f : X86Cpuid.Feature) :
    X86Cpuid.initIsa t (mocked d) xcr0 mask f =
      (X86Cpuid.initIsa t c xcr0 mask f && !decide (f ∈ [.rng, .ace, .ace2, .phe, .pmm])) := by
  unfold X86Cpuid.initIsa
  rw [s.leaf0]
  by_cases h1 : (c.leaf 0).eax ≥ 1
  · rw [if_pos h1, if_pos h1, s.leaf1 h1, s.maxExt, s.extInfo, s.isaSource t]
    by_cases hf : f ∈ [X86Cpuid.Feature.rng, .ace, .ace2, .phe, .pmm]
    · rw [decide_eq_true hf, Bool.not_true, Bool.and_false]
      simp only [List.mem_cons, List.not_mem_nil, or_false] at hf
      rcases hf with rfl | rfl | rfl | rfl | rfl <;> simp [X86Cpuid.isaFlag]
    · rw [decide_eq_false hf, Bool.not_false, Bool.and_true]
      cases f <;> first | rfl | exact absurd (by decide) hf
  · rw [if_neg h1, if_neg h1]
    rfl

end

end Verif.CpuidDump
