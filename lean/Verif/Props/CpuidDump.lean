import Verif.Proof.CpuidDumpMock

/-!
# C151–C154: CPUID dumps, the script that reads them, and the mock build
-/

set_option autoImplicit false

namespace Verif.Props
open Verif.CpuidDump
open X86Cpuid (Regs Cpuid)

/-- The dump of an Atom x5-Z8350, test/cpuid/alldocube-iwork8.log. -/
def atomTable : List Entry :=
  [⟨0x00000000, 0, ⟨0x0000000B, 0x756E6547, 0x6C65746E, 0x49656E69⟩⟩,
   ⟨0x00000001, 0, ⟨0x000406C4, 0x00100800, 0x43D8E3BF, 0xBFEBFBFF⟩⟩,
   ⟨0x00000002, 0, ⟨0x61B4A001, 0x0000FFC2, 0x00000000, 0x00000000⟩⟩,
   ⟨0x00000003, 0, ⟨0x00000000, 0x00000000, 0x00000000, 0x00000000⟩⟩,
   ⟨0x00000004, 0, ⟨0x1C000121, 0x0140003F, 0x0000003F, 0x00000001⟩⟩,
   ⟨0x00000004, 1, ⟨0x1C000122, 0x01C0003F, 0x0000003F, 0x00000001⟩⟩,
   ⟨0x00000004, 2, ⟨0x1C00C143, 0x03C0003F, 0x000003FF, 0x00000001⟩⟩,
   ⟨0x00000005, 0, ⟨0x00000040, 0x00000040, 0x00000003, 0x33000020⟩⟩,
   ⟨0x00000006, 0, ⟨0x00000007, 0x00000002, 0x00000009, 0x00000000⟩⟩,
   ⟨0x00000007, 0, ⟨0x00000000, 0x00002282, 0x00000000, 0x00000000⟩⟩,
   ⟨0x00000008, 0, ⟨0x00000000, 0x00000000, 0x00000000, 0x00000000⟩⟩,
   ⟨0x00000009, 0, ⟨0x00000000, 0x00000000, 0x00000000, 0x00000000⟩⟩,
   ⟨0x0000000A, 0, ⟨0x07280203, 0x00000000, 0x00000000, 0x00000503⟩⟩,
   ⟨0x0000000B, 0, ⟨0x00000001, 0x00000001, 0x00000100, 0x00000000⟩⟩,
   ⟨0x0000000B, 1, ⟨0x00000004, 0x00000004, 0x00000201, 0x00000000⟩⟩,
   ⟨0x80000000, 0, ⟨0x80000008, 0x00000000, 0x00000000, 0x00000000⟩⟩,
   ⟨0x80000001, 0, ⟨0x00000000, 0x00000000, 0x00000101, 0x28100000⟩⟩,
   ⟨0x80000002, 0, ⟨0x20202020, 0x6E492020, 0x286C6574, 0x41202952⟩⟩,
   ⟨0x80000003, 0, ⟨0x286D6F74, 0x20294D54, 0x5A2D3578, 0x30353338⟩⟩,
   ⟨0x80000004, 0, ⟨0x50432020, 0x20402055, 0x34342E31, 0x007A4847⟩⟩,
   ⟨0x80000005, 0, ⟨0x00000000, 0x00000000, 0x00000000, 0x00000000⟩⟩,
   ⟨0x80000006, 0, ⟨0x00000000, 0x00000000, 0x04008040, 0x00000000⟩⟩,
   ⟨0x80000007, 0, ⟨0x00000000, 0x00000000, 0x00000000, 0x00000100⟩⟩,
   ⟨0x80000008, 0, ⟨0x00003024, 0x00000000, 0x00000000, 0x00000000⟩⟩]

/-- An AMD processor with topology extensions: four caches in leaf 0x8000001D. -/
def zenTable : List Entry :=
  [⟨0x00000000, 0, ⟨0x00000001, 0x68747541, 0x444D4163, 0x69746E65⟩⟩,
   ⟨0x00000001, 0, ⟨0x00800F11, 0x00100800, 0x00000000, 0x178BFBFF⟩⟩,
   ⟨0x80000000, 0, ⟨0x8000001D, 0x68747541, 0x444D4163, 0x69746E65⟩⟩,
   ⟨0x80000001, 0, ⟨0x00800F11, 0x00000000, 0x00400000, 0x00000000⟩⟩,
   ⟨0x8000001D, 0, ⟨0x00004121, 0x01C0003F, 0x0000003F, 0x00000000⟩⟩,
   ⟨0x8000001D, 1, ⟨0x00004122, 0x00C0003F, 0x000000FF, 0x00000000⟩⟩,
   ⟨0x8000001D, 2, ⟨0x00004143, 0x01C0003F, 0x000003FF, 0x00000002⟩⟩,
   ⟨0x8000001D, 3, ⟨0x0001C163, 0x03C0003F, 0x00001FFF, 0x00000001⟩⟩]

/-- A VIA processor with a random number generator. -/
def viaTable : List Entry :=
  [⟨0x00000000, 0, ⟨0x00000001, 0x746E6543, 0x736C7561, 0x48727561⟩⟩,
   ⟨0x00000001, 0, ⟨0x000006FE, 0x00010800, 0x008863A9, 0xAFC9FBFF⟩⟩,
   ⟨0xC0000000, 0, ⟨0xC0000004, 0x00000000, 0x00000000, 0x00000000⟩⟩,
   ⟨0xC0000001, 0, ⟨0x000006FE, 0x00000000, 0x00000000, 0x00003FCC⟩⟩]

/-- **C151 (end).** cpuid-dump ends exactly on processors whose lists of sub-leaves end and whose
last leaf and sub-leaf numbers are below the largest 32-bit number. -/
theorem C151_ends (c : Cpuid) : (∃ (fuel : Nat) (l : List Item), dump c fuel = some l) ↔ Ends c :=
  ⟨fun ⟨_, _, h⟩ => ends_of_dump h, dump_ends⟩

/-- **C151 (truth).** Every line of a dump tells what the processor answers for the leaf and sub-leaf
of the line, and the leaf is one that the processor has. -/
theorem C151_true (c : Cpuid) (fuel : Nat) (l : List Item) (h : dump c fuel = some l) (i : Item)
    (hi : i ∈ l) : i.Correct c ∧ HasLeaf c i.leaf :=
  ⟨(dump_true h hi).1, (dump_true h hi).2.1⟩

/-- **C151 (completeness).** A dump has a line for every leaf of the processor, except that the
sub-leaves of the leaves 4, 0xB and, with SGX, 0x12 are printed up to the end of their lists, and
those of the leaves 7, 0x14, 0x17 and 0x24 up to the number that sub-leaf 0 gives. -/
theorem C151_complete (c : Cpuid) (fuel : Nat) (l : List Item) (h : dump c fuel = some l) :
    (∀ n : Nat, HasLeaf c n → n ≠ 4 → n ≠ 0xB → n ≠ 0x12 →
      ∃ i ∈ l, i.leaf = n ∧ i.ecx = 0) ∧
    (4 ≤ (c.leaf 0).eax → ∀ j : Nat, j < U32 → (∀ k : Nat, k ≤ j → (c.sub 4 k).eax &&& 0x1F ≠ 0) →
      Item.sub 4 j (c.sub 4 j) ∈ l) ∧
    (0xB ≤ (c.leaf 0).eax → ∀ j : Nat, j < U32 → (∀ k : Nat, k ≤ j → (c.sub 0xB k).ecx &&& 0xFF00 ≠ 0) →
      Item.sub 0xB j (c.sub 0xB j) ∈ l) ∧
    (0x12 ≤ (c.leaf 0).eax → (c.sub 7 0).ebx &&& 4 ≠ 0 → ∀ j : Nat, j < U32 →
      (∀ k : Nat, 2 ≤ k → k ≤ j → (c.sub 0x12 k).eax &&& 0xF ≠ 0) → Item.sub 0x12 j (c.sub 0x12 j) ∈ l) ∧
    (∀ n : Nat, n = 7 ∨ n = 0x14 ∨ n = 0x17 ∨ n = 0x24 → n ≤ (c.leaf 0).eax →
      ∀ j : Nat, j ≤ (c.sub n 0).eax → Item.sub n j (c.sub n j) ∈ l) := by
  refine ⟨fun n hn h4 hB h12 => ?_, fun hm j _ hj => ?_, fun hm j _ hj => ?_, fun hm hg j _ hj => ?_,
    fun n hc hm j hj => ?_⟩
  · by_cases hb : n ≤ (c.leaf 0).eax
    · obtain ⟨l', h1, h2⟩ := mem_base h hb
      unfold Leaf at h1
      by_cases h0 : n = 0
      · rw [if_pos h0] at h1
        subst h1
        exact ⟨.vendor 0 (c.leaf 0), h2 _ (by simp), h0.symm, rfl⟩
      rw [if_neg h0, if_neg h4, if_neg hB, if_neg h12] at h1
      by_cases hc : n = 7 ∨ n = 0x14 ∨ n = 0x17 ∨ n = 0x24
      · rw [if_pos hc] at h1
        exact ⟨.sub n 0 (c.sub n 0), h2 _ (by
          rw [h1.2]; exact mem_subs.2 ⟨0, by omega, by omega, rfl⟩), rfl, rfl⟩
      · rw [if_neg hc] at h1
        subst h1
        exact ⟨.plain n (c.sub n 0), h2 _ (by simp), rfl, rfl⟩
    · rcases hn with hn | hn
      · exact absurd hn hb
      · exact ⟨extLeaf c n, mem_ext h hn.1 hn.2, (extLeaf_leaf c n).1, (extLeaf_leaf c n).2.2⟩
  · obtain ⟨l', h1, h2⟩ := mem_base h hm
    unfold Leaf at h1
    rw [if_neg (by omega), if_pos rfl] at h1
    obtain ⟨k, _, hF, rfl⟩ := h1
    refine h2 _ (mem_subs.2 ⟨j, by omega, ?_, rfl⟩)
    by_cases hkj : k ≤ j
    · exact absurd hF.1 (hj k hkj)
    · omega
  · obtain ⟨l', h1, h2⟩ := mem_base h hm
    unfold Leaf at h1
    rw [if_neg (by omega), if_neg (by omega), if_pos rfl] at h1
    obtain ⟨k, _, hF, rfl⟩ := h1
    refine h2 _ (mem_subs.2 ⟨j, by omega, ?_, rfl⟩)
    by_cases hkj : k ≤ j
    · exact absurd hF.1 (hj k hkj)
    · omega
  · obtain ⟨l', h1, h2⟩ := mem_base h hm
    unfold Leaf at h1
    rw [if_neg (by omega), if_neg (by omega), if_neg (by omega), if_pos rfl, if_pos hg] at h1
    obtain ⟨k, _, hF, rfl⟩ := h1
    refine h2 _ (mem_subs.2 ⟨j, by omega, ?_, rfl⟩)
    by_cases hkj : k ≤ j
    · exact absurd hF.1.2 (hj k hF.1.1 hkj)
    · omega
  · obtain ⟨l', h1, h2⟩ := mem_base h hm
    unfold Leaf at h1
    rw [if_neg (by omega), if_neg (by omega), if_neg (by omega), if_neg (by omega), if_pos hc] at h1
    rw [h1.2] at h2
    exact h2 _ (mem_subs.2 ⟨j, by omega, by omega, rfl⟩)

/-- **C151 (order).** The lines are in strictly increasing order of leaf and sub-leaf, so nothing is
printed twice, on processors whose basic leaves have smaller numbers than the extended ones. -/
theorem C151_once (c : Cpuid) (fuel : Nat) (l : List Item) (h : dump c fuel = some l)
    (hb : (c.leaf 0).eax < 0x80000000) : l.Pairwise Item.Before :=
  dump_ordered h hb

/-- The Atom's dump ends; its lines of leaf 4 are those of three caches. -/
example : ∃ l : List Item, dump (mocked atomTable) 20 = some l ∧
    (l.filter fun i => i.leaf == 4).map Item.ecx = [0, 1, 2] ∧
    l.length = 24 := by
  refine ⟨_, rfl, ?_, ?_⟩ <;> decide +kernel

/-- The rows of a table, one for each line: the leaf and registers are those of the line, and so is
the sub-leaf if it has two decimal digits. -/
theorem rows_get {l : List Item} {d : List Entry} (h : Rows l d) :
    d.length = l.length ∧ ∀ (k : Nat) (i : Item), l[k]? = some i → ∃ e : Entry, d[k]? = some e ∧
      EntryOf i e := by
  induction h with
  | nil => exact ⟨rfl, fun k i h => by simp at h⟩
  | cons he _ ih =>
    refine ⟨by simp [ih.1], fun k i hk => ?_⟩
    cases k with
    | zero => simp at hk; subst hk; exact ⟨_, rfl, he⟩
    | succ k => simpa using ih.2 k i (by simpa using hk)

/-- **C152.** The script makes one table entry of every line of a dump, in the same order, with the
leaf and the registers of the line, whatever bytes vendor and brand texts contain; sub-leaves written
with two decimal digits are kept. -/
theorem C152_script_partial (c : Cpuid) (fuel : Nat) (l : List Item) (h : dump c fuel = some l)
    (hw : ∀ n e : Nat, Wide32 (c.leaf n) ∧ Wide32 (c.sub n e)) (sep : Nat → Bool) (hs : LineEnds sep) :
    (script sep (output l)).length = l.length ∧
    ∀ (k : Nat) (i : Item), l[k]? = some i → ∃ e : Entry, (script sep (output l))[k]? = some e ∧
      e.inEax = i.leaf ∧ e.regs = i.regs ∧
      (∀ (n x : Nat) (r : Regs), i = .sub n x r → Decimal2 x → e.inEcx = x) ∧
      (∀ (n : Nat) (r : Regs), i = .plain n r → e.inEcx = 0) := by
  have hrows := script_output sep hs l (fun i hi => by
    obtain ⟨h1, _, h3, h4⟩ := dump_true h hi
    refine ⟨h3, h4, ?_⟩
    cases i with
    | plain n r => rw [show (Item.plain n r).regs = r from rfl, show r = c.sub n 0 from h1]; exact (hw n 0).2
    | sub n e r => rw [show (Item.sub n e r).regs = r from rfl, show r = c.sub n e from h1]; exact (hw n e).2
    | vendor n r => rw [show (Item.vendor n r).regs = r from rfl, show r = c.leaf n from h1]; exact (hw n 0).1
    | brand n r => rw [show (Item.brand n r).regs = r from rfl, show r = c.leaf n from h1]; exact (hw n 0).1)
  obtain ⟨h1, h2⟩ := rows_get hrows
  refine ⟨h1, fun k i hi => ?_⟩
  obtain ⟨e, he, h3⟩ := h2 k i hi
  refine ⟨e, he, h3.1, h3.2.1, ?_, ?_⟩
  · rintro n x r rfl hd
    exact h3.2.2.1 hd
  · rintro n r rfl
    exact h3.2.2

/-- **C152 violated.** Sub-leaves whose two digits are not both decimal, and those with more than two
digits, get the number 0: the script looks for `\d{2}` although the tool prints hexadecimal digits. -/
theorem C152_violated (n x : Nat) (r : Regs) (hn : n < U32) (hx : x < U32) (hr : Wide32 r)
    (hd : ¬ Decimal2 x) : script (· == 10) (output [.sub n x r]) = [⟨n, 0, r⟩] := by
  have h := script_output (· == 10) ⟨by decide, fun b h1 h2 => by simp; omega⟩ [.sub n x r]
    (fun i hi => by
      rw [List.mem_singleton] at hi
      subst hi
      exact ⟨hn, hx, hr⟩)
  cases hsc : script (· == 10) (output [.sub n x r]) with
  | nil => rw [hsc] at h; cases h
  | cons e d =>
    rw [hsc] at h
    cases h with
    | cons he hd' =>
      cases hd'
      obtain ⟨a, b, _, e0⟩ := he
      have := e0 hd
      cases e
      simp only [Item.leaf, Item.regs] at a b this
      subst a b this
      rfl

/-- The Atom's dump has 24 lines, and the script makes the table of them again. -/
example : ∃ l : List Item, dump (mocked atomTable) 20 = some l ∧ LineEnds (· == 10) ∧
    script (· == 10) (output l) = atomTable := by
  refine ⟨_, rfl, ⟨by decide, fun b h1 h2 => by simp; omega⟩, ?_⟩
  decide +kernel

/-- Sub-leaf 10 of leaf 4 becomes sub-leaf 0. -/
example : script (· == 10) (output [.sub 4 10 ⟨1, 2, 3, 4⟩]) = [⟨4, 0, ⟨1, 2, 3, 4⟩⟩] := by
  decide +kernel

/-- Answers of a table are 32 bits wide if its entries are. -/
theorem mocked_wide (d : List Entry) (h : ∀ e ∈ d, Wide32 e.regs) (n x : Nat) :
    Wide32 ((mocked d).leaf n) ∧ Wide32 ((mocked d).sub n x) := by
  have z : Wide32 ⟨0, 0, 0, 0⟩ := ⟨by simp, by simp, by simp, by simp⟩
  have ht : ∀ e ∈ d.take (d.length % U32), Wide32 e.regs := fun e he => h e (List.mem_of_mem_take he)
  have sk : ∀ (l : List Entry) (k : Nat) (r : Regs), (∀ e ∈ l, Wide32 e.regs) → mockSkip l k = some r →
      Wide32 r := by
    intro l
    induction l with
    | nil => intro k r _ h; simp [mockSkip] at h
    | cons e l ih =>
      intro k r hl h
      unfold mockSkip at h
      split at h
      · split at h
        · cases h; exact hl e (List.mem_cons_self ..)
        · exact ih _ r (fun e he => hl e (List.mem_cons_of_mem _ he)) h
      · exact ih _ r (fun e he => hl e (List.mem_cons_of_mem _ he)) h
  unfold mocked
  dsimp only
  refine ⟨?_, ?_⟩
  · unfold mockCpuid
    split
    · split
      · rename_i r hr; exact sk _ _ _ ht hr
      · exact z
    · split
      · rename_i e he; exact ht e (List.mem_of_find?_eq_some he)
      · exact z
  · unfold mockCpuidex
    split
    · rename_i e he; exact ht e (List.mem_of_find?_eq_some he)
    · exact z

theorem atom_regular : Regular (mocked atomTable) where
  wide := mocked_wide _ (by simp only [Wide32]; decide +kernel)
  base := by decide +kernel
  ext := by decide +kernel
  same := by rintro n (rfl | rfl | rfl) <;> decide +kernel
  same2 := fun _ => by
    have : (mocked atomTable).leaf2 0 = (mocked atomTable).sub 2 0 := by decide +kernel
    exact this
  leaf4 := fun _ => ⟨3, by decide, by decide +kernel⟩
  leafB := fun _ => ⟨2, by decide, by decide +kernel⟩
  leaf7 := fun _ => by decide +kernel
  leaf24 := fun _ => by decide +kernel

theorem zen_regular : Regular (mocked zenTable) where
  wide := mocked_wide _ (by simp only [Wide32]; decide +kernel)
  base := by decide +kernel
  ext := by decide +kernel
  same := by rintro n (rfl | rfl | rfl) <;> decide +kernel
  same2 := fun _ => by
    have : (mocked zenTable).leaf2 0 = (mocked zenTable).sub 2 0 := by decide +kernel
    exact this
  leaf4 := fun h => absurd h (by decide +kernel)
  leafB := fun h => absurd h (by decide +kernel)
  leaf7 := fun _ => by decide +kernel
  leaf24 := fun _ => by decide +kernel

theorem via_regular : Regular (mocked viaTable) where
  wide := mocked_wide _ (by simp only [Wide32]; decide +kernel)
  base := by decide +kernel
  ext := by decide +kernel
  same := by rintro n (rfl | rfl | rfl) <;> decide +kernel
  same2 := fun _ => by
    have : (mocked viaTable).leaf2 0 = (mocked viaTable).sub 2 0 := by decide +kernel
    exact this
  leaf4 := fun h => absurd h (by decide +kernel)
  leafB := fun h => absurd h (by decide +kernel)
  leaf7 := fun _ => by decide +kernel
  leaf24 := fun _ => by decide +kernel

/-- The setting of the theorems: a regular processor was dumped and the script read the dump. -/
theorem setting {c : Cpuid} (hr : Regular c) {fuel : Nat} {l : List Item} (h : dump c fuel = some l)
    (hlen : l.length < U32) {sep : Nat → Bool} (hs : LineEnds sep) :
    Setting c l (script sep (output l)) := by
  refine ⟨hr, ⟨fuel, h⟩, script_output sep hs l (fun i hi => ?_), hlen⟩
  obtain ⟨h1, _, h3, h4⟩ := dump_true h hi
  refine ⟨h3, h4, ?_⟩
  cases i with
  | plain n r => rw [show (Item.plain n r).regs = r from rfl, show r = c.sub n 0 from h1]; exact (hr.wide n 0).2
  | sub n e r => rw [show (Item.sub n e r).regs = r from rfl, show r = c.sub n e from h1]; exact (hr.wide n e).2
  | vendor n r => rw [show (Item.vendor n r).regs = r from rfl, show r = c.leaf n from h1]; exact (hr.wide n 0).1
  | brand n r => rw [show (Item.brand n r).regs = r from rfl, show r = c.leaf n from h1]; exact (hr.wide n 0).1

/-- **C153.** A dump of a regular processor, read by the script and given to the mock build, makes
detection compute what it computes on the processor: vendor, microarchitecture, CPUID signature,
topology and caches, the name of packages, and all instruction set flags.  Left out are the caches of
AMD processors with topology extensions and the flags of VIA's leaves, see the violations. -/
theorem C153_same_detection_partial (c : Cpuid) (hr : Regular c) (fuel : Nat) (l : List Item)
    (h : dump c fuel = some l) (hlen : l.length < U32) (sep : Nat → Bool) (hs : LineEnds sep)
    (t : X86Cpuid.Target) :
    (FewAmdCaches c → ∀ rounds : Nat,
      X86Cpuid.initProcessor t (mocked (script sep (output l))) rounds = X86Cpuid.initProcessor t c rounds) ∧
    X86Name.packageName t (mocked (script sep (output l))) = X86Name.packageName t c ∧
    (NoPadlock t c → ∀ xcr0 mask : Nat,
      X86Cpuid.initIsa t (mocked (script sep (output l))) xcr0 mask = X86Cpuid.initIsa t c xcr0 mask) := by
  have s := setting hr h hlen hs
  exact ⟨fun ha rounds => s.processor ha t rounds, s.name t, fun hv xcr0 mask => s.isa t hv xcr0 mask⟩

/-- The Atom meets the conditions; its name and the size of its second-level cache are found. -/
example : Regular (mocked atomTable) ∧ FewAmdCaches (mocked atomTable) ∧
    NoPadlock ⟨false, true⟩ (mocked atomTable) ∧
    X86Name.packageName ⟨false, true⟩ (mocked atomTable) = some b!"Intel Atom x5-Z8350" ∧
    (X86Cpuid.initProcessor ⟨false, true⟩ (mocked atomTable) 10).map (fun p => p.cpu.l2.size) =
      some (1024 * 1024) :=
  ⟨atom_regular, Or.inl (by decide +kernel), Or.inl (by decide +kernel), by decide +kernel,
    by decide +kernel⟩

/-- **C153 violated (AMD).** Of leaf 0x8000001D, which lists the caches of AMD processors with topology
extensions, the tool prints sub-leaf 0 only, so all caches but the first are lost in every dump. -/
theorem C153_violated_amd (c : Cpuid) (hr : Regular c) (fuel : Nat) (l : List Item)
    (h : dump c fuel = some l) (hlen : l.length < U32) (sep : Nat → Bool) (hs : LineEnds sep)
    (hx : 0x8000001D ≤ (c.leaf 0x80000000).eax) (e : Nat) (he : e ≠ 0) :
    (mocked (script sep (output l))).sub 0x8000001D e = ⟨0, 0, 0, 0⟩ :=
  ((setting hr h hlen hs).extSub (by omega) hx).2 e he

/-- On the AMD processor detection finds 512 KB of second-level and 8 MB of third-level cache, with its
dump none. -/
theorem C153_violated_amd_caches : Regular (mocked zenTable) ∧
    ∃ l : List Item, dump (mocked zenTable) 40 = some l ∧
      (X86Cpuid.initProcessor ⟨false, false⟩ (mocked zenTable) 10).map
        (fun p => (p.cpu.l1d.size, p.cpu.l2.size, p.cpu.l3.size)) = some (32768, 524288, 8388608) ∧
      (X86Cpuid.initProcessor ⟨false, false⟩ (mocked (script (· == 10) (output l))) 10).map
        (fun p => (p.cpu.l1d.size, p.cpu.l2.size, p.cpu.l3.size)) = some (32768, 0, 0) := by
  refine ⟨zen_regular, _, rfl, ?_, ?_⟩ <;> decide +kernel

/-- **C153, instruction set flags exactly.** With the dump of any regular processor, the mock build
answers yes to the flags to which the processor answers yes, except for the five of VIA's own leaves,
to which it always answers no. -/
theorem C153_isa_exact (c : Cpuid) (hr : Regular c) (fuel : Nat) (l : List Item)
    (h : dump c fuel = some l) (hlen : l.length < U32) (sep : Nat → Bool) (hs : LineEnds sep)
    (t : X86Cpuid.Target) (xcr0 mask : Nat) (f : X86Cpuid.Feature) :
    X86Cpuid.initIsa t (mocked (script sep (output l))) xcr0 mask f = true ↔
      X86Cpuid.initIsa t c xcr0 mask f = true ∧ f ∉ [.rng, .ace, .ace2, .phe, .pmm] := by
  rw [(setting hr h hlen hs).isa_flags t xcr0 mask f, Bool.and_eq_true, Bool.not_eq_true',
    decide_eq_false_iff_not]

/-- **C153 violated (VIA).** The leaves 0xC0000000 and up are not printed: the random number
generator that detection finds on a VIA processor is missing with its dump. -/
theorem C153_violated_via : Regular (mocked viaTable) ∧
    ∃ l : List Item, dump (mocked viaTable) 10 = some l ∧
      X86Cpuid.initIsa ⟨false, false⟩ (mocked viaTable) 0 0 .rng = true ∧
      X86Cpuid.initIsa ⟨false, false⟩ (mocked (script (· == 10) (output l))) 0 0 .rng = false := by
  refine ⟨via_regular, _, rfl, ?_, ?_⟩ <;> decide +kernel

/-- **C154.** In the mock build, successive calls of `cpuid(4)` give the entries of leaf 4 in their
order in the table, and zeros from then on; a call for another leaf starts over. -/
theorem C154_leaf4_in_turn (d : List Entry) (k : Nat) (hk : k + 1 < U32) :
    (∀ e : Entry, (d.filter fun e => e.inEax == 4)[k]? = some e → mockCpuid d k 4 = (e.regs, k + 1)) ∧
    ((d.filter fun e => e.inEax == 4)[k]? = none → mockCpuid d k 4 = (⟨0, 0, 0, 0⟩, k)) ∧
    (∀ n : Nat, n ≠ 4 → (mockCpuid d k n).2 = 0) := by
  have sk : ∀ (d : List Entry) (k : Nat),
      mockSkip d k = ((d.filter fun e => e.inEax == 4)[k]?).map Entry.regs := by
    intro d
    induction d with
    | nil => intro k; rfl
    | cons e d ih =>
      intro k
      unfold mockSkip
      by_cases h4 : e.inEax = 4
      · rw [if_pos h4, List.filter_cons_of_pos (by simp [h4])]
        cases k with
        | zero => rfl
        | succ k => rw [if_neg (by omega), ih]; rfl
      · rw [if_neg h4, List.filter_cons_of_neg (by simp [h4]), ih]
  refine ⟨fun e he => ?_, fun he => ?_, fun n hn => ?_⟩
  · unfold mockCpuid
    rw [if_pos rfl, sk, he]
    simp only [Option.map_some]
    rw [Nat.mod_eq_of_lt hk]
  · unfold mockCpuid
    rw [if_pos rfl, sk, he]
    rfl
  · unfold mockCpuid
    rw [if_neg hn]
    split <;> rfl

/-- The third call on the Atom's table gives the second-level cache, the fourth zeros. -/
example : (mockCpuid atomTable 2 4).1.eax = 0x1C00C143 ∧ (mockCpuid atomTable 3 4).1.eax = 0 := by
  decide +kernel

end Verif.Props
