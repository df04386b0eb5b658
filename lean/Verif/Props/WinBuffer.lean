import Verif.Proof.WinBuffer

/-!
C146: the records of Windows are read as Windows wrote them.

`IsInfo` and `IsCacheInfo` (Spec) say what bytes a record is; the theorems hold for every number and every
size of records, 32-bit and 64-bit masks, and any content of reserved fields.
-/

set_option autoImplicit false

namespace Verif.Props

open Verif.Windows Verif.ArmWin Verif.WinBuffer Verif.Spec Verif.Proof.WinBuffer

/-- **C146, x86 packages.** If the answer has the size that was asked for first, the loop ends after
as many turns as there are records, and has read exactly these records in order. -/
theorem C146_x86_packages_partial (w coresSize : Nat) (rs : List Info) (bytes : List Nat)
    (h : AreRecords (IsInfo w relationPackage) rs bytes) (fuel : Nat) (hf : rs.length < fuel) :
    x86Packages w bytes.length coresSize bytes fuel = some (.done rs) := by
  unfold x86Packages
  rw [if_pos (Nat.le_max_right ..)]
  exact congrArg some (walk_all (reads_info w relationPackage) h _ fuel hf)

/-- **C146, x86 cores**, whatever the answer about packages left in the buffer. -/
theorem C146_x86_cores_partial (w packagesSize : Nat) (rs : List Info) (packages bytes : List Nat)
    (h : AreRecords (IsInfo w relationCore) rs bytes) (fuel : Nat) (hf : rs.length < fuel) :
    x86Cores w packagesSize bytes.length packages bytes fuel = some (.done rs) := by
  unfold x86Cores
  rw [if_pos (Nat.le_max_left ..)]
  exact congrArg some (walk_all (reads_info w relationCore) h _ fuel hf)

/-- **C146, ARM processors**: even if the answer has become shorter than asked for first. -/
theorem C146_arm_processors (w kind size : Nat) (rs : List Info) (bytes : List Nat)
    (h : AreRecords (IsInfo w kind) rs bytes) (hs : bytes.length ≤ size) (fuel : Nat)
    (hf : rs.length < fuel) :
    armRecords (info w kind) size bytes fuel = some (.done rs) := by
  unfold armRecords
  rw [if_pos hs]
  exact congrArg some (walk_all (reads_info w kind) h _ fuel hf)

/-- **C146, ARM caches.** -/
theorem C146_arm_caches (w size : Nat) (rs : List CacheInfo) (bytes : List Nat)
    (h : AreRecords (IsCacheInfo w) rs bytes) (hs : bytes.length ≤ size) (fuel : Nat)
    (hf : rs.length < fuel) :
    armRecords (cacheInfo w) size bytes fuel = some (.done rs) := by
  unfold armRecords
  rw [if_pos hs]
  exact congrArg some (walk_all (reads_cacheInfo w) h _ fuel hf)

/-- **C146 is violated on x86**: whenever the answer about packages is shorter than what was asked for
first (packages may go offline), memory that nobody wrote is taken for a record. -/
theorem C146_violated_shorter (w packagesSize coresSize : Nat) (rs : List Info) (bytes : List Nat)
    (h : AreRecords (IsInfo w relationPackage) rs bytes) (hs : bytes.length < packagesSize) (fuel : Nat)
    (hf : rs.length < fuel) :
    x86Packages w packagesSize coresSize bytes fuel = some .fault := by
  have hm : bytes.length < max coresSize packagesSize := Nat.lt_of_lt_of_le hs (Nat.le_max_right ..)
  unfold x86Packages
  rw [if_pos (Nat.le_of_lt hm)]
  apply congrArg some
  have h1 := walk_records (reads_info w relationPackage) h []
    ((fresh (max coresSize packagesSize)).drop bytes.length) packagesSize
    (by simp only [List.length_nil]; omega) (fuel - rs.length)
  rw [show rs.length + (fuel - rs.length) = fuel by omega] at h1
  simp only [List.nil_append, List.length_nil, Nat.zero_add] at h1
  obtain ⟨n, hn⟩ : ∃ n, fuel - rs.length = n + 1 := ⟨fuel - rs.length - 1, by omega⟩
  have hr : info w relationPackage (bytes.map some ++ (fresh (max coresSize packagesSize)).drop bytes.length)
      bytes.length = none := by
    have hfield : field (bytes.map some ++ (fresh (max coresSize packagesSize)).drop bytes.length)
        bytes.length 4 = none := by
      unfold field
      split
      · rw [List.drop_left' (by simp)]
        obtain ⟨k, hk⟩ : ∃ k, max coresSize packagesSize - bytes.length = k + 1 :=
          ⟨max coresSize packagesSize - bytes.length - 1, by omega⟩
        simp only [fresh, List.drop_replicate, hk, List.replicate_succ, List.take_succ_cons]
        simp
      · rfl
    unfold info
    rw [hfield]
    rfl
  rw [hn, walk, if_neg (by omega), hr] at h1
  exact h1

/-- **C146 is violated on ARM and x86 by a record without size**: the loop reads it again and again and
never ends, if it is of another kind than asked for. -/
theorem C146_violated_zero_size (w size kind r : Nat) (rest : List Nat) (hr : r < 2 ^ 32) (hk : r ≠ kind)
    (hs : 8 + rest.length ≤ size) (fuel : Nat) :
    armRecords (info w kind) size (leBytes 4 r ++ leBytes 4 0 ++ rest) fuel = some .running ∧
      (kind = relationPackage → ∀ coresSize,
        x86Packages w size coresSize (leBytes 4 r ++ leBytes 4 0 ++ rest) fuel = some .running) := by
  have hl : (leBytes 4 r ++ leBytes 4 0 ++ rest).length = 8 + rest.length := by
    simp only [List.length_append, length_leBytes]
  have loop : ∀ (B : Cells) (stop : Nat), 0 < stop → ∀ fuel,
      walk (info w kind) ((leBytes 4 r ++ leBytes 4 0 ++ rest).map some ++ B) stop fuel 0 = .running := by
    intro B stop h0 fuel
    have h1 := number_in [] B (bytes := leBytes 4 r ++ leBytes 4 0 ++ rest) [] (leBytes 4 0 ++ rest) 4 r
      (by simp [List.append_assoc]) (by omega) (p := 0) rfl
    have h2 := number_in [] B (bytes := leBytes 4 r ++ leBytes 4 0 ++ rest) (leBytes 4 r) rest 4 0
      rfl (by omega) (p := 4) (by simp [length_leBytes])
    rw [List.nil_append] at h1 h2
    have h3 : info w kind ((leBytes 4 r ++ leBytes 4 0 ++ rest).map some ++ B) 0 = some ⟨r, []⟩ := by
      unfold info
      rw [h1]
      simp [hk]
    induction fuel with
    | zero => rfl
    | succ n ih =>
      rw [walk, if_neg (by omega), h3]
      simp only [Nat.zero_add, h2, Nat.add_zero, ih]
  refine ⟨?_, ?_⟩
  · unfold armRecords
    rw [if_pos (by omega)]
    exact congrArg some (loop _ _ (by omega) fuel)
  · rintro rfl coresSize
    unfold x86Packages
    rw [if_pos (by rw [hl]; exact Nat.le_trans hs (Nat.le_max_right ..))]
    exact congrArg some (loop _ _ (by omega) fuel)

/-- **C146, termination.** In a buffer where no Size is 0 the loops end, after no more turns than the buffer
has bytes. -/
theorem C146_ends {α : Type} (read : Cells → Nat → Option α) (m : Cells) (stop : Nat)
    (h : ∀ p, field m (p + 4) 4 ≠ some 0) (p fuel : Nat) (hf : stop - p < fuel) :
    walk read m stop fuel p ≠ .running := by
  induction fuel generalizing p with
  | zero => omega
  | succ n ih =>
    rw [walk]
    split
    · simp
    · split
      · simp
      · split
        · simp
        · rename_i hn _ _ _ size hsz
          have hne : size ≠ 0 := fun e => h p (e ▸ hsz)
          have := ih (p + size) (by omega)
          split
          · simp
          · exact this

/-! ## Non-vacuity -/

/-- A package record of a 64-bit Windows with 16 processors in group 0, as Windows writes it. -/
def packageRecord : List Nat :=
  [3,0,0,0, 48,0,0,0, 0,0] ++ List.replicate 20 0 ++ [1,0, 255,255,0,0,0,0,0,0, 0,0, 0,0,0,0,0,0]

/-- A record of a second-level cache of 512 KiB, of group 1. -/
def cacheRecord : List Nat :=
  [2,0,0,0, 56,0,0,0, 2,8, 64,0, 0,0,8,0, 0,0,0,0] ++ List.replicate 18 0 ++
    [1,0, 3,0,0,0,0,0,0,0, 1,0, 0,0,0,0,0,0]

/-- The hypothesis of `C146_x86_packages_partial` holds of two packages. -/
example : AreRecords (IsInfo 8 relationPackage) [⟨3, [⟨0, 65535⟩]⟩, ⟨3, [⟨0, 65535⟩]⟩]
    (packageRecord ++ (packageRecord ++ [])) := by
  have h : IsInfo 8 relationPackage ⟨3, [⟨0, 65535⟩]⟩ packageRecord := by
    refine ⟨packageRecord.drop 8, ⟨by decide, by decide, by decide⟩, ?_⟩
    rw [if_pos (by rfl)]
    exact ⟨List.replicate 22 0, [(⟨0, 65535⟩, [0,0,0,0,0,0])], [], by decide,
      ⟨by decide, by decide⟩, by decide, by decide⟩
  exact .cons h (.cons h .nil)

/-- The hypothesis of `C146_arm_caches` holds of a cache. -/
example : AreRecords (IsCacheInfo 8) [⟨⟨2, [⟨1, 3⟩]⟩, 2, 0, 8, 64, 524288⟩] (cacheRecord ++ []) := by
  refine .cons ?_ .nil
  refine ⟨cacheRecord.drop 8, ⟨by decide, by decide, by decide⟩, ?_⟩
  rw [if_pos (by rfl)]
  exact ⟨List.replicate 18 0, [(⟨1, 3⟩, [0,0,0,0,0,0])], [], by decide, ⟨by decide, by decide⟩,
    by decide, by decide, by decide, by decide, by decide, by decide, by decide⟩

/-- The code on these bytes. -/
example : x86Packages 8 96 48 (packageRecord ++ packageRecord) 3 =
      some (.done [⟨3, [⟨0, 65535⟩]⟩, ⟨3, [⟨0, 65535⟩]⟩]) ∧
    armRecords (cacheInfo 8) 56 cacheRecord 2 =
      some (.done [⟨⟨2, [⟨1, 3⟩]⟩, 2, 0, 8, 64, 524288⟩]) ∧
    x86Packages 8 96 48 packageRecord 3 = some .fault := by
  decide +kernel

end Verif.Props
