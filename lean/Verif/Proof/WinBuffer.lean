import Verif.Spec.WinBuffer

/-!
Reading of encoded records.
-/

set_option autoImplicit false

namespace Verif.Proof.WinBuffer

open Verif.Windows Verif.ArmWin Verif.WinBuffer Verif.Spec

theorem length_leBytes (k n : Nat) : (leBytes k n).length = k := by
  induction k generalizing n with
  | zero => rfl
  | succ k ih => simp [leBytes, ih]

theorem value_leBytes (k n : Nat) : value (leBytes k n) = n % 256 ^ k := by
  induction k generalizing n with
  | zero => simp [leBytes, value, Nat.mod_one]
  | succ k ih =>
    simp only [leBytes, value, ih]
    rw [Nat.pow_succ, Nat.mul_comm (256 ^ k) 256, Nat.mod_mul]

theorem mapM_some (bs : List Nat) : (bs.map some).mapM id = some bs := by
  induction bs with
  | nil => rfl
  | cons b bs ih => simp [ih]

/-- A field at the end of `A`. -/
theorem field_at (A B : Cells) (bs : List Nat) :
    field (A ++ bs.map some ++ B) A.length bs.length = some (value bs) := by
  have h : ((A ++ bs.map some ++ B).drop A.length).take bs.length = bs.map some := by
    rw [List.append_assoc, List.drop_left]
    exact List.take_left' (by simp)
  unfold field
  rw [if_pos (by simp), h, mapM_some]
  rfl

/-- A field inside of bytes that start at the end of `A`. -/
theorem field_in (A B : Cells) {bytes : List Nat} (pre bs post : List Nat)
    (h : bytes = pre ++ bs ++ post) {p k : Nat} (hp : p = A.length + pre.length) (hk : k = bs.length) :
    field (A ++ bytes.map some ++ B) p k = some (value bs) := by
  have := field_at (A ++ pre.map some) (post.map some ++ B) bs
  subst h hp hk
  simpa [List.append_assoc] using this

/-- A number in a field. -/
theorem number_in (A B : Cells) {bytes : List Nat} (pre post : List Nat) (k n : Nat)
    (h : bytes = pre ++ leBytes k n ++ post) (hn : n < 256 ^ k) {p : Nat}
    (hp : p = A.length + pre.length) :
    field (A ++ bytes.map some ++ B) p k = some n := by
  rw [field_in A B pre (leBytes k n) post h hp (length_leBytes k n).symm, value_leBytes,
    Nat.mod_eq_of_lt hn]

theorem masks_at (w : Nat) (gs : List (GroupAffinity × List Nat)) (A B : Cells)
    (h : ∀ g ∈ gs, g.1.mask < 256 ^ w ∧ g.1.group < 65536 ∧ g.2.length = 6) :
    masks w (A ++ (gs.flatMap (affinityBytes w)).map some ++ B) gs.length A.length =
      some (gs.map Prod.fst) := by
  induction gs generalizing A with
  | nil => rfl
  | cons g gs ih =>
    obtain ⟨hm, hg, hr⟩ := h g (by simp)
    have e : (g :: gs).flatMap (affinityBytes w) =
        leBytes w g.1.mask ++ leBytes 2 g.1.group ++ g.2 ++ gs.flatMap (affinityBytes w) := by
      simp [affinityBytes, List.flatMap_cons]
    have h1 := number_in A B (bytes := (g :: gs).flatMap (affinityBytes w))
      (leBytes w g.1.mask) (g.2 ++ gs.flatMap (affinityBytes w)) 2 g.1.group
      (by rw [e]; simp) (by omega) (p := A.length + w) (by rw [length_leBytes])
    have h2 := number_in A B (bytes := (g :: gs).flatMap (affinityBytes w)) []
      (leBytes 2 g.1.group ++ g.2 ++ gs.flatMap (affinityBytes w)) w g.1.mask
      (by rw [e]; simp) hm (p := A.length) (by simp)
    have h3 := ih (A ++ (leBytes w g.1.mask ++ leBytes 2 g.1.group ++ g.2).map some)
      (fun x hx => h x (List.mem_cons_of_mem _ hx))
    have l : (A ++ (leBytes w g.1.mask ++ leBytes 2 g.1.group ++ g.2).map some).length =
        A.length + w + 8 := by
      simp [length_leBytes, hr]; omega
    rw [l] at h3
    have e2 : A ++ (leBytes w g.1.mask ++ leBytes 2 g.1.group ++ g.2).map some ++
        (gs.flatMap (affinityBytes w)).map some ++ B =
        A ++ ((g :: gs).flatMap (affinityBytes w)).map some ++ B := by
      rw [e]; simp [List.append_assoc]
    rw [e2] at h3
    show masks w _ (gs.length + 1) _ = _
    simp only [masks, h1, h2, h3]
    rfl

theorem masks_in (w : Nat) (gs : List (GroupAffinity × List Nat)) (A B : Cells) {bytes : List Nat}
    (pre post : List Nat) (e : bytes = pre ++ gs.flatMap (affinityBytes w) ++ post)
    (h : ∀ g ∈ gs, g.1.mask < 256 ^ w ∧ g.1.group < 65536 ∧ g.2.length = 6) {p : Nat}
    (hp : p = A.length + pre.length) :
    masks w (A ++ bytes.map some ++ B) gs.length p = some (gs.map Prod.fst) := by
  have := masks_at w gs (A ++ pre.map some) (post.map some ++ B) h
  subst e hp
  simpa [List.append_assoc] using this

/-- Size of a record. -/
theorem size_at {r : Nat} {bytes rest : List Nat} (h : IsRecord r bytes rest) (A B : Cells) :
    field (A ++ bytes.map some ++ B) (A.length + 4) 4 = some bytes.length :=
  number_in A B (leBytes 4 r) rest 4 bytes.length h.2.2 (by have := h.2.1; omega)
    (by rw [length_leBytes])

theorem relationship_at {r : Nat} {bytes rest : List Nat} (h : IsRecord r bytes rest) (A B : Cells) :
    field (A ++ bytes.map some ++ B) A.length 4 = some r :=
  number_in A B [] (leBytes 4 bytes.length ++ rest) 4 r
    (by have := h.2.2; rw [List.append_assoc] at this; exact this) (by have := h.1; omega) (by simp)

theorem length_record {r : Nat} {bytes rest : List Nat} (h : IsRecord r bytes rest) :
    bytes.length = 8 + rest.length := by
  have h1 := congrArg List.length h.2.2
  simp only [List.length_append, length_leBytes] at h1
  omega

theorem info_at {w kind : Nat} {r : Info} {bytes : List Nat} (h : IsInfo w kind r bytes) (A B : Cells) :
    info w kind (A ++ bytes.map some ++ B) A.length = some r := by
  obtain ⟨rest, hr, hb⟩ := h
  unfold info
  rw [relationship_at hr]
  by_cases hk : r.relationship = kind
  · rw [if_pos hk] at hb
    obtain ⟨head, gs, tail, hh, ⟨hc, hf⟩, hm, e⟩ := hb
    have eb := hr.2.2
    rw [e] at eb
    have h1 := number_in A B (leBytes 4 r.relationship ++ leBytes 4 bytes.length ++ head)
      (gs.flatMap (affinityBytes w) ++ tail) 2 gs.length
      (eb.trans (by simp [List.append_assoc])) (by omega) (p := A.length + 30)
      (by simp [length_leBytes, hh])
    have h2 := masks_in w gs A B
      (leBytes 4 r.relationship ++ leBytes 4 bytes.length ++ head ++ leBytes 2 gs.length) tail
      (eb.trans (by simp [List.append_assoc])) hf (p := A.length + 32)
      (by simp [length_leBytes, hh])
    generalize A ++ bytes.map some ++ B = m at h1 h2
    simp only [Option.bind_eq_bind, Option.bind_some, hk, ne_eq, not_true_eq_false, if_false, h1, h2, hm]
    rw [← hk]
  · rw [if_neg hk] at hb
    simp only [Option.bind_eq_bind, Option.bind_some, ne_eq, hk, not_false_eq_true, if_true]
    rw [← hb]

theorem cacheInfo_at {w : Nat} {r : CacheInfo} {bytes : List Nat} (h : IsCacheInfo w r bytes)
    (A B : Cells) : cacheInfo w (A ++ bytes.map some ++ B) A.length = some r := by
  obtain ⟨rest, hr, hb⟩ := h
  unfold cacheInfo
  rw [relationship_at hr]
  by_cases hk : r.relationship = 2
  · rw [if_pos hk] at hb
    obtain ⟨reserved, gs, tail, hh, ⟨hc, hf⟩, hm, b1, b2, b3, b4, b5, e⟩ := hb
    have eb := hr.2.2
    rw [e] at eb
    have h1 := number_in A B (leBytes 4 r.relationship ++ leBytes 4 bytes.length) _ 1 r.level
      (eb.trans (by simp only [List.append_assoc]; rfl)) (by omega) (p := A.length + 8) (by simp [length_leBytes])
    have h2 := number_in A B (leBytes 4 r.relationship ++ leBytes 4 bytes.length ++ leBytes 1 r.level) _ 1
      r.associativity (eb.trans (by simp only [List.append_assoc]; rfl)) (by omega) (p := A.length + 9)
      (by simp [length_leBytes])
    have h3 := number_in A B (leBytes 4 r.relationship ++ leBytes 4 bytes.length ++ leBytes 1 r.level ++
      leBytes 1 r.associativity) _ 2 r.lineSize (eb.trans (by simp only [List.append_assoc]; rfl)) (by omega)
      (p := A.length + 10) (by simp [length_leBytes])
    have h4 := number_in A B (leBytes 4 r.relationship ++ leBytes 4 bytes.length ++ leBytes 1 r.level ++
      leBytes 1 r.associativity ++ leBytes 2 r.lineSize) _ 4 r.size
      (eb.trans (by simp only [List.append_assoc]; rfl)) (by omega) (p := A.length + 12) (by simp [length_leBytes])
    have h5 := number_in A B (leBytes 4 r.relationship ++ leBytes 4 bytes.length ++ leBytes 1 r.level ++
      leBytes 1 r.associativity ++ leBytes 2 r.lineSize ++ leBytes 4 r.size) _ 4 r.type
      (eb.trans (by simp only [List.append_assoc]; rfl)) (by omega) (p := A.length + 16) (by simp [length_leBytes])
    have h6 := number_in A B (leBytes 4 r.relationship ++ leBytes 4 bytes.length ++ leBytes 1 r.level ++
      leBytes 1 r.associativity ++ leBytes 2 r.lineSize ++ leBytes 4 r.size ++ leBytes 4 r.type ++ reserved)
      _ 2 gs.length (eb.trans (by simp only [List.append_assoc]; rfl)) (by omega) (p := A.length + 38)
      (by simp [length_leBytes, hh])
    have h7 := masks_in w gs A B (leBytes 4 r.relationship ++ leBytes 4 bytes.length ++
      leBytes 1 r.level ++ leBytes 1 r.associativity ++ leBytes 2 r.lineSize ++ leBytes 4 r.size ++
      leBytes 4 r.type ++ reserved ++ leBytes 2 gs.length) tail
      (eb.trans (by simp only [List.append_assoc])) hf (p := A.length + 40)
      (by simp [length_leBytes, hh])
    generalize A ++ bytes.map some ++ B = m at h1 h2 h3 h4 h5 h6 h7
    simp only [Option.bind_eq_bind, Option.bind_some, hk, relationCache, ne_eq, not_true_eq_false, if_false,
      h1, h2, h3, h4, h5, h6, h7, hm]
    rw [← hk]
  · rw [if_neg hk] at hb
    simp only [Option.bind_eq_bind, Option.bind_some, ne_eq, hk, relationCache, not_false_eq_true, if_true]
    exact congrArg some hb.symm

/-- A way of reading that gives the record which the bytes are. -/
structure Reads {α : Type} (read : Cells → Nat → Option α) (Is : α → List Nat → Prop) : Prop where
  record : ∀ {r : α} {bytes : List Nat}, Is r bytes → ∀ A B : Cells,
    read (A ++ bytes.map some ++ B) A.length = some r
  size : ∀ {r : α} {bytes : List Nat}, Is r bytes → ∀ A B : Cells,
    field (A ++ bytes.map some ++ B) (A.length + 4) 4 = some bytes.length
  pos : ∀ {r : α} {bytes : List Nat}, Is r bytes → 0 < bytes.length

theorem reads_info (w kind : Nat) : Reads (info w kind) (IsInfo w kind) where
  record h := info_at h
  size h := by obtain ⟨rest, hr, _⟩ := h; exact size_at hr
  pos h := by obtain ⟨rest, hr, _⟩ := h; rw [length_record hr]; omega

theorem reads_cacheInfo (w : Nat) : Reads (cacheInfo w) (IsCacheInfo w) where
  record h := cacheInfo_at h
  size h := by obtain ⟨rest, hr, _⟩ := h; exact size_at hr
  pos h := by obtain ⟨rest, hr, _⟩ := h; rw [length_record hr]; omega

/-- The records at the end of `A` are read one by one; then the walk goes on behind them. -/
theorem walk_records {α : Type} {read : Cells → Nat → Option α} {Is : α → List Nat → Prop}
    (hI : Reads read Is) {rs : List α} {bytes : List Nat} (h : AreRecords Is rs bytes) (A B : Cells)
    (stop : Nat) (hs : A.length + bytes.length ≤ stop) (fuel : Nat) :
    walk read (A ++ bytes.map some ++ B) stop (rs.length + fuel) A.length =
      match walk read (A ++ bytes.map some ++ B) stop fuel (A.length + bytes.length) with
      | .done more => .done (rs ++ more)
      | o => o := by
  induction h generalizing A with
  | nil =>
    simp only [List.length_nil, Nat.zero_add, Nat.add_zero, List.nil_append]
    split <;> simp_all
  | @cons r rs bytes more hr ht ih =>
    have e : A ++ (bytes ++ more).map some ++ B = A ++ bytes.map some ++ (more.map some ++ B) := by
      simp [List.append_assoc]
    have e2 : A ++ (bytes ++ more).map some ++ B = (A ++ bytes.map some) ++ more.map some ++ B := by
      simp [List.append_assoc]
    have h1 := hI.record hr A (more.map some ++ B)
    have h2 := hI.size hr A (more.map some ++ B)
    rw [← e] at h1 h2
    have hp := hI.pos hr
    have hl : (bytes ++ more).length = bytes.length + more.length := List.length_append
    have h3 := ih (A ++ bytes.map some) (by simp only [List.length_append, List.length_map] at hs ⊢; omega)
    rw [← e2] at h3
    simp only [List.length_append, List.length_map] at h3
    rw [show (r :: rs).length + fuel = rs.length + fuel + 1 by simp only [List.length_cons]; omega]
    rw [walk, if_neg (by omega), h1, h2]
    dsimp only
    rw [h3, hl, Nat.add_assoc]
    cases walk read (A ++ (bytes ++ more).map some ++ B) stop fuel (A.length + (bytes.length + more.length))
      <;> simp

/-- All records, if the end is that of the bytes. -/
theorem walk_all {α : Type} {read : Cells → Nat → Option α} {Is : α → List Nat → Prop}
    (hI : Reads read Is) {rs : List α} {bytes : List Nat} (h : AreRecords Is rs bytes) (B : Cells)
    (fuel : Nat) (hf : rs.length < fuel) :
    walk read (bytes.map some ++ B) bytes.length fuel 0 = .done rs := by
  have h1 := walk_records hI h [] B bytes.length (by simp) (fuel - rs.length)
  rw [show rs.length + (fuel - rs.length) = fuel by omega] at h1
  simp only [List.nil_append, List.length_nil, Nat.zero_add] at h1
  rw [h1]
  obtain ⟨n, hn⟩ : ∃ n, fuel - rs.length = n + 1 := ⟨fuel - rs.length - 1, by omega⟩
  rw [hn, walk, if_pos (Nat.le_refl _)]
  simp

end Verif.Proof.WinBuffer
