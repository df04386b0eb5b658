import Verif.Proof.ChipsetLinux
import Verif.Spec.ArmChipsetAndroid

/-!
# Chipset detection on Android
-/

set_option autoImplicit false

namespace Verif.ArmChipset
open Spec.Chipsets

/-! ## Corrections of all chipsets -/

instance : LawfulMonad Match := LawfulMonad.mk'
  (id_map := fun x => by cases x <;> rfl)
  (pure_bind := fun _ _ => rfl)
  (bind_assoc := fun x _ _ => by cases x <;> rfl)

/-- Pointwise relation of two lists. -/
inductive Pointwise {α β : Type} (R : α → β → Prop) : List α → List β → Prop
  | nil : Pointwise R [] []
  | cons {a : α} {b : β} {as : List α} {bs : List β} :
      R a b → Pointwise R as bs → Pointwise R (a :: as) (b :: bs)

theorem pointwise_mono {α β : Type} {R S : α → β → Prop} (h : ∀ a b, R a b → S a b)
    {as : List α} {bs : List β} (hp : Pointwise R as bs) : Pointwise S as bs := by
  induction hp with
  | nil => exact .nil
  | cons h1 _ ih => exact .cons (h _ _ h1) ih

theorem pointwise_get {α β : Type} {R : α → β → Prop} {as : List α} {bs : List β}
    (hp : Pointwise R as bs) : ∀ {i : Nat} {a : α}, as[i]? = some a → ∃ b, bs[i]? = some b ∧ R a b := by
  induction hp with
  | nil => intro i a h; simp at h
  | cons h1 _ ih =>
    intro i a h
    cases i with
    | zero => simp only [List.getElem?_cons_zero, Option.some.injEq] at h; subst h; exact ⟨_, rfl, h1⟩
    | succ i => exact ih h

theorem pointwise_get' {α β : Type} {R : α → β → Prop} {as : List α} {bs : List β}
    (hp : Pointwise R as bs) : ∀ {i : Nat} {b : β}, bs[i]? = some b → ∃ a, as[i]? = some a ∧ R a b := by
  induction hp with
  | nil => intro i a h; simp at h
  | cons h1 _ ih =>
    intro i a h
    cases i with
    | zero => simp only [List.getElem?_cons_zero, Option.some.injEq] at h; subst h; exact ⟨_, rfl, h1⟩
    | succ i => exact ih h

theorem pointwise_length {α β : Type} {R : α → β → Prop} {as : List α} {bs : List β}
    (hp : Pointwise R as bs) : as.length = bs.length := by
  induction hp with
  | nil => rfl
  | cons _ _ ih => simp [ih]

theorem fixAll {arm32 : Bool} {cores freq : Nat} : ∀ {cs : List Chipset}, (∀ c ∈ cs, Valid c) →
    ∃ ds, cs.mapM (fun c => fixup arm32 c cores freq) = .yes ds ∧
      Pointwise (fun c d => fixup arm32 c cores freq = .yes d ∧ Valid d ∧ d.vendor = c.vendor ∧
        (d.series = .unknown ↔ c.series = .unknown)) cs ds
  | [], _ => ⟨[], by simp; rfl, .nil⟩
  | c :: cs, h => by
    obtain ⟨d, h1, h2⟩ := fixup_valid (arm32 := arm32) (cores := cores) (freq := freq)
      (h c (by simp))
    obtain ⟨ds, h3, h4⟩ := fixAll (arm32 := arm32) (cores := cores) (freq := freq) (cs := cs)
      (fun c hc => h c (by simp [hc]))
    refine ⟨d :: ds, ?_, .cons ⟨h1, h2⟩ h4⟩
    rw [List.mapM_cons, h1, yes_bind, h3, yes_bind]
    rfl

/-! ## Suffix propagation -/

/-- Vendor, series and model. -/
def key (c : Chipset) : Vendor × Series × Nat := (c.vendor, c.series, c.model)

/-- The length of the suffix. -/
def lengthOf (c : Chipset) : Nat := (textIn 8 c.suffix).length

theorem lengthOf_text {c : Chipset} {t : Bytes} (ht : SuffixText t) (h : HasSuffix c t) :
    lengthOf c = t.length := by
  unfold lengthOf
  rw [show c.suffix = padded t from h, suffixText_text ht]

theorem suffixText_take {t : Bytes} (h : SuffixText t) (n : Nat) : SuffixText (t.take n) :=
  ⟨by have := h.1; simp; omega, fun c hc => h.2 c (List.mem_of_mem_take hc)⟩

theorem copy_short {t u : Bytes} {n : Nat} (ht : SuffixText t)
    (hn : n ≤ t.length) (hl : u.length ≤ n) :
    copySuffix (padded u) (padded t) n = padded (t.take n) := by
  have h1 := ht.1
  unfold copySuffix padded
  rw [List.take_append_of_le_length hn, List.drop_append, List.drop_of_length_le hl,
    List.nil_append, List.drop_replicate, List.length_take, Nat.min_eq_left hn]
  congr 2; omega

theorem copy_long {t u : Bytes} (ht : SuffixText t) (hu : SuffixText u) :
    SuffixText (u ++ t.drop u.length) ∧
      copySuffix (padded t) (padded u) u.length = padded (u ++ t.drop u.length) := by
  have h1 := ht.1; have h2 := hu.1
  refine ⟨⟨by simp; omega, fun c hc => ?_⟩, ?_⟩
  · rcases List.mem_append.mp hc with h | h
    · exact hu.2 c h
    · exact ht.2 c (List.mem_of_mem_drop h)
  · unfold copySuffix padded
    rw [List.take_append_of_le_length (Nat.le_refl _), List.take_length, List.drop_append,
      List.drop_replicate, List.append_assoc, List.length_append, List.length_drop]
    congr 3; omega

theorem valid_set {c : Chipset} {t : Bytes} (h : Valid c) (hn : c.series ≠ .unknown)
    (ht : SuffixText t) : Valid { c with suffix := padded t } := by
  rcases h with rfl | ⟨h1, h2, h3, _⟩
  · exact absurd rfl hn
  · exact .inr ⟨h1, h2, h3, t, ht, rfl⟩

theorem pair_valid {n : Nat} {a b : Chipset} (ha : Valid a) (hb : Valid b) (hn : n ≤ lengthOf a) :
    Valid (propagatePair n a b).1 ∧ Valid (propagatePair n a b).2 ∧
      n ≤ lengthOf (propagatePair n a b).1 ∧ key (propagatePair n a b).1 = key a ∧
      key (propagatePair n a b).2 = key b := by
  obtain ⟨t, ht, hat⟩ := valid_suffix ha
  obtain ⟨u, hu, hbu⟩ := valid_suffix hb
  have la := lengthOf_text ht hat
  have lb := lengthOf_text hu hbu
  unfold propagatePair
  simp only
  split
  · rename_i h
    obtain ⟨h1, h2, h3⟩ := h
    rw [show (textIn 8 b.suffix).length = lengthOf b from rfl, lb] at h2 ⊢
    have hsa : a.series ≠ .unknown := by
      intro e
      have ea : a = .unknown := by
        rcases ha with h | h
        · exact h
        · exact absurd e h.1
      have eb : b = .unknown := by
        rcases hb with h | h
        · exact h
        · exact absurd (h1.symm.trans e) h.1
      have z1 : lengthOf a = 0 := by rw [ea]; decide
      have z2 : lengthOf b = 0 := by rw [eb]; decide
      omega
    have hsb : b.series ≠ .unknown := h1 ▸ hsa
    split
    · rename_i h4
      rw [show a.suffix = padded t from hat, show b.suffix = padded u from hbu,
        copy_short ht (by omega) (by omega)]
      exact ⟨ha, valid_set hb hsb (suffixText_take ht _), hn, rfl, rfl⟩
    · rename_i h4
      obtain ⟨h5, h6⟩ := copy_long ht hu
      rw [show a.suffix = padded t from hat, show b.suffix = padded u from hbu, h6]
      refine ⟨valid_set ha hsa h5, hb, ?_, rfl, rfl⟩
      rw [lengthOf_text (c := { a with suffix := padded (u ++ t.drop u.length) }) h5 rfl]
      simp; omega
  · exact ⟨ha, hb, hn, rfl, rfl⟩

theorem inner_valid {n : Nat} : ∀ {a : Chipset} {cs : List Chipset}, Valid a →
    (∀ c ∈ cs, Valid c) → n ≤ lengthOf a →
    Valid (propagateInner n a cs).1 ∧ (∀ c ∈ (propagateInner n a cs).2, Valid c) ∧
      key (propagateInner n a cs).1 = key a ∧ (propagateInner n a cs).2.map key = cs.map key
  | a, [], ha, _, _ => ⟨ha, by simp [propagateInner], rfl, rfl⟩
  | a, c :: cs, ha, hcs, hn => by
    obtain ⟨h1, h2, h3, h4, h5⟩ := pair_valid ha (hcs c (by simp)) hn
    obtain ⟨h6, h7, h8, h9⟩ := inner_valid (cs := cs) h1 (fun d hd => hcs d (by simp [hd])) h3
    simp only [propagateInner]
    refine ⟨h6, ?_, h8.trans h4, ?_⟩
    · intro d hd
      rcases List.mem_cons.mp hd with rfl | hd
      · exact h2
      · exact h7 d hd
    · simp only [List.map_cons, h5, h9]

theorem propagate_valid : ∀ {cs done : List Chipset}, (∀ c ∈ cs, Valid c) → (∀ c ∈ done, Valid c) →
    (∀ c ∈ propagate done cs, Valid c) ∧ (propagate done cs).map key = (done ++ cs).map key
  | [], done, _, hd => ⟨by simpa [propagate] using hd, by simp [propagate]⟩
  | c :: cs, done, hc, hd => by
    obtain ⟨h1, h2, h3, h4⟩ := inner_valid (n := lengthOf c) (hc c (by simp)) hd (Nat.le_refl _)
    simp only [propagate]
    obtain ⟨h5, h6⟩ := propagate_valid (cs := cs)
      (done := (propagateInner (lengthOf c) c done).2 ++ [(propagateInner (lengthOf c) c done).1])
      (fun d hd => hc d (by simp [hd])) (by
        intro d hd
        rcases List.mem_append.mp hd with h | h
        · exact h2 d h
        · rw [List.mem_singleton] at h; rw [h]; exact h1)
    refine ⟨h5, ?_⟩
    rw [show (textIn 8 c.suffix).length = lengthOf c from rfl, h6]
    simp [h3, h4]

/-- A property kept by every pair is kept by the whole propagation. -/
theorem propagate_inv {Q : Chipset → Prop}
    (hpair : ∀ n a b, Q a → Q b → Q (propagatePair n a b).1 ∧ Q (propagatePair n a b).2) :
    ∀ {cs done : List Chipset}, (∀ c ∈ cs, Q c) → (∀ c ∈ done, Q c) →
      ∀ c ∈ propagate done cs, Q c := by
  have inner : ∀ {n : Nat} {cs : List Chipset} {a : Chipset}, Q a → (∀ c ∈ cs, Q c) →
      Q (propagateInner n a cs).1 ∧ ∀ c ∈ (propagateInner n a cs).2, Q c := by
    intro n cs
    induction cs with
    | nil => intro a ha _; exact ⟨ha, by simp [propagateInner]⟩
    | cons c cs ih =>
      intro a ha hc
      obtain ⟨h1, h2⟩ := hpair n a c ha (hc c (by simp))
      obtain ⟨h3, h4⟩ := ih h1 (fun d hd => hc d (by simp [hd]))
      simp only [propagateInner]
      refine ⟨h3, fun d hd => ?_⟩
      rcases List.mem_cons.mp hd with rfl | hd
      · exact h2
      · exact h4 d hd
  intro cs
  induction cs with
  | nil => intro done _ hd c hc; exact hd c hc
  | cons c cs ih =>
    intro done hc hd
    obtain ⟨h1, h2⟩ := inner (n := (textIn 8 c.suffix).length) (hc c (by simp)) hd
    simp only [propagate]
    refine ih (fun d h => hc d (by simp [h])) (fun d h => ?_)
    rcases List.mem_append.mp h with h | h
    · exact h2 d h
    · rw [List.mem_singleton] at h; rw [h]; exact h1

theorem copy_get {dst src : Bytes} {n i : Nat} {x : Byte} (hs : src.length = 8) (hd : dst.length = 8)
    (hn : n ≤ 8) (h : (copySuffix dst src n)[i]? = some x) :
    src[i]? = some x ∨ dst[i]? = some x := by
  unfold copySuffix at h
  rw [List.getElem?_append, List.length_take, hs, Nat.min_eq_left hn] at h
  split at h
  · rename_i hi
    rw [List.getElem?_take_of_lt hi] at h; exact .inl h
  · rename_i hi
    rw [List.getElem?_drop, show n + (i - n) = i by omega] at h; exact .inr h

/-- Characters of suffixes stay at their place and in their series. -/
theorem propagate_suffix {cs : List Chipset} (hv : ∀ c ∈ cs, c.suffix.length = 8) {r : Chipset}
    (hr : r ∈ propagate [] cs) : ∀ (i : Nat) (x : Byte), r.suffix[i]? = some x →
      ∃ d ∈ cs, d.series = r.series ∧ d.suffix[i]? = some x := by
  have := propagate_inv (cs := cs) (done := [])
    (Q := fun r => r.suffix.length = 8 ∧ ∀ (i : Nat) (x : Byte), r.suffix[i]? = some x →
      ∃ d ∈ cs, d.series = r.series ∧ d.suffix[i]? = some x) ?_
    (fun c hc => ⟨hv c hc, fun i x h => ⟨c, hc, rfl, h⟩⟩) (by simp) r hr
  · exact this.2
  intro n a b ⟨la, ha⟩ ⟨lb, hb⟩
  have lt := text_length 8 b.suffix
  unfold propagatePair
  simp only
  split
  · rename_i h
    obtain ⟨h1, h2, h3⟩ := h
    split
    · rename_i h4
      refine ⟨⟨la, ha⟩, ?_⟩
      by_cases hn : n ≤ 8
      · refine ⟨by simp [copySuffix, la, lb]; omega, fun i x h => ?_⟩
        rcases copy_get la lb hn h with h | h
        · obtain ⟨d, hd, e, hx⟩ := ha i x h
          exact ⟨d, hd, e.trans h1, hx⟩
        · exact hb i x h
      · have e : copySuffix b.suffix a.suffix n = a.suffix := by
          unfold copySuffix
          rw [List.take_of_length_le (by omega), List.drop_of_length_le (by omega), List.append_nil]
        simp only [e]
        refine ⟨la, fun i x h => ?_⟩
        obtain ⟨d, hd, e, hx⟩ := ha i x h
        exact ⟨d, hd, e.trans h1, hx⟩
    · refine ⟨⟨by simp [copySuffix, la, lb]; omega, fun i x h => ?_⟩, lb, hb⟩
      rcases copy_get lb la lt h with h | h
      · obtain ⟨d, hd, e, hx⟩ := hb i x h
        exact ⟨d, hd, e.trans h1.symm, hx⟩
      · exact ha i x h
  · exact ⟨⟨la, ha⟩, lb, hb⟩

/-- Chipsets that are unknown or all the same are left as they are. -/
theorem propagate_same {x : Chipset} : ∀ {cs done : List Chipset},
    (∀ c ∈ cs, c = .unknown ∨ c = x) → (∀ c ∈ done, c = .unknown ∨ c = x) →
    x.series ≠ .unknown → propagate done cs = done ++ cs := by
  have pair : ∀ {a b : Chipset}, (a = .unknown ∨ a = x) → (b = .unknown ∨ b = x) →
      x.series ≠ .unknown → propagatePair (lengthOf a) a b = (a, b) := by
    intro a b ha hb hx
    unfold propagatePair
    simp only
    rw [if_neg]
    rintro ⟨h1, h2, _⟩
    rcases ha with rfl | rfl <;> rcases hb with rfl | rfl
    · exact h2 rfl
    · exact hx h1.symm
    · exact hx h1
    · exact h2 rfl
  have inner : ∀ {cs : List Chipset} {a : Chipset}, (a = .unknown ∨ a = x) →
      (∀ c ∈ cs, c = .unknown ∨ c = x) → x.series ≠ .unknown →
      propagateInner (lengthOf a) a cs = (a, cs) := by
    intro cs
    induction cs with
    | nil => intro a _ _ _; rfl
    | cons c cs ih =>
      intro a ha hc hx
      simp only [propagateInner, pair ha (hc c (by simp)) hx,
        ih ha (fun d hd => hc d (by simp [hd])) hx]
  intro cs
  induction cs with
  | nil => intro done _ _ _; simp [propagate]
  | cons c cs ih =>
    intro done hc hd hx
    simp only [propagate]
    rw [show (textIn 8 c.suffix).length = lengthOf c from rfl, inner (hc c (by simp)) hd hx]
    simp only
    rw [ih (fun d h => hc d (by simp [h])) _ hx, List.append_assoc]
    · rfl
    · intro d h
      rcases List.mem_append.mp h with h | h
      · exact hd d h
      · rw [List.mem_singleton] at h; rw [h]; exact hc c (by simp)

/-! ## Choosing a chipset -/

theorem vendor_none : ∀ {cs : List Chipset} {v : Vendor}, commonVendor cs v = none →
    ∃ a b, (a ∈ cs.map (·.vendor) ∨ a = v) ∧ b ∈ cs.map (·.vendor) ∧ a ≠ .unknown ∧ b ≠ .unknown ∧
      a ≠ b
  | [], v, h => by simp [commonVendor] at h
  | c :: cs, v, h => by
    unfold commonVendor at h
    split at h
    · rename_i h1
      split at h
      · obtain ⟨a, b, h2, h3, h4⟩ := vendor_none h
        refine ⟨a, b, .inl ?_, by simp [h3], h4⟩
        rcases h2 with h2 | rfl
        · simp [h2]
        · simp
      · rename_i h2
        split at h
        · rename_i h3
          exact ⟨v, c.vendor, .inr rfl, by simp, h2, h1, h3⟩
        · obtain ⟨a, b, h2, h3, h4⟩ := vendor_none h
          refine ⟨a, b, ?_, by simp [h3], h4⟩
          rcases h2 with h2 | rfl
          · exact .inl (by simp [h2])
          · exact .inr rfl
    · obtain ⟨a, b, h2, h3, h4⟩ := vendor_none h
      refine ⟨a, b, ?_, by simp [h3], h4⟩
      rcases h2 with h2 | rfl
      · exact .inl (by simp [h2])
      · exact .inr rfl

theorem vendor_some : ∀ {cs : List Chipset} {v w : Vendor}, commonVendor cs v = some w →
    (∀ c ∈ cs, c.vendor = .unknown ∨ c.vendor = w) ∧ (v = .unknown ∨ v = w) ∧
      (w = v ∨ ∃ c ∈ cs, c.vendor = w)
  | [], v, w, h => by
    simp only [commonVendor, Option.some.injEq] at h
    subst h
    exact ⟨by simp, .inr rfl, .inl rfl⟩
  | c :: cs, v, w, h => by
    unfold commonVendor at h
    split at h
    · rename_i h1
      split at h
      · rename_i h2
        obtain ⟨h3, h4, h5⟩ := vendor_some h
        have h6 : c.vendor = w := h4.resolve_left h1
        refine ⟨fun d hd => ?_, .inl h2, .inr ⟨c, by simp, h6⟩⟩
        rcases List.mem_cons.mp hd with rfl | hd
        · exact .inr h6
        · exact h3 d hd
      · rename_i h2
        split at h
        · cases h
        · rename_i h3
          obtain ⟨h4, h5, h6⟩ := vendor_some h
          have hv := h5.resolve_left h2
          refine ⟨fun d hd => ?_, h5, .inl hv.symm⟩
          rcases List.mem_cons.mp hd with rfl | hd
          · simp only [ne_eq, Decidable.not_not] at h3; exact .inr (h3 ▸ hv)
          · exact h4 d hd
    · rename_i h1
      obtain ⟨h2, h3, h4⟩ := vendor_some h
      refine ⟨fun d hd => ?_, h3, h4.imp_right fun ⟨d, hd, h⟩ => ⟨d, by simp [hd], h⟩⟩
      rcases List.mem_cons.mp hd with rfl | hd
      · simp only [ne_eq, Decidable.not_not] at h1; exact .inl h1
      · exact h2 d hd

theorem differ_false {a b : Chipset} : differ a b = false ↔
    a.series = b.series ∧ a.model = b.model ∧ textIn 8 a.suffix = textIn 8 b.suffix := by
  simp [differ, and_assoc]

/-- The chosen chipset is the initial one or one of the list, and the known ones do not differ. -/
theorem agreed_some : ∀ {cs : List Chipset} {x r : Chipset}, agreed x cs = some r →
    (r = x ∨ r ∈ cs) ∧ (x.series ≠ .unknown → r = x) ∧
      (∀ c ∈ cs, c.series ≠ .unknown → differ c r = false) ∧
      (r.series = .unknown → r = x)
  | [], x, r, h => by
    simp only [agreed, Option.some.injEq] at h
    subst h
    exact ⟨.inl rfl, fun _ => rfl, by simp, fun _ => rfl⟩
  | c :: cs, x, r, h => by
    unfold agreed at h
    split at h
    · rename_i h1
      split at h
      · rename_i h2
        obtain ⟨h3, h4, h5, h6⟩ := agreed_some h
        have e := h4 h1
        refine ⟨.inr ?_, fun h => absurd h2 h, ?_, fun hr => absurd (e ▸ hr) h1⟩
        · rw [e]; simp
        · intro d hd hk
          rcases List.mem_cons.mp hd with rfl | hd
          · rw [e]; simp [differ]
          · exact h5 d hd hk
      · rename_i h2
        split at h
        · cases h
        · rename_i h3
          obtain ⟨h4, h5, h6, h7⟩ := agreed_some h
          have e := h5 h2
          refine ⟨.inl e, fun _ => e, ?_, h7⟩
          intro d hd hk
          rcases List.mem_cons.mp hd with rfl | hd
          · rw [e]; simpa using h3
          · exact h6 d hd hk
    · rename_i h1
      obtain ⟨h2, h3, h4, h5⟩ := agreed_some h
      refine ⟨h2.imp_right (by simp +contextual), h3, ?_, h5⟩
      intro d hd hk
      rcases List.mem_cons.mp hd with rfl | hd
      · exact absurd hk h1
      · exact h4 d hd hk

theorem agreed_none : ∀ {cs : List Chipset} {x : Chipset}, agreed x cs = none →
    ∃ a b, (a ∈ cs ∨ a = x) ∧ b ∈ cs ∧ a.series ≠ .unknown ∧ b.series ≠ .unknown ∧
      differ b a = true
  | [], x, h => by simp [agreed] at h
  | c :: cs, x, h => by
    unfold agreed at h
    split at h
    · rename_i h1
      split at h
      · obtain ⟨a, b, h2, h3, h4⟩ := agreed_none h
        refine ⟨a, b, .inl ?_, by simp [h3], h4⟩
        rcases h2 with h2 | rfl
        · simp [h2]
        · simp
      · rename_i h2
        split at h
        · rename_i h3
          exact ⟨x, c, .inr rfl, by simp, h2, h1, h3⟩
        · obtain ⟨a, b, h2, h3, h4⟩ := agreed_none h
          refine ⟨a, b, ?_, by simp [h3], h4⟩
          exact h2.imp_left (by simp +contextual)
    · obtain ⟨a, b, h2, h3, h4⟩ := agreed_none h
      refine ⟨a, b, ?_, by simp [h3], h4⟩
      exact h2.imp_left (by simp +contextual)

theorem firstKnown_mem : ∀ {cs : List Chipset} {last : Chipset},
    firstKnown cs last ∈ cs ∨ firstKnown cs last = last
  | [], _ => .inr rfl
  | c :: cs, last => by
    unfold firstKnown
    split
    · simp
    · exact (firstKnown_mem (cs := cs)).imp_left (by simp +contextual)

/-- The chipset of each source in a list of seven. -/
def pick (a b c d e f g : Chipset) : Source → Chipset
  | .hardware => a
  | .board => b
  | .platform => c
  | .mediatek => d
  | .arch => e
  | .chipname => f
  | .hardwareChipname => g

theorem unknown_of_valid {c : Chipset} (h : Valid c) (hs : ¬ Known c) : c = .unknown := by
  rcases h with h | h
  · exact h
  · exact absurd h.1 hs

theorem firstKnown_source {e : Source → Chipset} (hv : ∀ s, Valid (e s)) {last : Source} :
    ∀ {xs : List Source},
      (∃ s, FirstSource (fun s => Known (e s)) (xs ++ [last]) s ∧
        firstKnown (xs.map e) (e last) = e s) ∨
      ((∀ s ∈ xs ++ [last], ¬ Known (e s)) ∧ firstKnown (xs.map e) (e last) = .unknown)
  | [] => by
    by_cases h : Known (e last)
    · exact .inl ⟨last, .inl ⟨h, rfl⟩, rfl⟩
    · refine .inr ⟨by simpa using h, ?_⟩
      exact unknown_of_valid (hv last) h
  | x :: xs => by
    by_cases h : Known (e x)
    · refine .inl ⟨x, .inl ⟨h, rfl⟩, ?_⟩
      simp only [List.map_cons, firstKnown]
      exact if_pos h
    · have hf : firstKnown ((x :: xs).map e) (e last) = firstKnown (xs.map e) (e last) := by
        simp only [List.map_cons, firstKnown]
        exact if_neg h
      rw [hf]
      rcases firstKnown_source hv (last := last) (xs := xs) with ⟨s, h1, h2⟩ | ⟨h1, h2⟩
      · exact .inl ⟨s, .inr ⟨h, h1⟩, h2⟩
      · refine .inr ⟨fun s hs => ?_, h2⟩
        rcases List.mem_cons.mp hs with rfl | hs
        · exact h
        · exact h1 s hs

theorem disambiguate_source (v : Vendor) (e : Source → Chipset) :
    (trusted v = [] ∧ disambiguate v (e .hardware) (e .board) (e .platform) (e .mediatek)
      (e .chipname) (e .hardwareChipname) = .unknown) ∨
    ∃ xs last, trusted v = xs ++ [last] ∧ disambiguate v (e .hardware) (e .board) (e .platform)
      (e .mediatek) (e .chipname) (e .hardwareChipname) = firstKnown (xs.map e) (e last) := by
  cases v
  case qualcomm => exact .inr ⟨[.hardwareChipname, .chipname, .hardware, .board], .platform, rfl, rfl⟩
  case mediatek => exact .inr ⟨[.chipname, .hardware, .board, .platform], .mediatek, rfl, rfl⟩
  case hisilicon => exact .inr ⟨[.hardware, .board], .platform, rfl, rfl⟩
  case amlogic => exact .inr ⟨[.hardware], .platform, rfl, rfl⟩
  case marvell => exact .inr ⟨[.chipname, .board], .hardware, rfl, rfl⟩
  case rockchip => exact .inr ⟨[.board, .hardware], .platform, rfl, rfl⟩
  case spreadtrum => exact .inr ⟨[.chipname, .board, .hardware], .platform, rfl, rfl⟩
  all_goals exact .inl ⟨rfl, rfl⟩

theorem seven {α : Type} {l : List α} (h : l.length = 7) :
    ∃ a b c d e f g, l = [a, b, c, d, e, f, g] := by
  match l, h with
  | [a, b, c, d, e, f, g], _ => exact ⟨a, b, c, d, e, f, g, rfl⟩

theorem vendor_unknown {c : Chipset} (h : Valid c) : c.vendor = .unknown ↔ c = .unknown := by
  constructor
  · intro e
    rcases h with h | ⟨h1, h2, _⟩
    · exact h
    · rw [e] at h2
      exact absurd (by simpa [seriesOf] using h2) h1
  · rintro rfl; rfl

theorem known_iff {c : Chipset} (h : Valid c) : Known c ↔ c ≠ .unknown := by
  constructor
  · rintro h1 rfl; exact h1 rfl
  · intro h1 h2
    exact h1 (unknown_of_valid h (fun h3 => h3 h2))

theorem combine_some {arm32 : Bool} {cores freq : Nat} {cs fs : List Chipset} {w : Vendor}
    (hcv : commonVendor cs .unknown = some w) (hwu : w ≠ .unknown)
    (hmap : cs.mapM (fun c => fixup arm32 c cores freq) = .yes fs) :
    combine arm32 cs cores freq =
      match agreed .unknown (propagate [] fs) with
      | some c => .yes c
      | none =>
        match propagate [] fs with
        | [hardware, board, platform, mediatek, _, chipname, hardwareChipname] =>
          .yes (disambiguate w hardware board platform mediatek chipname hardwareChipname)
        | _ => .outside := by
  unfold combine
  rw [hcv]
  split
  · rename_i h; cases h
  · rename_i h; injection h with h; exact absurd h hwu
  · rename_i h
    injection h with h
    subst h
    rw [hmap, yes_bind]
    rfl

/-- The suffix comes from the sources, and the chipset is what propagation made of one of them. -/
def Passed (ds : Source → Chipset) (r : Chipset) : Prop :=
  SuffixFromSources ds r ∧ r ∈ propagate [] [ds .hardware, ds .board, ds .platform, ds .mediatek, ds .arch,
    ds .chipname, ds .hardwareChipname]

theorem combine_chosen {arm32 : Bool} {cores freq : Nat} {c0 c1 c2 c3 c4 c5 c6 : Chipset}
    (hv : ∀ s, Valid (pick c0 c1 c2 c3 c4 c5 c6 s)) :
    ∃ ds r, (∀ s, fixup arm32 (pick c0 c1 c2 c3 c4 c5 c6 s) cores freq = .yes (ds s)) ∧
      (∀ s, Valid (ds s)) ∧
      combine arm32 [c0, c1, c2, c3, c4, c5, c6] cores freq = .yes r ∧ Valid r ∧ Chosen ds r ∧
      (Known r → Passed ds r) := by
  have hcs : ∀ c ∈ [c0, c1, c2, c3, c4, c5, c6], Valid c := by
    intro c hc
    simp only [List.mem_cons, List.not_mem_nil, or_false] at hc
    rcases hc with rfl | rfl | rfl | rfl | rfl | rfl | rfl
    · exact hv .hardware
    · exact hv .board
    · exact hv .platform
    · exact hv .mediatek
    · exact hv .arch
    · exact hv .chipname
    · exact hv .hardwareChipname
  obtain ⟨fs, hmap, hp⟩ := fixAll (arm32 := arm32) (cores := cores) (freq := freq) hcs
  obtain ⟨d0, d1, d2, d3, d4, d5, d6, rfl⟩ := seven (pointwise_length hp).symm
  rcases hp with _ | ⟨p0, hp⟩; rcases hp with _ | ⟨p1, hp⟩; rcases hp with _ | ⟨p2, hp⟩
  rcases hp with _ | ⟨p3, hp⟩; rcases hp with _ | ⟨p4, hp⟩; rcases hp with _ | ⟨p5, hp⟩
  rcases hp with _ | ⟨p6, hp⟩
  have hd : ∀ s, fixup arm32 (pick c0 c1 c2 c3 c4 c5 c6 s) cores freq =
      .yes (pick d0 d1 d2 d3 d4 d5 d6 s) ∧ Valid (pick d0 d1 d2 d3 d4 d5 d6 s) ∧
      (pick d0 d1 d2 d3 d4 d5 d6 s).vendor = (pick c0 c1 c2 c3 c4 c5 c6 s).vendor := by
    intro s
    cases s
    · exact ⟨p0.1, p0.2.1, p0.2.2.1⟩
    · exact ⟨p1.1, p1.2.1, p1.2.2.1⟩
    · exact ⟨p2.1, p2.2.1, p2.2.2.1⟩
    · exact ⟨p3.1, p3.2.1, p3.2.2.1⟩
    · exact ⟨p4.1, p4.2.1, p4.2.2.1⟩
    · exact ⟨p5.1, p5.2.1, p5.2.2.1⟩
    · exact ⟨p6.1, p6.2.1, p6.2.2.1⟩
  have mem_pick : ∀ {x0 x1 x2 x3 x4 x5 x6 y : Chipset}, y ∈ [x0, x1, x2, x3, x4, x5, x6] ↔
      ∃ s, y = pick x0 x1 x2 x3 x4 x5 x6 s := by
    intro x0 x1 x2 x3 x4 x5 x6 y
    simp only [List.mem_cons, List.not_mem_nil, or_false]
    constructor
    · rintro (rfl | rfl | rfl | rfl | rfl | rfl | rfl)
      · exact ⟨.hardware, rfl⟩
      · exact ⟨.board, rfl⟩
      · exact ⟨.platform, rfl⟩
      · exact ⟨.mediatek, rfl⟩
      · exact ⟨.arch, rfl⟩
      · exact ⟨.chipname, rfl⟩
      · exact ⟨.hardwareChipname, rfl⟩
    · rintro ⟨s, rfl⟩
      cases s <;> simp [pick]
  refine ⟨pick d0 d1 d2 d3 d4 d5 d6, ?_⟩
  cases hcv : commonVendor [c0, c1, c2, c3, c4, c5, c6] .unknown with
  | none =>
    refine ⟨.unknown, fun s => (hd s).1, fun s => (hd s).2.1, ?_, .inl rfl, .inl ⟨?_, rfl⟩,
      fun h => absurd rfl h⟩
    · unfold combine; rw [hcv]
    · obtain ⟨a, b, h1, h2, h3, h4, h5⟩ := vendor_none hcv
      have h1' := h1.resolve_right h3
      obtain ⟨x, hx, rfl⟩ := List.mem_map.mp h1'
      obtain ⟨y, hy, rfl⟩ := List.mem_map.mp h2
      obtain ⟨s, rfl⟩ := mem_pick.mp hx
      obtain ⟨s', rfl⟩ := mem_pick.mp hy
      rw [← (hd s).2.2] at h3 h5
      rw [← (hd s').2.2] at h4 h5
      exact ⟨s, s', h3, h4, h5⟩
  | some w =>
    obtain ⟨hw1, _, hw3⟩ := vendor_some hcv
    by_cases hwu : w = .unknown
    · subst hwu
      refine ⟨.unknown, fun s => (hd s).1, fun s => (hd s).2.1, ?_, .inl rfl, .inr (.inl ⟨?_, rfl⟩),
        fun h => absurd rfl h⟩
      · unfold combine; rw [hcv]
      · intro s
        rw [← vendor_unknown (hd s).2.1, (hd s).2.2]
        have := hw1 _ (mem_pick.mpr ⟨s, rfl⟩)
        simpa using this
    · have hcomb : combine arm32 [c0, c1, c2, c3, c4, c5, c6] cores freq =
          match agreed .unknown (propagate [] [d0, d1, d2, d3, d4, d5, d6]) with
          | some c => .yes c
          | none =>
            match propagate [] [d0, d1, d2, d3, d4, d5, d6] with
            | [hardware, board, platform, mediatek, _, chipname, hardwareChipname] =>
              .yes (disambiguate w hardware board platform mediatek chipname hardwareChipname)
            | _ => .outside :=
        combine_some hcv hwu hmap
      have hall : ∀ s, pick d0 d1 d2 d3 d4 d5 d6 s = .unknown ∨
          (pick d0 d1 d2 d3 d4 d5 d6 s).vendor = w := by
        intro s
        rcases hw1 _ (mem_pick.mpr ⟨s, rfl⟩) with h | h
        · exact .inl ((vendor_unknown (hd s).2.1).mp ((hd s).2.2.trans h))
        · exact .inr ((hd s).2.2.trans h)
      have hex : ∃ s, (pick d0 d1 d2 d3 d4 d5 d6 s).vendor = w := by
        rcases hw3 with h | ⟨c, hc, h⟩
        · exact absurd h hwu
        · obtain ⟨s, rfl⟩ := mem_pick.mp hc
          exact ⟨s, (hd s).2.2.trans h⟩
      have hvalid : ∀ d ∈ [d0, d1, d2, d3, d4, d5, d6], Valid d := by
        intro d hdm
        obtain ⟨s, rfl⟩ := mem_pick.mp hdm
        exact (hd s).2.1
      obtain ⟨hpv, hpk⟩ := propagate_valid (done := []) hvalid (by simp)
      have hlen : (propagate [] [d0, d1, d2, d3, d4, d5, d6]).length = 7 := by
        have := congrArg List.length hpk
        simpa using this
      obtain ⟨e0, e1, e2, e3, e4, e5, e6, he⟩ := seven hlen
      rw [he] at hpv hpk hcomb
      have hkey : ∀ s, key (pick e0 e1 e2 e3 e4 e5 e6 s) = key (pick d0 d1 d2 d3 d4 d5 d6 s) := by
        simp only [List.map_cons, List.map_nil, List.nil_append, List.cons.injEq, and_true] at hpk
        obtain ⟨k0, k1, k2, k3, k4, k5, k6⟩ := hpk
        intro s
        cases s
        · exact k0
        · exact k1
        · exact k2
        · exact k3
        · exact k4
        · exact k5
        · exact k6
      have hev : ∀ s, Valid (pick e0 e1 e2 e3 e4 e5 e6 s) := fun s =>
        hpv _ (mem_pick.mpr ⟨s, rfl⟩)
      have hsuf : ∀ r ∈ [e0, e1, e2, e3, e4, e5, e6],
          Passed (pick d0 d1 d2 d3 d4 d5 d6) r := by
        intro r hr
        rw [← he] at hr
        refine ⟨fun i x hx => ?_, hr⟩
        obtain ⟨d, hdm, h1, h2⟩ := propagate_suffix (fun c hc => by
          obtain ⟨t, ht, h⟩ := valid_suffix (hvalid c hc)
          rw [show c.suffix = padded t from h, padded_length ht.1]) hr i x hx
        obtain ⟨s, rfl⟩ := mem_pick.mp hdm
        exact ⟨s, h1, h2⟩
      have hek : ∀ s, Known (pick e0 e1 e2 e3 e4 e5 e6 s) ↔ Known (pick d0 d1 d2 d3 d4 d5 d6 s) := by
        intro s
        have := hkey s
        simp only [key, Prod.mk.injEq] at this
        unfold Known
        rw [this.2.1]
      have hvend : ∀ s, Known (pick d0 d1 d2 d3 d4 d5 d6 s) →
          (pick d0 d1 d2 d3 d4 d5 d6 s).vendor = w := by
        intro s hk
        rcases hall s with h | h
        · exact absurd h ((known_iff (hd s).2.1).mp hk)
        · exact h
      by_cases hsame : ∃ x, ∀ s, pick d0 d1 d2 d3 d4 d5 d6 s = .unknown ∨
          pick d0 d1 d2 d3 d4 d5 d6 s = x
      · -- all known sources agree
        obtain ⟨x, hx⟩ := hsame
        obtain ⟨s0, hs0⟩ := hex
        have hx0 : pick d0 d1 d2 d3 d4 d5 d6 s0 = x := by
          rcases hx s0 with h | h
          · rw [h] at hs0; exact absurd hs0.symm hwu
          · exact h
        have hxk : Known x := by
          rw [← hx0, known_iff (hd s0).2.1]
          intro e
          rw [e] at hs0
          exact hwu hs0.symm
        have hpr := propagate_same (x := x) (cs := [d0, d1, d2, d3, d4, d5, d6]) (done := [])
          (fun c hc => by obtain ⟨s, rfl⟩ := mem_pick.mp hc; exact hx s) (by simp) hxk
        have hedd : [e0, e1, e2, e3, e4, e5, e6] = [d0, d1, d2, d3, d4, d5, d6] := by
          rw [← he, hpr]; rfl
        rw [hedd] at hcomb
        cases hag : agreed .unknown [d0, d1, d2, d3, d4, d5, d6] with
        | none =>
          obtain ⟨a, b, h1, h2, h3, h4, h5⟩ := agreed_none hag
          have h1' : a ∈ [d0, d1, d2, d3, d4, d5, d6] := by
            rcases h1 with h | rfl
            · exact h
            · exact absurd rfl h3
          obtain ⟨s, rfl⟩ := mem_pick.mp h1'
          obtain ⟨s', rfl⟩ := mem_pick.mp h2
          have ea := (hx s).resolve_left ((known_iff (hd s).2.1).mp h3)
          have eb := (hx s').resolve_left ((known_iff (hd s').2.1).mp h4)
          rw [ea, eb] at h5
          simp [differ] at h5
        | some r =>
          obtain ⟨h1, _, h3, h4⟩ := agreed_some hag
          have hr : r = x := by
            have h5 := h3 _ (mem_pick.mpr ⟨s0, rfl⟩) (by rw [hx0]; exact hxk)
            have hrk : Known r := by
              intro e
              rw [hx0] at h5
              exact hxk ((differ_false.mp h5).1.trans e)
            rcases h1 with rfl | h1
            · exact absurd rfl hrk
            · obtain ⟨s, rfl⟩ := mem_pick.mp h1
              exact (hx s).resolve_left ((known_iff (hd s).2.1).mp hrk)
          rw [hag] at hcomb
          refine ⟨r, fun s => (hd s).1, fun s => (hd s).2.1, hcomb, ?_, .inr (.inr ⟨w, hwu, hall,
            ⟨s0, hs0⟩, .inl ⟨x, hx, hr, hxk⟩⟩), fun _ => ?_⟩
          · rw [hr, ← hx0]; exact (hd s0).2.1
          · rw [hr, ← hx0]
            refine hsuf _ ?_
            rw [hedd]
            exact mem_pick.mpr ⟨s0, rfl⟩
      · cases hag : agreed .unknown [e0, e1, e2, e3, e4, e5, e6] with
        | some r =>
          obtain ⟨h1, _, h3, h4⟩ := agreed_some hag
          obtain ⟨s0, hs0⟩ := hex
          have hk0 : Known (pick d0 d1 d2 d3 d4 d5 d6 s0) := by
            rw [known_iff (hd s0).2.1]
            intro e
            rw [e] at hs0
            exact hwu hs0.symm
          have hmatch : ∀ s, Known (pick d0 d1 d2 d3 d4 d5 d6 s) →
              (pick d0 d1 d2 d3 d4 d5 d6 s).series = r.series ∧
              (pick d0 d1 d2 d3 d4 d5 d6 s).model = r.model := by
            intro s hk
            have h5 := differ_false.mp (h3 _ (mem_pick.mpr ⟨s, rfl⟩) ((hek s).mpr hk))
            have h6 := hkey s
            simp only [key, Prod.mk.injEq] at h6
            exact ⟨h6.2.1.symm.trans h5.1, h6.2.2.symm.trans h5.2.1⟩
          have hrk : Known r := by
            unfold Known
            rw [← (hmatch s0 hk0).1]; exact hk0
          have h1' : r ∈ [e0, e1, e2, e3, e4, e5, e6] := by
            rcases h1 with rfl | h
            · exact absurd rfl hrk
            · exact h
          obtain ⟨s, hs⟩ := mem_pick.mp h1'
          have hrv : r.vendor = w := by
            have h6 := hkey s
            simp only [key, Prod.mk.injEq] at h6
            rw [hs, h6.1]
            exact hvend s ((hek s).mp (hs ▸ hrk))
          rw [hag] at hcomb
          exact ⟨r, fun s => (hd s).1, fun s => (hd s).2.1, hcomb, hpv r h1', .inr (.inr ⟨w, hwu,
            hall, ⟨s0, hs0⟩, .inr ⟨hsame, .inl ⟨hrk, hrv, hmatch⟩⟩⟩), fun _ => hsuf r h1'⟩
        | none =>
          rw [hag] at hcomb
          simp only at hcomb
          refine ⟨_, fun s => (hd s).1, fun s => (hd s).2.1, hcomb, ?_⟩
          have wrap : ∀ r : Chipset, Valid r →
              ((∃ s, FirstSource (fun s => Known (pick d0 d1 d2 d3 d4 d5 d6 s)) (trusted w) s ∧
                r.vendor = w ∧ r.series = (pick d0 d1 d2 d3 d4 d5 d6 s).series ∧
                r.model = (pick d0 d1 d2 d3 d4 d5 d6 s).model) ∨
              ((∀ s ∈ trusted w, ¬ Known (pick d0 d1 d2 d3 d4 d5 d6 s)) ∧ r = .unknown)) →
              (r = .unknown ∨ r ∈ [e0, e1, e2, e3, e4, e5, e6]) →
              Valid r ∧ Chosen (pick d0 d1 d2 d3 d4 d5 d6) r ∧
                (Known r → Passed (pick d0 d1 d2 d3 d4 d5 d6) r) := fun r h1 h2 h3 =>
            ⟨h1, .inr (.inr ⟨w, hwu, hall, hex, .inr ⟨hsame, .inr h2⟩⟩), fun h =>
              hsuf r (h3.resolve_left (by rintro rfl; exact h rfl))⟩
          have hknown : (fun s => Known (pick e0 e1 e2 e3 e4 e5 e6 s)) =
              fun s => Known (pick d0 d1 d2 d3 d4 d5 d6 s) := funext fun s => propext (hek s)
          have firstKnown' : ∀ {ps : List Source} {s : Source},
              FirstSource (fun s => Known (pick d0 d1 d2 d3 d4 d5 d6 s)) ps s →
              Known (pick d0 d1 d2 d3 d4 d5 d6 s) := by
            intro ps
            induction ps with
            | nil => intro s h; exact h.elim
            | cons x ps ih =>
              rintro s (⟨h1, rfl⟩ | ⟨_, h2⟩)
              · exact h1
              · exact ih h2
          apply wrap
          · rcases disambiguate_source w (pick e0 e1 e2 e3 e4 e5 e6) with ⟨_, h2⟩ | ⟨xs, last, h1, h2⟩
            · exact .inl h2
            · change disambiguate w e0 e1 e2 e3 e5 e6 = firstKnown (xs.map (pick e0 e1 e2 e3 e4 e5 e6))
                (pick e0 e1 e2 e3 e4 e5 e6 last) at h2
              rw [h2]
              rcases firstKnown_source hev (last := last) (xs := xs) with ⟨s, h3, h4⟩ | ⟨h3, h4⟩
              · rw [h4]; exact hev s
              · rw [h4]; exact .inl rfl
          · rcases disambiguate_source w (pick e0 e1 e2 e3 e4 e5 e6) with ⟨h1, h2⟩ | ⟨xs, last, h1, h2⟩
            · exact .inr ⟨by rw [h1]; simp, h2⟩
            · change disambiguate w e0 e1 e2 e3 e5 e6 = firstKnown (xs.map (pick e0 e1 e2 e3 e4 e5 e6))
                (pick e0 e1 e2 e3 e4 e5 e6 last) at h2
              rw [h2]
              rcases firstKnown_source hev (last := last) (xs := xs) with ⟨s, h3, h4⟩ | ⟨h3, h4⟩
              · rw [h4, h1]
                rw [hknown] at h3
                have h6 := hkey s
                simp only [key, Prod.mk.injEq] at h6
                exact .inl ⟨s, h3, h6.1.trans (hvend s (firstKnown' h3)), h6.2.1, h6.2.2⟩
              · rw [h4, h1]
                exact .inr ⟨fun s hs => fun hk => h3 s hs ((hek s).mpr hk), rfl⟩
          · rcases disambiguate_source w (pick e0 e1 e2 e3 e4 e5 e6) with ⟨_, h2⟩ | ⟨xs, last, h1, h2⟩
            · exact .inl h2
            · change disambiguate w e0 e1 e2 e3 e5 e6 = firstKnown (xs.map (pick e0 e1 e2 e3 e4 e5 e6))
                (pick e0 e1 e2 e3 e4 e5 e6 last) at h2
              rw [h2]
              rcases firstKnown_source hev (last := last) (xs := xs) with ⟨s, h3, h4⟩ | ⟨h3, h4⟩
              · rw [h4]; exact .inr (mem_pick.mpr ⟨s, rfl⟩)
              · exact .inl h4

/-! ## The decoders of the sources -/

theorem isTegra_cases {s : Bytes} (hs : IsBytes s) :
    (isTegra s = .yes () ∧ Tegra s) ∨ (isTegra s = .no ∧ ¬ Tegra s) := by
  have h1 := tegra_safe s
  have h2 := tegra_iff hs
  cases h : isTegra s with
  | outside => exact absurd h h1
  | no => exact .inr ⟨rfl, fun ht => by have := h2.mpr ht; rw [h] at this; cases this⟩
  | yes u => exact .inl ⟨rfl, h2.mp h⟩

theorem decider_yes {s : Bytes} {m : Match Chipset} {ps : List Pattern}
    (h : Decider s (orUnknown m) (Decodes ps)) : ∃ c, orUnknown m = .yes c ∧ Decodes ps s c := by
  cases hm : orUnknown m with
  | outside => exact absurd hm h.safe
  | no => exact absurd hm (orUnknown_not_no m)
  | yes c => exact ⟨c, rfl, (h.iff c).mp hm⟩

/-- On Android, detection always ends with a well-formed chipset chosen from what the sources say. -/
theorem android_yes {arm32 : Bool} {p : Properties} {cores freq : Nat} (hp : PropertyBytes p) :
    ∃ (cs ds : Source → Chipset) (r : Chipset), (∀ s, Says arm32 p cores freq s (cs s)) ∧ (∀ s, Valid (cs s)) ∧
      (∀ s, fixup arm32 (cs s) cores freq = .yes (ds s)) ∧ (∀ s, Valid (ds s)) ∧
      decodeAndroid arm32 p cores freq = .yes r ∧ Valid r ∧ Chosen ds r ∧
      (Known r → Passed ds r) := by
  obtain ⟨b0, b1, b2, b3, b4, b5, b6⟩ := hp
  have t2 := textIn_bytes (n := 92) b2
  obtain ⟨c1, h1, m1⟩ := decider_yes (decodeBoard_decodes (arm32 := arm32) (cores := cores)
    (freq := freq) (textIn_bytes (n := 92) b1))
  obtain ⟨c2, h2, m2⟩ := decider_yes (decodePlatform_decodes (arm32 := arm32) (cores := cores)
    (freq := freq) t2 (textIn_noZero _ _))
  obtain ⟨c3, h3, m3⟩ := decider_yes (decodeMediatek_decodes (textIn_bytes (n := 92) b3))
  obtain ⟨c4, h4, m4⟩ := decider_yes (decodeArch_decodes (textIn_bytes (n := 92) b4))
  obtain ⟨c5, h5, m5⟩ := decider_yes (decodeChipname_decodes (arm32 := arm32)
    (textIn_bytes (n := 92) b5))
  obtain ⟨c6, h6, m6⟩ := decider_yes (decodeChipname_decodes (arm32 := arm32)
    (textIn_bytes (n := 92) b6))
  have hhw : ∃ c0, Says arm32 p cores freq .hardware c0 ∧ Valid c0 ∧
      decodeAndroid arm32 p cores freq = combine arm32 [c0, c1, c2, c3, c4, c5, c6] cores freq := by
    rcases isTegra_cases t2 with ⟨ht, hT⟩ | ⟨ht, hT⟩
    · obtain ⟨c0, h0, m0⟩ := decider_yes (tegraHardware_decodes (arm32 := arm32) (cores := cores)
        (freq := freq) (s := textIn 64 p.hardware))
      refine ⟨c0, .inl ⟨hT, m0⟩, tegra_valid arm32 _ _ m0, ?_⟩
      unfold decodeAndroid decodeAll
      rw [ht]
      simp only [yes_bind]
      change (decodeHardware arm32 (textIn 64 p.hardware) cores freq true = .yes c0) at h0
      change (decodeBoard arm32 (textIn 92 p.board) cores freq = .yes c1) at h1
      change (decodePlatform arm32 (textIn 92 p.platform) cores freq = .yes c2) at h2
      change (decodeMediatek (textIn 92 p.mediatek) = .yes c3) at h3
      change (decodeArch (textIn 92 p.arch) = .yes c4) at h4
      change (decodeChipname arm32 (textIn 92 p.chipname) = .yes c5) at h5
      change (decodeChipname arm32 (textIn 92 p.hardwareChipname) = .yes c6) at h6
      rw [h0, h1, h2, h3, h4, h5, h6]
      rfl
    · obtain ⟨c0, h0, m0⟩ := decider_yes (hardware_decodes (arm32 := arm32) (cores := cores)
        (freq := freq) (textIn_bytes (n := 64) b0))
      refine ⟨c0, .inr ⟨hT, m0⟩, hardware_valid arm32 cores freq _ _ m0, ?_⟩
      unfold decodeAndroid decodeAll
      rw [ht]
      simp only [yes_bind]
      change (decodeHardware arm32 (textIn 64 p.hardware) cores freq false = .yes c0) at h0
      change (decodeBoard arm32 (textIn 92 p.board) cores freq = .yes c1) at h1
      change (decodePlatform arm32 (textIn 92 p.platform) cores freq = .yes c2) at h2
      change (decodeMediatek (textIn 92 p.mediatek) = .yes c3) at h3
      change (decodeArch (textIn 92 p.arch) = .yes c4) at h4
      change (decodeChipname arm32 (textIn 92 p.chipname) = .yes c5) at h5
      change (decodeChipname arm32 (textIn 92 p.hardwareChipname) = .yes c6) at h6
      rw [h0, h1, h2, h3, h4, h5, h6]
      rfl
  obtain ⟨c0, m0, v0, hdec⟩ := hhw
  have hv : ∀ s, Valid (pick c0 c1 c2 c3 c4 c5 c6 s) := by
    intro s
    cases s
    · exact v0
    · exact boardPatterns_valid arm32 cores freq _ _ m1
    · exact platformPatterns_valid arm32 cores freq _ _ m2
    · exact mediatekPatterns_valid _ _ m3
    · exact archPatterns_valid _ _ m4
    · exact chipnamePatterns_valid arm32 _ _ m5
    · exact chipnamePatterns_valid arm32 _ _ m6
  obtain ⟨ds, r, h7, h8, h9, h10, h11⟩ := combine_chosen (arm32 := arm32) (cores := cores)
    (freq := freq) hv
  refine ⟨pick c0 c1 c2 c3 c4 c5 c6, ds, r, ?_, hv, h7, h8, hdec.trans h9, h10, h11⟩
  intro s
  cases s
  · exact m0
  · exact m1
  · exact m2
  · exact m3
  · exact m4
  · exact m5
  · exact m6

end Verif.ArmChipset
