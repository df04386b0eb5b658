import Verif.Model.IsaInfo
import Verif.Spec.IsaInfo
import Verif.Proof.Tools

/-!
# Lemmas for the output of isa-info
-/
set_option autoImplicit false

namespace Verif.IsaInfo

/-- Text up to the first separator. -/
theorem cut_at (z : Byte) (x y s t : Bytes) (hx : z ∉ x) (hy : z ∉ y)
    (h : x ++ z :: s = y ++ z :: t) : x = y ∧ s = t := by
  induction x generalizing y with
  | nil =>
    cases y with
    | nil => simpa using h
    | cons c y => simp only [List.nil_append, List.cons_append, List.cons.injEq] at h; simp [← h.1] at hy
  | cons c x ih =>
    cases y with
    | nil => simp only [List.nil_append, List.cons_append, List.cons.injEq] at h; simp [h.1] at hx
    | cons d y =>
      simp only [List.cons_append, List.cons.injEq] at h
      simp only [List.mem_cons, not_or] at hx hy
      obtain ⟨rfl, rfl⟩ := ih y hx.2 hy.2 h.2
      exact ⟨by rw [h.1], rfl⟩

/-- A text that ends in a newline begins with a line. -/
theorem first_line (p x s r : Bytes) (hx : 10 ∉ x) (hp : p.getLast? = some 10)
    (h : p ++ s = x ++ 10 :: r) : ∃ p', p = x ++ 10 :: p' ∧ r = p' ++ s := by
  induction x generalizing p with
  | nil =>
    cases p with
    | nil => simp at hp
    | cons c p =>
      simp only [List.cons_append, List.nil_append, List.cons.injEq] at h
      exact ⟨p, by rw [h.1]; rfl, h.2.symm⟩
  | cons d x ih =>
    simp only [List.mem_cons, not_or] at hx
    cases p with
    | nil => simp at hp
    | cons c p =>
      simp only [List.cons_append, List.cons.injEq] at h
      have hp' : p.getLast? = some 10 := by
        cases p with
        | nil =>
          simp only [List.getLast?_singleton, Option.some.injEq] at hp
          exact absurd (h.1 ▸ hp).symm hx.1
        | cons e p => rw [List.getLast?_cons_cons] at hp; exact hp
      obtain ⟨p', rfl, hr⟩ := ih p hx.2 hp' h.2
      exact ⟨p', by rw [h.1]; rfl, hr⟩

/-- The lines of a text made of lines. -/
theorem hasLine_flatten (ls : List Bytes) (hl : ∀ x ∈ ls, 10 ∉ x) (l : Bytes) (h10 : 10 ∉ l) :
    HasLine (ls.map fun x => x ++ [10]).flatten l ↔ l ∈ ls := by
  constructor
  · rintro ⟨p, a, h, hp⟩
    induction ls generalizing p with
    | nil => simp at h
    | cons x ls ih =>
      simp only [List.map_cons, List.flatten_cons, List.append_assoc, List.singleton_append] at h
      have hx := hl x List.mem_cons_self
      rcases hp with rfl | hp
      · rw [List.nil_append] at h
        rw [(cut_at 10 _ _ _ _ hx h10 h).1]
        exact List.mem_cons_self
      · obtain ⟨p', rfl, hr⟩ := first_line p x (l ++ 10 :: a) _ hx hp h.symm
        refine List.mem_cons_of_mem _ (ih (fun y hy => hl y (List.mem_cons_of_mem _ hy)) p' ?_ ?_)
        · rw [hr, List.append_assoc]
        · cases p' with
          | nil => exact Or.inl rfl
          | cons c p' =>
            right
            rw [List.getLast?_append] at hp
            rw [List.getLast?_cons_cons] at hp
            revert hp
            cases hq : (c :: p').getLast? with
            | none => simp at hq
            | some z => simp
  · intro h
    obtain ⟨xs, ys, rfl⟩ := List.append_of_mem h
    refine ⟨(xs.map fun x => x ++ [10]).flatten, (ys.map fun x => x ++ [10]).flatten, by simp, ?_⟩
    rcases List.eq_nil_or_concat xs with rfl | ⟨zs, z, rfl⟩
    · exact Or.inl rfl
    · right; simp

/-- The line of an item without its newline. -/
def Item.body : Item → Bytes
  | .heading text => text ++ [58]
  | .answer label yes => entry label (if yes then b!"yes" else b!"no")
  | .number label value => entry label (ArmChipset.decimal value)

theorem line_body (i : Item) : i.line = i.body ++ [10] := by
  cases i <;> simp [Item.line, Item.body, entry]

/-- Labels have no colon and no newline, headings do not begin with a tab. -/
def Item.Plain : Item → Prop
  | .heading text => 10 ∉ text ∧ text.head? ≠ some 9 ∧ text ≠ []
  | .answer label _ => 10 ∉ label ∧ 58 ∉ label
  | .number label _ => 10 ∉ label ∧ 58 ∉ label

theorem entry_inj {l l' v v' : Bytes} (h : 58 ∉ l) (h' : 58 ∉ l') (e : entry l v = entry l' v') :
    l = l' ∧ v = v' := by
  simp only [entry, List.cons.injEq, List.append_assoc, List.cons_append, List.nil_append,
    true_and] at e
  obtain ⟨e1, e2⟩ := cut_at 58 _ _ _ _ h h' e
  exact ⟨e1, List.cons.inj e2 |>.2⟩

theorem decimal_no_newline (n : Nat) : 10 ∉ ArmChipset.decimal n := fun h => by
  have := ArmChipset.decimal_digits n 10 h
  unfold Spec.Chipsets.Digit at this
  omega

theorem body_no_newline (i : Item) (h : i.Plain) : 10 ∉ i.body := by
  cases i with
  | heading t => simp [Item.body, h.1]
  | answer l b => cases b <;> simp [Item.body, entry, h.1]
  | number l n => simp [Item.body, entry, h.1, decimal_no_newline]

/-- Which entries are lines of the output. -/
theorem hasLine_items (is : List Item) (hp : ∀ i ∈ is, i.Plain) (l v : Bytes) (h58 : 58 ∉ l)
    (h10 : 10 ∉ l) (hv : 10 ∉ v) :
    HasLine (is.map Item.line).flatten (entry l v) ↔
      (∃ b, Item.answer l b ∈ is ∧ v = if b then b!"yes" else b!"no") ∨
      (∃ n, Item.number l n ∈ is ∧ v = ArmChipset.decimal n) := by
  have e : is.map Item.line = (is.map Item.body).map fun x => x ++ [10] := by
    rw [List.map_map]; exact List.map_congr_left fun i _ => line_body i
  rw [e, hasLine_flatten]
  · rw [List.mem_map]
    constructor
    · rintro ⟨i, hi, he⟩
      have hpi := hp i hi
      cases i with
      | heading t =>
        obtain ⟨-, h9, hne⟩ := hpi
        cases t with
        | nil => exact absurd rfl hne
        | cons c t =>
          simp only [Item.body, entry, List.cons_append, List.cons.injEq] at he
          exact absurd (by rw [he.1]; rfl) h9
      | answer l' b =>
        obtain ⟨rfl, rfl⟩ := entry_inj hpi.2 h58 he
        exact Or.inl ⟨b, hi, rfl⟩
      | number l' n =>
        obtain ⟨rfl, rfl⟩ := entry_inj hpi.2 h58 he
        exact Or.inr ⟨n, hi, rfl⟩
    · rintro (⟨b, hi, rfl⟩ | ⟨n, hi, rfl⟩)
      · exact ⟨_, hi, rfl⟩
      · exact ⟨_, hi, rfl⟩
  · intro x hx
    obtain ⟨i, hi, rfl⟩ := List.mem_map.mp hx
    exact body_no_newline i (hp i hi)
  · simp [entry, h10, hv]

/-- The labels and queries of all sections. -/
def pairs {α : Type} (l : List (Section α)) : List (Bytes × α) := l.flatMap (·.2)

theorem answer_mem {α : Type} (q : α → Bool) (l : List (Section α)) (n : Bytes) (b : Bool) :
    Item.answer n b ∈ sections q l ↔ ∃ x ∈ pairs l, x.1 = n ∧ q x.2 = b := by
  simp only [sections, pairs, List.mem_flatMap, List.mem_cons, List.mem_map, Item.answer.injEq,
    reduceCtorEq, false_or]
  constructor
  · rintro ⟨s, hs, x, hx, h1, h2⟩
    exact ⟨x, ⟨s, hs, hx⟩, h1, h2⟩
  · rintro ⟨x, ⟨s, hs, hx⟩, h1, h2⟩
    exact ⟨s, hs, x, hx, h1, h2⟩

theorem number_not_mem {α : Type} (q : α → Bool) (l : List (Section α)) (n : Bytes) (v : Nat) :
    Item.number n v ∉ sections q l := by
  simp [sections]

/-- All texts of the sections are plain. -/
def PlainSections {α : Type} (l : List (Section α)) : Prop :=
  ∀ s ∈ l, (10 ∉ s.1 ∧ s.1.head? ≠ some 9 ∧ s.1 ≠ []) ∧ ∀ x ∈ s.2, 10 ∉ x.1 ∧ 58 ∉ x.1

theorem plain_sections {α : Type} (q : α → Bool) (l : List (Section α)) (h : PlainSections l) :
    ∀ i ∈ sections q l, i.Plain := by
  intro i hi
  simp only [sections, List.mem_flatMap, List.mem_cons, List.mem_map] at hi
  obtain ⟨s, hs, rfl | ⟨x, hx, rfl⟩⟩ := hi
  · exact (h s hs).1
  · exact (h s hs).2 x hx

/-- A label stands for one query. -/
def Distinct {α : Type} (l : List (Bytes × α)) : Prop := ∀ x ∈ l, ∀ y ∈ l, x.1 = y.1 → x.2 = y.2

theorem yes_ne_no : (b!"yes" : Bytes) ≠ b!"no" := by decide

/-- The answers that can be read off a list of sections. -/
theorem read_answer {α : Type} (q : α → Bool) (l : List (Section α)) (hd : Distinct (pairs l))
    (n : Bytes) (x : α) (hx : (n, x) ∈ pairs l) (b : Bool) :
    Item.answer n b ∈ sections q l ↔ q x = b := by
  rw [answer_mem]
  constructor
  · rintro ⟨y, hy, hn, hb⟩
    have e : y.2 = x := hd y hy _ hx hn
    rw [← e]; exact hb
  · intro h
    exact ⟨_, hx, rfl, h⟩

/-- Reading an answer off the output. -/
theorem read_line (is : List Item) (hp : ∀ i ∈ is, i.Plain) (n : Bytes) (h10 : 10 ∉ n) (h58 : 58 ∉ n)
    (q : Bool) (hr : ∀ b, Item.answer n b ∈ is ↔ q = b) (hnum : ∀ v, Item.number n v ∉ is) :
    (HasLine (is.map Item.line).flatten (entry n b!"yes") ↔ q = true) ∧
    (HasLine (is.map Item.line).flatten (entry n b!"no") ↔ q = false) := by
  have key : ∀ v : Bytes, 10 ∉ v → (HasLine (is.map Item.line).flatten (entry n v) ↔
      v = if q then b!"yes" else b!"no") := by
    intro v hv
    rw [hasLine_items _ hp n v h58 h10 hv]
    constructor
    · rintro (⟨b, hb, rfl⟩ | ⟨m, hm, -⟩)
      · rw [(hr b).mp hb]
      · exact absurd hm (hnum _)
    · intro e
      exact Or.inl ⟨q, (hr q).mpr rfl, e⟩
  rw [key _ (by decide), key _ (by decide)]
  cases q <;> simp

end Verif.IsaInfo
