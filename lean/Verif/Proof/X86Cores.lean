import Verif.Spec.X86Cores
import Verif.Proof.X86Cpuid

/-!
# The x86 decoder agrees with the table of microarchitectures

The families and models are finite in number, so the comparison of the decoder with the table is an
evaluation in the kernel, one family at a time.
-/
set_option autoImplicit false

namespace Verif.X86Cores
open X86Cpuid

/-- The test holds below the bound. -/
def upTo (p : Nat → Bool) : Nat → Bool
  | 0 => true
  | n + 1 => p n && upTo p n

theorem upTo_sound (p : Nat → Bool) (n : Nat) (h : upTo p n = true) : ∀ m < n, p m = true := by
  induction n with
  | zero => intro m hm; omega
  | succ n ih =>
    simp only [upTo, Bool.and_eq_true] at h
    intro m hm
    by_cases e : m = n
    · rw [e]; exact h.1
    · exact ih h.2 m (by omega)

/-- One of the ranges contains the model. -/
def within (l : List (Nat × Nat)) (m : Nat) : Bool := l.any fun p => Nat.ble p.1 m && Nat.ble m p.2

theorem within_iff (l : List (Nat × Nat)) (m : Nat) :
    within l m = true ↔ ∃ p ∈ l, p.1 ≤ m ∧ m ≤ p.2 := by
  simp [within, List.any_eq_true, Nat.ble_eq]

def coversB (r : Row) (b : Bool) (m : Nat) : Bool := (!r.only32 || b) && within r.models m

/-- `u` is what the rows of the family and the missed ranges of the family give for the model. -/
def agreesB (rs : List Row) (l : List (Nat × Nat)) (b : Bool) (m : Nat) (u : Uarch) : Bool :=
  (decide (u = .unknown) || rs.any fun r => decide (r.uarch = u) && coversB r b m) &&
  rs.all fun r => !coversB r b m ||
    if within l m then decide (u = .unknown) else decide (u = r.uarch)

def rowsOf (v : Vendor) (f : Nat) : List Row :=
  rows.filter fun r => decide (r.vendor = v) && Nat.beq r.family f

def missedOf (v : Vendor) (f : Nat) : List (Nat × Nat) :=
  (missed.filter fun g => decide (g.1 = v) && Nat.beq g.2.1 f).map (·.2.2)

theorem mem_rowsOf (v : Vendor) (f : Nat) (r : Row) :
    r ∈ rowsOf v f ↔ r ∈ rows ∧ r.vendor = v ∧ r.family = f := by
  simp [rowsOf, List.mem_filter]

theorem within_missedOf (v : Vendor) (f m : Nat) :
    within (missedOf v f) m = true ↔ Missed v f m := by
  rw [within_iff]
  simp only [missedOf, List.mem_map, List.mem_filter, Bool.and_eq_true, decide_eq_true_eq,
    Nat.beq_eq, Missed]
  constructor
  · rintro ⟨p, ⟨g, ⟨hg, hv, hf⟩, rfl⟩, h1, h2⟩
    exact ⟨g, hg, hv, hf, h1, h2⟩
  · rintro ⟨g, hg, hv, hf, h1, h2⟩
    exact ⟨g.2.2, ⟨g, ⟨hg, hv, hf⟩, rfl⟩, h1, h2⟩

/-- What `agreesB` means. -/
theorem agreesB_sound (v : Vendor) (f : Nat) (b : Bool) (m : Nat) (u : Uarch)
    (h : agreesB (rowsOf v f) (missedOf v f) b m u = true) :
    (u ≠ .unknown → Has b v f m u) ∧
    (∀ u', Has b v f m u' → (Missed v f m → u = .unknown) ∧ (¬ Missed v f m → u = u')) := by
  simp only [agreesB, Bool.and_eq_true, Bool.or_eq_true, decide_eq_true_eq, List.any_eq_true,
    List.all_eq_true, Bool.not_eq_true', coversB] at h
  obtain ⟨h1, h2⟩ := h
  constructor
  · intro hu
    obtain ⟨r, hr, hru, hb, hw⟩ := h1.resolve_left hu
    obtain ⟨hm, hv, hf⟩ := (mem_rowsOf v f r).mp hr
    refine ⟨r, hm, hru, hv, hf, ?_, (within_iff _ _).mp hw⟩
    intro h32
    rw [h32] at hb
    simpa using hb
  · rintro u' ⟨r, hm, hru, hv, hf, h32, hw⟩
    have hw := (within_iff _ _).mpr hw
    have hc : (r.only32 = false ∨ b = true) := by
      cases hx : r.only32
      · exact Or.inl rfl
      · exact Or.inr (h32 hx)
    have := h2 r ((mem_rowsOf v f r).mpr ⟨hm, hv, hf⟩)
    rw [hw] at this
    have key : (if within (missedOf v f) m = true then decide (u = .unknown)
        else decide (u = r.uarch)) = true := by
      rcases hc with hc | hc <;> simp [hc] at this ⊢ <;> exact this
    constructor
    · intro hmi
      rw [if_pos ((within_missedOf v f m).mpr hmi)] at key
      exact of_decide_eq_true key
    · intro hmi
      rw [if_neg (fun e => hmi ((within_missedOf v f m).mp e))] at key
      rw [of_decide_eq_true key, hru]

/-- Nothing is said of a family without rows. -/
theorem agreesB_nil (v : Vendor) (f : Nat) (b : Bool) (m : Nat) (fs : List Nat)
    (hfs : ∀ r ∈ rows, r.vendor = v → r.family ∈ fs) (hf : f ∉ fs) :
    agreesB (rowsOf v f) (missedOf v f) b m .unknown = true := by
  have : rowsOf v f = [] := by
    rw [List.eq_nil_iff_forall_not_mem]
    intro r hr
    obtain ⟨hm, hv, hrf⟩ := (mem_rowsOf v f r).mp hr
    exact hf (hrf ▸ hfs r hm hv)
  rw [this]
  rfl

/-- Every missed range is within a range of a row of 64-bit processors. -/
theorem missed_rows : ∀ g ∈ missed, ∃ r ∈ rows, r.uarch ≠ .unknown ∧ r.vendor = g.1 ∧
    r.family = g.2.1 ∧ r.only32 = false ∧
    ∃ p ∈ r.models, p.1 ≤ g.2.2.1 ∧ g.2.2.2 ≤ p.2 := by decide +kernel

theorem missed_has (b : Bool) (v : Vendor) (f m : Nat) (h : Missed v f m) :
    ∃ u, u ≠ .unknown ∧ Has b v f m u := by
  obtain ⟨g, hg, hv, hf, h1, h2⟩ := h
  obtain ⟨r, hr, hu, hrv, hrf, h32, p, hp, hp1, hp2⟩ := missed_rows g hg
  refine ⟨r.uarch, hu, r, hr, rfl, hrv.trans hv, hrf.trans hf, ?_, p, hp, by omega, by omega⟩
  intro h; rw [h32] at h; cases h

theorem rows_family : ∀ r ∈ rows, r.family ≠ 0 := by decide +kernel

theorem rows_known : ∀ r ∈ rows, r.uarch ≠ .unknown := by decide +kernel

def intelFamilies : List Nat := [5, 6, 15]

def amdFamilies : List Nat :=
  [5, 6, 0xF, 0x10, 0x11, 0x12, 0x14, 0x15, 0x16, 0x17, 0x19, 0x1A]

theorem intel_checked : ∀ b ∈ [true, false], ∀ f ∈ intelFamilies,
    upTo (fun m => agreesB (rowsOf .intel f) (missedOf .intel f) b m
      (intelUarch ⟨b, false⟩ f m)) 256 = true := by decide +kernel

theorem amd_checked : ∀ b ∈ [true, false], ∀ f ∈ amdFamilies,
    upTo (fun m => agreesB (rowsOf .amd f) (missedOf .amd f) b m
      (amdUarch ⟨b, false⟩ f m (m / 16))) 256 = true := by decide +kernel

theorem hygon_checked : ∀ b ∈ [true, false],
    upTo (fun m => agreesB (rowsOf .hygon 0x18) (missedOf .hygon 0x18) b m .unknown) 256 = true := by
  decide +kernel

theorem mem_bools (b : Bool) : b ∈ [true, false] := by cases b <;> decide

theorem intel_agrees (t : Target) (f m : Nat) (hm : m < 256) :
    agreesB (rowsOf .intel f) (missedOf .intel f) t.x86_32 m (intelUarch t f m) = true := by
  by_cases hf : f ∈ intelFamilies
  · exact upTo_sound _ _ (intel_checked t.x86_32 (mem_bools _) f hf) m hm
  · have hu : intelUarch t f m = .unknown := by
      simp only [intelFamilies, List.mem_cons, List.not_mem_nil, or_false, not_or] at hf
      simp only [intelUarch, hf.1, hf.2.1, hf.2.2, if_false]
    rw [hu]
    exact agreesB_nil _ _ _ _ intelFamilies (by decide +kernel) hf

theorem amd_agrees (t : Target) (f m : Nat) (hm : m < 256) :
    agreesB (rowsOf .amd f) (missedOf .amd f) t.x86_32 m (amdUarch t f m (m / 16)) = true := by
  by_cases hf : f ∈ amdFamilies
  · exact upTo_sound _ _ (amd_checked t.x86_32 (mem_bools _) f hf) m hm
  · have hu : amdUarch t f m (m / 16) = .unknown := by
      simp only [amdFamilies, List.mem_cons, List.not_mem_nil, or_false, not_or] at hf
      simp [amdUarch, hf]
    rw [hu]
    exact agreesB_nil _ _ _ _ amdFamilies (by decide +kernel) hf

/-- The vendors whose processors the decoder knows anything about. -/
theorem decoded_agrees (t : Target) (v : Vendor) (x : ModelInfo) (hm : x.model < 256)
    (he : x.extendedModel = x.model / 16) (hh : v = .hygon → x.family ≠ 0) :
    agreesB (rowsOf v x.family) (missedOf v x.family) t.x86_32 x.model (decodeUarch t v x) = true := by
  cases v
  case intel => exact intel_agrees t _ _ hm
  case amd =>
    simp only [decodeUarch, he]
    exact amd_agrees t _ _ hm
  case hygon =>
    simp only [decodeUarch, hh rfl, if_false]
    by_cases hf : x.family = 0x18
    · rw [hf]
      exact upTo_sound _ _ (hygon_checked t.x86_32 (mem_bools _)) _ hm
    · exact agreesB_nil _ _ _ _ [0x18] (by decide +kernel) (by simpa using hf)
  all_goals exact agreesB_nil _ _ _ _ [] (by decide +kernel) (by simp)

end Verif.X86Cores
