import Verif.Model.X86Cpuinfo
import Verif.Spec.X86Cpuinfo
import Verif.Proof.Files

/-! Helper lemmas for the x86 /proc/cpuinfo parser. -/

set_option autoImplicit false

namespace Verif.X86Cpuinfo
open Spec

theorem dropTrailing_spec (p : Byte → Bool) (l : Bytes) :
    ∃ t, l = dropTrailing p l ++ t ∧ (∀ c ∈ t, p c = true) := by
  refine ⟨(l.reverse.takeWhile p).reverse, ?_, ?_⟩
  · unfold dropTrailing
    rw [← List.reverse_append, List.takeWhile_append_dropWhile, List.reverse_reverse]
  · intro c hc
    rw [List.mem_reverse] at hc
    exact List.all_eq_true.mp List.all_takeWhile c hc

theorem dropTrailing_eq (p : Byte → Bool) (l t : Bytes) (ht : ∀ c ∈ t, p c = true)
    (hl : ∀ c, l.getLast? = some c → p c = false) : dropTrailing p (l ++ t) = l := by
  unfold dropTrailing
  rw [List.reverse_append, CpuList.dropWhile_all _ _ (by simpa using ht) (by simpa using hl),
    List.reverse_reverse]

theorem takeDrop_colon (a b : Bytes) (ha : 58 ∉ a) :
    (a ++ 58 :: b).takeWhile (· != 58) = a ∧ (a ++ 58 :: b).dropWhile (· != 58) = 58 :: b := by
  induction a with
  | nil => simp
  | cons x xs ih =>
    simp at ha
    have hx : (x != 58) = true := by simp; exact fun h => ha.1 h.symm
    simp [hx, ih ha.2]

theorem splitLine_eq (key ws sp value sp' : Bytes) (hk : 58 ∉ key) (hk0 : key ≠ [])
    (hkl : ∀ c, key.getLast? = some c → c ≠ 32 ∧ c ≠ 9) (hws : ∀ c ∈ ws, c = 32 ∨ c = 9)
    (hsp : ∀ c ∈ sp, c = 32) (hsp' : ∀ c ∈ sp', c = 32) (hv : value ≠ [])
    (hvh : ∀ c, value.head? = some c → c ≠ 32) (hvl : ∀ c, value.getLast? = some c → c ≠ 32) :
    splitLine (key ++ ws ++ 58 :: (sp ++ value ++ sp')) = some (key, value) := by
  unfold splitLine
  have h58 : 58 ∉ key ++ ws := by
    intro h; simp at h
    rcases h with h | h
    · exact hk h
    · have := hws _ h; omega
  obtain ⟨e1, e2⟩ := takeDrop_colon (key ++ ws) (sp ++ value ++ sp') h58
  rw [e1, e2]
  dsimp only
  rw [dropTrailing_eq _ key ws (by simpa using hws) (by
    intro c hc; have := hkl c hc; simp [this])]
  rw [if_neg hk0]
  have e3 : (sp ++ value ++ sp').dropWhile (· == 32) = value ++ sp' := by
    rw [List.append_assoc]
    apply CpuList.dropWhile_all
    · simpa using hsp
    · intro c hc
      rw [List.head?_append] at hc
      cases hh : value.head? with
      | none => simp at hh; exact absurd hh hv
      | some d => rw [hh] at hc; simp at hc; subst hc; simpa using hvh d hh
  rw [e3, if_neg (by simp [hv])]
  rw [dropTrailing_eq _ value sp' (by simpa using hsp') (by
    intro c hc; simpa using hvl c hc)]

theorem splitLine_key {line key value : Bytes} (h : splitLine line = some (key, value)) :
    ∃ ws rest, (∀ c ∈ ws, c = 32 ∨ c = 9) ∧ line = key ++ ws ++ 58 :: rest := by
  unfold splitLine at h
  dsimp only at h
  split at h
  · simp at h
  · rename_i x after heq
    split at h
    · simp at h
    · split at h
      · simp at h
      · have := (Prod.mk.inj (Option.some.inj h)).1
        obtain ⟨t, h1, h2⟩ := dropTrailing_spec (fun c => c == 32 || c == 9) (line.takeWhile (· != 58))
        rw [this] at h1
        refine ⟨t, after, by simpa using h2, ?_⟩
        rw [← h1]
        have hx : x = 58 := by
          have : ∀ l : Bytes, l.dropWhile (· != 58) = x :: after → x = 58 := by
            intro l
            induction l with
            | nil => simp
            | cons y ys ih =>
              intro h
              by_cases hy : y = 58
              · subst hy; simp at h; exact h.1.symm
              · have : (y != 58) = true := by simpa using hy
                rw [List.dropWhile_cons_of_pos (p := (· != 58)) this] at h
                exact ih h
          exact this _ heq
        subst hx
        rw [← heq, List.takeWhile_append_dropWhile]

theorem numberLoop_digits (ds : Bytes) (n : Nat) (h : ∀ d ∈ ds, IsDigit d) (hn : n < U32) :
    numberLoop ds n = CpuList.decFrom n ds % U32 := by
  induction ds generalizing n with
  | nil => simp [numberLoop, CpuList.decFrom]; omega
  | cons d ds ih =>
    have hd := h d (by simp)
    have h1 := (CpuList.digitVal_lt d).mpr hd
    rw [numberLoop, if_neg (by omega), ih _ (fun x hx => h x (by simp [hx])) (by omega),
      CpuList.digitVal_eq hd]
    rw [CpuList.decFrom_mod]
    rfl

theorem numberLoop_run (ds r : Bytes) (n : Nat) (h : ∀ d ∈ ds, IsDigit d) (hn : n < U32)
    (hr : ∀ c, r.head? = some c → ¬ IsDigit c ∧ c ≠ 58) :
    numberLoop (ds ++ r) n = CpuList.decFrom n ds % U32 := by
  induction ds generalizing n with
  | nil =>
    simp only [CpuList.decFrom, List.foldl_nil, List.nil_append]
    cases r with
    | nil => simp [numberLoop]; omega
    | cons c cs =>
      have := hr c rfl
      rw [numberLoop, if_pos]
      · omega
      · have h1 := this.1; have h2 := this.2
        unfold IsDigit at h1; unfold CpuList.digitVal
        split <;> omega
  | cons d ds ih =>
    have hd := h d (by simp)
    have h1 := (CpuList.digitVal_lt d).mpr hd
    rw [List.cons_append, numberLoop, if_neg (by omega), ih _ (fun x hx => h x (by simp [hx])) (by omega),
      CpuList.digitVal_eq hd]
    rw [CpuList.decFrom_mod]
    rfl

theorem apicLoop_digits (ds : Bytes) (n : Nat) (h : ∀ d ∈ ds, IsDigit d) (hn : n < U32) :
    apicLoop ds n = some (CpuList.decFrom n ds % U32) := by
  induction ds generalizing n with
  | nil => simp [apicLoop, CpuList.decFrom]; omega
  | cons d ds ih =>
    have hd := h d (by simp)
    have h1 := (CpuList.digitVal_lt d).mpr hd
    rw [apicLoop, if_neg (by omega), ih _ (fun x hx => h x (by simp [hx])) (by omega),
      CpuList.digitVal_eq hd]
    rw [CpuList.decFrom_mod]
    rfl

theorem parseProcessorNumber_print {n : Nat} (h : n < U32) : parseProcessorNumber (printNat n) = n := by
  unfold parseProcessorNumber
  rw [numberLoop_digits _ _ (printNat_numeral n).2 (by omega), ← CpuList.decimal_eq, decimal_printNat]
  omega

theorem apicLoop_print {n : Nat} (h : n < U32) : apicLoop (printNat n) 0 = some n := by
  rw [apicLoop_digits _ _ (printNat_numeral n).2 (by omega), ← CpuList.decimal_eq, decimal_printNat,
    Nat.mod_eq_of_lt h]

theorem splitLine_number (key ws : Bytes) (n : Nat) (hk : 58 ∉ key) (hk0 : key ≠ [])
    (hkl : ∀ c, key.getLast? = some c → c ≠ 32 ∧ c ≠ 9) (hws : ∀ c ∈ ws, c = 32 ∨ c = 9) :
    splitLine (key ++ ws ++ 58 :: (32 :: printNat n)) = some (key, printNat n) := by
  have hd := printNat_numeral n
  have := splitLine_eq key ws [32] (printNat n) [] hk hk0 hkl hws (by simp) (by simp) hd.1
    (by intro c hc h; subst h; exact (IsDigit.ne (hd.2 _ (List.mem_of_head? hc))).1 (by simp [IsBlank]))
    (by intro c hc h; subst h; exact (IsDigit.ne (hd.2 _ (List.mem_of_getLast? hc))).1 (by simp [IsBlank]))
  simpa using this

theorem splitLine_processor (n : Nat) :
    splitLine (processorLine n) = some (b!"processor", printNat n) := by
  have := splitLine_number b!"processor" b!"\t" n (by decide) (by decide)
    (by intro c hc; simp at hc; omega) (by simp)
  exact this

theorem splitLine_apic (n : Nat) :
    splitLine (apicLine n) = some (b!"apicid", printNat n) := by
  have := splitLine_number b!"apicid" b!"\t\t" n (by decide) (by decide)
    (by intro c hc; simp at hc; omega) (by simp)
  exact this

theorem parseLine_other (m : Nat) (s : Option State) (l : Bytes) (k : Nat) (h : OtherLine l) :
    parseLine m s l k = (s, true) := by
  unfold parseLine
  cases s with
  | none => rfl
  | some st =>
    simp only [Option.bind_some]
    cases hs : splitLine l with
    | none => rfl
    | some kv =>
      obtain ⟨key, value⟩ := kv
      obtain ⟨ws, rest, h1, h2⟩ := splitLine_key hs
      dsimp only
      rw [if_neg, if_neg]
      · intro hk; subst hk; exact h _ (.inl rfl) ws rest h1 h2
      · intro hk; subst hk; exact h _ (.inr rfl) ws rest h1 h2

theorem run_others (m : Nat) (s : Option State) (ls : List Bytes) (rest : List Bytes) (k : Nat)
    (h : ∀ l ∈ ls, OtherLine l) :
    runLines (parseLine m) s k (ls ++ rest) = runLines (parseLine m) s (k + ls.length) rest := by
  induction ls generalizing k with
  | nil => rfl
  | cons l ls ih =>
    simp only [List.cons_append, runLines, parseLine_other m s l k (h l (by simp)), if_true]
    rw [ih _ (fun x hx => h x (by simp [hx]))]
    congr 1
    simp; omega

/-- What a block does to the table. -/
def applyBlock (m : Nat) (t : List LinuxProc) (b : ProcBlock) : List LinuxProc :=
  if b.number < m then
    t.modify b.number fun p =>
      { p with apicId := b.apic, flags := p.flags ||| flagProcCpuinfo ||| flagApicId }
  else t

theorem modify_eq_set (t : List LinuxProc) (i : Nat) (f : LinuxProc → LinuxProc) (h : i < t.length) :
    t.set i (f t[i]) = t.modify i f := by
  apply List.ext_getElem?
  intro j
  rw [List.getElem?_modify]
  by_cases hj : j = i
  · subst hj; simp [h]
  · rw [List.getElem?_set_ne (Ne.symm hj)]
    simp [Ne.symm hj]

theorem modifyAt_eq (t : List LinuxProc) (i : Nat) (f : LinuxProc → LinuxProc) (h : i < t.length) :
    modifyAt t i f = some (t.modify i f) := by
  unfold modifyAt
  rw [List.getElem?_eq_getElem h]
  dsimp only
  rw [modify_eq_set t i f h]

theorem run_block (m idx : Nat) (t : List LinuxProc) (b : ProcBlock) (hb : b.Ok) (rest : List Bytes)
    (k : Nat) (hm : m ≤ t.length) :
    ∃ k', runLines (parseLine m) (some ⟨idx, t⟩) k (b.lines ++ rest) =
      runLines (parseLine m) (some ⟨b.number, applyBlock m t b⟩) k' rest := by
  obtain ⟨h1, h2, h3, h4⟩ := hb
  unfold ProcBlock.lines
  have e1 : ∀ s k, parseLine m (some s) (processorLine b.number) k =
      (some ⟨b.number, if b.number < m then s.table.modify b.number
        (fun p => { p with flags := p.flags ||| flagProcCpuinfo }) else s.table⟩, true) ∨
        s.table.length < m := by
    intro s k
    by_cases hsl : s.table.length < m
    · exact .inr hsl
    left
    unfold parseLine
    simp only [Option.bind_some, splitLine_processor]
    rw [if_neg (by decide), if_pos trivial, parseProcessorNumber_print h1]
    by_cases hn : b.number < m
    · rw [if_neg (by omega), modifyAt_eq _ _ _ (by omega), if_pos hn]; rfl
    · rw [if_pos (by omega), if_neg hn]
  have e2 : ∀ s k, s.index = b.number → m ≤ s.table.length → parseLine m (some s) (apicLine b.apic) k =
      (some ⟨b.number, if b.number < m then s.table.modify b.number
        (fun p => { p with apicId := b.apic, flags := p.flags ||| flagApicId }) else s.table⟩, true) := by
    intro s k hs hl
    unfold parseLine
    simp only [Option.bind_some, splitLine_apic]
    rw [if_pos trivial, hs]
    have : parseApicId (printNat b.apic) = fun p => { p with apicId := b.apic, flags := p.flags ||| flagApicId } := by
      funext p; unfold parseApicId; rw [apicLoop_print h2]
    by_cases hn : b.number < m
    · rw [if_pos hn, modifyAt_eq _ _ _ (by omega), if_pos hn, this]; simp
    · rw [if_neg hn, if_neg hn]; cases s; simp_all
  refine ⟨k + 1 + b.before.length + 1 + b.after.length, ?_⟩
  simp only [List.cons_append, List.append_assoc]
  rw [runLines]
  rcases e1 ⟨idx, t⟩ k with h | h
  · rw [h]
    simp only [if_true]
    rw [run_others _ _ _ _ _ h3, runLines, e2 _ _ rfl (by split <;> simp <;> omega)]
    simp only [if_true]
    rw [run_others _ _ _ _ _ h4]
    congr 3
    unfold applyBlock
    by_cases hn : b.number < m
    · simp only [if_pos hn]
      apply List.ext_getElem?
      intro j
      simp only [List.getElem?_modify]
      cases t[j]? with
      | none => simp
      | some p => simp; split <;> simp
    · simp only [if_neg hn]
  · simp only at h; omega

theorem applyBlock_length (m : Nat) (t : List LinuxProc) (b : ProcBlock) :
    (applyBlock m t b).length = t.length := by
  unfold applyBlock; split <;> simp

theorem run_blocks (m idx : Nat) (t : List LinuxProc) (bs : List ProcBlock)
    (hb : ∀ b ∈ bs, b.Ok) (tail : List Bytes) (ht : ∀ l ∈ tail, OtherLine l) (k : Nat)
    (hm : m ≤ t.length) :
    ∃ idx', runLines (parseLine m) (some ⟨idx, t⟩) k (bs.flatMap ProcBlock.lines ++ tail) =
      (some ⟨idx', bs.foldl (applyBlock m) t⟩, true) := by
  induction bs generalizing idx t k with
  | nil =>
    have := run_others m (some ⟨idx, t⟩) tail [] k ht
    simp only [List.append_nil] at this
    exact ⟨idx, by simpa [runLines] using this⟩
  | cons b bs ih =>
    obtain ⟨k', h1⟩ := run_block m idx t b (hb b (by simp)) (bs.flatMap ProcBlock.lines ++ tail) k hm
    obtain ⟨idx', h2⟩ := ih b.number (applyBlock m t b) (fun x hx => hb x (by simp [hx])) k'
      (by rw [applyBlock_length]; exact hm)
    refine ⟨idx', ?_⟩
    rw [List.flatMap_cons, List.append_assoc, h1, h2]
    rfl

theorem foldl_apply_get (m : Nat) (bs : List ProcBlock) (t : List LinuxProc) (i : Nat)
    (hd : (bs.map ProcBlock.number).Nodup) :
    (∀ b ∈ bs, b.number = i → i < m → (bs.foldl (applyBlock m) t)[i]? = (t[i]?).map fun p =>
        { p with apicId := b.apic, flags := p.flags ||| flagProcCpuinfo ||| flagApicId }) ∧
    ((∀ b ∈ bs, b.number = i → ¬ i < m) → (bs.foldl (applyBlock m) t)[i]? = t[i]?) := by
  induction bs generalizing t with
  | nil => simp
  | cons b bs ih =>
    simp only [List.map_cons, List.nodup_cons] at hd
    obtain ⟨ih1, ih2⟩ := ih (applyBlock m t b) hd.2
    constructor
    · intro x hx hxi him
      simp at hx
      simp only [List.foldl_cons]
      rcases hx with rfl | hx
      · rw [ih2 (by
          intro y hy hyi
          exfalso; apply hd.1
          rw [hxi, ← hyi]; exact List.mem_map_of_mem hy)]
        unfold applyBlock
        rw [if_pos (by omega), List.getElem?_modify]
        cases t[i]? <;> simp [hxi]
      · rw [ih1 x hx hxi him]
        unfold applyBlock
        have : b.number ≠ i := by
          intro h; apply hd.1; rw [h, ← hxi]; exact List.mem_map_of_mem hx
        split
        · rw [List.getElem?_modify]; cases t[i]? <;> simp [this]
        · rfl
    · intro h
      simp only [List.foldl_cons]
      rw [ih2 (fun y hy => h y (by simp [hy]))]
      unfold applyBlock
      split
      · rename_i hlt
        have : b.number ≠ i := by
          intro e; exact h b (by simp) e (by omega)
        rw [List.getElem?_modify]; cases t[i]? <;> simp [this]
      · rfl

end Verif.X86Cpuinfo
