import Verif.Lemmas.Text
/-
Lemmas about `splitlines`, `split`, extended slices and fixed-width cutting.
-/
namespace Verif

/-- The text consisting of the given lines, each terminated by LF. -/
def joinLines (ls : List Text) : Text := ls.flatMap fun l => l ++ ['\n']

@[simp] theorem joinLines_nil : joinLines [] = [] := rfl
@[simp] theorem joinLines_cons (l : Text) (ls : List Text) :
    joinLines (l :: ls) = l ++ '\n' :: joinLines ls := by simp [joinLines]
theorem joinLines_append (a b : List Text) : joinLines (a ++ b) = joinLines a ++ joinLines b := by
  simp [joinLines]
theorem joinLines_flatMap {α} (l : List α) (f : α → List Text) :
    joinLines (l.flatMap f) = l.flatMap fun a => joinLines (f a) := by
  induction l with
  | nil => rfl
  | cons a r ih => simp [joinLines_append, ih]

section gen
variable {α : Type} [DecidableEq α] (cr lf : α) (brk : α → Bool) (keep : Bool)

theorem splitLinesGen_cons_noBrk (hcr : brk cr = true) (acc t : List α) (c : α) (hc : brk c = false) :
    splitLinesGen cr lf brk keep acc (c :: t) = splitLinesGen cr lf brk keep (c :: acc) t := by
  have hne : c ≠ cr := by intro e; rw [e, hcr] at hc; cases hc
  cases t with
  | nil => simp [splitLinesGen, hc]
  | cons d cs =>
    rw [splitLinesGen]
    simp [hne, hc]

theorem splitLinesGen_lf (hlf : brk lf = true) (hne : lf ≠ cr) (acc t : List α) :
    splitLinesGen cr lf brk keep acc (lf :: t)
      = (if keep then (lf :: acc).reverse else acc.reverse) :: splitLinesGen cr lf brk keep [] t := by
  cases t with
  | nil => simp [splitLinesGen, hlf]
  | cons d cs =>
    rw [splitLinesGen]
    simp [hne, hlf]

theorem splitLinesGen_line (hcr : brk cr = true) (hlf : brk lf = true) (hne : lf ≠ cr)
    (l acc t : List α) (hl : ∀ c ∈ l, brk c = false) :
    splitLinesGen cr lf brk keep acc (l ++ lf :: t)
      = (if keep then acc.reverse ++ l ++ [lf] else acc.reverse ++ l)
          :: splitLinesGen cr lf brk keep [] t := by
  induction l generalizing acc with
  | nil =>
    simp only [List.nil_append, splitLinesGen_lf cr lf brk keep hlf hne]
    cases keep <;> simp
  | cons c cs ih =>
    rw [List.cons_append, splitLinesGen_cons_noBrk cr lf brk keep hcr _ _ _ (hl c (by simp)),
      ih _ (fun d hd => hl d (by simp [hd]))]
    cases keep <;> simp

end gen

/-- A text without line boundary characters. -/
def NoBreak (t : Text) : Prop := ∀ c ∈ t, isBreak c = false

instance (t : Text) : Decidable (NoBreak t) := by unfold NoBreak; infer_instance

theorem NoBreak.append {a b : Text} (ha : NoBreak a) (hb : NoBreak b) : NoBreak (a ++ b) := by
  intro c hc
  rw [List.mem_append] at hc
  exact hc.elim (ha c) (hb c)

theorem NoBreak.of_append_left {a b : Text} (h : NoBreak (a ++ b)) : NoBreak a :=
  fun c hc => h c (by simp [hc])

theorem NoBreak.replicate (k : Nat) : NoBreak (List.replicate k ' ') := by
  intro c hc
  rw [List.mem_replicate] at hc
  rw [hc.2]; decide

theorem NoBreak.padLeft {w : Nat} {t : Text} (h : NoBreak t) : NoBreak (padLeft w t) :=
  (NoBreak.replicate _).append h
theorem NoBreak.padRight {w : Nat} {t : Text} (h : NoBreak t) : NoBreak (padRight w t) :=
  h.append (NoBreak.replicate _)
theorem NoBreak.nil : NoBreak [] := by intro c hc; cases hc

theorem isBreak_of_isSpace_false {c : Char} (h : isSpace c = false) : isBreak c = false := by
  unfold isSpace at h
  unfold isBreak
  simp only [Bool.or_eq_false_iff, Bool.and_eq_false_iff, decide_eq_false_iff_not, beq_eq_false_iff_ne] at *
  omega

theorem NoBreak.of_noSpace {t : Text} (h : ∀ c ∈ t, isSpace c = false) : NoBreak t :=
  fun c hc => isBreak_of_isSpace_false (h c hc)

theorem noBreak_intRepr (n : Int) : NoBreak (intRepr n) := NoBreak.of_noSpace (intRepr_noSpace n)

theorem splitLines_line (l t : Text) (h : NoBreak l) : splitLines (l ++ '\n' :: t) = l :: splitLines t := by
  unfold splitLines
  rw [splitLinesGen_line '\r' '\n' isBreak false (by decide) (by decide) (by decide) l [] t h]
  simp

theorem splitLinesKeep_line (l t : Text) (h : NoBreak l) :
    splitLinesKeep (l ++ '\n' :: t) = (l ++ ['\n']) :: splitLinesKeep t := by
  unfold splitLinesKeep
  rw [splitLinesGen_line '\r' '\n' isBreak true (by decide) (by decide) (by decide) l [] t h]
  simp

@[simp] theorem splitLines_nil : splitLines [] = [] := rfl
@[simp] theorem splitLinesKeep_nil : splitLinesKeep [] = [] := rfl

theorem splitLines_joinLines (ls : List Text) (h : ∀ l ∈ ls, NoBreak l) :
    splitLines (joinLines ls) = ls := by
  induction ls with
  | nil => rfl
  | cons l ls ih =>
    rw [joinLines_cons, splitLines_line _ _ (h l (by simp)), ih (fun l hl => h l (by simp [hl]))]

theorem splitLinesKeep_joinLines (ls : List Text) (h : ∀ l ∈ ls, NoBreak l) :
    splitLinesKeep (joinLines ls) = ls.map (· ++ ['\n']) := by
  induction ls with
  | nil => rfl
  | cons l ls ih =>
    rw [joinLines_cons, splitLinesKeep_line _ _ (h l (by simp)), ih (fun l hl => h l (by simp [hl]))]
    rfl

/-! ### `split()` -/

theorem splitWsAux_space (acc t : Text) (c : Char) (hc : isSpace c = true) (ha : acc ≠ []) :
    splitWsAux acc (c :: t) = acc.reverse :: splitWsAux [] t := by
  simp [splitWsAux, hc, ha]

theorem splitWsAux_tok (acc t tok : Text) (h : ∀ c ∈ tok, isSpace c = false) :
    splitWsAux acc (tok ++ t) = splitWsAux (tok.reverse ++ acc) t := by
  induction tok generalizing acc with
  | nil => simp
  | cons c cs ih =>
    rw [List.cons_append, splitWsAux]
    simp only [h c (by simp)]
    rw [if_neg (by simp), ih _ (fun d hd => h d (by simp [hd]))]
    simp

theorem splitWs_spaces (a t : Text) (h : ∀ c ∈ a, isSpace c = true) : splitWs (a ++ t) = splitWs t := by
  unfold splitWs
  induction a with
  | nil => rfl
  | cons c cs ih =>
    rw [List.cons_append, splitWsAux]
    simp only [h c (by simp)]
    simp [ih (fun d hd => h d (by simp [hd]))]

@[simp] theorem splitWs_nil : splitWs [] = [] := rfl

theorem splitWs_all_spaces (a : Text) (h : ∀ c ∈ a, isSpace c = true) : splitWs a = [] := by
  have := splitWs_spaces a [] h
  simpa using this

/-- A text that is empty or starts with a separator. -/
def StartsSpace (t : Text) : Prop := ∀ c, t.head? = some c → isSpace c = true

theorem StartsSpace.nil : StartsSpace [] := by intro c hc; cases hc
theorem StartsSpace.cons {c : Char} {t : Text} (h : isSpace c = true) : StartsSpace (c :: t) := by
  intro d hd; simp at hd; rw [← hd]; exact h

theorem splitWs_tok (tok t : Text) (h : ∀ c ∈ tok, isSpace c = false) (hne : tok ≠ [])
    (ht : StartsSpace t) : splitWs (tok ++ t) = tok :: splitWs t := by
  unfold splitWs
  rw [splitWsAux_tok _ _ _ h]
  simp only [List.append_nil]
  cases t with
  | nil => simp [splitWsAux, hne]
  | cons c cs =>
    have hc : isSpace c = true := ht c rfl
    rw [splitWsAux_space _ _ _ hc (by simpa using hne)]
    simp [splitWsAux, hc]

/-- Blanks, then a token, then a separator or the end. -/
theorem splitWs_field (k : Nat) (tok t : Text) (h : ∀ c ∈ tok, isSpace c = false) (hne : tok ≠ [])
    (ht : StartsSpace t) : splitWs (List.replicate k ' ' ++ tok ++ t) = tok :: splitWs t := by
  rw [List.append_assoc, splitWs_spaces _ _ (isSpace_replicate k), splitWs_tok tok t h hne ht]

theorem splitWs_padLeft (w : Nat) (tok t : Text) (h : ∀ c ∈ tok, isSpace c = false) (hne : tok ≠ [])
    (ht : StartsSpace t) : splitWs (padLeft w tok ++ t) = tok :: splitWs t :=
  splitWs_field _ tok t h hne ht

theorem startsSpace_padLeft (w : Nat) (tok t : Text) (h : tok.length < w) :
    StartsSpace (padLeft w tok ++ t) := by
  unfold padLeft
  obtain ⟨k, hk⟩ : ∃ k, w - tok.length = k + 1 := ⟨w - tok.length - 1, by omega⟩
  rw [hk]
  exact StartsSpace.cons (by decide)

/-! ### Extended slices -/

theorem everyAux_skip {α} (step : Nat) (l rest : List α) (j : Nat) (h : l.length ≤ j) :
    everyAux step j (l ++ rest) = everyAux step (j - l.length) rest := by
  induction l generalizing j with
  | nil => simp
  | cons a l ih =>
    cases j with
    | zero => simp at h
    | succ j =>
      simp only [List.cons_append, everyAux, List.length_cons]
      rw [ih j (by simpa using h)]
      congr 1
      omega

theorem everyAux_hit {α} (step : Nat) (l rest : List α) (k : Nat) (a : α) (h : l[k]? = some a) :
    everyAux step k (l ++ rest) = a :: everyAux step (step - 1) (l.drop (k + 1) ++ rest) := by
  induction l generalizing k with
  | nil => simp at h
  | cons b l ih =>
    cases k with
    | zero =>
      simp at h
      simp [everyAux, h]
    | succ k =>
      simp only [List.cons_append, everyAux, List.drop_succ_cons]
      exact ih k (by simpa using h)

theorem everyN_block {α} (step k : Nat) (l rest : List α) (a : α) (hl : l.length = step)
    (h : l[k]? = some a) : everyN k step (l ++ rest) = a :: everyN k step rest := by
  unfold everyN
  rw [everyAux_hit step l rest k a h]
  have hk : k < l.length := by
    rw [List.getElem?_eq_some_iff] at h
    exact h.1
  rw [everyAux_skip step _ _ _ (by simp; omega)]
  congr 2
  simp
  omega

theorem everyN_flatMap {α β} (step k : Nat) (rows : List β) (f : β → List α) (g : β → α)
    (hl : ∀ r ∈ rows, (f r).length = step) (h : ∀ r ∈ rows, (f r)[k]? = some (g r)) :
    everyN k step (rows.flatMap f) = rows.map g := by
  induction rows with
  | nil => simp [everyN, everyAux]
  | cons r rows ih =>
    rw [List.flatMap_cons, everyN_block step k _ _ (g r) (hl r (by simp)) (h r (by simp)),
      ih (fun r hr => hl r (by simp [hr])) (fun r hr => h r (by simp [hr]))]
    rfl

/-- Extended slice of a list with a prefix that is skipped entirely. -/
theorem everyN_drop {α} (step k : Nat) (l rest : List α) (h : l.length ≤ k) :
    everyN k step (l ++ rest) = everyN (k - l.length) step rest := everyAux_skip step l rest k h

/-! ### Fixed-width cutting -/

theorem slice_append_right {α} (a b : List α) (i j : Nat) (h : a.length ≤ i) :
    slice (a ++ b) i j = slice b (i - a.length) (j - a.length) := by
  unfold slice
  rw [List.drop_append]
  have : List.drop i a = [] := List.drop_eq_nil_of_le h
  rw [this, List.nil_append]
  congr 1
  omega

theorem slice_prefix {α} (a b : List α) (j : Nat) (h : a.length = j) : slice (a ++ b) 0 j = a := by
  unfold slice
  simp [← h]

theorem slice_flatten (w : Nat) (fs : List Text) (rest : Text) (h : ∀ f ∈ fs, f.length = w) (i : Nat)
    (hi : i < fs.length) : slice (fs.flatten ++ rest) (w * i) (w * (i + 1)) = fs[i] := by
  induction fs generalizing i with
  | nil => simp at hi
  | cons f fs ih =>
    have hf : f.length = w := h f (by simp)
    cases i with
    | zero =>
      simp only [List.flatten_cons, List.append_assoc, Nat.mul_zero, Nat.zero_add, Nat.mul_one, List.getElem_cons_zero]
      exact slice_prefix _ _ _ hf
    | succ i =>
      simp only [List.flatten_cons, List.append_assoc, List.getElem_cons_succ]
      rw [slice_append_right _ _ _ _ (by rw [hf]; exact Nat.le_mul_of_pos_right _ (by omega))]
      rw [hf]
      have e1 : w * (i + 1) - w = w * i := by rw [Nat.mul_succ]; omega
      have e2 : w * (i + 1 + 1) - w = w * (i + 1) := by rw [Nat.mul_succ w (i+1)]; omega
      rw [e1, e2]
      exact ih (fun f hf => h f (by simp [hf])) i (by simpa using hi)

theorem flatten_length (w : Nat) (fs : List Text) (h : ∀ f ∈ fs, f.length = w) :
    fs.flatten.length = w * fs.length := by
  induction fs with
  | nil => simp
  | cons f fs ih =>
    simp only [List.flatten_cons, List.length_append, List.length_cons]
    rw [h f (by simp), ih (fun f hf => h f (by simp [hf])), Nat.mul_succ]
    omega

theorem chunks_flatten (w : Nat) (fs : List Text) (rest : Text) (h : ∀ f ∈ fs, f.length = w)
    (hr : rest.length < w) : chunks w (fs.flatten ++ rest) = fs := by
  unfold chunks
  have hlen : (fs.flatten ++ rest).length / w = fs.length := by
    rw [List.length_append, flatten_length w fs h, Nat.mul_add_div (by omega)]
    rw [Nat.div_eq_of_lt hr]; omega
  rw [hlen]
  apply List.ext_getElem
  · simp
  · intro i h1 h2
    simp only [List.getElem_map, List.getElem_range]
    exact slice_flatten w fs rest h i (by simpa using h1)

end Verif
