import Verif.Py.Text
/-
General lemmas about the text primitives.
-/
namespace Verif

/-! ### Digits -/

theorem toNat_ofNat_small (n : Nat) (h : n < 0xd800) : (Char.ofNat n).toNat = n := by
  have hv : n.isValidChar := Or.inl h
  simp [Char.ofNat, hv, Char.toNat, Char.ofNatAux]

theorem digitChar_toNat (d : Nat) (h : d < 10) : (digitChar d).toNat = 48 + d := by
  unfold digitChar
  exact toNat_ofNat_small _ (by omega)

theorem digitVal_digitChar (d : Nat) (h : d < 10) : digitVal (digitChar d) = some d := by
  unfold digitVal
  rw [digitChar_toNat d h]
  rw [if_pos (by omega)]
  congr 1
  omega

/-- The characters of printed numbers: ASCII digits. -/
def IsDigit (c : Char) : Prop := 48 ≤ c.toNat ∧ c.toNat ≤ 57

instance (c : Char) : Decidable (IsDigit c) := by unfold IsDigit; infer_instance

theorem isDigit_digitChar (d : Nat) (h : d < 10) : IsDigit (digitChar d) := by
  unfold IsDigit; rw [digitChar_toNat d h]; omega

theorem digitVal_of_isDigit {c : Char} (h : IsDigit c) : digitVal c = some (c.toNat - 48) := by
  unfold IsDigit at h; unfold digitVal; rw [if_pos h]

theorem digitVal_lt {c : Char} {d : Nat} (h : digitVal c = some d) : d < 10 := by
  unfold digitVal at h
  split at h
  · cases h; omega
  · split at h
    · cases h
    · cases hz : digitZeros.find? fun z => decide (z ≤ c.toNat) && decide (c.toNat ≤ z + 9) with
      | none => rw [hz] at h; cases h
      | some z =>
        rw [hz] at h
        have h' : c.toNat - z = d := Option.some.inj h
        have := List.find?_some hz
        simp only [Bool.and_eq_true, decide_eq_true_eq] at this
        omega

theorem isSpace_of_isDigit {c : Char} (h : IsDigit c) : isSpace c = false := by
  unfold IsDigit at h
  unfold isSpace
  simp only [Bool.or_eq_false_iff, Bool.and_eq_false_iff, decide_eq_false_iff_not, beq_eq_false_iff_ne]
  omega

theorem natReprAux_digits (f n : Nat) : ∀ c ∈ natReprAux f n, IsDigit c := by
  induction f generalizing n with
  | zero =>
    intro c hc
    simp [natReprAux] at hc
    subst hc
    exact isDigit_digitChar _ (Nat.mod_lt _ (by decide))
  | succ f ih =>
    intro c hc
    unfold natReprAux at hc
    split at hc
    · simp at hc; subst hc; exact isDigit_digitChar _ (by assumption)
    · rw [List.mem_append] at hc
      rcases hc with hc | hc
      · exact ih _ c hc
      · simp at hc; subst hc; exact isDigit_digitChar _ (Nat.mod_lt _ (by decide))

theorem natRepr_digits (n : Nat) : ∀ c ∈ natRepr n, IsDigit c := natReprAux_digits _ _

theorem natReprAux_ne_nil (f n : Nat) : natReprAux f n ≠ [] := by
  cases f with
  | zero => simp [natReprAux]
  | succ f => unfold natReprAux; split <;> simp

theorem natRepr_ne_nil (n : Nat) : natRepr n ≠ [] := natReprAux_ne_nil _ _

theorem parseNatAux_append (a b : Text) (acc : Nat) :
    parseNatAux acc (a ++ b) = (parseNatAux acc a).bind fun n => parseNatAux n b := by
  induction a generalizing acc with
  | nil => simp [parseNatAux]
  | cons c cs ih =>
    simp only [List.cons_append, parseNatAux]
    cases digitVal c with
    | none => simp
    | some d => simp [ih]

theorem parseNatAux_natReprAux (f n : Nat) (h : n < 2 ^ f) :
    parseNatAux 0 (natReprAux f n) = some n := by
  induction f generalizing n with
  | zero =>
    have : n = 0 := by simpa using h
    subst this
    simp [natReprAux, parseNatAux, digitVal_digitChar]
  | succ f ih =>
    unfold natReprAux
    split
    · rename_i hn
      simp [parseNatAux, digitVal_digitChar _ hn]
    · rw [parseNatAux_append, ih (n / 10) (by rw [Nat.pow_succ] at h; omega)]
      simp only [Option.bind_some, parseNatAux]
      rw [digitVal_digitChar _ (Nat.mod_lt _ (by decide))]
      simp only [Option.some.injEq]
      omega

theorem lt_pow_log2_succ (n : Nat) : n < 2 ^ (n.log2 + 1) := Nat.lt_log2_self

theorem parseNat_natRepr (n : Nat) : parseNat (natRepr n) = some n := by
  unfold parseNat
  have h : natRepr n ≠ [] := natRepr_ne_nil n
  rw [if_neg (by simpa using h)]
  exact parseNatAux_natReprAux _ _ (lt_pow_log2_succ n)

theorem natReprAux_length (f n k : Nat) (hk : n < 10 ^ (k + 1)) (hf : n < 2 ^ f) :
    (natReprAux f n).length ≤ k + 1 := by
  induction f generalizing n k with
  | zero => simp [natReprAux]
  | succ f ih =>
    unfold natReprAux
    split
    · simp
    · rename_i hn
      cases k with
      | zero => simp at hk; omega
      | succ k =>
        simp only [List.length_append, List.length_cons, List.length_nil]
        have := ih (n / 10) k (by rw [Nat.pow_succ] at hk; omega) (by rw [Nat.pow_succ] at hf; omega)
        omega

theorem natRepr_length (n k : Nat) (hk0 : 0 < k) (hk : n < 10 ^ k) : (natRepr n).length ≤ k := by
  obtain ⟨k, rfl⟩ : ∃ j, k = j + 1 := ⟨k - 1, by omega⟩
  exact natReprAux_length _ _ _ hk (lt_pow_log2_succ n)

/-! ### Underscores -/

theorem dropUnders_noUnder (b : Bool) (t : Text) (h : ∀ c ∈ t, c ≠ '_') : dropUnders b t = some t := by
  induction t generalizing b with
  | nil => rfl
  | cons c cs ih =>
    have hc : c ≠ '_' := h c (by simp)
    unfold dropUnders
    rw [if_neg hc, ih _ (fun d hd => h d (by simp [hd]))]
    rfl

theorem IsDigit.ne_under {c : Char} (h : IsDigit c) : c ≠ '_' := by
  intro e; subst e; revert h; decide
theorem IsDigit.ne_minus {c : Char} (h : IsDigit c) : c ≠ '-' := by
  intro e; subst e; revert h; decide
theorem IsDigit.ne_plus {c : Char} (h : IsDigit c) : c ≠ '+' := by
  intro e; subst e; revert h; decide
theorem IsDigit.ne_blank {c : Char} (h : IsDigit c) : c ≠ ' ' := by
  intro e; subst e; revert h; decide

/-! ### Stripping -/

theorem dropWhile_eq_self_of_head {α} (p : α → Bool) (t : List α) (h : ∀ c, t.head? = some c → p c = false) :
    t.dropWhile p = t := by
  cases t with
  | nil => rfl
  | cons c cs => simp [List.dropWhile, h c rfl]

theorem dropWhile_append_all {α} (p : α → Bool) (a b : List α) (h : ∀ c ∈ a, p c = true) :
    (a ++ b).dropWhile p = b.dropWhile p := by
  induction a with
  | nil => rfl
  | cons c cs ih =>
    simp only [List.cons_append, List.dropWhile]
    rw [h c (by simp)]
    exact ih (fun d hd => h d (by simp [hd]))

theorem dropWhile_all {α} (p : α → Bool) (a : List α) (h : ∀ c ∈ a, p c = true) :
    a.dropWhile p = [] := by
  have := dropWhile_append_all p a [] h
  simpa using this

theorem lstrip_append_spaces (a b : Text) (h : ∀ c ∈ a, isSpace c = true) :
    lstrip (a ++ b) = lstrip b := dropWhile_append_all _ _ _ h

theorem rstrip_append_spaces (a b : Text) (h : ∀ c ∈ b, isSpace c = true) :
    rstrip (a ++ b) = rstrip a := by
  unfold rstrip
  rw [List.reverse_append, dropWhile_append_all _ _ _ (by simpa using h)]

theorem strip_append_left (a b : Text) (h : ∀ c ∈ a, isSpace c = true) : strip (a ++ b) = strip b := by
  unfold strip; rw [lstrip_append_spaces a b h]

theorem rstrip_of_all {a : Text} (h : ∀ c ∈ a, isSpace c = true) : rstrip a = [] := by
  have := rstrip_append_spaces [] a h
  simpa [rstrip] using this

theorem strip_append_right (a b : Text) (h : ∀ c ∈ b, isSpace c = true) : strip (a ++ b) = strip a := by
  unfold strip
  by_cases ha : ∀ c ∈ a, isSpace c = true
  · rw [lstrip_append_spaces a b ha]
    unfold lstrip
    rw [dropWhile_all _ _ h, dropWhile_all _ _ ha]
  · unfold lstrip
    have : (a ++ b).dropWhile isSpace = a.dropWhile isSpace ++ b := by
      clear h
      induction a with
      | nil => simp at ha
      | cons c cs ih =>
        simp only [List.cons_append, List.dropWhile]
        cases hc : isSpace c with
        | true =>
          simp only
          apply ih
          intro hall
          apply ha
          intro d hd
          simp only [List.mem_cons] at hd
          rcases hd with rfl | hd
          · exact hc
          · exact hall d hd
        | false => rfl
    rw [this, rstrip_append_spaces _ _ h]

/-- A text without leading/trailing blanks is unchanged by `strip`. -/
theorem strip_eq_self (t : Text) (h1 : ∀ c, t.head? = some c → isSpace c = false)
    (h2 : ∀ c, t.getLast? = some c → isSpace c = false) : strip t = t := by
  unfold strip lstrip rstrip
  rw [dropWhile_eq_self_of_head _ _ h1]
  rw [dropWhile_eq_self_of_head _ t.reverse (by intro c hc; apply h2; simpa using hc)]
  simp

theorem strip_eq_self_of_noSpace (t : Text) (h : ∀ c ∈ t, isSpace c = false) : strip t = t := by
  apply strip_eq_self
  · intro c hc; exact h c (List.mem_of_mem_head? (by simp [hc]))
  · intro c hc; exact h c (List.mem_of_getLast? hc)

theorem isNumSpace_of {c : Char} (h : isNumSpace c = true) : isSpace c = true := by
  unfold isNumSpace at h
  rw [Bool.and_eq_true] at h
  exact h.1

theorem numSpace_of_noSpace {c : Char} (h : isSpace c = false) : isNumSpace c = false := by
  unfold isNumSpace
  rw [h]; rfl

theorem numStrip_append_left (a b : Text) (h : ∀ c ∈ a, isNumSpace c = true) : numStrip (a ++ b) = numStrip b := by
  unfold numStrip; rw [dropWhile_append_all _ _ _ h]

theorem dropWhile_append_some {α} (p : α → Bool) (a b : List α) (h : ¬ ∀ c ∈ a, p c = true) : (a ++ b).dropWhile p = a.dropWhile p ++ b := by
  induction a with
  | nil => simp at h
  | cons c cs ih =>
    simp only [List.cons_append, List.dropWhile]
    cases hc : p c with
    | true =>
      simp only
      refine ih fun hall => h fun d hd => ?_
      rcases List.mem_cons.1 hd with rfl | hd
      · exact hc
      · exact hall d hd
    | false => rfl

theorem numStrip_append_right (a b : Text) (h : ∀ c ∈ b, isNumSpace c = true) : numStrip (a ++ b) = numStrip a := by
  unfold numStrip
  by_cases ha : ∀ c ∈ a, isNumSpace c = true
  · rw [dropWhile_append_all _ _ _ ha, dropWhile_all _ _ h, dropWhile_all _ _ ha]
  · rw [dropWhile_append_some _ _ _ ha, List.reverse_append, dropWhile_append_all _ _ _ (by simpa using h)]

theorem numStrip_eq_self_of_noSpace (t : Text) (h : ∀ c ∈ t, isSpace c = false) : numStrip t = t := by
  unfold numStrip
  rw [dropWhile_eq_self_of_head _ t fun c hc => numSpace_of_noSpace (h c (List.mem_of_mem_head? (by simp [hc]))),
    dropWhile_eq_self_of_head _ t.reverse fun c hc => numSpace_of_noSpace (h c (List.mem_of_getLast? (by simpa using hc))), List.reverse_reverse]

theorem isSpace_blank : isSpace ' ' = true := by decide
theorem isSpace_lf : isSpace '\n' = true := by decide
theorem isSpace_minus : isSpace '-' = false := by decide

theorem isSpace_replicate (k : Nat) : ∀ c ∈ List.replicate k ' ', isSpace c = true := by
  intro c hc
  rw [List.mem_replicate] at hc
  rw [hc.2]; decide

theorem strip_padLeft (w : Nat) (t : Text) : strip (padLeft w t) = strip t :=
  strip_append_left _ _ (isSpace_replicate _)

theorem strip_padRight (w : Nat) (t : Text) : strip (padRight w t) = strip t :=
  strip_append_right _ _ (isSpace_replicate _)

theorem padLeft_length (w : Nat) (t : Text) (h : t.length ≤ w) : (padLeft w t).length = w := by
  simp [padLeft]; omega
theorem padRight_length (w : Nat) (t : Text) (h : t.length ≤ w) : (padRight w t).length = w := by
  simp [padRight]; omega

/-! ### Integers -/

theorem intRepr_ne_nil (n : Int) : intRepr n ≠ [] := by
  unfold intRepr; split
  · simp
  · exact natRepr_ne_nil _

/-- Characters of a printed integer. -/
theorem intRepr_chars (n : Int) : ∀ c ∈ intRepr n, IsDigit c ∨ c = '-' := by
  intro c hc
  unfold intRepr at hc
  split at hc
  · simp only [List.mem_cons] at hc
    rcases hc with h | h
    · exact Or.inr h
    · exact Or.inl (natRepr_digits _ _ h)
  · exact Or.inl (natRepr_digits _ _ hc)

theorem intRepr_noSpace (n : Int) : ∀ c ∈ intRepr n, isSpace c = false := by
  intro c hc
  rcases intRepr_chars n c hc with h | h
  · exact isSpace_of_isDigit h
  · rw [h]; decide

theorem intRepr_noUnder (n : Int) : ∀ c ∈ intRepr n, c ≠ '_' := by
  intro c hc
  rcases intRepr_chars n c hc with h | h
  · exact h.ne_under
  · rw [h]; decide

theorem strip_intRepr (n : Int) : strip (intRepr n) = intRepr n :=
  strip_eq_self_of_noSpace _ (intRepr_noSpace n)

theorem parseSigned_natRepr (n : Nat) : parseSigned (natRepr n) = some (n : Int) := by
  have hd := natRepr_digits n
  have hp := parseNat_natRepr n
  cases hr : natRepr n with
  | nil => exact absurd hr (natRepr_ne_nil _)
  | cons c cs =>
    have hc : IsDigit c := hd c (by rw [hr]; simp)
    rw [hr] at hp
    simp [parseSigned, hc.ne_minus, hc.ne_plus, hp]

theorem parseSigned_intRepr (n : Int) : parseSigned (intRepr n) = some n := by
  unfold intRepr
  split
  · simp only [parseSigned, if_true, parseNat_natRepr, Option.map_some, Option.some.injEq]
    omega
  · rw [parseSigned_natRepr]
    simp only [Option.some.injEq]
    omega

theorem numStrip_intRepr (n : Int) : numStrip (intRepr n) = intRepr n :=
  numStrip_eq_self_of_noSpace _ (intRepr_noSpace n)

theorem parseInt_intRepr (n : Int) : parseInt (intRepr n) = some n := by
  unfold parseInt
  rw [numStrip_intRepr, dropUnders_noUnder _ _ (intRepr_noUnder n)]
  exact parseSigned_intRepr n

theorem strip_strip (t : Text) : strip (strip t) = strip t := by
    apply strip_eq_self
    · intro c hc
      cases h : isSpace c with
      | false => rfl
      | true =>
        exfalso
        unfold strip rstrip at hc
        rw [List.head?_reverse] at hc
        -- last element of a dropWhile of the reverse is the head of lstrip
        have hne : (lstrip t) ≠ [] := by
          intro e; rw [e] at hc; simp at hc
        have h1 : ∀ d, (lstrip t).head? = some d → isSpace d = false := by
          intro d hd
          unfold lstrip at hd
          have := List.head?_dropWhile_not isSpace t
          rw [hd] at this
          simpa using this
        have h2 : ((lstrip t).reverse.dropWhile isSpace).getLast? = some c := hc
        have h3 : ((lstrip t).reverse.dropWhile isSpace) <:+ (lstrip t).reverse := List.dropWhile_suffix _
        obtain ⟨pre, hpre⟩ := h3
        have h4 : (lstrip t).reverse.getLast? = some c := by
          rw [← hpre, List.getLast?_append, h2]; rfl
        rw [List.getLast?_reverse] at h4
        rw [h1 c h4] at h; cases h
    · intro c hc
      unfold strip rstrip at hc
      rw [List.getLast?_reverse] at hc
      have := List.head?_dropWhile_not isSpace (lstrip t).reverse
      rw [hc] at this
      simpa using this

theorem parseInt_left (a t : Text) (h : ∀ c ∈ a, isNumSpace c = true) : parseInt (a ++ t) = parseInt t := by
  unfold parseInt
  rw [numStrip_append_left a t h]

theorem parseInt_right (t b : Text) (h : ∀ c ∈ b, isNumSpace c = true) : parseInt (t ++ b) = parseInt t := by
  unfold parseInt
  rw [numStrip_append_right t b h]

theorem isNumSpace_replicate (k : Nat) : ∀ c ∈ List.replicate k ' ', isNumSpace c = true := by
  intro c hc
  rw [List.mem_replicate] at hc
  rw [hc.2]; decide

theorem digitZeros_noSpace : ∀ z ∈ digitZeros, ∀ i < 10, isSpace (Char.ofNat (z + i)) = false := by decide +kernel

theorem digitVal_noSpace {c : Char} {d : Nat} (h : digitVal c = some d) : isSpace c = false := by
  unfold digitVal at h
  split at h
  · exact isSpace_of_isDigit (by assumption)
  · split at h
    · cases h
    · cases hz : digitZeros.find? fun z => decide (z ≤ c.toNat) && decide (c.toNat ≤ z + 9) with
      | none => rw [hz] at h; cases h
      | some z =>
        have := List.find?_some hz
        simp only [Bool.and_eq_true, decide_eq_true_eq] at this
        have h2 := digitZeros_noSpace z (List.mem_of_find?_eq_some hz) (c.toNat - z) (by omega)
        rwa [show z + (c.toNat - z) = c.toNat by omega, Char.ofNat_toNat] at h2

theorem parseNatAux_noSpace (t : Text) (acc n : Nat) (h : parseNatAux acc t = some n) : ∀ c ∈ t, isSpace c = false := by
  induction t generalizing acc with
  | nil => simp
  | cons c t ih =>
    unfold parseNatAux at h
    cases hd : digitVal c with
    | none => rw [hd] at h; cases h
    | some d =>
      rw [hd] at h
      intro x hx
      rcases List.mem_cons.1 hx with rfl | hx
      · exact digitVal_noSpace hd
      · exact ih _ h x hx

theorem parseNat_noSpace {t : Text} {n : Nat} (h : parseNat t = some n) : ∀ c ∈ t, isSpace c = false := by
  unfold parseNat at h
  split at h
  · cases h
  · exact parseNatAux_noSpace _ _ _ h

theorem parseSigned_noSpace {t : Text} {n : Int} (h : parseSigned t = some n) : ∀ c ∈ t, isSpace c = false := by
  unfold parseSigned at h
  split at h
  · cases h
  · split at h
    · rename_i r hc
      cases hp : parseNat r with
      | none => rw [hp] at h; cases h
      | some k =>
        intro x hx
        rcases List.mem_cons.1 hx with rfl | hx
        · rw [hc]; decide
        · exact parseNat_noSpace hp x hx
    · split at h
      · rename_i r _ hc
        cases hp : parseNat r with
        | none => rw [hp] at h; cases h
        | some k =>
          intro x hx
          rcases List.mem_cons.1 hx with rfl | hx
          · rw [hc]; decide
          · exact parseNat_noSpace hp x hx
      · rename_i c r _ _
        cases hp : parseNat (c :: r) with
        | none => rw [hp] at h; cases h
        | some k => exact parseNat_noSpace hp

theorem dropUnders_noSpace (b : Bool) (t s : Text) (h : dropUnders b t = some s) (hs : ∀ c ∈ s, isSpace c = false) : ∀ c ∈ t, isSpace c = false := by
  induction t generalizing b s with
  | nil => simp
  | cons c t ih =>
    unfold dropUnders at h
    split at h
    · rename_i hc
      split at h
      · split at h
        · intro x hx
          rcases List.mem_cons.1 hx with rfl | hx
          · rw [hc]; decide
          · exact ih _ _ h hs x hx
        · cases h
      · cases h
    · cases hq : dropUnders (digitVal c).isSome t with
      | none => rw [hq] at h; cases h
      | some q =>
        rw [hq] at h
        have h' : c :: q = s := Option.some.inj h
        subst h'
        intro x hx
        rcases List.mem_cons.1 hx with rfl | hx
        · exact hs x (by simp)
        · exact ih _ _ hq (fun y hy => hs y (by simp [hy])) x hx

theorem takeWhile_all {α} (p : α → Bool) (a : List α) (c : α) (h : c ∈ a.takeWhile p) : p c = true := by
  induction a with
  | nil => cases h
  | cons d r ih =>
    rw [List.takeWhile_cons] at h
    split at h
    · rcases List.mem_cons.1 h with rfl | h
      · assumption
      · exact ih h
    · cases h

theorem numStrip_parts (t : Text) : ∃ a b, t = a ++ (numStrip t ++ b) ∧ (∀ c ∈ a, isNumSpace c = true) ∧ ∀ c ∈ b, isNumSpace c = true := by
  refine ⟨t.takeWhile isNumSpace, ((t.dropWhile isNumSpace).reverse.takeWhile isNumSpace).reverse, ?_, ?_, ?_⟩
  · unfold numStrip
    rw [← List.reverse_append, List.takeWhile_append_dropWhile, List.reverse_reverse, List.takeWhile_append_dropWhile]
  · intro c hc; exact takeWhile_all _ _ _ hc
  · intro c hc; exact takeWhile_all _ _ _ (List.mem_reverse.1 hc)

theorem strip_eq_numStrip (t : Text) (h : ∀ c ∈ numStrip t, isSpace c = false) : strip t = numStrip t := by
  obtain ⟨a, b, e, ha, hb⟩ := numStrip_parts t
  have e2 := congrArg strip e
  rw [e2, strip_append_left _ _ fun c hc => isNumSpace_of (ha c hc), strip_append_right _ _ fun c hc => isNumSpace_of (hb c hc),
    strip_eq_self_of_noSpace _ h]

/-- What `int()` accepts, it accepts without the blanks around it. -/
theorem parseInt_strip {t : Text} {n : Int} (h : parseInt t = some n) : parseInt (strip t) = some n := by
  have hu := h
  unfold parseInt at h
  cases hd : dropUnders false (numStrip t) with
  | none => rw [hd] at h; cases h
  | some s =>
    rw [hd] at h
    have hn := dropUnders_noSpace _ _ _ hd (parseSigned_noSpace h)
    rw [strip_eq_numStrip t hn]
    unfold parseInt
    rw [numStrip_eq_self_of_noSpace _ hn, hd]
    exact h

theorem parseInt_strip_padLeft (w : Nat) (n : Int) : parseInt (strip (padLeft w (intRepr n))) = some n := by
  rw [strip_padLeft, strip_intRepr, parseInt_intRepr]

theorem parseInt_padLeft (w : Nat) (n : Int) : parseInt (padLeft w (intRepr n)) = some n := by
  unfold padLeft
  rw [parseInt_left _ _ (isNumSpace_replicate _), parseInt_intRepr]

end Verif
