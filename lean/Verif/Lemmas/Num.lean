import Verif.Lemmas.Lines
import Verif.Py.Float
/-
Printing and parsing of floats: `float('%.{p}e' % x)` is the double nearest to the decimal printed.
-/
namespace Verif
open F64

/-! ### Rounded division -/

theorem rhe_le (n d b : Nat) (hd : 0 < d) (h : n ≤ b * d) : rhe n d ≤ b := by
  unfold rhe
  simp only
  have h1 : n / d ≤ b := by
    apply Nat.div_le_of_le_mul; rw [Nat.mul_comm]; exact h
  have h2 : n % d < d := Nat.mod_lt _ hd
  have h3 : d * (n / d) + n % d = n := Nat.div_add_mod n d
  by_cases e : n / d = b
  · have h4 : n % d = 0 := by
      rw [e] at h3
      rw [Nat.mul_comm] at h3
      omega
    rw [h4]
    simp [hd, e]
  · split
    · omega
    · split
      · omega
      · split <;> omega

theorem rhe_ge (n d b : Nat) (hd : 0 < d) (h : b * d ≤ n) : b ≤ rhe n d := by
  unfold rhe
  simp only
  have h1 : b ≤ n / d := (Nat.le_div_iff_mul_le hd).mpr h
  split
  · omega
  · split
    · omega
    · split <;> omega

/-! ### Number of digits -/

theorem ndigAux_spec (f n : Nat) (hn : 0 < n) (hf : n < 2 ^ f) :
    0 < ndigAux f n ∧ 10 ^ (ndigAux f n - 1) ≤ n ∧ n < 10 ^ ndigAux f n := by
  induction f generalizing n with
  | zero => simp at hf; omega
  | succ f ih =>
    unfold ndigAux
    split
    · simp; omega
    · have := ih (n / 10) (by omega) (by rw [Nat.pow_succ] at hf; omega)
      obtain ⟨h1, h2, h3⟩ := this
      refine ⟨by omega, ?_, ?_⟩
      · obtain ⟨j, hj⟩ : ∃ j, ndigAux f (n / 10) = j + 1 := ⟨ndigAux f (n / 10) - 1, by omega⟩
        rw [hj] at h2 ⊢
        simp only [Nat.add_sub_cancel] at h2 ⊢
        rw [Nat.pow_succ]; omega
      · rw [Nat.pow_succ]; omega

theorem ndig_spec (n : Nat) (hn : 0 < n) :
    0 < ndig n ∧ 10 ^ (ndig n - 1) ≤ n ∧ n < 10 ^ ndig n :=
  ndigAux_spec _ _ hn (lt_pow_log2_succ n)

/-! ### The printed decimal -/

theorem scale_eq : scale = 2 ^ 1074 := by unfold scale; rfl
theorem decScale_eq : decScale = 10 ^ 400 := by unfold decScale; rfl
theorem scale_pos : 0 < scale := by decide +kernel
theorem decScale_pos : 0 < decScale := by decide +kernel
theorem scale_le_decScale : scale ≤ decScale := by decide +kernel

/-- Scaled value is positive for every positive double. -/
theorem scaled_pos (u : Nat) (hu : 0 < u) : 0 < u * decScale / scale := by
  apply Nat.div_pos _ scale_pos
  exact Nat.le_trans scale_le_decScale (Nat.le_mul_of_pos_left _ hu)

theorem decExp_spec (u : Nat) (hu : 0 < u) :
    10 ^ decExp u * scale ≤ u * decScale ∧ u * decScale < 10 ^ (decExp u + 1) * scale := by
  have hM := scaled_pos u hu
  obtain ⟨h0, h1, h2⟩ := ndig_spec _ hM
  have hk : ndig (u * decScale / scale) = decExp u + 1 := by
    unfold decExp
    exact (Nat.sub_add_cancel h0).symm
  rw [hk] at h1 h2
  rw [Nat.add_sub_cancel] at h1
  exact ⟨(Nat.le_div_iff_mul_le scale_pos).mp h1, (Nat.div_lt_iff_lt_mul scale_pos).mp h2⟩

theorem decDen_pos (k : Nat) : 0 < scale * 10 ^ k :=
  Nat.mul_pos scale_pos (Nat.pow_pos (by decide))

theorem decSig_ge (p u : Nat) (hu : 0 < u) : 10 ^ p ≤ decSig p u := by
  unfold decSig
  apply rhe_ge _ _ _ (decDen_pos _)
  calc 10 ^ p * (scale * 10 ^ decExp u) = 10 ^ decExp u * scale * 10 ^ p := by
        rw [Nat.mul_comm scale, Nat.mul_comm]
    _ ≤ u * decScale * 10 ^ p := Nat.mul_le_mul_right _ (decExp_spec u hu).1

theorem decSig_le (p u : Nat) (hu : 0 < u) : decSig p u ≤ 10 ^ (p + 1) := by
  unfold decSig
  apply rhe_le _ _ _ (decDen_pos _)
  calc u * decScale * 10 ^ p
      ≤ 10 ^ (decExp u + 1) * scale * 10 ^ p :=
        Nat.mul_le_mul_right _ (Nat.le_of_lt (decExp_spec u hu).2)
    _ = 10 ^ (p + 1) * (scale * 10 ^ decExp u) := by
        rw [Nat.pow_succ, Nat.pow_succ]
        ac_rfl

theorem toDec_lt (p u : Nat) : (toDec p u).1 < 10 ^ (p + 1) := by
  unfold toDec
  split
  · exact Nat.pow_pos (by decide)
  · rename_i hu
    have h := decSig_le p u (Nat.pos_of_ne_zero hu)
    split
    · exact Nat.pow_lt_pow_right (by decide) (Nat.lt_succ_self p)
    · rename_i hne
      exact Nat.lt_of_le_of_ne h hne

theorem toDec_ge (p u : Nat) (hu : 0 < u) : 10 ^ p ≤ (toDec p u).1 := by
  unfold toDec
  rw [if_neg (Nat.pos_iff_ne_zero.mp hu)]
  split
  · exact Nat.le_refl _
  · exact decSig_ge p u hu

/-- A bound above all finite doubles (in units). -/
@[irreducible] def bigUnits : Nat := 10 ^ 900

theorem decExp_lt (u : Nat) (h0 : 0 < u) (hu : u < bigUnits) : decExp u < 1300 := by
  have h := (decExp_spec u h0).1
  have hb : bigUnits * decScale ≤ 10 ^ 1300 := by decide +kernel
  apply (Nat.pow_lt_pow_iff_right (by decide : 1 < 10)).mp
  refine Nat.lt_of_lt_of_le ?_ hb
  refine Nat.lt_of_le_of_lt ?_ (Nat.mul_lt_mul_of_pos_right hu decScale_pos)
  exact Nat.le_trans (Nat.le_mul_of_pos_right _ scale_pos) h

theorem toDec_exp_bound (p u : Nat) (hu : u < bigUnits) :
    -1000 < (toDec p u).2 ∧ (toDec p u).2 < 1000 := by
  unfold toDec
  split
  · simp
  · rename_i h0
    have hk := decExp_lt u (Nat.pos_of_ne_zero h0) hu
    generalize decExp u = k at *
    split <;> simp only [decShift] <;> omega

theorem unitsOf_lt (m : Nat) (h : m < infMag) : unitsOf m < bigUnits := by
  unfold unitsOf
  unfold infMag at h
  split
  · rename_i h1
    exact Nat.lt_trans h1 (by decide +kernel)
  · have h1 : m % 2 ^ 52 < 2 ^ 52 := Nat.mod_lt _ (by decide)
    have h2 : m / 2 ^ 52 - 1 ≤ 2046 := by omega
    have h3 : 2 ^ 52 + m % 2 ^ 52 ≤ 2 ^ 53 := by omega
    have h4 : 2 ^ 53 * 2 ^ 2046 < bigUnits := by decide +kernel
    refine Nat.lt_of_le_of_lt ?_ h4
    exact Nat.mul_le_mul h3 (Nat.pow_le_pow_right (by decide) h2)

theorem units_lt (x : F64) (h : x.finite = true) : x.units < bigUnits :=
  unitsOf_lt _ (by simpa [finite] using h)

/-! ### Digit strings -/

theorem digitsW_digits (k n : Nat) : ∀ c ∈ digitsW k n, IsDigit c := by
  induction k generalizing n with
  | zero => simp [digitsW]
  | succ k ih =>
    intro c hc
    simp only [digitsW, List.mem_append, List.mem_cons, List.not_mem_nil, or_false] at hc
    rcases hc with hc | hc
    · exact ih _ c hc
    · rw [hc]; exact isDigit_digitChar _ (Nat.mod_lt _ (by decide))

theorem digitsW_length (k n : Nat) : (digitsW k n).length = k := by
  induction k generalizing n with
  | zero => rfl
  | succ k ih => simp [digitsW, ih]

theorem parseNatAux_digitsW (k n acc : Nat) :
    parseNatAux acc (digitsW k n) = some (acc * 10 ^ k + n % 10 ^ k) := by
  induction k generalizing n with
  | zero => simp [digitsW, parseNatAux, Nat.mod_one]
  | succ k ih =>
    simp only [digitsW]
    rw [parseNatAux_append, ih]
    simp only [Option.bind_some, parseNatAux]
    rw [digitVal_digitChar _ (Nat.mod_lt _ (by decide))]
    simp only [Option.some.injEq]
    have h1 : n % 10 ^ (k + 1) = n % 10 + 10 * (n / 10 % 10 ^ k) := by
      rw [Nat.pow_succ, Nat.mul_comm, Nat.mod_mul]
    have h2 : acc * 10 ^ (k + 1) = acc * 10 ^ k * 10 := by rw [Nat.pow_succ, Nat.mul_assoc]
    rw [h1, h2]
    omega

theorem parseSigned_expRepr (e : Int) : parseSigned (expRepr e) = some e := by
  have hz : ∀ n, parseNat ('0' :: natRepr n) = some n := by
    intro n
    have := parseNat_natRepr n
    unfold parseNat at *
    rw [if_neg (by simpa using natRepr_ne_nil n)] at this
    simp only [List.isEmpty_cons, Bool.false_eq_true, if_false]
    simp only [parseNatAux]
    have hd : digitVal '0' = some 0 := by decide
    rw [hd]
    simpa using this
  have h : parseNat (if e.natAbs < 10 then '0' :: natRepr e.natAbs else natRepr e.natAbs) = some e.natAbs := by
    split
    · exact hz _
    · exact parseNat_natRepr _
  unfold expRepr
  by_cases he : e < 0
  · simp only [he, if_true, parseSigned, h, Option.map_some, Option.some.injEq]
    omega
  · have hpm : ¬ ('+' : Char) = '-' := by decide
    simp only [he, if_false, if_true, parseSigned, hpm, h, Option.map_some, Option.some.injEq]
    omega

theorem digitsPrefix_append (a b : Text) (ha : ∀ c ∈ a, IsDigit c)
    (hb : ∀ c, b.head? = some c → digitVal c = none) : digitsPrefix (a ++ b) = (a, b) := by
  induction a with
  | nil =>
    cases b with
    | nil => rfl
    | cons c cs => simp [digitsPrefix, hb c rfl]
  | cons c cs ih =>
    simp only [List.cons_append, digitsPrefix]
    rw [digitVal_of_isDigit (ha c (by simp)), ih (fun d hd => ha d (by simp [hd]))]
    rfl

/-- The value read back from a `%.{p}e` field: the double nearest to the nearest `(p+1)`-digit
decimal. -/
def F64.quant (p : Nat) (x : F64) : F64 :=
  F64.ofDec x.neg (toDec p x.units).1 ((toDec p x.units).2 - p)

theorem parseDec_fmt (p t : Nat) (e : Int) (ht : t < 10 ^ (p + 1)) :
    parseDec (digitChar (t / 10 ^ p) :: '.' :: (digitsW p t ++ 'e' :: expRepr e)) = some (t, e - p) := by
  have hq : t / 10 ^ p < 10 := by
    apply Nat.div_lt_of_lt_mul
    rw [← Nat.pow_succ]; exact ht
  have hdot : digitVal '.' = none := by decide
  have he : digitVal 'e' = none := by decide
  unfold parseDec
  have h1 : digitsPrefix (digitChar (t / 10 ^ p) :: '.' :: (digitsW p t ++ 'e' :: expRepr e))
      = ([digitChar (t / 10 ^ p)], '.' :: (digitsW p t ++ 'e' :: expRepr e)) := by
    have := digitsPrefix_append [digitChar (t / 10 ^ p)] ('.' :: (digitsW p t ++ 'e' :: expRepr e))
      (by intro c hc; simp at hc; rw [hc]; exact isDigit_digitChar _ hq)
      (by intro c hc; simp at hc; rw [← hc]; exact hdot)
    simpa using this
  have h2 : digitsPrefix (digitsW p t ++ 'e' :: expRepr e) = (digitsW p t, 'e' :: expRepr e) :=
    digitsPrefix_append _ _ (digitsW_digits p t) (by intro c hc; simp at hc; rw [← hc]; exact he)
  have h3 : parseNat ([digitChar (t / 10 ^ p)] ++ digitsW p t) = some t := by
    unfold parseNat
    simp only [List.cons_append, List.nil_append, List.isEmpty_cons, Bool.false_eq_true, if_false, parseNatAux]
    rw [digitVal_digitChar _ hq]
    simp only [Nat.zero_mul, Nat.zero_add]
    rw [parseNatAux_digitsW]
    simp only [Option.some.injEq]
    rw [Nat.mul_comm]
    exact Nat.div_add_mod _ _
  have h4 : parseExpOpt ('e' :: expRepr e) = some e := by
    simp [parseExpOpt, parseSigned_expRepr]
  rw [h1]
  simp only [h2, h3, h4, digitsW_length]

/-- Characters occurring in a printed finite float. -/
def IsNumChar (c : Char) : Prop := IsDigit c ∨ c = '-' ∨ c = '+' ∨ c = '.' ∨ c = 'e'

theorem expRepr_chars (e : Int) : ∀ c ∈ expRepr e, IsDigit c ∨ c = '-' ∨ c = '+' := by
  intro c hc
  unfold expRepr at hc
  simp only [List.mem_cons] at hc
  rcases hc with h | h
  · split at h <;> simp [h]
  · left
    split at h
    · simp only [List.mem_cons] at h
      rcases h with h | h
      · rw [h]; decide
      · exact natRepr_digits _ _ h
    · exact natRepr_digits _ _ h

theorem fmtE_body (p : Nat) (x : F64) (hx : x.finite = true) :
    fmtE p x = (if x.neg then ['-'] else []) ++
      digitChar ((toDec p x.units).1 / 10 ^ p) :: '.' ::
        (digitsW p (toDec p x.units).1 ++ 'e' :: expRepr (toDec p x.units).2) := by
  have hx' : x.mag < infMag := by simpa [finite] using hx
  unfold fmtE
  have h1 : x.isNaN = false := by simp [isNaN]; omega
  have h2 : x.isInf = false := by simp [isInf]; omega
  simp [h1, h2]

theorem fmtE_chars (p : Nat) (x : F64) (hx : x.finite = true) : ∀ c ∈ fmtE p x, IsNumChar c := by
  have hq : (toDec p x.units).1 / 10 ^ p < 10 := by
    apply Nat.div_lt_of_lt_mul
    rw [← Nat.pow_succ]; exact toDec_lt _ _
  intro c hc
  rw [fmtE_body p x hx] at hc
  unfold IsNumChar
  simp only [List.mem_append, List.mem_cons] at hc
  rcases hc with h | h | h | h | h | h
  · split at h
    · simp at h; simp [h]
    · cases h
  · rw [h]; exact Or.inl (isDigit_digitChar _ hq)
  · simp [h]
  · exact Or.inl (digitsW_digits _ _ c h)
  · simp [h]
  · rcases expRepr_chars _ c h with h | h | h
    · exact Or.inl h
    · simp [h]
    · simp [h]

theorem IsNumChar.noSpace {c : Char} (h : IsNumChar c) : isSpace c = false := by
  rcases h with h | rfl | rfl | rfl | rfl
  · exact isSpace_of_isDigit h
  all_goals decide

theorem IsNumChar.ne_under {c : Char} (h : IsNumChar c) : c ≠ '_' := by
  rcases h with h | rfl | rfl | rfl | rfl
  · exact h.ne_under
  all_goals decide

theorem fmtE_noSpace (p : Nat) (x : F64) (hx : x.finite = true) : ∀ c ∈ fmtE p x, isSpace c = false :=
  fun c hc => (fmtE_chars p x hx c hc).noSpace

theorem fmtE_ne_nil (p : Nat) (x : F64) (hx : x.finite = true) : fmtE p x ≠ [] := by
  rw [fmtE_body p x hx]; simp

theorem noBreak_fmtE (p : Nat) (x : F64) (hx : x.finite = true) : NoBreak (fmtE p x) :=
  NoBreak.of_noSpace (fmtE_noSpace p x hx)

theorem lowerChar_digit {c : Char} (h : IsDigit c) : lowerChar c = c := by
  unfold IsDigit at h
  unfold lowerChar
  rw [if_neg (by omega)]

/-- Parsing an unsigned decimal that starts with a digit. -/
theorem parseFloatBody_digit (neg : Bool) (c : Char) (r : Text) (hc : IsDigit c) (t : Nat) (e : Int)
    (h : parseDec (c :: r) = some (t, e)) : parseFloatBody neg (c :: r) = some (F64.ofDec neg t e) := by
  unfold parseFloatBody
  have hl : lower (c :: r) = c :: lower r := by simp [lower, lowerChar_digit hc]
  have h1 : c ≠ 'i' := by intro e; subst e; revert hc; decide
  have h2 : c ≠ 'n' := by intro e; subst e; revert hc; decide
  simp only [hl, List.cons.injEq, h1, h2, false_and, or_self, if_false, h, Option.map_some]

theorem parseSignedFloat_fmt (p t : Nat) (e : Int) (neg : Bool) (ht : t < 10 ^ (p + 1)) :
    parseSignedFloat ((if neg then ['-'] else []) ++
      digitChar (t / 10 ^ p) :: '.' :: (digitsW p t ++ 'e' :: expRepr e))
      = some (F64.ofDec neg t (e - p)) := by
  have hq : t / 10 ^ p < 10 := by
    apply Nat.div_lt_of_lt_mul
    rw [← Nat.pow_succ]; exact ht
  have hd := isDigit_digitChar _ hq
  have hp := parseDec_fmt p t e ht
  cases neg with
  | true =>
    simp only [if_true, List.cons_append, List.nil_append, parseSignedFloat]
    exact parseFloatBody_digit true _ _ hd _ _ hp
  | false =>
    simp only [Bool.false_eq_true, if_false, List.nil_append, parseSignedFloat]
    rw [if_neg hd.ne_minus, if_neg hd.ne_plus]
    exact parseFloatBody_digit false _ _ hd _ _ hp

theorem parseFloat_fmtE (p : Nat) (x : F64) (hx : x.finite = true) :
    parseFloat (fmtE p x) = some (x.quant p) := by
  unfold parseFloat
  rw [numStrip_eq_self_of_noSpace _ (fmtE_noSpace p x hx),
    dropUnders_noUnder _ _ (fun c hc => (fmtE_chars p x hx c hc).ne_under)]
  simp only
  rw [fmtE_body p x hx, parseSignedFloat_fmt p _ _ _ (toDec_lt _ _)]
  rfl

theorem parseFloat_left (a t : Text) (h : ∀ c ∈ a, isNumSpace c = true) : parseFloat (a ++ t) = parseFloat t := by
  unfold parseFloat; rw [numStrip_append_left a t h]

theorem parseFloat_padLeft (w : Nat) (t : Text) : parseFloat (padLeft w t) = parseFloat t :=
  parseFloat_left _ _ (isNumSpace_replicate _)

theorem parseFloat_padLeft_fmtE (w p : Nat) (x : F64) (hx : x.finite = true) :
    parseFloat (padLeft w (fmtE p x)) = some (x.quant p) := by
  rw [parseFloat_padLeft, parseFloat_fmtE p x hx]

theorem expRepr_length (e : Int) (h1 : -1000 < e) (h2 : e < 1000) : (expRepr e).length ≤ 4 := by
  unfold expRepr
  simp only [List.length_cons]
  have : (if e.natAbs < 10 then '0' :: natRepr e.natAbs else natRepr e.natAbs).length ≤ 3 := by
    split
    · rename_i h
      have := natRepr_length e.natAbs 1 (by decide) (by simpa using h)
      simp; omega
    · exact natRepr_length e.natAbs 3 (by decide) (by omega)
  omega

/-- A printed finite float has at most `p + 8` characters: sign, digit, point, `p` digits, `e`, exponent
sign and at most three exponent digits. -/
theorem fmtE_length (p : Nat) (x : F64) (hx : x.finite = true) : (fmtE p x).length ≤ p + 8 := by
  rw [fmtE_body p x hx]
  have hb := toDec_exp_bound p x.units (units_lt x hx)
  have he := expRepr_length _ hb.1 hb.2
  simp only [List.length_append, List.length_cons, digitsW_length]
  have : (if x.neg = true then ['-'] else []).length ≤ 1 := by split <;> simp
  omega

end Verif
