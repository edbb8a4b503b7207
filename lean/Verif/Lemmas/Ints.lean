import Mathlib.Tactic.Ring
import Verif.Lemmas.Exact4
import Verif.Lemmas.Fields
/-
Integers printed as integers and read as floats; decimals of finite doubles are finite.
-/
namespace Verif
open F64

theorem digitsPrefix_all (a : Text) (ha : ∀ c ∈ a, IsDigit c) : digitsPrefix a = (a, []) := by
  have := digitsPrefix_append a [] ha (by simp)
  simpa using this

theorem parseDec_natRepr (n : Nat) : parseDec (natRepr n) = some (n, 0) := by
  unfold parseDec
  rw [digitsPrefix_all _ (natRepr_digits n)]
  simp [parseNat_natRepr, parseExpOpt]

theorem parseFloatBody_natRepr (neg : Bool) (n : Nat) :
    parseFloatBody neg (natRepr n) = some (F64.ofDec neg n 0) := by
  have h := parseDec_natRepr n
  cases hr : natRepr n with
  | nil => exact absurd hr (natRepr_ne_nil _)
  | cons c cs =>
    have hc : IsDigit c := natRepr_digits n c (by rw [hr]; simp)
    rw [hr] at h
    exact parseFloatBody_digit neg c cs hc n 0 h

theorem ofDec_zero (neg : Bool) (n : Nat) : F64.ofDec neg n 0 = F64.ofRat neg (n * scale) 1 := by
  unfold ofDec ofRat
  simp only [F64.mk.injEq, true_and]
  unfold ofDecMag
  rw [if_pos (Int.le_refl 0)]
  simp

/-- `float(str(n))` is `float(n)`. -/
theorem parseFloat_intRepr (n : Int) : parseFloat (intRepr n) = some (F64.ofInt n) := by
  unfold parseFloat
  rw [numStrip_intRepr, dropUnders_noUnder _ _ (intRepr_noUnder n)]
  simp only
  unfold intRepr ofInt
  split
  · rename_i h
    simp only [parseSignedFloat, if_true, parseFloatBody_natRepr, ofDec_zero, h, decide_true]
  · rename_i h
    cases hr : natRepr n.natAbs with
    | nil => exact absurd hr (natRepr_ne_nil _)
    | cons c cs =>
      have hc : IsDigit c := natRepr_digits n.natAbs c (by rw [hr]; simp)
      simp only [parseSignedFloat]
      rw [if_neg hc.ne_minus, if_neg hc.ne_plus, ← hr, parseFloatBody_natRepr, ofDec_zero]
      simp [h]

theorem parseFloat_padLeft_int (w : Nat) (n : Int) : parseFloat (padLeft w (intRepr n)) = some (F64.ofInt n) := by
  rw [parseFloat_padLeft, parseFloat_intRepr]

/-! ### Integers below `2 ^ 53` are exact -/

theorem exists_mag (n : Nat) (h : n < 2 ^ 53) : ∃ m, m < infMag ∧ unitsOf m = n * scale := by
  by_cases h0 : n = 0
  · subst h0; exact ⟨0, by decide, by rw [unitsOf_zero, Nat.zero_mul]⟩
  · have hk : n.log2 ≤ 52 := by
      have := (Nat.log2_lt h0).mpr h
      omega
    have h1 := Nat.log2_self_le h0
    have h2 := @Nat.lt_log2_self n
    generalize hkk : n.log2 = k at *
    have hP : 0 < 2 ^ (52 - k) := Nat.pow_pos (by decide)
    have a1 : 2 ^ 52 ≤ n * 2 ^ (52 - k) := by
      calc 2 ^ 52 = 2 ^ k * 2 ^ (52 - k) := by rw [← Nat.pow_add]; congr 1; omega
        _ ≤ n * 2 ^ (52 - k) := Nat.mul_le_mul_right _ h1
    have a2 : n * 2 ^ (52 - k) < 2 ^ 53 := by
      calc n * 2 ^ (52 - k) < 2 ^ (k + 1) * 2 ^ (52 - k) := Nat.mul_lt_mul_of_pos_right h2 hP
        _ = 2 ^ 53 := by rw [← Nat.pow_add]; congr 1; omega
    refine ⟨(1022 + k) * 2 ^ 52 + n * 2 ^ (52 - k), ?_, ?_⟩
    · unfold infMag; omega
    · rw [unitsOf_rep _ _ (by omega) (Or.inl a1), scale_eq, Nat.mul_assoc, ← Nat.pow_add]
      rw [show 52 - k + (1022 + k) = 1074 by omega]

theorem ofInt_exact (n : Int) (h : n.natAbs < 2 ^ 53) :
    (F64.ofInt n).units = n.natAbs * scale ∧ (F64.ofInt n).finite = true := by
  obtain ⟨m, hm, hu⟩ := exists_mag _ h
  have e : roundMag (n.natAbs * scale) 1 = m := by rw [← hu, roundMag_units m hm]
  have e' : (F64.ofInt n).mag = m := e
  constructor
  · unfold units; rw [e', hu]
  · simp [finite, e', hm]

theorem rhe_exact (n : Nat) : rhe (n * scale) scale = n := by
  apply Nat.le_antisymm
  · exact rhe_le _ _ _ scale_pos (Nat.le_refl _)
  · exact rhe_ge _ _ _ scale_pos (Nat.le_refl _)

/-- `'%.0f' % n` is `'%d' % n` for integers below `2 ^ 53`. -/
theorem fmtF0_ofInt (n : Int) (h : n.natAbs < 2 ^ 53) : fmtF0 (F64.ofInt n) = intRepr n := by
  obtain ⟨hu, hf⟩ := ofInt_exact n h
  have hm : (F64.ofInt n).mag < infMag := by simpa [finite] using hf
  unfold fmtF0
  have h1 : (F64.ofInt n).isNaN = false := by simp [isNaN]; omega
  have h2 : (F64.ofInt n).isInf = false := by simp [isInf]; omega
  rw [h1, h2, hu, rhe_exact]
  unfold intRepr
  have hneg : (F64.ofInt n).neg = decide (n < 0) := rfl
  rw [hneg]
  by_cases hn : n < 0 <;> simp [hn]

/-- `int(float(n)) = n` for integers below `2 ^ 53`. -/
theorem toInt_ofInt (n : Int) (h : n.natAbs < 2 ^ 53) : (F64.ofInt n).toInt = some n := by
  obtain ⟨hu, hf⟩ := ofInt_exact n h
  unfold F64.toInt
  rw [hf, hu, Nat.mul_div_cancel _ scale_pos]
  have hneg : (F64.ofInt n).neg = decide (n < 0) := rfl
  simp only [if_true, hneg]
  by_cases hn : n < 0
  · simp only [hn, decide_true, if_true, Option.some.injEq]; omega
  · simp only [hn, decide_false, Bool.false_eq_true, if_false, Option.some.injEq]; omega

/-! ### Finite decimals -/

theorem maxUnits_lt : unitsOf (infMag - 1) * decScale < 10 ^ 709 * scale := by decide +kernel
theorem maxUnits_ge : 10 ^ 708 * scale ≤ unitsOf (infMag - 1) * decScale := by decide +kernel

theorem quant_finite_of (p b : Nat)
    (h1 : 2 * (unitsOf (infMag - 1) * decScale * 10 ^ p) < (2 * b + 1) * (scale * 10 ^ 708))
    (h2 : b * 10 ^ 708 * scale ≤ unitsOf (infMag - 1) * (10 ^ p * decScale))
    (x : F64) (hx : x.finite = true) : (x.quant p).finite = true := by
  have hm : x.mag < infMag := by simpa [finite] using hx
  have hfin : ∀ y : F64, y.mag < infMag → y.finite = true := by intro y hy; simpa [finite] using hy
  apply hfin
  unfold F64.quant ofDec
  simp only
  by_cases h0 : x.units = 0
  · rw [h0, decMag_zero]; decide
  · have hu : 0 < x.units := Nat.pos_of_ne_zero h0
    rw [ofDecMag_toDec _ _ hu]
    have hd : 0 < 10 ^ p * decScale := Nat.mul_pos (Nat.pow_pos (by decide)) decScale_pos
    apply roundMag_finite _ _ hd
    have hle : x.units ≤ unitsOf (infMag - 1) := unitsOf_mono x.mag _ (Nat.le_sub_one_of_lt hm)
    obtain ⟨r, hr⟩ : ∃ r, r = 709 := ⟨_, rfl⟩
    have k1 : unitsOf (infMag - 1) * decScale < 10 ^ r * scale := by rw [hr]; exact maxUnits_lt
    have k2 := maxUnits_ge
    have hE := (decExp_spec _ hu).1
    have hE' : decExp x.units < r := by
      apply (Nat.pow_lt_pow_iff_right (by decide : 1 < 10)).mp
      apply Nat.lt_of_mul_lt_mul_right (a := scale)
      exact Nat.lt_of_le_of_lt (Nat.le_trans hE (Nat.mul_le_mul_right _ hle)) k1
    have hsl := decSig_le p _ hu
    by_cases hc : decExp x.units = 708
    · have hb : decSig p x.units ≤ b := by
        unfold decSig
        apply rhe_le_near
        rw [hc]
        refine Nat.lt_of_le_of_lt ?_ h1
        exact Nat.mul_le_mul_left _ (Nat.mul_le_mul_right _ (Nat.mul_le_mul_right _ hle))
      refine Nat.le_trans ?_ h2
      rw [hc]
      exact Nat.mul_le_mul_right _ (Nat.mul_le_mul_right _ hb)
    · obtain ⟨q, hq⟩ : ∃ q, q = 708 := ⟨_, rfl⟩
      rw [← hq] at k2
      calc decSig p x.units * 10 ^ decExp x.units * scale
          ≤ 10 ^ (p + 1) * 10 ^ (q - 1) * scale :=
            Nat.mul_le_mul_right _ (Nat.mul_le_mul hsl (Nat.pow_le_pow_right (by decide) (by omega)))
        _ = 10 ^ p * (10 ^ q * scale) := by
            rw [show q = (q - 1) + 1 by omega, Nat.add_sub_cancel, Nat.pow_succ, Nat.pow_succ]
            ring
        _ ≤ 10 ^ p * (unitsOf (infMag - 1) * decScale) := Nat.mul_le_mul_left _ k2
        _ = _ := Nat.mul_left_comm _ _ _

theorem quant_finite_5 (x : F64) (hx : x.finite = true) : (x.quant 5).finite = true :=
  quant_finite_of 5 179769 (by decide +kernel) (by decide +kernel) x hx
theorem quant_finite_7 (x : F64) (hx : x.finite = true) : (x.quant 7).finite = true :=
  quant_finite_of 7 17976931 (by decide +kernel) (by decide +kernel) x hx
theorem quant_finite_11 (x : F64) (hx : x.finite = true) : (x.quant 11).finite = true :=
  quant_finite_of 11 179769313486 (by decide +kernel) (by decide +kernel) x hx

end Verif
