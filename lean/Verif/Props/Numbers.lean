import Verif.Spec.Value
import Verif.Lemmas.Near
import Verif.Lemmas.FmtU
import Verif.Lemmas.Again
import Verif.Lemmas.RT2414
import Mathlib.Tactic.FieldSimp
import Mathlib.Tactic.Push
/-
Properties C34 and C35: numbers written as text and read back.
-/
namespace Verif
open F64

theorem value_units (x : F64) : x.value = (if x.neg then -1 else 1) * ((x.units : ℚ) / 2 ^ 1074) := by
  unfold F64.value units unitsOf
  congr 1
  by_cases h : x.mag < 2 ^ 52
  · rw [if_pos (Nat.div_eq_of_lt h), if_pos h, Nat.mod_eq_of_lt h, zpow_neg, div_eq_mul_inv]
    rfl
  · have h0 : x.mag / 2 ^ 52 ≠ 0 := by
      intro h0
      rw [Nat.div_eq_zero_iff] at h0
      omega
    rw [if_neg h0, if_neg h]
    obtain ⟨k, hk⟩ := Nat.exists_eq_succ_of_ne_zero h0
    rw [hk]
    push_cast
    rw [show ((k : ℤ) + 1 - 1075) = k - 1074 by ring, zpow_sub₀ (by norm_num), zpow_natCast]
    rw [mul_div_assoc]
    rfl

theorem abs_value (x : F64) : |x.value| = (x.units : ℚ) / 2 ^ 1074 := by
  rw [value_units, abs_mul]
  have : |(if x.neg then (-1 : ℚ) else 1)| = 1 := by cases x.neg <;> simp
  rw [this, one_mul, abs_of_nonneg]
  positivity

/-! ### C34 -/

/-- A finite double written with `%25.16e` (padded to any width) and read by `float()` is the same double bit for bit, also
with the letter `E`. -/
theorem C34_exact (w : Nat) (x : F64) (hx : x.finite = true) :
    parseFloat (padLeft w (fmtE 16 x)) = some x ∧ parseFloat (padLeft w (fmtEU 16 x)) = some x := by
  have := quant_exact 16 (by decide) x hx
  refine ⟨by rw [parseFloat_padLeft_fmtE w 16 x hx, this], ?_⟩
  rw [parseFloat_padLeft, parseFloat_fmtEU 16 x hx, this]

/-- Sixteen digits are not enough: the double after 1.0 is lost. -/
theorem C34_sharp : ∃ x : F64, x.finite = true ∧ parseFloat (fmtE 14 x) ≠ some x :=
  ⟨⟨false, 0x3FF0000000000001, by decide⟩, by decide, by decide +kernel⟩

/-! ### C35 -/

theorem units_pos {x : F64} (h0 : x.mag ≠ 0) : 0 < x.units := gap_pos x.mag h0

/-- What is written with `p + 1` significant digits is a decimal `t * 10^(e - p)` with exactly that many digits, no further from the
number than half a unit of its last digit; what is read back is the double nearest to that decimal. -/
theorem C35_rounding (p w : Nat) (x y : F64) (hx : x.finite = true) (h0 : x.value ≠ 0)
    (hy : parseFloat (padLeft w (fmtE p x)) = some y) (hf : y.finite = true) :
    ∃ (t : Nat) (e : Int),
      10 ^ p ≤ t ∧ t < 10 ^ (p + 1) ∧
      fmtE p x = (if x.neg then ['-'] else []) ++
        digitChar (t / 10 ^ p) :: '.' :: (digitsW p t ++ 'e' :: expRepr e) ∧
      (∃ E : Int, (10 : ℚ) ^ E ≤ |x.value| ∧ |x.value| < 10 ^ (E + 1) ∧
        2 * |(t : ℚ) * 10 ^ (e - p) - abs x.value| ≤ 10 ^ (E - p)) ∧
      (∀ z : F64, |y.value - (if x.neg then -1 else 1) * (t * 10 ^ (e - p))| ≤
        |z.value - (if x.neg then -1 else 1) * (t * 10 ^ (e - p))|) := by
  have hu : 0 < x.units := by
    rcases Nat.eq_zero_or_pos x.units with h | h
    · exfalso; apply h0; rw [value_units, h]; simp
    · exact h
  rw [parseFloat_padLeft_fmtE w p x hx] at hy
  obtain rfl := Option.some.inj hy
  obtain ⟨T, E, hE, -, hT1, hT2, ht, hN⟩ := toDec_normal p x.units hu
  have hS : (0 : ℚ) < scale := by exact_mod_cast scale_pos
  have hA : (0 : ℚ) < decScale := by exact_mod_cast decScale_pos
  have hP : (0 : ℚ) < 10 ^ p := by positivity
  have eS : (2 : ℚ) ^ 1074 = scale := by rw [scale_eq]; push_cast; rfl
  have eA : (10 : ℚ) ^ 400 = decScale := by rw [decScale_eq]; push_cast; rfl
  have ten : (10 : ℚ) ≠ 0 := by norm_num
  have zp : ∀ k : Nat, (10 : ℚ) ^ ((k : ℤ) - 400) = 10 ^ k / decScale := by
    intro k
    rw [zpow_sub₀ ten, zpow_natCast, ← eA]; exact congrArg _ (zpow_ofNat (10 : ℚ) 400)
  have zpp : ∀ k : Nat, (10 : ℚ) ^ ((k : ℤ) - 400 - p) = 10 ^ k / decScale / 10 ^ p := by
    intro k
    rw [zpow_sub₀ ten, zp, zpow_natCast]
  have hD : (T : ℚ) * 10 ^ ((E : ℤ) - decShift - p) = (T * 10 ^ E * scale) / (10 ^ p * decScale) / scale := by
    rw [show ((decShift : Nat) : ℤ) = 400 from rfl, zpp]
    field_simp
  have hq : (x.quant p).units = unitsOf (roundMag (T * 10 ^ E * scale) (10 ^ p * decScale)) := by
    rw [← hN, ← ofDecMag_toDec p x.units hu]; rfl
  have hf' : roundMag (T * 10 ^ E * scale) (10 ^ p * decScale) < infMag := by
    rw [← hN, ← ofDecMag_toDec p x.units hu]
    have : (x.quant p).mag < infMag := by simpa [finite] using hf
    exact this
  have hd : 0 < 10 ^ p * decScale := Nat.mul_pos (Nat.pow_pos (by decide)) decScale_pos
  have hdq : (0 : ℚ) < 10 ^ p * decScale := by positivity
  refine ⟨T, (E : ℤ) - decShift, hT1, hT2, ?_, ⟨(decExp x.units : ℤ) - 400, ?_, ?_, ?_⟩, ?_⟩
  · rw [fmtE_body p x hx, ht]
  · rw [zp, abs_value, eS, div_le_div_iff₀ hA hS]
    exact_mod_cast (decExp_spec x.units hu).1
  · rw [show ((decExp x.units : ℤ) - 400 + 1) = ((decExp x.units + 1 : Nat) : ℤ) - 400 by push_cast; ring, zp, abs_value, eS,
      div_lt_div_iff₀ hS hA]
    exact_mod_cast (decExp_spec x.units hu).2
  · obtain ⟨e1, e2⟩ := decSig_err p x.units
    rw [hN] at e1 e2
    have f1 : (2 : ℚ) * (T * 10 ^ E * scale) ≤ 2 * (x.units * (10 ^ p * decScale)) + scale * 10 ^ decExp x.units := by
      exact_mod_cast e1
    have f2 : (2 : ℚ) * (x.units * (10 ^ p * decScale)) ≤ 2 * (T * 10 ^ E * scale) + scale * 10 ^ decExp x.units := by
      exact_mod_cast e2
    rw [hD, zpp, abs_value, eS]
    have g : ∀ a b c : ℚ, 2 * a ≤ 2 * b + c → 2 * b ≤ 2 * a + c → 2 * |a - b| ≤ c := by
      intro a b c h1 h2
      have : |a - b| ≤ c / 2 := by rw [abs_le]; constructor <;> linarith
      linarith
    apply g
    · have := div_le_div_of_nonneg_right (div_le_div_of_nonneg_right f1 hdq.le) hS.le
      calc _ = 2 * ((T : ℚ) * 10 ^ E * scale) / (10 ^ p * decScale) / scale := by ring
        _ ≤ _ := this
        _ = _ := by field_simp
    · have := div_le_div_of_nonneg_right (div_le_div_of_nonneg_right f2 hdq.le) hS.le
      calc _ = 2 * ((x.units : ℚ) * (10 ^ p * decScale)) / (10 ^ p * decScale) / scale := by field_simp
        _ ≤ _ := this
        _ = _ := by field_simp
  · intro z
    have near : ∀ k : Nat, |((x.quant p).units : ℚ) / scale - (T * 10 ^ E * scale) / (10 ^ p * decScale) / scale| ≤
        |(unitsOf k : ℚ) / scale - (T * 10 ^ E * scale) / (10 ^ p * decScale) / scale| := by
      intro k
      have h := roundMag_nearest _ _ hd hf' k
      rw [← hq] at h
      have h' : |((x.quant p).units : ℚ) * (10 ^ p * decScale) - T * 10 ^ E * scale| ≤
          |(unitsOf k : ℚ) * (10 ^ p * decScale) - T * 10 ^ E * scale| := by exact_mod_cast h
      have r : ∀ a : ℚ, |a / scale - (T * 10 ^ E * scale) / (10 ^ p * decScale) / scale| =
          |a * (10 ^ p * decScale) - T * 10 ^ E * scale| / ((10 ^ p * decScale) * scale) := by
        intro a
        have e : |a * (10 ^ p * decScale) - T * 10 ^ E * scale| / ((10 ^ p * decScale) * scale) =
            |a * (10 ^ p * decScale) - T * 10 ^ E * scale| / |((10 ^ p * decScale) * scale : ℚ)| := by
          rw [abs_of_pos (mul_pos hdq hS)]
        rw [e, ← abs_div]
        congr 1
        field_simp
      rw [r, r]
      exact div_le_div_of_nonneg_right h' (mul_pos hdq hS).le
    rw [hD, value_units, value_units, eS]
    have hn : (x.quant p).neg = x.neg := rfl
    rw [hn]
    have hpos : (0 : ℚ) ≤ (T * 10 ^ E * scale) / (10 ^ p * decScale) / scale :=
      div_nonneg (div_nonneg (mul_nonneg (mul_nonneg (Nat.cast_nonneg _) (pow_nonneg (by norm_num) _)) hS.le) hdq.le) hS.le
    generalize ((T : ℚ) * 10 ^ E * scale) / (10 ^ p * decScale) / scale = D at *
    have nz := near z.mag
    have n0 := near 0
    rw [show unitsOf z.mag = z.units from rfl] at nz
    rw [unitsOf_zero] at n0
    have hz : (0 : ℚ) ≤ z.units / scale := div_nonneg (Nat.cast_nonneg _) hS.le
    generalize ((x.quant p).units : ℚ) / scale = Y at *
    generalize (z.units : ℚ) / scale = Z at *
    have n0' : |Y - D| ≤ D := by
      refine le_trans n0 ?_
      simp [abs_of_nonneg hpos]
    have sym : ∀ a b : ℚ, |(-1) * a - (-1) * b| = |a - b| := by
      intro a b; rw [← mul_sub, abs_mul]; simp
    cases x.neg <;> cases z.neg <;> simp only [if_true, if_false, Bool.false_eq_true]
    · simpa using nz
    · refine le_trans (by simpa using n0') ?_
      rw [abs_of_nonpos (by linarith)]; linarith
    · rw [sym]
      refine le_trans n0' ?_
      rw [abs_of_nonneg (by linarith)]; linarith
    · rw [sym, sym]; exact nz

/-- A difference from what was written: the value read back is within one unit of the last digit of the original, and both
have the same sign. -/
theorem C35_error (p w : Nat) (x y : F64) (hx : x.finite = true) (h0 : x.value ≠ 0)
    (hy : parseFloat (padLeft w (fmtE p x)) = some y) (hf : y.finite = true) :
    y.neg = x.neg ∧ ∃ E : Int, (10 : ℚ) ^ E ≤ |x.value| ∧ |x.value| < 10 ^ (E + 1) ∧ |y.value - x.value| ≤ 10 ^ (E - p) := by
  obtain ⟨t, e, -, -, -, ⟨E, hE1, hE2, hE3⟩, hn⟩ := C35_rounding p w x y hx h0 hy hf
  refine ⟨?_, E, hE1, hE2, ?_⟩
  · rw [parseFloat_padLeft_fmtE w p x hx] at hy
    obtain rfl := Option.some.inj hy
    rfl
  · have h1 := hn x
    have h2 : |x.value - (if x.neg then -1 else 1) * (t * 10 ^ (e - p))| = |(t : ℚ) * 10 ^ (e - p) - abs x.value| := by
      rw [abs_value, value_units]
      generalize (x.units : ℚ) / 2 ^ 1074 = u
      generalize (t : ℚ) * 10 ^ (e - p) = D
      cases x.neg
      · simp [abs_sub_comm]
      · simp only [if_true]
        congr 1
        ring
    rw [h2] at h1
    have h3 := abs_sub_le y.value ((if x.neg then -1 else 1) * (t * 10 ^ (e - p))) x.value
    rw [abs_sub_comm ((if x.neg then -1 else 1) * ((t : ℚ) * 10 ^ (e - p))) x.value, h2] at h3
    linarith

/-- Re-saving does not drift: for a normal double and at most 14 digits, writing the value read back produces exactly the
same text. -/
theorem C35_stable (p w : Nat) (hp : p ≤ 13) (x y : F64) (hx : x.finite = true) (hn : 2 ^ 52 ≤ x.mag)
    (hy : parseFloat (padLeft w (fmtE p x)) = some y) (hf : y.finite = true) : fmtE p y = fmtE p x := by
  rw [parseFloat_padLeft_fmtE w p x hx] at hy
  obtain rfl := Option.some.inj hy
  exact fmtE_quant p x hp hx hn hf

/-- The precisions used by the library (6, 8 and 12 significant digits) never turn a finite double into an infinity. -/
theorem C35_finite (p w : Nat) (hp : p = 5 ∨ p = 7 ∨ p = 11) (x y : F64) (hx : x.finite = true)
    (hy : parseFloat (padLeft w (fmtE p x)) = some y) : y.finite = true := by
  rw [parseFloat_padLeft_fmtE w p x hx] at hy
  obtain rfl := Option.some.inj hy
  rcases hp with rfl | rfl | rfl
  · exact quant_finite_5 x hx
  · exact quant_finite_7 x hx
  · exact quant_finite_11 x hx

/-- One save and load of a number. -/
def cycle (p w : Nat) (x : F64) : Option F64 := parseFloat (padLeft w (fmtE p x))

/-- `n + 1` saves and loads. -/
def cycles (p w : Nat) : Nat → F64 → Option F64
  | 0, x => cycle p w x
  | n + 1, x => (cycle p w x).bind (cycles p w n)

/-- However often a number is saved and loaded, it is the number of the first time; this holds for subnormal numbers too,
although their texts can differ (`C35_negation_subnormal`). -/
theorem C35_cycles (p w : Nat) (hp : p = 5 ∨ p = 7 ∨ p = 11) (x : F64) (hx : x.finite = true) (n : Nat) :
    cycles p w n x = cycle p w x := by
  have hq : ∀ z, cycle p w x = some z → cycle p w z = some z := by
    intro z hz
    have hf := C35_finite p w hp x z hx hz
    unfold cycle at hz ⊢
    rw [parseFloat_padLeft_fmtE w p x hx] at hz
    obtain rfl := Option.some.inj hz
    rw [parseFloat_padLeft_fmtE w p _ hf, quant_again p (by omega) x hx hf]
  have hself : ∀ (n : Nat) z, cycle p w z = some z → cycles p w n z = some z := by
    intro n
    induction n with
    | zero => intro z hz; exact hz
    | succ n ih => intro z hz; unfold cycles; rw [hz]; exact ih z hz
  cases n with
  | zero => rfl
  | succ n =>
    unfold cycles
    cases hz : cycle p w x with
    | none => rfl
    | some z => exact hself n z (hq z hz)

/-- A normal number and a subnormal number that are changed by the first save. -/
example : let x : F64 := ⟨true, 0x3FB999999999999B, by decide⟩
    x.finite = true ∧ 2 ^ 52 ≤ x.mag ∧ cycle 5 13 x ≠ some x ∧ cycle 5 13 x ≠ none := by decide +kernel
example : let x : F64 := ⟨false, 202403, by decide⟩
    x.finite = true ∧ cycle 5 13 x ≠ some x ∧ cycle 5 13 x ≠ none := by decide +kernel

/-- Subnormal numbers can drift: 202403 units of 2^-1074 print as 1.00000e-318; what is read back prints as 9.99999e-319. -/
theorem C35_negation_subnormal : ∃ x y : F64, x.finite = true ∧ parseFloat (fmtE 5 x) = some y ∧ fmtE 5 y ≠ fmtE 5 x :=
  ⟨⟨false, 202403, by decide⟩, ⟨false, 202402, by decide⟩, by decide, by decide +kernel, by decide +kernel⟩

/-! ### The columns of data-set 2414 (C30) -/

/-- What the conditions on the width of numbers mean, in terms of values: zero and numbers of absolute value from `1e-99` to
`9e99` have eleven characters if they are not negative (records 12 and 13), and keep a blank in front in a field of
thirteen even if they are; all numbers that are not negative keep a blank in front. -/
theorem C30_columns (x : F64) (hx : x.finite = true) :
    (x.mag = 0 ∨ 1 ≤ |x.value| * 10 ^ 99 ∧ |x.value| < 9 * 10 ^ 99 → (x.neg = false → Eleven x) ∧ Apart x) ∧
    (x.neg = false → Apart x) := by
  refine ⟨fun h => ?_, fun h => apart_of x hx (.inl h)⟩
  have ht : TwoDigit x := by
    refine ⟨hx, ?_⟩
    rcases h with h | ⟨h1, h2⟩
    · exact .inl h
    · rw [abs_value] at h1 h2
      have hs : F64.scale = 2 ^ 1074 := scale_eq
      have hpos : (0 : ℚ) < 2 ^ 1074 := by positivity
      generalize hb : (2 : ℚ) ^ 1074 = b at h1 h2 hpos
      have hb' : ((2 ^ 1074 : Nat) : ℚ) = b := by rw [← hb, Nat.cast_pow, Nat.cast_ofNat]
      refine .inr ⟨?_, ?_⟩
      · rw [div_mul_eq_mul_div, le_div_iff₀ hpos, one_mul] at h1
        rw [hs]
        have : ((2 ^ 1074 : Nat) : ℚ) ≤ ((x.units * 10 ^ 99 : Nat) : ℚ) := by rw [hb']; push_cast; exact h1
        exact_mod_cast this
      · rw [div_lt_iff₀ hpos] at h2
        rw [hs]
        have : (x.units : ℚ) < ((9 * 10 ^ 99 * 2 ^ 1074 : Nat) : ℚ) := by
          rw [Nat.cast_mul, hb', Nat.cast_mul, Nat.cast_pow, Nat.cast_ofNat, Nat.cast_ofNat]; exact h2
        exact_mod_cast this
  exact ⟨fun hn => eleven_of x ht hn, apart_of x hx (.inr ht)⟩

/-- `0.0` and `1.0e100`, which has twelve characters. -/
example : (F64.zero.finite = true ∧ F64.zero.mag = 0) ∧
    let x : F64 := ⟨false, 0x54B249AD2594C37D, by decide⟩
    x.finite = true ∧ x.neg = false ∧ fmtE 5 x = "1.00000e+100".toList := by decide +kernel

end Verif
