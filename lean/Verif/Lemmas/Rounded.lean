import Verif.Lemmas.Near2
import Verif.Spec.Literals
import Verif.Props.Numbers
/-
Rounding a rational number to a double, with ties and overflow.
-/
namespace Verif
open F64

theorem unitsOf_strict (m k : Nat) (h : m < k) : unitsOf m < unitsOf k := by
  obtain ⟨g, hg, hl⟩ := gap_up m
  have : 0 < g := by
    rcases Nat.eq_zero_or_pos g with h0 | h0
    · rw [h0] at hl; omega
    · exact h0
  have := unitsOf_mono (m + 1) k h
  omega

theorem rawMag_near (n d : Nat) (hd : 0 < d) (k : Nat) :
    |(unitsOf (rawMag n d) * d : Int) - n| ≤ |(unitsOf k * d : Int) - n| ∧
    (|(unitsOf (rawMag n d) * d : Int) - n| = |(unitsOf k * d : Int) - n| → k ≠ rawMag n d → rawMag n d % 2 = 0) := by
  obtain ⟨h1, h2, h3, h4⟩ := rawMag_mid n d hd
  generalize rawMag n d = m at *
  have h1' : 2 * (n : Int) ≤ unitsOf m * d + unitsOf (m + 1) * d := by
    have := (Int.ofNat_le).2 h1
    push_cast at this
    linarith
  have pos : (0 : Int) < d := by exact_mod_cast hd
  rcases Nat.lt_trichotomy k m with hk | hk | hk
  · have h2' := h2.resolve_left (by omega)
    have h4' := h4.resolve_left (by omega)
    have h2'' : (unitsOf (m - 1) * d : Int) + unitsOf m * d ≤ 2 * n := by
      have := (Int.ofNat_le).2 h2'
      push_cast at this
      linarith
    have hm : (unitsOf k * d : Int) ≤ unitsOf (m - 1) * d := by
      exact_mod_cast Nat.mul_le_mul_right d (unitsOf_mono k (m - 1) (by omega))
    have hm2 : (unitsOf k * d : Int) < unitsOf m * d := by
      exact_mod_cast Nat.mul_lt_mul_of_pos_right (unitsOf_strict k m (by omega)) hd
    have n1 : |(unitsOf k * d : Int) - n| = n - unitsOf k * d := by rw [abs_of_nonpos (by linarith)]; ring
    rw [n1]
    refine ⟨by rw [abs_le]; constructor <;> linarith, fun he _ => h4' ?_⟩
    have : (unitsOf m * d : Int) - n = n - unitsOf k * d := by
      rcases abs_choice ((unitsOf m * d : Int) - n) with ha | ha <;> rw [ha] at he
      · exact he
      · linarith
    have e : ((unitsOf (m - 1) * d : Int) + unitsOf m * d) = 2 * n := by linarith
    have : (((unitsOf (m - 1) + unitsOf m) * d : Nat) : Int) = ((2 * n : Nat) : Int) := by push_cast; linarith
    exact_mod_cast this
  · subst hk; exact ⟨le_refl _, fun _ h => absurd rfl h⟩
  · have hm : (unitsOf (m + 1) * d : Int) ≤ unitsOf k * d := by
      exact_mod_cast Nat.mul_le_mul_right d (unitsOf_mono (m + 1) k (by omega))
    have hm2 : (unitsOf m * d : Int) < unitsOf k * d := by
      exact_mod_cast Nat.mul_lt_mul_of_pos_right (unitsOf_strict m k (by omega)) hd
    have n1 : |(unitsOf k * d : Int) - n| = unitsOf k * d - n := by rw [abs_of_nonneg (by linarith)]
    rw [n1]
    refine ⟨by rw [abs_le]; constructor <;> linarith, fun he _ => h3 ?_⟩
    have : (n : Int) - unitsOf m * d = unitsOf k * d - n := by
      rcases abs_choice ((unitsOf m * d : Int) - n) with ha | ha <;> rw [ha] at he
      · linarith
      · linarith
    have e : 2 * (n : Int) = (unitsOf m * d : Int) + unitsOf (m + 1) * d := by linarith
    have : ((2 * n : Nat) : Int) = (((unitsOf m + unitsOf (m + 1)) * d : Nat) : Int) := by push_cast; linarith
    exact_mod_cast this

theorem rawMag_over (n d : Nat) (hd : 0 < d) :
    infMag ≤ rawMag n d ↔ (unitsOf (infMag - 1) + unitsOf infMag) * d ≤ 2 * n := by
  obtain ⟨h1, h2, h3, -⟩ := rawMag_mid n d hd
  generalize rawMag n d = m at *
  have hi : 0 < infMag := by decide
  constructor
  · intro h
    have h2' := h2.resolve_left (by omega)
    refine le_trans (Nat.mul_le_mul_right d ?_) h2'
    have := unitsOf_mono (infMag - 1) (m - 1) (by omega)
    have := unitsOf_mono infMag m h
    omega
  · intro h
    by_contra hn
    rw [Nat.not_le] at hn
    by_cases hm : m = infMag - 1
    · have e : m + 1 = infMag := by omega
      rw [e, hm] at h1 h3
      have := h3 (by omega)
      revert this
      decide
    · have a1 := unitsOf_strict m (infMag - 1) (by omega)
      have a2 := unitsOf_strict (m + 1) infMag (by omega)
      have : (unitsOf m + unitsOf (m + 1)) * d < (unitsOf (infMag - 1) + unitsOf infMag) * d := Nat.mul_lt_mul_of_pos_right (by omega) hd
      omega

theorem top_units : (((unitsOf (infMag - 1) + unitsOf infMag : Nat) : ℚ) / 2) / scale = 2 ^ 1024 - 2 ^ 970 := by
  have e : unitsOf (infMag - 1) + unitsOf infMag = 2 * ((2 ^ 1024 - 2 ^ 970) * scale) := by decide +kernel
  have hS : (scale : ℚ) ≠ 0 := by exact_mod_cast scale_pos.ne'
  have hle : 2 ^ 970 ≤ 2 ^ 1024 := Nat.pow_le_pow_right (by decide) (by decide)
  rw [e, Nat.cast_mul, Nat.cast_mul, Nat.cast_sub hle, Nat.cast_ofNat, mul_div_cancel_left₀ _ (by norm_num), mul_div_cancel_right₀ _ hS]
  rw [Nat.cast_pow, Nat.cast_pow]; rfl

/-- Rounding gives the double that stands for the number. -/
theorem ofRat_rounded (neg : Bool) (n d : Nat) (hd : 0 < d) : Rounded (ofRat neg n d) neg ((n : ℚ) / d / scale) := by
  refine ⟨rfl, ?_⟩
  have hS : (0 : ℚ) < scale := by exact_mod_cast scale_pos
  have hdq : (0 : ℚ) < d := by exact_mod_cast hd
  have eS : (2 : ℚ) ^ 1074 = scale := by rw [scale_eq]; push_cast; rfl
  have over : ((n : ℚ) / d / scale < 2 ^ 1024 - 2 ^ 970) ↔ ¬ infMag ≤ rawMag n d := by
    rw [rawMag_over n d hd, ← top_units, div_lt_div_iff_of_pos_right hS, div_lt_div_iff₀ hdq (by norm_num), Nat.not_le]
    rw [← Nat.cast_lt (α := ℚ)]
    push_cast
    rw [mul_comm (n : ℚ)]
  by_cases h : infMag ≤ rawMag n d
  · rw [if_neg (fun hn => over.1 hn h)]
    unfold ofRat
    congr 1
    rw [roundMag_raw, if_pos h]
  · rw [if_pos (over.2 h)]
    have hm : (ofRat neg n d).mag = rawMag n d := by
      show roundMag n d = _
      rw [roundMag_raw, if_neg h]
    refine ⟨by simp [finite, hm]; omega, fun z _ => ?_⟩
    rw [abs_value, abs_value, eS]
    have hu : (ofRat neg n d).units = unitsOf (rawMag n d) := by unfold units; rw [hm]
    have r : ∀ a : Nat, |(a : ℚ) / scale - n / d / scale| = |(a : ℚ) * d - n| / (d * scale) := by
      intro a
      have e : |(a : ℚ) * d - n| / (d * scale) = |(a : ℚ) * d - n| / |(d * scale : ℚ)| := by rw [abs_of_pos (mul_pos hdq hS)]
      rw [e, ← abs_div]
      congr 1
      field_simp
    have near := rawMag_near n d hd z.mag
    rw [hu, r, r, hm]
    have hp := mul_pos hdq hS
    rw [div_le_div_iff_of_pos_right hp, div_left_inj' hp.ne']
    refine ⟨by exact_mod_cast near.1, fun he hne => near.2 (by unfold units at he; exact_mod_cast he) ?_⟩
    intro hk
    apply hne
    unfold units
    rw [hk]

theorem ofDec_rounded (neg : Bool) (t : Nat) (e : Int) : Rounded (ofDec neg t e) neg ((t : ℚ) * 10 ^ e) := by
  have hS : (scale : ℚ) ≠ 0 := by exact_mod_cast scale_pos.ne'
  by_cases h : 0 ≤ e
  · have e1 : ofDec neg t e = ofRat neg (t * 10 ^ e.toNat * scale) 1 := by
      unfold ofDec ofDecMag ofRat; simp only [if_pos h]
    rw [e1]
    have := ofRat_rounded neg (t * 10 ^ e.toNat * scale) 1 (by decide)
    have e2 : (((t * 10 ^ e.toNat * scale : Nat) : ℚ) / (1 : Nat) / scale) = t * 10 ^ e := by
      push_cast
      rw [div_one, mul_div_cancel_right₀ _ hS]
      conv_rhs => rw [← Int.toNat_of_nonneg h, zpow_natCast]
    rwa [e2] at this
  · have e1 : ofDec neg t e = ofRat neg (t * scale) (10 ^ (-e).toNat) := by
      unfold ofDec ofDecMag ofRat; simp only [if_neg h]
    rw [e1]
    have := ofRat_rounded neg (t * scale) (10 ^ (-e).toNat) (Nat.pow_pos (by decide))
    have e2 : (((t * scale : Nat) : ℚ) / (10 ^ (-e).toNat : Nat) / scale) = t * 10 ^ e := by
      push_cast
      rw [div_right_comm, mul_div_cancel_right₀ _ hS, div_eq_mul_inv, ← zpow_natCast, ← zpow_neg,
        show -(((-e).toNat : Nat) : Int) = e by omega]
    rwa [e2] at this

theorem units_inj {x y : F64} (h : x.units = y.units) : x.mag = y.mag := by
  rcases Nat.lt_trichotomy x.mag y.mag with h1 | h1 | h1
  · exact absurd h (unitsOf_strict _ _ h1).ne
  · exact h1
  · exact absurd h (unitsOf_strict _ _ h1).ne'

/-- At most one double stands for a number. -/
theorem rounded_unique {x y : F64} {neg : Bool} {q : ℚ} (hx : Rounded x neg q) (hy : Rounded y neg q) : x = y := by
  obtain ⟨nx, hx⟩ := hx
  obtain ⟨ny, hy⟩ := hy
  by_cases hq : q < 2 ^ 1024 - 2 ^ 970
  swap
  · rw [if_neg hq] at hx hy; rw [hx, hy]
  rw [if_pos hq] at hx hy
  obtain ⟨fx, hx⟩ := hx
  obtain ⟨fy, hy⟩ := hy
  have key : ∀ x y : F64, x.finite = true → y.finite = true →
      (∀ z : F64, z.finite = true →
        |(|x.value|) - q| ≤ |(|z.value|) - q| ∧ (|(|x.value|) - q| = |(|z.value|) - q| → |x.value| ≠ |z.value| → x.mag % 2 = 0)) →
      (∀ z : F64, z.finite = true →
        |(|y.value|) - q| ≤ |(|z.value|) - q| ∧ (|(|y.value|) - q| = |(|z.value|) - q| → |y.value| ≠ |z.value| → y.mag % 2 = 0)) →
      ¬ x.mag < y.mag := by
    intro x y fx fy hx hy hlt
    have hS : (0 : ℚ) < 2 ^ 1074 := by positivity
    have mono : ∀ a b : F64, a.mag < b.mag → |a.value| < |b.value| := by
      intro a b hab
      rw [abs_value, abs_value, div_lt_div_iff_of_pos_right hS]
      exact_mod_cast unitsOf_strict _ _ hab
    have hv := mono x y hlt
    have heq := le_antisymm (hx y fy).1 (hy x fx).1
    have px := (hx y fy).2 heq hv.ne
    have py := (hy x fx).2 heq.symm hv.ne'
    have hlt' : x.mag + 1 < y.mag := by omega
    have hyf : y.mag < infMag := by simpa [finite] using fy
    let z : F64 := ⟨false, x.mag + 1, by have := y.lt; omega⟩
    have hz : z.finite = true := by simp [finite, z]; omega
    have h1 := mono x z (Nat.lt_succ_self _)
    have h2 := mono z y hlt'
    have a1 := (hx z hz).1
    have a2 := (hy z hz).1
    have mid : q - |x.value| = |y.value| - q := by
      rcases abs_choice (|x.value| - q) with ha | ha <;> rcases abs_choice (|y.value| - q) with hb | hb <;> rw [ha, hb] at heq <;> linarith
    have b1 : |(|x.value|) - q| = q - |x.value| := by rw [abs_of_nonpos (by linarith)]; ring
    rw [b1] at a1
    have : |(|z.value|) - q| < q - |x.value| := by rw [abs_lt]; constructor <;> linarith
    linarith
  have hm : x.mag = y.mag := by
    have h1 := key x y fx fy hx hy
    have h2 := key y x fy fx hy hx
    omega
  have hn : x.neg = y.neg := by rw [nx, ny]
  cases x; cases y
  simp only at hm hn
  subst hm hn
  rfl

end Verif
