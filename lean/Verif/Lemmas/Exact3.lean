import Mathlib.Tactic.Ring
import Mathlib.Tactic.Linarith
import Verif.Lemmas.Exact2
/-
Re-printing a value that was read, integers as floats, and the distance between a double and the value
read back from its decimal.
-/
namespace Verif
open F64

theorem unitsOf_zero : unitsOf 0 = 0 := by unfold unitsOf; rfl

theorem decMag_zero (p : Nat) : ofDecMag (toDec p 0).1 ((toDec p 0).2 - p) = 0 := by
  unfold toDec
  rw [if_pos rfl]
  simp only
  unfold ofDecMag
  have : ∀ n, roundMag 0 n = 0 := by
    intro n
    unfold roundMag rhe
    simp [infMag]
  split <;> simp [this]

/-- Seventeen significant digits are exact for every finite double. -/
theorem quant_exact (p : Nat) (hp : 16 ≤ p) (x : F64) (hx : x.finite = true) : x.quant p = x := by
  have hm : x.mag < infMag := by simpa [finite] using hx
  unfold F64.quant ofDec units
  obtain ⟨neg, mag, lt⟩ := x
  simp only [F64.mk.injEq, true_and]
  simp only at hm
  by_cases h0 : mag = 0
  · subst h0
    rw [unitsOf_zero]; exact decMag_zero p
  · rw [ofDecMag_toDec _ _ (gap_pos mag h0)]
    exact roundMag_dec_exact p mag hp h0 hm

/-! ### Distance of the rounded double -/

/-- Rounding moves a number by at most half the gap at its binade; `2 ^ s` is that gap. -/
theorem roundMag_err (n d : Nat) (hd : 0 < d) (hf : roundMag n d < infMag) :
    ∃ s, (s = 0 ∨ 2 ^ 52 * 2 ^ s * d ≤ n) ∧
      2 * (unitsOf (roundMag n d) * d) ≤ 2 * n + 2 ^ s * d ∧
      2 * n ≤ 2 * (unitsOf (roundMag n d) * d) + 2 ^ s * d := by
  refine ⟨Nat.log2 (n / d) - 52, ?_, ?_⟩
  · by_cases h : Nat.log2 (n / d) ≤ 52
    · left; omega
    · right
      have h0 : n / d ≠ 0 := by
        intro h0; rw [h0] at h; exact h (by decide)
      have := Nat.log2_self_le h0
      have e : 2 ^ 52 * 2 ^ (Nat.log2 (n / d) - 52) = 2 ^ Nat.log2 (n / d) := by
        rw [← Nat.pow_add]; congr 1; omega
      rw [e]
      exact le_trans (Nat.mul_le_mul_right _ this) (Nat.div_mul_le_self n d)
  · have hs0 : n / d < 2 ^ 53 * 2 ^ (Nat.log2 (n / d) - 52) := by
      have := @Nat.lt_log2_self (n / d)
      refine lt_of_lt_of_le this ?_
      rw [← Nat.pow_add]
      exact Nat.pow_le_pow_right (by decide) (by omega)
    have hs1 : Nat.log2 (n / d) - 52 = 0 ∨ 2 ^ 52 * 2 ^ (Nat.log2 (n / d) - 52) ≤ n / d := by
      by_cases h : Nat.log2 (n / d) ≤ 52
      · left; omega
      · right
        have h0 : n / d ≠ 0 := by
          intro h0; rw [h0] at h; exact h (by decide)
        have := Nat.log2_self_le h0
        rw [← Nat.pow_add, show 52 + (Nat.log2 (n / d) - 52) = Nat.log2 (n / d) by omega]
        exact this
    have hr : roundMag n d = (Nat.log2 (n / d) - 52) * 2 ^ 52 +
        rhe n (d * 2 ^ (Nat.log2 (n / d) - 52)) := by
      revert hf
      unfold roundMag
      simp only
      split
      · intro h; exact absurd h (lt_irrefl _)
      · intro _; rfl
    generalize Nat.log2 (n / d) - 52 = s at *
    have hD : 0 < d * 2 ^ s := Nat.mul_pos hd (Nat.pow_pos (by decide))
    have hle : rhe n (d * 2 ^ s) ≤ 2 ^ 53 := by
      apply rhe_le _ _ _ hD
      have : n < (n / d + 1) * d := by
        have := Nat.div_add_mod n d
        have := Nat.mod_lt n hd
        nlinarith
      calc n ≤ (n / d + 1) * d := le_of_lt this
        _ ≤ (2 ^ 53 * 2 ^ s) * d := Nat.mul_le_mul_right _ hs0
        _ = 2 ^ 53 * (d * 2 ^ s) := by ac_rfl
    have hge : 2 ^ 52 ≤ rhe n (d * 2 ^ s) ∨ s = 0 := by
      rcases hs1 with h | h
      · exact Or.inr h
      · left
        apply rhe_ge _ _ _ hD
        calc 2 ^ 52 * (d * 2 ^ s) = 2 ^ 52 * 2 ^ s * d := by ac_rfl
          _ ≤ n / d * d := Nat.mul_le_mul_right _ h
          _ ≤ n := Nat.div_mul_le_self n d
    have hu : unitsOf (roundMag n d) = rhe n (d * 2 ^ s) * 2 ^ s := by
      rw [hr]; exact unitsOf_rep s _ hle hge
    have he := rhe_err n (d * 2 ^ s) hD
    rw [hu, show rhe n (d * 2 ^ s) * 2 ^ s * d = rhe n (d * 2 ^ s) * (d * 2 ^ s) by ac_rfl,
      Nat.mul_comm (2 ^ s) d]
    exact he

/-! ### Re-printing -/

theorem decExp_unique (u E : Nat) (hu : 0 < u) (h1 : 10 ^ E * scale ≤ u * decScale)
    (h2 : u * decScale < 10 ^ (E + 1) * scale) : decExp u = E := by
  obtain ⟨g1, g2⟩ := decExp_spec u hu
  have a : 10 ^ E < 10 ^ (decExp u + 1) := by
    apply Nat.lt_of_mul_lt_mul_right (a := scale)
    omega
  have b : 10 ^ decExp u < 10 ^ (E + 1) := by
    apply Nat.lt_of_mul_lt_mul_right (a := scale)
    omega
  have a' := (Nat.pow_lt_pow_iff_right (by decide : 1 < 10)).mp a
  have b' := (Nat.pow_lt_pow_iff_right (by decide : 1 < 10)).mp b
  omega

/-- If `u` units are closer to the decimal `T * 10 ^ (E - 400 - p)` than half (for `T = 10 ^ p`: a twentieth) of
its last digit, they print as that decimal. -/
theorem toDec_near (p T E u : Nat) (hE : 0 < E) (hT1 : 10 ^ p ≤ T) (hT2 : T < 10 ^ (p + 1))
    (h1 : 20 * (u * (10 ^ p * decScale)) < 20 * (T * 10 ^ E * scale) + 10 ^ E * scale)
    (h2 : 20 * (T * 10 ^ E * scale) < 20 * (u * (10 ^ p * decScale)) + 10 ^ E * scale) :
    toDec p u = (T, (E : Int) - decShift) := by
  have hS := scale_pos
  have h10 : 0 < 10 ^ p := Nat.pow_pos (by decide)
  have h10E : 0 < 10 ^ E := Nat.pow_pos (by decide)
  have hES : 0 < 10 ^ E * scale := Nat.mul_pos h10E hS
  have hDp : 0 < decScale := decScale_pos
  have hu : 0 < u := by
    rcases Nat.eq_zero_or_pos u with h | h
    · subst h
      have : 1 * (10 ^ E * scale) ≤ T * (10 ^ E * scale) := Nat.mul_le_mul_right _ (by omega)
      rw [Nat.mul_assoc] at h2
      omega
    · exact h
  have e2 : u * (10 ^ p * decScale) = u * decScale * 10 ^ p := by ac_rfl
  have e3 : T * 10 ^ E * scale = T * (10 ^ E * scale) := by ac_rfl
  rw [e2, e3] at h1 h2
  unfold toDec
  rw [if_neg (by omega)]
  -- upper bound of the decade
  have hup : u * decScale < 10 ^ (E + 1) * scale := by
    apply Nat.lt_of_mul_lt_mul_right (a := 10 ^ p)
    have : T * (10 ^ E * scale) + 10 ^ E * scale ≤ 10 ^ (E + 1) * scale * 10 ^ p := by
      calc T * (10 ^ E * scale) + 10 ^ E * scale = (T + 1) * (10 ^ E * scale) := by ring
        _ ≤ 10 ^ (p + 1) * (10 ^ E * scale) := Nat.mul_le_mul_right _ hT2
        _ = _ := by ring
    omega
  by_cases hlo : 10 ^ E * scale ≤ u * decScale
  · have hEq : decExp u = E := decExp_unique u E hu hlo hup
    have hSig : decSig p u = T := by
      unfold decSig
      rw [hEq]
      apply rhe_near
      · rw [Nat.mul_comm scale]
        have : (2 * T + 1) * (10 ^ E * scale) = 2 * (T * (10 ^ E * scale)) + 10 ^ E * scale := by ring
        omega
      · rw [Nat.mul_comm scale]
        have : 2 * T * (10 ^ E * scale) = 2 * (T * (10 ^ E * scale)) := by ring
        omega
    rw [hSig, hEq, if_neg (by omega)]
  · obtain ⟨F, rfl⟩ : ∃ F, E = F + 1 := ⟨E - 1, by omega⟩
    have hFS : 0 < 10 ^ F * scale := Nat.mul_pos (Nat.pow_pos (by decide)) hS
    have eF : 10 ^ (F + 1) * scale = 10 * (10 ^ F * scale) := by ring
    -- here T is the smallest significand
    have hTe : T = 10 ^ p := by
      by_contra hne
      have hge : 10 ^ p + 1 ≤ T := by omega
      have : (10 ^ p + 1) * (10 ^ (F + 1) * scale) ≤ T * (10 ^ (F + 1) * scale) := Nat.mul_le_mul_right _ hge
      have h' : u * decScale * 10 ^ p < 10 ^ (F + 1) * scale * 10 ^ p :=
        Nat.mul_lt_mul_of_pos_right (by omega) h10
      have : (10 ^ p + 1) * (10 ^ (F + 1) * scale) = 10 ^ (F + 1) * scale * 10 ^ p + 10 ^ (F + 1) * scale := by ring
      omega
    subst hTe
    rw [eF] at h1 h2 hlo
    have hlo' : 10 ^ F * scale ≤ u * decScale := by
      by_contra hc
      have h' : u * decScale * 10 ^ p < 10 ^ F * scale * 10 ^ p :=
        Nat.mul_lt_mul_of_pos_right (by omega) h10
      have : 10 ^ p * (10 * (10 ^ F * scale)) = 10 * (10 ^ F * scale * 10 ^ p) := by ring
      have : 1 * (10 ^ F * scale) ≤ 10 ^ p * (10 ^ F * scale) := Nat.mul_le_mul_right _ (by omega)
      have : 10 ^ p * (10 ^ F * scale) = 10 ^ F * scale * 10 ^ p := Nat.mul_comm _ _
      omega
    have hEq : decExp u = F := decExp_unique u F hu hlo' (by rw [eF]; omega)
    have hSig : decSig p u = 10 ^ (p + 1) := by
      unfold decSig
      rw [hEq]
      have e4 : 10 ^ p * (10 * (10 ^ F * scale)) = 10 ^ (p + 1) * (10 ^ F * scale) := by ring
      rw [e4] at h1 h2
      apply rhe_near
      · rw [Nat.mul_comm scale]
        have : (2 * 10 ^ (p + 1) + 1) * (10 ^ F * scale) = 2 * (10 ^ (p + 1) * (10 ^ F * scale)) + 10 ^ F * scale := by ring
        omega
      · rw [Nat.mul_comm scale]
        have : 2 * 10 ^ (p + 1) * (10 ^ F * scale) = 2 * (10 ^ (p + 1) * (10 ^ F * scale)) := by ring
        omega
    rw [hSig, hEq, if_pos rfl]
    simp

end Verif
