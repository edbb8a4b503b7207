import Mathlib.Tactic.Ring
import Mathlib.Tactic.Linarith
import Verif.Lemmas.Exact3
/-
Printing a value that was read gives the same text; integers read as floats.
-/
namespace Verif
open F64

theorem decExp_pos (u : Nat) (hu : 0 < u) : 0 < decExp u := by
  have h := (decExp_spec u hu).2
  rcases Nat.eq_zero_or_pos (decExp u) with h0 | h0
  · rw [h0] at h
    have h1 : 10 ^ (0 + 1) * scale ≤ decScale := by decide +kernel
    have h2 : 1 * decScale ≤ u * decScale := Nat.mul_le_mul_right _ hu
    omega
  · exact h0

/-- The printed decimal in normal form: `T` has exactly `p + 1` digits. -/
theorem toDec_normal (p u : Nat) (hu : 0 < u) :
    ∃ T E, 0 < E ∧ decExp u ≤ E ∧ 10 ^ p ≤ T ∧ T < 10 ^ (p + 1) ∧ toDec p u = (T, (E : Int) - decShift) ∧
      decSig p u * 10 ^ decExp u * scale = T * 10 ^ E * scale := by
  have hp := decExp_pos u hu
  have h1 := decSig_ge p u hu
  have h2 := decSig_le p u hu
  by_cases h : decSig p u = 10 ^ (p + 1)
  · refine ⟨10 ^ p, decExp u + 1, by omega, by omega, le_refl _, Nat.pow_lt_pow_right (by decide) (by omega), ?_, ?_⟩
    · unfold toDec; rw [if_neg (by omega), if_pos h]; simp
    · rw [h]; ring
  · refine ⟨decSig p u, decExp u, hp, le_refl _, h1, by omega, ?_, rfl⟩
    unfold toDec; rw [if_neg (by omega), if_neg h]

/-- The decimal of a normal double survives a read. -/
theorem toDec_roundMag (p u : Nat) (hp : p ≤ 13) (hu : 2 ^ 52 ≤ u)
    (hf : roundMag (decSig p u * 10 ^ decExp u * scale) (10 ^ p * decScale) < infMag) :
    toDec p (unitsOf (roundMag (decSig p u * 10 ^ decExp u * scale) (10 ^ p * decScale))) = toDec p u := by
  have hu0 : 0 < u := lt_of_lt_of_le (by decide) hu
  obtain ⟨T, E, hE, hEE, hT1, hT2, ht, hN⟩ := toDec_normal p u hu0
  have hd : 0 < 10 ^ p * decScale := Nat.mul_pos (Nat.pow_pos (by decide)) decScale_pos
  have hS := scale_pos
  have hDp := decScale_pos
  have hw : u * decScale < 10 ^ (decExp u + 1) * scale := (decExp_spec u hu0).2
  rw [ht]
  rw [hN] at hf ⊢
  obtain ⟨s, hs, he1, he2⟩ := roundMag_err _ _ hd hf
  have hES : 0 < 10 ^ E * scale := Nat.mul_pos (Nat.pow_pos (by decide)) hS
  have h52 : 10 ^ (p + 2) ≤ 2 ^ 52 :=
    le_trans (Nat.pow_le_pow_right (by decide) (by omega : p + 2 ≤ 15)) (by norm_num)
  have hmain : 10 * (2 ^ s * (10 ^ p * decScale)) < 10 ^ E * scale := by
    rcases hs with hs | hs
    · subst hs
      rw [Nat.pow_zero, Nat.one_mul]
      apply Nat.lt_of_mul_lt_mul_left (a := 10)
      calc 10 * (10 * (10 ^ p * decScale)) = 10 ^ (p + 2) * decScale := by ring
        _ ≤ 2 ^ 52 * decScale := Nat.mul_le_mul_right _ h52
        _ ≤ u * decScale := Nat.mul_le_mul_right _ hu
        _ < 10 ^ (decExp u + 1) * scale := hw
        _ ≤ 10 ^ (E + 1) * scale := Nat.mul_le_mul_right _ (Nat.pow_le_pow_right (by decide) (by omega))
        _ = 10 * (10 ^ E * scale) := by ring
    · apply Nat.lt_of_mul_lt_mul_left (a := 2 ^ 52)
      calc 2 ^ 52 * (10 * (2 ^ s * (10 ^ p * decScale))) = 10 * (2 ^ 52 * 2 ^ s * (10 ^ p * decScale)) := by ac_rfl
        _ ≤ 10 * (T * 10 ^ E * scale) := Nat.mul_le_mul_left _ hs
        _ = 10 * T * (10 ^ E * scale) := by ac_rfl
        _ < 10 ^ (p + 2) * (10 ^ E * scale) := by
            apply Nat.mul_lt_mul_of_pos_right _ hES
            calc 10 * T < 10 * 10 ^ (p + 1) := by omega
              _ = 10 ^ (p + 2) := by ring
        _ ≤ 2 ^ 52 * (10 ^ E * scale) := Nat.mul_le_mul_right _ h52
  generalize unitsOf (roundMag (T * 10 ^ E * scale) (10 ^ p * decScale)) = y at *
  apply toDec_near p T E y hE hT1 hT2
  · omega
  · omega

/-- The digits printed for a normal double are the digits printed after reading them. -/
theorem toDec_quant (p : Nat) (x : F64) (hp : p ≤ 13) (hn : 2 ^ 52 ≤ x.mag)
    (hq : (x.quant p).finite = true) : 0 < x.units ∧ toDec p (x.quant p).units = toDec p x.units := by
  have hu : 2 ^ 52 ≤ x.units := by
    unfold units
    obtain ⟨j, a, e, ha, hj⟩ := mag_rep x.mag
    have h52 : 2 ^ 52 ≤ a := by omega
    rw [e, unitsOf_rep j a (by omega) hj]
    exact le_trans h52 (Nat.le_mul_of_pos_right _ (Nat.pow_pos (by decide)))
  have hu0 : 0 < x.units := lt_of_lt_of_le (by decide) hu
  have em : (x.quant p).units
      = unitsOf (roundMag (decSig p x.units * 10 ^ decExp x.units * scale) (10 ^ p * decScale)) := by
    rw [← ofDecMag_toDec p x.units hu0]; rfl
  have hq' : roundMag (decSig p x.units * 10 ^ decExp x.units * scale) (10 ^ p * decScale) < infMag := by
    rw [← ofDecMag_toDec p x.units hu0]
    have : (x.quant p).mag < infMag := by simpa [finite] using hq
    exact this
  exact ⟨hu0, by rw [em]; exact toDec_roundMag p _ hp hu hq'⟩

/-- Re-saving does not drift: a normal double, printed with at most 14 digits and read, prints the same. -/
theorem fmtE_quant (p : Nat) (x : F64) (hp : p ≤ 13) (hx : x.finite = true) (hn : 2 ^ 52 ≤ x.mag)
    (hq : (x.quant p).finite = true) : fmtE p (x.quant p) = fmtE p x := by
  have en : (x.quant p).neg = x.neg := rfl
  rw [fmtE_body p x hx, fmtE_body p _ hq, (toDec_quant p x hp hn hq).2, en]

/-! ### The decimal of a finite double is finite -/

theorem rhe_le_near (n D b : Nat) (h1 : 2 * n < (2 * b + 1) * D) : rhe n D ≤ b := by
  have hD : 0 < D := by
    rcases Nat.eq_zero_or_pos D with h | h
    · subst h; simp at h1
    · exact h
  by_contra hc
  have he := (rhe_err n D hD).1
  have : (b + 1) * D ≤ rhe n D * D := Nat.mul_le_mul_right _ (by omega)
  have e1 : (2 * b + 1) * D = 2 * (b * D) + D := by ring
  have e2 : (b + 1) * D = b * D + D := by ring
  omega

theorem unitsOf_mono (m k : Nat) (h : m ≤ k) : unitsOf m ≤ unitsOf k := by
  induction k with
  | zero => rw [show m = 0 by omega]
  | succ k ih =>
    by_cases e : m = k + 1
    · rw [e]
    · obtain ⟨g, h1, _⟩ := gap_up k
      have := ih (by omega)
      omega

/-- A number below the last midpoint before infinity rounds to a finite double. -/
theorem roundMag_finite (n d : Nat) (hd : 0 < d) (h : n ≤ unitsOf (infMag - 1) * d) :
    roundMag n d < infMag := by
  by_contra hc
  have hq : n / d ≤ unitsOf (infMag - 1) := by
    apply Nat.div_le_of_le_mul; rw [Nat.mul_comm]; exact h
  obtain ⟨k, hk⟩ : ∃ k, k = 2045 := ⟨_, rfl⟩
  have hU : unitsOf (infMag - 1) = (2 ^ 53 - 1) * 2 ^ k := by
    rw [show infMag - 1 = k * 2 ^ 52 + (2 ^ 53 - 1) by rw [hk]; decide]
    exact unitsOf_rep k _ (by norm_num) (by norm_num)
  rw [hU] at h hq
  apply hc
  unfold roundMag
  simp only
  have hs : Nat.log2 (n / d) - 52 ≤ k := by
    by_cases h0 : n / d = 0
    · rw [h0]; simp
    · have hl : Nat.log2 (n / d) < 53 + k := by
        apply (Nat.log2_lt h0).mpr
        apply lt_of_le_of_lt hq
        rw [Nat.pow_add]
        exact Nat.mul_lt_mul_of_pos_right (by norm_num) (Nat.pow_pos (by decide))
      omega
  have hm : (Nat.log2 (n / d) - 52) * 2 ^ 52 + rhe n (d * 2 ^ (Nat.log2 (n / d) - 52)) < infMag := by
    by_cases hs' : Nat.log2 (n / d) - 52 = k
    · rw [hs']
      have : rhe n (d * 2 ^ k) ≤ 2 ^ 53 - 1 := by
        apply rhe_le _ _ _ (Nat.mul_pos hd (Nat.pow_pos (by decide)))
        calc n ≤ (2 ^ 53 - 1) * 2 ^ k * d := h
          _ = _ := by ac_rfl
      unfold infMag
      omega
    · have hlt : n / d < 2 ^ 53 * 2 ^ (Nat.log2 (n / d) - 52) := by
        refine lt_of_lt_of_le (@Nat.lt_log2_self (n / d)) ?_
        rw [← Nat.pow_add]
        exact Nat.pow_le_pow_right (by decide) (by omega)
      generalize Nat.log2 (n / d) - 52 = s at *
      have : rhe n (d * 2 ^ s) ≤ 2 ^ 53 := by
        apply rhe_le _ _ _ (Nat.mul_pos hd (Nat.pow_pos (by decide)))
        have : n < (n / d + 1) * d := by
          have := Nat.div_add_mod n d
          have := Nat.mod_lt n hd
          nlinarith
        calc n ≤ (n / d + 1) * d := le_of_lt this
          _ ≤ (2 ^ 53 * 2 ^ s) * d := Nat.mul_le_mul_right _ hlt
          _ = 2 ^ 53 * (d * 2 ^ s) := by ac_rfl
      unfold infMag
      omega
  rw [if_neg (by omega)]
  exact hm

end Verif
