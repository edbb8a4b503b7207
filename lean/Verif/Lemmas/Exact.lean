import Mathlib.Tactic.Ring
import Mathlib.Tactic.Linarith
import Verif.Lemmas.Num
/-
Correct rounding: a decimal close enough to a double reads as that double.  Consequences: integers below
`2 ^ 53` are exact, and seventeen significant digits are enough.
-/
namespace Verif
open F64

theorem rhe_near (n D a : Nat) (h1 : 2 * n < (2 * a + 1) * D) (h2 : 2 * a * D < 2 * n + D) :
    rhe n D = a := by
  have hD : 0 < D := by
    rcases Nat.eq_zero_or_pos D with h | h
    · subst h; simp at h1
    · exact h
  have h3 : D * (n / D) + n % D = n := Nat.div_add_mod n D
  have h4 : n % D < D := Nat.mod_lt _ hD
  unfold rhe
  simp only
  generalize n / D = q at *
  generalize n % D = r at *
  have hle : q ≤ a := by
    by_contra hc
    have : D * (a + 1) ≤ D * q := Nat.mul_le_mul_left _ (by omega)
    nlinarith
  have hge : a ≤ q + 1 := by
    by_contra hc
    have : D * (q + 2) ≤ D * a := Nat.mul_le_mul_left _ (by omega)
    nlinarith
  rcases Nat.eq_or_lt_of_le hle with e | e
  · subst e
    have : 2 * r < D := by nlinarith
    rw [if_pos this]
  · have e : a = q + 1 := by omega
    subst e
    have : D < 2 * r := by nlinarith
    rw [if_neg (by omega), if_pos this]

theorem roundMag_core (n d s a : Nat) (hs : Nat.log2 (n / d) - 52 = s)
    (h1 : 2 * n < (2 * a + 1) * (d * 2 ^ s)) (h2 : 2 * a * (d * 2 ^ s) < 2 * n + d * 2 ^ s)
    (hm : s * 2 ^ 52 + a < infMag) : roundMag n d = s * 2 ^ 52 + a := by
  unfold roundMag
  simp only
  rw [hs, rhe_near _ _ _ h1 h2, if_neg (by omega)]

/-- Units of the double with exponent `j` and significand `a`. -/
theorem unitsOf_rep (j a : Nat) (ha : a ≤ 2 ^ 53) (hj : 2 ^ 52 ≤ a ∨ j = 0) :
    unitsOf (j * 2 ^ 52 + a) = a * 2 ^ j := by
  unfold unitsOf
  by_cases h : a < 2 ^ 52
  · have : j = 0 := by omega
    subst this
    rw [Nat.zero_mul, Nat.zero_add, if_pos h, Nat.pow_zero, Nat.mul_one]
  · rw [if_neg (by omega)]
    by_cases h' : a = 2 ^ 53
    · subst h'
      have e1 : (j * 2 ^ 52 + 2 ^ 53) % 2 ^ 52 = 0 := by omega
      have e2 : (j * 2 ^ 52 + 2 ^ 53) / 2 ^ 52 - 1 = j + 1 := by omega
      rw [e1, e2, Nat.pow_succ 2 j]
      ring
    · have e1 : (j * 2 ^ 52 + a) % 2 ^ 52 = a - 2 ^ 52 := by omega
      have e2 : (j * 2 ^ 52 + a) / 2 ^ 52 - 1 = j := by omega
      rw [e1, e2]
      rw [show 2 ^ 52 + (a - 2 ^ 52) = a by omega]

theorem mag_rep (m : Nat) : ∃ j a, m = j * 2 ^ 52 + a ∧ a < 2 ^ 53 ∧ (2 ^ 52 ≤ a ∨ j = 0) := by
  by_cases h : m < 2 ^ 52
  · exact ⟨0, m, by omega, by omega, Or.inr rfl⟩
  · exact ⟨m / 2 ^ 52 - 1, 2 ^ 52 + m % 2 ^ 52, by omega, by omega, Or.inl (by omega)⟩

theorem log2_sub (q j : Nat) (h1 : 2 ^ 52 * 2 ^ j ≤ q) (h2 : q < 2 ^ 53 * 2 ^ j) : Nat.log2 q - 52 = j := by
  have hq : q ≠ 0 := by
    have : 0 < 2 ^ 52 * 2 ^ j := Nat.mul_pos (by decide) (Nat.pow_pos (by decide))
    omega
  have : Nat.log2 q = 52 + j := by
    rw [Nat.log2_eq_iff hq]
    rw [Nat.pow_add, show 52 + j + 1 = 53 + j by omega, Nat.pow_add]
    exact ⟨h1, h2⟩
  omega

theorem log2_sub_zero (q : Nat) (h2 : q < 2 ^ 53) : Nat.log2 q - 52 = 0 := by
  by_cases hq : q = 0
  · subst hq; decide
  · have := (Nat.log2_lt hq).mpr h2
    omega

/-- Correct rounding: a number strictly between the two midpoints around a finite double rounds to
that double. -/
theorem roundMag_near (n d m : Nat) (hd : 0 < d) (hm : m < infMag)
    (hup : 2 * n < (unitsOf m + unitsOf (m + 1)) * d)
    (hlo : m = 0 ∨ (unitsOf (m - 1) + unitsOf m) * d < 2 * n) : roundMag n d = m := by
  obtain ⟨j, a, rfl, ha, hj⟩ := mag_rep m
  have hP : 0 < 2 ^ j := Nat.pow_pos (by decide)
  have eu : unitsOf (j * 2 ^ 52 + a) = a * 2 ^ j := unitsOf_rep j a (by omega) hj
  have eu' : unitsOf (j * 2 ^ 52 + a + 1) = (a + 1) * 2 ^ j := by
    rw [Nat.add_assoc]; exact unitsOf_rep j (a + 1) (by omega) (by omega)
  rw [eu, eu'] at hup
  rw [eu] at hlo
  have hlt : n / d < (a + 1) * 2 ^ j := by
    apply Nat.div_lt_of_lt_mul
    nlinarith [Nat.mul_pos hP hd]
  by_cases hc : a * 2 ^ j * d ≤ n
  · have hge : a * 2 ^ j ≤ n / d := (Nat.le_div_iff_mul_le hd).mpr hc
    apply roundMag_core n d j a _ (by nlinarith) (by nlinarith [Nat.mul_pos hd hP]) hm
    rcases hj with hj | hj
    · apply log2_sub
      · exact le_trans (Nat.mul_le_mul_right _ hj) hge
      · exact lt_of_lt_of_le hlt (Nat.mul_le_mul_right _ (by omega))
    · subst hj
      apply log2_sub_zero
      omega
  · have hc : n < a * 2 ^ j * d := by omega
    have hlt : n / d < a * 2 ^ j := by
      apply Nat.div_lt_of_lt_mul
      rw [Nat.mul_comm]; exact hc
    have ha0 : a ≠ 0 := by rintro rfl; simp at hc
    by_cases hb : 2 ^ 52 < a ∨ j = 0
    · have eu2 : unitsOf (j * 2 ^ 52 + a - 1) = (a - 1) * 2 ^ j := by
        rw [show j * 2 ^ 52 + a - 1 = j * 2 ^ 52 + (a - 1) by omega]
        exact unitsOf_rep j (a - 1) (by omega) (by omega)
      rw [eu2] at hlo
      have hlo : ((a - 1) * 2 ^ j + a * 2 ^ j) * d < 2 * n := by
        rcases hlo with h | h
        · omega
        · exact h
      obtain ⟨b, rfl⟩ : ∃ b, a = b + 1 := ⟨a - 1, by omega⟩
      simp only [Nat.add_sub_cancel] at hlo
      have hge : b * 2 ^ j ≤ n / d := by
        apply (Nat.le_div_iff_mul_le hd).mpr
        nlinarith [Nat.mul_pos hP hd]
      apply roundMag_core n d j (b + 1) _ (by nlinarith [Nat.mul_pos hd hP]) (by nlinarith) hm
      rcases hb with hb | hb
      · apply log2_sub
        · exact le_trans (Nat.mul_le_mul_right _ (by omega)) hge
        · exact lt_of_lt_of_le hlt (Nat.mul_le_mul_right _ (by omega))
      · subst hb
        apply log2_sub_zero
        omega
    · have ea : a = 2 ^ 52 := by omega
      obtain ⟨k, rfl⟩ : ∃ k, j = k + 1 := ⟨j - 1, by omega⟩
      subst ea
      have em : (k + 1) * 2 ^ 52 + 2 ^ 52 = k * 2 ^ 52 + 2 ^ 53 := by ring
      have eu2 : unitsOf ((k + 1) * 2 ^ 52 + 2 ^ 52 - 1) = (2 ^ 53 - 1) * 2 ^ k := by
        rw [show (k + 1) * 2 ^ 52 + 2 ^ 52 - 1 = k * 2 ^ 52 + (2 ^ 53 - 1) by omega]
        exact unitsOf_rep k (2 ^ 53 - 1) (by omega) (by omega)
      rw [eu2] at hlo
      have e2 : 2 ^ (k + 1) = 2 * 2 ^ k := by ring
      rw [e2] at hlo hc hlt
      have hQ : 0 < 2 ^ k := Nat.pow_pos (by decide)
      have hlo : ((2 ^ 53 - 1) * 2 ^ k + 2 ^ 52 * (2 * 2 ^ k)) * d < 2 * n := by
        rcases hlo with h | h
        · omega
        · exact h
      have hQd := Nat.mul_pos hd hQ
      rw [em] at hm ⊢
      rw [show 2 ^ 53 - 1 = 9007199254740991 by norm_num] at hlo
      norm_num at hlo
      have hge : 9007199254740991 * 2 ^ k ≤ n / d := by
        apply (Nat.le_div_iff_mul_le hd).mpr
        linarith
      apply roundMag_core n d k (2 ^ 53) _ (by norm_num; linarith) (by norm_num; linarith) hm
      apply log2_sub
      · exact le_trans (Nat.mul_le_mul_right _ (by omega)) hge
      · refine lt_of_lt_of_le hlt ?_
        apply le_of_eq; ring

/-- Every finite double is the double nearest to itself. -/
theorem roundMag_units (m : Nat) (hm : m < infMag) : roundMag (unitsOf m) 1 = m := by
  obtain ⟨j, a, e, ha, hj⟩ := mag_rep m
  have hP : 0 < 2 ^ j := Nat.pow_pos (by decide)
  have eu : unitsOf m = a * 2 ^ j := by rw [e]; exact unitsOf_rep j a (by omega) hj
  have eu' : unitsOf (m + 1) = (a + 1) * 2 ^ j := by
    rw [e, Nat.add_assoc]; exact unitsOf_rep j (a + 1) (by omega) (by omega)
  apply roundMag_near _ _ _ (by decide) hm
  · rw [eu, eu']; nlinarith
  · by_cases h0 : m = 0
    · exact Or.inl h0
    · right
      have : unitsOf (m - 1) < unitsOf m := by
        by_cases hb : 2 ^ 52 < a ∨ j = 0
        · rw [show m - 1 = j * 2 ^ 52 + (a - 1) by omega, unitsOf_rep j (a - 1) (by omega) (by omega), eu]
          exact Nat.mul_lt_mul_of_pos_right (by omega) hP
        · obtain ⟨k, rfl⟩ : ∃ k, j = k + 1 := ⟨j - 1, by omega⟩
          rw [show m - 1 = k * 2 ^ 52 + (2 ^ 53 - 1) by omega, unitsOf_rep k _ (by omega) (by omega), eu]
          have ea : a = 2 ^ 52 := by omega
          have hQ : 0 < 2 ^ k := Nat.pow_pos (by decide)
          rw [ea, Nat.pow_succ 2 k]
          omega
      omega

end Verif
