import Verif.Lemmas.Ints
/-
The result of rounding is the nearest double.
-/
namespace Verif
open F64

/-- The rounded number lies between the midpoints around the result. -/
theorem roundMag_mid (n d : Nat) (hd : 0 < d) (hf : roundMag n d < infMag) :
    2 * n ≤ (unitsOf (roundMag n d) + unitsOf (roundMag n d + 1)) * d ∧
    (roundMag n d = 0 ∨ (unitsOf (roundMag n d - 1) + unitsOf (roundMag n d)) * d ≤ 2 * n) := by
  have hs0 : n / d < 2 ^ 53 * 2 ^ (Nat.log2 (n / d) - 52) := by
    refine lt_of_lt_of_le (@Nat.lt_log2_self (n / d)) ?_
    rw [← Nat.pow_add]
    exact Nat.pow_le_pow_right (by decide) (by omega)
  have hs1 : Nat.log2 (n / d) - 52 = 0 ∨ 2 ^ 52 * 2 ^ (Nat.log2 (n / d) - 52) ≤ n / d := by
    by_cases h : Nat.log2 (n / d) ≤ 52
    · left; omega
    · right
      have h0 : n / d ≠ 0 := by
        intro h0; rw [h0] at h; exact h (by decide)
      have := Nat.log2_self_le h0
      rw [← Nat.pow_add, show 52 + (Nat.log2 (n / d) - 52) = Nat.log2 (n / d) by omega]
      exact this
  have hr : roundMag n d = (Nat.log2 (n / d) - 52) * 2 ^ 52 +
      rhe n (d * 2 ^ (Nat.log2 (n / d) - 52)) := by
    revert hf
    unfold roundMag
    simp only
    split
    · intro h; exact absurd h (lt_irrefl _)
    · intro _; rfl
  generalize Nat.log2 (n / d) - 52 = s at *
  have hD : 0 < d * 2 ^ s := Nat.mul_pos hd (Nat.pow_pos (by decide))
  have hle : rhe n (d * 2 ^ s) ≤ 2 ^ 53 := by
    apply rhe_le _ _ _ hD
    have : n < (n / d + 1) * d := by
      have := Nat.div_add_mod n d
      have := Nat.mod_lt n hd
      nlinarith
    calc n ≤ (n / d + 1) * d := le_of_lt this
      _ ≤ (2 ^ 53 * 2 ^ s) * d := Nat.mul_le_mul_right _ hs0
      _ = 2 ^ 53 * (d * 2 ^ s) := by ac_rfl
  have hlow : s = 0 ∨ 2 ^ 52 * (d * 2 ^ s) ≤ n := by
    rcases hs1 with h | h
    · exact .inl h
    · right
      calc 2 ^ 52 * (d * 2 ^ s) = 2 ^ 52 * 2 ^ s * d := by ac_rfl
        _ ≤ n / d * d := Nat.mul_le_mul_right _ h
        _ ≤ n := Nat.div_mul_le_self n d
  have hge : 2 ^ 52 ≤ rhe n (d * 2 ^ s) ∨ s = 0 := by
    rcases hlow with h | h
    · exact Or.inr h
    · exact .inl (rhe_ge _ _ _ hD h)
  have he := rhe_err n (d * 2 ^ s) hD
  rw [hr]
  generalize rhe n (d * 2 ^ s) = a at *
  have hu : unitsOf (s * 2 ^ 52 + a) = a * 2 ^ s := unitsOf_rep s _ hle hge
  have hup : a * 2 ^ s + 2 ^ s ≤ unitsOf (s * 2 ^ 52 + a + 1) := by
    by_cases h53 : a = 2 ^ 53
    · rw [show s * 2 ^ 52 + a + 1 = (s + 1) * 2 ^ 52 + (2 ^ 52 + 1) by omega, unitsOf_rep (s + 1) _ (by norm_num) (.inl (by norm_num)), h53,
        Nat.pow_succ 2 s]
      have : 0 < 2 ^ s := Nat.pow_pos (by decide)
      omega
    · rw [Nat.add_assoc, unitsOf_rep s (a + 1) (by omega) (by omega), Nat.add_mul]
      omega
  rw [hu]
  constructor
  · calc 2 * n ≤ 2 * (a * (d * 2 ^ s)) + d * 2 ^ s := he.2
      _ = (a * 2 ^ s + (a * 2 ^ s + 2 ^ s)) * d := by ring
      _ ≤ _ := Nat.mul_le_mul_right _ (by omega)
  · by_cases h0 : s * 2 ^ 52 + a = 0
    · exact .inl h0
    · right
      by_cases hb : a = 2 ^ 52 ∧ s ≠ 0
      · have hl := hlow.resolve_left hb.2
        have : unitsOf (s * 2 ^ 52 + a - 1) ≤ unitsOf (s * 2 ^ 52 + a) := unitsOf_mono _ _ (by omega)
        rw [hu] at this
        calc (unitsOf (s * 2 ^ 52 + a - 1) + a * 2 ^ s) * d ≤ (a * 2 ^ s + a * 2 ^ s) * d := Nat.mul_le_mul_right _ (by omega)
          _ = 2 * (2 ^ 52 * (d * 2 ^ s)) := by rw [hb.1]; ring
          _ ≤ 2 * n := by omega
      · have ha : a ≠ 0 := by
          intro ha
          rcases hge with h | h
          · rw [ha] at h; norm_num at h
          · apply h0; rw [h, ha]; rfl
        have e : unitsOf (s * 2 ^ 52 + a - 1) = (a - 1) * 2 ^ s := by
          rw [show s * 2 ^ 52 + a - 1 = s * 2 ^ 52 + (a - 1) by omega]
          exact unitsOf_rep s _ (by omega) (by omega)
        rw [e]
        have e2 : ((a - 1) * 2 ^ s + a * 2 ^ s) * d + d * 2 ^ s = 2 * (a * (d * 2 ^ s)) := by
          obtain ⟨b, rfl⟩ := Nat.exists_eq_succ_of_ne_zero ha
          simp only [Nat.succ_eq_add_one, Nat.add_sub_cancel]
          ring
        omega

/-- The result of rounding is nearest among all magnitudes. -/
theorem roundMag_nearest (n d : Nat) (hd : 0 < d) (hf : roundMag n d < infMag) (k : Nat) :
    |(unitsOf (roundMag n d) * d : Int) - n| ≤ |(unitsOf k * d : Int) - n| := by
  obtain ⟨h1, h2⟩ := roundMag_mid n d hd hf
  generalize roundMag n d = m at *
  have h1' : 2 * (n : Int) ≤ unitsOf m * d + unitsOf (m + 1) * d := by
    have := (Int.ofNat_le).2 h1
    push_cast at this
    linarith
  rcases Nat.lt_trichotomy k m with hk | hk | hk
  · have h2' := h2.resolve_left (by omega)
    have h2'' : (unitsOf (m - 1) * d : Int) + unitsOf m * d ≤ 2 * n := by
      have := (Int.ofNat_le).2 h2'
      push_cast at this
      linarith
    have hm : (unitsOf k * d : Int) ≤ unitsOf (m - 1) * d := by
      exact_mod_cast Nat.mul_le_mul_right d (unitsOf_mono k (m - 1) (by omega))
    have hm2 : (unitsOf (m - 1) * d : Int) ≤ unitsOf m * d := by
      exact_mod_cast Nat.mul_le_mul_right d (unitsOf_mono (m - 1) m (by omega))
    rw [abs_le]
    have := le_abs_self ((unitsOf k * d : Int) - n)
    have := neg_abs_le ((unitsOf k * d : Int) - n)
    constructor <;> linarith
  · subst hk; exact le_refl _
  · have hm : (unitsOf (m + 1) * d : Int) ≤ unitsOf k * d := by
      exact_mod_cast Nat.mul_le_mul_right d (unitsOf_mono (m + 1) k (by omega))
    have hm2 : (unitsOf m * d : Int) ≤ unitsOf (m + 1) * d := by
      exact_mod_cast Nat.mul_le_mul_right d (unitsOf_mono m (m + 1) (by omega))
    rw [abs_le]
    have := le_abs_self ((unitsOf k * d : Int) - n)
    have := neg_abs_le ((unitsOf k * d : Int) - n)
    constructor <;> linarith

end Verif
