import Verif.Lemmas.Near
/-
Rounding: ties and overflow.
-/
namespace Verif
open F64

/-- Rounding before infinity is cut off. -/
def rawMag (n d : Nat) : Nat := (Nat.log2 (n / d) - 52) * 2 ^ 52 + rhe n (d * 2 ^ (Nat.log2 (n / d) - 52))

theorem roundMag_raw (n d : Nat) : roundMag n d = if infMag ≤ rawMag n d then infMag else rawMag n d := rfl

theorem rhe_even_up (n D a : Nat) (hD : 0 < D) (ha : rhe n D = a) (h : 2 * n = (2 * a + 1) * D) : a % 2 = 0 := by
  have hm := Nat.div_add_mod n D
  have hl := Nat.mod_lt n hD
  unfold rhe at ha
  simp only at ha
  generalize n / D = q at *
  generalize n % D = r at *
  split at ha
  · subst ha; nlinarith
  · split at ha
    · subst ha; nlinarith
    · split at ha
      · omega
      · subst ha; nlinarith

theorem rhe_even_down (n D a : Nat) (hD : 0 < D) (ha : rhe n D = a) (h : 2 * n + D = 2 * a * D) : a % 2 = 0 := by
  have hm := Nat.div_add_mod n D
  have hl := Nat.mod_lt n hD
  unfold rhe at ha
  simp only at ha
  generalize n / D = q at *
  generalize n % D = r at *
  split at ha
  · subst ha; nlinarith
  · split at ha
    · subst ha; nlinarith
    · split at ha
      · omega
      · omega

theorem rawMag_mid (n d : Nat) (hd : 0 < d) :
    2 * n ≤ (unitsOf (rawMag n d) + unitsOf (rawMag n d + 1)) * d ∧
    (rawMag n d = 0 ∨ (unitsOf (rawMag n d - 1) + unitsOf (rawMag n d)) * d ≤ 2 * n) ∧
    (2 * n = (unitsOf (rawMag n d) + unitsOf (rawMag n d + 1)) * d → rawMag n d % 2 = 0) ∧
    (rawMag n d = 0 ∨ ((unitsOf (rawMag n d - 1) + unitsOf (rawMag n d)) * d = 2 * n → rawMag n d % 2 = 0)) := by
  have hs0 : n / d < 2 ^ 53 * 2 ^ (Nat.log2 (n / d) - 52) := by
    refine lt_of_lt_of_le (@Nat.lt_log2_self (n / d)) ?_
    rw [← Nat.pow_add]
    exact Nat.pow_le_pow_right (by decide) (by omega)
  have hs1 : Nat.log2 (n / d) - 52 = 0 ∨ 2 ^ 52 * 2 ^ (Nat.log2 (n / d) - 52) ≤ n / d := by
    by_cases h : Nat.log2 (n / d) ≤ 52
    · left; omega
    · right
      have h0 : n / d ≠ 0 := by
        intro h0; rw [h0] at h; exact h (by decide)
      have := Nat.log2_self_le h0
      rw [← Nat.pow_add, show 52 + (Nat.log2 (n / d) - 52) = Nat.log2 (n / d) by omega]
      exact this
  have hr : rawMag n d = (Nat.log2 (n / d) - 52) * 2 ^ 52 +
      rhe n (d * 2 ^ (Nat.log2 (n / d) - 52)) := rfl
  generalize Nat.log2 (n / d) - 52 = s at *
  have hD : 0 < d * 2 ^ s := Nat.mul_pos hd (Nat.pow_pos (by decide))
  have hle : rhe n (d * 2 ^ s) ≤ 2 ^ 53 := by
    apply rhe_le _ _ _ hD
    have : n < (n / d + 1) * d := by
      have := Nat.div_add_mod n d
      have := Nat.mod_lt n hd
      nlinarith
    calc n ≤ (n / d + 1) * d := le_of_lt this
      _ ≤ (2 ^ 53 * 2 ^ s) * d := Nat.mul_le_mul_right _ hs0
      _ = 2 ^ 53 * (d * 2 ^ s) := by ac_rfl
  have hlow : s = 0 ∨ 2 ^ 52 * (d * 2 ^ s) ≤ n := by
    rcases hs1 with h | h
    · exact .inl h
    · right
      calc 2 ^ 52 * (d * 2 ^ s) = 2 ^ 52 * 2 ^ s * d := by ac_rfl
        _ ≤ n / d * d := Nat.mul_le_mul_right _ h
        _ ≤ n := Nat.div_mul_le_self n d
  have hge : 2 ^ 52 ≤ rhe n (d * 2 ^ s) ∨ s = 0 := by
    rcases hlow with h | h
    · exact Or.inr h
    · exact .inl (rhe_ge _ _ _ hD h)
  have he := rhe_err n (d * 2 ^ s) hD
  rw [hr]
  have heu := fun h => rhe_even_up n (d * 2 ^ s) _ hD rfl h
  have hed := fun h => rhe_even_down n (d * 2 ^ s) _ hD rfl h
  generalize rhe n (d * 2 ^ s) = a at *
  have hu : unitsOf (s * 2 ^ 52 + a) = a * 2 ^ s := unitsOf_rep s _ hle hge
  have hup : a * 2 ^ s + 2 ^ s ≤ unitsOf (s * 2 ^ 52 + a + 1) ∧ (a ≠ 2 ^ 53 → unitsOf (s * 2 ^ 52 + a + 1) = a * 2 ^ s + 2 ^ s) := by
    by_cases h53 : a = 2 ^ 53
    · refine ⟨?_, fun h => absurd h53 h⟩
      rw [show s * 2 ^ 52 + a + 1 = (s + 1) * 2 ^ 52 + (2 ^ 52 + 1) by omega, unitsOf_rep (s + 1) _ (by norm_num) (.inl (by norm_num)), h53,
        Nat.pow_succ 2 s]
      have : 0 < 2 ^ s := Nat.pow_pos (by decide)
      omega
    · have : unitsOf (s * 2 ^ 52 + a + 1) = a * 2 ^ s + 2 ^ s := by
        rw [Nat.add_assoc, unitsOf_rep s (a + 1) (by omega) (by omega), Nat.add_mul]
        omega
      exact ⟨by omega, fun _ => this⟩
  have par : (s * 2 ^ 52 + a) % 2 = a % 2 := by omega
  rw [hu, par]
  have low : s * 2 ^ 52 + a ≠ 0 → ¬ (a = 2 ^ 52 ∧ s ≠ 0) →
      (unitsOf (s * 2 ^ 52 + a - 1) + a * 2 ^ s) * d + d * 2 ^ s = 2 * (a * (d * 2 ^ s)) := by
    intro h0 hb
    have ha : a ≠ 0 := by
      intro ha
      rcases hge with h | h
      · rw [ha] at h; norm_num at h
      · apply h0; rw [h, ha]; rfl
    have e : unitsOf (s * 2 ^ 52 + a - 1) = (a - 1) * 2 ^ s := by
      rw [show s * 2 ^ 52 + a - 1 = s * 2 ^ 52 + (a - 1) by omega]
      exact unitsOf_rep s _ (by omega) (by omega)
    rw [e]
    obtain ⟨b, rfl⟩ := Nat.exists_eq_succ_of_ne_zero ha
    simp only [Nat.succ_eq_add_one, Nat.add_sub_cancel]
    ring
  refine ⟨?_, ?_, ?_, ?_⟩
  · calc 2 * n ≤ 2 * (a * (d * 2 ^ s)) + d * 2 ^ s := he.2
      _ = (a * 2 ^ s + (a * 2 ^ s + 2 ^ s)) * d := by ring
      _ ≤ _ := Nat.mul_le_mul_right _ (by omega)
  · by_cases h0 : s * 2 ^ 52 + a = 0
    · exact .inl h0
    · right
      by_cases hb : a = 2 ^ 52 ∧ s ≠ 0
      · have hl := hlow.resolve_left hb.2
        have : unitsOf (s * 2 ^ 52 + a - 1) ≤ unitsOf (s * 2 ^ 52 + a) := unitsOf_mono _ _ (by omega)
        rw [hu] at this
        calc (unitsOf (s * 2 ^ 52 + a - 1) + a * 2 ^ s) * d ≤ (a * 2 ^ s + a * 2 ^ s) * d := Nat.mul_le_mul_right _ (by omega)
          _ = 2 * (2 ^ 52 * (d * 2 ^ s)) := by rw [hb.1]; ring
          _ ≤ 2 * n := by omega
      · have e2 := low h0 hb
        omega
  · intro h
    by_cases h53 : a = 2 ^ 53
    · rw [h53]; norm_num
    · rw [hup.2 h53] at h
      apply heu
      rw [h]; ring
  · by_cases h0 : s * 2 ^ 52 + a = 0
    · exact .inl h0
    · right
      intro h
      by_cases hb : a = 2 ^ 52 ∧ s ≠ 0
      · rw [hb.1]; norm_num
      · have e2 := low h0 hb
        apply hed
        rw [h] at e2
        rw [e2]; ring

end Verif
