import Mathlib.Tactic.Ring
import Mathlib.Tactic.Linarith
import Verif.Lemmas.Exact
/-
Consequences of correct rounding for printing and parsing.
-/
namespace Verif
open F64

theorem rhe_mul (n d k : Nat) (hk : 0 < k) : rhe (n * k) (d * k) = rhe n d := by
  unfold rhe
  simp only
  rw [Nat.mul_div_mul_right _ _ hk, Nat.mul_mod_mul_right]
  have e1 : (2 * (n % d * k) < d * k) = (2 * (n % d) < d) := by
    rw [← Nat.mul_assoc]; simp [Nat.mul_lt_mul_right hk]
  have e2 : (d * k < 2 * (n % d * k)) = (d < 2 * (n % d)) := by
    rw [← Nat.mul_assoc]; simp [Nat.mul_lt_mul_right hk]
  simp only [e1, e2]

theorem roundMag_mul (n d k : Nat) (hk : 0 < k) : roundMag (n * k) (d * k) = roundMag n d := by
  unfold roundMag
  simp only
  rw [Nat.mul_div_mul_right _ _ hk, Nat.mul_right_comm d k, rhe_mul _ _ _ hk]

theorem rhe_err (n D : Nat) (hD : 0 < D) :
    2 * (rhe n D * D) ≤ 2 * n + D ∧ 2 * n ≤ 2 * (rhe n D * D) + D := by
  have h3 : D * (n / D) + n % D = n := Nat.div_add_mod n D
  have h4 : n % D < D := Nat.mod_lt _ hD
  unfold rhe
  simp only
  generalize n / D = q at *
  generalize n % D = r at *
  have e : (q + 1) * D = q * D + D := by ring
  have e' : D * q = q * D := Nat.mul_comm _ _
  split
  · omega
  · split
    · omega
    · split <;> omega

/-- The decimal `t * 10 ^ (E - 400 - p)` over a common denominator. -/
theorem ofDecMag_common (t p E : Nat) :
    ofDecMag t ((E : Int) - decShift - p) = roundMag (t * 10 ^ E * scale) (10 ^ p * decScale) := by
  have hpos : ∀ k, 0 < 10 ^ k := fun k => Nat.pow_pos (by decide)
  have hD : 10 ^ p * decScale = 10 ^ (p + 400) := by rw [decScale_eq, ← Nat.pow_add]
  rw [hD]
  unfold ofDecMag decShift
  split
  · rename_i h
    obtain ⟨k, rfl⟩ : ∃ k, E = k + (p + 400) := ⟨E - (p + 400), by omega⟩
    have : (((k + (p + 400) : Nat) : Int) - (400 : Nat) - (p : Nat)).toNat = k := by omega
    rw [this, ← roundMag_mul _ 1 (10 ^ (p + 400)) (hpos _), Nat.one_mul, Nat.pow_add 10 k]
    generalize 10 ^ (p + 400) = Q
    rw [show t * 10 ^ k * scale * Q = t * (10 ^ k * Q) * scale by ac_rfl]
  · rename_i h
    obtain ⟨k, hk⟩ : ∃ k, p + 400 = k + E := ⟨p + 400 - E, by omega⟩
    have : (-((E : Int) - (400 : Nat) - (p : Nat))).toNat = k := by omega
    rw [this, ← roundMag_mul _ (10 ^ k) (10 ^ E) (hpos _), ← Nat.pow_add, hk, Nat.mul_right_comm]

/-- Reading the decimal printed for `u` units. -/
theorem ofDecMag_toDec (p u : Nat) (hu : 0 < u) :
    ofDecMag (toDec p u).1 ((toDec p u).2 - p)
      = roundMag (decSig p u * 10 ^ decExp u * scale) (10 ^ p * decScale) := by
  unfold toDec
  rw [if_neg (by omega)]
  split
  · rename_i h
    simp only
    rw [h, show ((decExp u : Int) + 1) = ((decExp u + 1 : Nat) : Int) by omega, ofDecMag_common]
    congr 2
    rw [Nat.pow_succ, Nat.pow_succ, Nat.mul_right_comm, Nat.mul_assoc]
  · exact ofDecMag_common _ _ _

/-- Distance between `u` units and the printed decimal, at most half a unit of the last digit. -/
theorem decSig_err (p u : Nat) :
    2 * (decSig p u * 10 ^ decExp u * scale) ≤ 2 * (u * (10 ^ p * decScale)) + scale * 10 ^ decExp u ∧
    2 * (u * (10 ^ p * decScale)) ≤ 2 * (decSig p u * 10 ^ decExp u * scale) + scale * 10 ^ decExp u := by
  have h := rhe_err (u * decScale * 10 ^ p) (scale * 10 ^ decExp u) (decDen_pos _)
  have e1 : decSig p u * 10 ^ decExp u * scale = decSig p u * (scale * 10 ^ decExp u) := by ac_rfl
  have e2 : u * (10 ^ p * decScale) = u * decScale * 10 ^ p := by ac_rfl
  rw [e1, e2]
  exact h

/-- The gaps around a double, in units. -/
theorem gap_up (m : Nat) : ∃ g, unitsOf (m + 1) = unitsOf m + g ∧ unitsOf m < 2 ^ 53 * g := by
  obtain ⟨j, a, e, ha, hj⟩ := mag_rep m
  refine ⟨2 ^ j, ?_, ?_⟩
  · rw [e, Nat.add_assoc, unitsOf_rep j (a + 1) (by omega) (by omega), unitsOf_rep j a (by omega) hj]
    ring
  · rw [e, unitsOf_rep j a (by omega) hj]
    exact Nat.mul_lt_mul_of_pos_right ha (Nat.pow_pos (by decide))

theorem gap_down (m : Nat) (h0 : m ≠ 0) :
    ∃ g, unitsOf m = unitsOf (m - 1) + g ∧ unitsOf m ≤ 2 ^ 53 * g := by
  obtain ⟨j, a, e, ha, hj⟩ := mag_rep m
  have eu : unitsOf m = a * 2 ^ j := by rw [e]; exact unitsOf_rep j a (by omega) hj
  by_cases hb : 2 ^ 52 < a ∨ j = 0
  · refine ⟨2 ^ j, ?_, ?_⟩
    · rw [show m - 1 = j * 2 ^ 52 + (a - 1) by omega, unitsOf_rep j (a - 1) (by omega) (by omega), eu]
      obtain ⟨b, rfl⟩ : ∃ b, a = b + 1 := ⟨a - 1, by omega⟩
      rw [Nat.add_sub_cancel]; ring
    · rw [eu]; exact Nat.mul_le_mul_right _ (by omega)
  · obtain ⟨k, rfl⟩ : ∃ k, j = k + 1 := ⟨j - 1, by omega⟩
    have ea : a = 2 ^ 52 := by omega
    refine ⟨2 ^ k, ?_, ?_⟩
    · rw [show m - 1 = k * 2 ^ 52 + (2 ^ 53 - 1) by omega, unitsOf_rep k _ (by omega) (by omega), eu, ea,
        Nat.pow_succ 2 k]
      omega
    · rw [eu, ea, Nat.pow_succ 2 k]
      omega

theorem gap_pos (m : Nat) (h0 : m ≠ 0) : 0 < unitsOf m := by
  obtain ⟨g, h1, h2⟩ := gap_down m h0
  rcases Nat.eq_zero_or_pos (unitsOf m) with h | h
  · have : g = 0 := by omega
    subst this
    exfalso
    obtain ⟨j, a, e, ha, hj⟩ := mag_rep m
    rw [e, unitsOf_rep j a (by omega) hj] at h
    rcases Nat.mul_eq_zero.mp h with h | h
    · omega
    · exact absurd h (Nat.pos_iff_ne_zero.mp (Nat.pow_pos (by decide)))
  · exact h

/-- Seventeen significant digits identify a double. -/
theorem roundMag_dec_exact (p m : Nat) (hp : 16 ≤ p) (h0 : m ≠ 0) (hm : m < infMag) :
    roundMag (decSig p (unitsOf m) * 10 ^ decExp (unitsOf m) * scale) (10 ^ p * decScale) = m := by
  have hu := gap_pos m h0
  obtain ⟨he1, he2⟩ := decSig_err p (unitsOf m)
  have hx := (decExp_spec (unitsOf m) hu).1
  obtain ⟨g, hg, hgu⟩ := gap_up m
  obtain ⟨g', hg', hgu'⟩ := gap_down m h0
  have hd := decScale_pos
  have h10 : 2 ^ 53 < 10 ^ p :=
    lt_of_lt_of_le (by norm_num) (Nat.pow_le_pow_right (by decide) hp)
  have hpd : 0 < 10 ^ p * decScale := Nat.mul_pos (Nat.pow_pos (by decide)) hd
  have hgp : 0 < g := by
    rcases Nat.eq_zero_or_pos g with h | h
    · subst h; omega
    · exact h
  have hgp' : 0 < g' := by
    rcases Nat.eq_zero_or_pos g' with h | h
    · subst h; omega
    · exact h
  rw [Nat.mul_comm (10 ^ decExp _)] at hx
  generalize hN : decSig p (unitsOf m) * 10 ^ decExp (unitsOf m) * scale = N at *
  generalize hw : scale * 10 ^ decExp (unitsOf m) = w at *
  have k1 : unitsOf m * decScale < g * (10 ^ p * decScale) := by
    rw [← Nat.mul_assoc]
    apply Nat.mul_lt_mul_of_pos_right _ hd
    calc unitsOf m < 2 ^ 53 * g := hgu
      _ ≤ 10 ^ p * g := Nat.mul_le_mul_right _ (le_of_lt h10)
      _ = g * 10 ^ p := Nat.mul_comm _ _
  have k2 : unitsOf m * decScale < g' * (10 ^ p * decScale) := by
    rw [← Nat.mul_assoc]
    apply Nat.mul_lt_mul_of_pos_right _ hd
    calc unitsOf m ≤ 2 ^ 53 * g' := hgu'
      _ < 10 ^ p * g' := Nat.mul_lt_mul_of_pos_right h10 hgp'
      _ = g' * 10 ^ p := Nat.mul_comm _ _
  have hw2 : w ≤ unitsOf m * decScale := hx
  apply roundMag_near _ _ _ hpd hm
  · rw [hg]
    generalize 10 ^ p * decScale = D at *
    calc 2 * N ≤ 2 * (unitsOf m * D) + w := he1
      _ ≤ 2 * (unitsOf m * D) + unitsOf m * decScale := by omega
      _ < 2 * (unitsOf m * D) + g * D := by omega
      _ = _ := by ring
  · right
    generalize 10 ^ p * decScale = D at *
    have : (unitsOf (m - 1) + unitsOf m) * D + g' * D = 2 * (unitsOf m * D) := by
      rw [show unitsOf (m - 1) + unitsOf m = unitsOf (m-1) + (unitsOf (m - 1) + g') by omega, hg']
      ring
    omega

end Verif
