import Verif.Lemmas.Exact4
import Verif.Lemmas.Cplx
/-
Rounding to a number of significant digits twice is rounding once, subnormal doubles included.
-/
namespace Verif
open F64

theorem rhe_half (n D a : Nat) (hD : 0 < D) (h : 2 * n = (2 * a + 1) * D) :
    rhe n D = if a % 2 = 0 then a else a + 1 := by
  have e : (2 * a + 1) * D = 2 * (D * a) + D := by ring
  rw [e] at h
  have hr : n = D * a + (n - D * a) := by omega
  have hr2 : 2 * (n - D * a) = D := by omega
  have hq : n / D = a := by
    rw [hr, Nat.mul_add_div hD, Nat.div_eq_of_lt (by omega)]; omega
  have hm : n % D = n - D * a := by
    have := Nat.div_add_mod n D
    rw [hq] at this
    omega
  unfold rhe
  simp only
  rw [hq, hm, if_neg (by omega), if_neg (by omega)]

/-- A number at least as close to `rhe n D` as `n / D` rounds to the same. -/
theorem rhe_closer (n n' D : Nat) (hD : 0 < D)
    (h : |(n' : Int) - rhe n D * D| ≤ |(n : Int) - rhe n D * D|) : rhe n' D = rhe n D := by
  obtain ⟨e1, e2⟩ := rhe_err n D hD
  generalize hv : rhe n D = v at *
  have ec : ((v * D : Nat) : Int) = (v : Int) * D := by push_cast; rfl
  generalize hw : v * D = w at *
  rw [← ec] at h
  have a1 : (2 * v + 1) * D = 2 * w + D := by rw [← hw]; ring
  have a2 : 2 * v * D = 2 * w := by rw [← hw]; ring
  have hcase : |(n : Int) - w| * 2 ≤ D := by
    rcases abs_cases ((n : Int) - w) with ⟨h1, _⟩ | ⟨h1, _⟩ <;> omega
  have hcase' : |(n' : Int) - w| * 2 ≤ D := by omega
  by_cases hlt : |(n' : Int) - w| * 2 < D
  · apply rhe_near
    · rw [a1]; rcases abs_cases ((n' : Int) - w) with ⟨h1, _⟩ | ⟨h1, _⟩ <;> omega
    · rw [a2]; rcases abs_cases ((n' : Int) - w) with ⟨h1, _⟩ | ⟨h1, _⟩ <;> omega
  · -- a tie
    have t' : |(n' : Int) - w| * 2 = D := by omega
    have t : |(n : Int) - w| * 2 = D := by omega
    have up : ∀ m : Nat, (m : Int) - w = |(m : Int) - w| → |(m : Int) - w| * 2 = D →
        rhe m D = if v % 2 = 0 then v else v + 1 := by
      intro m hm ht
      apply rhe_half m D v hD
      rw [a1]; omega
    have down : ∀ m : Nat, (m : Int) - w = -|(m : Int) - w| → |(m : Int) - w| * 2 = D → 0 < v ∧
        rhe m D = if (v - 1) % 2 = 0 then v - 1 else v := by
      intro m hm ht
      have hv0 : 0 < v := by
        rcases Nat.eq_zero_or_pos v with h0 | h0
        · subst h0; simp at hw; omega
        · exact h0
      obtain ⟨k, rfl⟩ : ∃ k, v = k + 1 := ⟨v - 1, by omega⟩
      refine ⟨hv0, ?_⟩
      have : (2 * k + 1) * D = 2 * w - D := by
        rw [← hw]
        have : (2 * k + 1) * D + D = 2 * ((k + 1) * D) := by ring
        omega
      rw [rhe_half m D k hD (by rw [this]; omega)]
      simp
    have sgn : ∀ m : Nat, (m : Int) - w = |(m : Int) - w| ∨ (m : Int) - w = -|(m : Int) - w| := by
      intro m
      rcases abs_cases ((m : Int) - w) with ⟨h1, _⟩ | ⟨h1, _⟩ <;> omega
    have ev : v % 2 = 0 := by
      rcases sgn n with hs | hs
      · have := up n hs t
        rw [hv] at this
        split at this <;> omega
      · obtain ⟨h0, this⟩ := down n hs t
        rw [hv] at this
        split at this <;> omega
    rcases sgn n' with hs | hs
    · rw [up n' hs t', if_pos ev]
    · obtain ⟨h0, this⟩ := down n' hs t'
      rw [this, if_neg (by omega)]

/-- Rounding to the nearest multiple. -/
theorem rhe_nearest (n G k : Nat) (hG : 0 < G) : |(rhe n G * G : Int) - n| ≤ |(k * G : Int) - n| := by
  obtain ⟨e1, e2⟩ := rhe_err n G hG
  have ec : ((rhe n G * G : Nat) : Int) = (rhe n G : Int) * G := by push_cast; rfl
  have ek : ((k * G : Nat) : Int) = (k : Int) * G := by push_cast; rfl
  rw [← ec, ← ek]
  by_cases h : k = rhe n G
  · rw [h]
  · have : rhe n G * G + G ≤ k * G ∨ k * G + G ≤ rhe n G * G := by
      rcases Nat.lt_or_gt_of_ne h with h | h
      · right
        have := Nat.mul_le_mul_right G (show k + 1 ≤ rhe n G by omega)
        rw [Nat.add_mul] at this; omega
      · left
        have := Nat.mul_le_mul_right G (show rhe n G + 1 ≤ k by omega)
        rw [Nat.add_mul] at this; omega
    generalize rhe n G * G = a at *
    generalize k * G = b at *
    rcases abs_cases ((a : Int) - n) with ⟨h1, _⟩ | ⟨h1, _⟩ <;>
      rcases abs_cases ((b : Int) - n) with ⟨h2, _⟩ | ⟨h2, _⟩ <;> omega

/-- The decimal printed for `v` is at least as close to `v` as any other one with as many digits. -/
theorem decSig_nearest (p v T E : Nat) (hv : 0 < v) (hT : T ≤ 10 ^ (p + 1)) :
    |((decSig p v * 10 ^ decExp v * scale : Nat) : Int) - (v * (10 ^ p * decScale) : Nat)| ≤
    |((T * 10 ^ E * scale : Nat) : Int) - (v * (10 ^ p * decScale) : Nat)| := by
  have hG := decDen_pos (decExp v)
  have en : v * (10 ^ p * decScale) = v * decScale * 10 ^ p := by ring
  have key : ∀ k : Nat, |((decSig p v * 10 ^ decExp v * scale : Nat) : Int) - (v * (10 ^ p * decScale) : Nat)| ≤
      |((k * (scale * 10 ^ decExp v) : Nat) : Int) - (v * (10 ^ p * decScale) : Nat)| := by
    intro k
    have := rhe_nearest (v * decScale * 10 ^ p) (scale * 10 ^ decExp v) k hG
    rw [en]
    have e1 : decSig p v * 10 ^ decExp v * scale = rhe (v * decScale * 10 ^ p) (scale * 10 ^ decExp v) * (scale * 10 ^ decExp v) := by
      unfold decSig; ring
    rw [e1]
    push_cast at this ⊢
    exact this
  by_cases h : decExp v ≤ E
  · obtain ⟨k, rfl⟩ := Nat.exists_eq_add_of_le h
    have := key (T * 10 ^ k)
    rwa [show T * 10 ^ k * (scale * 10 ^ decExp v) = T * 10 ^ (decExp v + k) * scale by rw [Nat.pow_add]; ring] at this
  · have h1 := key (10 ^ p)
    have h2 : T * 10 ^ E * scale ≤ 10 ^ p * (scale * 10 ^ decExp v) := by
      have : T * 10 ^ E ≤ 10 ^ (p + decExp v) := by
        calc T * 10 ^ E ≤ 10 ^ (p + 1) * 10 ^ E := Nat.mul_le_mul_right _ hT
          _ = 10 ^ (p + 1 + E) := by rw [← Nat.pow_add]
          _ ≤ 10 ^ (p + decExp v) := Nat.pow_le_pow_right (by decide) (by omega)
      calc T * 10 ^ E * scale ≤ 10 ^ (p + decExp v) * scale := Nat.mul_le_mul_right _ this
        _ = 10 ^ p * (scale * 10 ^ decExp v) := by rw [Nat.pow_add]; ring
    have h3 : 10 ^ p * (scale * 10 ^ decExp v) ≤ v * (10 ^ p * decScale) := by
      have := Nat.mul_le_mul_left (10 ^ p) (decExp_spec v hv).1
      calc 10 ^ p * (scale * 10 ^ decExp v) = 10 ^ p * (10 ^ decExp v * scale) := by ring
        _ ≤ 10 ^ p * (v * decScale) := this
        _ = v * (10 ^ p * decScale) := by ring
    generalize 10 ^ p * (scale * 10 ^ decExp v) = b at *
    generalize v * (10 ^ p * decScale) = n at *
    generalize T * 10 ^ E * scale = c at *
    rcases abs_cases ((b : Int) - n) with ⟨q1, _⟩ | ⟨q1, _⟩ <;>
      rcases abs_cases ((c : Int) - n) with ⟨q2, _⟩ | ⟨q2, _⟩ <;> omega

theorem roundMag_small (n d : Nat) (hd : 0 < d) (h : n < 2 ^ 53 * d) : roundMag n d = rhe n d := by
  have hq : n / d < 2 ^ 53 := (Nat.div_lt_iff_lt_mul hd).2 h
  have hr : rhe n d ≤ 2 ^ 53 := rhe_le n d _ hd (Nat.le_of_lt h)
  unfold roundMag
  simp only
  rw [log2_sub_zero _ hq]
  simp only [Nat.zero_mul, Nat.pow_zero, Nat.mul_one, Nat.zero_add]
  rw [if_neg]
  unfold infMag
  omega

theorem decNum_le (p u : Nat) (hu : 0 < u) :
    2 * (decSig p u * 10 ^ decExp u * scale) ≤ 3 * (u * (10 ^ p * decScale)) := by
  have h1 := (decSig_err p u).1
  have h2 := (decExp_spec u hu).1
  have h3 : u * decScale ≤ u * (10 ^ p * decScale) :=
    Nat.mul_le_mul_left _ (Nat.le_mul_of_pos_left _ (Nat.pow_pos (by decide)))
  have e : scale * 10 ^ decExp u = 10 ^ decExp u * scale := Nat.mul_comm _ _
  omega

theorem decNum_ge (p u : Nat) (hu : 0 < u) :
    u * (10 ^ p * decScale) ≤ 2 * (decSig p u * 10 ^ decExp u * scale) := by
  have h1 := (decSig_err p u).2
  have h2 := (decExp_spec u hu).1
  have h3 : u * decScale ≤ u * (10 ^ p * decScale) :=
    Nat.mul_le_mul_left _ (Nat.le_mul_of_pos_left _ (Nat.pow_pos (by decide)))
  have e : scale * 10 ^ decExp u = 10 ^ decExp u * scale := Nat.mul_comm _ _
  omega

/-- Printing and reading a subnormal double, then printing and reading the result, changes nothing any more. -/
theorem roundMag_again (p u : Nat) (hu : 0 < u) (hu2 : u < 2 ^ 52) :
    let v := roundMag (decSig p u * 10 ^ decExp u * scale) (10 ^ p * decScale)
    v < 2 ^ 53 ∧ (0 < v → roundMag (decSig p v * 10 ^ decExp v * scale) (10 ^ p * decScale) = v) := by
  intro v
  have hM : 0 < 10 ^ p * decScale := Nat.mul_pos (Nat.pow_pos (by decide)) decScale_pos
  have hN : 2 * (decSig p u * 10 ^ decExp u * scale) ≤ 3 * (u * (10 ^ p * decScale)) := decNum_le p u hu
  have huM : u * (10 ^ p * decScale) ≤ (2 ^ 52 - 1) * (10 ^ p * decScale) := Nat.mul_le_mul_right _ (by omega)
  have hlt : decSig p u * 10 ^ decExp u * scale < 2 ^ 53 * (10 ^ p * decScale) := by
    generalize decSig p u * 10 ^ decExp u * scale = a at *
    generalize 10 ^ p * decScale = m at *
    omega
  have hv : v = rhe (decSig p u * 10 ^ decExp u * scale) (10 ^ p * decScale) := roundMag_small _ _ hM hlt
  have hvlt : v ≤ 3 * 2 ^ 51 := by
    rw [hv]
    apply rhe_le _ _ _ hM
    generalize decSig p u * 10 ^ decExp u * scale = a at *
    generalize 10 ^ p * decScale = m at *
    omega
  refine ⟨by omega, fun hv0 => ?_⟩
  have near := decSig_nearest p v (decSig p u) (decExp u) hv0 (decSig_le p u hu)
  have hb : decSig p v * 10 ^ decExp v * scale < 2 ^ 53 * (10 ^ p * decScale) := by
    have e := (rhe_err (decSig p u * 10 ^ decExp u * scale) (10 ^ p * decScale) hM)
    rw [← hv] at e
    have h5 : v * (10 ^ p * decScale) ≤ 3 * 2 ^ 51 * (10 ^ p * decScale) := Nat.mul_le_mul_right _ hvlt
    generalize decSig p u * 10 ^ decExp u * scale = a at *
    generalize decSig p v * 10 ^ decExp v * scale = c at *
    generalize v * (10 ^ p * decScale) = b at *
    generalize 10 ^ p * decScale = m at *
    rcases abs_cases ((c : Int) - b) with ⟨q1, _⟩ | ⟨q1, _⟩ <;>
      rcases abs_cases ((a : Int) - b) with ⟨q2, _⟩ | ⟨q2, _⟩ <;> omega
  rw [roundMag_small _ _ hM hb, hv]
  apply rhe_closer _ _ _ hM
  rw [← hv]
  push_cast at near ⊢
  exact near

theorem unitsOf_small (m : Nat) (h : m < 2 ^ 53) : unitsOf m = m := by
  have := unitsOf_rep 0 m (by omega) (.inr rfl)
  simpa using this

theorem quant_mag (p : Nat) (x : F64) : (x.quant p).mag = ofDecMag (toDec p x.units).1 ((toDec p x.units).2 - p) := rfl

theorem quant_mag_pos (p : Nat) (x : F64) (h : 0 < x.units) :
    (x.quant p).mag = roundMag (decSig p x.units * 10 ^ decExp x.units * scale) (10 ^ p * decScale) := by
  rw [quant_mag, ofDecMag_toDec p _ h]

theorem quant_neg (p : Nat) (x : F64) : (x.quant p).neg = x.neg := rfl

theorem quant_subnormal (p : Nat) (x : F64) (h : x.mag < 2 ^ 52) : (x.quant p).quant p = x.quant p := by
  have hux : x.units = x.mag := unitsOf_small _ (by omega)
  rcases Nat.eq_zero_or_pos x.mag with h0 | h0
  · have : (x.quant p).mag = 0 := by
      rw [quant_mag, hux, h0]; exact decMag_zero p
    refine F64.ext' (quant_neg p (x.quant p)) ?_
    rw [quant_mag, this, units_zero this]
    exact decMag_zero p
  · have e := quant_mag_pos p x (by omega)
    rw [hux] at e
    obtain ⟨k1, k2⟩ := roundMag_again p x.mag h0 h
    rw [← e] at k1 k2
    have hu2 : (x.quant p).units = (x.quant p).mag := unitsOf_small _ k1
    refine F64.ext' (quant_neg p (x.quant p)) ?_
    rcases Nat.eq_zero_or_pos (x.quant p).mag with h1 | h1
    · rw [quant_mag, units_zero h1, h1]; exact decMag_zero p
    · rw [quant_mag_pos p _ (by omega), hu2]; exact k2 h1

theorem ne_arith {a b m c d : Nat} (h1 : 2 * b ≤ 2 * a + c) (h2 : c ≤ d) (h3 : 10 * d ≤ b) (h4 : m ≤ b) (hm : 0 < m)
    (h5 : 2 * a ≤ 2 * (0 * m) + m) : False := by omega
theorem lt_arith {a b m : Nat} (hm : 0 < m) (h : 2 * a ≤ 3 * b) (hb : b ≤ (2 ^ 52 - 1) * m) : a < 2 ^ 53 * m := by omega

theorem quant_subnormal_ne (p : Nat) (hp : 1 ≤ p) (x : F64) (h : x.mag < 2 ^ 52) (h0 : x.mag ≠ 0) : (x.quant p).mag ≠ 0 := by
  have hux : x.units = x.mag := unitsOf_small _ (by omega)
  have hu : 0 < x.units := by omega
  rw [quant_mag_pos p x hu, hux]
  rw [hux] at hu
  generalize x.mag = u at *
  have hM : 0 < 10 ^ p * decScale := Nat.mul_pos (Nat.pow_pos (by decide)) decScale_pos
  have huM : u * (10 ^ p * decScale) ≤ (2 ^ 52 - 1) * (10 ^ p * decScale) :=
    Nat.mul_le_mul_right _ (Nat.le_sub_one_of_lt h)
  rw [roundMag_small _ _ hM (lt_arith hM (decNum_le p u hu) huM)]
  intro hz
  have h5 := (rhe_err (decSig p u * 10 ^ decExp u * scale) _ hM).2
  rw [hz] at h5
  have h3 : 10 * (u * decScale) ≤ u * (10 ^ p * decScale) := by
    have : 10 ^ 1 ≤ 10 ^ p := Nat.pow_le_pow_right (by decide) hp
    rw [Nat.pow_one] at this
    calc 10 * (u * decScale) ≤ 10 ^ p * (u * decScale) := Nat.mul_le_mul_right _ this
      _ = u * (10 ^ p * decScale) := Nat.mul_left_comm _ _ _
  have h2 := (decExp_spec u hu).1
  rw [Nat.mul_comm] at h2
  exact ne_arith (decSig_err p u).2 h2 h3 (Nat.le_mul_of_pos_left _ hu) hM h5

theorem expDigits_three (k : Nat) (h : k < 1000) (h2 : 100 ≤ k) :
    (if k < 10 then '0' :: natRepr k else natRepr k).length = 3 := by
  revert h2; revert h; revert k; decide +kernel

theorem expRepr_four (e : Int) (h1 : -1000 < e) (h2 : e ≤ -100) : (expRepr e).length = 4 := by
  unfold expRepr
  rw [List.length_cons, expDigits_three e.natAbs (by omega) (by omega)]

theorem small_exp (u : Nat) (hu : 0 < u) (h : u < 2 ^ 53) : (toDec 5 u).2 ≤ -100 := by
  have h1 := (decExp_spec u hu).1
  have he : decExp u ≤ 299 := by
    by_contra hc
    have p := Nat.pow_le_pow_right (show 0 < 10 by decide) (show 300 ≤ decExp u by omega)
    have q : 10 ^ 300 * scale ≤ u * decScale := (Nat.mul_le_mul_right _ p).trans h1
    have r : u * decScale ≤ 2 ^ 53 * decScale := Nat.mul_le_mul_right _ (Nat.le_of_lt h)
    have s : ¬ 10 ^ 300 * scale ≤ 2 ^ 53 * decScale := by decide +kernel
    exact s (q.trans r)
  unfold toDec
  rw [if_neg (by omega)]
  unfold decShift
  split <;> simp only <;> omega

/-- Nonzero numbers below `2 ^ -1021` take twelve columns, and one more if they are negative. -/
theorem small_length (x : F64) (h : x.mag < 2 ^ 53) (h0 : x.mag ≠ 0) :
    (fmtE 5 x).length = (if x.neg then 1 else 0) + 12 := by
  have hux : x.units = x.mag := unitsOf_small _ h
  have hf : x.finite = true := by
    unfold finite infMag
    simp only [decide_eq_true_eq]
    omega
  have hb := toDec_exp_bound 5 x.units (units_lt x hf)
  rw [fmtE_body 5 x hf]
  simp only [List.length_append, List.length_cons, digitsW_length,
    expRepr_four _ hb.1 (small_exp x.units (by omega) (by omega))]
  cases x.neg <;> rfl

theorem fmtE_length_quant (x : F64) (hx : x.finite = true) (hq : (x.quant 5).finite = true) :
    (fmtE 5 (x.quant 5)).length = (fmtE 5 x).length := by
  by_cases hn : 2 ^ 52 ≤ x.mag
  · rw [fmtE_quant 5 x (by decide) hx hn hq]
  · by_cases h0 : x.mag = 0
    · have hm : (x.quant 5).mag = 0 := by
        rw [quant_mag, units_zero h0]; exact decMag_zero 5
      rw [show x.quant 5 = x from F64.ext' (quant_neg 5 x) (by rw [hm, h0])]
    · have h1 := quant_subnormal_ne 5 (by decide) x (by omega) h0
      have h2 : (x.quant 5).mag < 2 ^ 53 := by
        have hux : x.units = x.mag := unitsOf_small _ (by omega)
        rw [quant_mag_pos 5 x (by omega), hux]
        exact (roundMag_again 5 x.mag (by omega) (by omega)).1
      rw [small_length x (by omega) h0, small_length _ h2 h1, quant_neg]

end Verif
