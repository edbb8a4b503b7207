import Verif.Lemmas.Exact2
import Verif.Model.DS55
import Verif.Spec.S55
/-
Complex numbers put together from two doubles.
-/
namespace Verif
namespace F64

theorem finite_notNaN {x : F64} (h : x.finite = true) : x.isNaN = false ∧ x.isInf = false := by
  unfold finite at h
  unfold isNaN isInf
  simp only [decide_eq_true_eq] at h
  constructor
  · simp; omega
  · simp; omega

theorem ext' {x y : F64} (h1 : x.neg = y.neg) (h2 : x.mag = y.mag) : x = y := by
  cases x; cases y; simp only at h1 h2; subst h1; subst h2; rfl

theorem units_zero {x : F64} (h : x.mag = 0) : x.units = 0 := by unfold units; rw [h]; rfl

theorem units_pos {x : F64} (h : x.mag ≠ 0) : x.units ≠ 0 := by
  unfold units unitsOf
  split
  · exact h
  · have : 0 < 2 ^ (x.mag / 2 ^ 52 - 1) := Nat.pow_pos (by decide)
    intro h0
    rcases Nat.mul_eq_zero.1 h0 with h1 | h1
    · omega
    · omega

theorem sval_zero {x : F64} (h : x.mag = 0) : x.sval = 0 := by
  unfold sval; rw [units_zero h]; simp

/-- A double with magnitude 0. -/
def sz (n : Bool) : F64 := ⟨n, 0, by decide⟩

theorem sz_finite (n : Bool) : (sz n).finite = true := by cases n <;> decide

theorem add_sz (a : F64) (n : Bool) (ha : a.finite = true) :
    a.add (sz n) = if a.mag = 0 then sz (a.neg && n) else a := by
  obtain ⟨h1, h2⟩ := finite_notNaN ha
  obtain ⟨h3, h4⟩ := finite_notNaN (sz_finite n)
  have hs : (sz n).sval = 0 := sval_zero rfl
  unfold add
  simp only [h1, h2, h3, h4, hs, Bool.or_self, Bool.false_eq_true, if_false, Int.add_zero]
  by_cases h0 : a.mag = 0
  · rw [sval_zero h0, if_pos rfl, if_pos h0]; rfl
  · have hu := units_pos h0
    have hne : a.sval ≠ 0 := by
      unfold sval; split <;> omega
    rw [if_neg hne, if_neg h0]
    have hf : a.mag < infMag := by simpa [finite] using ha
    have hn : a.sval.natAbs = unitsOf a.mag := by
      unfold sval units; split <;> simp
    apply ext'
    · simp only [ofRat]
      unfold sval
      cases hg : a.neg <;> simp; omega
    · simp only [ofRat]
      rw [hn, roundMag_units _ hf]

theorem sz_add (a : F64) (ha : a.finite = true) : (sz false).add a = if a.mag = 0 then sz false else a := by
  obtain ⟨h1, h2⟩ := finite_notNaN ha
  obtain ⟨h3, h4⟩ := finite_notNaN (sz_finite false)
  have hs : (sz false).sval = 0 := sval_zero rfl
  have := add_sz a false ha
  rw [Bool.and_false] at this
  rw [← this]
  unfold add
  simp only [h1, h2, h3, h4, hs, Bool.or_self, Bool.false_eq_true, if_false, Int.add_zero, Int.zero_add]
  by_cases h0 : a.sval = 0
  · simp only [h0, if_true]
    apply ext'
    · simp [sz]
    · rfl
  · simp only [if_neg h0]

theorem roundMag_zero (d : Nat) : roundMag 0 d = 0 := by
  unfold roundMag rhe
  have h1 : Nat.log2 (0 / d) - 52 = 0 := by rw [Nat.zero_div]; decide
  simp only [Nat.zero_div, Nat.zero_mod, Nat.mul_zero, Nat.zero_add]
  have h2 : ¬ infMag ≤ (if 0 < d then 0 else if d < 0 then 0 + 1 else if 0 % 2 = 0 then 0 else 0 + 1) := by
    unfold infMag
    split
    · decide
    · split
      · decide
      · decide
  rw [if_neg (by simpa using h2)]
  simp

theorem sz_mul (b : F64) (hb : b.finite = true) : (sz false).mul b = sz b.neg := by
  obtain ⟨h1, h2⟩ := finite_notNaN hb
  obtain ⟨h3, h4⟩ := finite_notNaN (sz_finite false)
  unfold mul
  simp only [h1, h2, h3, h4, Bool.or_self, Bool.false_eq_true, if_false]
  apply ext'
  · simp [ofRat, sz]
  · simp only [ofRat]
    rw [units_zero (x := sz false) rfl, Nat.zero_mul, roundMag_zero]; rfl

theorem one_units : one.units = scale := by
  unfold units one unitsOf
  unfold scale; decide +kernel

theorem scale_pos' : 0 < scale := by unfold scale; decide +kernel

theorem one_mul' (b : F64) (hb : b.finite = true) : one.mul b = b := by
  obtain ⟨h1, h2⟩ := finite_notNaN hb
  obtain ⟨h3, h4⟩ := finite_notNaN (x := one) (by decide)
  have hf : b.mag < infMag := by simpa [finite] using hb
  unfold mul
  simp only [h1, h2, h3, h4, Bool.or_self, Bool.false_eq_true, if_false]
  apply ext'
  · simp [ofRat, one]
  · simp only [ofRat]
    rw [one_units]
    have := roundMag_mul b.units 1 scale scale_pos'
    rw [Nat.one_mul] at this
    rw [Nat.mul_comm, this]
    exact roundMag_units _ hf

theorem sub_sz (n : Bool) : (sz n).sub (sz false) = sz n := by
  cases n <;> decide

end F64

open F64 in
theorem cplxOf_eq (a b : F64) (ha : a.finite = true) (hb : b.finite = true) : cplxOf a b = Cplx.unsigned (a, b) := by
  unfold cplxOf Cplx.unsigned
  have z : F64.zero = sz false := rfl
  simp only [z]
  rw [sz_mul b hb, one_mul' _ (sz_finite false), sub_sz, one_mul' b hb, sz_mul _ (sz_finite false), add_sz a _ ha]
  have e : (sz false).neg = false := rfl
  rw [e, sz_add b hb]
  congr 1
  · by_cases h : a.mag = 0
    · simp only [h, if_true, true_and]
      cases hn : b.neg
      · simp
      · simp only [Bool.and_true, Bool.true_eq_false, if_false]
        apply ext'
        · rfl
        · exact h.symm
    · simp only [h, if_false, false_and]
  · by_cases h : b.mag = 0
    · simp only [h, if_true]
      rw [sz_add _ (sz_finite false)]; rfl
    · simp only [h, if_false]
      rw [sz_add _ hb, if_neg h]

end Verif
