import Verif.Props.Cases
import Verif.Lemmas.Cplx
import Verif.Lemmas.Exact5
import Verif.Spec.Again
/-
What was read can be saved again: numbers and texts.
-/
namespace Verif
open F64

/-! ### Numbers -/

theorem quant_zero (p : Nat) (x : F64) (h : x.mag = 0) : x.quant p = x := by
  have hu := units_zero h
  apply F64.ext'
  · rfl
  · rw [h]
    unfold F64.quant ofDec
    rw [hu]
    simp only [toDec, if_true]
    unfold ofDecMag
    split <;> simp [roundMag_zero]

theorem quant_again (p : Nat) (hp : p ≤ 13) (x : F64) (hx : x.finite = true)
    (hq : (x.quant p).finite = true) : (x.quant p).quant p = x.quant p := by
  by_cases hn : 2 ^ 52 ≤ x.mag
  · have h1 := parseFloat_padLeft_fmtE 0 p (x.quant p) hq
    rw [fmtE_quant p x hp hx hn hq, parseFloat_padLeft_fmtE 0 p x hx] at h1
    exact (Option.some.inj h1).symm
  · exact quant_subnormal p x (by omega)

theorem quant5 {x : F64} (hx : x.finite = true) : (x.quant 5).quant 5 = x.quant 5 :=
  quant_again 5 (by decide) x hx (quant_finite_5 x hx)
theorem quant7 {x : F64} (hx : x.finite = true) : (x.quant 7).quant 7 = x.quant 7 :=
  quant_again 7 (by decide) x hx (quant_finite_7 x hx)
theorem quant11 {x : F64} (hx : x.finite = true) : (x.quant 11).quant 11 = x.quant 11 :=
  quant_again 11 (by decide) x hx (quant_finite_11 x hx)

theorem quant_ne_zero (p : Nat) (hp : p ≤ 13) (x : F64) (hs : 2 ^ 52 ≤ x.mag)
    (hq : (x.quant p).finite = true) : (x.quant p).mag ≠ 0 := by
  intro h
  obtain ⟨h1, h2⟩ := toDec_quant p x hp hs hq
  rw [units_zero h] at h2
  have h3 := toDec_ge p x.units h1
  rw [← h2] at h3
  simp only [toDec, if_true] at h3
  have := Nat.pow_pos (n := p) (show 0 < 10 by decide)
  omega

theorem quant_mag_zero (p : Nat) (hp : 1 ≤ p) (hp2 : p ≤ 13) (x : F64) (hq : (x.quant p).finite = true) :
    (x.quant p).mag = 0 ↔ x.mag = 0 := by
  constructor
  · intro h
    by_contra h0
    by_cases hn : 2 ^ 52 ≤ x.mag
    · exact quant_ne_zero p hp2 x hn hq h
    · exact quant_subnormal_ne p hp x (by omega) h0 h
  · intro h
    rw [quant_zero p x h, h]

theorem notNegZero_quant (p : Nat) (hp : 1 ≤ p) (hp2 : p ≤ 13) (x : F64) (hz : NotNegZero x)
    (hq : (x.quant p).finite = true) : NotNegZero (x.quant p) :=
  fun h0 => hz ((quant_mag_zero p hp hp2 x hq).1 h0)

theorem unsigned_again {z : Cplx} (h : z.Settled) : (Cplx.unsigned z).unsigned = z.unsigned := by
  obtain ⟨a, b⟩ := z
  unfold Cplx.Settled NotNegZero at h
  unfold Cplx.unsigned
  by_cases hb : b.mag = 0
  · simp only [hb, if_true]
    by_cases hbn : b.neg = false
    · by_cases ha : a.mag = 0 <;> simp [ha, hbn, F64.zero]
    · have ha : a.mag = 0 → a.neg = false := by
        rcases h with h | h
        · exact h
        · exact absurd (h hb) hbn
      by_cases ha0 : a.mag = 0
      · have : a = F64.zero := F64.ext' (ha ha0) ha0
        simp [this, hbn, F64.zero]
      · simp [ha0, F64.zero]
  · by_cases ha : a.mag = 0 ∧ b.neg = false
    · simp [ha.2, ha.1, hb, F64.zero]
    · simp [ha, hb]

/-- Rounding both parts before and after the signs of zeros are dropped. -/
theorem unsigned_quant (f : F64 → F64) (h0 : f F64.zero = F64.zero) (z : Cplx) (h1 : f (f z.1) = f z.1)
    (h2 : f (f z.2) = f z.2) :
    ((fun w : Cplx => (f w.1, f w.2)) (Cplx.unsigned (f z.1, f z.2))) = Cplx.unsigned (f z.1, f z.2) := by
  unfold Cplx.unsigned
  refine Prod.ext ?_ ?_
  · show f (if _ then F64.zero else f z.1) = if _ then F64.zero else f z.1
    split <;> assumption
  · show f (if _ then F64.zero else f z.2) = if _ then F64.zero else f z.2
    split <;> assumption

theorem settled_quant (p : Nat) (hp : 1 ≤ p) (hp2 : p ≤ 13) {z : Cplx} (hs : z.Settled)
    (hq : (z.1.quant p).finite = true ∧ (z.2.quant p).finite = true) : Cplx.Settled (z.1.quant p, z.2.quant p) :=
  hs.imp (fun h => notNegZero_quant p hp hp2 _ h hq.1) (fun h => notNegZero_quant p hp hp2 _ h hq.2)

theorem unsigned_finite {z : Cplx} (hf : z.Finite) : z.unsigned.Finite := by
  obtain ⟨a, b⟩ := z
  obtain ⟨h1, h2⟩ := hf
  unfold Cplx.unsigned
  constructor
  · show F64.finite (if _ then F64.zero else a) = true
    split
    · decide
    · exact h1
  · show F64.finite (if _ then F64.zero else b) = true
    split
    · decide
    · exact h2

theorem cquant_finite {z : Cplx} (hf : z.Finite) : (z.quant 5).Finite :=
  unsigned_finite (z := (z.1.quant 5, z.2.quant 5)) ⟨quant_finite_5 _ hf.1, quant_finite_5 _ hf.2⟩

theorem quant_zero' (p : Nat) : F64.zero.quant p = F64.zero := quant_zero p _ rfl

theorem cquant5 {z : Cplx} (hf : z.Finite) (hs : z.Settled) : (z.quant 5).quant 5 = z.quant 5 := by
  have h := unsigned_quant (F64.quant 5) (quant_zero' 5) z (quant5 hf.1) (quant5 hf.2)
  have h2 := unsigned_again (settled_quant 5 (by decide) (by decide) hs ⟨quant_finite_5 _ hf.1, quant_finite_5 _ hf.2⟩)
  unfold Cplx.quant
  simp only at h
  rw [h, h2]

/-! ### Texts -/

theorem lstrip_sublist (t : Text) : List.Sublist (lstrip t) t := (List.dropWhile_suffix _).sublist
theorem rstrip_sublist (t : Text) : List.Sublist (rstrip t) t := by
  unfold rstrip
  have h : List.Sublist (t.reverse.dropWhile isSpace) t.reverse := (List.dropWhile_suffix _).sublist
  simpa using h.reverse
theorem numStrip_sublist (t : Text) : List.Sublist (numStrip t) t := by
  obtain ⟨a, b, e, _, _⟩ := numStrip_parts t
  conv_rhs => rw [e]
  exact ((List.sublist_append_left _ _).trans (List.sublist_append_right _ _))
theorem strip_sublist (t : Text) : List.Sublist (strip t) t :=
  (rstrip_sublist _).trans (lstrip_sublist t)

theorem OneLine.sub {t s : Text} (h : OneLine t) (hs : List.Sublist s t) : OneLine s := fun c hc => h c (hs.subset hc)

theorem FieldText.strip {w : Nat} {t : Text} (h : FieldText w t) : FieldText w (Verif.strip t) :=
  ⟨h.oneLine.sub (strip_sublist t), (strip_sublist t).length_le.trans h.fits⟩

theorem getLast_padRight (w : Nat) (s : Text) (h : s.length < w) : (padRight w s).getLast? = some ' ' := by
  unfold padRight
  obtain ⟨k, hk⟩ : ∃ k, w - s.length = k + 1 := ⟨w - s.length - 1, by omega⟩
  rw [hk, List.replicate_succ', ← List.append_assoc, List.getLast?_append]
  rfl

theorem noEnd_strip (w : Nat) (t : Text) (hf : t.length ≤ w) (h : ¬ delim <:+ padRight w t) :
    ¬ delim <:+ padRight w (strip t) := by
  rintro ⟨p, hp⟩
  have hl := (strip_sublist t).length_le
  by_cases hw : (strip t).length < w
  · have := getLast_padRight w _ hw
    rw [← hp, List.getLast?_append] at this
    exact absurd this (show ¬ (some '1' : Option Char) = some ' ' by decide)
  · have e : strip t = t := (strip_sublist t).eq_of_length (by omega)
    exact h ⟨p, by rw [hp, e]⟩

theorem LineText.strip {w : Nat} {t : Text} (h : LineText w t) (hw : w ≤ 80) : LineText w (Verif.strip t) := by
  have hl : (Verif.strip t).length ≤ w := (strip_sublist t).length_le.trans h.fits
  refine ⟨h.oneLine.sub (strip_sublist t), hl, ?_⟩
  rintro ⟨s, hs, rfl | hp⟩
  · exact noEnd_strip w t h.fits (fun hd => h.noDelim ⟨_, hd, .inl rfl⟩) hs
  · have h1 := hs.length_le
    have h2 := hp.length_le
    rw [padRight_length w _ hl] at h1
    have h80 : (delim ++ List.replicate 74 ' ').length = 80 := by decide
    have e1 : delim ++ List.replicate 74 ' ' = s := hp.eq_of_length (by omega)
    have e2 : s = padRight w (Verif.strip t) := hs.eq_of_length (by rw [padRight_length w _ hl]; omega)
    have e3 := congrArg Verif.strip (e1.trans e2)
    rw [strip_padRight, strip_strip] at e3
    have e4 : Verif.strip (delim ++ List.replicate 74 ' ') = ['-', '1'] := by decide +kernel
    rw [e4] at e3
    rw [← e3] at e2
    rw [← e1] at e2
    have e5 := congrArg List.head? e2
    unfold padRight at e5
    exact absurd e5 (show ¬ (some ' ' : Option Char) = some '-' by decide)

theorem rstrip_rstrip (t : Text) : rstrip (rstrip t) = rstrip t := by
  unfold rstrip
  rw [List.reverse_reverse]
  congr 1
  apply dropWhile_eq_self_of_head
  intro c hc
  have := List.head?_dropWhile_not isSpace t.reverse
  rw [hc] at this
  simpa using this

/-! ### Sequences -/

theorem isSeq_of_eq {α} {P : Val → α → Prop} {v : Val} {l m : List α} (h : IsSeq P v l) (e : l = m) : IsSeq P v m := e ▸ h

theorem isSeq_floats (l : List F64) : IsSeq IsFloat (DS15.floats l) l := by
  have := isSeq_map (P := IsFloat) l .float id (DS15.floats l) rfl (fun _ _ => rfl)
  rwa [List.map_id] at this

theorem isSeq_ints (l : List Int) : IsSeq IsInt (.list (l.map .int)) l := by
  have := isSeq_map (P := IsInt) l .int id (.list (l.map .int)) rfl (fun _ _ => rfl)
  rwa [List.map_id] at this

theorem isInt_fits (w : Nat) (hw : w ≤ 10) (n : Int) (h : Fits w n) : IsInt (.float (F64.ofInt n)) n := by
  have hb : n.natAbs < 2 ^ 53 := by
    obtain ⟨h1, h2⟩ := h
    have a : (10 : Int) ^ (w - 1) ≤ 10 ^ 10 := pow_le_pow_right₀ (by decide) (by omega)
    have b : (10 : Int) ^ w ≤ 10 ^ 10 := pow_le_pow_right₀ (by decide) hw
    have c : (10 : Int) ^ 10 < 2 ^ 53 := by decide
    omega
  exact isInt_ofInt n hb

theorem isSeq_arrInts {α : Type} (w : Nat) (hw : w ≤ 10) (l : List α) (f : α → Int) (h : ∀ a ∈ l, Fits w (f a)) :
    IsSeq IsInt (.arrF (l.map fun a => F64.ofInt (f a))) (l.map f) :=
  isSeq_map l (fun a => .float (F64.ofInt (f a))) f _ (by simp [Val.items]) fun a ha => isInt_fits w hw _ (h a ha)

end Verif
