import Verif.Lemmas.Num
/-
`f'{x:.5E}'`: the same as `%.5e` with a capital `E`.
-/
namespace Verif
open F64

theorem parseDec_fmtU (p t : Nat) (e : Int) (ht : t < 10 ^ (p + 1)) :
    parseDec (digitChar (t / 10 ^ p) :: '.' :: (digitsW p t ++ 'E' :: expRepr e)) = some (t, e - p) := by
  have hq : t / 10 ^ p < 10 := by
    apply Nat.div_lt_of_lt_mul
    rw [← Nat.pow_succ]; exact ht
  unfold parseDec
  have hdot : digitVal '.' = none := by decide
  have he : digitVal 'E' = none := by decide
  have h1 : digitsPrefix (digitChar (t / 10 ^ p) :: '.' :: (digitsW p t ++ 'E' :: expRepr e))
      = ([digitChar (t / 10 ^ p)], '.' :: (digitsW p t ++ 'E' :: expRepr e)) := by
    have := digitsPrefix_append [digitChar (t / 10 ^ p)] ('.' :: (digitsW p t ++ 'E' :: expRepr e))
      (by intro c hc; simp at hc; rw [hc]; exact isDigit_digitChar _ hq)
      (by intro c hc; simp at hc; rw [← hc]; exact hdot)
    simpa using this
  have h2 : digitsPrefix (digitsW p t ++ 'E' :: expRepr e) = (digitsW p t, 'E' :: expRepr e) :=
    digitsPrefix_append _ _ (digitsW_digits p t) (by intro c hc; simp at hc; rw [← hc]; exact he)
  have h3 : parseNat ([digitChar (t / 10 ^ p)] ++ digitsW p t) = some t := by
    unfold parseNat
    simp only [List.cons_append, List.nil_append, List.isEmpty_cons, Bool.false_eq_true, if_false, parseNatAux]
    rw [digitVal_digitChar _ hq]
    simp only [Nat.zero_mul, Nat.zero_add]
    rw [parseNatAux_digitsW]
    simp only [Option.some.injEq]
    rw [Nat.mul_comm]
    exact Nat.div_add_mod _ _
  have h4 : parseExpOpt ('E' :: expRepr e) = some e := by
    simp [parseExpOpt, parseSigned_expRepr]
  rw [h1]
  simp only [h2, h3, h4, digitsW_length]

theorem upperChar_of {c : Char} (h : IsDigit c ∨ c = '-' ∨ c = '+' ∨ c = '.') : upperChar c = c := by
  rcases h with h | rfl | rfl | rfl
  · unfold IsDigit at h
    unfold upperChar
    rw [if_neg (by omega)]
  all_goals decide

theorem map_upper_id (t : Text) (h : ∀ c ∈ t, IsDigit c ∨ c = '-' ∨ c = '+' ∨ c = '.') : t.map upperChar = t := by
  have : t.map upperChar = t.map id := List.map_congr_left fun c hc => upperChar_of (h c hc)
  simpa using this

theorem fmtEU_body (p : Nat) (x : F64) (hx : x.finite = true) :
    fmtEU p x = (if x.neg then ['-'] else []) ++
      digitChar ((toDec p x.units).1 / 10 ^ p) :: '.' ::
        (digitsW p (toDec p x.units).1 ++ 'E' :: expRepr (toDec p x.units).2) := by
  have hq : (toDec p x.units).1 / 10 ^ p < 10 := by
    apply Nat.div_lt_of_lt_mul
    rw [← Nat.pow_succ]; exact toDec_lt _ _
  unfold fmtEU
  rw [fmtE_body p x hx, List.map_append, List.map_cons, List.map_cons, List.map_append, List.map_cons,
    map_upper_id _ (fun c hc => Or.inl (digitsW_digits _ _ c hc)),
    map_upper_id (expRepr _) (fun c hc => by rcases expRepr_chars _ c hc with h | h | h <;> simp [h]),
    upperChar_of (Or.inl (isDigit_digitChar _ hq)), show upperChar '.' = '.' by decide,
    show upperChar 'e' = 'E' by decide]
  congr 1
  split <;> rfl

theorem fmtEU_length (p : Nat) (x : F64) : (fmtEU p x).length = (fmtE p x).length := by simp [fmtEU]

theorem isSpace_upperChar {c : Char} (h : IsNumChar c) : isSpace (upperChar c) = false := by
  rcases h with h | rfl | rfl | rfl | rfl
  · rw [upperChar_of (Or.inl h)]; exact isSpace_of_isDigit h
  all_goals decide

theorem fmtEU_noSpace (p : Nat) (x : F64) (hx : x.finite = true) : ∀ c ∈ fmtEU p x, isSpace c = false := by
  intro c hc
  unfold fmtEU at hc
  obtain ⟨a, ha, rfl⟩ := List.mem_map.1 hc
  exact isSpace_upperChar (fmtE_chars p x hx a ha)

theorem fmtEU_ne_nil (p : Nat) (x : F64) (hx : x.finite = true) : fmtEU p x ≠ [] := by
  rw [fmtEU_body p x hx]; simp

theorem parseFloat_fmtEU (p : Nat) (x : F64) (hx : x.finite = true) :
    parseFloat (fmtEU p x) = some (x.quant p) := by
  unfold parseFloat
  rw [numStrip_eq_self_of_noSpace _ (fmtEU_noSpace p x hx),
    dropUnders_noUnder _ _ (by
      intro c hc
      unfold fmtEU at hc
      obtain ⟨a, ha, rfl⟩ := List.mem_map.1 hc
      have := fmtE_chars p x hx a ha
      rcases this with h | rfl | rfl | rfl | rfl
      · rw [upperChar_of (Or.inl h)]; exact h.ne_under
      all_goals decide)]
  simp only
  rw [fmtEU_body p x hx]
  have ht := toDec_lt p x.units
  have hq : (toDec p x.units).1 / 10 ^ p < 10 := by
    apply Nat.div_lt_of_lt_mul
    rw [← Nat.pow_succ]; exact ht
  have hd := isDigit_digitChar _ hq
  have hp := parseDec_fmtU p _ (toDec p x.units).2 ht
  unfold F64.quant
  cases hn : x.neg with
  | true =>
    simp only [if_true, List.cons_append, List.nil_append, parseSignedFloat]
    exact parseFloatBody_digit true _ _ hd _ _ hp
  | false =>
    simp only [Bool.false_eq_true, if_false, List.nil_append, parseSignedFloat]
    rw [if_neg hd.ne_minus, if_neg hd.ne_plus]
    exact parseFloatBody_digit false _ _ hd _ _ hp

end Verif
