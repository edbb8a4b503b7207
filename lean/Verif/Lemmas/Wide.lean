import Verif.Lemmas.Again1
/-
Integers printed in fields narrower than those they are read in.
-/
namespace Verif

theorem parseNatAux_ge (t : Text) (acc n : Nat) (h : parseNatAux acc t = some n) : acc ≤ n := by
  induction t generalizing acc with
  | nil => cases h; omega
  | cons c t ih =>
    unfold parseNatAux at h
    cases hd : digitVal c with
    | none => rw [hd] at h; cases h
    | some d =>
      rw [hd] at h
      have := ih _ h
      omega

/-- Printed integers of several characters do not begin with the digit 0. -/
theorem intRepr_head (m : Int) (c : Char) (t : Text) (h : intRepr m = c :: t) (ht : t ≠ []) : digitVal c ≠ some 0 := by
  intro hc
  unfold intRepr at h
  split at h
  · cases h
    exact absurd hc (by decide)
  · have hp := parseNat_natRepr m.natAbs
    rw [h] at hp
    unfold parseNat at hp
    simp only [List.isEmpty_cons, Bool.false_eq_true, if_false, parseNatAux, hc] at hp
    have h1 : parseNat t = some m.natAbs := by
      unfold parseNat
      rw [if_neg (by simpa using ht)]
      exact hp
    have h2 := (parseNat_length t _ h1).1
    rw [h] at h2
    simp at h2

theorem fits_of_length (w : Nat) (n : Int) (h : (intRepr n).length ≤ w) : Fits w n := by
  have hb : ∀ k : Nat, (natRepr k).length ≤ w → k < 10 ^ w := by
    intro k hk
    have := parseNatAux_lt (natRepr k) 0 k (by
      have hp := parseNat_natRepr k
      unfold parseNat at hp
      rwa [if_neg (by simpa using natRepr_ne_nil _)] at hp)
    rw [Nat.zero_add, Nat.one_mul] at this
    exact Nat.lt_of_lt_of_le this (Nat.pow_le_pow_right (by decide) hk)
  have hb' : ∀ k : Nat, (natRepr k).length ≤ w - 1 → k < 10 ^ (w - 1) := by
    intro k hk
    have := parseNatAux_lt (natRepr k) 0 k (by
      have hp := parseNat_natRepr k
      unfold parseNat at hp
      rwa [if_neg (by simpa using natRepr_ne_nil _)] at hp)
    rw [Nat.zero_add, Nat.one_mul] at this
    exact Nat.lt_of_lt_of_le this (Nat.pow_le_pow_right (by decide) hk)
  have p1 : (0 : Int) < 10 ^ (w - 1) := Int.pow_pos (by decide)
  have p2 : (0 : Int) < 10 ^ w := Int.pow_pos (by decide)
  unfold intRepr at h
  split at h
  · have := hb' n.natAbs (by simp only [List.length_cons] at h; omega)
    have h2 : (n.natAbs : Int) < 10 ^ (w - 1) := by exact_mod_cast this
    exact ⟨by omega, by omega⟩
  · have := hb n.natAbs h
    have h2 : (n.natAbs : Int) < 10 ^ w := by exact_mod_cast this
    exact ⟨by omega, by omega⟩

/-- A printed integer followed by the beginning of another one is not read as the former. -/
theorem parseInt_more (n m : Int) (c : Char) (t u : Text) (hm : intRepr m = c :: t) (ht : t ≠ []) (hu : u <+: t) (j : Nat) :
    parseInt (strip (intRepr n ++ (blanks j ++ c :: u))) ≠ some n := by
  intro h
  have hcu : ∀ x ∈ c :: u, x ∈ intRepr m := by
    intro x hx
    rw [hm]
    rcases List.mem_cons.1 hx with rfl | hx
    · simp
    · exact List.mem_cons_of_mem _ (hu.subset hx)
  have sp : ∀ x ∈ c :: u, isSpace x = false := fun x hx => intRepr_noSpace m x (hcu x hx)
  have un : ∀ x ∈ c :: u, x ≠ '_' := fun x hx => intRepr_noUnder m x (hcu x hx)
  have hs : strip (intRepr n ++ (blanks j ++ c :: u)) = intRepr n ++ (blanks j ++ c :: u) := by
    apply strip_eq_self
    · intro x hx
      obtain ⟨y, l, hy⟩ := List.exists_cons_of_ne_nil (intRepr_ne_nil n)
      rw [hy] at hx
      simp only [List.cons_append, List.head?_cons, Option.some.injEq] at hx
      subst hx
      exact intRepr_noSpace n y (by rw [hy]; simp)
    · intro x hx
      rw [← List.append_assoc, List.getLast?_append, List.getLast?_eq_some_getLast (by simp : c :: u ≠ []), Option.some_or] at hx
      cases hx
      exact sp _ (List.getLast_mem _)
  rw [hs] at h
  have hun : ∀ x ∈ intRepr n ++ (blanks j ++ c :: u), x ≠ '_' := by
    intro x hx
    rcases List.mem_append.1 hx with hx | hx
    · exact intRepr_noUnder n x hx
    · rcases List.mem_append.1 hx with hx | hx
      · rw [List.eq_of_mem_replicate hx]; decide
      · exact un x hx
  have hns : numStrip (intRepr n ++ (blanks j ++ c :: u)) = intRepr n ++ (blanks j ++ c :: u) := by
    unfold parseInt at h
    cases hd : dropUnders false (numStrip (intRepr n ++ (blanks j ++ c :: u))) with
    | none => rw [hd] at h; cases h
    | some s =>
      rw [hd] at h
      rw [← strip_eq_numStrip _ (dropUnders_noSpace _ _ _ hd (parseSigned_noSpace h)), hs]
  unfold parseInt at h
  rw [hns, dropUnders_noUnder _ _ hun] at h
  simp only at h
  cases j with
  | succ j =>
    have := parseSigned_noSpace h ' ' (by simp [blanks, List.replicate_succ])
    exact absurd this (by decide)
  | zero =>
    have e : blanks 0 ++ c :: u = c :: u := rfl
    rw [e] at h
    have key : parseNatAux n.natAbs (c :: u) = some n.natAbs := by
      have hp := parseNat_natRepr n.natAbs
      unfold parseNat at hp
      rw [if_neg (by simpa using natRepr_ne_nil _)] at hp
      unfold intRepr at h
      split at h
      · rename_i hn
        simp only [List.cons_append, parseSigned, if_true] at h
        cases hq : parseNat (natRepr n.natAbs ++ c :: u) with
        | none => rw [hq] at h; cases h
        | some k =>
          rw [hq] at h
          simp only [Option.map_some, Option.some.injEq] at h
          have hk : k = n.natAbs := by omega
          rw [hk] at hq
          unfold parseNat at hq
          rw [if_neg (by simp), parseNatAux_append, hp] at hq
          exact hq
      · rename_i hn
        obtain ⟨y, l, hy⟩ := List.exists_cons_of_ne_nil (natRepr_ne_nil n.natAbs)
        have hyd : IsDigit y := natRepr_digits n.natAbs y (by rw [hy]; simp)
        have h' : (parseNat (natRepr n.natAbs ++ c :: u)).map (fun (n : Nat) => (n : Int)) = some n := by
          rw [hy] at h ⊢
          simpa only [List.cons_append, parseSigned, hyd.ne_minus, hyd.ne_plus, if_false] using h
        cases hq : parseNat (natRepr n.natAbs ++ c :: u) with
        | none => rw [hq] at h'; cases h'
        | some k =>
          rw [hq] at h'
          simp only [Option.map_some, Option.some.injEq] at h'
          have hk : k = n.natAbs := by omega
          rw [hk] at hq
          unfold parseNat at hq
          rw [if_neg (by simp), parseNatAux_append, hp] at hq
          exact hq
    unfold parseNatAux at key
    cases hd : digitVal c with
    | none => rw [hd] at key; cases key
    | some d =>
      rw [hd] at key
      have := parseNatAux_ge _ _ _ key
      have hd0 : d = 0 := by omega
      subst hd0
      exact intRepr_head m c t hm ht hd

/-- The first columns of a field read together with the field before it are blank, if the latter is read correctly. -/
theorem length_of_wide (w W k : Nat) (n m : Int) (hL : (intRepr m).length ≤ W) (hk : k < W)
    (h : parseInt (strip (padLeft w (intRepr n) ++ (padLeft W (intRepr m)).take k)) = some n) :
    (intRepr m).length ≤ W - k := by
  rcases Nat.lt_or_ge (W - k) (intRepr m).length with hc | hc
  · exfalso
    obtain ⟨c, t, hm⟩ := List.exists_cons_of_ne_nil (intRepr_ne_nil m)
    have hlen : (intRepr m).length = t.length + 1 := by rw [hm]; simp
    have ht : t ≠ [] := by
      intro e
      rw [e] at hlen
      simp at hlen
      omega
    obtain ⟨j, hj⟩ : ∃ j, k - (W - (intRepr m).length) = j + 1 := ⟨k - (W - (intRepr m).length) - 1, by omega⟩
    have e : (padLeft W (intRepr m)).take k = blanks (W - (intRepr m).length) ++ c :: t.take j := by
      unfold padLeft blanks
      rw [List.take_append, List.take_of_length_le (by simp; omega), List.length_replicate, hj, hm, List.take_succ_cons]
    rw [e] at h
    unfold padLeft at h
    rw [List.append_assoc, strip_append_left _ _ (by
      intro x hx
      rw [List.eq_of_mem_replicate hx]; decide)] at h
    exact parseInt_more n m c t (t.take j) hm ht (List.take_prefix _ _) _ h
  · exact hc

end Verif
