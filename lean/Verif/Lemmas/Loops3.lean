import Verif.Lemmas.Loops2
/-
The readers' loops on the remaining lines agree with the loops on the line index.
-/
namespace Verif
namespace Loops

theorem cond2429_iff (ls : List Text) (i : Nat) : cond2429 ls i = true ↔ 2 < (ls.drop i).length := by
  unfold cond2429
  rw [decide_eq_true_iff, List.length_drop]
  omega

theorem drop_cons {β : Type} {ls : List β} {i : Nat} {x : β} {t : List β} (h : ls.drop i = x :: t) : ls[i]? = some x ∧ ls.drop (i + 1) = t := by
  constructor
  · have := congrArg (·[0]?) h
    simpa using this
  · rw [← List.drop_drop, h]; rfl

theorem ended_map {α : Type} {acc : List α} {a : α} (r : Res (List α)) :
    Except.map (fun l => acc ++ [a] ++ l) r = Except.map (fun l => acc ++ l) (r >>= fun l => .ok (a :: l)) := by
  cases r with
  | error e => rfl
  | ok l => show Except.ok (acc ++ [a] ++ l) = Except.ok _; rw [List.append_assoc]; rfl

theorem same2429 (ls : List Text) (fuel : Nat) : ∀ (i : Nat) (acc : List Val), groups2429 fuel (ls.drop i) ≠ .error .unmodelled →
    loopPasses (cond2429 ls) (body2429 ls) (fuel + 1) i acc = .ended ((groups2429 fuel (ls.drop i)).map (acc ++ ·)) := by
  induction fuel with
  | zero =>
    intro i acc h
    have hc : ¬ cond2429 ls i = true := by
      rw [cond2429_iff]
      intro hl
      apply h
      unfold groups2429
      rw [if_neg (by omega)]
    have hl : (ls.drop i).length < 3 := by rw [cond2429_iff] at hc; omega
    unfold loopPasses groups2429
    rw [if_neg hc, if_pos hl]
    show Loop.ended (.ok acc) = .ended (.ok (acc ++ []))
    rw [List.append_nil]
  | succ fuel ih =>
    intro i acc h
    unfold loopPasses
    by_cases hc : cond2429 ls i = true
    · rw [if_pos hc]
      rw [cond2429_iff] at hc
      match hd : ls.drop i, hc with
      | l1 :: l2 :: l3 :: t, _ =>
        rw [hd] at h
        obtain ⟨h1, hd1⟩ := drop_cons hd
        obtain ⟨h2, hd2⟩ := drop_cons hd1
        unfold body2429
        rw [show ((i : Int) + 1) = ((i + 1 : Nat) : Int) by omega, pyAt_nat, pyAt_nat, h1, h2]
        unfold groups2429 at h ⊢
        simp only [orIndex, ok_bind]
        cases hg : groupHead l1 l2 with
        | error e => simp only [hg, error_bind] at h ⊢; rfl
        | ok g =>
          simp only [hg, ok_bind] at h ⊢
          cases hn : groupCount g with
          | error e => simp only [hn, error_bind] at h ⊢; rfl
          | ok n =>
            simp only [hn, ok_bind] at h ⊢
            have hk : -1 ≤ ceilDiv n 4 := by
              refine Decidable.byContradiction fun hk => h ?_
              rw [show (ceilDiv n 4).toNat = 0 by omega]
              simp only [List.take_zero, values_nil, ok_bind]
              rw [if_pos (by omega)]
            have hs : pySlice ls ((i : Int) + 2) (ceilDiv n 4 + i + 2) =
                ((l1 :: l2 :: l3 :: t).drop 2).take (ceilDiv n 4).toNat := by
              obtain ⟨j, hj⟩ : ∃ j : Nat, ceilDiv n 4 + i + 2 = (j : Int) := ⟨(ceilDiv n 4 + i + 2).toNat, by omega⟩
              rw [hj, show ((i : Int) + 2) = ((i + 2 : Nat) : Int) by omega, pySlice_nat, ← hd, List.drop_drop]
              congr 1
              omega
            rw [hs]
            cases hv : groupValues (((l1 :: l2 :: l3 :: t).drop 2).take (ceilDiv n 4).toNat) with
            | error e => simp only [hv, error_bind] at h ⊢; rfl
            | ok vs =>
              simp only [hv, ok_bind] at h ⊢
              rw [if_neg (by omega)] at h ⊢
              have hd' : (l1 :: l2 :: l3 :: t).drop (2 + ceilDiv n 4).toNat = ls.drop (i + (2 + ceilDiv n 4).toNat) := by
                rw [← hd, List.drop_drop]
              rw [hd'] at h ⊢
              have hi := ih (i + (2 + ceilDiv n 4).toNat) (acc ++ [.dict ((g.set "entity_type_code" (.arrI (everyN 0 2 vs))).set
                "entity_tag" (.arrI (everyN 1 2 vs)))]) (fun he => h (by rw [he]; rfl))
              rw [show ((i + (2 + ceilDiv n 4).toNat : Nat) : Int) = ceilDiv n 4 + i + 2 by omega] at hi
              exact hi.trans (by rw [ended_map])
    · have hl : (ls.drop i).length < 3 := by rw [cond2429_iff] at hc; omega
      rw [if_neg hc]
      have hg : groups2429 (fuel + 1) (ls.drop i) = .ok [] := by
        match hd : ls.drop i, hl with
        | [], _ => rfl
        | [_], _ => rfl
        | [_, _], _ => rfl
      rw [hg]
      show Loop.ended (.ok acc) = .ended (.ok (acc ++ []))
      rw [List.append_nil]

theorem cond2467_iff (ls : List Text) (i : Nat) : cond2467 ls i = true ↔ 0 < (ls.drop i).length := by
  unfold cond2467
  rw [decide_eq_true_iff, List.length_drop]
  omega

theorem same2467 (ls : List Text) (fuel : Nat) : ∀ (i : Nat) (acc : List Val), groups2467 fuel (ls.drop i) ≠ .error .unmodelled →
    loopPasses (cond2467 ls) (body2467 ls) (fuel + 1) i acc = .ended ((groups2467 fuel (ls.drop i)).map (acc ++ ·)) := by
  induction fuel with
  | zero =>
    intro i acc h
    have hc : ¬ cond2467 ls i = true := by
      rw [cond2467_iff]
      intro hl
      apply h
      unfold groups2467
      rw [if_neg (by omega)]
    have hl : (ls.drop i).length < 1 := by rw [cond2467_iff] at hc; omega
    unfold loopPasses groups2467
    rw [if_neg hc, if_pos hl]
    show Loop.ended (.ok acc) = .ended (.ok (acc ++ []))
    rw [List.append_nil]
  | succ fuel ih =>
    intro i acc h
    unfold loopPasses
    by_cases hc : cond2467 ls i = true
    · rw [if_pos hc]
      rw [cond2467_iff] at hc
      match hd : ls.drop i, hc with
      | [l1], _ =>
        obtain ⟨h1, hd1⟩ := drop_cons hd
        unfold body2467
        have h2 : ls[i + 1]? = none := by
          have := congrArg (·[0]?) hd1
          simpa using this
        rw [show ((i : Int) + 1) = ((i + 1 : Nat) : Int) by omega, pyAt_nat, pyAt_nat, h1, h2]
        rfl
      | l1 :: l2 :: t, _ =>
        rw [hd] at h
        obtain ⟨h1, hd1⟩ := drop_cons hd
        obtain ⟨h2, hd2⟩ := drop_cons hd1
        unfold body2467
        rw [show ((i : Int) + 1) = ((i + 1 : Nat) : Int) by omega, pyAt_nat, pyAt_nat, h1, h2]
        unfold groups2467 at h ⊢
        simp only [orIndex, List.getElem?_cons_zero, ok_bind] at h ⊢
        cases hg : groupHead l1 l2 with
        | error e => simp only [hg, error_bind] at h ⊢; rfl
        | ok g =>
          simp only [hg, ok_bind] at h ⊢
          cases hn : groupCount g with
          | error e => simp only [hn, error_bind] at h ⊢; rfl
          | ok n =>
            simp only [hn, ok_bind] at h ⊢
            have hk : -1 ≤ ceilDiv n 2 := by
              refine Decidable.byContradiction fun hk => h ?_
              rw [show (ceilDiv n 2).toNat = 0 by omega]
              simp only [List.take_zero, values_nil, ok_bind]
              rw [if_pos (by omega)]
            have hs : pySlice ls ((i : Int) + 2) (ceilDiv n 2 + i + 2) =
                ((l1 :: l2 :: t).drop 2).take (ceilDiv n 2).toNat := by
              obtain ⟨j, hj⟩ : ∃ j : Nat, ceilDiv n 2 + i + 2 = (j : Int) := ⟨(ceilDiv n 2 + i + 2).toNat, by omega⟩
              rw [hj, show ((i : Int) + 2) = ((i + 2 : Nat) : Int) by omega, pySlice_nat, ← hd, List.drop_drop]
              congr 1
              omega
            rw [hs]
            cases hv : groupValues (((l1 :: l2 :: t).drop 2).take (ceilDiv n 2).toNat) with
            | error e => simp only [hv, error_bind] at h ⊢; rfl
            | ok vs =>
              simp only [hv, ok_bind] at h ⊢
              rw [if_neg (by omega)] at h ⊢
              have hd' : (l1 :: l2 :: t).drop (2 + ceilDiv n 2).toNat = ls.drop (i + (2 + ceilDiv n 2).toNat) := by
                rw [← hd, List.drop_drop]
              rw [hd'] at h ⊢
              have hi := ih (i + (2 + ceilDiv n 2).toNat) (acc ++ [.dict ((((g.set "entity_type_code" (.arrI (everyN 0 4 vs))).set
                "entity_tag" (.arrI (everyN 1 4 vs))).set "entity_node_leaf_id" (.arrI (everyN 2 4 vs))).set
                "entity_component_id" (.arrI (everyN 3 4 vs)))]) (fun he => h (by rw [he]; rfl))
              rw [show ((i + (2 + ceilDiv n 2).toNat : Nat) : Int) = ceilDiv n 2 + i + 2 by omega] at hi
              exact hi.trans (by rw [ended_map])
    · have hl : (ls.drop i).length < 1 := by rw [cond2467_iff] at hc; omega
      rw [if_neg hc]
      have hg : groups2467 (fuel + 1) (ls.drop i) = .ok [] := by
        match hd : ls.drop i, hl with
        | [], _ => rfl
      rw [hg]
      show Loop.ended (.ok acc) = .ended (.ok (acc ++ []))
      rw [List.append_nil]

theorem sameElem (ls : List Text) (fuel : Nat) : ∀ (i : Nat) (acc : List ((Int × Int × Int × Int) × Val)),
    elemLoop fuel (ls.drop i) ≠ .error .unmodelled →
    loopPasses (condElem ls) (bodyElem ls) (fuel + 1) i acc = .ended ((elemLoop fuel (ls.drop i)).map (acc ++ ·)) := by
  induction fuel with
  | zero =>
    intro i acc h
    match hd : ls.drop i with
    | [] =>
      have hc : ¬ condElem ls i = true := by
        show ¬ cond2467 ls i = true
        rw [cond2467_iff, hd]; simp
      unfold loopPasses
      rw [if_neg hc]
      show Loop.ended (.ok acc) = .ended (.ok (acc ++ []))
      rw [List.append_nil]
    | l :: t => rw [hd] at h; exact absurd rfl h
  | succ fuel ih =>
    intro i acc h
    unfold loopPasses
    match hd : ls.drop i with
    | [] =>
      have hc : ¬ condElem ls i = true := by
        show ¬ cond2467 ls i = true
        rw [cond2467_iff, hd]; simp
      rw [if_neg hc]
      show Loop.ended (.ok acc) = .ended (.ok (acc ++ []))
      rw [List.append_nil]
    | l :: t =>
      have hc : condElem ls i = true := by
        show cond2467 ls i = true
        rw [cond2467_iff, hd]; simp
      rw [if_pos hc]
      rw [hd] at h
      obtain ⟨h1, hd1⟩ := drop_cons hd
      unfold bodyElem
      rw [pyAt_nat, h1]
      unfold elemLoop at h ⊢
      simp only [orIndex, ok_bind]
      cases he : elemRecord l with
      | error e => simp only [he, error_bind] at h ⊢; rfl
      | ok e =>
        simp only [he, ok_bind] at h ⊢
        have hk : 0 ≤ elemLines e.2.1 e.2.2.1 e.2.2.2 := by
          refine Decidable.byContradiction fun hk => h ?_
          rw [if_pos (by omega)]
        generalize elemLines e.2.1 e.2.2.1 e.2.2.2 = k at hk h ⊢
        rw [if_neg (by omega)] at h ⊢
        have hs : pySlice ls ((i : Int) + 1) (i + 1 + k) = t.take k.toNat := by
          obtain ⟨j, rfl⟩ : ∃ j : Nat, k = (j : Int) := ⟨k.toNat, by omega⟩
          rw [show ((i : Int) + 1) = ((i + 1 : Nat) : Int) by omega, show (((i + 1 : Nat) : Int) + (j : Int)) = ((i + 1 + j : Nat) : Int) by omega,
            pySlice_nat, hd1]
          congr 1
          omega
        rw [hs]
        cases hv : floatLists (t.take k.toNat) with
        | error e => simp only [hv, error_bind] at h ⊢; rfl
        | ok v =>
          simp only [hv, ok_bind] at h ⊢
          have hd' : t.drop k.toNat = ls.drop (i + 1 + k.toNat) := by rw [← hd1, List.drop_drop]
          rw [hd'] at h ⊢
          have hi := ih (i + 1 + k.toNat) (acc ++ [(e, .list v)]) (fun he => h (by rw [he]; rfl))
          rw [show ((i + 1 + k.toNat : Nat) : Int) = i + 1 + k by omega] at hi
          exact hi.trans (by rw [ended_map])

end Loops
end Verif
