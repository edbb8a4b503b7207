import Verif.Lemmas.Loops3
import Verif.Props.Tokens
import Mathlib.Algebra.Order.Ring.Int
/-
C49: the reading loops over groups (2429, 2467) and over elements (2414) end, or run for ever.
-/
namespace Verif
open Loops

/-- The loop over the groups of a data-set 2429 ends after at most `2 L + 1` passes, with `L` the number of lines, or it never
ends and the list of groups grows in every pass. -/
theorem C49_dichotomy_2429 (block : Text) : (∃ r, run2429 block (2 * (splitLines block).length + 1) = .ended r) ∨
    ∀ n, ∃ i l, run2429 block n = .running i l ∧ l.length = n :=
  dichotomy (fun i p _ h => by
    obtain ⟨l, _, n, _, h1, _⟩ := body2429_ok h
    exact pyAt_ok h1) 2

/-- The same for data-set 2467. -/
theorem C49_dichotomy_2467 (block : Text) : (∃ r, run2467 block (2 * ((splitLinesKeep block).drop 2).length + 1) = .ended r) ∨
    ∀ n, ∃ i l, run2467 block n = .running i l ∧ l.length = n :=
  dichotomy (fun i p _ h => by
    obtain ⟨l, _, n, _, h1, _⟩ := body2467_ok h
    exact pyAt_ok h1) 0

/-- The same for the elements of a data-set 2414 with data at nodes on elements. -/
theorem C49_dichotomy_2414 (block : Text) :
    (∃ r, runElem block (2 * (splitLines ((splitLinesKeep block).drop 15).flatten).length + 1) = .ended r) ∨
    ∀ n, ∃ i l, runElem block n = .running i l ∧ l.length = n :=
  dichotomy (fun i p _ h => by
    obtain ⟨l, _, e, iexp, nodes, vals, _, h1, _⟩ := bodyElem_ok h
    exact pyAt_ok h1) 0

/-- Whenever the reader of data-set 2429 has a result, its loop on the line index ends, after one pass for each line at most and
one more, and the result is made of the groups collected. -/
theorem C49_same_2429 (block : Text) (h : extract2429 block ≠ .error .unmodelled) :
    ∃ r, run2429 block ((splitLines block).length + 1) = .ended r ∧
      extract2429 block = readGuard 2429 (r >>= fun gs => (.ok [("type", .int 2429), ("groups", .list gs)] : Res Dict)) := by
  refine ⟨groups2429 ((splitLines block).drop 2).length ((splitLines block).drop 2), ?_, rfl⟩
  have hu : groups2429 ((splitLines block).drop 2).length ((splitLines block).drop 2) ≠ .error .unmodelled := by
    intro he
    apply h
    unfold extract2429
    simp only [he, error_bind]
    rfl
  have hs := same2429 (splitLines block) _ 2 [] hu
  have hm : Except.map (fun l : List Val => [] ++ l) (groups2429 ((splitLines block).drop 2).length ((splitLines block).drop 2)) =
      groups2429 ((splitLines block).drop 2).length ((splitLines block).drop 2) := by
    cases groups2429 ((splitLines block).drop 2).length ((splitLines block).drop 2) <;> rfl
  rw [hm] at hs
  have hmore := ended_more hs (min 2 (splitLines block).length)
  unfold run2429
  rw [← hmore]
  congr 1
  rw [List.length_drop]; omega

/-- The same for data-set 2467, whose reader does not catch exceptions. -/
theorem C49_same_2467 (block : Text) (h : extract2467 block ≠ .error .unmodelled) :
    ∃ r, run2467 block (((splitLinesKeep block).drop 2).length + 1) = .ended r ∧
      (∀ e, r = .error e → extract2467 block = .error e) ∧
      ∀ gs, r = .ok gs → ∃ d, extract2467 block = .ok d ∧ d.get? "groups" = some (.list gs) := by
  have hu : groups2467 ((splitLinesKeep block).drop 2).length ((splitLinesKeep block).drop 2) ≠ .error .unmodelled := by
    intro he
    apply h
    unfold extract2467
    simp only [he, error_bind]
  have hs := same2467 ((splitLinesKeep block).drop 2) _ 0 [] hu
  have hm : Except.map (fun l : List Val => [] ++ l) (groups2467 ((splitLinesKeep block).drop 2).length ((splitLinesKeep block).drop 2)) =
      groups2467 ((splitLinesKeep block).drop 2).length ((splitLinesKeep block).drop 2) := by
    cases groups2467 ((splitLinesKeep block).drop 2).length ((splitLinesKeep block).drop 2) <;> rfl
  refine ⟨_, hs.trans (congrArg Loop.ended hm), ?_, ?_⟩
  · intro e he
    unfold extract2467
    simp only [he, error_bind]
  · intro gs he
    unfold extract2467
    simp only [he, ok_bind]
    exact ⟨_, rfl, rfl⟩

/-- The same for the elements of data-set 2414. -/
theorem C49_same_2414 (block : Text)
    (h : readElemNodes (splitLines ((splitLinesKeep block).drop 15).flatten) ≠ .error .unmodelled) :
    ∃ r, runElem block ((splitLines ((splitLinesKeep block).drop 15).flatten).length + 1) = .ended r ∧
      (∀ e, r = .error e → readElemNodes (splitLines ((splitLinesKeep block).drop 15).flatten) = .error e) ∧
      ∀ es d, r = .ok es → readElemNodes (splitLines ((splitLinesKeep block).drop 15).flatten) = .ok d →
        d.get? "element_nums" = some (.arrI (es.map (·.1.1))) ∧ d.get? "data_at_nodes_on_element" = some (.list (es.map (·.2))) := by
  have : ∀ ls : List Text, readElemNodes ls ≠ .error .unmodelled →
    ∃ r, loopPasses (condElem ls) (bodyElem ls) (ls.length + 1) 0 [] = .ended r ∧
      (∀ e, r = .error e → readElemNodes ls = .error e) ∧
      ∀ es d, r = .ok es → readElemNodes ls = .ok d →
        d.get? "element_nums" = some (.arrI (es.map (·.1.1))) ∧ d.get? "data_at_nodes_on_element" = some (.list (es.map (·.2))) := by
    intro ls h
    have hu : elemLoop ls.length ls ≠ .error .unmodelled := by
      intro he
      apply h
      unfold readElemNodes
      simp only [he, error_bind]
    have hs := sameElem ls _ 0 [] hu
    have hm : Except.map (fun l => [] ++ l) (elemLoop ls.length (ls.drop 0)) = elemLoop ls.length ls := by
      rw [List.drop_zero]
      cases elemLoop ls.length ls <;> rfl
    refine ⟨_, hs.trans (congrArg Loop.ended hm), ?_, ?_⟩
    · intro e he
      unfold readElemNodes
      simp only [he, error_bind]
    · intro es d he hd
      unfold readElemNodes at hd
      simp only [he, ok_bind] at hd
      have ha : ∀ l x, arr64 l = .ok x → x = l := by
        intro l x hx
        unfold arr64 at hx
        split at hx
        · cases hx; rfl
        · cases hx
      cases h1 : arr64 (es.map (·.1.1)) with
      | error e => simp only [h1, error_bind] at hd; cases hd
      | ok a =>
      cases h2 : arr64 (es.map (·.1.2.1)) with
      | error e => simp only [h1, h2, ok_bind, error_bind] at hd; cases hd
      | ok b =>
      cases h3 : arr64 (es.map (·.1.2.2.1)) with
      | error e => simp only [h1, h2, h3, ok_bind, error_bind] at hd; cases hd
      | ok c =>
      cases h4 : arr64 (es.map (·.1.2.2.2)) with
      | error e => simp only [h1, h2, h3, h4, ok_bind, error_bind] at hd; cases hd
      | ok c' =>
        simp only [h1, h2, h3, h4, ok_bind] at hd
        cases hd
        cases ha _ _ h1
        exact ⟨rfl, rfl⟩
  exact this _ h

/-- Reading a data-set 2429 ends if no line announces a group of −8 entities or fewer.  Missing for the general claim: such lines
(`C49_hangs_2429`). -/
theorem C49_ends_2429_partial (block : Text) (h : ∀ l ∈ splitLines block, ∀ n, GroupLine l n → -8 < n) :
    ∃ r, run2429 block ((splitLines block).length + 1) = .ended r := by
  refine ends_of_grows (L := (splitLines block).length) ?_ ?_ _ 2 [] (by omega) (by omega)
  · intro i hi
    unfold cond2429 at hi
    rw [decide_eq_true_iff] at hi
    omega
  · intro i p _ _ hb
    obtain ⟨l, hl, n, hg, _, hp⟩ := body2429_ok hb
    have := h l hl n hg
    rw [hp]
    unfold ceilDiv
    omega

/-- Reading a data-set 2467 ends if no line announces a group of −4 entities or fewer. -/
theorem C49_ends_2467_partial (block : Text) (h : ∀ l ∈ splitLinesKeep block, ∀ n, GroupLine l n → -4 < n) :
    ∃ r, run2467 block (((splitLinesKeep block).drop 2).length + 1) = .ended r := by
  refine ends_of_grows (L := ((splitLinesKeep block).drop 2).length) ?_ ?_ _ 0 [] (by omega) (by omega)
  · intro i hi
    unfold cond2467 at hi
    rw [decide_eq_true_iff] at hi
    omega
  · intro i p _ _ hb
    obtain ⟨l, hl, n, hg, _, hp⟩ := body2467_ok hb
    have := h l (List.mem_of_mem_drop hl) n hg
    rw [hp]
    unfold ceilDiv
    omega

/-- Reading the elements of a data-set 2414 ends if no line announces a negative number of lines: a number of values of −6 or less,
or a negative number of nodes. -/
theorem C49_ends_2414_partial (block : Text) (h : ∀ l ∈ splitLines ((splitLinesKeep block).drop 15).flatten, ∀ e iexp nodes vals,
      ElementLine l e iexp nodes vals → -6 < vals ∧ (iexp = 1 → 0 ≤ nodes)) :
    ∃ r, runElem block ((splitLines ((splitLinesKeep block).drop 15).flatten).length + 1) = .ended r := by
  refine ends_of_grows (L := (splitLines ((splitLinesKeep block).drop 15).flatten).length) ?_ ?_ _ 0 [] (by omega) (by omega)
  · intro i hi
    unfold condElem at hi
    rw [decide_eq_true_iff] at hi
    omega
  · intro i p _ _ hb
    obtain ⟨l, hl, e, iexp, nodes, vals, hg, _, hp⟩ := bodyElem_ok hb
    obtain ⟨h1, h2⟩ := h l hl _ _ _ _ hg
    have hc : 0 ≤ ceilDiv vals 6 := by unfold ceilDiv; omega
    have hk : 0 ≤ elemLines iexp nodes vals := by
      unfold elemLines
      split
      · rename_i hi; exact mul_nonneg (h2 hi) hc
      · exact hc
    rw [hp]
    omega

/-- When the loop of data-set 2429 comes to a group of −8 to −11 entities that is not in the last two lines, it never ends. -/
theorem C49_hangs_2429 (block : Text) (m i : Nat) (gs : List Val) (hr : run2429 block m = .running i gs) (l1 l2 : Text)
    (h1 : (splitLines block)[i]? = some l1) (h2 : (splitLines block)[i + 1]? = some l2) (h3 : i + 2 < (splitLines block).length)
    (c : Int) (hl : GroupLine l1 c) (hc : -11 ≤ c ∧ c ≤ -8) : ∀ n, ∃ j l, run2429 block n = .running j l ∧ l.length = n := by
  obtain ⟨a, ha⟩ := body2429_stays h1 h2 hl (by unfold ceilDiv; omega)
  intro n
  obtain ⟨j, l, hj, hn⟩ := never_of_stays hr (by rw [cond2429_iff, List.length_drop]; omega) ha n
  exact ⟨j, l, hj, by simpa using hn⟩

/-- When the loop of data-set 2467 comes to a group of −4 or −5 entities, it never ends. -/
theorem C49_hangs_2467 (block : Text) (m i : Nat) (gs : List Val) (hr : run2467 block m = .running i gs) (l1 l2 : Text)
    (h1 : ((splitLinesKeep block).drop 2)[i]? = some l1) (h2 : ((splitLinesKeep block).drop 2)[i + 1]? = some l2)
    (c : Int) (hl : GroupLine l1 c) (hc : -5 ≤ c ∧ c ≤ -4) : ∀ n, ∃ j l, run2467 block n = .running j l ∧ l.length = n := by
  obtain ⟨a, ha⟩ := body2467_stays h1 h2 hl (by unfold ceilDiv; omega)
  have hi := (List.getElem?_eq_some_iff.1 h1).1
  intro n
  obtain ⟨j, l, hj, hn⟩ := never_of_stays hr (by rw [cond2467_iff, List.length_drop]; omega) ha n
  exact ⟨j, l, hj, by simpa using hn⟩

/-- When the loop of data-set 2414 comes to an element whose line announces −1 lines of values, it never ends. -/
theorem C49_hangs_2414 (block : Text) (m i : Nat) (es : List ((Int × Int × Int × Int) × Val)) (hr : runElem block m = .running i es)
    (l : Text) (h1 : (splitLines ((splitLinesKeep block).drop 15).flatten)[i]? = some l) (e iexp nodes vals : Int)
    (hl : ElementLine l e iexp nodes vals)
    (hc : (iexp = 1 ∧ nodes = -1 ∧ 1 ≤ vals ∧ vals ≤ 6) ∨ ((iexp = 1 → nodes = 1) ∧ -11 ≤ vals ∧ vals ≤ -6)) :
    ∀ n, ∃ j l, runElem block n = .running j l ∧ l.length = n := by
  have hk : elemLines iexp nodes vals = -1 := by
    unfold elemLines ceilDiv
    rcases hc with ⟨h, rfl, _⟩ | ⟨h, _⟩
    · rw [if_pos h]; omega
    · split
      · rename_i hi; rw [h hi]; omega
      · omega
  obtain ⟨a, ha⟩ := bodyElem_stays h1 hl hk
  have hi := (List.getElem?_eq_some_iff.1 h1).1
  intro n
  obtain ⟨j, l, hj, hn⟩ := never_of_stays hr (by
    show cond2467 _ _ = true
    rw [cond2467_iff, List.length_drop]; omega) ha n
  exact ⟨j, l, hj, by simpa using hn⟩

/-! ### Examples -/

/-- A good group and one with a wrong sign: eight entities, announced as −8. -/
def exMinus : Text := chars!"    -1\n  2429\n         1         0         0         0         0         0         0         1\nleft\n         7        11\n         2         0         0         0         0         0         0        -8\nright\n         7        11         7        12         7        13         7        14\n         7        15         7        16         7        17         7        18\n"

theorem exMinus_reaches : ∃ gs, run2429 exMinus 1 = .running ((5 : Nat) : Int) gs := by
  have h : (match run2429 exMinus 1 with
    | .running i _ => decide (i = 5)
    | .ended _ => false) = true := by decide +kernel
  revert h
  cases run2429 exMinus 1 with
  | ended r => intro h; cases h
  | running i gs => intro h; rw [decide_eq_true_iff] at h; exact ⟨gs, by rw [h]; rfl⟩

/-- Reading this data-set, with one wrong sign in a text of nine lines, never ends: so the claim that reading always ends, with a
result or with an error, is false. -/
theorem C49_negation_2429 : ∀ n, ∃ j l, run2429 exMinus n = .running j l ∧ l.length = n := by
  obtain ⟨gs, hgs⟩ := exMinus_reaches
  exact C49_hangs_2429 exMinus 1 5 gs hgs
    chars!"         2         0         0         0         0         0         0        -8" chars!"right" (by decide +kernel) (by decide +kernel)
    (by decide +kernel) (-8) (by decide +kernel) (by decide)

/-- The text is what `read_sets` hands to the reader, for the file with this text and the closing delimiter. -/
example : setCount (encode (exMinus ++ chars!"    -1\n")) = 1 ∧ decode (setBytes (encode (exMinus ++ chars!"    -1\n")) 0) = exMinus ∧
    extract2429 exMinus = .error .unmodelled := by
  rw [count_fast, bytes_fast]
  decide +kernel

/-- With the right sign reading ends. -/
def exPlus : Text := chars!"    -1\n  2429\n         1         0         0         0         0         0         0         1\nleft\n         7        11\n"

example : ∃ r, run2429 exPlus ((splitLines exPlus).length + 1) = .ended r := by
  refine C49_ends_2429_partial exPlus ?_
  have h : ∀ l ∈ splitLines exPlus, ∀ n, parseInt (fieldText l [10, 10, 10, 10, 10, 10, 10, 10] 7) = some n → -8 < n := by
    have h : (splitLines exPlus).all (fun l => match parseInt (fieldText l [10, 10, 10, 10, 10, 10, 10, 10] 7) with
      | some n => decide (-8 < n)
      | none => true) = true := by decide +kernel
    intro l hl n hn
    have := List.all_eq_true.1 h l hl
    rw [hn] at this
    exact of_decide_eq_true this
  exact fun l hl n hn => h l hl n hn.2

example : extract2429 exPlus ≠ .error .unmodelled := by decide +kernel

/-- A group of −4 entities in a data-set 2467. -/
def exMinus2467 : Text := chars!"    -1\n  2467\n         1         0         0         0         0         0         0        -4\nleft\n"

theorem C49_negation_2467 : ∀ n, ∃ j l, run2467 exMinus2467 n = .running j l ∧ l.length = n :=
  C49_hangs_2467 exMinus2467 0 0 [] rfl
    chars!"         1         0         0         0         0         0         0        -4\n" chars!"left\n" (by decide +kernel) (by decide +kernel)
    (-4) (by decide +kernel) (by decide)

/-- An element with −1 nodes in a data-set 2414. -/
def exMinus2414 : Text := List.replicate 15 '\n' ++ chars!"         5         1        -1         3\n  1.0 2.0 3.0\n"

theorem C49_negation_2414 : ∀ n, ∃ j l, runElem exMinus2414 n = .running j l ∧ l.length = n :=
  C49_hangs_2414 exMinus2414 0 0 [] rfl chars!"         5         1        -1         3" (by decide +kernel) 5 1 (-1) 3 (by decide +kernel)
    (by decide)

end Verif
