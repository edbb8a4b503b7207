import Verif.Spec.Fix
import Verif.Model.Fix58b
import Verif.Lemmas.Bin58
import Verif.Lemmas.File
/-
Lemmas about `fix_58b`.
-/
namespace Verif

theorem isSpaceB_iff (c : UInt8) : isSpaceB c = true ↔ White c := by
  have h : ∀ c : UInt8, isSpaceB c = decide (White c) := by
    intro c
    have := c.toNat_lt
    unfold isSpaceB White
    rw [Bool.eq_iff_iff]
    simp only [Bool.or_eq_true, Bool.and_eq_true, beq_iff_eq, decide_eq_true_eq, UInt8.le_iff_toNat_le, ← UInt8.toNat_inj]
    simp
    omega
  rw [h]; simp

theorem dropWhile_pre {α} (p : α → Bool) (a b : List α) (h : ∀ c ∈ a, p c = true) :
    (a ++ b).dropWhile p = b.dropWhile p := by
  induction a with
  | nil => rfl
  | cons c a ih =>
    rw [List.cons_append, List.dropWhile_cons_of_pos (h c (by simp)), ih fun d hd => h d (by simp [hd])]

theorem dropWhile_split {α} (p : α → Bool) (l : List α) : ∃ a, l = a ++ l.dropWhile p ∧ ∀ c ∈ a, p c = true :=
  ⟨l.takeWhile p, List.takeWhile_append_dropWhile.symm, fun c hc => List.all_eq_true.1 List.all_takeWhile c hc⟩

theorem loneTag_iff (l : Bytes) : loneTag l = true ↔ Lone l := by
  unfold loneTag stripB
  rw [beq_iff_eq]
  constructor
  · intro h
    obtain ⟨a, h1, ha⟩ := dropWhile_split isSpaceB l
    obtain ⟨b, h2, hb⟩ := dropWhile_split isSpaceB (l.dropWhile isSpaceB).reverse
    refine ⟨a, b.reverse, ?_, fun c hc => (isSpaceB_iff c).1 (ha c hc),
      fun c hc => (isSpaceB_iff c).1 (hb c (by simpa using hc))⟩
    have h3 : l.dropWhile isSpaceB = [45, 49] ++ b.reverse := by
      rw [← h, ← List.reverse_append, ← h2, List.reverse_reverse]
    rw [← h3, ← h1]
  · rintro ⟨a, b, rfl, ha, hb⟩
    rw [dropWhile_pre _ _ _ fun c hc => (isSpaceB_iff c).2 (ha c hc)]
    rw [List.cons_append, List.dropWhile_cons_of_neg (by decide)]
    rw [show ((45 : UInt8) :: ([49] ++ b)).reverse = b.reverse ++ [49, 45] by simp]
    rw [dropWhile_pre _ _ _ fun c hc => (isSpaceB_iff c).2 (hb c (by simpa using hc))]
    rfl

instance (l : Bytes) : Decidable (Lone l) := decidable_of_iff _ (loneTag_iff l)

/-! Lines -/

theorem splitKB_noEol (c acc f : Bytes) (h : NoEol c) :
    splitLinesGen 13 10 (fun c => c == 10 || c == 13) true acc (c ++ f)
      = splitLinesGen 13 10 (fun c => c == 10 || c == 13) true (c.reverse ++ acc) f := by
  induction c generalizing acc with
  | nil => rfl
  | cons x c ih =>
    have h1 : x ≠ 10 := fun e => h.1 (by simp [e])
    have h2 : x ≠ 13 := fun e => h.2 (by simp [e])
    rw [List.cons_append, splitLinesGen_cons_noBrk _ _ _ _ (by decide) _ _ _ (by simp [h1, h2]),
      ih _ ⟨fun m => h.1 (by simp [m]), fun m => h.2 (by simp [m])⟩]
    simp

theorem IsLines.split {f : Bytes} {ls : List Bytes} (h : IsLines f ls) : splitLinesKeepB f = ls := by
  induction h with
  | nil => rfl
  | last c hne hc =>
    unfold splitLinesKeepB
    have := splitKB_noEol c [] [] hc
    rw [List.append_nil] at this
    rw [this]
    cases c with
    | nil => exact absurd rfl hne
    | cons x c => simp [splitLinesGen]
  | line c e f ls hc he _ ih =>
    unfold splitLinesKeepB at ih ⊢
    rw [splitKB_noEol c [] _ hc]
    rcases he with rfl | ⟨rfl, hf⟩ | rfl
    · rw [List.cons_append, List.nil_append, splitLinesGen_lf _ _ _ _ (by decide) (by decide), ih]
      simp
    · cases f with
      | nil => cases ih; simp [splitLinesGen]
      | cons d f =>
        rw [List.cons_append, List.nil_append, splitLinesGen, if_neg, ih]
        · simp
        · rintro ⟨-, rfl⟩; exact hf rfl
    · rw [List.cons_append, List.cons_append, List.nil_append, splitLinesGen, if_pos ⟨rfl, rfl⟩, ih]
      simp

theorem IsLines.flatten {f : Bytes} {ls : List Bytes} (h : IsLines f ls) : ls.flatten = f := by
  rw [← h.split, splitLinesKeepB_flatten]

theorem IsLines.unique {f : Bytes} {a b : List Bytes} (h : IsLines f a) (h' : IsLines f b) : a = b := by
  rw [← h.split, ← h'.split]

theorem noEol_split (f : Bytes) : ∃ c r, f = c ++ r ∧ NoEol c ∧ (r = [] ∨ r.head? = some 10 ∨ r.head? = some 13) := by
  induction f with
  | nil => exact ⟨[], [], rfl, ⟨by simp, by simp⟩, Or.inl rfl⟩
  | cons x f ih =>
    by_cases h : x = 10 ∨ x = 13
    · exact ⟨[], x :: f, rfl, ⟨by simp, by simp⟩, Or.inr (by simpa using h)⟩
    · obtain ⟨c, r, e, hc, hr⟩ := ih
      refine ⟨x :: c, r, by rw [e]; rfl, ⟨?_, ?_⟩, hr⟩
      · simp only [List.mem_cons, not_or]
        exact ⟨fun e => h (Or.inl e.symm), hc.1⟩
      · simp only [List.mem_cons, not_or]
        exact ⟨fun e => h (Or.inr e.symm), hc.2⟩

theorem exists_lines_le (n : Nat) (f : Bytes) (hn : f.length ≤ n) : ∃ ls, IsLines f ls := by
  induction n generalizing f with
  | zero =>
    have : f = [] := List.length_eq_zero_iff.1 (by omega)
    rw [this]; exact ⟨[], .nil⟩
  | succ n ih =>
    obtain ⟨c, r, rfl, hc, hr⟩ := noEol_split f
    match r, hr with
    | [], _ =>
      rw [List.append_nil]
      cases c with
      | nil => exact ⟨[], .nil⟩
      | cons x c => exact ⟨_, .last _ (by simp) hc⟩
    | x :: r, hr =>
      simp at hr
      by_cases h : x = 13 ∧ r.head? = some 10
      · obtain ⟨rfl, h⟩ := h
        cases r with
        | nil => cases h
        | cons y r =>
          cases h
          obtain ⟨ls, hl⟩ := ih r (by simp at hn; omega)
          exact ⟨_, .line c [13, 10] r ls hc (Or.inr (Or.inr rfl)) hl⟩
      · obtain ⟨ls, hl⟩ := ih r (by simp at hn; omega)
        refine ⟨_, .line c [x] r ls hc ?_ hl⟩
        rcases hr with rfl | rfl
        · exact Or.inl rfl
        · exact Or.inr (Or.inl ⟨rfl, fun e => h ⟨rfl, e⟩⟩)

theorem exists_lines (f : Bytes) : ∃ ls, IsLines f ls := exists_lines_le _ f (Nat.le_refl _)

theorem isLines_split (f : Bytes) : IsLines f (splitLinesKeepB f) := by
  obtain ⟨ls, h⟩ := exists_lines f
  rw [h.split]; exact h

/-- Lines after a line feed. -/
theorem IsLines.append {f g : Bytes} {a b : List Bytes} (h : IsLines f a) (hf : f = [] ∨ f.getLast? = some 10)
    (hg : IsLines g b) : IsLines (f ++ g) (a ++ b) := by
  induction h with
  | nil => exact hg
  | last c hne hc =>
    exfalso
    rcases hf with hf | hf
    · exact hne hf
    · exact hc.1 (List.mem_of_getLast? hf)
  | line c e f ls hc he hl ih =>
    rw [List.append_assoc, List.append_assoc, List.cons_append]
    refine .line c e _ _ hc ?_ (ih ?_)
    · rcases he with he | ⟨he, hh⟩ | he
      · exact Or.inl he
      · refine Or.inr (Or.inl ⟨he, ?_⟩)
        cases f with
        | nil =>
          subst he
          rcases hf with hf | hf
          · simp at hf
          · simp at hf
        | cons x f => exact hh
      · exact Or.inr (Or.inr he)
    · cases f with
      | nil => exact Or.inl rfl
      | cons x f =>
        right
        rcases hf with hf | hf
        · simp at hf
        · rw [← List.append_assoc, List.getLast?_append] at hf
          simpa [List.getLast?_cons] using hf

/-! The two passes over the lines -/

theorem fixLast_append (l : List Bytes) (z b : Bytes) :
    fixLast (l ++ [z, b]) = if loneTag b then l ++ [moveUp z b] else l ++ [z, b] := by
  induction l with
  | nil => rfl
  | cons x l ih =>
    have : ∃ u v r, l ++ [z, b] = u :: v :: r := by
      match l with
      | [] => exact ⟨_, _, _, rfl⟩
      | [u] => exact ⟨_, _, _, rfl⟩
      | u :: v :: r => exact ⟨_, _, _, rfl⟩
    obtain ⟨u, v, r, e⟩ := this
    rw [List.cons_append, e, fixLast, ← e, ih]
    split <;> rfl

theorem fixLast_single (l : Bytes) : fixLast [l] = [l] := rfl

theorem fixPairs_short (ls : List Bytes) (h : ls.length ≤ 3) : fixPairs ls = ls := by
  match ls, h with
  | [], _ => rfl
  | [_], _ => rfl
  | [_, _], _ => rfl
  | [_, _, _], _ => rfl
  | _ :: _ :: _ :: _ :: _, h => simp at h

/-- A line is passed over unless two lone delimiters follow. -/
theorem fixPairs_skip (l a b : Bytes) (r : List Bytes) (h : r = [] ∨ ¬ (loneTag a = true ∧ loneTag b = true)) :
    fixPairs (l :: a :: b :: r) = l :: fixPairs (a :: b :: r) := by
  cases r with
  | nil => rw [fixPairs_short _ (by simp), fixPairs_short _ (by simp)]
  | cons c r =>
    show fixFrom l (a :: b :: c :: r) = l :: fixFrom a (b :: c :: r)
    rw [fixFrom, if_neg]
    rcases h with h | h
    · cases h
    · simpa using h

theorem fixPairs_hit (l a b c : Bytes) (r : List Bytes) (ha : loneTag a = true) (hb : loneTag b = true) :
    fixPairs (l :: a :: b :: c :: r) = fixPairs (moveUp l a :: b :: c :: r) := by
  show fixFrom l (a :: b :: c :: r) = fixFrom (moveUp l a) (b :: c :: r)
  rw [fixFrom, if_pos (by simp [ha, hb])]

theorem fixPairs_skip1 (l a : Bytes) (r : List Bytes) (h : loneTag a = false) :
    fixPairs (l :: a :: r) = l :: fixPairs (a :: r) := by
  cases r with
  | nil => rw [fixPairs_short _ (by simp), fixPairs_short _ (by simp)]
  | cons b r => exact fixPairs_skip l a b r (Or.inr (by simp [h]))

theorem fixPairs_skips (x : Bytes) (ls : List Bytes) (z : Bytes) (r : List Bytes) (h : ∀ l ∈ ls, loneTag l = false)
    (hz : loneTag z = false) : fixPairs (x :: ls ++ z :: r) = x :: ls ++ fixPairs (z :: r) := by
  induction ls generalizing x with
  | nil => exact fixPairs_skip1 x z r hz
  | cons y ls ih =>
    have := ih y (fun l hl => h l (by simp [hl]))
    simp only [List.cons_append] at this ⊢
    rw [fixPairs_skip1 _ _ _ (h y (by simp)), this]

/-- The lines of a data-set: opening delimiter, at least one line, last line, closing delimiter. -/
structure SetLines where
  a : Bytes
  y : Bytes
  ls : List Bytes
  z : Bytes
  b : Bytes

namespace SetLines

def lines (s : SetLines) : List Bytes := s.a :: s.y :: s.ls ++ [s.z, s.b]
def fixed (s : SetLines) : List Bytes := s.a :: s.y :: s.ls ++ [moveUp s.z s.b]

structure Ok (s : SetLines) : Prop where
  a : loneTag s.a = true
  y : loneTag s.y = false
  ls : ∀ l ∈ s.ls, loneTag l = false
  z : loneTag s.z = false
  b : loneTag s.b = true

end SetLines

theorem fixPairs_last (s : SetLines) (h : s.Ok) : fixPairs s.fixed = s.fixed := by
  unfold SetLines.fixed
  rw [List.cons_append, List.cons_append, fixPairs_skip1 _ _ _ h.y]
  have : ∀ (x : Bytes) (ls : List Bytes) (t : Bytes), (∀ l ∈ ls, loneTag l = false) →
      fixPairs (x :: ls ++ [t]) = x :: ls ++ [t] := by
    intro x ls
    induction ls generalizing x with
    | nil => intro t _; exact fixPairs_short _ (by simp)
    | cons u ls ih =>
      intro t hl
      rw [List.cons_append, List.cons_append, fixPairs_skip1 _ _ _ (hl u (by simp))]
      have := ih u t (fun l m => hl l (by simp [m]))
      rw [List.cons_append] at this
      rw [this]
  have h2 := this s.y s.ls (moveUp s.z s.b) h.ls
  rw [List.cons_append] at h2
  rw [h2]

theorem fixPairs_sets (ss : List SetLines) (s : SetLines) (hs : ∀ s ∈ ss, s.Ok) (h : s.Ok) :
    fixPairs (ss.flatMap SetLines.lines ++ s.fixed) = ss.flatMap SetLines.fixed ++ s.fixed := by
  induction ss with
  | nil => exact fixPairs_last s h
  | cons t ss ih =>
    have ht := hs t (by simp)
    have ih := ih fun u hu => hs u (by simp [hu])
    have hn : ∃ a y r, ss.flatMap SetLines.lines ++ s.fixed = a :: y :: r ∧ loneTag a = true ∧ loneTag y = false := by
      cases ss with
      | nil => exact ⟨s.a, s.y, _, rfl, h.a, h.y⟩
      | cons u ss => exact ⟨u.a, u.y, _, rfl, (hs u (by simp)).a, (hs u (by simp)).y⟩
    obtain ⟨a, y, r, e, ha, hy⟩ := hn
    rw [List.flatMap_cons, List.flatMap_cons, List.append_assoc, List.append_assoc, ← ih, e]
    unfold SetLines.lines SetLines.fixed
    have e1 : t.a :: t.y :: t.ls ++ [t.z, t.b] ++ a :: y :: r = t.a :: (t.y :: t.ls) ++ t.z :: (t.b :: a :: y :: r) := by
      simp
    rw [e1, fixPairs_skips _ _ _ _ (by
      intro l hl
      rcases List.mem_cons.1 hl with rfl | hl
      · exact ht.y
      · exact ht.ls l hl) ht.z, fixPairs_hit _ _ _ _ _ ht.b ha, fixPairs_skip _ _ _ _ (Or.inr (by simp [hy]))]
    simp

theorem fix_lines (ss : List SetLines) (hs : ∀ s ∈ ss, s.Ok) :
    fixPairs (fixLast (ss.flatMap SetLines.lines)) = ss.flatMap SetLines.fixed := by
  rcases List.eq_nil_or_concat ss with rfl | ⟨ss, s, rfl⟩
  · simp [fixLast, fixPairs]
  · rw [List.concat_eq_append] at hs ⊢
    have h := hs s (by simp)
    rw [List.flatMap_append, List.flatMap_append, List.flatMap_singleton, List.flatMap_singleton]
    have e : ss.flatMap SetLines.lines ++ s.lines
        = (ss.flatMap SetLines.lines ++ (s.a :: s.y :: s.ls)) ++ [s.z, s.b] := by
      simp [SetLines.lines]
    rw [e, fixLast_append, if_pos h.b, ← fixPairs_sets ss s (fun u hu => hs u (by simp [hu])) h]
    simp [SetLines.fixed]

/-! Files with nothing to repair -/

theorem fixLast_id (ls : List Bytes) (h : ls.length ≤ 1 ∨ ∀ t, ls.getLast? = some t → loneTag t = false) :
    fixLast ls = ls := by
  rcases List.eq_nil_or_concat ls with rfl | ⟨l, b, rfl⟩
  · rfl
  · rw [List.concat_eq_append] at h ⊢
    rcases List.eq_nil_or_concat l with rfl | ⟨l, z, rfl⟩
    · rfl
    · rw [List.concat_eq_append] at h ⊢
      rw [List.append_assoc, List.cons_append, List.nil_append] at h ⊢
      rw [fixLast_append, if_neg]
      rcases h with h | h
      · simp at h
      · rw [h b (by simp)]; simp

theorem fixPairs_id (ls : List Bytes) (h : ∀ i a b, ls[i + 1]? = some a → ls[i + 2]? = some b → i + 3 < ls.length →
    ¬ (loneTag a = true ∧ loneTag b = true)) : fixPairs ls = ls := by
  induction ls with
  | nil => exact fixPairs_short _ (by simp)
  | cons l ls ih =>
    match ls with
    | [] => exact fixPairs_short _ (by simp)
    | [_] => exact fixPairs_short _ (by simp)
    | a :: b :: r =>
      rw [fixPairs_skip, ih]
      · intro i a b h1 h2 h3
        exact h (i + 1) a b h1 h2 (by simp at h3 ⊢; omega)
      · cases r with
        | nil => exact Or.inl rfl
        | cons c r => exact Or.inr (h 0 a b rfl rfl (by simp))

/-! Visible bytes -/

/-- The line ends with a white byte. -/
def Ended (l : Bytes) : Prop := ∃ x c, l = x ++ [c] ∧ White c

theorem visible_append (a b : Bytes) : visible (a ++ b) = visible a ++ visible b := List.filter_append ..

theorem visible_white (a : Bytes) (h : ∀ c ∈ a, White c) : visible a = [] := by
  unfold visible
  rw [List.filter_eq_nil_iff]
  intro c hc
  simp [h c hc]

theorem visible_lone (l : Bytes) (h : loneTag l = true) : visible l = [45, 49] := by
  obtain ⟨a, b, rfl, ha, hb⟩ := (loneTag_iff l).1 h
  rw [visible_append, visible_append, visible_white a ha, visible_white b hb]
  decide

theorem rstripEol_split (l : Bytes) : ∃ e, l = rstripEol l ++ e ∧ ∀ c ∈ e, c = 10 ∨ c = 13 := by
  unfold rstripEol
  obtain ⟨a, h, ha⟩ := dropWhile_split (fun c : UInt8 => c == 13 || c == 10) l.reverse
  refine ⟨a.reverse, ?_, ?_⟩
  · rw [← List.reverse_append, ← h, List.reverse_reverse]
  · intro c hc
    have := ha c (by simpa using hc)
    simp at this
    tauto

theorem visible_rstripEol (l : Bytes) : visible (rstripEol l) = visible l := by
  obtain ⟨e, h, he⟩ := rstripEol_split l
  conv => rhs; rw [h]
  rw [visible_append, visible_white e, List.append_nil]
  intro c hc
  rcases he c hc with rfl | rfl <;> decide

theorem lastByte_concat (x : Bytes) (c : UInt8) : (x ++ [c]).drop ((x ++ [c]).length - 1) = [c] := by simp

theorem visible_moveUp (l a : Bytes) (h : Ended a) (ha : loneTag a = true) : visible (moveUp l a) = visible (l ++ a) := by
  obtain ⟨x, c, rfl, hc⟩ := h
  unfold moveUp
  rw [visible_append, visible_append, visible_append l, visible_rstripEol, lastByte_concat, visible_lone _ ha,
    visible_white [c] (by simpa using hc), List.append_nil]
  rfl

theorem ended_moveUp (l a : Bytes) (h : Ended a) : Ended (moveUp l a) := by
  obtain ⟨x, c, rfl, hc⟩ := h
  exact ⟨rstripEol l ++ tagPat, c, by rw [moveUp, lastByte_concat], hc⟩

theorem visible_fixPairs (ls : List Bytes) (h : ∀ l ∈ ls.dropLast, Ended l) :
    visible (fixPairs ls).flatten = visible ls.flatten := by
  match ls with
  | [] => rw [fixPairs_short _ (by simp)]
  | [_] => rw [fixPairs_short _ (by simp)]
  | [_, _] => rw [fixPairs_short _ (by simp)]
  | [_, _, _] => rw [fixPairs_short _ (by simp)]
  | l :: a :: b :: c :: r =>
    by_cases hab : loneTag a = true ∧ loneTag b = true
    · have ha : Ended a := h a (by simp)
      rw [fixPairs_hit _ _ _ _ _ hab.1 hab.2, visible_fixPairs (moveUp l a :: b :: c :: r)]
      · rw [List.flatten_cons, visible_append, visible_moveUp l a ha hab.1, ← visible_append]
        simp
      · intro x hx
        rw [List.dropLast_cons_of_ne_nil (by simp)] at hx
        rcases List.mem_cons.1 hx with rfl | hx
        · exact ended_moveUp l a ha
        · apply h
          rw [List.dropLast_cons_of_ne_nil (by simp), List.dropLast_cons_of_ne_nil (by simp)]
          simp only [List.mem_cons]
          exact Or.inr (Or.inr hx)
    · rw [fixPairs_skip _ _ _ _ (Or.inr hab), List.flatten_cons, visible_append,
        visible_fixPairs (a :: b :: c :: r), ← visible_append]
      · rfl
      · intro x hx
        apply h
        rw [List.dropLast_cons_of_ne_nil (by simp)]
        simp only [List.mem_cons]
        exact Or.inr hx
termination_by ls.length

theorem visible_fixLast (ls : List Bytes) (h : ∀ t, ls.getLast? = some t → loneTag t = true → Ended t) :
    visible (fixLast ls).flatten = visible ls.flatten := by
  rcases List.eq_nil_or_concat ls with rfl | ⟨l, b, rfl⟩
  · rfl
  · rw [List.concat_eq_append] at h ⊢
    rcases List.eq_nil_or_concat l with rfl | ⟨l, z, rfl⟩
    · rfl
    · rw [List.concat_eq_append] at h ⊢
      rw [List.append_assoc, List.cons_append, List.nil_append] at h ⊢
      rw [fixLast_append]
      split
      · rename_i hb
        rw [List.flatten_append, List.flatten_append, visible_append, visible_append, List.flatten_singleton,
          visible_moveUp z b (h b (by simp) hb) hb]
        simp
      · rfl

theorem fixLast_dropLast (ls : List Bytes) (P : Bytes → Prop) (h : ∀ l ∈ ls.dropLast, P l) :
    ∀ l ∈ (fixLast ls).dropLast, P l := by
  rcases List.eq_nil_or_concat ls with rfl | ⟨l, b, rfl⟩
  · exact h
  · rw [List.concat_eq_append] at h ⊢
    rcases List.eq_nil_or_concat l with rfl | ⟨l, z, rfl⟩
    · exact h
    · rw [List.concat_eq_append] at h ⊢
      rw [List.append_assoc, List.cons_append, List.nil_append] at h ⊢
      rw [fixLast_append]
      split
      · intro x hx
        rw [List.dropLast_concat] at hx
        apply h
        rw [List.dropLast_append_of_ne_nil (by simp)]
        simp [hx]
      · exact h

theorem IsLines.ended {f : Bytes} {ls : List Bytes} (h : IsLines f ls) : ∀ l ∈ ls.dropLast, Ended l := by
  induction h with
  | nil => intro l hl; simp at hl
  | last c hne hc => intro l hl; simp at hl
  | line c e f ls hc he _ ih =>
    intro l hl
    cases ls with
    | nil => simp at hl
    | cons x ls =>
      rw [List.dropLast_cons_of_ne_nil (by simp)] at hl
      rcases List.mem_cons.1 hl with rfl | hl
      · rcases he with rfl | ⟨rfl, -⟩ | rfl
        · exact ⟨c, 10, rfl, by decide⟩
        · exact ⟨c, 13, rfl, by decide⟩
        · exact ⟨c ++ [13], 10, by simp, by decide⟩
      · exact ih l hl

/-! The line before a closing delimiter -/

theorem rstripEol_noEol (c e : Bytes) (hc : NoEol c) (he : ∀ x ∈ e, x = 10 ∨ x = 13) : rstripEol (c ++ e) = c := by
  unfold rstripEol
  rw [List.reverse_append, dropWhile_pre _ _ _ (by
    intro x hx
    rcases he x (by simpa using hx) with rfl | rfl <;> rfl)]
  cases h : c.reverse with
  | nil => simpa using h.symm
  | cons x r =>
    have hx : x ∈ c := by rw [← List.mem_reverse, h]; simp
    rw [List.dropWhile_cons_of_neg, ← h, List.reverse_reverse]
    simp only [Bool.or_eq_true, beq_iff_eq, not_or]
    exact ⟨fun e => hc.2 (e ▸ hx), fun e => hc.1 (e ▸ hx)⟩

theorem IsLines.addEol {f : Bytes} {ls : List Bytes} (h : IsLines f ls) (e : Bytes)
    (he : e = [10] ∧ f.getLast? ≠ some 13 ∨ e = [13, 10]) :
    ∃ pre c, IsLines (f ++ e) (pre ++ [c ++ e]) ∧ NoEol c ∧ pre.flatten ++ c = f := by
  have he' : e = [10] ∨ e = [13, 10] := by
    rcases he with h | h
    · exact Or.inl h.1
    · exact Or.inr h
  have base : ∀ c : Bytes, NoEol c → IsLines (c ++ e) ([] ++ [c ++ e]) := by
    intro c hc
    have := IsLines.line c e [] [] hc (by tauto) .nil
    rw [List.append_nil] at this
    exact this
  induction h with
  | nil =>
    have hn : NoEol [] := ⟨by simp, by simp⟩
    exact ⟨[], [], base [] hn, hn, rfl⟩
  | last c hne hc => exact ⟨[], c, base c hc, hc, rfl⟩
  | line c e' f ls hc hE hl ih =>
    obtain ⟨pre, c', h1, h2, h3⟩ := ih (by
      rcases he with ⟨rfl, h⟩ | h
      · refine Or.inl ⟨rfl, fun hf => h ?_⟩
        rw [← List.append_assoc, List.getLast?_append, hf]; rfl
      · exact Or.inr h)
    refine ⟨(c ++ e') :: pre, c', ?_, h2, by simp [← h3]⟩
    rw [List.append_assoc, List.append_assoc]
    refine .line c e' _ _ hc ?_ h1
    rcases hE with hE | ⟨hE, hf⟩ | hE
    · exact Or.inl hE
    · refine Or.inr (Or.inl ⟨hE, ?_⟩)
      cases f with
      | nil =>
        rcases he with ⟨rfl, h⟩ | rfl
        · subst hE; simp at h
        · decide
      | cons x f => exact hf
    · exact Or.inr (Or.inr hE)

theorem IsLines.setLast {pre : List Bytes} {f z c : Bytes} (h : IsLines f (pre ++ [z])) (hc : NoEol c) (hne : c ≠ []) :
    IsLines (pre.flatten ++ (c ++ [10])) (pre ++ [c ++ [10]]) := by
  induction pre generalizing f with
  | nil => exact (by simpa using IsLines.line c [10] [] [] hc (Or.inl rfl) .nil)
  | cons x pre ih =>
    generalize hls : x :: pre ++ [z] = ls at h
    cases h with
    | nil => cases hls
    | last a _ _ => simp at hls
    | line a e g ls ha he hg =>
      rw [List.cons_append, List.cons.injEq] at hls
      obtain ⟨rfl, rfl⟩ := hls
      have hflat := hg.flatten
      have := IsLines.line a e _ _ ha (by
        rcases he with he | ⟨he, hh⟩ | he
        · exact Or.inl he
        · refine Or.inr (Or.inl ⟨he, ?_⟩)
          cases hp : pre.flatten with
          | nil =>
            cases c with
            | nil => exact absurd rfl hne
            | cons y c =>
              simp only [List.nil_append, List.cons_append, List.head?_cons]
              intro e
              cases e
              exact hc.1 (by simp)
          | cons y r =>
            rw [← hflat, List.flatten_append, hp] at hh
            exact hh
        · exact Or.inr (Or.inr he)) (ih hg)
      rw [List.flatten_cons, List.append_assoc, List.append_assoc, List.cons_append]
      exact this

/-- Repaired lines stay as they are when the moved delimiters are not alone. -/
theorem fix_fixed (ss : List SetLines) (hs : ∀ s ∈ ss, s.Ok) (hm : ∀ s ∈ ss, loneTag (moveUp s.z s.b) = false) :
    fixPairs (fixLast (ss.flatMap SetLines.fixed)) = ss.flatMap SetLines.fixed := by
  rw [fixLast_id]
  · induction ss with
    | nil => exact fixPairs_short _ (by simp)
    | cons t ss ih =>
      have ht := hs t (by simp)
      have htm := hm t (by simp)
      have ih := ih (fun s h => hs s (by simp [h])) (fun s h => hm s (by simp [h]))
      have e1 : ∀ r, t.fixed ++ r = t.a :: (t.y :: t.ls) ++ moveUp t.z t.b :: r := by
        intro r; simp [SetLines.fixed]
      rw [List.flatMap_cons, e1, fixPairs_skips _ _ _ _ (by
        intro l hl
        rcases List.mem_cons.1 hl with rfl | hl
        · exact ht.y
        · exact ht.ls l hl) htm]
      congr 1
      cases ss with
      | nil => exact fixPairs_short _ (by simp)
      | cons u ss =>
        have : ∃ r, (u :: ss).flatMap SetLines.fixed = u.a :: u.y :: r := ⟨_, rfl⟩
        obtain ⟨r, e⟩ := this
        rw [e] at ih ⊢
        rw [fixPairs_skip _ _ _ _ (Or.inr (by simp [(hs u (by simp)).y])), ih]
  · right
    rcases List.eq_nil_or_concat ss with rfl | ⟨ss, s, rfl⟩
    · intro t h; cases h
    · rw [List.concat_eq_append] at hm ⊢
      intro t h
      rw [List.flatMap_append, List.flatMap_singleton, SetLines.fixed, ← List.append_assoc, List.getLast?_concat] at h
      cases h
      exact hm s (by simp)

theorem not_lone_of_visible (z b : Bytes) (h : visible z ≠ []) (hb : Ended b) : loneTag (moveUp z b) = false := by
  rw [← Bool.not_eq_true]
  intro hl
  obtain ⟨x, c, rfl, hc⟩ := hb
  have := visible_lone _ hl
  unfold moveUp at this
  rw [visible_append, visible_append, visible_rstripEol, lastByte_concat, visible_white [c] (by simpa using hc)] at this
  rw [List.append_nil, show visible tagPat = [45, 49] by decide] at this
  exact h (by simpa using this)

/-! The default name -/

theorem splitExt_append (p : Text) : (splitExt p).1 ++ (splitExt p).2 = p := by
  unfold splitExt
  cases rfind '.' p with
  | none => simp
  | some dot =>
    dsimp only
    split <;> simp

theorem fixedName_ne (p : Text) : fixedName p ≠ p := by
  intro h
  have h1 := congrArg List.length h
  have h2 := congrArg List.length (splitExt_append p)
  unfold fixedName at h1
  simp only [List.length_append] at h1 h2
  have : ("_fixed".toList).length = 6 := by decide
  omega

end Verif
