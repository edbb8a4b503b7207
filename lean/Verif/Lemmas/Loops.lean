import Verif.Model.Loops
import Mathlib.Data.Finset.Card
import Mathlib.Data.Int.Interval
/-
Loops over line indices: either they end soon, or never.
-/
namespace Verif
namespace Loops

variable {α : Type} {cond : Int → Bool} {body : Int → Res (α × Int)}

/-- The index after a pass. -/
def next (cond : Int → Bool) (body : Int → Res (α × Int)) (i : Int) : Option Int :=
  if cond i then
    match body i with
    | .ok p => some p.2
    | .error _ => none
  else none

/-- The index after `n` passes. -/
def iter (f : Int → Option Int) : Nat → Int → Option Int
  | 0, i => some i
  | n + 1, i => (f i).bind (iter f n)

theorem iter_add (f : Int → Option Int) (n m : Nat) (i : Int) : iter f (n + m) i = (iter f n i).bind (iter f m) := by
  induction n generalizing i with
  | zero => rw [Nat.zero_add]; rfl
  | succ n ih =>
    rw [Nat.succ_add]
    show (f i).bind (iter f (n + m)) = ((f i).bind (iter f n)).bind (iter f m)
    cases f i with
    | none => rfl
    | some j => exact ih j

theorem iter_le {f : Int → Option Int} {n m : Nat} {i : Int} (h : n ≤ m) (hm : (iter f m i).isSome) : (iter f n i).isSome := by
  obtain ⟨k, rfl⟩ := Nat.exists_eq_add_of_le h
  rw [iter_add] at hm
  cases hn : iter f n i with
  | none => rw [hn] at hm; cases hm
  | some j => rfl

/-- An index that comes back comes back for ever. -/
theorem iter_cycle {f : Int → Option Int} {p : Nat} {i : Int} (hp : 0 < p) (h : iter f p i = some i) (n : Nat) : (iter f n i).isSome := by
  have hq : ∀ q, iter f (q * p) i = some i := by
    intro q
    induction q with
    | zero => rw [Nat.zero_mul]; rfl
    | succ q ih =>
      rw [Nat.succ_mul, iter_add, ih]
      exact h
  exact iter_le (Nat.le_mul_of_pos_right n hp) (by rw [hq n]; rfl)

/-- If the index stays in a range of `2 L` numbers for more than `2 L` passes, the loop runs for ever. -/
theorem iter_dichotomy {f : Int → Option Int} {L : Nat} (hb : ∀ i j, f i = some j → -(L : Int) ≤ i ∧ i < L) {i : Int}
    (h : (iter f (2 * L + 1) i).isSome) (n : Nat) : (iter f n i).isSome := by
  have hv : ∀ a, a < 2 * L + 1 → ∃ x, iter f a i = some x ∧ -(L : Int) ≤ x ∧ x < L := by
    intro a ha
    have h1 := iter_le (n := a + 1) (by omega) h
    rw [iter_add] at h1
    cases hx : iter f a i with
    | none => rw [hx] at h1; cases h1
    | some x =>
      refine ⟨x, rfl, ?_⟩
      rw [hx] at h1
      have h1 : ((f x).bind (iter f 0)).isSome := h1
      cases hy : f x with
      | none => rw [hy] at h1; cases h1
      | some y => exact hb x y hy
  let g : Nat → Int := fun a => ((iter f a i).getD 0)
  have hg : ∀ a ∈ Finset.range (2 * L + 1), g a ∈ Finset.Ico (-(L : Int)) L := by
    intro a ha
    obtain ⟨x, hx, h1, h2⟩ := hv a (Finset.mem_range.1 ha)
    simp only [g, hx, Option.getD_some]
    exact Finset.mem_Ico.2 ⟨h1, h2⟩
  have hc : (Finset.Ico (-(L : Int)) L).card < (Finset.range (2 * L + 1)).card := by
    rw [Finset.card_range, Int.card_Ico]; omega
  obtain ⟨a, ha, b, hb', hne, hab⟩ := Finset.exists_ne_map_eq_of_card_lt_of_maps_to hc hg
  have key : ∀ a b, a < b → b < 2 * L + 1 → g a = g b → (iter f n i).isSome := by
    intro a b hlt hbn hab
    obtain ⟨x, hx, _⟩ := hv a (by omega)
    obtain ⟨y, hy, _⟩ := hv b hbn
    have : x = y := by simpa only [g, hx, hy, Option.getD_some] using hab
    subst this
    have hcyc : iter f (b - a) x = some x := by
      have := iter_add f a (b - a) i
      rw [show a + (b - a) = b by omega, hy, hx] at this
      exact this.symm
    have hall := iter_cycle (by omega) hcyc n
    refine iter_le (m := a + n) (by omega) ?_
    rw [iter_add, hx]
    exact hall
  rcases Nat.lt_or_gt_of_ne hne with h1 | h1
  · exact key a b h1 (Finset.mem_range.1 hb') hab
  · exact key b a h1 (Finset.mem_range.1 ha) hab.symm

theorem passes_running (n : Nat) (i : Int) (acc : List α) :
    (∃ j l, loopPasses cond body n i acc = .running j l ∧ l.length = acc.length + n ∧ iter (next cond body) n i = some j) ∨
    ((∃ r, loopPasses cond body n i acc = .ended r) ∧ iter (next cond body) n i = none) := by
  induction n generalizing i acc with
  | zero => exact .inl ⟨i, acc, rfl, rfl, rfl⟩
  | succ n ih =>
    unfold loopPasses iter next
    by_cases hc : cond i = true
    · rw [if_pos hc, if_pos hc]
      cases hb : body i with
      | error e => exact .inr ⟨⟨_, rfl⟩, rfl⟩
      | ok p =>
        rcases ih p.2 (acc ++ [p.1]) with ⟨j, l, h1, h2, h3⟩ | ⟨h1, h2⟩
        · exact .inl ⟨j, l, h1, by rw [h2, List.length_append, List.length_singleton]; omega, h3⟩
        · exact .inr ⟨h1, h2⟩
    · rw [if_neg hc, if_neg hc]
      exact .inr ⟨⟨_, rfl⟩, rfl⟩

/-- The loop has ended after `n` passes at most. -/
def Ended : Loop α → Prop
  | .running _ _ => False
  | .ended _ => True

theorem ended_or {n : Nat} {i : Int} {acc : List α} :
    Ended (loopPasses cond body n i acc) ∨ (iter (next cond body) n i).isSome := by
  rcases passes_running (cond := cond) (body := body) n i acc with ⟨j, l, _, _, h⟩ | ⟨⟨r, h⟩, _⟩
  · exact .inr (by rw [h]; rfl)
  · exact .inl (by rw [h]; trivial)

/-- More passes do not change the result. -/
theorem ended_more {n : Nat} {i : Int} {acc : List α} {r : Res (List α)} (h : loopPasses cond body n i acc = .ended r) (m : Nat) :
    loopPasses cond body (n + m) i acc = .ended r := by
  induction n generalizing i acc with
  | zero => cases h
  | succ n ih =>
    rw [Nat.succ_add]
    unfold loopPasses at h ⊢
    split at h
    · rename_i hc
      rw [if_pos hc]
      cases hb : body i with
      | error e => rw [hb] at h; exact h
      | ok p => rw [hb] at h; exact ih h
    · rename_i hc
      rw [if_neg hc]; exact h

/-- Either the loop ends within `2 L + 1` passes, or it never ends and collects an item in each pass. -/
theorem dichotomy {L : Nat} (hb : ∀ i p, cond i = true → body i = .ok p → -(L : Int) ≤ i ∧ i < L) (i : Int) :
    (∃ r, loopPasses cond body (2 * L + 1) i [] = .ended r) ∨
    ∀ n, ∃ j l, loopPasses cond body n i [] = .running j l ∧ l.length = n := by
  rcases passes_running (cond := cond) (body := body) (2 * L + 1) i [] with ⟨j, l, _, _, h⟩ | ⟨h, _⟩
  · refine .inr fun n => ?_
    have hn : (iter (next cond body) n i).isSome := by
      refine iter_dichotomy (L := L) ?_ (by rw [h]; rfl) n
      intro i j hj
      unfold next at hj
      split at hj
      · rename_i hc
        cases hbi : body i with
        | error e => rw [hbi] at hj; cases hj
        | ok p => exact hb i p hc hbi
      · cases hj
    rcases passes_running (cond := cond) (body := body) n i [] with ⟨j, l, h1, h2, _⟩ | ⟨_, h2⟩
    · exact ⟨j, l, h1, by simpa using h2⟩
    · rw [h2] at hn; cases hn
  · exact .inl h

theorem pyAt_ok {β : Type} {l : List β} {i : Int} {b : β} (h : pyAt l i = .ok b) : -(l.length : Int) ≤ i ∧ i < l.length := by
  unfold pyAt at h
  split at h
  · rename_i hi
    cases hg : l[i.toNat]? with
    | none => rw [hg] at h; cases h
    | some x =>
      have := (List.getElem?_eq_some_iff.1 hg).1
      omega
  · split at h
    · omega
    · cases h

end Loops
end Verif
