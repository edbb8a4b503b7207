import Verif.Spec.Groups
import Verif.Lemmas.Records
import Verif.Model.DS2467
/-
Reading groups line by line.
-/
namespace Verif
namespace Groups
open Records

theorem good_group (l : Text) (h : ∀ i < 8, IntAt l (10 * i) 10) :
    Good l 8 [10, 10, 10, 10, 10, 10, 10, 10] [.int, .int, .int, .int, .int, .int, .int, .int] := by
  intro i hi ty hty
  match i, hi, hty with
  | 0, _, rfl => exact h 0 (by omega)
  | 1, _, rfl => exact h 1 (by omega)
  | 2, _, rfl => exact h 2 (by omega)
  | 3, _, rfl => exact h 3 (by omega)
  | 4, _, rfl => exact h 4 (by omega)
  | 5, _, rfl => exact h 5 (by omega)
  | 6, _, rfl => exact h 6 (by omega)
  | 7, _, rfl => exact h 7 (by omega)

theorem named_group (l : Text) (k0 k1 k2 k3 k4 k5 k6 k7 : Key) :
    namedFields l [10, 10, 10, 10, 10, 10, 10, 10] [.int, .int, .int, .int, .int, .int, .int, .int] [k0, k1, k2, k3, k4, k5, k6, k7] =
    [(k0, .int (intAt l 0 10)), (k1, .int (intAt l 10 10)), (k2, .int (intAt l 20 10)), (k3, .int (intAt l 30 10)),
     (k4, .int (intAt l 40 10)), (k5, .int (intAt l 50 10)), (k6, .int (intAt l 60 10)), (k7, .int (intAt l 70 10))] := rfl

theorem named_name (l : Text) (k : Key) : namedFields l [40] [.str] [k] = [(k, .str (column l 0 40))] := rfl

theorem good_name (l : Text) : Good l 1 [40] [.str] := by
  intro i hi ty hty
  obtain rfl : i = 0 := by omega
  cases hty; trivial

theorem groupHead_of (g : GroupLines) (h : ∀ i < 8, IntAt g.head (10 * i) 10) : groupHead g.head g.name = .ok g.titles := by
  unfold groupHead
  simp (disch := decide) only [head_bind, good_group _ h, good_name, true_and, named_group, named_name, Except.ok.injEq]
  unfold GroupLines.titles
  build_dict

theorem groupCount_of (g : GroupLines) : groupCount g.titles = .ok (intAt g.head 70 10) := rfl

theorem each_ok {rows : List Text} {rs : List (List Int)} (h : Each IntLine rows rs) :
    mapRes (fun l => mapRes pyInt (splitWs l)) rows = .ok rs := by
  induction h with
  | nil => rfl
  | cons h _ ih =>
    obtain ⟨ws, hw, ho⟩ := h
    unfold mapRes
    rw [Words.split hw, (mapRes_iff _ _ _).2 ho]
    simp only [ih]

theorem groupValues_of (g : GroupLines) {per each : Nat} (h : g.Good per each) : groupValues g.rows = .ok g.entities.flatten := by
  obtain ⟨rs, hr, he⟩ := h.words
  unfold groupValues
  rw [each_ok hr, ok_bind, he]
  unfold arr64
  rw [if_pos]
  rw [List.all_eq_true]
  intro n hn
  obtain ⟨e, he, hn⟩ := List.mem_flatten.1 hn
  exact decide_eq_true (h.small e he n hn)

theorem field_of (per i : Nat) (hi : i < per) (es : List (List Int)) (h : ∀ e ∈ es, e.length = per) :
    everyN i per es.flatten = es.filterMap fun e => e[i]? := by
  induction es with
  | nil => simp [everyN, everyAux]
  | cons e es ih =>
    have he := h e (by simp)
    rw [List.flatten_cons, everyN_block per i e _ (e[i]'(by omega)) he (List.getElem?_eq_getElem _),
      ih (fun e h' => h e (by simp [h'])), List.filterMap_cons, List.getElem?_eq_getElem (by omega)]

theorem ceil4 (n : Nat) : ceilDiv (n : Int) 4 = ((n + 3) / 4 : Nat) := by unfold ceilDiv; omega
theorem ceil2 (n : Nat) : ceilDiv (n : Int) 2 = ((n + 1) / 2 : Nat) := by unfold ceilDiv; omega

/-- Whether the last group has something behind its two first lines. -/
def LastFull (gs : List GroupLines) (tail : List Text) : Prop := ∀ g, gs.getLast? = some g → g.rows ≠ [] ∨ tail ≠ []

theorem read2429 (gs : List GroupLines) (tail : List Text) (ht : tail.length ≤ 2) (h : ∀ g ∈ gs, g.Good 2 4)
    (hl : LastFull gs tail) (fuel : Nat) (hf : gs.length ≤ fuel) :
    groups2429 fuel (gs.flatMap GroupLines.lines ++ tail) = .ok (gs.map fun g => .dict g.dict2429) := by
  induction gs generalizing fuel with
  | nil =>
    simp only [List.flatMap_nil, List.nil_append, List.map_nil]
    match fuel, tail, ht with
    | 0, t, ht => unfold groups2429; rw [if_pos (by omega)]
    | _ + 1, [], _ => rfl
    | _ + 1, [_], _ => rfl
    | _ + 1, [_, _], _ => rfl
  | cons g gs ih =>
    obtain ⟨n, rfl⟩ : ∃ n, fuel = n + 1 := ⟨fuel - 1, by simp only [List.length_cons] at hf; omega⟩
    have hg := h g (by simp)
    have ih := ih (fun g h' => h g (by simp [h'])) (by
      intro x hx
      cases gs with
      | nil => cases hx
      | cons y ys => exact hl x (by rw [List.getLast?_cons_cons]; exact hx)) n (by simp only [List.length_cons] at hf; omega)
    rw [List.flatMap_cons, List.append_assoc]
    have hne : ∃ x xs, g.rows ++ (gs.flatMap GroupLines.lines ++ tail) = x :: xs := by
      cases hr : g.rows with
      | cons a b => exact ⟨_, _, rfl⟩
      | nil =>
        cases gs with
        | cons y ys => exact ⟨_, _, rfl⟩
        | nil =>
          rcases hl g rfl with h' | h'
          · exact absurd hr h'
          · cases tail with
            | nil => exact absurd rfl h'
            | cons a b => exact ⟨_, _, rfl⟩
    obtain ⟨x, xs, hx⟩ := hne
    have hk : (ceilDiv (intAt g.head 70 10) 4) = (g.rows.length : Int) := by rw [hg.count, ceil4, hg.rows]
    show groups2429 (n + 1) (g.head :: g.name :: (g.rows ++ (gs.flatMap GroupLines.lines ++ tail))) = _
    rw [hx]
    unfold groups2429
    simp only [← hx, groupHead_of g hg.ints, ok_bind, groupCount_of, hk, List.drop_succ_cons, List.drop_zero, Int.toNat_natCast,
      List.take_left, groupValues_of g hg]
    rw [if_neg (by omega), show (2 + (g.rows.length : Int)).toNat = g.rows.length + 1 + 1 by omega, List.drop_succ_cons,
      List.drop_succ_cons, List.drop_left, ih, ok_bind]
    rw [List.map_cons, field_of 2 0 (by omega) _ hg.shape, field_of 2 1 (by omega) _ hg.shape]
    rfl

theorem read2467 (gs : List GroupLines) (h : ∀ g ∈ gs, g.Good 4 2) (fuel : Nat) (hf : gs.length ≤ fuel) :
    groups2467 fuel (gs.flatMap GroupLines.lines) = .ok (gs.map fun g => .dict g.dict2467) := by
  induction gs generalizing fuel with
  | nil => cases fuel <;> rfl
  | cons g gs ih =>
    obtain ⟨n, rfl⟩ : ∃ n, fuel = n + 1 := ⟨fuel - 1, by simp only [List.length_cons] at hf; omega⟩
    have hg := h g (by simp)
    have ih := ih (fun g h' => h g (by simp [h'])) n (by simp only [List.length_cons] at hf; omega)
    have hk : (ceilDiv (intAt g.head 70 10) 2) = (g.rows.length : Int) := by rw [hg.count, ceil2, hg.rows]
    show groups2467 (n + 1) (g.head :: g.name :: (g.rows ++ gs.flatMap GroupLines.lines)) = _
    unfold groups2467
    simp only [show orIndex (g.name :: (g.rows ++ gs.flatMap GroupLines.lines))[0]? = .ok g.name from rfl,
      groupHead_of g hg.ints, ok_bind, groupCount_of, hk, List.drop_succ_cons, List.drop_zero, Int.toNat_natCast,
      List.take_left, groupValues_of g hg]
    rw [if_neg (by omega), show (2 + (g.rows.length : Int)).toNat = g.rows.length + 1 + 1 by omega, List.drop_succ_cons,
      List.drop_succ_cons, List.drop_left, ih, ok_bind]
    rw [List.map_cons, field_of 4 0 (by omega) _ hg.shape, field_of 4 1 (by omega) _ hg.shape, field_of 4 2 (by omega) _ hg.shape,
      field_of 4 3 (by omega) _ hg.shape]
    rfl

end Groups
end Verif
