import Verif.Lemmas.RT2429
import Verif.Model.DS2467
import Verif.Spec.S2467
/-
Round trip of data-set 2467.
-/
namespace Verif

theorem HasInts.getAt {α : Type} {d : Dict} {k : String} {rows : List α} {f : α → Int} (h : HasInts d k (rows.map f))
    {i : Nat} (hi : i < rows.length) (d' : Dict) (w : Nat) :
    FldOk d' ⟨fun _ => Val.getAt (.dict d) k i, fmtI w⟩ (padLeft w (intRepr (f rows[i]))) := by
  obtain ⟨v, h1, h2⟩ := h.at_row hi w
  exact ⟨v, h1, h2⟩

theorem HasStr.getKL {d : Dict} {k : String} {s : Text} (h : HasStr d k s) (d' : Dict) (w : Nat) :
    FldOk d' ⟨fun _ => Val.getK (.dict d) k, fmtSL w⟩ (padRight w s) := by
  obtain ⟨v, g, i⟩ := h
  exact ⟨v, by simp [Val.getK, Dict.get, g], fmtSL_eq i w⟩

theorem slice2 {α : Type} (l : List α) (i : Nat) (h : 2 * i + 1 < l.length) :
    slice l (2 * i) (2 * i + 2) = [l[2 * i], l[2 * i + 1]] := by
  unfold slice
  rw [Nat.add_sub_cancel_left, List.drop_eq_getElem_cons (by omega), List.drop_eq_getElem_cons (by omega)]
  rfl

theorem slice2_last {α : Type} (l : List α) (i : Nat) (h : 2 * i + 1 = l.length) :
    slice l (2 * i) (2 * i + 2) = [l[2 * i]] := by
  unfold slice
  rw [Nat.add_sub_cancel_left, List.drop_eq_getElem_cons (by omega), List.drop_of_length_le (by omega)]
  rfl

namespace DS2467

/-- The integers of entities. -/
def cols (l : List Ent4) : List Int := l.flatMap fun e => [e.code, e.tag, e.leaf, e.comp]
/-- A line of entities. -/
def ln (l : List Ent4) : Text := fieldLine ((cols l).map fun n => (10, intRepr n))
/-- The lines of a group. -/
def row (g : Group4) : List Text :=
  (g.grp.f1 g.ents.length).flatten :: padRight 40 g.grp.name :: (rowsOf 2 g.ents).map ln
/-- The lines between the delimiters. -/
def lines (r : DS2467) : List Text := padLeft 6 (natRepr 2467) :: r.groups.flatMap row

theorem writeGroup_eq {v : Val} {g : Group4} (h : IsGroup v g) (d : Dict) :
    writeGroup2467 v d = ⟨joinLines (row g), d, .ok ()⟩ := by
  obtain ⟨gd, rfl, h1, h2, h3, h4, h5, h6, h7, h8, hc, ht, hl, hm⟩ := h.ex
  obtain ⟨v, gv, sv⟩ := id hc
  have k : Val.getK (.dict gd) "entity_type_code" = .ok v := by simp [Val.getK, Dict.get, gv]
  have hlen : v.len = .ok g.ents.length := by rw [sv.len, List.length_map]
  unfold writeGroup2467
  simp only [W.bind_eq]
  rw [k, W.bind_lift_ok, hlen, W.bind_lift_ok,
    W.bind_row (.cons (h1.getK _ 10) (.cons (h2.getK _ 10) (.cons (h3.getK _ 10) (.cons (h4.getK _ 10) (.cons (h5.getK _ 10)
      (.cons (h6.getK _ 10) (.cons (h7.getK _ 10) (.cons (fld_c (fmtI_eq (isInt_int _) 10)) .nil)))))))),
    W.bind_row (.cons (h8.getKL _ 40) .nil),
    W.forL_ok _ _ (fun i => ln (slice g.ents (2 * i) (2 * i + 2)) ++ ['\n']) _ ?_]
  · simp [row, rowsOf, Grp.f1, joinLines, List.flatMap_map]
  · intro i hi
    have hi := List.mem_range.1 hi
    by_cases h2 : g.ents.length - 2 * i > 1
    · rw [if_pos h2, slice2 g.ents i (by omega)]
      simp only [entFlds, List.cons_append, List.nil_append]
      rw [W.row_eq (.cons (hc.getAt (by omega) _ 10) (.cons (ht.getAt (by omega) _ 10) (.cons (hl.getAt (by omega) _ 10)
        (.cons (hm.getAt (by omega) _ 10) (.cons (hc.getAt (by omega) _ 10) (.cons (ht.getAt (by omega) _ 10)
        (.cons (hl.getAt (by omega) _ 10) (.cons (hm.getAt (by omega) _ 10) .nil))))))))]
      rfl
    · rw [if_neg h2, slice2_last g.ents i (by omega)]
      unfold entFlds
      rw [W.row_eq (.cons (hc.getAt (by omega) _ 10) (.cons (ht.getAt (by omega) _ 10) (.cons (hl.getAt (by omega) _ 10)
        (.cons (hm.getAt (by omega) _ 10) .nil))))]
      rfl

theorem write_eq (d : Dict) (r : DS2467) (h : Rep d r) :
    write2467 d = ⟨frameText r.lines, optFields d optGroup, .ok ()⟩ := by
  obtain ⟨v, gv, xs, hi, hl, hx⟩ := h.groups
  unfold write2467
  apply W.guardedAny_ok
  simp only [W.bind_eq, W.bind_opt, W.bind_emit]
  rw [W.bind_key (get?_opt_present gv), hi, W.bind_lift_ok,
    W.bind_forL_eq (W.forL_get xs r.groups _ (fun g => joinLines (row g)) _ hl fun i h1 h2 => writeGroup_eq (hx i h1 h2) _)]
  simp only [W.emit_eq]
  simp [frameText, lines, headShort_eq, tailText, tagText, joinLines_append, joinLines_flatMap]
  rfl

theorem fits (g : Group4) (ok : g.Ok) : ∀ l ∈ rowsOf 2 g.ents, ∀ n ∈ cols l, Fits 9 n := by
  intro l hl n hn
  obtain ⟨e, he, hn⟩ := List.mem_flatMap.1 hn
  have := rowsOf_mem hl e he
  simp only [List.mem_cons, List.not_mem_nil, or_false] at hn
  rcases hn with rfl | rfl | rfl | rfl
  · exact ok.code e this
  · exact ok.tag e this
  · exact ok.leaf e this
  · exact ok.comp e this

theorem cols_last (l : List Ent4) (h : ∀ e ∈ l, e.comp ≠ -1) : (cols l).getLast? ≠ some (-1) := by
  rcases List.eq_nil_or_concat l with rfl | ⟨l', e, rfl⟩
  · simp [cols]
  · rw [List.concat_eq_append] at h ⊢
    have := h e (by simp)
    simp [cols, this]

theorem safe (r : DS2467) (ok : Ok r) : Safe r.lines := by
  refine Safe.cons (by decide) (by exact tagFree_of_lt _ (by decide) (by decide)) (Safe.flatMap fun g hg => ?_)
  have o := ok g hg
  refine (Grp.safe g.grp _ o.grp o.fits).append (b := (rowsOf 2 g.ents).map ln) ?_
  intro l hl
  obtain ⟨es, hes, rfl⟩ := List.mem_map.1 hl
  exact safe_ints 10 (by decide) (by decide) _ (fits g o es hes)
    (cols_last es fun e he => o.comp1 e (rowsOf_mem hes e he)) _ (by simp [ln])

theorem values (g : Group4) (ok : g.Ok) :
    groupValues ((rowsOf 2 g.ents).map fun l => ln l ++ ['\n']) = .ok (cols g.ents) := by
  have := groupValues_eq ((rowsOf 2 g.ents).map cols) ['\n'] (Or.inr rfl) (by
    intro l hl
    obtain ⟨es, hes, rfl⟩ := List.mem_map.1 hl
    exact fits g ok es hes)
  rw [List.map_map] at this
  have e : ((rowsOf 2 g.ents).map cols).flatten = cols g.ents := by
    conv => rhs; rw [← rowsOf_flatten 2 (by decide) g.ents]
    exact flatten_map_flatMap _ _
  rw [e] at this
  exact this

theorem groups_eq (gs : List Group4) (ok : ∀ g ∈ gs, g.Ok) (fuel : Nat)
    (hf : ((gs.flatMap row).map (· ++ ['\n'])).length ≤ fuel) :
    groups2467 fuel ((gs.flatMap row).map (· ++ ['\n'])) = .ok (gs.map (.dict ·.dict)) := by
  induction gs generalizing fuel with
  | nil => cases fuel <;> rfl
  | cons g gs ih =>
    have o := ok g (by simp)
    have hr : ((g :: gs).flatMap row).map (· ++ ['\n']) = ((g.grp.f1 g.ents.length).flatten ++ ['\n']) ::
        (padRight 40 g.grp.name ++ ['\n']) :: ((rowsOf 2 g.ents).map fun l => ln l ++ ['\n']) ++
        (gs.flatMap row).map (· ++ ['\n']) := by
      rw [List.flatMap_cons, List.map_append]
      simp [row, List.map_map, Function.comp_def]
    rw [hr] at hf ⊢
    obtain ⟨fuel, rfl⟩ : ∃ k, fuel = k + 1 := by
      cases fuel with
      | zero => simp at hf
      | succ k => exact ⟨k, rfl⟩
    have hk : (ceilDiv (g.ents.length : Int) 2).toNat = ((rowsOf 2 g.ents).map fun l => ln l ++ ['\n']).length := by
      rw [ceilDiv_nat _ _ (by decide), List.length_map, rowsOf_length]; rfl
    have hk2 : (2 + ceilDiv (g.ents.length : Int) 2).toNat = ((rowsOf 2 g.ents).map fun l => ln l ++ ['\n']).length + 2 := by
      rw [← hk, ceilDiv_nat _ _ (by decide)]
      omega
    have hk3 : ¬ ceilDiv (g.ents.length : Int) 2 < -1 := by
      rw [ceilDiv_nat _ _ (by decide)]; omega
    have hv := values g o
    have hih := ih (fun x hx => ok x (by simp [hx])) fuel (by
      simp only [List.cons_append, List.length_cons, List.length_append] at hf
      omega)
    generalize ((rowsOf 2 g.ents).map fun l => ln l ++ ['\n']) = vs at *
    generalize (gs.flatMap row).map (· ++ ['\n']) = rest at *
    simp only [List.cons_append]
    simp only [groups2467, List.getElem?_cons_zero, orIndex, ok_bind]
    rw [Grp.head_eq g.grp _ o.grp o.fits]
    simp only [ok_bind, Grp.count_eq, List.drop_succ_cons, List.drop_zero, hk, hk2, List.take_left',
      List.drop_left, hv, hih, hk3, if_false]
    have c0 : everyN 0 4 (cols g.ents) = g.ents.map (·.code) :=
      everyN_flatMap 4 0 g.ents (fun e => [e.code, e.tag, e.leaf, e.comp]) _ (fun _ _ => rfl) (fun _ _ => rfl)
    have c1 : everyN 1 4 (cols g.ents) = g.ents.map (·.tag) :=
      everyN_flatMap 4 1 g.ents (fun e => [e.code, e.tag, e.leaf, e.comp]) _ (fun _ _ => rfl) (fun _ _ => rfl)
    have c2 : everyN 2 4 (cols g.ents) = g.ents.map (·.leaf) :=
      everyN_flatMap 4 2 g.ents (fun e => [e.code, e.tag, e.leaf, e.comp]) _ (fun _ _ => rfl) (fun _ _ => rfl)
    have c3 : everyN 3 4 (cols g.ents) = g.ents.map (·.comp) :=
      everyN_flatMap 4 3 g.ents (fun e => [e.code, e.tag, e.leaf, e.comp]) _ (fun _ _ => rfl) (fun _ _ => rfl)
    rw [c0, c1, c2, c3]
    rfl

theorem read_eq (r : DS2467) (ok : Ok r) : extract2467 (blockText r.lines) = .ok r.readBack := by
  unfold extract2467
  rw [splitKeep_block _ (safe r ok)]
  simp only [lines, List.map_cons, List.drop_succ_cons, List.drop_zero]
  rw [groups_eq r.groups ok _ (Nat.le_refl _)]
  simp only [ok_bind, readBack]

theorem roundTrip (d : Dict) (r : DS2467) (h : Rep d r) (ok : Ok r) :
    RoundTrip 2467 write2467 extract2467 d r.readBack r.lines :=
  ⟨safe r ok, ⟨_, write_eq d r h⟩, (blockType_block _ _ (by decide)).trans (by decide +kernel), read_eq r ok⟩

end DS2467
end Verif
