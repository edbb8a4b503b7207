import Verif.Lemmas.RT2412
import Verif.Model.DS2429
import Verif.Spec.S2429
/-
Round trip of data-set 2429, and lemmas shared with data-set 2467.
-/
namespace Verif

theorem flatten_slices {α : Type} (w : Nat) (l : List α) (k : Nat) :
    ((List.range k).map fun i => slice l (w * i) (w * i + w)).flatten = l.take (w * k) := by
  induction k with
  | zero => simp
  | succ k ih =>
    rw [List.range_succ, List.map_append, List.flatten_append, ih]
    simp only [List.map_cons, List.map_nil, List.flatten_cons, List.flatten_nil, List.append_nil, slice]
    rw [Nat.mul_succ, List.take_add]
    congr 1
    congr 1
    omega

theorem flatten_map_flatMap {α β : Type} (f : α → List β) (ls : List (List α)) :
    (ls.map fun l => l.flatMap f).flatten = ls.flatten.flatMap f := by
  induction ls with
  | nil => rfl
  | cons l ls ih => simp [ih, List.flatMap_append]

/-- Cut a list in rows of `w`. -/
def rowsOf {α : Type} (w : Nat) (l : List α) : List (List α) :=
  (List.range ((l.length + (w - 1)) / w)).map fun i => slice l (w * i) (w * i + w)

theorem rowsOf_flatten {α : Type} (w : Nat) (hw : 0 < w) (l : List α) : (rowsOf w l).flatten = l := by
  unfold rowsOf
  rw [flatten_slices, List.take_of_length_le]
  have h1 := Nat.div_add_mod (l.length + (w - 1)) w
  have h2 := Nat.mod_lt (l.length + (w - 1)) hw
  omega

theorem rowsOf_mem {α : Type} {w : Nat} {l : List α} {r : List α} (h : r ∈ rowsOf w l) : ∀ a ∈ r, a ∈ l := by
  intro a ha
  obtain ⟨i, -, rfl⟩ := List.mem_map.1 h
  exact DS82.slice_mem ha

theorem rowsOf_length {α : Type} (w : Nat) (l : List α) : (rowsOf w l).length = (l.length + (w - 1)) / w := by
  simp [rowsOf]

theorem ceilDiv_nat (n per : Nat) (h : 0 < per) : ceilDiv (n : Int) per = (((n + (per - 1)) / per : Nat) : Int) := by
  unfold ceilDiv
  have h1 := Nat.div_add_mod (n + (per - 1)) per
  have h2 := Nat.mod_lt (n + (per - 1)) h
  generalize (n + (per - 1)) / per = q at *
  generalize (n + (per - 1)) % per = m at *
  have : (-(n : Int)) / (per : Int) = -(q : Int) := by
    rw [Int.ediv_eq_iff_of_pos (by exact_mod_cast h)]
    have e : ((per * q + m : Nat) : Int) = ((n + (per - 1) : Nat) : Int) := by rw [h1]
    push_cast at e
    have e2 : -(q : Int) * per = -(per * q) := by ring
    have e3 : ((per - 1 : Nat) : Int) = per - 1 := by omega
    rw [e2]
    omega
  rw [this]; simp

theorem arr64_ok (l : List Int) (h : ∀ n ∈ l, Fits 9 n) : arr64 l = .ok l := by
  unfold arr64
  rw [if_pos]
  rw [List.all_eq_true]
  intro n hn
  obtain ⟨a, b⟩ := h n hn
  simp only [decide_eq_true_eq]
  simp at a b
  omega

/-- The values of lines of integers. -/
theorem groupValues_eq (rows : List (List Int)) (end_ : Text) (he : end_ = [] ∨ end_ = ['\n'])
    (h : ∀ r ∈ rows, ∀ n ∈ r, Fits 9 n) :
    groupValues (rows.map fun r => fieldLine (r.map fun n => (10, intRepr n)) ++ end_) = .ok rows.flatten := by
  unfold groupValues
  rw [mapRes_map rows _ id]
  · simp only [ok_bind, List.map_id]
    apply arr64_ok
    intro n hn
    obtain ⟨r, hr, hn⟩ := List.mem_flatten.1 hn
    exact h r hr n hn
  · intro r hr
    have e : splitWs (fieldLine (r.map fun n => (10, intRepr n)) ++ end_) = r.map intRepr := by
      rcases he with rfl | rfl
      · rw [List.append_nil]; exact split_ints 10 (by decide) r (h r hr)
      · rw [splitWs_fieldLine_lf _ [] (tok_ints 10 (by decide) r (h r hr)), splitWs_nil, List.append_nil, List.map_map]
        rfl
    rw [e, mapRes_map r intRepr id fun n _ => pyInt_int n, List.map_id]
    rfl

theorem W.bind_when_pos {β} {c : Prop} [Decidable c] (h : c) (m : W Unit) (f : Unit → W β) :
    W.bind (W.when c m) f = W.bind m f := by unfold W.when; rw [if_pos h]

theorem W.bind_when_neg {β} {c : Prop} [Decidable c] (h : ¬ c) (m : W Unit) (f : Unit → W β) (d : Dict) :
    W.bind (W.when c m) f d = f () d := by unfold W.when; rw [if_neg h]; rfl

namespace Grp

/-- The fields of the first line of a group. -/
def f1 (g : Grp) (n : Nat) : List Text :=
  [padLeft 10 (intRepr g.num), padLeft 10 (intRepr g.constraint), padLeft 10 (intRepr g.restraint), padLeft 10 (intRepr g.load),
   padLeft 10 (intRepr g.dof), padLeft 10 (intRepr g.temperature), padLeft 10 (intRepr g.contact), padLeft 10 (intRepr n)]

theorem safe (g : Grp) (n : Nat) (ok : g.Ok) (hn : Fits 10 n) : Safe [(f1 g n).flatten, padRight 40 g.name] := by
  refine Safe.cons ?_ ?_ (Safe.cons ?_ ?_ Safe.nil)
  · apply noBreak_fields
    unfold f1
    all_mem
    exact ⟨noBreak_int _ _, noBreak_int _ _, noBreak_int _ _, noBreak_int _ _, noBreak_int _ _, noBreak_int _ _,
      noBreak_int _ _, noBreak_int _ _⟩
  · refine tagFree_int [_, _, _, _, _, _, _] 10 _ ?_ hn (by omega) (by decide)
    simp [len_int 10 _ ok.num, len_int 10 _ ok.constraint, len_int 10 _ ok.restraint, len_int 10 _ ok.load, len_int 10 _ ok.dof,
      len_int 10 _ ok.temperature, len_int 10 _ ok.contact]
  · exact ok.name.noBreak.padRight
  · exact ok.name.tagFree

theorem head_eq (g : Grp) (n : Nat) (ok : g.Ok) (hn : Fits 10 n) (r1 r2 : Text) :
    groupHead ((f1 g n).flatten ++ r1) (padRight 40 g.name ++ r2) = .ok (g.dict n) := by
  unfold groupHead
  rw [parseHeader_fields _ _ _ _ _ _
    (by simp [f1, len_int 10 _ ok.num, len_int 10 _ ok.constraint, len_int 10 _ ok.restraint, len_int 10 _ ok.load, len_int 10 _ ok.dof,
      len_int 10 _ ok.temperature, len_int 10 _ ok.contact, len_int 10 _ hn]) (by simp [f1]) (by simp [f1])]
  simp only [f1, List.map_cons, List.map_nil, headerLoop_cons, headerField_int]
  simp only [headerLoop]
  rw [parseHeader_str 40 g.name _ _ ok.name.fits]
  simp only [ok_bind]
  rfl

theorem count_eq (g : Grp) (n : Nat) : groupCount (g.dict n) = .ok n := rfl

end Grp

theorem headShort_eq (n : Nat) : headShort n = tagText ++ '\n' :: (padLeft 6 (natRepr n) ++ ['\n']) := rfl

theorem slice4 {α : Type} (l : List α) (i : Nat) (h : i * 4 + 3 < l.length) :
    slice l (4 * i) (4 * i + 4) = [l[i * 4], l[i * 4 + 1], l[i * 4 + 2], l[i * 4 + 3]] := by
  unfold slice
  rw [Nat.mul_comm 4 i, Nat.add_sub_cancel_left, List.drop_eq_getElem_cons (by omega), List.drop_eq_getElem_cons (by omega),
    List.drop_eq_getElem_cons (by omega), List.drop_eq_getElem_cons (by omega)]
  rfl

namespace DS2429

/-- The integers of entities. -/
def cols (l : List Ent) : List Int := l.flatMap fun e => [e.code, e.tag]
/-- A line of entities. -/
def ln (l : List Ent) : Text := fieldLine ((cols l).map fun n => (10, intRepr n))
/-- The lines between the delimiters. -/
def lines (r : DS2429) : List Text :=
  padLeft 6 (natRepr 2429) :: (r.grp.f1 r.ents.length).flatten :: padRight 40 r.grp.name :: (rowsOf 4 r.stored).map ln

/-- The entities of the last incomplete line. -/
def rest (r : DS2429) : List Ent := (List.range (r.ents.length % 4)).filterMap fun i => r.ents[4 * i]?

theorem rest_lt (r : DS2429) (ok : Ok r) (i : Nat) (hi : i < r.ents.length % 4) : 4 * i < r.ents.length := by
  have := ok.count
  omega

theorem filterMap_some {α β : Type} (f : α → Option β) (g : α → β) (l : List α) (h : ∀ a ∈ l, f a = some (g a)) :
    l.filterMap f = l.map g := by
  induction l with
  | nil => rfl
  | cons a l ih => rw [List.filterMap_cons, h a (by simp), ih fun b hb => h b (by simp [hb])]; rfl

theorem rest_length (r : DS2429) (ok : Ok r) : r.rest.length = r.ents.length % 4 := by
  have hc := ok.count
  obtain ⟨e, es, he⟩ := List.exists_cons_of_ne_nil (List.ne_nil_of_length_pos (by omega : 0 < r.ents.length))
  unfold rest
  rw [filterMap_some _ (fun i => r.ents[4 * i]?.getD e) _ fun i hi => by
    have := rest_lt r ok i (List.mem_range.1 hi)
    rw [List.getElem?_eq_getElem this]; rfl]
  simp

theorem stored_length (r : DS2429) (ok : Ok r) : r.stored.length = r.ents.length := by
  unfold stored
  have := rest_length r ok
  unfold rest at this
  rw [List.length_append, this, List.length_take]
  omega

theorem stored_mem (r : DS2429) : ∀ e ∈ r.stored, e ∈ r.ents := by
  intro e he
  rcases List.mem_append.1 he with h | h
  · exact List.mem_of_mem_take h
  · obtain ⟨i, -, hi⟩ := List.mem_filterMap.1 h
    exact List.mem_of_getElem? hi

theorem rows_eq (r : DS2429) (ok : Ok r) :
    rowsOf 4 r.stored = ((List.range (r.ents.length / 4)).map fun i => slice r.ents (4 * i) (4 * i + 4)) ++
      (if r.ents.length % 4 = 0 then [] else [r.rest]) := by
  unfold rowsOf
  rw [stored_length r ok]
  have hs : ∀ i, i < r.ents.length / 4 → slice r.stored (4 * i) (4 * i + 4) = slice r.ents (4 * i) (4 * i + 4) := by
    intro i hi
    unfold stored slice
    rw [List.drop_append_of_le_length (by rw [List.length_take]; omega), List.take_append_of_le_length (by
      rw [List.length_drop, List.length_take]; omega), List.drop_take, List.take_take]
    congr 1
    omega
  by_cases h0 : r.ents.length % 4 = 0
  · rw [if_pos h0, List.append_nil]
    have e : (r.ents.length + (4 - 1)) / 4 = r.ents.length / 4 := by omega
    rw [e]
    exact List.map_congr_left fun i hi => hs i (List.mem_range.1 hi)
  · rw [if_neg h0]
    have e : (r.ents.length + (4 - 1)) / 4 = r.ents.length / 4 + 1 := by omega
    rw [e, List.range_succ, List.map_append]
    congr 1
    · exact List.map_congr_left fun i hi => hs i (List.mem_range.1 hi)
    · have hl : (r.ents.take (4 * (r.ents.length / 4))).length = 4 * (r.ents.length / 4) := by
        rw [List.length_take]; omega
      have hr := rest_length r ok
      simp only [List.map_cons, List.map_nil, slice, Nat.add_sub_cancel_left]
      have : r.stored = r.ents.take (4 * (r.ents.length / 4)) ++ r.rest := rfl
      rw [this, List.drop_append, hl, Nat.sub_self, List.drop_zero, List.drop_eq_nil_of_le (by omega), List.nil_append,
        List.take_of_length_le (by omega)]

theorem ln_flatMap (l : List Ent) : ln l = l.flatMap fun e => ln [e] := by
  induction l with
  | nil => rfl
  | cons e l ih => rw [List.flatMap_cons, ← ih]; simp [ln, cols, fieldLine]

theorem write_eq (d : Dict) (r : DS2429) (h : Rep d r) (ok : Ok r) :
    write2429 d = ⟨frameText r.lines, optFields d optGroup, .ok ()⟩ := by
  obtain ⟨v, gv, sv⟩ := h.code.opt (fs := optGroup)
  have hc := h.code.opt (fs := optGroup)
  have ht := h.tag.opt (fs := optGroup)
  have hlen : v.len = .ok r.ents.length := by rw [sv.len, List.length_map]
  have hcount := ok.count
  obtain ⟨e0, es, he0⟩ := List.exists_cons_of_ne_nil (List.ne_nil_of_length_pos (by omega : 0 < r.ents.length))
  unfold write2429
  apply W.guardedAny_ok
  simp only [W.bind_eq, W.bind_opt, W.bind_emit]
  rw [W.bind_key gv, hlen, W.bind_lift_ok,
    W.bind_row (.cons (h.num.opt.fld 10) (.cons ((h.constraint.opt rfl).fld 10) (.cons ((h.restraint.opt rfl).fld 10)
      (.cons ((h.load.opt rfl).fld 10) (.cons ((h.dof.opt rfl).fld 10) (.cons ((h.temperature.opt rfl).fld 10)
      (.cons ((h.contact.opt rfl).fld 10) (.cons (fld_c (fmtI_eq (isInt_int _) 10)) .nil)))))))),
    W.bind_row (.cons (h.name.opt.fldL 40) .nil),
    W.bind_forL_eq (W.forL_ok _ _ (fun i => ln (slice r.ents (4 * i) (4 * i + 4)) ++ ['\n']) _ ?_),
    W.bind_forL_eq (W.forL_ok _ _ (fun i => ln [r.ents[4 * i]?.getD e0]) _ ?_)]
  · have hrest : (List.range (r.ents.length % 4)).flatMap (fun i => ln [r.ents[4 * i]?.getD e0]) = ln r.rest := by
      unfold rest
      rw [filterMap_some _ (fun i => r.ents[4 * i]?.getD e0) _ fun i hi => by
        have := rest_lt r ok i (List.mem_range.1 hi)
        rw [List.getElem?_eq_getElem this]; rfl]
      rw [ln_flatMap, List.flatMap_map]
    rw [hrest]
    have hl : joinLines (r.lines) = padLeft 6 (natRepr 2429) ++ '\n' :: ((r.grp.f1 r.ents.length).flatten ++ '\n' ::
        (padRight 40 r.grp.name ++ '\n' :: ((List.range (r.ents.length / 4)).flatMap
          (fun i => ln (slice r.ents (4 * i) (4 * i + 4)) ++ ['\n']) ++
          (if r.ents.length % 4 = 0 then [] else ln r.rest ++ ['\n'])))) := by
      unfold lines
      rw [rows_eq r ok]
      by_cases h0 : r.ents.length % 4 = 0
      · simp [h0, joinLines, List.flatMap_map]
      · simp [h0, joinLines, List.flatMap_map]
    have hfr : frameText r.lines = tagText ++ '\n' :: (joinLines r.lines ++ (tagText ++ ['\n'])) := by
      simp [frameText, joinLines]
    by_cases h0 : r.ents.length % 4 = 0
    · have hr0 : r.rest = [] := by rw [← List.length_eq_zero_iff, rest_length r ok, h0]
      rw [if_pos h0] at hl
      rw [W.bind_when_neg (by omega)]
      simp only [W.emit_eq]
      rw [hfr, hl, hr0, show ln [] = [] from rfl]
      simp [Grp.f1, headShort_eq, tailText, tagText]
      rfl
    · rw [if_neg h0] at hl
      rw [W.bind_when_pos (by omega)]
      simp only [W.bind_emit, W.emit_eq]
      rw [hfr, hl]
      simp [Grp.f1, headShort_eq, tailText, tagText]
      rfl
  · intro i hi
    have hi := List.mem_range.1 hi
    have hlt := rest_lt r ok i hi
    have hf := W.format_eq (.cons (hc.at_row hlt 10) (.cons (ht.at_row hlt 10) .nil))
    rw [Nat.mul_comm i 4]
    rw [W.bind_ok hf, List.getElem?_eq_getElem hlt]
    simp [W.emit_eq, ln, cols, fieldLine]
  · intro i hi
    have hi := List.mem_range.1 hi
    rw [slice4 r.ents i (by omega)]
    rw [W.row_eq (.cons (hc.at_row (by omega) 10) (.cons (ht.at_row (by omega) 10) (.cons (hc.at_row (by omega) 10)
      (.cons (ht.at_row (by omega) 10) (.cons (hc.at_row (by omega) 10) (.cons (ht.at_row (by omega) 10)
      (.cons (hc.at_row (by omega) 10) (.cons (ht.at_row (by omega) 10) .nil))))))))]
    rfl

theorem fits (r : DS2429) (ok : Ok r) : ∀ l ∈ rowsOf 4 r.stored, ∀ n ∈ cols l, Fits 9 n := by
  intro l hl n hn
  obtain ⟨e, he, hn⟩ := List.mem_flatMap.1 hn
  have := stored_mem r e (rowsOf_mem hl e he)
  simp only [List.mem_cons, List.not_mem_nil, or_false] at hn
  rcases hn with rfl | rfl
  · exact ok.code e this
  · exact ok.tag e this

theorem cols_last (l : List Ent) (h : ∀ e ∈ l, e.tag ≠ -1) : (cols l).getLast? ≠ some (-1) := by
  rcases List.eq_nil_or_concat l with rfl | ⟨l', e, rfl⟩
  · simp [cols]
  · rw [List.concat_eq_append] at h ⊢
    have := h e (by simp)
    simp [cols, this]

theorem safe (r : DS2429) (ok : Ok r) : Safe r.lines := by
  refine Safe.cons (by decide) (by exact tagFree_of_lt _ (by decide) (by decide)) ?_
  refine (Grp.safe r.grp _ ok.grp ok.fits).append (b := (rowsOf 4 r.stored).map ln) ?_
  intro l hl
  obtain ⟨es, hes, rfl⟩ := List.mem_map.1 hl
  exact safe_ints 10 (by decide) (by decide) _ (fits r ok es hes)
    (cols_last es fun e he => ok.tag1 e (stored_mem r e (rowsOf_mem hes e he))) _ (by simp [ln])

theorem values (r : DS2429) (ok : Ok r) : groupValues ((rowsOf 4 r.stored).map ln) = .ok (cols r.stored) := by
  have := groupValues_eq ((rowsOf 4 r.stored).map cols) [] (Or.inl rfl) (by
    intro l hl
    obtain ⟨es, hes, rfl⟩ := List.mem_map.1 hl
    exact fits r ok es hes)
  rw [List.map_map] at this
  have e : ((rowsOf 4 r.stored).map cols).flatten = cols r.stored := by
    conv => rhs; rw [← rowsOf_flatten 4 (by decide) r.stored]
    exact flatten_map_flatMap _ _
  rw [e] at this
  rw [← this]
  congr 1
  apply List.map_congr_left
  intro l _
  simp [ln]

theorem read_eq (r : DS2429) (ok : Ok r) : extract2429 (blockText r.lines) = .ok r.readBack := by
  unfold extract2429
  rw [split_block _ (safe r ok)]
  simp only [lines, List.drop_succ_cons, List.drop_zero]
  have hpos : 0 < r.ents.length := by have := ok.count; omega
  have hrl : 0 < (rowsOf 4 r.stored).length := by
    rw [rowsOf_length, stored_length r ok]; omega
  obtain ⟨l3, ls, hls⟩ : ∃ l3 ls, (rowsOf 4 r.stored).map ln = l3 :: ls := by
    cases hh : (rowsOf 4 r.stored).map ln with
    | nil => rw [← List.length_map (f := ln), hh] at hrl; simp at hrl
    | cons a b => exact ⟨a, b, rfl⟩
  have hk : (ceilDiv (r.ents.length : Int) 4).toNat = (rowsOf 4 r.stored).length := by
    rw [ceilDiv_nat _ _ (by decide), rowsOf_length, stored_length r ok]; rfl
  have hk2 : (2 + ceilDiv (r.ents.length : Int) 4).toNat = (rowsOf 4 r.stored).length + 2 := by
    rw [ceilDiv_nat _ _ (by decide), rowsOf_length, stored_length r ok]
    omega
  have hk3 : ¬ ceilDiv (r.ents.length : Int) 4 < -1 := by
    rw [ceilDiv_nat _ _ (by decide)]; omega
  have hv : groupValues (List.take (ceilDiv (r.ents.length : Int) 4).toNat (l3 :: ls)) = .ok (cols r.stored) := by
    rw [← hls, hk, ← List.length_map (f := ln), List.take_length]; exact values r ok
  have hd : List.drop (2 + ceilDiv (r.ents.length : Int) 4).toNat ((r.grp.f1 r.ents.length).flatten :: padRight 40 r.grp.name :: l3 :: ls) = [] := by
    rw [← hls, hk2]
    simp only [List.drop_succ_cons]
    rw [← List.length_map (f := ln), List.drop_length]
  have hh := Grp.head_eq r.grp r.ents.length ok.grp ok.fits [] []
  rw [List.append_nil, List.append_nil] at hh
  rw [hls]
  simp only [List.length_cons, groups2429, hh, ok_bind, Grp.count_eq, List.drop_succ_cons, List.drop_zero, hv, hk3, if_false, hd]
  simp only [readGuard]
  have c0 : everyN 0 2 (cols r.stored) = r.stored.map (·.code) :=
    everyN_flatMap 2 0 r.stored (fun e => [e.code, e.tag]) _ (fun _ _ => rfl) (fun _ _ => rfl)
  have c1 : everyN 1 2 (cols r.stored) = r.stored.map (·.tag) :=
    everyN_flatMap 2 1 r.stored (fun e => [e.code, e.tag]) _ (fun _ _ => rfl) (fun _ _ => rfl)
  rw [c0, c1]
  unfold readBack Grp.dict
  congr 1

theorem roundTrip (d : Dict) (r : DS2429) (h : Rep d r) (ok : Ok r) :
    RoundTrip 2429 write2429 extract2429 d r.readBack r.lines :=
  ⟨safe r ok, ⟨_, write_eq d r h ok⟩, (blockType_block _ _ (by decide)).trans (by decide +kernel), read_eq r ok⟩

end DS2429
end Verif
