import Verif.Lemmas.Loop
import Verif.Lemmas.RT2411
import Verif.Model.DS18
import Verif.Spec.S18
/-
Round trip of data-set 18.
-/
namespace Verif

theorem HasInts.intAt {d : Dict} {k : Key} {α : Type} {rows : List α} {f : α → Int} (h : HasInts d k (rows.map f))
    {i : Nat} (hi : i < rows.length) (w : Nat) : FldOk d (Fld.intAt w k i) (padLeft w (intRepr (f rows[i]))) := by
  obtain ⟨v, g, s⟩ := h
  obtain ⟨x, h1, h2⟩ := s.idx (i := i) (by simpa using hi)
  rw [List.getElem_map] at h2
  refine ⟨.int (f rows[i]), ?_, fmtI_eq (isInt_int _) w⟩
  simp only [Fld.intAt, Fld.at_, Dict.get, g, h1, DS2411.intCall_eq h2]
  rfl

theorem HasRows.at2_row {d : Dict} {k : Key} {α : Type} {rows : List α} {f : α → List F64}
    (h : HasRows d k (rows.map f)) {i : Nat} (hi : i < rows.length) {m : Nat} {x : F64} (hm : (f rows[i])[m]? = some x)
    (w p : Nat) : FldOk d ⟨Fld.at2 k i m, fmtEV w p⟩ (padLeft w (fmtE p x)) := by
  obtain ⟨hm', rfl⟩ := List.getElem?_eq_some_iff.1 hm
  have := h.at2 (i := i) (by simpa using hi) (m := m) (by simpa using hm') w p
  simpa using this

/-- The lines of rows of `n` lines each, after `m` lines in front. -/
theorem everyN_rows {α β} (m n k : Nat) (pre : List β) (rows : List α) (f : α → List β) (g : α → β)
    (hp : pre.length = m) (hl : ∀ r ∈ rows, (f r).length = n) (h : ∀ r ∈ rows, (f r)[k]? = some (g r)) :
    everyN (m + k) n (pre ++ rows.flatMap f) = rows.map g := by
  rw [everyN_drop _ _ _ _ (by omega), hp, Nat.add_sub_cancel_left, everyN_flatMap n k rows f g hl h]

theorem vstack3T_map {α} (l : List α) (f g h : α → F64) :
    vstack3T (l.map f) (l.map g) (l.map h) = .ok (.mat (l.map fun a => [f a, g a, h a])) := by
  unfold vstack3T
  rw [if_pos (by simp)]
  congr 2
  induction l with
  | nil => rfl
  | cons a r ih => simp only [List.map_cons, List.zip_cons_cons, ih]

/-- Cutting fixed-width fields of the joined lines of many rows. -/
theorem chunks_rows {α} (w : Nat) (hw : 0 < w) (rows : List α) (f : α → List Text)
    (h : ∀ a ∈ rows, ∀ t ∈ f a, t.length = w) : chunks w ((rows.map fun a => (f a).flatten).flatten) = rows.flatMap f := by
  have := chunks_flatten w (rows.flatMap f) [] (by
    intro t ht
    obtain ⟨a, ha, ht⟩ := List.mem_flatMap.1 ht
    exact h a ha t ht) (by simpa using hw)
  rw [List.append_nil] at this
  rw [← this]
  congr 1
  induction rows with
  | nil => rfl
  | cons a r ih =>
    simp only [List.map_cons, List.flatten_cons, List.flatMap_cons, List.flatten_append]
    rw [ih (fun x hx => h x (by simp [hx]))]
    have := chunks_flatten w (r.flatMap f) [] (by
      intro t ht
      obtain ⟨b, hb, ht⟩ := List.mem_flatMap.1 ht
      exact h b (by simp [hb]) t ht) (by simpa using hw)
    rwa [List.append_nil] at this

theorem pyFloat_pad (w p : Nat) (x : F64) (hx : x.finite = true) : pyFloat (padLeft w (fmtE p x)) = .ok (x.quant p) := by
  unfold pyFloat; rw [parseFloat_padLeft_fmtE w p x hx]; rfl

namespace DS18

/-- Fields of the first line of a system. -/
def f1 (c : CSys) : List (Nat × Text) :=
  [(10, intRepr c.num), (10, intRepr c.type), (10, intRepr c.ref), (10, intRepr c.color), (10, intRepr c.method)]
/-- Fields of the third line. -/
def f3 (c : CSys) : List Text :=
  [padLeft 13 (fmtE 5 c.o.x), padLeft 13 (fmtE 5 c.o.y), padLeft 13 (fmtE 5 c.o.z),
   padLeft 13 (fmtE 5 c.x.x), padLeft 13 (fmtE 5 c.x.y), padLeft 13 (fmtE 5 c.x.z)]
/-- Fields of the fourth line. -/
def f4 (c : CSys) : List Text :=
  [padLeft 13 (fmtE 5 c.xz.x), padLeft 13 (fmtE 5 c.xz.y), padLeft 13 (fmtE 5 c.xz.z)]

/-- The four lines of a system. -/
def row (c : CSys) : List Text := [fieldLine (f1 c), padRight 40 c.name, (f3 c).flatten, (f4 c).flatten]

/-- The lines between the delimiters. -/
def lines (r : DS18) : List Text := idLine 18 :: r.systems.flatMap row

theorem write_eq (d : Dict) (r : DS18) (h : Rep d r) :
    write18 d = ⟨frameText r.lines, optFields d (opt18 r.systems.length), .ok ()⟩ := by
  obtain ⟨v, hv, hs⟩ := h.num
  have hlen := hs.len
  rw [List.length_map] at hlen
  unfold write18
  apply W.guarded_ok
  simp only [W.bind_eq]
  rw [W.bind_key hv, hlen]
  simp only [W.bind_lift_ok, W.bind_opt, W.bind_emit]
  rw [W.bind_forL_eq (W.forL_range r.systems _ (fun c => joinLines (row c)) _ ?_)]
  · simp only [W.emit_eq]
    simp [frameText, lines, headText_eq, tailText, tagText, joinLines_append, joinLines_flatMap]
    rfl
  · intro i hi
    have a1 := h.num.opt (fs := opt18 r.systems.length)
    have a2 := h.type.opt (fs := opt18 r.systems.length) rfl
    have a3 := h.ref.opt (fs := opt18 r.systems.length)
    have a4 := h.color.opt (fs := opt18 r.systems.length) rfl
    have a5 := h.method.opt (fs := opt18 r.systems.length) rfl
    have a6 := h.name.opt (fs := opt18 r.systems.length) rfl
    have a7 := h.o.opt (fs := opt18 r.systems.length)
    have a8 := h.x.opt (fs := opt18 r.systems.length)
    have a9 := h.xz.opt (fs := opt18 r.systems.length)
    rw [W.bind_row (.cons (a1.intAt hi 10) (.cons (a2.intAt hi 10) (.cons (a3.intAt hi 10) (.cons (a4.intAt hi 10)
        (.cons (a5.intAt hi 10) .nil))))),
      W.bind_row (.cons (a6.at_rowL hi 40) .nil),
      W.bind_row (.cons (a7.at2_row hi (m := 0) rfl 13 5) (.cons (a7.at2_row hi (m := 1) rfl 13 5)
        (.cons (a7.at2_row hi (m := 2) rfl 13 5) (.cons (a8.at2_row hi (m := 0) rfl 13 5)
        (.cons (a8.at2_row hi (m := 1) rfl 13 5) (.cons (a8.at2_row hi (m := 2) rfl 13 5) .nil)))))),
      W.row_eq (.cons (a9.at2_row hi (m := 0) rfl 13 5) (.cons (a9.at2_row hi (m := 1) rfl 13 5)
        (.cons (a9.at2_row hi (m := 2) rfl 13 5) .nil)))]
    simp [joinLines, row, f1, f3, f4, fieldLine]

theorem tok1 (c : CSys) (o : SysOk c) : ∀ f ∈ f1 c, TokOk f.1 f.2 := by
  unfold f1
  all_mem
  exact ⟨tok_int _ _ o.num (by decide), tok_int _ _ o.type (by decide), tok_int _ _ o.ref (by decide),
    tok_int _ _ o.color (by decide), tok_int _ _ o.method (by decide)⟩

theorem len3 (c : CSys) (o : SysOk c) : ∀ t ∈ f3 c, t.length = 13 := by
  unfold f3
  all_mem
  exact ⟨len_flt 13 5 _ o.o.x (by decide), len_flt 13 5 _ o.o.y (by decide), len_flt 13 5 _ o.o.z (by decide),
    len_flt 13 5 _ o.x.x (by decide), len_flt 13 5 _ o.x.y (by decide), len_flt 13 5 _ o.x.z (by decide)⟩
theorem len4 (c : CSys) (o : SysOk c) : ∀ t ∈ f4 c, t.length = 13 := by
  unfold f4
  all_mem
  exact ⟨len_flt 13 5 _ o.xz.x (by decide), len_flt 13 5 _ o.xz.y (by decide), len_flt 13 5 _ o.xz.z (by decide)⟩

theorem safe (r : DS18) (ok : Ok r) : Safe r.lines := by
  refine safe_idLine 18 (by decide) (by decide) (by decide) (by decide) (Safe.flatMap fun c hc => ?_)
  have o := ok c hc
  refine Safe.cons ?_ ?_ (Safe.cons ?_ ?_ (Safe.cons ?_ ?_ (Safe.cons ?_ ?_ Safe.nil)))
  · exact noBreak_fieldLine _ fun f hf => NoBreak.of_noSpace (tok1 c o f hf).noSpace
  · refine tagFree_int [_, _, _, _] 10 _ ?_ (o.method.mono (by decide)) o.method1 (by decide)
    simp [len_int 10 _ (o.num.mono (by decide)), len_int 10 _ (o.type.mono (by decide)),
      len_int 10 _ (o.ref.mono (by decide)), len_int 10 _ (o.color.mono (by decide))]
  · exact NoBreak.padRight o.name.noBreak
  · exact (tagFree_iff _).2 o.nameD
  · apply noBreak_fields
    unfold f3
    all_mem
    exact ⟨noBreak_flt _ _ _ o.o.x, noBreak_flt _ _ _ o.o.y, noBreak_flt _ _ _ o.o.z, noBreak_flt _ _ _ o.x.x,
      noBreak_flt _ _ _ o.x.y, noBreak_flt _ _ _ o.x.z⟩
  · refine tagFree_flt [_, _, _, _, _] 13 5 _ ?_ o.x.z (by decide)
    simp [len_flt 13 5 _ o.o.x, len_flt 13 5 _ o.o.y, len_flt 13 5 _ o.o.z, len_flt 13 5 _ o.x.x, len_flt 13 5 _ o.x.y]
  · apply noBreak_fields
    unfold f4
    all_mem
    exact ⟨noBreak_flt _ _ _ o.xz.x, noBreak_flt _ _ _ o.xz.y, noBreak_flt _ _ _ o.xz.z⟩
  · refine tagFree_flt [_, _] 13 5 _ ?_ o.xz.z (by decide)
    simp [len_flt 13 5 _ o.xz.x, len_flt 13 5 _ o.xz.y]

/-- The numbers of the first line. -/
def v1 (c : CSys) : List F64 :=
  [F64.ofInt c.num, F64.ofInt c.type, F64.ofInt c.ref, F64.ofInt c.color, F64.ofInt c.method]
/-- The numbers of the third line. -/
def v3 (c : CSys) : List F64 :=
  [c.o.x.quant 5, c.o.y.quant 5, c.o.z.quant 5, c.x.x.quant 5, c.x.y.quant 5, c.x.z.quant 5]
/-- The numbers of the fourth line. -/
def v4 (c : CSys) : List F64 := [c.xz.x.quant 5, c.xz.y.quant 5, c.xz.z.quant 5]

theorem read1 (r : DS18) (ok : Ok r) :
    mapRes pyFloat (splitWs (r.systems.map fun c => fieldLine (f1 c)).flatten) = .ok (r.systems.flatMap v1) := by
  rw [← List.flatMap_def, splitWs_rows_join r.systems f1 fun c hc => tok1 c (ok c hc)]
  exact mapRes_flatMap _ _ _ fun c _ => mapRes_cons (pyFloat_int _) (mapRes_cons (pyFloat_int _)
    (mapRes_cons (pyFloat_int _) (mapRes_cons (pyFloat_int _) (mapRes_cons (pyFloat_int _) rfl))))

theorem read3 (r : DS18) (ok : Ok r) :
    mapRes pyFloat (chunks 13 (r.systems.map fun c => (f3 c).flatten).flatten) = .ok (r.systems.flatMap v3) := by
  rw [chunks_rows 13 (by decide) r.systems f3 fun c hc => len3 c (ok c hc)]
  refine mapRes_flatMap _ _ _ fun c hc => ?_
  have o := ok c hc
  exact mapRes_cons (pyFloat_pad _ _ _ o.o.x) (mapRes_cons (pyFloat_pad _ _ _ o.o.y) (mapRes_cons (pyFloat_pad _ _ _ o.o.z)
    (mapRes_cons (pyFloat_pad _ _ _ o.x.x) (mapRes_cons (pyFloat_pad _ _ _ o.x.y) (mapRes_cons (pyFloat_pad _ _ _ o.x.z) rfl)))))

theorem read4 (r : DS18) (ok : Ok r) :
    mapRes pyFloat (chunks 13 (r.systems.map fun c => (f4 c).flatten).flatten) = .ok (r.systems.flatMap v4) := by
  rw [chunks_rows 13 (by decide) r.systems f4 fun c hc => len4 c (ok c hc)]
  refine mapRes_flatMap _ _ _ fun c hc => ?_
  have o := ok c hc
  exact mapRes_cons (pyFloat_pad _ _ _ o.xz.x) (mapRes_cons (pyFloat_pad _ _ _ o.xz.y)
    (mapRes_cons (pyFloat_pad _ _ _ o.xz.z) rfl))

theorem read_eq (r : DS18) (ok : Ok r) : extract18 (blockText r.lines) = .ok r.readBack := by
  unfold extract18
  rw [split_block _ (safe r ok)]
  have hl : tagText :: r.lines = [tagText, idLine 18] ++ r.systems.flatMap row := rfl
  rw [hl]
  simp only
  rw [everyN_rows 2 4 0 [tagText, idLine 18] r.systems row (fun c => fieldLine (f1 c)) rfl (fun _ _ => rfl) (fun _ _ => rfl),
    everyN_rows 2 4 1 [tagText, idLine 18] r.systems row (fun c => padRight 40 c.name) rfl (fun _ _ => rfl) (fun _ _ => rfl),
    everyN_rows 2 4 2 [tagText, idLine 18] r.systems row (fun c => (f3 c).flatten) rfl (fun _ _ => rfl) (fun _ _ => rfl),
    everyN_rows 2 4 3 [tagText, idLine 18] r.systems row (fun c => (f4 c).flatten) rfl (fun _ _ => rfl) (fun _ _ => rfl)]
  rw [read1 r ok, ok_bind, read3 r ok, ok_bind, read4 r ok]
  simp only [ok_bind,
    everyN_flatMap 5 0 r.systems v1 _ (fun _ _ => rfl) (fun _ _ => rfl),
    everyN_flatMap 5 1 r.systems v1 _ (fun _ _ => rfl) (fun _ _ => rfl),
    everyN_flatMap 5 2 r.systems v1 _ (fun _ _ => rfl) (fun _ _ => rfl),
    everyN_flatMap 5 3 r.systems v1 _ (fun _ _ => rfl) (fun _ _ => rfl),
    everyN_flatMap 5 4 r.systems v1 _ (fun _ _ => rfl) (fun _ _ => rfl),
    everyN_flatMap 6 0 r.systems v3 _ (fun _ _ => rfl) (fun _ _ => rfl),
    everyN_flatMap 6 1 r.systems v3 _ (fun _ _ => rfl) (fun _ _ => rfl),
    everyN_flatMap 6 2 r.systems v3 _ (fun _ _ => rfl) (fun _ _ => rfl),
    everyN_flatMap 6 3 r.systems v3 _ (fun _ _ => rfl) (fun _ _ => rfl),
    everyN_flatMap 6 4 r.systems v3 _ (fun _ _ => rfl) (fun _ _ => rfl),
    everyN_flatMap 6 5 r.systems v3 _ (fun _ _ => rfl) (fun _ _ => rfl),
    everyN_flatMap 3 0 r.systems v4 _ (fun _ _ => rfl) (fun _ _ => rfl),
    everyN_flatMap 3 1 r.systems v4 _ (fun _ _ => rfl) (fun _ _ => rfl),
    everyN_flatMap 3 2 r.systems v4 _ (fun _ _ => rfl) (fun _ _ => rfl), vstack3T_map, readGuard]
  unfold readBack
  have hn : (r.systems.map fun c => padRight 40 c.name).map (fun s => Val.str (strip s))
      = r.systems.map fun c => .str (strip c.name) := by
    rw [List.map_map]
    exact List.map_congr_left fun c _ => by simp [strip_padRight]
  rw [hn]
  rfl

theorem roundTrip (d : Dict) (r : DS18) (h : Rep d r) (ok : Ok r) :
    RoundTrip 18 write18 extract18 d r.readBack r.lines :=
  ⟨safe r ok, ⟨_, write_eq d r h⟩, (blockType_block _ _ (by decide)).trans (by decide +kernel), read_eq r ok⟩

end DS18
end Verif
