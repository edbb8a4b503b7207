import Verif.Lemmas.RT18
import Verif.Model.DS2420
import Verif.Spec.S2420
/-
Round trip of data-set 2420.
-/
namespace Verif

theorem pyInt_int (n : Int) : pyInt (intRepr n) = .ok n := by
  unfold pyInt; rw [parseInt_intRepr]; rfl

theorem rstrip_append (a b : Text) (h : ∀ c ∈ b, isSpace c = true) : rstrip (a ++ b) = rstrip a :=
  rstrip_append_spaces a b h

theorem rstrip_padRight_lf (w : Nat) (s : Text) : rstrip (padRight w s ++ ['\n']) = rstrip s := by
  rw [rstrip_append _ _ (by decide)]
  unfold padRight
  exact rstrip_append _ _ (isSpace_replicate _)

theorem dFloat2420_flt (p : Nat) (x : F64) (hx : x.finite = true) : dFloat2420 (fmtE p x) = .ok (x.quant p) := by
  unfold dFloat2420
  have hd : ∀ c, ¬ IsNumChar c → ∀ a ∈ fmtE p x, a ≠ c := by
    intro c h1 a ha e
    subst e
    exact h1 (fmtE_chars p x hx a ha)
  rw [DS2411.replaceChar_none 'd' 'e' _ (hd 'd' (by unfold IsNumChar; decide)),
    DS2411.replaceChar_none 'D' 'E' _ (hd 'D' (by unfold IsNumChar; decide))]
  exact pyFloat_flt p x hx

/-- Splitting joined lines that keep their line feeds. -/
theorem splitWs_map_lf {α} (rows : List α) (f : α → List (Nat × Text)) (h : ∀ a ∈ rows, ∀ g ∈ f a, TokOk g.1 g.2) :
    splitWs (rows.map fun a => fieldLine (f a) ++ ['\n']).flatten = rows.flatMap fun a => (f a).map (·.2) := by
  have := splitWs_lines (rows.map f) [] (by
    intro l hl
    obtain ⟨a, ha, rfl⟩ := List.mem_map.1 hl
    exact h a ha)
  rw [List.append_nil, splitWs_nil, List.append_nil] at this
  rw [← List.flatMap_def]
  rw [List.flatMap_map] at this
  rw [this]
  simp [List.flatMap_def, List.map_flatten, List.map_map, Function.comp_def]

/-- The `k`-th group of rows of equal length. -/
theorem slice_flatMap {α β : Type} (w : Nat) (rows : List α) (f : α → List β) (h : ∀ a ∈ rows, (f a).length = w) (k : Nat)
    (hk : k < rows.length) : slice (rows.flatMap f) (w * k) (w * k + w) = f rows[k] := by
  induction rows generalizing k with
  | nil => simp at hk
  | cons a r ih =>
    have ha := h a (by simp)
    rw [List.flatMap_cons]
    cases k with
    | zero => rw [Nat.mul_zero, Nat.zero_add]; exact slice_prefix _ _ _ ha
    | succ k =>
      rw [slice_append_right _ _ _ _ (by rw [ha, Nat.mul_succ]; omega), ha, List.getElem_cons_succ,
        ← ih (fun x hx => h x (by simp [hx])) k (by simpa using hk)]
      congr 1 <;> rw [Nat.mul_succ] <;> omega

namespace DS2420

/-- The fields of a row of a matrix. -/
def fp (p : Pt) : List (Nat × Text) := [(25, fmtE 16 p.x), (25, fmtE 16 p.y), (25, fmtE 16 p.z)]
/-- Fields of the first line of a system. -/
def f1 (m : CMat) : List (Nat × Text) := [(10, intRepr m.label), (10, intRepr m.type), (10, intRepr m.color)]
/-- The six lines of a system. -/
def row (m : CMat) : List Text :=
  [fieldLine (f1 m), m.name, fieldLine (fp m.a), fieldLine (fp m.b), fieldLine (fp m.c), fieldLine (fp m.o)]
/-- The lines between the delimiters. -/
def lines (r : DS2420) : List Text :=
  idLine 2420 :: [padLeft 10 (intRepr r.uid)].flatten :: padRight 80 r.name :: r.systems.flatMap row

theorem matLine_eq (d : Dict) (r : DS2420) (h : d.get? "CS_matrices" = some (.list (r.systems.map (·.mat)))) (i j : Nat)
    (hi : i < r.systems.length) (p : Pt) (hp : [r.systems[i].a, r.systems[i].b, r.systems[i].c, r.systems[i].o][j]? = some p) :
    matLine i j d = ⟨fieldLine (fp p) ++ ['\n'], d, .ok ()⟩ := by
  have e : matRow d i j = .ok p.row := by
    unfold matRow Fld.at_ Dict.get
    rw [h]
    simp only [Val.idx, Val.items]
    rw [List.getElem?_map, List.getElem?_eq_getElem hi]
    simp only [Option.map_some, orIndex, CMat.mat]
    match j, hp with
    | 0, hp => simp at hp; simp [hp]
    | 1, hp => simp at hp; simp [hp]
    | 2, hp => simp at hp; simp [hp]
    | 3, hp => simp at hp; simp [hp]
    | _ + 4, hp => simp at hp
  unfold matLine
  simp only [W.bind_eq, W.bind_getDict]
  rw [e, W.bind_lift_ok, if_pos (by rfl), W.bind_lift_ok, W.emit_eq]
  simp [Pt.row, fp, fieldLine]

theorem lenKey_eq {α} {P : Val → α → Prop} {d : Dict} {k : Key} {v : Val} {l : List α} (h : d.get? k = some v)
    (hs : IsSeq P v l) : lenKey d k = .ok l.length := by
  unfold lenKey Dict.get; rw [h]; exact hs.len

theorem fmtSL_zero {v : Val} {s : Text} (h : IsStr v s) : fmtSL 0 v = .ok s := by
  rw [fmtSL_eq h 0]; simp [padRight]

theorem write_eq (d : Dict) (r : DS2420) (h : Rep d r) :
    write2420 d = ⟨frameText r.lines, optFields d opt2420, .ok ()⟩ := by
  have a1 := h.label.opt (fs := opt2420)
  have a2 := h.type.opt (fs := opt2420) rfl
  have a3 := h.color.opt (fs := opt2420) rfl
  have a4 := h.names.opt (fs := opt2420)
  have a5 : (optFields d opt2420).get? "CS_matrices" = some (.list (r.systems.map (·.mat))) := get?_opt_present h.mats
  have n1 : lenKey (optFields d opt2420) "CS_sys_labels" = .ok r.systems.length := by
    obtain ⟨v, g, s⟩ := a1; rw [lenKey_eq g s, List.length_map]
  have n2 : lenKey (optFields d opt2420) "CS_types" = .ok r.systems.length := by
    obtain ⟨v, g, s⟩ := a2; rw [lenKey_eq g s, List.length_map]
  have n3 : lenKey (optFields d opt2420) "CS_colors" = .ok r.systems.length := by
    obtain ⟨v, g, s⟩ := a3; rw [lenKey_eq g s, List.length_map]
  have n4 : lenKey (optFields d opt2420) "CS_names" = .ok r.systems.length := by
    obtain ⟨v, g, s⟩ := a4; rw [lenKey_eq g s, List.length_map]
  have n5 : lenKey (optFields d opt2420) "CS_matrices" = .ok r.systems.length := by
    unfold lenKey Dict.get; rw [a5]; simp [Val.len]
  unfold write2420
  apply W.guardedAny_ok
  simp only [W.bind_eq, W.bind_opt, W.bind_emit]
  rw [W.bind_row (.cons ((h.uid.opt rfl).fld 10) .nil), W.bind_row (.cons ((h.name.opt rfl).fldL 80) .nil)]
  simp only [W.bind_getDict]
  rw [n1, mapRes_cons n2 (mapRes_cons n3 (mapRes_cons n4 (mapRes_cons n5 rfl)))]
  simp only [W.bind_lift_ok, List.all_cons, List.all_nil, decide_true, Bool.and_self, if_true]
  rw [W.bind_forL_eq (W.forL_range r.systems _ (fun m => joinLines (row m)) _ ?_)]
  · simp only [W.emit_eq]
    simp [frameText, lines, headText_eq, tailText, tagText, joinLines_append, joinLines_flatMap]
    rfl
  · intro i hi
    have hname : FldOk (optFields d opt2420) ⟨Fld.at_ "CS_names" i, fmtSL 0⟩ r.systems[i].name := by
      have := a4.at_rowL hi 0
      simpa [padRight] using this
    rw [W.bind_row (.cons (a1.at_row hi 10) (.cons (a2.at_row hi 10) (.cons (a3.at_row hi 10) .nil))),
      W.bind_row (.cons hname .nil),
      W.bind_ok (matLine_eq _ r a5 i 0 hi r.systems[i].a rfl), W.bind_ok (matLine_eq _ r a5 i 1 hi r.systems[i].b rfl),
      W.bind_ok (matLine_eq _ r a5 i 2 hi r.systems[i].c rfl), matLine_eq _ r a5 i 3 hi r.systems[i].o rfl]
    simp [joinLines, row, f1, fieldLine]

theorem tok1 (m : CMat) (o : SysOk m) : ∀ f ∈ f1 m, TokOk f.1 f.2 := by
  unfold f1
  all_mem
  exact ⟨tok_int _ _ o.label (by decide), tok_int _ _ o.type (by decide), tok_int _ _ o.color (by decide)⟩
theorem tokp (p : Pt) (o : p.Finite) : ∀ f ∈ fp p, TokOk f.1 f.2 := by
  unfold fp
  all_mem
  exact ⟨tok_flt _ _ _ o.x (by decide), tok_flt _ _ _ o.y (by decide), tok_flt _ _ _ o.z (by decide)⟩

theorem safe_fp (p : Pt) (o : p.Finite) : NoBreak (fieldLine (fp p)) ∧ TagFree (fieldLine (fp p)) := by
  constructor
  · exact noBreak_fieldLine _ fun f hf => NoBreak.of_noSpace (tokp p o f hf).noSpace
  · refine tagFree_flt [_, _] 25 16 _ ?_ o.z (by decide)
    simp [len_flt 25 16 _ o.x, len_flt 25 16 _ o.y]

theorem safe (r : DS2420) (ok : Ok r) : Safe r.lines := by
  refine safe_idLine 2420 (by decide) (by decide) (by decide) (by decide) (Safe.cons ?_ ?_ (Safe.cons ?_ ?_
    (Safe.flatMap fun m hm => ?_)))
  · apply noBreak_fields
    all_mem
    exact noBreak_int _ _
  · exact tagFree_int [] 10 _ (by decide) ok.uid ok.uid1 (by decide)
  · exact NoBreak.padRight ok.name.noBreak
  · exact (tagFree_iff _).2 ok.nameD
  have o := ok.systems m hm
  refine Safe.cons ?_ ?_ (Safe.cons o.name.noBreak ((tagFree_iff _).2 o.nameD) (Safe.cons (safe_fp _ o.a).1 (safe_fp _ o.a).2
    (Safe.cons (safe_fp _ o.b).1 (safe_fp _ o.b).2 (Safe.cons (safe_fp _ o.c).1 (safe_fp _ o.c).2
    (Safe.cons (safe_fp _ o.o).1 (safe_fp _ o.o).2 Safe.nil)))))
  · exact noBreak_fieldLine _ fun f hf => NoBreak.of_noSpace (tok1 m o f hf).noSpace
  · refine tagFree_int [_, _] 10 _ ?_ (o.color.mono (by decide)) o.color1 (by decide)
    simp [len_int 10 _ (o.label.mono (by decide)), len_int 10 _ (o.type.mono (by decide))]

theorem read3 (r : DS2420) (ok : Ok r) :
    mapRes pyInt (splitWs (r.systems.map fun m => fieldLine (f1 m) ++ ['\n']).flatten)
      = .ok (r.systems.flatMap fun m => [m.label, m.type, m.color]) := by
  rw [splitWs_map_lf r.systems f1 fun m hm => tok1 m (ok.systems m hm)]
  exact mapRes_flatMap _ _ _ fun m _ => mapRes_cons (pyInt_int _) (mapRes_cons (pyInt_int _) (mapRes_cons (pyInt_int _) rfl))

theorem readp (r : DS2420) (g : CMat → Pt) (ok : ∀ m ∈ r.systems, (g m).Finite) :
    mapRes dFloat2420 (splitWs (r.systems.map fun m => fieldLine (fp (g m)) ++ ['\n']).flatten)
      = .ok (r.systems.flatMap fun m => (g m).row) := by
  rw [splitWs_map_lf r.systems (fun m => fp (g m)) fun m hm => tokp _ (ok m hm)]
  refine mapRes_flatMap _ _ _ fun m hm => ?_
  have o := ok m hm
  have q : ∀ x : F64, x.finite = true → dFloat2420 (fmtE 16 x) = .ok x := by
    intro x hx; rw [dFloat2420_flt 16 x hx, quant_exact 16 (by decide) x hx]
  exact mapRes_cons (q _ o.x) (mapRes_cons (q _ o.y) (mapRes_cons (q _ o.z) rfl))

theorem mats_eq (l : List CMat) :
    mapRes (fun k => vstack4 (slice (l.flatMap fun m => m.a.row) (3 * k) (3 * k + 3))
      (slice (l.flatMap fun m => m.b.row) (3 * k) (3 * k + 3)) (slice (l.flatMap fun m => m.c.row) (3 * k) (3 * k + 3))
      (slice (l.flatMap fun m => m.o.row) (3 * k) (3 * k + 3))) (List.range (((l.flatMap fun m => m.a.row).length + 2) / 3))
      = .ok (l.map (·.mat)) := by
  have hl : (l.flatMap fun m => m.a.row).length = 3 * l.length := by
    induction l with
    | nil => rfl
    | cons a r ih => rw [List.flatMap_cons, List.length_append, ih]; simp [Pt.row]; omega
  rw [hl, show (3 * l.length + 2) / 3 = l.length by omega]
  apply mapRes_get
  · simp
  · intro i h1 h2
    have hi : i < l.length := by simpa using h1
    simp only [List.getElem_range, List.getElem_map]
    rw [slice_flatMap 3 l _ (fun _ _ => rfl) i hi, slice_flatMap 3 l _ (fun _ _ => rfl) i hi,
      slice_flatMap 3 l _ (fun _ _ => rfl) i hi, slice_flatMap 3 l _ (fun _ _ => rfl) i hi]
    rfl

theorem read_eq (r : DS2420) (ok : Ok r) : extract2420 (blockText r.lines) = .ok r.readBack := by
  unfold extract2420
  rw [splitKeep_block _ (safe r ok)]
  have hl : (tagText ++ ['\n']) :: r.lines.map (· ++ ['\n'])
      = [tagText ++ ['\n'], idLine 2420 ++ ['\n'], [padLeft 10 (intRepr r.uid)].flatten ++ ['\n'], padRight 80 r.name ++ ['\n']]
        ++ r.systems.flatMap fun m => (row m).map (· ++ ['\n']) := by
    simp [lines, List.map_flatMap]
  rw [hl]
  generalize hp : [tagText ++ ['\n'], idLine 2420 ++ ['\n'], [padLeft 10 (intRepr r.uid)].flatten ++ ['\n'],
    padRight 80 r.name ++ ['\n']] = pre
  have hpl : pre.length = 4 := by rw [← hp]; rfl
  have hp2 : (pre ++ r.systems.flatMap fun m => (row m).map (· ++ ['\n']))[2]? = some ([padLeft 10 (intRepr r.uid)].flatten ++ ['\n']) := by
    rw [← hp]; rfl
  have hp3 : (pre ++ r.systems.flatMap fun m => (row m).map (· ++ ['\n']))[3]? = some (padRight 80 r.name ++ ['\n']) := by
    rw [← hp]; rfl
  simp only [hp2, hp3, orIndex, ok_bind]
  have hu : pyInt ([padLeft 10 (intRepr r.uid)].flatten ++ ['\n']) = .ok r.uid := by
    unfold pyInt
    rw [List.flatten_cons, List.flatten_nil, List.append_nil, 
      parseInt_right _ _ (by decide), parseInt_padLeft]; rfl
  rw [hu, everyN_rows 4 6 0 pre r.systems _ (fun m => fieldLine (f1 m) ++ ['\n']) hpl (fun _ _ => rfl) (fun _ _ => rfl),
    everyN_rows 4 6 1 pre r.systems _ (fun m => m.name ++ ['\n']) hpl (fun _ _ => rfl) (fun _ _ => rfl),
    everyN_rows 4 6 2 pre r.systems _ (fun m => fieldLine (fp m.a) ++ ['\n']) hpl (fun _ _ => rfl) (fun _ _ => rfl),
    everyN_rows 4 6 3 pre r.systems _ (fun m => fieldLine (fp m.b) ++ ['\n']) hpl (fun _ _ => rfl) (fun _ _ => rfl),
    everyN_rows 4 6 4 pre r.systems _ (fun m => fieldLine (fp m.c) ++ ['\n']) hpl (fun _ _ => rfl) (fun _ _ => rfl),
    everyN_rows 4 6 5 pre r.systems _ (fun m => fieldLine (fp m.o) ++ ['\n']) hpl (fun _ _ => rfl) (fun _ _ => rfl),
    read3 r ok, readp r (·.a) (fun m hm => (ok.systems m hm).a), readp r (·.b) (fun m hm => (ok.systems m hm).b),
    readp r (·.c) (fun m hm => (ok.systems m hm).c), readp r (·.o) (fun m hm => (ok.systems m hm).o)]
  simp only [ok_bind]
  rw [mats_eq]
  simp only [ok_bind,
    everyN_flatMap 3 0 r.systems (fun m => [m.label, m.type, m.color]) _ (fun _ _ => rfl) (fun _ _ => rfl),
    everyN_flatMap 3 1 r.systems (fun m => [m.label, m.type, m.color]) _ (fun _ _ => rfl) (fun _ _ => rfl),
    everyN_flatMap 3 2 r.systems (fun m => [m.label, m.type, m.color]) _ (fun _ _ => rfl) (fun _ _ => rfl)]
  have hn : (r.systems.map fun m => m.name ++ ['\n']).map (fun s => Val.str (rstrip s))
      = r.systems.map fun m => .str (rstrip m.name) := by
    rw [List.map_map]
    exact List.map_congr_left fun m _ => by simp [rstrip_append m.name ['\n'] (by decide)]
  rw [hn, rstrip_padRight_lf]
  simp only [readBack, List.map_map, Function.comp_def]

theorem roundTrip (d : Dict) (r : DS2420) (h : Rep d r) (ok : Ok r) :
    RoundTrip 2420 write2420 extract2420 d r.readBack r.lines :=
  ⟨safe r ok, ⟨_, write_eq d r h⟩, (blockType_block _ _ (by decide)).trans (by decide +kernel), read_eq r ok⟩

end DS2420
end Verif
