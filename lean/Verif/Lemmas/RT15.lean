import Verif.Lemmas.Loop
import Verif.Lemmas.FmtU
import Verif.Model.DS15
import Verif.Spec.S15
/-
Round trip of data-set 15.
-/
namespace Verif

theorem toFloat_not_str {v : Val} {x : F64} (h : v.toFloat = .ok x) (s : Text) : v ≠ .str s := by
  rintro rfl
  exact absurd h (by intro h; injection h)

theorem recField_eU {v : Val} {x : F64} (h : IsFloat v x) (w p : Nat) :
    recField v (.eU w p) = .ok (padLeft w (fmtEU p x)) := by
  simp only [recField]
  split
  · exact absurd rfl (toFloat_not_str h _)
  · unfold IsFloat at h
    rw [h]; rfl

theorem recField_f0 {v : Val} {n : Int} (h : IsFloat v (F64.ofInt n)) (hn : n.natAbs < 2 ^ 53) (w : Nat) :
    recField v (.f0 w) = .ok (padLeft w (intRepr n)) := by
  rw [← fmtF0_ofInt n hn]
  simp only [recField]
  generalize F64.ofInt n = y at h ⊢
  split
  · exact absurd rfl (toFloat_not_str h _)
  · unfold IsFloat at h
    rw [h]; rfl

theorem recLoop_cons {m : Bool} {v : Val} {vs : List Val} {f : RFmt} {fs : List RFmt} {t r : Text}
    (h : recField v f = .ok t) (hr : recLoop m vs fs = .ok r) :
    recLoop m (v :: vs) (f :: fs) = .ok (t ++ ((if m then ['\n'] else []) ++ r)) := by
  unfold recLoop; rw [h]; simp only [hr]

theorem recLoop_nil {m : Bool} : recLoop m [] [] = .ok [] := rfl
theorem recLoop_cons0 {v : Val} {vs : List Val} {f : RFmt} {fs : List RFmt} {t r : Text}
    (h : recField v f = .ok t) (hr : recLoop false vs fs = .ok r) :
    recLoop false (v :: vs) (f :: fs) = .ok (t ++ r) := recLoop_cons h hr

theorem writeRecord_ok {m : Bool} {vs : List Val} {fs : List RFmt} {t : Text} (h : recLoop m vs fs = .ok t) (d : Dict) :
    writeRecord vs fs m d = ⟨t ++ (if m then [] else ['\n']), d, .ok ()⟩ := by
  unfold writeRecord; rw [h]; rfl

theorem HasFloats.at_val {d : Dict} {k : Key} {α : Type} {rows : List α} {f : α → F64} (h : HasFloats d k (rows.map f))
    {i : Nat} (hi : i < rows.length) : ∃ v, Fld.at_ k i d = .ok v ∧ IsFloat v (f rows[i]) := by
  obtain ⟨v, g, s⟩ := h
  obtain ⟨x, h1, h2⟩ := s.idx (i := i) (by simpa using hi)
  rw [List.getElem_map] at h2
  exact ⟨x, by simp [Fld.at_, Dict.get, g, h1], h2⟩

theorem Fits.abs {n : Int} (h : Fits 9 n) : n.natAbs < 2 ^ 53 := by
  obtain ⟨h1, h2⟩ := h
  simp at h1 h2
  omega

theorem pyFloat_fltU (p : Nat) (x : F64) (hx : x.finite = true) : pyFloat (fmtEU p x) = .ok (x.quant p) := by
  unfold pyFloat; rw [parseFloat_fmtEU p x hx]; rfl

namespace DS15

/-- The fields of the line of a node. -/
def fs (n : Node) : List (Nat × Text) :=
  [(10, intRepr n.num), (10, intRepr n.defCs), (10, intRepr n.dispCs), (10, intRepr n.color),
   (13, fmtEU 5 n.x), (13, fmtEU 5 n.y), (13, fmtEU 5 n.z)]

/-- The lines between the delimiters. -/
def lines (r : DS15) : List Text := "    15".toList :: r.nodes.map fun n => fieldLine (fs n)

theorem isFloat_ofInt (n : Int) (h : n.natAbs < 2 ^ 53) : IsFloat (.int n) (F64.ofInt n) := by
  unfold IsFloat Val.toFloat; simp only [(ofInt_exact n h).2, if_true]

theorem rec2 (a b : Int) (ha : a.natAbs < 2 ^ 53) (hb : b.natAbs < 2 ^ 53) (d : Dict) :
    writeRecord [.int a, .int b] [.f0 6, .f0 6] true d
      = ⟨padLeft 6 (intRepr a) ++ '\n' :: (padLeft 6 (intRepr b) ++ ['\n']), d, .ok ()⟩ := by
  unfold writeRecord
  rw [recLoop_cons (recField_f0 (isFloat_ofInt a ha) ha 6)
    (recLoop_cons (recField_f0 (isFloat_ofInt b hb) hb 6) (r := []) rfl), W.bind_lift_ok, W.emit_eq]
  simp only [if_true, List.append_nil, List.cons_append, List.nil_append]

theorem rec1 (a : Int) (ha : a.natAbs < 2 ^ 53) (d : Dict) :
    writeRecord [.int a] [.f0 6] false d = ⟨padLeft 6 (intRepr a) ++ ['\n'], d, .ok ()⟩ := by
  unfold writeRecord
  rw [recLoop_cons (recField_f0 (isFloat_ofInt a ha) ha 6) (r := []) rfl, W.bind_lift_ok, W.emit_eq]
  simp only [Bool.false_eq_true, if_false, List.append_nil]

theorem rec7 {n : Node} {v1 v2 v3 v4 v5 v6 v7 : Val} (b1 : IsFloat v1 (F64.ofInt n.num))
    (b2 : IsFloat v2 (F64.ofInt n.defCs)) (b3 : IsFloat v3 (F64.ofInt n.dispCs)) (b4 : IsFloat v4 (F64.ofInt n.color))
    (b5 : IsFloat v5 n.x) (b6 : IsFloat v6 n.y) (b7 : IsFloat v7 n.z) (o : NodeOk n) (d : Dict) :
    writeRecord [v1, v2, v3, v4, v5, v6, v7] formats15 false d = ⟨fieldLine (fs n) ++ ['\n'], d, .ok ()⟩ := by
  refine (writeRecord_ok (t := fieldLine (fs n)) ?_ d).trans rfl
  exact recLoop_cons0 (recField_f0 b1 o.num.abs 10) (recLoop_cons0 (recField_f0 b2 o.defCs.abs 10)
    (recLoop_cons0 (recField_f0 b3 o.dispCs.abs 10) (recLoop_cons0 (recField_f0 b4 o.color.abs 10)
    (recLoop_cons0 (recField_eU b5 13 5) (recLoop_cons0 (recField_eU b6 13 5)
    (recLoop_cons0 (recField_eU b7 13 5) recLoop_nil))))))

theorem write_eq (d : Dict) (r : DS15) (h : Rep d r) (ok : Ok r) :
    ∃ d', write15 d = ⟨frameText r.lines, d', .ok ()⟩ := by
  obtain ⟨v, hv, hs⟩ := h.num
  have hlen := hs.len
  rw [List.length_map] at hlen
  refine ⟨optFields d (opt15 r.nodes.length), ?_⟩
  unfold write15
  apply W.guarded_ok
  simp only [W.bind_eq]
  rw [W.bind_key hv, hlen]
  simp only [W.bind_lift_ok, W.bind_opt]
  have e1 := rec2 (-1) 15 (by decide) (by decide) (optFields d (opt15 r.nodes.length))
  rw [show padLeft 6 (intRepr (-1)) = tagText by decide, show padLeft 6 (intRepr 15) = "    15".toList by decide] at e1
  have e2 := rec1 (-1) (by decide) (optFields d (opt15 r.nodes.length))
  rw [show padLeft 6 (intRepr (-1)) = tagText by decide] at e2
  rw [W.bind_ok e1, W.bind_forL_eq (W.forL_range r.nodes _ (fun n => fieldLine (fs n) ++ ['\n']) _ ?_)]
  · rw [e2]
    simp only [frameText, lines, joinLines, List.flatMap_map, List.cons_append, List.flatMap_cons, List.flatMap_append, List.flatMap_nil, List.append_assoc, List.append_nil, List.nil_append]
  · intro i hi
    have o := ok _ (List.getElem_mem hi)
    have hd : ∀ k ∈ ["def_cs", "disp_cs", "color"], Dict.get? (opt15 r.nodes.length) (.s k)
      = some (.arrI (List.replicate r.nodes.length 0)) := by
      all_mem
      exact ⟨rfl, rfl, rfl⟩
    obtain ⟨v1, a1, b1⟩ := (h.num.opt (fs := opt15 r.nodes.length)).at_val hi
    obtain ⟨v2, a2, b2⟩ := (h.defCs.opt (fs := opt15 r.nodes.length) (hd _ (by decide))).at_val hi
    obtain ⟨v3, a3, b3⟩ := (h.dispCs.opt (fs := opt15 r.nodes.length) (hd _ (by decide))).at_val hi
    obtain ⟨v4, a4, b4⟩ := (h.color.opt (fs := opt15 r.nodes.length) (hd _ (by decide))).at_val hi
    obtain ⟨v5, a5, b5⟩ := (h.x.opt (fs := opt15 r.nodes.length)).at_val hi
    obtain ⟨v6, a6, b6⟩ := (h.y.opt (fs := opt15 r.nodes.length)).at_val hi
    obtain ⟨v7, a7, b7⟩ := (h.z.opt (fs := opt15 r.nodes.length)).at_val hi
    simp only [W.bind_getDict, List.map_cons, List.map_nil, evalFlds, a1, a2, a3, a4, a5, a6, a7,
      W.bind_lift_ok]
    exact rec7 b1 b2 b3 b4 b5 b6 b7 o _

theorem tok_eU (x : F64) (h : Narrow x) : TokOk 13 (fmtEU 5 x) :=
  ⟨fmtEU_noSpace 5 x h.finite, fmtEU_ne_nil 5 x h.finite, by rw [fmtEU_length]; exact h.narrow⟩

theorem toks (n : Node) (o : NodeOk n) : ∀ f ∈ fs n, TokOk f.1 f.2 := by
  unfold fs
  all_mem
  exact ⟨tok_int _ _ o.num (by decide), tok_int _ _ o.defCs (by decide), tok_int _ _ o.dispCs (by decide),
    tok_int _ _ o.color (by decide), tok_eU _ o.x, tok_eU _ o.y, tok_eU _ o.z⟩

theorem safe (r : DS15) (ok : Ok r) : Safe r.lines := by
  refine Safe.cons (by decide) (tagFree_of_lt _ (by decide) (by decide)) ?_
  intro l hl
  obtain ⟨n, hn, rfl⟩ := List.mem_map.1 hl
  have o := ok n hn
  have t := toks n o
  refine ⟨noBreak_fieldLine _ fun f hf => NoBreak.of_noSpace (t f hf).noSpace, ?_⟩
  have tz := tok_eU _ o.z
  refine tagFree_fieldLine [_, _, _, _, _, _] (13, fmtEU 5 n.z) ?_ tz.noSpace tz.ne ?_ (Or.inl tz.lt)
  · exact Nat.le_trans (Nat.le_of_eq (fieldLine_length (fs n) fun f hf => Nat.le_of_lt (t f hf).lt)) (by simp [fs])
  · intro (e : fmtEU 5 n.z = _)
    have h1 := fmtE_length_ge 5 n.z o.z.finite
    rw [← fmtEU_length, e] at h1
    simp at h1

/-- The values read for one node. -/
def vals (n : Node) : List F64 :=
  [F64.ofInt n.num, F64.ofInt n.defCs, F64.ofInt n.dispCs, F64.ofInt n.color, n.x.quant 5, n.y.quant 5, n.z.quant 5]

theorem read_eq (r : DS15) (ok : Ok r) : extract15 (blockText r.lines) = .ok r.readBack := by
  unfold extract15
  rw [split_block _ (safe r ok)]
  simp only [lines, List.drop_succ_cons, List.drop_zero]
  have e1 : (r.nodes.map fun n => fieldLine (fs n)).flatten = r.nodes.flatMap fun n => fieldLine (fs n) := by
    rw [List.flatMap_def]
  rw [e1, splitWs_rows_join r.nodes fs fun n hn => toks n (ok n hn), mapRes_flatMap r.nodes _ vals ?_]
  · simp only [ok_bind, readGuard]
    rw [everyN_flatMap 7 0 r.nodes vals _ (fun _ _ => rfl) (fun _ _ => rfl),
      everyN_flatMap 7 1 r.nodes vals _ (fun _ _ => rfl) (fun _ _ => rfl),
      everyN_flatMap 7 2 r.nodes vals _ (fun _ _ => rfl) (fun _ _ => rfl),
      everyN_flatMap 7 3 r.nodes vals _ (fun _ _ => rfl) (fun _ _ => rfl),
      everyN_flatMap 7 4 r.nodes vals _ (fun _ _ => rfl) (fun _ _ => rfl),
      everyN_flatMap 7 5 r.nodes vals _ (fun _ _ => rfl) (fun _ _ => rfl),
      everyN_flatMap 7 6 r.nodes vals _ (fun _ _ => rfl) (fun _ _ => rfl)]
    rfl
  · intro n hn
    have o := ok n hn
    exact mapRes_cons (pyFloat_int _) (mapRes_cons (pyFloat_int _) (mapRes_cons (pyFloat_int _)
      (mapRes_cons (pyFloat_int _) (mapRes_cons (pyFloat_fltU 5 _ o.x.finite) (mapRes_cons (pyFloat_fltU 5 _ o.y.finite)
      (mapRes_cons (pyFloat_fltU 5 _ o.z.finite) rfl))))))

theorem roundTrip (d : Dict) (r : DS15) (h : Rep d r) (ok : Ok r) :
    RoundTrip 15 write15 extract15 d r.readBack r.lines :=
  ⟨safe r ok, write_eq d r h ok, (blockType_block _ _ (by decide)).trans (by decide +kernel), read_eq r ok⟩

end DS15
end Verif
