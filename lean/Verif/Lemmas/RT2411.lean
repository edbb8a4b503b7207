import Verif.Lemmas.Loop
import Verif.Lemmas.RT1858
import Verif.Model.DS2411
import Verif.Spec.S2411
/-
Round trip of data-set 2411.
-/
namespace Verif
namespace DS2411

/-- The fields of the first line of a node. -/
def f1 (n : Node) : List (Nat × Text) :=
  [(10, intRepr n.num), (10, intRepr n.defCs), (10, intRepr n.dispCs), (10, intRepr n.color)]
/-- The fields of the second line of a node. -/
def f2 (n : Node) : List (Nat × Text) := [(25, fmtE 16 n.x), (25, fmtE 16 n.y), (25, fmtE 16 n.z)]

/-- The lines between the delimiters. -/
def lines (r : DS2411) : List Text :=
  idLine 2411 :: r.nodes.flatMap fun n => [fieldLine (f1 n), fieldLine (f2 n)]

theorem intCall_eq {v : Val} {n : Int} (h : IsInt v n) : v.intCall = .ok n := by
  cases v <;> first | exact h | (simp [IsInt, Val.toInt] at h)

theorem write_eq (d : Dict) (r : DS2411) (h : Rep d r) :
    write2411 d = ⟨frameText r.lines, d, .ok ()⟩ := by
  obtain ⟨v, hv, xs, hi, hl, hx⟩ := h.num
  unfold write2411
  apply W.guardedAny_ok
  simp only [W.bind_eq, W.bind_opt, W.bind_emit, optFields]
  rw [W.bind_key hv, hi]
  simp only [W.bind_lift_ok]
  rw [W.bind_forL_eq (W.forL_enum xs r.nodes _ (fun n => (fieldLine (f1 n) ++ ['\n']) ++ (fieldLine (f2 n) ++ ['\n'])) d
    (by simpa using hl) ?_)]
  · simp only [W.emit_eq]
    simp [frameText, lines, headText_eq, tailText, tagText, joinLines_append, joinLines_flatMap]
    rfl
  · intro i h1 h2
    rw [W.bind_row (.cons ⟨.int (r.nodes[i].num), ?_, fmtI_eq (isInt_int _) 10⟩ (.cons (h.defCs.at_row h2 _)
      (.cons (h.dispCs.at_row h2 _) (.cons (h.color.at_row h2 _) .nil)))),
      W.row_eq (.cons (h.x.at_row h2 _ _) (.cons (h.y.at_row h2 _ _) (.cons (h.z.at_row h2 _ _) .nil)))]
    · rfl
    · have := hx i h1 (by simpa using h2)
      rw [List.getElem_map] at this
      simp only [intCall_eq this]; rfl

theorem tok1 (n : Node) (ok : NodeOk n) : ∀ f ∈ f1 n, TokOk f.1 f.2 := by
  unfold f1
  all_mem
  exact ⟨tok_int _ _ ok.num (by decide), tok_int _ _ ok.defCs (by decide), tok_int _ _ ok.dispCs (by decide),
    tok_int _ _ ok.color (by decide)⟩
theorem tok2 (n : Node) (ok : NodeOk n) : ∀ f ∈ f2 n, TokOk f.1 f.2 := by
  unfold f2
  all_mem
  exact ⟨tok_flt _ _ _ ok.x (by decide), tok_flt _ _ _ ok.y (by decide), tok_flt _ _ _ ok.z (by decide)⟩

theorem safe (r : DS2411) (ok : Ok r) : Safe r.lines := by
  refine safe_idLine 2411 (by decide) (by decide) (by decide) (by decide) (Safe.flatMap fun n hn => ?_)
  have o := ok n hn
  refine Safe.cons ?_ ?_ (Safe.cons ?_ ?_ Safe.nil)
  · exact noBreak_fieldLine _ fun f hf => NoBreak.of_noSpace (tok1 n o f hf).noSpace
  · refine tagFree_int [_, _, _] 10 _ ?_ (o.color.mono (by decide)) o.color1 (by decide)
    simp [len_int 10 _ (o.num.mono (by decide)), len_int 10 _ (o.defCs.mono (by decide)),
      len_int 10 _ (o.dispCs.mono (by decide))]
  · exact noBreak_fieldLine _ fun f hf => NoBreak.of_noSpace (tok2 n o f hf).noSpace
  · refine tagFree_flt [_, _] 25 16 _ ?_ o.z (by decide)
    simp [len_flt 25 16 _ o.x, len_flt 25 16 _ o.y]

theorem replaceChar_none (a b : Char) (t : Text) (h : ∀ c ∈ t, c ≠ a) : replaceChar a b t = t := by
  unfold replaceChar
  have : t.map (fun c => if c = a then b else c) = t.map id := by
    apply List.map_congr_left
    intro c hc
    simp [h c hc]
  simpa using this

theorem deFloat_int (n : Int) : deFloat (intRepr n) = .ok (F64.ofInt n) := by
  unfold deFloat
  have hd : ∀ c, ¬ IsDigit c → c ≠ '-' → ∀ a ∈ intRepr n, a ≠ c := by
    intro c h1 h2 a ha e
    subst e
    rcases intRepr_chars n a ha with h | h
    · exact h1 h
    · exact h2 h
  rw [replaceChar_none 'D' 'E' _ (hd 'D' (by decide) (by decide)),
    replaceChar_none 'd' 'E' _ (hd 'd' (by decide) (by decide))]
  exact pyFloat_int n

theorem deFloat_flt (p : Nat) (x : F64) (hx : x.finite = true) : deFloat (fmtE p x) = .ok (x.quant p) := by
  unfold deFloat
  have hd : ∀ c, ¬ IsNumChar c → ∀ a ∈ fmtE p x, a ≠ c := by
    intro c h1 a ha e
    subst e
    exact h1 (fmtE_chars p x hx a ha)
  rw [replaceChar_none 'D' 'E' _ (hd 'D' (by unfold IsNumChar; decide)),
    replaceChar_none 'd' 'E' _ (hd 'd' (by unfold IsNumChar; decide))]
  exact pyFloat_flt p x hx

/-- The values read for one node. -/
def vals (n : Node) : List F64 :=
  [F64.ofInt n.num, F64.ofInt n.defCs, F64.ofInt n.dispCs, F64.ofInt n.color, n.x, n.y, n.z]

theorem tokens (r : DS2411) (ok : Ok r) :
    splitWs (((r.nodes.flatMap fun n => [fieldLine (f1 n), fieldLine (f2 n)]).map (· ++ ['\n'])).flatten)
      = r.nodes.flatMap fun n => (f1 n ++ f2 n).map (·.2) := by
  have h := splitWs_lines (r.nodes.flatMap fun n => [f1 n, f2 n]) [] (by
    intro l hl g hg
    obtain ⟨n, hn, hl⟩ := List.mem_flatMap.1 hl
    simp only [List.mem_cons, List.not_mem_nil, or_false] at hl
    rcases hl with rfl | rfl
    · exact tok1 n (ok n hn) g hg
    · exact tok2 n (ok n hn) g hg)
  rw [List.append_nil, splitWs_nil, List.append_nil] at h
  have e1 : (((r.nodes.flatMap fun n => [fieldLine (f1 n), fieldLine (f2 n)]).map (· ++ ['\n'])).flatten)
      = ((r.nodes.flatMap fun n => [f1 n, f2 n]).flatMap fun l => fieldLine l ++ ['\n']) := by
    simp [List.flatMap_def, List.map_flatten, List.map_map, Function.comp_def]
  rw [e1, h, List.flatten_eq_flatMap, List.flatMap_assoc]
  simp [List.map_flatMap]

theorem read_eq (r : DS2411) (ok : Ok r) : extract2411 (blockText r.lines) = .ok r.readBack := by
  unfold extract2411
  rw [splitKeep_block _ (safe r ok)]
  simp only [lines, List.map_cons, List.drop_succ_cons, List.drop_zero]
  rw [tokens r ok, mapRes_flatMap r.nodes _ vals ?_]
  · simp only [ok_bind, readGuard]
    rw [everyN_flatMap 7 0 r.nodes vals _ (fun _ _ => rfl) (fun _ _ => rfl),
      everyN_flatMap 7 1 r.nodes vals _ (fun _ _ => rfl) (fun _ _ => rfl),
      everyN_flatMap 7 2 r.nodes vals _ (fun _ _ => rfl) (fun _ _ => rfl),
      everyN_flatMap 7 3 r.nodes vals _ (fun _ _ => rfl) (fun _ _ => rfl),
      everyN_flatMap 7 4 r.nodes vals _ (fun _ _ => rfl) (fun _ _ => rfl),
      everyN_flatMap 7 5 r.nodes vals _ (fun _ _ => rfl) (fun _ _ => rfl),
      everyN_flatMap 7 6 r.nodes vals _ (fun _ _ => rfl) (fun _ _ => rfl)]
    rfl
  · intro n hn
    have o := ok n hn
    have q : ∀ x : F64, x.finite = true → deFloat (fmtE 16 x) = .ok x := by
      intro x hx; rw [deFloat_flt 16 x hx, quant_exact 16 (by decide) x hx]
    exact mapRes_cons (deFloat_int _) (mapRes_cons (deFloat_int _) (mapRes_cons (deFloat_int _)
      (mapRes_cons (deFloat_int _) (mapRes_cons (q _ o.x) (mapRes_cons (q _ o.y) (mapRes_cons (q _ o.z) rfl))))))

theorem roundTrip (d : Dict) (r : DS2411) (h : Rep d r) (ok : Ok r) :
    RoundTrip 2411 write2411 extract2411 d r.readBack r.lines :=
  ⟨safe r ok, ⟨_, write_eq d r h⟩, (blockType_block _ _ (by decide)).trans (by decide +kernel), read_eq r ok⟩

end DS2411
end Verif
