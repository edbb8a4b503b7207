import Verif.Lemmas.RT2411
import Verif.Model.DS82
import Verif.Spec.S82
/-
Round trip of data-set 82.
-/
namespace Verif
open F64

theorem roundMag_pos (n : Nat) (h : 0 < n) : roundMag n 1 ≠ 0 := by
  unfold roundMag
  simp only
  split
  · decide
  · intro e
    obtain ⟨h2, h1⟩ := Nat.add_eq_zero_iff.1 e
    rcases Nat.mul_eq_zero.1 h2 with h3 | h3
    · rw [h3] at h1
      have := rhe_ge n (1 * 2 ^ 0) n (by decide) (by simp)
      omega
    · exact absurd h3 (by decide)

theorem sval_ofInt (n : Int) (h : n.natAbs < 2 ^ 53) : (F64.ofInt n).sval = n * (scale : Int) := by
  obtain ⟨hu, -⟩ := ofInt_exact n h
  unfold sval
  rw [hu]
  have hneg : (F64.ofInt n).neg = decide (n < 0) := rfl
  rw [hneg]
  by_cases hn : n < 0
  · simp only [hn, decide_true, if_true]
    rw [Int.natCast_mul, ← Int.neg_mul]
    congr 1
    omega
  · simp only [hn, decide_false, Bool.false_eq_true, if_false]
    rw [Int.natCast_mul]
    congr 1
    omega

theorem sval_negate (x : F64) : (negate x).sval = - x.sval := by
  unfold sval negate units
  cases x.neg <;> simp

theorem sub_ofInt_zero (a b : Int) (ha : a.natAbs < 2 ^ 53) (hb : b.natAbs < 2 ^ 53) :
    (F64.sub (F64.ofInt b) (F64.ofInt a)).mag = 0 ↔ a = b := by
  obtain ⟨-, fa⟩ := ofInt_exact a ha
  obtain ⟨-, fb⟩ := ofInt_exact b hb
  have sa := sval_ofInt a ha
  have sb := sval_ofInt b hb
  generalize F64.ofInt a = x at *
  generalize F64.ofInt b = y at *
  have nx : x.isNaN = false := by simp [finite, isNaN] at fa ⊢; omega
  have ny : y.isNaN = false := by simp [finite, isNaN] at fb ⊢; omega
  have ix : (negate x).isInf = false := by simp [finite, isInf, negate] at fa ⊢; omega
  have iy : y.isInf = false := by simp [finite, isInf] at fb ⊢; omega
  have nx' : (negate x).isNaN = false := nx
  unfold F64.sub F64.add
  rw [nx, nx', ny, ix, iy, sval_negate, sa, sb]
  simp only [Bool.or_self, Bool.false_eq_true, if_false]
  have hs : (0 : Int) < scale := by exact_mod_cast scale_pos
  have e : b * (scale : Int) + -(a * (scale : Int)) = (b - a) * scale := by ring
  rw [e]
  split
  · rename_i h
    rcases Int.mul_eq_zero.1 h with h | h
    · simp; omega
    · omega
  · rename_i h
    have h0 : 0 < ((b - a) * (scale : Int)).natAbs := by omega
    constructor
    · intro e
      exact absurd e (roundMag_pos _ h0)
    · rintro rfl
      exact absurd (by simp) h

theorem sub_ofInt_dec (a b : Int) (ha : a.natAbs < 2 ^ 53) (hb : b.natAbs < 2 ^ 53) :
    decide ((F64.sub (F64.ofInt b) (F64.ofInt a)).mag ≠ 0) = decide (b ≠ a) := by
  have := sub_ofInt_zero a b ha hb
  rw [decide_eq_decide]
  constructor
  · rintro h rfl; exact h (this.2 rfl)
  · intro h e; exact h (this.1 e).symm

theorem isInt_float {x : F64} {n : Int} (h : x.toInt = some n) : IsInt (.float x) n := by
  simp only [IsInt, Val.toInt, h]

theorem isInt_ofInt (n : Int) (h : n.natAbs < 2 ^ 53) : IsInt (.float (F64.ofInt n)) n :=
  isInt_float (toInt_ofInt n h)

theorem changes_map {α β : Type} (f : α → β) (ne : β → β → Bool) (l : List α) :
    changes ne (l.map f) = changes (fun a b => ne (f a) (f b)) l := by
  induction l with
  | nil => rfl
  | cons a r ih =>
    cases r with
    | nil => rfl
    | cons b r =>
      simp only [List.map_cons] at ih ⊢
      unfold changes
      rw [ih]

theorem changes_congr {α : Type} (ne ne' : α → α → Bool) (l : List α) (h : ∀ a ∈ l, ∀ b ∈ l, ne a b = ne' a b) :
    changes ne l = changes ne' l := by
  induction l with
  | nil => rfl
  | cons a r ih =>
    cases r with
    | nil => rfl
    | cons b r =>
      unfold changes
      rw [ih (fun x hx y hy => h x (by simp [hx]) y (by simp [hy])), h a (by simp) b (by simp)]

/-- Fields of bounded width never leave 74 blanks in a row. -/
theorem no_long_blanks (fs : List (Nat × Text)) (h : ∀ f ∈ fs, TokOk f.1 f.2 ∧ f.1 ≤ 74) (s : Text)
    (hs : s <:+ fieldLine fs) : ¬ blanks 74 <+: s := by
  induction fs with
  | nil =>
    have : s = [] := by simpa [fieldLine_nil] using hs
    subst this
    decide
  | cons f fs ih =>
    obtain ⟨hf, hw⟩ := h f (by simp)
    rw [fieldLine_cons] at hs
    have hsplit : s <:+ fieldLine fs ∨ ∃ u, u <:+ padLeft f.1 f.2 ∧ s = u ++ fieldLine fs := by
      obtain ⟨q, hq⟩ := hs
      rcases List.append_eq_append_iff.1 hq with ⟨a, h1, h2⟩ | ⟨a, h1, h2⟩
      · exact Or.inr ⟨a, ⟨q, h1.symm⟩, h2⟩
      · exact Or.inl ⟨a, h2.symm⟩
    rcases hsplit with hs | ⟨u, hu, rfl⟩
    · exact ih (fun g hg => h g (by simp [hg])) hs
    · cases hl : u.getLast? with
      | none =>
        rw [List.getLast?_eq_none_iff] at hl
        subst hl
        exact ih (fun g hg => h g (by simp [hg])) (by simp)
      | some c =>
        intro hp
        have hlen : u.length ≤ 74 := by
          have := hu.length_le
          rw [padLeft_length _ _ (Nat.le_of_lt hf.lt)] at this
          omega
        have hup : 0 < u.length := by
          rcases u with _ | _
          · simp at hl
          · simp
        have hc : c = ' ' := by
          have e1 := prefix_getElem? hp (i := u.length - 1) (by simp [blanks]; omega)
          rw [List.getElem?_append_left (by omega), ← List.getLast?_eq_getElem?, hl] at e1
          simp only [blanks, List.getElem?_replicate] at e1
          split at e1
          · exact Option.some.inj e1
          · cases e1
        have hmem : c ∈ f.2 := by
          obtain ⟨q, hq⟩ := hu
          have e2 := congrArg List.getLast? hq
          unfold padLeft at e2
          rw [List.getLast?_append, hl, List.getLast?_append] at e2
          cases hl2 : f.2.getLast? with
          | none => rw [List.getLast?_eq_none_iff] at hl2; exact absurd hl2 hf.ne
          | some c' =>
            rw [hl2] at e2
            simp at e2
            rw [e2]; exact List.mem_of_getLast? hl2
        have := hf.noSpace c hmem
        rw [hc] at this
        exact absurd this (by decide)

/-- Lines of any number of fields. -/
theorem tagFree_fields (fs : List (Nat × Text)) (h : ∀ f ∈ fs, (TokOk f.1 f.2 ∧ f.1 ≤ 74) ∧ f.2 ≠ ['-', '1']) :
    TagFree (fieldLine fs) := by
  intro s hs
  constructor
  · rintro rfl
    rcases List.eq_nil_or_concat fs with rfl | ⟨fs', f, rfl⟩
    · simp [fieldLine_nil, tagText] at hs
    · rw [List.concat_eq_append] at hs h
      have hf := h f (by simp)
      have e : fieldLine (fs' ++ [f]) = fieldLine fs' ++ padLeft f.1 f.2 := by simp [fieldLine]
      rw [e] at hs
      exact not_tag_field _ _ _ hf.1.1.noSpace hf.2 (Or.inl hf.1.1.lt) hf.1.1.ne hs
  · intro hp
    refine no_long_blanks fs (fun f hf => (h f hf).1) (s.drop 6) ((List.drop_suffix 6 s).trans hs) ?_
    obtain ⟨q, rfl⟩ := hp
    rw [List.append_assoc, List.drop_append]
    simp [tagText]

namespace DS82

/-- The fields of nodes. -/
def fs (l : List Int) : List (Nat × Text) := l.map fun n => (10, intRepr n)

/-- The nodes of each line. -/
def rows (r : DS82) : List (List Int) :=
  ((List.range (runs r.nodes / 8)).map fun i => slice r.nodes (8 * i) (8 * i + 8)) ++
    (if 0 < runs r.nodes % 8 then [r.nodes.drop (8 * (runs r.nodes / 8))] else [])

/-- The first line. -/
def l1 (r : DS82) : List Text :=
  [padLeft 10 (intRepr r.trace), padLeft 10 (intRepr (runs r.nodes)), padLeft 10 (intRepr r.color)]

/-- The lines between the delimiters. -/
def lines (r : DS82) : List Text :=
  idLine 82 :: (l1 r).flatten :: padRight 80 r.id :: r.rows.map fun l => fieldLine (fs l)

theorem changes_runs (l : List Int) : changes (fun a b => decide (b ≠ a)) l + 1 = runs l := by
  induction l with
  | nil => rfl
  | cons a r ih =>
    cases r with
    | nil => rfl
    | cons b r =>
      unfold changes runs
      rw [← ih]
      by_cases h : a = b
      · subst h; simp
      · have h' : ¬ b = a := fun e => h e.symm
        simp [h, h']; omega

theorem nodes82_eq (d : Dict) (r : DS82) (h : Rep d r) (ok : Ok r) :
    ∃ v xs, d.get? "nodes" = some v ∧ nodes82 v = .ok (runs r.nodes, xs) ∧
      ∃ f : Int → Val, xs = r.nodes.map f ∧ ∀ n ∈ r.nodes, fmtI 10 (f n) = .ok (padLeft 10 (intRepr n)) := by
  have hb : ∀ n ∈ r.nodes, n.natAbs < 2 ^ 53 := by
    intro n hn
    obtain ⟨⟨h1, h2⟩, -⟩ := ok.nodes n hn
    simp at h1 h2
    omega
  rcases h.nodes with h | h
  · refine ⟨_, _, h, by rw [nodes82, changes_runs], .int, rfl, fun n _ => fmtI_eq (isInt_int n) 10⟩
  · refine ⟨_, _, h, ?_, fun n => .float (F64.ofInt n), rfl, fun n hn => fmtI_eq (isInt_ofInt n (hb n hn)) 10⟩
    rw [nodes82, changes_map, changes_congr _ (fun a b => decide (b ≠ a)) r.nodes
      (fun a ha b hb' => sub_ofInt_dec a b (hb a ha) (hb b hb')), changes_runs, List.map_map]
    exact congrArg _ (congrArg _ (List.map_congr_left fun _ _ => rfl))

theorem nodeLine_eq (f : Int → Val) (l : List Int) (h : ∀ n ∈ l, fmtI 10 (f n) = .ok (padLeft 10 (intRepr n)))
    (d : Dict) : nodeLine (l.map f) d = ⟨fieldLine (fs l) ++ ['\n'], d, .ok ()⟩ := by
  unfold nodeLine
  simp only [W.bind_eq]
  rw [mapRes_map l f (fun n => padLeft 10 (intRepr n)) h, W.bind_lift_ok, W.emit_eq]
  simp [fieldLine, fs, List.map_map, Function.comp_def]

theorem slice_map {α β : Type} (f : α → β) (l : List α) (i j : Nat) : slice (l.map f) i j = (slice l i j).map f := by
  simp [slice]

theorem slice_mem {α : Type} {l : List α} {i j : Nat} {a : α} (h : a ∈ slice l i j) : a ∈ l :=
  List.mem_of_mem_drop (List.mem_of_mem_take h)

theorem write_eq (d : Dict) (r : DS82) (h : Rep d r) (ok : Ok r) :
    write82 d = ⟨frameText r.lines, optFields d [("id", .str "NONE".toList), ("color", .int 0)], .ok ()⟩ := by
  obtain ⟨v, xs, hv, hn, f, rfl, hf⟩ := nodes82_eq d r h ok
  unfold write82
  apply W.guarded_ok
  simp only [W.bind_eq, W.bind_opt]
  rw [W.bind_key (get?_opt_present hv), hn]
  simp only [W.bind_lift_ok, W.bind_emit]
  rw [W.bind_row (.cons (h.trace.opt.fld 10) (.cons (fld_c (fmtI_eq (isInt_int _) 10))
      (.cons ((h.color.opt rfl).fld 10) .nil))),
    W.bind_row (.cons ((h.id.opt rfl).fldL 80) .nil),
    W.bind_forL_eq (W.forL_ok _ _ (fun i => fieldLine (fs (slice r.nodes (8 * i) (8 * i + 8))) ++ ['\n']) _ ?_)]
  · have hr : W.when (0 < runs r.nodes % 8) (nodeLine ((r.nodes.map f).drop (8 * (runs r.nodes / 8))))
        (optFields d [("id", .str "NONE".toList), ("color", .int 0)])
        = ⟨(if 0 < runs r.nodes % 8 then [r.nodes.drop (8 * (runs r.nodes / 8))] else []).flatMap
            (fun l => fieldLine (fs l) ++ ['\n']), optFields d [("id", .str "NONE".toList), ("color", .int 0)], .ok ()⟩ := by
      unfold W.when
      split
      · rw [← List.map_drop, nodeLine_eq f _ (fun n hn => hf n (List.mem_of_mem_drop hn))]
        simp
      · rfl
    rw [W.bind_ok hr]
    simp only [W.emit_eq]
    simp [frameText, lines, rows, l1, headText_eq, tailText, tagText, joinLines, List.flatMap_append, List.flatMap_map]
    rfl
  · intro i hi
    rw [slice_map]
    exact nodeLine_eq f _ (fun n hn => hf n (slice_mem hn)) _

theorem tok (r : DS82) (ok : Ok r) {l : List Int} (hl : ∀ n ∈ l, n ∈ r.nodes) :
    ∀ f ∈ fs l, (TokOk f.1 f.2 ∧ f.1 ≤ 74) ∧ f.2 ≠ ['-', '1'] := by
  intro f hf
  obtain ⟨n, hn, rfl⟩ := List.mem_map.1 hf
  have o := ok.nodes n (hl n hn)
  exact ⟨⟨tok_int 10 _ o.1 (by decide), (by decide : 10 ≤ 74)⟩, fun e => o.2 (intRepr_eq_minus_one n e)⟩

theorem rows_mem (r : DS82) : ∀ l ∈ r.rows, ∀ n ∈ l, n ∈ r.nodes := by
  intro l hl n hn
  rcases List.mem_append.1 hl with hl | hl
  · obtain ⟨i, -, rfl⟩ := List.mem_map.1 hl
    exact slice_mem hn
  · split at hl
    · simp only [List.mem_singleton] at hl
      subst hl
      exact List.mem_of_mem_drop hn
    · cases hl

theorem safe (r : DS82) (ok : Ok r) : Safe r.lines := by
  refine safe_idLine 82 (by decide) (by decide) (by decide) (by decide) (Safe.cons ?_ ?_ (Safe.cons ?_ ?_ ?_))
  · apply noBreak_fields
    unfold l1
    all_mem
    exact ⟨noBreak_int _ _, noBreak_int _ _, noBreak_int _ _⟩
  · refine tagFree_int [_, _] 10 _ ?_ ok.color ok.color1 (by decide)
    simp [len_int 10 _ ok.trace, len_int 10 _ ok.runs]
  · exact ok.id.noBreak.padRight
  · exact ok.id.tagFree
  · intro l hl
    obtain ⟨ns, hns, rfl⟩ := List.mem_map.1 hl
    have t := tok r ok (rows_mem r ns hns)
    exact ⟨noBreak_fieldLine _ fun f hf => NoBreak.of_noSpace (t f hf).1.1.noSpace, tagFree_fields _ t⟩

theorem runs_le (l : List Int) (h : l ≠ []) : runs l ≤ l.length := by
  induction l with
  | nil => exact absurd rfl h
  | cons a r ih =>
    cases r with
    | nil => simp [runs]
    | cons b r =>
      have := ih (by simp)
      unfold runs
      simp only [List.length_cons] at this ⊢
      split <;> omega

theorem flatten_slices {α : Type} (l : List α) (k : Nat) (h : 8 * k ≤ l.length) :
    ((List.range k).map fun i => slice l (8 * i) (8 * i + 8)).flatten = l.take (8 * k) := by
  induction k with
  | zero => simp
  | succ k ih =>
    rw [List.range_succ, List.map_append, List.flatten_append, ih (by omega)]
    simp only [List.map_cons, List.map_nil, List.flatten_cons, List.flatten_nil, List.append_nil, slice]
    rw [Nat.mul_succ, List.take_add]
    congr 1
    congr 1
    omega

theorem rows_flatten (r : DS82) : r.rows.flatten = r.stored := by
  unfold rows stored
  by_cases h0 : r.nodes = []
  · rw [h0]; decide
  · have hle := runs_le r.nodes h0
    rw [List.flatten_append, flatten_slices _ _ (by omega)]
    split
    · rw [if_neg (by omega)]; simp
    · rename_i hm
      rw [if_pos (by omega), List.flatten_nil, List.append_nil]
      congr 1
      omega

theorem tokens (r : DS82) (ok : Ok r) :
    splitWs ((r.rows.map fun l => fieldLine (fs l)).map (· ++ ['\n'])).flatten = r.stored.map intRepr := by
  have h := splitWs_lines (r.rows.map fs) [] (by
    intro l hl g hg
    obtain ⟨ns, hns, rfl⟩ := List.mem_map.1 hl
    exact (tok r ok (rows_mem r ns hns) g hg).1.1)
  rw [List.append_nil, splitWs_nil, List.append_nil] at h
  have e1 : ((r.rows.map fun l => fieldLine (fs l)).map (· ++ ['\n'])).flatten
      = (r.rows.map fs).flatMap fun l => fieldLine l ++ ['\n'] := by
    simp [List.flatMap_def, List.map_map, Function.comp_def]
  have e2 : ((r.rows.map fs).flatten.map (·.2)) = r.rows.flatten.map intRepr := by
    simp [fs, List.map_flatten, List.map_map, Function.comp_def]
  rw [e1, h, e2, rows_flatten r]

theorem read1 (r : DS82) (ok : Ok r) (rest : Text) :
    parseHeader ((l1 r).flatten ++ rest) 3 [10, 10, 10] [.int, .int, .int] ["trace_num", "n_nodes", "color"]
      = .ok [("trace_num", .int r.trace), ("n_nodes", .int (runs r.nodes)), ("color", .int r.color)] := by
  rw [parseHeader_fields _ _ _ _ _ _
    (by simp [l1, len_int 10 _ ok.trace, len_int 10 _ ok.runs, len_int 10 _ ok.color]) (by simp [l1]) (by simp [l1])]
  simp only [l1, List.map_cons, List.map_nil, headerLoop_cons, headerField_int]
  simp only [headerLoop]
  build_dict

theorem read_eq (r : DS82) (ok : Ok r) : extract82 (blockText r.lines) = .ok r.readBack := by
  unfold extract82
  rw [splitKeep_block _ (safe r ok)]
  simp only [lines, List.map_cons, List.getElem?_cons_succ, List.getElem?_cons_zero, orIndex, List.drop_succ_cons,
    List.drop_zero]
  simp only [ok_bind, read1 r ok, parseHeader_str 80 r.id _ _ ok.id.fits]
  rw [tokens r ok, mapRes_map r.stored intRepr F64.ofInt fun n _ => pyFloat_int n]
  simp only [ok_bind, readGuard]
  build_dict

theorem roundTrip (d : Dict) (r : DS82) (h : Rep d r) (ok : Ok r) :
    RoundTrip 82 write82 extract82 d r.readBack r.lines :=
  ⟨safe r ok, ⟨_, write_eq d r h ok⟩, (blockType_block _ _ (by decide)).trans (by decide +kernel), read_eq r ok⟩

end DS82
end Verif
