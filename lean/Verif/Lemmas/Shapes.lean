import Verif.Spec.Shapes
import Verif.Lemmas.Results2
import Verif.Lemmas.RT55
/-
Reading data at nodes line by line.
-/
namespace Verif
namespace Shapes
open Records Results Systems

theorem good_load (l : Text) : Good l 4 [10, 10, 10, 10, 10, 10, 10, 10] [.ign, .ign, .int, .int, .ign, .ign, .ign, .ign] ↔
    IntAt l 20 10 ∧ IntAt l 30 10 := by
  constructor
  · intro h; exact ⟨h 2 (by omega) .int rfl, h 3 (by omega) .int rfl⟩
  · rintro ⟨h1, h2⟩ i hi ty hty
    match i, hi, hty with
    | 0, _, rfl => trivial
    | 1, _, rfl => trivial
    | 2, _, rfl => exact h1
    | 3, _, rfl => exact h2

theorem named_load (l : Text) (k : Key) : namedFields l [10, 10, 10, 10, 10, 10, 10, 10] [.ign, .ign, .int, .int, .ign, .ign, .ign, .ign]
    ["", "", "load_case", k, "", "", "", ""] = ([("load_case", .int (intAt l 20 10)), (k, .int (intAt l 30 10))] : Dict) := rfl

theorem good_flt4 (l : Text) : Good l 4 [13, 13, 13, 13, 13, 13] [.flt, .flt, .flt, .flt, .ign, .ign] ↔ ∀ i < 4, FloatAt l (13 * i) 13 := by
  constructor
  · intro h i hi
    match i, hi with
    | 0, _ => exact h 0 (by omega) .flt rfl
    | 1, _ => exact h 1 (by omega) .flt rfl
    | 2, _ => exact h 2 (by omega) .flt rfl
    | 3, _ => exact h 3 (by omega) .flt rfl
  · intro h i hi ty hty
    match i, hi, hty with
    | 0, _, rfl => exact h 0 (by omega)
    | 1, _, rfl => exact h 1 (by omega)
    | 2, _, rfl => exact h 2 (by omega)
    | 3, _, rfl => exact h 3 (by omega)

theorem good_flt46 (l : Text) : Good l 4 [13, 13, 13, 13, 13, 13] [.flt, .flt, .flt, .flt, .flt, .flt] ↔ ∀ i < 4, FloatAt l (13 * i) 13 := by
  constructor
  · intro h i hi
    match i, hi with
    | 0, _ => exact h 0 (by omega) .flt rfl
    | 1, _ => exact h 1 (by omega) .flt rfl
    | 2, _ => exact h 2 (by omega) .flt rfl
    | 3, _ => exact h 3 (by omega) .flt rfl
  · intro h i hi ty hty
    match i, hi, hty with
    | 0, _, rfl => exact h 0 (by omega)
    | 1, _, rfl => exact h 1 (by omega)
    | 2, _, rfl => exact h 2 (by omega)
    | 3, _, rfl => exact h 3 (by omega)

theorem good_flt11 (l : Text) : Good l 1 [13, 13, 13, 13, 13, 13] [.flt, .ign, .ign, .ign, .ign, .ign] ↔ FloatAt l 0 13 := by
  constructor
  · intro h; exact h 0 (by omega) .flt rfl
  · intro h i hi ty hty
    obtain rfl : i = 0 := by omega
    cases hty; exact h

theorem named_flt4 (l : Text) (a b c d : Key) : namedFields l [13, 13, 13, 13, 13, 13] [.flt, .flt, .flt, .flt, .ign, .ign] [a, b, c, d, "", ""] =
    [(a, .float (floatAt l 0 13)), (b, .float (floatAt l 13 13)), (c, .float (floatAt l 26 13)), (d, .float (floatAt l 39 13))] := rfl

theorem named_flt11 (l : Text) (a : Key) : namedFields l [13, 13, 13, 13, 13, 13] [.flt, .ign, .ign, .ign, .ign, .ign] [a, "", "", "", "", ""] =
    [(a, .float (floatAt l 0 13))] := rfl

theorem first_keys (h : ShapeLines) : h.first.map (·.1) = (["type", "id1", "id2", "id3", "id4", "id5", "model_type", "analysis_type", "data_ch",
    "spec_data_type", "data_type", "n_data_per_node"] : List Key) := by
  unfold ShapeLines.first; simp only [List.map_cons, List.map_nil]

theorem second_keys (h : ShapeLines) : h.second.map (·.1) ∈ ([["load_case", "mode_n", "freq", "modal_m", "modal_damp_vis", "modal_damp_his"],
    ["load_case", "mode_n", "modal_a", "modal_b", "eig"], ["load_case", "freq_step_n", "freq"], []] : List (List Key)) := by
  unfold ShapeLines.second
  split
  · simp
  · split
    · simp
    · split <;> simp

theorem get_analysis (h : ShapeLines) : Dict.get h.first "analysis_type" = .ok (.int h.analysis) := rfl

/-- The conditions on records 7 and 8. -/
def Second (h : ShapeLines) : Prop :=
  if h.analysis = 2 ∨ h.analysis = 3 ∨ h.analysis = 7 then
    IntAt h.r7 20 10 ∧ IntAt h.r7 30 10 ∧ ∀ i < 4, FloatAt h.r8 (13 * i) 13
  else if h.analysis = 5 then IntAt h.r7 20 10 ∧ IntAt h.r7 30 10 ∧ FloatAt h.r8 0 13
  else True

theorem join_ok (h : ShapeLines) (hf : ∀ i < 6, (floatAt h.r8 (13 * i) 13).finite = true) :
    joinParts ((h.first.update [("load_case", .int (intAt h.r7 20 10)), ("mode_n", .int (intAt h.r7 30 10))]).update
      [("eig_r", .float (floatAt h.r8 0 13)), ("eig_i", .float (floatAt h.r8 13 13)), ("modal_a_r", .float (floatAt h.r8 26 13)),
       ("modal_a_i", .float (floatAt h.r8 39 13)), ("modal_b_r", .float (floatAt h.r8 52 13)), ("modal_b_i", .float (floatAt h.r8 65 13))]) =
    .ok (h.first ++ ([("load_case", .int (intAt h.r7 20 10)), ("mode_n", .int (intAt h.r7 30 10)), ("modal_a", ShapeLines.cplxAt h.r8 26 39),
     ("modal_b", ShapeLines.cplxAt h.r8 52 65), ("eig", ShapeLines.cplxAt h.r8 0 13)] : Dict)) := by
  rw [Dict.update_update, Dict.update_fresh, ← List.append_assoc, DS55.joinParts_fresh, DS55.joinParts_tail, cplxOf_eq _ _ (hf 2 (by omega)) (hf 3 (by omega)),
    cplxOf_eq _ _ (hf 4 (by omega)) (hf 5 (by omega)), cplxOf_eq _ _ (hf 0 (by omega)) (hf 1 (by omega))]
  · simp only [List.append_assoc]
    rfl
  · rw [List.map_append, first_keys]
    unfold DS55.partKeys
    simp only [List.map_cons, List.map_nil]
    decide +kernel
  · rw [List.map_append, first_keys]
    simp only [List.map_append, List.map_cons, List.map_nil]
    decide +kernel

theorem second_ok (h : ShapeLines) (data : List Text) (hs : Second h) (hf : h.Finite) : readHead55 (h.lines ++ data) h.first = .ok h.dict := by
  unfold readHead55 Second ShapeLines.Finite ShapeLines.dict ShapeLines.second at *
  rw [get_analysis, ok_bind, an55_int, ok_bind]
  have i8 : (h.lines ++ data)[8]? = some h.r7 := rfl
  have i9 : (h.lines ++ data)[9]? = some h.r8 := rfl
  rw [i8, i9]
  by_cases h2 : h.analysis = 2
  · rw [if_pos (.inl h2)] at hs
    rw [if_pos h2, if_pos h2]
    simp (disch := decide) only [orIndex, ok_bind, head_bind, good_load, named_load, good_flt4, named_flt4, hs, true_and]
    refine ⟨hs.2.2, ?_⟩
    rw [Dict.update_update, Dict.update_fresh]
    · rfl
    · rw [List.map_append, first_keys]
      simp only [List.map_append, List.map_cons, List.map_nil]
      decide +kernel
  · by_cases h3 : h.analysis = 3 ∨ h.analysis = 7
    · rw [if_pos (.inr h3)] at hs
      rw [if_neg h2, if_neg h2, if_pos h3, if_pos h3]
      simp (disch := decide) only [orIndex, ok_bind, head_bind, good_load, named_load, good_flt46, named_flt6, hs, true_and]
      exact ⟨hs.2.2, join_ok h (hf h3)⟩
    · rw [if_neg (by rintro (h | h); exact h2 h; exact h3 h)] at hs
      rw [if_neg h2, if_neg h2, if_neg h3, if_neg h3]
      by_cases h5 : h.analysis = 5
      · rw [if_pos h5] at hs
        rw [if_pos h5, if_pos h5]
        simp (disch := decide) only [orIndex, ok_bind, head_bind, good_load, named_load, good_flt11, named_flt11, hs, true_and]
        rw [Dict.update_update, Dict.update_fresh]
        · rfl
        · rw [List.map_append, first_keys]
          simp only [List.map_append, List.map_cons, List.map_nil]
          decide +kernel
      · rw [if_neg h5, if_neg h5, List.append_nil]

theorem second_needs (h : ShapeLines) (data : List Text) (d : Dict) (hd : readHead55 (h.lines ++ data) h.first = .ok d) : Second h := by
  unfold readHead55 Second at *
  rw [get_analysis, ok_bind, an55_int, ok_bind] at hd
  have i8 : (h.lines ++ data)[8]? = some h.r7 := rfl
  have i9 : (h.lines ++ data)[9]? = some h.r8 := rfl
  rw [i8, i9] at hd
  by_cases h2 : h.analysis = 2
  · rw [if_pos (.inl h2)]
    rw [if_pos h2] at hd
    simp (disch := decide) only [orIndex, ok_bind, head_bind, good_load, good_flt4] at hd
    exact ⟨hd.1.1, hd.1.2, hd.2.1⟩
  · by_cases h3 : h.analysis = 3 ∨ h.analysis = 7
    · rw [if_pos (.inr h3)]
      rw [if_neg h2, if_pos h3] at hd
      simp (disch := decide) only [orIndex, ok_bind, head_bind, good_load, good_flt46] at hd
      exact ⟨hd.1.1, hd.1.2, hd.2.1⟩
    · rw [if_neg (by rintro (h | h); exact h2 h; exact h3 h)]
      rw [if_neg h2, if_neg h3] at hd
      by_cases h5 : h.analysis = 5
      · rw [if_pos h5]
        rw [if_pos h5] at hd
        simp (disch := decide) only [orIndex, ok_bind, head_bind, good_load, good_flt11] at hd
        exact ⟨hd.1.1, hd.1.2, hd.2.1⟩
      · rw [if_neg h5]; trivial

/-- The header of a data-set 55 up to record 6. -/
def readFirst55 (ls : List Text) : Res Dict := do
  let e2 ← parseHeader (← orIndex ls[2]?) 1 [80] [.str] ["id1"]
  let e3 ← parseHeader (← orIndex ls[3]?) 1 [80] [.str] ["id2"]
  let e4 ← parseHeader (← orIndex ls[4]?) 1 [80] [.str] ["id3"]
  let e5 ← parseHeader (← orIndex ls[5]?) 1 [80] [.str] ["id4"]
  let e6 ← parseHeader (← orIndex ls[6]?) 1 [80] [.str] ["id5"]
  let e7 ← parseHeader (← orIndex ls[7]?) 6 [10, 10, 10, 10, 10, 10] [.int, .int, .int, .int, .int, .int]
    ["model_type", "analysis_type", "data_ch", "spec_data_type", "data_type", "n_data_per_node"]
  let d : Dict := [("type", .int 55)]
  .ok ((((((d.update e2).update e3).update e4).update e5).update e6).update e7)

theorem extract_eq (t : Text) : extract55 t = readGuard 55 (readFirst55 (splitLinesKeep t) >>= fun d =>
    readHead55 (splitLinesKeep t) d >>= fun d => readBody55 ((splitLinesKeep t).drop 10).flatten d) := by
  unfold extract55 readFirst55
  simp only [bind_assoc, ok_bind]

theorem first_iff (h : ShapeLines) (data : List Text) (d : Dict) :
    readFirst55 (h.lines ++ data) = .ok d ↔ (∀ i < 6, IntAt h.types (10 * i) 10) ∧ d = h.first := by
  unfold readFirst55 ShapeLines.lines
  simp (disch := decide) only [List.cons_append, List.getElem?_cons_succ, List.getElem?_cons_zero, index_bind, head_bind, good_str, good_types,
    named_text, named_types, Option.some.injEq, exists_eq_left', true_and, Except.ok.injEq]
  constructor
  · rintro ⟨h1, hd⟩
    exact ⟨h1, by rw [← hd]; unfold ShapeLines.first ShapeLines.analysis ShapeLines.dataType ShapeLines.comps; build_dict⟩
  · rintro ⟨h1, hd⟩
    exact ⟨h1, by rw [hd]; unfold ShapeLines.first ShapeLines.analysis ShapeLines.dataType ShapeLines.comps; build_dict⟩

theorem known_first (ls : List Text) : Known (readFirst55 ls) := by unfold readFirst55; known

theorem join_some (h : ShapeLines) : ∃ d,
    joinParts ((h.first.update ([("load_case", .int (intAt h.r7 20 10)), ("mode_n", .int (intAt h.r7 30 10))] : Dict)).update
      [("eig_r", .float (floatAt h.r8 0 13)), ("eig_i", .float (floatAt h.r8 13 13)), ("modal_a_r", .float (floatAt h.r8 26 13)),
       ("modal_a_i", .float (floatAt h.r8 39 13)), ("modal_b_r", .float (floatAt h.r8 52 13)), ("modal_b_i", .float (floatAt h.r8 65 13))]) = .ok d := by
  rw [Dict.update_update, Dict.update_fresh, ← List.append_assoc, DS55.joinParts_fresh, DS55.joinParts_tail]
  · exact ⟨_, rfl⟩
  · rw [List.map_append, first_keys]
    unfold DS55.partKeys
    simp only [List.map_cons, List.map_nil]
    decide +kernel
  · rw [List.map_append, first_keys]
    simp only [List.map_append, List.map_cons, List.map_nil]
    decide +kernel

theorem head_value {line : Text} {min : Nat} {widths : List Nat} {types : List FTy} {names : List Key} (hs : Shape min widths types names) {e : Dict}
    (h : parseHeader line min widths types names = .ok e) : e = namedFields line widths types names := by
  have := (head_bind hs (F := fun d => .ok d) (d := e)).1 (by rw [h]; rfl)
  cases this.2; rfl

theorem known_second (h : ShapeLines) (data : List Text) : Known (readHead55 (h.lines ++ data) h.first) := by
  unfold readHead55
  rw [get_analysis, ok_bind, an55_int, ok_bind]
  have i8 : (h.lines ++ data)[8]? = some h.r7 := rfl
  have i9 : (h.lines ++ data)[9]? = some h.r8 := rfl
  rw [i8, i9]
  by_cases h2 : h.analysis = 2
  · rw [if_pos h2]; simp only [orIndex, ok_bind]; known
  · rw [if_neg h2]
    by_cases h3 : h.analysis = 3 ∨ h.analysis = 7
    · rw [if_pos h3]
      simp only [orIndex, ok_bind]
      refine known_bind (known_head _ _ _ _ _) fun e8 he8 => known_bind (known_head _ _ _ _ _) fun e9 he9 => ?_
      obtain ⟨d, hd⟩ := join_some h
      rw [head_value (by decide) he8, head_value (by decide) he9, named_load, named_flt6, hd]
      exact known_ok _
    · rw [if_neg h3]
      by_cases h5 : h.analysis = 5
      · rw [if_pos h5]; simp only [orIndex, ok_bind]; known
      · rw [if_neg h5]; exact known_ok _

theorem extract_bad (block : Text) (h : ShapeLines) (data : List Text) (hl : splitLinesKeep block = h.lines ++ data) (hb : ¬ h.Good) :
    extract55 block = .error (.reading 55) := by
  rw [extract_eq, hl]
  cases hd : readFirst55 (h.lines ++ data) with
  | error e =>
    have := known_first (h.lines ++ data)
    exact guard_error (by rw [← hd]; exact this) (by simp)
  | ok d =>
    obtain ⟨h1, rfl⟩ := (first_iff h data d).1 hd
    rw [ok_bind]
    exact guard_error (known_second h data) fun d hd => hb ⟨h1, second_needs h data d hd⟩

theorem extract_short (block : Text) (hl : (splitLinesKeep block).length < 8) : extract55 block = .error (.reading 55) := by
  rw [extract_eq]
  refine guard_error (known_first _) fun d hd => ?_
  unfold readFirst55 at hd
  simp (disch := decide) only [index_bind, head_bind] at hd
  obtain ⟨_, _, _, _, _, _, _, _, _, _, _, _, _, _, _, _, hx, _⟩ := hd
  have := (List.getElem?_eq_some_iff.1 hx).1
  omega

theorem extract_head (block : Text) (h : ShapeLines) (data : List Text) (hl : splitLinesKeep block = h.lines ++ data) (hg : h.Good) (hf : h.Finite) :
    extract55 block = readGuard 55 (readBody55 data.flatten h.dict) := by
  have e : ((h.lines ++ data).drop 10) = data := rfl
  rw [extract_eq, hl, (first_iff h data h.first).2 ⟨hg.1, rfl⟩, ok_bind, second_ok h data hg.2 hf, ok_bind, e]

theorem split_data (block : Text) (h : ShapeLines) (data : List Text) (hl : splitLinesKeep block = h.lines ++ data) :
    splitLinesKeep data.flatten = data := by
  have := split_drop block 10
  rw [hl] at this
  exact this

theorem row_cells {m : Nat} {n : NodeCells} (h : n.Good m) : (chunks 13 n.vals).length = m ∧ mapRes pyFloat (chunks 13 n.vals) = .ok n.values := by
  obtain ⟨cells, tail, h1, h2, h3, h4⟩ := h.cells
  rw [h1, chunks_flatten 13 cells tail h2 h3]
  exact ⟨by rw [← h.count]; exact h4.1, (mapRes_iff _ _ _).2 h4⟩

theorem floatRows_ok {m : Nat} (ns : List NodeCells) (h : ∀ n ∈ ns, n.Good m) :
    floatRows (ns.map fun n => chunks 13 n.vals) = .ok (ns.flatMap (·.values)) := by
  have key : mapRes pyFloat (ns.map fun n => chunks 13 n.vals).flatten = .ok (ns.flatMap (·.values)) := by
    rw [← List.flatMap_def]
    exact mapRes_flatMap ns _ _ fun n hn => (row_cells (h n hn)).2
  cases ns with
  | nil => rfl
  | cons a r =>
    rw [List.map_cons] at key ⊢
    unfold floatRows
    simp only
    rw [if_pos, key]
    rw [List.all_eq_true]
    intro s hs
    obtain ⟨n, hn, rfl⟩ := List.mem_map.1 hs
    simp [(row_cells (h n (by simp [hn]))).1, (row_cells (h a (by simp))).1]

theorem asIntArray_ok (l : List Int) (hne : l ≠ []) (h : ∀ n ∈ l, -(2 ^ 63) ≤ n ∧ n < 2 ^ 63) : asIntArray l = .ok (.arrI l) := by
  unfold asIntArray
  rw [if_neg (by simpa using hne), if_pos]
  rw [List.all_eq_true]
  intro n hn
  simpa using h n hn

theorem body_start {m : Nat} (ns : List NodeCells) (hne : ns ≠ []) (h : ∀ n ∈ ns, n.Good m) (data : Text)
    (hd : splitLinesKeep data = ns.flatMap NodeCells.lines) (F : Val → List F64 → Res Dict) :
    (do let nums ← asIntArray (← mapRes pyInt (everyN 0 2 (splitLinesKeep data)))
        let v ← floatRows ((everyN 1 2 (splitLinesKeep data)).map (chunks 13))
        F nums v) = F (.arrI (ns.map (·.num))) (ns.flatMap (·.values)) := by
  rw [hd, everyN_flatMap 2 0 ns NodeCells.lines (·.head) (fun _ _ => rfl) (fun _ _ => rfl),
    everyN_flatMap 2 1 ns NodeCells.lines (·.vals) (fun _ _ => rfl) (fun _ _ => rfl), List.map_map]
  rw [mapRes_map ns _ (·.num) fun n hn => (h n hn).head, ok_bind, asIntArray_ok, ok_bind]
  · rw [show (chunks 13 ∘ fun n : NodeCells => n.vals) = fun n : NodeCells => chunks 13 n.vals from rfl, floatRows_ok ns h, ok_bind]
  · simpa using hne
  · intro n hn
    obtain ⟨x, hx, rfl⟩ := List.mem_map.1 hn
    exact (h x hx).small

theorem values_col {m : Nat} (ns : List NodeCells) (h : ∀ n ∈ ns, n.Good m) (i : Nat) (hi : i < m) :
    everyN i m (ns.flatMap (·.values)) = ns.map fun n => n.values.getD i F64.zero := by
  refine everyN_flatMap m i ns _ _ (fun n hn => (h n hn).count) fun n hn => ?_
  have : i < n.values.length := by rw [(h n hn).count]; exact hi
  rw [List.getD_eq_getElem?_getD, List.getElem?_eq_getElem this]; rfl

theorem get_type (h : ShapeLines) : Dict.get h.dict "data_type" = .ok (.int h.dataType) := rfl
theorem get_comps (h : ShapeLines) : Dict.get h.dict "n_data_per_node" = .ok (.int h.comps) := rfl

theorem dict_update (h : ShapeLines) (e : Dict)
    (he : e.map (·.1) = (["node_nums", "r1", "r2", "r3"] : List Key) ∨ e.map (·.1) = (["node_nums", "r1", "r2", "r3", "r4", "r5", "r6"] : List Key)) :
    h.dict.update e = h.dict ++ e := by
  rw [Dict.update_fresh]
  unfold ShapeLines.dict
  rw [List.map_append, List.map_append, first_keys]
  have h2 := second_keys h
  simp only [List.mem_cons, List.not_mem_nil, or_false] at h2
  rcases he with he | he <;> rcases h2 with h2 | h2 | h2 | h2 <;> (rw [he, h2]; decide +kernel)

theorem numEq_int (a b : Int) : (Val.int a).numEq b = decide (a = b) := rfl

theorem real3 (h : ShapeLines) (hd : h.dataType = 2) (hc : h.comps = 3) (ns : List NodeCells) (hne : ns ≠ []) (hn : ∀ n ∈ ns, n.Good 3) (data : Text)
    (hs : splitLinesKeep data = ns.flatMap NodeCells.lines) : readBody55 data h.dict = .ok (h.dict ++ real3Dict ns) := by
  unfold readBody55
  refine (body_start ns hne hn data hs _).trans ?_
  rw [get_type, ok_bind, get_comps, ok_bind, hd, hc, if_pos (by decide), if_pos (by decide), values_col ns hn 0 (by omega), values_col ns hn 1 (by omega),
    values_col ns hn 2 (by omega), dict_update _ _ (.inl rfl)]
  rfl

theorem real6 (h : ShapeLines) (hd : h.dataType = 2) (hc : h.comps ≠ 3) (ns : List NodeCells) (hne : ns ≠ []) (hn : ∀ n ∈ ns, n.Good 6) (data : Text)
    (hs : splitLinesKeep data = ns.flatMap NodeCells.lines) : readBody55 data h.dict = .ok (h.dict ++ real6Dict ns) := by
  unfold readBody55
  refine (body_start ns hne hn data hs _).trans ?_
  rw [get_type, ok_bind, get_comps, ok_bind, hd, if_pos (by decide), if_neg (by rw [numEq_int]; simpa using hc), values_col ns hn 0 (by omega), values_col ns hn 1 (by omega),
    values_col ns hn 2 (by omega), values_col ns hn 3 (by omega), values_col ns hn 4 (by omega), values_col ns hn 5 (by omega), dict_update _ _ (.inr rfl)]
  rfl

theorem cplxCols_ok (ns : List NodeCells) (hn : ∀ n ∈ ns, n.Good 6) (hf : ∀ n ∈ ns, ∀ x ∈ n.values, x.finite = true) (i j : Nat) (hi : i < 6) (hj : j < 6) :
    cplxCols (ns.flatMap (·.values)) i j = .ok (cplxValueAt i j ns) := by
  unfold cplxCols cplxValueAt
  simp only
  rw [values_col ns hn i hi, values_col ns hn j hj, if_pos (by simp), List.zip_map', List.map_map]
  congr 2
  refine List.map_congr_left fun n hm => ?_
  have key : ∀ k < 6, (n.values.getD k F64.zero).finite = true := by
    intro k hk
    have : k < n.values.length := by rw [(hn n hm).count]; exact hk
    rw [List.getD_eq_getElem?_getD, List.getElem?_eq_getElem this]
    exact hf n hm _ (List.getElem_mem this)
  exact cplxOf_eq _ _ (key i hi) (key j hj)

theorem cplx3 (h : ShapeLines) (hd : h.dataType = 5) (hc : h.comps = 3) (ns : List NodeCells) (hne : ns ≠ []) (hn : ∀ n ∈ ns, n.Good 6)
    (hf : ∀ n ∈ ns, ∀ x ∈ n.values, x.finite = true) (data : Text)
    (hs : splitLinesKeep data = ns.flatMap NodeCells.lines) : readBody55 data h.dict = .ok (h.dict ++ cplx3Dict ns) := by
  unfold readBody55
  refine (body_start ns hne hn data hs _).trans ?_
  rw [get_type, ok_bind, get_comps, ok_bind, hd, hc, if_neg (by decide), if_pos (by decide), if_pos (by decide), cplxCols_ok ns hn hf 0 1 (by omega) (by omega), ok_bind,
    cplxCols_ok ns hn hf 2 3 (by omega) (by omega), ok_bind, cplxCols_ok ns hn hf 4 5 (by omega) (by omega), ok_bind, dict_update _ _ (.inl rfl)]
  rfl

theorem mapRes_all {α β : Type} {f : α → Res β} {l : List α} {r : List β} (h : mapRes f l = .ok r) : ∀ b ∈ r, ∃ a ∈ l, f a = .ok b := by
  intro b hb
  obtain ⟨h1, h2⟩ := (mapRes_iff _ _ _).1 h
  obtain ⟨i, hi, rfl⟩ := List.getElem_of_mem hb
  have hi' : i < l.length := by omega
  exact ⟨l[i], List.getElem_mem hi', h2 i _ _ (List.getElem?_eq_getElem hi') (List.getElem?_eq_getElem hi)⟩

theorem unsupported (h : ShapeLines) (hd : h.dataType ≠ 2 ∧ (h.dataType = 5 → h.comps ≠ 3)) (data : Text)
    (hs : ∀ l ∈ splitLinesKeep data, ∀ n, pyInt l = .ok n → -(2 ^ 63) ≤ n ∧ n < 2 ^ 63) : readGuard 55 (readBody55 data h.dict) = .error (.reading 55) := by
  have key : Known (readBody55 data h.dict) ∧ ∀ d, readBody55 data h.dict ≠ .ok d := by
    unfold readBody55
    simp only
    cases h1 : mapRes pyInt (everyN 0 2 (splitLinesKeep data)) with
    | error e =>
      have := known_map known_int (everyN 0 2 (splitLinesKeep data))
      rw [h1] at this
      exact ⟨fun h => this (by cases h; rfl), fun d h => by cases h⟩
    | ok l =>
      rw [ok_bind]
      have hl : ∃ v, asIntArray l = .ok v := by
        by_cases hn : l = []
        · subst hn; exact ⟨_, rfl⟩
        · refine ⟨_, asIntArray_ok l hn fun n hn => ?_⟩
          obtain ⟨a, ha, hx⟩ := mapRes_all h1 n hn
          exact hs a (everyAux_mem _ _ _ a ha) n hx
      obtain ⟨v, hv⟩ := hl
      rw [hv, ok_bind]
      cases h2 : floatRows ((everyN 1 2 (splitLinesKeep data)).map (chunks 13)) with
      | error e =>
        have : Known (floatRows ((everyN 1 2 (splitLinesKeep data)).map (chunks 13))) := by
          unfold floatRows
          split
          · exact known_ok _
          · split
            · exact known_map known_float _
            · unfold Known; simp
        rw [h2] at this
        exact ⟨fun h => this (by cases h; rfl), fun d h => by cases h⟩
      | ok w =>
        rw [ok_bind, get_type, ok_bind, get_comps, ok_bind, if_neg (by rw [numEq_int]; simpa using hd.1)]
        by_cases h5 : h.dataType = 5
        · rw [if_pos (by rw [numEq_int]; simpa using h5), if_neg (by rw [numEq_int]; simpa using hd.2 h5)]
          exact ⟨by unfold Known; simp, by simp⟩
        · rw [if_neg (by rw [numEq_int]; simpa using h5)]
          exact ⟨by unfold Known; simp, by simp⟩
  have := guard_error (n := 55) (F := fun d => (.ok d : Res Dict)) key.1 key.2
  rwa [show (readBody55 data h.dict >>= fun d => (.ok d : Res Dict)) = readBody55 data h.dict from bind_pure _] at this

end Shapes
end Verif
