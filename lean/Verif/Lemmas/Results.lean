import Verif.Spec.Results
import Verif.Lemmas.Systems
import Verif.Lemmas.RT2414
import Verif.Lemmas.Crlf4
import Verif.Props.Records
/-
Reading results line by line.
-/
namespace Verif
namespace Results
open Records

theorem good_int80 (l : Text) : Good l 1 [80] [.int] ↔ IntAt l 0 80 := by
  constructor
  · intro h; exact h 0 (by omega) .int rfl
  · intro h i hi ty hty
    obtain rfl : i = 0 := by omega
    cases hty; exact h

theorem good_types (l : Text) : Good l 6 [10, 10, 10, 10, 10, 10] [.int, .int, .int, .int, .int, .int] ↔ ∀ i < 6, IntAt l (10 * i) 10 := by
  constructor
  · intro h i hi
    match i, hi with
    | 0, _ => exact h 0 (by omega) .int rfl
    | 1, _ => exact h 1 (by omega) .int rfl
    | 2, _ => exact h 2 (by omega) .int rfl
    | 3, _ => exact h 3 (by omega) .int rfl
    | 4, _ => exact h 4 (by omega) .int rfl
    | 5, _ => exact h 5 (by omega) .int rfl
  · intro h i hi ty hty
    match i, hi, hty with
    | 0, _, rfl => exact h 0 (by omega)
    | 1, _, rfl => exact h 1 (by omega)
    | 2, _, rfl => exact h 2 (by omega)
    | 3, _, rfl => exact h 3 (by omega)
    | 4, _, rfl => exact h 4 (by omega)
    | 5, _, rfl => exact h 5 (by omega)

theorem good_int8 (l : Text) : Good l 8 [10, 10, 10, 10, 10, 10, 10, 10] [.int, .int, .int, .int, .int, .int, .int, .int] ↔ ∀ i < 8, IntAt l (10 * i) 10 := by
  constructor
  · intro h i hi
    match i, hi with
    | 0, _ => exact h 0 (by omega) .int rfl
    | 1, _ => exact h 1 (by omega) .int rfl
    | 2, _ => exact h 2 (by omega) .int rfl
    | 3, _ => exact h 3 (by omega) .int rfl
    | 4, _ => exact h 4 (by omega) .int rfl
    | 5, _ => exact h 5 (by omega) .int rfl
    | 6, _ => exact h 6 (by omega) .int rfl
    | 7, _ => exact h 7 (by omega) .int rfl
  · intro h i hi ty hty
    match i, hi, hty with
    | 0, _, rfl => exact h 0 (by omega)
    | 1, _, rfl => exact h 1 (by omega)
    | 2, _, rfl => exact h 2 (by omega)
    | 3, _, rfl => exact h 3 (by omega)
    | 4, _, rfl => exact h 4 (by omega)
    | 5, _, rfl => exact h 5 (by omega)
    | 6, _, rfl => exact h 6 (by omega)
    | 7, _, rfl => exact h 7 (by omega)

theorem good_int2 (l : Text) : Good l 2 [10, 10] [.int, .int] ↔ ∀ i < 2, IntAt l (10 * i) 10 := by
  constructor
  · intro h i hi
    match i, hi with
    | 0, _ => exact h 0 (by omega) .int rfl
    | 1, _ => exact h 1 (by omega) .int rfl
  · intro h i hi ty hty
    match i, hi, hty with
    | 0, _, rfl => exact h 0 (by omega)
    | 1, _, rfl => exact h 1 (by omega)

theorem good_flt6 (l : Text) : Good l 6 [13, 13, 13, 13, 13, 13] [.flt, .flt, .flt, .flt, .flt, .flt] ↔ ∀ i < 6, FloatAt l (13 * i) 13 := by
  constructor
  · intro h i hi
    match i, hi with
    | 0, _ => exact h 0 (by omega) .flt rfl
    | 1, _ => exact h 1 (by omega) .flt rfl
    | 2, _ => exact h 2 (by omega) .flt rfl
    | 3, _ => exact h 3 (by omega) .flt rfl
    | 4, _ => exact h 4 (by omega) .flt rfl
    | 5, _ => exact h 5 (by omega) .flt rfl
  · intro h i hi ty hty
    match i, hi, hty with
    | 0, _, rfl => exact h 0 (by omega)
    | 1, _, rfl => exact h 1 (by omega)
    | 2, _, rfl => exact h 2 (by omega)
    | 3, _, rfl => exact h 3 (by omega)
    | 4, _, rfl => exact h 4 (by omega)
    | 5, _, rfl => exact h 5 (by omega)

theorem good_int1 (l : Text) : Good l 1 [10, 10, 10, 10, 10, 10, 10, 10] [.int, .int, .int, .int, .int, .int, .int, .int] ↔ IntAt l 0 10 := by
  constructor
  · intro h; exact h 0 (by omega) .int rfl
  · intro h i hi ty hty
    obtain rfl : i = 0 := by omega
    cases hty; exact h

theorem good_flt1 (l : Text) : Good l 1 [13, 13, 13, 13, 13, 13] [.flt, .flt, .flt, .flt, .flt, .flt] ↔ FloatAt l 0 13 := by
  constructor
  · intro h; exact h 0 (by omega) .flt rfl
  · intro h i hi ty hty
    obtain rfl : i = 0 := by omega
    cases hty; exact h

theorem named_int80 (l : Text) (k0 : Key) :
    namedFields l [80] [.int] [k0] =
    [(k0, .int (intAt l 0 80))] := rfl

theorem named_types (l : Text) (k0 k1 k2 k3 k4 k5 : Key) :
    namedFields l [10, 10, 10, 10, 10, 10] [.int, .int, .int, .int, .int, .int] [k0, k1, k2, k3, k4, k5] =
    [(k0, .int (intAt l 0 10)), (k1, .int (intAt l 10 10)), (k2, .int (intAt l 20 10)), (k3, .int (intAt l 30 10)), (k4, .int (intAt l 40 10)), (k5, .int (intAt l 50 10))] := rfl

theorem named_int8 (l : Text) (k0 k1 k2 k3 k4 k5 k6 k7 : Key) :
    namedFields l [10, 10, 10, 10, 10, 10, 10, 10] [.int, .int, .int, .int, .int, .int, .int, .int] [k0, k1, k2, k3, k4, k5, k6, k7] =
    [(k0, .int (intAt l 0 10)), (k1, .int (intAt l 10 10)), (k2, .int (intAt l 20 10)), (k3, .int (intAt l 30 10)), (k4, .int (intAt l 40 10)), (k5, .int (intAt l 50 10)), (k6, .int (intAt l 60 10)), (k7, .int (intAt l 70 10))] := rfl

theorem named_int2 (l : Text) (k0 k1 : Key) :
    namedFields l [10, 10] [.int, .int] [k0, k1] =
    [(k0, .int (intAt l 0 10)), (k1, .int (intAt l 10 10))] := rfl

theorem named_flt6 (l : Text) (k0 k1 k2 k3 k4 k5 : Key) :
    namedFields l [13, 13, 13, 13, 13, 13] [.flt, .flt, .flt, .flt, .flt, .flt] [k0, k1, k2, k3, k4, k5] =
    [(k0, .float (floatAt l 0 13)), (k1, .float (floatAt l 13 13)), (k2, .float (floatAt l 26 13)), (k3, .float (floatAt l 39 13)), (k4, .float (floatAt l 52 13)), (k5, .float (floatAt l 65 13))] := rfl

/-- Records 1 to 9 are there. -/
def First (h : ResultLines) : Prop := IntAt h.label 0 80 ∧ IntAt h.loc 0 80 ∧ ∀ i < 6, IntAt h.types (10 * i) 10

theorem first_iff (h : ResultLines) (d : Dict) : readHead2414 h.lines = .ok d ↔ First h ∧ d = h.first := by
  unfold readHead2414 ResultLines.lines First
  simp (disch := decide) only [List.getElem?_cons_succ, List.getElem?_cons_zero, index_bind, head_bind, good_str, good_int80, good_types,
    named_text, named_int80, named_types, Option.some.injEq, exists_eq_left', true_and, Except.ok.injEq]
  constructor
  · rintro ⟨h1, h2, h3, hd⟩
    exact ⟨⟨h1, h2, h3⟩, by rw [← hd]; unfold ResultLines.first ResultLines.location; build_dict⟩
  · rintro ⟨⟨h1, h2, h3⟩, hd⟩
    exact ⟨h1, h2, h3, by rw [hd]; unfold ResultLines.first ResultLines.location; build_dict⟩

/-- Records 10 to 13 of a frequency response are there. -/
def Freq (h : ResultLines) : Prop := (∀ i < 8, IntAt h.r10 (10 * i) 10) ∧ (∀ i < 2, IntAt h.r11 (10 * i) 10) ∧ (∀ i < 6, FloatAt h.r12 (13 * i) 13) ∧
    ∀ i < 6, FloatAt h.r13 (13 * i) 13

/-- The first numbers of records 10 to 13 are there. -/
def Plain (h : ResultLines) : Prop := IntAt h.r10 0 10 ∧ IntAt h.r11 0 10 ∧ FloatAt h.r12 0 13 ∧ FloatAt h.r13 0 13

theorem good_iff (h : ResultLines) : h.Good ↔ First h ∧ if h.analysis = 5 then Freq h else Plain h := by
  unfold ResultLines.Good First Freq Plain
  simp only [and_assoc]

theorem freq_iff (h : ResultLines) (d : Dict) : readFreqHead h.lines = .ok d ↔ Freq h ∧ d = h.freq := by
  unfold readFreqHead ResultLines.lines Freq
  simp (disch := decide) only [List.getElem?_cons_succ, List.getElem?_cons_zero, index_bind, head_bind, good_int8, good_int2, good_flt6,
    named_int8, named_int2, named_flt6, Option.some.injEq, exists_eq_left', Except.ok.injEq]
  have e : h.freq = Dict.update [] h.freq := by
    rw [Dict.update_fresh, List.nil_append]
    unfold ResultLines.freq
    simp only [List.map_cons, List.map_nil, List.cons_append, List.nil_append]
    decide +kernel
  constructor
  · rintro ⟨h1, h2, h3, h4, hd⟩
    refine ⟨⟨h1, h2, h3, h4⟩, ?_⟩
    rw [← hd, e]; unfold ResultLines.freq
    simp only [Dict.update_update, List.cons_append, List.nil_append]
  · rintro ⟨⟨h1, h2, h3, h4⟩, hd⟩
    refine ⟨h1, h2, h3, h4, ?_⟩
    rw [hd, e]; unfold ResultLines.freq
    simp only [Dict.update_update, List.cons_append, List.nil_append]

theorem plain_iff (h : ResultLines) (d : Dict) : readPlainHead h.lines = .ok d ↔ Plain h ∧ d = h.plain := by
  unfold readPlainHead ResultLines.lines Plain
  simp (disch := decide) only [List.getElem?_cons_succ, List.getElem?_cons_zero, index_bind, head_bind, good_int1, good_flt1,
    named_int8, named_flt6, Option.some.injEq, exists_eq_left', Except.ok.injEq]
  have e : h.plain = Dict.update [] h.plain := by
    rw [Dict.update_fresh, List.nil_append]
    unfold ResultLines.plain
    simp only [List.map_cons, List.map_nil, List.cons_append, List.nil_append]
    decide +kernel
  constructor
  · rintro ⟨h1, h2, h3, h4, hd⟩
    refine ⟨⟨h1, h2, h3, h4⟩, ?_⟩
    rw [← hd, e]; unfold ResultLines.plain
    simp only [Dict.update_update, List.cons_append, List.nil_append]
  · rintro ⟨⟨h1, h2, h3, h4⟩, hd⟩
    refine ⟨h1, h2, h3, h4, ?_⟩
    rw [hd, e]; unfold ResultLines.plain
    simp only [Dict.update_update, List.cons_append, List.nil_append]

theorem known_first (ls : List Text) : Known (readHead2414 ls) := by unfold readHead2414; known
theorem known_freq (ls : List Text) : Known (readFreqHead ls) := by unfold readFreqHead; known
theorem known_plain (ls : List Text) : Known (readPlainHead ls) := by unfold readPlainHead; known

theorem fifteen (t : List Text) (h : t.length = 15) : ∃ r : ResultLines, t = r.lines := by
  match t, h with
  | [a0, a1, a2, a3, a4, a5, a6, a7, a8, a9, a10, a11, a12, a13, a14], _ => exact ⟨⟨a0, a1, a2, a3, a4, a5, a6, a7, a8, a9, a10, a11, a12, a13, a14⟩, rfl⟩

theorem freq_long (ls : List Text) (d : Dict) (h : readFreqHead ls = .ok d) : 15 ≤ ls.length := by
  unfold readFreqHead at h
  simp (disch := decide) only [index_bind, head_bind] at h
  obtain ⟨_, _, _, _, _, _, _, _, _, _, h14, _⟩ := h
  have := (List.getElem?_eq_some_iff.1 h14).1
  omega

theorem plain_long (ls : List Text) (d : Dict) (h : readPlainHead ls = .ok d) : 15 ≤ ls.length := by
  unfold readPlainHead at h
  simp (disch := decide) only [index_bind, head_bind] at h
  obtain ⟨_, _, _, _, _, _, _, _, _, _, h14, _⟩ := h
  have := (List.getElem?_eq_some_iff.1 h14).1
  omega

theorem args_first (h : ResultLines) : args2414 h.first = .ok (h.location, h.analysis, h.dataType, h.comps) := rfl

/-- The data behind the header lines. -/
def readData (h : ResultLines) (data : List Text) : Res Dict :=
  if h.analysis = 5 then (if h.dataType = 5 then readFreqData h.comps data else .ok [])
  else readPlainData h.location (splitLines data.flatten)

/-- Keys that the header lines do not use. -/
def Fresh (e : Dict) : Prop := ∃ ks ∈ ([[], ["node_nums", "x"], ["node_nums", "x", "y"], ["node_nums", "x", "z"], ["node_nums", "x", "y", "z"], ["node_nums", "data_at_node"],
  ["element_nums", "NDVAL", "data_at_element"],
  ["element_nums", "IEXP", "number_of_nodes", "number_of_values_per_node", "data_at_nodes_on_element"]] : List (List Key)), e.map (·.1) = ks

theorem first_keys (h : ResultLines) : h.first.map (·.1) = (["type", "analysis_dataset_label", "analysis_dataset_name", "dataset_location", "id1", "id2", "id3", "id4", "id5", "model_type", "analysis_type", "data_characteristic", "result_type", "data_type", "number_of_data_values_for_the_data_component"] : List Key) := by
  unfold ResultLines.first; simp only [List.map_cons, List.map_nil, List.cons_append, List.nil_append]
theorem freq_keys (h : ResultLines) : h.freq.map (·.1) = (["design_set_id", "iteration_number", "solution_set_id", "boundary_condition", "load_set", "mode_number", "time_step_number", "frequency_number", "creation_option", "number_retained", "time", "frequency", "eigenvalue", "modal_mass", "viscous_damping", "hysteretic_damping", "real_part_eigenvalue", "imaginary_part_eigenvalue", "real_part_of_modal_A_or_modal_mass", "imaginary_part_of_modal_A_or_modal_mass", "real_part_of_modal_B_or_modal_mass", "imaginary_part_of_modal_B_or_modal_mass"] : List Key) := by
  unfold ResultLines.freq; simp only [List.map_cons, List.map_nil, List.cons_append, List.nil_append]
theorem plain_keys (h : ResultLines) : h.plain.map (·.1) = (["record10_field1", "record10_field2", "record10_field3", "record10_field4", "record10_field5", "record10_field6", "record10_field7", "record10_field8", "record11_field1", "record11_field2", "record11_field3", "record11_field4", "record11_field5", "record11_field6", "record11_field7", "record11_field8", "record12_field1", "record12_field2", "record12_field3", "record12_field4", "record12_field5", "record12_field6", "record13_field1", "record13_field2", "record13_field3", "record13_field4", "record13_field5", "record13_field6"] : List Key) := by
  unfold ResultLines.plain; simp only [List.map_cons, List.map_nil, List.cons_append, List.nil_append]

theorem nodup (h : ResultLines) (e : Dict) (he : Fresh e) : ((h.dict ++ e).map (·.1)).Nodup := by
  obtain ⟨ks, hk, he⟩ := he
  unfold ResultLines.dict
  rw [List.map_append, List.map_append, first_keys, he]
  split
  · rw [freq_keys]
    clear he
    revert ks
    decide +kernel
  · rw [plain_keys]
    clear he
    revert ks
    decide +kernel

theorem extract_lines (block : Text) (h : ResultLines) (data : List Text) (hl : splitLinesKeep block = h.lines ++ data) (hg : h.Good)
    (e : Dict) (hd : readData h data = .ok e) (hf : Fresh e) : extract2414 block = .ok (h.dict ++ e) := by
  obtain ⟨h1, h2⟩ := (good_iff h).1 hg
  unfold extract2414
  rw [hl]
  simp only
  rw [List.take_left' (show h.lines.length = 15 from rfl), List.drop_left' (show h.lines.length = 15 from rfl),
    (first_iff h _).2 ⟨h1, rfl⟩, ok_bind, args_first, ok_bind]
  have hn := nodup h e hf
  unfold ResultLines.dict at hn ⊢
  simp only
  unfold readData at hd
  by_cases ha : h.analysis = 5
  · rw [if_pos ha] at h2 hd hn ⊢
    rw [if_pos ha, (freq_iff h _).2 ⟨h2, rfl⟩, ok_bind, hd, ok_bind, Dict.update_update, Dict.update_fresh _ _ (by rw [← List.append_assoc]; exact hn), ← List.append_assoc]
    rfl
  · rw [if_neg ha] at h2 hd hn ⊢
    rw [if_neg ha, (plain_iff h _).2 ⟨h2, rfl⟩, ok_bind, hd, ok_bind, Dict.update_update, Dict.update_fresh _ _ (by rw [← List.append_assoc]; exact hn), ← List.append_assoc]
    rfl

theorem guard_error {α : Type} {n : Nat} {m : Res α} {β : Type} {F : α → Res β} (hk : Known m) (h : ∀ a, m ≠ .ok a) :
    readGuard n (m >>= F) = .error (.reading n) := by
  cases m with
  | ok a => exact absurd rfl (h a)
  | error e =>
    rw [error_bind]
    unfold readGuard
    split
    · rename_i h'; cases h'
    · rename_i h'; cases h'; exact absurd rfl hk
    · rfl

theorem first_long (ls : List Text) (d : Dict) (h : readHead2414 ls = .ok d) : 11 ≤ ls.length := by
  unfold readHead2414 at h
  simp (disch := decide) only [index_bind, head_bind] at h
  obtain ⟨_, _, _, _, _, _, _, _, _, _, _, _, _, _, _, _, _, _, _, _, _, _, _, _, _, h10, _⟩ := h
  have := (List.getElem?_eq_some_iff.1 h10).1
  omega

theorem short_head (ls : List Text) (hl : ls.length < 15) (d : Dict) (hd : readHead2414 ls = .ok d) : ∃ h : ResultLines, d = h.first := by
  have h11 := first_long ls d hd
  obtain ⟨h, hh⟩ := fifteen (ls ++ List.replicate (15 - ls.length) []) (by simp; omega)
  refine ⟨h, ((first_iff h d).1 ?_).2⟩
  rw [← hh, ← hd]
  unfold readHead2414
  have e : ∀ i, i < 11 → (ls ++ List.replicate (15 - ls.length) [])[i]? = ls[i]? := fun i hi => List.getElem?_append_left (by omega)
  simp (disch := decide) only [e]

theorem extract_error (block : Text) (hn : ∀ h data, splitLinesKeep block = ResultLines.lines h ++ data → ¬ h.Good) :
    extract2414 block = .error (.reading 2414) := by
  unfold extract2414
  simp only
  cases hd : readHead2414 ((splitLinesKeep block).take 15) with
  | error e =>
    have := known_first ((splitLinesKeep block).take 15)
    exact guard_error (by rw [← hd]; exact this) (by simp)
  | ok d =>
    rw [ok_bind]
    by_cases hlen : 15 ≤ (splitLinesKeep block).length
    · obtain ⟨h, hh⟩ := fifteen ((splitLinesKeep block).take 15) (by rw [List.length_take]; omega)
      have hl : splitLinesKeep block = h.lines ++ (splitLinesKeep block).drop 15 := by rw [← hh, List.take_append_drop]
      have hg := hn h _ hl
      rw [hh] at hd ⊢
      obtain ⟨h1, rfl⟩ := (first_iff h _).1 hd
      rw [good_iff] at hg
      have h2 : ¬ if h.analysis = 5 then Freq h else Plain h := fun h2 => hg ⟨h1, h2⟩
      rw [args_first, ok_bind]
      simp only
      split
      · rename_i ha
        rw [if_pos ha] at h2
        exact guard_error (known_freq _) fun d hd => h2 ((freq_iff h d).1 hd).1
      · rename_i ha
        rw [if_neg ha] at h2
        exact guard_error (known_plain _) fun d hd => h2 ((plain_iff h d).1 hd).1
    · have ht : ((splitLinesKeep block).take 15).length < 15 := by rw [List.length_take]; omega
      generalize (splitLinesKeep block).take 15 = ls at ht hd ⊢
      obtain ⟨h, hh⟩ := short_head ls ht d hd
      rw [hh, args_first, ok_bind]
      simp only
      split
      · exact guard_error (known_freq _) fun d hd => by have := freq_long _ _ hd; omega
      · exact guard_error (known_plain _) fun d hd => by have := plain_long _ _ hd; omega

end Results
end Verif
