import Verif.Spec.Funcs
import Verif.Lemmas.Shapes
import Verif.Lemmas.Foreign
/-
Reading the header of a data-set 58.
-/
namespace Verif
namespace Funcs
open Records Results

/-! ### The first thirteen lines -/

theorem split_nonempty (t : Text) (h : t ≠ []) : splitLinesKeep t ≠ [] := by
  intro e
  have := splitLinesKeep_flatten t
  rw [e] at this
  exact h this.symm

theorem split_append_gen (b : Text) (acc a : Text) (h1 : ∀ c, a.getLast? = some c → isBreak c = true) (ha : a ≠ [])
    (h2 : a.getLast? = some '\r' → b.head? ≠ some '\n') :
    splitLinesGen '\r' '\n' isBreak true acc (a ++ b) = splitLinesGen '\r' '\n' isBreak true acc a ++ splitLinesKeep b := by
  induction acc, a using splitLinesGen.induct '\r' '\n' isBreak with
  | case1 acc h' => exact absurd rfl ha
  | case2 acc h' => exact absurd rfl ha
  | case3 acc c hb =>
    cases b with
    | nil => simp [splitLinesGen, hb, splitLinesKeep]
    | cons d r =>
      have : ¬ (c = '\r' ∧ d = '\n') := by
        rintro ⟨rfl, rfl⟩; exact h2 rfl rfl
      have e : splitLinesGen '\r' '\n' isBreak true acc (c :: d :: r) = (c :: acc).reverse :: splitLinesKeep (d :: r) := by
        rw [splitLinesGen, if_neg this, if_pos hb]; rfl
      rw [List.singleton_append, e]
      simp [splitLinesGen, hb]
  | case4 acc c hb => exact absurd (h1 c rfl) hb
  | case5 acc c d cs hcd ih =>
    rw [List.cons_append, List.cons_append, splitLinesGen, if_pos hcd, splitLinesGen, if_pos hcd, List.cons_append]
    cases cs with
    | nil => simp [splitLinesGen, splitLinesKeep]
    | cons e r => rw [ih (fun x hx => h1 x (by simpa using hx)) (by simp) (by simpa using h2)]
  | case6 acc c d cs hcd hb ih =>
    rw [List.cons_append, List.cons_append, splitLinesGen, if_neg hcd, if_pos hb, splitLinesGen, if_neg hcd, if_pos hb, List.cons_append,
      ← List.cons_append, ih (fun x hx => h1 x (by simpa using hx)) (by simp) (by simpa using h2)]
  | case7 acc c d cs hcd hb ih =>
    rw [List.cons_append, List.cons_append, splitLinesGen, if_neg hcd, if_neg hb, splitLinesGen, if_neg hcd, if_neg hb,
      ← List.cons_append, ih (fun x hx => h1 x (by simpa using hx)) (by simp) (by simpa using h2)]

/-- The first line of bytes and the others. -/
theorem first_line (acc b : Bytes) (l : Bytes) (r : List Bytes)
    (h : splitLinesGen 13 10 (fun c => c == 10 || c == 13) true acc b = l :: r) :
    r = splitLinesKeepB r.flatten ∧ (r = [] ∨ ∃ l' c, l = l' ++ [c] ∧ (c = 10 ∨ c = 13 ∧ r.flatten.head? ≠ some 10)) := by
  have fl : ∀ t, (splitLinesGen 13 10 (fun c : UInt8 => c == 10 || c == 13) true [] t).flatten = t := fun t => splitLinesKeepB_flatten t
  induction acc, b using splitLinesGen.induct 13 10 (fun c : UInt8 => c == 10 || c == 13) with
  | case1 acc h' => simp [splitLinesGen, h'] at h
  | case2 acc h' => simp [splitLinesGen, h'] at h; rw [h.2]; exact ⟨rfl, .inl rfl⟩
  | case3 acc c hb => simp [splitLinesGen, hb] at h; rw [h.2]; exact ⟨rfl, .inl rfl⟩
  | case4 acc c hb => simp [splitLinesGen, hb] at h; rw [h.2]; exact ⟨rfl, .inl rfl⟩
  | case5 acc c d cs hcd ih =>
    rw [splitLinesGen, if_pos hcd] at h
    obtain ⟨h1, h2⟩ := List.cons.inj h
    refine ⟨by rw [← h2, fl]; rfl, .inr ⟨acc.reverse ++ [c], d, ?_, .inl hcd.2⟩⟩
    rw [← h1]; simp
  | case6 acc c d cs hcd hb ih =>
    rw [splitLinesGen, if_neg hcd, if_pos hb] at h
    obtain ⟨h1, h2⟩ := List.cons.inj h
    refine ⟨by rw [← h2, fl]; rfl, .inr ⟨acc.reverse, c, by rw [← h1]; simp, ?_⟩⟩
    by_cases h10 : c = 10
    · exact .inl h10
    · have h13 : c = 13 := by simpa [h10] using hb
      refine .inr ⟨h13, ?_⟩
      rw [← h2, fl]
      intro e
      exact hcd ⟨h13, by simpa using e⟩
  | case7 acc c d cs hcd hb ih =>
    rw [splitLinesGen, if_neg hcd, if_neg hb] at h
    exact ih h

theorem low_10 : (10 : UInt8).toNat < 0x80 := by decide
theorem low_13 : (13 : UInt8).toNat < 0x80 := by decide

theorem decode_line (l : Bytes) (c : UInt8) (hc : c = 10 ∨ c = 13) (x : Bytes) :
    decode (l ++ [c] ++ x) = decode (l ++ [c]) ++ decode x ∧ (decode (l ++ [c])).getLast? = some (Char.ofNat c.toNat) := by
  have low : c.toNat < 0x80 := by rcases hc with rfl | rfl <;> decide
  have e : decode (l ++ [c]) = decode l ++ [Char.ofNat c.toNat] := by
    rw [decode_append l [c] (by intro d hd; cases hd; exact low), decode_low low]; rfl
  refine ⟨?_, by rw [e]; simp⟩
  rw [e, List.append_assoc, List.singleton_append, decode_append l (c :: x) (by intro d hd; cases hd; exact low), decode_low low]
  simp

theorem decode_head (x : Bytes) (h : x.head? ≠ some 10) : (decode x).head? ≠ some '\n' := by
  cases x with
  | nil => simp [decode]
  | cons b0 r =>
    rw [decode_step]
    intro e
    have e : (decStep b0 r).1 = '\n' := by simpa using e
    by_cases hl : b0.toNat < 0x80
    · rw [decStep_low hl] at e
      have : ('\n' : Char).toNat = b0.toNat := by rw [← e]; exact toNat_ofNat_small _ (by omega)
      exact h (by rw [List.head?_cons, ← UInt8.ofNat_toNat (x := b0), ← this]; rfl)
    · obtain ⟨n, hn, e'⟩ := decStep_high hl r
      exact absurd (e.symm.trans e') (ofNat_low '\n' (by decide) (by decide) hn)

theorem split_decode (l : Bytes) (c : UInt8) (x : Bytes) (hc : c = 10 ∨ c = 13 ∧ x.head? ≠ some 10) :
    splitLinesKeep (decode (l ++ [c] ++ x)) = splitLinesKeep (decode (l ++ [c])) ++ splitLinesKeep (decode x) := by
  obtain ⟨h1, h2⟩ := decode_line l c (by rcases hc with h | h; exact .inl h; exact .inr h.1) x
  rw [h1]
  refine split_append_gen _ _ _ ?_ ?_ ?_
  · intro d hd
    rw [h2] at hd
    cases hd
    rcases hc with rfl | ⟨rfl, _⟩ <;> decide
  · intro e; rw [e] at h2; cases h2
  · intro hr
    rcases hc with rfl | ⟨rfl, hx⟩
    · rw [h2] at hr; cases hr
    · exact decode_head x hx

theorem head_lines (n : Nat) (b : Bytes) (k : Nat) (hk : k ≤ n) :
    (splitLinesKeep (decode ((splitLinesKeepB b).take n).flatten)).take k = (splitLinesKeep (decode b)).take k := by
  induction n generalizing b k with
  | zero => simp [Nat.le_zero.1 hk]
  | succ n ih =>
    cases e : splitLinesKeepB b with
    | nil =>
      have := splitLinesKeepB_flatten b
      rw [e] at this
      rw [← this]; rfl
    | cons l r =>
      obtain ⟨h1, h2⟩ := first_line [] b l r e
      have hb : b = l ++ r.flatten := by
        have := splitLinesKeepB_flatten b
        rw [e] at this
        rw [← this]; rfl
      rcases h2 with rfl | ⟨l', c, rfl, hc⟩
      · rw [hb]; simp
      · have hx : ∀ m, c = 10 ∨ c = 13 ∧ ((r.take m).flatten).head? ≠ some 10 := by
          intro m
          rcases hc with h | ⟨h, hr⟩
          · exact .inl h
          · refine .inr ⟨h, fun h0 => hr ?_⟩
            rw [← List.take_append_drop m r, List.flatten_append, List.head?_append, h0]; rfl
        rw [List.take_succ_cons, List.flatten_cons, split_decode l' c _ (hx n), hb, split_decode l' c _ hc, List.take_append, List.take_append]
        congr 1
        have hne : splitLinesKeep (decode (l' ++ [c])) ≠ [] := by
          refine split_nonempty _ fun h0 => ?_
          have := (decode_line l' c (by rcases hc with h | h; exact .inl h; exact .inr h.1) []).2
          rw [h0] at this; cases this
        have hpos : 0 < (splitLinesKeep (decode (l' ++ [c]))).length := List.length_pos_iff.2 hne
        have := ih r.flatten (k - (splitLinesKeep (decode (l' ++ [c]))).length) (by omega)
        rw [← h1] at this
        exact this

/-! ### What is in the lines -/

theorem head_to {β : Type} {line : Text} {min : Nat} {widths : List Nat} {types : List FTy} {names : List Key} (hs : Shape min widths types names)
    {F : Dict → Res β} {b : β} : (parseHeader line min widths types names >>= F) = .ok b ↔
      Good line min widths types ∧ F (namedFields line widths types names) = .ok b := by
  rw [ok_iff]
  constructor
  · rintro ⟨e, he, hF⟩
    have := Shapes.head_value hs he
    subst this
    exact ⟨((head_bind hs (F := fun d => .ok d) (d := namedFields line widths types names)).1 (by rw [he]; rfl)).1, hF⟩
  · rintro ⟨hg, hF⟩
    exact ⟨_, by
      have := (head_bind hs (F := fun d => .ok d) (d := namedFields line widths types names)).2 ⟨hg, rfl⟩
      rwa [show (parseHeader line min widths types names >>= fun d => (.ok d : Res Dict)) = parseHeader line min widths types names from bind_pure _] at this, hF⟩

theorem lower_b (c : Char) : lowerChar c = 'b' ↔ c = 'b' ∨ c = 'B' := by
  unfold lowerChar
  constructor
  · intro h
    split at h
    · rename_i hc
      right
      have h1 : 65 ≤ c.toNat ∧ c.toNat ≤ 90 := hc
      have h2 := congrArg Char.toNat h
      rw [toNat_ofNat_small _ (by omega)] at h2
      have h3 : ('b' : Char).toNat = 98 := rfl
      have h4 : c.toNat = 66 := by omega
      exact Char.ext (UInt32.toNat_inj.1 h4)
    · exact .inl h
  · rintro (rfl | rfl) <;> decide

theorem binary_iff (h : FuncLines) : isBinary58 h.type = h.binary := by
  unfold isBinary58 FuncLines.binary
  cases h.type[6]? with
  | none => rfl
  | some c => simp [lower_b]

theorem good_bin (l : Text) : Good l 6 [6, 1, 6, 6, 12, 12, 6, 6, 12, 12] [.ign, .ign, .int, .int, .int, .int, .ign, .ign, .ign, .ign] ↔
    IntAt l 7 6 ∧ IntAt l 13 6 ∧ IntAt l 19 12 ∧ IntAt l 31 12 := by
  constructor
  · intro h; exact ⟨h 2 (by omega) .int rfl, h 3 (by omega) .int rfl, h 4 (by omega) .int rfl, h 5 (by omega) .int rfl⟩
  · rintro ⟨h1, h2, h3, h4⟩ i hi ty hty
    match i, hi, hty with
    | 0, _, rfl => trivial
    | 1, _, rfl => trivial
    | 2, _, rfl => exact h1
    | 3, _, rfl => exact h2
    | 4, _, rfl => exact h3
    | 5, _, rfl => exact h4

theorem good_dof (l : Text) : Good l 1 [5, 10, 5, 10, 11, 10, 4, 11, 10, 4] [.int, .int, .int, .int, .str, .int, .int, .str, .int, .int] ↔ IntAt l 0 5 := by
  constructor
  · intro h; exact h 0 (by omega) .int rfl
  · intro h i hi ty hty
    obtain rfl : i = 0 := by omega
    cases hty; exact h

theorem good_form (l : Text) : Good l 6 [10, 10, 10, 13, 13, 13] [.int, .int, .int, .flt, .flt, .flt] ↔
    IntAt l 0 10 ∧ IntAt l 10 10 ∧ IntAt l 20 10 ∧ FloatAt l 30 13 ∧ FloatAt l 43 13 ∧ FloatAt l 56 13 := by
  constructor
  · intro h
    exact ⟨h 0 (by omega) .int rfl, h 1 (by omega) .int rfl, h 2 (by omega) .int rfl, h 3 (by omega) .flt rfl, h 4 (by omega) .flt rfl,
      h 5 (by omega) .flt rfl⟩
  · rintro ⟨h1, h2, h3, h4, h5, h6⟩ i hi ty hty
    match i, hi, hty with
    | 0, _, rfl => exact h1
    | 1, _, rfl => exact h2
    | 2, _, rfl => exact h3
    | 3, _, rfl => exact h4
    | 4, _, rfl => exact h5
    | 5, _, rfl => exact h6

theorem good_units (l : Text) : Good l 4 [10, 5, 5, 5, 21, 21] [.int, .int, .int, .int, .str, .str] ↔ FuncLines.Units l := by
  constructor
  · intro h
    exact ⟨h 0 (by omega) .int rfl, h 1 (by omega) .int rfl, h 2 (by omega) .int rfl, h 3 (by omega) .int rfl⟩
  · rintro ⟨h1, h2, h3, h4⟩ i hi ty hty
    match i, hi, hty with
    | 0, _, rfl => exact h1
    | 1, _, rfl => exact h2
    | 2, _, rfl => exact h3
    | 3, _, rfl => exact h4

theorem named_dof (l : Text) : namedFields l [5, 10, 5, 10, 11, 10, 4, 11, 10, 4] [.int, .int, .int, .int, .str, .int, .int, .str, .int, .int]
    ["func_type", "func_id", "ver_num", "load_case_id", "rsp_ent_name", "rsp_node", "rsp_dir", "ref_ent_name", "ref_node", "ref_dir"] =
    ([("func_type", .int (intAt l 0 5)), ("func_id", .int (intAt l 5 10)), ("ver_num", .int (intAt l 15 5)), ("load_case_id", .int (intAt l 20 10)),
     ("rsp_ent_name", .str (column l 30 11)), ("rsp_node", .int (intAt l 41 10)), ("rsp_dir", .int (intAt l 51 4)),
     ("ref_ent_name", .str (column l 55 11)), ("ref_node", .int (intAt l 66 10)), ("ref_dir", .int (intAt l 76 4))] : Dict) := rfl

theorem named_form (l : Text) : namedFields l [10, 10, 10, 13, 13, 13] [.int, .int, .int, .flt, .flt, .flt]
    ["ord_data_type", "num_pts", "abscissa_spacing", "abscissa_min", "abscissa_inc", "z_axis_value"] =
    ([("ord_data_type", .int (intAt l 0 10)), ("num_pts", .int (intAt l 10 10)), ("abscissa_spacing", .int (intAt l 20 10)),
     ("abscissa_min", .float (floatAt l 30 13)), ("abscissa_inc", .float (floatAt l 43 13)), ("z_axis_value", .float (floatAt l 56 13))] : Dict) := rfl

theorem named_units (l : Text) (k0 k1 k2 k3 k4 k5 : Key) : namedFields l [10, 5, 5, 5, 21, 21] [.int, .int, .int, .int, .str, .str] [k0, k1, k2, k3, k4, k5] =
    FuncLines.units k0 k1 k2 k3 k4 k5 l := rfl

theorem id_iff (h : FuncLines) (d : Dict) : idEntries58 h.type = .ok d ↔
    (h.binary = true → IntAt h.type 7 6 ∧ IntAt h.type 13 6 ∧ IntAt h.type 19 12 ∧ IntAt h.type 31 12) ∧ d = h.first := by
  unfold idEntries58 FuncLines.first
  rw [binary_iff]
  cases h.binary with
  | false => simp only [Bool.false_eq_true, if_false, false_imp_iff, true_and]; exact ⟨fun h => (Except.ok.inj h).symm, fun h => by rw [h]⟩
  | true =>
    simp only [if_true, true_imp_iff]
    rw [← good_bin]
    have hs : Shape 6 [6, 1, 6, 6, 12, 12, 6, 6, 12, 12] [.ign, .ign, .int, .int, .int, .int, .ign, .ign, .ign, .ign]
      ["", "", "byte_ordering", "fp_format", "n_ascii_lines", "n_bytes", "", "", "", ""] := by decide
    have := head_to (line := h.type) hs (F := fun e => (.ok ((Dict.set ([("type", .int 58), ("binary", .int 0)] : Dict) "binary" (.int 1)).update e) : Res Dict)) (b := d)
    constructor
    · intro he
      obtain ⟨h1, h2⟩ := this.1 (by
        cases hp : parseHeader h.type 6 [6, 1, 6, 6, 12, 12, 6, 6, 12, 12] [.ign, .ign, .int, .int, .int, .int, .ign, .ign, .ign, .ign]
          ["", "", "byte_ordering", "fp_format", "n_ascii_lines", "n_bytes", "", "", "", ""] with
        | error e => rw [hp] at he; cases he
        | ok e => rw [hp] at he; exact he)
      exact ⟨h1, (Except.ok.inj h2).symm⟩
    · rintro ⟨h1, rfl⟩
      have h2 := this.2 ⟨h1, rfl⟩
      cases hp : parseHeader h.type 6 [6, 1, 6, 6, 12, 12, 6, 6, 12, 12] [.ign, .ign, .int, .int, .int, .int, .ign, .ign, .ign, .ign]
          ["", "", "byte_ordering", "fp_format", "n_ascii_lines", "n_bytes", "", "", "", ""] with
        | error e => rw [hp] at h2; cases h2
        | ok e => rw [hp] at h2; exact h2

theorem first_keys (h : FuncLines) : h.first.map (·.1) = (["type", "binary", "byte_ordering", "fp_format", "n_ascii_lines", "n_bytes"] : List Key) ∨
    h.first.map (·.1) = (["type", "binary"] : List Key) := by
  unfold FuncLines.first
  cases h.binary
  · exact .inr rfl
  · exact .inl rfl

theorem second_keys (h : FuncLines) : h.second.map (·.1) = (["id1", "id2", "id3", "id4", "id5", "func_type", "func_id", "ver_num", "load_case_id",
    "rsp_ent_name", "rsp_node", "rsp_dir", "ref_ent_name", "ref_node", "ref_dir", "ord_data_type", "num_pts", "abscissa_spacing", "abscissa_min",
    "abscissa_inc", "z_axis_value"] : List Key) := by
  unfold FuncLines.second; simp only [List.map_cons, List.map_nil]

theorem third_keys (h : FuncLines) : h.third.map (·.1) = (["abscissa_spec_data_type", "abscissa_len_unit_exp", "abscissa_force_unit_exp",
    "abscissa_temp_unit_exp", "abscissa_axis_lab", "abscissa_axis_units_lab", "ordinate_spec_data_type", "ordinate_len_unit_exp",
    "ordinate_force_unit_exp", "ordinate_temp_unit_exp", "ordinate_axis_lab", "ordinate_axis_units_lab", "orddenom_spec_data_type",
    "orddenom_len_unit_exp", "orddenom_force_unit_exp", "orddenom_temp_unit_exp", "orddenom_axis_lab", "orddenom_axis_units_lab",
    "z_axis_spec_data_type", "z_axis_len_unit_exp", "z_axis_force_unit_exp", "z_axis_temp_unit_exp", "z_axis_axis_lab",
    "z_axis_axis_units_lab"] : List Key) := by
  unfold FuncLines.third FuncLines.units
  simp only [List.map_append, List.map_cons, List.map_nil, List.cons_append, List.nil_append]

theorem nodup (h : FuncLines) (e : Dict) (he : e = [] ∨ e.map (·.1) = (["x", "data"] : List Key)) : ((h.dict ++ e).map (·.1)).Nodup := by
  unfold FuncLines.dict
  rw [List.map_append, List.map_append, List.map_append, second_keys, third_keys]
  rcases first_keys h with h1 | h1 <;> rcases he with rfl | h2
  · rw [h1]; decide +kernel
  · rw [h1, h2]; decide +kernel
  · rw [h1]; decide +kernel
  · rw [h1, h2]; decide +kernel

theorem units_to {β : Type} {l : Text} {k : UnitKeys} (hs : Shape 4 [10, 5, 5, 5, 21, 21] [.int, .int, .int, .int, .str, .str]
    [k.spec, k.len, k.force, k.temp, k.lab, k.units]) {F : Dict → Res β} {b : β} :
    (readUnits (orIndex (some l)) k >>= F) = .ok b ↔ FuncLines.Units l ∧ F (FuncLines.units k.spec k.len k.force k.temp k.lab k.units l) = .ok b := by
  unfold readUnits
  simp only [orIndex]
  rw [head_to hs, good_units, named_units]

theorem units_to' {β : Type} {l : Text} {k : UnitKeys} (hs : Shape 4 [10, 5, 5, 5, 21, 21] [.int, .int, .int, .int, .str, .str]
    [k.spec, k.len, k.force, k.temp, k.lab, k.units]) {F : Dict → Res β} {b : β} :
    (readUnits (.ok l) k >>= F) = .ok b ↔ FuncLines.Units l ∧ F (FuncLines.units k.spec k.len k.force k.temp k.lab k.units l) = .ok b :=
  units_to hs

theorem head_iff (h : FuncLines) (data : List Text) (p : Bool × Dict) : readHead58 (h.lines ++ data) = .ok p ↔ h.Good ∧ p = (h.binary, h.dict) := by
  unfold readHead58 FuncLines.lines FuncLines.Good
  simp only [List.cons_append, List.getElem?_cons_succ, List.getElem?_cons_zero]
  rw [show orIndex (some h.type) = Except.ok h.type from rfl, ok_bind, ok_iff]
  simp (disch := decide) only [orIndex, ok_bind,
    head_to, units_to', good_str, good_dof, good_form, named_text, named_dof, named_form, true_and, id_iff, Except.ok.injEq]
  have e : ∀ d0 : Dict, d0 = h.first → (((((((((((d0.update [("id1", .str (column h.id1 0 80))]).update [("id2", .str (column h.id2 0 80))]).update
      [("id3", .str (column h.id3 0 80))]).update [("id4", .str (column h.id4 0 80))]).update [("id5", .str (column h.id5 0 80))]).update
      [("func_type", .int (intAt h.dof 0 5)), ("func_id", .int (intAt h.dof 5 10)), ("ver_num", .int (intAt h.dof 15 5)), ("load_case_id", .int (intAt h.dof 20 10)),
     ("rsp_ent_name", .str (column h.dof 30 11)), ("rsp_node", .int (intAt h.dof 41 10)), ("rsp_dir", .int (intAt h.dof 51 4)),
     ("ref_ent_name", .str (column h.dof 55 11)), ("ref_node", .int (intAt h.dof 66 10)), ("ref_dir", .int (intAt h.dof 76 4))]).update
      [("ord_data_type", .int (intAt h.form 0 10)), ("num_pts", .int (intAt h.form 10 10)), ("abscissa_spacing", .int (intAt h.form 20 10)),
     ("abscissa_min", .float (floatAt h.form 30 13)), ("abscissa_inc", .float (floatAt h.form 43 13)), ("z_axis_value", .float (floatAt h.form 56 13))]).update
      (FuncLines.units abscissaKeys.spec abscissaKeys.len abscissaKeys.force abscissaKeys.temp abscissaKeys.lab abscissaKeys.units h.abscissa)).update
      (FuncLines.units ordinateKeys.spec ordinateKeys.len ordinateKeys.force ordinateKeys.temp ordinateKeys.lab ordinateKeys.units h.ordinate)).update
      (FuncLines.units orddenomKeys.spec orddenomKeys.len orddenomKeys.force orddenomKeys.temp orddenomKeys.lab orddenomKeys.units h.denominator)).update
      (FuncLines.units zAxisKeys.spec zAxisKeys.len zAxisKeys.force zAxisKeys.temp zAxisKeys.lab zAxisKeys.units h.zAxis)) = h.dict := by
    rintro d0 rfl
    have n := nodup h [] (.inl rfl)
    rw [List.append_nil] at n
    unfold FuncLines.dict at n ⊢
    rw [← Dict.update_fresh _ _ n]
    unfold FuncLines.second FuncLines.third
    simp only [Dict.update_update, List.cons_append, List.nil_append, List.append_assoc]
    rfl
  constructor
  · rintro ⟨d0, ⟨h1, h2⟩, h3, h4, h5, h6, h7, h8, hp⟩
    exact ⟨⟨h1, h3, h4, h5, h6, h7, h8⟩, by rw [← hp, e d0 h2, binary_iff]⟩
  · rintro ⟨⟨h1, h3, h4, h5, h6, h7, h8⟩, rfl⟩
    exact ⟨h.first, ⟨h1, rfl⟩, h3, h4, h5, h6, h7, h8, by rw [e _ rfl, binary_iff]⟩

theorem known_units (o : Option Text) (k : UnitKeys) : Known (readUnits (orIndex o) k) := by
  unfold readUnits
  cases o with
  | none => unfold Known orIndex; simp
  | some l => exact known_head _ _ _ _ _

theorem known_id (l : Text) : Known (idEntries58 l) := by
  unfold idEntries58
  simp only
  split
  · have := known_head l 6 [6, 1, 6, 6, 12, 12, 6, 6, 12, 12] [.ign, .ign, .int, .int, .int, .int, .ign, .ign, .ign, .ign]
      ["", "", "byte_ordering", "fp_format", "n_ascii_lines", "n_bytes", "", "", "", ""]
    split
    · exact known_ok _
    · rename_i e he
      rw [he] at this
      exact fun h => this (by cases h; rfl)
  · exact known_ok _

theorem known_head58 (ls : List Text) : Known (readHead58 ls) := by
  unfold readHead58
  refine known_bind (known_index _) fun _ _ => known_bind (known_id _) fun _ _ => ?_
  repeat' first
  | with_reducible exact known_ok _
  | with_reducible exact known_index _
  | with_reducible exact known_units _ _
  | with_reducible exact known_head _ _ _ _ _
  | with_reducible refine known_bind ?_ fun _ _ => ?_

theorem head_take (ls : List Text) : readHead58 ls = readHead58 (ls.take 13) := by
  unfold readHead58
  have e : ∀ i, i < 13 → (ls.take 13)[i]? = ls[i]? := fun i hi => List.getElem?_take_of_lt hi
  simp (disch := decide) only [e]

theorem thirteen (t : List Text) (h : t.length = 13) : ∃ r : FuncLines, t = r.lines := by
  match t, h with
  | [a, b, c, d, e, f, g, i, j, k, l, m, n], _ => exact ⟨⟨a, b, c, d, e, f, g, i, j, k, l, m, n⟩, rfl⟩

theorem head_long (ls : List Text) (p : Bool × Dict) (h : readHead58 ls = .ok p) : 13 ≤ ls.length := by
  by_contra hl
  unfold readHead58 at h
  rw [show ls[12]? = none from List.getElem?_eq_none (by omega)] at h
  simp only [ok_iff] at h
  have : ∀ k d, (readUnits (orIndex none) k = .ok d) = False := fun _ _ => eq_false (by rintro ⟨⟩)
  simp only [this, reduceCtorEq, false_and, and_false, exists_false] at h

theorem block_head (b : Bytes) : readHead58 (splitLinesKeep (decode ((splitLinesKeepB b).take 13).flatten)) = readHead58 (splitLinesKeep (decode b)) := by
  rw [head_take, head_lines 13 b 13 (le_refl _), ← head_take]

theorem extract_true (b : Bytes) (h : FuncLines) (data : List Text) (hl : splitLinesKeep (decode b) = h.lines ++ data) (hg : h.Good) :
    extract58 b true = .ok (h.dict ++ ([("x", .none), ("data", .none)] : Dict)) := by
  unfold extract58
  rw [block_head, hl, (head_iff h data _).2 ⟨hg, rfl⟩, ok_bind]
  simp only [if_true]
  rw [Dict.set_eq_update, Dict.set_eq_update, Dict.update_update, Dict.update_fresh _ _ (nodup h _ (.inr rfl))]
  rfl

theorem extract_error (b : Bytes) (header : Bool) (hn : ∀ h data, splitLinesKeep (decode b) = FuncLines.lines h ++ data → ¬ h.Good) :
    extract58 b header = .error (.reading 58) := by
  unfold extract58
  rw [block_head]
  refine guard_error (known_head58 _) fun p hp => ?_
  have hl := head_long _ p hp
  obtain ⟨h, hh⟩ := thirteen ((splitLinesKeep (decode b)).take 13) (by rw [List.length_take]; omega)
  have e : splitLinesKeep (decode b) = h.lines ++ (splitLinesKeep (decode b)).drop 13 := by rw [← hh, List.take_append_drop]
  rw [e] at hp
  exact hn h _ e ((head_iff h _ p).1 hp).1

end Funcs
end Verif
