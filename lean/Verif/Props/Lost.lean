import Verif.Lemmas.Whole
import Verif.Lemmas.Wide
import Verif.Lemmas.Count
import Verif.Props.Records
/-
The exact conditions for data to come back, where the round trips of C16 to C33 are partial: beyond them the data are
written without complaint, and lost.
-/
namespace Verif
open Records

/-! ### C19: six complex values per node -/

/-- Complex data with all of `r4`, `r5` and `r6`: whatever these hold, and whatever the file, the call succeeds, there is one
data-set more, and reading it raises. -/
theorem C19_lost (e : Env) (fd : Bool) (d d' : Dict) (r : DS55) (hc : CleanD d d') (h : r.Carries d') (ok : r.Ok)
    (l : List NodeC) (hl : r.data = .cplx3 l) (h4 : d'.has "r4" = true) (h5 : d'.has "r5" = true) (h6 : d'.has "r6" = true)
    (w : World) (ht : Terminated (w.file.getD [])) (hb : Balanced (w.file.getD [])) (header : Bool) :
    let s := w.writeSets e "add".toList fd [d]
    s.2.2 = .ok () ∧ s.1.getNSets.2 = setCount (w.file.getD []) + 1 ∧
    (s.1.readSets (.one (setCount (w.file.getD []))) header).2 = .error (.exc "Error when reading data-set(s).") := by
  have six : ((DS55.filled d' r).has "r4" && (DS55.filled d' r).has "r5" && (DS55.filled d' r).has "r6") = true := by
    rw [DS55.has_filled d' r "r4" rfl rfl rfl, DS55.has_filled d' r "r5" rfl rfl rfl, DS55.has_filled d' r "r6" rfl rfl rfl,
      h4, h5, h6]
    rfl
  have hw := DS55.write_with d' r h true (by rw [hl]; intro h; cases h) six
  have hr := DS55.read_lost r ok l hl
  have := read_lines (e := e) (fd := fd) (ex := extract55) hc h.type rfl (fun _ _ => rfl) hw (DS55.safe_with r ok 6 (by decide) (by decide))
    ((blockType_block _ _ (by decide)).trans (by decide +kernel)) w ht hb header
  simp only [if_true, hr] at this
  intro s
  have hs : s = w.addAll e fd [d] := writeSets_add' w e "add".toList (by decide) fd [d] (by simp)
  rw [hs]
  exact this

/-- Complex data come back exactly when not all of `r4`, `r5` and `r6` are given. -/
theorem C19_iff (e : Env) (fd : Bool) (d d' : Dict) (r : DS55) (hc : CleanD d d') (h : r.Carries d') (ok : r.Ok)
    (l : List NodeC) (hl : r.data = .cplx3 l) :
    StoredAs e fd d r.readBack r.readBack ↔ ¬ (d'.has "r4" = true ∧ d'.has "r5" = true ∧ d'.has "r6" = true) := by
  constructor
  · rintro hs ⟨h4, h5, h6⟩
    have h1 := (hs.all (World.new none) (.inl rfl) (by decide)).2.2.1
    have h2 := (C19_lost e fd d d' r hc h ok l hl h4 h5 h6 (World.new none) (.inl rfl) (by decide) false).2.2
    rw [h1] at h2
    cases h2
  · intro h3
    exact stored_given (s := .s55 r) ⟨d', hc, ⟨h, fun _ _ => h3⟩, ok⟩

/-- The mode shape of `C19_negation`. -/
example : ex55c.Carries bad55 ∧ ex55c.Ok ∧ bad55.has "r4" = true ∧ bad55.has "r5" = true ∧ bad55.has "r6" = true := by
  refine ⟨⟨rfl, rfl, rfl, rfl, rfl, rfl, rfl, rfl, ⟨_, rfl, rfl⟩, ⟨_, rfl, rfl⟩, ?_, ?_⟩, ex55c_ok, rfl, rfl, rfl⟩
  · exact ⟨⟨_, rfl, rfl⟩, ⟨_, rfl, rfl⟩, ⟨_, rfl, rfl⟩, rfl, rfl⟩
  · exact ⟨⟨_, rfl, isSeq_arrI _⟩, ⟨_, rfl, isSeq_arrC _⟩, ⟨_, rfl, isSeq_arrC _⟩, ⟨_, rfl, isSeq_arrC _⟩, fun h => by cases h⟩

/-! ### C26: fields of 10 columns read in columns of 12 -/

theorem DS1858.fits_of_read (r : DS1858) (ok : r.Fit) (h : extract1858 (blockText r.lines) = .ok r.readBack) :
    Fits 8 r.octave ∧ Fits 6 r.run := by
  unfold extract1858 at h
  rw [guard_ok, splitKeep_block _ (DS1858.safe r ok)] at h
  simp only [DS1858.lines, List.map_cons, List.map_nil, List.take_succ_cons, List.take_zero, List.getElem?_cons_succ,
    List.getElem?_cons_zero] at h
  simp (disch := decide) only [index_bind, head_bind, good_18a, good_18b, good_18c, good_18d, good_18e, true_and,
      named_18a, named_18b, named_18c, named_18d, named_18e, Except.ok.injEq] at h
  obtain ⟨l2, h2, ⟨g1, g2, -⟩, l3, -, -, l4, -, -, l5, -, -, l7, -, hd⟩ := h
  have hq : qualifiers1858 l2 l3 l4 l5 l7 = r.readBack := by rw [← hd]; unfold qualifiers1858; build_dict
  clear hd
  unfold qualifiers1858 DS1858.readBack at hq
  have e1 : intAt l2 0 12 = r.recordNum := by injection hq with _ hq; injection hq with hq _; injection hq with _ hq; injection hq
  have e2 : intAt l2 12 12 = r.octave := by
    injection hq with _ hq; injection hq with _ hq; injection hq with hq _; injection hq with _ hq; injection hq
  clear hq
  cases h2
  have l1 := len_int 10 _ ok.recordNum (by decide)
  have l2 := len_int 10 _ ok.octave10 (by decide)
  have l3 := len_int 10 _ ok.run10 (by decide)
  have c1 : ∀ u : Text, column ([padLeft 10 (intRepr r.recordNum), padLeft 10 (intRepr r.octave), padLeft 10 (intRepr r.run),
      padLeft 10 ['0'], padLeft 10 ['0'], padLeft 10 ['0']].flatten ++ u) 0 12 =
      strip (padLeft 10 (intRepr r.recordNum) ++ (padLeft 10 (intRepr r.octave)).take 2) := by
    intro u
    unfold column
    simp only [List.flatten_cons, List.append_assoc, List.drop_zero]
    rw [List.take_append, l1, List.take_of_length_le (by omega), List.take_append_of_le_length (by omega)]
  have c2 : ∀ u : Text, column ([padLeft 10 (intRepr r.recordNum), padLeft 10 (intRepr r.octave), padLeft 10 (intRepr r.run),
      padLeft 10 ['0'], padLeft 10 ['0'], padLeft 10 ['0']].flatten ++ u) 12 12 =
      strip ((padLeft 10 (intRepr r.octave)).drop 2 ++ (padLeft 10 (intRepr r.run)).take 4) := by
    intro u
    unfold column
    simp only [List.flatten_cons, List.append_assoc]
    rw [List.drop_append, l1, List.drop_of_length_le (by omega), List.nil_append, List.drop_append_of_le_length (by omega),
      List.take_append, List.length_drop, l2, List.take_of_length_le (by simp [l2]), List.take_append_of_le_length (by omega)]
  have i1 : parseInt (strip (padLeft 10 (intRepr r.recordNum) ++ (padLeft 10 (intRepr r.octave)).take 2)) = some r.recordNum := by
    have e := e1
    unfold intAt at e
    unfold IntAt at g1
    rw [c1] at e g1
    cases hp : parseInt (strip (padLeft 10 (intRepr r.recordNum) ++ (padLeft 10 (intRepr r.octave)).take 2)) with
    | none => exact absurd hp g1
    | some x =>
      rw [hp] at e
      exact congrArg some e
  have f1 := length_of_wide 10 10 2 _ _ (intRepr_length 10 _ ok.octave10 (by decide)) (by decide) i1
  have i2 : parseInt (strip (padLeft 8 (intRepr r.octave) ++ (padLeft 10 (intRepr r.run)).take 4)) = some r.octave := by
    have e := e2
    unfold intAt at e
    unfold IntAt at g2
    have hd : (padLeft 10 (intRepr r.octave)).drop 2 = padLeft 8 (intRepr r.octave) := by
      rw [padLeft_more 2 8 _ f1]; rfl
    rw [c2, hd] at e g2
    cases hp : parseInt (strip (padLeft 8 (intRepr r.octave) ++ (padLeft 10 (intRepr r.run)).take 4)) with
    | none => exact absurd hp g2
    | some x =>
      rw [hp] at e
      exact congrArg some e
  have f2 := length_of_wide 8 10 4 _ _ (intRepr_length 10 _ ok.run10 (by decide)) (by decide) i2
  exact ⟨fits_of_length 8 _ f1, fits_of_length 6 _ f2⟩

/-- Qualifiers whose values fit the fields of the writer come back exactly when `octave_format` has at most 8 characters and
`measurement_run` at most 6: what the 12 columns of the reader leave of the 10 columns of the writer. -/
theorem C26_iff (e : Env) (fd : Bool) (d d' : Dict) (r : DS1858) (hc : CleanD d d') (h : r.Rep d') (ok : r.Fit) :
    StoredAs e fd d r.readBack r.readBack ↔ Fits 8 r.octave ∧ Fits 6 r.run := by
  constructor
  · intro hs
    have h1 := (hs.all (World.new none) (.inl rfl) (by decide)).2.2.1
    have h2 := (read_lines (e := e) (fd := fd) (ex := extract1858) hc h.type rfl (fun _ _ => rfl) (DS1858.write_eq d' r h)
      (DS1858.safe r ok) ((blockType_block _ _ (by decide)).trans (by decide +kernel)) (World.new none) (.inl rfl) (by decide) false).2.2
    rw [writeSets_add' _ e "add".toList (by decide) fd [d] (by simp)] at h1
    rw [h1] at h2
    apply DS1858.fits_of_read r ok
    cases hx : extract1858 (blockText r.lines) with
    | error y => rw [hx] at h2; cases h2
    | ok x =>
      rw [hx] at h2
      cases h2
      rfl
  · rintro ⟨h8, h6⟩
    exact stored_given (s := .s1858 r) ⟨d', hc, h, ⟨ok, h8, h6⟩⟩

/-- Nine digits in `octave_format` (`C26_negation`), and seven in `measurement_run`. -/
example : bad1858.Fit ∧ ¬ Fits 8 bad1858.octave ∧ ({ ex1858 with run := 1234567 } : DS1858).Fit ∧ ¬ Fits 6 1234567 :=
  ⟨by constructor <;> decide +kernel, by decide, by constructor <;> decide +kernel, by decide⟩

/-! ### C29: the beam record that is read and not written -/

/-- Elements whose values fit come back exactly when none has the descriptor 21, 22, 23 or 24. -/
theorem C29_iff (e : Env) (fd : Bool) (d d' : Dict) (r : DS2412) (hc : CleanD d d') (h : r.Rep d')
    (ok : ∀ x ∈ r.elems, DS2412.ElemFit x) :
    StoredAs e fd d r.readBack r.readBack ↔ ∀ x ∈ r.elems, x.fe ≠ 21 ∧ x.fe ≠ 22 ∧ x.fe ≠ 23 ∧ x.fe ≠ 24 := by
  constructor
  · intro hs
    have h1 := (hs.all (World.new none) (.inl rfl) (by decide)).2.2.1
    have h2 := (read_lines (e := e) (fd := fd) (ex := extract2412) hc h.type rfl (fun _ _ => rfl) (DS2412.write_eq d' r h)
      (DS2412.safe r ok) ((blockType_block _ _ (by decide)).trans (by decide +kernel)) (World.new none) (.inl rfl) (by decide) false).2.2
    rw [writeSets_add' _ e "add".toList (by decide) fd [d] (by simp)] at h1
    rw [h1] at h2
    have hx : extract2412 (blockText r.lines) = .ok r.readBack := by
      cases hx : extract2412 (blockText r.lines) with
      | error y => rw [hx] at h2; cases h2
      | ok x =>
        rw [hx] at h2
        cases h2
        rfl
    have hl := DS2412.extract_weigh _ _ hx
    rw [split_block _ (DS2412.safe r ok), DS2412.weigh_readBack] at hl
    simp only [DS2412.lines, List.map_cons, List.drop_succ_cons, List.drop_zero, DS2412.lines_length] at hl
    exact DS2412.no_rod _ hl
  · intro hr
    exact stored_given (s := .s2412 r) ⟨d', hc, h, fun x hx => ⟨ok x hx, hr x hx⟩⟩

/-- The beams of `C29_negation_beam`. -/
example : (∀ x ∈ bad2412.elems, DS2412.ElemFit x) ∧ ∃ x ∈ bad2412.elems, x.fe = 21 := by
  refine ⟨?_, ⟨2, 21, 1, 1, 5, 2, (3, 1, 1), [1, 2]⟩, by simp [bad2412, DS2412.elems], rfl⟩
  intro x hx
  simp only [DS2412.elems, bad2412, List.flatten_cons, List.flatten_nil, List.append_nil, List.mem_cons, List.not_mem_nil,
    or_false] at hx
  rcases hx with rfl | rfl <;> constructor <;> decide +kernel

end Verif
