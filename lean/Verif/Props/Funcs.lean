import Verif.Lemmas.Funcs
import Verif.Props.Foreign
import Verif.Props.Shapes
/-
C56: functions at nodal degrees of freedom (58) of any program, header and values.
-/
namespace Verif
open Funcs

/-- The header of a data-set 58, whoever wrote it: when the numbers that are required are in their columns, reading the header
alone gives exactly what stands in the columns of its thirteen lines.  Whatever follows the header does not matter. -/
theorem C56_header (f : Bytes) (k : Nat) (hk : k < setCount f) (ht : TypeIs (setBytes f k) 58) (h : FuncLines) (hg : h.Good) (data : List Text)
    (hl : splitLinesKeep (decode (setBytes f k)) = h.lines ++ data) :
    ((World.new (some f)).readSets (.one k) true).2 = .ok (.single (h.dict ++ ([("x", .none), ("data", .none)] : Dict))) := by
  rw [read58 f k hk ht]
  exact extract_true _ h data hl hg

/-- In all other cases the reading fails, with the values or without. -/
theorem C56_error (f : Bytes) (k : Nat) (hk : k < setCount f) (ht : TypeIs (setBytes f k) 58)
    (hn : ∀ h data, splitLinesKeep (decode (setBytes f k)) = FuncLines.lines h ++ data → ¬ h.Good) (header : Bool) :
    ((World.new (some f)).readSets (.one k) header).2 = .error (.exc "Error when reading data-set(s).") :=
  read_typed_error f k hk 58 ht header _ (extract_error _ _ hn)

theorem dict_get (h : FuncLines) : let d := h.dict ++ ([("x", .none), ("data", .none)] : Dict)
    d.get? "binary" = some (.int (if h.binary then 1 else 0)) ∧ d.get? "ord_data_type" = some (.int (intAt h.form 0 10)) ∧
    d.get? "abscissa_spacing" = some (.int (intAt h.form 20 10)) ∧ d.get? "abscissa_min" = some (.float (floatAt h.form 30 13)) ∧
    d.get? "abscissa_inc" = some (.float (floatAt h.form 43 13)) ∧
    (h.binary = true → d.get? "byte_ordering" = some (.int (intAt h.type 7 6))) := by
  unfold FuncLines.dict FuncLines.first
  cases hb : h.binary
  · exact ⟨rfl, rfl, rfl, rfl, rfl, by simp⟩
  · exact ⟨rfl, rfl, rfl, rfl, rfl, fun _ => rfl⟩

theorem dict_header (h : FuncLines) (form : Form58) (hf : h.Form form) :
    Header58 (h.dict ++ ([("x", .none), ("data", .none)] : Dict)) h.binary form (floatAt h.form 30 13) (floatAt h.form 43 13) := by
  have := dict_get h
  exact ⟨this.1, by rw [this.2.1, hf.1], by rw [this.2.2.1, hf.2], this.2.2.2.1, this.2.2.2.2.1⟩

theorem dict_set (h : FuncLines) (a b : Val) : ((h.dict ++ ([("x", .none), ("data", .none)] : Dict)).set "x" a).set "data" b =
    h.dict ++ ([("x", a), ("data", b)] : Dict) := by
  have n := nodup h ([("x", .none), ("data", .none)] : Dict) (.inr rfl)
  have e : (h.dict ++ ([("x", .none), ("data", .none)] : Dict)) = h.dict.update ([("x", .none), ("data", .none)] : Dict) :=
    (Dict.update_fresh _ _ n).symm
  have n2 := nodup h ([("x", a), ("data", b)] : Dict) (.inr rfl)
  rw [← Dict.update_fresh _ _ n2, e]
  unfold FuncLines.dict FuncLines.first
  cases h.binary <;> rfl

/-- An ASCII data-set 58, whoever wrote it, header and values: what stands in the columns of the header, the abscissa and the
ordinate.  Missing for the general claim: double precision with lines filled up with blanks (`C46_negation_padded`), no value at
all in single precision (`C46_negation_empty`). -/
theorem C56_ascii_partial (f : Bytes) (k : Nat) (hk : k < setCount f) (ht : TypeIs (setBytes f k) 58) (h : FuncLines) (hg : h.Good)
    (hb : h.binary = false) (form : Form58) (hf : h.Form form) (ls : List Line58)
    (hl : splitLinesKeep (decode (setBytes f k)) = h.lines ++ ls.map Line58.text) (ok : form.LinesOk ls)
    (l : List Sample) (hv : OneByOne (fun c x => pyFloat c = .ok x) (ls.flatMap Line58.cells) (l.flatMap form.numbers))
    (hfin : form.real = false → ∀ s ∈ l, s.re.finite = true ∧ s.im.finite = true) :
    ((World.new (some f)).readSets (.one k) false).2 = .ok (.single (h.dict ++
      ([("x", .arrF (form.abscissa (floatAt h.form 30 13) (floatAt h.form 43 13) l)), ("data", form.ordinate l)] : Dict))) := by
  have hh := dict_header h form hf
  rw [hb] at hh
  rw [C46_ascii_partial f k hk ht _ (C56_header f k hk ht h hg _ hl) form _ _ hh ls (by rw [hl]; rfl) ok l hv hfin, dict_set]

/-- A binary data-set 58 in the same way. -/
theorem C56_binary (f : Bytes) (k : Nat) (hk : k < setCount f) (ht : TypeIs (setBytes f k) 58) (h : FuncLines) (hg : h.Good)
    (hb : h.binary = true) (form : Form58) (hf : h.Form form) (data : List Text)
    (hl : splitLinesKeep (decode (setBytes f k)) = h.lines ++ data)
    (heads words : List Bytes) (rest : Bytes) (hw : setBytes f k = heads.flatten ++ (words.flatten ++ rest))
    (hn : heads.length = 13) (hh : ∀ l ∈ heads, ByteLine l) (hr : rest.length < form.size)
    (l : List Sample) (hv : OneByOne (form.Word (decide (intAt h.type 7 6 = 1))) words (l.flatMap form.numbers))
    (hfin : form.real = false → ∀ s ∈ l, s.re.finite = true ∧ s.im.finite = true) :
    ((World.new (some f)).readSets (.one k) false).2 = .ok (.single (h.dict ++
      ([("x", .arrF (form.abscissa (floatAt h.form 30 13) (floatAt h.form 43 13) l)), ("data", form.ordinate l)] : Dict))) := by
  have hd := dict_header h form hf
  rw [hb] at hd
  rw [C46_binary f k hk ht _ (C56_header f k hk ht h hg _ hl) form _ _ hd _ ((dict_get h).2.2.2.2.2 hb) heads words rest hw hn hh hr l hv hfin, dict_set]

theorem args_dict (h : FuncLines) : bodyArgs h.dict =
    .ok (intAt h.form 0 10, intAt h.form 20 10, floatAt h.form 30 13, floatAt h.form 43 13) := by
  unfold FuncLines.dict FuncLines.first
  cases h.binary <;> rfl

/-- An ASCII data-set 58 whose header gives no known form of the values is refused, though its header can be read alone. -/
theorem C56_unsupported (f : Bytes) (k : Nat) (hk : k < setCount f) (ht : TypeIs (setBytes f k) 58) (h : FuncLines) (hg : h.Good)
    (hb : h.binary = false)
    (hu : (intAt h.form 0 10 ≠ 2 ∧ intAt h.form 0 10 ≠ 5) ∧
      ((intAt h.form 0 10 ≠ 4 ∧ intAt h.form 0 10 ≠ 6) ∨ (intAt h.form 20 10 ≠ 0 ∧ intAt h.form 20 10 ≠ 1))) (data : List Text)
    (hl : splitLinesKeep (decode (setBytes f k)) = h.lines ++ data) :
    ((World.new (some f)).readSets (.one k) false).2 = .error (.exc "Error when reading data-set(s).") := by
  refine read_typed_error f k hk 58 ht false 58 ?_
  change extract58 _ false = _
  unfold extract58
  rw [block_head, hl, (head_iff h data _).2 ⟨hg, rfl⟩, ok_bind]
  simp only [hb, Bool.false_eq_true, if_false, args_dict, ok_bind]
  unfold asciiValues
  rw [if_neg (by omega), if_neg (by omega), if_neg (by omega), if_neg (by omega)]
  rfl

/-- A binary data-set 58 whose header gives no known type of the values is read without abscissa and ordinate, and without an
error. -/
theorem C56_dropped (f : Bytes) (k : Nat) (hk : k < setCount f) (ht : TypeIs (setBytes f k) 58) (h : FuncLines) (hg : h.Good)
    (hb : h.binary = true) (hu : ∀ form : Form58, intAt h.form 0 10 ≠ form.code) (data : List Text)
    (hl : splitLinesKeep (decode (setBytes f k)) = h.lines ++ data) :
    ((World.new (some f)).readSets (.one k) false).2 = .ok (.single h.dict) := by
  rw [read58 f k hk ht]
  unfold extract58
  rw [block_head, hl, (head_iff h data _).2 ⟨hg, rfl⟩, ok_bind]
  have ho : littleOf h.dict = .ok ((Val.int (intAt h.type 7 6)).numEq 1) := by
    unfold FuncLines.dict FuncLines.first littleOf
    rw [hb]
    rfl
  have h2 := hu ⟨false, true, true⟩
  have h4 := hu ⟨true, true, true⟩
  have h5 := hu ⟨false, false, true⟩
  have h6 := hu ⟨true, false, true⟩
  simp only [Form58.code] at h2 h4 h5 h6
  simp only [hb, Bool.false_eq_true, if_false, if_true, args_dict, ok_bind, ho]
  unfold assign58
  simp only
  rw [if_neg (by omega), if_neg (by omega)]
  rfl

/-! Examples: the files of `C46`, and others. -/

/-- The lines of a header without identification. -/
def exFunc (eol type form : Text) : FuncLines where
  l0 := chars!"    -1" ++ eol
  type := chars!"    58" ++ (type ++ eol)
  id1 := chars!"id" ++ eol
  id2 := chars!"id" ++ eol
  id3 := chars!"id" ++ eol
  id4 := chars!"id" ++ eol
  id5 := chars!"id" ++ eol
  dof := chars!"    1         1    0         0       NONE         1   1" ++ eol
  form := form ++ eol
  abscissa := chars!"        18    0    0    0" ++ eol
  ordinate := chars!"         8    0    0    0" ++ eol
  denominator := chars!"        13    0    0    0" ++ eol
  zAxis := chars!"         0    0    0    0" ++ eol

/-- The header of `exSingle`. -/
def exFuncS : FuncLines := exFunc ['\n'] [] chars!"         5       100         0  0.00000E+00  0.00000E+00  0.00000E+00"

theorem exFuncS_good : exFuncS.Good := by decide +kernel
theorem exFuncS_lines : splitLinesKeep (decode (setBytes exSingle 0)) = exFuncS.lines ++ exLines.map Line58.text := by
  rw [bytes_fast]; decide +kernel

example : ((World.new (some exSingle)).readSets (.one (0 : Nat)) true).2 =
    .ok (.single (exFuncS.dict ++ ([("x", .none), ("data", .none)] : Dict))) :=
  C56_header exSingle 0 exSingle_count exSingle_type _ exFuncS_good _ exFuncS_lines

example : ((World.new (some exSingle)).readSets (.one (0 : Nat)) false).2 = .ok (.single (exFuncS.dict ++
    ([("x", .arrF (Form58.abscissa ⟨false, false, false⟩ (floatAt exFuncS.form 30 13) (floatAt exFuncS.form 43 13) exSamples)),
      ("data", Form58.ordinate ⟨false, false, false⟩ exSamples)] : Dict))) :=
  C56_ascii_partial exSingle 0 exSingle_count exSingle_type _ exFuncS_good (by decide +kernel) _ (by constructor <;> decide +kernel) _ exFuncS_lines
    exLines_ok exSamples ((mapRes_iff _ _ _).1 exSingle_cells) (fun _ => by decide +kernel)

/-- Some of the entries: a blank field is 0 or an empty text. -/
example : exFuncS.dict.get? "num_pts" = some (.int 100) ∧ exFuncS.dict.get? "rsp_ent_name" = some (.str chars!"NONE") ∧
    exFuncS.dict.get? "ref_node" = some (.int 0) ∧ exFuncS.dict.get? "ordinate_spec_data_type" = some (.int 8) ∧
    exFuncS.dict.get? "ordinate_axis_lab" = some (.str []) := by decide +kernel

/-- The header of `exWordsFile`. -/
def exFuncW : FuncLines := exFunc ['\r', '\n'] chars!"b     2     2          11          99     0     0           0           0"
  chars!"         2         7         1  5.00000E+00  1.00000E+00  0.00000E+00"

theorem exFuncW_good : exFuncW.Good := by decide +kernel
theorem exFuncW_lines : splitLinesKeep (decode (setBytes exWordsFile 0)) = exFuncW.lines ++
    (splitLinesKeep (decode (setBytes exWordsFile 0))).drop 13 := by
  rw [bytes_fast]; decide +kernel

example : ((World.new (some exWordsFile)).readSets (.one (0 : Nat)) false).2 = .ok (.single (exFuncW.dict ++
    ([("x", .arrF (Form58.abscissa ⟨false, true, true⟩ (floatAt exFuncW.form 30 13) (floatAt exFuncW.form 43 13) exBinSamples)),
      ("data", Form58.ordinate ⟨false, true, true⟩ exBinSamples)] : Dict))) := by
  refine C56_binary exWordsFile 0 exWordsFile_count exWordsFile_type _ exFuncW_good (by decide +kernel) _ (by constructor <;> decide +kernel) _
    exFuncW_lines exHeads exWords [13, 10] exWordsFile_bytes (by decide +kernel) exHeads_lines (by decide) exBinSamples
    ⟨rfl, fun i b x hb hx => ?_⟩ (fun h => by cases h)
  match i with
  | 0 => cases hb; cases hx; exact ⟨rfl, by decide +kernel⟩
  | 1 => cases hb; cases hx; exact ⟨rfl, by decide +kernel⟩
  | n + 2 => cases hb

/-- A file with such a header and this text after it. -/
def exFuncFile (h : FuncLines) (data : Text) : Bytes := encode (h.lines.flatten ++ (data ++ chars!"    -1\n"))

/-- A record 7 without increment. -/
def exFuncE : FuncLines := exFunc ['\n'] [] chars!"         4         1         1  5.00000E+00"

theorem exFuncE_count : 0 < setCount (exFuncFile exFuncE []) := by rw [count_fast]; decide +kernel
theorem exFuncE_type : TypeIs (setBytes (exFuncFile exFuncE []) 0) 58 := by rw [bytes_fast, typeIs_iff]; decide +kernel
theorem exFuncE_lines : splitLinesKeep (decode (setBytes (exFuncFile exFuncE []) 0)) = exFuncE.lines := by rw [bytes_fast]; decide +kernel
theorem exFuncE_bad : ¬ exFuncE.Good := by decide +kernel

theorem lines_inj {a b : FuncLines} {t : List Text} (h : a.lines = b.lines ++ t) : b = a := by
  obtain ⟨⟩ := a
  obtain ⟨⟩ := b
  unfold FuncLines.lines at h
  simp only [List.cons_append, List.cons.injEq] at h
  obtain ⟨rfl, rfl, rfl, rfl, rfl, rfl, rfl, rfl, rfl, rfl, rfl, rfl, rfl, _⟩ := h
  rfl

example (header : Bool) : ((World.new (some (exFuncFile exFuncE []))).readSets (.one (0 : Nat)) header).2 =
    .error (.exc "Error when reading data-set(s).") :=
  C56_error _ 0 exFuncE_count exFuncE_type (fun h t hl => by
    rw [exFuncE_lines] at hl
    rw [lines_inj hl]
    exact exFuncE_bad) header

/-- Integers (`ord_data_type` 1), as text. -/
def exFuncI : FuncLines := exFunc ['\n'] [] chars!"         1         1         1  5.00000E+00  1.00000E+00  0.00000E+00"

theorem exFuncI_count : 0 < setCount (exFuncFile exFuncI chars!"  1.00000E+00\n") := by rw [count_fast]; decide +kernel
theorem exFuncI_type : TypeIs (setBytes (exFuncFile exFuncI chars!"  1.00000E+00\n") 0) 58 := by rw [bytes_fast, typeIs_iff]; decide +kernel
theorem exFuncI_lines : splitLinesKeep (decode (setBytes (exFuncFile exFuncI chars!"  1.00000E+00\n") 0)) =
    exFuncI.lines ++ [chars!"  1.00000E+00\n"] := by rw [bytes_fast]; decide +kernel

example : ((World.new (some (exFuncFile exFuncI chars!"  1.00000E+00\n"))).readSets (.one (0 : Nat)) false).2 =
    .error (.exc "Error when reading data-set(s).") :=
  C56_unsupported _ 0 exFuncI_count exFuncI_type exFuncI (by decide +kernel) (by decide +kernel) (by decide +kernel) _ exFuncI_lines

/-- Integers, binary. -/
def exFuncJ : FuncLines := exFunc ['\n'] chars!"b     2     2          11           4     0     0           0           0"
  chars!"         1         1         1  5.00000E+00  1.00000E+00  0.00000E+00"

theorem exFuncJ_count : 0 < setCount (exFuncFile exFuncJ chars!"abcd\n") := by rw [count_fast]; decide +kernel
theorem exFuncJ_type : TypeIs (setBytes (exFuncFile exFuncJ chars!"abcd\n") 0) 58 := by rw [bytes_fast, typeIs_iff]; decide +kernel
theorem exFuncJ_lines : splitLinesKeep (decode (setBytes (exFuncFile exFuncJ chars!"abcd\n") 0)) = exFuncJ.lines ++ [chars!"abcd\n"] := by
  rw [bytes_fast]; decide +kernel
theorem exFuncJ_code (form : Form58) : intAt exFuncJ.form 0 10 ≠ form.code := by
  rw [show intAt exFuncJ.form 0 10 = 1 by decide +kernel]
  obtain ⟨d, r, e⟩ := form
  cases d <;> cases r <;> cases e <;> decide

theorem exFuncJ_read : ((World.new (some (exFuncFile exFuncJ chars!"abcd\n"))).readSets (.one (0 : Nat)) false).2 = .ok (.single exFuncJ.dict) :=
  C56_dropped _ 0 exFuncJ_count exFuncJ_type exFuncJ (by decide +kernel) (by decide +kernel) exFuncJ_code _ exFuncJ_lines

/-- Binary values of another type than pyuff knows are lost in silence: the entries `x` and `data` are missing from what is
read. -/
theorem C56_negation_dropped : ∃ f d, ((World.new (some f)).readSets (.one (0 : Nat)) false).2 = .ok (.single d) ∧
    d.get? "num_pts" = some (.int 1) ∧ d.get? "x" = none ∧ d.get? "data" = none :=
  ⟨_, _, exFuncJ_read, by decide +kernel⟩

/-- Three numbers where complex numbers are expected: the abscissa is longer than the ordinate. -/
theorem C56_negation_odd :
    let file := exFuncFile (exFunc ['\n'] [] chars!"         6         2         1  5.00000E+00  1.00000E+00  0.00000E+00")
      chars!"  1.000000000000E+00  2.000000000000E+00  3.000000000000E+00\n"
    entryOf "x" ((World.new (some file)).readSets .all false).2 = some (.arrF [F64.ofInt 5, F64.ofInt 6]) ∧
    entryOf "data" ((World.new (some file)).readSets .all false).2 = some (.arrC [(F64.ofInt 1, F64.ofInt 2)]) := by
  decide +kernel

end Verif
