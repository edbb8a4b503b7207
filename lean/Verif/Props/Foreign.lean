import Verif.Lemmas.Foreign
import Verif.Props.Reading
import Verif.Props.Crlf
import Verif.Py.Lit
/-
Property C46: reading the values of a data-set 58 written by any program.
-/
namespace Verif

/-! ### C46 -/

theorem new_status (f : Bytes) : (World.new (some f)).getStatus = true := by rw [new_some]; exact objOf_refreshed f

theorem read58 (f : Bytes) (k : Nat) (hk : k < setCount f) (ht : TypeIs (setBytes f k) 58) (header : Bool) (d : Dict) :
    ((World.new (some f)).readSets (.one k) header).2 = .ok (.single d) ↔ extract58 (setBytes f k) header = .ok d := by
  rw [one_iff (new_status f) f rfl, show (World.new (some f)).obj = objOf f from rfl, readSet_in f k hk, (typeIs_iff _ _).1 ht]
  rfl

theorem read58_error (f : Bytes) (k : Nat) (hk : k < setCount f) (ht : TypeIs (setBytes f k) 58)
    (h : extract58 (setBytes f k) false = .error (.reading 58)) :
    ((World.new (some f)).readSets (.one k) false).2 = .error (.exc "Error when reading data-set(s).") := by
  rw [readSets_fresh (new_status f)]
  have e : readSet f (World.new (some f)).obj k false = .error (.reading 58) := by
    rw [show (World.new (some f)).obj = objOf f from rfl, readSet_in f k hk, (typeIs_iff _ _).1 ht]
    exact h
  show (match mapRes (fun n => readSet f (World.new (some f)).obj n false) (readRange (World.new (some f)).obj (.one k)) with
      | .ok l => (.ok (unwrap l) : Res ReadOut)
      | .error e => .error (readErr e)) = _
  simp only [readRange, mapRes, e]
  rfl

/-- The values of an ASCII data-set 58, whoever wrote it.  When the lines after the header have the columns of the standard
and every cell is a number, the whole reading adds to the header the abscissa and the ordinate made of these numbers.  The
number of cells on a line is free (except for uneven double complex data), characters that do not fill a cell are dropped,
and neither `num_pts` nor the number of lines matters. -/
theorem C46_ascii_partial (f : Bytes) (k : Nat) (hk : k < setCount f) (ht : TypeIs (setBytes f k) 58) (d : Dict)
    (hd : ((World.new (some f)).readSets (.one k) true).2 = .ok (.single d))
    (form : Form58) (mn inc : F64) (hh : Header58 d false form mn inc)
    (ls : List Line58) (hl : (splitLinesKeep (decode (setBytes f k))).drop 13 = ls.map Line58.text) (ok : form.LinesOk ls)
    (l : List Sample) (hv : OneByOne (fun c x => pyFloat c = .ok x) (ls.flatMap Line58.cells) (l.flatMap form.numbers))
    (hf : form.real = false → ∀ s ∈ l, s.re.finite = true ∧ s.im.finite = true) :
    ((World.new (some f)).readSets (.one k) false).2 =
      .ok (.single ((d.set "x" (.arrF (form.abscissa mn inc l))).set "data" (form.ordinate l))) := by
  rw [read58 f k hk ht] at hd ⊢
  exact (extract58_ascii _ d form mn inc hd hh.binary hh.type hh.spacing hh.min hh.inc ls hl ok).1 l
    ((mapRes_iff _ _ _).2 hv) hf

/-- When one of the cells is not a number, the reading fails: no value is invented or skipped. -/
theorem C46_error (f : Bytes) (k : Nat) (hk : k < setCount f) (ht : TypeIs (setBytes f k) 58) (d : Dict)
    (hd : ((World.new (some f)).readSets (.one k) true).2 = .ok (.single d))
    (form : Form58) (mn inc : F64) (hh : Header58 d false form mn inc)
    (ls : List Line58) (hl : (splitLinesKeep (decode (setBytes f k))).drop 13 = ls.map Line58.text) (ok : form.LinesOk ls)
    (c : Text) (hc : c ∈ ls.flatMap Line58.cells) (hb : pyFloat c = .error .value) :
    ((World.new (some f)).readSets (.one k) false).2 = .error (.exc "Error when reading data-set(s).") := by
  rw [read58 f k hk ht] at hd
  refine read58_error f k hk ht ?_
  refine (extract58_ascii _ d form mn inc hd hh.binary hh.type hh.spacing hh.min hh.inc ls hl ok).2 (mapRes_bad _ c hc ?_)
  unfold pyFloat at hb
  cases h : parseFloat c with
  | none => rfl
  | some x => rw [h] at hb; cases hb

/-- The values of a binary data-set 58, whoever wrote it: after 13 lines come words of four or eight bytes, in the order told by
`byte_ordering` (1: least significant byte first); what does not fill a word is dropped.  `fp_format`, `n_bytes`, `n_ascii_lines`
and `num_pts` do not matter. -/
theorem C46_binary (f : Bytes) (k : Nat) (hk : k < setCount f) (ht : TypeIs (setBytes f k) 58) (d : Dict)
    (hd : ((World.new (some f)).readSets (.one k) true).2 = .ok (.single d))
    (form : Form58) (mn inc : F64) (hh : Header58 d true form mn inc)
    (order : Int) (ho : d.get? "byte_ordering" = some (.int order))
    (heads words : List Bytes) (rest : Bytes) (hb : setBytes f k = heads.flatten ++ (words.flatten ++ rest))
    (hn : heads.length = 13) (hl : ∀ l ∈ heads, ByteLine l) (hr : rest.length < form.size)
    (l : List Sample) (hv : OneByOne (form.Word (decide (order = 1))) words (l.flatMap form.numbers))
    (hf : form.real = false → ∀ s ∈ l, s.re.finite = true ∧ s.im.finite = true) :
    ((World.new (some f)).readSets (.one k) false).2 =
      .ok (.single ((d.set "x" (.arrF (form.abscissa mn inc l))).set "data" (form.ordinate l))) := by
  rw [read58 f k hk ht] at hd ⊢
  exact extract58_bin _ d form mn inc order hd hh.binary hh.type hh.spacing hh.min hh.inc ho heads words rest hb hn hl hr l hv hf

/-! Examples: the layouts are not those of pyuff's own writer. -/

/-- The first lines of a data-set 58. -/
def exHead (idRest typeLine : Text) : Text :=
  chars!"    -1\n    58" ++ (idRest ++ (chars!"\nid\nid\nid\nid\nid\n    1         1    0         0       NONE         1   1\n" ++
  (typeLine ++ chars!"\n        18    0    0    0\n         8    0    0    0\n        13    0    0    0\n         0    0    0    0\n")))

/-- Three complex points in single precision, five numbers on the first line and four on the second one, which is filled up
with blanks to 80 columns. -/
def exLines : List Line58 :=
  [⟨[chars!"  0.00000E+00", chars!"  1.00000E+00", chars!"          2.0", chars!"1            ", chars!" -3.00000e+00"], ['\n']⟩,
   ⟨[chars!"   4.0000E+00", chars!"            2", chars!"  5.00000E+00", chars!"  6.00000E+00"],
     List.replicate 26 ' ' ++ [' ', ' ', '\n']⟩]

/-- The file.  The header announces 100 points. -/
def exSingle : Bytes := encode (exHead [] chars!"         5       100         0  0.00000E+00  0.00000E+00  0.00000E+00" ++
  ((exLines.map Line58.text).flatten ++ chars!"    -1\n"))

/-- The points. -/
def exSamples : List Sample :=
  [⟨F64.ofInt 0, F64.ofInt 1, F64.ofInt 2⟩, ⟨F64.ofInt 1, F64.ofInt (-3), F64.ofInt 4⟩, ⟨F64.ofInt 2, F64.ofInt 5, F64.ofInt 6⟩]

/-- The dictionary of a reading of one data-set. -/
def theDict (r : Res ReadOut) : Dict := match r with
  | .ok (.single d) => d
  | _ => []

theorem theDict_eq {r : Res ReadOut} (h : theDict r ≠ []) : r = .ok (.single (theDict r)) := by
  unfold theDict at h ⊢
  split at h
  · rfl
  · exact absurd rfl h

instance (d : Dict) (b : Bool) (f : Form58) (mn inc : F64) : Decidable (Header58 d b f mn inc) :=
  decidable_of_iff (d.get? "binary" = some (.int (if b then 1 else 0)) ∧ d.get? "ord_data_type" = some (.int f.code) ∧
    d.get? "abscissa_spacing" = some (.int f.spacing) ∧ d.get? "abscissa_min" = some (.float mn) ∧
    d.get? "abscissa_inc" = some (.float inc))
    ⟨fun h => ⟨h.1, h.2.1, h.2.2.1, h.2.2.2.1, h.2.2.2.2⟩, fun h => ⟨h.1, h.2, h.3, h.4, h.5⟩⟩

theorem count_fast (f : Bytes) : setCount f = (tagsFrom 0 f).length / 2 := by unfold setCount; rw [delims_eq]

theorem bytes_fast (f : Bytes) (k : Nat) : setBytes f k =
    (f.take ((tagsFrom 0 f)[2 * k + 1]?.getD 0)).drop ((tagsFrom 0 f)[2 * k]?.getD 0) := by
  unfold setBytes delimPos; rw [delims_eq]

theorem exLines_ok : Form58.LinesOk ⟨false, false, false⟩ exLines := by
  refine .inr ⟨exLines.take 1, exLines[1], rfl, ?_, ?_⟩
  · intro l hl
    rw [List.mem_singleton.1 hl]
    exact ⟨by decide +kernel, show List.length _ < 13 by decide⟩
  · exact ⟨by decide +kernel, ⟨2, [' ', ' ', '\n'], rfl, by decide⟩, by decide +kernel⟩

/-- What is read from the header of data-set `k` alone. -/
def headOf (f : Bytes) (k : Nat) : Dict := theDict ((World.new (some f)).readSets (.one k) true).2

theorem headOf_eq {f : Bytes} {k : Nat} (h : headOf f k ≠ []) :
    ((World.new (some f)).readSets (.one k) true).2 = .ok (.single (headOf f k)) := by
  unfold headOf at h ⊢; exact theDict_eq h

theorem exSingle_count : 0 < setCount exSingle := by rw [count_fast]; decide +kernel
theorem exSingle_type : TypeIs (setBytes exSingle 0) 58 := by rw [bytes_fast, typeIs_iff]; decide +kernel
theorem exSingle_head : headOf exSingle 0 ≠ [] := by decide +kernel
theorem exSingle_form : Header58 (headOf exSingle 0) false ⟨false, false, false⟩ (F64.ofInt 0) (F64.ofInt 0) := by decide +kernel
theorem exSingle_lines : (splitLinesKeep (decode (setBytes exSingle 0))).drop 13 = exLines.map Line58.text := by
  rw [bytes_fast]; decide +kernel
theorem exSingle_cells : mapRes pyFloat (exLines.flatMap Line58.cells) =
    .ok (exSamples.flatMap (Form58.numbers ⟨false, false, false⟩)) := by decide +kernel

example : ((World.new (some exSingle)).readSets (.one (0 : Nat)) false).2 =
    .ok (.single (((headOf exSingle 0).set "x" (.arrF (Form58.abscissa ⟨false, false, false⟩ (F64.ofInt 0) (F64.ofInt 0) exSamples))).set
      "data" (Form58.ordinate ⟨false, false, false⟩ exSamples))) :=
  C46_ascii_partial exSingle 0 exSingle_count exSingle_type _ (headOf_eq exSingle_head) _ _ _ exSingle_form exLines exSingle_lines
    exLines_ok exSamples ((mapRes_iff _ _ _).1 exSingle_cells) (fun _ => by decide +kernel)

/-- The values in this example. -/
example : Form58.abscissa ⟨false, false, false⟩ (F64.ofInt 0) (F64.ofInt 0) exSamples = [F64.ofInt 0, F64.ofInt 1, F64.ofInt 2] ∧
    Form58.ordinate ⟨false, false, false⟩ exSamples =
      .arrC [(F64.ofInt 1, F64.ofInt 2), (F64.ofInt (-3), F64.ofInt 4), (F64.ofInt 5, F64.ofInt 6)] := by decide +kernel

/-- The same with a cell that is not a number (the exponent is written with the letter D, as Fortran does for double
precision). -/
def exCells : List Line58 := [⟨[chars!"  0.00000E+00", chars!"  1.00000D+00"], ['\n']⟩]

/-- The file. -/
def exCellsFile : Bytes := encode (exHead [] chars!"         2         2         1  0.00000E+00  1.00000E+00  0.00000E+00" ++
  ((exCells.map Line58.text).flatten ++ chars!"    -1\n"))

theorem exCells_count : 0 < setCount exCellsFile := by rw [count_fast]; decide +kernel
theorem exCells_type : TypeIs (setBytes exCellsFile 0) 58 := by rw [bytes_fast, typeIs_iff]; decide +kernel
theorem exCells_head : headOf exCellsFile 0 ≠ [] := by decide +kernel
theorem exCells_form : Header58 (headOf exCellsFile 0) false ⟨false, true, true⟩ (F64.ofInt 0) (F64.ofInt 1) := by decide +kernel
theorem exCells_lines : (splitLinesKeep (decode (setBytes exCellsFile 0))).drop 13 = exCells.map Line58.text := by
  rw [bytes_fast]; decide +kernel
theorem exCells_ok : Form58.LinesOk ⟨false, true, true⟩ exCells :=
  .inr ⟨[], exCells[0], rfl, by simp, by decide +kernel, ⟨0, ['\n'], rfl, by decide⟩, by decide +kernel⟩

example : ((World.new (some exCellsFile)).readSets (.one (0 : Nat)) false).2 = .error (.exc "Error when reading data-set(s).") :=
  C46_error exCellsFile 0 exCells_count exCells_type _ (headOf_eq exCells_head) _ _ _ exCells_form exCells exCells_lines exCells_ok
    chars!"  1.00000D+00" (by decide +kernel) (by decide +kernel)

/-- Two real points in single precision, most significant byte first, with the line ends CR LF in the header and two bytes too
many at the end.  The numbers of bytes and points in the header are wrong. -/
def exHeads : List Bytes := [
  chars!"    -1", chars!"    58b     2     2          11          99     0     0           0           0",
  chars!"id", chars!"id", chars!"id", chars!"id", chars!"id", chars!"    1         1    0         0       NONE         1   1",
  chars!"         2         7         1  5.00000E+00  1.00000E+00  0.00000E+00", chars!"        18    0    0    0",
  chars!"         8    0    0    0", chars!"        13    0    0    0", chars!"         0    0    0    0"].map
  fun l => encode l ++ [13, 10]

/-- 1.0 and -2.0, and a rest. -/
def exWords : List Bytes := [[0x3F, 0x80, 0, 0], [0xC0, 0, 0, 0]]

/-- The file. -/
def exWordsFile : Bytes := exHeads.flatten ++ (exWords.flatten ++ [13, 10]) ++ encode chars!"    -1\r\n"

/-- The points (the abscissa is not stored). -/
def exBinSamples : List Sample := [⟨F64.zero, F64.ofInt 1, F64.zero⟩, ⟨F64.zero, F64.ofInt (-2), F64.zero⟩]

theorem exWordsFile_count : 0 < setCount exWordsFile := by rw [count_fast]; decide +kernel
theorem exWordsFile_type : TypeIs (setBytes exWordsFile 0) 58 := by rw [bytes_fast, typeIs_iff]; decide +kernel
theorem exWordsFile_head : headOf exWordsFile 0 ≠ [] := by decide +kernel
theorem exWordsFile_form : Header58 (headOf exWordsFile 0) true ⟨false, true, true⟩ (F64.ofInt 5) (F64.ofInt 1) := by decide +kernel
theorem exWordsFile_order : (headOf exWordsFile 0).get? "byte_ordering" = some (.int 2) := by decide +kernel
theorem exWordsFile_bytes : setBytes exWordsFile 0 = exHeads.flatten ++ (exWords.flatten ++ [13, 10]) := by
  rw [bytes_fast]; decide +kernel

theorem exHeads_lines : ∀ l ∈ exHeads, ByteLine l := by
  intro l hl
  obtain ⟨t, ht, rfl⟩ := List.mem_map.1 hl
  refine ⟨encode t, ?_, .inr rfl⟩
  clear hl
  revert t
  decide +kernel

example : ((World.new (some exWordsFile)).readSets (.one (0 : Nat)) false).2 =
    .ok (.single (((headOf exWordsFile 0).set "x" (.arrF (Form58.abscissa ⟨false, true, true⟩ (F64.ofInt 5) (F64.ofInt 1) exBinSamples))).set
      "data" (Form58.ordinate ⟨false, true, true⟩ exBinSamples))) := by
  refine C46_binary exWordsFile 0 exWordsFile_count exWordsFile_type _ (headOf_eq exWordsFile_head) _ _ _ exWordsFile_form 2 exWordsFile_order
    exHeads exWords [13, 10] exWordsFile_bytes (by decide +kernel) exHeads_lines (by decide) exBinSamples
    ⟨rfl, fun i b x hb hx => ?_⟩ (fun h => by cases h)
  match i with
  | 0 => cases hb; cases hx; exact ⟨rfl, by decide +kernel⟩
  | 1 => cases hb; cases hx; exact ⟨rfl, by decide +kernel⟩
  | n + 2 => cases hb

/-- The values in this example: 5 and 6, 1 and -2. -/
example : Form58.abscissa ⟨false, true, true⟩ (F64.ofInt 5) (F64.ofInt 1) exBinSamples = [F64.ofInt 5, F64.ofInt 6] ∧
    Form58.ordinate ⟨false, true, true⟩ exBinSamples = .arrF [F64.ofInt 1, F64.ofInt (-2)] := by decide +kernel

/-- Double precision: the last line filled up with blanks, as in files of 80-column records, is not accepted (in single precision
it is).  The two files differ in these blanks only. -/
theorem C46_negation_padded :
    let file := fun (rest : Text) => encode (exHead [] chars!"         4         2         1  0.00000E+00  1.00000E+00  0.00000E+00" ++
      (chars!"  1.000000000000E+00  2.000000000000E+00" ++ (rest ++ chars!"\n    -1\n")))
    entryOf "data" ((World.new (some (file []))).readSets .all false).2 = some (.arrF [F64.ofInt 1, F64.ofInt 2]) ∧
    ((World.new (some (file (blanks 40)))).readSets .all false).2 = .error (.exc "Error when reading data-set(s).") := by
  decide +kernel

/-- Single precision: a data-set without any value cannot be read (in double precision it can). -/
theorem C46_negation_empty :
    let file := fun (code : Text) => encode (exHead [] (code ++ chars!"         0         1  0.00000E+00  1.00000E+00  0.00000E+00") ++
      chars!"    -1\n")
    entryOf "data" ((World.new (some (file chars!"         4"))).readSets .all false).2 = some (.arrF []) ∧
    ((World.new (some (file chars!"         2"))).readSets .all false).2 = .error (.exc "Error when reading data-set(s).") := by
  decide +kernel

/-- A number of points that contradicts the values is not noticed: 100 points announced, three returned. -/
theorem C46_negation_count :
    entryOf "num_pts" ((World.new (some exSingle)).readSets .all false).2 = some (.int 100) ∧
    entryOf "x" ((World.new (some exSingle)).readSets .all false).2 = some (.arrF [F64.ofInt 0, F64.ofInt 1, F64.ofInt 2]) := by
  decide +kernel

end Verif
