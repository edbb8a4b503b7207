import Verif.Lemmas.Shapes
import Verif.Props.Results
/-
C55: data at nodes (55) of any program.
-/
namespace Verif
open Shapes

/-- Three real values at each node, whoever wrote them, in cells of 13 characters with nothing but a few further characters after
them.  Missing for the general claim: lines filled up with blanks (`C55_negation_padded`), and other numbers of values
(`C55_negation_scalar`). -/
theorem C55_real3_partial (f : Bytes) (k : Nat) (hk : k < setCount f) (ht : TypeIs (setBytes f k) 55) (h : ShapeLines) (hg : h.Good)
    (hf : h.Finite) (hd : h.dataType = 2) (hc : h.comps = 3) (ns : List NodeCells) (hne : ns ≠ []) (hn : ∀ n ∈ ns, n.Good 3)
    (hl : splitLinesKeep (decode (setBytes f k)) = h.lines ++ ns.flatMap NodeCells.lines) (header : Bool) :
    ((World.new (some f)).readSets (.one k) header).2 = .ok (.single (h.dict ++ real3Dict ns)) := by
  refine read_typed f k hk 55 ht header _ ?_
  change extract55 _ = _
  rw [extract_head _ h _ hl hg hf, real3 h hd hc ns hne hn _ (split_data _ h _ hl)]
  rfl

/-- Six real values at each node in the same way. -/
theorem C55_real6_partial (f : Bytes) (k : Nat) (hk : k < setCount f) (ht : TypeIs (setBytes f k) 55) (h : ShapeLines) (hg : h.Good)
    (hf : h.Finite) (hd : h.dataType = 2) (hc : h.comps = 6) (ns : List NodeCells) (hne : ns ≠ []) (hn : ∀ n ∈ ns, n.Good 6)
    (hl : splitLinesKeep (decode (setBytes f k)) = h.lines ++ ns.flatMap NodeCells.lines) (header : Bool) :
    ((World.new (some f)).readSets (.one k) header).2 = .ok (.single (h.dict ++ real6Dict ns)) := by
  refine read_typed f k hk 55 ht header _ ?_
  change extract55 _ = _
  rw [extract_head _ h _ hl hg hf, real6 h hd (by rw [hc]; decide) ns hne hn _ (split_data _ h _ hl)]
  rfl

/-- Three complex values at each node: six cells, real and imaginary parts in turn. -/
theorem C55_cplx_partial (f : Bytes) (k : Nat) (hk : k < setCount f) (ht : TypeIs (setBytes f k) 55) (h : ShapeLines) (hg : h.Good)
    (hf : h.Finite) (hd : h.dataType = 5) (hc : h.comps = 3) (ns : List NodeCells) (hne : ns ≠ []) (hn : ∀ n ∈ ns, n.Good 6)
    (hv : ∀ n ∈ ns, ∀ x ∈ n.values, x.finite = true)
    (hl : splitLinesKeep (decode (setBytes f k)) = h.lines ++ ns.flatMap NodeCells.lines) (header : Bool) :
    ((World.new (some f)).readSets (.one k) header).2 = .ok (.single (h.dict ++ cplx3Dict ns)) := by
  refine read_typed f k hk 55 ht header _ ?_
  change extract55 _ = _
  rw [extract_head _ h _ hl hg hf, cplx3 h hd hc ns hne hn hv _ (split_data _ h _ hl)]
  rfl

/-- Data that are neither real nor complex in single precision, and complex data with another number of values than three, are
refused with the documented error, whatever the lines of data are.  Whole numbers in the lines have 64 bits. -/
theorem C55_unsupported (f : Bytes) (k : Nat) (hk : k < setCount f) (ht : TypeIs (setBytes f k) 55) (h : ShapeLines) (hg : h.Good)
    (hf : h.Finite) (hd : h.dataType ≠ 2 ∧ (h.dataType = 5 → h.comps ≠ 3)) (data : List Text)
    (hs : ∀ l ∈ data, ∀ n, pyInt l = .ok n → -(2 ^ 63) ≤ n ∧ n < 2 ^ 63)
    (hl : splitLinesKeep (decode (setBytes f k)) = h.lines ++ data) (header : Bool) :
    ((World.new (some f)).readSets (.one k) header).2 = .error (.exc "Error when reading data-set(s).") := by
  refine read_typed_error f k hk 55 ht header 55 ?_
  change extract55 _ = _
  rw [extract_head _ h _ hl hg hf, unsupported h hd _ (by rw [split_data _ h _ hl]; exact hs)]

/-- A data-set without the numbers that are required in records 6 to 8, or with fewer than eight lines, is never read: reading ends
with the documented error. -/
theorem C55_error (f : Bytes) (k : Nat) (hk : k < setCount f) (ht : TypeIs (setBytes f k) 55)
    (hb : (∃ h data, splitLinesKeep (decode (setBytes f k)) = ShapeLines.lines h ++ data ∧ ¬ h.Good) ∨
      (splitLinesKeep (decode (setBytes f k))).length < 8) (header : Bool) :
    ((World.new (some f)).readSets (.one k) header).2 = .error (.exc "Error when reading data-set(s).") := by
  refine read_typed_error f k hk 55 ht header 55 ?_
  change extract55 _ = _
  rcases hb with ⟨h, data, hl, hb⟩ | hs
  · exact extract_bad _ h data hl hb
  · exact extract_short _ hs

/-! Data-sets that meet the conditions. -/

theorem nodeCells (n : NodeCells) (m : Nat) (cells : List Text) (tail : Text) (h1 : pyInt n.head = .ok n.num) (h2 : -(2 ^ 63) ≤ n.num ∧ n.num < 2 ^ 63)
    (h3 : n.vals = cells.flatten ++ tail) (h4 : ∀ c ∈ cells, c.length = 13) (h5 : tail.length < 13) (h6 : mapRes pyFloat cells = .ok n.values)
    (h7 : n.values.length = m) : n.Good m where
  head := h1
  small := h2
  cells := ⟨cells, tail, h3, h4, h5, (mapRes_iff _ _ _).1 h6⟩
  count := h7

/-- Records 1 to 8 of a normal mode, with three values at each node. -/
def exBendTop : ShapeLines :=
  ⟨chars!"    -1\n",
   chars!"    55\n",
   chars!"NONE\n",
   chars!"Shape 1\n",
   chars!"NONE\n",
   chars!"Load case 3\n",
   chars!"NONE\n",
   chars!"         1         2         2         8         2         3\n",
   chars!"         2         4         1         7\n",
   chars!"     2.50E+01           1.        0.01          .0\n"⟩

/-- Two nodes. -/
def exBendCells : List NodeCells :=
  [⟨chars!" 11\n", chars!" 1.000000E+00 2.000000E+00 3.000000E+00\n", 11, [F64.ofInt 1, F64.ofInt 2, F64.ofInt 3]⟩,
   ⟨chars!"        12\n", chars!"           .5         -1.5            0   \n", 12, [⟨false, 1022 * 2 ^ 52, by decide⟩, ⟨true, 1023 * 2 ^ 52 + 2 ^ 51, by decide⟩, F64.ofInt 0]⟩]

/-- The file. -/
def exBendFile : Bytes := encode (chars!"    -1\n" ++ (chars!"    55\n" ++ (chars!"NONE\n" ++ (chars!"Shape 1\n" ++ (chars!"NONE\n" ++ (chars!"Load case 3\n" ++ (chars!"NONE\n" ++ (chars!"         1         2         2         8         2         3\n" ++ (chars!"         2         4         1         7\n" ++ (chars!"     2.50E+01           1.        0.01          .0\n" ++ (chars!" 11\n" ++ (chars!" 1.000000E+00 2.000000E+00 3.000000E+00\n" ++ (chars!"        12\n" ++ (chars!"           .5         -1.5            0   \n" ++ (chars!"    -1\n")))))))))))))))

theorem exBendCells_good : ∀ n ∈ exBendCells, n.Good 3 := by
  intro n hn
  rcases List.mem_cons.1 hn with rfl | hn
  · exact nodeCells _ _ [chars!" 1.000000E+00", chars!" 2.000000E+00", chars!" 3.000000E+00"] chars!"\n" (by decide +kernel) (by decide) (by decide +kernel) (by decide +kernel) (by decide) (by decide +kernel) rfl
  · rw [List.mem_singleton.1 hn]; exact nodeCells _ _ [chars!"           .5", chars!"         -1.5", chars!"            0"] chars!"   \n" (by decide +kernel) (by decide) (by decide +kernel) (by decide +kernel) (by decide) (by decide +kernel) rfl

example : ((World.new (some exBendFile)).readSets (.one (0 : Nat)) false).2 = .ok (.single (exBendTop.dict ++ real3Dict exBendCells)) :=
  C55_real3_partial exBendFile 0 (by rw [count_fast]; decide +kernel) (by rw [bytes_fast, typeIs_iff]; decide +kernel) exBendTop
    (by decide +kernel) (by decide +kernel) (by decide +kernel) (by decide +kernel) exBendCells (by decide) exBendCells_good 
    (by rw [bytes_fast]; decide +kernel) false

example : exBendTop.dict.get? "freq" = some (.float (F64.ofInt 25)) ∧ exBendTop.dict.get? "mode_n" = some (.int 7) ∧
    exBendTop.dict.get? "id4" = some (.str chars!"Load case 3") := by decide +kernel

/-- Records 1 to 8 of a frequency response, with six values at each node. -/
def exSwayTop : ShapeLines :=
  ⟨chars!"    -1\n",
   chars!"    55\n",
   chars!"NONE\n",
   chars!"Shape 1\n",
   chars!"NONE\n",
   chars!"Load case 3\n",
   chars!"NONE\n",
   chars!"         1         5         2         8         2         6\n",
   chars!"         2         1         0         9\n",
   chars!"   42\n"⟩

/-- Two nodes. -/
def exSwayCells : List NodeCells :=
  [⟨chars!"1\n", chars!"  1.00000E+00  2.00000E+00  3.00000E+00  4.00000E+00  5.00000E+00  6.00000E+00\n", 1, [F64.ofInt 1, F64.ofInt 2, F64.ofInt 3, F64.ofInt 4, F64.ofInt 5, F64.ofInt 6]⟩,
   ⟨chars!"22\n", chars!"  7.00000E+00  8.00000E+00  9.00000E+00  1.00000E+01  1.10000E+01  1.20000E+01\n", 22, [F64.ofInt 7, F64.ofInt 8, F64.ofInt 9, F64.ofInt 10, F64.ofInt 11, F64.ofInt 12]⟩]

/-- The file. -/
def exSwayFile : Bytes := encode (chars!"    -1\n" ++ (chars!"    55\n" ++ (chars!"NONE\n" ++ (chars!"Shape 1\n" ++ (chars!"NONE\n" ++ (chars!"Load case 3\n" ++ (chars!"NONE\n" ++ (chars!"         1         5         2         8         2         6\n" ++ (chars!"         2         1         0         9\n" ++ (chars!"   42\n" ++ (chars!"1\n" ++ (chars!"  1.00000E+00  2.00000E+00  3.00000E+00  4.00000E+00  5.00000E+00  6.00000E+00\n" ++ (chars!"22\n" ++ (chars!"  7.00000E+00  8.00000E+00  9.00000E+00  1.00000E+01  1.10000E+01  1.20000E+01\n" ++ (chars!"    -1\n")))))))))))))))

theorem exSwayCells_good : ∀ n ∈ exSwayCells, n.Good 6 := by
  intro n hn
  rcases List.mem_cons.1 hn with rfl | hn
  · exact nodeCells _ _ [chars!"  1.00000E+00", chars!"  2.00000E+00", chars!"  3.00000E+00", chars!"  4.00000E+00", chars!"  5.00000E+00", chars!"  6.00000E+00"] chars!"\n" (by decide +kernel) (by decide) (by decide +kernel) (by decide +kernel) (by decide) (by decide +kernel) rfl
  · rw [List.mem_singleton.1 hn]; exact nodeCells _ _ [chars!"  7.00000E+00", chars!"  8.00000E+00", chars!"  9.00000E+00", chars!"  1.00000E+01", chars!"  1.10000E+01", chars!"  1.20000E+01"] chars!"\n" (by decide +kernel) (by decide) (by decide +kernel) (by decide +kernel) (by decide) (by decide +kernel) rfl

example : ((World.new (some exSwayFile)).readSets (.one (0 : Nat)) false).2 = .ok (.single (exSwayTop.dict ++ real6Dict exSwayCells)) :=
  C55_real6_partial exSwayFile 0 (by rw [count_fast]; decide +kernel) (by rw [bytes_fast, typeIs_iff]; decide +kernel) exSwayTop
    (by decide +kernel) (by decide +kernel) (by decide +kernel) (by decide +kernel) exSwayCells (by decide) exSwayCells_good 
    (by rw [bytes_fast]; decide +kernel) false

/-- Records 1 to 8 of a complex mode, without the modal B. -/
def exWaveTop : ShapeLines :=
  ⟨chars!"    -1\n",
   chars!"    55\n",
   chars!"NONE\n",
   chars!"Shape 1\n",
   chars!"NONE\n",
   chars!"Load case 3\n",
   chars!"NONE\n",
   chars!"         1         3         3         8         5         3\n",
   chars!"         2         6         0         2\n",
   chars!" -1.00000E+00  3.00000E+01  1.00000E+00  0.00000E+00\n"⟩

/-- Two nodes. -/
def exWaveCells : List NodeCells :=
  [⟨chars!"1\n", chars!"  1.00000E+00  2.00000E+00  3.00000E+00  4.00000E+00  5.00000E+00  6.00000E+00\n", 1, [F64.ofInt 1, F64.ofInt 2, F64.ofInt 3, F64.ofInt 4, F64.ofInt 5, F64.ofInt 6]⟩,
   ⟨chars!"22\n", chars!"  7.00000E+00  8.00000E+00  9.00000E+00  1.00000E+01  1.10000E+01  1.20000E+01\n", 22, [F64.ofInt 7, F64.ofInt 8, F64.ofInt 9, F64.ofInt 10, F64.ofInt 11, F64.ofInt 12]⟩]

/-- The file. -/
def exWaveFile : Bytes := encode (chars!"    -1\n" ++ (chars!"    55\n" ++ (chars!"NONE\n" ++ (chars!"Shape 1\n" ++ (chars!"NONE\n" ++ (chars!"Load case 3\n" ++ (chars!"NONE\n" ++ (chars!"         1         3         3         8         5         3\n" ++ (chars!"         2         6         0         2\n" ++ (chars!" -1.00000E+00  3.00000E+01  1.00000E+00  0.00000E+00\n" ++ (chars!"1\n" ++ (chars!"  1.00000E+00  2.00000E+00  3.00000E+00  4.00000E+00  5.00000E+00  6.00000E+00\n" ++ (chars!"22\n" ++ (chars!"  7.00000E+00  8.00000E+00  9.00000E+00  1.00000E+01  1.10000E+01  1.20000E+01\n" ++ (chars!"    -1\n")))))))))))))))

theorem exWaveCells_good : ∀ n ∈ exWaveCells, n.Good 6 := by
  intro n hn
  rcases List.mem_cons.1 hn with rfl | hn
  · exact nodeCells _ _ [chars!"  1.00000E+00", chars!"  2.00000E+00", chars!"  3.00000E+00", chars!"  4.00000E+00", chars!"  5.00000E+00", chars!"  6.00000E+00"] chars!"\n" (by decide +kernel) (by decide) (by decide +kernel) (by decide +kernel) (by decide) (by decide +kernel) rfl
  · rw [List.mem_singleton.1 hn]; exact nodeCells _ _ [chars!"  7.00000E+00", chars!"  8.00000E+00", chars!"  9.00000E+00", chars!"  1.00000E+01", chars!"  1.10000E+01", chars!"  1.20000E+01"] chars!"\n" (by decide +kernel) (by decide) (by decide +kernel) (by decide +kernel) (by decide) (by decide +kernel) rfl

example : ((World.new (some exWaveFile)).readSets (.one (0 : Nat)) false).2 = .ok (.single (exWaveTop.dict ++ cplx3Dict exWaveCells)) :=
  C55_cplx_partial exWaveFile 0 (by rw [count_fast]; decide +kernel) (by rw [bytes_fast, typeIs_iff]; decide +kernel) exWaveTop
    (by decide +kernel) (by decide +kernel) (by decide +kernel) (by decide +kernel) exWaveCells (by decide) exWaveCells_good (by decide +kernel)
    (by rw [bytes_fast]; decide +kernel) false

example : exWaveTop.dict.get? "eig" = some (.cplx (F64.ofInt (-1)) (F64.ofInt 30)) ∧ exWaveTop.dict.get? "modal_b" = some (.cplx F64.zero F64.zero) := by
  decide +kernel

/-- A normal mode with data in double precision. -/
def exDoubleTop : ShapeLines :=
  ⟨chars!"    -1\n",
   chars!"    55\n",
   chars!"NONE\n",
   chars!"Shape 1\n",
   chars!"NONE\n",
   chars!"Load case 3\n",
   chars!"NONE\n",
   chars!"         1         2         2         8         4         3\n",
   chars!"         2         4         1         7\n",
   chars!"  2.50000E+01  1.00000E+00  0.00000E+00  0.00000E+00\n"⟩

/-- The file. -/
def exDoubleFile : Bytes := encode (chars!"    -1\n" ++ (chars!"    55\n" ++ (chars!"NONE\n" ++ (chars!"Shape 1\n" ++ (chars!"NONE\n" ++ (chars!"Load case 3\n" ++ (chars!"NONE\n" ++ (chars!"         1         2         2         8         4         3\n" ++ (chars!"         2         4         1         7\n" ++ (chars!"  2.50000E+01  1.00000E+00  0.00000E+00  0.00000E+00\n" ++ (chars!" 11\n" ++ (chars!" 1.000000E+00 2.000000E+00 3.000000E+00\n" ++ (chars!"        12\n" ++ (chars!"           .5         -1.5            0   \n" ++ (chars!"    -1\n")))))))))))))))

example : ((World.new (some exDoubleFile)).readSets (.one (0 : Nat)) false).2 = .error (.exc "Error when reading data-set(s).") :=
  C55_unsupported exDoubleFile 0 (by rw [count_fast]; decide +kernel) (by rw [bytes_fast, typeIs_iff]; decide +kernel) exDoubleTop
    (by decide +kernel) (by decide +kernel) (by decide +kernel) [chars!" 11\n", chars!" 1.000000E+00 2.000000E+00 3.000000E+00\n", chars!"        12\n", chars!"           .5         -1.5            0   \n"]
    (by intro l hl n hn
        simp only [List.mem_cons, List.not_mem_nil, or_false] at hl
        rcases hl with rfl | rfl | rfl | rfl
        · have e : pyInt chars!" 11\n" = .ok 11 := by decide +kernel
          rw [e] at hn; cases hn; decide
        · have e : (pyInt chars!" 1.000000E+00 2.000000E+00 3.000000E+00\n").toOption = none := by decide +kernel
          rw [hn] at e; cases e
        · have e : pyInt chars!"        12\n" = .ok 12 := by decide +kernel
          rw [e] at hn; cases hn; decide
        · have e : (pyInt chars!"           .5         -1.5            0   \n").toOption = none := by decide +kernel
          rw [hn] at e; cases e)
    (by rw [bytes_fast]; decide +kernel) false

/-- A normal mode without a frequency. -/
def exBrokenTop : ShapeLines :=
  ⟨chars!"    -1\n",
   chars!"    55\n",
   chars!"NONE\n",
   chars!"Shape 1\n",
   chars!"NONE\n",
   chars!"Load case 3\n",
   chars!"NONE\n",
   chars!"         1         2         2         8         2         3\n",
   chars!"         2         4         1         7\n",
   chars!" ** \n"⟩

/-- The file. -/
def exBrokenFile : Bytes := encode (chars!"    -1\n" ++ (chars!"    55\n" ++ (chars!"NONE\n" ++ (chars!"Shape 1\n" ++ (chars!"NONE\n" ++ (chars!"Load case 3\n" ++ (chars!"NONE\n" ++ (chars!"         1         2         2         8         2         3\n" ++ (chars!"         2         4         1         7\n" ++ (chars!" ** \n" ++ (chars!" 11\n" ++ (chars!" 1.000000E+00 2.000000E+00 3.000000E+00\n" ++ (chars!"        12\n" ++ (chars!"           .5         -1.5            0   \n" ++ (chars!"    -1\n")))))))))))))))

example : ((World.new (some exBrokenFile)).readSets (.one (0 : Nat)) false).2 = .error (.exc "Error when reading data-set(s).") :=
  C55_error exBrokenFile 0 (by rw [count_fast]; decide +kernel) (by rw [bytes_fast, typeIs_iff]; decide +kernel)
    (.inl ⟨exBrokenTop, [chars!" 11\n", chars!" 1.000000E+00 2.000000E+00 3.000000E+00\n", chars!"        12\n", chars!"           .5         -1.5            0   \n"], by rw [bytes_fast]; decide +kernel, by decide +kernel⟩) false

/-- A line of values filled up with blanks to 80 characters cannot be read. -/
theorem C55_negation_padded :
    let file := encode (chars!"    -1\n" ++ (chars!"    55\n" ++ (chars!"NONE\n" ++ (chars!"Shape 1\n" ++ (chars!"NONE\n" ++ (chars!"Load case 3\n" ++ (chars!"NONE\n" ++ (chars!"         1         2         2         8         2         3\n" ++ (chars!"         2         4         1         7\n" ++ (chars!"     2.50E+01           1.        0.01          .0\n" ++ (chars!" 11\n" ++ (chars!" 1.000000E+00 2.000000E+00 3.000000E+00                                         \n" ++ (chars!"        12\n" ++ (chars!"           .5         -1.5            0   \n" ++ (chars!"    -1\n")))))))))))))))
    ((World.new (some file)).readSets .all false).2 = .error (.exc "Error when reading data-set(s).") := by decide +kernel

/-- One value at each of seven nodes: the values are dealt to six directions without an error. -/
theorem C55_negation_scalar :
    let file := encode (chars!"    -1\n" ++ (chars!"    55\n" ++ (chars!"NONE\n" ++ (chars!"Shape 1\n" ++ (chars!"NONE\n" ++ (chars!"Load case 3\n" ++ (chars!"NONE\n" ++ (chars!"         1         2         2         2         2         1\n" ++ (chars!"         2         4         1         7\n" ++ (chars!"  2.50000E+01  1.00000E+00  0.00000E+00  0.00000E+00\n" ++ (chars!"         1\n" ++ (chars!"  1.00000E+00\n" ++ (chars!"         2\n" ++ (chars!"  2.00000E+00\n" ++ (chars!"         3\n" ++ (chars!"  3.00000E+00\n" ++ (chars!"         4\n" ++ (chars!"  4.00000E+00\n" ++ (chars!"         5\n" ++ (chars!"  5.00000E+00\n" ++ (chars!"         6\n" ++ (chars!"  6.00000E+00\n" ++ (chars!"         7\n" ++ (chars!"  7.00000E+00\n" ++ (chars!"    -1\n")))))))))))))))))))))))))
    entryOf "node_nums" ((World.new (some file)).readSets .all false).2 = some (.arrI [1, 2, 3, 4, 5, 6, 7]) ∧
    entryOf "r1" ((World.new (some file)).readSets .all false).2 = some (.arrF [F64.ofInt 1, F64.ofInt 7]) ∧
    entryOf "r2" ((World.new (some file)).readSets .all false).2 = some (.arrF [F64.ofInt 2]) := by decide +kernel

/-- A data-set that ends after record 6 is accepted as an empty one when the kind of analysis is none of those with values in record 7. -/
theorem C55_negation_short :
    let file := encode (chars!"    -1\n" ++ (chars!"    55\n" ++ (chars!"NONE\n" ++ (chars!"Shape 1\n" ++ (chars!"NONE\n" ++ (chars!"Load case 3\n" ++ (chars!"NONE\n" ++ (chars!"         1         1         2         8         2         3\n" ++ (chars!"    -1\n")))))))))
    entryOf "node_nums" ((World.new (some file)).readSets .all false).2 = some (.arrF []) ∧
    entryOf "r1" ((World.new (some file)).readSets .all false).2 = some (.arrF []) := by decide +kernel

/-- Seven numbers where there are six (three complex values at one node) are not noticed: the seventh is taken together with the imaginary
part of the first value, and one direction has two values for one node.  Thirteen numbers are refused. -/
theorem C55_negation_surplus :
    let top := chars!"    -1\n" ++ (chars!"    55\n" ++ (chars!"NONE\n" ++ (chars!"Shape 1\n" ++ (chars!"NONE\n" ++ (chars!"Load case 3\n" ++ (chars!"NONE\n" ++ (chars!"         1         3         2         8         5         3\n" ++ (chars!"         2         6         1         7\n" ++ chars!"  0.00000E+00  1.00000E+00  0.00000E+00  0.00000E+00  0.00000E+00  0.00000E+00\n"))))))))
    let row := chars!"  1.00000E+00  2.00000E+00  3.00000E+00  4.00000E+00  5.00000E+00  6.00000E+00"
    let one := encode (top ++ (chars!"        11\n" ++ (row ++ (chars!"  7.00000E+00\n" ++ chars!"    -1\n"))))
    let two := encode (top ++ (chars!"        11\n" ++ (row ++ (row ++ (chars!"  7.00000E+00\n" ++ chars!"    -1\n")))))
    entryOf "node_nums" ((World.new (some one)).readSets .all false).2 = some (.arrI [11]) ∧
    entryOf "r1" ((World.new (some one)).readSets .all false).2 = some (.arrC [(F64.ofInt 1, F64.ofInt 2), (F64.ofInt 7, F64.ofInt 2)]) ∧
    entryOf "r2" ((World.new (some one)).readSets .all false).2 = some (.arrC [(F64.ofInt 3, F64.ofInt 4)]) ∧
    ((World.new (some two)).readSets .all false).2 = .error (.exc "Error when reading data-set(s).") := by decide +kernel

end Verif
