import Verif.Lemmas.Results2
import Verif.Props.Systems
/-
C54: results (2414) of any program.
-/
namespace Verif
open Results

/-- Data at nodes, whoever wrote them, when all values of a node are in one line.  The first lines of all nodes have equally many
words.  Missing for the general claim: values of a node in several lines (`C54_negation_lines`), and data-sets without data, which
cannot be read (`C30_negation_empty`). -/
theorem C54_nodes_partial (f : Bytes) (k : Nat) (hk : k < setCount f) (ht : TypeIs (setBytes f k) 2414) (h : ResultLines) (hg : h.Good)
    (ha : h.analysis ≠ 5) (hloc : h.location = 1) (ns : List NodeVals) (hne : ns ≠ []) (w : Nat) (hn : ∀ n ∈ ns, n.Good 1 w)
    (hl : splitLinesKeep (decode (setBytes f k)) = h.lines ++ ns.flatMap NodeVals.lines) (header : Bool) :
    ((World.new (some f)).readSets (.one k) header).2 = .ok (.single (h.dict ++ nodesDict2414 ns)) := by
  refine read_typed f k hk 2414 ht header _ (extract_lines _ h _ hl hg _ ?_ ⟨["node_nums", "data_at_node"], by decide, rfl⟩)
  unfold readData
  rw [if_neg ha, plainData_keep _ h _ hl, hloc, nodes_ok ns hne w hn]

/-- Data on elements in the same way. -/
theorem C54_elements_partial (f : Bytes) (k : Nat) (hk : k < setCount f) (ht : TypeIs (setBytes f k) 2414) (h : ResultLines) (hg : h.Good)
    (ha : h.analysis ≠ 5) (hloc : h.location = 2) (ns : List NodeVals) (hne : ns ≠ []) (w : Nat) (hn : ∀ n ∈ ns, n.Good 2 w)
    (hl : splitLinesKeep (decode (setBytes f k)) = h.lines ++ ns.flatMap NodeVals.lines) (header : Bool) :
    ((World.new (some f)).readSets (.one k) header).2 = .ok (.single (h.dict ++ elemsDict2414 ns)) := by
  refine read_typed f k hk 2414 ht header _ (extract_lines _ h _ hl hg _ ?_ ⟨["element_nums", "NDVAL", "data_at_element"], by decide, rfl⟩)
  unfold readData
  rw [if_neg ha, plainData_keep _ h _ hl, hloc, elems_ok ns hne w hn]

/-- Data at nodes on elements, whoever wrote them: any number of elements, each with any number of nodes and values.  Every line of
values becomes an array of its own. -/
theorem C54_elemNodes (f : Bytes) (k : Nat) (hk : k < setCount f) (ht : TypeIs (setBytes f k) 2414) (h : ResultLines) (hg : h.Good)
    (ha : h.analysis ≠ 5) (hloc : h.location = 3) (es : List ElemRows) (he : ∀ e ∈ es, e.Good)
    (hl : splitLinesKeep (decode (setBytes f k)) = h.lines ++ es.flatMap ElemRows.lines) (header : Bool) :
    ((World.new (some f)).readSets (.one k) header).2 = .ok (.single (h.dict ++ elemNodesDict2414 es)) := by
  refine read_typed f k hk 2414 ht header _ (extract_lines _ h _ hl hg _ ?_ ⟨["element_nums", "IEXP", "number_of_nodes", "number_of_values_per_node", "data_at_nodes_on_element"], by decide, rfl⟩)
  unfold readData
  rw [if_neg ha, plainData_keep _ h _ hl, hloc, elemNodes_ok es he]

/-- Frequency responses with complex values, whoever wrote them: any number of nodes with any positive number of values, whose
words are distributed over lines in any way.  Of the values, the first three are returned. -/
theorem C54_freq (f : Bytes) (k : Nat) (hk : k < setCount f) (ht : TypeIs (setBytes f k) 2414) (h : ResultLines) (hg : h.Good)
    (ha : h.analysis = 5) (hd : h.dataType = 5) (c : Nat) (hc : h.comps = c) (hc1 : 1 ≤ c) (ns : List NodeCplx) (data : List Text)
    (hw : FloatLine data.flatten (ns.flatMap NodeCplx.numbers))
    (hn : ∀ n ∈ ns, n.num.natAbs < 2 ^ 53 ∧ n.values.length = c ∧ ∀ z ∈ n.values, z.1.finite = true ∧ z.2.finite = true)
    (hl : splitLinesKeep (decode (setBytes f k)) = h.lines ++ data) (header : Bool) :
    ((World.new (some f)).readSets (.one k) header).2 = .ok (.single (h.dict ++ freqDict2414 c ns)) := by
  refine read_typed f k hk 2414 ht header _ (extract_lines _ h _ hl hg _ ?_ ?_)
  · unfold readData
    rw [if_pos ha, if_pos hd, hc, freq_ok c hc1 ns data hw hn]
  · unfold freqDict2414
    by_cases h2 : 2 ≤ c
    · by_cases h3 : 3 ≤ c
      · rw [if_pos h2, if_pos h3]; exact ⟨["node_nums", "x", "y", "z"], by decide, rfl⟩
      · rw [if_pos h2, if_neg h3]; exact ⟨["node_nums", "x", "y"], by decide, rfl⟩
    · rw [if_neg h2, if_neg (by omega)]; exact ⟨["node_nums", "x"], by decide, rfl⟩

/-- The data are silently ignored, whatever they are, when they are at points (location 5) or at any location other than 1, 2 and 3,
and in a frequency response when they are not complex in single precision: only the header is returned. -/
theorem C54_ignored (f : Bytes) (k : Nat) (hk : k < setCount f) (ht : TypeIs (setBytes f k) 2414) (h : ResultLines) (hg : h.Good)
    (hi : h.analysis ≠ 5 ∧ h.location ≠ 1 ∧ h.location ≠ 2 ∧ h.location ≠ 3 ∨ h.analysis = 5 ∧ h.dataType ≠ 5) (data : List Text)
    (hl : splitLinesKeep (decode (setBytes f k)) = h.lines ++ data) (header : Bool) :
    ((World.new (some f)).readSets (.one k) header).2 = .ok (.single h.dict) := by
  have : readData h data = .ok [] := by
    unfold readData
    rcases hi with ⟨ha, h1, h2, h3⟩ | ⟨ha, hd⟩
    · rw [if_neg ha]
      unfold readPlainData
      rw [if_neg h1, if_neg h2, if_neg h3]
    · rw [if_pos ha, if_neg hd]
  have e := extract_lines _ h _ hl hg _ this ⟨_, by decide, rfl⟩
  rw [List.append_nil] at e
  exact read_typed f k hk 2414 ht header _ e

/-- A data-set with fewer than fifteen lines, or without the numbers that are required in the header, is never read: reading ends
with the documented error. -/
theorem C54_error (f : Bytes) (k : Nat) (hk : k < setCount f) (ht : TypeIs (setBytes f k) 2414)
    (hn : ∀ h data, splitLinesKeep (decode (setBytes f k)) = ResultLines.lines h ++ data → ¬ h.Good) (header : Bool) :
    ((World.new (some f)).readSets (.one k) header).2 = .error (.exc "Error when reading data-set(s).") :=
  read_typed_error f k hk 2414 ht header 2414 (extract_error _ hn)

/-! ### Examples -/

/-- Records 1 to 13 of a mode shape at nodes, with few numbers. -/
def exModeHead : ResultLines :=
  ⟨chars!"    -1\n",
   chars!"  2414\n",
   chars!"         1\n",
   chars!"Results\n",
   chars!"1\n",
   chars!"NONE\n",
   chars!"NONE\n",
   chars!"NONE\n",
   chars!"Load case 3\n",
   chars!"NONE\n",
   chars!"         1         2         2         8         2         3\n",
   chars!"         2         4\n",
   chars!"         1\n",
   chars!"   0.0          .0\n",
   chars!"  4.2E+01\n"⟩

/-- Two nodes with three and with two values. -/
def exModeNodes : List NodeVals :=
  [⟨chars!" 11 7\n", chars!"  1.00000E+00  2.00000E+00  3.00000E+00\n", [11], [F64.ofInt 1, F64.ofInt 2, F64.ofInt 3]⟩,
   ⟨chars!" 12 7\n", chars!" 0.5 -1.5\n", [12], [⟨false, 1022 * 2 ^ 52, by decide⟩, ⟨true, 1023 * 2 ^ 52 + 2 ^ 51, by decide⟩]⟩]

/-- The file. -/
def exModeFile : Bytes := encode (chars!"    -1\n" ++ (chars!"  2414\n" ++ (chars!"         1\n" ++ (chars!"Results\n" ++ (chars!"1\n" ++ (chars!"NONE\n" ++ (chars!"NONE\n" ++ (chars!"NONE\n" ++ (chars!"Load case 3\n" ++ (chars!"NONE\n" ++ (chars!"         1         2         2         8         2         3\n" ++ (chars!"         2         4\n" ++ (chars!"         1\n" ++ (chars!"   0.0          .0\n" ++ (chars!"  4.2E+01\n" ++ (chars!" 11 7\n" ++ (chars!"  1.00000E+00  2.00000E+00  3.00000E+00\n" ++ (chars!" 12 7\n" ++ (chars!" 0.5 -1.5\n" ++ (chars!"    -1\n"))))))))))))))))))))

theorem nodeVals (n : NodeVals) (m w : Nat) (h1 : (splitWs n.head).length = w) (h2 : mapRes pyInt ((splitWs n.head).take m) = .ok n.nums)
    (h3 : n.nums.length = m) (h4 : ∀ i ∈ n.nums, -(2 ^ 63) ≤ i ∧ i < 2 ^ 63) (h5 : mapRes pyFloat (splitWs n.vals) = .ok n.values) : n.Good m w where
  words := ⟨(splitWs n.head).take m, (splitWs n.head).drop m, by rw [List.take_append_drop]; exact words_splitWs _,
    by rw [List.take_append_drop]; exact h1, (mapRes_iff _ _ _).1 h2⟩
  count := h3
  small := h4
  values := floatLine _ _ h5

example : ((World.new (some exModeFile)).readSets (.one (0 : Nat)) false).2 = .ok (.single (exModeHead.dict ++ nodesDict2414 exModeNodes)) :=
  C54_nodes_partial exModeFile 0 (by rw [count_fast]; decide +kernel) (by rw [bytes_fast, typeIs_iff]; decide +kernel) exModeHead
    (by decide +kernel) (by decide +kernel) (by decide +kernel) exModeNodes (by decide) 2
    (by intro n hn
        rcases List.mem_cons.1 hn with rfl | hn
        · exact nodeVals _ _ _ (by decide +kernel) (by decide +kernel) rfl (by decide) (by decide +kernel)
        · rw [List.mem_singleton.1 hn]; exact nodeVals _ _ _ (by decide +kernel) (by decide +kernel) rfl (by decide) (by decide +kernel))
    (by rw [bytes_fast]; decide +kernel) false

example : exModeHead.dict.get? "record12_field2" = some (.float F64.zero) ∧ exModeHead.dict.get? "record13_field1" = some (.float (F64.ofInt 42)) ∧
    exModeHead.dict.get? "record10_field2" = some (.int 4) ∧ exModeHead.dict.get? "id4" = some (.str chars!"Load case 3") := by decide +kernel

/-- Records 1 to 13 of data on elements. -/
def exStressHead : ResultLines :=
  ⟨chars!"    -1\n",
   chars!"  2414\n",
   chars!"         1\n",
   chars!"Results\n",
   chars!"         2\n",
   chars!"NONE\n",
   chars!"NONE\n",
   chars!"NONE\n",
   chars!"Load case 3\n",
   chars!"NONE\n",
   chars!"         1         1         4         2         2         6\n",
   chars!"         0         0         0         0         0         0         0         0\n",
   chars!"         0         0\n",
   chars!"  0.00000E+00  0.00000E+00  0.00000E+00  0.00000E+00  0.00000E+00  0.00000E+00\n",
   chars!"  0.00000E+00  0.00000E+00  0.00000E+00  0.00000E+00  0.00000E+00  0.00000E+00\n"⟩

/-- Two elements. -/
def exStressElems : List NodeVals :=
  [⟨chars!"         1         2\n", chars!"  1.00000E+00  2.00000E+00\n", [1, 2], [F64.ofInt 1, F64.ofInt 2]⟩,
   ⟨chars!"         2         3  \n", chars!" 0.5 0 0\n", [2, 3], [⟨false, 1022 * 2 ^ 52, by decide⟩, F64.ofInt 0, F64.ofInt 0]⟩]

/-- The file. -/
def exStressFile : Bytes := encode (chars!"    -1\n" ++ (chars!"  2414\n" ++ (chars!"         1\n" ++ (chars!"Results\n" ++ (chars!"         2\n" ++ (chars!"NONE\n" ++ (chars!"NONE\n" ++ (chars!"NONE\n" ++ (chars!"Load case 3\n" ++ (chars!"NONE\n" ++ (chars!"         1         1         4         2         2         6\n" ++ (chars!"         0         0         0         0         0         0         0         0\n" ++ (chars!"         0         0\n" ++ (chars!"  0.00000E+00  0.00000E+00  0.00000E+00  0.00000E+00  0.00000E+00  0.00000E+00\n" ++ (chars!"  0.00000E+00  0.00000E+00  0.00000E+00  0.00000E+00  0.00000E+00  0.00000E+00\n" ++ (chars!"         1         2\n" ++ (chars!"  1.00000E+00  2.00000E+00\n" ++ (chars!"         2         3  \n" ++ (chars!" 0.5 0 0\n" ++ (chars!"    -1\n"))))))))))))))))))))

example : ((World.new (some exStressFile)).readSets (.one (0 : Nat)) false).2 = .ok (.single (exStressHead.dict ++ elemsDict2414 exStressElems)) :=
  C54_elements_partial exStressFile 0 (by rw [count_fast]; decide +kernel) (by rw [bytes_fast, typeIs_iff]; decide +kernel) exStressHead
    (by decide +kernel) (by decide +kernel) (by decide +kernel) exStressElems (by decide) 2
    (by intro n hn
        rcases List.mem_cons.1 hn with rfl | hn
        · exact nodeVals _ _ _ (by decide +kernel) (by decide +kernel) rfl (by decide) (by decide +kernel)
        · rw [List.mem_singleton.1 hn]; exact nodeVals _ _ _ (by decide +kernel) (by decide +kernel) rfl (by decide) (by decide +kernel))
    (by rw [bytes_fast]; decide +kernel) false

/-- Records 1 to 13 of data at nodes on elements. -/
def exShellHead : ResultLines :=
  ⟨chars!"    -1\n",
   chars!"  2414\n",
   chars!"         1\n",
   chars!"Results\n",
   chars!"         3\n",
   chars!"NONE\n",
   chars!"NONE\n",
   chars!"NONE\n",
   chars!"Load case 3\n",
   chars!"NONE\n",
   chars!"         1         1         4         2         2         6\n",
   chars!"         0         0         0         0         0         0         0         0\n",
   chars!"         0         0\n",
   chars!"  0.00000E+00  0.00000E+00  0.00000E+00  0.00000E+00  0.00000E+00  0.00000E+00\n",
   chars!"  0.00000E+00  0.00000E+00  0.00000E+00  0.00000E+00  0.00000E+00  0.00000E+00\n"⟩

/-- An element with two values at each of two nodes, and an element with seven values for all nodes. -/
def exShells : List ElemRows :=
  [⟨chars!"         1         1         2         2\n", [chars!" 1 2\n", chars!" 3 4\n"], 1, 1, 2, 2, [[F64.ofInt 1, F64.ofInt 2], [F64.ofInt 3, F64.ofInt 4]]⟩,
   ⟨chars!"         2         2         4         7\n", [chars!"  1.00000E+00  2.00000E+00  3.00000E+00  4.00000E+00  5.00000E+00  6.00000E+00\n", chars!"  7.00000E+00\n"], 2, 2, 4, 7, [[F64.ofInt 1, F64.ofInt 2, F64.ofInt 3, F64.ofInt 4, F64.ofInt 5, F64.ofInt 6], [F64.ofInt 7]]⟩]

/-- The file. -/
def exShellFile : Bytes := encode (chars!"    -1\n" ++ (chars!"  2414\n" ++ (chars!"         1\n" ++ (chars!"Results\n" ++ (chars!"         3\n" ++ (chars!"NONE\n" ++ (chars!"NONE\n" ++ (chars!"NONE\n" ++ (chars!"Load case 3\n" ++ (chars!"NONE\n" ++ (chars!"         1         1         4         2         2         6\n" ++ (chars!"         0         0         0         0         0         0         0         0\n" ++ (chars!"         0         0\n" ++ (chars!"  0.00000E+00  0.00000E+00  0.00000E+00  0.00000E+00  0.00000E+00  0.00000E+00\n" ++ (chars!"  0.00000E+00  0.00000E+00  0.00000E+00  0.00000E+00  0.00000E+00  0.00000E+00\n" ++ (chars!"         1         1         2         2\n" ++ (chars!" 1 2\n" ++ (chars!" 3 4\n" ++ (chars!"         2         2         4         7\n" ++ (chars!"  1.00000E+00  2.00000E+00  3.00000E+00  4.00000E+00  5.00000E+00  6.00000E+00\n" ++ (chars!"  7.00000E+00\n" ++ (chars!"    -1\n"))))))))))))))))))))))

theorem floatLines_of (rows : List Text) (vs : List (List F64)) (h : mapRes (fun l => mapRes pyFloat (splitWs l)) rows = .ok vs) : OneByOne FloatLine rows vs :=
  let ⟨h1, h2⟩ := (mapRes_iff _ _ _).1 h
  ⟨h1, fun i x y hx hy => floatLine _ _ (h2 i x y hx hy)⟩

theorem exShells_good : ∀ e ∈ exShells, e.Good := by
  intro e he
  rcases List.mem_cons.1 he with rfl | he
  · refine ⟨⟨_, [], by rw [List.append_nil]; exact words_splitWs _, (mapRes_iff _ _ _).1 (by decide +kernel)⟩, by decide, ⟨1, by decide, by decide, by decide⟩, floatLines_of _ _ (by decide +kernel)⟩
  · rw [List.mem_singleton.1 he]
    refine ⟨⟨_, [], by rw [List.append_nil]; exact words_splitWs _, (mapRes_iff _ _ _).1 (by decide +kernel)⟩, by decide, ⟨2, by decide, by decide, by decide⟩, floatLines_of _ _ (by decide +kernel)⟩

example : ((World.new (some exShellFile)).readSets (.one (0 : Nat)) false).2 = .ok (.single (exShellHead.dict ++ elemNodesDict2414 exShells)) :=
  C54_elemNodes exShellFile 0 (by rw [count_fast]; decide +kernel) (by rw [bytes_fast, typeIs_iff]; decide +kernel) exShellHead
    (by decide +kernel) (by decide +kernel) (by decide +kernel) exShells exShells_good (by rw [bytes_fast]; decide +kernel) false

/-- Records 1 to 13 of a frequency response with six values per node. -/
def exFreqHead : ResultLines :=
  ⟨chars!"    -1\n",
   chars!"  2414\n",
   chars!"         1\n",
   chars!"Results\n",
   chars!"         1\n",
   chars!"NONE\n",
   chars!"NONE\n",
   chars!"NONE\n",
   chars!"Load case 3\n",
   chars!"NONE\n",
   chars!"         1         5         3        12         5         6\n",
   chars!"         1         1         1         1         1         1         1         1\n",
   chars!"         0         0\n",
   chars!"  0.00000E+00  5.00000E+01  0.00000E+00  0.00000E+00  0.00000E+00  0.00000E+00\n",
   chars!"  0.00000E+00  0.00000E+00  0.00000E+00  0.00000E+00  0.00000E+00  0.00000E+00\n"⟩

/-- Two nodes. -/
def exFreqNodes : List NodeCplx :=
  [⟨1, [(F64.ofInt 1, F64.ofInt 2), (F64.ofInt 3, F64.ofInt 4), (F64.ofInt 5, F64.ofInt 6), (F64.ofInt 7, F64.ofInt 8), (F64.ofInt 9, F64.ofInt 10), (F64.ofInt 11, F64.ofInt 12)]⟩,
   ⟨2, List.replicate 6 (F64.ofInt 1, F64.ofInt 1)⟩]

/-- The file; the numbers are distributed over the lines in different ways. -/
def exFreqFile : Bytes := encode (chars!"    -1\n" ++ (chars!"  2414\n" ++ (chars!"         1\n" ++ (chars!"Results\n" ++ (chars!"         1\n" ++ (chars!"NONE\n" ++ (chars!"NONE\n" ++ (chars!"NONE\n" ++ (chars!"Load case 3\n" ++ (chars!"NONE\n" ++ (chars!"         1         5         3        12         5         6\n" ++ (chars!"         1         1         1         1         1         1         1         1\n" ++ (chars!"         0         0\n" ++ (chars!"  0.00000E+00  5.00000E+01  0.00000E+00  0.00000E+00  0.00000E+00  0.00000E+00\n" ++ (chars!"  0.00000E+00  0.00000E+00  0.00000E+00  0.00000E+00  0.00000E+00  0.00000E+00\n" ++ (chars!"         1\n" ++ (chars!" 1 2 3 4 5 6\n" ++ (chars!" 7 8 9 10 11 12\n" ++ (chars!"2 1 1 1 1 1 1 1 1 1 1 1 1\n" ++ (chars!"    -1\n"))))))))))))))))))))

example : ((World.new (some exFreqFile)).readSets (.one (0 : Nat)) false).2 = .ok (.single (exFreqHead.dict ++ freqDict2414 6 exFreqNodes)) :=
  C54_freq exFreqFile 0 (by rw [count_fast]; decide +kernel) (by rw [bytes_fast, typeIs_iff]; decide +kernel) exFreqHead
    (by decide +kernel) (by decide +kernel) (by decide +kernel) 6 (by decide +kernel) (by decide) exFreqNodes
    [chars!"         1\n", chars!" 1 2 3 4 5 6\n", chars!" 7 8 9 10 11 12\n", chars!"2 1 1 1 1 1 1 1 1 1 1 1 1\n"]
    (floatLine _ _ (by decide +kernel)) (by decide +kernel) (by rw [bytes_fast]; decide +kernel) false

example : (freqDict2414 6 exFreqNodes).get? "z" = some (.arrC [(F64.ofInt 5, F64.ofInt 6), (F64.ofInt 1, F64.ofInt 1)]) := by decide +kernel

/-- Records 1 to 13 of data at points. -/
def exPointHead : ResultLines :=
  ⟨chars!"    -1\n",
   chars!"  2414\n",
   chars!"         1\n",
   chars!"Results\n",
   chars!"         5\n",
   chars!"NONE\n",
   chars!"NONE\n",
   chars!"NONE\n",
   chars!"Load case 3\n",
   chars!"NONE\n",
   chars!"         1         1         4         2         2         6\n",
   chars!"         0         0         0         0         0         0         0         0\n",
   chars!"         0         0\n",
   chars!"  0.00000E+00  0.00000E+00  0.00000E+00  0.00000E+00  0.00000E+00  0.00000E+00\n",
   chars!"  0.00000E+00  0.00000E+00  0.00000E+00  0.00000E+00  0.00000E+00  0.00000E+00\n"⟩

/-- The file. -/
def exPointFile : Bytes := encode (chars!"    -1\n" ++ (chars!"  2414\n" ++ (chars!"         1\n" ++ (chars!"Results\n" ++ (chars!"         5\n" ++ (chars!"NONE\n" ++ (chars!"NONE\n" ++ (chars!"NONE\n" ++ (chars!"Load case 3\n" ++ (chars!"NONE\n" ++ (chars!"         1         1         4         2         2         6\n" ++ (chars!"         0         0         0         0         0         0         0         0\n" ++ (chars!"         0         0\n" ++ (chars!"  0.00000E+00  0.00000E+00  0.00000E+00  0.00000E+00  0.00000E+00  0.00000E+00\n" ++ (chars!"  0.00000E+00  0.00000E+00  0.00000E+00  0.00000E+00  0.00000E+00  0.00000E+00\n" ++ (chars!"         1         1         2         2         1\n" ++ (chars!" 1 2\n" ++ (chars!" 3 4\n" ++ (chars!"    -1\n")))))))))))))))))))

example : ((World.new (some exPointFile)).readSets (.one (0 : Nat)) false).2 = .ok (.single exPointHead.dict) :=
  C54_ignored exPointFile 0 (by rw [count_fast]; decide +kernel) (by rw [bytes_fast, typeIs_iff]; decide +kernel) exPointHead
    (by decide +kernel) (by decide +kernel) [chars!"         1         1         2         2         1\n", chars!" 1 2\n", chars!" 3 4\n"] (by rw [bytes_fast]; decide +kernel) false

/-- No number in record 12. -/
def exStarsFile : Bytes := encode (chars!"    -1\n" ++ (chars!"  2414\n" ++ (chars!"         1\n" ++ (chars!"Results\n" ++ (chars!"1\n" ++ (chars!"NONE\n" ++ (chars!"NONE\n" ++ (chars!"NONE\n" ++ (chars!"Load case 3\n" ++ (chars!"NONE\n" ++ (chars!"         1         2         2         8         2         3\n" ++ (chars!"         2         4\n" ++ (chars!"         1\n" ++ (chars!" ** \n" ++ (chars!"  4.2E+01\n" ++ (chars!" 11 7\n" ++ (chars!"  1.00000E+00  2.00000E+00  3.00000E+00\n" ++ (chars!" 12 7\n" ++ (chars!" 0.5 -1.5\n" ++ (chars!"    -1\n"))))))))))))))))))))

example : ((World.new (some exStarsFile)).readSets (.one (0 : Nat)) false).2 = .error (.exc "Error when reading data-set(s).") := by
  refine C54_error exStarsFile 0 (by rw [count_fast]; decide +kernel) (by rw [bytes_fast, typeIs_iff]; decide +kernel) ?_ false
  intro h data hl
  have e : (splitLinesKeep (decode (setBytes exStarsFile 0))).take 15 = h.lines := by
    rw [hl, List.take_left' (show h.lines.length = 15 from rfl)]
  have hx : h.lines = (⟨chars!"    -1\n", chars!"  2414\n", chars!"         1\n", chars!"Results\n", chars!"1\n", chars!"NONE\n", chars!"NONE\n", chars!"NONE\n", chars!"Load case 3\n", chars!"NONE\n", chars!"         1         2         2         8         2         3\n", chars!"         2         4\n", chars!"         1\n", chars!" ** \n", chars!"  4.2E+01\n"⟩ : ResultLines).lines := by
    rw [← e, bytes_fast]; decide +kernel
  simp only [ResultLines.lines, List.cons.injEq] at hx
  obtain ⟨-, -, -, -, -, -, -, -, -, -, hty, -, -, h12, -⟩ := hx
  intro hg
  unfold ResultLines.Good at hg
  have ha : h.analysis ≠ 5 := by unfold ResultLines.analysis; rw [hty]; decide +kernel
  rw [if_neg ha, h12] at hg
  exact absurd hg.2.2.2.2.2.1 (by decide +kernel)

/-- Data at points are dropped without an error. -/
theorem C54_negation_points : entryOf "data_at_node" ((World.new (some exPointFile)).readSets .all false).2 = none ∧
    entryOf "dataset_location" ((World.new (some exPointFile)).readSets .all false).2 = some (.int 5) := by decide +kernel

/-- Six complex values at each node, in two lines of six numbers as the standard says: the data-set cannot be read. -/
theorem C54_negation_lines :
    let file := encode (chars!"    -1\n" ++ (chars!"  2414\n" ++ (chars!"         1\n" ++ (chars!"Results\n" ++ (chars!"         1\n" ++ (chars!"NONE\n" ++ (chars!"NONE\n" ++ (chars!"NONE\n" ++ (chars!"Load case 3\n" ++ (chars!"NONE\n" ++ (chars!"         1         7         3         8         5         6\n" ++ (chars!"         0         0         0         0         0         0         0         0\n" ++ (chars!"         0         0\n" ++ (chars!"  0.00000E+00  0.00000E+00  0.00000E+00  0.00000E+00  0.00000E+00  0.00000E+00\n" ++ (chars!"  0.00000E+00  0.00000E+00  0.00000E+00  0.00000E+00  0.00000E+00  0.00000E+00\n" ++ (chars!"         1\n" ++ (chars!"  1.00000E+00  2.00000E+00  3.00000E+00  4.00000E+00  5.00000E+00  6.00000E+00\n" ++ (chars!"  7.00000E+00  8.00000E+00  9.00000E+00  1.00000E+01  1.10000E+01  1.20000E+01\n" ++ (chars!"         2\n" ++ (chars!"  1.00000E+00  2.00000E+00  3.00000E+00  4.00000E+00  5.00000E+00  6.00000E+00\n" ++ (chars!"  7.00000E+00  8.00000E+00  9.00000E+00  1.00000E+01  1.10000E+01  1.20000E+01\n" ++ (chars!"    -1\n"))))))))))))))))))))))
    ((World.new (some file)).readSets .all false).2 = .error (.exc "Error when reading data-set(s).") := by decide +kernel

/-- A data-set that ends before the values of its last node is accepted: there are more nodes than values. -/
theorem C54_negation_cut :
    let file := encode (chars!"    -1\n" ++ (chars!"  2414\n" ++ (chars!"         1\n" ++ (chars!"Results\n" ++ (chars!"1\n" ++ (chars!"NONE\n" ++ (chars!"NONE\n" ++ (chars!"NONE\n" ++ (chars!"Load case 3\n" ++ (chars!"NONE\n" ++ (chars!"         1         2         2         8         2         3\n" ++ (chars!"         2         4\n" ++ (chars!"         1\n" ++ (chars!"   0.0          .0\n" ++ (chars!"  4.2E+01\n" ++ (chars!" 11 7\n" ++ (chars!"  1.00000E+00  2.00000E+00  3.00000E+00\n" ++ (chars!" 12 7\n" ++ (chars!"    -1\n")))))))))))))))))))
    entryOf "node_nums" ((World.new (some file)).readSets .all false).2 = some (.arrI [11, 12]) ∧
    entryOf "data_at_node" ((World.new (some file)).readSets .all false).2 = some (.list [.arrF [F64.ofInt 1, F64.ofInt 2, F64.ofInt 3]]) := by decide +kernel

/-- A frequency response on elements is read as if it were at nodes: numbers of values are taken for values, and values for numbers
of nodes. -/
theorem C54_negation_elements :
    let file := encode (chars!"    -1\n" ++ (chars!"  2414\n" ++ (chars!"         1\n" ++ (chars!"Results\n" ++ (chars!"         2\n" ++ (chars!"NONE\n" ++ (chars!"NONE\n" ++ (chars!"NONE\n" ++ (chars!"Load case 3\n" ++ (chars!"NONE\n" ++ (chars!"         1         5         2         8         5         3\n" ++ (chars!"         1         1         1         1         1         1         1         1\n" ++ (chars!"         0         0\n" ++ (chars!"  0.00000E+00  5.00000E+01  0.00000E+00  0.00000E+00  0.00000E+00  0.00000E+00\n" ++ (chars!"  0.00000E+00  0.00000E+00  0.00000E+00  0.00000E+00  0.00000E+00  0.00000E+00\n" ++ (chars!"         1         3\n" ++ (chars!"  1.00000E+00  2.00000E+00  3.00000E+00  4.00000E+00  5.00000E+00  6.00000E+00\n" ++ (chars!"         2         3\n" ++ (chars!"  7.00000E+00  8.00000E+00  9.00000E+00  1.00000E+01  1.10000E+01  1.20000E+01\n" ++ (chars!"         3         3\n" ++ (chars!"  1.30000E+01  1.40000E+01  1.50000E+01  1.60000E+01  1.70000E+01  1.80000E+01\n" ++ (chars!"    -1\n"))))))))))))))))))))))
    entryOf "node_nums" ((World.new (some file)).readSets .all false).2 = some (.arrI [1, 6, 11, 16]) := by decide +kernel

/-- With a negative number of values per node a frequency response is read backwards, from its last number: six numbers and two
values less than none per node give the nodes 6 and 3 and one value. -/
theorem C54_negation_backwards :
    let file := encode (chars!"    -1\n" ++ (chars!"  2414\n" ++ (chars!"         1\n" ++ (chars!"Results\n" ++ (chars!"         1\n" ++ (chars!"NONE\n" ++ (chars!"NONE\n" ++ (chars!"NONE\n" ++ (chars!"Load case 3\n" ++ (chars!"NONE\n" ++ (chars!"         1         5         2         8         5        -2\n" ++ (chars!"         1         1         1         1         1         1         1         1\n" ++ (chars!"         0         0\n" ++ (chars!"  0.00000E+00  5.00000E+01  0.00000E+00  0.00000E+00  0.00000E+00  0.00000E+00\n" ++ (chars!"  0.00000E+00  0.00000E+00  0.00000E+00  0.00000E+00  0.00000E+00  0.00000E+00\n" ++ (chars!"  1.0  2.0  3.0  4.0  5.0  6.0\n" ++ chars!"    -1\n"))))))))))))))))
    entryOf "node_nums" ((World.new (some file)).readSets .all false).2 = some (.arrI [6, 3]) ∧
    entryOf "x" ((World.new (some file)).readSets .all false).2 = some (.arrC [(F64.ofInt 2, F64.ofInt 3)]) := by decide +kernel

end Verif
