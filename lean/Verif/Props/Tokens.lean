import Verif.Lemmas.Tokens
import Verif.Props.Foreign
/-
Property C47: reading nodes, trace lines and elements written by any program.
-/
namespace Verif

/-! ### C47 -/

theorem read_typed (f : Bytes) (k : Nat) (hk : k < setCount f) (n : Int) (ht : TypeIs (setBytes f k) n) (header : Bool) (d : Dict)
    (h : readBlock n header (setBytes f k) = .ok d) : ((World.new (some f)).readSets (.one k) header).2 = .ok (.single d) := by
  rw [one_iff (new_status f) f rfl, show (World.new (some f)).obj = objOf f from rfl, readSet_in f k hk, (typeIs_iff _ _).1 ht]
  exact h

theorem read_typed_error (f : Bytes) (k : Nat) (hk : k < setCount f) (n : Int) (ht : TypeIs (setBytes f k) n) (header : Bool)
    (m : Nat) (h : readBlock n header (setBytes f k) = .error (.reading m)) :
    ((World.new (some f)).readSets (.one k) header).2 = .error (.exc "Error when reading data-set(s).") := by
  rw [readSets_fresh (new_status f)]
  have e : readSet f (World.new (some f)).obj k header = .error (.reading m) := by
    rw [show (World.new (some f)).obj = objOf f from rfl, readSet_in f k hk, (typeIs_iff _ _).1 ht]
    exact h
  show (match mapRes (fun n => readSet f (World.new (some f)).obj n header) (readRange (World.new (some f)).obj (.one k)) with
      | .ok l => (.ok (unwrap l) : Res ReadOut)
      | .error e => .error (readErr e)) = _
  simp only [readRange, mapRes, e]
  rfl

/-- Nodes in double precision (2411), whoever wrote them.  After the first two lines only the words matter: seven numbers for each
node, with the exponent letter E or D.  Columns, blanks and line ends are free. -/
theorem C47_2411 (f : Bytes) (k : Nat) (hk : k < setCount f) (ht : TypeIs (setBytes f k) 2411) (l1 l2 : Text) (ls : List Text)
    (hl : splitLinesKeep (decode (setBytes f k)) = l1 :: l2 :: ls) (ws : List Text) (hw : Words ls.flatten ws)
    (nodes : List NodeF) (hn : OneByOne FortranNumber ws (nodes.flatMap NodeF.numbers)) (header : Bool) :
    ((World.new (some f)).readSets (.one k) header).2 = .ok (.single (nodesDict 2411 .arrF nodes)) :=
  read_typed f k hk 2411 ht header _ (extract2411_words _ l1 l2 ls hl ws hw nodes hn)

/-- A word that is not a number makes the reading of the nodes fail. -/
theorem C47_error (f : Bytes) (k : Nat) (hk : k < setCount f) (ht : TypeIs (setBytes f k) 2411) (l1 l2 : Text) (ls : List Text)
    (hl : splitLinesKeep (decode (setBytes f k)) = l1 :: l2 :: ls) (ws : List Text) (hw : Words ls.flatten ws)
    (w : Text) (hm : w ∈ ws) (hb : ¬ ∃ x, FortranNumber w x) (header : Bool) :
    ((World.new (some f)).readSets (.one k) header).2 = .error (.exc "Error when reading data-set(s).") := by
  apply read_typed_error f k hk 2411 ht header 2411
  show extract2411 (decode (setBytes f k)) = _
  unfold extract2411
  have hv : ∀ t, (∃ x, deFloat t = .ok x) ∨ deFloat t = .error .value := by
    intro t
    unfold deFloat pyFloat
    cases parseFloat (replaceChar 'd' 'E' (replaceChar 'D' 'E' t)) with
    | some x => exact .inl ⟨x, rfl⟩
    | none => exact .inr rfl
  have he : mapRes deFloat ws = .error .value := by
    clear hw
    induction ws with
    | nil => cases hm
    | cons a r ih =>
      rcases hv a with ⟨x, hx⟩ | hx
      · have ha : a ≠ w := fun e => hb ⟨x, by rw [← e]; exact (deFloat_fortran a).symm.trans hx⟩
        have := ih ((List.mem_cons.1 hm).resolve_left fun e => ha e.symm)
        simp only [mapRes, hx, this]
      · simp only [mapRes, hx]
  simp only [hl, List.drop_succ_cons, List.drop_zero, hw.split, he, error_bind, readGuard]

/-- Nodes in single precision (15), whoever wrote them, when every line begins with a blank.  Missing for the general claim: lines
that begin in the first column, which are glued to the line before (`C47_negation_glued`). -/
theorem C47_15_partial (f : Bytes) (k : Nat) (hk : k < setCount f) (ht : TypeIs (setBytes f k) 15) (l1 l2 : Text) (ls : List Text)
    (hl : splitLines (decode (setBytes f k)) = l1 :: l2 :: ls) (hb : ∀ l ∈ ls, ∀ c, l.head? = some c → isSpace c = true)
    (wss : List (List Text)) (hw : OneByOne Words ls wss) (nodes : List NodeF)
    (hn : OneByOne (fun t x => pyFloat t = .ok x) wss.flatten (nodes.flatMap NodeF.numbers)) (header : Bool) :
    ((World.new (some f)).readSets (.one k) header).2 =
      .ok (.single (nodesDict 15 (fun l => .list (l.map .float)) nodes)) :=
  read_typed f k hk 15 ht header _ (extract15_words _ l1 l2 ls hl hb wss hw nodes hn)

/-- A trace line (82), whoever wrote it: three numbers in columns of ten, a line of text, and any number of nodes in any layout.
The number of nodes in the header is returned but not used. -/
theorem C47_82 (f : Bytes) (k : Nat) (hk : k < setCount f) (ht : TypeIs (setBytes f k) 82) (l1 l2 f1 f2 f3 rest l4 : Text) (ls : List Text)
    (hl : splitLinesKeep (decode (setBytes f k)) = l1 :: l2 :: (f1 ++ (f2 ++ (f3 ++ rest))) :: l4 :: ls)
    (w1 : f1.length = 10) (w2 : f2.length = 10) (w3 : f3.length = 10) (a b c : Int)
    (h1 : pyInt f1 = .ok a) (h2 : pyInt f2 = .ok b) (h3 : pyInt f3 = .ok c)
    (ws : List Text) (hw : Words ls.flatten ws) (nodes : List F64) (hn : OneByOne (fun t x => pyFloat t = .ok x) ws nodes)
    (header : Bool) :
    ((World.new (some f)).readSets (.one k) header).2 =
      .ok (.single [("type", .int 82), ("trace_num", .int a), ("n_nodes", .int b), ("color", .int c),
        ("id", .str (strip (l4.take 80))), ("nodes", .arrF nodes)]) :=
  read_typed f k hk 82 ht header _ (extract82_words _ l1 l2 f1 f2 f3 rest l4 ls hl w1 w2 w3 a b c h1 h2 h3 ws hw nodes hn)

/-- Elements (2412), whoever wrote them, when the nodes of each element are on one line.  Missing for the general claim: elements
with more than eight nodes, which the standard spreads over several lines (`C47_negation_lines`). -/
theorem C47_2412_partial (f : Bytes) (k : Nat) (hk : k < setCount f) (ht : TypeIs (setBytes f k) 2412) (l1 l2 : Text) (lss : List (List Text))
    (hl : splitLines (decode (setBytes f k)) = l1 :: l2 :: lss.flatten) (es : List Elem) (he : Each ElemLines es lss) (header : Bool) :
    ((World.new (some f)).readSets (.one k) header).2 = .ok (.single (DS2412.readBack ⟨[es]⟩)) := by
  refine read_typed f k hk 2412 ht header _ (DS2412.group_eq ⟨[es]⟩ _ ?_)
  rw [hl, List.map_cons, List.map_cons, List.drop_succ_cons, List.drop_succ_cons, List.drop_zero, DS2412.readElems_of es lss he]
  simp [DS2412.elems]

/-! ### Examples -/

theorem words_iff (t : Text) (ws : List Text) : Words t ws ↔ splitWs t = ws :=
  ⟨Words.split, fun h => h ▸ words_splitWs t⟩

/-- Two nodes, the layout of other programs: exponents with D, several line ends, fields of any width. -/
def exFreeForm : Bytes := encode chars!"    -1\r\n  2411\r\n         1         1         1        11\r\n   1.0000000000000000D+00   0.0000000000000000D+00  -2.5000000000000000D-01\r\n2 1 1 11\n1. 2d0\n3.0e0\n    -1\r\n"

/-- The nodes. -/
def exFreeFormF : List NodeF :=
  [⟨F64.ofInt 1, F64.ofInt 1, F64.ofInt 1, F64.ofInt 11, F64.ofInt 1, F64.ofInt 0, ⟨true, 0x3FD0000000000000, by decide⟩⟩,
   ⟨F64.ofInt 2, F64.ofInt 1, F64.ofInt 1, F64.ofInt 11, F64.ofInt 1, F64.ofInt 2, F64.ofInt 3⟩]

theorem exFreeForm_count : 0 < setCount exFreeForm := by rw [count_fast]; decide +kernel
theorem exFreeForm_type : TypeIs (setBytes exFreeForm 0) 2411 := by rw [bytes_fast, typeIs_iff]; decide +kernel
/-- The lines after the first two. -/
def exFreeFormLines : List Text :=
    [chars!"         1         1         1        11\r\n",
     chars!"   1.0000000000000000D+00   0.0000000000000000D+00  -2.5000000000000000D-01\r\n", chars!"2 1 1 11\n", chars!"1. 2d0\n",
     chars!"3.0e0\n"]

theorem exFreeForm_lines : splitLinesKeep (decode (setBytes exFreeForm 0)) = chars!"    -1\r\n" :: chars!"  2411\r\n" :: exFreeFormLines := by
  rw [bytes_fast]; decide +kernel

theorem exFreeForm_numbers : mapRes (fun t => pyFloat (t.map fun c => if c = 'D' ∨ c = 'd' then 'E' else c)) (splitWs exFreeFormLines.flatten) =
    .ok (exFreeFormF.flatMap NodeF.numbers) := by decide +kernel

theorem exFreeForm_words : OneByOne FortranNumber (splitWs exFreeFormLines.flatten) (exFreeFormF.flatMap NodeF.numbers) :=
  (mapRes_iff _ _ _).1 exFreeForm_numbers

example : ((World.new (some exFreeForm)).readSets (.one (0 : Nat)) false).2 = .ok (.single (nodesDict 2411 .arrF exFreeFormF)) :=
  C47_2411 exFreeForm 0 exFreeForm_count exFreeForm_type _ _ _ exFreeForm_lines _ (words_splitWs _) exFreeFormF exFreeForm_words false

/-- The same with a word that is not a number. -/
def exWrong : Bytes := encode chars!"    -1\n  2411\n 1 0 0 1 1.0 2.0 3,0\n    -1\n"

example : ((World.new (some exWrong)).readSets (.one (0 : Nat)) false).2 = .error (.exc "Error when reading data-set(s).") :=
  C47_error exWrong 0 (by rw [count_fast]; decide +kernel) (by rw [bytes_fast, typeIs_iff]; decide +kernel) chars!"    -1\n" chars!"  2411\n"
    [chars!" 1 0 0 1 1.0 2.0 3,0\n"] (by rw [bytes_fast]; decide +kernel) _ (words_splitWs _) chars!"3,0" (by decide +kernel)
    (by
      rintro ⟨x, hx⟩
      have e : pyFloat chars!"3,0" = .error .value := by decide +kernel
      exact absurd (e.symm.trans hx) (by simp)) false

/-- Nodes in single precision, one line for each, with widths other than those of the standard. -/
def exFreeForm15 : Bytes := encode chars!"    -1\n    15\n 1 0 0 1  1.5 0. 0.\n 22 0 0 1 1e3 0. -1\n    -1\n"

example : ((World.new (some exFreeForm15)).readSets (.one (0 : Nat)) false).2 = .ok (.single (nodesDict 15 (fun l => .list (l.map .float))
    [⟨F64.ofInt 1, F64.ofInt 0, F64.ofInt 0, F64.ofInt 1, ⟨false, 0x3FF8000000000000, by decide⟩, F64.ofInt 0, F64.ofInt 0⟩,
     ⟨F64.ofInt 22, F64.ofInt 0, F64.ofInt 0, F64.ofInt 1, F64.ofInt 1000, F64.ofInt 0, F64.ofInt (-1)⟩])) :=
  C47_15_partial exFreeForm15 0 (by rw [count_fast]; decide +kernel) (by rw [bytes_fast, typeIs_iff]; decide +kernel) chars!"    -1" chars!"    15"
    [chars!" 1 0 0 1  1.5 0. 0.", chars!" 22 0 0 1 1e3 0. -1"] (by rw [bytes_fast]; decide +kernel) (by decide +kernel)
    [splitWs chars!" 1 0 0 1  1.5 0. 0.", splitWs chars!" 22 0 0 1 1e3 0. -1"]
    ⟨rfl, fun i x y hx hy => by
      rw [words_iff]
      match i with
      | 0 => cases hx; cases hy; rfl
      | 1 => cases hx; cases hy; rfl
      | n + 2 => cases hx⟩ _ ((mapRes_iff _ _ _).1 (by decide +kernel)) false

/-- A trace line with five nodes although seven are announced. -/
def exTrace : Bytes := encode chars!"    -1\n    82\n         3         7         1\nwing\n 1 2\n 3\n 4 0\n    -1\n"

example : ((World.new (some exTrace)).readSets (.one (0 : Nat)) false).2 = .ok (.single [("type", .int 82), ("trace_num", .int 3),
    ("n_nodes", .int 7), ("color", .int 1), ("id", .str chars!"wing"),
    ("nodes", .arrF [F64.ofInt 1, F64.ofInt 2, F64.ofInt 3, F64.ofInt 4, F64.ofInt 0])]) :=
  C47_82 exTrace 0 (by rw [count_fast]; decide +kernel) (by rw [bytes_fast, typeIs_iff]; decide +kernel) chars!"    -1\n" chars!"    82\n"
    chars!"         3" chars!"         7" chars!"         1" ['\n'] chars!"wing\n" [chars!" 1 2\n", chars!" 3\n", chars!" 4 0\n"]
    (by rw [bytes_fast]; decide +kernel) rfl rfl rfl 3 7 1 (by decide +kernel) (by decide +kernel) (by decide +kernel) _ (words_splitWs _) _
    ((mapRes_iff _ _ _).1 (by decide +kernel)) false

theorem intLine (line : Text) (l : List Int) (h : mapRes pyInt (splitWs line) = .ok l) : IntLine line l :=
  ⟨_, words_splitWs _, (mapRes_iff _ _ _).1 h⟩

theorem intLineStart (line : Text) (l : List Int) (h : mapRes pyInt (splitWs line) = .ok l) : IntLineStart line l :=
  ⟨_, [], by rw [List.append_nil]; exact words_splitWs _, (mapRes_iff _ _ _).1 h⟩

/-- A beam with the descriptor 21 (which pyuff itself writes without beam record) and a triangle. -/
def exElements : Bytes := encode chars!"    -1\n  2412\n 5 21 1 1 7 2\n 0 1 1\n 1 2\n 6 41 1 1 7 3\n 1 2 3\n    -1\n"

/-- The elements. -/
def exElementsE : List Elem := [⟨5, 21, 1, 1, 7, 2, (0, 1, 1), [1, 2]⟩, ⟨6, 41, 1, 1, 7, 3, (0, 0, 0), [1, 2, 3]⟩]

example : ((World.new (some exElements)).readSets (.one (0 : Nat)) false).2 = .ok (.single (DS2412.readBack ⟨[exElementsE]⟩)) :=
  C47_2412_partial exElements 0 (by rw [count_fast]; decide +kernel) (by rw [bytes_fast, typeIs_iff]; decide +kernel) chars!"    -1" chars!"  2412"
    [[chars!" 5 21 1 1 7 2", chars!" 0 1 1", chars!" 1 2"], [chars!" 6 41 1 1 7 3", chars!" 1 2 3"]]
    (by rw [bytes_fast]; decide +kernel) exElementsE
    (.cons (.rod (by decide) (intLineStart _ _ (by decide +kernel)) (intLineStart _ _ (by decide +kernel)) (intLine _ _ (by decide +kernel)))
      (.cons (.other (by decide) (intLineStart _ _ (by decide +kernel)) (intLine _ _ (by decide +kernel))) .nil)) false

/-- Nodes in single precision whose lines begin in the first column: the last word of a line and the first one of the next are
glued together, here `0.` and `2`, and all later numbers are shifted.  Nothing is reported.  As data-set 2411 the same lines are
read as they should. -/
theorem C47_negation_glued :
    let file := fun (type : Text) => encode (chars!"    -1\n" ++ (type ++ chars!"\n1 0 0 1 0. 0. 0.\n2 0 0 1 1. 1. 1.\n    -1\n"))
    entryOf "node_nums" ((World.new (some (file chars!"  2411"))).readSets .all false).2 = some (.arrF [F64.ofInt 1, F64.ofInt 2]) ∧
    entryOf "node_nums" ((World.new (some (file chars!"    15"))).readSets .all false).2 =
      some (.list [.float (F64.ofInt 1), .float (F64.ofInt 0)]) ∧
    entryOf "z" ((World.new (some (file chars!"    15"))).readSets .all false).2 =
      some (.list [.float ⟨false, 0x3FC999999999999A, by decide⟩]) := by decide +kernel

/-- A file cut off within a node: the arrays have different lengths, and nothing is reported. -/
theorem C47_negation_cut :
    let file := encode chars!"    -1\n  2411\n 1 0 0 1\n 1. 2. 3.\n 2 0 0 1\n 4.\n    -1\n"
    entryOf "x" ((World.new (some file)).readSets .all false).2 = some (.arrF [F64.ofInt 1, F64.ofInt 4]) ∧
    entryOf "y" ((World.new (some file)).readSets .all false).2 = some (.arrF [F64.ofInt 2]) := by decide +kernel

/-- A solid element with twenty nodes (descriptor 116) in the layout of the standard, eight nodes to a line: only the first eight
nodes are returned, and the second line of nodes is returned as an element of its own, with the third as its nodes. -/
theorem C47_negation_lines :
    let file := encode chars!"    -1\n  2412\n 1 116 1 1 7 20\n 1 2 3 4 5 6 7 8\n 9 10 11 12 13 14 15 16\n 17 18 19 20\n    -1\n"
    ((World.new (some file)).readSets .all false).2 =
      .ok (.single (DS2412.readBack ⟨[[⟨1, 116, 1, 1, 7, 20, (0, 0, 0), [1, 2, 3, 4, 5, 6, 7, 8]⟩,
        ⟨9, 10, 11, 12, 13, 14, (0, 0, 0), [17, 18, 19, 20]⟩]]⟩)) := by decide +kernel

end Verif
