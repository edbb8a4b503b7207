import Verif.Lemmas.Systems
/-
C53: coordinate systems (18, 2420) of any program.
-/
namespace Verif
open Systems

/-- Coordinate systems (18), whoever wrote them, when the first line of each begins with a blank and the lines with coordinates end
right behind the last cell.  Missing for the general claim: first lines that begin in the first column (`C53_negation_glued`) and lines
filled up with blanks (`C53_negation_padded`). -/
theorem C53_18_partial (f : Bytes) (k : Nat) (hk : k < setCount f) (ht : TypeIs (setBytes f k) 18) (l1 l2 : Text) (ss : List SysLines)
    (hl : splitLines (decode (setBytes f k)) = l1 :: l2 :: ss.flatMap SysLines.lines) (h : ∀ s ∈ ss, s.Good) (header : Bool) :
    ((World.new (some f)).readSets (.one k) header).2 = .ok (.single (systemsDict18 ss)) :=
  read_typed f k hk 18 ht header _ (extract18_lines _ l1 l2 ss hl h)

/-- Coordinate systems (2420), whoever wrote them: any number of them, numbers in any layout, exponents with E or D. -/
theorem C53_2420 (f : Bytes) (k : Nat) (hk : k < setCount f) (ht : TypeIs (setBytes f k) 2420) (l1 l2 l3 l4 : Text) (uid : Int)
    (hu : pyInt l3 = .ok uid) (ss : List MatLines)
    (hl : splitLinesKeep (decode (setBytes f k)) = l1 :: l2 :: l3 :: l4 :: ss.flatMap MatLines.lines) (h : ∀ s ∈ ss, s.Good) (header : Bool) :
    ((World.new (some f)).readSets (.one k) header).2 = .ok (.single (systemsDict2420 uid l4 ss)) :=
  read_typed f k hk 2420 ht header _ (extract2420_lines _ l1 l2 l3 l4 uid hu ss hl h)

/-! ### Examples -/

theorem floatLine (line : Text) (l : List F64) (h : mapRes pyFloat (splitWs line) = .ok l) : FloatLine line l :=
  ⟨_, words_splitWs _, (mapRes_iff _ _ _).1 h⟩

theorem dLine (line : Text) (l : List F64) (h : mapRes dFloat2420 (splitWs line) = .ok l) : DLine line l := by
  refine ⟨_, words_splitWs _, ?_⟩
  obtain ⟨h1, h2⟩ := (mapRes_iff _ _ _).1 h
  refine ⟨h1, fun i a b ha hb => ?_⟩
  exact (dFloat_eq a).symm.trans (h2 i a b ha hb)

theorem cellLine (w : Nat) (cells : List Text) (hc : ∀ c ∈ cells, c.length = w) (l : List F64) (h : mapRes pyFloat cells = .ok l)
    (line : Text) (hl : line = cells.flatten) : CellLine w line l := ⟨cells, hl, hc, (mapRes_iff _ _ _).1 h⟩

/-- A system whose coordinates are written without exponents. -/
def exPlain1 : SysLines := ⟨chars!" 1 0 0 8 1", chars!"base", chars!"           0.           0.           0.           1.           0.           0.", chars!"           0.           0.           1.",
  F64.ofInt 1, F64.ofInt 0, F64.ofInt 0, F64.ofInt 8, F64.ofInt 1, ⟨F64.ofInt 0, F64.ofInt 0, F64.ofInt 0⟩, ⟨F64.ofInt 1, F64.ofInt 0, F64.ofInt 0⟩, ⟨F64.ofInt 0, F64.ofInt 0, F64.ofInt 1⟩⟩
/-- Another one. -/
def exPlain2 : SysLines := ⟨chars!" 2 0 1 8 1", chars!" tip", chars!"           5.           0.           0.           6.           0.           0.", chars!"           5.           0.           1.",
  F64.ofInt 2, F64.ofInt 0, F64.ofInt 1, F64.ofInt 8, F64.ofInt 1, ⟨F64.ofInt 5, F64.ofInt 0, F64.ofInt 0⟩, ⟨F64.ofInt 6, F64.ofInt 0, F64.ofInt 0⟩, ⟨F64.ofInt 5, F64.ofInt 0, F64.ofInt 1⟩⟩

theorem exPlain1_good : exPlain1.Good where
  blank := by intro c hc; cases hc; rfl
  head := floatLine _ _ (by decide +kernel)
  axes := cellLine 13 (chunks 13 exPlain1.axes) (by decide +kernel) _ (by decide +kernel) _ (by decide +kernel)
  plane := cellLine 13 (chunks 13 exPlain1.plane) (by decide +kernel) _ (by decide +kernel) _ (by decide +kernel)

theorem exPlain2_good : exPlain2.Good where
  blank := by intro c hc; cases hc; rfl
  head := floatLine _ _ (by decide +kernel)
  axes := cellLine 13 (chunks 13 exPlain2.axes) (by decide +kernel) _ (by decide +kernel) _ (by decide +kernel)
  plane := cellLine 13 (chunks 13 exPlain2.plane) (by decide +kernel) _ (by decide +kernel) _ (by decide +kernel)

/-- A file with both. -/
def exPlainFile : Bytes := encode (chars!"    -1\n" ++ (chars!"    18\n" ++ (chars!" 1 0 0 8 1\n" ++ (chars!"base\n" ++ (chars!"           0.           0.           0.           1.           0.           0.\n" ++ (chars!"           0.           0.           1.\n" ++ (chars!" 2 0 1 8 1\n" ++ (chars!" tip\n" ++ (chars!"           5.           0.           0.           6.           0.           0.\n" ++ (chars!"           5.           0.           1.\n" ++ chars!"    -1\n"))))))))))

example : ((World.new (some exPlainFile)).readSets (.one (0 : Nat)) false).2 = .ok (.single (systemsDict18 [exPlain1, exPlain2])) :=
  C53_18_partial exPlainFile 0 (by rw [count_fast]; decide +kernel) (by rw [bytes_fast, typeIs_iff]; decide +kernel) chars!"    -1" chars!"    18"
    [exPlain1, exPlain2] (by rw [bytes_fast]; decide +kernel)
    (by intro s hs
        rcases List.mem_cons.1 hs with rfl | hs
        · exact exPlain1_good
        · rw [List.mem_singleton.1 hs]; exact exPlain2_good) false

/-- Lines with coordinates filled up with blanks to 80 characters: the cells of the second system are cut two characters too early,
and the data-set cannot be read. -/
theorem C53_negation_padded :
    let file := encode (chars!"    -1\n" ++ (chars!"    18\n" ++ (chars!" 1 0 0 8 1\n" ++ (chars!"base\n" ++ (chars!"           0.           0.           0.           1.           0.           0.  \n" ++ (chars!"           0.           0.           1.\n" ++ (chars!" 2 0 1 8 1\n" ++ (chars!" tip\n" ++ (chars!"           5.           0.           0.           6.           0.           0.  \n" ++ (chars!"           5.           0.           1.\n" ++ chars!"    -1\n"))))))))))
    ((World.new (some file)).readSets .all false).2 = .error (.exc "Error when reading data-set(s).") := by decide +kernel

/-- First lines that begin in the first column: the method of one system and the number of the next are glued together. -/
theorem C53_negation_glued :
    let file := encode (chars!"    -1\n" ++ (chars!"    18\n" ++ (chars!"1 0 0 8 1\n" ++ (chars!"base\n" ++ (chars!"           0.           0.           0.           1.           0.           0.\n" ++ (chars!"           0.           0.           1.\n" ++ (chars!"2 0 1 8 1\n" ++ (chars!" tip\n" ++ (chars!"           5.           0.           0.           6.           0.           0.\n" ++ (chars!"           5.           0.           1.\n" ++ chars!"    -1\n"))))))))))
    entryOf "cs_num" ((World.new (some file)).readSets .all false).2 = some (.arrF [F64.ofInt 1, F64.ofInt 0]) ∧
    entryOf "method" ((World.new (some file)).readSets .all false).2 = some (.arrF [F64.ofInt 12]) := by decide +kernel

/-- A coordinate system with numbers in Fortran's notation. -/
def exFortran : MatLines := ⟨chars!"         3         0         8\n", chars!"CS 3\n", chars!"   1.0000000000000000D+00                    0.0d0                        0\n", chars!" 0 1 0\n",
  chars!"0.0 0.0 1.0E0\n", chars!" 1.5D1 -2 0 \n", 3, 0, 8, ⟨F64.ofInt 1, F64.ofInt 0, F64.ofInt 0⟩, ⟨F64.ofInt 0, F64.ofInt 1, F64.ofInt 0⟩, ⟨F64.ofInt 0, F64.ofInt 0, F64.ofInt 1⟩, ⟨F64.ofInt 15, F64.ofInt (-2), F64.ofInt 0⟩⟩

/-- A file with this system. -/
def exFortranFile : Bytes := encode (chars!"    -1\n" ++ (chars!"  2420\n" ++ (chars!"         1\n" ++ (chars!"part\n" ++ (chars!"         3         0         8\n" ++ (chars!"CS 3\n" ++ (chars!"   1.0000000000000000D+00                    0.0d0                        0\n" ++ (chars!" 0 1 0\n" ++ (chars!"0.0 0.0 1.0E0\n" ++ (chars!" 1.5D1 -2 0 \n" ++ chars!"    -1\n"))))))))))

example : ((World.new (some exFortranFile)).readSets (.one (0 : Nat)) false).2 = .ok (.single (systemsDict2420 1 chars!"part\n" [exFortran])) :=
  C53_2420 exFortranFile 0 (by rw [count_fast]; decide +kernel) (by rw [bytes_fast, typeIs_iff]; decide +kernel) chars!"    -1\n" chars!"  2420\n"
    chars!"         1\n" chars!"part\n" 1 (by decide +kernel) [exFortran] (by rw [bytes_fast]; decide +kernel)
    (by intro s hs
        rw [List.mem_singleton.1 hs]
        refine ⟨intLine _ _ (by decide +kernel), dLine _ _ (by decide +kernel), dLine _ _ (by decide +kernel),
          dLine _ _ (by decide +kernel), dLine _ _ (by decide +kernel), ?_⟩
        intro l hl
        have : l.getLast? = some '\n' := by
          revert l
          decide +kernel
        obtain ⟨t, ht⟩ := List.getLast?_eq_some_iff.1 this
        exact ⟨t, '\n', ht, rfl⟩) false

end Verif
