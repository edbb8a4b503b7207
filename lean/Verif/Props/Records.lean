import Verif.Spec.Records
import Verif.Lemmas.Records
/-
C51: header data-sets, units, qualifiers and model headers of any program: when they are read and what is read.
-/
namespace Verif
open Records

/-- `read_sets(k)` for a data-set whose reader reports its errors. -/
theorem read_or_error (f : Bytes) (k : Nat) (hk : k < setCount f) (n : Int) (ht : TypeIs (setBytes f k) n) (header : Bool) (m : Nat)
    (r : Res Dict) (hr : Known r) (h : readBlock n header (setBytes f k) = readGuard m r) :
    (∀ d, ((World.new (some f)).readSets (.one k) header).2 = .ok (.single d) ↔ r = .ok d) ∧
    ((∃ d, ((World.new (some f)).readSets (.one k) header).2 = .ok (.single d)) ∨
      ((World.new (some f)).readSets (.one k) header).2 = .error (.exc "Error when reading data-set(s).")) := by
  have h1 : ∀ d, ((World.new (some f)).readSets (.one k) header).2 = .ok (.single d) ↔ r = .ok d := by
    intro d
    rw [one_iff (new_status f) f rfl, show (World.new (some f)).obj = objOf f from rfl, readSet_in f k hk, (typeIs_iff _ _).1 ht, h, guard_ok]
  refine ⟨h1, ?_⟩
  rcases guard_known (n := m) hr with ⟨a, ha⟩ | he
  · exact .inl ⟨a, (h1 a).2 (guard_ok.1 ha)⟩
  · exact .inr (read_typed_error f k hk n ht header m (by rw [h, he]))

/-- A text field is always there. -/
theorem good_str (l : Text) (widths : List Nat) : Good l 1 widths [.str] := by
  intro i hi ty hty
  obtain rfl : i = 0 := by omega
  cases hty; trivial

theorem good_str2 (l : Text) (widths : List Nat) : Good l 1 widths [.str, .str] := by
  intro i hi ty hty
  obtain rfl : i = 0 := by omega
  cases hty; trivial

theorem named_text (l : Text) (k : Key) : namedFields l [80] [.str] [k] = [(k, .str (column l 0 80))] := rfl

theorem named_dates (l : Text) (k k' : Key) : namedFields l [10, 10] [.str, .str] [k, k'] =
    [(k, .str (column l 0 10)), (k', .str (column l 10 10))] := rfl

theorem named_151 (l : Text) (a b c d e : Key) : namedFields l [10, 10, 10, 10, 10] [.str, .str, .int, .int, .int] [a, b, c, d, e] =
    [(a, .str (column l 0 10)), (b, .str (column l 10 10)), (c, .int (intAt l 20 10)), (d, .int (intAt l 30 10)),
     (e, .int (intAt l 40 10))] := rfl

/-- A model header (151), whoever wrote it: it is read exactly when there are seven lines behind the first two.  Texts are taken
from their columns, and integers that are missing or malformed are 0. -/
theorem C51_151 (f : Bytes) (k : Nat) (hk : k < setCount f) (ht : TypeIs (setBytes f k) 151) (header : Bool) (ls : List Text)
    (hl : splitLinesKeep (decode (setBytes f k)) = ls) :
    (∀ d, ((World.new (some f)).readSets (.one k) header).2 = .ok (.single d) ↔
      ∃ l2 l3 l4 l5 l6 l7 l8, ls[2]? = some l2 ∧ ls[3]? = some l3 ∧ ls[4]? = some l4 ∧ ls[5]? = some l5 ∧ ls[6]? = some l6 ∧
        ls[7]? = some l7 ∧ ls[8]? = some l8 ∧ d = header151 l2 l3 l4 l5 l6 l7 l8) ∧
    ((∃ d, ((World.new (some f)).readSets (.one k) header).2 = .ok (.single d)) ∨
      ((World.new (some f)).readSets (.one k) header).2 = .error (.exc "Error when reading data-set(s).")) := by
  have h := read_or_error f k hk 151 ht header 151 _ ?_ rfl
  · refine ⟨fun d => ?_, h.2⟩
    rw [h.1 d, hl]
    have e5 : ∀ l, Good l 2 [10, 10, 10, 10, 10] [.str, .str, .int, .int, .int] := by
      intro l i hi ty hty
      have : i = 0 ∨ i = 1 := by omega
      rcases this with rfl | rfl <;> (cases hty; trivial)
    simp (disch := decide) only [index_bind, head_bind, good_str, good_str2, e5, true_and, named_text, named_dates, named_151,
      Except.ok.injEq]
    constructor
    · rintro ⟨l2, h2, l3, h3, l4, h4, l5, h5, l6, h6, l7, h7, l8, h8, hd⟩
      exact ⟨l2, l3, l4, l5, l6, l7, l8, h2, h3, h4, h5, h6, h7, h8, by rw [← hd]; unfold header151; build_dict⟩
    · rintro ⟨l2, l3, l4, l5, l6, l7, l8, h2, h3, h4, h5, h6, h7, h8, hd⟩
      exact ⟨l2, h2, l3, h3, l4, h4, l5, h5, l6, h6, l7, h7, l8, h8, by rw [hd]; unfold header151; build_dict⟩
  · known

theorem named_164 (l : Text) (a b c : Key) : namedFields l [10, 20, 10] [.int, .str, .int] [a, b, c] =
    [(a, .int (intAt l 0 10)), (b, .str (column l 10 20)), (c, .int (intAt l 30 10))] := rfl

theorem good_164 (l : Text) : Good l 1 [10, 20, 10] [.int, .str, .int] ↔ IntAt l 0 10 := by
  constructor
  · intro h; exact h 0 (by omega) .int rfl
  · intro h i hi ty hty
    obtain rfl : i = 0 := by omega
    cases hty; exact h

theorem index_ok {α : Type} {o : Option α} {a : α} : orIndex o = .ok a ↔ o = some a := by
  cases o <;> simp [orIndex]

theorem dFloat_ok {t : Text} {x : F64} : dFloat t = .ok x ↔ smallNumber t = some x := by
  unfold dFloat pyFloat orValue smallNumber
  rw [show replaceChar 'd' 'e' (lower t) = (lower t).map fun c => if c = 'd' then 'e' else c from rfl]
  cases parseFloat ((lower t).map fun c => if c = 'd' then 'e' else c) <;> simp

/-- Units (164), whoever wrote them: they are read exactly when there is a third line with an integer in its first ten columns and
the lines behind it begin with four words that are numbers (with D, d, E or e before the exponent). -/
theorem C51_164 (f : Bytes) (k : Nat) (hk : k < setCount f) (ht : TypeIs (setBytes f k) 164) (header : Bool) (ls : List Text)
    (hl : splitLinesKeep (decode (setBytes f k)) = ls) :
    (∀ d, ((World.new (some f)).readSets (.one k) header).2 = .ok (.single d) ↔
      ∃ l t0 t1 t2 t3 rest x0 x1 x2 x3, ls[2]? = some l ∧ IntAt l 0 10 ∧ splitWs (ls.drop 3).flatten = t0 :: t1 :: t2 :: t3 :: rest ∧
        smallNumber t0 = some x0 ∧ smallNumber t1 = some x1 ∧ smallNumber t2 = some x2 ∧ smallNumber t3 = some x3 ∧
        d = units164 l x0 x1 x2 x3) ∧
    ((∃ d, ((World.new (some f)).readSets (.one k) header).2 = .ok (.single d)) ∨
      ((World.new (some f)).readSets (.one k) header).2 = .error (.exc "Error when reading data-set(s).")) := by
  have h := read_or_error f k hk 164 ht header 164 _ ?_ rfl
  · refine ⟨fun d => ?_, h.2⟩
    rw [h.1 d, hl]
    generalize hw : splitWs (ls.drop 3).flatten = ws
    simp (disch := decide) only [index_bind, head_bind, good_164, named_164, hw]
    constructor
    · rintro ⟨l, h2, hi, hd⟩
      simp only [ok_iff, index_ok, dFloat_ok, Except.ok.injEq] at hd
      obtain ⟨t0, g0, x0, e0, t1, g1, x1, e1, t2, g2, x2, e2, t3, g3, x3, e3, hd⟩ := hd
      rcases ws with _ | ⟨a, _ | ⟨b, _ | ⟨c, _ | ⟨e, ws⟩⟩⟩⟩
      · cases g0
      · cases g1
      · cases g2
      · cases g3
      · cases g0; cases g1; cases g2; cases g3
        refine ⟨l, _, _, _, _, _, x0, x1, x2, x3, h2, hi, rfl, e0, e1, e2, e3, ?_⟩
        rw [← hd]; unfold units164; build_dict
    · rintro ⟨l, t0, t1, t2, t3, rest, x0, x1, x2, x3, h2, hi, hws, e0, e1, e2, e3, hd⟩
      subst hws
      refine ⟨l, h2, hi, ?_⟩
      simp only [ok_iff, index_ok, dFloat_ok, Except.ok.injEq]
      refine ⟨t0, rfl, x0, e0, t1, rfl, x1, e1, t2, rfl, x2, e2, t3, rfl, x3, e3, ?_⟩
      rw [hd]; unfold units164; build_dict
  · unfold dFloat; known

theorem good_18a (l : Text) : Good l 6 [12, 12, 12, 12, 12, 12] [.int, .int, .int, .ign, .ign, .ign] ↔
    IntAt l 0 12 ∧ IntAt l 12 12 ∧ IntAt l 24 12 := by
  constructor
  · intro h
    exact ⟨h 0 (by omega) .int rfl, h 1 (by omega) .int rfl, h 2 (by omega) .int rfl⟩
  · rintro ⟨h0, h1, h2⟩ i hi ty hty
    match i, hi, hty with
    | 0, _, rfl => exact h0
    | 1, _, rfl => exact h1
    | 2, _, rfl => exact h2
    | 3, _, rfl => trivial
    | 4, _, rfl => trivial
    | 5, _, rfl => trivial

theorem named_18a (l : Text) (k0 k1 k2 k3 k4 k5 : Key) :
    namedFields l [12, 12, 12, 12, 12, 12] [.int, .int, .int, .ign, .ign, .ign] [k0, k1, k2, k3, k4, k5] =
    [(k0, .int (intAt l 0 12)), (k1, .int (intAt l 12 12)), (k2, .int (intAt l 24 12))] := rfl

theorem good_18b (l : Text) : Good l 12 [6, 6, 6, 6, 6, 6, 6, 6, 6, 6, 6, 6] [.int, .int, .int, .int, .int, .int, .int, .int, .int, .ign, .ign, .ign] ↔
    IntAt l 0 6 ∧ IntAt l 6 6 ∧ IntAt l 12 6 ∧ IntAt l 18 6 ∧ IntAt l 24 6 ∧ IntAt l 30 6 ∧ IntAt l 36 6 ∧ IntAt l 42 6 ∧ IntAt l 48 6 := by
  constructor
  · intro h
    exact ⟨h 0 (by omega) .int rfl, h 1 (by omega) .int rfl, h 2 (by omega) .int rfl, h 3 (by omega) .int rfl, h 4 (by omega) .int rfl, h 5 (by omega) .int rfl, h 6 (by omega) .int rfl, h 7 (by omega) .int rfl, h 8 (by omega) .int rfl⟩
  · rintro ⟨h0, h1, h2, h3, h4, h5, h6, h7, h8⟩ i hi ty hty
    match i, hi, hty with
    | 0, _, rfl => exact h0
    | 1, _, rfl => exact h1
    | 2, _, rfl => exact h2
    | 3, _, rfl => exact h3
    | 4, _, rfl => exact h4
    | 5, _, rfl => exact h5
    | 6, _, rfl => exact h6
    | 7, _, rfl => exact h7
    | 8, _, rfl => exact h8
    | 9, _, rfl => trivial
    | 10, _, rfl => trivial
    | 11, _, rfl => trivial

theorem named_18b (l : Text) (k0 k1 k2 k3 k4 k5 k6 k7 k8 k9 k10 k11 : Key) :
    namedFields l [6, 6, 6, 6, 6, 6, 6, 6, 6, 6, 6, 6] [.int, .int, .int, .int, .int, .int, .int, .int, .int, .ign, .ign, .ign] [k0, k1, k2, k3, k4, k5, k6, k7, k8, k9, k10, k11] =
    [(k0, .int (intAt l 0 6)), (k1, .int (intAt l 6 6)), (k2, .int (intAt l 12 6)), (k3, .int (intAt l 18 6)), (k4, .int (intAt l 24 6)), (k5, .int (intAt l 30 6)), (k6, .int (intAt l 36 6)), (k7, .int (intAt l 42 6)), (k8, .int (intAt l 48 6))] := rfl

theorem good_18c (l : Text) : Good l 5 [15, 15, 15, 15, 15] [.flt, .flt, .flt, .flt, .ign] ↔
    FloatAt l 0 15 ∧ FloatAt l 15 15 ∧ FloatAt l 30 15 ∧ FloatAt l 45 15 := by
  constructor
  · intro h
    exact ⟨h 0 (by omega) .flt rfl, h 1 (by omega) .flt rfl, h 2 (by omega) .flt rfl, h 3 (by omega) .flt rfl⟩
  · rintro ⟨h0, h1, h2, h3⟩ i hi ty hty
    match i, hi, hty with
    | 0, _, rfl => exact h0
    | 1, _, rfl => exact h1
    | 2, _, rfl => exact h2
    | 3, _, rfl => exact h3
    | 4, _, rfl => trivial

theorem named_18c (l : Text) (k0 k1 k2 k3 k4 : Key) :
    namedFields l [15, 15, 15, 15, 15] [.flt, .flt, .flt, .flt, .ign] [k0, k1, k2, k3, k4] =
    [(k0, .float (floatAt l 0 15)), (k1, .float (floatAt l 15 15)), (k2, .float (floatAt l 30 15)), (k3, .float (floatAt l 45 15))] := rfl

theorem good_18d (l : Text) : Good l 5 [15, 15, 15, 15, 15] [.flt, .flt, .flt, .flt, .flt] ↔
    FloatAt l 0 15 ∧ FloatAt l 15 15 ∧ FloatAt l 30 15 ∧ FloatAt l 45 15 ∧ FloatAt l 60 15 := by
  constructor
  · intro h
    exact ⟨h 0 (by omega) .flt rfl, h 1 (by omega) .flt rfl, h 2 (by omega) .flt rfl, h 3 (by omega) .flt rfl, h 4 (by omega) .flt rfl⟩
  · rintro ⟨h0, h1, h2, h3, h4⟩ i hi ty hty
    match i, hi, hty with
    | 0, _, rfl => exact h0
    | 1, _, rfl => exact h1
    | 2, _, rfl => exact h2
    | 3, _, rfl => exact h3
    | 4, _, rfl => exact h4

theorem named_18d (l : Text) (k0 k1 k2 k3 k4 : Key) :
    namedFields l [15, 15, 15, 15, 15] [.flt, .flt, .flt, .flt, .flt] [k0, k1, k2, k3, k4] =
    [(k0, .float (floatAt l 0 15)), (k1, .float (floatAt l 15 15)), (k2, .float (floatAt l 30 15)), (k3, .float (floatAt l 45 15)), (k4, .float (floatAt l 60 15))] := rfl

theorem good_24a (l : Text) : Good l 4 [12, 6, 6, 12] [.int, .int, .int, .int] ↔
    IntAt l 0 12 ∧ IntAt l 12 6 ∧ IntAt l 18 6 ∧ IntAt l 24 12 := by
  constructor
  · intro h
    exact ⟨h 0 (by omega) .int rfl, h 1 (by omega) .int rfl, h 2 (by omega) .int rfl, h 3 (by omega) .int rfl⟩
  · rintro ⟨h0, h1, h2, h3⟩ i hi ty hty
    match i, hi, hty with
    | 0, _, rfl => exact h0
    | 1, _, rfl => exact h1
    | 2, _, rfl => exact h2
    | 3, _, rfl => exact h3

theorem named_24a (l : Text) (k0 k1 k2 k3 : Key) :
    namedFields l [12, 6, 6, 12] [.int, .int, .int, .int] [k0, k1, k2, k3] =
    [(k0, .int (intAt l 0 12)), (k1, .int (intAt l 12 6)), (k2, .int (intAt l 18 6)), (k3, .int (intAt l 24 12))] := rfl

theorem good_24b (l : Text) : Good l 5 [10, 10, 12, 12, 12] [.str, .str, .int, .int, .int] ↔
    IntAt l 20 12 ∧ IntAt l 32 12 ∧ IntAt l 44 12 := by
  constructor
  · intro h
    exact ⟨h 2 (by omega) .int rfl, h 3 (by omega) .int rfl, h 4 (by omega) .int rfl⟩
  · rintro ⟨h2, h3, h4⟩ i hi ty hty
    match i, hi, hty with
    | 0, _, rfl => trivial
    | 1, _, rfl => trivial
    | 2, _, rfl => exact h2
    | 3, _, rfl => exact h3
    | 4, _, rfl => exact h4

theorem named_24b (l : Text) (k0 k1 k2 k3 k4 : Key) :
    namedFields l [10, 10, 12, 12, 12] [.str, .str, .int, .int, .int] [k0, k1, k2, k3, k4] =
    [(k0, .str (column l 0 10)), (k1, .str (column l 10 10)), (k2, .int (intAt l 20 12)), (k3, .int (intAt l 32 12)), (k4, .int (intAt l 44 12))] := rfl

theorem good_18e (l : Text) : Good l 3 [4, 2, 4] [.str, .ign, .str] := by
  intro i hi ty hty
  match i, hi, hty with
  | 0, _, rfl => trivial
  | 1, _, rfl => trivial
  | 2, _, rfl => trivial

theorem named_18e (l : Text) (a b c : Key) : namedFields l [4, 2, 4] [.str, .ign, .str] [a, b, c] =
    [(a, .str (column l 0 4)), (c, .str (column l 6 4))] := rfl

theorem good_24c (l : Text) : Good l 1 [12] [.int] ↔ IntAt l 0 12 := by
  constructor
  · intro h; exact h 0 (by omega) .int rfl
  · intro h i hi ty hty
    obtain rfl : i = 0 := by omega
    cases hty; exact h

theorem named_24c (l : Text) (a : Key) : namedFields l [12] [.int] [a] = [(a, .int (intAt l 0 12))] := rfl

/-- Qualifiers (1858), whoever wrote them: they are read exactly when lines 3, 4, 5, 6 and 8 are there and lines 3 to 6 have numbers in
all the columns they are read from.  Nothing is asked of line 7. -/
theorem C51_1858 (f : Bytes) (k : Nat) (hk : k < setCount f) (ht : TypeIs (setBytes f k) 1858) (header : Bool) (ls : List Text)
    (hl : splitLinesKeep (decode (setBytes f k)) = ls) :
    (∀ d, ((World.new (some f)).readSets (.one k) header).2 = .ok (.single d) ↔
      ∃ l2 l3 l4 l5 l7, ls[2]? = some l2 ∧ ls[3]? = some l3 ∧ ls[4]? = some l4 ∧ ls[5]? = some l5 ∧ ls[7]? = some l7 ∧
        (IntAt l2 0 12 ∧ IntAt l2 12 12 ∧ IntAt l2 24 12) ∧ (∀ i < 9, IntAt l3 (6 * i) 6) ∧ (∀ i < 4, FloatAt l4 (15 * i) 15) ∧
        (∀ i < 5, FloatAt l5 (15 * i) 15) ∧ d = qualifiers1858 l2 l3 l4 l5 l7) ∧
    ((∃ d, ((World.new (some f)).readSets (.one k) header).2 = .ok (.single d)) ∨
      ((World.new (some f)).readSets (.one k) header).2 = .error (.exc "Error when reading data-set(s).")) := by
  have h := read_or_error f k hk 1858 ht header 1858 _ ?_ rfl
  · refine ⟨fun d => ?_, h.2⟩
    rw [h.1 d, hl]
    have h2 : (ls.take 8)[2]? = ls[2]? := List.getElem?_take_of_lt (by omega)
    have h3 : (ls.take 8)[3]? = ls[3]? := List.getElem?_take_of_lt (by omega)
    have h4 : (ls.take 8)[4]? = ls[4]? := List.getElem?_take_of_lt (by omega)
    have h5 : (ls.take 8)[5]? = ls[5]? := List.getElem?_take_of_lt (by omega)
    have h7 : (ls.take 8)[7]? = ls[7]? := List.getElem?_take_of_lt (by omega)
    simp (disch := decide) only [h2, h3, h4, h5, h7, index_bind, head_bind, good_18a, good_18b, good_18c, good_18d, good_18e, true_and,
      named_18a, named_18b, named_18c, named_18d, named_18e, Except.ok.injEq]
    constructor
    · rintro ⟨l2, h2, g2, l3, h3, g3, l4, h4, g4, l5, h5, g5, l7, h7, hd⟩
      refine ⟨l2, l3, l4, l5, l7, h2, h3, h4, h5, h7, g2, ?_, ?_, ?_, by rw [← hd]; unfold qualifiers1858; build_dict⟩
      · obtain ⟨a0, a1, a2, a3, a4, a5, a6, a7, a8⟩ := g3
        intro i hi
        match i, hi with
        | 0, _ => exact a0
        | 1, _ => exact a1
        | 2, _ => exact a2
        | 3, _ => exact a3
        | 4, _ => exact a4
        | 5, _ => exact a5
        | 6, _ => exact a6
        | 7, _ => exact a7
        | 8, _ => exact a8
      · obtain ⟨a0, a1, a2, a3⟩ := g4
        intro i hi
        match i, hi with
        | 0, _ => exact a0
        | 1, _ => exact a1
        | 2, _ => exact a2
        | 3, _ => exact a3
      · obtain ⟨a0, a1, a2, a3, a4⟩ := g5
        intro i hi
        match i, hi with
        | 0, _ => exact a0
        | 1, _ => exact a1
        | 2, _ => exact a2
        | 3, _ => exact a3
        | 4, _ => exact a4
    · rintro ⟨l2, l3, l4, l5, l7, h2, h3, h4, h5, h7, g2, g3, g4, g5, hd⟩
      exact ⟨l2, h2, g2, l3, h3, ⟨g3 0 (by omega), g3 1 (by omega), g3 2 (by omega), g3 3 (by omega), g3 4 (by omega), g3 5 (by omega),
          g3 6 (by omega), g3 7 (by omega), g3 8 (by omega)⟩,
        l4, h4, ⟨g4 0 (by omega), g4 1 (by omega), g4 2 (by omega), g4 3 (by omega)⟩,
        l5, h5, ⟨g5 0 (by omega), g5 1 (by omega), g5 2 (by omega), g5 3 (by omega), g5 4 (by omega)⟩, l7, h7,
        by rw [hd]; unfold qualifiers1858; build_dict⟩
  · known

theorem mask_ok (l : Text) (n : Nat) (mask : List Int) :
    mapRes (fun i => pyInt (slice l (i * 2) (i * 2 + 2))) (List.range n) = .ok mask ↔
      mask.length = n ∧ ∀ i < n, parseInt ((l.drop (2 * i)).take 2) = mask[i]? := by
  rw [mapRes_iff]
  have hs : ∀ i, slice l (i * 2) (i * 2 + 2) = (l.drop (2 * i)).take 2 := by
    intro i
    unfold slice
    rw [Nat.mul_comm, Nat.add_sub_cancel_left]
  have hp : ∀ t x, pyInt t = .ok x ↔ parseInt t = some x := by
    intro t x
    unfold pyInt orValue
    cases parseInt t <;> simp
  unfold OneByOne
  simp only [hs, hp, List.length_range]
  constructor
  · rintro ⟨h1, h2⟩
    refine ⟨h1.symm, fun i hi => ?_⟩
    have hm : mask[i]? = some (mask[i]'(by omega)) := List.getElem?_eq_getElem _
    rw [hm]
    exact h2 i i _ (by rw [List.getElem?_range hi]) hm
  · rintro ⟨h1, h2⟩
    refine ⟨h1.symm, fun i a b ha hb => ?_⟩
    obtain ⟨hi, rfl⟩ := List.getElem?_eq_some_iff.1 ha
    simp only [List.length_range] at hi
    rw [List.getElem_range, h2 i hi, hb]

/-- A model header (2400), whoever wrote it: it is read exactly when lines 3 to 8 are there, the integers of lines 3, 7 and 8 are in
their columns, and the sixth line has 32 integers of two columns each. -/
theorem C51_2400 (f : Bytes) (k : Nat) (hk : k < setCount f) (ht : TypeIs (setBytes f k) 2400) (header : Bool) (ls : List Text)
    (hl : splitLinesKeep (decode (setBytes f k)) = ls) :
    (∀ d, ((World.new (some f)).readSets (.one k) header).2 = .ok (.single d) ↔
      ∃ l2 l3 l4 l5 l6 l7 mask, ls[2]? = some l2 ∧ ls[3]? = some l3 ∧ ls[4]? = some l4 ∧ ls[5]? = some l5 ∧ ls[6]? = some l6 ∧
        ls[7]? = some l7 ∧ (IntAt l2 0 12 ∧ IntAt l2 12 6 ∧ IntAt l2 18 6 ∧ IntAt l2 24 12) ∧
        (mask.length = 32 ∧ ∀ i < 32, parseInt ((l5.drop (2 * i)).take 2) = mask[i]?) ∧
        (IntAt l6 20 12 ∧ IntAt l6 32 12 ∧ IntAt l6 44 12) ∧ IntAt l7 0 12 ∧ d = model2400 l2 l3 l4 mask l6 l7) ∧
    ((∃ d, ((World.new (some f)).readSets (.one k) header).2 = .ok (.single d)) ∨
      ((World.new (some f)).readSets (.one k) header).2 = .error (.exc "Error when reading data-set(s).")) := by
  have h := read_or_error f k hk 2400 ht header 2400 _ ?_ rfl
  · refine ⟨fun d => ?_, h.2⟩
    rw [h.1 d, hl]
    simp (disch := decide) only [index_bind, head_bind, good_24a, good_str, true_and, named_24a, named_text]
    constructor
    · rintro ⟨l2, h2, g2, l3, h3, l4, h4, l5, h5, hd⟩
      rw [ok_iff] at hd
      obtain ⟨mask, hm, hd⟩ := hd
      simp (disch := decide) only [index_bind, head_bind, good_24b, good_24c, named_24b, named_24c, Except.ok.injEq] at hd
      obtain ⟨l6, h6, g6, l7, h7, g7, hd⟩ := hd
      exact ⟨l2, l3, l4, l5, l6, l7, mask, h2, h3, h4, h5, h6, h7, g2, (mask_ok l5 32 mask).1 hm, g6, g7,
        by rw [← hd]; unfold model2400; build_dict⟩
    · rintro ⟨l2, l3, l4, l5, l6, l7, mask, h2, h3, h4, h5, h6, h7, g2, hm, g6, g7, hd⟩
      refine ⟨l2, h2, g2, l3, h3, l4, h4, l5, h5, ?_⟩
      rw [(mask_ok l5 32 mask).2 hm, ok_bind]
      simp (disch := decide) only [index_bind, head_bind, good_24b, good_24c, named_24b, named_24c, Except.ok.injEq]
      exact ⟨l6, h6, g6, l7, h7, g7, by rw [hd]; unfold model2400; build_dict⟩
  · repeat' first
      | with_reducible exact known_map (fun _ => known_int _) _
      | with_reducible exact known_ok _
      | with_reducible exact known_index _
      | with_reducible exact known_head _ _ _ _ _
      | with_reducible refine known_bind ?_ fun _ _ => ?_

/-! Files of other programs. -/

/-- A model header with short lines, without version numbers and file type, and with no time in its last line. -/
def exShort151 : Bytes := encode chars!"    -1\n   151\nwing\n\nLMS\n01-Jan-20  12:00:00\n\nTest.Lab\n02-Jan-20\n    -1\n"

example : ((World.new (some exShort151)).readSets (.one (0 : Nat)) false).2 = .ok (.single
    [("type", .int 151), ("model_name", .str chars!"wing"), ("description", .str []), ("db_app", .str chars!"LMS"),
     ("date_db_created", .str chars!"01-Jan-20"), ("time_db_created", .str chars!"12:00:00"), ("version_db1", .int 0),
     ("version_db2", .int 0), ("file_type", .int 0), ("date_db_saved", .str []), ("time_db_saved", .str []),
     ("program", .str chars!"Test.Lab"), ("date_file_written", .str chars!"02-Jan-20"), ("time_file_written", .str [])]) :=
  ((C51_151 exShort151 0 (by rw [count_fast]; decide +kernel) (by rw [bytes_fast, typeIs_iff]; decide +kernel) false _ rfl).1 _).2
    ⟨chars!"wing\n", chars!"\n", chars!"LMS\n", chars!"01-Jan-20  12:00:00\n", chars!"\n", chars!"Test.Lab\n", chars!"02-Jan-20\n",
      by rw [bytes_fast]; decide +kernel, by rw [bytes_fast]; decide +kernel, by rw [bytes_fast]; decide +kernel,
      by rw [bytes_fast]; decide +kernel, by rw [bytes_fast]; decide +kernel, by rw [bytes_fast]; decide +kernel,
      by rw [bytes_fast]; decide +kernel, by decide +kernel⟩

/-- A model header that ends one line too early. -/
def exCut151 : Bytes := encode chars!"    -1\n   151\nwing\n\nLMS\n01-Jan-20  12:00:00\n\nTest.Lab\n    -1\n"

example : ((World.new (some exCut151)).readSets (.one (0 : Nat)) false).2 = .error (.exc "Error when reading data-set(s).") := by
  have h := C51_151 exCut151 0 (by rw [count_fast]; decide +kernel) (by rw [bytes_fast, typeIs_iff]; decide +kernel) false _ rfl
  rcases h.2 with ⟨d, hd⟩ | he
  · obtain ⟨_, _, _, _, _, _, l8, _, _, _, _, _, _, h8, _⟩ := (h.1 d).1 hd
    have e : (splitLinesKeep (decode (setBytes exCut151 0)))[8]? = none := by rw [bytes_fast]; decide +kernel
    rw [e] at h8; cases h8
  · exact he

/-- Units whose numbers are spread over several lines with any exponent letter, with an empty line. -/
def exSpread164 : Bytes := encode chars!"    -1\n   164\n         1SI                           2\n  1.0D+00 1.0d0\n1e0\n\n  273.15\n    -1\n"

example : ((World.new (some exSpread164)).readSets (.one (0 : Nat)) true).2 = .ok (.single
    [("type", .int 164), ("units_code", .int 1), ("units_description", .str chars!"SI"), ("temp_mode", .int 2),
     ("length", .float (F64.ofInt 1)), ("force", .float (F64.ofInt 1)), ("temp", .float (F64.ofInt 1)),
     ("temp_offset", .float ⟨false, 0x4071126666666666, by decide⟩)]) :=
  ((C51_164 exSpread164 0 (by rw [count_fast]; decide +kernel) (by rw [bytes_fast, typeIs_iff]; decide +kernel) true _ rfl).1 _).2
    ⟨chars!"         1SI                           2\n", chars!"1.0D+00", chars!"1.0d0", chars!"1e0", chars!"273.15", [], F64.ofInt 1, F64.ofInt 1, F64.ofInt 1,
      ⟨false, 0x4071126666666666, by decide⟩,
      by rw [bytes_fast]; decide +kernel, by decide +kernel, by rw [bytes_fast]; decide +kernel,
      by decide +kernel, by decide +kernel, by decide +kernel, by decide +kernel, by decide +kernel⟩

/-- Qualifiers with columns of 12 as in the standard, and something else in the line that is not used. -/
def exStandard1858 : Bytes := encode chars!"    -1\n  1858\n           1           0           3           0           0           0\n     0     1     0     1     2     3     4     0     1     0     0     0\n     0.0000e+00     1.5000e+00     0.0000e+00     1.0240e+03     0.0000e+00\n           1.00           2.00           3.00           4.00           0.50\nanything\nX+    Z-\n    -1\n"

example : entryOf "measurement_run" ((World.new (some exStandard1858)).readSets (.one (0 : Nat)) false).2 = some (.int 3) ∧
    entryOf "num_of_samples" ((World.new (some exStandard1858)).readSets (.one (0 : Nat)) false).2 = some (.float (F64.ofInt 1024)) ∧
    entryOf "reference_direction" ((World.new (some exStandard1858)).readSets (.one (0 : Nat)) false).2 = some (.str chars!"Z-") := by
  rw [((C51_1858 exStandard1858 0 (by rw [count_fast]; decide +kernel) (by rw [bytes_fast, typeIs_iff]; decide +kernel) false _ rfl).1 _).2
    ⟨chars!"           1           0           3           0           0           0\n", chars!"     0     1     0     1     2     3     4     0     1     0     0     0\n", chars!"     0.0000e+00     1.5000e+00     0.0000e+00     1.0240e+03     0.0000e+00\n", chars!"           1.00           2.00           3.00           4.00           0.50\n", chars!"X+    Z-\n",
      by rw [bytes_fast]; decide +kernel, by rw [bytes_fast]; decide +kernel, by rw [bytes_fast]; decide +kernel,
      by rw [bytes_fast]; decide +kernel, by rw [bytes_fast]; decide +kernel, by decide +kernel, by decide +kernel, by decide +kernel,
      by decide +kernel, rfl⟩]
  decide +kernel

/-- A model header with a mask of zeros, ones and twos. -/
def exModel2400 : Bytes := encode chars!"    -1\n  2400\n           1     2     3           4\nFE model\n\n 0 1 2 0 1 2 0 1 2 0 1 2 0 1 2 0 1 2 0 1 2 0 1 2 0 1 2 0 1 2 0 1\n01-Jan-20  12:00:00            1           2           3\n           0\n    -1\n"

example : entryOf "status_mask" ((World.new (some exModel2400)).readSets (.one (0 : Nat)) false).2 =
      some (.list (((List.range 32).map fun i => ((i % 3 : Nat) : Int)).map .int)) ∧
    entryOf "idm_item_id" ((World.new (some exModel2400)).readSets (.one (0 : Nat)) false).2 = some (.int 2) ∧
    entryOf "time" ((World.new (some exModel2400)).readSets (.one (0 : Nat)) false).2 = some (.str chars!"12:00:00") := by
  rw [((C51_2400 exModel2400 0 (by rw [count_fast]; decide +kernel) (by rw [bytes_fast, typeIs_iff]; decide +kernel) false _ rfl).1 _).2
    ⟨chars!"           1     2     3           4\n", chars!"FE model\n", chars!"\n", chars!" 0 1 2 0 1 2 0 1 2 0 1 2 0 1 2 0 1 2 0 1 2 0 1 2 0 1 2 0 1 2 0 1\n", chars!"01-Jan-20  12:00:00            1           2           3\n", chars!"           0\n",
      (List.range 32).map fun i => ((i % 3 : Nat) : Int),
      by rw [bytes_fast]; decide +kernel, by rw [bytes_fast]; decide +kernel, by rw [bytes_fast]; decide +kernel,
      by rw [bytes_fast]; decide +kernel, by rw [bytes_fast]; decide +kernel, by rw [bytes_fast]; decide +kernel,
      by decide +kernel, by decide +kernel, by decide +kernel, by decide +kernel, rfl⟩]
  decide +kernel

end Verif
