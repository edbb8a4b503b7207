import Verif.Props.Writing
/-
Properties C16 to C33: every type of data-set is written and read back.
-/
namespace Verif

/-- Appending the dictionary `d` to any file of complete data-sets (or to no file) with `write_sets(d, 'add')` succeeds;
then `read_sets` of the new last data-set returns `rb`, with `header_only` it returns `hb`. -/
structure StoredAs (e : Env) (fd : Bool) (d rb hb : Dict) : Prop where
  all : ∀ w : World, Terminated (w.file.getD []) → Balanced (w.file.getD []) →
    let r := w.writeSets e "add".toList fd [d]
    r.2.2 = .ok () ∧
    r.1.getNSets.2 = setCount (w.file.getD []) + 1 ∧
    (r.1.readSets (.one (setCount (w.file.getD []))) false).2 = .ok (.single rb) ∧
    (r.1.readSets (.one (setCount (w.file.getD []))) true).2 = .ok (.single hb)

theorem stored_given {e : Env} {fd : Bool} {d : Dict} {s : DataSet} (h : Given e fd d s) :
    StoredAs e fd d s.readBack s.headerBack := by
  refine ⟨fun w ht hb => ?_⟩
  obtain ⟨bs, hbs, hall⟩ := addAll_given (.cons h .nil)
  obtain ⟨h1, -, h3⟩ := hall w
  cases hbs with
  | @cons s' b _ _ hbb hnil =>
    cases hnil
    have hw := writeSets_add' w e "add".toList (by decide) fd [d] (by simp)
    intro r
    have hr : r = w.addAll e fd [d] := hw
    rw [hr, h1, h3 (by simp) ht hb]
    generalize w.file.getD [] = f at ht hb ⊢
    have hs : sets (f ++ [b].flatMap closed) = sets f ++ [b] := by
      rw [sets_append f _ ht hb, (Blocks.cons hbb .nil).sets]
    have hc : setCount (f ++ [b].flatMap closed) = setCount f + 1 := by
      rw [← sets_length, hs, List.length_append, sets_length]; rfl
    have hk : setCount f < setCount (f ++ [b].flatMap closed) := by omega
    have hsb : setBytes (f ++ [b].flatMap closed) (setCount f) = b := by
      have := sets_getElem _ _ hk
      rw [hs, ← sets_length, List.getElem?_append_right (Nat.le_refl _), Nat.sub_self] at this
      rw [← sets_length]
      exact (Option.some.inj this).symm
    have hrd : ∀ header, ((World.new (some (f ++ [b].flatMap closed))).readSets (.one (setCount f)) header).2 =
        match readBlock s.num header b with
        | .ok d => .ok (.single d)
        | .error e => .error (readErr e) := by
      intro header
      rw [readSets_new]
      simp only [readRange, mapRes]
      rw [readSet_in _ _ hk, hsb, hbb.framed.type]
      cases readBlock s.num header b <;> rfl
    refine ⟨rfl, ?_, ?_, ?_⟩
    · exact (C01_count _).trans hc
    · rw [hrd, hbb.rd]
    · rw [hrd, hbb.rdh]

/-- Data that cannot be stored: the new data-set does not come back as `rb`. -/
theorem not_stored {e : Env} {fd : Bool} {d rb hb : Dict}
    (h : (((World.new none).writeSets e "add".toList fd [d]).1.readSets (.one 0) false).2 ≠ .ok (.single rb)) :
    ¬ StoredAs e fd d rb hb := by
  intro hs
  exact h (hs.all (World.new none) (.inl rfl) (by decide)).2.2.1

/-! ### C16: data-set 15 -/

/-- Nodes come back with their numbers and coordinates rounded to six significant digits. -/
theorem C16_roundtrip (e : Env) (fd : Bool) (d d' : Dict) (r : DS15) (hc : CleanD d d') (h : r.Rep d') (ok : r.Ok) :
    StoredAs e fd d r.readBack r.readBack := stored_given (s := .s15 r) ⟨d', hc, h, ok⟩

/-- Two nodes. -/
example : StoredAs exEnv true ex15.dict ex15.readBack ex15.readBack := stored_given (DS15.given _ _ _ ex15_ok)

/-! ### C17: data-set 18 -/

/-- Coordinate systems come back with their names stripped and points rounded to six significant digits. -/
theorem C17_roundtrip (e : Env) (fd : Bool) (d d' : Dict) (r : DS18) (hc : CleanD d d') (h : r.Rep d') (ok : r.Ok) :
    StoredAs e fd d r.readBack r.readBack := stored_given (s := .s18 r) ⟨d', hc, h, ok⟩

/-- Two systems. -/
example : StoredAs exEnv true ex18.dict ex18.readBack ex18.readBack := stored_given (DS18.given _ _ _ ex18_ok)

/-- Two systems with creation method -1. -/
def bad18 : DS18 := ⟨[⟨1, 0, 0, 8, -1, "base".toList, exPt, exPt, exPt⟩, ⟨2, 1, 1, 8, -1, "wing".toList, exPt, exPt, exPt⟩]⟩

/-- The condition that no line ends like a delimiter is needed: with method -1 the call succeeds and leaves two data-sets,
of types 18 and 0. -/
theorem C17_delimiter :
    ((World.new none).writeSets exEnv "add".toList true [bad18.dict]).2.2 = .ok () ∧
    ((World.new none).writeSets exEnv "add".toList true [bad18.dict]).1.getSetTypes.2 = [18, 0] := by
  decide +kernel

/-! ### C18, C19: data-set 55 -/

/-- Real data at nodes come back with the header, node numbers and values rounded to six significant digits. -/
theorem C18_roundtrip (e : Env) (fd : Bool) (d d' : Dict) (r : DS55) (hc : CleanD d d') (h : r.Rep d') (ok : r.Ok) :
    StoredAs e fd d r.readBack r.readBack ∧
    (∀ l, r.data = .real3 l → r.readBack.get? "r1" = some (.arrF (l.map (·.x.quant 5))) ∧
      r.readBack.get? "r2" = some (.arrF (l.map (·.y.quant 5))) ∧ r.readBack.get? "r3" = some (.arrF (l.map (·.z.quant 5)))) ∧
    (∀ l, r.data = .real6 l → r.readBack.get? "r4" = some (.arrF (l.map (·.xx.quant 5))) ∧
      r.readBack.get? "r5" = some (.arrF (l.map (·.yy.quant 5))) ∧ r.readBack.get? "r6" = some (.arrF (l.map (·.zz.quant 5)))) := by
  refine ⟨stored_given (s := .s55 r) ⟨d', hc, h, ok⟩, fun l hl => ?_, fun l hl => ?_⟩
  · unfold DS55.readBack; rw [hl]; rcases r.head with _ | _ | _ <;> exact ⟨rfl, rfl, rfl⟩
  · unfold DS55.readBack; rw [hl]; rcases r.head with _ | _ | _ <;> exact ⟨rfl, rfl, rfl⟩

example : StoredAs exEnv true ex55r.dict ex55r.readBack ex55r.readBack := stored_given (DS55.given _ _ _ ex55r_ok)

/-- Complex data at nodes come back, both parts rounded to six significant digits, when not all of `r4`, `r5`, `r6` are
given. -/
theorem C19_roundtrip_partial (e : Env) (fd : Bool) (d d' : Dict) (r : DS55) (hc : CleanD d d') (h : r.Rep d') (ok : r.Ok)
    (l : List NodeC) (hl : r.data = .cplx3 l) :
    StoredAs e fd d r.readBack r.readBack ∧ r.readBack.get? "r1" = some (.arrC (l.map (·.x.quant 5))) ∧
      r.readBack.get? "r2" = some (.arrC (l.map (·.y.quant 5))) ∧ r.readBack.get? "r3" = some (.arrC (l.map (·.z.quant 5))) := by
  refine ⟨stored_given (s := .s55 r) ⟨d', hc, h, ok⟩, ?_⟩
  unfold DS55.readBack; rw [hl]; rcases r.head with _ | _ | _ <;> exact ⟨rfl, rfl, rfl⟩

example : StoredAs exEnv true ex55c.dict ex55c.readBack ex55c.readBack := stored_given (DS55.given _ _ _ ex55c_ok)
example : ∃ l, ex55c.data = .cplx3 l ∧ l ≠ [] := ⟨_, rfl, by simp⟩

/-- A complex mode shape with six values at its node. -/
def bad55 : Dict := ex55c.dict ++
  ([("r4", .arrC [(fA, fB)]), ("r5", .arrC [(fB, fC)]), ("r6", .arrC [(fA, fA)])] : Dict)

/-- With six complex values per node the write succeeds and the data-set cannot be read. -/
theorem C19_negation :
    ((World.new none).writeSets exEnv "add".toList true [bad55]).2.2 = .ok () ∧
    ∃ x, (((World.new none).writeSets exEnv "add".toList true [bad55]).1.readSets .all false).2 = .error x := by
  refine ⟨by decide +kernel, .exc "Error when reading data-set(s).", by decide +kernel⟩

/-! ### C20, C21, C22: data-set 58 -/

theorem data58 (r : DS58) : r.readBack.get? "data" = some r.ordBack := by
  unfold DS58.readBack DS58.headBack DS58.storeBack
  cases r.store <;> rfl

theorem x58 (r : DS58) : r.readBack.get? "x" = some (.arrF r.xBack) := by
  unfold DS58.readBack DS58.headBack DS58.storeBack
  cases r.store <;> rfl

/-- Text, double precision: the ordinate comes back with twelve significant digits; an uneven abscissa with six, an even one
as the rounded first value plus multiples of the rounded increment. -/
theorem C20_roundtrip (e : Env) (fd : Bool) (d d' : Dict) (r : DS58) (hc : CleanD d d') (h : r.Rep e.little fd d')
    (ok : r.Ok) (hs : r.store = .ascii true) :
    StoredAs e fd d r.readBack r.headerBack ∧
    (∀ l, r.ord = .real l → r.readBack.get? "data" = some (.arrF (l.map (F64.quant 11)))) ∧
    (∀ l, r.ord = .cplx l → r.readBack.get? "data" = some (.arrC (l.map (Cplx.quant 11)))) ∧
    (r.even = false → r.readBack.get? "x" = some (.arrF (r.abscissaVals.map (F64.quant 5)))) ∧
    (r.even = true → r.readBack.get? "x" = some (.arrF ((List.range r.count).map fun i =>
      (r.x0.quant 5).add ((F64.ofNat i).mul ((r.x1.sub r.x0).quant 5))))) := by
  refine ⟨stored_given (s := .s58 r) ⟨d', hc, h, ok⟩, ?_⟩
  rw [data58, x58]
  unfold DS58.ordBack DS58.xBack DS58.min DS58.inc
  refine ⟨fun l hl => ?_, fun l hl => ?_, fun he => ?_, fun he => ?_⟩
  · rw [hl, hs]; rfl
  · rw [hl, hs]; rfl
  · rw [he, hs]; rfl
  · rw [he]; rfl

/-- Text, single precision: the same with six significant digits. -/
theorem C21_roundtrip (e : Env) (d d' : Dict) (r : DS58) (hc : CleanD d d') (h : r.Rep e.little false d')
    (ok : r.Ok) (hs : r.store = .ascii false) :
    StoredAs e false d r.readBack r.headerBack ∧
    (∀ l, r.ord = .real l → r.readBack.get? "data" = some (.arrF (l.map (F64.quant 5)))) ∧
    (∀ l, r.ord = .cplx l → r.readBack.get? "data" = some (.arrC (l.map (Cplx.quant 5)))) := by
  refine ⟨stored_given (s := .s58 r) ⟨d', hc, h, ok⟩, ?_⟩
  rw [data58]
  unfold DS58.ordBack
  refine ⟨fun l hl => ?_, fun l hl => ?_⟩ <;> rw [hl, hs]
  · rfl
  · rfl

/-- Binary: the data come back bit for bit (complex data are recombined as `a + 1j * b`, which loses the sign of a negative
zero), and so does an uneven abscissa.  (Double precision, mode 'add', no delimiter in the data.) -/
theorem C22_roundtrip_partial (e : Env) (fd : Bool) (d d' : Dict) (r : DS58) (hc : CleanD d d') (h : r.Rep e.little fd d')
    (ok : r.Ok) (hs : r.store = .binary e.little) :
    StoredAs e fd d r.readBack r.headerBack ∧
    (∀ l, r.ord = .real l → r.readBack.get? "data" = some (.arrF l)) ∧
    (∀ l, r.ord = .cplx l → r.readBack.get? "data" = some (.arrC (l.map Cplx.unsigned))) ∧
    (r.even = false → r.readBack.get? "x" = some (.arrF r.abscissaVals)) := by
  refine ⟨stored_given (s := .s58 r) ⟨d', hc, h, ok⟩, ?_⟩
  rw [data58, x58]
  unfold DS58.ordBack DS58.xBack
  refine ⟨fun l hl => ?_, fun l hl => ?_, fun he => ?_⟩
  · rw [hl, hs]; exact congrArg (fun m => some (Val.arrF m)) (List.map_id l)
  · rw [hl, hs]; rfl
  · rw [he, hs]; exact congrArg (fun m => some (Val.arrF m)) (List.map_id _)

example : StoredAs exEnv true (ex58 true exReal (.ascii true)).dict (ex58 true exReal (.ascii true)).readBack
    (ex58 true exReal (.ascii true)).headerBack :=
  stored_given (DS58.given _ _ _ (ex58_ok true exReal _ (.inl rfl)) (by simp [ex58]) (by simp [ex58]))
example : StoredAs exEnv false (ex58 false exCplx (.ascii false)).dict (ex58 false exCplx (.ascii false)).readBack
    (ex58 false exCplx (.ascii false)).headerBack :=
  stored_given (DS58.given _ _ _ (ex58_ok false exCplx _ (.inr rfl)) (by simp) (by simp [ex58]))
example : StoredAs exEnv true (ex58 false exCplx (.binary true)).dict (ex58 false exCplx (.binary true)).readBack
    (ex58 false exCplx (.binary true)).headerBack :=
  stored_given (DS58.given _ _ _ (ex58_ok false exCplx _ (.inr rfl)) (by simp [ex58])
    (by intro le h; cases h; decide))

/-- Three points with an abscissa of one value. -/
def one58 (s : Store58) : Dict := (ex58 true (.real [fA]) s).dict.set "x" (.arrF [fA])

/-- A function with a single abscissa value cannot be written: the increment is taken from the first two values. -/
theorem C20_single : ∃ x,
    ((World.new none).writeSets exEnv "add".toList true [one58 (.ascii true)]).2.2 = .error x :=
  ⟨.writing 58, by decide +kernel⟩

/-- Binary data declared as single precision. -/
def single58 : Dict := (ex58 true (.real [fA, fB, fC]) (.binary true)).dict.set "ord_data_type" (.int 2)

/-- Single precision binary data (`force_double=False`): the header announces 4 bytes per value, 8 are written; the call
succeeds and twice as many, different, numbers are read. -/
theorem C22_negation_single :
    ((World.new none).writeSets exEnv "add".toList false [single58]).2.2 = .ok () ∧
    (∃ d l, (((World.new none).writeSets exEnv "add".toList false [single58]).1.readSets (.one 0) false).2 = .ok (.single d) ∧
      d.get? "data" = some (.arrF l) ∧ d.get? "num_pts" = some (.int 3) ∧ l.length = 6 ∧ l.head? ≠ some fA) := by
  have h1 : ∀ r : Res ReadOut, (match r with
      | .ok (.single d) => (match d.get? "data" with
        | some (.arrF l) => decide (d.get? "num_pts" = some (.int 3) ∧ l.length = 6 ∧ l.head? ≠ some fA)
        | _ => false)
      | _ => false) = true → ∃ d l, r = .ok (.single d) ∧ d.get? "data" = some (.arrF l) ∧
        d.get? "num_pts" = some (.int 3) ∧ l.length = 6 ∧ l.head? ≠ some fA := by
    intro r h
    split at h
    · next d =>
      split at h
      · next l hl => exact ⟨d, l, rfl, hl, of_decide_eq_true h⟩
      · cases h
    · cases h
  exact ⟨by decide +kernel, h1 _ (by decide +kernel)⟩

/-- Binary data whose bytes begin with `'    -1\n\n'`. -/
def tag58 : Dict := (ex58 true (.real [⟨false, 0x0A0A312D20202020, by decide⟩, fB, fC]) (.binary true)).dict

/-- Binary data that contain the bytes of a delimiter: the call succeeds and no point is read. -/
theorem C22_negation_payload :
    ((World.new none).writeSets exEnv "add".toList true [tag58]).2.2 = .ok () ∧
    (∃ d, (((World.new none).writeSets exEnv "add".toList true [tag58]).1.readSets (.one 0) false).2 = .ok (.single d) ∧
      d.get? "data" = some (.arrF []) ∧ d.get? "num_pts" = some (.int 3)) := by
  have h1 : ∀ r : Res ReadOut, (match r with
      | .ok (.single d) => decide (d.get? "data" = some (.arrF []) ∧ d.get? "num_pts" = some (.int 3))
      | _ => false) = true → ∃ d, r = .ok (.single d) ∧ d.get? "data" = some (.arrF []) ∧
        d.get? "num_pts" = some (.int 3) := by
    intro r h
    split at h
    · next d => exact ⟨d, rfl, of_decide_eq_true h⟩
    · cases h
  exact ⟨by decide +kernel, h1 _ (by decide +kernel)⟩

/-! ### C23: data-set 82 -/

/-- What is stored of a trace line, for every list of nodes: the header, and the nodes unless the number of runs of equal
neighbours is a multiple of eight. -/
theorem C23_stored (e : Env) (fd : Bool) (d d' : Dict) (r : DS82) (hc : CleanD d d') (h : r.Rep d') (ok : r.Ok) :
    StoredAs e fd d r.readBack r.readBack ∧ r.readBack.get? "nodes" = some (.arrF (r.stored.map F64.ofInt)) :=
  ⟨stored_given (s := .s82 r) ⟨d', hc, h, ok⟩, rfl⟩

/-- All nodes of a trace line come back in order when no two neighbours are equal, or when the number of runs of equal
neighbours is not a multiple of eight. -/
theorem C23_roundtrip_partial (e : Env) (fd : Bool) (d d' : Dict) (r : DS82) (hc : CleanD d d') (h : r.Rep d') (ok : r.Ok)
    (hr : r.nodes.IsChain (· ≠ ·) ∨ DS82.runs r.nodes % 8 ≠ 0) :
    StoredAs e fd d r.readBack r.readBack ∧ r.readBack.get? "nodes" = some (.arrF (r.nodes.map F64.ofInt)) := by
  refine ⟨stored_given (s := .s82 r) ⟨d', hc, h, ok⟩, ?_⟩
  have : r.stored = r.nodes := by
    unfold DS82.stored
    rcases hr with hr | hr
    · split
      · apply List.take_of_length_le
        clear h ok
        revert hr
        generalize r.nodes = l
        intro hl
        induction l with
        | nil => simp
        | cons a l ih =>
          cases l with
          | nil => simp [DS82.runs]
          | cons b l =>
            rw [List.isChain_cons_cons] at hl
            have := ih hl.2
            simp only [DS82.runs, if_neg hl.1, List.length_cons] at this ⊢
            omega
      · rfl
    · rw [if_neg hr]
  show some (Val.arrF (r.stored.map F64.ofInt)) = _
  rw [this]

example : StoredAs exEnv true ex82.dict ex82.readBack ex82.readBack := stored_given (DS82.given _ _ _ ex82_ok)
example : ex82.nodes.IsChain (· ≠ ·) := by decide

/-- Otherwise nodes are lost: when the number of runs is a multiple of eight and some neighbours are equal, the call
succeeds and fewer nodes are read back than were given. -/
theorem C23_negation (e : Env) (fd : Bool) (d d' : Dict) (r : DS82) (hc : CleanD d d') (h : r.Rep d') (ok : r.Ok)
    (h8 : DS82.runs r.nodes % 8 = 0) (hlt : DS82.runs r.nodes < r.nodes.length) :
    ∃ l, StoredAs e fd d r.readBack r.readBack ∧ r.readBack.get? "nodes" = some (.arrF l) ∧
      l.length < r.nodes.length := by
  refine ⟨r.stored.map F64.ofInt, stored_given (s := .s82 r) ⟨d', hc, h, ok⟩, rfl, ?_⟩
  unfold DS82.stored
  rw [if_pos h8, List.length_map, List.length_take]
  omega

/-- Nine nodes, of which the first two are equal. -/
def bad82 : DS82 := ⟨1, 30, "trace".toList, [1, 1, 2, 3, 4, 5, 6, 7, 8]⟩
example : bad82.Ok ∧ DS82.runs bad82.nodes % 8 = 0 ∧ DS82.runs bad82.nodes < bad82.nodes.length :=
  ⟨{ trace := by decide, color := by decide, color1 := by decide, runs := by decide, id := ex82_ok.id, nodes := by decide },
    by decide, by decide⟩

/-! ### C24: data-set 151 -/

/-- The header comes back with its texts stripped; missing dates and times are those of the call. -/
theorem C24_roundtrip (e : Env) (fd : Bool) (d d' : Dict) (r : DS151) (hc : CleanD d d')
    (h : r.Rep (e.clock 0).1 (e.clock 0).2 d') (ok : r.Ok) :
    StoredAs e fd d r.readBack r.readBack := stored_given (s := .s151 r) ⟨d', hc, h, ok⟩

example : StoredAs exEnv true ex151.dict ex151.readBack ex151.readBack := stored_given (DS151.given _ _ _ ex151_ok)

/-! ### C25: data-set 164 -/

/-- The units come back: conversion factors bit for bit. -/
theorem C25_roundtrip (e : Env) (fd : Bool) (d d' : Dict) (r : DS164) (hc : CleanD d d') (h : r.Rep d') (ok : r.Ok) :
    StoredAs e fd d r.readBack r.readBack := stored_given (s := .s164 r) ⟨d', hc, h, ok⟩

example : StoredAs exEnv true ex164.dict ex164.readBack ex164.readBack := stored_given (DS164.given _ _ _ ex164_ok)

/-! ### C26: data-set 1858 -/

/-- The qualifiers come back, the numbers rounded to eight significant digits, when `octave_format` and `measurement_run` fit the
columns where the reader looks for them. -/
theorem C26_roundtrip_partial (e : Env) (fd : Bool) (d d' : Dict) (r : DS1858) (hc : CleanD d d') (h : r.Rep d') (ok : r.Ok) :
    StoredAs e fd d r.readBack r.readBack := stored_given (s := .s1858 r) ⟨d', hc, h, ok⟩

example : StoredAs exEnv true ex1858.dict ex1858.readBack ex1858.readBack := stored_given (DS1858.given _ _ _ ex1858_ok)

/-- Qualifiers with an `octave_format` of nine digits, which fits the ten columns the writer uses. -/
def bad1858 : DS1858 := { ex1858 with octave := 123456789 }

/-- Record 1 is written in columns of 10 and read in columns of 12: the write succeeds, reading raises. -/
theorem C26_negation : Fits 10 bad1858.octave ∧
    ((World.new none).writeSets exEnv "add".toList true [bad1858.dict]).2.2 = .ok () ∧
    ∃ x, (((World.new none).writeSets exEnv "add".toList true [bad1858.dict]).1.readSets .all false).2 = .error x :=
  ⟨by decide, by decide +kernel, .exc "Error when reading data-set(s).", by decide +kernel⟩

/-! ### C27: data-set 2400 -/

/-- The model header comes back when the integers that end a line are not -1. -/
theorem C27_roundtrip_partial (e : Env) (fd : Bool) (d d' : Dict) (r : DS2400) (hc : CleanD d d') (h : r.Rep d') (ok : r.Ok) :
    StoredAs e fd d r.readBack r.readBack := stored_given (s := .s2400 r) ⟨d', hc, h, ok⟩

example : StoredAs exEnv true ex2400.dict ex2400.readBack ex2400.readBack := stored_given (DS2400.given _ _ _ ex2400_ok)

/-- -1 in `version_number`: a delimiter. -/
def bad2400 : DS2400 := { ex2400 with version := -1 }
/-- -1 in `primary_parent_uid`: a delimiter. -/
def bad2400' : DS2400 := { ex2400 with parent := -1 }

/-- A model without a parent, or a version -1: the record is taken for a delimiter; the write succeeds and reading raises. -/
theorem C27_negation (b : Bool) :
    let r := (World.new none).writeSets exEnv "add".toList true [(if b then bad2400 else bad2400').dict]
    r.2.2 = .ok () ∧ ∃ x, (r.1.readSets .all false).2 = .error x := by
  cases b
  · exact ⟨by decide +kernel, .exc "Error when reading data-set(s).", by decide +kernel⟩
  · exact ⟨by decide +kernel, .exc "Error when reading data-set(s).", by decide +kernel⟩

/-! ### C28: data-set 2411 -/

/-- Nodes come back with coordinates bit for bit, when no colour is -1. -/
theorem C28_roundtrip_partial (e : Env) (fd : Bool) (d d' : Dict) (r : DS2411) (hc : CleanD d d') (h : r.Rep d') (ok : r.Ok) :
    StoredAs e fd d r.readBack r.readBack := stored_given (s := .s2411 r) ⟨d', hc, h, ok⟩

example : StoredAs exEnv true ex2411.dict ex2411.readBack ex2411.readBack := stored_given (DS2411.given _ _ _ ex2411_ok)

/-- A node with colour -1. -/
def bad2411 : DS2411 := ⟨[⟨1, 0, 0, -1, fA, fB, F64.zero⟩]⟩

/-- Colour -1 makes a delimiter: the write succeeds, the node comes back without colour and coordinates. -/
theorem C28_negation : ¬ StoredAs exEnv true bad2411.dict bad2411.readBack bad2411.readBack ∧
    ((World.new none).writeSets exEnv "add".toList true [bad2411.dict]).2.2 = .ok () :=
  ⟨not_stored (by decide +kernel), by decide +kernel⟩

/-! ### C29: data-set 2412 -/

/-- The elements come back grouped by descriptor, with the columns of triangles and quads, when there is no beam (descriptors
21 to 24). -/
theorem C29_roundtrip_partial (e : Env) (fd : Bool) (d d' : Dict) (r : DS2412) (hc : CleanD d d') (h : r.Rep d') (ok : r.Ok) :
    StoredAs e fd d r.readBack r.readBack := stored_given (s := .s2412 r) ⟨d', hc, h, ok⟩

example : StoredAs exEnv true ex2412.dict ex2412.readBack ex2412.readBack := stored_given (DS2412.given _ _ _ ex2412_ok)

/-- Two beams. -/
def bad2412 : DS2412 := ⟨[[⟨2, 21, 1, 1, 5, 2, (3, 1, 1), [1, 2]⟩, ⟨3, 21, 1, 1, 5, 2, (3, 1, 1), [2, 3]⟩]]⟩
/-- What `prepare_2412` returns for two quads. -/
def prep2412 : Dict :=
  [("type", .int 2412), ("element_nums", .arrI [1, 2]), ("fe_descriptor", .arrI [44, 44]), ("phys_table", .arrI [1, 1]),
   ("mat_table", .arrI [1, 1]), ("color", .arrI [5, 5]), ("num_nodes", .arrI [4, 4]),
   ("nodes_nums", .list [.arrI [1, 2, 3, 4], .arrI [3, 4, 5, 6]])]

/-- The beam record is written for descriptor 11 only and read for 21 to 24 too: the write succeeds, reading raises. -/
theorem C29_negation_beam :
    ((World.new none).writeSets exEnv "add".toList true [bad2412.dict]).2.2 = .ok () ∧
    ∃ x, (((World.new none).writeSets exEnv "add".toList true [bad2412.dict]).1.readSets .all false).2 = .error x :=
  ⟨by decide +kernel, .exc "Error when reading data-set(s).", by decide +kernel⟩

/-- A dictionary of `prepare_2412`, alone or under the key 'quad' as its documentation shows: the write succeeds and stores
no element. -/
theorem C29_negation_prepare (b : Bool) :
    let d : Dict := if b then prep2412 else [("type", .int 2412), ("quad", .dict prep2412)]
    let r := (World.new none).writeSets exEnv "add".toList true [d]
    r.2.2 = .ok () ∧ (r.1.readSets .all false).2 = .ok (.single [("type", .int 2412)]) := by
  cases b <;> decide +kernel

/-! ### C31: data-set 2420 -/

/-- Coordinate systems come back: the matrices bit for bit. -/
theorem C31_roundtrip (e : Env) (fd : Bool) (d d' : Dict) (r : DS2420) (hc : CleanD d d') (h : r.Rep d') (ok : r.Ok) :
    StoredAs e fd d r.readBack r.readBack := stored_given (s := .s2420 r) ⟨d', hc, h, ok⟩

example : StoredAs exEnv true ex2420.dict ex2420.readBack ex2420.readBack := stored_given (DS2420.given _ _ _ ex2420_ok)

/-! ### C32: data-set 2429 -/

/-- What is stored of a permanent group, for every number of entities the writer can handle. -/
theorem C32_stored (e : Env) (fd : Bool) (d d' : Dict) (r : DS2429) (hc : CleanD d d') (h : r.Rep d') (ok : r.Ok) :
    StoredAs e fd d r.readBack r.readBack := stored_given (s := .s2429 r) ⟨d', hc, h, ok⟩

/-- All entities come back in order when their number is a multiple of four, or one. -/
theorem C32_roundtrip_partial (e : Env) (fd : Bool) (d d' : Dict) (r : DS2429) (hc : CleanD d d') (h : r.Rep d') (ok : r.Ok)
    (hn : r.ents.length % 4 = 0 ∨ r.ents.length = 1) :
    StoredAs e fd d r.readBack r.readBack ∧
    r.readBack = [((.s "type" : Key), Val.int 2429), (.s "groups", .list [.dict (r.grp.dict r.ents.length ++
      [((.s "entity_type_code" : Key), Val.arrI (r.ents.map (·.code))), (.s "entity_tag", .arrI (r.ents.map (·.tag)))])])] := by
  refine ⟨stored_given (s := .s2429 r) ⟨d', hc, h, ok⟩, ?_⟩
  have : r.stored = r.ents := by
    unfold DS2429.stored
    rcases hn with hn | hn
    · rw [hn, List.take_of_length_le (by omega)]; simp
    · obtain ⟨a, ha⟩ := List.length_eq_one_iff.1 hn
      rw [ha]; simp
  unfold DS2429.readBack
  rw [this]

example : StoredAs exEnv true ex2429.dict ex2429.readBack ex2429.readBack := stored_given (DS2429.given _ _ _ ex2429_ok)

/-- Whenever a line of entities is incomplete (and the write is possible), the first entity is stored in place of the first
one of that line; so the entities read are not those given, unless these two happen to be equal. -/
theorem C32_negation (e : Env) (fd : Bool) (d d' : Dict) (r : DS2429) (hc : CleanD d d') (h : r.Rep d') (ok : r.Ok)
    (hn : r.ents.length % 4 ≠ 0) :
    ∃ l : List Ent, StoredAs e fd d r.readBack r.readBack ∧
      r.readBack = [((.s "type" : Key), Val.int 2429), (.s "groups", .list [.dict (r.grp.dict r.ents.length ++
        [((.s "entity_type_code" : Key), Val.arrI (l.map (·.code))), (.s "entity_tag", .arrI (l.map (·.tag)))])])] ∧
      l.length = r.ents.length ∧ l[4 * (r.ents.length / 4)]? = r.ents[0]? ∧
      (r.ents[4 * (r.ents.length / 4)]? ≠ r.ents[0]? → l ≠ r.ents) := by
  have key : r.stored[4 * (r.ents.length / 4)]? = r.ents[0]? := ?_
  · exact ⟨r.stored, stored_given (s := .s2429 r) ⟨d', hc, h, ok⟩, rfl, DS2429.stored_length r ok, key,
      fun hne heq => hne (by rw [heq] at key; exact key)⟩
  unfold DS2429.stored
  have h4 : (r.ents.take (4 * (r.ents.length / 4))).length = 4 * (r.ents.length / 4) := by
    rw [List.length_take]; omega
  rw [List.getElem?_append_right (by omega), h4, Nat.sub_self]
  obtain ⟨k, hk⟩ := Nat.exists_eq_succ_of_ne_zero hn
  rw [hk, List.range_succ_eq_map, List.filterMap_cons]
  simp only [Nat.mul_zero]
  cases h0 : r.ents[0]? with
  | none =>
    have := List.getElem?_eq_none_iff.1 h0
    omega
  | some a => rfl

/-- Five entities. -/
def bad2429 : DS2429 := ⟨exGrp, [⟨7, 1⟩, ⟨7, 2⟩, ⟨8, 3⟩, ⟨8, 4⟩, ⟨9, 5⟩]⟩
example : bad2429.Ok ∧ bad2429.ents.length % 4 ≠ 0 ∧ bad2429.ents[4]? ≠ bad2429.ents[0]? := by
  refine ⟨⟨exGrp_ok, by decide, by decide, by decide, by decide, by decide⟩, by decide, ?_⟩
  intro h
  injection h with h
  injection h with h _
  revert h; decide

/-- A permanent group of two entities cannot be written at all. -/
theorem C32_negation_two : ∃ x, ((World.new none).writeSets exEnv "add".toList true
    [(⟨exGrp, [⟨7, 1⟩, ⟨7, 2⟩]⟩ : DS2429).dict]).2.2 = .error x := ⟨.writing 2429, by decide +kernel⟩

/-- What is read back from a permanent group cannot be written again. -/
theorem C32_negation_again : ∃ x, ((World.new none).writeSets exEnv "add".toList true
    [ex2429.readBack]).2.2 = .error x := ⟨.writing 2429, by decide +kernel⟩

/-! ### C30: data-set 2414 -/

/-- Analysis data come back: frequency responses with one to three complex values per node, data at nodes, data on
elements and data at the nodes of elements, for any number of nodes and elements, with all numbers rounded to six
significant digits.  Missing from the full claim: negative numbers in records 12 and 13, numbers without a node or element
at locations 1 and 2, elements whose number of lines is not the one prescribed by their header, location 5, and the data of
a frequency response whose data type is not 5; see the negations below. -/
theorem C30_roundtrip_partial (e : Env) (fd : Bool) (d d' : Dict) (r : DS2414) (hc : CleanD d d') (h : r.Rep d') (ok : r.Ok) :
    StoredAs e fd d r.readBack r.readBack := stored_given (s := .s2414 r) ⟨d', hc, h, ok⟩

example : StoredAs exEnv true (ex2414 exFreq).dict (ex2414 exFreq).readBack (ex2414 exFreq).readBack :=
  stored_given (DS2414.given _ _ _ exFreq_ok)
example : StoredAs exEnv true (ex2414 (exPlain exNodes)).dict (ex2414 (exPlain exNodes)).readBack
    (ex2414 (exPlain exNodes)).readBack := stored_given (DS2414.given _ _ _ exNodes_ok)
example : StoredAs exEnv true (ex2414 (exPlain exElems)).dict (ex2414 (exPlain exElems)).readBack
    (ex2414 (exPlain exElems)).readBack := stored_given (DS2414.given _ _ _ exElems_ok)
example : StoredAs exEnv true (ex2414 (exPlain exElemNodes)).dict (ex2414 (exPlain exElemNodes)).readBack
    (ex2414 (exPlain exElemNodes)).readBack := stored_given (DS2414.given _ _ _ exElemNodes_ok)

/-- The data of a frequency response with data type 5 come back: node numbers and all components. -/
theorem C30_freq (e : Env) (fd : Bool) (d d' : Dict) (r : DS2414) (hc : CleanD d d') (h : r.Rep d') (ok : r.Ok)
    (l : Int) (hd : FreqHead) (ns : List NodeC) (hb : r.body = .freq l hd (.three ns)) (ht : r.dtype = 5) :
    ∃ rb, StoredAs e fd d rb rb ∧ rb.get? "node_nums" = some (.arrI (ns.map (·.num))) ∧
      rb.get? "x" = some (.arrC (ns.map (·.x.quant 5))) ∧ rb.get? "y" = some (.arrC (ns.map (·.y.quant 5))) ∧
      rb.get? "z" = some (.arrC (ns.map (·.z.quant 5))) := by
  refine ⟨_, C30_roundtrip_partial e fd d d' r hc h ok, ?_⟩
  unfold DS2414.readBack
  rw [hb, ht]
  exact ⟨rfl, rfl, rfl, rfl⟩

/-- The data of a frequency response with another data type are written, but reading returns none of them. -/
theorem C30_negation_dtype (e : Env) (fd : Bool) (d d' : Dict) (r : DS2414) (hc : CleanD d d') (h : r.Rep d') (ok : r.Ok)
    (l : Int) (hd : FreqHead) (x : FreqData) (hb : r.body = .freq l hd x) (ht : r.dtype ≠ 5) :
    ∃ rb, StoredAs e fd d rb rb ∧ rb.get? "node_nums" = none ∧ rb.get? "x" = none ∧ rb.get? "y" = none ∧
      rb.get? "z" = none := by
  refine ⟨_, C30_roundtrip_partial e fd d d' r hc h ok, ?_⟩
  unfold DS2414.readBack
  rw [hb]
  simp only [DS2414.bodyBack, if_neg ht]
  exact ⟨rfl, rfl, rfl, rfl⟩

/-- Real instead of complex double precision. -/
example : ({ ex2414 exFreq with dtype := 4 } : DS2414).Ok ∧ ({ ex2414 exFreq with dtype := 4 } : DS2414).dtype ≠ 5 :=
  ⟨{ exFreq_ok with dtype := (show Fits 10 4 by decide) }, (by decide : (4 : Int) ≠ 5)⟩

/-- The value of a key of the dictionary returned by `read_sets`. -/
def entryOf (k : Key) : Res ReadOut → Option Val
  | .ok (.single d) => d.get? k
  | _ => none

/-- `-1.0`. -/
def fMinus : F64 := ⟨true, 0x3FF0000000000000, by decide⟩

/-- A negative number in record 12 shifts the columns: for `-0.1` reading silently returns `-1.0`, and `0.0` for the
numbers after it, all of which were `1.5`. -/
theorem C30_negation_negative : ∃ h : PlainHead, h.rec12 = ⟨fB, fA, fA, fA, fA, fA⟩ ∧
    let r := (World.new none).writeSets exEnv "add".toList true [(ex2414 (.plain 1 6 h exNodes)).dict]
    r.2.2 = .ok () ∧ entryOf "record12_field1" (r.1.readSets (.one 0) false).2 = some (.float fMinus) ∧
      entryOf "record12_field2" (r.1.readSets (.one 0) false).2 = some (.float F64.zero) ∧
      entryOf "record12_field6" (r.1.readSets (.one 0) false).2 = some (.float F64.zero) :=
  ⟨⟨exEight, exEight, ⟨fB, fA, fA, fA, fA, fA⟩, exSix⟩, rfl, by decide +kernel⟩

/-- A frequency response with such a number is written and cannot be read. -/
theorem C30_negation_freq : ∃ (h : FreqHead) (x : Err), h.rec12 = ⟨fB, fA, fA, fA, fA, fA⟩ ∧
    let r := (World.new none).writeSets exEnv "add".toList true
      [(ex2414 (.freq 1 h (.one [⟨1, (fA, fB)⟩]))).dict]
    r.2.2 = .ok () ∧ r.1.getNSets.2 = 1 ∧ (r.1.readSets (.one 0) false).2 = .error x :=
  ⟨⟨exEight, 0, 1, ⟨fB, fA, fA, fA, fA, fA⟩, exSix⟩, .exc "Error when reading data-set(s).", rfl, by decide +kernel⟩

/-- `-1e-12`. -/
def fTiny : F64 := ⟨true, 0x3D719799812DEA11, by decide⟩

/-- When it is the last number, the exponent loses its last digit: reading silently returns `-0.1` for `-1e-12`. -/
theorem C30_negation_last : ∃ h : PlainHead, h.rec12.x6 = fTiny ∧
    let r := (World.new none).writeSets exEnv "add".toList true [(ex2414 (.plain 1 6 h exNodes)).dict]
    r.2.2 = .ok () ∧ entryOf "record12_field6" (r.1.readSets (.one 0) false).2 = some (.float fB) :=
  ⟨⟨exEight, exEight, ⟨fA, fA, fA, fA, fA, fTiny⟩, exSix⟩, rfl, by decide +kernel⟩

/-- At location 5 the closing delimiter is missing: the call succeeds and the file has no data-set. -/
theorem C30_negation_location5 :
    let r := (World.new none).writeSets exEnv "add".toList true [(ex2414 (exPlain (.other 5))).dict]
    r.2.2 = .ok () ∧ r.1.getNSets.2 = 0 := by decide +kernel

/-- Data without nodes are written and cannot be read. -/
theorem C30_negation_empty : ∃ x,
    let r := (World.new none).writeSets exEnv "add".toList true [(ex2414 (exPlain (.atNodes []))).dict]
    r.2.2 = .ok () ∧ r.1.getNSets.2 = 1 ∧ (r.1.readSets (.one 0) false).2 = .error x :=
  ⟨.exc "Error when reading data-set(s).", by decide +kernel⟩

/-- Two elements are written, the first one with a row of eight values for each of its two nodes.  The writer puts a row on
one line, the reader expects six values on a line: it takes the second element for values of the first one. -/
theorem C30_negation_wide : let r := (World.new none).writeSets exEnv "add".toList true [(ex2414 (exPlain (.atElemNodes
      [⟨7, 1, 2, 8, [[fA, fB, fA, fB, fA, fB, fA, fB], [fA, fB, fA, fB, fA, fB, fA, fB]]⟩,
       ⟨8, 2, 2, 2, [[fA, fB]]⟩]))).dict]
    r.2.2 = .ok () ∧ entryOf "element_nums" (r.1.readSets (.one 0) false).2 = some (.arrI [7]) := by decide +kernel

/-! ### C33: data-set 2467 -/

/-- All groups come back with all entities in order. -/
theorem C33_roundtrip (e : Env) (fd : Bool) (d d' : Dict) (r : DS2467) (hc : CleanD d d') (h : r.Rep d') (ok : r.Ok) :
    StoredAs e fd d r.readBack r.readBack := stored_given (s := .s2467 r) ⟨d', hc, h, ok⟩

example : StoredAs exEnv true ex2467.dict ex2467.readBack ex2467.readBack := stored_given (DS2467.given _ _ _ ex2467_ok)

end Verif
