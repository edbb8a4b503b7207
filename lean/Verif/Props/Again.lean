import Verif.Lemmas.Again4
import Verif.Props.RoundTrip
/-
Property C41: saving again what was read changes nothing.
-/
namespace Verif
open F64

theorem given_again {e e' : Env} {fd : Bool} {d : Dict} {s : DataSet} (h : Given e fd d s) (l : s.Lasting)
    (he : e'.little = e.little) : Given e' fd s.readBack s.again ∧ s.again.readBack = s.readBack := by
  obtain ⟨d', -, rep, ok⟩ := h
  cases s with
  | s15 r => exact r.resave e' fd ok
  | s18 r => exact r.resave e' fd ok l
  | s55 r => exact r.resave e' fd ok l
  | s58 r =>
    have hs : DS58.StoreRep d' e.little fd r := rep.store
    unfold DS58.StoreRep at hs
    refine r.resave e' fd ok l (fun hf hc => ?_) fun le hle => ?_
    · rw [hc, hf] at hs
      have := hs.2
      rw [if_pos rfl] at this
      cases this
    · rw [hle] at hs
      rw [he]; exact hs.2.1
  | s82 r => exact r.resave e' fd ok l
  | s151 r => exact r.resave e' fd ok l
  | s164 r => exact r.resave e' fd ok
  | s1858 r => exact r.resave e' fd ok
  | s2400 r => exact r.resave e' fd ok
  | s2411 r => exact ⟨r.resave e' fd ok, rfl⟩
  | s2412 r => exact r.resave e' fd ok
  | s2414 r => exact r.resave e' fd ok l
  | s2420 r => exact r.resave e' fd ok l
  | s2429 r => exact l.elim
  | s2467 r => exact r.resave e' fd ok

theorem givenAll_again {e : Env} {fd : Bool} {ds : List Dict} {ss : List DataSet} (h : GivenAll e fd ds ss)
    (l : ∀ s ∈ ss, s.Lasting) (e' : Env) (he : e'.little = e.little) :
    GivenAll e' fd (ss.map DataSet.readBack) (ss.map DataSet.again) ∧
    (ss.map DataSet.again).map DataSet.readBack = ss.map DataSet.readBack := by
  induction h generalizing e' with
  | nil => exact ⟨.nil, rfl⟩
  | @cons e fd d s ds ss g _ ih =>
    obtain ⟨h1, h2⟩ := ih (fun t ht => l t (by simp [ht])) e'.next he
    obtain ⟨g1, g2⟩ := given_again g (l s (by simp)) he
    refine ⟨.cons g1 h1, ?_⟩
    rw [List.map_cons, List.map_cons, List.map_cons, h2, g2]

/-- Saving again: lasting data-sets are written to a new file; `read_sets()` returns dictionaries `l`.  Writing `l` to a
new file, at any later time on a machine of the same byte order, succeeds, and `read_sets()` returns `l` again.  So
however often a file is read and saved, nothing changes after the first time. -/
theorem C41_again (e : Env) (fd : Bool) (ds : List Dict) (ss : List DataSet) (h : GivenAll e fd ds ss) (hs : ss ≠ [])
    (hl : ∀ s ∈ ss, s.Lasting) :
    ∃ out l, (((World.new none).writeSets e "add".toList fd ds).1.readSets .all false).2 = .ok out ∧ ReadsAs out l ∧
    ∀ e', e'.little = e.little →
      ((World.new none).writeSets e' "add".toList fd l).2.2 = .ok () ∧
      (((World.new none).writeSets e' "add".toList fd l).1.readSets .all false).2 = .ok out := by
  obtain ⟨-, out, h1, h2⟩ := C05_roundtrip e "add".toList (by decide) fd ds ss h hs false
  refine ⟨out, ss.map DataSet.readBack, h1, h2, fun e' he => ?_⟩
  obtain ⟨g1, g2⟩ := givenAll_again h hl e' he
  obtain ⟨k1, out', k2, k3⟩ := C05_roundtrip e' "add".toList (by decide) fd _ _ g1 (by simpa using hs) false
  refine ⟨k1, ?_⟩
  rw [k2]
  simp only [Bool.false_eq_true, if_false] at h2 k3
  rw [g2] at k3
  generalize ss.map DataSet.readBack = m at h2 k3
  rcases h2 with ⟨a, ha, rfl⟩ | ⟨hn, rfl⟩ <;> rcases k3 with ⟨b, hb, rfl⟩ | ⟨hn', rfl⟩
  · rw [ha] at hb; cases hb; rfl
  · rw [ha] at hn'; exact absurd rfl hn'
  · rw [hb] at hn; exact absurd rfl hn
  · rfl

/-- A data-set 58 with an even abscissa that starts at `0.0` is lasting when it has two points. -/
theorem C41_from_zero (r : DS58) (ok : r.Ok) (he : r.even = true) (h0 : r.x0 = F64.zero) (h1 : NotNegZero r.x1)
    (ho : DS58.OrdLasting r.ord) (h2 : 2 ≤ r.count) (hf : ∀ x ∈ r.xBack, x.finite = true) : r.Lasting := by
  have hx1 : r.x1.finite = true := ok.xs _ (by simp [DS58.abscissaVals])
  have sub0 : ∀ x : F64, x.finite = true → x.sub F64.zero = x := by
    intro x hx
    have e : x.sub F64.zero = x.add (sz true) := rfl
    rw [e, add_sz x true hx, Bool.and_true]
    split
    next h => exact F64.ext' rfl h.symm
    next => rfl
  have hm : r.min = F64.zero := by unfold DS58.min; rw [if_pos he, h0]
  have hi : r.inc = r.x1 := by unfold DS58.inc; rw [if_pos he, h0, sub0 _ hx1]
  have hq := quant_finite_5 r.x1 hx1
  have e0 : r.again.x0 = F64.zero := by
    show r.xBack[0]?.getD F64.zero = _
    unfold DS58.xBack
    obtain ⟨k, hk⟩ : ∃ k, r.count = k + 1 := ⟨r.count - 1, by omega⟩
    rw [if_pos he, hk, List.range_succ_eq_map, List.map_cons]
    simp only [List.getElem?_cons_zero, Option.getD_some]
    rw [DS58.ofNat_zero, hi, hm, sz_mul _ hq, quant_zero', add_sz _ _ (by decide)]
    rfl
  have e1 : r.again.x1 = r.x1.quant 5 := by
    show r.xBack[1]?.getD F64.zero = _
    unfold DS58.xBack
    obtain ⟨k, hk⟩ : ∃ k, r.count = k + 2 := ⟨r.count - 2, by omega⟩
    rw [if_pos he, hk, List.range_succ_eq_map, List.range_succ_eq_map]
    simp only [List.map_cons, List.getElem?_cons_zero, List.getElem?_cons_succ, Option.getD_some]
    have o : F64.ofNat (Nat.succ 0) = F64.one := by decide +kernel
    rw [o, one_mul' _ (by rw [hi]; exact hq), hi, hm, quant_zero']
    rw [show F64.zero = sz false from rfl, sz_add _ hq]
    split
    next h =>
      exact F64.ext' (notNegZero_quant 5 (by decide) (by decide) r.x1 h1 hq h).symm h.symm
    next => rfl
  have ei : r.again.inc = r.x1.quant 5 := by
    unfold DS58.inc
    rw [show r.again.even = true from he, if_pos rfl, e0, e1, sub0 _ hq]
  exact { ord := ho, start := fun _ => .inl (by rw [h0]; intro _; rfl), two := h2, finite := hf,
          stepFinite := by rw [e0, e1, sub0 _ hq]; exact hq,
          step := by rw [ei, hi, quant5 hx1] }

/-- A data-set 58 with an uneven abscissa stored in binary is lasting. -/
theorem C41_binary (r : DS58) (ok : r.Ok) (le : Bool) (he : r.even = false) (hs : r.store = .binary le)
    (ho : DS58.OrdLasting r.ord) (h2 : 2 ≤ r.count) : r.Lasting := by
  have hb : r.xBack = r.abscissaVals := by
    unfold DS58.xBack
    rw [if_neg (by simp [he]), hs]
    show r.abscissaVals.map (fun x => x) = _
    rw [List.map_id']
  have e0 : r.again.x0 = r.x0 := by show r.xBack[0]?.getD F64.zero = _; rw [hb]; rfl
  have e1 : r.again.x1 = r.x1 := by show r.xBack[1]?.getD F64.zero = _; rw [hb]; rfl
  have ei : r.again.inc = r.inc := by
    unfold DS58.inc
    rw [show r.again.even = r.even from rfl, e0, e1]
  exact { ord := ho, start := (by rw [he]; intro h; cases h), two := h2, finite := by rw [hb]; exact ok.xs,
          stepFinite := by rw [e0, e1]; exact ok.dx, step := by rw [ei] }

/-- Data-sets of eight types, with data-sets 58 of both kinds. -/
example : GivenAll exEnv true exDicts exSets ∧ exSets ≠ [] ∧ ∀ s ∈ exSets, s.Lasting := by
  refine ⟨ex_givenAll, by simp [exSets], fun s hs => ?_⟩
  simp only [exSets, List.mem_cons, List.not_mem_nil, or_false] at hs
  rcases hs with rfl | rfl | rfl | rfl | rfl | rfl | rfl | rfl
  · show DS151.number _ ≠ _; decide +kernel
  · trivial
  · trivial
  · exact C41_from_zero _ (ex58_ok _ _ _ (.inr rfl)) rfl rfl (fun h => absurd h (by decide))
      (by
        intro z hz
        simp only [List.mem_cons, List.not_mem_nil, or_false] at hz
        rcases hz with rfl | rfl | rfl <;> exact .inl fun h => absurd h (by decide))
      (by decide) (by decide +kernel)
  · intro h; exact absurd h (by decide)
  · trivial
  · exact C41_binary _ (ex58_ok _ _ _ (.inl rfl)) true rfl rfl trivial (by decide)
  · trivial

/-! Counterexamples for data-sets that are not lasting. -/

/-- The value of a key in the only dictionary returned by `read_sets()`, after writing `d`; what `write_sets` returns when
that dictionary is written to a new file; and the value of the key when the new file is read. -/
def resaved (k : Key) (d : Dict) : Option Val × Res Unit × Option Val :=
  let first := (((World.new none).writeSets exEnv "add".toList true [d]).1.readSets .all false).2
  match first with
  | .ok (.single d') =>
    let w := (World.new none).writeSets exEnv "add".toList true [d']
    (entryOf k first, w.2.2, entryOf k (w.1.readSets .all false).2)
  | _ => (none, .ok (), none)

/-- `-0.0`. -/
def fNegZero : F64 := ⟨true, 0, by decide⟩

theorem ok58 (x0 x1 : F64) (even : Bool) (o : Ord58) (d : Bool) (hx : x0.finite = true) (hy : x1.finite = true)
    (hd : (x1.sub x0).finite = true) (hn : 0 < (DS58.count { ex58 even o (.ascii d) with x0 := x0, x1 := x1, xs := [] }))
    (hc : (DS58.count { ex58 even o (.ascii d) with x0 := x0, x1 := x1, xs := [] }) < 10 ^ 10)
    (he : even = false → (DS58.count { ex58 even o (.ascii d) with x0 := x0, x1 := x1, xs := [] }) = 2)
    (ho : DS58.OrdOk o) : DS58.Ok { ex58 even o (.ascii d) with x0 := x0, x1 := x1, xs := [] } :=
  { id1 := (ex58_ok true exReal (.ascii true) (.inl rfl)).id1
    id2 := (ex58_ok true exReal (.ascii true) (.inl rfl)).id2
    id3 := (ex58_ok true exReal (.ascii true) (.inl rfl)).id3
    id4 := (ex58_ok true exReal (.ascii true) (.inl rfl)).id4
    id5 := (ex58_ok true exReal (.ascii true) (.inl rfl)).id5
    func := (ex58_ok true exReal (.ascii true) (.inl rfl)).func
    funcId := (ex58_ok true exReal (.ascii true) (.inl rfl)).funcId
    ver := (ex58_ok true exReal (.ascii true) (.inl rfl)).ver
    load := (ex58_ok true exReal (.ascii true) (.inl rfl)).load
    rspName := (ex58_ok true exReal (.ascii true) (.inl rfl)).rspName
    rspNode := (ex58_ok true exReal (.ascii true) (.inl rfl)).rspNode
    rspDir := (ex58_ok true exReal (.ascii true) (.inl rfl)).rspDir
    refName := (ex58_ok true exReal (.ascii true) (.inl rfl)).refName
    refNode := (ex58_ok true exReal (.ascii true) (.inl rfl)).refNode
    refDir := (ex58_ok true exReal (.ascii true) (.inl rfl)).refDir
    zValue := (ex58_ok true exReal (.ascii true) (.inl rfl)).zValue
    abscissa := exAxis_ok, ordinate := exAxis_ok, orddenom := exAxis_ok, zAxis := exAxis_ok
    pos := hn, count := hc
    xs := by
      intro x h
      simp only [DS58.abscissaVals, List.mem_cons, List.not_mem_nil, or_false] at h
      rcases h with rfl | rfl <;> assumption
    dx := hd
    length := fun h => (he h).symm
    ord := ho
    store := trivial }

theorem given58 (x0 x1 : F64) (even : Bool) (o : Ord58)
    (ok : DS58.Ok { ex58 even o (.ascii true) with x0 := x0, x1 := x1, xs := [] }) :
    Given exEnv true (DS58.dict { ex58 even o (.ascii true) with x0 := x0, x1 := x1, xs := [] })
      (.s58 { ex58 even o (.ascii true) with x0 := x0, x1 := x1, xs := [] }) :=
  DS58.given _ _ _ ok (by intro _ h; cases h) (by intro le h; cases h)

/-- The complex number `-0.0-0.0j` is read as `-0.0+0.0j` and then as `0.0+0.0j`. -/
theorem C41_negation_zeros : ∃ d s, Given exEnv true d s ∧
    resaved "data" d = (some (.arrC [(fNegZero, F64.zero), (fA, fA)]), .ok (),
      some (.arrC [(F64.zero, F64.zero), (fA, fA)])) :=
  ⟨_, _, given58 F64.zero fC true (.cplx [(fNegZero, fNegZero), (fA, fA)]) (ok58 _ _ _ _ _ (by decide) (by decide)
    (by decide +kernel) (by decide) (by decide) (by intro h; cases h) (by
      intro z hz
      simp only [List.mem_cons, List.not_mem_nil, or_false] at hz
      rcases hz with rfl | rfl <;> exact ⟨by decide, by decide⟩)), by decide +kernel⟩

theorem exA_ok : DS58.OrdOk (.real [fA]) := by
  intro z hz; rw [List.mem_singleton.1 hz]; decide
theorem exAB_ok : DS58.OrdOk (.real [fA, fB]) := by
  intro z hz
  simp only [List.mem_cons, List.not_mem_nil, or_false] at hz
  rcases hz with rfl | rfl <;> decide

/-- A response of one point is written and read, and what was read cannot be written. -/
theorem C41_negation_point : ∃ d s x, Given exEnv true d s ∧ (resaved "data" d).1 = some (.arrF [fA]) ∧
    (resaved "data" d).2.1 = .error x :=
  ⟨_, _, .writing 58, given58 F64.zero fC true (.real [fA]) (ok58 _ _ _ _ _ (by decide) (by decide)
    (by decide +kernel) (by decide) (by decide) (by intro h; cases h) exA_ok), by decide +kernel, by decide +kernel⟩

/-- The double below 1024. -/
def fBelow : F64 := ⟨false, 0x408FFFFFFFFFFFFF, by decide⟩
/-- The double 1024. -/
def f1024 : F64 := ⟨false, 0x4090000000000000, by decide⟩

/-- The increment of an even abscissa grows: the abscissa `1024 - 2^-43`, `1024` is read with an increment of
`1.13687e-13`, and saving that again gives `2.27374e-13`. -/
theorem C41_negation_step : ∃ d s a b, Given exEnv true d s ∧
    resaved "abscissa_inc" d = (some (.float a), .ok (), some (.float b)) ∧ fmtE 5 a = "1.13687e-13".toList ∧
    fmtE 5 b = "2.27374e-13".toList :=
  ⟨_, _, ⟨false, 0x3d4000017f2b43a1, by decide⟩, ⟨false, 0x3d5000017f2b43a1, by decide⟩,
    given58 fBelow f1024 true (.real [fA, fB]) (ok58 _ _ _ _ _ (by decide) (by decide)
    (by decide +kernel) (by decide) (by decide) (by intro h; cases h) exAB_ok), by decide +kernel, by decide +kernel,
    by decide +kernel⟩

theorem bad82_ok : bad82.Ok where
  trace := by decide
  color := by decide
  color1 := by decide
  runs := by decide
  id := ex82_ok.id
  nodes := by decide

/-- A trace line of which a node was dropped: the number of nodes changes. -/
theorem C41_negation_trace : ∃ d s, Given exEnv true d s ∧
    resaved "n_nodes" d = (some (.int 8), .ok (), some (.int 7)) :=
  ⟨_, _, DS82.given _ _ bad82 bad82_ok, by decide +kernel⟩

/-- The file type `-01` is read as `-1`; saved again it ends its line like a delimiter, and the file cannot be read. -/
theorem C41_negation_type : ∃ d s, Given exEnv true d s ∧ ∃ x d',
    (((World.new none).writeSets exEnv "add".toList true [d]).1.readSets .all false).2 = .ok (.single d') ∧
    let v := (World.new none).writeSets exEnv "add".toList true [d']
    v.2.2 = .ok () ∧ (v.1.readSets .all false).2 = .error x := by
  refine ⟨_, _, DS151.given _ _ { ex151 with fileType := "-01".toList } (by constructor <;> decide +kernel),
    .exc "Error when reading data-set(s).", DS151.readBack { ex151 with fileType := "-01".toList }, ?_, ?_⟩ <;> decide +kernel

/-- A part whose name is 80 blanks followed by `    -1 ` loses its name the second time. -/
theorem C41_negation_part : ∃ d s, Given exEnv true d s ∧
    resaved "Part_Name" d = (some (.str (List.replicate 80 ' ' ++ "    -1".toList)), .ok (), some (.str "".toList)) := by
  refine ⟨_, _, DS2420.given _ _ { ex2420 with name := (List.replicate 80 ' ' ++ "    -1 ".toList) } ?_, ?_⟩
  · exact ⟨ex2420_ok.uid, ex2420_ok.uid1, by decide, by decide +kernel, ex2420_ok.systems⟩
  · decide +kernel

/-- Two coordinate systems, the first with a long name. -/
def long18 : DS18 := ⟨[⟨1, 0, 0, 8, 1, "A name of more than forty characters ends with    -1 ".toList, exPt, exPt, exPt⟩,
  ⟨2, 1, 1, -1, 1, "left wing".toList, exPt, exPt, exPt⟩]⟩

/-- A name of more than 40 characters: the coordinate systems after it are lost the second time. -/
theorem C41_negation_name : ∃ d s, Given exEnv true d s ∧
    resaved "cs_num" d = (some (.arrF [F64.ofInt 1, F64.ofInt 2]), .ok (), some (.arrF [F64.ofInt 1])) := by
  refine ⟨_, _, DS18.given _ _ long18 ?_, by decide +kernel⟩
  intro n hn
  simp only [long18, List.mem_cons, List.not_mem_nil, or_false] at hn
  rcases hn with rfl | rfl <;> exact ⟨by decide, by decide, by decide, by decide, by decide, by decide,
    by decide +kernel, by decide +kernel, exPt_finite, exPt_finite, exPt_finite⟩

/-- The data of a frequency response whose data type is 2 are not read, so that it cannot be saved again. -/
theorem C41_negation_freq : ∃ d s x, Given exEnv true d s ∧ (resaved "analysis_type" d).1 = some (.int 5) ∧
    (resaved "analysis_type" d).2.1 = .error x := by
  have ok := exFreq_ok
  refine ⟨_, _, .writing 2414, DS2414.given _ _ { ex2414 exFreq with dtype := 2 } ?_, ?_, ?_⟩
  · exact ⟨ok.label, ok.label1, ok.name, ok.loc, ok.loc1, ok.id1, ok.id2, ok.id3, ok.id4, ok.id5, ok.model, ok.analysis,
      ok.ch, ok.result, show Fits 10 2 by decide, ok.comps, ok.comps1, ok.body⟩
  all_goals decide +kernel

end Verif
