import Verif.Lemmas.Crlf6
import Verif.Props.Fix58b
import Verif.Props.RoundTrip
/-
Properties C43 and C44: files whose lines end with CR LF, and writing on Windows.
-/
namespace Verif

/-! ### C43 -/

/-- In any file, the data-sets are found again when its lines end with CR LF: the same number of them, in the same order,
each with its own lines. -/
theorem C43_sets (f : Bytes) : sets (crlf f) = (sets f).map crlf ∧
    (World.new (some (crlf f))).getNSets.2 = (World.new (some f)).getNSets.2 := by
  refine ⟨sets_crlf f, ?_⟩
  rw [C01_count, C01_count]
  exact setCount_crlf f

theorem noCr_sets {f : Bytes} (h : NoCr f) : ∀ b ∈ sets f, NoCr b := by
  intro b hb c hc
  unfold sets at hb
  obtain ⟨k, -, rfl⟩ := List.mem_map.1 hb
  rw [setBytes_eq] at hc
  unfold blockBytes slice at hc
  exact h c (List.mem_of_mem_drop (List.mem_of_mem_take hc))

/-- They are reported with the same types. -/
theorem C43_types (f : Bytes) (h : NoCr f) :
    (World.new (some (crlf f))).getSetTypes.2 = (World.new (some f)).getSetTypes.2 := by
  rw [getSetTypes_new, getSetTypes_new, sets_crlf, List.map_map]
  exact List.map_congr_left fun b hb => blockType_crlf b (noCr_sets h b hb)

theorem readRange_count {f g : Bytes} (h : setCount f = setCount g) (sel : Sel) : readRange (objOf f) sel = readRange (objOf g) sel := by
  cases sel with
  | all => unfold readRange; rw [objOf_eq, objOf_eq, h]
  | one n => rfl
  | many l => rfl

theorem readSet_crlf (f : Bytes) (h : NoCr f) (header : Bool) (hs : ∀ b ∈ sets f, EolSafe header b) (n : Int) :
    readSet (crlf f) (objOf (crlf f)) n header = readSet f (objOf f) n header := by
  by_cases hn : n < 0 ∨ (setCount f : Int) ≤ n
  · rw [readSet_out f n hn, readSet_out (crlf f) n (by rw [setCount_crlf]; exact hn)]
  · obtain ⟨k, rfl⟩ : ∃ k : Nat, n = k := ⟨n.toNat, by omega⟩
    have hk : k < setCount f := by omega
    have hk' : k < setCount (crlf f) := by rw [setCount_crlf]; exact hk
    have hg := sets_getElem f k hk
    have hb : setBytes (crlf f) k = crlf (setBytes f k) := by
      have e := sets_getElem (crlf f) k hk'
      rw [sets_crlf, List.getElem?_map, hg] at e
      exact (Option.some.inj e).symm
    have hm : setBytes f k ∈ sets f := List.mem_of_getElem? hg
    rw [readSet_in f k hk, readSet_in (crlf f) k hk', hb, blockType_crlf _ (noCr_sets h _ hm)]
    exact readBlock_crlf _ (noCr_sets h _ hm) header (hs _ hm)

/-- Every `read_sets` call has the same outcome, value or error, on a file without carriage returns and on the same file
with CR LF line ends: for every selection and with or without the data, when the ends of the lines do not matter to any of
its data-sets (`EolSafe`).  The file itself need not come from pyuff. -/
theorem C43_read_partial (f : Bytes) (h : NoCr f) (header : Bool) (hs : ∀ b ∈ sets f, EolSafe header b) (sel : Sel) :
    ((World.new (some (crlf f))).readSets sel header).2 = ((World.new (some f)).readSets sel header).2 := by
  rw [readSets_new, readSets_new, readRange_count (setCount_crlf f),
    mapRes_congr _ fun n _ => readSet_crlf f h header hs n]

theorem noCr_flatMap {bs : List Bytes} (h : ∀ b ∈ bs, NoCr b) : NoCr (bs.flatMap closed) := by
  intro c hc
  obtain ⟨b, hb, hc⟩ := List.mem_flatMap.1 hc
  unfold closed at hc
  exact NoCr.append (h b hb) (by decide) c hc

/-- A file that pyuff writes from well-formed data-sets, none of them binary, can be converted to CR LF line ends: the
data-sets read back are the same. -/
theorem C43_written (e : Env) (mode : Text) (hm : lower mode = "add".toList) (fd : Bool) (ds : List Dict)
    (ss : List DataSet) (h : GivenAll e fd ds ss) (hs : ss ≠ []) (hb : ∀ s ∈ ss, ¬ s.Binary) (header : Bool) :
    ∃ f, ((World.new none).writeSets e mode fd ds).1.file = some f ∧ NoCr f ∧
      (∀ sel, ((World.new (some (crlf f))).readSets sel header).2 = ((World.new (some f)).readSets sel header).2) ∧
      ∃ out, ((World.new (some (crlf f))).readSets .all header).2 = .ok out ∧
        ReadsAs out (ss.map (if header then DataSet.headerBack else DataSet.readBack)) := by
  obtain ⟨bs, hbs, hsafe, hall⟩ := addAll_text h hb
  obtain ⟨_, _, hr⟩ := addAll_new h hs
  have hw := writeSets_add' (World.new none) e mode hm fd ds (h.ne hs)
  have hfile : ((World.new none).writeSets e mode fd ds).1.file = some (bs.flatMap closed) := by
    have h0 := hall (World.new none)
    rw [hw]
    rw [hr] at h0 ⊢
    exact congrArg some h0
  have hn : NoCr (bs.flatMap closed) := noCr_flatMap fun b hb => (hsafe b hb).1
  have hread := fun sel => C43_read_partial _ hn header (by rw [hbs.sets]; exact fun b hb => (hsafe b hb).2 header) sel
  refine ⟨_, hfile, hn, hread, ?_⟩
  rw [hread]
  exact blocks_read hbs header

/-- Six data-sets without binary values. -/
def exText : List Dict := [ex151.dict, ex164.dict, ex15.dict, (ex58 true exCplx (.ascii true)).dict, ex82.dict, ex2412.dict]
def exTextSets : List DataSet := [.s151 ex151, .s164 ex164, .s15 ex15, .s58 (ex58 true exCplx (.ascii true)), .s82 ex82,
  .s2412 ex2412]
theorem exText_given : GivenAll exEnv true exText exTextSets :=
  .cons (DS151.given _ _ _ ex151_ok) <| .cons (DS164.given _ _ _ ex164_ok) <| .cons (DS15.given _ _ _ ex15_ok) <|
  .cons (DS58.given _ _ _ (ex58_ok _ _ _ (.inr rfl)) (by intro _; simp [ex58]) (by intro le h; cases h)) <|
  .cons (DS82.given _ _ _ ex82_ok) <| .cons (DS2412.given _ _ _ ex2412_ok) .nil

example : GivenAll exEnv true exText exTextSets ∧ exTextSets ≠ [] ∧ ∀ s ∈ exTextSets, ¬ s.Binary := by
  refine ⟨exText_given, by simp [exTextSets], ?_⟩
  intro s hs
  simp only [exTextSets, List.mem_cons, List.not_mem_nil, or_false] at hs
  rcases hs with rfl | rfl | rfl | rfl | rfl | rfl <;> exact fun h => h

/-- A file of another program: a trace line, with a line of text before it. -/
def exForeign : Bytes := encode
  "made by hand\n    -1\n    82\n         1         3        30\ntrace\n         1         2         0\n    -1\n".toList
example : NoCr exForeign ∧ crlf exForeign ≠ exForeign ∧ sets exForeign ≠ [] ∧ ∀ b ∈ sets exForeign, EolSafe false b := by
  refine ⟨by decide +kernel, by decide +kernel, by rw [sets_fast]; decide +kernel, ?_⟩
  intro b hb
  have e : blockType b = 82 := by
    rw [sets_fast] at hb
    have key : ∀ b ∈ setsFast exForeign, blockType b = 82 := by decide +kernel
    exact key b hb
  exact EolSafe.other e (by decide) (by decide)

/-- A double whose representation has the byte 10 (about 1.5). -/
def fNL : F64 := ⟨false, 0x3FF800000000000A, by decide⟩

/-- Without the condition the claim fails: converting a file with binary values to CR LF damages them. -/
theorem C43_negation_binary :
    let r := (World.new none).writeSets exEnv "add".toList true [(ex58 true (.real [fNL, fA]) (.binary true)).dict]
    let f := r.1.file.getD []
    r.2.2 = .ok () ∧ NoCr f ∧ (World.new (some (crlf f))).getSetTypes.2 = [58] ∧
    entryOf "data" ((World.new (some f)).readSets .all false).2 = some (.arrF [fNL, fA]) ∧
    entryOf "data" ((World.new (some (crlf f))).readSets .all false).2 ≠ some (.arrF [fNL, fA]) := by
  decide +kernel

/-- A data-set 55 whose last column of data is two characters narrower than the others. -/
def exNarrow55 : Bytes := encode <| String.toList <|
  "    -1\n    55\nNONE\nNONE\nNONE\nNONE\nNONE\n" ++
  "         1         2         2         8         2         3\n" ++
  "         2         4         1         1\n" ++
  "  1.00000e+00  0.00000e+00  0.00000e+00  0.00000e+00\n" ++
  "         1\n  1.00000e+00  2.00000e+00 3.0000e+00\n" ++
  "         2\n  4.00000e+00  5.00000e+00 6.0000e+00\n    -1\n"

/-- And so does it for data of another program in columns that are not 13 wide: with LF line ends the values of the third
column are skipped and the others get mixed up (the second value of the first node becomes `r2` of it, but the first value
of the second node becomes its `r3`), with CR LF line ends all values are read. -/
theorem C43_negation_55 : NoCr exNarrow55 ∧
    entryOf "r1" ((World.new (some exNarrow55)).readSets .all false).2 = some (.arrF [F64.ofInt 1, F64.ofInt 5]) ∧
    entryOf "r3" ((World.new (some exNarrow55)).readSets .all false).2 = some (.arrF [F64.ofInt 4]) ∧
    entryOf "r1" ((World.new (some (crlf exNarrow55))).readSets .all false).2 = some (.arrF [F64.ofInt 1, F64.ofInt 4]) ∧
    entryOf "r3" ((World.new (some (crlf exNarrow55))).readSets .all false).2 = some (.arrF [F64.ofInt 3, F64.ofInt 6]) := by
  decide +kernel

/-! ### C44 -/

theorem fileAfterWin_text (over : Bool) (file : Option Bytes) (r : WRes (Option Bytes)) (h : ∀ p, r.res ≠ .ok (some p)) :
    fileAfterWin over (file.map crlf) r = crlf (fileAfter over file r) := by
  unfold fileAfterWin fileAfter
  have e : (if over = true then [] else (Option.map crlf file).getD []) = crlf (if over = true then [] else file.getD []) := by
    cases over <;> cases file <;> rfl
  rw [e]
  rcases hr : r.res with x | _ | p
  · simp only; rw [winText_eq, crlf_append]
  · simp only; rw [winText_eq, crlf_append]
  · exact absurd hr (h p)

theorem writeSetWin_text (w v : World) (hv : v.file = w.file.map crlf) (e : Env) (fd over : Bool) (d : Dict) (h : NotBinary d) :
    (v.writeSetWin e fd over d).1.file = (w.writeSet e fd over d).1.file.map crlf ∧
    (v.writeSetWin e fd over d).2 = (w.writeSet e fd over d).2 := by
  have hf := fileAfterWin_text over w.file (writeBody e fd d) (writeBody_text e fd d h)
  unfold World.writeSetWin World.writeSet
  dsimp only
  rw [hv, hf]
  rcases (writeBody e fd d).res with x | a
  · exact ⟨rfl, rfl⟩
  · exact ⟨rfl, rfl⟩

theorem addAllWin_text (w v : World) (hv : v.file = w.file.map crlf) (e : Env) (fd : Bool) (ds : List Dict)
    (h : ∀ d ∈ ds, NotBinary d) :
    (v.addAllWin e fd ds).1.file = (w.addAll e fd ds).1.file.map crlf ∧
    (v.addAllWin e fd ds).2 = (w.addAll e fd ds).2 := by
  induction ds generalizing w v e with
  | nil => exact ⟨hv, rfl⟩
  | cons d ds ih =>
    obtain ⟨h1, h2⟩ := writeSetWin_text w v hv e fd false d (h d (List.mem_cons_self ..))
    unfold World.addAllWin World.addAll
    generalize v.writeSetWin e fd false d = a at h1 h2 ⊢
    generalize w.writeSet e fd false d = b at h1 h2 ⊢
    obtain ⟨v', d', r'⟩ := a
    obtain ⟨w', d2, r2⟩ := b
    cases h2
    rcases r' with x | u
    · exact ⟨h1, rfl⟩
    · obtain ⟨h3, h4⟩ := ih w' v' h1 e.next fun x hx => h x (List.mem_cons_of_mem _ hx)
      simp only
      rw [h4]
      exact ⟨h3, rfl⟩

/-- Writing data-sets that do not ask for binary values on Windows, to a file with CR LF line ends, does the same as writing
them elsewhere to the file with LF line ends: the same outcome, the same dictionaries, and the same file with CR LF line
ends.  Nothing is assumed about the dictionaries: the write may fail half-way. -/
theorem C44_text (w v : World) (hv : v.file = w.file.map crlf) (e : Env) (mode : Text) (fd : Bool) (ds : List Dict)
    (h : ∀ d ∈ ds, NotBinary d) :
    (v.writeSetsWin e mode fd ds).1.file = (w.writeSets e mode fd ds).1.file.map crlf ∧
    (v.writeSetsWin e mode fd ds).2 = (w.writeSets e mode fd ds).2 := by
  cases ds with
  | nil => exact ⟨hv, rfl⟩
  | cons d ds =>
    have hrest : ∀ x ∈ ds, NotBinary x := fun x hx => h x (List.mem_cons_of_mem _ hx)
    unfold World.writeSetsWin World.writeSets
    by_cases ho : lower mode = "overwrite".toList
    · simp only [if_pos ho]
      obtain ⟨h1, h2⟩ := writeSetWin_text w v hv e fd true d (h d (List.mem_cons_self ..))
      generalize v.writeSetWin e fd true d = a at h1 h2 ⊢
      generalize w.writeSet e fd true d = b at h1 h2 ⊢
      obtain ⟨v', d', r'⟩ := a
      obtain ⟨w', d2, r2⟩ := b
      cases h2
      rcases r' with x | u
      · exact ⟨h1, rfl⟩
      · obtain ⟨h3, h4⟩ := addAllWin_text w' v' h1 e.next fd ds hrest
        simp only
        rw [h4]
        exact ⟨h3, rfl⟩
    · simp only [if_neg ho]
      by_cases ha : lower mode = "add".toList
      · simp only [if_pos ha]
        exact addAllWin_text w v hv e fd _ h
      · simp only [if_neg ha]
        exact ⟨hv, trivial⟩

example : ∀ d ∈ exText, NotBinary d := by
  intro d hd
  simp only [exText, List.mem_cons, List.not_mem_nil, or_false] at hd
  rcases hd with rfl | rfl | rfl | rfl | rfl | rfl
  · exact .inl ⟨_, rfl, by decide⟩
  · exact .inl ⟨_, rfl, by decide⟩
  · exact .inl ⟨_, rfl, by decide⟩
  · exact .inr (.inr (.inl rfl))
  · exact .inl ⟨_, rfl, by decide⟩
  · exact .inl ⟨_, rfl, by decide⟩

theorem writeSetsWin_add (w : World) (e : Env) (mode : Text) (hm : lower mode = "add".toList) (fd : Bool) (ds : List Dict)
    (h : ds ≠ []) : w.writeSetsWin e mode fd ds = w.addAllWin e fd ds := by
  obtain ⟨d, ds, rfl⟩ := List.exists_cons_of_ne_nil h
  unfold World.writeSetsWin
  simp only
  rw [if_neg (by rw [hm]; decide), if_pos hm]

/-- On Windows, appending `N ≥ 1` well-formed data-sets, binary ones too, to a file of complete data-sets (or to no file)
succeeds and adds exactly `N` data-sets of the right types; the object knows the file as a new object would. -/
theorem C44_counting (w : World) (e : Env) (mode : Text) (hm : lower mode = "add".toList) (fd : Bool) (ds : List Dict)
    (ss : List DataSet) (h : GivenAll e fd ds ss) (hs : ss ≠ []) (ht : Terminated (w.file.getD []))
    (hb : Balanced (w.file.getD [])) :
    let w' := (w.writeSetsWin e mode fd ds).1
    (w.writeSetsWin e mode fd ds).2.2 = .ok () ∧
    w'.getNSets.2 = setCount (w.file.getD []) + ss.length ∧
    w'.getSetTypes.2 = (World.new (some (w.file.getD []))).getSetTypes.2 ++ ss.map DataSet.num ∧
    Terminated (w'.file.getD []) ∧ Balanced (w'.file.getD []) ∧ w' = World.new w'.file := by
  intro w'
  have hne := h.ne hs
  obtain ⟨bs, hbs, hall⟩ := addAllWin_given h
  obtain ⟨h1, h2, h3⟩ := hall w
  have hw' : w' = World.new (some (w.file.getD [] ++ bs.flatMap closedWin)) := by
    show (w.writeSetsWin e mode fd ds).1 = _
    rw [writeSetsWin_add w e mode hm fd ds hne]
    exact h3 hne ht hb
  refine ⟨by rw [writeSetsWin_add w e mode hm fd ds hne]; exact h1, ?_, ?_, ?_, ?_, ?_⟩
  · rw [hw', C01_count]
    show setCount _ = _
    rw [← sets_length, sets_append _ _ ht hb, List.length_append, sets_length, hbs.sets, hbs.length]
  · rw [hw', getSetTypes_new, getSetTypes_new, sets_append _ _ ht hb, List.map_append, hbs.sets, hbs.types]
  · rw [hw']; exact terminated_append _ _ ht hbs.terminated
  · rw [hw']; exact balanced_append _ _ ht hb hbs.balanced
  · rw [hw']; rfl

/-- On Windows, well-formed data-sets, binary ones too, are read back as they are elsewhere: nothing is lost by CR LF line
ends around binary values. -/
theorem C44_roundtrip (e : Env) (mode : Text) (hm : lower mode = "add".toList) (fd : Bool) (ds : List Dict)
    (ss : List DataSet) (h : GivenAll e fd ds ss) (hs : ss ≠ []) (header : Bool) :
    let r := (World.new none).writeSetsWin e mode fd ds
    r.2.2 = .ok () ∧ ∃ out, (r.1.readSets .all header).2 = .ok out ∧
      ReadsAs out (ss.map (if header then DataSet.headerBack else DataSet.readBack)) := by
  intro r
  obtain ⟨bs, hbs, hall⟩ := addAllWin_given h
  obtain ⟨h1, h2, h3⟩ := hall (World.new none)
  have hr : r = (World.new none).addAllWin e fd ds := writeSetsWin_add _ e mode hm fd ds (h.ne hs)
  have h4 : ((World.new none).addAllWin e fd ds).1 = World.new (some (bs.flatMap closedWin)) :=
    h3 (h.ne hs) (.inl rfl) (by unfold Balanced; decide)
  rw [hr]
  refine ⟨h1, ?_⟩
  rw [h4, readSets_new, readAll_eq, hbs.sets]
  cases header
  · rw [hbs.read]; exact ⟨_, rfl, readsAs_unwrap _⟩
  · rw [hbs.readHeader]; exact ⟨_, rfl, readsAs_unwrap _⟩

/-- The data-sets that a file holds already, with whatever line ends, are kept when others are added on Windows. -/
theorem C44_append (f : Bytes) (e : Env) (mode : Text) (hm : lower mode = "add".toList) (fd : Bool) (ds : List Dict)
    (ss : List DataSet) (h : GivenAll e fd ds ss) (hs : ss ≠ []) (ht : Terminated f) (hb : Balanced f) (w : World)
    (hw : w.file.getD [] = f) (old : List Dict) :
    (∃ out, ((World.new (some f)).readSets .all false).2 = .ok out ∧ ReadsAs out old) →
    ∃ out, ((w.writeSetsWin e mode fd ds).1.readSets .all false).2 = .ok out ∧
      ReadsAs out (old ++ ss.map DataSet.readBack) := by
  rintro ⟨out, ho, hout⟩
  have hne := h.ne hs
  obtain ⟨bs, hbs, hall⟩ := addAllWin_given h
  obtain ⟨h1, h2, h3⟩ := hall w
  rw [hw] at h3
  rw [writeSetsWin_add w e mode hm fd ds hne, h3 hne ht hb]
  rw [readSets_new, readAll_eq] at ho
  rw [readSets_new, readAll_eq, sets_append f _ ht hb, hbs.sets, mapRes_split, hbs.read]
  cases hr : mapRes (fun b => readBlock (blockType b) false b) (sets f) with
  | error x => rw [hr] at ho; cases ho
  | ok l =>
    rw [hr] at ho
    cases ho
    have hl : l = old := by
      rcases hout with ⟨d, rfl, h⟩ | ⟨h', h⟩
      · match l with
        | [] => cases h
        | [a] => cases h; rfl
        | a :: b :: r => cases h
      · match l with
        | [] => cases h; rfl
        | [a] => cases h
        | a :: b :: r => cases h; rfl
    subst hl
    exact ⟨_, rfl, readsAs_unwrap _⟩

example : GivenAll exEnv true exDicts exSets ∧ exSets ≠ [] ∧ (∃ s ∈ exSets, s.Binary) ∧ Terminated exForeign ∧
    Balanced exForeign := by
  refine ⟨ex_givenAll, by simp [exSets], ⟨.s58 (ex58 false exReal (.binary true)), by simp [exSets], trivial⟩,
    ?_, ?_⟩
  · right; decide +kernel
  · unfold Balanced; rw [delims_eq]; decide +kernel

end Verif
