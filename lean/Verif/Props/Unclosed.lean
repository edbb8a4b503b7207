import Verif.Lemmas.Unclosed
import Verif.Props.Writing
/-
C30: results at location 5 are written without their closing delimiter.
-/
namespace Verif

theorem none_run {m : W Unit} {d o : Dict} {t : Text} (h : m d = ⟨t, o, .ok ()⟩) :
    (W.none m d : WRes (Option Bytes)) = ⟨t, o, .ok Option.none⟩ := by
  unfold W.none
  rw [h]
  rfl

/-- Results that fit the format, except that they are at location 5 (`/repo/pyuff/datasets/dataset_2414.py:700-703`).  The
call succeeds and the file grows, yet it has the same data-sets as before; and of the data-sets that are appended
afterwards, all successfully, none is found: the first one is taken for the end of these results, and the delimiters of
all others are paired the wrong way round. -/
theorem C30_location5 (w : World) (e : Env) (mode : Text) (hm : lower mode = "add".toList) (fd : Bool) (d d' : Dict)
    (r : DS2414) (a c : Int) (hd : PlainHead) (hc : CleanD d d') (h : DS2414.Rep d' { r with body := .plain a c hd (.other 5) })
    (ok : DS2414.Ok { r with body := .plain a c hd (.other 4) })
    (ht : Terminated (w.file.getD [])) (hb : Balanced (w.file.getD [])) :
    (w.writeSets e mode fd [d]).2.2 = .ok () ∧
    ∃ part, part ≠ [] ∧ (w.writeSets e mode fd [d]).1.file = some (w.file.getD [] ++ part) ∧
      sets (w.file.getD [] ++ part) = sets (w.file.getD []) ∧
      (World.new (w.writeSets e mode fd [d]).1.file).getNSets.2 = setCount (w.file.getD []) ∧
      ∀ (e2 : Env) (fd2 : Bool) (ds : List Dict) (ss : List DataSet), GivenAll e2 fd2 ds ss → ss ≠ [] →
        ((w.writeSets e mode fd [d]).1.writeSets e2 mode fd2 ds).2.2 = .ok () ∧
        ∃ f', ((w.writeSets e mode fd [d]).1.writeSets e2 mode fd2 ds).1.file = some f' ∧
          sets f' = sets (w.file.getD []) ++ part :: List.replicate (ss.length - 1) (delimBytes ++ [10]) := by
  have hw := DS2414.write5_eq d' r a c hd h ok
  have hbody : writeBody e fd d = ⟨blockText (r.atLocation a c hd 5).lines, optFields d' opt2414, .ok Option.none⟩ := by
    have hdis : writeDispatch e fd (.int 2414) = W.none write2414 := rfl
    rw [writeBody_eq hc h.type, hdis]
    exact none_run hw
  have hdl := block_delims (DS2414.safe5 r a c hd ok)
  have hres : (writeBody e fd d).res = .ok Option.none := by rw [hbody]
  have hout : (w.writeSets e mode fd [d]).2.2 = .ok () := by
    rw [writeSets_add w e mode hm, addAll_cons_ok hres]
    rfl
  have hfile : (w.writeSets e mode fd [d]).1.file =
      some (w.file.getD [] ++ encode (blockText (r.atLocation a c hd 5).lines)) := by
    rw [writeSets_add w e mode hm, addAll_cons_ok hres]
    show (w.writeSet e fd false d).1.file = _
    rw [(writeSet_file w e fd false d).1, fileAfter_add, hbody]
    rfl
  have hsets : sets (w.file.getD [] ++ encode (blockText (r.atLocation a c hd 5).lines)) = sets (w.file.getD []) := by
    rw [sets_append _ _ ht hb, sets_eq (encode _), hdl]
    simp [pairUp]
  refine ⟨hout, _, ?_, hfile, hsets, ?_, ?_⟩
  · intro h0
    rw [h0] at hdl
    exact absurd hdl (by decide)
  · rw [hfile]
    refine (C01_count _).trans ?_
    show setCount _ = _
    rw [← sets_length, hsets, sets_length]
  · intro e2 fd2 ds ss hg hs
    exact C09_lost _ _ ht hb (block_terminated _) hdl e2 mode hm fd2 ds ss hg hs _ hfile

theorem exLoc5_rep : DS2414.Rep (ex2414 (exPlain (.other 5))).dict (ex2414 (exPlain (.other 5))) :=
  ⟨rfl, ⟨_, rfl, rfl⟩, ⟨_, rfl, rfl⟩, rfl, ⟨_, rfl, rfl⟩, ⟨_, rfl, rfl⟩, ⟨_, rfl, rfl⟩,
    ⟨_, rfl, rfl⟩, ⟨_, rfl, rfl⟩, ⟨_, rfl, rfl⟩, rfl, ⟨_, rfl, rfl⟩, ⟨_, rfl, rfl⟩, ⟨_, rfl, rfl⟩, rfl,
    ⟨rfl, rfl, rfl, rfl, rfl, rfl, rfl, rfl, rfl, rfl, rfl, rfl, rfl, rfl, rfl, rfl, rfl, rfl, rfl, rfl, rfl, rfl, rfl, rfl, rfl, rfl, rfl, rfl⟩,
    trivial⟩

/-- So it is when results at location 5 and then eight more data-sets are appended to a file of one data-set. -/
example : lower "add".toList = "add".toList ∧ CleanD (ex2414 (exPlain (.other 5))).dict (ex2414 (exPlain (.other 5))).dict ∧
    DS2414.Rep (ex2414 (exPlain (.other 5))).dict { ex2414 (exPlain (.other 4)) with body := exPlain (.other 5) } ∧
    DS2414.Ok (ex2414 (exPlain (.other 4))) ∧ Terminated exOne ∧ Balanced exOne ∧ GivenAll exEnv true exDicts exSets ∧ exSets ≠ [] :=
  ⟨by decide, cleanD_none rfl, exLoc5_rep, exPlain_ok _ ⟨by decide, by decide, by decide, by decide⟩ (by decide) (by decide),
    .inr (by decide +kernel), by decide +kernel, ex_givenAll, by decide⟩

end Verif
