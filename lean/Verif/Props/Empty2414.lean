import Verif.Lemmas.Empty2414
import Verif.Lemmas.Whole
import Verif.Props.Writing
/-
C30: results without any node or element can be written and not read.
-/
namespace Verif

/-- Results at nodes (location 1) without any node, or on elements (location 2) without any element.  Whatever their header and
whatever the file, they are written and become one more data-set, and reading that data-set fails, with and without
`header_only`. -/
theorem C30_empty (w : World) (e : Env) (mode : Text) (hm : lower mode = "add".toList) (fd : Bool) (d d' : Dict)
    (r : DS2414) (a c : Int) (hd : PlainHead) (x : PlainData) (hx : x = .atNodes [] ∨ x = .onElems []) (hc : CleanD d d')
    (h : DS2414.Rep d' { r with body := .plain a c hd x }) (ok : DS2414.Ok { r with body := .plain a c hd (.other 4) })
    (ht : Terminated (w.file.getD [])) (hb : Balanced (w.file.getD [])) (header : Bool) :
    (w.writeSets e mode fd [d]).2.2 = .ok () ∧
    (w.writeSets e mode fd [d]).1.getNSets.2 = setCount (w.file.getD []) + 1 ∧
    ((w.writeSets e mode fd [d]).1.readSets (.one (setCount (w.file.getD []))) header).2 =
      .error (.exc "Error when reading data-set(s).") := by
  have hn : ∃ y, DS2414.NoData x y := by
    rcases hx with rfl | rfl
    · exact ⟨_, .nodes⟩
    · exact ⟨_, .elems⟩
  obtain ⟨y, n⟩ := hn
  have hw := DS2414.empty_write n d' _ a c hd rfl h ok.body.1 ok.body.2.2.2.1 ok.body.2.2.2.2.1
  have hz := DS2414.empty_read n r a c hd ok
  have hdis : writeDispatch e fd (.int 2414) = W.none write2414 := rfl
  have := read_lines (n := 2414) (ex := extract2414) hc h.type hdis (fun _ _ => rfl) hw (n.safe ok)
    ((blockType_block _ _ (by decide)).trans (by decide +kernel)) w ht hb header
  rw [hz] at this
  rw [writeSets_add w e mode hm]
  exact ⟨this.1, this.2.1, this.2.2⟩

theorem exEmpty_rep : DS2414.Rep (ex2414 (exPlain (.onElems []))).dict (ex2414 (exPlain (.onElems []))) :=
  ⟨rfl, ⟨_, rfl, rfl⟩, ⟨_, rfl, rfl⟩, rfl, ⟨_, rfl, rfl⟩, ⟨_, rfl, rfl⟩, ⟨_, rfl, rfl⟩,
    ⟨_, rfl, rfl⟩, ⟨_, rfl, rfl⟩, ⟨_, rfl, rfl⟩, rfl, ⟨_, rfl, rfl⟩, ⟨_, rfl, rfl⟩, ⟨_, rfl, rfl⟩, rfl,
    ⟨rfl, rfl, rfl, rfl, rfl, rfl, rfl, rfl, rfl, rfl, rfl, rfl, rfl, rfl, rfl, rfl, rfl, rfl, rfl, rfl, rfl, rfl, rfl, rfl, rfl, rfl, rfl, rfl⟩,
    ⟨_, rfl, .inl ⟨_, rfl⟩, isSeq_arrI _⟩, ⟨_, rfl, isSeq_map _ _ _ _ rfl fun n _ => isSeq_arrF n.vals⟩⟩

/-- So it is for these results on no element, appended to a file of one data-set. -/
example : lower "add".toList = "add".toList ∧ CleanD (ex2414 (exPlain (.onElems []))).dict (ex2414 (exPlain (.onElems []))).dict ∧
    DS2414.Rep (ex2414 (exPlain (.onElems []))).dict { ex2414 (exPlain (.other 4)) with body := exPlain (.onElems []) } ∧
    DS2414.Ok (ex2414 (exPlain (.other 4))) ∧ Terminated exOne ∧ Balanced exOne :=
  ⟨by decide, cleanD_none rfl, exEmpty_rep, exPlain_ok _ ⟨by decide, by decide, by decide, by decide⟩ (by decide) (by decide),
    .inr (by decide +kernel), by decide +kernel⟩

end Verif
