import Verif.Props.Single
import Verif.Props.Required
import Verif.Lemmas.Declared
/-
Property C66: the type declared for the ordinate of a data-set 58 is believed, not checked.
-/
namespace Verif

open DS58 (WrongRep)

theorem wrong_stored (e : Env) (double : Bool) (d d' : Dict) (r : DS58) (hc : CleanD d d') (h : WrongRep d' double r) (ok : r.Fit)
    (hs : r.store = .ascii double) (w : World) (hT : Terminated (w.file.getD [])) (hB : Balanced (w.file.getD [])) :
    (w.writeSets e "add".toList false [d]).2.2 = .ok () ∧
    (w.writeSets e "add".toList false [d]).1.getNSets.2 = setCount (w.file.getD []) + 1 ∧
    ((w.writeSets e "add".toList false [d]).1.readSets (.one (setCount (w.file.getD []))) true).2 = .ok (.single (r.wrongHeader double)) ∧
    ((w.writeSets e "add".toList false [d]).1.readSets (.one (setCount (w.file.getD []))) false).2 =
      (match extract58 (DS58.wrongBlock double r) false with
        | .ok b => .ok (.single b)
        | .error y => .error (readErr y)) := by
  have hw : writeBody e false d = ⟨frameText (DS58.wrongLines double r), DS58.d3 false d' r, .ok none⟩ := by
    rw [writeBody_eq hc h.type]
    exact DS58.wrong_write _ _ _ _ h ok hs
  have hadd : added ⟨frameText (DS58.wrongLines double r), DS58.d3 false d' r, .ok none⟩ = closed (DS58.wrongBlock double r) := by
    have hf : frameText (DS58.wrongLines double r) = blockText (DS58.wrongLines double r) ++ tailText := by
      simp [frameText, blockText, joinLines]
      rfl
    unfold added closed DS58.wrongBlock
    rw [hf, encode_append, encode_tail]
  rw [writeSets_add' w e "add".toList (by decide) false [d] (by simp)]
  obtain ⟨h1, h2, h3⟩ := read_framed hw hadd (DS58.wrong_framed _ _ ok) w hT hB false
  obtain ⟨-, -, h4⟩ := read_framed hw hadd (DS58.wrong_framed _ _ ok) w hT hB true
  rw [readBlock58] at h3
  rw [readBlock58, DS58.wrong_readHeader _ _ ok hs] at h4
  refine ⟨h1, h2, h4, ?_⟩
  rw [h3]
  cases extract58 (DS58.wrongBlock double r) false <;> rfl

theorem wrong_as (e : Env) (double : Bool) (d d' : Dict) (r : DS58) (hc : CleanD d d') (h : WrongRep d' double r) (ok : r.Fit)
    (hs : r.store = .ascii double) (b : Dict) (hb : extract58 (DS58.wrongBlock double r) false = .ok b) :
    StoredAs e false d b (r.wrongHeader double) := by
  refine ⟨fun w hT hB => ?_⟩
  obtain ⟨h1, h2, h3, h4⟩ := wrong_stored e double d d' r hc h ok hs w hT hB
  rw [hb] at h4
  exact ⟨h1, h2, h4, h3⟩

/-- C66: complex values declared real, equally spaced: the call succeeds, and what is read is a real function with the real and the
imaginary parts one after the other, as twice as many points as the header says. -/
theorem C66_complex (e : Env) (double : Bool) (d d' : Dict) (r : DS58) (l : List Cplx) (hc : CleanD d d') (h : WrongRep d' double r)
    (ok : r.Fit) (hs : r.store = .ascii double) (he : r.even = true) (ho : r.ord = .cplx l) :
    StoredAs e false d (r.wrongBack double (r.spaced (2 * l.length))
      (.arrF (l.flatMap fun z => [z.1.quant (DS58.digits double), z.2.quant (DS58.digits double)]))) (r.wrongHeader double) ∧
    (r.wrongHeader double).get? "num_pts" = some (.int l.length) := by
  refine ⟨wrong_as e double d d' r hc h ok hs _ (DS58.wrong_cplx double r ok hs he l ho), ?_⟩
  have : (r.wrongHeader double).get? "num_pts" = some (.int r.count) := rfl
  rw [this]
  unfold DS58.count
  rw [ho]

/-- C66: real values declared complex, equally spaced: the call succeeds, and what is read is a complex function of half as many
points, neighbours being taken for real and imaginary part; the last of an odd number of values is lost. -/
theorem C66_real (e : Env) (double : Bool) (d d' : Dict) (r : DS58) (l : List F64) (hc : CleanD d d') (h : WrongRep d' double r)
    (ok : r.Fit) (hs : r.store = .ascii double) (he : r.even = true) (ho : r.ord = .real l) :
    StoredAs e false d (r.wrongBack double (r.spaced ((l.length + 1) / 2))
      (.arrC ((DS58.pairUp (l.map fun y => y.quant (DS58.digits double))).map Cplx.unsigned))) (r.wrongHeader double) ∧
    (r.wrongHeader double).get? "num_pts" = some (.int l.length) := by
  refine ⟨wrong_as e double d d' r hc h ok hs _ (DS58.wrong_real double r ok hs he l ho), ?_⟩
  have : (r.wrongHeader double).get? "num_pts" = some (.int r.count) := rfl
  rw [this]
  unfold DS58.count
  rw [ho]

/-- C66: complex values declared real, unequally spaced, in double precision: the call succeeds, and the real parts are read; the
imaginary parts are in the file and are never seen. -/
theorem C66_imaginary (e : Env) (d d' : Dict) (r : DS58) (l : List Cplx) (hc : CleanD d d') (h : WrongRep d' true r)
    (ok : r.Fit) (hs : r.store = .ascii true) (he : r.even = false) (ho : r.ord = .cplx l) :
    StoredAs e false d (r.wrongBack true (r.abscissaVals.map fun x => x.quant 5) (.arrF (l.map fun z => z.1.quant 11)))
      (r.wrongHeader true) :=
  wrong_as e true d d' r hc h ok hs _ (DS58.wrong_parts r ok hs he l ho)

/-- C66: real values declared complex, unequally spaced, in double precision: the call succeeds, and the data-set can never be read;
its header can. -/
theorem C66_unreadable (e : Env) (d d' : Dict) (r : DS58) (l : List F64) (hc : CleanD d d') (h : WrongRep d' true r)
    (ok : r.Fit) (hs : r.store = .ascii true) (he : r.even = false) (ho : r.ord = .real l)
    (w : World) (hT : Terminated (w.file.getD [])) (hB : Balanced (w.file.getD [])) :
    (w.writeSets e "add".toList false [d]).2.2 = .ok () ∧
    (w.writeSets e "add".toList false [d]).1.getNSets.2 = setCount (w.file.getD []) + 1 ∧
    ((w.writeSets e "add".toList false [d]).1.readSets (.one (setCount (w.file.getD []))) true).2 = .ok (.single (r.wrongHeader true)) ∧
    ∃ x, ((w.writeSets e "add".toList false [d]).1.readSets (.one (setCount (w.file.getD []))) false).2 = .error x := by
  obtain ⟨h1, h2, h3, h4⟩ := wrong_stored e true d d' r hc h ok hs w hT hB
  rw [DS58.wrong_lost r ok hs he l ho] at h4
  exact ⟨h1, h2, h3, _, h4⟩

/-- The documented dictionary with another type declared. -/
def DS58.declaring (r : DS58) (v : Val) : Dict := r.dict.set "ord_data_type" v

theorem DS58.declaring_clean (r : DS58) (ok : r.Fit) (v : Val) : CleanD (r.declaring v) (r.declaring v) :=
  have hdata : (r.declaring v).get? "data" = some r.ord.val := rfl
  .inr ⟨_, _, hdata, Ord58.clean ok.ord, (Dict.set_self hdata).symm⟩

theorem DS58.declaring_content (r : DS58) (v : Val) : Content (r.declaring v) r := by
  have hdata : (r.declaring v).get? "data" = some r.ord.val := rfl
  refine ⟨rfl, rfl, rfl, rfl, rfl, rfl, rfl, rfl, rfl, rfl, rfl, ⟨_, rfl, rfl⟩, ⟨_, rfl, rfl⟩, rfl, ⟨_, rfl, rfl⟩,
    ⟨_, rfl, rfl⟩, rfl, ⟨rfl, rfl, rfl, rfl, rfl, rfl⟩, ⟨rfl, rfl, rfl, rfl, rfl, rfl⟩, rfl,
    ⟨rfl, rfl, rfl, rfl, rfl, rfl⟩, ⟨rfl, rfl, rfl, rfl, rfl, rfl⟩, ⟨_, rfl, .inl rfl⟩, ⟨_, rfl, isSeq_arrF' _⟩, ?_⟩
  unfold DS58.OrdRep
  cases h : r.ord <;> simp [hdata, h, Ord58.val]

theorem DS58.declaring_wrong (r : DS58) (double : Bool) (hs : r.store = .ascii double) :
    WrongRep (r.declaring (.int (DS58.wrongType r.ord double))) double r := by
  have hb : (r.declaring (.int (DS58.wrongType r.ord double))).get? "binary" = some (.int r.store.flag) := rfl
  refine ⟨r.declaring_content _, ⟨_, rfl, .inl ?_⟩, rfl⟩
  unfold Dict.getOr
  rw [hb, hs]
  rfl

/-- C66: with `force_double` (the default) the declared type, right or wrong, is replaced, and text data come back as C20 says. -/
theorem C66_forced (e : Env) (r : DS58) (ok : r.Fit) (hs : r.store = .ascii true) (v : Val) :
    StoredAs e true (r.declaring v) r.readBack r.headerBack := by
  have hb : (r.declaring v).get? "binary" = some (.int r.store.flag) := rfl
  have : Given e true (r.declaring v) (.s58 r) := by
    refine ⟨_, r.declaring_clean ok v, ⟨r.declaring_content v, ?_⟩, ⟨ok, ?_⟩⟩
    · unfold DS58.StoreRep
      rw [hs]
      refine ⟨⟨_, rfl, .inl ?_⟩, ?_⟩
      · unfold Dict.getOr
        rw [hb, hs]; rfl
      · rfl
    · unfold DS58.StoreOk
      rw [hs]
      trivial
  exact stored_given this

/-- The hypotheses are met by the functions of the examples, each declared as what it is not. -/
example (even : Bool) (r : DS58) (hr : r = ex58 even exReal (.ascii true) ∨ r = ex58 even exCplx (.ascii true)) :
    WrongRep (r.declaring (.int (DS58.wrongType r.ord true))) true r ∧ r.Fit ∧ r.store = .ascii true := by
  rcases hr with rfl | rfl
  · exact ⟨DS58.declaring_wrong _ _ rfl, ex58_fit _ _ _ (.inl rfl), rfl⟩
  · exact ⟨DS58.declaring_wrong _ _ rfl, ex58_fit _ _ _ (.inr rfl), rfl⟩

/-- Three complex numbers declared real are read as six real ones, or as three; three real ones declared complex as one complex
number, or not at all. -/
example : (∃ b h, StoredAs exEnv false ((ex58 true exCplx (.ascii true)).declaring (.int 4)) b h ∧
      b.get? "data" = some (.arrF ([fA, fB, fC, fC, fB, fA].map fun y => y.quant 11))) ∧
    (∃ b h, StoredAs exEnv false ((ex58 false exCplx (.ascii true)).declaring (.int 4)) b h ∧
      b.get? "data" = some (.arrF ([fA, fC, fB].map fun y => y.quant 11))) ∧
    (∃ b h, StoredAs exEnv false ((ex58 true exReal (.ascii true)).declaring (.int 6)) b h ∧
      b.get? "data" = some (.arrC [Cplx.unsigned (fA.quant 11, fB.quant 11)])) ∧
    ∃ x, (((World.new none).writeSets exEnv "add".toList false [(ex58 false exReal (.ascii true)).declaring (.int 6)]).1.readSets
      (.one 0) false).2 = .error x :=
  have hc (even : Bool) := ex58_fit even exCplx (.ascii true) (.inr rfl)
  have hr (even : Bool) := ex58_fit even exReal (.ascii true) (.inl rfl)
  ⟨⟨_, _, (C66_complex exEnv true _ _ (ex58 true exCplx (.ascii true)) _ (DS58.declaring_clean _ (hc true) _)
      (DS58.declaring_wrong _ true rfl) (hc true) rfl rfl rfl).1, rfl⟩,
   ⟨_, _, C66_imaginary exEnv _ _ (ex58 false exCplx (.ascii true)) _ (DS58.declaring_clean _ (hc false) _)
      (DS58.declaring_wrong _ true rfl) (hc false) rfl rfl rfl, rfl⟩,
   ⟨_, _, (C66_real exEnv true _ _ (ex58 true exReal (.ascii true)) _ (DS58.declaring_clean _ (hr true) _)
      (DS58.declaring_wrong _ true rfl) (hr true) rfl rfl rfl).1, rfl⟩,
   (C66_unreadable exEnv _ _ (ex58 false exReal (.ascii true)) _ (DS58.declaring_clean _ (hr false) _)
      (DS58.declaring_wrong _ true rfl) (hr false) rfl rfl rfl (World.new none) (.inl rfl) (by decide)).2.2.2⟩

/-- C66: so the data never come back, whatever the precision and the spacing: the property that what is written can be read
back is false of every function declared as what it is not. -/
theorem C66_negation (e : Env) (double : Bool) (d d' : Dict) (r : DS58) (hc : CleanD d d') (h : WrongRep d' double r) (ok : r.Fit)
    (hs : r.store = .ascii double) (w : World) (hT : Terminated (w.file.getD [])) (hB : Balanced (w.file.getD [])) :
    (w.writeSets e "add".toList false [d]).2.2 = .ok () ∧
    ∀ b, ((w.writeSets e "add".toList false [d]).1.readSets (.one (setCount (w.file.getD []))) false).2 = .ok (.single b) →
      b.get? "data" ≠ some r.ordBack := by
  obtain ⟨h1, -, -, h4⟩ := wrong_stored e double d d' r hc h ok hs w hT hB
  refine ⟨h1, fun b hb => ?_⟩
  rw [hb] at h4
  cases hx : extract58 (DS58.wrongBlock double r) false with
  | error y => rw [hx] at h4; cases h4
  | ok b' =>
    rw [hx] at h4
    cases h4
    exact DS58.wrong_kind double r ok hs b hx

/-! Types other than 2, 4, 5 and 6. -/

namespace W

theorem fails_unknown (little : Bool) (v : Val) (h : prec58 v = .ok Option.none) :
    Fails (fun d => d.get? "ord_data_type" = some v) (write58 little false) := by
  have keepP : ∀ {α} {m : W α}, (∀ d, (m d).dict = d) → Keeps (fun d d' => d.get? "ord_data_type" = some v → d'.get? "ord_data_type" = some v) m :=
    fun hm => ⟨fun d hd => by rw [hm d]; exact hd⟩
  have mono : ∀ {α} {m : W α} {P : Dict → Prop}, Fails (fun _ => True) m → Fails P m := fun hm d _ => hm d trivial
  have skip : ∀ {α β} {m : W α} {f : α → W β}, (∀ a, Fails (fun _ => True) (f a)) → Fails (fun _ => True) (m >>= f) :=
    fun hf => fails_skip ⟨fun _ _ => trivial⟩ hf
  have hopt : Keeps (fun d d' => d.get? "ord_data_type" = some v → d'.get? "ord_data_type" = some v) (W.opt opt58) := by
    generalize opt58 = fs
    exact ⟨fun d hd => (get?_opt_present hd : (optFields d fs).get? _ = _)⟩
  unfold write58
  apply fails_guarded
  refine fails_skip (keepP fun _ => rfl) fun ft => ?_
  refine fails_skip (keepP fun _ => rfl) fun good => ?_
  refine fails_skip (keepP fun d => by unfold W.when; split <;> rfl) fun _ => ?_
  refine fails_skip hopt fun _ => ?_
  refine fails_skip (keepP fun _ => rfl) fun y => ?_
  refine fails_skip (keepP fun _ => rfl) fun n => ?_
  refine fails_skip (keepP fun _ => rfl) fun cplx => ?_
  refine fails_skip (keepP fun d => by unfold W.when; rw [if_neg (by decide)]; rfl) fun _ => ?_
  refine post_bind' (post_key _) fun odt => ?_
  intro d hd
  obtain ⟨h1, h2⟩ := hd
  rw [h1] at h2
  cases h2
  revert d
  intro d h1
  refine (mono (P := fun _ => True) ?_ : Fails (fun _ => True) _) d trivial
  rw [h]
  intro d _
  refine (?_ : Fails (fun _ => True) _) d trivial
  refine post_bind' (post_lift) fun pr => ?_
  intro d hd
  obtain ⟨-, h2⟩ := hd
  cases h2
  refine (?_ : Fails (fun _ => True) _) d trivial
  refine skip fun d0 => ?_
  refine skip fun _ => ?_
  refine skip fun sp => ?_
  refine skip fun even => ?_
  refine skip fun x => ?_
  refine skip fun x0 => ?_
  refine skip fun _ => ?_
  refine skip fun x1 => ?_
  refine skip fun dx => ?_
  refine skip fun _ => ?_
  refine skip fun b => ?_
  refine skip fun binary => ?_
  cases binary with
  | true =>
    apply fails_here
    unfold idRest58
    rw [if_pos rfl]
    apply fails_here'
    intro d _ a ha
    cases ha
  | false =>
    iterate 12 refine skip fun _ => ?_
    refine skip fun ys => ?_
    refine skip fun data => ?_
    unfold body58
    rw [if_neg (by decide)]
    exact fails_raise

end W

/-- C66: without `force_double`, a call with a data-set 58 that declares another type than 2, 4, 5 and 6 fails. -/
theorem C66_other (w : World) (e : Env) (mode : Text) (ds : List Dict) (d : Dict) (o : Int) (hd : d ∈ ds)
    (ht : d.get? "type" = some (.int 58)) (ho : d.get? "ord_data_type" = some (.int o)) (hn : o ∉ ([2, 4, 5, 6] : List Int)) :
    ∃ x, (w.writeSets e mode false ds).2.2 = .error x := by
  have hp : prec58 (.int o) = .ok none := by
    simp only [List.mem_cons, List.not_mem_nil, or_false, not_or] at hn
    simp [prec58, Val.isArr, Val.numEq, hn]
  refine writeSets_fails (fun e' => ?_) ds w e mode hd
  unfold writeBody
  rw [ht]
  simp only
  cases hcd : cleanData d with
  | error x => exact ⟨x, rfl⟩
  | ok d' =>
    simp only
    cases hr : (writeDispatch e' false (.int 58) d').res with
    | error x => exact ⟨x, rfl⟩
    | ok a =>
      rw [disp58] at hr
      exact (W.fails_unknown _ _ hp d' ((cleanData_get hcd _ (by decide)).trans ho) a hr).elim

end Verif
