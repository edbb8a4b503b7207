import Verif.Spec.Layout
import Verif.Lemmas.Dropped
/-
Writers use only the entries of the layout that the dictionary asks for.
-/
namespace Verif
open W (Resp RespFld resp_bind resp_bind' resp_key resp_lift resp_emit resp_opt resp_put resp_when resp_raise resp_row resp_pure resp_i resp_e resp_sl resp_sr resp_c
  resp_sr1 resp_sl1 resp_e2 resp_at resp_at2 resp_intAt resp_lenAt resp_reAt resp_imAt resp_get resp_re resp_im resp_fix resp_record resp_keyAt
  resp_forL resp_guarded resp_guardedAny resp_format resp_reIm resp_getDict)

/-- `m` does the same to two dictionaries with the relation `R`. -/
def RespO {α : Type} (R : Dict → Dict → Prop) (m : W α) : Prop := ∀ d d', R d d' → (m d).out = (m d').out ∧ (m d).res = (m d').res

variable {R : Dict → Dict → Prop} {α β : Type} {K : List String}

theorem ro_resp {m : W α} (hK : ∀ d d', R d d' → Agree K d d') (hm : Resp K m) : RespO R m := fun d d' h =>
  ⟨(hm d d' (hK d d' h)).1, (hm d d' (hK d d' h)).2.1⟩

theorem ro_bind {m : W α} {f : α → W β} (hm : RespR R m) (hf : ∀ a, RespO R (f a)) : RespO R (m >>= f) := by
  intro d d' hd
  obtain ⟨h1, h2, h3⟩ := hm d d' hd
  show (W.bind m f d).out = (W.bind m f d').out ∧ (W.bind m f d).res = (W.bind m f d').res
  unfold W.bind
  rcases h : m d with ⟨o, e, r⟩
  rcases h' : m d' with ⟨o', e', r'⟩
  rw [h, h'] at h1 h2 h3
  simp only at h1 h2 h3
  subst h1 h2
  cases r with
  | error x => exact ⟨rfl, rfl⟩
  | ok a =>
    obtain ⟨g1, g2⟩ := hf a e e' h3
    exact ⟨by simp only [g1], g2⟩

theorem ro_guarded {s : Nat} {m : W α} (hm : RespO R m) : RespO R (W.guarded s m) := by
  intro d d' hd
  obtain ⟨h1, h2⟩ := hm d d' hd
  unfold W.guarded
  rcases h : m d with ⟨o, e, r⟩
  rcases h' : m d' with ⟨o', e', r'⟩
  rw [h, h'] at h1 h2
  simp only at h1 h2
  subst h1 h2
  cases r with
  | ok a => exact ⟨rfl, rfl⟩
  | error x => cases x <;> first | exact ⟨rfl, rfl⟩ | (rename_i q; cases q <;> exact ⟨rfl, rfl⟩)

theorem ro_guardedAny {s : Nat} {m : W α} (hm : RespO R m) : RespO R (W.guardedAny s m) := by
  intro d d' hd
  obtain ⟨h1, h2⟩ := hm d d' hd
  unfold W.guardedAny
  rcases h : m d with ⟨o, e, r⟩
  rcases h' : m d' with ⟨o', e', r'⟩
  rw [h, h'] at h1 h2
  simp only at h1 h2
  subst h1 h2
  cases r with
  | ok a => exact ⟨rfl, rfl⟩
  | error x => cases x <;> first | exact ⟨rfl, rfl⟩ | (rename_i q; cases q <;> exact ⟨rfl, rfl⟩)

/-- The value of a key is known. -/
theorem ro_known {k : Key} {v : Val} {f : Val → W β} (h : ∀ d d', R d d' → d.get? k = some v ∧ d'.get? k = some v) (hf : RespO R (f v)) :
    RespO R (W.key k >>= f) := by
  intro d d' hd
  obtain ⟨h1, h2⟩ := h d d' hd
  obtain ⟨g1, g2⟩ := hf d d' hd
  show (W.bind _ f d).out = (W.bind _ f d').out ∧ (W.bind _ f d).res = (W.bind _ f d').res
  unfold W.bind W.key Dict.get
  rw [h1, h2]
  simp only
  exact ⟨by rw [g1], g2⟩

/-- Dictionaries that agree on the entries `K`, with a known value of `q`. -/
def KnownAt (K : List String) (q : String) (v : Val) (d d' : Dict) : Prop :=
  Agree K d d' ∧ d.get? (.s q) = some v ∧ d'.get? (.s q) = some v

theorem knownAt_opt {q : String} {v : Val} {d d' : Dict} (h : KnownAt K q v d d') (fs : List (Key × Val)) : KnownAt K q v (optFields d fs) (optFields d' fs) := by
  refine ⟨fun k hk => ?_, ?_, ?_⟩
  · rw [get?_optFields, get?_optFields, h.1 k hk]
  · rw [get?_optFields, h.2.1]; rfl
  · rw [get?_optFields, h.2.2]; rfl

/-- What follows once the analysis type is known. -/
def typed55 (an : Option An55) : W Unit := do
    prep55 an
    let d ← W.getDict
    let six := d.has "r4" && d.has "r5" && d.has "r6"
    let r1 ← W.key "r1"
    let cplx ← W.lift r1.isComplexObj
    W.emit (headText 55)
    W.row [.sl 80 "id1"]
    W.row [.sl 80 "id2"]
    W.row [.sl 80 "id3"]
    W.row [.sl 80 "id4"]
    W.row [.sl 80 "id5"]
    W.row [.i 10 "model_type", .i 10 "analysis_type", .i 10 "data_ch", .i 10 "spec_data_type",
      .c (fmtI 10) (.int (if cplx then 5 else 2)), .c (fmtI 10) (.int (if six then 6 else 3))]
    head55 an
    let ns ← W.key "node_nums"
    let n ← W.lift ns.len
    W.forL (List.range n) fun k => do
      W.row [⟨Fld.at_ "node_nums" k, fmtI 10⟩]
      W.row (vals55 cplx six k)
    W.emit tailText

/-- The rest of the writer, given the parts that depend on the analysis type. -/
theorem resp_typed55 {an : Option An55} (hK : ∀ k ∈ nodeKeys, k ∈ K) (h1 : Resp K (prep55 an)) (h2 : Resp K (head55 an)) : Resp K (typed55 an) := by
  have sub : ∀ {fs : List Fld}, (∀ f ∈ fs, RespFld nodeKeys f) → ∀ f ∈ fs, RespFld K f := fun h f hf d d' hd => h f hf d d' fun k hk => hd k (hK k hk)
  unfold typed55
  refine resp_bind' h1 fun _ => ?_
  refine resp_getDict (fun d d' hd => ?_) fun d => ?_
  · simp only [hd.has (hK "r4" (by inlist)), hd.has (hK "r5" (by inlist)), hd.has (hK "r6" (by inlist))]
  refine resp_bind' (resp_key (hK _ (by inlist))) fun _ => ?_
  refine resp_bind' (resp_lift _) fun cplx => ?_
  refine resp_bind' (resp_emit _) fun _ => ?_
  iterate 6 refine resp_bind' (resp_row (sub (by respflds))) fun _ => ?_
  refine resp_bind' h2 fun _ => ?_
  refine resp_bind' (resp_key (hK _ (by inlist))) fun _ => ?_
  refine resp_bind' (resp_lift _) fun n => ?_
  refine resp_bind' (resp_forL fun i _ => ?_) fun _ => resp_emit _
  refine resp_bind' (resp_row (sub (by respflds))) fun _ => resp_row (sub ?_)
  unfold vals55
  split
  · respflds
  · split <;> respflds

theorem layout55 (a : Int) : RespO (KnownAt (nodeKeys ++ modeKeys a) "analysis_type" (.int a)) write55 := by
  show RespO _ (W.guarded 55 (W.opt opt55 >>= fun _ => W.key "analysis_type" >>= fun a => W.lift (an55 a) >>= fun an => typed55 an))
  refine ro_guarded (ro_bind (rr_opt fun d d' h => knownAt_opt h _) fun _ => ro_known (fun d d' h => h.2) ?_)
  refine ro_resp (K := nodeKeys ++ modeKeys a) (fun d d' h => h.1) ?_
  have hb : ∀ k ∈ nodeKeys, k ∈ nodeKeys ++ modeKeys a := fun k hk => List.mem_append_left _ hk
  have run : ∀ {an : Option An55}, an55 (.int a) = .ok an → Resp (nodeKeys ++ modeKeys a) (typed55 an) →
      Resp (nodeKeys ++ modeKeys a) (W.lift (an55 (.int a)) >>= fun an => typed55 an) := by
    intro an he hr
    rw [he]
    intro d d' hd
    exact hr d d' hd
  by_cases h2 : a = 2
  · subst h2
    refine run (an := some .normal) rfl (resp_typed55 hb (resp_opt _) ?_)
    unfold head55; respstep
  by_cases h3 : a = 3
  · subst h3
    refine run (an := some .cmplx) rfl (resp_typed55 hb ?_ ?_)
    · unfold prep55
      exact resp_bind (resp_opt _) fun _ => resp_bind (resp_makeComplex (q := "modal_a") (K := nodeKeys ++ modeKeys 3) (by inlist)) fun _ =>
        resp_makeComplex (q := "modal_b") (K := nodeKeys ++ modeKeys 3) (by inlist)
    · unfold head55; respstep
  by_cases h7 : a = 7
  · subst h7
    refine run (an := some .cmplx) rfl (resp_typed55 hb ?_ ?_)
    · unfold prep55
      exact resp_bind (resp_opt _) fun _ => resp_bind (resp_makeComplex (q := "modal_a") (K := nodeKeys ++ modeKeys 7) (by inlist)) fun _ =>
        resp_makeComplex (q := "modal_b") (K := nodeKeys ++ modeKeys 7) (by inlist)
    · unfold head55; respstep
  by_cases h5 : a = 5
  · subst h5
    refine run (an := some .frf) rfl (resp_typed55 hb (resp_pure _) ?_)
    unfold head55; respstep
  · refine run (an := Option.none) ?_ (resp_typed55 hb (resp_raise _) (resp_raise _))
    unfold an55 Val.numEq
    simp [h2, h3, h5, h7]

/-! Results. -/

theorem layout_freqNode (n : Val) (i : Nat) : Resp (resultKeys ++ responseKeys) (freqNode n i) := by
  unfold freqNode
  have hx : ("x" : String) ∈ resultKeys ++ responseKeys := by inlist
  have hy : ("y" : String) ∈ resultKeys ++ responseKeys := by inlist
  have hz : ("z" : String) ∈ resultKeys ++ responseKeys := by inlist
  refine resp_bind (resp_row (by respflds)) fun _ => ?_
  have app : ∀ {a b : List Fld}, (∀ f ∈ a, RespFld (resultKeys ++ responseKeys) f) → (∀ f ∈ b, RespFld (resultKeys ++ responseKeys) f) →
      ∀ f ∈ a ++ b, RespFld (resultKeys ++ responseKeys) f := by
    intro a b ha hb f hf
    rcases List.mem_append.1 hf with h | h
    · exact ha f h
    · exact hb f h
  split
  · exact resp_row (app (resp_reIm hx) (app (resp_reIm hy) (resp_reIm hz)))
  split
  · exact resp_row (app (resp_reIm hx) (resp_reIm hy))
  split
  · exact resp_row (resp_reIm hx)
  · exact resp_pure _

theorem layout_freqRest : Resp (resultKeys ++ responseKeys) freqRest := by
  unfold freqRest freqInts
  refine resp_bind' (resp_row (by respflds)) fun _ => ?_
  refine resp_bind' (resp_row (by respflds)) fun _ => ?_
  refine resp_bind' (resp_row (by respflds)) fun _ => ?_
  refine resp_bind' (resp_row (by respflds)) fun _ => ?_
  refine resp_bind' (resp_key (by inlist)) fun _ => ?_
  refine resp_bind' (resp_lift _) fun _ => ?_
  refine resp_bind' (resp_key (by inlist)) fun _ => ?_
  exact resp_bind' (resp_forL fun i _ => layout_freqNode _ i) fun _ => resp_emit _

theorem resp_more {K K' : List String} {m : W α} (hm : Resp K m) (hd : ∀ d, (m d).dict = d) (h : ∀ k ∈ K, k ∈ K') : Resp K' m := by
  intro d d' hd'
  obtain ⟨h1, h2, -⟩ := hm d d' fun k hk => hd' k (h k hk)
  rw [hd, hd]
  exact ⟨h1, h2, hd'⟩

theorem layout_loc (l : Int) : Resp (placeKeys l) (locRest (.int l)) := by
  by_cases h1 : l = 1
  · subst h1
    show Resp _ locNodes
    unfold locNodes
    respstep
    exact resp_writeVals _
  by_cases h2 : l = 2
  · subst h2
    show Resp _ locElems
    unfold locElems
    respstep
    exact resp_writeVals _
  by_cases h3 : l = 3
  · subst h3
    show Resp _ locElemNodes
    unfold locElemNodes
    respstep
    exact resp_writeVals _
  unfold locRest Val.numEq
  simp only [h1, h2, h3, decide_false, Bool.false_eq_true, if_false]
  split
  · exact resp_pure _
  · exact resp_emit _

/-- Dictionaries of results with a known analysis type and location. -/
def KnownLayout (a l : Int) (d d' : Dict) : Prop :=
  KnownAt (layoutKeys a l) "analysis_type" (.int a) d d' ∧ KnownAt (layoutKeys a l) "dataset_location" (.int l) d d'

theorem layout2414 (a l : Int) : RespO (KnownLayout a l) write2414 := by
  have hK : ∀ d d', KnownLayout a l d d' → Agree resultKeys d d' := fun d d' h k hk => h.1.1 k (List.mem_append_left _ hk)
  unfold write2414
  refine ro_guardedAny (ro_bind (rr_opt fun d d' h => ⟨knownAt_opt h.1 _, knownAt_opt h.2 _⟩) fun _ => ?_)
  refine ro_bind (rr_emit _) fun _ => ?_
  iterate 9 refine ro_bind (rr_row hK (by respflds)) fun _ => ?_
  refine ro_known (fun d d' h => h.1.2) ?_
  by_cases h5 : a = 5
  · subst h5
    show RespO _ freqRest
    exact ro_resp (K := resultKeys ++ responseKeys) (fun d d' h => h.1.1) layout_freqRest
  · have h0 : (Val.int a).numEq 5 = false := by unfold Val.numEq; simp [h5]
    rw [h0]
    show RespO _ plainRest
    have hL : ∀ k ∈ recordKeys ++ placeKeys l, k ∈ layoutKeys a l := fun k hk => by
      unfold layoutKeys
      rw [if_neg h5]
      exact List.mem_append_right _ hk
    have hR : ∀ d d', KnownLayout a l d d' → Agree recordKeys d d' := fun d d' h k hk => h.1.1 k (hL k (List.mem_append_left _ hk))
    unfold plainRest
    iterate 4 refine ro_bind (rr_row hR (by respflds)) fun _ => ?_
    refine ro_known (fun d d' h => h.2.2) ?_
    exact ro_resp (K := placeKeys l) (fun d d' h k hk => h.1.1 k (hL k (List.mem_append_right _ hk))) (layout_loc l)

/-! Frequency responses. -/

theorem axis_node (n : Int) (i : Nat) : Resp (responseOnly n) (freqNode (.int n) i) := by
  have hn : ("node_nums" : String) ∈ responseOnly n := List.mem_append_left _ (by inlist)
  have hA : ∀ k ∈ axisKeys n, k ∈ responseOnly n := fun k hk => List.mem_append_right _ hk
  unfold freqNode
  refine resp_bind (resp_row ?_) fun _ => ?_
  · simp only [List.forall_mem_cons, List.not_mem_nil, false_implies, implies_true, and_true]
    exact resp_intAt hn
  have app : ∀ {a b : List Fld}, (∀ f ∈ a, RespFld (responseOnly n) f) → (∀ f ∈ b, RespFld (responseOnly n) f) →
      ∀ f ∈ a ++ b, RespFld (responseOnly n) f := by
    intro a b ha hb f hf
    rcases List.mem_append.1 hf with h | h
    · exact ha f h
    · exact hb f h
  by_cases h3 : n = 3
  · subst h3
    exact resp_row (app (resp_reIm (hA "x" (by inlist))) (app (resp_reIm (hA "y" (by inlist))) (resp_reIm (hA "z" (by inlist)))))
  by_cases h2 : n = 2
  · subst h2
    exact resp_row (app (resp_reIm (hA "x" (by inlist))) (resp_reIm (hA "y" (by inlist))))
  by_cases h1 : n = 1
  · subst h1
    exact resp_row (resp_reIm (hA "x" (by inlist)))
  unfold Val.numEq
  simp only [h1, h2, h3, decide_false, Bool.false_eq_true, if_false]
  exact resp_pure _

/-- Dictionaries of frequency responses with a known number of values. -/
def KnownResponse (n : Int) (d d' : Dict) : Prop :=
  KnownAt (responseOnly n) "analysis_type" (.int 5) d d' ∧ KnownAt (responseOnly n) "number_of_data_values_for_the_data_component" (.int n) d d'

theorem response2414 (n : Int) : RespO (KnownResponse n) write2414 := by
  have hK : ∀ d d', KnownResponse n d d' → Agree (resultKeys ++ responseKeys.filter fun k => k ∉ ["x", "y", "z"]) d d' := fun d d' h k hk =>
    h.1.1 k (List.mem_append_left _ hk)
  unfold write2414
  refine ro_guardedAny (ro_bind (rr_opt fun d d' h => ⟨knownAt_opt h.1 _, knownAt_opt h.2 _⟩) fun _ => ?_)
  refine ro_bind (rr_emit _) fun _ => ?_
  iterate 9 refine ro_bind (rr_row hK (by respflds)) fun _ => ?_
  refine ro_known (fun d d' h => h.1.2) ?_
  show RespO _ freqRest
  unfold freqRest freqInts
  iterate 4 refine ro_bind (rr_row hK (by respflds)) fun _ => ?_
  refine ro_bind (rr_key fun d d' h => hK d d' h "node_nums" (by inlist)) fun _ => ?_
  refine ro_bind (rr_lift _) fun _ => ?_
  refine ro_known (fun d d' h => h.2.2) ?_
  exact ro_resp (K := responseOnly n) (fun d d' h => h.1.1) (resp_bind' (resp_forL fun i _ => axis_node n i) fun _ => resp_emit _)

end Verif
