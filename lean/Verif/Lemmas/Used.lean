import Verif.Spec.Used
import Verif.Lemmas.Same58
/-
Writers look only at the entries they use.
-/
namespace Verif

/-- Equal entries for the keys in `K`. -/
def Agree (K : List String) (d d' : Dict) : Prop := ∀ k ∈ K, d.get? (.s k) = d'.get? (.s k)

variable {K : List String}

theorem Agree.get {d d' : Dict} (h : Agree K d d') {k : String} (hk : k ∈ K) : d.get (.s k) = d'.get (.s k) := by
  unfold Dict.get
  rw [h k hk]

theorem Agree.has {d d' : Dict} (h : Agree K d d') {k : String} (hk : k ∈ K) : d.has (.s k) = d'.has (.s k) := by
  unfold Dict.has
  rw [h k hk]

theorem Agree.at_ {d d' : Dict} (h : Agree K d d') {k : String} (hk : k ∈ K) (i : Nat) : Fld.at_ (.s k) i d = Fld.at_ (.s k) i d' := by
  unfold Fld.at_
  rw [h.get hk]

theorem Agree.set {d d' : Dict} (h : Agree K d d') (q : Key) (v : Val) : Agree K (d.set q v) (d'.set q v) := by
  intro k hk
  by_cases hq : q = .s k
  · subst hq; rw [Dict.get?_set_self, Dict.get?_set_self]
  · rw [Dict.get?_set_ne _ _ _ _ hq, Dict.get?_set_ne _ _ _ _ hq, h k hk]

namespace W

/-- `m` does the same to both dictionaries. -/
def Resp {α} (K : List String) (m : W α) : Prop :=
  ∀ d d', Agree K d d' → (m d).out = (m d').out ∧ (m d).res = (m d').res ∧ Agree K (m d).dict (m d').dict

variable {α β : Type}

theorem resp_const {m : W α} (o : Text) (r : Res α) (h : ∀ d, m d = ⟨o, d, r⟩) : Resp K m := by
  intro d d' hd
  rw [h d, h d']
  exact ⟨rfl, rfl, hd⟩

theorem resp_emit (t : Text) : Resp K (W.emit t) := resp_const t _ fun _ => rfl
theorem resp_lift (r : Res α) : Resp K (W.lift r) := resp_const [] r fun _ => rfl
theorem resp_raise (x : Err) : Resp K (W.raise x : W α) := resp_const [] _ fun _ => rfl
theorem resp_pure (a : α) : Resp K (W.pure a) := resp_const [] _ fun _ => rfl
theorem resp_key {q : String} (hq : q ∈ K) : Resp K (W.key (.s q)) := fun _ _ h => ⟨rfl, h.get hq, h⟩
theorem resp_keyAt {q : String} (hq : q ∈ K) (i : Nat) : Resp K (W.keyAt (.s q) i) := fun _ _ h => ⟨rfl, h.at_ hq i, h⟩

theorem resp_bind {m : W α} {f : α → W β} (hm : Resp K m) (hf : ∀ a, Resp K (f a)) : Resp K (W.bind m f) := by
  intro d d' hd
  obtain ⟨h1, h2, h3⟩ := hm d d' hd
  unfold W.bind
  rcases h : m d with ⟨o, e, r⟩
  rcases h' : m d' with ⟨o', e', r'⟩
  rw [h, h'] at h1 h2 h3
  simp only at h1 h2 h3
  subst h1 h2
  cases r with
  | error x => exact ⟨rfl, rfl, h3⟩
  | ok a =>
    obtain ⟨g1, g2, g3⟩ := hf a e e' h3
    exact ⟨by simp only [g1], g2, g3⟩
theorem resp_bind' {m : W α} {f : α → W β} (hm : Resp K m) (hf : ∀ a, Resp K (f a)) : Resp K (m >>= f) := resp_bind hm hf

theorem resp_when (b : Prop) [Decidable b] {m : W Unit} (hm : Resp K m) : Resp K (W.when b m) := by
  unfold W.when
  split
  · exact hm
  · exact resp_pure ()

theorem resp_forL {l : List α} {body : α → W Unit} (h : ∀ a ∈ l, Resp K (body a)) : Resp K (W.forL l body) := by
  induction l with
  | nil => exact resp_pure ()
  | cons a r ih => exact resp_bind (h a List.mem_cons_self) fun _ => ih fun b hb => h b (List.mem_cons_of_mem _ hb)

theorem resp_guarded {s : Nat} {m : W α} (hm : Resp K m) : Resp K (W.guarded s m) := by
  intro d d' hd
  obtain ⟨h1, h2, h3⟩ := hm d d' hd
  unfold W.guarded
  rcases h : m d with ⟨o, e, r⟩
  rcases h' : m d' with ⟨o', e', r'⟩
  rw [h, h'] at h1 h2 h3
  simp only at h1 h2 h3
  subst h1 h2
  cases r with
  | ok a => exact ⟨rfl, rfl, h3⟩
  | error x => cases x <;> first | exact ⟨rfl, rfl, h3⟩ | (rename_i q; cases q <;> exact ⟨rfl, rfl, h3⟩)

theorem resp_guardedAny {s : Nat} {m : W α} (hm : Resp K m) : Resp K (W.guardedAny s m) := by
  intro d d' hd
  obtain ⟨h1, h2, h3⟩ := hm d d' hd
  unfold W.guardedAny
  rcases h : m d with ⟨o, e, r⟩
  rcases h' : m d' with ⟨o', e', r'⟩
  rw [h, h'] at h1 h2 h3
  simp only at h1 h2 h3
  subst h1 h2
  cases r with
  | ok a => exact ⟨rfl, rfl, h3⟩
  | error x => cases x <;> first | exact ⟨rfl, rfl, h3⟩ | (rename_i q; cases q <;> exact ⟨rfl, rfl, h3⟩)

theorem resp_none {m : W Unit} (hm : Resp K m) : Resp K (W.none m : W (Option α)) := by
  intro d d' hd
  obtain ⟨h1, h2, h3⟩ := hm d d' hd
  exact ⟨h1, by show (m d).res.map _ = (m d').res.map _; rw [h2], h3⟩

theorem resp_opt (fs : List (Key × Val)) : Resp K (W.opt fs) := by
  intro d d' hd
  refine ⟨rfl, rfl, fun q hq => ?_⟩
  show (optFields d fs).get? _ = (optFields d' fs).get? _
  rw [get?_optFields, get?_optFields, hd q hq]

theorem resp_put (q : Key) (x : Val) : Resp K (W.put q x) := fun _ _ hd => ⟨rfl, rfl, hd.set q x⟩

/-- The expression has the same value. -/
def RespFld (K : List String) (f : Fld) : Prop := ∀ d d', Agree K d d' → f.acc d = f.acc d'

theorem resp_eval {fs : List Fld} (h : ∀ f ∈ fs, RespFld K f) {d d' : Dict} (hd : Agree K d d') : evalFlds d fs = evalFlds d' fs := by
  induction fs with
  | nil => rfl
  | cons f r ih =>
    unfold evalFlds
    rw [h f List.mem_cons_self d d' hd, ih fun g hg => h g (List.mem_cons_of_mem _ hg)]

theorem resp_format {fs : List Fld} (h : ∀ f ∈ fs, RespFld K f) : Resp K (W.format fs) := by
  intro d d' hd
  refine ⟨rfl, ?_, hd⟩
  unfold W.format
  simp only [resp_eval h hd]

theorem resp_row {fs : List Fld} (h : ∀ f ∈ fs, RespFld K f) : Resp K (W.row fs) := resp_bind (resp_format h) fun _ => resp_emit _

theorem resp_get {q : String} (hq : q ∈ K) {fmt : Val → Res Text} : RespFld K ⟨fun d => d.get (.s q), fmt⟩ := fun _ _ h => h.get hq
theorem resp_i {q : String} {w : Nat} (hq : q ∈ K) : RespFld K (.i w (.s q)) := resp_get hq
theorem resp_e {q : String} {w p : Nat} (hq : q ∈ K) : RespFld K (.e w p (.s q)) := resp_get hq
theorem resp_sl {q : String} {w : Nat} (hq : q ∈ K) : RespFld K (.sl w (.s q)) := resp_get hq
theorem resp_sr {q : String} {w : Nat} (hq : q ∈ K) : RespFld K (.sr w (.s q)) := resp_get hq
theorem resp_sr1 {q : String} {w : Nat} (hq : q ∈ K) : RespFld K (.sr1 w (.s q)) := resp_get hq
theorem resp_sl1 {q : String} {w : Nat} (hq : q ∈ K) : RespFld K (.sl1 w (.s q)) := resp_get hq
theorem resp_e2 {q : String} (hq : q ∈ K) : RespFld K (.e2 (.s q)) := resp_get hq
theorem resp_re {q : String} {w p : Nat} (hq : q ∈ K) : RespFld K (.re w p (·.get (.s q))) := fun d d' h => by
  unfold Fld.re; simp only [h.get hq]
theorem resp_im {q : String} {w p : Nat} (hq : q ∈ K) : RespFld K (.im w p (·.get (.s q))) := fun d d' h => by
  unfold Fld.im; simp only [h.get hq]
theorem resp_c {fmt : Val → Res Text} {v : Val} : RespFld K (.c fmt v) := fun _ _ _ => rfl
theorem resp_fix {fmt : Val → Res Text} {v : Res Val} : RespFld K ⟨fun _ => v, fmt⟩ := fun _ _ _ => rfl
theorem resp_at {q : String} {i : Nat} (hq : q ∈ K) {fmt : Val → Res Text} : RespFld K ⟨Fld.at_ (.s q) i, fmt⟩ := fun _ _ h => h.at_ hq i
theorem resp_at2 {q : String} {i j : Nat} (hq : q ∈ K) {fmt : Val → Res Text} : RespFld K ⟨Fld.at2 (.s q) i j, fmt⟩ := fun d d' h => by
  show Fld.at2 (.s q) i j d = Fld.at2 (.s q) i j d'
  unfold Fld.at2; rw [h.at_ hq]
theorem resp_intAt {q : String} {i w : Nat} (hq : q ∈ K) : RespFld K (.intAt w (.s q) i) := fun d d' h => by
  unfold Fld.intAt; simp only [h.at_ hq]
theorem resp_lenAt {q : String} {i w : Nat} (hq : q ∈ K) : RespFld K (.lenAt w (.s q) i) := fun d d' h => by
  unfold Fld.lenAt; simp only [h.at_ hq]
theorem resp_reAt {q : String} {i w p : Nat} (hq : q ∈ K) : RespFld K (.re w p (Fld.at_ (.s q) i)) := fun d d' h => by
  unfold Fld.re; simp only [h.at_ hq]
theorem resp_imAt {q : String} {i w p : Nat} (hq : q ∈ K) : RespFld K (.im w p (Fld.at_ (.s q) i)) := fun d d' h => by
  unfold Fld.im; simp only [h.at_ hq]
theorem resp_reIm {q : String} {i : Nat} (hq : q ∈ K) : ∀ f ∈ reIm (.s q) i, RespFld K f := by
  intro f hf
  simp only [reIm, List.mem_cons, List.not_mem_nil, or_false] at hf
  rcases hf with rfl | rfl
  all_goals
    intro d d' h
    simp only [h.at_ hq]

theorem resp_getDict {f : Dict → W β} (h : ∀ d d', Agree K d d' → f d = f d') (hf : ∀ d, Resp K (f d)) : Resp K (W.getDict >>= f) := by
  intro d d' hd
  have e : ∀ d : Dict, (W.getDict >>= f) d = f d d := by
    intro d
    show W.bind W.getDict _ d = _
    unfold W.bind W.getDict
    simp
  rw [e, e, ← h d d' hd]
  exact hf _ d d' hd

theorem resp_record (vs : List Val) (fs : List RFmt) (b : Bool) : Resp K (writeRecord vs fs b) :=
  resp_bind (resp_lift _) fun _ => resp_emit _

end W
open W

/-- The key is one of the list. -/
macro "inlist" : tactic => `(tactic| exact of_decide_eq_true rfl)

/-- All the expressions of a line have the same values. -/
macro "respflds" : tactic => `(tactic|
  (simp only [List.forall_mem_cons, List.not_mem_nil, false_implies, implies_true, and_true]
   repeat' first
    | with_reducible apply And.intro
    | with_reducible exact resp_c
    | (with_reducible apply resp_i; inlist; done)
    | (with_reducible apply resp_e; inlist; done)
    | (with_reducible apply resp_sl; inlist; done)
    | (with_reducible apply resp_sr; inlist; done)
    | (with_reducible apply resp_sr1; inlist; done)
    | (with_reducible apply resp_sl1; inlist; done)
    | (with_reducible apply resp_e2; inlist; done)
    | (with_reducible apply resp_at; inlist; done)
    | (with_reducible apply resp_at2; inlist; done)
    | (with_reducible apply resp_intAt; inlist; done)
    | (with_reducible apply resp_lenAt; inlist; done)
    | (with_reducible apply resp_reAt; inlist; done)
    | (with_reducible apply resp_imAt; inlist; done)
    | (with_reducible apply resp_get; inlist; done)
    | (apply resp_re; inlist; done)
    | (apply resp_im; inlist; done)
    | exact resp_fix))

/-- The steps of a writer. -/
macro "respstep" : tactic => `(tactic|
  (repeat' first
    | with_reducible refine resp_bind' ?_ (fun _ => ?_)
    | with_reducible refine resp_bind ?_ (fun _ => ?_)
    | with_reducible exact resp_emit _
    | with_reducible exact resp_lift _
    | with_reducible exact resp_raise _
    | with_reducible exact resp_pure _
    | with_reducible exact resp_opt _
    | with_reducible exact resp_put _ _
    | with_reducible exact resp_record _ _ _
    | (with_reducible apply resp_key; inlist; done)
    | (with_reducible apply resp_keyAt; inlist; done)
    | with_reducible apply resp_when
    | with_reducible refine resp_forL (fun _ _ => ?_)
    | with_reducible apply resp_guarded
    | with_reducible apply resp_guardedAny
    | (with_reducible apply resp_row; respflds; done)
    | (with_reducible apply resp_format; respflds; done)))

theorem resp18 : Resp (usedKeys 18) write18 := by
  unfold write18
  respstep

theorem resp82 : Resp (usedKeys 82) write82 := by
  unfold write82 nodeLine
  respstep

theorem resp151 (ds ts : Text) : Resp (usedKeys 151) (write151 ds ts) := by
  unfold write151
  respstep

theorem resp164 : Resp (usedKeys 164) write164 := by
  unfold write164
  respstep

theorem resp1858 : Resp (usedKeys 1858) write1858 := by
  unfold write1858
  respstep

theorem resp2400 : Resp (usedKeys 2400) write2400 := by
  unfold write2400
  respstep

theorem resp2411 : Resp (usedKeys 2411) write2411 := by
  unfold write2411
  respstep

theorem resp2429 : Resp (usedKeys 2429) write2429 := by
  unfold write2429
  respstep

theorem resp15 : Resp (usedKeys 15) write15 := by
  unfold write15
  refine resp_guarded (resp_bind' (resp_key (by inlist)) fun _ => ?_)
  refine resp_bind' (resp_lift _) fun n => ?_
  refine resp_bind' (resp_opt _) fun _ => ?_
  refine resp_bind' (resp_record _ _ _) fun _ => ?_
  refine resp_bind' (resp_forL fun i _ => ?_) fun _ => resp_record _ _ _
  refine resp_getDict (fun d d' hd => ?_) fun d => resp_bind' (resp_lift _) fun _ => resp_record _ _ _
  rw [resp_eval ?_ hd]
  simp only [List.map_cons, List.map_nil]
  respflds

theorem resp_makeComplex {q : String} (hq : q ∈ K) : Resp K (makeComplex (.s q)) := by
  unfold makeComplex
  refine resp_bind (resp_key hq) fun _ => ?_
  respstep

theorem resp55 : Resp (usedKeys 55) write55 := by
  unfold write55
  refine resp_guarded (resp_bind' (resp_opt _) fun _ => ?_)
  refine resp_bind' (resp_key (by inlist)) fun _ => ?_
  refine resp_bind' (resp_lift _) fun an => ?_
  refine resp_bind' ?_ fun _ => ?_
  · unfold prep55
    split
    · exact resp_opt _
    · exact resp_bind (resp_opt _) fun _ => resp_bind (resp_makeComplex (by inlist)) fun _ => resp_makeComplex (by inlist)
    · exact resp_pure _
    · exact resp_raise _
  refine resp_getDict (fun d d' hd => ?_) fun d => ?_
  · simp only [hd.has (k := "r4") (by inlist), hd.has (k := "r5") (by inlist), hd.has (k := "r6") (by inlist)]
  refine resp_bind' (resp_key (by inlist)) fun _ => ?_
  refine resp_bind' (resp_lift _) fun cplx => ?_
  refine resp_bind' (resp_emit _) fun _ => ?_
  iterate 6 refine resp_bind' (resp_row (by respflds)) fun _ => ?_
  refine resp_bind' ?_ fun _ => ?_
  · unfold head55
    split <;> respstep
  refine resp_bind' (resp_key (by inlist)) fun _ => ?_
  refine resp_bind' (resp_lift _) fun n => ?_
  refine resp_bind' (resp_forL fun i _ => ?_) fun _ => resp_emit _
  refine resp_bind' (resp_row (by respflds)) fun _ => resp_row ?_
  unfold vals55
  split
  · respflds
  · split <;> respflds

theorem resp58 (little fd : Bool) : Resp ("data" :: usedKeys 58) (write58 little fd) := by
  unfold write58
  refine resp_guarded (resp_bind' (resp_key (by inlist)) fun _ => ?_)
  refine resp_bind' (resp_lift _) fun _ => ?_
  refine resp_bind' (resp_when _ (resp_raise _)) fun _ => ?_
  refine resp_bind' (resp_opt _) fun _ => ?_
  refine resp_bind' (resp_key (by inlist)) fun _ => ?_
  refine resp_bind' (resp_lift _) fun _ => ?_
  refine resp_bind' (resp_lift _) fun _ => ?_
  refine resp_bind' (resp_when _ (resp_put _ _)) fun _ => ?_
  refine resp_bind' (resp_key (by inlist)) fun _ => ?_
  refine resp_bind' (resp_lift _) fun _ => ?_
  refine resp_getDict (fun d d' hd => ?_) fun d => ?_
  · rw [hd.has (k := "n_bytes") (by inlist)]
  refine resp_bind' (resp_when _ (resp_bind (resp_lift _) fun _ => resp_put _ _)) fun _ => ?_
  refine resp_bind' (resp_key (by inlist)) fun _ => ?_
  refine resp_bind' (resp_lift _) fun _ => ?_
  refine resp_bind' (resp_key (by inlist)) fun _ => ?_
  refine resp_bind' (resp_lift _) fun _ => ?_
  refine resp_bind' (resp_put _ _) fun _ => ?_
  refine resp_bind' (resp_lift _) fun _ => ?_
  refine resp_bind' (resp_lift _) fun _ => ?_
  refine resp_bind' (resp_emit _) fun _ => ?_
  refine resp_bind' (resp_key (by inlist)) fun _ => ?_
  refine resp_bind' (resp_lift _) fun _ => ?_
  refine resp_bind' ?_ fun _ => ?_
  · unfold idRest58
    split
    · exact resp_bind (resp_lift _) fun _ => resp_row (by respflds)
    · exact resp_emit _
  iterate 7 refine resp_bind' (resp_row (by respflds)) fun _ => ?_
  iterate 4 refine resp_bind' (resp_row (by simp only [abscissaKeys, ordinateKeys, orddenomKeys, zAxisKeys]; respflds)) fun _ => ?_
  refine resp_bind' (resp_lift _) fun _ => ?_
  refine resp_bind' (resp_lift _) fun _ => ?_
  unfold body58
  split
  · exact resp_pure _
  · split
    · exact resp_raise _
    · exact resp_bind (resp_emit _) fun _ => resp_bind (resp_emit _) fun _ => resp_pure _

theorem resp_writeVals (v : Val) : Resp K (writeVals v) := by
  unfold writeVals
  respstep

theorem resp_freqNode (n : Val) (i : Nat) : Resp (usedKeys 2414) (freqNode n i) := by
  unfold freqNode
  have hx : ("x" : String) ∈ usedKeys 2414 := by inlist
  have hy : ("y" : String) ∈ usedKeys 2414 := by inlist
  have hz : ("z" : String) ∈ usedKeys 2414 := by inlist
  refine resp_bind (resp_row (by respflds)) fun _ => ?_
  have app : ∀ {a b : List Fld}, (∀ f ∈ a, RespFld (usedKeys 2414) f) → (∀ f ∈ b, RespFld (usedKeys 2414) f) →
      ∀ f ∈ a ++ b, RespFld (usedKeys 2414) f := by
    intro a b ha hb f hf
    rcases List.mem_append.1 hf with h | h
    · exact ha f h
    · exact hb f h
  split
  · exact resp_row (app (resp_reIm hx) (app (resp_reIm hy) (resp_reIm hz)))
  split
  · exact resp_row (app (resp_reIm hx) (resp_reIm hy))
  split
  · exact resp_row (resp_reIm hx)
  · exact resp_pure _

theorem resp_freqRest : Resp (usedKeys 2414) freqRest := by
  unfold freqRest freqInts
  refine resp_bind' (resp_row (by respflds)) fun _ => ?_
  refine resp_bind' (resp_row (by respflds)) fun _ => ?_
  refine resp_bind' (resp_row (by respflds)) fun _ => ?_
  refine resp_bind' (resp_row (by respflds)) fun _ => ?_
  refine resp_bind' (resp_key (by inlist)) fun _ => ?_
  refine resp_bind' (resp_lift _) fun _ => ?_
  refine resp_bind' (resp_key (by inlist)) fun _ => ?_
  exact resp_bind' (resp_forL fun i _ => resp_freqNode _ i) fun _ => resp_emit _

theorem resp_locRest (loc : Val) : Resp (usedKeys 2414) (locRest loc) := by
  unfold locRest
  split
  · unfold locNodes
    respstep
    exact resp_writeVals _
  split
  · unfold locElems
    respstep
    exact resp_writeVals _
  split
  · unfold locElemNodes
    respstep
    exact resp_writeVals _
  split
  · exact resp_pure _
  · exact resp_emit _

theorem resp2414 : Resp (usedKeys 2414) write2414 := by
  unfold write2414
  refine resp_guardedAny (resp_bind' (resp_opt _) fun _ => ?_)
  refine resp_bind' (resp_emit _) fun _ => ?_
  iterate 9 refine resp_bind' (resp_row (by respflds)) fun _ => ?_
  refine resp_bind' (resp_key (by inlist)) fun _ => ?_
  split
  · exact resp_freqRest
  · unfold plainRest
    iterate 4 refine resp_bind' (resp_row (by respflds)) fun _ => ?_
    exact resp_bind' (resp_key (by inlist)) fun _ => resp_locRest _

theorem Agree.lenKey {d d' : Dict} (h : Agree K d d') {k : String} (hk : k ∈ K) : lenKey d (.s k) = lenKey d' (.s k) := by
  unfold Verif.lenKey
  rw [h.get hk]

theorem resp_matLine (i j : Nat) : Resp (usedKeys 2420) (matLine i j) := by
  unfold matLine
  refine resp_getDict (fun d d' hd => ?_) fun d => by respstep
  unfold matRow
  rw [hd.at_ (k := "CS_matrices") (by inlist)]

theorem resp2420 : Resp (usedKeys 2420) write2420 := by
  unfold write2420
  refine resp_guardedAny (resp_bind' (resp_opt _) fun _ => ?_)
  refine resp_bind' (resp_emit _) fun _ => ?_
  iterate 2 refine resp_bind' (resp_row (by respflds)) fun _ => ?_
  refine resp_getDict (fun d d' hd => ?_) fun d => ?_
  · simp only [mapRes, hd.lenKey (k := "CS_sys_labels") (by inlist), hd.lenKey (k := "CS_types") (by inlist),
      hd.lenKey (k := "CS_colors") (by inlist), hd.lenKey (k := "CS_names") (by inlist), hd.lenKey (k := "CS_matrices") (by inlist)]
  respstep
  all_goals exact resp_matLine _ _

theorem resp_group2467 (g : Val) : Resp K (writeGroup2467 g) := by
  unfold writeGroup2467
  refine resp_bind' (resp_lift _) fun _ => ?_
  refine resp_bind' (resp_lift _) fun n => ?_
  refine resp_bind' (resp_row (by respflds)) fun _ => ?_
  refine resp_bind' (resp_row (by respflds)) fun _ => ?_
  refine resp_forL fun j _ => resp_row ?_
  unfold entFlds
  split
  · simp only [List.cons_append, List.nil_append]
    respflds
  · respflds

theorem resp2467 : Resp (usedKeys 2467) write2467 := by
  unfold write2467
  respstep
  exact resp_group2467 _

/-! Elements. -/

theorem resp_elem (v : Val) : Resp K (writeElem v) := by
  unfold writeElem
  respstep

theorem groups_int (d : Dict) (e : Dict) : W.forL d writeGroup e =
    W.forL (intEntries d) (fun p => W.bind (W.lift p.2.items) fun l => W.forL l writeElem) e := by
  induction d generalizing e with
  | nil => rfl
  | cons a r ih =>
    obtain ⟨k, v⟩ := a
    cases k with
    | s k =>
      show W.bind (W.pure ()) (fun _ => W.forL r writeGroup) e = _
      unfold W.bind W.pure
      simp only [intEntries, List.nil_append]
      exact ih e
    | i n =>
      simp only [intEntries]
      show W.bind (writeGroup (.i n, v)) (fun _ => W.forL r writeGroup) e = W.bind _ _ e
      have hg : writeGroup (.i n, v) = W.bind (W.lift v.items) fun l => W.forL l writeElem := rfl
      rw [hg]
      congr 1
      funext _ e
      exact ih e

theorem resp2412 {d d' : Dict} (h : intEntries d = intEntries d') :
    (write2412 d).out = (write2412 d').out ∧ (write2412 d).res = (write2412 d').res := by
  have e : ∀ d, write2412 d = W.guardedAny 2412 (W.bind (W.emit (headText 2412)) fun _ =>
      W.bind (W.forL (intEntries d) (fun p => W.bind (W.lift p.2.items) fun l => W.forL l writeElem)) fun _ => W.emit tailText) d := by
    intro d
    unfold write2412 W.guardedAny
    congr 1
    show W.bind (W.emit _) (fun _ => W.bind W.getDict fun d => W.bind (W.forL d writeGroup) fun _ => W.emit tailText) d = _
    unfold W.bind W.emit W.getDict
    simp only [groups_int]
    rfl
  rw [e d, e d', ← h]
  obtain ⟨h1, h2, -⟩ := (show Resp [] (W.guardedAny 2412 (W.bind (W.emit (headText 2412)) fun _ =>
      W.bind (W.forL (intEntries d) (fun p => W.bind (W.lift p.2.items) fun l => W.forL l writeElem)) fun _ => W.emit tailText)) by
    respstep
    exact resp_elem _) d d' (fun k hk => absurd hk List.not_mem_nil)
  exact ⟨h1, h2⟩

end Verif
