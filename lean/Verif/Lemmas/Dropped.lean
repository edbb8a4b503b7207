import Verif.Lemmas.Used
import Verif.Lemmas.Accept58
/-
Entries that writers look at only in some cases.
-/
namespace Verif
open W (Resp resp_bind' resp_key resp_lift resp_emit resp_opt resp_put resp_when resp_raise resp_row resp_pure resp_i resp_e resp_sl resp_sr resp_c)

/-- `m` does the same to two dictionaries with the relation `R`, and keeps the relation. -/
def RespR {α : Type} (R : Dict → Dict → Prop) (m : W α) : Prop :=
  ∀ d d', R d d' → (m d).out = (m d').out ∧ (m d).res = (m d').res ∧ R (m d).dict (m d').dict

variable {R : Dict → Dict → Prop} {α β : Type}

theorem rr_resp {K : List String} {m : W α} (hK : ∀ d d', R d d' → Agree K d d') (hm : Resp K m) (hd : ∀ d, (m d).dict = d) : RespR R m := by
  intro d d' h
  obtain ⟨h1, h2, -⟩ := hm d d' (hK d d' h)
  rw [hd, hd]
  exact ⟨h1, h2, h⟩

theorem rr_const {m : W α} (o : Text) (r : Res α) (h : ∀ d, m d = ⟨o, d, r⟩) : RespR R m := by
  intro d d' hd
  rw [h d, h d']
  exact ⟨rfl, rfl, hd⟩

theorem rr_emit (t : Text) : RespR R (W.emit t) := rr_const t _ fun _ => rfl
theorem rr_lift (r : Res α) : RespR R (W.lift r) := rr_const [] r fun _ => rfl
theorem rr_raise (x : Err) : RespR R (W.raise x : W α) := rr_const [] _ fun _ => rfl
theorem rr_pure (a : α) : RespR R (W.pure a) := rr_const [] _ fun _ => rfl

theorem rr_key {k : Key} (h : ∀ d d', R d d' → d.get? k = d'.get? k) : RespR R (W.key k) := by
  intro d d' hd
  refine ⟨rfl, ?_, hd⟩
  show d.get k = d'.get k
  unfold Dict.get
  rw [h d d' hd]

theorem rr_put {k : Key} {v : Val} (h : ∀ d d', R d d' → R (d.set k v) (d'.set k v)) : RespR R (W.put k v) :=
  fun d d' hd => ⟨rfl, rfl, h d d' hd⟩

theorem rr_opt {fs : List (Key × Val)} (h : ∀ d d', R d d' → R (optFields d fs) (optFields d' fs)) : RespR R (W.opt fs) :=
  fun d d' hd => ⟨rfl, rfl, h d d' hd⟩

theorem rr_bind {m : W α} {f : α → W β} (hm : RespR R m) (hf : ∀ a, RespR R (f a)) : RespR R (m >>= f) := by
  intro d d' hd
  obtain ⟨h1, h2, h3⟩ := hm d d' hd
  show (W.bind m f d).out = (W.bind m f d').out ∧ (W.bind m f d).res = (W.bind m f d').res ∧ R (W.bind m f d).dict (W.bind m f d').dict
  unfold W.bind
  rcases h : m d with ⟨o, e, r⟩
  rcases h' : m d' with ⟨o', e', r'⟩
  rw [h, h'] at h1 h2 h3
  simp only at h1 h2 h3
  subst h1 h2
  cases r with
  | error x => exact ⟨rfl, rfl, h3⟩
  | ok a =>
    obtain ⟨g1, g2, g3⟩ := hf a e e' h3
    exact ⟨by simp only [g1], g2, g3⟩

theorem rr_when {c : Prop} [Decidable c] {m : W Unit} (hm : RespR R m) : RespR R (W.when c m) := by
  unfold W.when
  split
  · exact hm
  · exact rr_pure ()

theorem rr_forL {l : List α} {body : α → W Unit} (h : ∀ a ∈ l, RespR R (body a)) : RespR R (W.forL l body) := by
  induction l with
  | nil => exact rr_pure ()
  | cons a r ih => exact rr_bind (h a List.mem_cons_self) fun _ => ih fun b hb => h b (List.mem_cons_of_mem _ hb)

theorem rr_guarded {s : Nat} {m : W α} (hm : RespR R m) : RespR R (W.guarded s m) := by
  intro d d' hd
  obtain ⟨h1, h2, h3⟩ := hm d d' hd
  unfold W.guarded
  rcases h : m d with ⟨o, e, r⟩
  rcases h' : m d' with ⟨o', e', r'⟩
  rw [h, h'] at h1 h2 h3
  simp only at h1 h2 h3
  subst h1 h2
  cases r with
  | ok a => exact ⟨rfl, rfl, h3⟩
  | error x => cases x <;> first | exact ⟨rfl, rfl, h3⟩ | (rename_i q; cases q <;> exact ⟨rfl, rfl, h3⟩)

/-- A key is looked up for two different values: the rest does the same with both. -/
theorem rr_key_two {k : Key} {f : Val → W β} {P : Val → Val → Prop} (h : ∀ d d', R d d' → ∃ v v', d.get? k = some v ∧ d'.get? k = some v' ∧ P v v')
    (hf : ∀ v v', P v v' → ∀ d d', R d d' → (f v d).out = (f v' d').out ∧ (f v d).res = (f v' d').res ∧ R (f v d).dict (f v' d').dict) :
    RespR R (W.key k >>= f) := by
  intro d d' hd
  obtain ⟨v, v', h1, h2, h3⟩ := h d d' hd
  obtain ⟨g1, g2, g3⟩ := hf v v' h3 d d' hd
  have e : ∀ (d : Dict) v, d.get? k = some v → (W.key k >>= f) d = ⟨[] ++ (f v d).out, (f v d).dict, (f v d).res⟩ := by
    intro d v hv
    show W.bind (W.key k) f d = _
    unfold W.bind W.key Dict.get
    rw [hv]
  rw [e d v h1, e d' v' h2, g1]
  exact ⟨rfl, g2, g3⟩

/-- A key is looked up, and something is known about its value. -/
theorem rr_key_with {k : Key} {f : Val → W β} {P : Val → Prop} (h : ∀ d d', R d d' → d.get? k = d'.get? k ∧ ∀ v, d.get? k = some v → P v)
    (hf : ∀ v, P v → RespR R (f v)) : RespR R (W.key k >>= f) := by
  intro d d' hd
  obtain ⟨h1, h2⟩ := h d d' hd
  show (W.bind _ f d).out = (W.bind _ f d').out ∧ (W.bind _ f d).res = (W.bind _ f d').res ∧ R (W.bind _ f d).dict (W.bind _ f d').dict
  unfold W.bind W.key Dict.get
  rw [← h1]
  cases hv : d.get? k with
  | none => exact ⟨rfl, rfl, hd⟩
  | some v =>
    obtain ⟨g1, g2, g3⟩ := hf v (h2 v hv) d d' hd
    simp only
    exact ⟨by rw [g1], g2, g3⟩

theorem rr_getDict {f : Dict → W β} (h : ∀ d d', R d d' → f d = f d') (hf : ∀ d, RespR R (f d)) : RespR R (W.getDict >>= f) := by
  intro d d' hd
  have e : ∀ d : Dict, (W.getDict >>= f) d = f d d := by
    intro d
    show W.bind W.getDict _ d = _
    unfold W.bind W.getDict
    simp
  rw [e, e, ← h d d' hd]
  exact hf _ d d' hd

theorem row_keeps (fs : List Fld) (d : Dict) : (W.row fs d).dict = d := (W.Keeps.run (W.keeps_row W.pre_eq fs) d).symm

theorem rr_row {K : List String} {fs : List Fld} (hK : ∀ d d', R d d' → Agree K d d') (h : ∀ f ∈ fs, W.RespFld K f) : RespR R (W.row fs) :=
  rr_resp hK (resp_row h) (row_keeps fs)

/-! Data at nodes with complex values. -/

/-- What is used when the first component is complex. -/
def usedComplex : List String := ["id1", "id2", "id3", "id4", "id5", "model_type", "analysis_type", "data_ch", "spec_data_type", "load_case",
  "mode_n", "freq_step_n", "freq", "eig", "modal_m", "modal_damp_vis", "modal_damp_his", "modal_a", "modal_b", "node_nums", "r1", "r2", "r3"]

/-- Dictionaries that differ at most in the values of components 4 to 6, with a complex first component. -/
structure Complex55 (d d' : Dict) : Prop where
  agree : Agree usedComplex d d'
  four : d.has "r4" = d'.has "r4"
  five : d.has "r5" = d'.has "r5"
  six : d.has "r6" = d'.has "r6"
  first : ∀ v, d.get? "r1" = some v → v.isComplexObj = .ok true

theorem has_set {d d' : Dict} {q k : Key} {v : Val} (h : d.has k = d'.has k) : (d.set q v).has k = (d'.set q v).has k := by
  unfold Dict.has at h ⊢
  by_cases hq : q = k
  · subst hq; rw [Dict.get?_set_self, Dict.get?_set_self]
  · rw [Dict.get?_set_ne _ _ _ _ hq, Dict.get?_set_ne _ _ _ _ hq, h]

theorem has_opt {d d' : Dict} {fs : List (Key × Val)} {k : Key} (h : d.has k = d'.has k) : (optFields d fs).has k = (optFields d' fs).has k := by
  unfold Dict.has at h ⊢
  rw [get?_optFields, get?_optFields]
  cases hd : d.get? k <;> cases hd' : d'.get? k <;> rw [hd, hd'] at h <;> first | rfl | cases h

theorem complex_set {d d' : Dict} (h : Complex55 d d') {q : String} (hq : q ≠ "r1") (v : Val) : Complex55 (d.set (.s q) v) (d'.set (.s q) v) :=
  ⟨h.agree.set _ _, has_set h.four, has_set h.five, has_set h.six, fun u hu =>
    h.first u (by rwa [Dict.get?_set_ne _ _ _ _ (fun h => hq (Key.s.inj h))] at hu)⟩

theorem complex_opt {d d' : Dict} (h : Complex55 d d') {fs : List (Key × Val)} (hf : Dict.get? fs "r1" = none) :
    Complex55 (optFields d fs) (optFields d' fs) := by
  refine ⟨fun k hk => ?_, has_opt h.four, has_opt h.five, has_opt h.six, fun u hu => h.first u ?_⟩
  · rw [get?_optFields, get?_optFields, h.agree k hk]
  · rwa [get?_optFields, hf, Option.or_none] at hu

theorem rr_makeComplex {q : String} (hq : q ∈ usedComplex) (hn : q ≠ "r1") : RespR Complex55 (makeComplex (.s q)) := by
  unfold makeComplex
  exact rr_bind (rr_key fun d d' h => h.agree q hq) fun v => rr_bind (rr_lift _) fun c => rr_when (rr_bind (rr_lift _) fun _ =>
    rr_put fun d d' h => complex_set h hn _)

theorem rr_lift_ok {r : Res α} {a : α} {f : α → W β} (hr : r = .ok a) (h : RespR R (f a)) : RespR R (W.lift r >>= f) := by
  subst hr
  intro d d' hd
  exact h d d' hd

theorem dropped55 : RespR Complex55 write55 := by
  have hK : ∀ d d', Complex55 d d' → Agree usedComplex d d' := fun _ _ h => h.agree
  unfold write55
  refine rr_guarded (rr_bind (rr_opt fun d d' h => complex_opt h rfl) fun _ => ?_)
  refine rr_bind (rr_key fun d d' h => h.agree _ (by inlist)) fun _ => ?_
  refine rr_bind (rr_lift _) fun an => ?_
  refine rr_bind ?_ fun _ => ?_
  · unfold prep55
    split
    · exact rr_opt fun d d' h => complex_opt h rfl
    · exact rr_bind (rr_opt fun d d' h => complex_opt h rfl) fun _ => rr_bind (rr_makeComplex (by inlist) (by decide)) fun _ =>
        rr_makeComplex (by inlist) (by decide)
    · exact rr_pure _
    · exact rr_raise _
  refine rr_getDict (fun d d' hd => ?_) fun d => ?_
  · simp only [hd.four, hd.five, hd.six]
  refine rr_key_with (P := fun v => v.isComplexObj = .ok true) (fun d d' h => ⟨h.agree _ (by inlist), h.first⟩) fun r1 h1 => ?_
  refine rr_lift_ok h1 ?_
  refine rr_bind (rr_emit _) fun _ => ?_
  iterate 6 refine rr_bind (rr_row hK (by respflds)) fun _ => ?_
  refine rr_bind ?_ fun _ => ?_
  · unfold head55
    split
    · exact rr_bind (rr_row hK (by respflds)) fun _ => rr_row hK (by respflds)
    · exact rr_bind (rr_row hK (by respflds)) fun _ => rr_row hK (by respflds)
    · exact rr_bind (rr_row hK (by respflds)) fun _ => rr_row hK (by respflds)
    · exact rr_raise _
  refine rr_bind (rr_key fun d d' h => h.agree _ (by inlist)) fun _ => ?_
  refine rr_bind (rr_lift _) fun n => ?_
  refine rr_bind (rr_forL fun i _ => ?_) fun _ => rr_emit _
  refine rr_bind (rr_row hK (by respflds)) fun _ => rr_row hK ?_
  unfold vals55
  rw [if_pos rfl]
  respflds

/-! Functions. -/

/-- What is used of a function whatever its spacing and however its precision is chosen. -/
def usedFunction : List String := "data" :: (usedKeys 58).filter fun k => k ∉ ["x", "ord_data_type", "n_bytes"]

/-- Dictionaries of functions that differ at most in the declared precision if it is replaced, in the number of bytes, and, with even
spacing (`s`), in the abscissas after the second. -/
structure Func58 (fd s : Bool) (d d' : Dict) : Prop where
  agree : Agree usedFunction d d'
  bytes : d.has "n_bytes" = d'.has "n_bytes"
  prec : fd = true ∨ d.get? "ord_data_type" = d'.get? "ord_data_type"
  same : s = false → d.get? "x" = d'.get? "x"
  even : s = true → (∃ v, d.get? "abscissa_spacing" = some v ∧ v.truthy = .ok true) ∧
    ∃ v v', d.get? "x" = some v ∧ d'.get? "x" = some v' ∧ v.idx 0 = v'.idx 0 ∧ v.idx 1 = v'.idx 1

theorem func_set {fd s : Bool} {d d' : Dict} (h : Func58 fd s d d') {q : String} (h1 : q ≠ "x") (h2 : q ≠ "abscissa_spacing") (v : Val) :
    Func58 fd s (d.set (.s q) v) (d'.set (.s q) v) := by
  have n1 : (Key.s q) ≠ .s "x" := fun h => h1 (Key.s.inj h)
  have n2 : (Key.s q) ≠ .s "abscissa_spacing" := fun h => h2 (Key.s.inj h)
  refine ⟨h.agree.set _ _, has_set h.bytes, ?_, fun hs => ?_, fun hs => ?_⟩
  · by_cases hq : (Key.s q) = .s "ord_data_type"
    · right; rw [hq, Dict.get?_set_self, Dict.get?_set_self]
    · rw [Dict.get?_set_ne _ _ _ _ hq, Dict.get?_set_ne _ _ _ _ hq]; exact h.prec
  · rw [Dict.get?_set_ne _ _ _ _ n1, Dict.get?_set_ne _ _ _ _ n1]; exact h.same hs
  · rw [Dict.get?_set_ne _ _ _ _ n1, Dict.get?_set_ne _ _ _ _ n1, Dict.get?_set_ne _ _ _ _ n2]; exact h.even hs

theorem func_opt {fd s : Bool} {d d' : Dict} (h : Func58 fd s d d') (fs : List (Key × Val)) :
    Func58 fd s (optFields d fs) (optFields d' fs) := by
  refine ⟨fun k hk => ?_, has_opt h.bytes, ?_, fun hs => ?_, fun hs => ?_⟩
  · rw [get?_optFields, get?_optFields, h.agree k hk]
  · rcases h.prec with h | h
    · exact .inl h
    · right; rw [get?_optFields, get?_optFields, h]
  · rw [get?_optFields, get?_optFields, h.same hs]
  · obtain ⟨⟨v, hv, hv'⟩, x, x', h1, h2, h3⟩ := h.even hs
    exact ⟨⟨v, by rw [get?_optFields, hv]; rfl, hv'⟩, x, x', by rw [get?_optFields, h1]; rfl, by rw [get?_optFields, h2]; rfl, h3⟩

theorem lines_even (little cplx binary : Bool) (pr : Option Bool) (y x x' : Val) :
    lines58 little cplx true binary pr y x = lines58 little cplx true binary pr y x' := rfl

theorem rows_even (little cplx binary : Bool) (pr : Option Bool) (y x x' odt x0 dx : Val) (n : Nat) :
    rows58 little cplx true binary pr y x odt x0 dx n = rows58 little cplx true binary pr y x' odt x0 dx n := by
  unfold rows58
  rw [lines_even little cplx binary pr y x x']

variable {fd s : Bool}

theorem rr_rows58 (little cplx even binary : Bool) (pr : Option Bool) (y x odt x0 dx : Val) (n : Nat) :
    RespR (Func58 fd s) (rows58 little cplx even binary pr y x odt x0 dx n) := by
  have hK : ∀ d d', Func58 fd s d d' → Agree usedFunction d d' := fun _ _ h => h.agree
  unfold rows58
  iterate 7 refine rr_bind (rr_row hK (by respflds)) fun _ => ?_
  iterate 4 refine rr_bind (rr_row hK (by simp only [abscissaKeys, ordinateKeys, orddenomKeys, zAxisKeys]; respflds)) fun _ => ?_
  unfold lines58
  refine rr_bind (rr_lift _) fun _ => rr_bind (rr_lift _) fun _ => ?_
  unfold body58
  split
  · exact rr_pure _
  · split
    · exact rr_raise _
    · exact rr_bind (rr_emit _) fun _ => rr_bind (rr_emit _) fun _ => rr_pure _

/-- What follows once the abscissa is looked up. -/
def abscissa58 (little cplx even : Bool) (pr : Option Bool) (y odt : Val) (n : Nat) (x : Val) : W (Option Bytes) := do
    let x0 ← W.lift (x.idx 0)
    W.put "abscissa_min" x0
    let x1 ← W.lift (x.idx 1)
    let dx ← W.lift (x1.minus x0)
    W.emit (padLeft 6 ['-', '1'] ++ '\n' :: padLeft 6 (natRepr 58))
    let b ← W.key "binary"
    let binary ← W.lift b.truthy
    idRest58 little binary (nBytes58 n pr)
    rows58 little cplx even binary pr y x odt x0 dx n

theorem rr_abscissa (little cplx even : Bool) (pr : Option Bool) (y odt : Val) (n : Nat) (x : Val) :
    RespR (Func58 fd s) (abscissa58 little cplx even pr y odt n x) := by
  have hK : ∀ d d', Func58 fd s d d' → Agree usedFunction d d' := fun _ _ h => h.agree
  unfold abscissa58
  refine rr_bind (rr_lift _) fun _ => rr_bind (rr_put fun d d' h => func_set h (by decide) (by decide) _) fun _ => ?_
  refine rr_bind (rr_lift _) fun _ => rr_bind (rr_lift _) fun _ => rr_bind (rr_emit _) fun _ => ?_
  refine rr_bind (rr_key fun d d' h => h.agree _ (by inlist)) fun _ => rr_bind (rr_lift _) fun _ => rr_bind ?_ fun _ => rr_rows58 _ _ _ _ _ _ _ _ _ _ _
  unfold idRest58
  split
  · exact rr_bind (rr_lift _) fun _ => rr_row hK (by respflds)
  · exact rr_emit _

theorem abscissa_even (little cplx : Bool) (pr : Option Bool) (y odt : Val) (n : Nat) {x x' : Val} (h0 : x.idx 0 = x'.idx 0) (h1 : x.idx 1 = x'.idx 1) :
    abscissa58 little cplx true pr y odt n x = abscissa58 little cplx true pr y odt n x' := by
  unfold abscissa58
  simp only [h0, h1, fun b a c => rows_even little cplx b pr y x x' odt a c n]

theorem rr_tail58 (little cplx : Bool) (pr : Option Bool) (y odt : Val) (n : Nat) : RespR (Func58 fd s) (tail58 little cplx pr y odt n) := by
  show RespR _ (W.key "abscissa_spacing" >>= fun sp => W.lift sp.truthy >>= fun even => W.key "x" >>= fun x => abscissa58 little cplx even pr y odt n x)
  cases s with
  | false =>
    exact rr_bind (rr_key fun d d' h => h.agree _ (by inlist)) fun _ => rr_bind (rr_lift _) fun _ => rr_bind (rr_key fun d d' h => h.same rfl) fun _ =>
      rr_abscissa _ _ _ _ _ _ _ _
  | true =>
    refine rr_key_with (P := fun v => v.truthy = .ok true) (fun d d' h => ⟨h.agree _ (by inlist), fun v hv => ?_⟩) fun sp hs => rr_lift_ok hs ?_
    · obtain ⟨⟨u, hu, ht⟩, -⟩ := h.even rfl
      rw [hu] at hv
      rwa [← Option.some.inj hv]
    · refine rr_key_two (P := fun v v' => v.idx 0 = v'.idx 0 ∧ v.idx 1 = v'.idx 1) (fun d d' h => (h.even rfl).2) fun v v' hv d d' hd => ?_
      rw [abscissa_even little cplx pr y odt n hv.1 hv.2]
      exact rr_abscissa _ _ _ _ _ _ _ _ d d' hd

theorem put_key {k : Key} {v : Val} {g : Val → W β} : (W.put k v >>= fun _ => W.key k >>= g) = (W.put k v >>= fun _ => g v) := by
  funext d
  show W.bind (W.put k v) (fun _ => W.bind (W.key k) g) d = W.bind (W.put k v) (fun _ => g v) d
  unfold W.bind W.put W.key Dict.get
  simp only [Dict.get?_set_self, List.nil_append]

theorem rr_declare {v : Val} {g : Val → W β} (h : ∀ u, RespR (Func58 fd s) (g u)) :
    RespR (Func58 fd s) (W.when (fd = true) (W.put "ord_data_type" v) >>= fun _ => W.key "ord_data_type" >>= g) := by
  cases fd with
  | true =>
    show RespR _ (W.put "ord_data_type" v >>= fun _ => W.key "ord_data_type" >>= g)
    rw [put_key]
    exact rr_bind (rr_put fun d d' h => func_set h (by decide) (by decide) _) fun _ => h v
  | false =>
    refine rr_bind (rr_when (rr_put fun d d' h => func_set h (by decide) (by decide) _)) fun _ => rr_bind (rr_key fun d d' h => ?_) h
    rcases h.prec with h | h
    · cases h
    · exact h

theorem dropped58 (little : Bool) : RespR (Func58 fd s) (write58 little fd) := by
  rw [write58_tail]
  refine rr_guarded (rr_bind (rr_key fun d d' h => h.agree _ (by inlist)) fun _ => ?_)
  refine rr_bind (rr_lift _) fun _ => rr_bind (rr_when (rr_raise _)) fun _ => ?_
  refine rr_bind (rr_opt fun d d' h => func_opt h _) fun _ => ?_
  refine rr_bind (rr_key fun d d' h => h.agree _ (by inlist)) fun _ => ?_
  refine rr_bind (rr_lift _) fun _ => rr_bind (rr_lift _) fun _ => ?_
  refine rr_declare fun _ => ?_
  refine rr_bind (rr_lift _) fun _ => ?_
  refine rr_getDict (fun d d' hd => ?_) fun d => ?_
  · rw [hd.bytes]
  refine rr_bind (rr_when (rr_bind (rr_lift _) fun _ => rr_put fun d d' h => func_set h (by decide) (by decide) _)) fun _ => ?_
  exact rr_tail58 _ _ _ _ _ _

end Verif
