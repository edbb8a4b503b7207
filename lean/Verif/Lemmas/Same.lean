import Verif.Lemmas.Items
/-
Writers look only at the values of the items.
-/
namespace Verif

/-- The dictionaries differ only in the values of the entry `k` after the first `n`; the entry `c` of both is `u`. -/
structure SameFirst (k c : Key) (u : Val) (n : Nat) (d d' : Dict) : Prop where
  others : ∀ q, q ≠ k → d.get? q = d'.get? q
  here : ∃ v v', d.get? k = some v ∧ d'.get? k = some v' ∧ ∀ i < n, v.idx i = v'.idx i
  count : d.get? c = some u ∧ d'.get? c = some u

theorem SameFirst.at_ {k c : Key} {u : Val} {n : Nat} {d d' : Dict} (h : SameFirst k c u n d d') (q : Key) {i : Nat} (hi : i < n) :
    Fld.at_ q i d = Fld.at_ q i d' := by
  unfold Fld.at_ Dict.get
  by_cases hq : q = k
  · subst hq
    obtain ⟨v, v', hv, hv', hh⟩ := h.here
    rw [hv, hv']
    exact hh i hi
  · rw [h.others q hq]

theorem SameFirst.get {k c : Key} {u : Val} {n : Nat} {d d' : Dict} (h : SameFirst k c u n d d') {q : Key} (hq : q ≠ k) : d.get q = d'.get q := by
  unfold Dict.get
  rw [h.others q hq]

theorem SameFirst.has {k c : Key} {u : Val} {n : Nat} {d d' : Dict} (h : SameFirst k c u n d d') (q : Key) : d.has q = d'.has q := by
  unfold Dict.has
  by_cases hq : q = k
  · subst hq
    obtain ⟨v, v', hv, hv', -⟩ := h.here
    rw [hv, hv']; rfl
  · rw [h.others q hq]

namespace W

/-- `m` does the same to both dictionaries. -/
def Sim {α} (k c : Key) (u : Val) (n : Nat) (m : W α) : Prop :=
  ∀ d d', SameFirst k c u n d d' → (m d).out = (m d').out ∧ (m d).res = (m d').res ∧ SameFirst k c u n (m d).dict (m d').dict

variable {α β : Type} {k c : Key} {u : Val} {n : Nat}

theorem sim_const {m : W α} (o : Text) (r : Res α) (h : ∀ d, m d = ⟨o, d, r⟩) : Sim k c u n m := by
  intro d d' hd
  rw [h d, h d']
  exact ⟨rfl, rfl, hd⟩

theorem sim_emit (t : Text) : Sim k c u n (W.emit t) := sim_const t _ fun _ => rfl
theorem sim_lift (r : Res α) : Sim k c u n (W.lift r) := sim_const [] r fun _ => rfl
theorem sim_raise (x : Err) : Sim k c u n (W.raise x : W α) := sim_const [] _ fun _ => rfl
theorem sim_pure (a : α) : Sim k c u n (W.pure a) := sim_const [] _ fun _ => rfl
theorem sim_key {q : Key} (hq : q ≠ k) : Sim k c u n (W.key q) := fun _ _ h => ⟨rfl, h.get hq, h⟩

theorem sim_bind {m : W α} {f : α → W β} (hm : Sim k c u n m) (hf : ∀ a, Sim k c u n (f a)) : Sim k c u n (W.bind m f) := by
  intro d d' hd
  obtain ⟨h1, h2, h3⟩ := hm d d' hd
  unfold W.bind
  rcases h : m d with ⟨o, e, r⟩
  rcases h' : m d' with ⟨o', e', r'⟩
  rw [h, h'] at h1 h2 h3
  simp only at h1 h2 h3
  subst h1 h2
  cases r with
  | error x => exact ⟨rfl, rfl, h3⟩
  | ok a =>
    obtain ⟨g1, g2, g3⟩ := hf a e e' h3
    exact ⟨by simp only [g1], g2, g3⟩
theorem sim_bind' {m : W α} {f : α → W β} (hm : Sim k c u n m) (hf : ∀ a, Sim k c u n (f a)) : Sim k c u n (m >>= f) := sim_bind hm hf

theorem sim_when (b : Prop) [Decidable b] {m : W Unit} (hm : Sim k c u n m) : Sim k c u n (W.when b m) := by
  unfold W.when
  split
  · exact hm
  · exact sim_pure ()

theorem sim_forL {l : List α} {body : α → W Unit} (h : ∀ a ∈ l, Sim k c u n (body a)) : Sim k c u n (W.forL l body) := by
  induction l with
  | nil => exact sim_pure ()
  | cons a r ih => exact sim_bind (h a List.mem_cons_self) fun _ => ih fun b hb => h b (List.mem_cons_of_mem _ hb)

theorem sim_guarded {s : Nat} {m : W α} (hm : Sim k c u n m) : Sim k c u n (W.guarded s m) := by
  intro d d' hd
  obtain ⟨h1, h2, h3⟩ := hm d d' hd
  unfold W.guarded
  rcases h : m d with ⟨o, e, r⟩
  rcases h' : m d' with ⟨o', e', r'⟩
  rw [h, h'] at h1 h2 h3
  simp only at h1 h2 h3
  subst h1 h2
  cases r with
  | ok a => exact ⟨rfl, rfl, h3⟩
  | error x => cases x <;> first | exact ⟨rfl, rfl, h3⟩ | (rename_i q; cases q <;> exact ⟨rfl, rfl, h3⟩)

theorem sim_guardedAny {s : Nat} {m : W α} (hm : Sim k c u n m) : Sim k c u n (W.guardedAny s m) := by
  intro d d' hd
  obtain ⟨h1, h2, h3⟩ := hm d d' hd
  unfold W.guardedAny
  rcases h : m d with ⟨o, e, r⟩
  rcases h' : m d' with ⟨o', e', r'⟩
  rw [h, h'] at h1 h2 h3
  simp only at h1 h2 h3
  subst h1 h2
  cases r with
  | ok a => exact ⟨rfl, rfl, h3⟩
  | error x => cases x <;> first | exact ⟨rfl, rfl, h3⟩ | (rename_i q; cases q <;> exact ⟨rfl, rfl, h3⟩)

theorem sim_none {m : W Unit} (hm : Sim k c u n m) : Sim k c u n (W.none m : W (Option α)) := by
  intro d d' hd
  obtain ⟨h1, h2, h3⟩ := hm d d' hd
  exact ⟨h1, by show (m d).res.map _ = (m d').res.map _; rw [h2], h3⟩

theorem sim_opt (fs : List (Key × Val)) : Sim k c u n (W.opt fs) := by
  intro d d' hd
  refine ⟨rfl, rfl, ⟨fun q hq => ?_, ?_, get?_opt_present hd.count.1, get?_opt_present hd.count.2⟩⟩
  · show (optFields d fs).get? q = (optFields d' fs).get? q
    rw [get?_optFields, get?_optFields, hd.others q hq]
  · obtain ⟨v, v', hv, hv', hh⟩ := hd.here
    exact ⟨v, v', get?_opt_present hv, get?_opt_present hv', hh⟩

theorem sim_put {q : Key} (hq : q ≠ k) (hc : q ≠ c) (x : Val) : Sim k c u n (W.put q x) := by
  intro d d' hd
  refine ⟨rfl, rfl, ⟨fun p hp => ?_, ?_, (Dict.get?_set_ne _ _ _ _ hc).trans hd.count.1,
    (Dict.get?_set_ne _ _ _ _ hc).trans hd.count.2⟩⟩
  · show (d.set q x).get? p = (d'.set q x).get? p
    by_cases h : q = p
    · subst h; rw [Dict.get?_set_self, Dict.get?_set_self]
    · rw [Dict.get?_set_ne _ _ _ _ h, Dict.get?_set_ne _ _ _ _ h, hd.others p hp]
  · obtain ⟨v, v', hv, hv', hh⟩ := hd.here
    exact ⟨v, v', (Dict.get?_set_ne _ _ _ _ hq).trans hv, (Dict.get?_set_ne _ _ _ _ hq).trans hv', hh⟩

/-- The expression has the same value. -/
def SimFld (k c : Key) (u : Val) (n : Nat) (f : Fld) : Prop := ∀ d d', SameFirst k c u n d d' → f.acc d = f.acc d'

theorem sim_eval {fs : List Fld} (h : ∀ f ∈ fs, SimFld k c u n f) {d d' : Dict} (hd : SameFirst k c u n d d') :
    evalFlds d fs = evalFlds d' fs := by
  induction fs with
  | nil => rfl
  | cons f r ih =>
    unfold evalFlds
    rw [h f List.mem_cons_self d d' hd, ih fun g hg => h g (List.mem_cons_of_mem _ hg)]

theorem sim_format {fs : List Fld} (h : ∀ f ∈ fs, SimFld k c u n f) : Sim k c u n (W.format fs) := by
  intro d d' hd
  refine ⟨rfl, ?_, hd⟩
  unfold W.format
  simp only [sim_eval h hd]

theorem sim_row {fs : List Fld} (h : ∀ f ∈ fs, SimFld k c u n f) : Sim k c u n (W.row fs) := sim_bind (sim_format h) fun _ => sim_emit _

theorem sim_get {q : Key} (hq : q ≠ k) {fmt : Val → Res Text} : SimFld k c u n ⟨fun d => d.get q, fmt⟩ := fun _ _ h => h.get hq
theorem sim_i {q : Key} {w : Nat} (hq : q ≠ k) : SimFld k c u n (.i w q) := sim_get hq
theorem sim_e {q : Key} {w p : Nat} (hq : q ≠ k) : SimFld k c u n (.e w p q) := sim_get hq
theorem sim_sl {q : Key} {w : Nat} (hq : q ≠ k) : SimFld k c u n (.sl w q) := sim_get hq
theorem sim_re {q : Key} {w p : Nat} (hq : q ≠ k) : SimFld k c u n (.re w p (·.get q)) := fun d d' h => by
  unfold Fld.re; simp only [h.get hq]
theorem sim_im {q : Key} {w p : Nat} (hq : q ≠ k) : SimFld k c u n (.im w p (·.get q)) := fun d d' h => by
  unfold Fld.im; simp only [h.get hq]
theorem sim_c {fmt : Val → Res Text} {v : Val} : SimFld k c u n (.c fmt v) := fun _ _ _ => rfl
theorem sim_fix {fmt : Val → Res Text} {v : Res Val} : SimFld k c u n ⟨fun _ => v, fmt⟩ := fun _ _ _ => rfl
theorem sim_at {q : Key} {i : Nat} (hi : i < n) {fmt : Val → Res Text} : SimFld k c u n ⟨Fld.at_ q i, fmt⟩ := fun _ _ h => h.at_ q hi
theorem sim_at2 {q : Key} {i j : Nat} (hi : i < n) {fmt : Val → Res Text} : SimFld k c u n ⟨Fld.at2 q i j, fmt⟩ := fun d d' h => by
  show Fld.at2 q i j d = Fld.at2 q i j d'
  unfold Fld.at2; rw [h.at_ q hi]
theorem sim_intAt {q : Key} {i w : Nat} (hi : i < n) : SimFld k c u n (.intAt w q i) := fun d d' h => by
  unfold Fld.intAt; simp only [h.at_ q hi]
theorem sim_reAt {q : Key} {i w p : Nat} (hi : i < n) : SimFld k c u n (.re w p (Fld.at_ q i)) := fun d d' h => by
  unfold Fld.re; simp only [h.at_ q hi]
theorem sim_imAt {q : Key} {i w p : Nat} (hi : i < n) : SimFld k c u n (.im w p (Fld.at_ q i)) := fun d d' h => by
  unfold Fld.im; simp only [h.at_ q hi]

end W
open W

/-- All the expressions of a line have the same values. -/
macro "simflds" : tactic => `(tactic|
  (simp only [List.forall_mem_cons, List.not_mem_nil, false_implies, implies_true, and_true]
   repeat' first
    | with_reducible apply And.intro
    | with_reducible exact sim_c
    | with_reducible exact sim_i (by assumption)
    | with_reducible exact sim_e (by assumption)
    | with_reducible exact sim_sl (by assumption)
    | with_reducible exact sim_i (by decide)
    | with_reducible exact sim_e (by decide)
    | with_reducible exact sim_sl (by decide)
    | with_reducible exact sim_at (by assumption)
    | with_reducible exact sim_at2 (by assumption)
    | with_reducible exact sim_intAt (by assumption)
    | with_reducible exact sim_reAt (by assumption)
    | with_reducible exact sim_imAt (by assumption)
    | exact sim_re (by decide)
    | exact sim_im (by decide)
    | exact sim_fix))

/-- The value of the entry `c`. -/
theorem sim_value {k c : Key} {n : Nat} {u : Val} {β : Type} {f : Val → W β} (hf : Sim k c u n (f u)) : Sim k c u n (W.key c >>= f) := by
  intro d d' hd
  have e : ∀ d : Dict, d.get? c = some u → (W.key c >>= f) d = f u d := by
    intro d h
    have hk : W.key c d = ⟨[], d, .ok u⟩ := by
      show (⟨[], d, d.get c⟩ : WRes Val) = _
      unfold Dict.get; rw [h]
    show W.bind (W.key c) f d = _
    unfold W.bind
    rw [hk]
    simp only [List.nil_append]
  rw [e d hd.count.1, e d' hd.count.2]
  exact hf d d' hd

/-- A known result. -/
theorem sim_known {k c : Key} {n : Nat} {u : Val} {α β : Type} {r : Res α} {a : α} (hr : r = .ok a) {f : α → W β}
    (hf : Sim k c u n (f a)) : Sim k c u n (W.lift r >>= f) := by
  subst hr
  exact fun d d' hd => hf d d' hd

/-- An expression that is the same for both dictionaries. -/
theorem sim_getDict {k c : Key} {u : Val} {n : Nat} {β : Type} {f : Dict → W β} (h : ∀ d d', SameFirst k c u n d d' → f d = f d')
    (hf : ∀ d, Sim k c u n (f d)) : Sim k c u n (W.getDict >>= f) := by
  intro d d' hd
  have e : ∀ d : Dict, (W.getDict >>= f) d = f d d := by
    intro d
    show W.bind W.getDict _ d = _
    unfold W.bind W.getDict
    simp
  rw [e, e, ← h d d' hd]
  exact hf _ d d' hd

theorem sim_record {k c : Key} {u : Val} {n : Nat} (vs : List Val) (fs : List RFmt) (b : Bool) : Sim k c u n (writeRecord vs fs b) :=
  sim_bind (sim_lift _) fun _ => sim_emit _

theorem sim_values {k c : Key} {u : Val} {n : Nat} {fs : List Fld} (h : ∀ f ∈ fs, SimFld k c u n f) {g : List Val → W Unit}
    (hg : ∀ vs, Sim k c u n (g vs)) : Sim k c u n (W.getDict >>= fun d => W.lift (evalFlds d fs) >>= g) := by
  intro d d' hd
  have e : ∀ d : Dict, (W.getDict >>= fun d => W.lift (evalFlds d fs) >>= g) d = (W.lift (evalFlds d fs) >>= g) d := by
    intro d
    show W.bind W.getDict _ d = _
    unfold W.bind W.getDict
    simp
  rw [e, e, sim_eval h hd]
  exact sim_bind' (sim_lift _) hg d d' hd

/-- `sim` for the steps of a writer. -/
macro "simstep" : tactic => `(tactic|
  (repeat' first
    | with_reducible refine sim_bind' ?_ (fun _ => ?_)
    | with_reducible refine sim_bind ?_ (fun _ => ?_)
    | with_reducible exact sim_emit _
    | with_reducible exact sim_lift _
    | with_reducible exact sim_raise _
    | with_reducible exact sim_pure _
    | with_reducible exact sim_opt _
    | with_reducible exact sim_key (by decide)
    | with_reducible exact sim_put (by decide) (by decide) _
    | with_reducible apply sim_when
    | (with_reducible apply sim_row; simflds; done)))

section
variable {u : Val} {n : Nat} (hu : seqLength u = some n)
include hu

theorem same15 {k : Key} : Sim k "node_nums" u n write15 := by
  obtain ⟨-, -, -, hl, -⟩ := seq_items hu
  unfold write15
  refine sim_guarded (sim_value (sim_known hl ?_))
  refine sim_bind' (sim_opt _) fun _ => ?_
  refine sim_bind' (sim_record _ _ _) fun _ => ?_
  refine sim_bind' (sim_forL fun i hi => ?_) fun _ => sim_record _ _ _
  have hi := List.mem_range.1 hi
  refine sim_values ?_ fun vs => sim_record _ _ _
  simp only [List.map_cons, List.map_nil]
  simflds

theorem same18 {k : Key} : Sim k "cs_num" u n write18 := by
  obtain ⟨-, -, -, hl, -⟩ := seq_items hu
  unfold write18
  refine sim_guarded (sim_value (sim_known hl ?_))
  refine sim_bind' (sim_opt _) fun _ => ?_
  refine sim_bind' (sim_emit _) fun _ => ?_
  refine sim_bind' (sim_forL fun i hi => ?_) fun _ => sim_emit _
  have hi := List.mem_range.1 hi
  simstep

theorem same2411 {k : Key} : Sim k "node_nums" u n write2411 := by
  obtain ⟨l, hl, hn, -, -⟩ := seq_items hu
  unfold write2411
  refine sim_guardedAny ?_
  refine sim_bind' (sim_opt _) fun _ => ?_
  refine sim_bind' (sim_emit _) fun _ => ?_
  refine sim_value (sim_known hl ?_)
  refine sim_bind' (sim_forL fun p hp => ?_) fun _ => sim_emit _
  have hi : p.2 < n := by
    have := (List.mk_mem_zipIdx_iff_getElem?.1 (show (p.1, p.2) ∈ l.zipIdx from hp))
    rw [← hn]
    exact (List.getElem?_eq_some_iff.1 this).1
  simstep

theorem sim_makeComplex {k q : Key} (h : q ≠ k) (h' : q ≠ "node_nums") : Sim k "node_nums" u n (makeComplex q) := by
  unfold makeComplex
  refine sim_bind (sim_key h) fun _ => sim_bind (sim_lift _) fun _ => ?_
  refine sim_when _ ?_
  exact sim_bind (sim_lift _) fun _ => sim_put h h' _

theorem same55 : ∀ k ∈ (["r2", "r3"] : List String), Sim (.s k) "node_nums" u n write55 := by
  obtain ⟨-, -, -, hl, -⟩ := seq_items hu
  each_item
  all_goals
    unfold write55
    refine sim_guarded ?_
    refine sim_bind' (sim_opt _) fun _ => ?_
    refine sim_bind' (sim_key (by decide)) fun _ => ?_
    refine sim_bind' (sim_lift _) fun an => ?_
    refine sim_bind' ?_ fun _ => ?_
    · unfold prep55
      split
      · exact sim_opt _
      · exact sim_bind (sim_opt _) fun _ => sim_bind (sim_makeComplex hu (by decide) (by decide)) fun _ =>
          sim_makeComplex hu (by decide) (by decide)
      · exact sim_pure _
      · exact sim_raise _
    refine sim_getDict (fun d d' hd => by simp only [hd.has]) fun d => ?_
    refine sim_bind' (sim_key (by decide)) fun _ => ?_
    refine sim_bind' (sim_lift _) fun cplx => ?_
    refine sim_bind' (sim_emit _) fun _ => ?_
    iterate 6 refine sim_bind' (sim_row (by simflds)) fun _ => ?_
    refine sim_bind' ?_ fun _ => ?_
    · unfold head55
      split
      · simstep
      · simstep
      · simstep
      · exact sim_raise _
    refine sim_value (sim_known hl ?_)
    refine sim_bind' (sim_forL fun i hi => ?_) fun _ => sim_emit _
    have hi := List.mem_range.1 hi
    refine sim_bind' (sim_row (by simflds)) fun _ => sim_row ?_
    unfold vals55
    split
    · simflds
    · split <;> simflds

end
end Verif
