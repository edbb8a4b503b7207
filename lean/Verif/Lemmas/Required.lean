import Verif.Spec.Required
import Verif.Lemmas.Keep
/-
Writers fail when an entry is missing.
-/
namespace Verif

/-- The entry `k` is missing and the entry `c` is `v`. -/
def Lack (k c : Key) (v : Val) (d : Dict) : Prop := d.get? k = none ∧ d.get? c = some v

namespace W

/-- `m` does not succeed. -/
def Fails {α} (P : Dict → Prop) (m : W α) : Prop := Post P m (fun _ _ => False)

variable {α β : Type} {P : Dict → Prop} {k c : Key} {v : Val}

theorem fails_here {m : W α} {f : α → W β} (h : Fails P m) : Fails P (m >>= f) := post_bind' h fun _ _ h => h.elim
theorem fails_here' {m : W α} {f : α → W β} (h : Fails P m) : Fails P (W.bind m f) := post_bind h fun _ _ h => h.elim

theorem fails_skip {m : W α} {f : α → W β} (hm : Keeps (fun d d' => P d → P d') m) (hf : ∀ a, Fails P (f a)) : Fails P (m >>= f) :=
  post_bind' (post_keeps hm) hf
theorem fails_skip' {m : W α} {f : α → W β} (hm : Keeps (fun d d' => P d → P d') m) (hf : ∀ a, Fails P (f a)) : Fails P (W.bind m f) :=
  post_bind (post_keeps hm) hf

theorem fails_guarded {n : Nat} {m : W α} (h : Fails P m) : Fails P (W.guarded n m) := post_guarded h
theorem fails_guardedAny {n : Nat} {m : W α} (h : Fails P m) : Fails P (W.guardedAny n m) := post_guardedAny h
theorem fails_none {m : W Unit} (h : Fails P m) : Fails P (W.none m : W (Option α)) := by
  intro d hd a ha
  have ha : (m d).res.map (fun _ => (Option.none : Option α)) = .ok a := ha
  cases hr : (m d).res with
  | ok u => exact h d hd u hr
  | error e => rw [hr] at ha; cases ha

theorem fails_raise {e : Err} : Fails P (W.raise e : W α) := fun _ _ _ h => by cases h

theorem get_lack {d : Dict} (h : d.get? k = Option.none) : d.get k = .error (.key k) := by unfold Dict.get; rw [h]

theorem fails_key : Fails (Lack k c v) (W.key k) := by
  intro d hd a ha
  have ha : d.get k = .ok a := ha
  rw [get_lack hd.1] at ha
  cases ha

theorem fails_keyAt {i : Nat} : Fails (Lack k c v) (W.keyAt k i) := by
  intro d hd a ha
  have ha : Fld.at_ k i d = .ok a := ha
  unfold Fld.at_ at ha
  simp only [get_lack hd.1] at ha
  cases ha

/-- The expression fails. -/
def AccFails (P : Dict → Prop) (f : Fld) : Prop := ∀ d, P d → ∃ e, f.acc d = .error e

/-- One of the expressions fails. -/
def FldsFail (P : Dict → Prop) (fs : List Fld) : Prop := ∀ d, P d → ∃ e, evalFlds d fs = .error e

theorem flds_head {f : Fld} {fs : List Fld} (h : AccFails P f) : FldsFail P (f :: fs) := by
  intro d hd
  obtain ⟨e, he⟩ := h d hd
  exact ⟨e, by simp only [evalFlds, he]⟩

theorem flds_tail {f : Fld} {fs : List Fld} (h : FldsFail P fs) : FldsFail P (f :: fs) := by
  intro d hd
  obtain ⟨e, he⟩ := h d hd
  unfold evalFlds
  cases f.acc d with
  | error x => exact ⟨x, rfl⟩
  | ok v => exact ⟨e, by simp only [he]⟩

theorem acc_get {fmt : Val → Res Text} : AccFails (Lack k c v) ⟨fun d => d.get k, fmt⟩ := fun _ h => ⟨_, get_lack h.1⟩
theorem at_lack {d : Dict} {i : Nat} (h : d.get? k = Option.none) : Fld.at_ k i d = .error (.key k) := by
  unfold Fld.at_; rw [get_lack h]
theorem acc_at {fmt : Val → Res Text} {i : Nat} : AccFails (Lack k c v) ⟨Fld.at_ k i, fmt⟩ := fun _ h => ⟨_, at_lack h.1⟩
theorem acc_at2 {fmt : Val → Res Text} {i j : Nat} : AccFails (Lack k c v) ⟨Fld.at2 k i j, fmt⟩ := fun d h =>
  ⟨.key k, by show Fld.at2 k i j d = _; unfold Fld.at2; rw [at_lack h.1]⟩
theorem acc_intAt {w i : Nat} : AccFails (Lack k c v) (Fld.intAt w k i) := fun d h =>
  ⟨.key k, by unfold Fld.intAt; simp only [at_lack h.1]⟩
theorem acc_re {w p : Nat} : AccFails (Lack k c v) (Fld.re w p (·.get k)) := fun d h =>
  ⟨.key k, by unfold Fld.re; simp only [get_lack h.1]⟩
theorem acc_reAt {w p i : Nat} : AccFails (Lack k c v) (Fld.re w p (Fld.at_ k i)) := fun d h =>
  ⟨.key k, by unfold Fld.re; simp only [at_lack h.1]⟩

theorem acc_i {w : Nat} : AccFails (Lack k c v) (Fld.i w k) := acc_get
theorem acc_e {w p : Nat} : AccFails (Lack k c v) (Fld.e w p k) := acc_get
theorem acc_sl {w : Nat} : AccFails (Lack k c v) (Fld.sl w k) := acc_get
theorem acc_e2 : AccFails (Lack k c v) (Fld.e2 k) := acc_get

theorem fails_format {fs : List Fld} (h : FldsFail P fs) : Fails P (W.format fs) := by
  intro d hd a ha
  obtain ⟨e, he⟩ := h d hd
  have ha : (match evalFlds d fs with | .error e => .error e | .ok vs => fmtFlds fs vs) = Except.ok a := ha
  rw [he] at ha
  cases ha

theorem fails_row {fs : List Fld} (h : FldsFail P fs) : Fails P (W.row fs) := fails_here' (fails_format h)

theorem keeps_optLack {fs : List (Key × Val)} (h : Dict.get? fs k = Option.none) :
    Keeps (fun d d' => Lack k c v d → Lack k c v d') (W.opt fs) := by
  refine ⟨fun d hd => ?_⟩
  show Lack k c v (optFields d fs)
  unfold Lack
  rw [get?_optFields, get?_optFields, hd.1, hd.2, h]
  exact ⟨rfl, rfl⟩

theorem keeps_putLack {q : Key} {x : Val} (h : q ≠ k) (h' : q ≠ c) :
    Keeps (fun d d' => Lack k c v d → Lack k c v d') (W.put q x) := by
  refine ⟨fun d hd => ?_⟩
  show Lack k c v (d.set q x)
  unfold Lack
  rw [Dict.get?_set_ne _ _ _ _ h, Dict.get?_set_ne _ _ _ _ h']
  exact hd

/-- The value of the other entry is known. -/
theorem fails_value {f : Val → W β} (h : Fails (Lack k c v) (f v)) : Fails (Lack k c v) (W.key c >>= f) := by
  intro d hd b hb
  have hb : (W.bind (W.key c) f d).res = .ok b := hb
  rw [bind_res] at hb
  have : (W.key c d).res = .ok v := by show d.get c = _; unfold Dict.get; rw [hd.2]
  rw [this] at hb
  exact h d hd b hb

theorem fails_lift {r : Res α} {a : α} (hr : r = .ok a) {f : α → W β} (h : Fails P (f a)) : Fails P (W.lift r >>= f) := by
  subst hr
  intro d hd b hb
  exact h d hd b hb

theorem fails_getDict {f : Dict → W β} (h : ∀ d, P d → Fails P (f d)) : Fails P (W.getDict >>= f) :=
  fun d hd b hb => h d hd d hd b hb

theorem fails_error {r : Res α} {x : Err} (hr : r = .error x) : Fails P (W.lift r) := by
  subst hr
  intro d _ b hb
  cases hb

theorem fails_forL {l : List α} (hl : l ≠ []) {body : α → W Unit} (h : ∀ a, Fails P (body a)) : Fails P (W.forL l body) := by
  cases l with
  | nil => exact absurd rfl hl
  | cons a r => exact fails_here' (h a)

/-- Shows that one of the expressions of a line needs the missing entry. -/
macro "lackflds" : tactic => `(tactic|
  (repeat' first
    | with_reducible exact flds_head acc_i
    | with_reducible exact flds_head acc_e
    | with_reducible exact flds_head acc_sl
    | with_reducible exact flds_head acc_e2
    | with_reducible exact flds_head acc_at
    | with_reducible exact flds_head acc_at2
    | with_reducible exact flds_head acc_intAt
    | with_reducible exact flds_head acc_re
    | with_reducible exact flds_head acc_reAt
    | with_reducible apply flds_tail))

end W
end Verif

namespace Verif
open W

/-- Closes goals `Keeps` for the steps that leave the missing entry alone. -/
macro "lackkeep" : tactic => `(tactic|
  repeat' first
    | intro _
    | with_reducible apply keeps_bind' (pre_imp _)
    | with_reducible apply keeps_bind (pre_imp _)
    | with_reducible exact keeps_pure' (pre_imp _) _
    | with_reducible exact keeps_pure (pre_imp _) _
    | with_reducible exact keeps_emit (pre_imp _) _
    | with_reducible exact keeps_raise (pre_imp _) _
    | with_reducible exact keeps_lift (pre_imp _) _
    | with_reducible exact keeps_getDict (pre_imp _)
    | with_reducible exact keeps_key (pre_imp _) _
    | with_reducible exact keeps_keyAt (pre_imp _) _ _
    | with_reducible exact keeps_format (pre_imp _) _
    | with_reducible exact keeps_row (pre_imp _) _
    | with_reducible exact keeps_writeRecord (pre_imp _) _ _ _
    | with_reducible apply keeps_when (pre_imp _)
    | with_reducible apply keeps_ite
    | with_reducible apply keeps_forL (pre_imp _)
    | with_reducible exact keeps_putLack (by decide) (by decide)
    | with_reducible exact keeps_optLack (by first | decide +kernel | simp [opt151, opt15, opt18, Dict.get?]))

/-- Goes through a writer up to the place where the missing entry is needed. -/
macro "lack" : tactic => `(tactic|
  (repeat' first
    | (with_reducible apply fails_here; with_reducible apply fails_key; done)
    | (with_reducible apply fails_key; done)
    | (with_reducible apply fails_here; with_reducible apply fails_row; lackflds; done)
    | (with_reducible apply fails_row; lackflds; done)
    | with_reducible refine fails_skip (by lackkeep; done) fun _ => ?_))

/-- One goal for each entry. -/
macro "each_key" : tactic => `(tactic|
  (simp only [requiredKeys, List.forall_mem_cons, List.not_mem_nil, false_implies, implies_true, and_true]; repeat' apply And.intro))


theorem lack15 : ∀ k ∈ requiredKeys true 15, Fails (Lack (.s k) "type" (.int 15)) write15 := by
  each_key
  all_goals
    unfold write15
    apply fails_guarded
    lack

theorem lack18 : ∀ k ∈ requiredKeys true 18, Fails (Lack (.s k) "type" (.int 18)) write18 := by
  each_key
  all_goals
    unfold write18
    apply fails_guarded
    lack

theorem lack82 : ∀ k ∈ requiredKeys true 82, Fails (Lack (.s k) "type" (.int 82)) write82 := by
  each_key
  all_goals
    unfold write82
    apply fails_guarded
    lack

set_option maxHeartbeats 1000000 in
theorem lack151 (ds ts : Text) : ∀ k ∈ requiredKeys true 151, Fails (Lack (.s k) "type" (.int 151)) (write151 ds ts) := by
  each_key
  all_goals
    unfold write151
    apply fails_guarded
    lack

theorem lack164 : ∀ k ∈ requiredKeys true 164, Fails (Lack (.s k) "type" (.int 164)) write164 := by
  each_key
  all_goals
    unfold write164
    apply fails_guarded
    lack

set_option maxHeartbeats 1000000 in
theorem lack1858 : ∀ k ∈ requiredKeys true 1858, Fails (Lack (.s k) "type" (.int 1858)) write1858 := by
  each_key
  all_goals
    unfold write1858
    apply fails_guardedAny
    lack

theorem lack2411 : ∀ k ∈ requiredKeys true 2411, Fails (Lack (.s k) "type" (.int 2411)) write2411 := by
  each_key
  all_goals
    unfold write2411
    apply fails_guardedAny
    lack

set_option maxHeartbeats 1000000 in
theorem lack2414 : ∀ k ∈ requiredKeys true 2414, Fails (Lack (.s k) "type" (.int 2414)) write2414 := by
  each_key
  all_goals
    unfold write2414
    apply fails_guardedAny
    lack

theorem lack2429 : ∀ k ∈ requiredKeys true 2429, Fails (Lack (.s k) "type" (.int 2429)) write2429 := by
  each_key
  all_goals
    unfold write2429
    apply fails_guardedAny
    lack

theorem lack2467 : ∀ k ∈ requiredKeys true 2467, Fails (Lack (.s k) "type" (.int 2467)) write2467 := by
  each_key
  all_goals
    unfold write2467
    apply fails_guardedAny
    lack

theorem lenKey_lack {d : Dict} {k : Key} (h : d.get? k = Option.none) : lenKey d k = .error (.key k) := by
  unfold lenKey; rw [get_lack h]

theorem mapRes_error {α β : Type} {f : α → Res β} {l : List α} {a : α} {x : Err} (ha : a ∈ l) (h : f a = .error x) :
    ∃ y, mapRes f l = .error y := by
  induction l with
  | nil => cases ha
  | cons b r ih =>
    unfold mapRes
    cases hb : f b with
    | error y => exact ⟨y, rfl⟩
    | ok v =>
      rcases List.mem_cons.1 ha with rfl | ha
      · rw [h] at hb; cases hb
      · obtain ⟨y, hy⟩ := ih ha
        exact ⟨y, by simp only [hy]⟩

theorem lack2420 : ∀ k ∈ requiredKeys true 2420, Fails (Lack (.s k) "type" (.int 2420)) write2420 := by
  each_key
  all_goals
    unfold write2420
    apply fails_guardedAny
    with_reducible refine fails_skip (by lackkeep; done) fun _ => ?_
    with_reducible refine fails_skip (by lackkeep; done) fun _ => ?_
    with_reducible refine fails_skip (by lackkeep; done) fun _ => ?_
    with_reducible refine fails_skip (by lackkeep; done) fun _ => ?_
    with_reducible refine fails_getDict fun d hd => ?_
  · exact fails_here (fails_error (lenKey_lack hd.1))
  all_goals
    with_reducible refine fails_skip (by lackkeep; done) fun _ => ?_
    obtain ⟨y, hy⟩ := mapRes_error (l := (["CS_types", "CS_colors", "CS_names", "CS_matrices"] : List Key)) (by simp)
      (lenKey_lack hd.1)
    exact fails_here (fails_error hy)

theorem keeps_makeComplex {k c q : Key} {v : Val} (h : q ≠ k) (h' : q ≠ c) :
    Keeps (fun d d' => Lack k c v d → Lack k c v d') (makeComplex q) := by
  unfold makeComplex
  refine keeps_bind (pre_imp _) (keeps_key (pre_imp _) _) fun _ => ?_
  refine keeps_bind (pre_imp _) (keeps_lift (pre_imp _) _) fun _ => ?_
  refine keeps_when (pre_imp _) _ ?_
  refine keeps_bind (pre_imp _) (keeps_lift (pre_imp _) _) fun _ => ?_
  exact keeps_putLack h h'

theorem keeps_prep55 {k c : Key} {v : Val} (an : Option An55) (hn : Dict.get? opt55n k = Option.none)
    (hc : Dict.get? opt55c k = Option.none)
    (ha : (("modal_a" : Key) ≠ k ∧ ("modal_a" : Key) ≠ c) ∧ ("modal_b" : Key) ≠ k ∧ ("modal_b" : Key) ≠ c) :
    Keeps (fun d d' => Lack k c v d → Lack k c v d') (prep55 an) := by
  unfold prep55
  split
  · exact keeps_optLack hn
  · refine keeps_bind (pre_imp _) (keeps_optLack hc) fun _ => ?_
    exact keeps_bind (pre_imp _) (keeps_makeComplex ha.1.1 ha.1.2) fun _ => keeps_makeComplex ha.2.1 ha.2.2
  · exact keeps_pure (pre_imp _) _
  · exact keeps_raise (pre_imp _) _

end Verif
