import Verif.Lemmas.Same
/-
Data-set 58: abscissas that do not match the ordinates.
-/
namespace Verif
open W

theorem fails_known {P : Dict → Prop} {q : Key} {β : Type} {f : Val → W β} (h : ∀ d v, P d → d.get? q = some v → Fails P (f v)) :
    Fails P (W.key q >>= f) := by
  intro d hd b hb
  have hb : (W.bind (W.key q) f d).res = .ok b := hb
  rw [bind_res] at hb
  cases hv : d.get? q with
  | none =>
    have : (W.key q d).res = .error (.key q) := get_lack hv
    rw [this] at hb; cases hb
  | some v =>
    have : (W.key q d).res = .ok v := get_bad hv
    rw [this] at hb
    exact h d v hd hv d hd b hb

/-- `m` abscissas and `n` ordinates, not evenly spaced. -/
structure Differ (m n : Nat) (d : Dict) : Prop where
  x : ∃ v, d.get? "x" = some v ∧ seqLength v = some m
  y : ∃ v, d.get? "data" = some v ∧ seqLength v = some n
  even : ∀ v, d.get? "abscissa_spacing" = some v → v.truthy = .ok false

theorem keeps_putDiffer {m n : Nat} {q : Key} {x : Val} (h1 : q ≠ "x") (h2 : q ≠ "data") (h3 : q ≠ "abscissa_spacing") :
    Keeps (fun d d' => Differ m n d → Differ m n d') (W.put q x) := by
  refine ⟨fun d hd => ?_⟩
  show Differ m n (d.set q x)
  obtain ⟨hx, hy, he⟩ := hd
  constructor
  · rw [Dict.get?_set_ne _ _ _ _ h1]; exact hx
  · rw [Dict.get?_set_ne _ _ _ _ h2]; exact hy
  · rw [Dict.get?_set_ne _ _ _ _ h3]; exact he

theorem keeps_optDiffer' {m n : Nat} {fs : List (Key × Val)} (hf : ∀ v, Dict.get? fs "abscissa_spacing" = some v → v.truthy = .ok false) :
    Keeps (fun d d' => Differ m n d → Differ m n d') (W.opt fs) := by
  refine ⟨fun d hd => ?_⟩
  show Differ m n (optFields d fs)
  obtain ⟨⟨x, hx, hxm⟩, ⟨y, hy, hyn⟩, he⟩ := hd
  refine ⟨⟨x, get?_opt_present hx, hxm⟩, ⟨y, get?_opt_present hy, hyn⟩, fun v hv => ?_⟩
  rw [get?_optFields] at hv
  cases hs : d.get? "abscissa_spacing" with
  | some s =>
    rw [hs] at hv
    cases hv
    exact he _ hs
  | none =>
    rw [hs] at hv
    exact hf v hv

theorem opt58_spacing : Dict.get? opt58 "abscissa_spacing" = some (.int 0) := by decide +kernel

theorem keeps_optDiffer {m n : Nat} : Keeps (fun d d' => Differ m n d → Differ m n d') (W.opt opt58) :=
  keeps_optDiffer' (by rw [opt58_spacing]; intro v hv; cases hv; rfl)

theorem ordinate_length {y : Val} {ys : List (F64 × F64)} {n : Nat} (hy : seqLength y = some n) (h : ordinate58 y = .ok ys) :
    ys.length = n := by
  cases y <;> simp only [ordinate58, reduceCtorEq, Except.ok.injEq] at h <;> subst h <;> simpa [seqLength] using hy

theorem mapRes_count {α β : Type} {f : α → Res β} {l : List α} {r : List β} (h : mapRes f l = .ok r) : r.length = l.length := by
  induction l generalizing r with
  | nil => cases h; rfl
  | cons a l ih =>
    unfold mapRes at h
    cases ha : f a with
    | error e => rw [ha] at h; cases h
    | ok b =>
      rw [ha] at h
      cases hr : mapRes f l with
      | error e => rw [hr] at h; cases h
      | ok r' => rw [hr] at h; cases h; simp [ih hr]

theorem floats_length {x : Val} {xs : List F64} {m : Nat} (hx : seqLength x = some m) (h : x.floats = .ok xs) : xs.length = m := by
  cases x with
  | list l =>
    simp only [Val.floats] at h
    split at h
    · rw [mapRes_count h]; simpa [seqLength] using hx
    · cases h
  | arrI l => simp only [Val.floats, Except.ok.injEq] at h; subst h; simpa [seqLength] using hx
  | arrF l => simp only [Val.floats, Except.ok.injEq] at h; subst h; simpa [seqLength] using hx
  | _ => simp [Val.floats] at h

theorem differ_error {real : Bool} {x : Val} {ys : List (F64 × F64)} {m : Nat} (hx : seqLength x = some m) (h : m ≠ ys.length) :
    ∃ e, interleave58 real false x ys = .error e := by
  unfold interleave58
  simp only [Bool.false_eq_true, if_false]
  cases hf : x.floats with
  | error e => exact ⟨e, rfl⟩
  | ok xs =>
    simp only
    rw [if_neg (by rw [floats_length hx hf]; exact h)]
    exact ⟨_, rfl⟩

/-- `lackkeep` for this. -/
macro "differkeep" : tactic => `(tactic|
  repeat' first
    | intro _
    | with_reducible apply keeps_bind' (pre_imp _)
    | with_reducible apply keeps_bind (pre_imp _)
    | with_reducible exact keeps_pure (pre_imp _) _
    | with_reducible exact keeps_emit (pre_imp _) _
    | with_reducible exact keeps_raise (pre_imp _) _
    | with_reducible exact keeps_lift (pre_imp _) _
    | with_reducible exact keeps_getDict (pre_imp _)
    | with_reducible exact keeps_key (pre_imp _) _
    | with_reducible exact keeps_row (pre_imp _) _
    | with_reducible exact keeps_units _
    | with_reducible exact keeps_idRest _ _ _
    | with_reducible apply keeps_when (pre_imp _)
    | with_reducible exact keeps_optDiffer
    | with_reducible exact keeps_putDiffer (by decide) (by decide) (by decide))

theorem differ58 {m n : Nat} (h : m ≠ n) (little fd : Bool) : Fails (Differ m n) (write58 little fd) := by
  unfold write58
  apply fails_guarded
  iterate 4 with_reducible refine fails_skip (by differkeep) fun _ => ?_
  refine fails_known fun d y hd hy => ?_
  have hyn : seqLength y = some n := by
    obtain ⟨y', hy', hyn⟩ := hd.y
    rw [hy] at hy'; cases hy'; exact hyn
  iterate 7 with_reducible refine fails_skip (by differkeep) fun _ => ?_
  refine fails_known fun d sp hd hsp => ?_
  refine fails_lift (hd.even sp hsp) ?_
  refine fails_known fun d x hd hx => ?_
  have hxm : seqLength x = some m := by
    obtain ⟨x', hx', hxm⟩ := hd.x
    rw [hx] at hx'; cases hx'; exact hxm
  iterate 19 with_reducible refine fails_skip (by differkeep) fun _ => ?_
  cases hys : ordinate58 y with
  | error e => exact fails_here (fails_error rfl)
  | ok ys =>
    refine fails_lift rfl ?_
    obtain ⟨e, he⟩ := differ_error (real := _) hxm (by rw [ordinate_length hyn hys]; exact h)
    exact fails_here (fails_error he)

/-! Evenly spaced. -/

/-- The value of the entry `k` itself. -/
theorem sim_here {k c : Key} {u : Val} {n : Nat} {β : Type} {f : Val → W β}
    (h : ∀ v v', (∀ i < n, v.idx i = v'.idx i) → f v = f v') (hf : ∀ v, Sim k c u n (f v)) : Sim k c u n (W.key k >>= f) := by
  intro d d' hd
  obtain ⟨v, v', hv, hv', hh⟩ := hd.here
  have e : ∀ (d : Dict) (v : Val), d.get? k = some v → (W.key k >>= f) d = f v d := by
    intro d v h
    have hk : W.key k d = ⟨[], d, .ok v⟩ := by
      show (⟨[], d, d.get k⟩ : WRes Val) = _
      unfold Dict.get; rw [h]
    show W.bind (W.key k) f d = _
    unfold W.bind
    rw [hk]
    simp only [List.nil_append]
  rw [e d v hv, e d' v' hv', ← h v v' hh]
  exact hf v d d' hd

theorem sim_units {k c : Key} {u : Val} {n : Nat} (ks : UnitKeys)
    (h : ks.spec ≠ k ∧ ks.len ≠ k ∧ ks.force ≠ k ∧ ks.temp ≠ k ∧ ks.lab ≠ k ∧ ks.units ≠ k) : Sim k c u n (unitsRow ks) := by
  refine sim_row ?_
  simp only [List.forall_mem_cons, List.not_mem_nil, false_implies, implies_true, and_true]
  exact ⟨sim_i h.1, sim_i h.2.1, sim_i h.2.2.1, sim_i h.2.2.2.1, sim_get h.2.2.2.2.1, sim_get h.2.2.2.2.2⟩

theorem same58 {u : Val} (hu : u.truthy = .ok true) (little fd : Bool) : Sim "x" "abscissa_spacing" u 2 (write58 little fd) := by
  unfold write58
  refine sim_guarded ?_
  refine sim_bind' (sim_key (by decide)) fun _ => ?_
  refine sim_bind' (sim_lift _) fun _ => ?_
  refine sim_bind' (sim_when _ (sim_raise _)) fun _ => ?_
  refine sim_bind' (sim_opt _) fun _ => ?_
  refine sim_bind' (sim_key (by decide)) fun _ => ?_
  refine sim_bind' (sim_lift _) fun _ => ?_
  refine sim_bind' (sim_lift _) fun _ => ?_
  refine sim_bind' (sim_when _ (sim_put (by decide) (by decide) _)) fun _ => ?_
  refine sim_bind' (sim_key (by decide)) fun _ => ?_
  refine sim_bind' (sim_lift _) fun _ => ?_
  refine sim_getDict (fun d d' hd => by rw [hd.has "n_bytes"]) fun d => ?_
  refine sim_bind' (sim_when _ (sim_bind (sim_lift _) fun _ => sim_put (by decide) (by decide) _)) fun _ => ?_
  refine sim_value (sim_known hu ?_)
  refine sim_here (fun v v' h => by simp only [h 0 (by decide), h 1 (by decide), interleave58, if_true]) fun v => ?_
  refine sim_bind' (sim_lift _) fun _ => ?_
  refine sim_bind' (sim_put (by decide) (by decide) _) fun _ => ?_
  refine sim_bind' (sim_lift _) fun _ => ?_
  refine sim_bind' (sim_lift _) fun _ => ?_
  refine sim_bind' (sim_emit _) fun _ => ?_
  refine sim_bind' (sim_key (by decide)) fun _ => ?_
  refine sim_bind' (sim_lift _) fun _ => ?_
  refine sim_bind' ?_ fun _ => ?_
  · unfold idRest58
    split
    · exact sim_bind (sim_lift _) fun _ => sim_row (by simflds)
    · exact sim_emit _
  iterate 5 refine sim_bind' (sim_row (by simflds)) fun _ => ?_
  refine sim_bind' (sim_row ?_) fun _ => ?_
  · simp only [List.forall_mem_cons, List.not_mem_nil, false_implies, implies_true, and_true]
    exact ⟨sim_i (by decide), sim_i (by decide), sim_i (by decide), sim_i (by decide), sim_get (by decide), sim_i (by decide),
      sim_i (by decide), sim_get (by decide), sim_i (by decide), sim_i (by decide)⟩
  refine sim_bind' (sim_row (by simflds)) fun _ => ?_
  refine sim_bind' (sim_units _ (by decide)) fun _ => ?_
  refine sim_bind' (sim_units _ (by decide)) fun _ => ?_
  refine sim_bind' (sim_units _ (by decide)) fun _ => ?_
  refine sim_bind' (sim_units _ (by decide)) fun _ => ?_
  refine sim_bind' (sim_lift _) fun _ => ?_
  refine sim_bind' (sim_lift _) fun _ => ?_
  unfold body58
  split
  · exact sim_pure _
  · split
    · exact sim_raise _
    · exact sim_bind (sim_emit _) fun _ => sim_bind (sim_emit _) fun _ => sim_pure _

/-! Fewer than two abscissas. -/

/-- Raises without writing anything. -/
def Quiet {α} (P : Dict → Prop) (m : W α) : Prop := ∀ d, P d → (m d).out = [] ∧ ∃ x, (m d).res = .error x

/-- Writes nothing. -/
def Mute {α} (P : Dict → Prop) (m : W α) : Prop := ∀ d, P d → (m d).out = [] ∧ P (m d).dict

section
variable {α β : Type} {P : Dict → Prop}

theorem quiet_bind {m : W α} {f : α → W β} (hm : Mute P m) (hf : ∀ a, Quiet P (f a)) : Quiet P (m >>= f) := by
  intro d hd
  obtain ⟨h1, h2⟩ := hm d hd
  show (W.bind m f d).out = [] ∧ ∃ x, (W.bind m f d).res = .error x
  unfold W.bind
  rcases h : m d with ⟨o, e, r⟩
  rw [h] at h1 h2
  simp only at h1 h2
  subst h1
  cases r with
  | error x => exact ⟨rfl, x, rfl⟩
  | ok a =>
    obtain ⟨g1, x, g2⟩ := hf a e h2
    exact ⟨by simp only [g1, List.nil_append], x, g2⟩

theorem quiet_here {r : Res α} {x : Err} (hr : r = .error x) {f : α → W β} : Quiet P (W.lift r >>= f) := by
  subst hr
  exact fun d _ => ⟨rfl, x, rfl⟩

theorem quiet_guarded {s : Nat} {m : W α} (hm : Quiet P m) : Quiet P (W.guarded s m) := by
  intro d hd
  obtain ⟨h1, x, h2⟩ := hm d hd
  unfold W.guarded
  rcases h : m d with ⟨o, e, r⟩
  rw [h] at h1 h2
  simp only at h1 h2
  subst h1 h2
  cases x <;> first | exact ⟨rfl, _, rfl⟩ | (rename_i q; cases q <;> exact ⟨rfl, _, rfl⟩)

theorem quiet_known {q : Key} {f : Val → W β} (h : ∀ d v, P d → d.get? q = some v → Quiet P (f v)) : Quiet P (W.key q >>= f) := by
  intro d hd
  show (W.bind (W.key q) f d).out = [] ∧ ∃ x, (W.bind (W.key q) f d).res = .error x
  cases hv : d.get? q with
  | none =>
    have : W.key q d = ⟨[], d, .error (.key q)⟩ := by
      show (⟨[], d, d.get q⟩ : WRes Val) = _
      rw [get_lack hv]
    unfold W.bind
    rw [this]
    exact ⟨rfl, _, rfl⟩
  | some v =>
    have : W.key q d = ⟨[], d, .ok v⟩ := by
      show (⟨[], d, d.get q⟩ : WRes Val) = _
      rw [get_bad hv]
    unfold W.bind
    rw [this]
    obtain ⟨g1, x, g2⟩ := h d v hd hv d hd
    exact ⟨by simp only [g1, List.nil_append], x, g2⟩

theorem mute_keeps {m : W α} (ho : ∀ d, (m d).out = []) (hk : Keeps (fun d d' => P d → P d') m) : Mute P m :=
  fun d hd => ⟨ho d, hk.run d hd⟩

theorem out_when {c : Prop} [Decidable c] {m : W Unit} (h : ∀ d, (m d).out = []) (d : Dict) : (W.when c m d).out = [] := by
  unfold W.when
  split
  · exact h d
  · rfl

end

/-- Fewer than two abscissas. -/
def Few (d : Dict) : Prop := ∃ v m, d.get? "x" = some v ∧ seqLength v = some m ∧ m < 2

theorem keeps_putFew {q : Key} {x : Val} (h : q ≠ "x") : Keeps (fun d d' => Few d → Few d') (W.put q x) := by
  refine ⟨fun d hd => ?_⟩
  show Few (d.set q x)
  unfold Few
  rw [Dict.get?_set_ne _ _ _ _ h]; exact hd

theorem keeps_optFew {fs : List (Key × Val)} : Keeps (fun d d' => Few d → Few d') (W.opt fs) := by
  refine ⟨fun d hd => ?_⟩
  obtain ⟨v, m, hv, h⟩ := hd
  exact ⟨v, m, get?_opt_present hv, h⟩

theorem few58 (little fd : Bool) : Quiet Few (write58 little fd) := by
  unfold write58
  refine quiet_guarded ?_
  refine quiet_bind (mute_keeps (fun _ => rfl) (keeps_key (pre_imp _) _)) fun _ => ?_
  refine quiet_bind (mute_keeps (fun _ => rfl) (keeps_lift (pre_imp _) _)) fun _ => ?_
  refine quiet_bind (mute_keeps (out_when fun _ => rfl) (keeps_when (pre_imp _) _ (keeps_raise (pre_imp _) _))) fun _ => ?_
  refine quiet_bind (mute_keeps (fun _ => rfl) keeps_optFew) fun _ => ?_
  refine quiet_bind (mute_keeps (fun _ => rfl) (keeps_key (pre_imp _) _)) fun _ => ?_
  refine quiet_bind (mute_keeps (fun _ => rfl) (keeps_lift (pre_imp _) _)) fun n => ?_
  refine quiet_bind (mute_keeps (fun _ => rfl) (keeps_lift (pre_imp _) _)) fun _ => ?_
  refine quiet_bind (mute_keeps (out_when fun _ => rfl) (keeps_when (pre_imp _) _ (keeps_putFew (by decide)))) fun _ => ?_
  refine quiet_bind (mute_keeps (fun _ => rfl) (keeps_key (pre_imp _) _)) fun _ => ?_
  refine quiet_bind (mute_keeps (fun _ => rfl) (keeps_lift (pre_imp _) _)) fun pr => ?_
  refine quiet_bind (mute_keeps (fun _ => rfl) (keeps_getDict (pre_imp _))) fun _ => ?_
  refine quiet_bind (mute_keeps (out_when fun d => ?_) (keeps_when (pre_imp _) _ (keeps_bind (pre_imp _) (keeps_lift (pre_imp _) _)
    fun _ => keeps_putFew (by decide)))) fun _ => ?_
  · unfold W.bind W.lift
    cases nBytes58 n pr <;> rfl
  refine quiet_bind (mute_keeps (fun _ => rfl) (keeps_key (pre_imp _) _)) fun _ => ?_
  refine quiet_bind (mute_keeps (fun _ => rfl) (keeps_lift (pre_imp _) _)) fun _ => ?_
  refine quiet_known fun d x hd hx => ?_
  refine quiet_bind (mute_keeps (fun _ => rfl) (keeps_lift (pre_imp _) _)) fun _ => ?_
  refine quiet_bind (mute_keeps (fun _ => rfl) (keeps_putFew (by decide))) fun _ => ?_
  obtain ⟨v, m, hv, hm, h2⟩ := hd
  rw [hx] at hv
  cases hv
  exact quiet_here (noItem_idx ⟨m, hm, by omega⟩)

end Verif
