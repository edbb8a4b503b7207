import Verif.Lemmas.World
/-
What writers do to the dictionary.
-/
namespace Verif
namespace W

/-- The dictionary after `m` is related to the one before, whether `m` raises or not. -/
structure Keeps {α} (R : Dict → Dict → Prop) (m : W α) : Prop where
  run : ∀ d, R d (m d).dict

/-- Reflexive and transitive. -/
structure Pre (R : Dict → Dict → Prop) : Prop where
  refl : ∀ d, R d d
  trans : ∀ {a b c}, R a b → R b c → R a c

theorem pre_eq : Pre (· = ·) := ⟨fun _ => rfl, fun h h' => h.trans h'⟩

variable {R : Dict → Dict → Prop} {α β : Type}

theorem bind_dict (m : W α) (f : α → W β) (d : Dict) :
    (W.bind m f d).dict = match (m d).res with
      | .ok a => (f a (m d).dict).dict
      | .error _ => (m d).dict := by
  unfold W.bind
  rcases h : m d with ⟨o, d', r⟩
  cases r <;> rfl

theorem bind_res (m : W α) (f : α → W β) (d : Dict) :
    (W.bind m f d).res = match (m d).res with
      | .ok a => (f a (m d).dict).res
      | .error e => .error e := by
  unfold W.bind
  rcases h : m d with ⟨o, d', r⟩
  cases r <;> rfl

theorem keeps_bind (h : Pre R) {m : W α} {f : α → W β} (hm : Keeps R m) (hf : ∀ a, Keeps R (f a)) :
    Keeps R (W.bind m f) := by
  refine ⟨fun d => ?_⟩
  rw [bind_dict]
  cases h' : (m d).res with
  | error e => exact hm.run d
  | ok a => exact h.trans (hm.run d) ((hf a).run _)

theorem keeps_bind' (h : Pre R) {m : W α} {f : α → W β} (hm : Keeps R m) (hf : ∀ a, Keeps R (f a)) :
    Keeps R (m >>= f) := keeps_bind h hm hf

theorem keeps_pure (h : Pre R) (a : α) : Keeps R (W.pure a) := ⟨fun d => h.refl d⟩
theorem keeps_pure' (h : Pre R) (a : α) : Keeps R (Pure.pure a : W α) := ⟨fun d => h.refl d⟩
theorem keeps_emit (h : Pre R) (t : Text) : Keeps R (W.emit t) := ⟨fun d => h.refl d⟩
theorem keeps_raise (h : Pre R) (e : Err) : Keeps R (W.raise e : W α) := ⟨fun d => h.refl d⟩
theorem keeps_lift (h : Pre R) (r : Res α) : Keeps R (W.lift r) := ⟨fun d => h.refl d⟩
theorem keeps_getDict (h : Pre R) : Keeps R W.getDict := ⟨fun d => h.refl d⟩
theorem keeps_key (h : Pre R) (k : Key) : Keeps R (W.key k) := ⟨fun d => h.refl d⟩
theorem keeps_keyAt (h : Pre R) (k : Key) (i : Nat) : Keeps R (W.keyAt k i) := ⟨fun d => h.refl d⟩
theorem keeps_format (h : Pre R) (fs : List Fld) : Keeps R (W.format fs) := ⟨fun d => h.refl d⟩
theorem keeps_row (h : Pre R) (fs : List Fld) : Keeps R (W.row fs) :=
  keeps_bind h (keeps_format h fs) fun _ => keeps_emit h _
theorem keeps_writeRecord (h : Pre R) (vs : List Val) (fs : List RFmt) (b : Bool) : Keeps R (writeRecord vs fs b) :=
  keeps_bind h (keeps_lift h _) fun _ => keeps_emit h _
theorem keeps_when (h : Pre R) (c : Prop) [Decidable c] {m : W Unit} (hm : Keeps R m) : Keeps R (W.when c m) := by
  unfold W.when
  split
  · exact hm
  · exact keeps_pure h _
theorem keeps_ite (c : Prop) [Decidable c] {m m' : W α} (hm : Keeps R m) (hm' : Keeps R m') :
    Keeps R (if c then m else m') := by
  split
  · exact hm
  · exact hm'
theorem keeps_forL (h : Pre R) (l : List α) {body : α → W Unit} (hb : ∀ a, Keeps R (body a)) :
    Keeps R (W.forL l body) := by
  induction l with
  | nil => exact keeps_pure h _
  | cons a l ih => exact keeps_bind h (hb a) fun _ => ih
theorem keeps_guarded {n : Nat} {m : W α} (hm : Keeps R m) : Keeps R (W.guarded n m) := by
  refine ⟨fun d => ?_⟩
  have := hm.run d
  unfold W.guarded
  rcases h : m d with ⟨o, d', r⟩
  rw [h] at this
  rcases r with e | a
  · rcases e with (_ | _) | _ | _ | _ | _ | _ | _ | _ | _ | _ | _ <;> exact this
  · exact this
theorem keeps_guardedAny {n : Nat} {m : W α} (hm : Keeps R m) : Keeps R (W.guardedAny n m) := by
  refine ⟨fun d => ?_⟩
  have := hm.run d
  unfold W.guardedAny
  rcases h : m d with ⟨o, d', r⟩
  rw [h] at this
  rcases r with e | a
  · rcases e with (_ | _) | _ | _ | _ | _ | _ | _ | _ | _ | _ | _ <;> exact this
  · exact this
theorem keeps_none {m : W Unit} (hm : Keeps R m) : Keeps R (W.none m : W (Option α)) := ⟨hm.run⟩

/-- Closes goals `Keeps R m` for the steps that leave the dictionary alone, given `h : Pre R`. -/
macro "wkeep " h:ident : tactic => `(tactic|
  repeat' first
    | intro _
    | with_reducible apply keeps_guarded
    | with_reducible apply keeps_guardedAny
    | with_reducible apply keeps_bind' $h
    | with_reducible apply keeps_bind $h
    | with_reducible exact keeps_pure' $h _
    | with_reducible exact keeps_pure $h _
    | with_reducible exact keeps_emit $h _
    | with_reducible exact keeps_raise $h _
    | with_reducible exact keeps_lift $h _
    | with_reducible exact keeps_getDict $h
    | with_reducible exact keeps_key $h _
    | with_reducible exact keeps_keyAt $h _ _
    | with_reducible exact keeps_format $h _
    | with_reducible exact keeps_row $h _
    | with_reducible exact keeps_writeRecord $h _ _ _
    | with_reducible apply keeps_when $h
    | with_reducible apply keeps_ite
    | with_reducible apply keeps_forL $h)

end W

/-- Values of the keys outside `over` stay, and only keys of `added` are new. -/
structure Grown (over added : List Key) (d d' : Dict) : Prop where
  keep : ∀ k v, k ∉ over → d.get? k = some v → d'.get? k = some v
  new : ∀ k, d'.get? k ≠ none → d.get? k ≠ none ∨ k ∈ added

theorem pre_grown (over added : List Key) : W.Pre (Grown over added) :=
  ⟨fun _ => ⟨fun _ _ _ h => h, fun _ h => .inl h⟩, fun h h' =>
    ⟨fun k v hk hv => h'.keep k v hk (h.keep k v hk hv), fun k hk => (h'.new k hk).elim (h.new k) .inr⟩⟩

theorem keeps_opt {over added : List Key} (fs : List (Key × Val)) (h : ∀ p ∈ fs, p.1 ∈ added) :
    W.Keeps (Grown over added) (W.opt fs) := by
  refine ⟨fun d => ?_⟩
  show Grown over added d (optFields d fs)
  refine ⟨fun k v _ hv => get?_opt_present hv, fun k hk => ?_⟩
  rw [get?_optFields] at hk
  cases hd : d.get? k with
  | some v => left; simp
  | none =>
    right
    rw [hd, Option.none_or] at hk
    clear hd
    induction fs with
    | nil => exact absurd rfl hk
    | cons p fs ih =>
      obtain ⟨k', v'⟩ := p
      unfold Dict.get? at hk
      split at hk
      next e => rw [← e]; exact h (k', v') (by simp)
      next => exact ih (fun p hp => h p (by simp [hp])) hk

theorem keeps_put {over added : List Key} (k : Key) (v : Val) (h : k ∈ over) (h' : k ∈ added) :
    W.Keeps (Grown over added) (W.put k v) := by
  refine ⟨fun d => ?_⟩
  show Grown over added d (d.set k v)
  refine ⟨fun k' v' hk hv => ?_, fun k' hk => ?_⟩
  · rw [Dict.get?_set_ne _ _ _ _ (by rintro rfl; exact hk h)]; exact hv
  · by_cases e : k' = k
    · right; rw [e]; exact h'
    · left; rwa [Dict.get?_set_ne _ _ _ _ (by first | exact e | exact fun h => e h.symm)] at hk

end Verif

namespace Verif
namespace W

/-- What holds after `m` if it does not raise. -/
def Post {α} (P : Dict → Prop) (m : W α) (Q : α → Dict → Prop) : Prop :=
  ∀ d, P d → ∀ a, (m d).res = .ok a → Q a (m d).dict

variable {α β : Type} {P : Dict → Prop}

theorem post_bind {m : W α} {f : α → W β} {Q : α → Dict → Prop} {Q' : β → Dict → Prop} (hm : Post P m Q)
    (hf : ∀ a, Post (Q a) (f a) Q') : Post P (W.bind m f) Q' := by
  intro d hd b hb
  rw [bind_res] at hb
  rw [bind_dict]
  cases h : (m d).res with
  | error e => rw [h] at hb; cases hb
  | ok a =>
    rw [h] at hb
    exact hf a _ (hm d hd a h) b hb

theorem post_bind' {m : W α} {f : α → W β} {Q : α → Dict → Prop} {Q' : β → Dict → Prop} (hm : Post P m Q)
    (hf : ∀ a, Post (Q a) (f a) Q') : Post P (m >>= f) Q' := post_bind hm hf

theorem post_keeps {m : W α} (hm : Keeps (fun d d' => P d → P d') m) : Post P m (fun _ => P) :=
  fun d hd _ _ => hm.run d hd

theorem pre_imp (P : Dict → Prop) : Pre (fun d d' => P d → P d') := ⟨fun _ h => h, fun h h' x => h' (h x)⟩

theorem post_key (k : Key) : Post P (W.key k) (fun v d => P d ∧ d.get? k = some v) := by
  intro d hd v hv
  refine ⟨hd, ?_⟩
  have hv : d.get k = .ok v := hv
  show d.get? k = some v
  unfold Dict.get at hv
  split at hv
  next h => cases hv; exact h
  next => cases hv

theorem post_lift {r : Res α} : Post P (W.lift r) (fun a d => P d ∧ r = .ok a) := fun _ hd _ ha => ⟨hd, ha⟩

theorem post_guarded {n : Nat} {m : W α} {Q : α → Dict → Prop} (hm : Post P m Q) : Post P (W.guarded n m) Q := by
  intro d hd a ha
  have := hm d hd
  unfold W.guarded at ha ⊢
  rcases h : m d with ⟨o, d', r⟩
  rw [h] at this ha
  rcases r with e | a'
  · rcases e with (_ | _) | _ | _ | _ | _ | _ | _ | _ | _ | _ | _ <;> cases ha
  · exact this a ha
theorem post_guardedAny {n : Nat} {m : W α} {Q : α → Dict → Prop} (hm : Post P m Q) : Post P (W.guardedAny n m) Q := by
  intro d hd a ha
  have := hm d hd
  unfold W.guardedAny at ha ⊢
  rcases h : m d with ⟨o, d', r⟩
  rw [h] at this ha
  rcases r with e | a'
  · rcases e with (_ | _) | _ | _ | _ | _ | _ | _ | _ | _ | _ | _ <;> cases ha
  · exact this a ha

theorem post_mono {m : W α} {Q Q' : α → Dict → Prop} (hm : Post P m Q) (h : ∀ a d, Q a d → Q' a d) : Post P m Q' :=
  fun d hd a ha => h a _ (hm d hd a ha)

end W

theorem Dict.getOr_set_ne (d : Dict) (k q : Key) (v x : Val) (h : k ≠ q) : (d.set k v).getOr q x = d.getOr q x := by
  unfold Dict.getOr; rw [Dict.get?_set_ne _ _ _ _ h]

theorem getOr_optFields {fs : List (Key × Val)} {d : Dict} {k : Key} {v : Val} (h : Dict.get? fs k = some v) :
    (optFields d fs).getOr k v = d.getOr k v := by
  unfold Dict.getOr
  rw [get?_optFields, h]
  cases d.get? k <;> rfl

theorem post_opt (fs : List (Key × Val)) {k : Key} {v : Val} (h : Dict.get? fs k = some v) (b : Val) :
    W.Post (fun d => d.getOr k v = b) (W.opt fs) (fun _ d => d.getOr k v = b) :=
  fun _ hd _ _ => (getOr_optFields h).trans hd

/-- A data-set 58 is written in binary form only when its flag `binary` is set. -/
theorem write58_binary (little fd : Bool) (b : Val) :
    W.Post (fun d => d.getOr "binary" (.int 0) = b) (write58 little fd)
      (fun r _ => r.isSome = true → b.truthy = .ok true) := by
  have pi := W.pre_imp (fun d => d.getOr "binary" (.int 0) = b)
  have hput : ∀ (k : Key) (v : Val), k ≠ (.s "binary") → W.Keeps (fun d d' => d.getOr "binary" (.int 0) = b →
      d'.getOr "binary" (.int 0) = b) (W.put k v) := by
    refine fun k v hk => ⟨fun d hd => ?_⟩
    show (d.set k v).getOr _ _ = b
    rw [Dict.getOr_set_ne _ _ _ _ _ hk]; exact hd
  apply W.post_guarded
  refine W.post_bind' (W.post_keeps (by wkeep pi)) fun ft => ?_
  refine W.post_bind' (W.post_keeps (by wkeep pi)) fun good => ?_
  refine W.post_bind' (W.post_keeps (by wkeep pi)) fun _ => ?_
  refine W.post_bind' (Q := fun _ d => d.getOr "binary" (.int 0) = b) ?_ fun _ => ?_
  · have h0 : Dict.get? opt58 (.s "binary") = some (.int 0) := rfl
    exact post_opt opt58 h0 b
  refine W.post_bind' (W.post_keeps (by wkeep pi)) fun y => ?_
  refine W.post_bind' (W.post_keeps (by wkeep pi)) fun n => ?_
  refine W.post_bind' (W.post_keeps (by wkeep pi)) fun cplx => ?_
  refine W.post_bind' (W.post_keeps (by wkeep pi; exact hput _ _ (by decide))) fun _ => ?_
  refine W.post_bind' (W.post_keeps (by wkeep pi)) fun odt => ?_
  refine W.post_bind' (W.post_keeps (by wkeep pi)) fun pr => ?_
  refine W.post_bind' (W.post_keeps (by wkeep pi)) fun d => ?_
  refine W.post_bind' (W.post_keeps (by wkeep pi; exact hput _ _ (by decide))) fun _ => ?_
  refine W.post_bind' (W.post_keeps (by wkeep pi)) fun sp => ?_
  refine W.post_bind' (W.post_keeps (by wkeep pi)) fun even => ?_
  refine W.post_bind' (W.post_keeps (by wkeep pi)) fun x => ?_
  refine W.post_bind' (W.post_keeps (by wkeep pi)) fun x0 => ?_
  refine W.post_bind' (W.post_keeps (by exact hput _ _ (by decide))) fun _ => ?_
  refine W.post_bind' (W.post_keeps (by wkeep pi)) fun x1 => ?_
  refine W.post_bind' (W.post_keeps (by wkeep pi)) fun dx => ?_
  refine W.post_bind' (W.post_keeps (by wkeep pi)) fun _ => ?_
  refine W.post_bind' (W.post_key _) fun bv => ?_
  refine W.post_bind' (W.post_lift) fun binary => ?_
  by_cases hb : binary = true
  · subst hb
    rintro d ⟨⟨h1, h2⟩, h3⟩ _ _ _
    rw [← h1]
    unfold Dict.getOr
    rw [h2]; exact h3
  · have hf : binary = false := by cases binary <;> simp_all
    subst hf
    have pi := W.pre_imp (fun _ => True)
    intro d _ r hr hs
    exfalso
    have key : W.Post (fun _ => True) (do
        idRest58 little false (nBytes58 n pr)
        W.row [.sl 80 "id1"]
        W.row [.sl 80 "id2"]
        W.row [.sl 80 "id3"]
        W.row [.sl 80 "id4"]
        W.row [.sl 80 "id5"]
        W.row [.i 5 "func_type", .i 10 "func_id", .i 5 "ver_num", .i 10 "load_case_id", .sr1 10 "rsp_ent_name",
          .i 10 "rsp_node", .i 4 "rsp_dir", .sr1 10 "ref_ent_name", .i 10 "ref_node", .i 4 "ref_dir"]
        W.row [.c (fmtI 10) odt, .c (fmtI 10) (.int n), .c (fmtI 10) (.bool even), ⟨fun _ => boolTimes even x0, fmtEV 13 5⟩,
          ⟨fun _ => boolTimes even dx, fmtEV 13 5⟩, .e 13 5 "z_axis_value"]
        unitsRow abscissaKeys
        unitsRow ordinateKeys
        unitsRow orddenomKeys
        unitsRow zAxisKeys
        let ys ← W.lift (ordinate58 y)
        let data ← W.lift (interleave58 (!cplx) even x ys)
        body58 little false pr (!cplx) even data) (fun r _ => r = none) := by
      have tr : ∀ {α} (m : W α), W.Post (fun _ => True) m (fun _ _ => True) := fun _ _ _ _ _ => trivial
      refine W.post_bind' (tr _) fun _ => ?_
      refine W.post_bind' (tr _) fun _ => ?_
      refine W.post_bind' (tr _) fun _ => ?_
      refine W.post_bind' (tr _) fun _ => ?_
      refine W.post_bind' (tr _) fun _ => ?_
      refine W.post_bind' (tr _) fun _ => ?_
      refine W.post_bind' (tr _) fun _ => ?_
      refine W.post_bind' (tr _) fun _ => ?_
      refine W.post_bind' (tr _) fun _ => ?_
      refine W.post_bind' (tr _) fun _ => ?_
      refine W.post_bind' (tr _) fun _ => ?_
      refine W.post_bind' (tr _) fun _ => ?_
      refine W.post_bind' (tr _) fun _ => ?_
      refine W.post_bind' (tr _) fun _ => ?_
      unfold body58
      simp only [Bool.false_eq_true, if_false]
      split
      · intro d _ r hr; cases hr
      · refine W.post_bind (tr _) fun _ => ?_
        refine W.post_bind (tr _) fun _ => ?_
        intro d _ r hr; cases hr; rfl
    have := key d trivial r hr
    rw [this] at hs
    cases hs

end Verif
