import Verif.Props.Repeat
import Verif.Lemmas.Accept58
/-
Lists of dictionaries are written one after the other: what the clock has to do with the outcome of a call.
-/
namespace Verif

/-- Equal values, or two texts: what the entries of a header (151) written at two times have in common. -/
def TextAlike (v v' : Val) : Prop := v = v' ∨ ∃ s s', v = .str s ∧ v' = .str s'

/-- The same keys with such values. -/
def DictAlike (d d' : Dict) : Prop := ∀ k, d.get? k = d'.get? k ∨ ∃ s s', d.get? k = some (.str s) ∧ d'.get? k = some (.str s')

/-- A field written as text. -/
def TextField (f : Fld) : Prop := ∃ w k, f = .sl w k ∨ f = .sr w k

theorem alike_get {d d' : Dict} (h : DictAlike d d') (k : Key) :
    (∃ x, d.get k = .error x ∧ d'.get k = .error x) ∨ ∃ v v', d.get k = .ok v ∧ d'.get k = .ok v' ∧ TextAlike v v' := by
  unfold Dict.get
  rcases h k with h | ⟨s, s', h1, h2⟩
  · rw [h]
    cases d'.get? k with
    | none => exact .inl ⟨_, rfl, rfl⟩
    | some v => exact .inr ⟨v, v, rfl, rfl, .inl rfl⟩
  · rw [h1, h2]
    exact .inr ⟨_, _, rfl, rfl, .inr ⟨s, s', rfl, rfl⟩⟩

theorem textField_acc {f : Fld} (hf : TextField f) : ∃ k, f.acc = fun d => d.get k := by
  obtain ⟨w, k, rfl | rfl⟩ := hf <;> exact ⟨k, rfl⟩

theorem textField_fmt {f : Fld} (hf : TextField f) {v v' : Val} (h : TextAlike v v') :
    (∃ x, f.fmt v = .error x ∧ f.fmt v' = .error x) ∨ ∃ t t', f.fmt v = .ok t ∧ f.fmt v' = .ok t' := by
  rcases h with rfl | ⟨s, s', rfl, rfl⟩
  · cases h : f.fmt v with
    | error x => exact .inl ⟨x, rfl, rfl⟩
    | ok t => exact .inr ⟨t, t, rfl, rfl⟩
  · obtain ⟨w, k, rfl | rfl⟩ := hf <;> exact .inr ⟨_, _, rfl, rfl⟩

theorem eval_alike {d d' : Dict} (h : DictAlike d d') : ∀ fs : List Fld, (∀ f ∈ fs, TextField f) →
    (∃ x, evalFlds d fs = .error x ∧ evalFlds d' fs = .error x) ∨
      ∃ vs vs', evalFlds d fs = .ok vs ∧ evalFlds d' fs = .ok vs' ∧ List.Forall₂ TextAlike vs vs'
  | [], _ => .inr ⟨[], [], rfl, rfl, .nil⟩
  | f :: fs, hf => by
    obtain ⟨k, hk⟩ := textField_acc (hf f List.mem_cons_self)
    unfold evalFlds
    rw [hk]
    rcases alike_get h k with ⟨x, h1, h2⟩ | ⟨v, v', h1, h2, h3⟩
    · exact .inl ⟨x, by simp only [h1], by simp only [h2]⟩
    · rcases eval_alike h fs fun g hg => hf g (List.mem_cons_of_mem _ hg) with ⟨x, g1, g2⟩ | ⟨vs, vs', g1, g2, g3⟩
      · exact .inl ⟨x, by simp only [h1, g1], by simp only [h2, g2]⟩
      · exact .inr ⟨v :: vs, v' :: vs', by simp only [h1, g1], by simp only [h2, g2], .cons h3 g3⟩

theorem fmt_alike : ∀ (fs : List Fld) (vs vs' : List Val), (∀ f ∈ fs, TextField f) → List.Forall₂ TextAlike vs vs' →
    (∃ x, fmtFlds fs vs = .error x ∧ fmtFlds fs vs' = .error x) ∨ ∃ t t', fmtFlds fs vs = .ok t ∧ fmtFlds fs vs' = .ok t'
  | [], _, _, _, _ => .inr ⟨[], [], by simp only [fmtFlds], by simp only [fmtFlds]⟩
  | _ :: _, [], _, _, h => by cases h; exact .inr ⟨[], [], rfl, rfl⟩
  | f :: fs, v :: vs, _, hf, h => by
    cases h with
    | cons h1 h2 =>
      simp only [fmtFlds]
      rcases textField_fmt (hf f List.mem_cons_self) h1 with ⟨x, a, b⟩ | ⟨t, t', a, b⟩
      · exact .inl ⟨x, by simp only [a], by simp only [b]⟩
      · rcases fmt_alike fs vs _ (fun g hg => hf g (List.mem_cons_of_mem _ hg)) h2 with ⟨x, c, e⟩ | ⟨u, u', c, e⟩
        · exact .inl ⟨x, by simp only [a, c], by simp only [b, e]⟩
        · exact .inr ⟨t ++ u, t' ++ u', by simp only [a, c], by simp only [b, e]⟩

theorem row_alike {d d' : Dict} (h : DictAlike d d') {fs : List Fld} (hf : ∀ f ∈ fs, TextField f) :
    (W.row fs d).res = (W.row fs d').res := by
  unfold W.row
  rw [W.bind_res, W.bind_res]
  unfold W.format
  rcases eval_alike h fs hf with ⟨x, h1, h2⟩ | ⟨vs, vs', h1, h2, h3⟩
  · simp only [h1, h2]
  · simp only [h1, h2]
    rcases fmt_alike fs vs vs' hf h3 with ⟨x, a, b⟩ | ⟨t, t', a, b⟩
    · simp only [a, b]
    · simp only [a, b]; rfl

theorem row_dict (fs : List Fld) (d : Dict) : (W.row fs d).dict = d :=
  (W.Keeps.run (W.keeps_row W.pre_eq fs) d).symm

theorem then_alike {d d' : Dict} (h : DictAlike d d') {fs : List Fld} (hf : ∀ f ∈ fs, TextField f) {f : Unit → W Unit}
    (hr : (f () d).res = (f () d').res) : ((W.row fs >>= f) d).res = ((W.row fs >>= f) d').res := by
  show (W.bind _ _ d).res = (W.bind _ _ d').res
  rw [W.bind_res, W.bind_res, row_alike h hf, row_dict, row_dict]
  cases (W.row fs d').res with
  | error x => rfl
  | ok u => exact hr

theorem opts_alike {fs fs' : List (Key × Val)} (h : List.Forall₂ (fun p p' => p.1 = p'.1 ∧ TextAlike p.2 p'.2) fs fs') : DictAlike fs fs' := by
  intro k
  induction h with
  | nil => exact .inl rfl
  | @cons p p' _ _ hp _ ih =>
    obtain ⟨q, v⟩ := p
    obtain ⟨q', v'⟩ := p'
    obtain ⟨rfl, hv⟩ := hp
    unfold Dict.get?
    by_cases hk : q = k
    · rw [if_pos hk, if_pos hk]
      rcases hv with h | ⟨s, s', h1, h2⟩
      · exact .inl (congrArg some h)
      · exact .inr ⟨s, s', congrArg some h1, congrArg some h2⟩
    · rw [if_neg hk, if_neg hk]
      exact ih

theorem opt_alike (d : Dict) (ds ts ds' ts' : Text) : DictAlike (optFields d (opt151 ds ts)) (optFields d (opt151 ds' ts')) := by
  intro k
  rw [get?_optFields, get?_optFields]
  cases d.get? k with
  | some v => exact .inl rfl
  | none =>
    rw [Option.none_or, Option.none_or]
    have ht : ∀ s s', TextAlike (.str s) (.str s') := fun s s' => .inr ⟨s, s', rfl, rfl⟩
    refine opts_alike ?_ k
    unfold opt151
    exact (.cons ⟨rfl, ht _ _⟩ (.cons ⟨rfl, ht _ _⟩ (.cons ⟨rfl, ht _ _⟩ (.cons ⟨rfl, ht _ _⟩ (.cons ⟨rfl, ht _ _⟩
      (.cons ⟨rfl, ht _ _⟩ (.cons ⟨rfl, ht _ _⟩ (.cons ⟨rfl, ht _ _⟩ (.cons ⟨rfl, ht _ _⟩ .nil)))))))))

theorem guarded_res_congr {m m' : W Unit} {d d' : Dict} {n : Nat} (h : (m d).res = (m' d').res) :
    (W.guarded n m d).res = (W.guarded n m' d').res := by
  unfold W.guarded
  rcases hm : m d with ⟨o, D, r⟩
  rcases hm' : m' d' with ⟨o', D', r'⟩
  rw [hm, hm'] at h
  simp only at h
  subst h
  rcases r with x | u
  · rcases x with _ | _ <;> try rfl
    all_goals (rename_i k; cases k <;> rfl)
  · rfl

/-- The lines of a header. -/
def rows151 : W Unit := do
  W.row [.sl 80 "model_name"]
  W.row [.sl 80 "description"]
  W.row [.sl 80 "db_app"]
  W.row [.sl 10 "date_db_created", .sl 10 "time_db_created", .sr 10 "version_db1", .sr 10 "version_db2",
    .sr 10 "file_type"]
  W.row [.sl 10 "date_db_saved", .sl 10 "time_db_saved"]
  W.row [.sl 80 "program"]
  W.row [.sl 10 "date_file_written", .sl 10 "time_file_written"]
  W.emit tailText

theorem write151_rows (ds ts : Text) : write151 ds ts = W.guarded 151 (W.bind (W.opt (opt151 ds ts)) fun _ => W.bind (W.emit (headText 151)) fun _ => rows151) := rfl

theorem rows_alike {d d' : Dict} (h : DictAlike d d') : (rows151 d).res = (rows151 d').res := by
  have tf : ∀ w k, TextField (.sl w k) := fun w k => ⟨w, k, .inl rfl⟩
  have tg : ∀ w k, TextField (.sr w k) := fun w k => ⟨w, k, .inr rfl⟩
  have t1 : ∀ w k, ∀ f ∈ [Fld.sl w k], TextField f := by
    intro w k f hf
    rw [List.mem_singleton] at hf
    exact hf ▸ tf w k
  have tc : ∀ {g : Fld} {fs : List Fld}, TextField g → (∀ f ∈ fs, TextField f) → ∀ f ∈ g :: fs, TextField f := by
    intro g fs hg hs f hf
    rcases List.mem_cons.1 hf with rfl | hf
    · exact hg
    · exact hs f hf
  have tn : ∀ f ∈ ([] : List Fld), TextField f := fun f hf => by cases hf
  unfold rows151
  exact then_alike h (t1 _ _) (then_alike h (t1 _ _) (then_alike h (t1 _ _) (then_alike h (tc (tf _ _) (tc (tf _ _) (tc (tg _ _) (tc (tg _ _)
    (tc (tg _ _) tn))))) (then_alike h (tc (tf _ _) (t1 _ _)) (then_alike h (t1 _ _) (then_alike h (tc (tf _ _) (t1 _ _)) rfl))))))

theorem opt_then {fs : List (Key × Val)} {f : Unit → W Unit} {d : Dict} : (W.bind (W.opt fs) f d).res = (f () (optFields d fs)).res := rfl

theorem emit_then {t : Text} {f : Unit → W Unit} {d : Dict} : (W.bind (W.emit t) f d).res = (f () d).res := rfl

/-- The outcome of writing a header does not depend on the time. -/
theorem header_anytime (ds ts ds' ts' : Text) (d : Dict) : (write151 ds ts d).res = (write151 ds' ts' d).res := by
  rw [write151_rows, write151_rows]
  refine guarded_res_congr ?_
  rw [opt_then, opt_then, emit_then, emit_then]
  exact rows_alike (opt_alike d ds ts ds' ts')

/-! Functions and the byte order of the machine. -/

/-- The same outcome, and the same dictionary left to the caller. -/
def SameOut {α : Type} (m m' : W α) : Prop :=
  ∀ d, ((m d).res.map fun _ => ()) = ((m' d).res.map fun _ => ()) ∧ (m d).dict = (m' d).dict

theorem so_refl {α : Type} (m : W α) : SameOut m m := fun _ => ⟨rfl, rfl⟩

theorem so_right {α β : Type} (m : W α) {f g : α → W β} (h : ∀ a, SameOut (f a) (g a)) : SameOut (m >>= f) (m >>= g) := by
  intro d
  show _ = ((W.bind m g d).res.map fun _ => ()) ∧ _ = (W.bind m g d).dict
  refine (?_ : ((W.bind m f d).res.map fun _ => ()) = _ ∧ (W.bind m f d).dict = _)
  rw [W.bind_res, W.bind_res, W.bind_dict, W.bind_dict]
  cases (m d).res with
  | error x => exact ⟨rfl, rfl⟩
  | ok a => exact h a _

theorem so_left {β : Type} {m m' : W Unit} (hm : SameOut m m') {f g : Unit → W β} (h : ∀ a, SameOut (f a) (g a)) : SameOut (m >>= f) (m' >>= g) := by
  intro d
  show _ = ((W.bind m' g d).res.map fun _ => ()) ∧ _ = (W.bind m' g d).dict
  refine (?_ : ((W.bind m f d).res.map fun _ => ()) = _ ∧ (W.bind m f d).dict = _)
  rw [W.bind_res, W.bind_res, W.bind_dict, W.bind_dict]
  obtain ⟨h1, h2⟩ := hm d
  rw [← h2]
  cases ha : (m d).res with
  | error x =>
    cases hb : (m' d).res with
    | error y => rw [ha, hb] at h1; cases h1; exact ⟨rfl, rfl⟩
    | ok b => rw [ha, hb] at h1; cases h1
  | ok a =>
    cases hb : (m' d).res with
    | error y => rw [ha, hb] at h1; cases h1
    | ok b => exact h a _

theorem so_guarded {α : Type} {m m' : W α} (n : Nat) (h : SameOut m m') : SameOut (W.guarded n m) (W.guarded n m') := by
  intro d
  obtain ⟨h1, h2⟩ := h d
  unfold W.guarded
  rcases hm : m d with ⟨o, D, x | a⟩
  · rcases hm' : m' d with ⟨o', D', y | b⟩
    · rw [hm, hm'] at h1 h2
      cases h1
      simp only at h2
      subst h2
      rcases x with k | _ <;> try exact ⟨rfl, rfl⟩
      cases k <;> exact ⟨rfl, rfl⟩
    · rw [hm, hm'] at h1; cases h1
  · rcases hm' : m' d with ⟨o', D', y | b⟩
    · rw [hm, hm'] at h1; cases h1
    · rw [hm, hm'] at h2
      exact ⟨rfl, h2⟩

theorem so_id (l l' binary : Bool) (nb : Res Nat) : SameOut (idRest58 l binary nb) (idRest58 l' binary nb) := by
  cases binary with
  | false => exact so_refl _
  | true =>
    unfold idRest58
    rw [if_pos rfl, if_pos rfl]
    refine so_right (W.lift nb) fun n => ?_
    intro d
    cases l <;> cases l' <;> exact ⟨rfl, rfl⟩

theorem so_body (l l' binary : Bool) (pr : Option Bool) (real even : Bool) (data : List F64) :
    SameOut (body58 l binary pr real even data) (body58 l' binary pr real even data) := by
  cases binary with
  | false => exact so_refl _
  | true => exact fun d => ⟨rfl, rfl⟩

theorem so_rows (l l' cplx even binary : Bool) (pr : Option Bool) (y x odt x0 dx : Val) (n : Nat) :
    SameOut (rows58 l cplx even binary pr y x odt x0 dx n) (rows58 l' cplx even binary pr y x odt x0 dx n) := by
  unfold rows58
  refine so_right _ fun _ => so_right _ fun _ => so_right _ fun _ => so_right _ fun _ => so_right _ fun _ => so_right _ fun _ => ?_
  refine so_right _ fun _ => so_right _ fun _ => so_right _ fun _ => so_right _ fun _ => so_right _ fun _ => ?_
  unfold lines58
  exact so_right _ fun _ => so_right _ fun _ => so_body _ _ _ _ _ _ _

/-- The outcome of writing a function does not depend on the machine. -/
theorem function_anywhere (l l' fd : Bool) : SameOut (write58 l fd) (write58 l' fd) := by
  rw [write58_tail, write58_tail]
  refine so_guarded 58 ?_
  refine so_right _ fun _ => so_right _ fun _ => so_right _ fun _ => so_right _ fun _ => so_right _ fun _ => so_right _ fun _ => ?_
  refine so_right _ fun _ => so_right _ fun _ => so_right _ fun _ => so_right _ fun _ => so_right _ fun _ => so_right _ fun _ => ?_
  unfold tail58
  refine so_right _ fun _ => so_right _ fun _ => so_right _ fun _ => so_right _ fun _ => so_right _ fun _ => so_right _ fun _ => ?_
  refine so_right _ fun _ => so_right _ fun _ => so_right _ fun _ => so_right _ fun _ => ?_
  exact so_left (so_id _ _ _ _) fun _ => so_rows _ _ _ _ _ _ _ _ _ _ _ _

/-- The function is not to be written in binary form. -/
def TextForm (d : Dict) : Prop := ∀ v, d.get? "binary" = some v → v.truthy ≠ .ok true

theorem nb_right {α β : Type} {m : W α} {f g : α → W β} {d : Dict} (hm : TextForm (m d).dict) (h : ∀ a D, TextForm D → f a D = g a D) :
    (m >>= f) d = (m >>= g) d := by
  show W.bind m f d = W.bind m g d
  unfold W.bind
  rcases hr : m d with ⟨o, D, x | a⟩
  · rfl
  · rw [hr] at hm
    simp only
    rw [h a D hm]

theorem nb_set {d : Dict} (h : TextForm d) {k : String} (v : Val) (hk : k ≠ "binary") : TextForm (d.set (.s k) v) := by
  intro u hu
  rw [Dict.get?_set_ne _ _ _ _ (fun h => hk (Key.s.inj h))] at hu
  exact h u hu

theorem nb_opt {d : Dict} (h : TextForm d) : TextForm (optFields d opt58) := by
  intro v hv
  rw [get?_optFields] at hv
  cases hd : d.get? "binary" with
  | some u => rw [hd] at hv; cases hv; exact h v hd
  | none =>
    rw [hd, Option.none_or] at hv
    have : Dict.get? opt58 "binary" = some (.int 0) := by decide +kernel
    rw [this] at hv
    cases hv
    decide

theorem key_right {β : Type} {k : Key} {f g : Val → W β} {d : Dict} (h : ∀ v, d.get? k = some v → f v d = g v d) :
    (W.key k >>= f) d = (W.key k >>= g) d := by
  show W.bind (W.key k) f d = W.bind (W.key k) g d
  unfold W.bind W.key Dict.get
  cases hd : d.get? k with
  | none => rfl
  | some v =>
    simp only
    rw [h v hd]

theorem lift_right {α β : Type} {r : Res α} {f g : α → W β} {d : Dict} (h : ∀ a, r = .ok a → f a d = g a d) :
    (W.lift r >>= f) d = (W.lift r >>= g) d := by
  show W.bind (W.lift r) f d = W.bind (W.lift r) g d
  unfold W.bind W.lift
  cases r with
  | error x => rfl
  | ok a =>
    simp only
    rw [h a rfl]

theorem nb_when {β : Type} {c : Prop} [Decidable c] {m : W Unit} {f g : Unit → W β} {d : Dict} (h0 : TextForm d) (hm : TextForm (m d).dict)
    (h : ∀ a D, TextForm D → f a D = g a D) : (W.when c m >>= f) d = (W.when c m >>= g) d := by
  refine nb_right ?_ h
  unfold W.when
  by_cases hc : c
  · rw [if_pos hc]; exact hm
  · rw [if_neg hc]; exact h0

theorem opt_right {β : Type} {fs : List (Key × Val)} {f g : Unit → W β} {d : Dict} (h0 : TextForm (optFields d fs)) (h : ∀ D, TextForm D → f () D = g () D) :
    (W.opt fs >>= f) d = (W.opt fs >>= g) d := by
  show W.bind (W.opt fs) f d = W.bind (W.opt fs) g d
  unfold W.bind W.opt
  simp only
  rw [h _ h0]

theorem id_text (l l' : Bool) (nb : Res Nat) : idRest58 l false nb = idRest58 l' false nb := rfl

theorem body_text (l l' : Bool) (pr : Option Bool) (real even : Bool) (data : List F64) :
    body58 l false pr real even data = body58 l' false pr real even data := rfl

theorem rows_text (l l' cplx even : Bool) (pr : Option Bool) (y x odt x0 dx : Val) (n : Nat) :
    rows58 l cplx even false pr y x odt x0 dx n = rows58 l' cplx even false pr y x odt x0 dx n := by
  unfold rows58 lines58
  simp only [body_text l l']

theorem tail_text (l l' cplx : Bool) (pr : Option Bool) (y odt : Val) (n : Nat) {d : Dict} (h : TextForm d) :
    tail58 l cplx pr y odt n d = tail58 l' cplx pr y odt n d := by
  unfold tail58
  refine nb_right (m := W.key _) h fun _ D h => ?_
  refine nb_right (m := W.lift _) h fun _ D h => ?_
  refine nb_right (m := W.key _) h fun _ D h => ?_
  refine nb_right (m := W.lift _) h fun _ D h => ?_
  refine nb_right (m := W.put _ _) (nb_set h _ (by decide)) fun _ D h => ?_
  refine nb_right (m := W.lift _) h fun _ D h => ?_
  refine nb_right (m := W.lift _) h fun _ D h => ?_
  refine nb_right (m := W.emit _) h fun _ D h => ?_
  refine key_right fun b hb => lift_right fun u hu => ?_
  cases u with
  | true => exact absurd hu (h b hb)
  | false => rw [id_text l l', rows_text l l']

theorem guarded_at {α : Type} {m m' : W α} {d : Dict} (n : Nat) (h : m d = m' d) : W.guarded n m d = W.guarded n m' d := by
  unfold W.guarded
  rw [h]

/-- A function that is not binary is written the same on all machines. -/
theorem function_text (l l' fd : Bool) {d : Dict} (h : TextForm d) : write58 l fd d = write58 l' fd d := by
  rw [write58_tail, write58_tail]
  refine guarded_at 58 ?_
  refine nb_right (m := W.key _) h fun _ D h => ?_
  refine nb_right (m := W.lift _) h fun _ D h => ?_
  refine nb_when h h fun _ D h => ?_
  refine opt_right (nb_opt h) fun D h => ?_
  refine nb_right (m := W.key _) h fun _ D h => ?_
  refine nb_right (m := W.lift _) h fun _ D h => ?_
  refine nb_right (m := W.lift _) h fun _ D h => ?_
  refine nb_when h (nb_set h _ (by decide)) fun _ D h => ?_
  refine nb_right (m := W.key _) h fun _ D h => ?_
  refine nb_right (m := W.lift _) h fun _ D h => ?_
  refine nb_right (m := W.getDict) h fun _ D h => ?_
  refine nb_when h ?_ fun _ D h => tail_text _ _ _ _ _ _ _ h
  rw [W.bind_dict]
  split
  · exact nb_set h _ (by decide)
  · exact h

theorem dispatch_env (e e' : Env) (fd : Bool) (t : Val) : writeDispatch e fd t = writeDispatch e' fd t ∨
    (t.numEq 58 = true ∧ writeDispatch e fd t = write58 e.little fd ∧ writeDispatch e' fd t = write58 e'.little fd) ∨
    (t.numEq 151 = true ∧ writeDispatch e fd t = W.none (write151 (e.clock 0).1 (e.clock 0).2) ∧
      writeDispatch e' fd t = W.none (write151 (e'.clock 0).1 (e'.clock 0).2)) := by
  unfold writeDispatch
  split
  · exact .inl rfl
  · exact .inl rfl
  · exact .inl rfl
  · exact .inl rfl
  · by_cases h : t.numEq 15 = true
    · rw [if_pos h, if_pos h]; exact .inl rfl
    rw [if_neg h, if_neg h]
    clear h
    by_cases h : t.numEq 18 = true
    · rw [if_pos h, if_pos h]; exact .inl rfl
    rw [if_neg h, if_neg h]
    clear h
    by_cases h : t.numEq 55 = true
    · rw [if_pos h, if_pos h]; exact .inl rfl
    rw [if_neg h, if_neg h]
    clear h
    by_cases h : t.numEq 58 = true
    · rw [if_pos h, if_pos h]; exact .inr (.inl ⟨h, rfl, rfl⟩)
    rw [if_neg h, if_neg h]
    clear h
    by_cases h : t.numEq 82 = true
    · rw [if_pos h, if_pos h]; exact .inl rfl
    rw [if_neg h, if_neg h]
    clear h
    by_cases h : t.numEq 151 = true
    · rw [if_pos h, if_pos h]; exact .inr (.inr ⟨h, rfl, rfl⟩)
    rw [if_neg h, if_neg h]
    exact .inl rfl

/-- The outcome of writing depends neither on the time nor on the machine. -/
theorem body_outcome (e e' : Env) (fd : Bool) (d : Dict) :
    ((writeBody e fd d).res.map fun _ => ()) = ((writeBody e' fd d).res.map fun _ => ()) := by
  unfold writeBody
  cases ht : d.get? "type" with
  | none => rfl
  | some t =>
    simp only
    cases hc : cleanData d with
    | error x => rfl
    | ok d' =>
      simp only
      rcases dispatch_env e e' fd t with h | ⟨-, h2, h3⟩ | ⟨-, h2, h3⟩
      · rw [h]
      · rw [h2, h3]
        exact (function_anywhere _ _ _ d').1
      · rw [h2, h3]
        unfold W.none
        simp only
        rw [header_anytime (e.clock 0).1 (e.clock 0).2 (e'.clock 0).1 (e'.clock 0).2]

/-- Neither a header nor a binary function. -/
def Timeless (d : Dict) : Prop := ∀ t, d.get? "type" = some t → t.numEq 151 = false ∧ (t.numEq 58 = true → TextForm d)

/-- Nothing depends on time and machine unless it is a header or a binary function. -/
theorem body_same (e e' : Env) (fd : Bool) (d : Dict) (h : Timeless d) : writeBody e fd d = writeBody e' fd d := by
  unfold writeBody
  cases ht : d.get? "type" with
  | none => rfl
  | some t =>
    simp only
    cases hc : cleanData d with
    | error x => rfl
    | ok d' =>
      simp only
      rcases dispatch_env e e' fd t with h1 | ⟨h1, h2, h3⟩ | ⟨h1, -, -⟩
      · rw [h1]
      · rw [h2, h3]
        refine function_text _ _ _ fun v hv => (h t ht).2 h1 v ?_
        rw [← cleanData_get hc _ (by decide)]
        exact hv
      · rw [(h t ht).1] at h1
        cases h1

end Verif
