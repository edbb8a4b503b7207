import Verif.Lemmas.Keep
import Verif.Spec.Framing
/-
How any writer begins and ends what it writes, whatever the dictionary holds.
-/
namespace Verif

/-- Nothing is written. -/
def Silent {α} (m : W α) : Prop := ∀ d, (m d).out = []

/-- `P` still holds of the dictionary afterwards. -/
def Keeps {α} (P : Dict → Prop) (m : W α) : Prop := ∀ d, P d → P (m d).dict

/-- When the step succeeds, what it writes ends with `q`. -/
def Ends {α} (P : Dict → Prop) (q : α → Text) (m : W α) : Prop :=
  ∀ d a, P d → (m d).res = .ok a → ∃ mid, (m d).out = mid ++ q a

/-- Either nothing is written, which happens only on failure, or the text begins with `p`; when the step succeeds it ends
with `q`. -/
def Frames {α} (P : Dict → Prop) (p : Text) (q : α → Text) (m : W α) : Prop :=
  ∀ d, (∀ a, P d → (m d).res = .ok a → ∃ mid, (m d).out = p ++ (mid ++ q a)) ∧
    ((∃ e, (m d).res = .error e) → (m d).out = [] ∨ ∃ mid, (m d).out = p ++ mid)

/-! ### Steps that write nothing -/

theorem silent_pure {α} (a : α) : Silent (W.pure a) := fun _ => rfl
theorem silent_raise {α} (x : Err) : Silent (W.raise x : W α) := fun _ => rfl
theorem silent_lift {α} (r : Res α) : Silent (W.lift r) := fun _ => rfl
theorem silent_key (k : Key) : Silent (W.key k) := fun _ => rfl
theorem silent_put (k : Key) (v : Val) : Silent (W.put k v) := fun _ => rfl
theorem silent_getDict : Silent W.getDict := fun _ => rfl
theorem silent_opt (l : List (Key × Val)) : Silent (W.opt l) := fun _ => rfl

theorem silent_bind {α β} {m : W α} {f : α → W β} (h : Silent m) (hf : ∀ a, Silent (f a)) : Silent (W.bind m f) := by
  intro d
  have h' := h d
  unfold W.bind
  rcases hm : m d with ⟨o, d', r⟩
  rw [hm] at h'
  cases r with
  | ok a => simp only; rw [hf a d']; simpa using h'
  | error x => exact h'

theorem silent_when (c : Prop) [Decidable c] {m : W Unit} (h : Silent m) : Silent (W.when c m) := by
  unfold W.when
  split
  · exact h
  · exact silent_pure ()

/-! ### Steps that keep the dictionary -/

/-- The dictionary is not touched. -/
def Still {α} (m : W α) : Prop := ∀ d, (m d).dict = d

theorem Still.keeps {α} {m : W α} (h : Still m) (P : Dict → Prop) : Keeps P m := fun d hd => by rw [h d]; exact hd
theorem keeps_true {α} (m : W α) : Keeps (fun _ => True) m := fun _ _ => trivial

theorem still_emit (t : Text) : Still (W.emit t) := fun _ => rfl
theorem still_key (k : Key) : Still (W.key k) := fun _ => rfl
theorem still_row (l : List Fld) : Still (W.row l) := by
  intro d
  unfold W.row W.bind W.format
  split <;> rename_i h <;> · injection h with _ h _; exact h.symm

/-! ### The end -/

theorem ends_bind {α β} {P : Dict → Prop} {q : β → Text} {m : W α} {f : α → W β} (hk : Keeps P m)
    (hf : ∀ a, Ends P q (f a)) : Ends P q (W.bind m f) := by
  intro d b hd hr
  have hk' := hk d hd
  unfold W.bind at hr ⊢
  rcases hm : m d with ⟨o, d', r⟩
  rw [hm] at hr hk'
  cases r with
  | ok a =>
    simp only at hr ⊢
    obtain ⟨mid, h⟩ := hf a d' b hk' hr
    exact ⟨o ++ mid, by rw [h]; simp⟩
  | error x => simp at hr

theorem ends_key {β} {P : Dict → Prop} {q : β → Text} {k : Key} {f : Val → W β}
    (hf : ∀ v, (∃ d, P d ∧ d.get k = .ok v) → Ends P q (f v)) : Ends P q (W.bind (W.key k) f) := by
  intro d b hd hr
  unfold W.bind W.key at hr ⊢
  cases hv : d.get k with
  | ok v =>
    rw [hv] at hr
    simp only [List.nil_append] at hr ⊢
    exact hf v ⟨d, hd, hv⟩ d b hd hr
  | error x => rw [hv] at hr; simp at hr

theorem ends_emit (P : Dict → Prop) (t : Text) : Ends P (fun _ => t) (W.emit t) := fun _ _ _ _ => ⟨[], rfl⟩

theorem ends_raise {α} (P : Dict → Prop) (q : α → Text) (x : Err) : Ends P q (W.raise x) := by
  intro d a _ h; simp [W.raise] at h

/-! ### The beginning -/

theorem frames_emit {β} {P : Dict → Prop} {p : Text} {q : β → Text} {f : Unit → W β} (hf : Ends P q (f ())) :
    Frames P p q (W.bind (W.emit p) f) := by
  intro d
  constructor
  · intro b hd hr
    obtain ⟨mid, h⟩ := hf d b hd hr
    exact ⟨mid, by show p ++ (f () d).out = _; rw [h]⟩
  · rintro -
    exact Or.inr ⟨(f () d).out, rfl⟩

theorem frames_prefix {α} {P : Dict → Prop} {p x : Text} {q : α → Text} {m : W α} (h : Frames P (p ++ x) q m) :
    Frames P p q m := by
  intro d
  obtain ⟨h1, h2⟩ := h d
  constructor
  · intro a hd hr
    obtain ⟨mid, e⟩ := h1 a hd hr
    exact ⟨x ++ mid, by rw [e]; simp⟩
  · intro he
    rcases h2 he with e | ⟨mid, e⟩
    · exact Or.inl e
    · exact Or.inr ⟨x ++ mid, by rw [e]; simp⟩

theorem frames_bind {α β} {P : Dict → Prop} {p : Text} {q : β → Text} {m : W α} {f : α → W β} (hs : Silent m)
    (hk : Keeps P m) (hf : ∀ a, Frames P p q (f a)) : Frames P p q (W.bind m f) := by
  intro d
  have hs' := hs d
  have hk' := hk d
  unfold W.bind
  rcases hm : m d with ⟨o, d', r⟩
  rw [hm] at hs' hk'
  simp only at hs' hk'
  subst hs'
  cases r with
  | ok a =>
    simp only [List.nil_append]
    exact ⟨fun b hd => (hf a d').1 b (hk' hd), (hf a d').2⟩
  | error x => exact ⟨fun _ _ h => (by simp at h), fun _ => Or.inl rfl⟩

theorem frames_guarded {α} {P : Dict → Prop} {p : Text} {q : α → Text} {m : W α} {n : Nat} (h : Frames P p q m) :
    Frames P p q (W.guarded n m) := by
  intro d
  have h' := h d
  unfold W.guarded
  rcases hm : m d with ⟨o, d', r⟩
  rw [hm] at h'
  cases r with
  | ok a => exact h'
  | error x => refine ⟨?_, fun _ => ?_⟩
               · intro a _ hr; split at hr <;> simp_all
               · split <;> simp_all

theorem frames_guardedAny {α} {P : Dict → Prop} {p : Text} {q : α → Text} {m : W α} {n : Nat} (h : Frames P p q m) :
    Frames P p q (W.guardedAny n m) := by
  intro d
  have h' := h d
  unfold W.guardedAny
  rcases hm : m d with ⟨o, d', r⟩
  rw [hm] at h'
  cases r with
  | ok a => exact h'
  | error x => refine ⟨?_, fun _ => ?_⟩
               · intro a _ hr; split at hr <;> simp_all
               · split <;> simp_all

/-- What follows the header text of a writer that returns `r`: the closing delimiter, which a binary data-set 58 gets
later. -/
def endOf : Option Bytes → Text
  | none => tailText
  | some _ => []

theorem frames_none {P : Dict → Prop} {p : Text} {m : W Unit} (h : Frames P p (fun _ => tailText) m) :
    Frames P p endOf (W.none m) := by
  intro d
  obtain ⟨h1, h2⟩ := h d
  unfold W.none
  cases hr : (m d).res with
  | ok a =>
    refine ⟨fun b hd hb => ?_, fun ⟨e, he⟩ => by simp [Except.map] at he⟩
    simp [Except.map] at hb
    subst hb
    exact h1 a hd hr
  | error x => exact ⟨fun b _ hb => by simp [Except.map] at hb, fun _ => h2 ⟨x, hr⟩⟩

/-! ### The writers -/

theorem headText_opening (n : Nat) : headText n = opening n ++ (padLeft 74 [' '] ++ ['\n']) := by
  simp [headText, opening]
theorem headShort_opening (n : Nat) : headShort n = opening n ++ ['\n'] := by simp [headShort, opening]

theorem frames_head {β} {P : Dict → Prop} {n : Nat} {q : β → Text} {f : Unit → W β} (hf : Ends P q (f ())) :
    Frames P (opening n) q (W.bind (W.emit (headText n)) f) := by
  have := frames_emit (p := headText n) hf
  conv at this => arg 2; rw [headText_opening]
  exact frames_prefix this

theorem frames_short {β} {P : Dict → Prop} {n : Nat} {q : β → Text} {f : Unit → W β} (hf : Ends P q (f ())) :
    Frames P (opening n) q (W.bind (W.emit (headShort n)) f) := by
  have := frames_emit (p := headShort n) hf
  conv at this => arg 2; rw [headShort_opening]
  exact frames_prefix this

/-- No condition. -/
def Any : Dict → Prop := fun _ => True
theorem keeps_any {α} (m : W α) : Keeps Any m := fun _ _ => trivial

/-- Close an `Ends` goal: step to the last statement, which writes the closing delimiter. -/
macro "to_end" : tactic => `(tactic| (repeat' (first
  | with_reducible exact ends_emit _ _
  | with_reducible exact ends_raise _ _ _
  | (refine ends_bind (keeps_any _) fun _ => ?_))))

theorem frames18 : Frames Any (opening 18) (fun _ => tailText) write18 :=
  frames_guarded <| frames_bind (silent_key _) (keeps_any _) fun _ => frames_bind (silent_lift _) (keeps_any _) fun _ =>
    frames_bind (silent_opt _) (keeps_any _) fun _ => frames_head (by to_end)

theorem frames15 : Frames Any (opening 15) (fun _ => tailText) write15 := by
  refine frames_guarded <| frames_bind (silent_key _) (keeps_any _) fun _ =>
    frames_bind (silent_lift _) (keeps_any _) fun _ => frames_bind (silent_opt _) (keeps_any _) fun _ => ?_
  have e1 : writeRecord [.int (-1), .int 15] [.f0 6, .f0 6] true = W.emit (headShort 15) := by
    have : recLoop true [.int (-1), .int 15] [.f0 6, .f0 6] = .ok (headShort 15) := by decide +kernel
    unfold writeRecord
    rw [this]
    funext d; simp [W.bind, W.lift, W.emit]
  have e2 : writeRecord [.int (-1)] [.f0 6] false = W.emit tailText := by
    have : recLoop false [.int (-1)] [.f0 6] = .ok (padLeft 6 ['-', '1']) := by decide +kernel
    unfold writeRecord
    rw [this]
    funext d; simp [W.bind, W.lift, W.emit, tailText]
  rw [e1, e2]
  exact frames_short (by to_end)

theorem silent_prep55 (a : Option An55) : Silent (prep55 a) := by
  have hc : ∀ k, Silent (makeComplex k) := fun k =>
    silent_bind (silent_key _) fun _ => silent_bind (silent_lift _) fun _ =>
      silent_when _ (silent_bind (silent_lift _) fun _ => silent_put _ _)
  rcases a with _ | a
  · exact silent_raise _
  · cases a
    · exact silent_opt _
    · unfold prep55
      exact silent_bind (silent_opt opt55c) fun _ => silent_bind (hc "modal_a") fun _ => hc "modal_b"
    · exact silent_pure _

theorem frames55 : Frames Any (opening 55) (fun _ => tailText) write55 :=
  frames_guarded <| frames_bind (silent_opt _) (keeps_any _) fun _ => frames_bind (silent_key _) (keeps_any _) fun _ =>
    frames_bind (silent_lift _) (keeps_any _) fun _ => frames_bind (silent_prep55 _) (keeps_any _) fun _ =>
    frames_bind silent_getDict (keeps_any _) fun _ => frames_bind (silent_key _) (keeps_any _) fun _ =>
    frames_bind (silent_lift _) (keeps_any _) fun _ => frames_head (by to_end)

theorem frames82 : Frames Any (opening 82) (fun _ => tailText) write82 :=
  frames_guarded <| frames_bind (silent_opt _) (keeps_any _) fun _ => frames_bind (silent_key _) (keeps_any _) fun _ =>
    frames_bind (silent_lift _) (keeps_any _) fun _ => frames_head (by to_end)

theorem frames151 (ds ts : Text) : Frames Any (opening 151) (fun _ => tailText) (write151 ds ts) :=
  frames_guarded <| frames_bind (silent_opt _) (keeps_any _) fun _ => frames_head (by to_end)

theorem frames164 : Frames Any (opening 164) (fun _ => tailText) write164 :=
  frames_guarded <| frames_bind (silent_opt _) (keeps_any _) fun _ => frames_head (by to_end)

theorem frames1858 : Frames Any (opening 1858) (fun _ => tailText) write1858 :=
  frames_guardedAny <| frames_bind (silent_opt _) (keeps_any _) fun _ => frames_head (by to_end)

theorem frames2400 : Frames Any (opening 2400) (fun _ => tailText) write2400 :=
  frames_guarded <| frames_bind (silent_opt _) (keeps_any _) fun _ => frames_head (by to_end)

theorem frames2411 : Frames Any (opening 2411) (fun _ => tailText) write2411 :=
  frames_guardedAny <| frames_bind (silent_opt _) (keeps_any _) fun _ => frames_head (by to_end)

theorem frames2412 : Frames Any (opening 2412) (fun _ => tailText) write2412 :=
  frames_guardedAny <| frames_head (by to_end)

theorem frames2420 : Frames Any (opening 2420) (fun _ => tailText) write2420 :=
  frames_guardedAny <| frames_bind (silent_opt _) (keeps_any _) fun _ => frames_head (by to_end)

theorem frames2429 : Frames Any (opening 2429) (fun _ => tailText) write2429 :=
  frames_guardedAny <| frames_bind (silent_opt _) (keeps_any _) fun _ => frames_short (by to_end)

theorem frames2467 : Frames Any (opening 2467) (fun _ => tailText) write2467 :=
  frames_guardedAny <| frames_bind (silent_opt _) (keeps_any _) fun _ => frames_short (by to_end)

theorem ends_body58 (P : Dict → Prop) (little binary : Bool) (pr : Option Bool) (real even : Bool) (data : List F64) :
    Ends P endOf (body58 little binary pr real even data) := by
  intro d a _ h
  unfold body58 at h ⊢
  cases binary with
  | true =>
    simp only [if_true, W.pure] at h ⊢
    injection h with h
    subst h
    exact ⟨[], rfl⟩
  | false =>
    simp only [Bool.false_eq_true, if_false] at h ⊢
    cases pr with
    | none => simp [W.raise] at h
    | some double =>
      simp only [W.bind, W.emit, W.pure, Except.ok.injEq] at h ⊢
      subst h
      exact ⟨_, by simp only [List.append_nil]; rfl⟩

theorem frames58 (little fd : Bool) : Frames Any (opening 58) endOf (write58 little fd) := by
  refine frames_guarded <| frames_bind (silent_key _) (keeps_any _) fun _ =>
    frames_bind (silent_lift _) (keeps_any _) fun _ =>
    frames_bind (silent_when _ (silent_raise _)) (keeps_any _) fun _ => frames_bind (silent_opt _) (keeps_any _) fun _ =>
    frames_bind (silent_key _) (keeps_any _) fun _ => frames_bind (silent_lift _) (keeps_any _) fun _ =>
    frames_bind (silent_lift _) (keeps_any _) fun _ =>
    frames_bind (silent_when _ (silent_put _ _)) (keeps_any _) fun _ =>
    frames_bind (silent_key _) (keeps_any _) fun _ => frames_bind (silent_lift _) (keeps_any _) fun _ =>
    frames_bind silent_getDict (keeps_any _) fun _ =>
    frames_bind (silent_when _ (silent_bind (silent_lift _) fun _ => silent_put _ _)) (keeps_any _) fun _ =>
    frames_bind (silent_key _) (keeps_any _) fun _ => frames_bind (silent_lift _) (keeps_any _) fun _ =>
    frames_bind (silent_key _) (keeps_any _) fun _ => frames_bind (silent_lift _) (keeps_any _) fun _ =>
    frames_bind (silent_put _ _) (keeps_any _) fun _ => frames_bind (silent_lift _) (keeps_any _) fun _ =>
    frames_bind (silent_lift _) (keeps_any _) fun _ => frames_emit ?_
  repeat' (first
    | exact ends_body58 _ _ _ _ _ _ _
    | (refine ends_bind (keeps_any _) fun _ => ?_))

/-! ### Data-set 2414 -/

/-- Not location 5, or a frequency response. -/
def Closing (d : Dict) : Prop :=
  ∀ v a, d.get? "dataset_location" = some v → d.get? "analysis_type" = some a → v.numEq 5 = false ∨ a.numEq 5 = true

theorem ends_mono {α} {P Q : Dict → Prop} {q : α → Text} {m : W α} (h : Ends Q q m) (hPQ : ∀ d, P d → Q d) : Ends P q m :=
  fun d a hd => h d a (hPQ d hd)

theorem ends_any {α} {P : Dict → Prop} {q : α → Text} {m : W α} (h : Ends Any q m) : Ends P q m :=
  ends_mono h fun _ _ => trivial

theorem ends_locRest {P : Dict → Prop} {v : Val} (h : v.numEq 5 = false) : Ends P (fun _ => tailText) (locRest v) := by
  unfold locRest
  rw [h]
  split
  · exact ends_any (by unfold locNodes; to_end)
  split
  · exact ends_any (by unfold locElems; to_end)
  split
  · exact ends_any (by unfold locElemNodes; to_end)
  rw [if_neg (by decide)]
  exact ends_emit _ _

/-- ... and the analysis type is `a`. -/
def ClosingAt (a : Val) (d : Dict) : Prop := Closing d ∧ d.get? "analysis_type" = some a

theorem get_some {d : Dict} {k : Key} {v : Val} (h : d.get k = .ok v) : d.get? k = some v := by
  unfold Dict.get at h
  split at h
  · next h' => injection h with h; rw [h', h]
  · cases h

theorem ends_plainRest {a : Val} (h : a.numEq 5 = false) : Ends (ClosingAt a) (fun _ => tailText) plainRest := by
  unfold plainRest
  refine ends_bind ((still_row _).keeps _) fun _ => ?_
  refine ends_bind ((still_row _).keeps _) fun _ => ?_
  refine ends_bind ((still_row _).keeps _) fun _ => ?_
  refine ends_bind ((still_row _).keeps _) fun _ => ?_
  refine ends_key fun v ⟨d, hd, hv⟩ => ends_locRest ?_
  rcases hd.1 v a (get_some hv) hd.2 with h5 | h5
  · exact h5
  · rw [h] at h5; cases h5

theorem ends_branch : Ends Closing (fun _ => tailText)
    (W.bind (W.key "analysis_type") fun a => if a.numEq 5 then freqRest else plainRest) := by
  intro d b hd hr
  unfold W.bind W.key at hr ⊢
  cases hv : d.get "analysis_type" with
  | error x => rw [hv] at hr; simp at hr
  | ok a =>
    rw [hv] at hr
    simp only [List.nil_append] at hr ⊢
    cases h5 : a.numEq 5 with
    | true =>
      rw [h5] at hr
      have : Ends Any (fun _ => tailText) freqRest := by unfold freqRest; to_end
      exact this d b trivial hr
    | false =>
      rw [h5] at hr
      exact ends_plainRest h5 d b ⟨hd, get_some hv⟩ hr

theorem no_location : Dict.get? opt2414 "dataset_location" = none := by decide +kernel
theorem no_analysis : Dict.get? opt2414 "analysis_type" = none := by decide +kernel

theorem keeps_opt2414 : Keeps Closing (W.opt opt2414) := by
  have n1 := no_location
  have n2 := no_analysis
  generalize opt2414 = fs at n1 n2 ⊢
  intro d hd v a hv ha
  have e : ∀ k, (W.opt fs d).dict.get? k = (d.get? k).or (Dict.get? fs k) := fun k => get?_optFields _ _ _
  rw [e, n1, Option.or_none] at hv
  rw [e, n2, Option.or_none] at ha
  exact hd v a hv ha

theorem frames2414 : Frames Closing (opening 2414) (fun _ => tailText) write2414 := by
  refine frames_guardedAny <| frames_bind (silent_opt _) keeps_opt2414 fun _ => frames_short ?_
  refine ends_bind ((still_row _).keeps _) fun _ => ?_
  refine ends_bind ((still_row _).keeps _) fun _ => ?_
  refine ends_bind ((still_row _).keeps _) fun _ => ?_
  refine ends_bind ((still_row _).keeps _) fun _ => ?_
  refine ends_bind ((still_row _).keeps _) fun _ => ?_
  refine ends_bind ((still_row _).keeps _) fun _ => ?_
  refine ends_bind ((still_row _).keeps _) fun _ => ?_
  refine ends_bind ((still_row _).keeps _) fun _ => ?_
  refine ends_bind ((still_row _).keeps _) fun _ => ?_
  exact ends_branch

end Verif
