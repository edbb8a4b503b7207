import Verif.Lemmas.Optional
/-
Running a writer again on the dictionary it left.
-/
namespace Verif
namespace W

/-- What happened to a dictionary since: entries not in `C` keep their value, none is deleted, and "n_bytes" is not added. -/
structure Later (C : List Key) (d D : Dict) : Prop where
  kept : ∀ q v, q ∉ C → d.get? q = some v → D.get? q = some v
  there : ∀ q, d.get? q ≠ Option.none → D.get? q ≠ Option.none
  bytes : d.get? "n_bytes" = Option.none → D.get? "n_bytes" = Option.none

theorem pre_later (C : List Key) : Pre (Later C) :=
  ⟨fun _ => ⟨fun _ _ _ h => h, fun _ h => h, fun h => h⟩,
   fun h h' => ⟨fun q v hq hv => h'.kept q v hq (h.kept q v hq hv), fun q hq => h'.there q (h.there q hq), fun hb => h'.bytes (h.bytes hb)⟩⟩

theorem Later.mono {C C' : List Key} (hC : ∀ q ∈ C, q ∈ C') {d D : Dict} (h : Later C d D) : Later C' d D :=
  ⟨fun q v hq hv => h.kept q v (fun hm => hq (hC q hm)) hv, h.there, h.bytes⟩

/-- On a later dictionary `m` writes the same, has the same result and changes nothing.  (When `m` raises, nothing came later.) -/
def Rep {α} (L : Dict → Dict → Prop) (m : W α) : Prop :=
  ∀ d D, (∀ a, (m d).res = .ok a → L (m d).dict D) → (∀ x, (m d).res = .error x → D = (m d).dict) → m D = ⟨(m d).out, D, (m d).res⟩

/-- As the last part of a writer. -/
structure Again {α} (C : List Key) (m : W α) : Prop where
  rep : Rep (· = ·) m
  keeps : Keeps (Later C) m

theorem Again.idem {α} {C : List Key} {m : W α} (h : Again C m) (d : Dict) : m (m d).dict = m d := by
  rw [h.rep d (m d).dict (fun _ _ => rfl) (fun _ _ => rfl)]

theorem again_bind {α β} {C C' : List Key} {s : W α} {f : α → W β} (hs : Rep (Later C) s) (hk : Keeps (Later C') s)
    (hf : ∀ a, Again C (f a)) (hC : ∀ q ∈ C, q ∈ C') : Again C' (s >>= f) := by
  constructor
  · intro d D h1 h2
    have h1 : ∀ a, (W.bind s f d).res = .ok a → (W.bind s f d).dict = D := h1
    have h2 : ∀ x, (W.bind s f d).res = .error x → D = (W.bind s f d).dict := h2
    show W.bind s f D = ⟨(W.bind s f d).out, D, (W.bind s f d).res⟩
    have hs' := hs d
    cases hr : (s d).res with
    | error x =>
      have e : W.bind s f d = ⟨(s d).out, (s d).dict, .error x⟩ := by
        unfold W.bind
        rcases h : s d with ⟨o, e, r⟩
        rw [h] at hr
        simp only at hr
        subst hr
        rfl
      have hD : D = (s d).dict := by
        have := h2 x (by rw [e])
        rw [e] at this
        exact this
      have := hs' D (fun a ha => by rw [hr] at ha; cases ha) (fun _ _ => hD)
      rw [e]
      simp only
      unfold W.bind
      rw [this, hr]
    | ok a =>
      have e : W.bind s f d = ⟨(s d).out ++ (f a (s d).dict).out, (f a (s d).dict).dict, (f a (s d).dict).res⟩ := by
        unfold W.bind
        rcases h : s d with ⟨o, e, r⟩
        rw [h] at hr
        simp only at hr
        subst hr
        rfl
      have hD : D = (f a (s d).dict).dict := by
        cases hf' : (f a (s d).dict).res with
        | ok b =>
          have := h1 b (by rw [e]; exact hf')
          rw [e] at this
          exact this.symm
        | error x =>
          have := h2 x (by rw [e]; exact hf')
          rw [e] at this
          exact this
      have h3 := hs' D (fun _ _ => by rw [hD]; exact (hf a).keeps.run _) (fun x hx => by rw [hr] at hx; cases hx)
      have h4 := (hf a).rep (s d).dict D (fun _ _ => hD.symm) (fun _ _ => hD)
      rw [e]
      simp only
      unfold W.bind
      rw [h3, hr]
      simp only [h4]
  · exact keeps_bind (pre_later C') hk fun a => ⟨fun d => ((hf a).keeps.run d).mono hC⟩

theorem again_bind' {α β} {C C' : List Key} {s : W α} {f : α → W β} (hs : Rep (Later C) s) (hk : Keeps (Later C') s)
    (hf : ∀ a, Again C (f a)) (hC : ∀ q ∈ C, q ∈ C') : Again C' (W.bind s f) := again_bind hs hk hf hC

/-- Parts that do not change the dictionary. -/
theorem again_tail {α} {C : List Key} {m : W α} (h : Keeps (fun a b => a = b) m) : Again C m := by
  constructor
  · intro d D h1 h2
    have hd : d = (m d).dict := h.run d
    have hD : D = d := by
      cases hr : (m d).res with
      | ok a => exact (h1 a hr).symm.trans hd.symm
      | error x => exact (h2 x hr).trans hd.symm
    subst hD
    rcases hm : m D with ⟨o, e, r⟩
    rw [hm] at hd
    simp only at hd
    subst hd
    rfl
  · exact ⟨fun d => by rw [← h.run d]; exact (pre_later C).refl d⟩

/-- Parts that do not depend on the dictionary. -/
theorem rep_const {α} {L : Dict → Dict → Prop} {o : Text} {r : Res α} : Rep L (fun d => (⟨o, d, r⟩ : WRes α)) := fun _ _ _ _ => rfl

theorem rep_lift {α} {L : Dict → Dict → Prop} (r : Res α) : Rep L (W.lift r) := rep_const
theorem rep_raise {α} {L : Dict → Dict → Prop} (x : Err) : Rep L (W.raise x : W α) := rep_const
theorem rep_pure {α} {L : Dict → Dict → Prop} (a : α) : Rep L (W.pure a) := rep_const
theorem rep_emit {L : Dict → Dict → Prop} (t : Text) : Rep L (W.emit t) := rep_const

theorem rep_when {L : Dict → Dict → Prop} {c : Prop} [Decidable c] {m : W Unit} (h : c → Rep L m) : Rep L (W.when c m) := by
  unfold W.when
  split
  next hc => exact h hc
  next => exact rep_pure ()

theorem rep_key {C : List Key} {q : Key} (hq : q ∉ C) : Rep (Later C) (W.key q) := by
  intro d D h1 h2
  have h1 : ∀ a, d.get q = .ok a → Later C d D := h1
  have h2 : ∀ x, d.get q = .error x → D = d := h2
  show (⟨[], D, D.get q⟩ : WRes Val) = ⟨[], D, d.get q⟩
  cases hd : d.get? q with
  | none =>
    rw [h2 (.key q) (by unfold Dict.get; rw [hd])]
  | some v =>
    have e : d.get q = .ok v := by unfold Dict.get; rw [hd]
    have := (h1 v e).kept q v hq hd
    rw [e]
    unfold Dict.get
    rw [this]

theorem optFields_same {fs : List (Key × Val)} {D : Dict} (h : ∀ p ∈ fs, D.get? p.1 ≠ Option.none) : optFields D fs = D := by
  induction fs with
  | nil => rfl
  | cons p fs ih =>
    obtain ⟨k, v⟩ := p
    show optFields (if D.has k then D else D.set k v) fs = D
    rw [if_pos (show D.has k = true from Option.isSome_iff_ne_none.2 (h (k, v) List.mem_cons_self))]
    exact ih fun p hp => h p (List.mem_cons_of_mem _ hp)

theorem get?_opt_there (fs : List (Key × Val)) (d : Dict) : ∀ p ∈ fs, (optFields d fs).get? p.1 ≠ Option.none := by
  intro p hp
  rw [get?_optFields]
  cases d.get? p.1 with
  | some v => simp
  | none =>
    simp only [Option.none_or]
    induction fs with
    | nil => cases hp
    | cons q fs ih =>
      obtain ⟨k, v⟩ := q
      unfold Dict.get?
      split
      · simp
      next hk =>
        rcases List.mem_cons.1 hp with rfl | hp
        · exact absurd rfl hk
        · exact ih hp

theorem rep_opt {C : List Key} {fs : List (Key × Val)} : Rep (Later C) (W.opt fs) := by
  intro d D h1 _
  have h1 : Later C (optFields d fs) D := h1 () rfl
  show (⟨[], optFields D fs, .ok ()⟩ : WRes Unit) = _
  rw [optFields_same fun p hp => h1.there _ (get?_opt_there fs d p hp)]
  rfl

theorem keeps_optLater {C : List Key} {fs : List (Key × Val)} (hb : Dict.get? fs "n_bytes" = Option.none) :
    Keeps (Later C) (W.opt fs) := by
  refine ⟨fun d => ⟨fun q v _ hv => get?_opt_present hv, fun q hq => ?_, fun h => ?_⟩⟩
  · show (optFields d fs).get? q ≠ _
    cases hv : d.get? q with
    | none => exact absurd hv hq
    | some v => rw [get?_opt_present hv]; simp
  · show (optFields d fs).get? _ = _
    rw [get?_optFields, h, hb]; rfl

theorem set_same {d : Dict} {q : Key} {x : Val} (h : d.get? q = some x) : d.set q x = d := by
  induction d with
  | nil => cases h
  | cons p d ih =>
    obtain ⟨k, v⟩ := p
    unfold Dict.get? at h
    unfold Dict.set
    split at h
    next hk => rw [if_pos hk]; cases h; rfl
    next hk => rw [if_neg hk, ih h]

theorem rep_put {C : List Key} {q : Key} (hq : q ∉ C) (x : Val) : Rep (Later C) (W.put q x) := by
  intro d D h1 _
  have h1 : Later C (d.set q x) D := h1 () rfl
  show (⟨[], D.set q x, .ok ()⟩ : WRes Unit) = _
  rw [set_same (h1.kept q x hq (Dict.get?_set_self _ _ _))]
  rfl

theorem later_set {C : List Key} {q : Key} (hq : q ∈ C) {d : Dict} {x : Val} (hb : q = "n_bytes" → d.get? "n_bytes" ≠ Option.none) :
    Later C d (d.set q x) := by
  refine ⟨fun k v hk hv => ?_, fun k hk => ?_, fun h => ?_⟩
  · rw [Dict.get?_set_ne _ _ _ _ (by rintro rfl; exact hk hq)]; exact hv
  · by_cases e : q = k
    · subst e; rw [Dict.get?_set_self]; simp
    · rw [Dict.get?_set_ne _ _ _ _ e]; exact hk
  · rw [Dict.get?_set_ne _ _ _ _ (fun e => hb e h)]; exact h

theorem keeps_putLater {C : List Key} {q : Key} (hq : q ∈ C) (hb : q ≠ "n_bytes") (x : Val) : Keeps (Later C) (W.put q x) :=
  ⟨fun _ => later_set hq fun e => absurd e hb⟩

theorem again_guarded {α} {C : List Key} {n : Nat} {m : W α} (h : Again C m) (d : Dict) :
    W.guarded n m (W.guarded n m d).dict = W.guarded n m d ∧ Later C d (W.guarded n m d).dict := by
  rw [guarded_dict]
  refine ⟨?_, h.keeps.run d⟩
  unfold W.guarded
  rw [h.idem d]

theorem again_opt {α} {fs : List (Key × Val)} {f : Unit → W α} (hb : Dict.get? fs "n_bytes" = Option.none)
    (hf : ∀ u, Keeps (fun a b => a = b) (f u)) : Again [] (W.opt fs >>= f) :=
  again_bind (C := []) rep_opt (keeps_optLater hb) (fun a => again_tail (hf a)) (fun _ h => h)

end W
open W

/-- The entries that writers replace. -/
def replacedKeys : List Key := ["ord_data_type", "n_bytes", "abscissa_min", "modal_a", "modal_b"]

/-- Running it again on what it left gives the same, and leaves it as it is; it changes only some entries. -/
def Idem {α} (m : W α) : Prop := ∀ d, m (m d).dict = m d ∧ Later replacedKeys d (m d).dict

theorem optLater {fs : List (Key × Val)} {C : List Key} (d : Dict) (hb : Dict.get? fs "n_bytes" = Option.none) : Later C d (optFields d fs) :=
  (keeps_optLater hb).run d

theorem optFields_twice (d : Dict) (fs fs' : List (Key × Val)) (h : ∀ p ∈ fs', ∃ v, (p.1, v) ∈ fs) :
    optFields (optFields d fs) fs' = optFields d fs :=
  optFields_same fun p hp => by
    obtain ⟨v, hv⟩ := h p hp
    exact get?_opt_there fs d (p.1, v) hv

theorem opt_first {α} {fs fs' : List (Key × Val)} (h : ∀ p ∈ fs', ∃ v, (p.1, v) ∈ fs) {f : Unit → W α} (d : Dict) :
    (W.opt fs' >>= f) (optFields d fs) = (W.opt fs >>= f) d := by
  show W.bind (W.opt fs') f (optFields d fs) = W.bind (W.opt fs) f d
  unfold W.bind W.opt
  simp only [optFields_twice d fs fs' h]

theorem guarded_first {α} {n : Nat} {m m' : W α} {d d' : Dict} (h : m d = m' d') : W.guarded n m d = W.guarded n m' d' := by
  unfold W.guarded; rw [h]
theorem guardedAny_first {α} {n : Nat} {m m' : W α} {d d' : Dict} (h : m d = m' d') : W.guardedAny n m d = W.guardedAny n m' d' := by
  unfold W.guardedAny; rw [h]

theorem self_keys {fs : List (Key × Val)} : ∀ p ∈ fs, ∃ v, (p.1, v) ∈ fs := fun p hp => ⟨p.2, hp⟩

theorem idem82 : Idem write82 := fun d => by
  rw [dict82]; refine ⟨?_, optLater d (by decide +kernel)⟩; unfold write82; exact guarded_first (opt_first self_keys d)
theorem again151 (ds ts ds' ts' : Text) (d : Dict) : write151 ds' ts' (write151 ds ts d).dict = write151 ds ts d := by
  rw [dict151]
  unfold write151
  refine guarded_first (opt_first (fun p hp => ?_) d)
  have : p.1 ∈ (opt151 ds' ts').map (·.1) := List.mem_map_of_mem hp
  rw [show (opt151 ds' ts').map (·.1) = (opt151 ds ts).map (·.1) from rfl] at this
  obtain ⟨q, hq, e⟩ := List.mem_map.1 this
  exact ⟨q.2, e ▸ hq⟩
theorem idem164 : Idem write164 := fun d => by
  rw [dict164]; refine ⟨?_, optLater d (by decide +kernel)⟩; unfold write164; exact guarded_first (opt_first self_keys d)
theorem idem1858 : Idem write1858 := fun d => by
  rw [dict1858]; refine ⟨?_, optLater d (by decide +kernel)⟩; unfold write1858; exact guardedAny_first (opt_first self_keys d)
theorem idem2400 : Idem write2400 := fun d => by
  rw [dict2400]; refine ⟨?_, optLater d (by decide +kernel)⟩; unfold write2400; exact guarded_first (opt_first self_keys d)
theorem idem2411 : Idem write2411 := fun d => by
  rw [dict2411]; refine ⟨?_, optLater d (by decide +kernel)⟩; unfold write2411; exact guardedAny_first (opt_first self_keys d)
theorem idem2412 : Idem write2412 := fun d => by rw [dict2412]; exact ⟨rfl, (pre_later _).refl d⟩
theorem idem2414 : Idem write2414 := fun d => by
  rw [dict2414]; refine ⟨?_, optLater d (by decide +kernel)⟩; unfold write2414; exact guardedAny_first (opt_first self_keys d)
theorem idem2420 : Idem write2420 := fun d => by
  rw [dict2420]; refine ⟨?_, optLater d (by decide +kernel)⟩; unfold write2420; exact guardedAny_first (opt_first self_keys d)
theorem idem2429 : Idem write2429 := fun d => by
  rw [dict2429]; refine ⟨?_, optLater d (by decide +kernel)⟩; unfold write2429; exact guardedAny_first (opt_first self_keys d)
theorem idem2467 : Idem write2467 := fun d => by
  rw [dict2467]; refine ⟨?_, optLater d (by decide +kernel)⟩; unfold write2467; exact guardedAny_first (opt_first self_keys d)

theorem idem15 : Idem write15 := by
  intro d
  unfold write15
  have pe := W.pre_eq
  have pl := pre_later []
  refine (fun h => ⟨h.1, h.2.mono (by decide)⟩) (again_guarded (C := []) (n := 15) (again_bind (C := []) (rep_key (by decide)) (keeps_key pl _) (fun a => ?_) fun _ h => h) d)
  refine again_bind (C := []) (rep_lift _) (keeps_lift pl _) (fun n => ?_) fun _ h => h
  refine again_opt ?_ fun _ => ?_
  · rfl
  · wkeep pe

theorem idem18 : Idem write18 := by
  intro d
  unfold write18
  have pe := W.pre_eq
  have pl := pre_later []
  refine (fun h => ⟨h.1, h.2.mono (by decide)⟩) (again_guarded (C := []) (n := 18) (again_bind (C := []) (rep_key (by decide)) (keeps_key pl _) (fun a => ?_) fun _ h => h) d)
  refine again_bind (C := []) (rep_lift _) (keeps_lift pl _) (fun n => ?_) fun _ h => h
  refine again_opt ?_ fun _ => ?_
  · rfl
  · wkeep pe

theorem plusZeroJ_complex {v v' : Val} (h : v.plusZeroJ = .ok v') : v'.isComplexObj = .ok true := by
  unfold Val.plusZeroJ at h
  split at h
  · cases h
  · cases h
  · cases h
  · split at h
    · cases h; rfl
    · cases h

theorem rep_makeComplex {C : List Key} {k : Key} (hk : k ∉ C) : Rep (Later C) (makeComplex k) := by
  intro d D h1 h2
  have run : ∀ (D : Dict) (v : Val) (c : Bool), D.get? k = some v → v.isComplexObj = .ok c → makeComplex k D =
      W.when (c = false) (W.bind (W.lift v.plusZeroJ) fun v' => W.put k v') D := by
    intro D v c hv hc
    have : W.key k D = ⟨[], D, .ok v⟩ := by
      show (⟨[], D, D.get k⟩ : WRes Val) = _
      unfold Dict.get; rw [hv]
    unfold makeComplex
    unfold W.bind
    rw [this]
    simp only
    rw [hc]
    simp [W.lift]
  have done : ∀ v, D.get? k = some v → v.isComplexObj = .ok true → makeComplex k D = ⟨[], D, .ok ()⟩ := by
    intro v hv hc
    rw [run D v true hv hc]
    rfl
  cases hr : (makeComplex k d).res with
  | error x =>
    have hD := h2 x hr
    have hk' : (makeComplex k d).dict = d := by
      unfold makeComplex at hr ⊢
      rw [bind_res] at hr
      rw [bind_dict]
      cases h : (W.key k d).res with
      | error x => rfl
      | ok v =>
        rw [h] at hr
        simp only at hr ⊢
        have e : (W.key k d).dict = d := rfl
        rw [e] at hr ⊢
        rw [bind_res] at hr
        rw [bind_dict]
        cases h : (W.lift v.isComplexObj d).res with
        | error x => rfl
        | ok c =>
          rw [h] at hr
          simp only at hr ⊢
          have e : (W.lift v.isComplexObj d).dict = d := rfl
          rw [e] at hr ⊢
          cases c with
          | true => rfl
          | false =>
            simp only [W.when, if_true] at hr ⊢
            rw [bind_res] at hr
            rw [bind_dict]
            cases h : (W.lift v.plusZeroJ d).res with
            | error x => rfl
            | ok v' => rw [h] at hr; cases hr
    rw [hk'] at hD
    subst hD
    rcases hm : makeComplex k D with ⟨o, e, r⟩
    rw [hm] at hr hk'
    simp only at hr hk'
    subst hr hk'
    rfl
  | ok u =>
    have h1 := h1 u hr
    cases hv : d.get? k with
    | none =>
      exfalso
      unfold makeComplex at hr
      rw [bind_res] at hr
      have : (W.key k d).res = .error (.key k) := by
        show d.get k = _
        unfold Dict.get; rw [hv]
      rw [this] at hr
      cases hr
    | some v =>
      have out : (makeComplex k d).out = [] := by
        rcases dict_makeComplex k hv hr with ⟨hc, -⟩ | ⟨v', hc, hz, -⟩
        · rw [run d v true hv hc]; rfl
        · rw [run d v false hv hc]
          show (W.bind (W.lift v.plusZeroJ) (fun v' => W.put k v') d).out = _
          unfold W.bind W.lift
          rw [hz]
          rfl
      rw [out]
      rcases dict_makeComplex k hv hr with ⟨hc, hd⟩ | ⟨v', hc, hz, hd⟩
      · rw [hd] at h1
        rw [done v (h1.kept k v hk hv) hc]
      · rw [hd] at h1
        rw [done v' (h1.kept k v' hk (Dict.get?_set_self _ _ _)) (plusZeroJ_complex hz)]

theorem keeps_makeComplexLater {C : List Key} {k : Key} (hk : k ∈ C) (hb : k ≠ "n_bytes") : Keeps (Later C) (makeComplex k) := by
  have pl := pre_later C
  exact keeps_bind pl (keeps_key pl _) fun _ => keeps_bind pl (keeps_lift pl _) fun _ =>
    keeps_when pl _ (keeps_bind pl (keeps_lift pl _) fun _ => keeps_putLater hk hb _)

theorem bind_twice {α β γ} (m : W α) (f : α → W β) (g : β → W γ) : W.bind (W.bind m f) g = W.bind m fun a => W.bind (f a) g := by
  funext d
  unfold W.bind
  rcases m d with ⟨o, e, r⟩
  cases r with
  | error x => rfl
  | ok a =>
    simp only
    rcases f a e with ⟨o', e', r'⟩
    cases r' with
    | error x => rfl
    | ok b => simp only [List.append_assoc]

theorem tail55 {an : Option An55} {f : Unit → W Unit} (hf : ∀ u, Again [] (f u)) : Again ["modal_a", "modal_b"] (prep55 an >>= f) := by
  have hC : ∀ q ∈ ([] : List Key), q ∈ (["modal_a", "modal_b"] : List Key) := by simp
  cases an with
  | none => exact again_bind (C := []) (rep_raise _) (keeps_raise (pre_later _) _) hf hC
  | some a =>
    cases a with
    | normal => exact again_bind (C := []) rep_opt (keeps_optLater (by decide +kernel)) hf hC
    | frf => exact again_bind (C := []) (rep_pure _) (keeps_pure (pre_later _) _) hf hC
    | cmplx =>
      have e : (prep55 (some .cmplx) >>= f) = (W.opt opt55c >>= fun _ => makeComplex "modal_a" >>= fun _ => makeComplex "modal_b" >>= f) := by
        show W.bind (W.bind (W.opt opt55c) fun _ => W.bind (makeComplex "modal_a") fun _ => makeComplex "modal_b") f = _
        rw [bind_twice]
        simp only [bind_twice]
        rfl
      rw [e]
      refine again_bind (C := ["modal_a", "modal_b"]) rep_opt (keeps_optLater (by decide +kernel)) (fun _ => ?_) fun _ h => h
      refine again_bind (C := ["modal_b"]) (rep_makeComplex (by decide)) (keeps_makeComplexLater (by decide) (by decide)) (fun _ => ?_)
        (by decide)
      exact again_bind (C := []) (rep_makeComplex (by decide)) (keeps_makeComplexLater (by decide) (by decide)) hf (by decide)

theorem idem55 : Idem write55 := by
  intro d
  unfold write55
  have pe := W.pre_eq
  have pl := pre_later ["modal_a", "modal_b"]
  refine (fun h => ⟨h.1, h.2.mono (by decide)⟩) (again_guarded (C := ["modal_a", "modal_b"]) (n := 55) (again_bind (C := ["modal_a", "modal_b"]) rep_opt (keeps_optLater (by decide +kernel)) (fun _ => ?_) fun _ h => h) d)
  refine again_bind (C := ["modal_a", "modal_b"]) (rep_key (by decide)) (keeps_key pl _) (fun a => ?_) fun _ h => h
  refine again_bind (C := ["modal_a", "modal_b"]) (rep_lift _) (keeps_lift pl _) (fun an => ?_) fun _ h => h
  refine tail55 fun _ => again_tail ?_
  wkeep pe
  unfold head55
  split <;> wkeep pe

/-- The step that replaces "n_bytes". -/
def bytesStep (n : Nat) (pr : Option Bool) : W Unit := fun d =>
  W.when (d.has "n_bytes" = true) (W.bind (W.lift (nBytes58 n pr)) fun k => W.put "n_bytes" (.int k)) d

theorem bytesStep_no {n : Nat} {pr : Option Bool} {d : Dict} (h : d.has "n_bytes" = false) : bytesStep n pr d = ⟨[], d, .ok ()⟩ := by
  unfold bytesStep W.when
  rw [if_neg (by rw [h]; decide)]
  rfl
theorem bytesStep_error {n : Nat} {pr : Option Bool} {d : Dict} {x : Err} (h : d.has "n_bytes" = true) (hb : nBytes58 n pr = .error x) :
    bytesStep n pr d = ⟨[], d, .error x⟩ := by
  unfold bytesStep W.when
  rw [if_pos h, hb]
  rfl
theorem bytesStep_ok {n : Nat} {pr : Option Bool} {d : Dict} {k : Nat} (h : d.has "n_bytes" = true) (hb : nBytes58 n pr = .ok k) :
    bytesStep n pr d = ⟨[], d.set "n_bytes" (.int k), .ok ()⟩ := by
  unfold bytesStep W.when
  rw [if_pos h, hb]
  rfl

theorem rep_bytes {C : List Key} {n : Nat} {pr : Option Bool} (hn : (.s "n_bytes" : Key) ∉ C) : Rep (Later C) (bytesStep n pr) := by
  intro d D h1 h2
  cases hh : d.has "n_bytes" with
  | false =>
    rw [bytesStep_no hh] at h1 h2 ⊢
    have h1 := h1 () rfl
    have : D.has "n_bytes" = false := by
      unfold Dict.has at hh ⊢
      rw [h1.bytes (Option.isNone_iff_eq_none.1 (by rw [← Option.not_isSome, hh]; rfl))]; rfl
    rw [bytesStep_no this]
  | true =>
    cases hb : nBytes58 n pr with
    | error x =>
      rw [bytesStep_error hh hb] at h1 h2 ⊢
      have := h2 x rfl
      simp only at this
      subst this
      rw [bytesStep_error hh hb]
    | ok k =>
      rw [bytesStep_ok hh hb] at h1 h2 ⊢
      have h1 := (h1 () rfl).kept "n_bytes" _ hn (Dict.get?_set_self _ _ _)
      rw [bytesStep_ok (by unfold Dict.has; rw [h1]; rfl) hb, set_same h1]

theorem keeps_bytes {C : List Key} {n : Nat} {pr : Option Bool} (hn : (.s "n_bytes" : Key) ∈ C) : Keeps (Later C) (bytesStep n pr) := by
  refine ⟨fun d => ?_⟩
  cases hh : d.has "n_bytes" with
  | false => rw [bytesStep_no hh]; exact (pre_later _).refl d
  | true =>
    cases hb : nBytes58 n pr with
    | error x => rw [bytesStep_error hh hb]; exact (pre_later _).refl d
    | ok k => rw [bytesStep_ok hh hb]; exact later_set hn fun _ => Option.isSome_iff_ne_none.1 hh

theorem bytes_step {α} {n : Nat} {pr : Option Bool} {f : Unit → W α} :
    (W.getDict >>= fun d => W.when (d.has "n_bytes" = true) (W.bind (W.lift (nBytes58 n pr)) fun k => W.put "n_bytes" (.int k)) >>= f) =
      (bytesStep n pr >>= f) := by
  funext d
  show W.bind W.getDict _ d = W.bind (bytesStep n pr) f d
  conv => lhs; unfold W.bind W.getDict
  simp only [List.nil_append]
  show W.bind _ f d = _
  unfold W.bind bytesStep
  rfl

theorem idem58 (little fd : Bool) : Idem (write58 little fd) := by
  intro d
  unfold write58
  have pe := W.pre_eq
  have pl := pre_later ["ord_data_type", "n_bytes", "abscissa_min"]
  have pl2 := pre_later ["n_bytes", "abscissa_min"]
  have pl1 := pre_later ["abscissa_min"]
  have pl0 := pre_later []
  refine (fun h => ⟨h.1, h.2.mono (by decide)⟩) (again_guarded (C := ["ord_data_type", "n_bytes", "abscissa_min"]) (n := 58) (again_bind (C := ["ord_data_type", "n_bytes", "abscissa_min"]) (rep_key (by decide)) (keeps_key pl _)
    (fun ft => ?_) fun _ h => h) d)
  refine again_bind (C := ["ord_data_type", "n_bytes", "abscissa_min"]) (rep_lift _) (keeps_lift pl _) (fun _ => ?_) fun _ h => h
  refine again_bind (C := ["ord_data_type", "n_bytes", "abscissa_min"]) (rep_when fun _ => rep_raise _)
    (keeps_when pl _ (keeps_raise pl _)) (fun _ => ?_) fun _ h => h
  refine again_bind (C := ["ord_data_type", "n_bytes", "abscissa_min"]) rep_opt (keeps_optLater (by decide +kernel)) (fun _ => ?_) fun _ h => h
  refine again_bind (C := ["ord_data_type", "n_bytes", "abscissa_min"]) (rep_key (by decide)) (keeps_key pl _) (fun y => ?_) fun _ h => h
  refine again_bind (C := ["ord_data_type", "n_bytes", "abscissa_min"]) (rep_lift _) (keeps_lift pl _) (fun n => ?_) fun _ h => h
  refine again_bind (C := ["ord_data_type", "n_bytes", "abscissa_min"]) (rep_lift _) (keeps_lift pl _) (fun cplx => ?_) fun _ h => h
  refine again_bind (C := ["n_bytes", "abscissa_min"]) (rep_when fun _ => rep_put (by decide) _)
    (keeps_when pl _ (keeps_putLater (by decide) (by decide) _)) (fun _ => ?_) (by decide)
  refine again_bind (C := ["n_bytes", "abscissa_min"]) (rep_key (by decide)) (keeps_key pl2 _) (fun odt => ?_) fun _ h => h
  refine again_bind (C := ["n_bytes", "abscissa_min"]) (rep_lift _) (keeps_lift pl2 _) (fun pr => ?_) fun _ h => h
  rw [bytes_step]
  refine again_bind (C := ["abscissa_min"]) (rep_bytes (by decide)) (keeps_bytes (by decide)) (fun _ => ?_) (by decide)
  refine again_bind (C := ["abscissa_min"]) (rep_key (by decide)) (keeps_key pl1 _) (fun sp => ?_) fun _ h => h
  refine again_bind (C := ["abscissa_min"]) (rep_lift _) (keeps_lift pl1 _) (fun even => ?_) fun _ h => h
  refine again_bind (C := ["abscissa_min"]) (rep_key (by decide)) (keeps_key pl1 _) (fun x => ?_) fun _ h => h
  refine again_bind (C := ["abscissa_min"]) (rep_lift _) (keeps_lift pl1 _) (fun x0 => ?_) fun _ h => h
  refine again_bind (C := []) (rep_put (by decide) _) (keeps_putLater (by decide) (by decide) _) (fun _ => ?_) (by decide)
  refine again_tail ?_
  wkeep pe
  all_goals first
    | unfold idRest58; wkeep pe
    | unfold unitsRow; wkeep pe
    | (unfold body58; wkeep pe; cases pr <;> wkeep pe)

end Verif
