import Verif.Lemmas.Keep
/-
What each writer leaves in the dictionary.
-/
namespace Verif

/-- The value of `k`: the one given, or the default. -/
def Dict.filled (d : Dict) (fs : List (Key × Val)) (k : Key) : Option Val := (d.get? k).or (Dict.get? fs k)

namespace W

theorem guarded_dict {α} (n : Nat) (m : W α) (d : Dict) : (W.guarded n m d).dict = (m d).dict :=
  (keeps_guarded (R := fun a b => b = (m a).dict) (m := m) ⟨fun _ => rfl⟩).run d
theorem guardedAny_dict {α} (n : Nat) (m : W α) (d : Dict) : (W.guardedAny n m d).dict = (m d).dict :=
  (keeps_guardedAny (R := fun a b => b = (m a).dict) (m := m) ⟨fun _ => rfl⟩).run d

theorem dict_opt (fs : List (Key × Val)) (d : Dict) : (W.opt fs d).dict = optFields d fs := rfl

/-- Defaults first, then nothing that changes the dictionary. -/
theorem opt_dict {α} (fs : List (Key × Val)) {f : Unit → W α} (hf : Keeps (fun a b => a = b) (f ())) (d : Dict) :
    ((W.opt fs >>= f) d).dict = optFields d fs := by
  show (W.bind (W.opt fs) f d).dict = _
  rw [bind_dict]
  exact (hf.run _).symm

end W

open W

theorem dict82 (d : Dict) : (write82 d).dict = optFields d [("id", .str "NONE".toList), ("color", .int 0)] := by
  unfold write82
  rw [guarded_dict]
  refine opt_dict _ ?_ d
  have pe := W.pre_eq
  wkeep pe
  all_goals unfold nodeLine
  all_goals wkeep pe

theorem dict151 (ds ts : Text) (d : Dict) : (write151 ds ts d).dict = optFields d (opt151 ds ts) := by
  unfold write151
  rw [guarded_dict]
  refine opt_dict _ ?_ d
  have pe := W.pre_eq
  wkeep pe

theorem dict164 (d : Dict) : (write164 d).dict = optFields d opt164 := by
  unfold write164
  rw [guarded_dict]
  refine opt_dict _ ?_ d
  have pe := W.pre_eq
  wkeep pe

theorem dict1858 (d : Dict) : (write1858 d).dict = optFields d [] := by
  unfold write1858
  rw [guardedAny_dict]
  refine opt_dict _ ?_ d
  have pe := W.pre_eq
  wkeep pe

theorem dict2400 (d : Dict) : (write2400 d).dict = optFields d opt2400 := by
  unfold write2400
  rw [guarded_dict]
  refine opt_dict _ ?_ d
  have pe := W.pre_eq
  wkeep pe

theorem dict2411 (d : Dict) : (write2411 d).dict = optFields d [] := by
  unfold write2411
  rw [guardedAny_dict]
  refine opt_dict _ ?_ d
  have pe := W.pre_eq
  wkeep pe

theorem dict2412 (d : Dict) : (write2412 d).dict = d := by
  unfold write2412
  rw [guardedAny_dict]
  have pe := W.pre_eq
  refine (Keeps.run (R := fun a b => a = b) ?_ d).symm
  wkeep pe
  unfold writeGroup
  split <;> wkeep pe
  unfold writeElem
  wkeep pe

theorem dict2414 (d : Dict) : (write2414 d).dict = optFields d opt2414 := by
  unfold write2414
  rw [guardedAny_dict]
  refine opt_dict _ ?_ d
  have pe := W.pre_eq
  have hv : ∀ v, Keeps (fun a b => a = b) (writeVals v) := by
    intro v; unfold writeVals; wkeep pe
  wkeep pe
  · unfold freqRest; wkeep pe; unfold freqNode; wkeep pe
  · unfold plainRest
    wkeep pe
    unfold locRest
    wkeep pe
    · unfold locNodes; wkeep pe; exact hv _
    · unfold locElems; wkeep pe; exact hv _
    · unfold locElemNodes; wkeep pe; exact hv _

theorem dict2420 (d : Dict) : (write2420 d).dict = optFields d opt2420 := by
  unfold write2420
  rw [guardedAny_dict]
  refine opt_dict _ ?_ d
  have pe := W.pre_eq
  wkeep pe
  all_goals unfold matLine
  all_goals wkeep pe

theorem dict2429 (d : Dict) : (write2429 d).dict = optFields d optGroup := by
  unfold write2429
  rw [guardedAny_dict]
  refine opt_dict _ ?_ d
  have pe := W.pre_eq
  wkeep pe

theorem dict2467 (d : Dict) : (write2467 d).dict = optFields d optGroup := by
  unfold write2467
  rw [guardedAny_dict]
  refine opt_dict _ ?_ d
  have pe := W.pre_eq
  wkeep pe
  all_goals unfold writeGroup2467
  all_goals wkeep pe


namespace W

theorem bind_dict_ok {α β} {m : W α} {f : α → W β} {d : Dict} {a : α} (h : (m d).res = .ok a) :
    ((m >>= f) d).dict = (f a (m d).dict).dict := by
  show (W.bind m f d).dict = _
  rw [bind_dict, h]

theorem bind_dict_err {α β} {m : W α} {f : α → W β} {d : Dict} {e : Err} (h : (m d).res = .error e) :
    ((m >>= f) d).dict = (m d).dict := by
  show (W.bind m f d).dict = _
  rw [bind_dict, h]

theorem key_res {k : Key} {d : Dict} {v : Val} (h : d.get? k = some v) : (W.key k d).res = .ok v := by
  show d.get k = _
  unfold Dict.get; rw [h]

end W

theorem dict15 {d : Dict} {v : Val} {n : Nat} (hv : d.get? "node_nums" = some v) (hn : v.len = .ok n) :
    (write15 d).dict = optFields d (opt15 n) := by
  unfold write15
  rw [guarded_dict, bind_dict_ok (key_res hv), bind_dict_ok (a := n) (show (W.lift v.len _).res = _ from hn)]
  refine opt_dict _ ?_ d
  have pe := W.pre_eq
  wkeep pe

theorem dict18 {d : Dict} {v : Val} {n : Nat} (hv : d.get? "cs_num" = some v) (hn : v.len = .ok n) :
    (write18 d).dict = optFields d (opt18 n) := by
  unfold write18
  rw [guarded_dict, bind_dict_ok (key_res hv), bind_dict_ok (a := n) (show (W.lift v.len _).res = _ from hn)]
  refine opt_dict _ ?_ d
  have pe := W.pre_eq
  wkeep pe

/-- What follows the preparation in `_write55` leaves the dictionary alone. -/
theorem dict55 {d : Dict} {v : Val} {an : Option An55} (hv : d.get? "analysis_type" = some v) (ha : an55 v = .ok an)
    (hp : ∃ u, (prep55 an (optFields d opt55)).res = .ok u) :
    (write55 d).dict = (prep55 an (optFields d opt55)).dict := by
  obtain ⟨u, hp⟩ := hp
  unfold write55
  rw [guarded_dict, bind_dict_ok (m := W.opt opt55) (a := ()) rfl]
  have h1 : (optFields d opt55).get? "analysis_type" = some v := get?_opt_present hv
  rw [show (W.opt opt55 d).dict = optFields d opt55 from rfl, bind_dict_ok (key_res h1)]
  rw [bind_dict_ok (a := an) (show (W.lift (an55 v) _).res = _ from ha)]
  show ((prep55 an >>= _) (optFields d opt55)).dict = _
  rw [bind_dict_ok hp]
  refine (Keeps.run (R := fun a b => a = b) ?_ _).symm
  have pe := W.pre_eq
  wkeep pe
  unfold head55
  split <;> wkeep pe

namespace W

theorem peel {α β} {m : W α} {f : α → W β} {d : Dict} {b : β} (h : ((m >>= f) d).res = .ok b) :
    ∃ a, (m d).res = .ok a ∧ (f a (m d).dict).res = .ok b ∧ ((m >>= f) d).dict = (f a (m d).dict).dict := by
  have h' : (W.bind m f d).res = .ok b := h
  rw [bind_res] at h'
  cases hm : (m d).res with
  | error e => rw [hm] at h'; cases h'
  | ok a =>
    rw [hm] at h'
    exact ⟨a, rfl, h', bind_dict_ok hm⟩

theorem peelB {α β} {m : W α} {f : α → W β} {d : Dict} {b : β} (h : (W.bind m f d).res = .ok b) :
    ∃ a, (m d).res = .ok a ∧ (f a (m d).dict).res = .ok b ∧ (W.bind m f d).dict = (f a (m d).dict).dict := peel h

theorem of_guarded {α} {n : Nat} {m : W α} {d : Dict} {a : α} (h : (W.guarded n m d).res = .ok a) :
    (m d).res = .ok a := by
  unfold W.guarded at h
  rcases hm : m d with ⟨o, d', r⟩
  rw [hm] at h
  rcases r with e | a'
  · rcases e with (_ | _) | _ | _ | _ | _ | _ | _ | _ | _ | _ | _ <;> cases h
  · exact h

theorem of_key {k : Key} {d : Dict} {v : Val} (h : (W.key k d).res = .ok v) : d.get? k = some v := by
  have h : d.get k = .ok v := h
  unfold Dict.get at h
  split at h
  next hh => cases h; exact hh
  next => cases h

end W

/-- What `makeComplex` leaves. -/
theorem dict_makeComplex (k : Key) {d : Dict} {v : Val} (hv : d.get? k = some v) {u : Unit}
    (h : (makeComplex k d).res = .ok u) :
    (v.isComplexObj = .ok true ∧ (makeComplex k d).dict = d) ∨
      ∃ v', v.isComplexObj = .ok false ∧ v.plusZeroJ = .ok v' ∧ (makeComplex k d).dict = d.set k v' := by
  unfold makeComplex at h ⊢
  obtain ⟨v1, h1, h, e⟩ := peelB h
  rw [e]; clear e
  have h1 := of_key h1
  rw [hv] at h1
  cases h1
  obtain ⟨c, h1, h, e⟩ := peelB h
  rw [e]; clear e
  have h1 : v.isComplexObj = .ok c := h1
  rw [h1]
  cases c with
  | true =>
    left; refine ⟨rfl, rfl⟩
  | false =>
    right
    obtain ⟨v', h2, h, e⟩ := peelB h
    exact ⟨v', rfl, h2, e⟩

/-- The three changes `_write58` makes after the defaults. -/
structure Changed58 (fd : Bool) (d d' : Dict) : Prop where
  others : ∀ k, k ≠ .s "ord_data_type" → k ≠ .s "n_bytes" → k ≠ .s "abscissa_min" → d'.get? k = d.filled opt58 k
  order : ∀ y c, d.get? "data" = some y → y.isComplexObj = .ok c → fd = true →
    d'.get? "ord_data_type" = some (.int (if c then 6 else 4))
  orderKept : fd = false → d'.get? "ord_data_type" = d.get? "ord_data_type"
  bytesAbsent : d.get? "n_bytes" = Option.none → d'.get? "n_bytes" = Option.none
  bytes : ∀ y n o pr, d.get? "n_bytes" ≠ Option.none → d.get? "data" = some y → y.len = .ok n →
    d'.get? "ord_data_type" = some o → prec58 o = .ok pr → ∃ k, nBytes58 n pr = .ok k ∧ d'.get? "n_bytes" = some (.int k)
  start : ∀ x x0, d.get? "x" = some x → x.idx 0 = .ok x0 → d'.get? "abscissa_min" = some x0

theorem dict58 {little fd : Bool} {d : Dict} {b : Option Bytes} (h : (write58 little fd d).res = .ok b) :
    Changed58 fd d (write58 little fd d).dict := by
  unfold write58 at h ⊢
  rw [guarded_dict]
  have h := of_guarded h
  have pe := W.pre_eq
  have step : ∀ {α : Type} {m : W α} {d : Dict}, Keeps (fun a b => a = b) m → (m d).dict = d := fun hm => (hm.run _).symm
  obtain ⟨ft, -, h, e⟩ := peel h
  rw [e]; clear e
  rw [step (keeps_key pe _)] at h ⊢
  obtain ⟨good, -, h, e⟩ := peel h
  rw [e]; clear e
  rw [step (keeps_lift pe _)] at h ⊢
  obtain ⟨_, -, h, e⟩ := peel h
  rw [e]; clear e
  rw [step (keeps_when pe _ (keeps_raise pe _))] at h ⊢
  obtain ⟨_, -, h, e⟩ := peel h
  rw [e]; clear e
  rw [dict_opt] at h ⊢
  have hD : ∀ k, (optFields d opt58).get? k = d.filled opt58 k := fun k => get?_optFields _ _ _
  generalize optFields d opt58 = D at hD h ⊢
  obtain ⟨y, hy, h, e⟩ := peel h
  rw [e]; clear e
  have hy := of_key hy
  rw [step (keeps_key pe _)] at h ⊢
  obtain ⟨n, hn, h, e⟩ := peel h
  rw [e]; clear e
  rw [step (keeps_lift pe _)] at h ⊢
  obtain ⟨cplx, hc, h, e⟩ := peel h
  rw [e]; clear e
  rw [step (keeps_lift pe _)] at h ⊢
  obtain ⟨_, -, h, e⟩ := peel h
  rw [e]; clear e
  have hd1 : (W.when (fd = true) (W.put "ord_data_type" (.int (if cplx then 6 else 4))) D).dict =
      if fd then D.set "ord_data_type" (.int (if cplx then 6 else 4)) else D := by
    cases fd <;> rfl
  rw [hd1] at h ⊢
  clear hd1
  obtain ⟨odt, ho, h, e⟩ := peel h
  rw [e]; clear e
  have ho := of_key ho
  rw [step (keeps_key pe _)] at h ⊢
  obtain ⟨pr, hpr, h, e⟩ := peel h
  rw [e]; clear e
  rw [step (keeps_lift pe _)] at h ⊢
  obtain ⟨dd, hdd, h, e⟩ := peel h
  rw [e]; clear e
  rw [step (keeps_getDict pe)] at h ⊢
  obtain ⟨_, hw, h, e⟩ := peel h
  rw [e]; clear e
  have hdd : dd = (if fd then D.set "ord_data_type" (.int (if cplx then 6 else 4)) else D) := by cases hdd; rfl
  rw [← hdd] at h ho hw ⊢
  have hw : ∃ dw : Dict, (W.when (dd.has "n_bytes" = true) (W.bind (W.lift (nBytes58 n pr)) fun k =>
      W.put "n_bytes" (.int k)) dd).dict = dw ∧ (∀ k, k ≠ .s "n_bytes" → dw.get? k = dd.get? k) ∧
      (dd.get? "n_bytes" = Option.none → dw.get? "n_bytes" = Option.none) ∧
      (dd.get? "n_bytes" ≠ Option.none → ∃ k, nBytes58 n pr = .ok k ∧ dw.get? "n_bytes" = some (.int k)) := by
    refine ⟨_, rfl, ?_⟩
    unfold W.when at hw ⊢
    by_cases hh : dd.has "n_bytes" = true
    · rw [if_pos hh] at hw ⊢
      obtain ⟨k, h1, h2, e⟩ := peelB hw
      have h1 : nBytes58 n pr = .ok k := h1
      rw [e]
      refine ⟨fun q hq => Dict.get?_set_ne _ _ _ _ (fun h => hq h.symm), fun hn => ?_, fun _ =>
        ⟨k, h1, Dict.get?_set_self _ _ _⟩⟩
      unfold Dict.has at hh; rw [hn] at hh; cases hh
    · rw [if_neg hh]
      refine ⟨fun _ _ => rfl, fun h => h, fun hn => absurd ?_ hh⟩
      unfold Dict.has
      exact Option.isSome_iff_ne_none.2 hn
  obtain ⟨dw, he, hw1, hw2, hw3⟩ := hw
  rw [he] at h ⊢
  obtain ⟨sp, -, h, e⟩ := peel h
  rw [e]; clear e
  rw [step (keeps_key pe _)] at h ⊢
  obtain ⟨even, -, h, e⟩ := peel h
  rw [e]; clear e
  rw [step (keeps_lift pe _)] at h ⊢
  obtain ⟨x, hx, h, e⟩ := peel h
  rw [e]; clear e
  have hx := of_key hx
  rw [step (keeps_key pe _)] at h ⊢
  obtain ⟨x0, hx0, h, e⟩ := peel h
  rw [e]; clear e
  rw [step (keeps_lift pe _)] at h ⊢
  obtain ⟨_, -, h, e⟩ := peel h
  rw [e]; clear e
  have hx0 : x.idx 0 = .ok x0 := hx0
  have hput : (W.put "abscissa_min" x0 dw).dict = dw.set "abscissa_min" x0 := rfl
  rw [hput] at h ⊢
  obtain ⟨x1, -, h, e⟩ := peel h
  rw [e]; clear e
  rw [step (keeps_lift pe _)] at h ⊢
  obtain ⟨dx, -, h, e⟩ := peel h
  rw [e]; clear e
  rw [step (keeps_lift pe _)] at h ⊢
  obtain ⟨_, -, h, e⟩ := peel h
  rw [e]; clear e
  rw [step (keeps_emit pe _)] at h ⊢
  obtain ⟨bb, -, h, e⟩ := peel h
  rw [e]; clear e
  rw [step (keeps_key pe _)] at h ⊢
  obtain ⟨binary, -, h, e⟩ := peel h
  rw [e]; clear e
  rw [step (keeps_lift pe _)] at h ⊢
  rw [step]
  · have hk : ∀ k, k ≠ .s "ord_data_type" → k ≠ .s "n_bytes" → k ≠ .s "abscissa_min" →
        (dw.set "abscissa_min" x0).get? k = d.filled opt58 k := by
      intro k h1 h2 h3
      rw [Dict.get?_set_ne _ _ _ _ (fun h => h3 h.symm), hw1 k h2, hdd, ← hD]
      cases fd
      · rfl
      · exact Dict.get?_set_ne _ _ _ _ (fun h => h1 h.symm)
    have hbD : dd.get? "n_bytes" = d.get? "n_bytes" := by
      have h0 : d.filled opt58 "n_bytes" = d.get? "n_bytes" := by
        unfold Dict.filled
        have : Dict.get? opt58 "n_bytes" = Option.none := by decide
        rw [this, Option.or_none]
      rw [hdd, ← h0, ← hD]
      cases fd
      · rfl
      · exact Dict.get?_set_ne _ _ _ _ (by decide)
    have hdt : d.filled opt58 "data" = d.get? "data" := by
      unfold Dict.filled
      have : Dict.get? opt58 "data" = Option.none := by decide
      rw [this, Option.or_none]
    have hord : (dw.set "abscissa_min" x0).get? "ord_data_type" = dd.get? "ord_data_type" := by
      rw [Dict.get?_set_ne _ _ _ _ (by decide), hw1 _ (by decide)]
    have hn : y.len = .ok n := hn
    have hc : y.isComplexObj = .ok cplx := hc
    rw [hD, hdt] at hy
    refine ⟨hk, ?_, ?_, ?_, ?_, ?_⟩
    · intro y' c h1 h2 h3
      rw [hy] at h1; cases h1
      rw [hc] at h2; cases h2
      rw [hord, hdd, h3, if_pos rfl]
      exact Dict.get?_set_self _ _ _
    · intro h3
      rw [hord, hdd, h3]
      rw [if_neg (by decide), hD]
      unfold Dict.filled
      have : Dict.get? opt58 "ord_data_type" = Option.none := by decide
      rw [this, Option.or_none]
    · intro h1
      rw [Dict.get?_set_ne _ _ _ _ (by decide)]
      exact hw2 (hbD.trans h1)
    · intro y' n' o pr' h1 h2 h3 h4 h5
      rw [hy] at h2; cases h2
      rw [hn] at h3; cases h3
      rw [hord, ho] at h4; cases h4
      have hpr : prec58 odt = .ok pr := hpr
      rw [hpr] at h5; cases h5
      rw [Dict.get?_set_ne _ _ _ _ (by decide)]
      exact hw3 (by rw [hbD]; exact h1)
    · intro x' x0' h1 h2
      have : d.filled opt58 "x" = d.get? "x" := by
        unfold Dict.filled
        have : Dict.get? opt58 "x" = Option.none := by decide
        rw [this, Option.or_none]
      have hx' : d.get? "x" = some x := by
        rw [← this, ← hk "x" (by decide) (by decide) (by decide), Dict.get?_set_ne _ _ _ _ (by decide)]
        exact hx
      rw [hx'] at h1; cases h1
      rw [hx0] at h2; cases h2
      exact Dict.get?_set_self _ _ _
  · have hu : ∀ k, Keeps (fun a b => a = b) (unitsRow k) := by
      intro k; unfold unitsRow; wkeep pe
    have hi : ∀ a b c, Keeps (fun a b => a = b) (idRest58 a b c) := by
      intro a b c; unfold idRest58; wkeep pe
    have hb : ∀ a b c e f g, Keeps (fun a b => a = b) (body58 a b c e f g) := by
      intro a b c e f g; unfold body58; wkeep pe; split <;> wkeep pe
    wkeep pe
    · exact hi _ _ _
    · exact hu _
    · exact hu _
    · exact hu _
    · exact hu _
    · exact hb _ _ _ _ _ _

theorem prep55_ok {d : Dict} {u : Unit} (h : (write55 d).res = .ok u) : ∃ v an u', d.get? "analysis_type" = some v ∧
    an55 v = .ok an ∧ (prep55 an (optFields d opt55)).res = .ok u' := by
  unfold write55 at h
  have h := of_guarded h
  obtain ⟨_, -, h, -⟩ := peel h
  rw [dict_opt] at h
  have hD : ∀ k, (optFields d opt55).get? k = d.filled opt55 k := fun k => get?_optFields _ _ _
  generalize optFields d opt55 = D at hD h ⊢
  obtain ⟨v, hv, h, -⟩ := peel h
  have hv := of_key hv
  obtain ⟨an, ha, h, -⟩ := peel h
  obtain ⟨u', hu, h, -⟩ := peel h
  refine ⟨v, an, u', ?_, ha, hu⟩
  rw [hD] at hv
  unfold Dict.filled at hv
  have h0 : Dict.get? opt55 "analysis_type" = Option.none := by decide
  rwa [h0, Option.or_none] at hv

theorem len15_ok {d : Dict} {u : Unit} (h : (write15 d).res = .ok u) :
    ∃ v n, d.get? "node_nums" = some v ∧ v.len = .ok n := by
  unfold write15 at h
  obtain ⟨v, hv, h, -⟩ := peel (of_guarded h)
  obtain ⟨n, hn, h, -⟩ := peel h
  exact ⟨v, n, of_key hv, hn⟩

theorem len18_ok {d : Dict} {u : Unit} (h : (write18 d).res = .ok u) :
    ∃ v n, d.get? "cs_num" = some v ∧ v.len = .ok n := by
  unfold write18 at h
  obtain ⟨v, hv, h, -⟩ := peel (of_guarded h)
  obtain ⟨n, hn, h, -⟩ := peel h
  exact ⟨v, n, of_key hv, hn⟩

theorem prep55_normal (D : Dict) : prep55 (some .normal) D = ⟨[], optFields D opt55n, .ok ()⟩ := rfl
theorem prep55_frf (D : Dict) : prep55 (some .frf) D = ⟨[], D, .ok ()⟩ := rfl

/-- What the preparation for complex modes leaves. -/
structure Changed55 (D d' : Dict) : Prop where
  others : ∀ k : Key, k ≠ .s "modal_a" → k ≠ .s "modal_b" → d'.get? k = D.filled opt55c k
  modal : ∀ k : Key, k = .s "modal_a" ∨ k = .s "modal_b" → ∃ v, D.filled opt55c k = some v ∧
    ((v.isComplexObj = .ok true ∧ d'.get? k = some v) ∨
      ∃ v', v.isComplexObj = .ok false ∧ v.plusZeroJ = .ok v' ∧ d'.get? k = some v')

theorem prep55_cmplx {D : Dict} {u : Unit} (h : (prep55 (some .cmplx) D).res = .ok u) :
    Changed55 D (prep55 (some .cmplx) D).dict := by
  unfold prep55 at h ⊢
  obtain ⟨_, -, h, e⟩ := peelB h
  rw [e]; clear e
  rw [dict_opt] at h ⊢
  have hD : ∀ k, (optFields D opt55c).get? k = D.filled opt55c k := fun k => get?_optFields _ _ _
  have hab : ∀ k : Key, k = .s "modal_a" ∨ k = .s "modal_b" → ∃ v, D.filled opt55c k = some v := by
    intro k hk
    unfold Dict.filled
    cases D.get? k with
    | some v => exact ⟨v, rfl⟩
    | none => rcases hk with rfl | rfl <;> exact ⟨_, rfl⟩
  generalize optFields D opt55c = D' at hD h ⊢
  obtain ⟨va, hva⟩ := hab _ (.inl rfl)
  obtain ⟨vb, hvb⟩ := hab _ (.inr rfl)
  obtain ⟨_, ha, hb, e⟩ := peelB h
  rw [e]; clear e
  have ca := dict_makeComplex "modal_a" (show D'.get? "modal_a" = some va from (hD _).trans hva) ha
  have hDa : ∀ k : Key, k ≠ .s "modal_a" → (makeComplex "modal_a" D').dict.get? k = D'.get? k := by
    intro k hk
    rcases ca with ⟨-, e⟩ | ⟨v', -, -, e⟩
    · rw [e]
    · rw [e]; exact Dict.get?_set_ne _ _ _ _ (fun h => hk h.symm)
  have cb := dict_makeComplex "modal_b"
    (show (makeComplex "modal_a" D').dict.get? "modal_b" = some vb by rw [hDa _ (by decide), hD, hvb]) hb
  have hDb : ∀ k : Key, k ≠ .s "modal_b" → (makeComplex "modal_b" (makeComplex "modal_a" D').dict).dict.get? k =
      (makeComplex "modal_a" D').dict.get? k := by
    intro k hk
    rcases cb with ⟨-, e⟩ | ⟨v', -, -, e⟩
    · rw [e]
    · rw [e]; exact Dict.get?_set_ne _ _ _ _ (fun h => hk h.symm)
  refine ⟨fun k h1 h2 => by rw [hDb k h2, hDa k h1, hD], fun k hk => ?_⟩
  rcases hk with rfl | rfl
  · refine ⟨va, hva, ?_⟩
    rw [hDb _ (by decide)]
    rcases ca with ⟨c, e⟩ | ⟨v', c, p, e⟩
    · left; refine ⟨c, ?_⟩; rw [e, hD]; exact hva
    · right; refine ⟨v', c, p, ?_⟩; rw [e]; exact Dict.get?_set_self _ _ _
  · refine ⟨vb, hvb, ?_⟩
    rcases cb with ⟨c, e⟩ | ⟨v', c, p, e⟩
    · left; refine ⟨c, ?_⟩; rw [e, hDa _ (by decide), hD]; exact hvb
    · right; refine ⟨v', c, p, ?_⟩; rw [e]; exact Dict.get?_set_self _ _ _

end Verif
