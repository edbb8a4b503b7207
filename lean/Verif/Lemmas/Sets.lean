import Verif.Spec.DataSet
import Verif.Lemmas.World
import Verif.Lemmas.RT15
import Verif.Lemmas.RT18
import Verif.Lemmas.RT55
import Verif.Lemmas.RT58b
import Verif.Lemmas.RT82
import Verif.Lemmas.RT151
import Verif.Lemmas.RT164
import Verif.Lemmas.RT1858
import Verif.Lemmas.RT2400
import Verif.Lemmas.RT2411
import Verif.Lemmas.RT2412
import Verif.Lemmas.RT2414
import Verif.Lemmas.RT2420
import Verif.Lemmas.RT2429
import Verif.Lemmas.RT2467
/-
Writing and reading one well-formed data-set of any type.
-/
namespace Verif

/-! Cleaning. -/

theorem cleanF_eq {x y : F64} (h : CleanF x y) : x.nanToNum = y := by
  unfold F64.nanToNum
  rcases h with ⟨h, rfl⟩ | ⟨h, rfl⟩ | ⟨h, h1, h2⟩
  · unfold F64.finite at h; unfold F64.isNaN F64.isInf
    simp only [decide_eq_true_eq] at h
    rw [if_neg (by simp; omega), if_neg (by simp; omega)]
  · rw [if_pos h]
  · unfold F64.isInf at h; unfold F64.isNaN
    simp only [beq_iff_eq] at h
    rw [if_neg (by simp; omega), if_pos (by simp [F64.isInf, h])]
    obtain ⟨b, m, hm⟩ := y
    simp only at h1 h2
    subst h1; subst h2
    rfl

theorem cleanF_nanToNum (x : F64) : CleanF x x.nanToNum := by
  unfold CleanF F64.nanToNum
  by_cases h1 : x.isNaN = true
  · rw [if_pos h1]; exact .inr (.inl ⟨h1, rfl⟩)
  · rw [if_neg h1]
    by_cases h2 : x.isInf = true
    · rw [if_pos h2]; exact .inr (.inr ⟨h2, rfl, rfl⟩)
    · rw [if_neg h2]
      left
      unfold F64.isNaN at h1; unfold F64.isInf at h2; unfold F64.finite
      simp only [decide_eq_true_eq, beq_iff_eq] at h1 h2 ⊢
      exact ⟨by omega, trivial⟩

theorem oneByOne_map {α β} {P : α → β → Prop} {f : α → β} (hP : ∀ x y, P x y → f x = y) {l : List α} {m : List β}
    (h : OneByOne P l m) : l.map f = m := by
  apply List.ext_getElem?
  intro i
  rw [List.getElem?_map]
  cases hx : l[i]? with
  | none =>
    have : m.length ≤ i := by rw [← h.1]; exact List.getElem?_eq_none_iff.1 hx
    rw [List.getElem?_eq_none this]; rfl
  | some x =>
    have hi : i < m.length := by rw [← h.1]; exact (List.getElem?_eq_some_iff.1 hx).1
    rw [List.getElem?_eq_getElem hi, Option.map_some, hP _ _ (h.2 i x _ hx (List.getElem?_eq_getElem hi))]

theorem oneByOne_self {α β} {P : α → β → Prop} {f : α → β} (hP : ∀ x, P x (f x)) (l : List α) :
    OneByOne P l (l.map f) := by
  refine ⟨by simp, fun i x y hx hy => ?_⟩
  rw [List.getElem?_map, hx] at hy
  rw [← Option.some.inj hy]; exact hP x

theorem cleanC_eq (x y : F64 × F64) (h : CleanC x y) : (x.1.nanToNum, x.2.nanToNum) = y := by
  rw [cleanF_eq h.1, cleanF_eq h.2]

theorem cleanF_map {l m : List F64} (h : OneByOne CleanF l m) : l.map F64.nanToNum = m :=
  oneByOne_map (fun _ _ h => cleanF_eq h) h

theorem cleanC_map {l m : List (F64 × F64)} (h : OneByOne CleanC l m) :
    l.map (fun z => (z.1.nanToNum, z.2.nanToNum)) = m :=
  oneByOne_map (f := fun z : F64 × F64 => (z.1.nanToNum, z.2.nanToNum)) cleanC_eq h

theorem cleanV_eq {v v' : Val} (h : CleanV v v') : nanToNumV v = .ok v' := by
  cases h with
  | float h => simp only [nanToNumV, cleanF_eq h]
  | cplx h h' => simp only [nanToNumV, cleanF_eq h, cleanF_eq h']
  | arrF h => simp only [nanToNumV, cleanF_map h]
  | arrC h => simp only [nanToNumV, cleanC_map h]
  | mat h =>
    simp only [nanToNumV]
    rw [oneByOne_map (f := fun r : List F64 => r.map F64.nanToNum) (fun _ _ hh => cleanF_map hh) h]
  | @listI l hne =>
    unfold nanToNumV nanToNumList
    cases l with
    | nil => exact absurd rfl hne
    | cons a l =>
      simp only [List.map_cons]
      rw [show Val.int a :: l.map Val.int = (a :: l).map Val.int from rfl,
        mapRes_map (a :: l) Val.int id (fun _ _ => rfl)]
      simp [Except.map]
  | @listF l m h =>
    unfold nanToNumV nanToNumList
    cases l with
    | nil =>
      have : m = [] := List.eq_nil_of_length_eq_zero h.1.symm
      subst this; rfl
    | cons a l =>
      simp only [List.map_cons]
      rw [show Val.float a :: l.map Val.float = (a :: l).map Val.float from rfl,
        mapRes_map (a :: l) Val.float F64.nanToNum (fun _ _ => rfl), cleanF_map h]
      rfl
  | @listC l m hne h =>
    unfold nanToNumV nanToNumList
    cases l with
    | nil => exact absurd rfl hne
    | cons a l =>
      simp only [List.map_cons]
      rw [show Val.cplx a.1 a.2 :: l.map (fun z => Val.cplx z.1 z.2) = (a :: l).map (fun z => Val.cplx z.1 z.2) from rfl,
        mapRes_map (a :: l) (fun z => Val.cplx z.1 z.2) (fun z => (z.1.nanToNum, z.2.nanToNum)) (fun _ _ => rfl), cleanC_map h]
      rfl
  | _ => rfl

theorem cleanD_eq {d d' : Dict} (h : CleanD d d') : cleanData d = .ok d' := by
  unfold cleanData
  rcases h with ⟨h, rfl⟩ | ⟨v, v', h, hv, rfl⟩
  · rw [h]
  · rw [h]; simp only [cleanV_eq hv]; rfl

theorem cleanD_get {d d' : Dict} (h : CleanD d d') {k : Key} (hk : Key.s "data" ≠ k) : d'.get? k = d.get? k := by
  rcases h with ⟨_, rfl⟩ | ⟨v, v', _, _, rfl⟩
  · rfl
  · exact Dict.get?_set_ne _ _ _ _ hk

/-! One data-set. -/

/-- The dictionary is written as the block, with its closing delimiter, and the block reads as the data-set. -/
structure Written (e : Env) (fd : Bool) (d : Dict) (s : DataSet) (block : Bytes) : Prop where
  wr : ∃ out d' ret, writeBody e fd d = ⟨out, d', .ok ret⟩ ∧ added ⟨out, d', .ok ret⟩ = closed block ∧
    (ret.isSome = true ↔ s.Binary)
  framed : Framed s.num block
  rd : readBlock s.num false block = .ok s.readBack
  rdh : readBlock s.num true block = .ok s.headerBack

theorem encode_tail : encode tailText = tagPat ++ [10] := by decide

theorem writeBody_eq {e : Env} {fd : Bool} {d d' : Dict} {n : Int} (hc : CleanD d d')
    (ht : d'.get? "type" = some (.int n)) : writeBody e fd d = writeDispatch e fd (.int n) d' := by
  unfold writeBody
  rw [← cleanD_get hc (by decide), ht]
  simp only [cleanD_eq hc]

/-- A data-set written as text only. -/
theorem written_lines {e : Env} {fd : Bool} {d d' : Dict} {s : DataSet} {w : W Unit} {ex : Text → Res Dict}
    {lines : List Text} (hc : CleanD d d') (ht : d'.get? "type" = some (.int s.num))
    (hw : writeDispatch e fd (.int s.num) = W.none w) (hr : ∀ h b, readBlock s.num h b = ex (decode b))
    (hh : s.headerBack = s.readBack) (hb : ¬ s.Binary) (rt : RoundTrip s.num w ex d' s.readBack lines) :
    Written e fd d s (encode (blockText lines)) := by
  obtain ⟨o, ho⟩ := rt.wr
  refine ⟨⟨frameText lines, o, none, ?_, ?_, ?_⟩, ⟨?_, rt.ty⟩, ?_, ?_⟩
  · rw [writeBody_eq hc ht, hw]; unfold W.none; rw [ho]; rfl
  · unfold added closed
    simp only
    rw [frameText_eq, encode_append]; rfl
  · simp [hb]
  · have := tags_frame lines rt.safe 0
    rw [frameText_eq, encode_append, Nat.zero_add] at this
    exact this
  · rw [hr, decode_encode, rt.rd]
  · rw [hr, decode_encode, rt.rd, hh]

theorem written_text {e : Env} {fd : Bool} {d d' : Dict} {s : DataSet} {w : W Unit} {ex : Text → Res Dict}
    {lines : List Text} (hc : CleanD d d') (ht : d'.get? "type" = some (.int s.num))
    (hw : writeDispatch e fd (.int s.num) = W.none w) (hr : ∀ h b, readBlock s.num h b = ex (decode b))
    (hh : s.headerBack = s.readBack) (hb : ¬ s.Binary) (rt : RoundTrip s.num w ex d' s.readBack lines) :
    ∃ b, Written e fd d s b := ⟨_, written_lines hc ht hw hr hh hb rt⟩

theorem written_58 {e : Env} {fd : Bool} {d d' : Dict} {r : DS58} (hc : CleanD d d') (hr : DS58.Rep e.little fd d' r)
    (ok : DS58.Ok r) : Written e fd d (.s58 r) r.block := by
  refine ⟨⟨DS58.textOut r, DS58.d3 fd d' r, r.ret, ?_, ?_, ?_⟩, DS58.framed r ok, DS58.read_eq r ok, DS58.readHeader_eq r ok⟩
  · rw [writeBody_eq hc hr.type]
    exact DS58.write_eq _ _ _ _ hr ok
  · unfold added closed DS58.textOut DS58.ret DS58.block DS58.extra
    rcases r.store with dd | le
    · simp only [List.append_nil]
      rw [frameText_eq, encode_append]; rfl
    · simp only [encode_tail, List.append_assoc]
  · unfold DS58.ret DataSet.Binary
    simp only
    rcases r.store with dd | le <;> simp

theorem written (e : Env) (fd : Bool) (d : Dict) (s : DataSet) (h : Given e fd d s) : ∃ b, Written e fd d s b := by
  obtain ⟨d', hc, hr, ok⟩ := h
  cases s with
  | s15 r => exact written_text hc hr.type rfl (fun _ _ => rfl) rfl id (DS15.roundTrip d' r hr ok)
  | s18 r => exact written_text hc hr.set rfl (fun _ _ => rfl) rfl id (DS18.roundTrip d' r hr ok)
  | s55 r => exact written_text hc hr.type rfl (fun _ _ => rfl) rfl id (DS55.roundTrip d' r hr ok)
  | s82 r => exact written_text hc hr.type rfl (fun _ _ => rfl) rfl id (DS82.roundTrip d' r hr ok)
  | s151 r => exact written_text hc hr.type rfl (fun _ _ => rfl) rfl id (DS151.roundTrip _ _ d' r hr ok)
  | s164 r => exact written_text hc hr.type rfl (fun _ _ => rfl) rfl id (DS164.roundTrip d' r hr ok)
  | s1858 r => exact written_text hc hr.type rfl (fun _ _ => rfl) rfl id (DS1858.roundTrip d' r hr ok)
  | s2400 r => exact written_text hc hr.type rfl (fun _ _ => rfl) rfl id (DS2400.roundTrip d' r hr ok)
  | s2411 r => exact written_text hc hr.type rfl (fun _ _ => rfl) rfl id (DS2411.roundTrip d' r hr ok)
  | s2412 r => exact written_text hc hr.type rfl (fun _ _ => rfl) rfl id (DS2412.roundTrip d' r hr ok)
  | s2420 r => exact written_text hc hr.set rfl (fun _ _ => rfl) rfl id (DS2420.roundTrip d' r hr ok)
  | s2429 r => exact written_text hc hr.type rfl (fun _ _ => rfl) rfl id (DS2429.roundTrip d' r hr ok)
  | s2414 r => exact written_text hc hr.type rfl (fun _ _ => rfl) rfl id (DS2414.roundTrip d' r hr ok)
  | s2467 r => exact written_text hc hr.type rfl (fun _ _ => rfl) rfl id (DS2467.roundTrip d' r hr ok)
  | s58 r => exact ⟨_, written_58 hc hr ok⟩

end Verif
