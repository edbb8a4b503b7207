import Verif.Lemmas.Again2
import Mathlib.Data.List.Forall2
/-
What was read can be saved again: data-set 58.
-/
namespace Verif
open F64

namespace DS58

theorem ofNat_zero : F64.ofNat 0 = sz false := by decide +kernel

theorem count_again (r : DS58) : r.again.count = r.count := by
  unfold count again ordAgain
  cases r.ord <;> simp

theorem ordType_again (r : DS58) : r.again.ordType = r.ordType := by
  have h1 : r.again.ord = ordAgain r.store r.ord := rfl
  have h2 : r.again.store = r.store := rfl
  unfold ordType
  rw [h1, h2]
  unfold ordAgain
  cases r.ord <;> cases r.store with
  | ascii d => cases d <;> rfl
  | binary le => rfl

theorem xBack_length (r : DS58) (ok : r.Ok) : r.xBack.length = r.count := by
  unfold xBack
  split
  · simp
  · rename_i h
    rw [List.length_map]; exact ok.length (by simpa using h)

theorem abscissa_again (r : DS58) (ok : r.Ok) (l : r.Lasting) : r.again.abscissaVals = r.xBack := by
  have h := xBack_length r ok
  have h2 := l.two
  show (r.xBack[0]?.getD F64.zero) :: (r.xBack[1]?.getD F64.zero) :: r.xBack.drop 2 = r.xBack
  match hx : r.xBack with
  | [] => rw [hx] at h; simp at h; omega
  | [a] => rw [hx] at h; simp at h; omega
  | a :: b :: m => simp

theorem keepX_neg (s : Store58) (x : F64) : (keepX s x).neg = x.neg := by
  unfold keepX; cases s <;> rfl

theorem keepX_finite (s : Store58) (x : F64) (h : x.finite = true) : (keepX s x).finite = true := by
  unfold keepX
  cases s
  · exact quant_finite_5 x h
  · exact h

theorem min_finite (r : DS58) (ok : r.Ok) : r.min.finite = true := by
  unfold min
  split
  · exact ok.xs _ (by simp [abscissaVals])
  · exact sz_finite _

theorem inc_finite (r : DS58) (ok : r.Ok) : r.inc.finite = true := by
  unfold inc
  split
  · exact ok.dx
  · exact sz_finite _

theorem x0_even (r : DS58) (ok : r.Ok) (l : r.Lasting) (he : r.even = true) : r.again.x0 = r.x0.quant 5 := by
  have h2 := l.two
  have ha := l.start he
  have hm : r.min = r.x0 := by unfold min; rw [if_pos he]
  have hi : r.inc = r.x1.sub r.x0 := by unfold inc; rw [if_pos he]
  have hf : r.x0.finite = true := ok.xs _ (by simp [abscissaVals])
  show r.xBack[0]?.getD F64.zero = _
  unfold xBack
  rw [if_pos he]
  obtain ⟨k, hk⟩ : ∃ k, r.count = k + 1 := ⟨r.count - 1, by omega⟩
  rw [hk, List.range_succ_eq_map, List.map_cons]
  simp only [List.getElem?_cons_zero, Option.getD_some]
  rw [ofNat_zero, sz_mul _ (quant_finite_5 _ (inc_finite r ok)), add_sz _ _ (quant_finite_5 _ (min_finite r ok)), hm, hi,
    quant_neg, quant_neg]
  split
  next h0 =>
    apply F64.ext'
    · show (r.x0.neg && (r.x1.sub r.x0).neg) = r.x0.neg
      rcases ha with ha | ha
      · have := notNegZero_quant 5 (by decide) (by decide) r.x0 ha (quant_finite_5 _ hf) h0
        rw [quant_neg] at this
        rw [this, Bool.false_and]
      · rw [ha, Bool.and_true]
    · rw [h0]; rfl
  next => rfl

theorem min_again (r : DS58) (ok : r.Ok) (l : r.Lasting) : r.again.min.quant 5 = r.min.quant 5 := by
  have he' : r.again.even = r.even := rfl
  unfold min
  rw [he']
  split
  next he => rw [x0_even r ok l he, quant5 (ok.xs _ (by simp [abscissaVals]))]
  next he =>
    have hx : r.again.x0 = keepX r.store r.x0 := by
      show r.xBack[0]?.getD F64.zero = _
      unfold xBack
      rw [if_neg he]; rfl
    rw [hx, keepX_neg]

theorem keepX_keepX (r : DS58) (ok : r.Ok) (x : F64) (hx : x ∈ r.abscissaVals) :
    keepX r.store (keepX r.store x) = keepX r.store x := by
  have hf := ok.xs x hx
  unfold keepX
  cases hs : r.store with
  | ascii d => exact quant5 hf
  | binary le => rfl

theorem xBack_again (r : DS58) (ok : r.Ok) (l : r.Lasting) : r.again.xBack = r.xBack := by
  have he' : r.again.even = r.even := rfl
  have hs' : r.again.store = r.store := rfl
  rw [xBack, he', hs', min_again r ok l, l.step, count_again, abscissa_again r ok l]
  unfold xBack
  by_cases he : r.even = true
  · rw [if_pos he, if_pos he]
  · rw [if_neg he, if_neg he, List.map_map]
    exact List.map_congr_left fun x hx => keepX_keepX r ok x hx

theorem keepY_finite (s : Store58) (y : F64) (h : y.finite = true) : (keepY s y).finite = true := by
  unfold keepY
  cases s with
  | ascii d =>
    cases d
    · exact quant_finite_5 y h
    · exact quant_finite_11 y h
  | binary le => exact h

theorem keepY_keepY (s : Store58) (y : F64) (hf : y.finite = true) : keepY s (keepY s y) = keepY s y := by
  unfold keepY
  cases s with
  | ascii d =>
    cases d
    · exact quant5 hf
    · exact quant11 hf
  | binary le => rfl

theorem keepY_zero (s : Store58) : keepY s F64.zero = F64.zero := by
  unfold keepY
  cases s with
  | ascii d =>
    cases d
    · exact quant_zero' 5
    · exact quant_zero' 11
  | binary le => rfl

theorem keepY_settled (s : Store58) (z : Cplx) (hf : z.Finite) (hs : z.Settled) : Cplx.Settled (keepY s z.1, keepY s z.2) := by
  unfold keepY
  cases s with
  | ascii d =>
    cases d
    · exact settled_quant 5 (by decide) (by decide) hs ⟨quant_finite_5 _ hf.1, quant_finite_5 _ hf.2⟩
    · exact settled_quant 11 (by decide) (by decide) hs ⟨quant_finite_11 _ hf.1, quant_finite_11 _ hf.2⟩
  | binary le => exact hs

theorem keepC (s : Store58) (z : Cplx) (hf : z.Finite) (hs : z.Settled) :
    Cplx.unsigned (keepY s (Cplx.unsigned (keepY s z.1, keepY s z.2)).1, keepY s (Cplx.unsigned (keepY s z.1, keepY s z.2)).2)
      = Cplx.unsigned (keepY s z.1, keepY s z.2) := by
  have h := unsigned_quant (keepY s) (keepY_zero s) z (keepY_keepY s _ hf.1) (keepY_keepY s _ hf.2)
  simp only at h
  rw [h, unsigned_again (keepY_settled s z hf hs)]

theorem ordBack_again (r : DS58) (ok : r.Ok) (l : r.Lasting) : r.again.ordBack = r.ordBack := by
  have h1 : r.again.ord = ordAgain r.store r.ord := rfl
  have h2 : r.again.store = r.store := rfl
  have o := ok.ord
  have lo := l.ord
  unfold ordBack
  rw [h1, h2]
  unfold ordAgain
  cases hr : r.ord with
  | real m =>
    rw [hr] at o
    simp only [List.map_map]
    congr 1
    exact List.map_congr_left fun y hy => keepY_keepY r.store y (o y hy)
  | cplx m =>
    rw [hr] at o lo
    simp only [List.map_map]
    congr 1
    exact List.map_congr_left fun z hz => keepC r.store z (o z hz) (lo z hz)

theorem axisBack_again (s le f t la u : Key) (a : Axis58) : axisBack s le f t la u (axisAgain a) = axisBack s le f t la u a := by
  unfold axisBack axisAgain
  simp only [strip_strip]

theorem readBack_again (r : DS58) (ok : r.Ok) (l : r.Lasting) : r.again.readBack = r.readBack := by
  have hs : r.again.storeBack = r.storeBack := by
    unfold storeBack
    have h2 : r.again.store = r.store := rfl
    rw [h2, count_again]
  have hi : r.again.idBack = r.idBack := by
    unfold idBack
    simp only [again, strip_strip]
  have hf : r.again.formBack = r.formBack := by
    unfold formBack
    have he' : r.again.even = r.even := rfl
    have hz : r.again.zValue = r.zValue.quant 5 := rfl
    rw [ordType_again, count_again, he', min_again r ok l, l.step, hz, quant5 ok.zValue]
  have ha : r.again.axesBack = r.axesBack := by
    unfold axesBack
    have h1 : r.again.abscissa = axisAgain r.abscissa := rfl
    have h2 : r.again.ordinate = axisAgain r.ordinate := rfl
    have h3 : r.again.orddenom = axisAgain r.orddenom := rfl
    have h4 : r.again.zAxis = axisAgain r.zAxis := rfl
    rw [h1, h2, h3, h4, axisBack_again, axisBack_again, axisBack_again, axisBack_again]
  unfold readBack headBack
  rw [hs, hi, hf, ha, xBack_again r ok l, ordBack_again r ok l]

theorem axisOk_again {a : Axis58} (h : AxisOk a) : AxisOk (axisAgain a) :=
  ⟨h.spec, h.len, h.force, h.temp, h.lab.strip, h.units.strip, noEnd_strip 20 _ h.units.fits h.noDelim⟩

theorem ordOk_again (r : DS58) (ok : r.Ok) : OrdOk r.again.ord := by
  have o := ok.ord
  show OrdOk (ordAgain r.store r.ord)
  unfold ordAgain
  cases hr : r.ord with
  | real m =>
    rw [hr] at o
    intro y hy
    obtain ⟨x, hx, rfl⟩ := List.mem_map.1 hy
    exact keepY_finite _ _ (o x hx)
  | cplx m =>
    rw [hr] at o
    intro y hy
    obtain ⟨z, hz, rfl⟩ := List.mem_map.1 hy
    exact unsigned_finite (z := (keepY r.store z.1, keepY r.store z.2))
      ⟨keepY_finite _ _ (o z hz).1, keepY_finite _ _ (o z hz).2⟩

/-! The bytes of a binary data-set: those of zeros may change to zero bytes, which are in no delimiter. -/

/-- Every byte is the same or becomes zero. -/
def Zeroed (l m : Bytes) : Prop := List.Forall₂ (fun a b => b = a ∨ b = 0) l m

theorem Zeroed.refl (l : Bytes) : Zeroed l l := List.forall₂_same.2 fun _ _ => .inl rfl

theorem Zeroed.append {a b c d : Bytes} (h : Zeroed a b) (k : Zeroed c d) : Zeroed (a ++ c) (b ++ d) :=
  List.rel_append h k

theorem Zeroed.flatMap {α : Type} (l : List α) (f g : α → Bytes) (h : ∀ a ∈ l, Zeroed (f a) (g a)) :
    Zeroed (l.flatMap f) (l.flatMap g) := by
  induction l with
  | nil => exact .nil
  | cons a l ih =>
    rw [List.flatMap_cons, List.flatMap_cons]
    exact (h a (by simp)).append (ih fun b hb => h b (by simp [hb]))

theorem Zeroed.eq_of {l m : Bytes} (h : Zeroed l m) (hp : 0 ∉ m) : l = m := by
  induction h with
  | nil => rfl
  | cons h _ ih =>
    simp only [List.mem_cons, not_or] at hp
    rcases h with rfl | rfl
    · rw [ih hp.2]
    · exact absurd rfl hp.1

theorem Zeroed.infix {l m p : Bytes} (h : Zeroed l m) (hp : 0 ∉ p) (hi : p <:+: m) : p <:+: l := by
  obtain ⟨s, t, rfl⟩ := hi
  rw [List.append_assoc] at h
  have h1 := List.forall₂_drop_append _ _ _ h
  have h2 := List.forall₂_take_append _ _ _ h1
  have h3 := Zeroed.eq_of h2 hp
  refine ⟨l.take s.length, (l.drop s.length).drop p.length, ?_⟩
  have e1 : p ++ (l.drop s.length).drop p.length = l.drop s.length := by
    conv_lhs => lhs; rw [← h3]
    exact List.take_append_drop _ _
  rw [List.append_assoc, e1]
  exact List.take_append_drop _ _

/-- The bytes of a number. -/
def bytes8 (little : Bool) (x : F64) : Bytes :=
  let le := (List.range 8).map fun i => UInt8.ofNat (x.bits / 256 ^ i % 256)
  if little then le else le.reverse

theorem zeroed_zero (little : Bool) (x : F64) (h : x.mag = 0) : Zeroed (bytes8 little x) (bytes8 little F64.zero) := by
  have : x = sz x.neg := F64.ext' rfl h
  rw [this]
  cases x.neg <;> cases little <;> unfold Zeroed <;> decide +kernel

theorem zeroed_unsigned (little : Bool) (z : Cplx) : Zeroed (bytes8 little z.1 ++ bytes8 little z.2)
    (bytes8 little z.unsigned.1 ++ bytes8 little z.unsigned.2) := by
  unfold Cplx.unsigned
  refine .append ?_ ?_
  · simp only
    split
    next h => exact zeroed_zero little _ h.1
    next => exact .refl _
  · simp only
    split
    next h => exact zeroed_zero little _ h
    next => exact .refl _

theorem payload_again (r : DS58) (ok : r.Ok) (l : r.Lasting) (le : Bool) (hs : r.store = .binary le) :
    Zeroed (r.payload le) (r.again.payload le) := by
  have ha : r.even = false → r.again.abscissaVals = r.abscissaVals := by
    intro he
    rw [abscissa_again r ok l]
    unfold xBack
    rw [if_neg (by simp [he]), hs]
    show r.abscissaVals.map (fun x => x) = _
    rw [List.map_id']
  have he' : r.again.even = r.even := rfl
  have e : ∀ q : DS58, q.payload le = q.stored.flatMap (bytes8 le) := fun _ => rfl
  have hord : r.again.ord = ordAgain (.binary le) r.ord := by rw [← hs]; rfl
  rw [e, e]
  unfold stored
  rw [hord, he']
  cases hr : r.ord with
  | real m =>
    have : ordAgain (.binary le) (.real m) = .real m := by
      show Ord58.real (m.map (fun x => x)) = _
      rw [List.map_id']
    rw [this]
    by_cases he : r.even = true
    · simp only [he, if_true]; exact .refl _
    · simp only [ha (by simpa using he)]; exact .refl _
  | cplx m =>
    have : ordAgain (.binary le) (.cplx m) = .cplx (m.map Cplx.unsigned) := rfl
    rw [this]
    by_cases he : r.even = true
    · simp only [he, if_true, List.flatMap_map, List.flatMap_assoc]
      refine .flatMap _ _ _ fun z _ => ?_
      have := zeroed_unsigned le z
      simpa using this
    · simp only [he, if_false, ha (by simpa using he)]
      rw [List.zip_map_right, List.flatMap_map, if_neg (by decide), if_neg (by decide), List.flatMap_assoc,
        List.flatMap_assoc, List.flatMap_map]
      refine .flatMap _ _ _ fun p _ => ?_
      have := (Zeroed.refl (bytes8 le p.1)).append (zeroed_unsigned le p.2)
      simpa using this

theorem resave (e : Env) (fd : Bool) (r : DS58) (ok : r.Ok) (l : r.Lasting) (hd : fd = true → r.store ≠ .ascii false)
    (hl : ∀ le, r.store = .binary le → le = e.little) :
    Given e fd r.readBack (.s58 r.again) ∧ r.again.readBack = r.readBack := by
  refine ⟨?_, readBack_again r ok l⟩
  have hv : r.ordBack = r.again.ord.val := by
    show r.ordBack = (ordAgain r.store r.ord).val
    unfold ordBack ordAgain Ord58.val
    cases r.ord <;> rfl
  have hdata : r.readBack.get? "data" = some r.again.ord.val := by
    rw [← hv]
    unfold readBack headBack storeBack
    cases r.store <;> rfl
  have ho := ordOk_again r ok
  refine ⟨r.readBack, .inr ⟨_, _, hdata, Ord58.clean ho, (Dict.set_self hdata).symm⟩, ?_, ?_⟩
  · have hb : r.readBack.get? "binary" = some (.int r.store.flag) := by
      unfold readBack headBack storeBack Store58.flag
      cases r.store <;> rfl
    have hx : r.readBack.get? "x" = some (.arrF r.again.abscissaVals) := by
      rw [abscissa_again r ok l]
      unfold readBack headBack storeBack
      cases r.store <;> rfl
    have hot : r.readBack.get? "ord_data_type" = some (.int r.again.ordType) := by
      rw [ordType_again]
      unfold readBack headBack storeBack
      cases r.store <;> rfl
    have hord : OrdRep r.readBack r.again.ord := by
      unfold OrdRep
      cases h : r.again.ord <;> simp [hdata, h, Ord58.val]
    have hstore : StoreRep r.readBack e.little fd r.again := by
      have hs : r.again.store = r.store := rfl
      unfold StoreRep
      rw [hs]
      cases h : r.store with
      | ascii double =>
        refine ⟨⟨_, rfl, .inl ?_⟩, ?_⟩
        · unfold Dict.getOr
          rw [hb, h]; rfl
        · cases fd with
          | false => exact hot
          | true =>
            have := hd rfl
            rw [h] at this
            cases double <;> simp_all
      | binary le =>
        refine ⟨⟨_, hb, .inl ?_⟩, hl le h, fun _ => hot⟩
        rw [h]; rfl
    have hx' : HasFloatSeq r.readBack "x" r.again.abscissaVals := ⟨_, hx, isSeq_arrF' _⟩
    clear hdata hb hot ho hv hx
    refine ⟨⟨?_, ?_, ?_, ?_, ?_, ?_, ?_, ?_, ?_, ?_, ?_, ⟨.int r.rspNode, ?_, rfl⟩, ⟨.int r.rspDir, ?_, rfl⟩, ?_, ⟨.int r.refNode, ?_, rfl⟩,
      ⟨.int r.refDir, ?_, rfl⟩, ?_,
      ⟨?_, ?_, ?_, ?_, ?_, ?_⟩, ⟨?_, ?_, ?_, ?_, ?_, ?_⟩, ?_, ⟨?_, ?_, ?_, ?_, ?_, ?_⟩,
      ⟨?_, ?_, ?_, ?_, ?_, ?_⟩, ⟨_, rfl, .inl ?_⟩, hx', hord⟩, hstore⟩
    all_goals (unfold readBack headBack storeBack; cases r.store <;> rfl)
  · refine ⟨⟨ok.id1.strip (by decide), ok.id2.strip (by decide), ok.id3.strip (by decide), ok.id4.strip (by decide),
      ok.id5.strip (by decide), ok.func, ok.funcId, ok.ver, ok.load, ok.rspName.strip, ok.rspNode, ok.rspDir, ok.refName.strip,
      ok.refNode, ok.refDir, quant_finite_5 _ ok.zValue, axisOk_again ok.abscissa, axisOk_again ok.ordinate,
      axisOk_again ok.orddenom, axisOk_again ok.zAxis, ?_, ?_, ?_, l.stepFinite, ?_, ho⟩, ?_⟩
    · rw [count_again]; exact ok.pos
    · rw [count_again]; exact ok.count
    · rw [abscissa_again r ok l]; exact l.finite
    · intro _
      rw [abscissa_again r ok l, xBack_length r ok, count_again]
    · have hs : r.again.store = r.store := rfl
      have so := ok.store
      unfold StoreOk at so ⊢
      rw [hs]
      cases h : r.store with
      | ascii d => trivial
      | binary le =>
        rw [h] at so
        simp only at so ⊢
        exact fun hi => so ((payload_again r ok l le h).infix (by decide) hi)

end DS58
end Verif
