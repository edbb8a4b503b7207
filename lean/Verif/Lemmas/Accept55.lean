import Verif.Lemmas.Accept2414
import Verif.Spec.Accept55
/-
Which dictionaries the writer of data-set 55 accepts.
-/
namespace Verif
open W (JR jr_emit jr_seq jr_then jr_emit_then jr_key jr_lift jr_opt jr_guarded jr_guardedAny jr_format jr_row jr_row_then jr_forL jr_none)

variable {d : Dict}

/-- One part of a complex number. -/
theorem fj_part {acc : Dict → Res Val} {part : Val → Res Val} {P : Val → Bool} {fs : List Fld} {Q : Prop} (ha : Py (acc d))
    (hp : ∀ x, acc d = .ok x → (∃ y, part x = .ok y ∧ scalarKnown y = true ∧ floatOk y = P x) ∨ (∃ e, part x = .error e ∧ e ≠ .unmodelled ∧ P x = false))
    (h : FJ fs d Q) : FJ (⟨fun d => match acc d with
      | .error e => .error e
      | .ok v => part v, fmtEV 13 5⟩ :: fs) d ((∃ x, acc d = .ok x ∧ P x = true) ∧ Q) := by
  refine fj_cons ?_ ?_ ?_ h
  · constructor
    · rintro ⟨v, t, h1, h2⟩
      simp only at h1 h2
      cases hat : acc d with
      | error e => rw [hat] at h1; cases h1
      | ok x =>
        rw [hat] at h1
        simp only at h1
        refine ⟨x, rfl, ?_⟩
        rcases hp x hat with ⟨y, g1, g2, g3⟩ | ⟨e, g1, -, -⟩
        · rw [g1] at h1
          cases h1
          rw [← g3]
          exact ((fits_e 13 5).ok v).symm.trans (isOk_iff.2 ⟨t, h2⟩)
        · rw [g1] at h1; cases h1
    · rintro ⟨x, h1, h2⟩
      rcases hp x h1 with ⟨y, g1, g2, g3⟩ | ⟨e, -, -, g3⟩
      · obtain ⟨t, ht⟩ := isOk_iff.1 (((fits_e 13 5).ok y).trans (g3.trans h2))
        refine ⟨y, t, ?_, ht⟩
        simp only [h1, g1]
      · rw [g3] at h2; cases h2
  · simp only
    cases hat : acc d with
    | error e => rw [hat] at ha; intro h'; cases h'; exact ha rfl
    | ok x =>
      rcases hp x hat with ⟨y, g1, -⟩ | ⟨e, g1, g2, -⟩
      · simp only [g1]; exact py_ok
      · simp only [g1]; exact py_err g2
  · intro v hv
    simp only at hv
    cases hat : acc d with
    | error e => rw [hat] at hv; cases hv
    | ok x =>
      rw [hat] at hv
      simp only at hv
      rcases hp x hat with ⟨y, g1, g2, -⟩ | ⟨e, g1, -, -⟩
      · rw [g1] at hv
        cases hv
        exact (fits_e 13 5).py _ g2
      · rw [g1] at hv; cases hv

theorem fj_parts {acc : Dict → Res Val} {fs : List Fld} {Q : Prop} (ha : Py (acc d)) (hx : ∀ x, acc d = .ok x → single x = true) (h : FJ fs d Q) :
    FJ (.re 13 5 acc :: .im 13 5 acc :: fs) d ((∃ x, acc d = .ok x ∧ numberOk x = true) ∧ Q) := by
  have h2 := fj_part (part := Val.im) (P := numberKnown) ha ?_ h
  · have h1 := fj_part (part := Val.re) (P := numberOk) ha ?_ h2
    · have e : ((∃ x, acc d = .ok x ∧ numberOk x = true) ∧ Q) = ((∃ x, acc d = .ok x ∧ numberOk x = true) ∧ (∃ x, acc d = .ok x ∧ numberKnown x = true) ∧ Q) := by
        refine propext ⟨fun ⟨⟨x, a, b⟩, c⟩ => ⟨⟨x, a, b⟩, ⟨x, a, ?_⟩, c⟩, fun ⟨a, _, c⟩ => ⟨a, c⟩⟩
        cases x <;> first | rfl | cases b
      rw [e]
      exact h1
    · intro x h
      have h := hx x h
      cases x with
      | int n => exact .inl ⟨_, rfl, rfl, rfl⟩
      | bool b => exact .inl ⟨_, rfl, rfl, by cases b <;> decide +kernel⟩
      | float x => exact .inl ⟨_, rfl, rfl, rfl⟩
      | cplx x y => exact .inl ⟨_, rfl, rfl, rfl⟩
      | str s => exact .inr ⟨_, rfl, by decide, rfl⟩
      | none => exact .inr ⟨_, rfl, by decide, rfl⟩
      | dict s => exact .inr ⟨_, rfl, by decide, rfl⟩
      | _ => cases h
  · intro x h
    have h := hx x h
    cases x with
    | int n => exact .inl ⟨_, rfl, rfl, show floatOk (.int 0) = true by decide +kernel⟩
    | bool b => exact .inl ⟨_, rfl, rfl, show floatOk (.int 0) = true by decide +kernel⟩
    | float x => exact .inl ⟨_, rfl, rfl, rfl⟩
    | cplx x y => exact .inl ⟨_, rfl, rfl, rfl⟩
    | str s => exact .inr ⟨_, rfl, by decide, rfl⟩
    | none => exact .inr ⟨_, rfl, by decide, rfl⟩
    | dict s => exact .inr ⟨_, rfl, by decide, rfl⟩
    | _ => cases h

theorem complex_eq {r : Val} (h : ∀ l, r = .list l → ∀ x ∈ l, single x = true ∧ ∀ g, x ≠ .dict g) : r.isComplexObj = .ok (complexData r) := by
  cases r with
  | list l =>
    have hf : l.all Val.isFlat = true := by
      rw [List.all_eq_true]
      intro x hx
      obtain ⟨h1, h2⟩ := h l rfl x hx
      cases x with
      | dict g => exact absurd rfl (h2 g)
      | _ => first | rfl | cases h1
    have e1 : Val.isCplx = fun x => match x with
      | .cplx _ _ => true
      | _ => false := by
      funext x; cases x <;> rfl
    have e2 : Val.isNumber = fun x => match x with
      | .bool _ | .float _ | .cplx _ _ => true
      | .int n => decide (-(2 ^ 63) ≤ n ∧ n < 2 ^ 64)
      | _ => false := by
      funext x; cases x <;> rfl
    unfold Val.isComplexObj complexData
    simp only
    rw [if_pos hf, e1, e2]
    rfl
  | _ => rfl

theorem fj_itemF {k : String} {i : Nat} {fs : List Fld} {Q : Prop} (hk : ∀ v x, d.get? (.s k) = some v → v.idx i = .ok x → scalarKnown x = true)
    (h : FJ fs d Q) : FJ (⟨Fld.at_ (.s k) i, fmtEV 13 5⟩ :: fs) d (itemP floatOk d i k = true ∧ Q) := by
  refine fj_cons ?_ (py_at d (.s k) i) (fun x hx => ?_) h
  · rw [itemP_iff]
    constructor
    · rintro ⟨v, t, h1, h2⟩
      exact ⟨v, h1, ((fits_e 13 5).ok v).symm.trans (isOk_iff.2 ⟨t, h2⟩)⟩
    · rintro ⟨v, h1, h2⟩
      obtain ⟨t, ht⟩ := isOk_iff.1 (((fits_e 13 5).ok v).trans h2)
      exact ⟨v, t, h1, ht⟩
  · obtain ⟨v, h1, h2⟩ := at_ok.1 hx
    exact (fits_e 13 5).py x (hk v x h1 h2)

theorem fj_itemC {k : String} {i : Nat} {fs : List Fld} {Q : Prop} (hk : ∀ v x, d.get? (.s k) = some v → v.idx i = .ok x → single x = true)
    (h : FJ fs d Q) : FJ (.re 13 5 (Fld.at_ (.s k) i) :: .im 13 5 (Fld.at_ (.s k) i) :: fs) d (itemP numberOk d i k = true ∧ Q) := by
  rw [itemP_iff]
  refine fj_parts (py_at d (.s k) i) (fun x hx => ?_) h
  obtain ⟨v, h1, h2⟩ := at_ok.1 hx
  exact hk v x h1 h2

/-- What is known about the values. -/
structure KnownV (d : Dict) : Prop where
  flat : ∀ l, d.get? "r1" = some (.list l) → ∀ x ∈ l, single x = true ∧ ∀ g, x ≠ .dict g
  nodes : ∀ v, d.get? "node_nums" = some v → (∀ g, v ≠ .dict g) ∧ ∀ i x, v.idx i = .ok x → scalarKnown x = true
  values : ∀ r, d.get? "r1" = some r → ∀ k ∈ ["r1", "r2", "r3", "r4", "r5", "r6"], ∀ v i x, d.get? (.s k) = some v → v.idx i = .ok x →
    (if complexData r then single x else scalarKnown x) = true

theorem jr_vals55 (hk : KnownV d) {r : Val} (hr : d.get? "r1" = some r) (i : Nat) :
    JR (W.row [⟨Fld.at_ "node_nums" i, fmtI 10⟩] >>= fun _ => W.row (vals55 (complexData r) (sixValues d) i)) d (nodeOk d r i = true) := by
  have hI : KnownI d [("node_nums", .int)] := by
    intro p hp v j x hv hx
    rw [List.mem_singleton.1 hp] at hv ⊢
    exact (hk.nodes v hv).2 j x hx
  have hv := hk.values r hr
  unfold nodeOk
  rw [Bool.and_eq_true]
  refine JR.iff (jr_row_then (Q := (if complexData r then ["r1", "r2", "r3"].all (itemP numberOk d i)
    else (if sixValues d then ["r1", "r2", "r3", "r4", "r5", "r6"] else ["r1", "r2", "r3"]).all (itemP floatOk d i)) = true)
    (fj_at hI (k := "node_nums") (fits_i 10) (by simp) fj_nil) ?_) (by rw [and_true])
  unfold vals55
  split
  · rename_i hc
    rw [hc] at hv
    have hs : ∀ k ∈ ["r1", "r2", "r3", "r4", "r5", "r6"], ∀ v x, d.get? (.s k) = some v → v.idx i = .ok x → single x = true :=
      fun k hm v x h1 h2 => hv k hm v i x h1 h2
    refine JR.iff (jr_row (fj_itemC (hs "r1" (by simp)) (fj_itemC (hs "r2" (by simp)) (fj_itemC (hs "r3" (by simp)) fj_nil)))) ?_
    simp
  · rename_i hc
    rw [Bool.not_eq_true] at hc
    rw [hc] at hv
    have hs : ∀ k ∈ ["r1", "r2", "r3", "r4", "r5", "r6"], ∀ v x, d.get? (.s k) = some v → v.idx i = .ok x → scalarKnown x = true :=
      fun k hm v x h1 h2 => hv k hm v i x h1 h2
    split
    · refine JR.iff (jr_row (fj_itemF (hs "r1" (by simp)) (fj_itemF (hs "r2" (by simp)) (fj_itemF (hs "r3" (by simp)) (fj_itemF (hs "r4" (by simp))
        (fj_itemF (hs "r5" (by simp)) (fj_itemF (hs "r6" (by simp)) fj_nil))))))) ?_
      simp
    · refine JR.iff (jr_row (fj_itemF (hs "r1" (by simp)) (fj_itemF (hs "r2" (by simp)) (fj_itemF (hs "r3" (by simp)) fj_nil)))) ?_
      simp

/-- What follows the defaults. -/
def rest55 (an : Option An55) : W Unit := do
  let d ← W.getDict
  let six := d.has "r4" && d.has "r5" && d.has "r6"
  let r1 ← W.key "r1"
  let cplx ← W.lift r1.isComplexObj
  W.emit (headText 55)
  W.row [.sl 80 "id1"]
  W.row [.sl 80 "id2"]
  W.row [.sl 80 "id3"]
  W.row [.sl 80 "id4"]
  W.row [.sl 80 "id5"]
  W.row [.i 10 "model_type", .i 10 "analysis_type", .i 10 "data_ch", .i 10 "spec_data_type",
    .c (fmtI 10) (.int (if cplx then 5 else 2)), .c (fmtI 10) (.int (if six then 6 else 3))]
  head55 an
  let ns ← W.key "node_nums"
  let n ← W.lift ns.len
  W.forL (List.range n) fun k => do
    W.row [⟨Fld.at_ "node_nums" k, fmtI 10⟩]
    W.row (vals55 cplx six k)
  W.emit tailText

theorem write55_rest : write55 = W.guarded 55 (W.opt opt55 >>= fun _ => W.key "analysis_type" >>= fun a => W.lift (an55 a) >>= fun an => prep55 an >>= fun _ => rest55 an) := rfl

/-- The entries of all analysis types but the case. -/
def headFirst : List (String × EntryKind × Bool) := [("id1", .text, true), ("id2", .text, true), ("id3", .text, true), ("id4", .text, true), ("id5", .text, true),
  ("model_type", .int, true), ("analysis_type", .int, false), ("data_ch", .int, false), ("spec_data_type", .int, false)]

/-- The entries of data at nodes with their kinds. -/
def kinds55 : List (String × EntryKind) := (headNodes ++ headNormal ++ headStep ++ headComplex).map fun f => (f.1, f.2.1)

theorem jr_rest {an : Option An55} {H : Prop} (hE : KnownE d kinds55) (hk : KnownV d) (hkeep : ((head55 an) d).dict = d) (hh : JR (head55 an) d H) :
    JR (rest55 an) d ((headFirst.all fun f => entryOk d (f.1, f.2.1, false)) = true ∧ H ∧ nodesOk d = true) := by
  have loop : ∀ r, d.get? "r1" = some r → JR (W.key "node_nums" >>= fun ns => W.lift ns.len >>= fun n => (W.forL (List.range n) fun k =>
      W.row [⟨Fld.at_ "node_nums" k, fmtI 10⟩] >>= fun _ => W.row (vals55 (complexData r) (sixValues d) k)) >>= fun _ => W.emit tailText) d (nodesOk d = true) := by
    intro r hr
    refine JR.iff (jr_key (R := fun v => ∃ n, v.len = .ok n ∧ ∀ i ∈ List.range n, nodeOk d r i = true) fun v hv => jr_lift (py_len v) fun n hn =>
      jr_loop (fun i => W.keeps_bind W.pre_eq (W.keeps_row W.pre_eq _) fun _ => W.keeps_row W.pre_eq _) fun i => jr_vals55 hk hr i) ?_
    unfold nodesOk
    rw [hr]
    simp only
    cases d.get? "node_nums" with
    | none => simp
    | some v =>
      simp only [Option.some.injEq, exists_eq_left']
      cases v.len <;> simp [List.all_eq_true]
  have head : ∀ r, d.get? "r1" = some r → JR (W.emit (headText 55) >>= fun _ => W.row [.sl 80 "id1"] >>= fun _ => W.row [.sl 80 "id2"] >>= fun _ =>
      W.row [.sl 80 "id3"] >>= fun _ => W.row [.sl 80 "id4"] >>= fun _ => W.row [.sl 80 "id5"] >>= fun _ =>
      W.row [.i 10 "model_type", .i 10 "analysis_type", .i 10 "data_ch", .i 10 "spec_data_type",
        .c (fmtI 10) (.int (if complexData r then 5 else 2)), .c (fmtI 10) (.int (if sixValues d then 6 else 3))] >>= fun _ =>
      head55 an >>= fun _ => W.key "node_nums" >>= fun ns => W.lift ns.len >>= fun n => (W.forL (List.range n) fun k =>
      W.row [⟨Fld.at_ "node_nums" k, fmtI 10⟩] >>= fun _ => W.row (vals55 (complexData r) (sixValues d) k)) >>= fun _ => W.emit tailText) d
      ((headFirst.all fun f => entryOk d (f.1, f.2.1, false)) = true ∧ H ∧ nodesOk d = true) := by
    intro r hr
    apply JR.iff
    · exact jr_emit_then (jr_row_then (fj_sl hE (of_decide_eq_true rfl) fj_nil) (jr_row_then (fj_sl hE (of_decide_eq_true rfl) fj_nil)
        (jr_row_then (fj_sl hE (of_decide_eq_true rfl) fj_nil) (jr_row_then (fj_sl hE (of_decide_eq_true rfl) fj_nil) (jr_row_then (fj_sl hE (of_decide_eq_true rfl) fj_nil)
        (jr_row_then (fj_i hE (of_decide_eq_true rfl) (fj_i hE (of_decide_eq_true rfl) (fj_i hE (of_decide_eq_true rfl) (fj_i hE (of_decide_eq_true rfl)
          (fj_c rfl (fj_c rfl fj_nil)))))) (jr_then hkeep hh (loop r hr))))))))
    · simp only [Bool.and_eq_true, headFirst, List.all_cons, List.all_nil, and_true, and_assoc]
  unfold rest55
  refine JR.iff (jr_seq (m := W.getDict) (R := fun _ => (headFirst.all fun f => entryOk d (f.1, f.2.1, false)) = true ∧ H ∧ nodesOk d = true) rfl py_ok fun d' hd' => ?_)
    ⟨fun ⟨_, _, h⟩ => h, fun h => ⟨d, rfl, h⟩⟩
  cases hd'
  refine JR.iff (jr_key (R := fun r => ∃ c, r.isComplexObj = .ok c ∧ (headFirst.all fun f => entryOk d (f.1, f.2.1, false)) = true ∧ H ∧ nodesOk d = true)
    fun r hr => jr_lift ?_ fun c hc => ?_) ?_
  · rw [complex_eq (fun l hl => hk.flat l (hl ▸ hr))]
    exact py_ok
  · rw [complex_eq (fun l hl => hk.flat l (hl ▸ hr))] at hc
    cases hc
    exact head r hr
  · constructor
    · rintro ⟨_, _, _, _, h⟩
      exact h
    · intro h
      cases hr : d.get? "r1" with
      | none =>
        have h3 := h.2.2
        unfold nodesOk at h3
        rw [hr] at h3
        cases h3
      | some r => exact ⟨r, rfl, _, complex_eq (fun l hl => hk.flat l (hl ▸ hr)), h⟩

theorem plus_of {v : Val} {x : F64} (h : v.toFloat = .ok x) (hs : single v = true) : v.plusZeroJ = .ok (.cplx (addZeroJ x).1 (addZeroJ x).2) := by
  unfold Val.plusZeroJ
  split
  · cases hs
  · cases hs
  · cases hs
  · rw [h]
theorem plus_float (x : F64) : ∃ c : F64 × F64, (Val.float x).plusZeroJ = .ok (.cplx c.1 c.2) := ⟨_, plus_of rfl rfl⟩
theorem plus_bool (b : Bool) : ∃ c : F64 × F64, (Val.bool b).plusZeroJ = .ok (.cplx c.1 c.2) := ⟨_, plus_of rfl rfl⟩
theorem plus_err {v : Val} {e : Err} (h : v.toFloat = .error e) (hs : single v = true) : v.plusZeroJ = .error e := by
  unfold Val.plusZeroJ
  split
  · cases hs
  · cases hs
  · cases hs
  · rw [h]
theorem plus_int (n : Int) : (∃ c : F64 × F64, numberOk (.int n) = true ∧ (Val.int n).plusZeroJ = .ok (.cplx c.1 c.2)) ∨
    (numberOk (.int n) = false ∧ (Val.int n).plusZeroJ = .error .overflow) := by
  by_cases hf : (F64.ofInt n).finite = true
  · refine .inl ⟨_, hf, plus_of (x := F64.ofInt n) ?_ rfl⟩
    unfold Val.toFloat
    exact if_pos hf
  · refine .inr ⟨by rw [Bool.not_eq_true] at hf; exact hf, plus_err ?_ rfl⟩
    unfold Val.toFloat
    exact if_neg hf

/-- The conversion to complex numbers. -/
theorem mk_run {k : String} {v : Val} (hv : d.get? (.s k) = some v) (hs : single v = true) :
    (numberOk v = true ∧ (makeComplex (.s k) d).res = .ok () ∧ (∃ x y, (makeComplex (.s k) d).dict.get? (.s k) = some (.cplx x y)) ∧
      ∀ q, q ≠ .s k → (makeComplex (.s k) d).dict.get? q = d.get? q) ∨
    (numberOk v = false ∧ ∃ e, (makeComplex (.s k) d).res = .error e ∧ e ≠ .unmodelled) := by
  have hg : d.get (.s k) = .ok v := getRes_ok.2 hv
  have good : ∀ c : F64 × F64, v.isComplexObj = .ok false → v.plusZeroJ = .ok (.cplx c.1 c.2) →
      (makeComplex (.s k) d).res = .ok () ∧ (∃ x y, (makeComplex (.s k) d).dict.get? (.s k) = some (.cplx x y)) ∧
      ∀ q, q ≠ .s k → (makeComplex (.s k) d).dict.get? q = d.get? q := by
    intro c h1 h2
    have e : makeComplex (.s k) d = ⟨[], d.set (.s k) (.cplx c.1 c.2), .ok ()⟩ := by
      simp [makeComplex, W.bind, W.key, hg, W.lift, h1, W.when, h2, W.put]
    rw [e]
    exact ⟨rfl, ⟨_, _, Dict.get?_set_self _ _ _⟩, fun q hq => Dict.get?_set_ne _ _ _ _ hq.symm⟩
  have bad : ∀ x, v.isComplexObj = .ok false → v.plusZeroJ = .error x → (makeComplex (.s k) d).res = .error x := by
    intro x h1 h2
    simp [makeComplex, W.bind, W.key, hg, W.lift, h1, W.when, h2]
  cases v with
  | int n =>
    rcases plus_int n with ⟨c, h1, h2⟩ | ⟨h1, h2⟩
    · exact .inl ⟨h1, good c rfl h2⟩
    · exact .inr ⟨h1, .overflow, bad _ rfl h2, by decide⟩
  | bool b =>
    obtain ⟨c, h⟩ := plus_bool b
    exact .inl ⟨rfl, good c rfl h⟩
  | float x =>
    obtain ⟨c, h⟩ := plus_float x
    exact .inl ⟨rfl, good c rfl h⟩
  | cplx x y =>
    have e : makeComplex (.s k) d = ⟨[], d, .ok ()⟩ := by
      simp [makeComplex, W.bind, W.key, hg, W.lift, Val.isComplexObj, W.when, W.pure]
    refine .inl ⟨rfl, ?_⟩
    rw [e]
    exact ⟨rfl, ⟨x, y, hv⟩, fun _ _ => rfl⟩
  | str s => exact .inr ⟨rfl, _, bad .type rfl rfl, by decide⟩
  | none => exact .inr ⟨rfl, _, bad .type rfl rfl, by decide⟩
  | dict g => exact .inr ⟨rfl, _, bad .type rfl rfl, by decide⟩
  | _ => cases hs

theorem known_agree {D : Dict} (hk : Known55 d) (h : ∀ k ∈ ["r1", "r2", "r3", "r4", "r5", "r6", "node_nums"], D.get? (.s k) = d.get? (.s k)) : KnownV D := by
  have h1 := h "r1" (by simp)
  have hn := h "node_nums" (by simp)
  refine ⟨fun l hl => hk.flat l (h1 ▸ hl), fun v hv => hk.nodes v (hn ▸ hv), fun r hr k hm v i x hv hx => hk.values r (h1 ▸ hr) k hm v i x ?_ hx⟩
  rw [← h k (by simp only [List.mem_cons, List.not_mem_nil, or_false] at hm ⊢; tauto)]
  exact hv

theorem nodes_agree {D : Dict} (h : ∀ k ∈ ["r1", "r2", "r3", "r4", "r5", "r6", "node_nums"], D.get? (.s k) = d.get? (.s k)) : nodesOk D = nodesOk d := by
  have hi : ∀ {P : Val → Bool} {i : Nat} {k : String}, k ∈ ["r1", "r2", "r3", "r4", "r5", "r6", "node_nums"] → itemP P D i k = itemP P d i k := by
    intro P i k hk
    unfold itemP
    rw [h k hk]
  have h6 : sixValues D = sixValues d := by
    unfold sixValues
    rw [h "r4" (by simp), h "r5" (by simp), h "r6" (by simp)]
  have hN : nodeOk D = nodeOk d := by
    funext r i
    have e : itemOk D i ("node_nums", .int, false) = itemOk d i ("node_nums", .int, false) := by
      unfold itemOk
      rw [h "node_nums" (by simp)]
    unfold nodeOk
    rw [e, h6]
    congr 1
    split
    · simp only [List.all_cons, List.all_nil, hi (k := "r1") (by simp), hi (k := "r2") (by simp), hi (k := "r3") (by simp)]
    split
    · simp only [List.all_cons, List.all_nil, hi (k := "r1") (by simp), hi (k := "r2") (by simp), hi (k := "r3") (by simp), hi (k := "r4") (by simp),
        hi (k := "r5") (by simp), hi (k := "r6") (by simp)]
    · simp only [List.all_cons, List.all_nil, hi (k := "r1") (by simp), hi (k := "r2") (by simp), hi (k := "r3") (by simp)]
  unfold nodesOk
  rw [h "r1" (by simp), h "node_nums" (by simp), hN]

theorem an_of {v : Val} (hv : d.get? "analysis_type" = some v) (hs : scalarKnown v = true) :
    an55 v = .ok (if entryIs d "analysis_type" 2 then some .normal else if entryIs d "analysis_type" 3 || entryIs d "analysis_type" 7 then some .cmplx
      else if entryIs d "analysis_type" 5 then some .frf else none) := by
  rw [← entryIs_of hv hs, ← entryIs_of hv hs, ← entryIs_of hv hs, ← entryIs_of hv hs]
  unfold an55
  cases v with
  | arrI l => cases hs
  | arrF l => cases hs
  | arrC l => cases hs
  | mat l => cases hs
  | _ => simp only; split <;> [rfl; split <;> [rfl; split <;> rfl]]

theorem opt_other {os : List (Key × Val)} {k : String} (h : Dict.get? os (.s k) = Option.none) : (optFields d os).get? (.s k) = d.get? (.s k) := by
  rw [get?_optFields, h, Option.or_none]

/-- The keys of the values. -/
def valueKeys : List String := ["r1", "r2", "r3", "r4", "r5", "r6", "node_nums"]

theorem values_opt {os : List (Key × Val)} (h : (valueKeys.all fun k => (Dict.get? os (.s k)).isNone) = true) :
    ∀ k ∈ valueKeys, (optFields d os).get? (.s k) = d.get? (.s k) :=
  fun k hk => opt_other (Option.isNone_iff_eq_none.1 (List.all_eq_true.1 h k hk))

theorem known_opt' {os : List (Key × Val)} {F : List (String × EntryKind × Bool)} (h : (F.all fun f => match Dict.get? os (.s f.1) with
      | none => true
      | some v => f.2.1.known v) = true) (hk : ∀ f ∈ F, ∀ v, d.get? (.s f.1) = some v → f.2.1.known v = true) :
    KnownE (optFields d os) (F.map fun f => (f.1, f.2.1)) := by
  intro p hp v hv
  obtain ⟨f, hf, rfl⟩ := List.mem_map.1 hp
  simp only [get?_optFields] at hv
  cases hd : d.get? (.s f.1) with
  | some u =>
    rw [hd, Option.some_or] at hv
    cases hv
    exact hk f hf _ hd
  | none =>
    rw [hd, Option.none_or] at hv
    have := List.all_eq_true.1 h f hf
    rw [hv] at this
    exact this

theorem keep_rows {a b : List Fld} : ((W.row a >>= fun _ => W.row b) d).dict = d :=
  (W.Keeps.run (W.keeps_bind W.pre_eq (W.keeps_row W.pre_eq a) fun _ => W.keeps_row W.pre_eq b) d).symm

theorem part_opt {k : String} {v : Val} (hv : (optFields d (opt55 ++ opt55c)).get? (.s k) = some v) (ho : Dict.get? (opt55 ++ opt55c) (.s k) = some (.cplx F64.zero F64.zero)) :
    partOk d k true = numberOk v := by
  rw [get?_optFields, ho] at hv
  unfold partOk
  cases hd : d.get? (.s k) with
  | none => rw [hd] at hv; cases hv; rfl
  | some u => rw [hd] at hv; cases hv; rfl

/-- Defaults and conversion of complex modes. -/
theorem prep_run {d1 : Dict} {va vb : Val} (ha : (optFields d1 opt55c).get? "modal_a" = some va) (hb : (optFields d1 opt55c).get? "modal_b" = some vb)
    (sa : single va = true) (sb : single vb = true) :
    (numberOk va = true ∧ numberOk vb = true ∧ (prep55 (some .cmplx) d1).res = .ok () ∧
      (∃ x y, (prep55 (some .cmplx) d1).dict.get? "modal_a" = some (.cplx x y)) ∧ (∃ x y, (prep55 (some .cmplx) d1).dict.get? "modal_b" = some (.cplx x y)) ∧
      ∀ q, q ≠ .s "modal_a" → q ≠ .s "modal_b" → (prep55 (some .cmplx) d1).dict.get? q = (optFields d1 opt55c).get? q) ∨
    ((numberOk va && numberOk vb) = false ∧ ∃ e, (prep55 (some .cmplx) d1).res = .error e ∧ e ≠ .unmodelled) := by
  have hr : (prep55 (some .cmplx) d1).res = (W.bind (makeComplex "modal_a") (fun _ => makeComplex "modal_b") (optFields d1 opt55c)).res := by
    show (W.bind (W.opt opt55c) _ d1).res = _
    rw [W.bind_res]
    rfl
  have hd : (prep55 (some .cmplx) d1).dict = (W.bind (makeComplex "modal_a") (fun _ => makeComplex "modal_b") (optFields d1 opt55c)).dict := by
    show (W.bind (W.opt opt55c) _ d1).dict = _
    rw [W.bind_dict]
    rfl
  rw [hr, hd, W.bind_res, W.bind_dict]
  generalize optFields d1 opt55c = D at ha hb ⊢
  rcases mk_run ha sa with ⟨h1, h2, ⟨x, y, h3⟩, h4⟩ | ⟨h1, e, h2, h3⟩
  · rw [h2]
    simp only
    have hb' := (h4 "modal_b" (by decide)).trans hb
    rcases mk_run hb' sb with ⟨g1, g2, g3, g4⟩ | ⟨g1, e, g2, g3⟩
    · exact .inl ⟨h1, g1, g2, ⟨x, y, (g4 _ (by decide)).trans h3⟩, g3, fun q q1 q2 => (g4 q q2).trans (h4 q q1)⟩
    · exact .inr ⟨by rw [g1, Bool.and_false], e, g2, g3⟩
  · rw [h2]
    exact .inr ⟨by rw [h1, Bool.false_and], e, rfl, h3⟩

theorem arrange {A L M E N B C : Prop} (h : B ∧ C ↔ A ∧ L ∧ M) : (A ∧ L ∧ M ∧ E ∧ N) ↔ (B ∧ N ∧ C ∧ E) := by tauto

set_option maxHeartbeats 1000000 in
theorem accept_cmplx (hk : Known55 d) : JR (prep55 (some .cmplx) >>= fun _ => rest55 (some .cmplx)) (optFields d opt55)
    ((headNodes.all (entryOk d) && (nodesOk d && (headComplex.all (entryOk d) && (partOk d "eig" false && (partOk d "modal_a" true && partOk d "modal_b" true))))) = true) := by
  have happ : optFields (optFields d opt55) opt55c = optFields d (opt55 ++ opt55c) := (optFields_append _ _ _).symm
  have hE : KnownE (optFields d (opt55 ++ opt55c)) kinds55 := known_opt' (by decide +kernel) hk.entries
  have hV := values_opt (d := d) (os := opt55 ++ opt55c) (by decide +kernel)
  have heig := opt_other (d := d) (os := opt55 ++ opt55c) (k := "eig") (by decide +kernel)
  have hent := entries_opt (d := d) (os := opt55 ++ opt55c) (F := headNodes ++ headComplex) (by decide +kernel)
  have there : ∀ {k : String}, k ∈ ["modal_a", "modal_b"] → Dict.get? (opt55 ++ opt55c) (.s k) = some (.cplx F64.zero F64.zero) →
      ∃ v, (optFields d (opt55 ++ opt55c)).get? (.s k) = some v ∧ single v = true ∧ partOk d k true = numberOk v := by
    intro k hm ho
    cases hd : d.get? (.s k) with
    | some v =>
      have hv : (optFields d (opt55 ++ opt55c)).get? (.s k) = some v := by rw [get?_optFields, hd]; rfl
      exact ⟨v, hv, hk.parts k (List.mem_cons_of_mem _ hm) v hd, part_opt hv ho⟩
    | none =>
      have hv : (optFields d (opt55 ++ opt55c)).get? (.s k) = some (.cplx F64.zero F64.zero) := by rw [get?_optFields, hd, ho]; rfl
      exact ⟨_, hv, rfl, part_opt hv ho⟩
  obtain ⟨va, ha, sa, pa⟩ := there (k := "modal_a") (by simp) (by rfl)
  obtain ⟨vb, hb, sb, pb⟩ := there (k := "modal_b") (by simp) (by rfl)
  rw [pa, pb]
  rw [← happ] at ha hb
  have hrun := prep_run ha hb sa sb
  rw [happ] at hrun
  generalize optFields d (opt55 ++ opt55c) = D at hE hV heig hent hrun
  rcases hrun with ⟨h1, h2, h3, ⟨x, y, h4⟩, ⟨x', y', h5⟩, h6⟩ | ⟨h1, e, h2, h3⟩
  · have key : JR (rest55 (some .cmplx)) (prep55 (some .cmplx) (optFields d opt55)).dict
        ((headNodes.all (entryOk d) && (nodesOk d && (headComplex.all (entryOk d) && (partOk d "eig" false && (numberOk va && numberOk vb))))) = true) := by
      generalize (prep55 (some .cmplx) (optFields d opt55)).dict = D' at h4 h5 h6
      have hE' : KnownE D' kinds55 := by
        intro p hp v hv
        refine hE p hp v ?_
        have hne : p.1 ≠ "modal_a" ∧ p.1 ≠ "modal_b" := by
          have all : (kinds55.all fun p => decide (p.1 ≠ "modal_a" ∧ p.1 ≠ "modal_b")) = true := by decide +kernel
          exact of_decide_eq_true (List.all_eq_true.1 all p hp)
        rw [← h6 (.s p.1) (by simpa using hne.1) (by simpa using hne.2)]
        exact hv
      have hV' : ∀ k ∈ valueKeys, D'.get? (.s k) = d.get? (.s k) := by
        intro k hk'
        rw [h6, hV k hk']
        · have all : (valueKeys.all fun k => decide (k ≠ "modal_a")) = true := by decide +kernel
          simpa using of_decide_eq_true (List.all_eq_true.1 all k hk')
        · have all : (valueKeys.all fun k => decide (k ≠ "modal_b")) = true := by decide +kernel
          simpa using of_decide_eq_true (List.all_eq_true.1 all k hk')
      have heig' : D'.get? "eig" = d.get? "eig" := (h6 _ (by decide) (by decide)).trans heig
      have hs : ∀ {k : String}, (k, EntryKind.int) ∈ kinds55 → (entryOk D' (k, .int, false) = true ↔ entryOk D (k, .int, false) = true) := by
        intro k hm
        have hne : k ≠ "modal_a" ∧ k ≠ "modal_b" := by
          have all : (kinds55.all fun p => decide (p.1 ≠ "modal_a" ∧ p.1 ≠ "modal_b")) = true := by decide +kernel
          exact of_decide_eq_true (List.all_eq_true.1 all _ hm)
        unfold entryOk
        rw [h6 (.s k) (by simpa using hne.1) (by simpa using hne.2)]
      have hh := jr_row_then (f := fun _ => W.row [.re 13 5 (·.get "eig"), .im 13 5 (·.get "eig"), .re 13 5 (·.get "modal_a"), .im 13 5 (·.get "modal_a"),
        .re 13 5 (·.get "modal_b"), .im 13 5 (·.get "modal_b")]) (fj_c (d := D') (fmt := fmtI 10) (v := .int 2) rfl (fj_c (fmt := fmtI 10) (v := .int 6) rfl
        (fj_i hE' (w := 10) (k := "load_case") (of_decide_eq_true rfl) (fj_i hE' (w := 10) (k := "mode_n") (of_decide_eq_true rfl) fj_nil))))
        (jr_row (fj_parts (acc := (·.get "eig")) (py_get D' _) (fun x hx => hk.parts "eig" (by simp) x (heig' ▸ getRes_ok.1 hx))
          (fj_parts (acc := (·.get "modal_a")) (py_get D' _) (fun x hx => by have := getRes_ok.1 hx; rw [h4] at this; cases this; rfl)
          (fj_parts (acc := (·.get "modal_b")) (py_get D' _) (fun x hx => by have := getRes_ok.1 hx; rw [h5] at this; cases this; rfl) fj_nil))))
      refine JR.iff (jr_rest (an := some .cmplx) hE' (known_agree hk hV') keep_rows hh) ?_
      rw [nodes_agree hV', h1, h2]
      have e1 : (headFirst.all fun f => entryOk D' (f.1, f.2.1, false)) = headFirst.all fun f => entryOk D (f.1, f.2.1, false) := by
        rw [Bool.eq_iff_iff, List.all_eq_true, List.all_eq_true]
        refine forall₂_congr fun f hf => ?_
        have hne : f.1 ≠ "modal_a" ∧ f.1 ≠ "modal_b" := by
          have all : (headFirst.all fun f => decide (f.1 ≠ "modal_a" ∧ f.1 ≠ "modal_b")) = true := by decide +kernel
          exact of_decide_eq_true (List.all_eq_true.1 all _ hf)
        unfold entryOk
        rw [h6 (.s f.1) (by simpa using hne.1) (by simpa using hne.2)]
      have e2 : (∃ x, D'.get (.s "eig") = .ok x ∧ numberOk x = true) ↔ partOk d "eig" false = true := by
        unfold partOk
        constructor
        · rintro ⟨x, g1, g2⟩
          rw [← heig', getRes_ok.1 g1]
          exact g2
        · intro g
          cases hd : d.get? (.s "eig") with
          | none => rw [hd] at g; cases g
          | some v => rw [hd] at g; exact ⟨v, getRes_ok.2 (heig'.trans hd), g⟩
      have e3 : (∃ x, D'.get (.s "modal_a") = .ok x ∧ numberOk x = true) := ⟨_, getRes_ok.2 h4, rfl⟩
      have e4 : (∃ x, D'.get (.s "modal_b") = .ok x ∧ numberOk x = true) := ⟨_, getRes_ok.2 h5, rfl⟩
      have e5 : headNodes.all (entryOk d) = true ∧ headComplex.all (entryOk d) = true ↔ (headFirst.all fun f => entryOk D (f.1, f.2.1, false)) = true ∧
          entryOk D ("load_case", .int, false) = true ∧ entryOk D ("mode_n", .int, false) = true := by
        rw [← Bool.and_eq_true, ← List.all_append, hent]
        simp only [headNodes, headComplex, headFirst, List.cons_append, List.nil_append, Bool.and_eq_true, List.all_cons, List.all_nil, and_true, and_assoc]
      rw [e1, e2, hs (of_decide_eq_true rfl), hs (of_decide_eq_true rfl)]
      simp only [Bool.and_eq_true, e3, e4, and_true, and_assoc]
      exact arrange e5
    constructor
    · show (W.bind _ _ _).res.isOk = true ↔ _
      rw [W.bind_res, h3]
      exact key.ok
    · show Py (W.bind _ _ _).res
      rw [W.bind_res, h3]
      exact key.py
  · have hb : (W.bind (prep55 (some .cmplx)) (fun _ => rest55 (some .cmplx)) (optFields d opt55)).res = .error e := by
      rw [W.bind_res, h2]
    constructor
    · show (W.bind _ _ _).res.isOk = true ↔ _
      rw [hb, h1]
      simp [Except.isOk, Except.toBool]
    · show Py (W.bind _ _ _).res
      rw [hb]
      exact py_err h3

theorem arrange2 {A L N B C : Prop} (h : B ∧ C ↔ A ∧ L) : (A ∧ L ∧ N) ↔ (B ∧ N ∧ C) := by tauto

theorem accept_normal (hk : Known55 d) : JR (prep55 (some .normal) >>= fun _ => rest55 (some .normal)) (optFields d opt55)
    ((headNodes.all (entryOk d) && (nodesOk d && headNormal.all (entryOk d))) = true) := by
  refine jr_opt ?_
  rw [← optFields_append]
  have hE : KnownE (optFields d (opt55 ++ opt55n)) kinds55 := known_opt' (by decide +kernel) hk.entries
  have hV := values_opt (d := d) (os := opt55 ++ opt55n) (by decide +kernel)
  have hent := entries_opt (d := d) (os := opt55 ++ opt55n) (F := headNodes ++ headNormal) (by decide +kernel)
  generalize optFields d (opt55 ++ opt55n) = D at hE hV hent ⊢
  have hh := jr_row_then (f := fun _ => W.row [.e 13 5 "freq", .e 13 5 "modal_m", .e 13 5 "modal_damp_vis", .e 13 5 "modal_damp_his"])
    (fj_c (d := D) (fmt := fmtI 10) (v := .int 2) rfl (fj_c (fmt := fmtI 10) (v := .int 4) rfl
      (fj_i hE (w := 10) (k := "load_case") (of_decide_eq_true rfl) (fj_i hE (w := 10) (k := "mode_n") (of_decide_eq_true rfl) fj_nil))))
    (jr_row (fj_e hE (of_decide_eq_true rfl) (fj_e hE (of_decide_eq_true rfl) (fj_e hE (of_decide_eq_true rfl) (fj_e hE (of_decide_eq_true rfl) fj_nil)))))
  refine JR.iff (jr_rest (an := some .normal) hE (known_agree hk hV) keep_rows hh) ?_
  rw [nodes_agree hV, Bool.and_eq_true, Bool.and_eq_true]
  refine arrange2 ?_
  rw [← Bool.and_eq_true, ← List.all_append, hent]
  simp only [headNodes, headNormal, headFirst, List.cons_append, List.nil_append, Bool.and_eq_true, List.all_cons, List.all_nil, and_true, and_assoc]

theorem accept_frf (hk : Known55 d) : JR (prep55 (some .frf) >>= fun _ => rest55 (some .frf)) (optFields d opt55)
    ((headNodes.all (entryOk d) && (nodesOk d && headStep.all (entryOk d))) = true) := by
  have hE : KnownE (optFields d opt55) kinds55 := known_opt' (by decide +kernel) hk.entries
  have hV := values_opt (d := d) (os := opt55) (by decide +kernel)
  have hent := entries_opt (d := d) (os := opt55) (F := headNodes ++ headStep) (by decide +kernel)
  generalize optFields d opt55 = D at hE hV hent ⊢
  have hh := jr_row_then (f := fun _ => W.row [.e 13 5 "freq"])
    (fj_c (d := D) (fmt := fmtI 10) (v := .int 2) rfl (fj_c (fmt := fmtI 10) (v := .int 1) rfl
      (fj_i hE (w := 10) (k := "load_case") (of_decide_eq_true rfl) (fj_i hE (w := 10) (k := "freq_step_n") (of_decide_eq_true rfl) fj_nil))))
    (jr_row (fj_e hE (of_decide_eq_true rfl) fj_nil))
  refine JR.iff (jr_then (m := prep55 (some .frf)) rfl jr_pure (jr_rest (an := some .frf) hE (known_agree hk hV) keep_rows hh)) ?_
  rw [true_and, nodes_agree hV, Bool.and_eq_true, Bool.and_eq_true]
  refine arrange2 ?_
  rw [← Bool.and_eq_true, ← List.all_append, hent]
  simp only [headNodes, headStep, headFirst, List.cons_append, List.nil_append, Bool.and_eq_true, List.all_cons, List.all_nil, and_true, and_assoc]

/-- Exactly these dictionaries are accepted as data at nodes. -/
theorem accept55 (hk : Known55 d) : JR write55 d (canWrite55 d = true) := by
  rw [write55_rest]
  refine jr_guarded (jr_opt ?_)
  have hget : (optFields d opt55).get? "analysis_type" = d.get? "analysis_type" := opt_other (by decide +kernel)
  refine JR.iff (jr_key (R := fun _ => canWrite55 d = true) fun a ha => ?_) ⟨fun ⟨_, _, h⟩ => h, fun h => ?_⟩
  · rw [hget] at ha
    have hs : scalarKnown a = true := hk.entries ("analysis_type", .int, false) (of_decide_eq_true rfl) a ha
    refine JR.iff (jr_lift (R := fun _ => canWrite55 d = true) ?_ fun an han => ?_) ⟨fun ⟨_, _, h⟩ => h, fun h => ⟨_, an_of ha hs, h⟩⟩
    · rw [an_of ha hs]
      exact py_ok
    · rw [an_of ha hs] at han
      cases han
      unfold canWrite55
      split
      · exact accept_normal hk
      split
      · exact accept_cmplx hk
      split
      · exact accept_frf hk
      · refine JR.iff (jr_fail (e := .value) rfl (by decide)) ?_
        simp
  · unfold canWrite55 at h
    rw [Bool.and_eq_true] at h
    obtain ⟨v, hv, -⟩ := entryOk_iff.1 (List.all_eq_true.1 h.1 ("analysis_type", .int, false) (of_decide_eq_true rfl))
    exact ⟨v, hget.trans hv, by unfold canWrite55; rw [Bool.and_eq_true]; exact h⟩

end Verif
