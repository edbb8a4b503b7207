import Verif.Lemmas.Again3
/-
What was read can be saved again: data-set 2414.
-/
namespace Verif
open F64

theorem Eleven.again {x : F64} (h : Eleven x) : Eleven (x.quant 5) :=
  ⟨quant_finite_5 x h.1, by rw [fmtE_length_quant x h.1 (quant_finite_5 x h.1)]; exact h.2⟩

theorem Apart.again {x : F64} (h : Apart x) : Apart (x.quant 5) :=
  ⟨quant_finite_5 x h.1, by rw [fmtE_length_quant x h.1 (quant_finite_5 x h.1)]; exact h.2⟩

theorem Spaced.again {l : List F64} (h : Spaced l) : Spaced (l.map (F64.quant 5)) := by
  refine ⟨fun x hx => ?_, fun x hx => ?_⟩
  · obtain ⟨y, hy, rfl⟩ := List.mem_map.1 hx
    exact quant_finite_5 y (h.1 y hy)
  · rw [← List.map_tail] at hx
    obtain ⟨y, hy, rfl⟩ := List.mem_map.1 hx
    exact (h.2 y hy).again

theorem apart_zero : Apart F64.zero := ⟨by decide, by decide +kernel⟩

theorem Spaced.of_forall₂ {l m : List F64} (h : Spaced l)
    (f : List.Forall₂ (fun a b => b = a.quant 5 ∨ b = F64.zero) l m) : Spaced m := by
  cases f with
  | nil => exact h
  | cons h0 t =>
    rename_i a b l m
    have key : ∀ {l m : List F64}, List.Forall₂ (fun a b => b = a.quant 5 ∨ b = F64.zero) l m → (∀ x ∈ l, Apart x) →
        ∀ x ∈ m, Apart x := by
      intro l m f
      induction f with
      | nil => intro h; exact h
      | cons h _ ih =>
        intro hl x hx
        rcases List.mem_cons.1 hx with rfl | hx
        · rcases h with rfl | rfl
          · exact (hl _ (by simp)).again
          · exact apart_zero
        · exact ih (fun y hy => hl y (by simp [hy])) x hx
    have k := key t h.2
    refine ⟨fun x hx => ?_, k⟩
    rcases List.mem_cons.1 hx with rfl | hx
    · rcases h0 with rfl | rfl
      · exact quant_finite_5 _ (h.1 _ (by simp))
      · decide
    · exact (k x hx).1

namespace DS2414

theorem parts_again (l : List Cplx) (hf : Spaced (parts l)) : Spaced (parts (l.map (Cplx.quant 5))) := by
  refine hf.of_forall₂ ?_
  clear hf
  induction l with
  | nil => exact .nil
  | cons z l ih =>
    refine .cons ?_ (.cons ?_ ih)
    · unfold Cplx.quant Cplx.unsigned
      simp only
      split
      · exact .inr rfl
      · exact .inl rfl
    · unfold Cplx.quant Cplx.unsigned
      simp only
      split
      · exact .inr rfl
      · exact .inl rfl

theorem six_again {r : Six} (ok : r.Ok) : (sixAgain r).Ok :=
  ⟨ok.x1.again, ok.x2.again, ok.x3.again, ok.x4.again,
    ok.x5.again, ok.x6.again⟩

theorem sixAgain_again {r : Six} (ok : r.Ok) : sixAgain (sixAgain r) = sixAgain r := by
  unfold sixAgain
  rw [quant5 ok.x1.1, quant5 ok.x2.1, quant5 ok.x3.1,
    quant5 ok.x4.1, quant5 ok.x5.1, quant5 ok.x6.1]

theorem analysis_again (b : Body2414) : analysis (bodyAgain b) = analysis b := by cases b <;> rfl
theorem loc_again (b : Body2414) : loc (bodyAgain b) = loc b := by
  rcases b with _ | ⟨_, _, _, _ | _ | _ | _⟩ <;> rfl
theorem comps_again (b : Body2414) : comps (bodyAgain b) = comps b := by
  rcases b with ⟨_, _, _ | _ | _⟩ | _ <;> rfl

theorem row_again {l : List F64} (h : Spaced l) :
    (l.map (F64.quant 5)).map (F64.quant 5) = l.map (F64.quant 5) := by
  rw [List.map_map]
  exact List.map_congr_left fun x hx => quant5 (h.1 x hx)

theorem parts_finite {l : List Cplx} (hf : Spaced (parts l)) {z : Cplx} (hz : z ∈ l) : z.Finite :=
  ⟨hf.1 _ (List.mem_flatMap.2 ⟨z, hz, by simp⟩), hf.1 _ (List.mem_flatMap.2 ⟨z, hz, by simp⟩)⟩

theorem freqDataOk_again (d : FreqData) (ok : FreqDataOk d) : FreqDataOk (freqAgain d) := by
  cases d with
  | one m =>
    intro n hn
    obtain ⟨k, hk, rfl⟩ := List.mem_map.1 hn
    obtain ⟨o1, o2, o3⟩ := ok k hk
    exact ⟨o1, o2, parts_again [k.x] o3⟩
  | two m =>
    intro n hn
    obtain ⟨k, hk, rfl⟩ := List.mem_map.1 hn
    obtain ⟨o1, o2, o3⟩ := ok k hk
    exact ⟨o1, o2, parts_again [k.x, k.y] o3⟩
  | three m =>
    intro n hn
    obtain ⟨k, hk, rfl⟩ := List.mem_map.1 hn
    obtain ⟨o1, o2, o3⟩ := ok k hk
    exact ⟨o1, o2, parts_again [k.x, k.y, k.z] o3⟩

theorem freqDataBack_again (d : FreqData) (ok : FreqDataOk d) (l : FreqLasting d) :
    freqDataBack (freqAgain d) = freqDataBack d := by
  cases d with
  | one m =>
    simp only [freqAgain, freqDataBack, List.map_map, Function.comp_def]
    rw [List.map_congr_left fun n hn => cquant5 (parts_finite (ok n hn).2.2 (by simp)) (l n hn)]
  | two m =>
    simp only [freqAgain, freqDataBack, List.map_map, Function.comp_def]
    rw [List.map_congr_left fun n hn => cquant5 (parts_finite (z := n.x) (ok n hn).2.2 (by simp)) (l n hn).1,
      List.map_congr_left fun n hn => cquant5 (parts_finite (z := n.y) (ok n hn).2.2 (by simp)) (l n hn).2]
  | three m =>
    simp only [freqAgain, freqDataBack, List.map_map, Function.comp_def]
    rw [List.map_congr_left fun n hn => cquant5 (parts_finite (z := n.x) (ok n hn).2.2 (by simp)) (l n hn).1,
      List.map_congr_left fun n hn => cquant5 (parts_finite (z := n.y) (ok n hn).2.2 (by simp)) (l n hn).2.1,
      List.map_congr_left fun n hn => cquant5 (parts_finite (z := n.z) (ok n hn).2.2 (by simp)) (l n hn).2.2]

theorem plainDataOk_again (d : PlainData) (ok : PlainDataOk d) : PlainDataOk (plainAgain d) := by
  cases d with
  | atNodes m =>
    refine ⟨by simpa using ok.1, fun n hn => ?_⟩
    obtain ⟨k, hk, rfl⟩ := List.mem_map.1 hn
    obtain ⟨o1, o2, o3⟩ := ok.2 k hk
    exact ⟨o1, o2, o3.again⟩
  | onElems m =>
    refine ⟨by simpa using ok.1, fun n hn => ?_⟩
    obtain ⟨k, hk, rfl⟩ := List.mem_map.1 hn
    obtain ⟨o1, o2, o3⟩ := ok.2 k hk
    exact ⟨o1, by simpa using o2, o3.again⟩
  | atElemNodes m =>
    intro n hn
    obtain ⟨k, hk, rfl⟩ := List.mem_map.1 hn
    obtain ⟨o1, o2, o3, o4, o5, o6, o7⟩ := ok k hk
    refine ⟨o1, o2, o3, o4, o5, by rw [List.length_map]; exact o6, fun v hv => ?_⟩
    obtain ⟨w, hw, rfl⟩ := List.mem_map.1 hv
    exact (o7 w hw).again
  | other loc => exact ok

theorem rowBack_again {v : List F64} (h : Spaced v) :
    rowBack (v.map (F64.quant 5)) = rowBack v := by
  unfold rowBack; rw [row_again h]

theorem plainDataBack_again (d : PlainData) (ok : PlainDataOk d) :
    plainDataBack (plainAgain d) = plainDataBack d := by
  cases d with
  | atNodes m =>
    simp only [plainAgain, plainDataBack, List.map_map, Function.comp_def]
    rw [List.map_congr_left fun n hn => rowBack_again (ok.2 n hn).2.2]
  | onElems m =>
    simp only [plainAgain, plainDataBack, List.map_map, Function.comp_def, List.length_map]
    rw [List.map_congr_left fun n hn => rowBack_again (ok.2 n hn).2.2]
  | atElemNodes m =>
    simp only [plainAgain, plainDataBack, List.map_map, Function.comp_def]
    have e : (m.map fun e => Val.list (e.rows.map fun v => rowBack (v.map (F64.quant 5))))
        = m.map fun e => Val.list (e.rows.map rowBack) :=
      List.map_congr_left fun n hn => by
        rw [List.map_congr_left fun v hv => rowBack_again ((ok n hn).2.2.2.2.2.2 v hv)]
    rw [e]
  | other loc => rfl

theorem bodyOk_again (b : Body2414) (ok : BodyOk b) : BodyOk (bodyAgain b) := by
  cases b with
  | freq loc h d =>
    obtain ⟨o1, o2, o3, o4, o5, o6, o7⟩ := ok
    exact ⟨o1, o2, o3, o4, six_again o5, six_again o6, freqDataOk_again d o7⟩
  | plain a c h d =>
    obtain ⟨o1, o2, o3, o4, o5, o6⟩ := ok
    exact ⟨o1, o2, o3, six_again o4, six_again o5, plainDataOk_again d o6⟩

theorem bodyBack_again (r : DS2414) (b : Body2414) (hb : r.body = b) (ok : BodyOk b) (l : r.Lasting) :
    bodyBack r.dtype (bodyAgain b) = bodyBack r.dtype b := by
  have key : ∀ r : Six, r.Ok → (sixAgain r).x1.quant 5 = r.x1.quant 5 ∧ (sixAgain r).x2.quant 5 = r.x2.quant 5 ∧
      (sixAgain r).x3.quant 5 = r.x3.quant 5 ∧ (sixAgain r).x4.quant 5 = r.x4.quant 5 ∧
      (sixAgain r).x5.quant 5 = r.x5.quant 5 ∧ (sixAgain r).x6.quant 5 = r.x6.quant 5 := by
    intro r ok
    have := sixAgain_again ok
    unfold sixAgain at this ⊢
    simpa using this
  cases b with
  | freq loc h d =>
    unfold Lasting at l
    rw [hb] at l
    obtain ⟨o1, o2, o3, o4, o5, o6, o7⟩ := ok
    obtain ⟨a1, a2, a3, a4, a5, a6⟩ := key _ o5 
    obtain ⟨b1, b2, b3, b4, b5, b6⟩ := key _ o6
    simp only [bodyAgain, bodyBack, freqDataBack_again d o7 l.1, freqBack, a1, a2, a3, a4, a5, a6, b1, b2, b3, b4, b5, b6]
  | plain a c h d =>
    obtain ⟨o1, o2, o3, o4, o5, o6⟩ := ok
    obtain ⟨a1, a2, a3, a4, a5, a6⟩ := key _ o4 
    obtain ⟨b1, b2, b3, b4, b5, b6⟩ := key _ o5
    simp only [bodyAgain, bodyBack, plainDataBack_again d o6, plainBack, a1, a2, a3, a4, a5, a6, b1, b2, b3, b4, b5, b6]

theorem arr (l : List Int) : IsArray (.arrI l) ∧ IsSeq IsInt (.arrI l) l := ⟨.inl ⟨l, rfl⟩, isSeq_arrI l⟩

theorem resave (e : Env) (fd : Bool) (r : DS2414) (ok : r.Ok) (l : r.Lasting) :
    Given e fd r.readBack (.s2414 r.again) ∧ r.again.readBack = r.readBack := by
  have hb := bodyBack_again r r.body rfl ok.body l
  refine ⟨⟨r.readBack, cleanD_none ?_, ?_, ?_⟩, ?_⟩
  · unfold readBack
    rcases r.body with ⟨_, _, _ | _ | _⟩ | ⟨_, _, _, _ | _ | _ | _⟩ <;> simp only [bodyBack] <;> (try split) <;> rfl
  · refine ⟨rfl, ⟨_, rfl, rfl⟩, ⟨_, rfl, rfl⟩, ?_, ⟨_, rfl, rfl⟩, ⟨_, rfl, rfl⟩, ⟨_, rfl, rfl⟩,
      ⟨_, rfl, rfl⟩, ⟨_, rfl, rfl⟩, ⟨_, rfl, rfl⟩, ?_, ⟨_, rfl, rfl⟩, ⟨_, rfl, rfl⟩, ⟨_, rfl, rfl⟩, ?_, ?_⟩
    · show _ = some (Val.int (DS2414.loc (bodyAgain r.body)))
      rw [loc_again]; rfl
    · show _ = some (Val.int (DS2414.analysis (bodyAgain r.body)))
      rw [analysis_again]; rfl
    · show _ = some (Val.int (DS2414.comps (bodyAgain r.body)))
      rw [comps_again]; rfl
    · unfold Lasting at l
      show BodyRep _ (bodyAgain r.body)
      unfold readBack
      cases hbody : r.body with
      | freq loc h d =>
        rw [hbody] at l
        rw [l.2]
        simp only [bodyBack, if_true, bodyAgain]
        refine ⟨⟨⟨_, rfl, rfl⟩, ⟨_, rfl, rfl⟩, ⟨_, rfl, rfl⟩, ⟨_, rfl, rfl⟩, ⟨_, rfl, rfl⟩, ⟨_, rfl, rfl⟩, ⟨_, rfl, rfl⟩, ⟨_, rfl, rfl⟩, ⟨_, rfl, rfl⟩, ⟨_, rfl, rfl⟩, ⟨_, rfl, rfl⟩, ⟨_, rfl, rfl⟩, ⟨_, rfl, rfl⟩, ⟨_, rfl, rfl⟩, ⟨_, rfl, rfl⟩, ⟨_, rfl, rfl⟩, ⟨_, rfl, rfl⟩, ⟨_, rfl, rfl⟩, ⟨_, rfl, rfl⟩, ⟨_, rfl, rfl⟩, ⟨_, rfl, rfl⟩, ⟨_, rfl, rfl⟩⟩, ?_⟩
        have hi : ∀ {α β : Type} (m : List α) (g : α → β) (f : α → Int) (f' : β → Int), (∀ a, f' (g a) = f a) →
            IsSeq IsInt (.arrI (m.map f)) ((m.map g).map f') := by
          intro α β m g f f' hg
          refine isSeq_of_eq (isSeq_arrI _) ?_
          rw [List.map_map]
          exact List.map_congr_left fun a _ => (hg a).symm
        have hc : ∀ {α β : Type} (m : List α) (g : α → β) (f : α → Cplx) (f' : β → Cplx), (∀ a, f' (g a) = f a) →
            IsSeq IsCplx (.arrC (m.map f)) ((m.map g).map f') := by
          intro α β m g f f' hg
          refine isSeq_of_eq (isSeq_arrC _) ?_
          rw [List.map_map]
          exact List.map_congr_left fun a _ => (hg a).symm
        rcases d with m | m | m
        · exact ⟨⟨_, rfl, .inl ⟨_, rfl⟩, hi m _ _ _ fun _ => rfl⟩, ⟨_, rfl, hc m _ _ _ fun _ => rfl⟩⟩
        · exact ⟨⟨_, rfl, .inl ⟨_, rfl⟩, hi m _ _ _ fun _ => rfl⟩, ⟨_, rfl, hc m _ _ _ fun _ => rfl⟩,
            ⟨_, rfl, hc m _ _ _ fun _ => rfl⟩⟩
        · exact ⟨⟨_, rfl, .inl ⟨_, rfl⟩, hi m _ _ _ fun _ => rfl⟩, ⟨_, rfl, hc m _ _ _ fun _ => rfl⟩,
            ⟨_, rfl, hc m _ _ _ fun _ => rfl⟩, ⟨_, rfl, hc m _ _ _ fun _ => rfl⟩⟩
      | plain a c h d =>
        simp only [bodyBack, bodyAgain]
        refine ⟨⟨rfl, rfl, rfl, rfl, rfl, rfl, rfl, rfl, rfl, rfl, rfl, rfl, rfl, rfl, rfl, rfl, rfl, rfl, rfl, rfl, rfl, rfl, rfl, rfl, rfl, rfl, rfl, rfl⟩, ?_⟩
        have hi : ∀ {α β : Type} (m : List α) (g : α → β) (f : α → Int) (f' : β → Int), (∀ a, f' (g a) = f a) →
            IsSeq IsInt (.arrI (m.map f)) ((m.map g).map f') := by
          intro α β m g f f' hg
          refine isSeq_of_eq (isSeq_arrI _) ?_
          rw [List.map_map]
          exact List.map_congr_left fun a _ => (hg a).symm
        rcases d with m | m | m | m
        · refine ⟨⟨_, rfl, .inl ⟨_, rfl⟩, hi m _ _ _ fun _ => rfl⟩, _, rfl, ?_⟩
          rw [List.map_map]
          exact isSeq_map m _ _ _ rfl fun n _ => isSeq_arrF _
        · refine ⟨⟨_, rfl, .inl ⟨_, rfl⟩, hi m _ _ _ fun _ => rfl⟩, _, rfl, ?_⟩
          rw [List.map_map]
          exact isSeq_map m _ _ _ rfl fun n _ => isSeq_arrF _
        · refine ⟨⟨_, rfl, .inl ⟨_, rfl⟩, hi m _ _ _ fun _ => rfl⟩, ⟨_, rfl, hi m _ _ _ fun _ => rfl⟩,
            ⟨_, rfl, hi m _ _ _ fun _ => rfl⟩, ⟨_, rfl, hi m _ _ _ fun _ => rfl⟩, _, rfl, ?_⟩
          rw [List.map_map]
          refine isSeq_map m _ _ _ rfl fun e _ => ?_
          exact isSeq_map e.rows _ _ _ rfl fun v _ => isSeq_arrF _
        · trivial
  · have lc := loc_again r.body
    have an := analysis_again r.body
    have co := comps_again r.body
    refine ⟨ok.label, ok.label1, ok.name.strip (by decide), ?_, ?_, ok.id1.strip (by decide), ok.id2.strip (by decide),
      ok.id3.strip (by decide), ok.id4.strip (by decide), ok.id5.strip (by decide), ok.model, ?_, ok.ch, ok.result, ok.dtype,
      ?_, ?_, bodyOk_again _ ok.body⟩
    · show Fits 10 (DS2414.loc (bodyAgain r.body)); rw [lc]; exact ok.loc
    · show DS2414.loc (bodyAgain r.body) ≠ -1; rw [lc]; exact ok.loc1
    · show Fits 10 (DS2414.analysis (bodyAgain r.body)); rw [an]; exact ok.analysis
    · show Fits 10 (DS2414.comps (bodyAgain r.body)); rw [co]; exact ok.comps
    · show DS2414.comps (bodyAgain r.body) ≠ -1; rw [co]; exact ok.comps1
  · unfold readBack common
    simp only [again, strip_strip, loc_again, analysis_again, comps_again, hb]

end DS2414
end Verif
