import Verif.Lemmas.Crlf2
import Verif.Lemmas.Bin58
import Verif.Lemmas.Num
import Verif.Model.Uff
/-
The readers of the types that do not cut values by column see no difference between LF and CR LF.
-/
namespace Verif

theorem crlfT_id {l : Text} (h : '\n' ∉ l) : crlfT l = l := eolG_id (cr := '\r') h

theorem res_congr {α β : Type} {m : Res α} {f g : α → Res β} (h : ∀ a, f a = g a) : (m >>= f) = (m >>= g) := by
  cases m with
  | error e => rfl
  | ok a => exact h a

theorem at_line {β : Type} {ls : List Text} (h : ∀ l ∈ ls, EolEnd l) (i : Nat) (k k' : Text → Res β)
    (hk : ∀ l, EolEnd l → k (crlfT l) = k' l) : (orIndex (ls.map crlfT)[i]? >>= k) = (orIndex ls[i]? >>= k') := by
  rw [List.getElem?_map]
  cases e : ls[i]? with
  | none => rfl
  | some l => exact hk l (h l (List.mem_of_getElem? e))

/-- One header line read with `parseHeader`. -/
macro "hdr" h:term : tactic =>
  `(tactic| (refine at_line $h _ _ _ fun l hl => ?_; rw [parseHeader_crlf hl] <;> refine res_congr fun _ => ?_))

theorem everyAux_map {α β : Type} (f : α → β) (s k : Nat) (l : List α) : everyAux s k (l.map f) = (everyAux s k l).map f := by
  induction l generalizing k with
  | nil => cases k <;> rfl
  | cons a r ih => cases k with
    | zero => simp only [List.map_cons, everyAux, ih]
    | succ k => simp only [List.map_cons, everyAux, ih]
theorem everyN_map {α β : Type} (f : α → β) (k s : Nat) (l : List α) : everyN k s (l.map f) = (everyN k s l).map f :=
  everyAux_map f s k l
theorem everyAux_mem {α : Type} (s k : Nat) (l : List α) : ∀ a ∈ everyAux s k l, a ∈ l := by
  induction l generalizing k with
  | nil => intro a h; cases k <;> exact h
  | cons b r ih => cases k with
    | zero =>
      intro a h
      simp only [everyAux, List.mem_cons] at h ⊢
      exact h.imp id (ih _ a)
    | succ k => intro a h; exact List.mem_cons_of_mem _ (ih _ a h)

theorem words_crlf (ls : List Text) : splitWs (ls.map crlfT).flatten = splitWs ls.flatten := by
  rw [← crlfT_flatten, splitWs_crlf]

theorem pyInt_crlf {l : Text} (h : EolEnd l) : pyInt (crlfT l) = pyInt l := by
  obtain ⟨c, a, b, h1, h2, ha, hb⟩ := crlfT_numEnd h
  unfold pyInt
  rw [h2, h1, parseInt_right _ _ ha, parseInt_right _ _ hb]

theorem mapRes_forall2 {α β γ : Type} {f : α → Res γ} {g : β → Res γ} {l : List α} {m : List β}
    (h : List.Forall₂ (fun a b => f a = g b) l m) : mapRes f l = mapRes g m := by
  induction h with
  | nil => rfl
  | cons h _ ih => simp only [mapRes, h, ih]

theorem mapRes_congr' {α β : Type} {f g : α → Res β} (l : List α) (h : ∀ a ∈ l, f a = g a) : mapRes f l = mapRes g l := by
  induction l with
  | nil => rfl
  | cons a r ih =>
    simp only [mapRes, h a (List.mem_cons_self ..), ih fun b hb => h b (List.mem_cons_of_mem _ hb)]

theorem mapRes_mapped {α β γ : Type} {f : α → Res γ} (g : β → α) (l : List β) :
    mapRes f (l.map g) = mapRes (fun b => f (g b)) l := by
  induction l with
  | nil => rfl
  | cons a r ih => simp only [List.map_cons, mapRes, ih]

theorem extract15_crlf (t : Text) (h : '\r' ∉ t) : extract15 (crlfT t) = extract15 t := by
  unfold extract15; rw [splitLines_crlf t h]
theorem extract18_crlf (t : Text) (h : '\r' ∉ t) : extract18 (crlfT t) = extract18 t := by
  unfold extract18; rw [splitLines_crlf t h]
theorem extract2412_crlf (t : Text) (h : '\r' ∉ t) : extract2412 (crlfT t) = extract2412 t := by
  unfold extract2412; rw [splitLines_crlf t h]
theorem extract2429_crlf (t : Text) (h : '\r' ∉ t) : extract2429 (crlfT t) = extract2429 t := by
  unfold extract2429; rw [splitLines_crlf t h]

theorem extract2411_crlf (t : Text) (h : '\r' ∉ t) : extract2411 (crlfT t) = extract2411 t := by
  unfold extract2411; rw [splitLinesKeep_crlf t h, ← List.map_drop, words_crlf]

theorem extract82_crlf (t : Text) (h : '\r' ∉ t) : extract82 (crlfT t) = extract82 t := by
  have hl := lines_end t h
  unfold extract82
  rw [splitLinesKeep_crlf t h]
  refine congrArg (readGuard 82) ?_
  dsimp only
  generalize splitLinesKeep t = ls at hl ⊢
  rw [← List.map_drop, words_crlf]
  hdr hl
  hdr hl

theorem extract164_crlf (t : Text) (h : '\r' ∉ t) : extract164 (crlfT t) = extract164 t := by
  have hl := lines_end t h
  unfold extract164
  rw [splitLinesKeep_crlf t h]
  refine congrArg (readGuard 164) ?_
  dsimp only
  generalize splitLinesKeep t = ls at hl ⊢
  rw [← List.map_drop, words_crlf]
  hdr hl

theorem extract151_crlf (t : Text) (h : '\r' ∉ t) : extract151 (crlfT t) = extract151 t := by
  have hl := lines_end t h
  unfold extract151
  rw [splitLinesKeep_crlf t h]
  refine congrArg (readGuard 151) ?_
  dsimp only
  generalize splitLinesKeep t = ls at hl ⊢
  hdr hl
  hdr hl
  hdr hl
  hdr hl
  hdr hl
  hdr hl
  hdr hl

theorem extract1858_crlf (t : Text) (h : '\r' ∉ t) : extract1858 (crlfT t) = extract1858 t := by
  have hl : ∀ l ∈ (splitLinesKeep t).take 8, EolEnd l := fun l hm => lines_end t h l (List.mem_of_mem_take hm)
  unfold extract1858
  rw [splitLinesKeep_crlf t h, ← List.map_take]
  refine congrArg (readGuard 1858) ?_
  dsimp only
  generalize (splitLinesKeep t).take 8 = ls at hl ⊢
  hdr hl
  hdr hl
  hdr hl
  hdr hl
  hdr hl

theorem pyInt_slice_crlf {l : Text} (h : EolEnd l) (i j : Nat) : pyInt (slice (crlfT l) i j) = pyInt (slice l i j) := by
  obtain ⟨c, a, b, h1, h2, ha, hb⟩ := crlfT_numEnd h
  unfold pyInt parseInt
  rw [h2, h1, numStrip_slice _ _ ha, numStrip_slice _ _ hb]

theorem pyFloat_slice_crlf {l : Text} (h : EolEnd l) (i j : Nat) :
    pyFloat (slice (crlfT l) i j) = pyFloat (slice l i j) := by
  obtain ⟨c, a, b, h1, h2, ha, hb⟩ := crlfT_numEnd h
  unfold pyFloat parseFloat
  rw [h2, h1, numStrip_slice _ _ ha, numStrip_slice _ _ hb]

theorem extract2400_crlf (t : Text) (h : '\r' ∉ t) : extract2400 (crlfT t) = extract2400 t := by
  have hl := lines_end t h
  unfold extract2400
  rw [splitLinesKeep_crlf t h]
  refine congrArg (readGuard 2400) ?_
  dsimp only
  generalize splitLinesKeep t = ls at hl ⊢
  hdr hl
  hdr hl
  hdr hl
  refine at_line hl _ _ _ fun l hl' => ?_
  rw [mapRes_congr' (f := fun i => pyInt (slice (crlfT l) (i * 2) (i * 2 + 2))) _
    fun i _ => pyInt_slice_crlf hl' (i * 2) (i * 2 + 2)]
  refine res_congr fun _ => ?_
  hdr hl
  hdr hl

theorem rstrip_crlf {l : Text} (h : EolEnd l) : rstrip (crlfT l) = rstrip l := by
  obtain ⟨c, a, b, h1, h2, ha, hb⟩ := crlfT_end h
  rw [h2, h1, rstrip_append_spaces _ _ ha, rstrip_append_spaces _ _ hb]

theorem extract2420_crlf (t : Text) (h : '\r' ∉ t) : extract2420 (crlfT t) = extract2420 t := by
  have hl := lines_end t h
  unfold extract2420
  rw [splitLinesKeep_crlf t h]
  dsimp only
  generalize splitLinesKeep t = ls at hl ⊢
  simp only [everyN_map, words_crlf]
  have hn : ((everyN 5 6 ls).map crlfT).map (fun s => Val.str (rstrip s)) = (everyN 5 6 ls).map fun s => Val.str (rstrip s) := by
    rw [List.map_map]
    refine List.map_congr_left fun l hm => ?_
    show Val.str (rstrip (crlfT l)) = _
    rw [rstrip_crlf (hl l (everyAux_mem _ _ _ l hm))]
  rw [hn]
  refine at_line hl _ _ _ fun l hl' => ?_
  rw [pyInt_crlf hl']
  refine res_congr fun _ => ?_
  refine at_line hl _ _ _ fun l3 hl3 => ?_
  rw [rstrip_crlf hl3]

theorem groupHead_crlf {a b : Text} (ha : EolEnd a) (hb : EolEnd b) : groupHead (crlfT a) (crlfT b) = groupHead a b := by
  unfold groupHead
  rw [parseHeader_crlf ha, parseHeader_crlf hb]

theorem groups2467_crlf (fuel : Nat) (ls : List Text) (hl : ∀ l ∈ ls, EolEnd l) :
    groups2467 fuel (ls.map crlfT) = groups2467 fuel ls := by
  induction fuel generalizing ls with
  | zero => unfold groups2467; rw [List.length_map]
  | succ n ih =>
    cases ls with
    | nil => rfl
    | cons l1 ls' =>
      rw [List.map_cons]
      unfold groups2467
      dsimp only
      refine at_line (fun l hm => hl l (List.mem_cons_of_mem _ hm)) _ _ _ fun l2 hl2 => ?_
      rw [groupHead_crlf (hl l1 (List.mem_cons_self ..)) hl2]
      refine res_congr fun g => ?_
      refine res_congr fun k => ?_
      have e1 : groupValues (((crlfT l1 :: ls'.map crlfT).drop 2).take (ceilDiv k 2).toNat)
          = groupValues (((l1 :: ls').drop 2).take (ceilDiv k 2).toNat) := by
        rw [← List.map_cons, ← List.map_drop, ← List.map_take]
        unfold groupValues
        rw [mapRes_mapped]
        simp only [splitWs_crlf]
      rw [e1]
      refine res_congr fun vs => ?_
      split
      · rfl
      · rw [← List.map_cons, ← List.map_drop, ih _ fun l hm => hl l (List.mem_of_mem_drop hm)]

theorem extract2467_crlf (t : Text) (h : '\r' ∉ t) : extract2467 (crlfT t) = extract2467 t := by
  have hl : ∀ l ∈ (splitLinesKeep t).drop 2, EolEnd l := fun l hm => lines_end t h l (List.mem_of_mem_drop hm)
  unfold extract2467
  rw [splitLinesKeep_crlf t h, ← List.map_drop]
  dsimp only
  rw [List.length_map, groups2467_crlf _ _ hl]

theorem readHead2414_crlf (ls : List Text) (hl : ∀ l ∈ ls, EolEnd l) : readHead2414 (ls.map crlfT) = readHead2414 ls := by
  unfold readHead2414
  hdr hl
  hdr hl
  hdr hl
  hdr hl
  hdr hl
  hdr hl
  hdr hl
  hdr hl
  hdr hl
theorem readFreqHead_crlf (ls : List Text) (hl : ∀ l ∈ ls, EolEnd l) : readFreqHead (ls.map crlfT) = readFreqHead ls := by
  unfold readFreqHead
  hdr hl
  hdr hl
  hdr hl
  hdr hl
theorem readPlainHead_crlf (ls : List Text) (hl : ∀ l ∈ ls, EolEnd l) : readPlainHead (ls.map crlfT) = readPlainHead ls := by
  unfold readPlainHead
  hdr hl
  hdr hl
  hdr hl
  hdr hl

theorem splitLinesKeep_flatten (t : Text) : (splitLinesKeep t).flatten = t := by
  unfold splitLinesKeep; rw [splitLinesGen_flatten]; rfl

theorem drop_noCr {t : Text} (h : '\r' ∉ t) (k : Nat) : '\r' ∉ ((splitLinesKeep t).drop k).flatten := by
  intro hc
  apply h
  rw [← splitLinesKeep_flatten t]
  obtain ⟨l, hm, hcl⟩ := List.mem_flatten.1 hc
  exact List.mem_flatten.2 ⟨l, List.mem_of_mem_drop hm, hcl⟩

theorem extract2414_crlf (t : Text) (h : '\r' ∉ t) : extract2414 (crlfT t) = extract2414 t := by
  have hl : ∀ l ∈ (splitLinesKeep t).take 15, EolEnd l := fun l hm => lines_end t h l (List.mem_of_mem_take hm)
  have hd := drop_noCr h 15
  unfold extract2414
  rw [splitLinesKeep_crlf t h]
  refine congrArg (readGuard 2414) ?_
  dsimp only
  rw [← List.map_take, ← List.map_drop, readHead2414_crlf _ hl, readFreqHead_crlf _ hl, readPlainHead_crlf _ hl,
    ← crlfT_flatten, splitLines_crlf _ hd]
  have e : ∀ c, readFreqData c (((splitLinesKeep t).drop 15).map crlfT) = readFreqData c ((splitLinesKeep t).drop 15) := by
    intro c; unfold readFreqData; rw [words_crlf]
  simp only [e]

end Verif
