import Verif.Lemmas.Again1
/-
What was read can be saved again: data-sets 2412 and 55.
-/
namespace Verif
open F64

namespace DS2412

theorem firsts_replicate (k : Nat) (a : Int) (l : List Int) :
    firsts (List.replicate (k + 1) a ++ l) = a :: (firsts l).filter (· ≠ a) := by
  induction k with
  | zero => rfl
  | succ k ih =>
    rw [List.replicate_succ, List.cons_append, firsts, ih]
    simp [List.filter_filter]

theorem firsts_blocks (f : List Int) (c : Int → Nat) (hn : f.Nodup) (hc : ∀ a ∈ f, 0 < c a) :
    firsts (f.flatMap fun a => List.replicate (c a) a) = f := by
  induction f with
  | nil => rfl
  | cons a f ih =>
    rw [List.nodup_cons] at hn
    obtain ⟨k, hk⟩ : ∃ k, c a = k + 1 := ⟨c a - 1, by have := hc a (by simp); omega⟩
    rw [List.flatMap_cons, hk, firsts_replicate, ih hn.2 fun b hb => hc b (by simp [hb])]
    congr 1
    rw [List.filter_eq_self]
    intro b hb
    simp only [ne_eq, decide_not, Bool.not_eq_eq_eq_not, Bool.not_true, decide_eq_false_iff_not]
    rintro rfl
    exact hn.1 hb

theorem elems_again (r : DS2412) : r.again.elems = (firsts (r.elems.map (·.fe))).flatMap r.ofType := by
  unfold elems again
  rw [List.flatMap_def]
  rfl

theorem firsts_again (r : DS2412) : firsts (r.again.elems.map (·.fe)) = firsts (r.elems.map (·.fe)) := by
  rw [elems_again, List.map_flatMap]
  have h : ∀ a, (r.ofType a).map (·.fe) = List.replicate ((r.ofType a).length) a := by
    intro a
    rw [List.eq_replicate_iff]
    refine ⟨by simp, fun b hb => ?_⟩
    obtain ⟨e, he, rfl⟩ := List.mem_map.1 hb
    unfold ofType at he
    simpa using (List.mem_filter.1 he).2
  simp only [h]
  refine firsts_blocks _ (fun a => (r.ofType a).length) (nodup_firsts _) fun a ha => ?_
  rw [mem_firsts] at ha
  obtain ⟨e, he, rfl⟩ := List.mem_map.1 ha
  refine List.length_pos_of_mem (a := e) ?_
  unfold ofType
  exact List.mem_filter.2 ⟨he, by simp⟩

theorem flatMap_filter (f : List Int) (es : List Elem) (b : Int) (hn : f.Nodup) :
    (f.flatMap fun a => es.filter (·.fe = a)).filter (·.fe = b) = if b ∈ f then es.filter (·.fe = b) else [] := by
  induction f with
  | nil => rfl
  | cons a f ih =>
    rw [List.nodup_cons] at hn
    rw [List.flatMap_cons, List.filter_append, ih hn.2, List.filter_filter]
    by_cases h : a = b
    · subst h
      rw [if_neg hn.1, if_pos (by simp), List.append_nil]
      congr 1; funext e; simp
    · have e0 : es.filter (fun e => decide (e.fe = b) && decide (e.fe = a)) = [] := by
        rw [List.filter_eq_nil_iff]
        intro e _ he
        simp only [Bool.and_eq_true, decide_eq_true_eq] at he
        exact h (he.2.symm.trans he.1)
      rw [e0, List.nil_append]
      have : (b ∈ a :: f) ↔ b ∈ f := by
        rw [List.mem_cons]
        exact ⟨fun h' => h'.resolve_left fun e => h e.symm, .inr⟩
      simp only [this]

theorem ofType_again (r : DS2412) (b : Int) : r.again.ofType b = r.ofType b := by
  unfold ofType
  rw [elems_again]
  show ((firsts (r.elems.map (·.fe))).flatMap fun a => r.elems.filter (·.fe = a)).filter (·.fe = b) = _
  rw [flatMap_filter _ _ _ (nodup_firsts _)]
  split
  · rfl
  · rename_i h
    symm
    rw [List.filter_eq_nil_iff]
    intro e he hb
    apply h
    rw [mem_firsts]
    exact List.mem_map.2 ⟨e, he, by simpa using hb⟩

theorem intEntries_append (a b : Dict) : intEntries (a ++ b) = intEntries a ++ intEntries b := List.filterMap_append ..

theorem intEntries_columns (r : DS2412) (fe : Int) (k : String) : intEntries (r.columns fe (.s k)) = [] := by
  unfold columns
  split <;> rfl

theorem each_groups (r : DS2412) (l : List Int) :
    Each (IsSeq IsElem) (intEntries (l.map fun fe => ((.i fe : Key), Val.list ((r.ofType fe).map (.dict ·.dict))))) (l.map r.ofType) := by
  induction l with
  | nil => exact .nil
  | cons a l ih =>
    simp only [List.map_cons, intEntries, List.filterMap_cons]
    refine .cons ?_ ih
    have := isSeq_map (P := IsElem) (r.ofType a) (fun e => .dict e.dict) id (.list ((r.ofType a).map fun e => .dict e.dict)) rfl
      (fun e _ => e.isElem)
    rwa [List.map_id] at this

theorem get?_columns (r : DS2412) (fe : Int) (k : String) (hk : k ≠ "data") :
    (r.columns fe (.s k)).get? "data" = none := by
  unfold columns
  split
  · rfl
  · rw [Dict.get?, if_neg (by simpa using hk)]; rfl

theorem get?_groups (l : List Int) (f : Int → Val) (k : String) : Dict.get? (l.map fun fe => ((.i fe : Key), f fe)) (.s k) = none := by
  induction l with
  | nil => rfl
  | cons a l ih => rw [List.map_cons, Dict.get?, if_neg (by simp), ih]

theorem get?_append' (a b : Dict) (k : Key) (h : a.get? k = none) : Dict.get? (a ++ b) k = b.get? k := by
  induction a with
  | nil => rfl
  | cons p a ih =>
    obtain ⟨k', v⟩ := p
    unfold Dict.get? at h
    split at h
    · cases h
    · rename_i hk
      rw [List.cons_append, Dict.get?, if_neg hk, ih h]

theorem resave (e : Env) (fd : Bool) (r : DS2412) (ok : r.Ok) :
    Given e fd r.readBack (.s2412 r.again) ∧ r.again.readBack = r.readBack := by
  refine ⟨⟨_, cleanD_none ?_, ⟨rfl, ?_⟩, ?_⟩, ?_⟩
  · unfold readBack
    simp only
    rw [List.cons_append, Dict.get?, if_neg (by decide), get?_append' _ _ _ (get?_groups _ _ _),
      get?_append' _ _ _ (get?_columns r 41 "triangle" (by decide)), get?_columns r 44 "quad" (by decide)]
  · unfold readBack
    simp only
    rw [intEntries_append, intEntries_append, intEntries_columns, intEntries_columns, List.append_nil, List.append_nil]
    exact each_groups r _
  · intro x hx
    rw [elems_again] at hx
    obtain ⟨a, -, ha⟩ := List.mem_flatMap.1 hx
    exact ok x (List.mem_filter.1 ha).1
  · unfold readBack columns
    simp only [firsts_again, ofType_again]

end DS2412

namespace DS55

theorem isSeq_nums (l : List Int) : IsSeq IsInt (numsBack l) l := by
  cases l with
  | nil => exact ⟨[], rfl, rfl, fun i h => absurd h (by simp)⟩
  | cons a l => exact isSeq_arrI _

theorem resave (e : Env) (fd : Bool) (r : DS55) (ok : r.Ok) (l : r.Lasting) :
    Given e fd r.readBack (.s55 r.again) ∧ r.again.readBack = r.readBack := by
  refine ⟨⟨_, cleanD_none ?_, ?_, ?_⟩, ?_⟩
  · obtain ⟨i1, i2, i3, i4, i5, model, ch, spec, head, data⟩ := r
    rcases head with _ | _ | _ <;> rcases data with _ | _ | _ <;> rfl
  · clear ok l
    obtain ⟨i1, i2, i3, i4, i5, model, ch, spec, head, data⟩ := r
    refine ⟨⟨rfl, rfl, rfl, rfl, rfl, rfl, rfl, ?_, ⟨_, rfl, rfl⟩, ⟨_, rfl, rfl⟩, ?_, ?_⟩, ?_⟩
    · rcases head with _ | ⟨_ | _, _⟩ | _ <;> rfl
    · rcases head with _ | _ | _
      · exact ⟨⟨_, rfl, rfl⟩, ⟨_, rfl, rfl⟩, ⟨_, rfl, rfl⟩, rfl, rfl, rfl⟩
      · exact ⟨⟨_, rfl, rfl⟩, ⟨_, rfl, rfl⟩, ⟨_, rfl, rfl⟩, rfl, rfl⟩
      · exact ⟨⟨_, rfl, rfl⟩, ⟨_, rfl, rfl⟩, ⟨_, rfl, rfl⟩⟩
    · have hr : ∀ {o : Option Val} {l : List F64}, o = some (.arrF l) → o ≠ some (.arrC []) := by
        rintro _ l rfl h; cases h
      have kf : ∀ {α : Type} (l : List α) (f : α → F64) (m : List F64), l.map f = m → IsSeq IsFloat (.arrF (l.map f)) m :=
        fun l f m h => h ▸ isSeq_arrF _
      have kc : ∀ {α : Type} (l : List α) (f : α → Cplx) (m : List Cplx), l.map f = m → IsSeq IsCplx (.arrC (l.map f)) m :=
        fun l f m h => h ▸ isSeq_arrC _
      have ki : ∀ {α : Type} (l : List α) (f : α → Int) (m : List Int), l.map f = m → IsSeq IsInt (numsBack (l.map f)) m :=
        fun l f m h => h ▸ isSeq_nums _
      have ke : ∀ (l : List NodeC) {o : Option Val}, o = some (.arrC (l.map (·.x.quant 5))) →
          l.map (fun n => (⟨n.num, n.x.quant 5, n.y.quant 5, n.z.quant 5⟩ : NodeC)) = [] → o = some (.arrC []) := by
        rintro l _ rfl h
        rw [List.map_eq_nil_iff.1 h]; rfl
      rcases head with _ | _ | _ <;> rcases data with l | l | l
      all_goals first
        | exact ⟨⟨_, rfl, ki l _ _ (by simp [Function.comp_def])⟩, ⟨_, rfl, kf l _ _ (by simp [Function.comp_def])⟩,
            ⟨_, rfl, kf l _ _ (by simp [Function.comp_def])⟩, ⟨_, rfl, kf l _ _ (by simp [Function.comp_def])⟩,
            hr (l := l.map (·.x.quant 5)) rfl, fun h => Bool.false_ne_true h.1⟩
        | exact ⟨⟨_, rfl, ki l _ _ (by simp [Function.comp_def])⟩, ⟨_, rfl, kf l _ _ (by simp [Function.comp_def])⟩,
            ⟨_, rfl, kf l _ _ (by simp [Function.comp_def])⟩, ⟨_, rfl, kf l _ _ (by simp [Function.comp_def])⟩,
            ⟨_, rfl, kf l _ _ (by simp [Function.comp_def])⟩, ⟨_, rfl, kf l _ _ (by simp [Function.comp_def])⟩,
            ⟨_, rfl, kf l _ _ (by simp [Function.comp_def])⟩, hr (l := l.map (·.x.quant 5)) rfl⟩
        | exact ⟨⟨_, rfl, ki l _ _ (by simp [Function.comp_def])⟩, ⟨_, rfl, kc l _ _ (by simp [Function.comp_def])⟩,
            ⟨_, rfl, kc l _ _ (by simp [Function.comp_def])⟩, ⟨_, rfl, kc l _ _ (by simp [Function.comp_def])⟩,
            ke l rfl⟩
    · rcases head with _ | _ | _ <;> rcases data with l | l | l
      all_goals first
        | exact fun _ _ h => Bool.false_ne_true h.1
        | (intro m hm; cases (show Data55.real6 _ = Data55.cplx3 m from hm))
  · have ho := ok.head
    have hl := l.1
    have dok := ok.data
    have dl := l.2
    refine ⟨ok.id1.strip (by decide), ok.id2.strip (by decide), ok.id3.strip (by decide), ok.id4.strip (by decide),
      ok.id5.strip (by decide), ok.model, ok.ch, ok.spec, ?_, ?_⟩
    · show HeadOk (headAgain r.head)
      cases hh : r.head with
      | normal load mode freq m vis his =>
        rw [hh] at ho
        exact ⟨ho.1, ho.2.1, ho.2.2.1, quant_finite_5 _ ho.2.2.2.1, quant_finite_5 _ ho.2.2.2.2.1,
          quant_finite_5 _ ho.2.2.2.2.2.1, quant_finite_5 _ ho.2.2.2.2.2.2⟩
      | cmplx second load mode eig a b =>
        rw [hh] at ho hl
        exact ⟨ho.1, ho.2.1, ho.2.2.1, cquant_finite ho.2.2.2.1, cquant_finite ho.2.2.2.2.1,
          cquant_finite ho.2.2.2.2.2⟩
      | frf load step freq =>
        rw [hh] at ho
        exact ⟨ho.1, ho.2.1, ho.2.2.1, quant_finite_5 _ ho.2.2.2⟩
    · show DataOk (dataAgain r.data)
      cases hd : r.data with
      | real3 l =>
        rw [hd] at dok
        intro n hn
        obtain ⟨m, hm, rfl⟩ := List.mem_map.1 hn
        have o := dok m hm
        exact ⟨o.1, o.2.1, quant_finite_5 _ o.2.2.1, quant_finite_5 _ o.2.2.2.1, quant_finite_5 _ o.2.2.2.2⟩
      | real6 l =>
        rw [hd] at dok
        intro n hn
        obtain ⟨m, hm, rfl⟩ := List.mem_map.1 hn
        have o := dok m hm
        exact ⟨o.1, o.2.1, quant_finite_5 _ o.2.2.1, quant_finite_5 _ o.2.2.2.1, quant_finite_5 _ o.2.2.2.2.1,
          quant_finite_5 _ o.2.2.2.2.2.1, quant_finite_5 _ o.2.2.2.2.2.2.1, quant_finite_5 _ o.2.2.2.2.2.2.2⟩
      | cplx3 l =>
        rw [hd] at dok dl
        intro n hn
        obtain ⟨m, hm, rfl⟩ := List.mem_map.1 hn
        have o := dok m hm
        exact ⟨o.1, o.2.1, cquant_finite o.2.2.1, cquant_finite o.2.2.2.1, cquant_finite o.2.2.2.2⟩
  · have h1 : headBack (headAgain r.head) = headBack r.head := by
      have ho := ok.head
      have hl := l.1
      cases hh : r.head with
      | normal load mode freq m vis his =>
        rw [hh] at ho hl
        simp only [headAgain, headBack, quant5 ho.2.2.2.1, quant5 ho.2.2.2.2.1, quant5 ho.2.2.2.2.2.1,
          quant5 ho.2.2.2.2.2.2]
      | cmplx second load mode eig a b =>
        rw [hh] at ho hl
        simp only [headAgain, headBack, cquant5 ho.2.2.2.1 hl.1, cquant5 ho.2.2.2.2.1 hl.2.1, cquant5 ho.2.2.2.2.2 hl.2.2]
      | frf load step freq =>
        rw [hh] at ho hl
        simp only [headAgain, headBack, quant5 ho.2.2.2]
    have h2 : dataBack (dataAgain r.data) = dataBack r.data := by
      have dok := ok.data
      have dl := l.2
      cases hd : r.data with
      | real3 l =>
        rw [hd] at dok dl
        simp only [dataAgain, dataBack, List.map_map, Function.comp_def]
        rw [List.map_congr_left fun n hn => quant5 (dok n hn).2.2.1,
          List.map_congr_left fun n hn => quant5 (dok n hn).2.2.2.1,
          List.map_congr_left fun n hn => quant5 (dok n hn).2.2.2.2]
      | real6 l =>
        rw [hd] at dok dl
        simp only [dataAgain, dataBack, List.map_map, Function.comp_def]
        rw [List.map_congr_left fun n hn => quant5 (dok n hn).2.2.1,
          List.map_congr_left fun n hn => quant5 (dok n hn).2.2.2.1,
          List.map_congr_left fun n hn => quant5 (dok n hn).2.2.2.2.1,
          List.map_congr_left fun n hn => quant5 (dok n hn).2.2.2.2.2.1,
          List.map_congr_left fun n hn => quant5 (dok n hn).2.2.2.2.2.2.1,
          List.map_congr_left fun n hn => quant5 (dok n hn).2.2.2.2.2.2.2]
      | cplx3 l =>
        rw [hd] at dok dl
        simp only [dataAgain, dataBack, List.map_map, Function.comp_def]
        rw [List.map_congr_left fun n hn => cquant5 (dok n hn).2.2.1 (dl n hn).1,
          List.map_congr_left fun n hn => cquant5 (dok n hn).2.2.2.1 (dl n hn).2.1,
          List.map_congr_left fun n hn => cquant5 (dok n hn).2.2.2.2 (dl n hn).2.2]
    have h3 : anType (headAgain r.head) = anType r.head := by
      rcases r.head with _ | ⟨_ | _, _⟩ | _ <;> rfl
    have h4 : kind (dataAgain r.data) = kind r.data := by
      rcases r.data with _ | _ | _ <;> rfl
    unfold readBack common
    simp only [again, h1, h2, h3, h4, strip_strip]

end DS55
end Verif
