import Verif.Lemmas.Repeat
import Verif.Model.Alias
import Verif.Props.Optional
import Verif.Props.Required
/-
C65: writing a dictionary again.
-/
namespace Verif
open W (Later pre_later set_same Again)

theorem dispatch_int (t : Val) : (∀ e fd, writeDispatch e fd t = W.raise .unmodelled) ∨
    ∃ n : Int, (t.numEq 151 = false → n ≠ 151) ∧ ∀ e fd, writeDispatch e fd t = writeDispatch e fd (.int n) := by
  by_cases ht : (∃ l, t = .arrI l) ∨ (∃ l, t = .arrF l) ∨ (∃ l, t = .arrC l) ∨ ∃ l, t = .mat l
  · left
    intro e fd
    rcases ht with ⟨l, rfl⟩ | ⟨l, rfl⟩ | ⟨l, rfl⟩ | ⟨l, rfl⟩ <;> rfl
  right
  have he : ∀ e fd, writeDispatch e fd t =
    if t.numEq 15 then W.none write15
    else if t.numEq 18 then W.none write18
    else if t.numEq 55 then W.none write55
    else if t.numEq 58 then write58 e.little fd
    else if t.numEq 82 then W.none write82
    else if t.numEq 151 then W.none (write151 (e.clock 0).1 (e.clock 0).2)
    else if t.numEq 164 then W.none write164
    else if t.numEq 1858 then W.none write1858
    else if t.numEq 2400 then W.none write2400
    else if t.numEq 2411 then W.none write2411
    else if t.numEq 2412 then W.none write2412
    else if t.numEq 2414 then W.none write2414
    else if t.numEq 2420 then W.none write2420
    else if t.numEq 2429 then W.none write2429
    else if t.numEq 2467 then W.none write2467
    else W.pure Option.none := by
    intro e fd
    cases t <;> first
      | rfl
      | exact absurd (by simp) ht
  by_cases h1 : t.numEq 15 = true
  · exact ⟨15, fun _ => by decide, fun e fd => by rw [he, if_pos h1]; rfl⟩
  by_cases h2 : t.numEq 18 = true
  · exact ⟨18, fun _ => by decide, fun e fd => by rw [he, if_neg h1, if_pos h2]; rfl⟩
  by_cases h3 : t.numEq 55 = true
  · exact ⟨55, fun _ => by decide, fun e fd => by rw [he, if_neg h1, if_neg h2, if_pos h3]; rfl⟩
  by_cases h4 : t.numEq 58 = true
  · exact ⟨58, fun _ => by decide, fun e fd => by rw [he, if_neg h1, if_neg h2, if_neg h3, if_pos h4]; rfl⟩
  by_cases h5 : t.numEq 82 = true
  · exact ⟨82, fun _ => by decide, fun e fd => by rw [he, if_neg h1, if_neg h2, if_neg h3, if_neg h4, if_pos h5]; rfl⟩
  by_cases h6 : t.numEq 151 = true
  · exact ⟨151, by rw [h6]; decide, fun e fd => by rw [he, if_neg h1, if_neg h2, if_neg h3, if_neg h4, if_neg h5, if_pos h6]; rfl⟩
  by_cases h7 : t.numEq 164 = true
  · exact ⟨164, fun _ => by decide, fun e fd => by simp only [he, h1, h2, h3, h4, h5, h6, h7]; rfl⟩
  by_cases h8 : t.numEq 1858 = true
  · exact ⟨1858, fun _ => by decide, fun e fd => by simp only [he, h1, h2, h3, h4, h5, h6, h7, h8]; rfl⟩
  by_cases h9 : t.numEq 2400 = true
  · exact ⟨2400, fun _ => by decide, fun e fd => by simp only [he, h1, h2, h3, h4, h5, h6, h7, h8, h9]; rfl⟩
  by_cases h10 : t.numEq 2411 = true
  · exact ⟨2411, fun _ => by decide, fun e fd => by simp only [he, h1, h2, h3, h4, h5, h6, h7, h8, h9, h10]; rfl⟩
  by_cases h11 : t.numEq 2412 = true
  · exact ⟨2412, fun _ => by decide, fun e fd => by simp only [he, h1, h2, h3, h4, h5, h6, h7, h8, h9, h10, h11]; rfl⟩
  by_cases h12 : t.numEq 2414 = true
  · exact ⟨2414, fun _ => by decide, fun e fd => by simp only [he, h1, h2, h3, h4, h5, h6, h7, h8, h9, h10, h11, h12]; rfl⟩
  by_cases h13 : t.numEq 2420 = true
  · exact ⟨2420, fun _ => by decide, fun e fd => by simp only [he, h1, h2, h3, h4, h5, h6, h7, h8, h9, h10, h11, h12, h13]; rfl⟩
  by_cases h14 : t.numEq 2429 = true
  · exact ⟨2429, fun _ => by decide, fun e fd => by simp only [he, h1, h2, h3, h4, h5, h6, h7, h8, h9, h10, h11, h12, h13, h14]; rfl⟩
  by_cases h15 : t.numEq 2467 = true
  · exact ⟨2467, fun _ => by decide, fun e fd => by simp only [he, h1, h2, h3, h4, h5, h6, h7, h8, h9, h10, h11, h12, h13, h14, h15]; rfl⟩
  · exact ⟨0, fun _ => by decide, fun e fd => by simp only [he, h1, h2, h3, h4, h5, h6, h7, h8, h9, h10, h11, h12, h13, h14, h15]; rfl⟩

theorem none_again {m m' : W Unit} {d : Dict} (h : m' (m d).dict = m d) :
    (W.none m' : W (Option Bytes)) ((W.none m : W (Option Bytes)) d).dict = W.none m d := by
  show W.none m' (m d).dict = W.none m d
  unfold W.none
  rw [h]

theorem dispatch_again (e e' : Env) (he : e'.little = e.little) (fd : Bool) (n : Int) (d : Dict) :
    writeDispatch e' fd (.int n) (writeDispatch e fd (.int n) d).dict = writeDispatch e fd (.int n) d := by
  by_cases hn : n ∉ supported
  · rw [dispatch_unsupported e fd _ hn, dispatch_unsupported e' fd _ hn]; rfl
  have hn : n ∈ supported := not_not.1 hn
  simp only [supported, List.mem_cons, List.not_mem_nil, or_false] at hn
  rcases hn with rfl | rfl | rfl | rfl | rfl | rfl | rfl | rfl | rfl | rfl | rfl | rfl | rfl | rfl | rfl
  · rw [disp15, disp15]; exact none_again (idem15 d).1
  · rw [disp18, disp18]; exact none_again (idem18 d).1
  · rw [disp55, disp55]; exact none_again (idem55 d).1
  · rw [disp58, disp58, he]; exact (idem58 _ _ d).1
  · rw [disp82, disp82]; exact none_again (idem82 d).1
  · rw [disp151, disp151]; exact none_again (again151 _ _ _ _ d)
  · rw [disp164, disp164]; exact none_again (idem164 d).1
  · rw [disp1858, disp1858]; exact none_again (idem1858 d).1
  · rw [disp2400, disp2400]; exact none_again (idem2400 d).1
  · rw [disp2411, disp2411]; exact none_again (idem2411 d).1
  · rw [disp2412, disp2412]; exact none_again (idem2412 d).1
  · rw [disp2414, disp2414]; exact none_again (idem2414 d).1
  · rw [disp2420, disp2420]; exact none_again (idem2420 d).1
  · rw [disp2429, disp2429]; exact none_again (idem2429 d).1
  · rw [disp2467, disp2467]; exact none_again (idem2467 d).1

theorem dispatch_later (e : Env) (fd : Bool) (n : Int) (d : Dict) : Later replacedKeys d (writeDispatch e fd (.int n) d).dict := by
  by_cases hn : n ∉ supported
  · rw [dispatch_unsupported e fd _ hn]; exact (pre_later _).refl d
  have hn : n ∈ supported := not_not.1 hn
  simp only [supported, List.mem_cons, List.not_mem_nil, or_false] at hn
  rcases hn with rfl | rfl | rfl | rfl | rfl | rfl | rfl | rfl | rfl | rfl | rfl | rfl | rfl | rfl | rfl
  · rw [disp15, none_dict rfl]; exact (idem15 d).2
  · rw [disp18, none_dict rfl]; exact (idem18 d).2
  · rw [disp55, none_dict rfl]; exact (idem55 d).2
  · rw [disp58]; exact (idem58 _ _ d).2
  · rw [disp82, none_dict rfl]; exact (idem82 d).2
  · rw [disp151, none_dict (dict151 _ _ d)]
    refine optLater d ?_
    simp [opt151, Dict.get?]
  · rw [disp164, none_dict rfl]; exact (idem164 d).2
  · rw [disp1858, none_dict rfl]; exact (idem1858 d).2
  · rw [disp2400, none_dict rfl]; exact (idem2400 d).2
  · rw [disp2411, none_dict rfl]; exact (idem2411 d).2
  · rw [disp2412, none_dict rfl]; exact (idem2412 d).2
  · rw [disp2414, none_dict rfl]; exact (idem2414 d).2
  · rw [disp2420, none_dict rfl]; exact (idem2420 d).2
  · rw [disp2429, none_dict rfl]; exact (idem2429 d).2
  · rw [disp2467, none_dict rfl]; exact (idem2467 d).2

theorem nanToNum_twice (x : F64) : x.nanToNum.nanToNum = x.nanToNum := by
  unfold F64.nanToNum
  by_cases h1 : x.isNaN = true
  · rw [if_pos h1]; rfl
  · rw [if_neg h1]
    by_cases h2 : x.isInf = true
    · rw [if_pos h2]; cases x.neg <;> rfl
    · rw [if_neg h2, if_neg h1, if_neg h2]

theorem map_ok {α β : Type} {r : Res α} {g : α → β} {y : β} (h : r.map g = .ok y) : ∃ a, r = .ok a ∧ g a = y := by
  cases r with
  | error e => cases h
  | ok a => exact ⟨a, rfl, by injection h⟩

theorem clean_twice {v y : Val} (h : nanToNumV v = .ok y) : nanToNumV y = .ok y := by
  have m1 : ∀ l : List F64, (l.map F64.nanToNum).map F64.nanToNum = l.map F64.nanToNum := by
    intro l; rw [List.map_map]; exact List.map_congr_left fun x _ => nanToNum_twice x
  have m2 : ∀ l : List (F64 × F64), (l.map fun z => (z.1.nanToNum, z.2.nanToNum)).map (fun z => (z.1.nanToNum, z.2.nanToNum)) =
      l.map fun z => (z.1.nanToNum, z.2.nanToNum) := by
    intro l; rw [List.map_map]; exact List.map_congr_left fun x _ => by simp only [Function.comp, nanToNum_twice]
  cases v with
  | float x => cases h; simp only [nanToNumV, nanToNum_twice]
  | cplx x z => cases h; simp only [nanToNumV, nanToNum_twice]
  | arrF l => cases h; simp only [nanToNumV, m1]
  | arrC l => cases h; simp only [nanToNumV, m2]
  | mat l =>
    cases h
    simp only [nanToNumV, List.map_map]
    refine congrArg _ (congrArg _ (List.map_congr_left fun r _ => ?_))
    exact m1 r
  | list l =>
    have h : nanToNumList l = .ok y := h
    have one : ∀ {β : Type} {f : Val → Res β} {l : List Val} {r : List β} {g : β → β}, mapRes f l = .ok r →
        (∀ v b, f v = .ok b → g b = b) → r.map g = r := by
      intro β f l r g hr hg
      induction l generalizing r with
      | nil => cases hr; rfl
      | cons a l ih =>
        unfold mapRes at hr
        cases ha : f a with
        | error e => rw [ha] at hr; cases hr
        | ok b =>
          rw [ha] at hr
          cases hl : mapRes f l with
          | error e => rw [hl] at hr; cases hr
          | ok r' =>
            rw [hl] at hr
            cases hr
            simp only [List.map_cons, hg a b ha, ih hl]
    unfold nanToNumList at h
    split at h
    · cases h; rfl
    · obtain ⟨r, hm, rfl⟩ := map_ok h; rfl
    · obtain ⟨r, hm, rfl⟩ := map_ok h
      simp only [nanToNumV]
      rw [one hm]
      intro v b hb
      cases v <;> simp only [reduceCtorEq, Except.ok.injEq] at hb
      subst hb
      exact nanToNum_twice _
    · obtain ⟨r, hm, rfl⟩ := map_ok h
      simp only [nanToNumV]
      rw [one hm]
      intro v b hb
      cases v <;> simp only [reduceCtorEq, Except.ok.injEq] at hb
      subst hb
      simp only [nanToNum_twice]
    · cases h
  | _ => cases h; rfl

/-- The heart of C65: a dictionary that a writer has had in its hands is written again, at any time, exactly as it was written the
first time, and is not changed any more; the same if the writer raised. -/
theorem body_again (e e' : Env) (he : e'.little = e.little) (fd : Bool) (d : Dict) :
    writeBody e' fd (writeBody e fd d).dict = writeBody e fd d := by
  unfold writeBody
  cases ht : d.get? "type" with
  | none => simp only [ht]
  | some t =>
    simp only
    cases hc : cleanData d with
    | error x => simp only [ht, hc]
    | ok d' =>
      simp only
      have ht' : d'.get? "type" = some t := by rw [cleanData_get hc _ (by decide)]; exact ht
      have key : ∀ D, Later replacedKeys d' D → (d'.get? "data" = none → D.get? "data" = none) → D.get? "type" = some t ∧ cleanData D = .ok D := by
        intro D hD hn
        refine ⟨hD.kept _ _ (by decide) ht', ?_⟩
        unfold cleanData
        cases hy : d'.get? "data" with
        | none => rw [hn hy]
        | some y =>
          rw [hD.kept _ _ (by decide) hy]
          have : nanToNumV y = .ok y := by
            unfold cleanData at hc
            cases hv : d.get? "data" with
            | none => rw [hv] at hc; cases hc; rw [hv] at hy; cases hy
            | some v =>
              rw [hv] at hc
              simp only at hc
              cases hq : nanToNumV v with
              | error e => rw [hq] at hc; cases hc
              | ok y' =>
                rw [hq] at hc
                have : d.set "data" y' = d' := by injection hc
                subst this
                rw [Dict.get?_set_self] at hy
                cases hy
                exact clean_twice hq
          simp only [this, Except.map]
          rw [set_same (hD.kept _ _ (by decide) hy)]
      rcases dispatch_int t with h | ⟨n, -, h⟩
      · obtain ⟨h1, h2⟩ := key d' ((pre_later _).refl _) (fun h => h)
        have e1 : ∀ e, writeDispatch e fd t d' = ⟨[], d', .error .unmodelled⟩ := fun e => by rw [h]; rfl
        rw [e1]
        simp only
        rw [h1, h2]
        simp only
        rw [e1]
      · obtain ⟨h1, h2⟩ := key (writeDispatch e fd t d').dict (by rw [h]; exact dispatch_later e fd n d') (by
          intro hn
          rw [h]
          by_contra hne
          rcases (grown_writers e fd n d').new _ hne with hh | hh
          · exact hh hn
          · revert hh; decide)
        rw [h1, h2]
        simp only
        rw [h, h]
        exact dispatch_again e e' he fd n d'

theorem set_again {w w' : World} {e e' : Env} (he : e'.little = e.little) {fd over over' : Bool} {d : Dict} :
    w'.writeSet e' fd over' (w.writeSet e fd over d).2.1 = w'.writeSet e fd over' d := by
  have h1 : (w.writeSet e fd over d).2.1 = (writeBody e fd d).dict := by
    unfold World.writeSet
    simp only
    cases (writeBody e fd d).res <;> rfl
  rw [h1]
  unfold World.writeSet
  rw [body_again e e' he fd d]

theorem set_same_kind {w w' : World} {e : Env} {fd over over' : Bool} {d : Dict} : (w.writeSet e fd over d).2.2 = (w'.writeSet e fd over' d).2.2 := by
  unfold World.writeSet
  simp only
  cases (writeBody e fd d).res <;> rfl

theorem addAll_again {fd : Bool} : ∀ (ds : List Dict) (w w' : World) (e e' : Env), e'.little = e.little →
    World.addAll w' e' fd (World.addAll w e fd ds).2.1 = World.addAll w' e fd ds
  | [], _, _, _, _, _ => rfl
  | d :: ds, w, w', e, e', he => by
    have h1 := set_again (w := w) (w' := w') (over := false) (over' := false) (fd := fd) (d := d) he
    have h2 := set_same_kind (w := w) (w' := w') (over := false) (over' := false) (e := e) (fd := fd) (d := d)
    simp only [World.addAll]
    rcases hw : w.writeSet e fd false d with ⟨w1, d1, r⟩
    rcases hw' : w'.writeSet e fd false d with ⟨w2, d2, r'⟩
    rw [hw] at h1 h2
    rw [hw'] at h1 h2
    simp only at h1 h2
    subst h2
    cases r with
    | error x => simp only [World.addAll, h1]
    | ok u =>
      simp only [World.addAll, h1]
      rw [addAll_again ds w1 w2 e.next e'.next he]

/-- The modes there are. -/
def knownMode (mode : Text) : Prop := lower mode = "add".toList ∨ lower mode = "overwrite".toList

theorem writeSets_cons {w : World} {e : Env} {mode : Text} {fd : Bool} {d : Dict} {ds : List Dict} (hm : knownMode mode) :
    ∃ over, w.writeSets e mode fd (d :: ds) = (match w.writeSet e fd over d with
      | (w', d', .ok ()) => ((World.addAll w' e.next fd ds).1, d' :: (World.addAll w' e.next fd ds).2.1, (World.addAll w' e.next fd ds).2.2)
      | (w', d', .error x) => (w', d' :: ds, .error x)) ∧ over = decide (lower mode = "overwrite".toList) := by
  refine ⟨_, ?_, rfl⟩
  unfold World.writeSets
  simp only
  by_cases ho : lower mode = "overwrite".toList
  · rw [if_pos ho, decide_eq_true ho]
    rcases w.writeSet e fd true d with ⟨w1, d1, r⟩
    cases r <;> rfl
  · rw [if_neg ho, decide_eq_false ho, if_pos (hm.resolve_right ho)]
    simp only [World.addAll]
    rcases w.writeSet e fd false d with ⟨w1, d1, r⟩
    cases r <;> rfl

/-- C65: the dictionaries that a call leaves to the caller, written again anywhere, at any later time and in any mode, do to the file
exactly what the original ones would have done at the time of the first call, with the same outcome, and are not changed any more.
It does not matter what the dictionaries contain and whether the call succeeded. -/
theorem C65_again (w w' : World) (e e' : Env) (he : e'.little = e.little) (mode mode' : Text) (hm : knownMode mode) (fd : Bool)
    (ds : List Dict) : w'.writeSets e' mode' fd (w.writeSets e mode fd ds).2.1 = w'.writeSets e mode' fd ds ∨
      (¬ knownMode mode' ∧ (w'.writeSets e' mode' fd (w.writeSets e mode fd ds).2.1).1 = w' ∧ (w'.writeSets e mode' fd ds).1 = w') := by
  by_cases hm' : knownMode mode'
  · left
    cases ds with
    | nil => rfl
    | cons d ds =>
      obtain ⟨over, h, -⟩ := writeSets_cons (w := w) (e := e) (fd := fd) (d := d) (ds := ds) hm
      rw [h]
      obtain ⟨over', h', ho'⟩ := writeSets_cons (w := w') (e := e) (fd := fd) (d := d) (ds := ds) hm'
      rw [h']
      have h1 := set_again (w := w) (w' := w') (over := over) (over' := over') (fd := fd) (d := d) he
      have h2 := set_same_kind (w := w) (w' := w') (over := over) (over' := over') (e := e) (fd := fd) (d := d)
      rcases hw : w.writeSet e fd over d with ⟨w1, d1, r⟩
      rcases hw' : w'.writeSet e fd over' d with ⟨w2, d2, r'⟩
      rw [hw] at h1 h2
      rw [hw'] at h1 h2
      simp only at h1 h2
      subst h2
      cases r with
      | error x =>
        simp only
        obtain ⟨o2, h'', ho''⟩ := writeSets_cons (w := w') (e := e') (fd := fd) (d := d1) (ds := ds) hm'
        rw [h'', ho'', ← ho', h1]
      | ok u =>
        simp only
        obtain ⟨o2, h'', ho''⟩ := writeSets_cons (w := w') (e := e') (fd := fd) (d := d1) (ds := (World.addAll w1 e.next fd ds).2.1) hm'
        rw [h'', ho'', ← ho', h1]
        simp only
        rw [addAll_again ds w1 w2 e.next e'.next he]
  · right
    refine ⟨hm', ?_, ?_⟩
    all_goals
      unfold World.writeSets
      split
      · rfl
      · rw [if_neg (fun h => hm' (.inr h)), if_neg (fun h => hm' (.inl h))]

/-- The text of a data-set does not depend on the time: the clock stands still or the dictionary is not a header (type 151). -/
def Steady (e : Env) (d : Dict) : Prop := (∀ i, e.clock i = e.clock 0) ∨ ∀ t, d.get? "type" = some t → t.numEq 151 = false

theorem Steady.next {e : Env} {d : Dict} (h : Steady e d) : Steady e.next d :=
  h.imp (fun h i => by show e.clock (i + 1) = e.clock 1; rw [h, h 1]) id

theorem body_time {e : Env} {fd : Bool} {d : Dict} (h : Steady e d) : writeBody e.next fd d = writeBody e fd d := by
  unfold writeBody
  cases ht : d.get? "type" with
  | none => rfl
  | some t =>
    simp only
    have hd : writeDispatch e.next fd t = writeDispatch e fd t := by
      rcases h with h | h
      · have : e.next = e := by
          cases e
          simp only [Env.next, Env.mk.injEq, true_and]
          funext i
          exact (h (i + 1)).trans (h i).symm
        rw [this]
      · rcases dispatch_int t with h' | ⟨n, hn, h'⟩
        · rw [h', h']
        · rw [h', h']
          have hn := hn (h t ht)
          by_cases hs : n ∉ supported
          · rw [dispatch_unsupported e fd _ hs, dispatch_unsupported e.next fd _ hs]
          have hs : n ∈ supported := not_not.1 hs
          simp only [supported, List.mem_cons, List.not_mem_nil, or_false] at hs
          rcases hs with rfl | rfl | rfl | rfl | rfl | rfl | rfl | rfl | rfl | rfl | rfl | rfl | rfl | rfl | rfl
          · rw [disp15, disp15]
          · rw [disp18, disp18]
          · rw [disp55, disp55]
          · rw [disp58, disp58]; rfl
          · rw [disp82, disp82]
          · exact absurd rfl hn
          · rw [disp164, disp164]
          · rw [disp1858, disp1858]
          · rw [disp2400, disp2400]
          · rw [disp2411, disp2411]
          · rw [disp2412, disp2412]
          · rw [disp2414, disp2414]
          · rw [disp2420, disp2420]
          · rw [disp2429, disp2429]
          · rw [disp2467, disp2467]
    cases cleanData d with
    | error x => rfl
    | ok d' => exact congrFun hd d'

theorem writeSet_dict (w : World) (e : Env) (fd over : Bool) (d : Dict) : (w.writeSet e fd over d).2.1 = (writeBody e fd d).dict := by
  unfold World.writeSet
  simp only
  cases (writeBody e fd d).res <;> rfl

/-- What an object holds while the list is being written: its content before the call, or that after its first writing. -/
def Seen (s₀ s : Heap) (e : Env) (fd : Bool) (l : List Nat) : Prop :=
  ∀ i ∈ l, s i = s₀ i ∨ s i = (writeBody e fd (s₀ i)).dict

theorem seen_set {w : World} {s₀ s : Heap} {e : Env} {fd over : Bool} {i : Nat}
    (h : s i = s₀ i ∨ s i = (writeBody e fd (s₀ i)).dict) : w.writeSet e fd over (s i) = w.writeSet e fd over (s₀ i) := by
  rcases h with h | h
  · rw [h]
  · rw [h, ← writeSet_dict w e fd over (s₀ i)]
    exact set_again rfl

theorem seen_next {w : World} {s₀ s : Heap} {e : Env} {fd over : Bool} {i : Nat} {r : List Nat} (ht : ∀ j ∈ i :: r, Steady e (s₀ j))
    (h : Seen s₀ s e fd (i :: r)) : Seen s₀ (s.put i (w.writeSet e fd over (s₀ i)).2.1) e.next fd r := by
  intro j hj
  rw [body_time (ht j (List.mem_cons_of_mem _ hj))]
  unfold Heap.put
  by_cases hji : j = i
  · rw [if_pos hji, hji, writeSet_dict]; exact .inr rfl
  · rw [if_neg hji]; exact h j (List.mem_cons_of_mem _ hj)

theorem refs_all {s₀ : Heap} {fd : Bool} : ∀ (l : List Nat) (w : World) (s : Heap) (e : Env), (∀ i ∈ l, Steady e (s₀ i)) →
    Seen s₀ s e fd l → (w.addRefs s e fd l).1 = (w.addAll e fd (l.map s₀)).1 ∧ (w.addRefs s e fd l).2.2 = (w.addAll e fd (l.map s₀)).2.2
  | [], _, _, _, _, _ => ⟨rfl, rfl⟩
  | i :: r, w, s, e, ht, hs => by
    have h1 := seen_set (w := w) (over := false) (hs i (List.mem_cons_self ..))
    have h2 := seen_next (w := w) (over := false) ht hs
    simp only [World.addRefs, List.map_cons, World.addAll, h1]
    rcases hw : w.writeSet e fd false (s₀ i) with ⟨w1, d1, x⟩
    rw [hw] at h2
    cases x with
    | error x => exact ⟨rfl, rfl⟩
    | ok u => exact refs_all r w1 _ e.next (fun j hj => (ht j (List.mem_cons_of_mem _ hj)).next) h2

/-- C65: it does not matter whether the dictionaries given to `write_sets` are distinct objects: giving the same object several times
does to the file what as many copies of it would have done, and ends in the same way, although the writers change the object between its
occurrences.  Only headers (type 151) written while the clock moves on are left out. -/
theorem C65_alias (w : World) (s : Heap) (e : Env) (mode : Text) (fd : Bool) (l : List Nat) (ht : ∀ i ∈ l, Steady e (s i)) :
    (w.writeRefs s e mode fd l).1 = (w.writeSets e mode fd (l.map s)).1 ∧
      (w.writeRefs s e mode fd l).2.2 = (w.writeSets e mode fd (l.map s)).2.2 := by
  have hs : Seen s s e fd l := fun _ _ => .inl rfl
  cases l with
  | nil => exact ⟨rfl, rfl⟩
  | cons i r =>
    unfold World.writeRefs World.writeSets
    simp only [List.map_cons]
    by_cases ho : lower mode = "overwrite".toList
    · rw [if_pos ho, if_pos ho]
      have h2 := seen_next (w := w) (over := true) ht hs
      rcases hw : w.writeSet e fd true (s i) with ⟨w1, d1, x⟩
      rw [hw] at h2
      cases x with
      | error x => exact ⟨rfl, rfl⟩
      | ok u => exact refs_all r w1 _ e.next (fun j hj => (ht j (List.mem_cons_of_mem _ hj)).next) h2
    · rw [if_neg ho, if_neg ho]
      by_cases ha : lower mode = "add".toList
      · rw [if_pos ha, if_pos ha]; exact refs_all (i :: r) w s e ht hs
      · rw [if_neg ha, if_neg ha]; exact ⟨rfl, rfl⟩

theorem map_put {s : Heap} {i : Nat} {d : Dict} {r : List Nat} (h : i ∉ r) : r.map (s.put i d) = r.map s :=
  List.map_congr_left fun j hj => if_neg (fun hji : j = i => h (hji ▸ hj))

theorem put_self (s : Heap) (i : Nat) (d : Dict) : s.put i d i = d := if_pos rfl

theorem refs_nodup {fd : Bool} : ∀ (l : List Nat) (w : World) (s : Heap) (e : Env), l.Nodup →
    (w.addRefs s e fd l).1 = (w.addAll e fd (l.map s)).1 ∧ l.map (w.addRefs s e fd l).2.1 = (w.addAll e fd (l.map s)).2.1 ∧
      (w.addRefs s e fd l).2.2 = (w.addAll e fd (l.map s)).2.2 ∧ ∀ j, j ∉ l → (w.addRefs s e fd l).2.1 j = s j
  | [], _, _, _, _ => ⟨rfl, rfl, rfl, fun _ _ => rfl⟩
  | i :: r, w, s, e, hl => by
    obtain ⟨hi, hr⟩ := List.nodup_cons.1 hl
    simp only [World.addRefs, List.map_cons, World.addAll]
    rcases hw : w.writeSet e fd false (s i) with ⟨w1, d1, x⟩
    cases x with
    | error x =>
      refine ⟨rfl, ?_, rfl, fun j hj => if_neg (fun h : j = i => hj (h ▸ List.mem_cons_self ..))⟩
      simp only
      rw [map_put hi, put_self]
    | ok u =>
      obtain ⟨h1, h2, h3, h4⟩ := refs_nodup (fd := fd) r w1 (s.put i d1) e.next hr
      rw [map_put hi] at h1 h2 h3
      simp only
      refine ⟨h1, ?_, h3, fun j hj => ?_⟩
      · rw [h2, h4 i hi, put_self]
      · rw [h4 j (fun h => hj (List.mem_cons_of_mem _ h))]
        exact if_neg (fun h : j = i => hj (h ▸ List.mem_cons_self ..))

/-- C65, distinct objects: then nothing is left out, each object ends with the content of its own dictionary, and no other object of the
caller is touched. -/
theorem C65_distinct (w : World) (s : Heap) (e : Env) (mode : Text) (fd : Bool) (l : List Nat) (hl : l.Nodup) :
    (w.writeRefs s e mode fd l).1 = (w.writeSets e mode fd (l.map s)).1 ∧
      l.map (w.writeRefs s e mode fd l).2.1 = (w.writeSets e mode fd (l.map s)).2.1 ∧
      (w.writeRefs s e mode fd l).2.2 = (w.writeSets e mode fd (l.map s)).2.2 ∧
      ∀ j, j ∉ l → (w.writeRefs s e mode fd l).2.1 j = s j := by
  cases l with
  | nil => exact ⟨rfl, rfl, rfl, fun _ _ => rfl⟩
  | cons i r =>
    obtain ⟨hi, hr⟩ := List.nodup_cons.1 hl
    unfold World.writeRefs World.writeSets
    simp only [List.map_cons]
    by_cases ho : lower mode = "overwrite".toList
    · rw [if_pos ho, if_pos ho]
      rcases hw : w.writeSet e fd true (s i) with ⟨w1, d1, x⟩
      cases x with
      | error x =>
        refine ⟨rfl, ?_, rfl, fun j hj => if_neg (fun h : j = i => hj (h ▸ List.mem_cons_self ..))⟩
        simp only
        rw [map_put hi, put_self]
      | ok u =>
        obtain ⟨h1, h2, h3, h4⟩ := refs_nodup (fd := fd) r w1 (s.put i d1) e.next hr
        rw [map_put hi] at h1 h2 h3
        simp only
        refine ⟨h1, ?_, h3, fun j hj => ?_⟩
        · rw [h2, h4 i hi, put_self]
        · rw [h4 j (fun h => hj (List.mem_cons_of_mem _ h))]
          exact if_neg (fun h : j = i => hj (h ▸ List.mem_cons_self ..))
    · rw [if_neg ho, if_neg ho]
      by_cases ha : lower mode = "add".toList
      · rw [if_pos ha, if_pos ha]; exact refs_nodup (i :: r) w s e hl
      · rw [if_neg ha, if_neg ha]; exact ⟨rfl, rfl, rfl, fun _ _ => rfl⟩

/-- A clock that moves on. -/
def exTicks : Env := ⟨true, fun i => (List.replicate (i + 1) 'd', List.replicate (i + 1) 't')⟩

/-- C65 fails for headers while the clock moves on: the second writing of the same object keeps the dates of the first, the second
of two copies does not. -/
theorem C65_negation : ∃ (e : Env) (s : Heap) (l : List Nat), ((World.new none).writeRefs s e "add".toList true l).2.2 = .ok () ∧
    ((World.new none).writeSets e "add".toList true (l.map s)).2.2 = .ok () ∧
    ((World.new none).writeRefs s e "add".toList true l).1.file ≠ ((World.new none).writeSets e "add".toList true (l.map s)).1.file :=
  ⟨exTicks, fun _ => min151_0, [0, 0], by decide +kernel, by decide +kernel, by decide +kernel⟩

/-- The three dictionaries of the examples: one in which optional entries are missing, a header, and one that cannot be written. -/
def exHeap : Heap
  | 0 => min164_0
  | 1 => min151_0
  | _ => min164_0.filter fun p => p.1 ≠ "temp"

/-- The dictionaries do change, and what is written again is not nothing. -/
example : ((World.new none).writeSets exTicks "add".toList true [min164_0, min151_0]).2.1 ≠ [min164_0, min151_0] ∧
    ((World.new none).writeSets exTicks "overwrite".toList true
      ((World.new none).writeSets exTicks "add".toList true [min164_0, min151_0]).2.1).2.2 = .ok () :=
  ⟨by decide +kernel, by decide +kernel⟩
/-- The same object three times among others, the last of which fails. -/
example : (∀ i ∈ [0, 1, 0, 0, 1, 2, 0], Steady exEnv (exHeap i)) ∧
    ((World.new none).writeRefs exHeap exEnv "add".toList true [0, 1, 0, 0, 1, 2, 0]).2.2 ≠ .ok () ∧
    ((World.new none).writeRefs exHeap exEnv "add".toList true [0, 1, 0, 0, 1]).2.2 = .ok () :=
  ⟨fun _ _ => .inl fun _ => rfl, by decide +kernel, by decide +kernel⟩
/-- Without headers the clock may move on. -/
example : (∀ i ∈ [0, 0, 2], Steady exTicks (exHeap i)) ∧ (exTicks.clock 1 ≠ exTicks.clock 0) ∧
    ((World.new none).writeRefs exHeap exTicks "add".toList true [0, 0]).2.1 0 ≠ exHeap 0 := by
  refine ⟨fun i hi => .inr fun t ht => ?_, by decide, by decide +kernel⟩
  simp only [List.mem_cons, List.not_mem_nil, or_false] at hi
  rcases hi with rfl | rfl | rfl <;> cases ht <;> rfl

end Verif
