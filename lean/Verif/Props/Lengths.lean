import Verif.Lemmas.Same58
import Verif.Props.Number
/-
C64: entries that do not have one value for each item.
-/
namespace Verif
open W (Fails Sim fails_none)

theorem short_dispatch {e : Env} {fd : Bool} {t : Int} {c : String} {ks : List String} (hks : itemKeys t = some (c, ks)) {u : Val}
    {n m : Nat} (hu : seqLength u = some n) (hm : m < n) : ∀ k ∈ ks, (.s k : Key) ≠ "data" ∧ (.s c : Key) ≠ "data" ∧
    Fails (Entry (.s k) (fun v => seqLength v = some m) (.s c) u) (writeDispatch e fd (.int t)) := by
  intro k hk
  have weak : ∀ {α} {Q Q' : Val → Prop} {f : W α}, (∀ v, Q v → Q' v) → Fails (Entry (.s k) Q' (.s c) u) f →
      Fails (Entry (.s k) Q (.s c) u) f := fun hq hf d hd => hf d ⟨by
    obtain ⟨v, hv, h⟩ := hd.1
    exact ⟨v, hv, hq v h⟩, hd.2⟩
  have hq : ∀ v, seqLength v = some m → NoItem m v := fun v h => ⟨m, h, Nat.le_refl _⟩
  unfold itemKeys at hks
  split at hks
  all_goals first
    | cases hks; done
    | (simp only [Option.some.injEq, Prod.mk.injEq] at hks
       obtain ⟨rfl, rfl⟩ := hks
       refine ⟨by rintro ⟨⟩; revert hk; decide, by decide, ?_⟩)
  · rw [disp15]; exact weak hq (fails_none (short15 hu hm k hk))
  · rw [disp18]; exact weak hq (fails_none (short18 hu hm k hk))
  · rw [disp55]; exact weak hq (fails_none (short55 hu hm k hk))
  · rw [disp2411]; exact weak hq (fails_none (short2411 hu hm k hk))
  · rw [disp2420]; exact weak (fun v h => ⟨m, h, by omega⟩) (fails_none (differ2420 hu k hk))

/-- C64: a call fails when, in one of the dictionaries, an entry that has one value for each node, coordinate system, … has
fewer values than there are items. -/
theorem C64_short (w : World) (e : Env) (mode : Text) (fd : Bool) (ds : List Dict) (d : Dict) (t : Int) (c k : String)
    (ks : List String) (u v : Val) (n m : Nat) (hd : d ∈ ds) (ht : d.get? "type" = some (.int t))
    (hks : itemKeys t = some (c, ks)) (hk : k ∈ ks) (hu : d.get? (.s c) = some u) (hn : seqLength u = some n)
    (hv : d.get? (.s k) = some v) (hm : seqLength v = some m) (hmn : m < n) :
    ∃ x, (w.writeSets e mode fd ds).2.2 = .error x := by
  refine writeSets_fails (fun e' => ?_) ds w e mode hd
  obtain ⟨h1, h2, h3⟩ := short_dispatch (e := e') (fd := fd) hks hn hmn k hk
  exact body_num h1 h2 ht ⟨⟨v, hv, hm⟩, hu⟩ h3

/-- C64: for coordinate systems 2420 any other number of values is refused. -/
theorem C64_2420 (w : World) (e : Env) (mode : Text) (fd : Bool) (ds : List Dict) (d : Dict) (k : String) (u v : Val) (n m : Nat)
    (hd : d ∈ ds) (ht : d.get? "type" = some (.int 2420)) (hk : k ∈ ["CS_types", "CS_colors", "CS_names", "CS_matrices"])
    (hu : d.get? "CS_sys_labels" = some u) (hn : seqLength u = some n) (hv : d.get? (.s k) = some v) (hm : seqLength v = some m)
    (hmn : m ≠ n) : ∃ x, (w.writeSets e mode fd ds).2.2 = .error x := by
  refine writeSets_fails (fun e' => ?_) ds w e mode hd
  refine body_num (c := "CS_sys_labels") (Q := fun v => ∃ m, seqLength v = some m ∧ m ≠ n) ?_ (by decide) ht
    ⟨⟨v, hv, m, hm, hmn⟩, hu⟩ (by rw [disp2420]; exact fails_none (differ2420 hn k hk))
  rintro ⟨⟩
  revert hk
  decide

/-! Functions. -/

theorem list_length {l : List Val} {y : Val} (h : nanToNumList l = .ok y) : seqLength y = some l.length := by
  unfold nanToNumList at h
  have one : ∀ {α : Type} {f : Val → Res α} {l : List Val} {g : List α → Val}, (∀ r, seqLength (g r) = some r.length) →
      (mapRes f l).map g = .ok y → seqLength y = some l.length := by
    intro α f l g hg h
    cases hr : mapRes f l with
    | error e => rw [hr] at h; cases h
    | ok r =>
      rw [hr] at h
      have : g r = y := by injection h
      subst this
      rw [hg, mapRes_count hr]
  split at h
  · cases h; rfl
  · exact one (fun _ => rfl) h
  · exact one (fun _ => rfl) h
  · exact one (fun _ => rfl) h
  · cases h

theorem clean_length {v y : Val} {n : Nat} (h : nanToNumV v = .ok y) (hv : seqLength v = some n) : seqLength y = some n := by
  cases v <;> simp only [seqLength, reduceCtorEq, Option.some.injEq] at hv <;> subst hv <;>
    simp only [nanToNumV, Except.ok.injEq, reduceCtorEq] at h
  case list => exact list_length h
  all_goals subst h; simp [seqLength]

/-- C64: a function that is not evenly spaced is refused when the numbers of abscissas and of values differ. -/
theorem C64_uneven (w : World) (e : Env) (mode : Text) (fd : Bool) (ds : List Dict) (d : Dict) (x y : Val) (m n : Nat) (hd : d ∈ ds)
    (ht : d.get? "type" = some (.int 58)) (hx : d.get? "x" = some x) (hm : seqLength x = some m) (hy : d.get? "data" = some y)
    (hn : seqLength y = some n) (hs : ∀ s, d.get? "abscissa_spacing" = some s → s.truthy = .ok false) (h : m ≠ n) :
    ∃ x, (w.writeSets e mode fd ds).2.2 = .error x := by
  refine writeSets_fails (fun e' => ?_) ds w e mode hd
  unfold writeBody
  rw [ht]
  simp only
  cases hc : cleanData d with
  | error x => exact ⟨x, rfl⟩
  | ok d' =>
    simp only
    have hd' : Differ m n d' := by
      unfold cleanData at hc
      rw [hy] at hc
      simp only at hc
      cases hq : nanToNumV y with
      | error e => rw [hq] at hc; cases hc
      | ok y' =>
        rw [hq] at hc
        have : d.set "data" y' = d' := by injection hc
        subst this
        exact ⟨⟨x, by rw [Dict.get?_set_ne _ _ _ _ (by decide)]; exact hx, hm⟩, ⟨y', Dict.get?_set_self _ _ _, clean_length hq hn⟩,
          by rw [Dict.get?_set_ne _ _ _ _ (by decide)]; exact hs⟩
    rw [disp58]
    cases hr : (write58 e'.little fd d').res with
    | error x => exact ⟨x, rfl⟩
    | ok a => exact (differ58 h _ _ d' hd' a hr).elim

theorem sim_none {k c : Key} {u : Val} {n : Nat} {m : W Unit} {α : Type} (h : Sim k c u n m) : Sim k c u n (W.none m : W (Option α)) := by
  intro d d' hd
  obtain ⟨h1, h2, h3⟩ := h d d' hd
  exact ⟨h1, by show Except.map _ _ = Except.map _ _; rw [h2], h3⟩

/-- The same text and result. -/
theorem same_sets {fd : Bool} {d d' : Dict} (h : ∀ e, (writeBody e fd d).out = (writeBody e fd d').out ∧ (writeBody e fd d).res = (writeBody e fd d').res)
    (w : World) (e : Env) (mode : Text) (pre post : List Dict) :
    (w.writeSets e mode fd (pre ++ d :: post)).1 = (w.writeSets e mode fd (pre ++ d' :: post)).1 ∧
    (w.writeSets e mode fd (pre ++ d :: post)).2.2 = (w.writeSets e mode fd (pre ++ d' :: post)).2.2 := by
  have one : ∀ (w : World) e over, (w.writeSet e fd over d).1 = (w.writeSet e fd over d').1 ∧
      (w.writeSet e fd over d).2.2 = (w.writeSet e fd over d').2.2 := by
    intro w e over
    obtain ⟨h1, h2⟩ := h e
    unfold World.writeSet fileAfter
    simp only [h1, h2]
    cases (writeBody e fd d').res with
    | error x => exact ⟨rfl, rfl⟩
    | ok a => exact ⟨rfl, rfl⟩
  have first : ∀ (w : World) e over, let r := fun d => (match w.writeSet e fd over d with
        | (w', d1, .ok ()) => (let r := World.addAll w' e.next fd post; (r.1, d1 :: r.2.1, r.2.2) : World × List Dict × Res Unit)
        | (w', d1, .error x) => (w', d1 :: post, .error x))
      (r d).1 = (r d').1 ∧ (r d).2.2 = (r d').2.2 := by
    intro w e over
    obtain ⟨h1, h2⟩ := one w e over
    rcases hw : w.writeSet e fd over d with ⟨w1, d1, r1⟩
    rcases hw' : w.writeSet e fd over d' with ⟨w2, d2, r2⟩
    rw [hw, hw'] at h1 h2
    simp only at h1 h2
    subst h1 h2
    simp only [hw, hw']
    cases r1 with
    | error x => exact ⟨rfl, rfl⟩
    | ok a => exact ⟨rfl, rfl⟩
  have all : ∀ (pre : List Dict) (w : World) e, (World.addAll w e fd (pre ++ d :: post)).1 = (World.addAll w e fd (pre ++ d' :: post)).1 ∧
      (World.addAll w e fd (pre ++ d :: post)).2.2 = (World.addAll w e fd (pre ++ d' :: post)).2.2 := by
    intro pre
    induction pre with
    | nil => exact fun w e => first w e false
    | cons b pre ih =>
      intro w e
      simp only [List.cons_append, World.addAll]
      rcases hw : w.writeSet e fd false b with ⟨w1, d1, r1⟩
      cases r1 with
      | error x => exact ⟨rfl, rfl⟩
      | ok a => exact ih w1 e.next
  cases pre with
  | nil =>
    simp only [List.nil_append, World.writeSets]
    split
    · exact first w e true
    · split
      · exact all [] w e
      · exact ⟨rfl, rfl⟩
  | cons b pre =>
    simp only [List.cons_append, World.writeSets]
    split
    · rcases hw : w.writeSet e fd true b with ⟨w1, d1, r1⟩
      cases r1 with
      | error x => exact ⟨rfl, rfl⟩
      | ok a => exact all pre w1 e.next
    · split
      · exact all (b :: pre) w e
      · exact ⟨rfl, rfl⟩

theorem same_body {e : Env} {fd : Bool} {d : Dict} {k c : Key} {u v v' : Val} {n : Nat} {t : Int} (hkd : k ≠ "data") (hkt : k ≠ "type")
    (hck : c ≠ k) (hcd : c ≠ "data") (ht : d.get? "type" = some (.int t)) (hv : d.get? k = some v) (hu : d.get? c = some u)
    (hs : ∀ i < n, v.idx i = v'.idx i) (h : Sim k c u n (writeDispatch e fd (.int t))) :
    (writeBody e fd d).out = (writeBody e fd (d.set k v')).out ∧ (writeBody e fd d).res = (writeBody e fd (d.set k v')).res := by
  have h0 : SameFirst k c u n d (d.set k v') := ⟨fun q hq => (Dict.get?_set_ne _ _ _ _ (Ne.symm hq)).symm,
    ⟨v, v', hv, Dict.get?_set_self _ _ _, hs⟩, hu, by rw [Dict.get?_set_ne _ _ _ _ (Ne.symm hck)]; exact hu⟩
  have hdt : (d.set k v').get? "data" = d.get? "data" := (h0.others _ (Ne.symm hkd)).symm
  unfold writeBody cleanData
  rw [← h0.others _ (Ne.symm hkt), ht, hdt]
  simp only
  cases hq : d.get? "data" with
  | none =>
    simp only
    obtain ⟨h1, h2, -⟩ := h _ _ h0
    exact ⟨h1, h2⟩
  | some y =>
    simp only
    cases nanToNumV y with
    | error x => exact ⟨rfl, rfl⟩
    | ok y' =>
      have h1 : SameFirst k c u n (d.set "data" y') ((d.set k v').set "data" y') := by
        refine ⟨fun q hq => ?_, ⟨v, v', ?_, ?_, hs⟩, ?_, ?_⟩
        · by_cases hd : q = "data"
          · subst hd; rw [Dict.get?_set_self, Dict.get?_set_self]
          · rw [Dict.get?_set_ne _ _ _ _ (Ne.symm hd), Dict.get?_set_ne _ _ _ _ (Ne.symm hd)]; exact h0.others q hq
        · rw [Dict.get?_set_ne _ _ _ _ (Ne.symm hkd)]; exact hv
        · rw [Dict.get?_set_ne _ _ _ _ (Ne.symm hkd)]; exact Dict.get?_set_self _ _ _
        · rw [Dict.get?_set_ne _ _ _ _ (Ne.symm hcd)]; exact hu
        · rw [Dict.get?_set_ne _ _ _ _ (Ne.symm hcd)]; exact h0.count.2
      obtain ⟨h1, h2, -⟩ := h _ _ h1
      exact ⟨h1, h2⟩

theorem extra_dispatch {e : Env} {fd : Bool} {t : Int} {c : String} {ks : List String} (hks : extraKeys t = some (c, ks)) {u : Val}
    {n : Nat} (hu : seqLength u = some n) : ∀ k ∈ ks, (.s k : Key) ≠ "data" ∧ (.s k : Key) ≠ "type" ∧ (.s c : Key) ≠ .s k ∧
    (.s c : Key) ≠ "data" ∧ Sim (.s k) (.s c) u n (writeDispatch e fd (.int t)) := by
  intro k hk
  unfold extraKeys at hks
  split at hks
  all_goals first
    | cases hks; done
    | (simp only [Option.some.injEq, Prod.mk.injEq] at hks
       obtain ⟨rfl, rfl⟩ := hks
       refine ⟨by rintro ⟨⟩; revert hk; decide, by rintro ⟨⟩; revert hk; decide, by rintro ⟨⟩; revert hk; decide, by decide, ?_⟩)
  · rw [disp15]; exact sim_none (same15 hu)
  · rw [disp18]; exact sim_none (same18 hu)
  · rw [disp55]; exact sim_none (same55 hu k hk)
  · rw [disp2411]; exact sim_none (same2411 hu)

/-- C64: but values beyond the number of items are not refused: they are not looked at.  The call does the same to the file and
has the same outcome when they are others, or when they are left out. -/
theorem C64_extra (w : World) (e : Env) (mode : Text) (fd : Bool) (pre post : List Dict) (d : Dict) (t : Int) (c k : String)
    (ks : List String) (u v v' : Val) (n : Nat) (ht : d.get? "type" = some (.int t)) (hks : extraKeys t = some (c, ks)) (hk : k ∈ ks)
    (hu : d.get? (.s c) = some u) (hn : seqLength u = some n) (hv : d.get? (.s k) = some v) (hs : ∀ i < n, v.idx i = v'.idx i) :
    (w.writeSets e mode fd (pre ++ d :: post)).1 = (w.writeSets e mode fd (pre ++ d.set (.s k) v' :: post)).1 ∧
    (w.writeSets e mode fd (pre ++ d :: post)).2.2 = (w.writeSets e mode fd (pre ++ d.set (.s k) v' :: post)).2.2 := by
  refine same_sets (fun e' => ?_) w e mode pre post
  obtain ⟨h1, h2, h3, h4, h5⟩ := extra_dispatch (e := e') (fd := fd) hks hn k hk
  exact same_body h1 h2 h3 h4 ht hv hu hs h5

/-- C64: of the abscissas of an evenly spaced function only the first two are looked at: any number of them, with any other
values, gives the same file. -/
theorem C64_even (w : World) (e : Env) (mode : Text) (fd : Bool) (pre post : List Dict) (d : Dict) (s x x' : Val)
    (ht : d.get? "type" = some (.int 58)) (hs : d.get? "abscissa_spacing" = some s) (hst : s.truthy = .ok true)
    (hx : d.get? "x" = some x) (h : ∀ i < 2, x.idx i = x'.idx i) :
    (w.writeSets e mode fd (pre ++ d :: post)).1 = (w.writeSets e mode fd (pre ++ d.set "x" x' :: post)).1 ∧
    (w.writeSets e mode fd (pre ++ d :: post)).2.2 = (w.writeSets e mode fd (pre ++ d.set "x" x' :: post)).2.2 := by
  refine same_sets (fun e' => ?_) w e mode pre post
  exact same_body (by decide) (by decide) (by decide) (by decide) ht hx hs h (by rw [disp58]; exact same58 hst _ _)

/-- C64: a function with fewer than two abscissas is refused before anything is written, whatever its spacing: in mode 'add' the
file stays as it was. -/
theorem C64_few (w : World) (e : Env) (mode : Text) (fd : Bool) (d : Dict) (ds : List Dict) (x : Val) (m : Nat)
    (ht : d.get? "type" = some (.int 58)) (hx : d.get? "x" = some x) (hm : seqLength x = some m) (h2 : m < 2)
    (ha : lower mode = "add".toList) : ∃ err, (w.writeSets e mode fd (d :: ds)).2.2 = .error err ∧
      (w.writeSets e mode fd (d :: ds)).1 = ⟨some (w.file.getD []), w.obj⟩ := by
  have hb : (writeBody e fd d).out = [] ∧ ∃ x, (writeBody e fd d).res = .error x := by
    refine body_clean (c := "x") (by decide) ht hx fun d' hd' => ?_
    rw [disp58]
    exact few58 _ _ d' ⟨x, m, hd', hm, h2⟩
  obtain ⟨ho, err, hr⟩ := hb
  rw [refused_file ho hr (Or.inl ha), if_pos ha]
  exact ⟨err, rfl, rfl⟩

/-- Two nodes and one, two or three values of `z`. -/
def exTwoNodes (z : List F64) : Dict :=
  [((.s "type" : Key), Val.int 15), ("node_nums", .arrI [1, 2]), ("x", .arrF [fA, fB]), ("y", .arrF [fA, fB]), ("z", .arrF z)]

/-- A function with a given spacing and abscissas. -/
def exFn (even : Int) (x : List F64) : Dict := (min58_0.set "x" (.arrF x)).set "abscissa_spacing" (.int even)

example : ∃ x, ((World.new none).writeSets exEnv "add".toList true [min15_0, exTwoNodes [fA]]).2.2 = .error x :=
  C64_short _ _ _ _ _ (exTwoNodes [fA]) 15 "node_nums" "z" _ (.arrI [1, 2]) (.arrF [fA]) 2 1 (by simp) (by decide +kernel) rfl
    (by decide) (by decide +kernel) rfl (by decide +kernel) rfl (by decide)
example : ∃ x, ((World.new none).writeSets exEnv "add".toList true [min2420_0.set "CS_names" (.list [.str ['a'], .str ['b']])]).2.2 =
    .error x :=
  C64_2420 _ _ _ _ _ (min2420_0.set "CS_names" (.list [.str ['a'], .str ['b']])) "CS_names" (.list [.int 1]) (.list [.str ['a'], .str ['b']]) 1 2 (by simp)
    (by decide +kernel) (by decide) (by decide +kernel) rfl (by decide +kernel) rfl (by decide)
example : ∃ x, ((World.new none).writeSets exEnv "add".toList true [exFn 0 [fA, fB, fC]]).2.2 = .error x :=
  C64_uneven _ _ _ _ _ (exFn 0 [fA, fB, fC]) (.arrF [fA, fB, fC]) (.arrF [fA, fB]) 3 2 (by simp) (by decide +kernel)
    (by decide +kernel) rfl (by decide +kernel) rfl
    (by rw [show (exFn 0 [fA, fB, fC]).get? "abscissa_spacing" = some (.int 0) from by decide +kernel]; rintro s ⟨⟩; rfl) (by decide)
example : ∃ x, ((World.new none).writeSets exEnv "add".toList true [exFn 1 [fA]]).2.2 = .error x := by
  obtain ⟨x, hx, -⟩ := C64_few (World.new none) exEnv "add".toList true (exFn 1 [fA]) [] (.arrF [fA]) 1 (by decide +kernel)
    (by decide +kernel) rfl (by decide) (by decide)
  exact ⟨x, hx⟩

/-- C64: three values for two nodes are written without complaint, and the third is gone. -/
theorem C64_negation : ((World.new none).writeSets exEnv "add".toList true [exTwoNodes [fA, fB, fC]]).2.2 = .ok () ∧
    ((World.new none).writeSets exEnv "add".toList true [exTwoNodes [fA, fB, fC]]).1 =
      ((World.new none).writeSets exEnv "add".toList true [exTwoNodes [fA, fB]]).1 :=
  ⟨by decide +kernel, (C64_extra (World.new none) exEnv "add".toList true [] [] (exTwoNodes [fA, fB, fC]) 15 "node_nums" "z" _ (.arrI [1, 2])
    (.arrF [fA, fB, fC]) (.arrF [fA, fB]) 2 (by decide +kernel) rfl (by decide) (by decide +kernel) rfl (by decide +kernel)
    (by intro i hi; match i, hi with | 0, _ => rfl | 1, _ => rfl)).1⟩

/-- C64: a function said to be evenly spaced is written though its abscissas are three for two values. -/
theorem C64_negation_even : ((World.new none).writeSets exEnv "add".toList true [exFn 1 [fA, fB, fC]]).2.2 = .ok () ∧
    ((World.new none).writeSets exEnv "add".toList true [exFn 1 [fA, fB, fC]]).1 =
      ((World.new none).writeSets exEnv "add".toList true [exFn 1 [fA, fB]]).1 :=
  ⟨by decide +kernel, (C64_even (World.new none) exEnv "add".toList true [] [] (exFn 1 [fA, fB, fC]) (.int 1) (.arrF [fA, fB, fC])
    (.arrF [fA, fB]) (by decide +kernel) (by decide +kernel) rfl (by decide +kernel)
    (by intro i hi; match i, hi with | 0, _ => rfl | 1, _ => rfl)).1⟩

end Verif
