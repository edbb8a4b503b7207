import Verif.Lemmas.Items
import Verif.Props.Cases
import Verif.Props.Required
/-
C63: entries that are written as numbers must be numbers.
-/
namespace Verif
open W (Fails fails_none)

theorem num_clean {k c : Key} {u : Val} {Q : Val → Prop} {d d' : Dict} (hk : k ≠ "data") (hc : c ≠ "data") (h : Entry k Q c u d)
    (hd : cleanData d = .ok d') : Entry k Q c u d' := by
  unfold cleanData at hd
  split at hd
  · cases hd; exact h
  · rename_i x hx
    cases hn : nanToNumV x with
    | error e => rw [hn] at hd; cases hd
    | ok y =>
      rw [hn] at hd
      have : d.set "data" y = d' := by injection hd
      subst this
      unfold Entry
      rw [Dict.get?_set_ne _ _ _ _ hk.symm, Dict.get?_set_ne _ _ _ _ hc.symm]
      exact h

theorem body_num {e : Env} {fd : Bool} {d : Dict} {k c : Key} {u : Val} {Q : Val → Prop} {t : Int} (hk : k ≠ "data") (hc : c ≠ "data")
    (ht : d.get? "type" = some (.int t)) (h : Entry k Q c u d) (hw : Fails (Entry k Q c u) (writeDispatch e fd (.int t))) :
    ∃ x, (writeBody e fd d).res = .error x := by
  unfold writeBody
  rw [ht]
  simp only
  cases hd : cleanData d with
  | error x => exact ⟨x, rfl⟩
  | ok d' =>
    simp only
    cases hr : (writeDispatch e fd (.int t) d').res with
    | error x => exact ⟨x, rfl⟩
    | ok a => exact (hw d' (num_clean hk hc h hd) a hr).elim

theorem num_dispatch {e : Env} {fd : Bool} {t : Int} : ∀ k ∈ numberKeys t,
    (.s k : Key) ≠ "data" ∧ Fails (NotNum (.s k) "type" (.int t)) (writeDispatch e fd (.int t)) := by
  intro k hk
  constructor
  · rintro ⟨⟩
    revert hk
    unfold numberKeys
    split <;> decide
  unfold numberKeys at hk
  split at hk
  · rw [disp55]; exact fails_none (num55 k hk)
  · rw [disp58]; exact num58 _ _ k hk
  · rw [disp82]; exact fails_none (num82 k hk)
  · rw [disp164]; exact fails_none (num164 k hk)
  · rw [disp1858]; exact fails_none (num1858 k hk)
  · rw [disp2400]; exact fails_none (num2400 k hk)
  · rw [disp2414]; exact fails_none (num2414 k hk)
  · rw [disp2420]; exact fails_none (num2420 k hk)
  · rw [disp2429]; exact fails_none (num2429 k hk)
  · cases hk

/-- C63: a call fails when, in one of the dictionaries, an entry that is written as a number is a text, `None`, a list or a
dictionary, whatever the other entries, the file and the mode: no value that is not a number ever gets into such a field. -/
theorem C63_header (w : World) (e : Env) (mode : Text) (fd : Bool) (ds : List Dict) (d : Dict) (t : Int) (k : String) (v : Val)
    (hd : d ∈ ds) (ht : d.get? "type" = some (.int t)) (hk : k ∈ numberKeys t) (hv : d.get? (.s k) = some v)
    (hn : notNumber v = true) : ∃ x, (w.writeSets e mode fd ds).2.2 = .error x :=
  writeSets_fails (fun _ => body_num (num_dispatch (e := e) (fd := fd) k hk).1 (by decide) ht ⟨⟨v, hv, hn⟩, ht⟩
    (num_dispatch k hk).2) ds w e mode hd

/-- C63: the same for the entries that are written for an analysis type. -/
theorem C63_when (w : World) (e : Env) (mode : Text) (fd : Bool) (ds : List Dict) (d : Dict) (t a : Int) (k : String) (v : Val)
    (hd : d ∈ ds) (ht : d.get? "type" = some (.int t)) (ha : d.get? "analysis_type" = some (.int a))
    (hk : k ∈ numberAnalysis t a) (hv : d.get? (.s k) = some v) (hn : notNumber v = true) :
    ∃ x, (w.writeSets e mode fd ds).2.2 = .error x := by
  have hdata : (.s k : Key) ≠ "data" := by
    rintro ⟨⟩
    revert hk
    unfold numberAnalysis
    split <;> decide
  refine writeSets_fails (fun e' => body_num (c := "analysis_type") (Q := fun v => notNumber v = true) hdata (by decide) ht ⟨⟨v, hv, hn⟩, ha⟩ ?_) ds w e mode hd
  by_cases h55 : t = 55
  · subst h55
    rw [disp55]; exact fails_none (numAnalysis55 k hk)
  · by_cases h5 : t = 2414 ∧ a = 5
    · obtain ⟨rfl, rfl⟩ := h5
      rw [disp2414]; exact fails_none (numAnalysis2414 k hk)
    · unfold numberAnalysis at hk
      split at hk
      all_goals first
        | exact absurd rfl h55
        | exact absurd ⟨rfl, rfl⟩ h5
        | cases hk

theorem items_dispatch {e : Env} {fd : Bool} {t : Int} {c : String} {ks : List String} (hks : numberItems t = some (c, ks)) {u : Val}
    {n i : Nat} (hu : seqLength u = some n) (hi : i < n) : ∀ k ∈ ks, (.s k : Key) ≠ "data" ∧ (.s c : Key) ≠ "data" ∧
    Fails (Entry (.s k) (BadItem i) (.s c) u) (writeDispatch e fd (.int t)) := by
  intro k hk
  unfold numberItems at hks
  split at hks
  all_goals first
    | cases hks; done
    | (simp only [Option.some.injEq, Prod.mk.injEq] at hks
       obtain ⟨rfl, rfl⟩ := hks
       refine ⟨by rintro ⟨⟩; revert hk; decide, by decide, ?_⟩)
  · rw [disp15]; exact fails_none (items_num15 hu hi k hk)
  · rw [disp55]; exact fails_none (items_num55 hu hi k hk)
  · rw [disp2411]; exact fails_none (items_num2411 hu hi k hk)

/-- C63: the same for one of the values of a list, if there is an item it belongs to. -/
theorem C63_items (w : World) (e : Env) (mode : Text) (fd : Bool) (ds : List Dict) (d : Dict) (t : Int) (c k : String)
    (ks : List String) (u : Val) (l : List Val) (n i : Nat) (x : Val) (hd : d ∈ ds) (ht : d.get? "type" = some (.int t))
    (hks : numberItems t = some (c, ks)) (hk : k ∈ ks) (hu : d.get? (.s c) = some u) (hn : seqLength u = some n) (hi : i < n)
    (hv : d.get? (.s k) = some (.list l)) (hx : l[i]? = some x) (hb : notNumber x = true) :
    ∃ x, (w.writeSets e mode fd ds).2.2 = .error x := by
  refine writeSets_fails (fun e' => ?_) ds w e mode hd
  obtain ⟨h1, h2, h3⟩ := items_dispatch (e := e') (fd := fd) hks hn hi k hk
  exact body_num h1 h2 ht ⟨⟨_, hv, l, x, rfl, hx, hb⟩, hu⟩ h3

/-- The dictionaries of `C48_enough`, which are written, with one value replaced. -/
example : ∃ x, ((World.new none).writeSets exEnv "add".toList true [min55_2, min164_0.set "temp" (.str ['2', '0'])]).2.2 = .error x :=
  C63_header _ _ _ _ _ (min164_0.set "temp" (.str ['2', '0'])) 164 "temp" (.str ['2', '0']) (by simp) (by decide +kernel) (by decide) (by decide +kernel) rfl
example : ∃ x, ((World.new none).writeSets exEnv "add".toList false [min58_0.set "rsp_node" .none]).2.2 = .error x :=
  C63_header _ _ _ _ _ (min58_0.set "rsp_node" .none) 58 "rsp_node" .none (by simp) (by decide +kernel) (by decide) (by decide +kernel) rfl
example : ∃ x, ((World.new none).writeSets exEnv "add".toList true [min55_3.set "eig" (.list [.float fA])]).2.2 = .error x :=
  C63_when _ _ _ _ _ (min55_3.set "eig" (.list [.float fA])) 55 3 "eig" (.list [.float fA]) (by simp) (by decide +kernel) (by decide +kernel) (by decide)
    (by decide +kernel) rfl
example : ∃ x, ((World.new none).writeSets exEnv "add".toList true [min2411_0.set "z" (.list [.str ['1']])]).2.2 = .error x :=
  C63_items _ _ _ _ _ (min2411_0.set "z" (.list [.str ['1']])) 2411 "node_nums" "z" _ (.arrI [1]) [.str ['1']] 1 0 (.str ['1']) (by simp) (by decide +kernel)
    rfl (by decide) (by decide +kernel) rfl (by decide) (by decide +kernel) rfl rfl

/-- Numbers of the other kinds are taken. -/
example : ((World.new none).writeSets exEnv "add".toList true [min164_0.set "temp" (.int 20)]).2.2 = .ok () := by decide +kernel
example : ((World.new none).writeSets exEnv "add".toList true [min58_0.set "rsp_node" (.float fA)]).2.2 = .ok () := by decide +kernel

end Verif
