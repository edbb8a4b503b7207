import Verif.Lemmas.Compose
import Verif.Props.Cases
import Mathlib.Data.List.Induction
/-
C69: a list of dictionaries is written one dictionary after the other, and each is judged on its own.
-/
namespace Verif

theorem after_next (e : Env) (n : Nat) : e.next.after n = e.after (n + 1) := rfl

theorem adds_append {fd : Bool} (es : List Dict) : ∀ (ds : List Dict) (w : World) (e : Env), World.addAll w e fd (ds ++ es) =
    match World.addAll w e fd ds with
    | (w', ds', .ok ()) => ((World.addAll w' (e.after ds.length) fd es).1, ds' ++ (World.addAll w' (e.after ds.length) fd es).2.1,
        (World.addAll w' (e.after ds.length) fd es).2.2)
    | (w', ds', .error x) => (w', ds' ++ es, .error x)
  | [], w, e => rfl
  | d :: ds, w, e => by
    simp only [List.cons_append, World.addAll]
    rcases w.writeSet e fd false d with ⟨w1, d1, x | u⟩
    · rfl
    · simp only
      rw [adds_append es ds w1 e.next]
      rcases World.addAll w1 e.next fd ds with ⟨w2, ds2, x | u⟩
      · rfl
      · simp only [after_next, List.length_cons, List.cons_append]

theorem add_list {w : World} {e : Env} {fd : Bool} {es : List Dict} (he : es ≠ []) : w.writeSets e "add".toList fd es = World.addAll w e fd es := by
  cases es with
  | nil => exact absurd rfl he
  | cons d es =>
    unfold World.writeSets
    simp only
    rw [if_neg (by decide), if_pos (by decide)]

theorem call_append {w : World} {e : Env} {mode : Text} {fd : Bool} {ds es : List Dict} (hm : knownMode mode) (hd : ds ≠ []) :
    w.writeSets e mode fd (ds ++ es) = match w.writeSets e mode fd ds with
    | (w', ds', .ok ()) => ((World.addAll w' (e.after ds.length) fd es).1, ds' ++ (World.addAll w' (e.after ds.length) fd es).2.1,
        (World.addAll w' (e.after ds.length) fd es).2.2)
    | (w', ds', .error x) => (w', ds' ++ es, .error x) := by
  cases ds with
  | nil => exact absurd rfl hd
  | cons d ds =>
    rw [List.cons_append]
    obtain ⟨over, h, ho⟩ := writeSets_cons (w := w) (e := e) (fd := fd) (d := d) (ds := ds) hm
    obtain ⟨over', h', ho'⟩ := writeSets_cons (w := w) (e := e) (fd := fd) (d := d) (ds := ds ++ es) hm
    rw [h, h', ho', ho]
    clear h h' ho ho'
    rcases w.writeSet e fd (decide (lower mode = "overwrite".toList)) d with ⟨w1, d1, x | u⟩
    · rfl
    · simp only
      rw [adds_append es ds w1 e.next]
      rcases World.addAll w1 e.next fd ds with ⟨w2, ds2, x | u⟩
      · rfl
      · simp only [after_next, List.length_cons, List.cons_append]

/-- C69: writing a list is writing its beginning and then, in mode `add`, its end: the file, what the object knows, what is left to the
caller and the outcome are the same.  This holds for lists of any dictionaries and whatever is in the file. -/
theorem C69_split (w : World) (e : Env) (mode : Text) (hm : knownMode mode) (fd : Bool) (ds es : List Dict) (hd : ds ≠ []) (he : es ≠ [])
    (h : (w.writeSets e mode fd ds).2.2 = .ok ()) :
    (w.writeSets e mode fd (ds ++ es)).1 = ((w.writeSets e mode fd ds).1.writeSets (e.after ds.length) "add".toList fd es).1 ∧
    (w.writeSets e mode fd (ds ++ es)).2.1 =
      (w.writeSets e mode fd ds).2.1 ++ ((w.writeSets e mode fd ds).1.writeSets (e.after ds.length) "add".toList fd es).2.1 ∧
    (w.writeSets e mode fd (ds ++ es)).2.2 = ((w.writeSets e mode fd ds).1.writeSets (e.after ds.length) "add".toList fd es).2.2 := by
  rw [call_append hm hd, add_list he]
  rcases hw : w.writeSets e mode fd ds with ⟨w1, ds1, x | u⟩
  · rw [hw] at h; cases h
  · exact ⟨rfl, rfl, rfl⟩

/-- C69: a call that is refused is refused with the same exception, and leaves the same file and object, whatever dictionaries come after
in the list; these are not touched. -/
theorem C69_stop (w : World) (e : Env) (mode : Text) (fd : Bool) (ds es : List Dict) (hd : ds ≠ []) (x : Err)
    (h : (w.writeSets e mode fd ds).2.2 = .error x) :
    w.writeSets e mode fd (ds ++ es) = ((w.writeSets e mode fd ds).1, (w.writeSets e mode fd ds).2.1 ++ es, .error x) := by
  by_cases hm : knownMode mode
  · rw [call_append hm hd]
    rcases hw : w.writeSets e mode fd ds with ⟨w1, ds1, y | u⟩
    · rw [hw] at h; cases h; rfl
    · rw [hw] at h; cases h
  · cases ds with
    | nil => exact absurd rfl hd
    | cons d ds =>
      have h1 : lower mode ≠ "overwrite".toList := fun h => hm (.inr h)
      have h2 : lower mode ≠ "add".toList := fun h => hm (.inl h)
      unfold World.writeSets at h ⊢
      simp only [List.cons_append] at h ⊢
      rw [if_neg h1, if_neg h2] at h ⊢
      rw [if_neg h1, if_neg h2]
      cases h
      rfl

theorem set_outcome (w : World) (e : Env) (fd over : Bool) (d : Dict) : (w.writeSet e fd over d).2.2 = (writeBody e fd d).res.map fun _ => () := by
  unfold World.writeSet
  simp only
  cases (writeBody e fd d).res <;> rfl

theorem one_outcome {w : World} {e : Env} {mode : Text} {fd : Bool} {d : Dict} (hm : knownMode mode) :
    (w.writeSets e mode fd [d]).2.2 = (writeBody e fd d).res.map fun _ => () := by
  obtain ⟨over, h, -⟩ := writeSets_cons (w := w) (e := e) (fd := fd) (d := d) (ds := []) hm
  rw [h, ← set_outcome w e fd over d]
  rcases w.writeSet e fd over d with ⟨w1, d1, x | u⟩ <;> rfl

/-- C69: whether a dictionary is accepted, and the exception if it is not, depends on the dictionary alone: not on the file, on what the
object knows, on the mode, on the time, on the machine. -/
theorem C69_alone (w w' : World) (e e' : Env) (mode mode' : Text) (hm : knownMode mode) (hm' : knownMode mode')
    (fd : Bool) (d : Dict) : (w.writeSets e mode fd [d]).2.2 = (w'.writeSets e' mode' fd [d]).2.2 := by
  rw [one_outcome hm, one_outcome hm', body_outcome e e' fd d]

theorem sets_last {w : World} {e : Env} {mode : Text} {fd : Bool} {ds : List Dict} {d : Dict} (hm : knownMode mode) :
    (w.writeSets e mode fd (ds ++ [d])).2.2 = if ds = [] ∨ (w.writeSets e mode fd ds).2.2 = .ok () then (writeBody e fd d).res.map fun _ => ()
      else (w.writeSets e mode fd ds).2.2 := by
  by_cases hd : ds = []
  · subst hd
    rw [if_pos (.inl rfl)]
    exact one_outcome hm
  · rw [call_append hm hd]
    rcases hw : w.writeSets e mode fd ds with ⟨w1, ds1, x | u⟩
    · rw [if_neg (by simp [hd])]
    · rw [if_pos (.inr rfl)]
      simp only [World.addAll]
      rw [body_outcome e (e.after ds.length) fd d, ← set_outcome w1 (e.after ds.length) fd false d]
      rcases w1.writeSet (e.after ds.length) fd false d with ⟨w2, d2, x | u⟩ <;> rfl

/-- C69: a call succeeds if and only if the mode is known, there is something to write, and each of the dictionaries would be written by a
call of its own, to any other file, at any other time and on any other machine. -/
theorem C69_each (w w' : World) (e e' : Env) (mode mode' : Text) (hm' : knownMode mode') (fd : Bool)
    (ds : List Dict) : (w.writeSets e mode fd ds).2.2 = .ok () ↔
      knownMode mode ∧ ds ≠ [] ∧ ∀ d ∈ ds, (w'.writeSets e' mode' fd [d]).2.2 = .ok () := by
  by_cases hm : knownMode mode
  · induction ds using List.reverseRecOn with
    | nil =>
      constructor
      · intro h; cases h
      · intro h; exact absurd rfl h.2.1
    | append_singleton ds d ih =>
      rw [sets_last hm, body_outcome e e' fd d, ← one_outcome (w := w') (e := e') (fd := fd) (d := d) hm']
      by_cases hd : ds = []
      · subst hd
        rw [if_pos (.inl rfl)]
        simp [hm]
      · by_cases ho : (w.writeSets e mode fd ds).2.2 = .ok ()
        · rw [if_pos (.inr ho)]
          have h := (ih.1 ho).2.2
          constructor
          · intro h1
            refine ⟨hm, by simp, fun q hq => ?_⟩
            rcases List.mem_append.1 hq with hq | hq
            · exact h q hq
            · rw [List.mem_singleton] at hq
              exact hq ▸ h1
          · intro h1
            exact h1.2.2 d (by simp)
        · rw [if_neg (by simp [hd, ho])]
          constructor
          · intro h; exact absurd h ho
          · intro h
            exact ih.2 ⟨hm, hd, fun q hq => h.2.2 q (List.mem_append_left _ hq)⟩
  · constructor
    · intro h
      cases ds with
      | nil => cases h
      | cons d ds =>
        unfold World.writeSets at h
        simp only at h
        rw [if_neg fun h => hm (.inr h), if_neg fun h => hm (.inl h)] at h
        cases h
    · intro h; exact absurd h.1 hm

/-- C69: the order of the dictionaries, and how often each is in the list, do not matter for whether the call succeeds. -/
theorem C69_any_order (w w' : World) (e e' : Env) (mode : Text) (hm : knownMode mode) (fd : Bool) (ds es : List Dict)
    (h : ∀ d, d ∈ ds ↔ d ∈ es) : (w.writeSets e mode fd ds).2.2 = .ok () ↔ (w'.writeSets e' mode fd es).2.2 = .ok () := by
  rw [C69_each w w e e mode mode hm fd ds, C69_each w' w e' e mode mode hm fd es]
  have hn : ds ≠ [] ↔ es ≠ [] := by
    constructor
    · intro hd hn
      obtain ⟨d, hd⟩ := List.exists_mem_of_ne_nil _ hd
      exact List.ne_nil_of_mem ((h d).1 hd) hn
    · intro hd hn
      obtain ⟨d, hd⟩ := List.exists_mem_of_ne_nil _ hd
      exact List.ne_nil_of_mem ((h d).2 hd) hn
  rw [hn]
  exact and_congr_right fun _ => and_congr_right fun _ => forall_congr' fun d => imp_congr_left (h d)

/-- C69: when a call fails, there is a first dictionary that a call of its own refuses; the exception is the one of that call; the ones
before are all in the file as if they had been written by a call of their own; and the ones after are untouched. -/
theorem C69_first (w w' : World) (e e' : Env) (mode mode' : Text) (hm : knownMode mode) (hm' : knownMode mode')
    (fd : Bool) (ds : List Dict) (hd : ds ≠ []) (x : Err) (h : (w.writeSets e mode fd ds).2.2 = .error x) :
    ∃ pre d post, ds = pre ++ d :: post ∧ (∀ q ∈ pre, (w'.writeSets e' mode' fd [q]).2.2 = .ok ()) ∧
      (w'.writeSets e' mode' fd [d]).2.2 = .error x ∧
      w.writeSets e mode fd ds = ((w.writeSets e mode fd (pre ++ [d])).1, (w.writeSets e mode fd (pre ++ [d])).2.1 ++ post, .error x) := by
  induction ds using List.reverseRecOn with
  | nil => exact absurd rfl hd
  | append_singleton ds d ih =>
    by_cases hs : ds ≠ [] ∧ (w.writeSets e mode fd ds).2.2 ≠ .ok ()
    · have h1 : (w.writeSets e mode fd ds).2.2 = .error x := by
        rw [sets_last hm, if_neg (by simp [hs.1, hs.2])] at h
        exact h
      obtain ⟨pre, q, post, h2, h3, h4, h5⟩ := ih hs.1 h1
      refine ⟨pre, q, post ++ [d], by rw [h2]; simp, h3, h4, ?_⟩
      rw [C69_stop w e mode fd ds [d] hs.1 x h1, h5]
      simp
    · refine ⟨ds, d, [], rfl, fun q hq => ?_, ?_, ?_⟩
      · have hn : ds ≠ [] := List.ne_nil_of_mem hq
        have ho : (w.writeSets e mode fd ds).2.2 = .ok () := by
          by_contra hc
          exact hs ⟨hn, hc⟩
        exact ((C69_each w w' e e' mode mode' hm' fd ds).1 ho).2.2 q hq
      · rw [sets_last hm, if_pos (by by_contra hc; rw [not_or] at hc; exact hs hc)] at h
        rw [one_outcome hm', ← body_outcome e e' fd d]
        exact h
      · rw [List.append_nil, ← h]

theorem addAll_same {fd : Bool} : ∀ (ds : List Dict) (w : World) (e e' : Env), (∀ d ∈ ds, Timeless d) →
    World.addAll w e fd ds = World.addAll w e' fd ds
  | [], _, _, _, _ => rfl
  | d :: ds, w, e, e', h => by
    simp only [World.addAll, World.writeSet]
    rw [body_same e e' fd d (h d List.mem_cons_self)]
    cases (writeBody e' fd d).res with
    | error x => rfl
    | ok u =>
      simp only
      rw [addAll_same ds _ e.next e'.next fun q hq => h q (List.mem_cons_of_mem _ hq)]

/-- C69: nothing depends on the time and on the machine when there is no header (151) and no binary function (58) among the dictionaries. -/
theorem C69_anywhere (w : World) (e e' : Env) (mode : Text) (fd : Bool) (ds : List Dict)
    (h : ∀ d ∈ ds, ∀ t, d.get? "type" = some t →
      t.numEq 151 = false ∧ (t.numEq 58 = true → ∀ v, d.get? "binary" = some v → v.truthy ≠ .ok true)) :
    w.writeSets e mode fd ds = w.writeSets e' mode fd ds := by
  have hT : ∀ d ∈ ds, Timeless d := h
  cases ds with
  | nil => rfl
  | cons d ds =>
    by_cases hm : knownMode mode
    · obtain ⟨over, h1, ho⟩ := writeSets_cons (w := w) (e := e) (fd := fd) (d := d) (ds := ds) hm
      obtain ⟨over', h2, ho'⟩ := writeSets_cons (w := w) (e := e') (fd := fd) (d := d) (ds := ds) hm
      rw [h1, h2, ho, ho']
      unfold World.writeSet
      simp only
      rw [body_same e e' fd d (hT d List.mem_cons_self)]
      cases (writeBody e' fd d).res with
      | error x => rfl
      | ok u =>
        simp only
        rw [addAll_same ds _ e.next e'.next fun q hq => hT q (List.mem_cons_of_mem _ hq)]
    · unfold World.writeSets
      simp only
      rw [if_neg fun h => hm (.inr h), if_neg fun h => hm (.inl h), if_neg fun h => hm (.inr h), if_neg fun h => hm (.inl h)]

/-- Another machine, a minute later. -/
def exLater : Env := ⟨false, fun _ => ("16-Nov-26".toList, "10:01:00".toList)⟩

/-- Nodes without coordinates. -/
def exNoNodes : Dict := [((.s "type" : Key), Val.int 15), ("node_nums", .arrI [1])]

/-- A function in binary form. -/
def exBinFn : Dict := min58_0.set "binary" (.int 1)

/-- C69: a header is written differently at different times, and a binary function differently on different machines. -/
theorem C69_negation : ((World.new none).writeSets exEnv "add".toList false [min151_0]).1.file ≠
      ((World.new none).writeSets ⟨true, exLater.clock⟩ "add".toList false [min151_0]).1.file ∧
    ((World.new none).writeSets exEnv "add".toList false [exBinFn]).1.file ≠
      ((World.new none).writeSets ⟨false, exEnv.clock⟩ "add".toList false [exBinFn]).1.file ∧
    ((World.new none).writeSets exEnv "add".toList false [min151_0, exBinFn]).2.2 = .ok () := by
  refine ⟨?_, ?_, by decide +kernel⟩
  · have h : ∀ e, ((World.new none).writeSets e "add".toList false [min151_0]).1.file = some (fileAfter false none (writeBody e false min151_0)) := by
      intro e
      rw [add_list (by simp)]
      unfold World.addAll World.writeSet
      have hw : (World.new none).file = none := rfl
      rw [hw]
      simp only
      cases (writeBody e false min151_0).res <;> rfl
    rw [h, h]
    decide +kernel
  · have h : ∀ e, ((World.new none).writeSets e "add".toList false [exBinFn]).1.file = some (fileAfter false none (writeBody e false exBinFn)) := by
      intro e
      rw [add_list (by simp)]
      unfold World.addAll World.writeSet
      have hw : (World.new none).file = none := rfl
      rw [hw]
      simp only
      cases (writeBody e false exBinFn).res <;> rfl
    rw [h, h]
    decide +kernel

/-! The hypotheses can be met, and the conclusions say something. -/

theorem add_known : knownMode "add".toList := .inl (by decide)
theorem overwrite_known : knownMode "overwrite".toList := .inr (by decide)

/-- Three dictionaries in one call, over an old file, or in two calls. -/
example (w : World) : (w.writeSets exEnv "overwrite".toList false [min15_0, min151_0, min58_0]).1 =
    ((w.writeSets exEnv "overwrite".toList false [min15_0, min151_0]).1.writeSets (exEnv.after 2) "add".toList false [min58_0]).1 :=
  (C69_split w exEnv _ overwrite_known false [min15_0, min151_0] [min58_0] (by simp) (by simp)
    ((C69_each w (World.new none) exEnv exEnv _ _ add_known false _).2 ⟨overwrite_known, by simp, by decide +kernel⟩)).1

/-- After nodes without coordinates nothing is written. -/
example (w : World) (es : List Dict) : ∃ x, (w.writeSets exEnv "add".toList false ([min15_0, exNoNodes] ++ es)).2.2 = .error x ∧
    (w.writeSets exEnv "add".toList false ([min15_0, exNoNodes] ++ es)).1 = (w.writeSets exEnv "add".toList false [min15_0, exNoNodes]).1 := by
  cases hr : (w.writeSets exEnv "add".toList false [min15_0, exNoNodes]).2.2 with
  | ok u =>
    exact absurd (((C69_each w (World.new none) exEnv exEnv _ _ add_known false _).1 hr).2.2 exNoNodes (by simp)) (by decide +kernel)
  | error x =>
    have key : ∀ ds : List Dict, ds ≠ [] → (w.writeSets exEnv "add".toList false ds).2.2 = .error x →
        ∃ y, (w.writeSets exEnv "add".toList false (ds ++ es)).2.2 = .error y ∧
          (w.writeSets exEnv "add".toList false (ds ++ es)).1 = (w.writeSets exEnv "add".toList false ds).1 := by
      intro ds hd hr
      rw [C69_stop w exEnv _ false ds es hd x hr]
      exact ⟨x, rfl, rfl⟩
    exact key _ (List.cons_ne_nil _ _) hr

/-- The exception is that of the first dictionary that is refused. -/
example : ((World.new none).writeSets exEnv "add".toList false [min15_0, exNoNodes, min151_0, []]).2.2 = .error (.missing "x" 15) := by decide +kernel

example (w : World) (e : Env) : (w.writeSets e "overwrite".toList false [exNoNodes]).2.2 = .error (.missing "x" 15) :=
  (C69_alone w (World.new none) e exEnv _ "add".toList overwrite_known add_known false exNoNodes).trans (by decide +kernel)

example (w : World) (e : Env) : (w.writeSets e "add".toList false [min151_0, exBinFn, min15_0, exBinFn]).2.2 = .ok () :=
  (C69_any_order w (World.new none) e exEnv _ add_known false _ [min15_0, min151_0, exBinFn] (by simp; tauto)).2 (by decide +kernel)

example : ∃ pre d post, [min15_0, exNoNodes, min151_0, []] = pre ++ d :: post ∧
    (∀ q ∈ pre, ((World.new none).writeSets exLater "overwrite".toList false [q]).2.2 = .ok ()) ∧
    ((World.new none).writeSets exLater "overwrite".toList false [d]).2.2 = .error (.missing "x" 15) := by
  obtain ⟨pre, d, post, h1, h2, h3, -⟩ := C69_first (World.new none) (World.new none) exEnv exLater "add".toList "overwrite".toList add_known
    overwrite_known false [min15_0, exNoNodes, min151_0, []] (by simp) (.missing "x" 15) (by decide +kernel)
  exact ⟨pre, d, post, h1, h2, h3⟩

example (w : World) : w.writeSets exEnv "add".toList false [min15_0, min58_0] = w.writeSets exLater "add".toList false [min15_0, min58_0] := by
  refine C69_anywhere w exEnv exLater _ false _ ?_
  intro d hd t ht
  simp only [List.mem_cons, List.not_mem_nil, or_false] at hd
  rcases hd with rfl | rfl
  · have h : (min15_0).get? "type" = some (.int 15) := by decide
    rw [h] at ht
    cases ht
    exact ⟨by decide, fun h => absurd h (by decide)⟩
  · have h : (min58_0).get? "type" = some (.int 58) := by decide
    have hb : (min58_0).get? "binary" = none := by decide
    rw [h] at ht
    cases ht
    exact ⟨by decide, fun _ v hv => by rw [hb] at hv; cases hv⟩

end Verif
