import Verif.Lemmas.Used
import Verif.Props.Lengths
import Verif.Props.Repeat
/-
C67: only the entries that a writer uses matter.
-/
namespace Verif
open W (Resp resp_none)

theorem intEntries_set (d : Dict) (k : String) (v : Val) : intEntries (d.set (.s k) v) = intEntries d := by
  induction d with
  | nil => rfl
  | cons a r ih =>
    obtain ⟨q, u⟩ := a
    unfold Dict.set
    by_cases h : q = .s k
    · rw [if_pos h]; subst h; rfl
    · rw [if_neg h]
      cases q with
      | s q => exact ih
      | i n => simp only [intEntries, ih]

/-- The parts of `SameUsed` for a known type. -/
def SameFor (t : Int) (d d' : Dict) : Prop := Agree ("data" :: usedKeys t) d d' ∧ (t = 2412 → intEntries d = intEntries d')

theorem agree_tail {t : Int} {d d' : Dict} (h : Agree ("data" :: usedKeys t) d d') : Agree (usedKeys t) d d' :=
  fun k hk => h k (List.mem_cons_of_mem _ hk)

theorem dispatch_used (e : Env) (fd : Bool) (n : Int) {d d' : Dict} (h : SameFor n d d') :
    (writeDispatch e fd (.int n) d).out = (writeDispatch e fd (.int n) d').out ∧
    (writeDispatch e fd (.int n) d).res = (writeDispatch e fd (.int n) d').res := by
  have fin : ∀ {K : List String} {m : W (Option Bytes)}, Resp K m → Agree K d d' → (m d).out = (m d').out ∧ (m d).res = (m d').res :=
    fun hr ha => ⟨(hr d d' ha).1, (hr d d' ha).2.1⟩
  have ha := agree_tail h.1
  by_cases hn : n ∉ supported
  · rw [dispatch_unsupported e fd _ hn]; exact ⟨rfl, rfl⟩
  have hn : n ∈ supported := not_not.1 hn
  simp only [supported, List.mem_cons, List.not_mem_nil, or_false] at hn
  rcases hn with rfl | rfl | rfl | rfl | rfl | rfl | rfl | rfl | rfl | rfl | rfl | rfl | rfl | rfl | rfl
  · rw [disp15]; exact fin (resp_none resp15) ha
  · rw [disp18]; exact fin (resp_none resp18) ha
  · rw [disp55]; exact fin (resp_none resp55) ha
  · rw [disp58]; exact fin (resp58 _ _) h.1
  · rw [disp82]; exact fin (resp_none resp82) ha
  · rw [disp151]; exact fin (resp_none (resp151 _ _)) ha
  · rw [disp164]; exact fin (resp_none resp164) ha
  · rw [disp1858]; exact fin (resp_none resp1858) ha
  · rw [disp2400]; exact fin (resp_none resp2400) ha
  · rw [disp2411]; exact fin (resp_none resp2411) ha
  · rw [disp2412]
    obtain ⟨h1, h2⟩ := resp2412 (h.2 rfl)
    exact ⟨h1, by show (write2412 d).res.map _ = (write2412 d').res.map _; rw [h2]⟩
  · rw [disp2414]; exact fin (resp_none resp2414) ha
  · rw [disp2420]; exact fin (resp_none resp2420) ha
  · rw [disp2429]; exact fin (resp_none resp2429) ha
  · rw [disp2467]; exact fin (resp_none resp2467) ha

theorem body_used {d d' : Dict} (h : SameUsed d d') (e : Env) (fd : Bool) :
    (writeBody e fd d).out = (writeBody e fd d').out ∧ (writeBody e fd d).res = (writeBody e fd d').res := by
  obtain ⟨t, ht, ht', hd, hk, hi⟩ := h
  have h0 : SameFor t d d' := ⟨fun k hm => by
    rcases List.mem_cons.1 hm with rfl | hm
    · exact hd
    · exact hk k hm, hi⟩
  unfold writeBody cleanData
  rw [ht, ht', ← hd]
  simp only
  cases hq : d.get? "data" with
  | none => simp only; exact dispatch_used e fd t h0
  | some y =>
    simp only
    cases nanToNumV y with
    | error x => exact ⟨rfl, rfl⟩
    | ok y' =>
      refine dispatch_used e fd t ⟨h0.1.set _ _, fun h2 => ?_⟩
      have := hi h2
      rw [show (("data" : String) : Key) = .s "data" from rfl, intEntries_set, intEntries_set, this]

/-- C67: two lists of dictionaries that agree on the entries their types use do the same to any file, in any mode and at any time, and
have the same outcome, whatever other entries the dictionaries have and in whatever order. -/
theorem C67_used (w : World) (e : Env) (mode : Text) (fd : Bool) (ds ds' : List Dict) (h : List.Forall₂ SameUsed ds ds') :
    (w.writeSets e mode fd ds).1 = (w.writeSets e mode fd ds').1 ∧ (w.writeSets e mode fd ds).2.2 = (w.writeSets e mode fd ds').2.2 := by
  have step : ∀ (pre : List Dict) (ds ds' : List Dict), List.Forall₂ SameUsed ds ds' →
      (w.writeSets e mode fd (pre ++ ds)).1 = (w.writeSets e mode fd (pre ++ ds')).1 ∧
      (w.writeSets e mode fd (pre ++ ds)).2.2 = (w.writeSets e mode fd (pre ++ ds')).2.2 := by
    intro pre ds ds' h
    induction h generalizing pre with
    | nil => exact ⟨rfl, rfl⟩
    | @cons d d' ds ds' h1 h2 ih =>
      obtain ⟨a1, a2⟩ := same_sets (fun e' => body_used h1 e' fd) w e mode pre ds
      obtain ⟨b1, b2⟩ := ih (pre ++ [d'])
      rw [List.append_assoc, List.append_assoc, List.singleton_append, List.singleton_append] at b1 b2
      exact ⟨a1.trans b1, a2.trans b2⟩
  exact step [] ds ds' h

theorem same_refl {d : Dict} {t : Int} (ht : d.get? "type" = some (.int t)) : SameUsed d d :=
  ⟨t, ht, ht, rfl, fun _ _ => rfl, fun _ => rfl⟩

/-- C67: an entry that the type of the dictionary does not use may be added or replaced without any effect on the file. -/
theorem C67_extra (w : World) (e : Env) (mode : Text) (fd : Bool) (pre post : List Dict) (d : Dict) (t : Int) (k : String) (v : Val)
    (ht : d.get? "type" = some (.int t)) (hk : k ∉ "type" :: "data" :: usedKeys t) :
    (w.writeSets e mode fd (pre ++ d :: post)).1 = (w.writeSets e mode fd (pre ++ d.set (.s k) v :: post)).1 ∧
    (w.writeSets e mode fd (pre ++ d :: post)).2.2 = (w.writeSets e mode fd (pre ++ d.set (.s k) v :: post)).2.2 := by
  simp only [List.mem_cons, not_or] at hk
  have ne : ∀ q : String, k ≠ q → (d.set (.s k) v).get? (.s q) = d.get? (.s q) := fun q hq =>
    Dict.get?_set_ne _ _ _ _ (fun h => hq (Key.s.inj h))
  refine same_sets (fun e' => body_used ⟨t, ht, ?_, ?_, fun q hq => ?_, fun _ => (intEntries_set _ _ _).symm⟩ e' fd) w e mode pre post
  · exact (ne "type" hk.1).trans ht
  · exact (ne "data" hk.2.1).symm
  · exact (ne q fun h => hk.2.2 (h ▸ hq)).symm

/-- C67: the order of the entries does not matter, except for elements: dictionaries with the same values for all keys are written the
same. -/
theorem C67_order (w : World) (e : Env) (mode : Text) (fd : Bool) (pre post : List Dict) (d d' : Dict) (t : Int)
    (ht : d.get? "type" = some (.int t)) (hn : t ≠ 2412) (h : ∀ k, d.get? k = d'.get? k) :
    (w.writeSets e mode fd (pre ++ d :: post)).1 = (w.writeSets e mode fd (pre ++ d' :: post)).1 ∧
    (w.writeSets e mode fd (pre ++ d :: post)).2.2 = (w.writeSets e mode fd (pre ++ d' :: post)).2.2 :=
  same_sets (fun e' => body_used ⟨t, ht, (h _).symm.trans ht, h _, fun _ _ => h _, fun h2 => absurd h2 hn⟩ e' fd) w e mode pre post

/-- A triangle. -/
def exTri (n : Int) (fe : Int) : Val := .list [.dict [((.s "element_nums" : Key), .int n), ("fe_descriptor", .int fe), ("phys_table", .int 1),
  ("mat_table", .int 1), ("color", .int 7), ("num_nodes", .int 3), ("nodes_nums", .list [.int 1, .int 2, .int 3])]]

/-- Two groups of elements in one order and the other. -/
def exElemsA : Dict := [((.s "type" : Key), Val.int 2412), (.i 41, exTri 1 41), (.i 91, exTri 2 91)]
/-- Two groups of elements in one order and the other. -/
def exElemsB : Dict := [((.s "type" : Key), Val.int 2412), (.i 91, exTri 2 91), (.i 41, exTri 1 41)]

theorem file_one (d : Dict) : ((World.new Option.none).writeSets exEnv "add".toList false [d]).1.file =
    some (fileAfter false none (writeBody exEnv false d)) := by
  have hw : (World.new Option.none).file = none := rfl
  unfold World.writeSets
  simp only
  rw [if_neg (by decide), if_pos (by decide)]
  unfold World.addAll World.writeSet
  rw [hw]
  simp only
  cases (writeBody exEnv false d).res <;> rfl

theorem outcome_one (d : Dict) : ((World.new Option.none).writeSets exEnv "add".toList false [d]).2.2 =
    (writeBody exEnv false d).res.map fun _ => () := by
  unfold World.writeSets
  simp only
  rw [if_neg (by decide), if_pos (by decide)]
  unfold World.addAll World.writeSet
  simp only
  cases (writeBody exEnv false d).res <;> rfl

/-- C67: for elements the order does matter: two dictionaries that are equal for Python give different files. -/
theorem C67_negation : (∀ k, exElemsA.get? k = exElemsB.get? k) ∧
    ((World.new Option.none).writeSets exEnv "add".toList false [exElemsA]).2.2 = .ok () ∧
    ((World.new Option.none).writeSets exEnv "add".toList false [exElemsB]).2.2 = .ok () ∧
    ((World.new Option.none).writeSets exEnv "add".toList false [exElemsA]).1.file ≠
      ((World.new Option.none).writeSets exEnv "add".toList false [exElemsB]).1.file := by
  refine ⟨fun k => ?_, by decide +kernel, by decide +kernel, ?_⟩
  · simp only [exElemsA, exElemsB, Dict.get?]
    by_cases h1 : (.s "type" : Key) = k
    · subst h1; rfl
    · by_cases h2 : (.i 41 : Key) = k
      · subst h2; rfl
      · simp only [h1, h2, if_false]
  · rw [file_one, file_one]
    decide +kernel

/-! Every entry of the lists does matter. -/

/-- Frequency responses at one node. -/
def full2414f : Dict := ((((min2414_5.set "number_of_data_values_for_the_data_component" (.int 3)).set "node_nums" (.arrI [1])).set "x"
  (.arrC [(fA, fB)])).set "y" (.arrC [(fA, fB)])).set "z" (.arrC [(fA, fB)])

/-- Results at a node, on an element, and at the node of an element. -/
def full2414 (k : String) : Dict :=
  if k ∈ ["element_nums", "data_at_element"] then
    ((min2414_0.set "dataset_location" (.int 2)).set "element_nums" (.arrI [1])).set "data_at_element" (.list [.arrF [fA]])
  else if k ∈ ["IEXP", "number_of_nodes", "number_of_values_per_node", "data_at_nodes_on_element"] then
    (((((min2414_0.set "dataset_location" (.int 3)).set "element_nums" (.arrI [1])).set "IEXP" (.arrI [1])).set "number_of_nodes"
      (.arrI [1])).set "number_of_values_per_node" (.arrI [1])).set "data_at_nodes_on_element" (.list [.list [.arrF [fA]]])
  else ((min2414_0.set "dataset_location" (.int 1)).set "node_nums" (.arrI [1])).set "data_at_node" (.list [.arrF [fA]])

/-- A dictionary of type `t` for which the entry `k` matters. -/
def fullDict (t : Int) (k : String) : Dict :=
  if t = 15 then min15_0 else if t = 18 then min18_0
  else if t = 55 then
    if k ∈ ["eig", "modal_a", "modal_b"] then min55_3
    else if k = "freq_step_n" then min55_5
    else ((min55_2.set "r4" (.arrF [fA])).set "r5" (.arrF [fA])).set "r6" (.arrF [fA])
  else if t = 58 then min58_0
  else if t = 82 then min82_0 else if t = 151 then min151_0 else if t = 164 then min164_0 else if t = 1858 then min1858_0
  else if t = 2400 then min2400_0 else if t = 2411 then min2411_0
  else if t = 2414 then if min2414_5.has (.s k) && !min2414_0.has (.s k) || k ∈ ["x", "y", "z"] then full2414f else full2414 k
  else if t = 2420 then min2420_0 else if t = 2429 then min2429_0 else min2467_0

/-- The dictionary is written and gives another file with another value of the entry `k`. -/
def matters (t : Int) (k : String) : Bool := decide ((fullDict t k).get? "type" = some (.int t)) &&
  decide ((writeBody exEnv false (fullDict t k)).res.isOk = true) && ([.none, .str ['?'], .int 77] : List Val).any fun v =>
    decide (fileAfter false none (writeBody exEnv false (fullDict t k)) ≠
      fileAfter false none (writeBody exEnv false ((fullDict t k).set (.s k) v)))

/-- All these entries matter. -/
def allMatter (t : Int) (ks : List String) : Bool := ks.all fun k => k == "n_bytes" || matters t k

theorem all_append {t : Int} {a b : List String} (ha : allMatter t a = true) (hb : allMatter t b = true) : allMatter t (a ++ b) = true := by
  unfold allMatter at *
  rw [List.all_append, ha, hb]; rfl

theorem all_parts {t : Int} {ks : List String} (n : Nat) (ha : allMatter t (ks.take n) = true) (hb : allMatter t (ks.drop n) = true) :
    allMatter t ks = true := by
  rw [← List.take_append_drop n ks]; exact all_append ha hb

theorem matter15 : allMatter 15 (usedKeys 15) = true := by decide +kernel
theorem matter18 : allMatter 18 (usedKeys 18) = true := by decide +kernel
theorem matter55_0 : allMatter 55 ((usedKeys 55).drop 0 |>.take 13) = true := by decide +kernel
theorem matter55_1 : allMatter 55 ((usedKeys 55).drop 13) = true := by decide +kernel
theorem matter55 : allMatter 55 (usedKeys 55) = true := by
  refine all_parts 13 matter55_0 ?_
  exact matter55_1
theorem matter58_0 : allMatter 58 ((usedKeys 58).drop 0 |>.take 9) = true := by decide +kernel
theorem matter58_1 : allMatter 58 ((usedKeys 58).drop 9 |>.take 9) = true := by decide +kernel
theorem matter58_2 : allMatter 58 ((usedKeys 58).drop 18 |>.take 9) = true := by decide +kernel
theorem matter58_3 : allMatter 58 ((usedKeys 58).drop 27 |>.take 9) = true := by decide +kernel
theorem matter58_4 : allMatter 58 ((usedKeys 58).drop 36) = true := by decide +kernel
theorem matter58 : allMatter 58 (usedKeys 58) = true := by
  refine all_parts 9 matter58_0 ?_
  refine all_parts 9 matter58_1 ?_
  refine all_parts 9 matter58_2 ?_
  refine all_parts 9 matter58_3 ?_
  exact matter58_4
theorem matter82 : allMatter 82 (usedKeys 82) = true := by decide +kernel
theorem matter151 : allMatter 151 (usedKeys 151) = true := by decide +kernel
theorem matter164 : allMatter 164 (usedKeys 164) = true := by decide +kernel
theorem matter1858 : allMatter 1858 (usedKeys 1858) = true := by decide +kernel
theorem matter2400 : allMatter 2400 (usedKeys 2400) = true := by decide +kernel
theorem matter2411 : allMatter 2411 (usedKeys 2411) = true := by decide +kernel
theorem matter2412 : allMatter 2412 (usedKeys 2412) = true := by decide +kernel
theorem matter2414_0 : allMatter 2414 ((usedKeys 2414).drop 0 |>.take 8) = true := by decide +kernel
theorem matter2414_1 : allMatter 2414 ((usedKeys 2414).drop 8 |>.take 8) = true := by decide +kernel
theorem matter2414_2 : allMatter 2414 ((usedKeys 2414).drop 16 |>.take 8) = true := by decide +kernel
theorem matter2414_3 : allMatter 2414 ((usedKeys 2414).drop 24 |>.take 8) = true := by decide +kernel
theorem matter2414_4 : allMatter 2414 ((usedKeys 2414).drop 32 |>.take 8) = true := by decide +kernel
theorem matter2414_5 : allMatter 2414 ((usedKeys 2414).drop 40 |>.take 8) = true := by decide +kernel
theorem matter2414_6 : allMatter 2414 ((usedKeys 2414).drop 48 |>.take 8) = true := by decide +kernel
theorem matter2414_7 : allMatter 2414 ((usedKeys 2414).drop 56 |>.take 8) = true := by decide +kernel
theorem matter2414_8 : allMatter 2414 ((usedKeys 2414).drop 64 |>.take 8) = true := by decide +kernel
theorem matter2414_9 : allMatter 2414 ((usedKeys 2414).drop 72) = true := by decide +kernel
theorem matter2414 : allMatter 2414 (usedKeys 2414) = true := by
  refine all_parts 8 matter2414_0 ?_
  refine all_parts 8 matter2414_1 ?_
  refine all_parts 8 matter2414_2 ?_
  refine all_parts 8 matter2414_3 ?_
  refine all_parts 8 matter2414_4 ?_
  refine all_parts 8 matter2414_5 ?_
  refine all_parts 8 matter2414_6 ?_
  refine all_parts 8 matter2414_7 ?_
  refine all_parts 8 matter2414_8 ?_
  exact matter2414_9
theorem matter2420 : allMatter 2420 (usedKeys 2420) = true := by decide +kernel
theorem matter2429 : allMatter 2429 (usedKeys 2429) = true := by decide +kernel
theorem matter2467 : allMatter 2467 (usedKeys 2467) = true := by decide +kernel

theorem matters_all : ∀ t ∈ supported, ∀ k ∈ usedKeys t, k ≠ "n_bytes" → matters t k = true := by
  have h : ∀ t ∈ supported, allMatter t (usedKeys t) = true := by
    unfold supported
    simp only [List.forall_mem_cons, List.not_mem_nil, false_implies, implies_true, and_true]
    exact ⟨matter15, matter18, matter55, matter58, matter82, matter151, matter164, matter1858, matter2400, matter2411, matter2412,
      matter2414, matter2420, matter2429, matter2467⟩
  intro t ht k hk hn
  have := List.all_eq_true.1 (h t ht) k hk
  simpa [hn] using this

/-- A function of an undefined precision. -/
def exNoPrec : Dict := min58_0.set "ord_data_type" (.int 3)

/-- C67: the lists are not too long: each entry that a type is said to use does matter, that is, for some dictionary of this type
another value gives another file.  The dictionary is one that is written, except for `n_bytes`, which only decides how much of a
function of undefined precision is written before the exception. -/
theorem C67_needed : ∀ t ∈ supported, ∀ k ∈ usedKeys t, ∃ d v, d.get? "type" = some (.int t) ∧
    (k ≠ "n_bytes" → ((World.new Option.none).writeSets exEnv "add".toList false [d]).2.2 = .ok ()) ∧
    ((World.new Option.none).writeSets exEnv "add".toList false [d]).1.file ≠
      ((World.new Option.none).writeSets exEnv "add".toList false [d.set (.s k) v]).1.file := by
  intro t ht k hk
  by_cases hn : k = "n_bytes"
  · subst hn
    have h58 : t = 58 := by
      revert hk
      revert t
      decide +kernel
    subst h58
    refine ⟨exNoPrec, .int 0, by decide +kernel, fun h => absurd rfl h, ?_⟩
    rw [file_one, file_one]
    decide +kernel
  · have hm := matters_all t ht k hk hn
    unfold matters at hm
    generalize fullDict t k = d at hm
    rw [Bool.and_eq_true, Bool.and_eq_true, decide_eq_true_eq, decide_eq_true_eq] at hm
    obtain ⟨⟨h1, h2⟩, h3⟩ := hm
    obtain ⟨v, -, hv⟩ := List.any_eq_true.1 h3
    refine ⟨d, v, h1, fun _ => ?_, ?_⟩
    · rw [outcome_one]
      cases hr : (writeBody exEnv false d).res with
      | ok a => rfl
      | error x => rw [hr] at h2; cases h2
    · rw [file_one, file_one]
      exact fun h => (of_decide_eq_true hv) (Option.some.inj h)

/-- Two dictionaries of nodes that agree on what is used, one with more entries and in another order. -/
def exMore : Dict := [((.s "z" : Key), Val.arrF [fA]), ("note", .str "seen".toList), ("y", .arrF [fA]), (.i 7, .none), ("type", .int 15),
  ("x", .arrF [fA]), ("node_nums", .arrI [1]), ("id1", .int 3)]

example : SameUsed min15_0 exMore := ⟨15, by decide +kernel, by decide +kernel, by decide +kernel, by decide +kernel, by decide⟩
example : SameUsed exElemsA (exElemsA.set "triangle" (.int 5)) :=
  ⟨2412, by decide +kernel, by decide +kernel, by decide +kernel, by decide +kernel, fun _ => by decide +kernel⟩
example : ((World.new Option.none).writeSets exEnv "add".toList false [exMore]).1.file =
    ((World.new Option.none).writeSets exEnv "add".toList false [min15_0]).1.file := by
  rw [file_one, file_one]
  decide +kernel
example : ("units_description" : String) ∉ "type" :: "data" :: usedKeys 55 := by decide +kernel

end Verif
