import Verif.Lemmas.Dropped
import Verif.Props.Used
/-
C70: entries that are used by some data-sets of a type and dropped without an exception from others.
-/
namespace Verif

theorem body_related {R : Dict → Dict → Prop} {d d' : Dict} {t : Int} {e : Env} {fd : Bool} (ht : d.get? "type" = some (.int t))
    (ht' : d'.get? "type" = some (.int t)) (hd : d.get? "data" = d'.get? "data") (hR : R d d')
    (hs : ∀ v, R d d' → R (d.set "data" v) (d'.set "data" v)) (hw : RespR R (writeDispatch e fd (.int t))) :
    (writeBody e fd d).out = (writeBody e fd d').out ∧ (writeBody e fd d).res = (writeBody e fd d').res := by
  unfold writeBody cleanData
  rw [ht, ht', ← hd]
  simp only
  cases hq : d.get? "data" with
  | none =>
    obtain ⟨h1, h2, -⟩ := hw d d' hR
    exact ⟨h1, h2⟩
  | some y =>
    simp only
    cases nanToNumV y with
    | error x => exact ⟨rfl, rfl⟩
    | ok y' =>
      obtain ⟨h1, h2, -⟩ := hw _ _ (hs y' hR)
      exact ⟨h1, h2⟩

theorem rr_none {R : Dict → Dict → Prop} {m : W Unit} {α : Type} (h : RespR R m) : RespR R (W.none m : W (Option α)) := by
  intro d d' hd
  obtain ⟨h1, h2, h3⟩ := h d d' hd
  exact ⟨h1, by show Except.map _ _ = Except.map _ _; rw [h2], h3⟩

theorem body_function {d d' : Dict} {fd s : Bool} (ht : d.get? "type" = some (.int 58)) (ht' : d'.get? "type" = some (.int 58))
    (h : Func58 fd s d d') (e : Env) : (writeBody e fd d).out = (writeBody e fd d').out ∧ (writeBody e fd d).res = (writeBody e fd d').res :=
  body_related ht ht' (h.agree _ (by inlist)) h (fun v h => func_set h (by decide) (by decide) v) (by rw [disp58]; exact dropped58 _)

theorem get_other {d : Dict} {k q : String} {v : Val} (h : k ≠ q) : (d.set (.s k) v).get? (.s q) = d.get? (.s q) :=
  Dict.get?_set_ne _ _ _ _ fun e => h (Key.s.inj e)

theorem has_again {d : Dict} {k : String} {v : Val} (h : d.has (.s k) = true) (q : String) : d.has (.s q) = (d.set (.s k) v).has (.s q) := by
  unfold Dict.has at h ⊢
  by_cases hq : k = q
  · subst hq; rw [h, Dict.get?_set_self]; rfl
  · rw [get_other hq]

/-- C70: of complex data at nodes only three components are written: what the entries of the fourth, fifth and sixth contain makes no
difference to the file or the outcome, whatever the file, the mode, the time and the rest of the list. -/
theorem C70_components (w : World) (e : Env) (mode : Text) (fd : Bool) (pre post : List Dict) (d : Dict) (r1 : List (F64 × F64)) (k : String) (v : Val)
    (ht : d.get? "type" = some (.int 55)) (h1 : d.get? "r1" = some (.arrC r1)) (hk : k ∈ ["r4", "r5", "r6"]) (hd : d.has (.s k) = true) :
    (w.writeSets e mode fd (pre ++ d :: post)).1 = (w.writeSets e mode fd (pre ++ d.set (.s k) v :: post)).1 ∧
    (w.writeSets e mode fd (pre ++ d :: post)).2.2 = (w.writeSets e mode fd (pre ++ d.set (.s k) v :: post)).2.2 := by
  have other : ∀ q : String, q ∉ ["r4", "r5", "r6"] → (d.set (.s k) v).get? (.s q) = d.get? (.s q) := fun q hq =>
    get_other fun h => hq (h ▸ hk)
  have apart : ∀ q ∈ usedComplex, q ∉ ["r4", "r5", "r6"] := by decide
  have rel : Complex55 d (d.set (.s k) v) := ⟨fun q hq => (other q (apart q hq)).symm, has_again hd _, has_again hd _, has_again hd _, fun u hu => by
    rw [h1] at hu; obtain rfl := Option.some.inj hu; rfl⟩
  refine same_sets (fun e' => body_related (t := 55) ht ((other _ (by decide)).trans ht) (other _ (by decide)).symm rel
    (fun u h => complex_set h (by decide) u) ?_) w e mode pre post
  rw [disp55]
  exact rr_none dropped55

/-- C70: all that matters of an evenly spaced function when double precision is forced: two dictionaries that agree on the used entries
except for the declared precision, the number of bytes and the abscissas after the second do the same to any file, in any mode and at any
time.  (`C64_even` is the part about the abscissas, without forcing.) -/
theorem C70_function (w : World) (e : Env) (mode : Text) (pre post : List Dict) (d d' : Dict) (a b : F64) (r r' : List F64) (n : Int)
    (ht : d.get? "type" = some (.int 58)) (ht' : d'.get? "type" = some (.int 58)) (hd : d.get? "data" = d'.get? "data")
    (hu : ∀ k ∈ usedKeys 58, k ∉ ["x", "ord_data_type", "n_bytes"] → d.get? (.s k) = d'.get? (.s k)) (hb : d.has "n_bytes" = d'.has "n_bytes")
    (hs : d.get? "abscissa_spacing" = some (.int n)) (hn : n ≠ 0)
    (hx : d.get? "x" = some (.arrF (a :: b :: r))) (hx' : d'.get? "x" = some (.arrF (a :: b :: r'))) :
    (w.writeSets e mode true (pre ++ d :: post)).1 = (w.writeSets e mode true (pre ++ d' :: post)).1 ∧
    (w.writeSets e mode true (pre ++ d :: post)).2.2 = (w.writeSets e mode true (pre ++ d' :: post)).2.2 := by
  refine same_sets (fun e' => body_function (s := true) ht ht' ⟨fun q hq => ?_, hb, .inl rfl, fun h => (by cases h), fun _ =>
    ⟨⟨_, hs, by simp [Val.truthy, hn]⟩, _, _, hx, hx', rfl, rfl⟩⟩ e') w e mode pre post
  rcases List.mem_cons.1 hq with rfl | hq
  · exact hd
  · obtain ⟨h1, h2⟩ := List.mem_filter.1 hq
    exact hu q h1 (of_decide_eq_true h2)

/-- C70: the precision declared in a dictionary of a function is of no use when double precision is forced: it may be anything, or
missing, without a difference to the file or the outcome. -/
theorem C70_declared (w : World) (e : Env) (mode : Text) (pre post : List Dict) (d : Dict) (v : Val) (ht : d.get? "type" = some (.int 58)) :
    (w.writeSets e mode true (pre ++ d :: post)).1 = (w.writeSets e mode true (pre ++ d.set "ord_data_type" v :: post)).1 ∧
    (w.writeSets e mode true (pre ++ d :: post)).2.2 = (w.writeSets e mode true (pre ++ d.set "ord_data_type" v :: post)).2.2 := by
  have apart : ∀ q ∈ usedFunction, "ord_data_type" ≠ q := by decide
  have nb : d.has "n_bytes" = (d.set "ord_data_type" v).has "n_bytes" := by
    unfold Dict.has; rw [get_other (k := "ord_data_type") (q := "n_bytes") (by decide)]
  exact same_sets (fun e' => body_function (s := false) ht ((get_other (by decide)).trans ht)
    ⟨fun q hq => (get_other (apart q hq)).symm, nb, .inl rfl, fun _ => (get_other (by decide)).symm, fun h => (by cases h)⟩ e') w e mode pre post

/-- C70: the number of bytes in a dictionary of a function, as reading a binary function leaves it, is never trusted: it may be anything
without a difference to the file or the outcome. -/
theorem C70_bytes (w : World) (e : Env) (mode : Text) (fd : Bool) (pre post : List Dict) (d : Dict) (v : Val) (ht : d.get? "type" = some (.int 58))
    (hd : d.has "n_bytes" = true) :
    (w.writeSets e mode fd (pre ++ d :: post)).1 = (w.writeSets e mode fd (pre ++ d.set "n_bytes" v :: post)).1 ∧
    (w.writeSets e mode fd (pre ++ d :: post)).2.2 = (w.writeSets e mode fd (pre ++ d.set "n_bytes" v :: post)).2.2 := by
  have apart : ∀ q ∈ usedFunction, "n_bytes" ≠ q := by decide
  exact same_sets (fun e' => body_function (s := false) ht ((get_other (by decide)).trans ht)
    ⟨fun q hq => (get_other (apart q hq)).symm, has_again hd _, .inr (get_other (by decide)).symm, fun _ => (get_other (by decide)).symm,
      fun h => (by cases h)⟩ e') w e mode pre post

/-! The conditions are needed, and the files are really written. -/

/-- Complex data at a node with six components. -/
def exSixC : Dict := ((ex55min.set "r4" (.arrC [(fA, fB)])).set "r5" (.arrC [(fA, fB)])).set "r6" (.arrC [(fA, fB)])

/-- An evenly spaced function whose abscissas are not evenly spaced. -/
def exBent (c : F64) : Dict := ((min58_0.set "x" (.arrF [fA, fB, c])).set "data" (.arrF [fA, fB, fC])).set "abscissa_spacing" (.int 1)

example : ((World.new Option.none).writeSets exEnv "add".toList true ([min15_0] ++ exSixC :: [min58_0])).1 =
    ((World.new Option.none).writeSets exEnv "add".toList true ([min15_0] ++ exSixC.set "r5" (.str ['?']) :: [min58_0])).1 :=
  (C70_components _ _ _ _ _ _ exSixC [(fA, fB)] "r5" _ (by decide +kernel) (by decide +kernel) (by simp) (by decide +kernel)).1
example : ((World.new Option.none).writeSets exEnv "add".toList true ([min15_0] ++ exBent fC :: [exSixC])).1 =
    ((World.new Option.none).writeSets exEnv "add".toList true ([min15_0] ++ (exBent fA).set "ord_data_type" (.str ['?']) :: [exSixC])).1 :=
  (C70_function _ _ _ _ _ (exBent fC) ((exBent fA).set "ord_data_type" (.str ['?'])) fA fB [fC] [fA] 1 (by decide +kernel) (by decide +kernel)
    (by decide +kernel) (by decide +kernel) (by decide +kernel) (by decide +kernel) (by decide) (by decide +kernel) (by decide +kernel)).1
example : ((World.new Option.none).writeSets exEnv "add".toList true ([] ++ min58_0 :: [])).2.2 =
    ((World.new Option.none).writeSets exEnv "add".toList true ([] ++ min58_0.set "ord_data_type" (.str ['?']) :: [])).2.2 :=
  (C70_declared _ _ _ _ _ min58_0 _ (by decide +kernel)).2
example : ((World.new Option.none).writeSets exEnv "add".toList false ([] ++ min58_0.set "n_bytes" (.int 3) :: [])).2.2 =
    ((World.new Option.none).writeSets exEnv "add".toList false ([] ++ (min58_0.set "n_bytes" (.int 3)).set "n_bytes" .none :: [])).2.2 :=
  (C70_bytes _ _ _ _ _ _ (min58_0.set "n_bytes" (.int 3)) _ (by decide +kernel) (by decide +kernel)).2

/-- The dictionary is written to a new file. -/
def goesThrough (fd : Bool) (d : Dict) : Bool := decide (((World.new Option.none).writeSets exEnv "add".toList fd [d]).2.2 = .ok ())
/-- Both dictionaries are written to a new file, and the files are the same. -/
def alikeFiles (d d' : Dict) : Bool := goesThrough false d && goesThrough false d' &&
  decide (fileAfter false none (writeBody exEnv false d) = fileAfter false none (writeBody exEnv false d'))

/-- C70: so a file does not determine what was given to the writer, even in the entries it uses: complex data at nodes with other fourth
components, and evenly spaced functions with other abscissas, are written without an exception to the same files. -/
theorem C70_negation : exSixC ≠ exSixC.set "r4" (.arrC [(fC, fC)]) ∧ alikeFiles exSixC (exSixC.set "r4" (.arrC [(fC, fC)])) = true ∧
    exBent fC ≠ exBent fA ∧ alikeFiles (exBent fC) (exBent fA) = true := by decide +kernel

/-- C70: the conditions are needed: real components, the abscissas of functions that are not evenly spaced, the first two abscissas and,
without forcing, the declared precision do change the file; and whether the fourth to sixth components are present does, too. -/
theorem C70_needed :
    (let d := ((min55_2.set "r4" (.arrF [fA])).set "r5" (.arrF [fA])).set "r6" (.arrF [fA])
     goesThrough false d && goesThrough false (d.set "r4" (.arrF [fB])) && !alikeFiles d (d.set "r4" (.arrF [fB]))) = true ∧
    (let d := (exBent fC).set "abscissa_spacing" (.int 0)
     goesThrough false d && goesThrough false (d.set "x" (.arrF [fA, fB, fA])) && !alikeFiles d (d.set "x" (.arrF [fA, fB, fA]))) = true ∧
    (goesThrough false (exBent fC) && goesThrough false ((exBent fC).set "x" (.arrF [fA, fC, fC])) &&
      !alikeFiles (exBent fC) ((exBent fC).set "x" (.arrF [fA, fC, fC]))) = true ∧
    (goesThrough false min58_0 && goesThrough false (min58_0.set "ord_data_type" (.int 2)) &&
      !alikeFiles min58_0 (min58_0.set "ord_data_type" (.int 2))) = true ∧
    (goesThrough false ex55min && goesThrough false exSixC && !alikeFiles ex55min exSixC) = true := by decide +kernel

end Verif
