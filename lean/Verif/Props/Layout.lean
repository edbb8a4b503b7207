import Verif.Lemmas.Layout
import Verif.Props.Dropped
/-
C70: entries that belong to another layout than the one a dictionary asks for are dropped without an exception.
-/
namespace Verif

theorem ro_none {R : Dict → Dict → Prop} {m : W Unit} {α : Type} (h : RespO R m) : RespO R (W.none m : W (Option α)) := by
  intro d d' hd
  obtain ⟨h1, h2⟩ := h d d' hd
  exact ⟨h1, by show Except.map _ _ = Except.map _ _; rw [h2]⟩

theorem body_layout {R : Dict → Dict → Prop} {d d' : Dict} {t : Int} {e : Env} {fd : Bool} (ht : d.get? "type" = some (.int t))
    (ht' : d'.get? "type" = some (.int t)) (hd : d.get? "data" = d'.get? "data") (hR : R d d')
    (hs : ∀ v, R d d' → R (d.set "data" v) (d'.set "data" v)) (hw : RespO R (writeDispatch e fd (.int t))) :
    (writeBody e fd d).out = (writeBody e fd d').out ∧ (writeBody e fd d).res = (writeBody e fd d').res := by
  unfold writeBody cleanData
  rw [ht, ht', ← hd]
  simp only
  cases hq : d.get? "data" with
  | none => exact hw d d' hR
  | some y =>
    simp only
    cases nanToNumV y with
    | error x => exact ⟨rfl, rfl⟩
    | ok y' => exact hw _ _ (hs y' hR)

theorem knownAt_set {K : List String} {q k : String} {v u : Val} {d d' : Dict} (h : KnownAt K q v d d') (hk : k ≠ q) :
    KnownAt K q v (d.set (.s k) u) (d'.set (.s k) u) :=
  ⟨h.1.set _ _, (get_other hk).trans h.2.1, (get_other hk).trans h.2.2⟩

/-- C70: of data at nodes only the entries that all analysis types have and those of its own analysis type are used: two dictionaries
that agree on these do the same to any file, in any mode and at any time, whatever entries of other analysis types they have. -/
theorem C70_analysis (w : World) (e : Env) (mode : Text) (fd : Bool) (pre post : List Dict) (d d' : Dict) (a : Int)
    (ht : d.get? "type" = some (.int 55)) (ht' : d'.get? "type" = some (.int 55)) (hd : d.get? "data" = d'.get? "data")
    (ha : d.get? "analysis_type" = some (.int a)) (hu : ∀ k ∈ nodeKeys ++ modeKeys a, d.get? (.s k) = d'.get? (.s k)) :
    (w.writeSets e mode fd (pre ++ d :: post)).1 = (w.writeSets e mode fd (pre ++ d' :: post)).1 ∧
    (w.writeSets e mode fd (pre ++ d :: post)).2.2 = (w.writeSets e mode fd (pre ++ d' :: post)).2.2 := by
  have h1 : d'.get? "analysis_type" = some (.int a) := (hu "analysis_type" (List.mem_append_left _ (by inlist))).symm.trans ha
  refine same_sets (fun e' => body_layout (R := KnownAt (nodeKeys ++ modeKeys a) "analysis_type" (.int a)) ht ht' hd ⟨hu, ha, h1⟩
    (fun v h => knownAt_set h (by decide)) ?_) w e mode pre post
  rw [disp55]
  exact ro_none (layout55 a)

/-- C70: of results only the entries that all layouts have and those of its own analysis type and location are used: two dictionaries
that agree on these do the same to any file, in any mode and at any time.  At another location than 1, 2 and 3 no data are used at all,
unless it is a frequency response. -/
theorem C70_results (w : World) (e : Env) (mode : Text) (fd : Bool) (pre post : List Dict) (d d' : Dict) (a l : Int)
    (ht : d.get? "type" = some (.int 2414)) (ht' : d'.get? "type" = some (.int 2414)) (hd : d.get? "data" = d'.get? "data")
    (ha : d.get? "analysis_type" = some (.int a)) (hl : d.get? "dataset_location" = some (.int l))
    (hu : ∀ k ∈ layoutKeys a l, d.get? (.s k) = d'.get? (.s k)) :
    (w.writeSets e mode fd (pre ++ d :: post)).1 = (w.writeSets e mode fd (pre ++ d' :: post)).1 ∧
    (w.writeSets e mode fd (pre ++ d :: post)).2.2 = (w.writeSets e mode fd (pre ++ d' :: post)).2.2 := by
  have h1 : d'.get? "analysis_type" = some (.int a) := (hu "analysis_type" (List.mem_append_left _ (by inlist))).symm.trans ha
  have h2 : d'.get? "dataset_location" = some (.int l) := (hu "dataset_location" (List.mem_append_left _ (by inlist))).symm.trans hl
  refine same_sets (fun e' => body_layout (R := KnownLayout a l) ht ht' hd ⟨⟨hu, ha, h1⟩, hu, hl, h2⟩
    (fun v h => ⟨knownAt_set h.1 (by decide), knownAt_set h.2 (by decide)⟩) ?_) w e mode pre post
  rw [disp2414]
  exact ro_none (layout2414 a l)

/-- C70: of a frequency response only as many components are used as it has values per node; with another number than 1, 2 and 3 none
are: two dictionaries that agree on the rest do the same to any file, in any mode and at any time. -/
theorem C70_response (w : World) (e : Env) (mode : Text) (fd : Bool) (pre post : List Dict) (d d' : Dict) (n : Int)
    (ht : d.get? "type" = some (.int 2414)) (ht' : d'.get? "type" = some (.int 2414)) (hd : d.get? "data" = d'.get? "data")
    (ha : d.get? "analysis_type" = some (.int 5)) (hn : d.get? "number_of_data_values_for_the_data_component" = some (.int n))
    (hu : ∀ k ∈ responseOnly n, d.get? (.s k) = d'.get? (.s k)) :
    (w.writeSets e mode fd (pre ++ d :: post)).1 = (w.writeSets e mode fd (pre ++ d' :: post)).1 ∧
    (w.writeSets e mode fd (pre ++ d :: post)).2.2 = (w.writeSets e mode fd (pre ++ d' :: post)).2.2 := by
  have hb : ∀ k ∈ resultKeys, k ∈ responseOnly n := fun k hk => List.mem_append_left _ (List.mem_append_left _ hk)
  have h1 : d'.get? "analysis_type" = some (.int 5) := (hu "analysis_type" (hb _ (by inlist))).symm.trans ha
  have h2 := (hu "number_of_data_values_for_the_data_component" (hb _ (by inlist))).symm.trans hn
  refine same_sets (fun e' => body_layout (R := KnownResponse n) ht ht' hd ⟨⟨hu, ha, h1⟩, hu, hn, h2⟩
    (fun v h => ⟨knownAt_set h.1 (by decide), knownAt_set h.2 (by decide)⟩) ?_) w e mode pre post
  rw [disp2414]
  exact ro_none (response2414 n)

/-- Results at a node, labelled with the location 4 (layers of shells). -/
def exShell : Dict := ((min2414_0.set "dataset_location" (.int 4)).set "node_nums" (.arrI [1])).set "data_at_node" (.list [.arrF [fA]])

example : ((World.new Option.none).writeSets exEnv "add".toList true ([min15_0] ++ min55_2 :: [min58_0])).1 =
    ((World.new Option.none).writeSets exEnv "add".toList true ([min15_0] ++ min55_2.set "eig" (.str ['?']) :: [min58_0])).1 :=
  (C70_analysis _ _ _ _ _ _ min55_2 (min55_2.set "eig" (.str ['?'])) 2 (by decide +kernel) (by decide +kernel) (by decide +kernel) (by decide +kernel)
    (by decide +kernel)).1
example : ((World.new Option.none).writeSets exEnv "add".toList true ([] ++ exShell :: [])).1 =
    ((World.new Option.none).writeSets exEnv "add".toList true ([] ++ exShell.set "data_at_node" (.list []) :: [])).1 :=
  (C70_results _ _ _ _ _ _ exShell (exShell.set "data_at_node" (.list [])) 0 4 (by decide +kernel) (by decide +kernel) (by decide +kernel) (by decide +kernel)
    (by decide +kernel) (by decide +kernel)).1

example : ((World.new Option.none).writeSets exEnv "add".toList true ([min15_0] ++ full2414f.set "number_of_data_values_for_the_data_component" (.int 2) :: [])).1 =
    ((World.new Option.none).writeSets exEnv "add".toList true
      ([min15_0] ++ (full2414f.set "number_of_data_values_for_the_data_component" (.int 2)).set "z" .none :: [])).1 :=
  (C70_response _ _ _ _ _ _ (full2414f.set "number_of_data_values_for_the_data_component" (.int 2))
    ((full2414f.set "number_of_data_values_for_the_data_component" (.int 2)).set "z" .none) 2 (by decide +kernel) (by decide +kernel) (by decide +kernel)
    (by decide +kernel) (by decide +kernel) (by decide +kernel)).1

/-- A frequency response with six values per node. -/
def exSixParts : Dict := full2414f.set "number_of_data_values_for_the_data_component" (.int 6)

/-- C70: a frequency response with six values per node is written without an exception and without any values; with three, every
component changes the file. -/
theorem C70_negation_response : (∀ k ∈ ["x", "y", "z"], alikeFiles exSixParts (exSixParts.set (.s k) (.arrC [(fC, fC)])) = true) ∧
    ∀ k ∈ ["x", "y", "z"], (goesThrough false full2414f && goesThrough false (full2414f.set (.s k) (.arrC [(fC, fC)])) &&
      !alikeFiles full2414f (full2414f.set (.s k) (.arrC [(fC, fC)]))) = true := ⟨by decide +kernel, by decide +kernel⟩

/-- C70: results at a location that is not supported are written without an exception (the code only prints a message) and without
their data: with other numbers the file is the same. -/
theorem C70_negation_results : goesThrough false exShell = true ∧ exShell ≠ exShell.set "data_at_node" (.list [.arrF [fB]]) ∧
    alikeFiles exShell (exShell.set "data_at_node" (.list [.arrF [fB]])) = true ∧
    alikeFiles exShell (exShell.set "node_nums" (.arrI [7])) = true := by decide +kernel

/-- C70: the entries of the layout itself do matter: every one of them changes the file of some dictionary of the layout or stops the
call. -/
theorem C70_needed_layout :
    (∀ k ∈ modeKeys 2, (goesThrough false min55_2 && !alikeFiles min55_2 (min55_2.set (.s k) (.int 77))) = true) ∧
    (∀ k ∈ modeKeys 3, (goesThrough false min55_3 && !alikeFiles min55_3 (min55_3.set (.s k) (.int 77))) = true) ∧
    (∀ k ∈ modeKeys 7, (goesThrough false min55_7 && !alikeFiles min55_7 (min55_7.set (.s k) (.int 77))) = true) ∧
    (∀ k ∈ modeKeys 5, (goesThrough false min55_5 && !alikeFiles min55_5 (min55_5.set (.s k) (.int 77))) = true) ∧
    (∀ k ∈ placeKeys 1, (goesThrough false (full2414 k) && !alikeFiles (full2414 k) ((full2414 k).set (.s k) (.int 77))) = true) ∧
    (∀ k ∈ ["IEXP", "number_of_nodes", "number_of_values_per_node", "data_at_nodes_on_element", "data_at_element"],
      (goesThrough false (full2414 k) && !alikeFiles (full2414 k) ((full2414 k).set (.s k) (.int 77))) = true) := by
  refine ⟨by decide +kernel, by decide +kernel, by decide +kernel, by decide +kernel, by decide +kernel, by decide +kernel⟩

end Verif
