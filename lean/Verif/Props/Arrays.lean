import Verif.Lemmas.Arrays
import Verif.Props.OneLine
import Verif.Props.Funcs
/-
C61: the lengths of the arrays that are read from a file.
-/
namespace Verif

/-- A returned dictionary of a type comes from the reader of that type. -/
theorem returned_type {w : World} {sel : Sel} {header : Bool} {o : ReadOut} (h : (w.readSets sel header).2 = .ok o) {d : Dict}
    (hd : d ∈ o.dicts) {n : Int} (hn : d.get? "type" = some (.int n)) : ∃ b, readBlock n header b = .ok d := by
  obtain ⟨t, b, hb⟩ := returned h d hd
  have := (returns_block t header b d hb).1
  rw [hn] at this
  cases this
  exact ⟨b, hb⟩

/-- **C61 (nodes).** Whatever is in the file: in a returned dictionary of nodes the seven arrays exist, and each is as long as
those before it or has one value less.  (So they have different lengths only when the last node is cut off.) -/
theorem C61_nodes (w : World) (sel : Sel) (header : Bool) (o : ReadOut) (h : (w.readSets sel header).2 = .ok o) (d : Dict)
    (hd : d ∈ o.dicts) (hn : d.get? "type" = some (.int 15) ∨ d.get? "type" = some (.int 2411)) :
    Steps d ["node_nums", "def_cs", "disp_cs", "color", "x", "y", "z"] := by
  rcases hn with hn | hn <;> obtain ⟨b, hb⟩ := returned_type h hd hn
  · exact steps15 _ d hb
  · exact steps2411 _ d hb

/-- **C61 (coordinate systems).** The same for the numbers of coordinate systems; origins and points of data-set 18 are rows of
three numbers, and there are as many points on the x axis as origins, or one less. -/
theorem C61_systems (w : World) (sel : Sel) (header : Bool) (o : ReadOut) (h : (w.readSets sel header).2 = .ok o) (d : Dict)
    (hd : d ∈ o.dicts) :
    (d.get? "type" = some (.int 18) → Steps d ["cs_num", "cs_type", "ref_cs_num", "color", "method"] ∧
      Steps d ["ref_o", "x_point"] ∧ Triples d "ref_o" ∧ Triples d "x_point" ∧ Triples d "xz_point") ∧
    (d.get? "type" = some (.int 2420) → Steps d ["CS_sys_labels", "CS_types", "CS_colors"]) := by
  constructor <;> intro hn <;> obtain ⟨b, hb⟩ := returned_type h hd hn
  · exact steps18 _ d hb
  · exact steps2420 _ d hb

/-- **C61 (status mask).** A returned model header has a status mask of 32 numbers. -/
theorem C61_mask (w : World) (sel : Sel) (header : Bool) (o : ReadOut) (h : (w.readSets sel header).2 = .ok o) (d : Dict)
    (hd : d ∈ o.dicts) (hn : d.get? "type" = some (.int 2400)) : Equal d 32 ["status_mask"] := by
  obtain ⟨b, hb⟩ := returned_type h hd hn
  exact mask2400 _ d hb

/-- **C61 (elements).** The seven lists of the triangles, and those of the quads, are equally long. -/
theorem C61_elements (w : World) (sel : Sel) (header : Bool) (o : ReadOut) (h : (w.readSets sel header).2 = .ok o) (d : Dict)
    (hd : d ∈ o.dicts) (hn : d.get? "type" = some (.int 2412)) :
    ∀ name ∈ ["triangle", "quad"], ∀ r, d.get? (.s name) = some (.dict r) → ∃ n, Equal r n sevenNames := by
  obtain ⟨b, hb⟩ := returned_type h hd hn
  exact equal2412 _ d hb

/-- **C61 (groups).** The entities of a group: as many tags as type codes or one less, and so on. -/
theorem C61_groups (w : World) (sel : Sel) (header : Bool) (o : ReadOut) (h : (w.readSets sel header).2 = .ok o) (d : Dict)
    (hd : d ∈ o.dicts) (gs : List Val) (hg : d.get? "groups" = some (.list gs)) (v : Val) (hv : v ∈ gs) :
    (d.get? "type" = some (.int 2429) → ∃ g, v = .dict g ∧ Steps g ["entity_type_code", "entity_tag"]) ∧
    (d.get? "type" = some (.int 2467) → ∃ g, v = .dict g ∧
      Steps g ["entity_type_code", "entity_tag", "entity_node_leaf_id", "entity_component_id"]) := by
  constructor <;> intro hn <;> obtain ⟨b, hb⟩ := returned_type h hd hn
  · have : Returns (fun d : Dict => ∀ gs, d.get? "groups" = some (.list gs) → ∀ v ∈ gs, ∃ g, v = .dict g ∧
        Steps g ["entity_type_code", "entity_tag"]) (extract2429 (decode b)) := by
      refine returns_guard (returns_bind fun l hl => returns_ok fun gs hg => ?_)
      cases hg
      exact steps_groups2429 _ _ l hl
    exact this d hb gs hg v hv
  · have : Returns (fun d : Dict => ∀ gs, d.get? "groups" = some (.list gs) → ∀ v ∈ gs, ∃ g, v = .dict g ∧
        Steps g ["entity_type_code", "entity_tag", "entity_node_leaf_id", "entity_component_id"]) (extract2467 (decode b)) := by
      unfold extract2467
      refine returns_bind fun l hl => returns_ok fun gs hg => ?_
      cases hg
      exact steps_groups2467 _ _ l hl
    exact this d hb gs hg v hv

/-- **C61 (functions).** A function that is read with its values has as many abscissas as ordinates, except for evenly spaced
complex values, where there may be one abscissa too many (`C61_negation`). -/
theorem C61_function (w : World) (sel : Sel) (o : ReadOut) (h : (w.readSets sel false).2 = .ok o) (d : Dict)
    (hd : d ∈ o.dicts) (hn : d.get? "type" = some (.int 58)) (hx : d.get? "x" ≠ none) : Paired d := by
  obtain ⟨b, hb⟩ := returned_type h hd hn
  exact paired58 _ d hb hx

/-- **C61 (data at nodes).** The three components of data at nodes, or all six when there are six. -/
theorem C61_data (w : World) (sel : Sel) (header : Bool) (o : ReadOut) (h : (w.readSets sel header).2 = .ok o) (d : Dict)
    (hd : d ∈ o.dicts) (hn : d.get? "type" = some (.int 55)) :
    Steps d ["r1", "r2", "r3"] ∧ (d.get? "r4" ≠ none → Steps d ["r1", "r2", "r3", "r4", "r5", "r6"]) := by
  obtain ⟨b, hb⟩ := returned_type h hd hn
  exact steps55 _ d hb

/-- **C61 (analysis data).** The arrays of a frequency response with at least one value per node; data at nodes, on elements, and
at nodes on elements, for the other analysis types. -/
theorem C61_results (w : World) (sel : Sel) (header : Bool) (o : ReadOut) (h : (w.readSets sel header).2 = .ok o) (d : Dict)
    (hd : d ∈ o.dicts) (hn : d.get? "type" = some (.int 2414)) : Steps2414 d := by
  obtain ⟨b, hb⟩ := returned_type h hd hn
  exact steps2414 _ d hb

/-- Three numbers where complex numbers are expected: two abscissas and one ordinate. -/
theorem C61_negation :
    let file := exFuncFile (exFunc ['\n'] [] chars!"         6         2         1  5.00000E+00  1.00000E+00  0.00000E+00")
      chars!"  1.000000000000E+00  2.000000000000E+00  3.000000000000E+00\n"
    ((World.new (some file)).readSets .all false).2.toOption.map (fun o => o.dicts.map fun d => (countOf d "x", countOf d "data")) =
      some [(some 2, some 1)] := by
  decide +kernel

/-- The second node ends after its displacement coordinate system. -/
def cutNodes : Bytes := encode chars!"    -1
    15
         1         0         0         8 1.00000e+00 2.00000e+00 3.00000e+00
         2         0         0
    -1
"

/-- What is read from it: two node numbers, one colour and one coordinate. -/
theorem C61_negation_nodes :
    ((World.new (some cutNodes)).readSets .all false).2.toOption.map (fun o => o.dicts.map fun d =>
      (d.get? "type", ["node_nums", "def_cs", "disp_cs", "color", "x", "y", "z"].map (countOf d))) =
      some [(some (.int 15), [some 2, some 2, some 2, some 1, some 1, some 1, some 1])] := by
  decide +kernel

/-- The number of values under some names in each dictionary that is read after writing `d`. -/
def lengthsAfter (d : Dict) (ks : List String) : Option (List (Option Val × List (Option Nat))) :=
  ((((World.new none).writeSets exEnv "add".toList true [d]).1).readSets .all false).2.toOption.map fun o =>
    o.dicts.map fun d => (d.get? "type", ks.map (countOf d))

/-- The example data-sets are returned by reading a file, so the theorems above apply to each of them. -/
example : lengthsAfter ex15.dict ["node_nums", "color", "z"] = some [(some (.int 15), [some 2, some 2, some 2])] := by decide +kernel
example : lengthsAfter ex18.dict ["cs_num", "ref_o", "xz_point"] = some [(some (.int 18), [some 2, some 2, some 2])] := by
  decide +kernel
example : lengthsAfter ex2400.dict ["status_mask"] = some [(some (.int 2400), [some 32])] := by decide +kernel
example : lengthsAfter ex2411.dict ["node_nums", "color", "z"] = some [(some (.int 2411), [some 2, some 2, some 2])] := by
  decide +kernel
example : lengthsAfter ex2420.dict ["CS_sys_labels", "CS_types"] = some [(some (.int 2420), [some 2, some 2])] := by decide +kernel
example : lengthsAfter ex2429.dict ["groups"] = some [(some (.int 2429), [some 1])] := by decide +kernel
example : lengthsAfter ex2467.dict ["groups"] = some [(some (.int 2467), [some 2])] := by decide +kernel
example : lengthsAfter ex55c.dict ["r1", "r2", "r3"] = some [(some (.int 55), [some 1, some 1, some 1])] := by decide +kernel
example : lengthsAfter ex55r.dict ["r1", "r3", "r6"] = some [(some (.int 55), [some 2, some 2, some 2])] := by decide +kernel
example : lengthsAfter (ex58 true exCplx (.ascii true)).dict ["x", "data"] = some [(some (.int 58), [some 3, some 3])] := by
  decide +kernel
example : lengthsAfter (ex2414 exFreq).dict ["node_nums", "x", "y", "z"] =
    some [(some (.int 2414), [some 2, some 2, some 2, some 2])] := by decide +kernel
example : lengthsAfter (ex2414 (exPlain exNodes)).dict ["node_nums", "data_at_node"] =
    some [(some (.int 2414), [some 2, some 2])] := by decide +kernel
example : lengthsAfter (ex2414 (exPlain exElemNodes)).dict ["element_nums", "IEXP", "data_at_nodes_on_element"] =
    some [(some (.int 2414), [some 2, some 2, some 2])] := by decide +kernel

/-- The triangles of a file. -/
example : ((((World.new none).writeSets exEnv "add".toList true [ex2412.dict]).1).readSets .all false).2.toOption.map (fun o =>
    o.dicts.map fun d => match d.get? "triangle" with
      | some (.dict r) => sevenNames.map (countOf r)
      | _ => []) = some [List.replicate 7 (some 1)] := by decide +kernel

end Verif
