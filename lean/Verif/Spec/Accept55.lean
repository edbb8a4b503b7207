import Verif.Spec.Accept2414
/-
Which dictionaries can be written as data at nodes (55) (C68).
-/
namespace Verif

/-- A single value. -/
def single : Val → Bool
  | .arrI _ | .arrF _ | .arrC _ | .mat _ | .list _ => false
  | _ => true

/-- The values are complex: an array of complex numbers, or a list of numbers (integers of 64 bits) at least one of which is complex. -/
def complexData : Val → Bool
  | .cplx _ _ | .arrC _ => true
  | .list l => (l.any fun x => match x with
      | .cplx _ _ => true
      | _ => false) && l.all fun x => match x with
        | .bool _ | .float _ | .cplx _ _ => true
        | .int n => decide (-(2 ^ 63) ≤ n ∧ n < 2 ^ 64)
        | _ => false
  | _ => false

/-- Entries of all analysis types. -/
def headNodes : List (String × EntryKind × Bool) := [("id1", .text, true), ("id2", .text, true), ("id3", .text, true), ("id4", .text, true), ("id5", .text, true),
  ("model_type", .int, true), ("analysis_type", .int, false), ("data_ch", .int, false), ("spec_data_type", .int, false), ("load_case", .int, false)]
/-- Entries of normal modes. -/
def headNormal : List (String × EntryKind × Bool) := [("mode_n", .int, false), ("freq", .float, false), ("modal_m", .float, true), ("modal_damp_vis", .float, true),
  ("modal_damp_his", .float, true)]
/-- Entries of a frequency response. -/
def headStep : List (String × EntryKind × Bool) := [("freq_step_n", .int, false), ("freq", .float, false)]
/-- Entries of complex modes, the complex numbers apart. -/
def headComplex : List (String × EntryKind × Bool) := [("mode_n", .int, false)]

/-- The entry is a real or complex number; `opt` says whether it may be missing. -/
def partOk (d : Dict) (k : String) (opt : Bool) : Bool :=
  match d.get? (.s k) with
  | none => opt
  | some v => numberOk v

/-- Six values per node. -/
def sixValues (d : Dict) : Bool := (d.get? "r4").isSome && (d.get? "r5").isSome && (d.get? "r6").isSome

/-- The values of node `i` can be written: the first component decides whether they are written as complex numbers; then the components
4 to 6 are not looked at. -/
def nodeOk (d : Dict) (r1 : Val) (i : Nat) : Bool :=
  itemOk d i ("node_nums", .int, false) &&
  if complexData r1 then ["r1", "r2", "r3"].all (itemP numberOk d i)
  else (if sixValues d then ["r1", "r2", "r3", "r4", "r5", "r6"] else ["r1", "r2", "r3"]).all (itemP floatOk d i)

/-- The values can be written. -/
def nodesOk (d : Dict) : Bool :=
  match d.get? "r1" with
  | none => false
  | some r1 => match d.get? "node_nums" with
    | none => false
    | some v => match v.len with
      | .error _ => false
      | .ok n => (List.range n).all (nodeOk d r1)

/-- The dictionary can be written as data at nodes. -/
def canWrite55 (d : Dict) : Bool :=
  headNodes.all (entryOk d) && (nodesOk d &&
  if entryIs d "analysis_type" 2 then headNormal.all (entryOk d)
  else if entryIs d "analysis_type" 3 || entryIs d "analysis_type" 7 then
    headComplex.all (entryOk d) && (partOk d "eig" false && (partOk d "modal_a" true && partOk d "modal_b" true))
  else if entryIs d "analysis_type" 5 then headStep.all (entryOk d)
  else false)

/-- The model says what Python does with it. -/
structure Known55 (d : Dict) : Prop where
  entries : ∀ f ∈ headNodes ++ headNormal ++ headStep ++ headComplex, ∀ v, d.get? (.s f.1) = some v → f.2.1.known v = true
  parts : ∀ k ∈ ["eig", "modal_a", "modal_b"], ∀ v, d.get? (.s k) = some v → single v = true
  flat : ∀ l, d.get? "r1" = some (.list l) → ∀ x ∈ l, single x = true ∧ ∀ g, x ≠ .dict g
  nodes : ∀ v, d.get? "node_nums" = some v → (∀ g, v ≠ .dict g) ∧ ∀ i x, v.idx i = .ok x → scalarKnown x = true
  values : ∀ r, d.get? "r1" = some r → ∀ k ∈ ["r1", "r2", "r3", "r4", "r5", "r6"], ∀ v i x, d.get? (.s k) = some v → v.idx i = .ok x →
    (if complexData r then single x else scalarKnown x) = true

/-- The dictionary can be written as a data-set of type `t`, functions (58) apart. -/
def writable (t : Int) (d : Dict) : Bool :=
  if t = 82 then canWrite82 d else if t = 2412 then canWrite2412 d else if t = 2420 then canWrite2420 d
  else if t = 2467 then canWrite2467 d else if t = 2414 then canWrite2414 d else if t = 55 then canWrite55 d
  else if t = 58 then false else canWrite t d

/-- The model says what Python does with the dictionary. -/
def described (t : Int) (d : Dict) : Prop :=
  if t = 82 then known82 d else if t = 2412 then known2412 d else if t = 2420 then known2420 d
  else if t = 2467 then known2467 d else if t = 2414 then Known2414 d else if t = 55 then Known55 d else knownFor t d

end Verif
