import Verif.Model.DS2429
/-
Data-set 2467, `/repo/pyuff/datasets/dataset_2467.py`.
-/
namespace Verif

/-- `group[k][i]` (`/repo/pyuff/datasets/dataset_2467.py:85`). -/
def Val.getAt (g : Val) (k : String) (i : Nat) : Res Val :=
  match g.getK k with
  | .error e => .error e
  | .ok v => v.idx i

/-- The four columns of entity `i` (`/repo/pyuff/datasets/dataset_2467.py:85-88`). -/
def entFlds (g : Val) (i : Nat) : List Fld :=
  [⟨fun _ => g.getAt "entity_type_code" i, fmtI 10⟩, ⟨fun _ => g.getAt "entity_tag" i, fmtI 10⟩,
   ⟨fun _ => g.getAt "entity_node_leaf_id" i, fmtI 10⟩, ⟨fun _ => g.getAt "entity_component_id" i, fmtI 10⟩]

/-- One group (`/repo/pyuff/datasets/dataset_2467.py:67-97`); `range(0, end, 2)` is `0, 2, ...`. -/
def writeGroup2467 (g : Val) : W Unit := do
  let v ← W.lift (g.getK "entity_type_code")
  let n ← W.lift v.len
  W.row [⟨fun _ => g.getK "group_number", fmtI 10⟩, ⟨fun _ => g.getK "active_constraint_set_no_for_group", fmtI 10⟩,
    ⟨fun _ => g.getK "active_restraint_set_no_for_group", fmtI 10⟩,
    ⟨fun _ => g.getK "active_load_set_no_for_group", fmtI 10⟩, ⟨fun _ => g.getK "active_dof_set_no_for_group", fmtI 10⟩,
    ⟨fun _ => g.getK "active_temperature_set_no_for_group", fmtI 10⟩,
    ⟨fun _ => g.getK "active_contact_set_no_for_group", fmtI 10⟩, .c (fmtI 10) (.int n)]
  W.row [⟨fun _ => g.getK "group_name", fmtSL 40⟩]
  W.forL (List.range ((n + 1) / 2)) fun j =>
    W.row (if n - 2 * j > 1 then entFlds g (2 * j) ++ entFlds g (2 * j + 1) else entFlds g (2 * j))

/-- `_write2467` (`/repo/pyuff/datasets/dataset_2467.py:55-102`). -/
def write2467 : W Unit := W.guardedAny 2467 do
  W.opt optGroup
  W.emit (headShort 2467)
  let v ← W.key "groups"
  let gs ← W.lift v.items
  W.forL gs writeGroup2467
  W.emit tailText

/-- The `while` loop (`/repo/pyuff/datasets/dataset_2467.py:125-148`) on the lines from `lineIndex` on; see
`groups2429` for `fuel`. -/
def groups2467 : Nat → List Text → Res (List Val)
  | 0, ls => if ls.length < 1 then .ok [] else .error .unmodelled
  | fuel + 1, ls =>
    match ls with
    | [] => .ok []
    | l1 :: ls' => do
      let l2 ← orIndex ls'[0]?
      let g ← groupHead l1 l2
      let k := ceilDiv (← groupCount g) 2
      let vs ← groupValues ((ls.drop 2).take k.toNat)
      let g := (((g.set "entity_type_code" (.arrI (everyN 0 4 vs))).set "entity_tag" (.arrI (everyN 1 4 vs))).set
        "entity_node_leaf_id" (.arrI (everyN 2 4 vs))).set "entity_component_id" (.arrI (everyN 3 4 vs))
      if k < -1 then .error .unmodelled
      else do
        let r ← groups2467 fuel (ls.drop (2 + k).toNat)
        .ok (.dict g :: r)

/-- `_extract2467` (`/repo/pyuff/datasets/dataset_2467.py:104-151`); exceptions are not caught here, and the lists
added at the end are always empty. -/
def extract2467 (block : Text) : Res Dict := do
  let ls := (splitLinesKeep block).drop 2
  let gs ← groups2467 ls.length ls
  .ok [("type", .int 2467), ("groups", .list gs), ("group_ids", .list []),
    ("active_constraint_set_no_for_group", .list []), ("active_restraint_set_no_for_group", .list []),
    ("active_load_set_no_for_group", .list []), ("active_dof_set_no_for_group", .list []),
    ("active_temperature_set_no_for_group", .list []), ("active_contact_set_no_for_group", .list []),
    ("num_of_entities_in_group", .list []), ("group_name", .list []), ("entity_type_code", .list []),
    ("entity_tag", .list []), ("entity_node_leaf_id", .list []), ("entity_component_id", .list [])]

end Verif
