import Verif.Model.DS2411
/-
Data-set 2429, `/repo/pyuff/datasets/dataset_2429.py`, and the parts it shares with data-set 2467.
-/
namespace Verif

/-- The optional fields (`/repo/pyuff/datasets/dataset_2429.py:107-112`,
`/repo/pyuff/datasets/dataset_2467.py:57-62`). -/
def optGroup : List (Key × Val) :=
  [("active_constraint_set_no_for_group", .int 0), ("active_restraint_set_no_for_group", .int 0),
   ("active_load_set_no_for_group", .int 0), ("active_dof_set_no_for_group", .int 0),
   ("active_temperature_set_no_for_group", .int 0), ("active_contact_set_no_for_group", .int 0)]

/-- `'%6i\n%6i\n' % (-1, n)` (`/repo/pyuff/datasets/dataset_2429.py:115`). -/
def headShort (n : Nat) : Text := padLeft 6 ['-', '1'] ++ '\n' :: (padLeft 6 (natRepr n) ++ ['\n'])

/-- `_write2429` (`/repo/pyuff/datasets/dataset_2429.py:105-148`).  The last, incomplete line is written from
the items `i * 4` (`/repo/pyuff/datasets/dataset_2429.py:140`). -/
def write2429 : W Unit := W.guardedAny 2429 do
  W.opt optGroup
  W.emit (headShort 2429)
  let v ← W.key "entity_type_code"
  let n ← W.lift v.len
  W.row [.i 10 "group_number", .i 10 "active_constraint_set_no_for_group", .i 10 "active_restraint_set_no_for_group",
    .i 10 "active_load_set_no_for_group", .i 10 "active_dof_set_no_for_group",
    .i 10 "active_temperature_set_no_for_group", .i 10 "active_contact_set_no_for_group", .c (fmtI 10) (.int n)]
  W.row [.sl 40 "group_name"]
  W.forL (List.range (n / 4)) fun i =>
    W.row [⟨Fld.at_ "entity_type_code" (i * 4), fmtI 10⟩, ⟨Fld.at_ "entity_tag" (i * 4), fmtI 10⟩,
      ⟨Fld.at_ "entity_type_code" (i * 4 + 1), fmtI 10⟩, ⟨Fld.at_ "entity_tag" (i * 4 + 1), fmtI 10⟩,
      ⟨Fld.at_ "entity_type_code" (i * 4 + 2), fmtI 10⟩, ⟨Fld.at_ "entity_tag" (i * 4 + 2), fmtI 10⟩,
      ⟨Fld.at_ "entity_type_code" (i * 4 + 3), fmtI 10⟩, ⟨Fld.at_ "entity_tag" (i * 4 + 3), fmtI 10⟩]
  W.forL (List.range (n % 4)) fun i => do
    let t ← W.format [⟨Fld.at_ "entity_type_code" (i * 4), fmtI 10⟩, ⟨Fld.at_ "entity_tag" (i * 4), fmtI 10⟩]
    W.emit t
  W.when (n % 4 ≠ 0) (W.emit ['\n'])
  W.emit tailText

/-- The two header records of a group (`/repo/pyuff/datasets/dataset_2429.py:160-163`,
`/repo/pyuff/datasets/dataset_2467.py:128-134`). -/
def groupHead (l1 l2 : Text) : Res Dict := do
  let h1 ← parseHeader l1 8 [10, 10, 10, 10, 10, 10, 10, 10] [.int, .int, .int, .int, .int, .int, .int, .int]
    ["group_number", "active_constraint_set_no_for_group", "active_restraint_set_no_for_group",
     "active_load_set_no_for_group", "active_dof_set_no_for_group", "active_temperature_set_no_for_group",
     "active_contact_set_no_for_group", "number_of_entities_in_group"]
  let h2 ← parseHeader l2 1 [40] [.str] ["group_name"]
  .ok ((Dict.update [] h1).update h2)

/-- `group['number_of_entities_in_group']`; the header always has this integer. -/
def groupCount (g : Dict) : Res Int := do (← g.get "number_of_entities_in_group").toInt

/-- `math.ceil(n / per)` (`/repo/pyuff/datasets/dataset_2429.py:166`); the quotient of integers of at most
10 digits by 2 or 4 is exact in floating point. -/
def ceilDiv (n : Int) (per : Nat) : Int := -((-n) / (per : Int))

/-- `np.array(values, dtype=int)` (`/repo/pyuff/datasets/dataset_2429.py:170`): 64-bit integers. -/
def arr64 (l : List Int) : Res (List Int) :=
  if l.all fun n => decide (-(2 ^ 63) ≤ n ∧ n < 2 ^ 63) then .ok l else .error .overflow

/-- `values` (`/repo/pyuff/datasets/dataset_2429.py:168-170`). -/
def groupValues (ls : List Text) : Res (List Int) := do
  let vs ← mapRes (fun l => mapRes pyInt (splitWs l)) ls
  arr64 vs.flatten

/-- The `while` loop (`/repo/pyuff/datasets/dataset_2429.py:155-175`) on the lines from `lineIndex` on.
`fuel` bounds the number of groups; one per line is enough, since every pass consumes at least one line.  When the
number of entities is so negative that `lineIndex` does not advance the code may loop for ever: not modelled. -/
def groups2429 : Nat → List Text → Res (List Val)
  | 0, ls => if ls.length < 3 then .ok [] else .error .unmodelled
  | fuel + 1, ls =>
    match ls with
    | l1 :: l2 :: _ :: _ => do
      let g ← groupHead l1 l2
      let k := ceilDiv (← groupCount g) 4
      let vs ← groupValues ((ls.drop 2).take k.toNat)
      let g := (g.set "entity_type_code" (.arrI (everyN 0 2 vs))).set "entity_tag" (.arrI (everyN 1 2 vs))
      if k < -1 then .error .unmodelled
      else do
        let r ← groups2429 fuel (ls.drop (2 + k).toNat)
        .ok (.dict g :: r)
    | _ => .ok []

/-- `_extract2429` (`/repo/pyuff/datasets/dataset_2429.py:151-180`). -/
def extract2429 (block : Text) : Res Dict := readGuard 2429 do
  let ls := (splitLines block).drop 2
  let gs ← groups2429 ls.length ls
  .ok [("type", .int 2429), ("groups", .list gs)]

end Verif
