import Verif.Model.DS2414
/-
The `while` loops of the readers with their line index, pass by pass.  The readers in `DS2429`, `DS2467` and `DS2414` have no
result (`Err.unmodelled`) for counts that move the index backwards; here these cases are modelled.
-/
namespace Verif

/-- `l[i]`; negative indices count from the end (`/repo/pyuff/datasets/dataset_2429.py:161`). -/
def pyAt {α} (l : List α) (i : Int) : Res α :=
  if 0 ≤ i then orIndex l[i.toNat]?
  else if 0 ≤ i + l.length then orIndex l[(i + l.length).toNat]?
  else .error .index

/-- The index of a slice (`/repo/pyuff/datasets/dataset_2429.py:169`): negative ones count from the end, and those before the
beginning are 0. -/
def pyClamp (n : Nat) (i : Int) : Nat := if 0 ≤ i then i.toNat else (i + n).toNat

/-- `l[i:j]` (`/repo/pyuff/datasets/dataset_2429.py:169`). -/
def pySlice {α} (l : List α) (i j : Int) : List α :=
  (l.drop (pyClamp l.length i)).take (pyClamp l.length j - pyClamp l.length i)

/-- The state of a loop: still running, with the index and the items collected so far, or ended by its condition or by an
exception. -/
inductive Loop (α : Type) where
  | running (i : Int) (acc : List α)
  | ended (r : Res (List α))
deriving DecidableEq

/-- `n` passes of `while cond(i): ... append(..); i = ..` (`/repo/pyuff/datasets/dataset_2429.py:159-175`). -/
def loopPasses {α} (cond : Int → Bool) (body : Int → Res (α × Int)) : Nat → Int → List α → Loop α
  | 0, i, acc => .running i acc
  | n + 1, i, acc =>
    if cond i then
      match body i with
      | .error e => .ended (.error e)
      | .ok (a, j) => loopPasses cond body n j (acc ++ [a])
    else .ended (.ok acc)

/-- `lineIndex < len(split_data) - 2` (`/repo/pyuff/datasets/dataset_2429.py:159`). -/
def cond2429 (ls : List Text) (i : Int) : Bool := decide (i < ls.length - 2)

/-- One pass (`/repo/pyuff/datasets/dataset_2429.py:160-175`): the group and the next `lineIndex`. -/
def body2429 (ls : List Text) (i : Int) : Res (Val × Int) := do
  let l1 ← pyAt ls i
  let l2 ← pyAt ls (i + 1)
  let g ← groupHead l1 l2
  let n ← groupCount g
  let j := ceilDiv n 4 + i + 2
  let vs ← groupValues (pySlice ls (i + 2) j)
  .ok (.dict ((g.set "entity_type_code" (.arrI (everyN 0 2 vs))).set "entity_tag" (.arrI (everyN 1 2 vs))), j)

/-- `lineIndex < len(split_data)` (`/repo/pyuff/datasets/dataset_2467.py:125`). -/
def cond2467 (ls : List Text) (i : Int) : Bool := decide (i < ls.length)

/-- One pass (`/repo/pyuff/datasets/dataset_2467.py:126-148`). -/
def body2467 (ls : List Text) (i : Int) : Res (Val × Int) := do
  let l1 ← pyAt ls i
  let l2 ← pyAt ls (i + 1)
  let g ← groupHead l1 l2
  let n ← groupCount g
  let j := ceilDiv n 2 + i + 2
  let vs ← groupValues (pySlice ls (i + 2) j)
  .ok (.dict ((((g.set "entity_type_code" (.arrI (everyN 0 4 vs))).set "entity_tag" (.arrI (everyN 1 4 vs))).set
    "entity_node_leaf_id" (.arrI (everyN 2 4 vs))).set "entity_component_id" (.arrI (everyN 3 4 vs))), j)

/-- `lineIndex < len(split_data)` (`/repo/pyuff/datasets/dataset_2414.py:817`). -/
def condElem (ls : List Text) (i : Int) : Bool := decide (i < ls.length)

/-- One pass (`/repo/pyuff/datasets/dataset_2414.py:818-834`). -/
def bodyElem (ls : List Text) (i : Int) : Res (((Int × Int × Int × Int) × Val) × Int) := do
  let l ← pyAt ls i
  let e ← elemRecord l
  let k := elemLines e.2.1 e.2.2.1 e.2.2.2
  let v ← floatLists (pySlice ls (i + 1) (i + 1 + k))
  .ok ((e, .list v), i + 1 + k)

/-- The loop of `_extract2429` after `n` passes (`/repo/pyuff/datasets/dataset_2429.py:155-175`). -/
def run2429 (block : Text) (n : Nat) : Loop Val :=
  loopPasses (cond2429 (splitLines block)) (body2429 (splitLines block)) n 2 []

/-- The loop of `_extract2467` after `n` passes (`/repo/pyuff/datasets/dataset_2467.py:107,124-148`). -/
def run2467 (block : Text) (n : Nat) : Loop Val :=
  loopPasses (cond2467 ((splitLinesKeep block).drop 2)) (body2467 ((splitLinesKeep block).drop 2)) n 0 []

/-- The loop of `_extract2414` for data at nodes on elements after `n` passes
(`/repo/pyuff/datasets/dataset_2414.py:789,816-834`). -/
def runElem (block : Text) (n : Nat) : Loop ((Int × Int × Int × Int) × Val) :=
  let ls := splitLines ((splitLinesKeep block).drop 15).flatten
  loopPasses (condElem ls) (bodyElem ls) n 0 []

end Verif
