import Verif.Model.DS2411
/-
Data-set 2412, `/repo/pyuff/datasets/dataset_2412.py`.
-/
namespace Verif

/-- `v == n` for a non-zero integer `n` and a number `v` (`/repo/pyuff/datasets/dataset_2412.py:63`,
`/repo/pyuff/pyuff.py:437`); a value that is not a number is different from every number. -/
def Val.numEq (v : Val) (n : Int) : Bool :=
  match v with
  | .int m => decide (m = n)
  | .bool b => decide ((if b then 1 else 0) = n)
  | .float x => decide (x = F64.ofInt n)
  | .cplx x y => decide (x = F64.ofInt n ∧ y.mag = 0)
  | _ => false

/-- Write one element (`/repo/pyuff/datasets/dataset_2412.py:55-72`). -/
def writeElem (e : Val) : W Unit := do
  W.row [⟨fun _ => e.getK "element_nums", fmtI 10⟩, ⟨fun _ => e.getK "fe_descriptor", fmtI 10⟩,
    ⟨fun _ => e.getK "phys_table", fmtI 10⟩, ⟨fun _ => e.getK "mat_table", fmtI 10⟩,
    ⟨fun _ => e.getK "color", fmtI 10⟩, ⟨fun _ => e.getK "num_nodes", fmtI 10⟩]
  let fe ← W.lift (e.getK "fe_descriptor")
  W.when (fe.numEq 11 = true) (W.row [⟨fun _ => e.getK "beam_orientation", fmtI 10⟩,
    ⟨fun _ => e.getK "beam_foreend_cross", fmtI 10⟩, ⟨fun _ => e.getK "beam_aftend_cross", fmtI 10⟩])
  let ns ← W.lift (e.getK "nodes_nums")
  let l ← W.lift ns.items
  W.forL l fun n => do
    let t ← W.lift (fmtI 10 n)
    W.emit t
  W.emit ['\n']

/-- One pass of `for el_type in dset` (`/repo/pyuff/datasets/dataset_2412.py:50-72`): keys that are not
integers are skipped. -/
def writeGroup (kv : Key × Val) : W Unit :=
  match kv.1 with
  | .s _ => W.pure ()
  | .i _ => do
    let l ← W.lift kv.2.items
    W.forL l writeElem

/-- `_write2412` (`/repo/pyuff/datasets/dataset_2412.py:47-75`). -/
def write2412 : W Unit := W.guardedAny 2412 do
  W.emit (headText 2412)
  let d ← W.getDict
  W.forL d writeGroup
  W.emit tailText

/-- `int(line[k])` (`/repo/pyuff/datasets/dataset_2412.py:94-99`). -/
def tokInt (line : List Text) (k : Nat) : Res Int := do pyInt (← orIndex line[k]?)

/-- The first record of an element (`/repo/pyuff/datasets/dataset_2412.py:93-99`): the dictionary and the
descriptor. -/
def elemHead (line : List Text) : Res (Int × Dict) := do
  let a ← tokInt line 0
  let b ← tokInt line 1
  let c ← tokInt line 2
  let d ← tokInt line 3
  let e ← tokInt line 4
  let f ← tokInt line 5
  .ok (b, [("element_nums", .int a), ("fe_descriptor", .int b), ("phys_table", .int c), ("mat_table", .int d),
    ("color", .int e), ("num_nodes", .int f)])

/-- The beam record (`/repo/pyuff/datasets/dataset_2412.py:102-104`). -/
def elemBeam (line : List Text) : Res Dict := do
  let a ← tokInt line 0
  let b ← tokInt line 1
  let c ← tokInt line 2
  .ok [("beam_orientation", .int a), ("beam_foreend_cross", .int b), ("beam_aftend_cross", .int c)]

/-- The node record (`/repo/pyuff/datasets/dataset_2412.py:105,109`). -/
def elemNodes (line : List Text) : Res Dict := do
  let l ← mapRes pyInt line
  .ok [("nodes_nums", .list (l.map .int))]

/-- `fe_descriptor in {11, 21, 22, 23, 24}` (`/repo/pyuff/datasets/dataset_2412.py:84,100`). -/
def isRod (fe : Int) : Bool := fe = 11 || fe = 21 || fe = 22 || fe = 23 || fe = 24

/-- The `while` loop (`/repo/pyuff/datasets/dataset_2412.py:90-114`), giving the elements with their
descriptors in file order.  The grouping of lines 111-114 is done afterwards by `addElem`; it cannot fail. -/
def readElems : List (List Text) → Res (List (Int × Dict))
  | [] => .ok []
  | l :: ls =>
    match elemHead l with
    | .error e => .error e
    | .ok (fe, h) =>
      if isRod fe then
        match ls with
        | b :: n :: rest =>
          match elemBeam b, elemNodes n with
          | .ok bd, .ok nd => match readElems rest with
            | .ok r => .ok ((fe, h ++ bd ++ nd) :: r)
            | .error e => .error e
          | .error e, _ => .error e
          | _, .error e => .error e
        | _ => .error .index
      else
        match ls with
        | n :: rest =>
          match elemNodes n with
          | .ok nd => match readElems rest with
            | .ok r => .ok ((fe, h ++ nd) :: r)
            | .error e => .error e
          | .error e => .error e
        | [] => .error .index

/-- `dset[desc].append(dict_tmp)`, creating the list first (`/repo/pyuff/datasets/dataset_2412.py:111-114`).
Integer keys only ever hold lists, so the last case does not occur. -/
def addElem (d : Dict) (e : Int × Dict) : Dict :=
  match d.get? (.i e.1) with
  | none => d.set (.i e.1) (.list [.dict e.2])
  | some (.list l) => d.set (.i e.1) (.list (l ++ [.dict e.2]))
  | some _ => d

/-- `{k: [e[k] for e in l] for k in ...}` (`/repo/pyuff/datasets/dataset_2412.py:118-126`). -/
def legacy (l : List Val) : List String → Res Dict
  | [] => .ok []
  | k :: ks => do
    let vs ← mapRes (fun e : Val => e.getK k) l
    let r ← legacy l ks
    .ok ((.s k, .list vs) :: r)

/-- One pass of the loop over `elt_type_dict` (`/repo/pyuff/datasets/dataset_2412.py:115-126`). -/
def addLegacy (d : Dict) (num : Int) (name : String) : Res Dict :=
  match d.get? (.i num) with
  | none => .ok d
  | some v => do
    let l ← v.items
    let r ← legacy l ["element_nums", "fe_descriptor", "phys_table", "mat_table", "color", "num_nodes", "nodes_nums"]
    .ok (d.set name (.dict r))

/-- `_extract2412` (`/repo/pyuff/datasets/dataset_2412.py:78-133`). -/
def extract2412 (block : Text) : Res Dict := readGuard 2412 do
  let es ← readElems (((splitLines block).map splitWs).drop 2)
  let d := es.foldl addElem [("type", .int 2412)]
  let d ← addLegacy d 41 "triangle"
  addLegacy d 44 "quad"

end Verif
