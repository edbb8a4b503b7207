import Verif.Model.Scan
import Verif.Model.DS15
import Verif.Model.DS18
import Verif.Model.DS55
import Verif.Model.DS58
import Verif.Model.DS82
import Verif.Model.DS151
import Verif.Model.DS164
import Verif.Model.DS1858
import Verif.Model.DS2400
import Verif.Model.DS2411
import Verif.Model.DS2412
import Verif.Model.DS2414
import Verif.Model.DS2420
import Verif.Model.DS2429
import Verif.Model.DS2467
/-
The class `UFF` (`/repo/pyuff/pyuff.py:68-482`).

The file system as seen by one object is `Option Bytes`: the file is absent, or has a content.  Opening, reading
and writing an existing file always succeeds (permissions, full disks and other processes are not modelled;
interrupted writes are treated by theorems about prefixes of the bytes written).
-/
namespace Verif

/-- What the result depends on besides file and arguments: the byte order of the machine
(`/repo/pyuff/datasets/dataset_58.py:909`) and the date and time printed by the successive calls of `time.strftime`
(`/repo/pyuff/datasets/dataset_151.py:50-51`), one pair for each data-set written. -/
structure Env where
  little : Bool
  clock : Nat → Text × Text

/-- The environment of the next data-set. -/
def Env.next (e : Env) : Env := { e with clock := fun i => e.clock (i + 1) }

/-- The information kept by the object (`/repo/pyuff/pyuff.py:109-113`); the pairs of `blockInd` are start and
exclusive end of a block. -/
structure Obj where
  blockInd : List (Nat × Nat)
  refreshed : Bool
  nSets : Nat
  types : List Int
  formats : List Nat
deriving DecidableEq

/-- File and object. -/
structure World where
  file : Option Bytes
  obj : Obj

/-- A new object before its first `refresh` (`/repo/pyuff/pyuff.py:109-113`). -/
def Obj.empty : Obj := ⟨[], false, 0, [], []⟩

/-- `refresh` (`/repo/pyuff/pyuff.py:164-242`): the new information, and the value returned.  When the file has no
complete block the old information is kept (lines 208-213). -/
def refreshObj (file : Option Bytes) (o : Obj) : Obj × Bool :=
  match file with
  | none => ({ o with refreshed := false }, false)
  | some data =>
    let ps := pairUp (scanTags data)
    if ps = [] then ({ o with refreshed := true }, true)
    else (⟨ps, true, ps.length, ps.map fun p => blockType (blockBytes data p),
      ps.map fun p => blockFormat (blockBytes data p)⟩, true)

/-- `refresh()`. -/
def World.refresh (w : World) : World × Bool :=
  let r := refreshObj w.file w.obj
  (⟨w.file, r.1⟩, r.2)

/-- `UFF(filename)` (`/repo/pyuff/pyuff.py:89-116`). -/
def World.new (file : Option Bytes) : World := (World.refresh ⟨file, .empty⟩).1

/-- `if not self._refreshed: self.refresh()` (`/repo/pyuff/pyuff.py:125-126`). -/
def World.fresh (w : World) : World := if w.obj.refreshed then w else w.refresh.1

/-- `get_n_sets()` (`/repo/pyuff/pyuff.py:122-127`). -/
def World.getNSets (w : World) : World × Nat := (w.fresh, w.fresh.obj.nSets)
/-- `get_set_types()` (`/repo/pyuff/pyuff.py:129-137`). -/
def World.getSetTypes (w : World) : World × List Int := (w.fresh, w.fresh.obj.types)
/-- `get_set_formats()` (`/repo/pyuff/pyuff.py:139-143`). -/
def World.getSetFormats (w : World) : World × List Nat := (w.fresh, w.fresh.obj.formats)
/-- `file_exists()` (`/repo/pyuff/pyuff.py:149-155`). -/
def World.fileExists (w : World) : Bool := w.file.isSome
/-- `get_status()` (`/repo/pyuff/pyuff.py:157-162`). -/
def World.getStatus (w : World) : Bool := w.obj.refreshed

/-- Extraction of a block of type `t` (`/repo/pyuff/pyuff.py:354-400`). -/
def readBlock (t : Int) (headerOnly : Bool) (block : Bytes) : Res Dict :=
  if t = 15 then extract15 (decode block)
  else if t = 18 then extract18 (decode block)
  else if t = 55 then extract55 (decode block)
  else if t = 58 then extract58 block headerOnly
  else if t = 82 then extract82 (decode block)
  else if t = 151 then extract151 (decode block)
  else if t = 164 then extract164 (decode block)
  else if t = 1858 then extract1858 (decode block)
  else if t = 2400 then extract2400 (decode block)
  else if t = 2411 then extract2411 (decode block)
  else if t = 2412 then extract2412 (decode block)
  else if t = 2414 then extract2414 (decode block)
  else if t = 2420 then extract2420 (decode block)
  else if t = 2429 then extract2429 (decode block)
  else if t = 2467 then extract2467 (decode block)
  else .ok [("type", .int t)]

/-- `_read_set(n, header_only)` (`/repo/pyuff/pyuff.py:324-401`) on a refreshed object. -/
def readSet (data : Bytes) (o : Obj) (n : Int) (headerOnly : Bool) : Res Dict :=
  if n > (o.nSets : Int) - 1 ∨ n < 0 then .error (.exc "Cannot read data-set")
  else match o.blockInd[n.toNat]?, o.types[n.toNat]? with
    | some p, some t => readBlock t headerOnly (blockBytes data p)
    | _, _ => .error .index

/-- The argument `setn` of `read_sets`: `None`, a number, or a list of numbers (`/repo/pyuff/pyuff.py:259-265`). -/
inductive Sel where
  | all
  | one (n : Int)
  | many (l : List Int)

/-- What `read_sets` returns: a dictionary, or a list of dictionaries. -/
inductive ReadOut where
  | single (d : Dict)
  | list (l : List Dict)
deriving DecidableEq

/-- `if len(dset) == 1: dset = dset[0]` (`/repo/pyuff/pyuff.py:280-281`). -/
def unwrap : List Dict → ReadOut
  | [d] => .single d
  | l => .list l

/-- `read_range` (`/repo/pyuff/pyuff.py:259-265`): the number of data-sets known *before* the refresh is used. -/
def readRange (o : Obj) : Sel → List Int
  | .all => (List.range o.nSets).map Int.ofNat
  | .one n => [n]
  | .many l => l

/-- The error raised by `read_sets` (`/repo/pyuff/pyuff.py:275-279`): no exception raised by the readers has an
attribute `value`. -/
def readErr : Err → Err
  | .unmodelled => .unmodelled
  | _ => .exc "Error when reading data-set(s)."

/-- `read_sets(setn, header_only)` (`/repo/pyuff/pyuff.py:244-282`). -/
def World.readSets (w : World) (sel : Sel) (headerOnly : Bool) : World × Res ReadOut :=
  let range := readRange w.obj sel
  match w.file with
  | none => (w, .error (.exc "Cannot read from a non-existing file"))
  | some data =>
    let w' := w.fresh
    (w', match mapRes (fun n => readSet data w'.obj n headerOnly) range with
      | .ok l => .ok (unwrap l)
      | .error e => .error (readErr e))

/-! Writing. -/

/-- `np.nan_to_num` of a list (`/repo/pyuff/pyuff.py:442`), for flat lists of numbers of one kind; others are not
modelled.  The empty list gives an empty float array. -/
def nanToNumList (l : List Val) : Res Val :=
  match l with
  | [] => .ok (.arrF [])
  | .int _ :: _ =>
    (mapRes (fun v => match v with
      | .int n => .ok n
      | _ => .error .unmodelled) l).map .arrI
  | .float _ :: _ =>
    (mapRes (fun v => match v with
      | .float x => .ok x.nanToNum
      | _ => .error .unmodelled) l).map .arrF
  | .cplx _ _ :: _ =>
    (mapRes (fun v => match v with
      | .cplx x y => .ok (x.nanToNum, y.nanToNum)
      | _ => .error .unmodelled) l).map .arrC
  | _ => .error .unmodelled

/-- `np.nan_to_num(v)` (`/repo/pyuff/pyuff.py:442`): values that are not inexact numbers are unchanged. -/
def nanToNumV : Val → Res Val
  | .float x => .ok (.float x.nanToNum)
  | .cplx x y => .ok (.cplx x.nanToNum y.nanToNum)
  | .arrF l => .ok (.arrF (l.map F64.nanToNum))
  | .arrC l => .ok (.arrC (l.map fun z => (z.1.nanToNum, z.2.nanToNum)))
  | .mat l => .ok (.mat (l.map fun r => r.map F64.nanToNum))
  | .list l => nanToNumList l
  | v => .ok v

/-- `if 'data' in dset.keys(): dset['data'] = np.nan_to_num(dset['data'])` (`/repo/pyuff/pyuff.py:441-442`). -/
def cleanData (d : Dict) : Res Dict :=
  match d.get? "data" with
  | none => .ok d
  | some v => (nanToNumV v).map fun v' => d.set "data" v'

/-- A writer that does not return bytes. -/
def W.none {α} (m : W Unit) : W (Option α) := fun d =>
  ⟨(m d).out, (m d).dict, (m d).res.map fun _ => Option.none⟩

/-- The writer chosen by the type (`/repo/pyuff/pyuff.py:444-476`); a data-set of another type is not written.  A type
that is an array is not modelled. -/
def writeDispatch (e : Env) (forceDouble : Bool) (t : Val) : W (Option Bytes) :=
  match t with
  | .arrI _ | .arrF _ | .arrC _ | .mat _ => W.raise .unmodelled
  | t =>
    if t.numEq 15 then W.none write15
    else if t.numEq 18 then W.none write18
    else if t.numEq 55 then W.none write55
    else if t.numEq 58 then write58 e.little forceDouble
    else if t.numEq 82 then W.none write82
    else if t.numEq 151 then W.none (write151 (e.clock 0).1 (e.clock 0).2)
    else if t.numEq 164 then W.none write164
    else if t.numEq 1858 then W.none write1858
    else if t.numEq 2400 then W.none write2400
    else if t.numEq 2411 then W.none write2411
    else if t.numEq 2412 then W.none write2412
    else if t.numEq 2414 then W.none write2414
    else if t.numEq 2420 then W.none write2420
    else if t.numEq 2429 then W.none write2429
    else if t.numEq 2467 then W.none write2467
    else W.pure none

/-- The body of `_write_set` once the file is open (`/repo/pyuff/pyuff.py:431-476`). -/
def writeBody (e : Env) (forceDouble : Bool) (d : Dict) : WRes (Option Bytes) :=
  match d.get? "type" with
  | none => ⟨[], d, .error (.exc "missing type")⟩
  | some t =>
    match cleanData d with
    | .error x => ⟨[], d, .error x⟩
    | .ok d' => writeDispatch e forceDouble t d'

/-- The content of the file after `_write_set` (`/repo/pyuff/pyuff.py:418-481`).  In mode 'overwrite' opening the file
empties it (line 421).  Text written before an exception stays (lines 477-479).  A binary data-set 58 is written in
three steps that reopen the file (`/repo/pyuff/datasets/dataset_58.py:963-977,1011`): in mode 'overwrite' each of them
empties it again, so that only the closing delimiter is left.  (The last handle is closed when it goes out of scope.) -/
def fileAfter (over : Bool) (file : Option Bytes) (r : WRes (Option Bytes)) : Bytes :=
  let old := if over then [] else file.getD []
  match r.res with
  | .ok (some payload) => if over then encode tailText else old ++ (encode r.out ++ (payload ++ encode tailText))
  | _ => old ++ encode r.out

/-- `_write_set(dset, mode, force_double)` (`/repo/pyuff/pyuff.py:403-482`): file and object, the dictionary as the
caller sees it afterwards, and the outcome.  The object is refreshed only on success. -/
def World.writeSet (w : World) (e : Env) (forceDouble over : Bool) (d : Dict) : World × Dict × Res Unit :=
  let r := writeBody e forceDouble d
  let file := some (fileAfter over w.file r)
  match r.res with
  | .ok _ => ((World.refresh ⟨file, w.obj⟩).1, r.dict, .ok ())
  | .error x => (⟨file, w.obj⟩, r.dict, .error x)

/-- The `for` loops of `write_sets` (`/repo/pyuff/pyuff.py:315-320`): data-sets in mode 'add' until one fails. -/
def World.addAll (w : World) (e : Env) (forceDouble : Bool) : List Dict → World × List Dict × Res Unit
  | [] => (w, [], .ok ())
  | d :: ds =>
    match w.writeSet e forceDouble false d with
    | (w', d', .ok ()) =>
      let r := World.addAll w' e.next forceDouble ds
      (r.1, d' :: r.2.1, r.2.2)
    | (w', d', .error x) => (w', d' :: ds, .error x)

/-- `write_sets(dsets, mode, force_double)` (`/repo/pyuff/pyuff.py:284-322`) for a list of dictionaries; a single
dictionary is treated as a list of one (lines 306-307).  The dictionaries are taken to be distinct objects. -/
def World.writeSets (w : World) (e : Env) (mode : Text) (forceDouble : Bool) (ds : List Dict) :
    World × List Dict × Res Unit :=
  match ds with
  | [] => (w, [], .error (.exc "Nothing to write"))
  | d :: rest =>
    if lower mode = "overwrite".toList then
      match w.writeSet e forceDouble true d with
      | (w', d', .ok ()) =>
        let r := World.addAll w' e.next forceDouble rest
        (r.1, d' :: r.2.1, r.2.2)
      | (w', d', .error x) => (w', d' :: rest, .error x)
    else if lower mode = "add".toList then World.addAll w e forceDouble (d :: rest)
    else (w, d :: rest, .error (.exc "Unknown mode"))

end Verif
