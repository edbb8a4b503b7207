import Verif.Spec.Basic
import Verif.Lemmas.Num
/-
What a data-set 55 means: data at nodes.
-/
namespace Verif

/-- A complex number as two doubles. -/
abbrev Cplx := F64 × F64

/-- Both parts are finite. -/
def Cplx.Finite (z : Cplx) : Prop := z.1.finite = true ∧ z.2.finite = true

/-- `a + ib` after `a + 1.j * b`: the same number, except that negative zeros lose their sign (a negative
zero real part keeps it when `b` is negative). -/
def Cplx.unsigned (z : Cplx) : Cplx :=
  (if z.1.mag = 0 ∧ z.2.neg = false then F64.zero else z.1, if z.2.mag = 0 then F64.zero else z.2)

/-- What a complex number becomes when its parts are written with `p` decimals and read back. -/
def Cplx.quant (p : Nat) (z : Cplx) : Cplx := Cplx.unsigned (z.1.quant p, z.2.quant p)

/-- `v` is a complex number. -/
def IsCplx (v : Val) (z : Cplx) : Prop := v = .cplx z.1 z.2

/-- What depends on the analysis type. -/
inductive Head55 where
  /-- Normal mode. -/
  | normal (load mode : Int) (freq m vis his : F64)
  /-- Complex eigenvalue of first (`false`) or second (`true`) order. -/
  | cmplx (second : Bool) (load mode : Int) (eig a b : Cplx)
  /-- Frequency response. -/
  | frf (load step : Int) (freq : F64)

/-- Three real values at a node. -/
structure Node3 where
  num : Int
  x : F64
  y : F64
  z : F64
/-- Six real values at a node. -/
structure Node6 where
  num : Int
  x : F64
  y : F64
  z : F64
  xx : F64
  yy : F64
  zz : F64
/-- Three complex values at a node. -/
structure NodeC where
  num : Int
  x : Cplx
  y : Cplx
  z : Cplx

/-- The data at the nodes. -/
inductive Data55 where
  | real3 (l : List Node3)
  | real6 (l : List Node6)
  | cplx3 (l : List NodeC)

/-- The information in a data-set 55. -/
structure DS55 where
  id1 : Text
  id2 : Text
  id3 : Text
  id4 : Text
  id5 : Text
  model : Int
  ch : Int
  spec : Int
  head : Head55
  data : Data55

namespace DS55

/-- The analysis type. -/
def anType : Head55 → Int
  | .normal .. => 2
  | .cmplx false .. => 3
  | .cmplx true .. => 7
  | .frf .. => 5

/-- The dictionary carries the values of the analysis type. -/
def HeadRep (d : Dict) : Head55 → Prop
  | .normal load mode freq m vis his =>
    HasInt d "load_case" load ∧ HasInt d "mode_n" mode ∧ HasFloat d "freq" freq ∧
    HasFloatOr d "modal_m" (.int 0) m ∧ HasFloatOr d "modal_damp_vis" (.int 0) vis ∧
    HasFloatOr d "modal_damp_his" (.int 0) his
  | .cmplx _ load mode eig a b =>
    HasInt d "load_case" load ∧ HasInt d "mode_n" mode ∧ (∃ v, d.get? "eig" = some v ∧ IsCplx v eig) ∧
    IsCplx (d.getOr "modal_a" (.cplx F64.zero F64.zero)) a ∧ IsCplx (d.getOr "modal_b" (.cplx F64.zero F64.zero)) b
  | .frf load step freq => HasInt d "load_case" load ∧ HasInt d "freq_step_n" step ∧ HasFloat d "freq" freq

/-- A list or array of complex numbers. -/
def HasCplxs (d : Dict) (k : Key) (l : List Cplx) : Prop := ∃ v, d.get? k = some v ∧ IsSeq IsCplx v l

/-- Not all of `r4`, `r5`, `r6` are given. -/
def Three (d : Dict) : Prop := ¬ (d.has "r4" = true ∧ d.has "r5" = true ∧ d.has "r6" = true)

/-- The dictionary carries the data: real data in `r1` to `r3` or `r6`, or complex data in `r1` to `r3`.  An
empty sequence `r1` counts as real data, unless it is a complex array. -/
def DataRep (d : Dict) : Data55 → Prop
  | .real3 l => HasInts d "node_nums" (l.map (·.num)) ∧ HasFloats d "r1" (l.map (·.x)) ∧
    HasFloats d "r2" (l.map (·.y)) ∧ HasFloats d "r3" (l.map (·.z)) ∧ d.get? "r1" ≠ some (.arrC []) ∧ Three d
  | .real6 l => HasInts d "node_nums" (l.map (·.num)) ∧ HasFloats d "r1" (l.map (·.x)) ∧
    HasFloats d "r2" (l.map (·.y)) ∧ HasFloats d "r3" (l.map (·.z)) ∧ HasFloats d "r4" (l.map (·.xx)) ∧
    HasFloats d "r5" (l.map (·.yy)) ∧ HasFloats d "r6" (l.map (·.zz)) ∧ d.get? "r1" ≠ some (.arrC [])
  | .cplx3 l => HasInts d "node_nums" (l.map (·.num)) ∧ HasCplxs d "r1" (l.map (·.x)) ∧
    HasCplxs d "r2" (l.map (·.y)) ∧ HasCplxs d "r3" (l.map (·.z)) ∧ (l = [] → d.get? "r1" = some (.arrC []))

/-- The dictionary given to `write_sets` carries this information, and may carry complex `r4`, `r5` and `r6` besides. -/
structure Carries (d : Dict) (r : DS55) : Prop where
  type : d.get? "type" = some (.int 55)
  id1 : HasStrOr d "id1" "NONE" r.id1
  id2 : HasStrOr d "id2" "NONE" r.id2
  id3 : HasStrOr d "id3" "NONE" r.id3
  id4 : HasStrOr d "id4" "NONE" r.id4
  id5 : HasStrOr d "id5" "NONE" r.id5
  model : HasIntOr d "model_type" 1 r.model
  an : d.get? "analysis_type" = some (.int (anType r.head))
  ch : HasInt d "data_ch" r.ch
  spec : HasInt d "spec_data_type" r.spec
  head : HeadRep d r.head
  data : DataRep d r.data

/-- The dictionary given to `write_sets` carries this information and no further values at the nodes. -/
structure Rep (d : Dict) (r : DS55) : Prop extends Carries d r where
  three : ∀ l, r.data = .cplx3 l → Three d

/-- The values of the analysis type fit. -/
def HeadOk : Head55 → Prop
  | .normal load mode freq m vis his => Fits 10 load ∧ Fits 10 mode ∧ mode ≠ -1 ∧ freq.finite = true ∧
    m.finite = true ∧ vis.finite = true ∧ his.finite = true
  | .cmplx _ load mode eig a b => Fits 10 load ∧ Fits 10 mode ∧ mode ≠ -1 ∧ eig.Finite ∧ a.Finite ∧ b.Finite
  | .frf load step freq => Fits 10 load ∧ Fits 10 step ∧ step ≠ -1 ∧ freq.finite = true

/-- The data fit: node numbers are not `-1`, values are finite. -/
def DataOk : Data55 → Prop
  | .real3 l => ∀ n ∈ l, Fits 10 n.num ∧ n.num ≠ -1 ∧ n.x.finite = true ∧ n.y.finite = true ∧ n.z.finite = true
  | .real6 l => ∀ n ∈ l, Fits 10 n.num ∧ n.num ≠ -1 ∧ n.x.finite = true ∧ n.y.finite = true ∧ n.z.finite = true ∧
    n.xx.finite = true ∧ n.yy.finite = true ∧ n.zz.finite = true
  | .cplx3 l => ∀ n ∈ l, Fits 10 n.num ∧ n.num ≠ -1 ∧ n.x.Finite ∧ n.y.Finite ∧ n.z.Finite

/-- It fits the fields of the format. -/
structure Ok (r : DS55) : Prop where
  id1 : LineText 80 r.id1
  id2 : LineText 80 r.id2
  id3 : LineText 80 r.id3
  id4 : LineText 80 r.id4
  id5 : LineText 80 r.id5
  model : Fits 10 r.model
  ch : Fits 10 r.ch
  spec : Fits 10 r.spec
  head : HeadOk r.head
  data : DataOk r.data

/-- `data_type` and `n_data_per_node`. -/
def kind : Data55 → Int × Int
  | .real3 _ => (2, 3)
  | .real6 _ => (2, 6)
  | .cplx3 _ => (5, 3)

/-- The entries of the analysis type. -/
def headBack : Head55 → Dict
  | .normal load mode freq m vis his =>
    [("load_case", .int load), ("mode_n", .int mode), ("freq", .float (freq.quant 5)), ("modal_m", .float (m.quant 5)),
     ("modal_damp_vis", .float (vis.quant 5)), ("modal_damp_his", .float (his.quant 5))]
  | .cmplx _ load mode eig a b =>
    [("load_case", .int load), ("mode_n", .int mode), ("modal_a", .cplx (a.quant 5).1 (a.quant 5).2),
     ("modal_b", .cplx (b.quant 5).1 (b.quant 5).2), ("eig", .cplx (eig.quant 5).1 (eig.quant 5).2)]
  | .frf load step freq => [("load_case", .int load), ("freq_step_n", .int step), ("freq", .float (freq.quant 5))]

/-- Node numbers as read: an array, of floats when there is none. -/
def numsBack (l : List Int) : Val := if l.isEmpty then .arrF [] else .arrI l

/-- The entries of the data. -/
def dataBack : Data55 → Dict
  | .real3 l => [("node_nums", numsBack (l.map (·.num))), ("r1", .arrF (l.map (·.x.quant 5))),
     ("r2", .arrF (l.map (·.y.quant 5))), ("r3", .arrF (l.map (·.z.quant 5)))]
  | .real6 l => [("node_nums", numsBack (l.map (·.num))), ("r1", .arrF (l.map (·.x.quant 5))),
     ("r2", .arrF (l.map (·.y.quant 5))), ("r3", .arrF (l.map (·.z.quant 5))), ("r4", .arrF (l.map (·.xx.quant 5))),
     ("r5", .arrF (l.map (·.yy.quant 5))), ("r6", .arrF (l.map (·.zz.quant 5)))]
  | .cplx3 l => [("node_nums", numsBack (l.map (·.num))), ("r1", .arrC (l.map (·.x.quant 5))),
     ("r2", .arrC (l.map (·.y.quant 5))), ("r3", .arrC (l.map (·.z.quant 5)))]

/-- The entries common to all analysis types. -/
def common (r : DS55) : Dict :=
  [("type", .int 55), ("id1", .str (strip r.id1)), ("id2", .str (strip r.id2)), ("id3", .str (strip r.id3)),
   ("id4", .str (strip r.id4)), ("id5", .str (strip r.id5)), ("model_type", .int r.model),
   ("analysis_type", .int (anType r.head)), ("data_ch", .int r.ch), ("spec_data_type", .int r.spec),
   ("data_type", .int (kind r.data).1), ("n_data_per_node", .int (kind r.data).2)]

/-- The dictionary returned by `read_sets`. -/
def readBack (r : DS55) : Dict := r.common ++ (headBack r.head ++ dataBack r.data)

end DS55
end Verif
