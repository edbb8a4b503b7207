import Verif.Model.Uff
import Verif.Spec.S15
import Verif.Spec.S18
import Verif.Spec.S55
import Verif.Spec.S58
import Verif.Spec.S82
import Verif.Spec.S151
import Verif.Spec.S164
import Verif.Spec.S1858
import Verif.Spec.S2400
import Verif.Spec.S2411
import Verif.Spec.S2412
import Verif.Spec.S2414
import Verif.Spec.S2420
import Verif.Spec.S2429
import Verif.Spec.S2467
/-
A data-set of any of the supported types.
-/
namespace Verif

/-- `y` is `x` without NaN and infinities: NaN becomes `0.0`, an infinity the largest finite double of the same sign. -/
def CleanF (x y : F64) : Prop :=
  (x.finite = true ∧ y = x) ∨ (x.isNaN = true ∧ y = F64.zero) ∨
  (x.isInf = true ∧ y.neg = x.neg ∧ y.mag = F64.infMag - 1)

/-- The same for complex numbers, part by part. -/
def CleanC (x y : F64 × F64) : Prop := CleanF x.1 y.1 ∧ CleanF x.2 y.2

/-- Two lists of the same length, related item by item. -/
def OneByOne {α β} (P : α → β → Prop) (l : List α) (m : List β) : Prop :=
  l.length = m.length ∧ ∀ (i : Nat) x y, l[i]? = some x → m[i]? = some y → P x y

/-- What the data of a dictionary become before they are written: arrays and numbers are cleaned, lists become
arrays, everything else stays. -/
inductive CleanV : Val → Val → Prop
  | none : CleanV .none .none
  | bool b : CleanV (.bool b) (.bool b)
  | int n : CleanV (.int n) (.int n)
  | str s : CleanV (.str s) (.str s)
  | arrI l : CleanV (.arrI l) (.arrI l)
  | dict d : CleanV (.dict d) (.dict d)
  | float {x y} : CleanF x y → CleanV (.float x) (.float y)
  | cplx {x y x' y'} : CleanF x x' → CleanF y y' → CleanV (.cplx x y) (.cplx x' y')
  | arrF {l m} : OneByOne CleanF l m → CleanV (.arrF l) (.arrF m)
  | arrC {l m} : OneByOne CleanC l m → CleanV (.arrC l) (.arrC m)
  | mat {l m} : OneByOne (OneByOne CleanF) l m → CleanV (.mat l) (.mat m)
  | listI {l : List Int} : l ≠ [] → CleanV (.list (l.map .int)) (.arrI l)
  | listF {l m} : OneByOne CleanF l m → CleanV (.list (l.map .float)) (.arrF m)
  | listC {l m} : l ≠ [] → OneByOne CleanC l m → CleanV (.list (l.map fun z => .cplx z.1 z.2)) (.arrC m)

/-- The dictionary with its data cleaned. -/
def CleanD (d d' : Dict) : Prop :=
  (d.get? "data" = none ∧ d' = d) ∨ ∃ v v', d.get? "data" = some v ∧ CleanV v v' ∧ d' = d.set "data" v'

/-- A data-set. -/
inductive DataSet where
  | s15 (r : DS15)
  | s18 (r : DS18)
  | s55 (r : DS55)
  | s58 (r : DS58)
  | s82 (r : DS82)
  | s151 (r : DS151)
  | s164 (r : DS164)
  | s1858 (r : DS1858)
  | s2400 (r : DS2400)
  | s2411 (r : DS2411)
  | s2412 (r : DS2412)
  | s2414 (r : DS2414)
  | s2420 (r : DS2420)
  | s2429 (r : DS2429)
  | s2467 (r : DS2467)

namespace DataSet

/-- Its type. -/
def num : DataSet → Int
  | s15 _ => 15 | s18 _ => 18 | s55 _ => 55 | s58 _ => 58 | s82 _ => 82 | s151 _ => 151 | s164 _ => 164
  | s1858 _ => 1858 | s2400 _ => 2400 | s2411 _ => 2411 | s2412 _ => 2412 | s2420 _ => 2420 | s2429 _ => 2429
  | s2414 _ => 2414 | s2467 _ => 2467

/-- It fits the format. -/
def Ok : DataSet → Prop
  | s15 r => r.Ok | s18 r => r.Ok | s55 r => r.Ok | s58 r => r.Ok | s82 r => r.Ok | s151 r => r.Ok | s164 r => r.Ok
  | s1858 r => r.Ok | s2400 r => r.Ok | s2411 r => r.Ok | s2412 r => r.Ok | s2420 r => r.Ok | s2429 r => r.Ok
  | s2414 r => r.Ok | s2467 r => r.Ok

/-- The dictionary carries this information. -/
def Rep (e : Env) (forceDouble : Bool) (d : Dict) : DataSet → Prop
  | s15 r => r.Rep d | s18 r => r.Rep d | s55 r => r.Rep d | s58 r => DS58.Rep e.little forceDouble d r
  | s82 r => r.Rep d | s151 r => DS151.Rep (e.clock 0).1 (e.clock 0).2 d r | s164 r => r.Rep d | s1858 r => r.Rep d
  | s2400 r => r.Rep d | s2411 r => r.Rep d | s2412 r => r.Rep d | s2420 r => r.Rep d | s2429 r => r.Rep d
  | s2414 r => r.Rep d | s2467 r => r.Rep d

/-- What `read_sets` returns for it. -/
def readBack : DataSet → Dict
  | s15 r => r.readBack | s18 r => r.readBack | s55 r => r.readBack | s58 r => r.readBack | s82 r => r.readBack
  | s151 r => r.readBack | s164 r => r.readBack | s1858 r => r.readBack | s2400 r => r.readBack
  | s2411 r => r.readBack | s2412 r => r.readBack | s2420 r => r.readBack | s2429 r => r.readBack
  | s2414 r => r.readBack | s2467 r => r.readBack

/-- What `read_sets(header_only=True)` returns for it. -/
def headerBack : DataSet → Dict
  | s58 r => r.headerBack
  | s => s.readBack

/-- It is stored in binary form. -/
def Binary : DataSet → Prop
  | s58 r => match r.store with
    | .binary _ => True
    | .ascii _ => False
  | _ => False

end DataSet

/-- The dictionary `d`, once its data are cleaned, is a well-formed data-set `s`. -/
def Given (e : Env) (forceDouble : Bool) (d : Dict) (s : DataSet) : Prop :=
  ∃ d', CleanD d d' ∧ s.Rep e forceDouble d' ∧ s.Ok

/-- The same for lists; every data-set is written at its own time. -/
inductive GivenAll : Env → Bool → List Dict → List DataSet → Prop
  | nil {e fd} : GivenAll e fd [] []
  | cons {e fd d s ds ss} : Given e fd d s → GivenAll e.next fd ds ss → GivenAll e fd (d :: ds) (s :: ss)

end Verif
