import Verif.Spec.S58
/-
Data-sets 58 whose `ord_data_type` does not tell the kind of the ordinate.
-/
namespace Verif
namespace DS58

/-- The type declared when it is the wrong one: complex (5, 6) for real numbers, real (2, 4) for complex numbers. -/
def wrongType (o : Ord58) (double : Bool) : Int := match o, double with
  | .real _, true => 6
  | .real _, false => 5
  | .cplx _, true => 4
  | .cplx _, false => 2

/-- The dictionary asks for text and declares real numbers as complex or complex ones as real (`force_double` must be off). -/
structure WrongRep (d : Dict) (double : Bool) (r : DS58) : Prop extends Content d r where
  text : ∃ v, d.getOr "binary" (.int 0) = v ∧ (v = .int 0 ∨ v = .bool false)
  declared : d.get? "ord_data_type" = some (.int (wrongType r.ord double))

/-- The header read: the type is the one declared, the number of points the one given. -/
def wrongHead (double : Bool) (r : DS58) : Dict :=
  ([("type", .int 58), ("binary", .int 0)] : Dict) ++ (r.idBack ++
  (([("ord_data_type", .int (wrongType r.ord double)), ("num_pts", .int r.count),
    ("abscissa_spacing", .int (if r.even then 1 else 0)), ("abscissa_min", .float (r.min.quant 5)),
    ("abscissa_inc", .float (r.inc.quant 5)), ("z_axis_value", .float (r.zValue.quant 5))] : Dict) ++ r.axesBack))

/-- The header alone. -/
def wrongHeader (double : Bool) (r : DS58) : Dict := wrongHead double r ++ ([("x", .none), ("data", .none)] : Dict)

/-- The header, and the given abscissa and ordinate. -/
def wrongBack (double : Bool) (r : DS58) (x : List F64) (y : Val) : Dict :=
  wrongHead double r ++ ([("x", .arrF x), ("data", y)] : Dict)

/-- The digits kept. -/
def digits (double : Bool) : Nat := if double then 11 else 5

/-- Equally spaced abscissas. -/
def spaced (r : DS58) (n : Nat) : List F64 := (List.range n).map fun i => (r.min.quant 5).add ((F64.ofNat i).mul (r.inc.quant 5))

/-- Neighbours taken together; a single last one is dropped. -/
def pairUp {α : Type} : List α → List (α × α)
  | a :: b :: l => (a, b) :: pairUp l
  | _ => []

end DS58
end Verif
