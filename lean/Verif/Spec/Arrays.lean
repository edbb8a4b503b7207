import Verif.Py.Val
/-
The lengths of the arrays in a dictionary.
-/
namespace Verif

/-- The number of values in the array or list under a name. -/
def countOf (d : Dict) (k : String) : Option Nat :=
  match d.get? (.s k) with
  | some (.arrI l) => some l.length
  | some (.arrF l) => some l.length
  | some (.arrC l) => some l.length
  | some (.mat l) => some l.length
  | some (.list l) => some l.length
  | _ => none

/-- All these entries are arrays or lists; each is as long as those before it, or has one value less. -/
def Steps (d : Dict) (ks : List String) : Prop :=
  ∃ ns : List Nat, ks.map (countOf d) = ns.map some ∧ ns.Pairwise fun a b => b ≤ a ∧ a ≤ b + 1

/-- All these entries are arrays or lists of `n` values. -/
def Equal (d : Dict) (n : Nat) (ks : List String) : Prop := ∀ k ∈ ks, countOf d k = some n

/-- The seven lists of `triangle` and `quad`. -/
def sevenNames : List String := ["element_nums", "fe_descriptor", "phys_table", "mat_table", "color", "num_nodes", "nodes_nums"]

/-- A matrix of rows of three numbers. -/
def Triples (d : Dict) (k : String) : Prop := ∃ m, d.get? (.s k) = some (.mat m) ∧ ∀ r ∈ m, r.length = 3

/-- The lengths of abscissa and ordinate. -/
def Paired (d : Dict) : Prop :=
  ∃ odt sp : Int, ∃ n m : Nat, d.get? "ord_data_type" = some (.int odt) ∧ d.get? "abscissa_spacing" = some (.int sp) ∧
    countOf d "x" = some n ∧ countOf d "data" = some m ∧ (n = m ∨ ((odt = 5 ∨ odt = 6) ∧ sp ≠ 0 ∧ n = m + 1))

/-- The components of a frequency response with `c` values per node. -/
def freqNames (c : Int) : List String :=
  ["node_nums", "x"] ++ ((if c ≥ 2 then ["y"] else []) ++ (if c ≥ 3 then ["z"] else []))

/-- The lengths of the data of the other analysis types at a location. -/
def PlainSteps (loc : Int) (d : Dict) : Prop :=
  (loc = 1 → Steps d ["node_nums", "data_at_node"]) ∧
  (loc = 2 → Steps d ["element_nums", "NDVAL", "data_at_element"]) ∧
  (loc = 3 → ∃ n, Equal d n ["element_nums", "IEXP", "number_of_nodes", "number_of_values_per_node", "data_at_nodes_on_element"])

/-- The lengths in a data-set 2414. -/
def Steps2414 (d : Dict) : Prop :=
  ∃ loc a t c : Int, d.get? "dataset_location" = some (.int loc) ∧ d.get? "analysis_type" = some (.int a) ∧
    d.get? "data_type" = some (.int t) ∧ d.get? "number_of_data_values_for_the_data_component" = some (.int c) ∧
    (a = 5 → t = 5 → 1 ≤ c → Steps d (freqNames c)) ∧ (a ≠ 5 → PlainSteps loc d)

end Verif
