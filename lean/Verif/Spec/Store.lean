import Verif.Model.Session
import Verif.Spec.DataSet
/-
The simple machine a user has in mind: a list of data-sets and, for each object, the part of the list it knows.  No bytes,
no delimiters.
-/
namespace Verif

/-- A data-set as it can be seen from outside: its type, and what reading it gives, in full and the header only. -/
structure Item where
  num : Int
  full : Res Dict
  head : Res Dict

namespace Item

/-- A data-set that has been written. -/
def written (s : DataSet) : Item := ⟨s.num, .ok s.readBack, .ok s.headerBack⟩

/-- What reading gives. -/
def get (i : Item) (header : Bool) : Res Dict := if header then i.head else i.full

end Item

/-- What an object knows. -/
structure View where
  /-- The types of the data-sets it has seen; `none` if it has not seen the file. -/
  known : Option (List Int)
  /-- Nothing has been overwritten by another object since. -/
  good : Bool

/-- The list of data-sets (`none`: there is no file), and the views of the objects. -/
structure Store where
  items : Option (List Item)
  views : Nat → View

/-- The calls. -/
inductive Op where
  | create
  | nSets
  | types
  | formats
  | fileExists
  | status
  | refresh
  | read (sel : Sel) (header : Bool)
  /-- data-sets are added -/
  | add (ss : List DataSet)
  /-- data-sets replace everything -/
  | replace (ss : List DataSet)
  /-- a data-set of an unknown type is added -/
  | ignored
  /-- a data-set that fails before anything is written is added -/
  | failed (x : Err)
  /-- the arguments are refused -/
  | refused (x : Err)

namespace Store

/-- What an object knows when it looks now. -/
def look (items : Option (List Item)) : View := ⟨items.map fun l => l.map Item.num, true⟩

/-- An object that has not seen the file looks; the others do not. -/
def fresh (st : Store) (i : Nat) : View := if (st.views i).known.isSome then st.views i else look st.items

/-- The view of object `i` changes. -/
def see (st : Store) (i : Nat) (v : View) : Store := { st with views := fun j => if j = i then v else st.views j }

/-- All results, or the first error: readers that fail are reported by one message. -/
def collect : List (Res Dict) → Res (List Dict)
  | [] => .ok []
  | .ok d :: r => (collect r).map (d :: ·)
  | .error .unmodelled :: _ => .error .unmodelled
  | .error _ :: _ => .error (.exc "Error when reading data-set(s).")

/-- The numbers of the data-sets wanted; `n` is the number of data-sets known when the call is made. -/
def wanted (n : Nat) : Sel → List Int
  | .all => (List.range n).map fun (k : Nat) => (k : Int)
  | .one k => [k]
  | .many l => l

/-- Data-set number `k` of a list. -/
def pick (l : List Item) (header : Bool) (k : Int) : Res Dict :=
  if k < 0 then .error (.exc "Cannot read data-set")
  else match l[k.toNat]? with
    | some i => i.get header
    | none => .error (.exc "Cannot read data-set")

/-- A list of one dictionary is returned as the dictionary. -/
def shape : List Dict → ReadOut
  | [d] => .single d
  | l => .list l

/-- One call of object `i`. -/
def call (st : Store) (i : Nat) : Op → Store × Out
  | .create => (st.see i (look st.items), .nothing)
  | .nSets => (st.see i (st.fresh i), .num ((st.fresh i).known.getD []).length)
  | .types => (st.see i (st.fresh i), .types ((st.fresh i).known.getD []))
  | .formats => (st.see i (st.fresh i), .formats (((st.fresh i).known.getD []).map fun _ => 0))
  | .fileExists => (st, .flag st.items.isSome)
  | .status => (st, .flag (st.views i).known.isSome)
  | .refresh => (st.see i (look st.items), .flag st.items.isSome)
  | .read sel header =>
    match st.items with
    | none => (st, .sets (.error (.exc "Cannot read from a non-existing file")))
    | some l =>
      let mine := l.take ((st.fresh i).known.getD []).length
      (st.see i (st.fresh i),
        .sets ((collect ((wanted ((st.views i).known.getD []).length sel).map (pick mine header))).map shape))
  | .add ss =>
    let items := some (st.items.getD [] ++ ss.map .written)
    (⟨items, fun j => if j = i then look items else st.views j⟩, .wrote (.ok ()))
  | .replace ss =>
    let items := some (ss.map .written)
    (⟨items, fun j => if j = i then look items else ⟨(st.views j).known, (st.views j).known.isNone⟩⟩, .wrote (.ok ()))
  | .ignored =>
    let items := some (st.items.getD [])
    (⟨items, fun j => if j = i then look items else st.views j⟩, .wrote (.ok ()))
  | .failed x => (⟨some (st.items.getD []), st.views⟩, .wrote (.error x))
  | .refused x => (st, .wrote (.error x))

/-- A history of calls. -/
def run (st : Store) : List (Nat × Op) → Store × List Out
  | [] => (st, [])
  | (i, c) :: cs =>
    let r := st.call i c
    let q := run r.1 cs
    (q.1, r.2 :: q.2)

/-- An object reads only if nothing has been overwritten by another object since it looked. -/
def Fair (st : Store) : List (Nat × Op) → Prop
  | [] => True
  | (i, c) :: cs => (∀ sel header, c = .read sel header → (st.views i).good = true) ∧ Fair (st.call i c).1 cs

end Store
end Verif
