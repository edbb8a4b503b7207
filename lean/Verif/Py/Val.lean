import Verif.Py.Float
import Verif.Py.Utf8
/-
Dynamic python values, dictionaries, exceptions and the writer monad.
-/
namespace Verif

/-- A dictionary key: the code uses string keys everywhere and integer keys for the element types of
data-set 2412 (`/repo/pyuff/datasets/dataset_2412.py:50-54`). -/
inductive Key where
  | s (k : String)
  | i (n : Int)
deriving DecidableEq, Repr

instance : Coe String Key := ⟨Key.s⟩

/-- The python / numpy values that occur in data-set dictionaries.
`arrI`, `arrF`, `arrC` are one-dimensional numpy arrays of integers, floats and complex numbers,
`mat` is a two-dimensional float array given by its rows, `list` is a python list or tuple.
Other objects are not modelled. -/
inductive Val where
  | none
  | bool (b : Bool)
  | int (n : Int)
  | float (x : F64)
  | cplx (re im : F64)
  | str (s : Text)
  | arrI (l : List Int)
  | arrF (l : List F64)
  | arrC (l : List (F64 × F64))
  | mat (rows : List (List F64))
  | list (l : List Val)
  | dict (d : List (Key × Val))

mutual
/-- Decidable equality of values (the deriving handler does not support nested types). -/
def Val.decEq : (a b : Val) → Decidable (a = b)
  | .none, b => by cases b <;> first | exact isTrue rfl | exact isFalse (by intro h; cases h)
  | .bool x, b => by
      cases b
      case bool y => exact (if h : x = y then isTrue (by rw [h]) else isFalse (by intro h'; cases h'; exact h rfl))
      all_goals exact isFalse (by intro h; cases h)
  | .int x, b => by
      cases b
      case int y => exact (if h : x = y then isTrue (by rw [h]) else isFalse (by intro h'; cases h'; exact h rfl))
      all_goals exact isFalse (by intro h; cases h)
  | .float x, b => by
      cases b
      case float y => exact (if h : x = y then isTrue (by rw [h]) else isFalse (by intro h'; cases h'; exact h rfl))
      all_goals exact isFalse (by intro h; cases h)
  | .cplx x x', b => by
      cases b
      case cplx y y' =>
        exact (if h : x = y ∧ x' = y' then isTrue (by rw [h.1, h.2])
          else isFalse (by intro h'; cases h'; exact h ⟨rfl, rfl⟩))
      all_goals exact isFalse (by intro h; cases h)
  | .str x, b => by
      cases b
      case str y => exact (if h : x = y then isTrue (by rw [h]) else isFalse (by intro h'; cases h'; exact h rfl))
      all_goals exact isFalse (by intro h; cases h)
  | .arrI x, b => by
      cases b
      case arrI y => exact (if h : x = y then isTrue (by rw [h]) else isFalse (by intro h'; cases h'; exact h rfl))
      all_goals exact isFalse (by intro h; cases h)
  | .arrF x, b => by
      cases b
      case arrF y => exact (if h : x = y then isTrue (by rw [h]) else isFalse (by intro h'; cases h'; exact h rfl))
      all_goals exact isFalse (by intro h; cases h)
  | .arrC x, b => by
      cases b
      case arrC y => exact (if h : x = y then isTrue (by rw [h]) else isFalse (by intro h'; cases h'; exact h rfl))
      all_goals exact isFalse (by intro h; cases h)
  | .mat x, b => by
      cases b
      case mat y => exact (if h : x = y then isTrue (by rw [h]) else isFalse (by intro h'; cases h'; exact h rfl))
      all_goals exact isFalse (by intro h; cases h)
  | .list x, b =>
      match b with
      | .list y => match Val.decEqList x y with
        | isTrue h => isTrue (by rw [h])
        | isFalse h => isFalse (by intro h'; cases h'; exact h rfl)
      | .none | .bool _ | .int _ | .float _ | .cplx _ _ | .str _ | .arrI _ | .arrF _ | .arrC _
      | .mat _ | .dict _ => isFalse (by intro h; cases h)
  | .dict x, b =>
      match b with
      | .dict y => match Val.decEqDict x y with
        | isTrue h => isTrue (by rw [h])
        | isFalse h => isFalse (by intro h'; cases h'; exact h rfl)
      | .none | .bool _ | .int _ | .float _ | .cplx _ _ | .str _ | .arrI _ | .arrF _ | .arrC _
      | .mat _ | .list _ => isFalse (by intro h; cases h)
/-- Decidable equality of lists of values. -/
def Val.decEqList : (a b : List Val) → Decidable (a = b)
  | [], [] => isTrue rfl
  | [], _ :: _ => isFalse (by intro h; cases h)
  | _ :: _, [] => isFalse (by intro h; cases h)
  | a :: as, b :: bs =>
    match Val.decEq a b, Val.decEqList as bs with
    | isTrue h, isTrue h' => isTrue (by rw [h, h'])
    | isFalse h, _ => isFalse (by intro e; cases e; exact h rfl)
    | _, isFalse h => isFalse (by intro e; cases e; exact h rfl)
/-- Decidable equality of association lists. -/
def Val.decEqDict : (a b : List (Key × Val)) → Decidable (a = b)
  | [], [] => isTrue rfl
  | [], _ :: _ => isFalse (by intro h; cases h)
  | _ :: _, [] => isFalse (by intro h; cases h)
  | (k, a) :: as, (k', b) :: bs =>
    match instDecidableEqKey k k', Val.decEq a b, Val.decEqDict as bs with
    | isTrue h0, isTrue h, isTrue h' => isTrue (by rw [h0, h, h'])
    | isFalse h, _, _ => isFalse (by intro e; cases e; exact h rfl)
    | _, isFalse h, _ => isFalse (by intro e; cases e; exact h rfl)
    | _, _, isFalse h => isFalse (by intro e; cases e; exact h rfl)
end

instance : DecidableEq Val := Val.decEq

/-- A python dictionary in insertion order. -/
abbrev Dict := List (Key × Val)

/-- Exceptions.  `key`, `index`, `type`, `value`, `attr`, `overflow`, `unbound` are the python classes
`KeyError`, `IndexError`, `TypeError`, `ValueError`, `AttributeError`, `OverflowError`,
`UnboundLocalError`; the others are the `Exception(msg)` texts raised by pyuff. -/
inductive Err where
  | key (k : Key)
  | index
  | type
  | value
  | attr
  | overflow
  | unbound
  /-- `'The required key ... not present when writing data-set #n'` -/
  | missing (k : Key) (set : Nat)
  /-- `'Error writing data-set #n'` -/
  | writing (set : Nat)
  /-- `'Error reading data-set #n'` -/
  | reading (set : Nat)
  /-- Any other `Exception(msg)`, identified by a short name. -/
  | exc (name : String)
  /-- The code would do something the model does not cover. -/
  | unmodelled
deriving DecidableEq, Repr

/-- Fallible computation without output. -/
abbrev Res (α : Type) := Except Err α

instance {ε α : Type} [DecidableEq ε] [DecidableEq α] : DecidableEq (Except ε α)
  | .ok a, .ok b => if h : a = b then isTrue (by rw [h]) else isFalse (by intro e; cases e; exact h rfl)
  | .error a, .error b => if h : a = b then isTrue (by rw [h]) else isFalse (by intro e; cases e; exact h rfl)
  | .ok _, .error _ => isFalse (by intro e; cases e)
  | .error _, .ok _ => isFalse (by intro e; cases e)

namespace Dict

/-- `d.get(k)`. -/
def get? : Dict → Key → Option Val
  | [], _ => .none
  | (k, v) :: r, q => if k = q then some v else get? r q

/-- `k in d` (`/repo/pyuff/tools.py:15`). -/
def has (d : Dict) (k : Key) : Bool := (d.get? k).isSome

/-- `d[k]`, raising `KeyError` (`/repo/pyuff/datasets/dataset_164.py:55`). -/
def get (d : Dict) (k : Key) : Res Val :=
  match d.get? k with
  | some v => .ok v
  | .none => .error (.key k)

/-- `d[k] = v` / `d.update({k: v})`: replaces in place, or appends (`/repo/pyuff/tools.py:16`). -/
def set : Dict → Key → Val → Dict
  | [], k, v => [(k, v)]
  | (k', v') :: r, k, v => if k' = k then (k', v) :: r else (k', v') :: set r k v

/-- `d.update(e)` (`/repo/pyuff/datasets/dataset_164.py:73`). -/
def update (d : Dict) (e : Dict) : Dict := e.foldl (fun d kv => d.set kv.1 kv.2) d

end Dict

/-- Result of a step of a writer function: the text written so far, the (mutated) data-set dictionary and
the outcome.  Text written before an exception stays in the file: the handle is closed, hence flushed,
in the `except` branch (`/repo/pyuff/pyuff.py:477-479`). -/
structure WRes (α : Type) where
  out : Text
  dict : Dict
  res : Res α

/-- Writer functions `_writeN(fh, dset)`: they append text to `fh` and may mutate `dset`. -/
def W (α : Type) := Dict → WRes α

namespace W

/-- No effect. -/
def pure {α} (a : α) : W α := fun d => ⟨[], d, .ok a⟩
/-- Sequencing; an exception skips the rest but keeps the text already written. -/
def bind {α β} (m : W α) (f : α → W β) : W β := fun d =>
  match m d with
  | ⟨o, d', .ok a⟩ => let r := f a d'; ⟨o ++ r.out, r.dict, r.res⟩
  | ⟨o, d', .error e⟩ => ⟨o, d', .error e⟩

instance : Monad W where
  pure := W.pure
  bind := W.bind

/-- `fh.write(t)` (`/repo/pyuff/datasets/dataset_164.py:54`). -/
def emit (t : Text) : W Unit := fun d => ⟨t, d, .ok ()⟩
/-- Raise. -/
def raise {α} (e : Err) : W α := fun d => ⟨[], d, .error e⟩
/-- Evaluate an expression that may raise. -/
def lift {α} (r : Res α) : W α := fun d => ⟨[], d, r⟩
/-- The current dictionary. -/
def getDict : W Dict := fun d => ⟨[], d, .ok d⟩
/-- Replace the current dictionary (in-place mutation of `dset`). -/
def setDict (d : Dict) : W Unit := fun _ => ⟨[], d, .ok ()⟩
/-- `dset[k]`. -/
def key (k : Key) : W Val := fun d => ⟨[], d, d.get k⟩
/-- `dset[k] = v`. -/
def put (k : Key) (v : Val) : W Unit := fun d => ⟨[], d.set k v, .ok ()⟩
/-- `try: m; except KeyError as msg: raise Exception('The required key ...');
except: raise Exception('Error writing data-set #n')`
(`/repo/pyuff/datasets/dataset_164.py:62-65` and the same lines in the other writers).
The message is built by `'...' + msg.args[0] + '...'`, which itself raises `TypeError` for an integer
key. -/
def guarded {α} (set : Nat) (m : W α) : W α := fun d =>
  match m d with
  | ⟨o, d', .ok a⟩ => ⟨o, d', .ok a⟩
  | ⟨o, d', .error (.key (.s k))⟩ => ⟨o, d', .error (.missing (.s k) set)⟩
  | ⟨o, d', .error (.key (.i _))⟩ => ⟨o, d', .error .type⟩
  | ⟨o, d', .error .unmodelled⟩ => ⟨o, d', .error .unmodelled⟩
  | ⟨o, d', .error _⟩ => ⟨o, d', .error (.writing set)⟩
/-- `for x in l: body(x)`. -/
def forL {α} (l : List α) (body : α → W Unit) : W Unit :=
  match l with
  | [] => W.pure ()
  | a :: r => W.bind (body a) fun _ => forL r body

end W

/-- `try: m; except: raise Exception('Error reading data-set #n')`
(`/repo/pyuff/datasets/dataset_164.py:81-82`). -/
def readGuard {α} (set : Nat) (r : Res α) : Res α :=
  match r with
  | .ok a => .ok a
  | .error .unmodelled => .error .unmodelled
  | .error _ => .error (.reading set)

/-- Option to `ValueError`: `int(s)` and `float(s)` in expressions. -/
def orValue {α} : Option α → Res α
  | some a => .ok a
  | .none => .error .value
/-- Option to `IndexError`: `l[i]`. -/
def orIndex {α} : Option α → Res α
  | some a => .ok a
  | .none => .error .index

/-- `int(s)` raising `ValueError`. -/
def pyInt (t : Text) : Res Int := orValue (parseInt t)
/-- `float(s)` raising `ValueError`. -/
def pyFloat (t : Text) : Res F64 := orValue (parseFloat t)

/-- Left-to-right `[f(a) for a in l]` with exceptions (`list(map(float, ...))`,
`/repo/pyuff/datasets/dataset_15.py:65`). -/
def mapRes {α β} (f : α → Res β) : List α → Res (List β)
  | [] => .ok []
  | a :: r =>
    match f a with
    | .error e => .error e
    | .ok b => match mapRes f r with
      | .error e => .error e
      | .ok bs => .ok (b :: bs)

namespace Val

/-- `int(v)` as performed by `'%i' % v` and `int(v)` on numbers
(`/repo/pyuff/datasets/dataset_18.py:58`).  Complex numbers are not modelled: those of python raise `TypeError`, those of
numpy lose their imaginary part with a warning. -/
def toInt : Val → Res Int
  | .int n => .ok n
  | .bool b => .ok (if b then 1 else 0)
  | .float x => match x.toInt with
    | some n => .ok n
    | .none => .error (if x.isNaN then .value else .overflow)
  | .cplx _ _ | .arrI _ | .arrF _ | .arrC _ | .mat _ => .error .unmodelled
  | _ => .error .type

/-- `float(v)` as performed by `'%e' % v` (`/repo/pyuff/datasets/dataset_164.py:56`); complex numbers as in `toInt`. -/
def toFloat : Val → Res F64
  | .float x => .ok x
  | .int n => if (F64.ofInt n).finite then .ok (F64.ofInt n) else .error .overflow
  | .bool b => .ok (if b then F64.one else F64.zero)
  | .cplx _ _ | .arrI _ | .arrF _ | .arrC _ | .mat _ => .error .unmodelled
  | _ => .error .type

/-- `str(v)` as performed by `'%s' % v`.  Simplification: only strings, integers, booleans and
`None` are modelled. -/
def toStr : Val → Res Text
  | .str s => .ok s
  | .int n => .ok (intRepr n)
  | .bool b => .ok (if b then "True".toList else "False".toList)
  | .none => .ok "None".toList
  | _ => .error .unmodelled

/-- `len(v)` (`/repo/pyuff/datasets/dataset_18.py:48`). -/
def len : Val → Res Nat
  | .str s => .ok s.length
  | .arrI l => .ok l.length
  | .arrF l => .ok l.length
  | .arrC l => .ok l.length
  | .mat l => .ok l.length
  | .list l => .ok l.length
  | .dict d => .ok d.length
  | _ => .error .type

/-- The items of a sequence, as enumerated by `v[0], v[1], ...` or `for x in v`. -/
def items : Val → Res (List Val)
  | .arrI l => .ok (l.map .int)
  | .arrF l => .ok (l.map .float)
  | .arrC l => .ok (l.map fun c => .cplx c.1 c.2)
  | .mat l => .ok (l.map .arrF)
  | .list l => .ok l
  | .str s => .ok (s.map fun c => .str [c])
  | .dict _ => .error .unmodelled
  | _ => .error .type

/-- `v[i]` for a natural index (`/repo/pyuff/datasets/dataset_18.py:58`). -/
def idx (v : Val) (i : Nat) : Res Val :=
  match v with
  | .dict d => Dict.get d (.i i)
  | v => match v.items with
    | .ok l => orIndex l[i]?
    | .error e => .error e

/-- `v[k]` for a string index. -/
def getK (v : Val) (k : String) : Res Val :=
  match v with
  | .dict d => Dict.get d (.s k)
  | .arrI _ | .arrF _ | .arrC _ | .mat _ => .error .index
  | _ => .error .type

end Val

/-- `'%{w}i' % v` (`/repo/pyuff/datasets/dataset_18.py:57`). -/
def fmtI (w : Nat) (v : Val) : Res Text := (v.toInt).map fun n => padLeft w (intRepr n)
/-- `'%{w}.{p}e' % v` (`/repo/pyuff/datasets/dataset_18.py:64`). -/
def fmtEV (w p : Nat) (v : Val) : Res Text := (v.toFloat).map fun x => padLeft w (fmtE p x)
/-- `'%{w}s' % v` (`/repo/pyuff/datasets/dataset_164.py:55`). -/
def fmtSR (w : Nat) (v : Val) : Res Text := (v.toStr).map fun t => padLeft w t
/-- `'%-{w}s' % v` (`/repo/pyuff/datasets/dataset_18.py:63`). -/
def fmtSL (w : Nat) (v : Val) : Res Text := (v.toStr).map fun t => padRight w t

/-- Evaluate the fields of a `%` tuple left to right and concatenate them with a final newline.  The
whole string is built before anything is written. -/
def record (fs : List (Res Text)) : Res Text :=
  match fs with
  | [] => .ok ['\n']
  | f :: r => match f with
    | .error e => .error e
    | .ok t => match record r with
      | .error e => .error e
      | .ok t' => .ok (t ++ t')

/-- `k` blanks. -/
def blanks (k : Nat) : Text := List.replicate k ' '

/-- `'%6i\n%6i%74s\n' % (-1, n, ' ')`, the head of most data-sets
(`/repo/pyuff/datasets/dataset_164.py:54`). -/
def headText (n : Nat) : Text :=
  padLeft 6 ['-', '1'] ++ '\n' :: (padLeft 6 (natRepr n) ++ (padLeft 74 [' '] ++ ['\n']))
/-- `'%6i\n' % -1`, the tail of every data-set (`/repo/pyuff/datasets/dataset_164.py:61`). -/
def tailText : Text := padLeft 6 ['-', '1'] ++ ['\n']

end Verif
