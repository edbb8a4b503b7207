import Verif.Model.Tools
/-
`fh.write('...' % (dset[k1], ..., dset[kn]))`: one formatted line.
-/
namespace Verif

/-- One item of a `%` tuple: the expression giving the value, and its conversion. -/
structure Fld where
  acc : Dict → Res Val
  fmt : Val → Res Text

/-- `mapRes` over the expressions of a tuple: python evaluates the whole tuple first. -/
def evalFlds (d : Dict) : List Fld → Res (List Val)
  | [] => .ok []
  | f :: r => match f.acc d with
    | .error e => .error e
    | .ok v => match evalFlds d r with
      | .error e => .error e
      | .ok vs => .ok (v :: vs)

/-- ... and then formats it left to right. -/
def fmtFlds : List Fld → List Val → Res Text
  | f :: r, v :: vs => match f.fmt v with
    | .error e => .error e
    | .ok t => match fmtFlds r vs with
      | .error e => .error e
      | .ok t' => .ok (t ++ t')
  | _, _ => .ok []

/-- `'...' % (...)` with the conversions and arguments `fs`
(for instance `/repo/pyuff/datasets/dataset_2400.py:65-66`). -/
def W.format (fs : List Fld) : W Text := fun d =>
  ⟨[], d, match evalFlds d fs with
    | .error e => .error e
    | .ok vs => fmtFlds fs vs⟩

/-- `fh.write('...\n' % (...))` (for instance `/repo/pyuff/datasets/dataset_2400.py:65-66`). -/
def W.row (fs : List Fld) : W Unit := W.bind (W.format fs) fun t => W.emit (t ++ ['\n'])

/-- `if c: m` (for instance `/repo/pyuff/datasets/dataset_82.py:69-70`). -/
def W.when (c : Prop) [Decidable c] (m : W Unit) : W Unit := if c then m else W.pure ()

namespace Fld

/-- `%{w}i` of `dset[k]` (`/repo/pyuff/datasets/dataset_2400.py:65`). -/
def i (w : Nat) (k : Key) : Fld := ⟨fun d => d.get k, fmtI w⟩
/-- `%{w}.{p}e` of `dset[k]` (`/repo/pyuff/datasets/dataset_1858.py:141`). -/
def e (w p : Nat) (k : Key) : Fld := ⟨fun d => d.get k, fmtEV w p⟩
/-- `%{w}s` of `dset[k]` (`/repo/pyuff/datasets/dataset_151.py:66`). -/
def sr (w : Nat) (k : Key) : Fld := ⟨fun d => d.get k, fmtSR w⟩
/-- `%-{w}s` of `dset[k]` (`/repo/pyuff/datasets/dataset_151.py:63`). -/
def sl (w : Nat) (k : Key) : Fld := ⟨fun d => d.get k, fmtSL w⟩
/-- A literal or already evaluated argument. -/
def c (fmt : Val → Res Text) (v : Val) : Fld := ⟨fun _ => .ok v, fmt⟩
/-- `dset[k][n]` (`/repo/pyuff/datasets/dataset_2411.py:40`). -/
def at_ (k : Key) (n : Nat) : Dict → Res Val := fun d =>
  match d.get k with
  | .error e => .error e
  | .ok v => v.idx n
/-- `dset[k][n][m]` (`/repo/pyuff/datasets/dataset_18.py:65`). -/
def at2 (k : Key) (n m : Nat) : Dict → Res Val := fun d =>
  match at_ k n d with
  | .error e => .error e
  | .ok v => v.idx m

end Fld
end Verif
