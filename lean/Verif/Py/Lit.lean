/-
Notation for examples.
-/
namespace Verif

/-- The characters of a string literal as a list, which the kernel need not compute. -/
macro:max "chars!" s:str : term => do
  let cs := s.getString.toList.map fun c => Lean.Syntax.mkCharLit c
  `(([$(cs.toArray),*] : List Char))

end Verif
