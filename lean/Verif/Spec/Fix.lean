import Verif.Spec.File
/-
What `fix_58b` is about, stated on bytes: lines, and lines that hold nothing but `-1`.
-/
namespace Verif

/-- White space among the bytes. -/
def White (c : UInt8) : Prop := c = 32 ∨ c = 9 ∨ c = 10 ∨ c = 11 ∨ c = 12 ∨ c = 13

instance (c : UInt8) : Decidable (White c) := by unfold White; infer_instance

/-- The line shows `-1` and nothing else. -/
def Lone (l : Bytes) : Prop := ∃ a b, l = a ++ ([45, 49] ++ b) ∧ (∀ c ∈ a, White c) ∧ ∀ c ∈ b, White c

/-- No line end inside. -/
def NoEol (c : Bytes) : Prop := 10 ∉ c ∧ 13 ∉ c

/-- `f` consists of the lines `ls`: every line but the last ends with LF, CR or CR LF; a CR directly before an LF does not
end a line by itself. -/
inductive IsLines : Bytes → List Bytes → Prop
  | nil : IsLines [] []
  | last (c : Bytes) : c ≠ [] → NoEol c → IsLines c [c]
  | line (c e f : Bytes) (ls : List Bytes) : NoEol c → (e = [10] ∨ e = [13] ∧ f.head? ≠ some 10 ∨ e = [13, 10]) →
      IsLines f ls → IsLines (c ++ (e ++ f)) ((c ++ e) :: ls)

/-- The visible bytes. -/
def visible (f : Bytes) : Bytes := f.filter fun c => ¬ White c

end Verif
