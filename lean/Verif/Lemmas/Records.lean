import Verif.Props.Tokens
import Verif.Props.Header
/-
Readers made of a few header lines: exactly when they succeed, and with which error they fail.
-/
namespace Verif
namespace Records

/-- All mandatory fields are numbers where numbers are asked for. -/
def Good (line : Text) (min : Nat) (widths : List Nat) (types : List FTy) : Prop :=
  ∀ i < min, ∀ ty, types[i]? = some ty → WellFormed ty (fieldText line widths i)

/-- The table of a header line is consistent. -/
def Shape (min : Nat) (widths : List Nat) (types : List FTy) (names : List Key) : Prop :=
  (usedNames types names).Nodup ∧ widths.length ≤ names.length ∧ min ≤ widths.length ∧ widths.length ≤ types.length

instance (min : Nat) (widths : List Nat) (types : List FTy) (names : List Key) : Decidable (Shape min widths types names) := by
  unfold Shape; infer_instance

theorem head_bind {line : Text} {min : Nat} {widths : List Nat} {types : List FTy} {names : List Key} (hs : Shape min widths types names)
    {F : Dict → Res Dict} {d : Dict} :
    (parseHeader line min widths types names >>= F) = .ok d ↔
      Good line min widths types ∧ F (namedFields line widths types names) = .ok d := by
  obtain ⟨hn, h1, h2, h3⟩ := hs
  cases hp : parseHeader line min widths types names with
  | error e =>
    refine ⟨fun h => (by cases h), fun ⟨h, _⟩ => ?_⟩
    have := (C15_parse line min widths types names hn _).2 ⟨h1, h2, h3, h, rfl⟩
    rw [hp] at this; cases this
  | ok out =>
    obtain ⟨_, _, _, hg, rfl⟩ := (C15_parse line min widths types names hn out).1 hp
    exact ⟨fun h => ⟨hg, h⟩, fun ⟨_, h⟩ => h⟩

theorem index_bind {α β : Type} {o : Option α} {F : α → Res β} {b : β} :
    (orIndex o >>= F) = .ok b ↔ ∃ a, o = some a ∧ F a = .ok b := by
  cases o with
  | none => exact ⟨fun h => (by cases h), fun ⟨_, h, _⟩ => (by cases h)⟩
  | some a => exact ⟨fun h => ⟨a, rfl, h⟩, fun ⟨_, h, h'⟩ => (by cases h; exact h')⟩

theorem guard_ok {α : Type} {n : Nat} {r : Res α} {a : α} : readGuard n r = .ok a ↔ r = .ok a := by
  unfold readGuard
  split
  · simp
  · simp
  · simp

theorem ok_iff {α β : Type} {m : Res α} {F : α → Res β} {b : β} : (m >>= F) = .ok b ↔ ∃ a, m = .ok a ∧ F a = .ok b := by
  cases m with
  | error e => exact ⟨fun h => (by cases h), fun ⟨_, h, _⟩ => (by cases h)⟩
  | ok a => exact ⟨fun h => ⟨a, rfl, h⟩, fun ⟨_, h, h'⟩ => (by cases h; exact h')⟩

/-! Computations that are never "not modelled". -/

/-- The result is modelled. -/
def Known {α : Type} (r : Res α) : Prop := r ≠ .error .unmodelled

theorem known_ok {α : Type} (a : α) : Known (.ok a : Res α) := by unfold Known; simp
theorem known_index {α : Type} (o : Option α) : Known (orIndex o) := by cases o <;> (unfold Known orIndex; simp)
theorem known_value {α : Type} (o : Option α) : Known (orValue o) := by cases o <;> (unfold Known orValue; simp)
theorem known_int (t : Text) : Known (pyInt t) := known_value _
theorem known_float (t : Text) : Known (pyFloat t) := known_value _

theorem known_bind {α β : Type} {m : Res α} {F : α → Res β} (h : Known m) (hF : ∀ a, m = .ok a → Known (F a)) : Known (m >>= F) := by
  cases m with
  | error e => exact fun h' => h (by cases h'; rfl)
  | ok a => exact hF a rfl

theorem known_map {α β : Type} {f : α → Res β} (h : ∀ a, Known (f a)) (l : List α) : Known (mapRes f l) := by
  induction l with
  | nil => exact known_ok _
  | cons a l ih =>
    unfold mapRes
    cases hf : f a with
    | error e => exact fun h' => h a (by rw [hf]; cases h'; rfl)
    | ok b =>
      cases hm : mapRes f l with
      | error e => exact fun h' => ih (by rw [hm]; cases h'; rfl)
      | ok bs => exact known_ok _

theorem known_loop (min : Nat) (types : List FTy) (names : List Key) (fields : List Text) (acc : Dict) :
    Known (headerLoop min types names fields acc) := by
  induction names generalizing min types fields acc with
  | nil => unfold headerLoop; exact known_ok _
  | cons k ks ih =>
    cases fields with
    | nil => unfold headerLoop; exact known_ok _
    | cons s ss =>
      cases types with
      | nil => unfold headerLoop; unfold Known; simp
      | cons ty tys =>
        unfold headerLoop
        split
        · exact ih _ _ _ _
        · exact ih _ _ _ _
        · rename_i e he
          split
          · exact ih _ _ _ _
          · intro h
            cases h
            unfold headerField pyInt pyFloat orValue at he
            cases ty
            · cases he
            · cases hp : parseInt s <;> (rw [hp] at he; cases he)
            · cases hp : parseFloat s <;> (rw [hp] at he; cases he)
            · cases he

theorem known_head (line : Text) (min : Nat) (widths : List Nat) (types : List FTy) (names : List Key) :
    Known (parseHeader line min widths types names) := by
  unfold parseHeader
  dsimp only
  generalize cutFields _ _ _ = fields
  split
  · unfold Known; simp
  · exact known_loop _ _ _ _ _

theorem guard_known {α : Type} {n : Nat} {r : Res α} (h : Known r) : (∃ a, readGuard n r = .ok a) ∨ readGuard n r = .error (.reading n) := by
  unfold readGuard
  cases r with
  | ok a => exact .inl ⟨a, rfl⟩
  | error e =>
    right
    split
    · rename_i h'; cases h'
    · rename_i h'; exact absurd h' h
    · rfl

/-- Proves that a reader made of header lines and words has no case that is not modelled. -/
macro "known" : tactic => `(tactic| repeat' first
  | with_reducible exact known_ok _
  | with_reducible exact known_index _
  | with_reducible exact known_int _
  | with_reducible exact known_float _
  | with_reducible exact known_head _ _ _ _ _
  | with_reducible refine known_bind ?_ fun _ _ => ?_)

end Records
end Verif
