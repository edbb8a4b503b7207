import Verif.Lemmas.Row
import Verif.Lemmas.Ints
/-
Loops over nodes, elements, ...: what is written, and reading it back.
-/
namespace Verif

theorem W.forL_get {α β} (l : List β) (rows : List α) (body : β → W Unit) (g : α → Text) (d : Dict)
    (hl : l.length = rows.length)
    (h : ∀ i, (h1 : i < l.length) → (h2 : i < rows.length) → body l[i] d = ⟨g rows[i], d, .ok ()⟩) :
    W.forL l body d = ⟨rows.flatMap g, d, .ok ()⟩ := by
  induction l generalizing rows with
  | nil => cases rows with
    | nil => rfl
    | cons _ _ => simp at hl
  | cons b l ih =>
    cases rows with
    | nil => simp at hl
    | cons a rows =>
      unfold W.forL
      have h0 := h 0 (by simp) (by simp)
      simp only [List.getElem_cons_zero] at h0
      rw [W.bind_ok h0, ih rows (by simpa using hl) (fun i h1 h2 => by
        have := h (i + 1) (by simpa using h1) (by simpa using h2)
        simpa using this)]
      simp

/-- `for i, x in enumerate(xs)`. -/
theorem W.forL_enum {α} (xs : List Val) (rows : List α) (body : Val × Nat → W Unit) (g : α → Text) (d : Dict)
    (hl : xs.length = rows.length)
    (h : ∀ i, (h1 : i < xs.length) → (h2 : i < rows.length) → body (xs[i], i) d = ⟨g rows[i], d, .ok ()⟩) :
    W.forL xs.zipIdx body d = ⟨rows.flatMap g, d, .ok ()⟩ := by
  apply W.forL_get _ _ _ _ _ (by simpa using hl)
  intro i h1 h2
  rw [List.getElem_zipIdx]
  have := h i (by simpa using h1) h2
  simpa using this

theorem W.bind_forL_eq {γ : Type} {β : Type} {l : List γ} {body : γ → W Unit} {d : Dict} {o : Text}
    (h : W.forL l body d = ⟨o, d, .ok ()⟩) (f : Unit → W β) :
    W.bind (W.forL l body) f d = ⟨o ++ (f () d).out, (f () d).dict, (f () d).res⟩ := W.bind_ok h

theorem mapRes_append {α β} {f : α → Res β} {a b : List α} {a' b' : List β} (ha : mapRes f a = .ok a')
    (hb : mapRes f b = .ok b') : mapRes f (a ++ b) = .ok (a' ++ b') := by
  induction a generalizing a' with
  | nil =>
    simp only [mapRes, Except.ok.injEq] at ha
    subst ha; simpa using hb
  | cons x r ih =>
    rw [List.cons_append]
    unfold mapRes at ha ⊢
    cases hx : f x with
    | error e => rw [hx] at ha; simp at ha
    | ok y =>
      rw [hx] at ha
      simp only at ha ⊢
      cases hr : mapRes f r with
      | error e => rw [hr] at ha; simp at ha
      | ok ys =>
        rw [hr] at ha
        simp only [Except.ok.injEq] at ha
        rw [ih hr, ← ha]; rfl

theorem mapRes_flatMap {α β γ} {f : α → Res β} (rows : List γ) (g : γ → List α) (g' : γ → List β)
    (h : ∀ r ∈ rows, mapRes f (g r) = .ok (g' r)) : mapRes f (rows.flatMap g) = .ok (rows.flatMap g') := by
  induction rows with
  | nil => rfl
  | cons r rs ih =>
    rw [List.flatMap_cons, List.flatMap_cons]
    exact mapRes_append (h r (by simp)) (ih fun x hx => h x (by simp [hx]))

theorem mapRes_map {α β γ} {f : α → Res β} (l : List γ) (g : γ → α) (h : γ → β)
    (hh : ∀ a ∈ l, f (g a) = .ok (h a)) : mapRes f (l.map g) = .ok (l.map h) := by
  induction l with
  | nil => rfl
  | cons a r ih =>
    rw [List.map_cons, List.map_cons]
    unfold mapRes
    rw [hh a (by simp), ih (fun x hx => hh x (by simp [hx]))]

theorem mapRes_cons {α β} {f : α → Res β} {a : α} {b : β} {l : List α} {l' : List β} (h : f a = .ok b)
    (hl : mapRes f l = .ok l') : mapRes f (a :: l) = .ok (b :: l') := by
  unfold mapRes; rw [h, hl]

/-- The `i`-th item of a mapped list of rows. -/
theorem getElem_map_row {α β} (rows : List α) (f : α → β) (i : Nat) (h : i < (rows.map f).length) :
    (rows.map f)[i] = f (rows[i]'(by simpa using h)) := List.getElem_map ..

section rows
variable {d : Dict} {k : Key} {α : Type}
theorem HasInts.at_row {rows : List α} {f : α → Int} (h : HasInts d k (rows.map f)) {i : Nat} (hi : i < rows.length)
    (w : Nat) : FldOk d ⟨Fld.at_ k i, fmtI w⟩ (padLeft w (intRepr (f rows[i]))) := by
  have := h.at_ (i := i) (by simpa using hi) w
  rwa [List.getElem_map] at this
theorem HasFloats.at_row {rows : List α} {f : α → F64} (h : HasFloats d k (rows.map f)) {i : Nat}
    (hi : i < rows.length) (w p : Nat) : FldOk d ⟨Fld.at_ k i, fmtEV w p⟩ (padLeft w (fmtE p (f rows[i]))) := by
  have := h.at_ (i := i) (by simpa using hi) w p
  rwa [List.getElem_map] at this
theorem HasStrs.at_rowL {rows : List α} {f : α → Text} (h : HasStrs d k (rows.map f)) {i : Nat}
    (hi : i < rows.length) (w : Nat) : FldOk d ⟨Fld.at_ k i, fmtSL w⟩ (padRight w (f rows[i])) := by
  have := h.atL (i := i) (by simpa using hi) w
  rwa [List.getElem_map] at this
end rows

theorem isInt_int (n : Int) : IsInt (.int n) n := rfl

theorem pyFloat_int (n : Int) : pyFloat (intRepr n) = .ok (F64.ofInt n) := by
  unfold pyFloat; rw [parseFloat_intRepr]; rfl
theorem pyFloat_flt (p : Nat) (x : F64) (hx : x.finite = true) : pyFloat (fmtE p x) = .ok (x.quant p) := by
  unfold pyFloat; rw [parseFloat_fmtE p x hx]; rfl

end Verif
