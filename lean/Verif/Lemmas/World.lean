import Verif.Model.Uff
import Verif.Lemmas.File
/-
Lemmas about file and object.
-/
namespace Verif

/-- The information of a fresh object. -/
def objOf (f : Bytes) : Obj := (refreshObj (some f) .empty).1

theorem pairs_eq_nil (f : Bytes) : pairUp (scanTags f) = [] ↔ setCount f = 0 := by
  rw [scanTags_delims, ← List.length_eq_zero_iff, pairUp_length]; rfl

theorem refreshObj_eq (f : Bytes) (o : Obj) (h : setCount f ≠ 0) : (refreshObj (some f) o).1 = objOf f := by
  have h' : ¬ pairUp (scanTags f) = [] := fun e => h ((pairs_eq_nil f).1 e)
  unfold objOf refreshObj
  simp only [h', if_false]

theorem refreshObj_nil (f : Bytes) (o : Obj) (h : setCount f = 0) :
    (refreshObj (some f) o).1 = { o with refreshed := true } := by
  unfold refreshObj
  simp only [(pairs_eq_nil f).2 h, if_true]

theorem refreshObj_true (f : Bytes) (o : Obj) : (refreshObj (some f) o).2 = true := by
  unfold refreshObj; dsimp only; split <;> rfl

theorem refreshObj_refreshed (f : Bytes) (o : Obj) : (refreshObj (some f) o).1.refreshed = true := by
  unfold refreshObj; dsimp only; split <;> rfl

theorem objOf_eq (f : Bytes) : objOf f =
    ⟨(List.range (setCount f)).map fun k => (delimPos f (2 * k), delimPos f (2 * k + 1)), true, setCount f,
     (sets f).map blockType, List.replicate (setCount f) 0⟩ := by
  by_cases h : setCount f = 0
  · unfold objOf
    rw [refreshObj_nil f _ h]
    simp [Obj.empty, sets, h]
  · have h' : ¬ pairUp (scanTags f) = [] := fun e => h ((pairs_eq_nil f).1 e)
    unfold objOf refreshObj
    simp only [h', if_false]
    rw [scanTags_delims, pairUp_length]
    congr 1
    · rw [pairUp_eq]; rfl
    · rw [sets_eq, List.map_map]; rfl
    · rw [List.eq_replicate_iff]
      refine ⟨by rw [List.length_map, pairUp_length]; rfl, ?_⟩
      intro b hb
      obtain ⟨p, _, rfl⟩ := List.mem_map.1 hb
      rfl

theorem new_some (f : Bytes) : World.new (some f) = ⟨some f, objOf f⟩ := rfl
theorem new_none : World.new none = ⟨none, .empty⟩ := rfl

theorem objOf_refreshed (f : Bytes) : (objOf f).refreshed = true := refreshObj_refreshed f _

theorem fresh_new (f : Bytes) : (World.new (some f)).fresh = World.new (some f) := by
  unfold World.fresh
  rw [new_some, if_pos (objOf_refreshed f)]

theorem typeIs_iff (b : Bytes) (n : Int) : TypeIs b n ↔ blockType b = n := by
  unfold TypeIs blockType
  cases h : (splitLinesB b)[1]? with
  | none => simp [eq_comm]
  | some l =>
    simp only [Option.some.injEq, exists_eq_left', reduceCtorEq, false_and, or_false]
    cases h2 : parseIntB (l.take 6) with
    | none => simp [eq_comm]
    | some m => simp

theorem readSet_in (f : Bytes) (k : Nat) (hk : k < setCount f) (h : Bool) :
    readSet f (objOf f) k h = readBlock (blockType (setBytes f k)) h (setBytes f k) := by
  unfold readSet
  rw [objOf_eq]
  simp only
  rw [if_neg (by omega)]
  simp only [Int.toNat_natCast, List.getElem?_map, List.getElem?_range hk, Option.map_some, sets]
  rw [setBytes_eq]

theorem readSet_out (f : Bytes) (n : Int) (hn : n < 0 ∨ (setCount f : Int) ≤ n) (h : Bool) :
    readSet f (objOf f) n h = .error (.exc "Cannot read data-set") := by
  unfold readSet
  rw [objOf_eq]
  simp only
  rw [if_pos (by omega)]

theorem readSets_new (f : Bytes) (sel : Sel) (h : Bool) :
    (World.new (some f)).readSets sel h = (World.new (some f),
      match mapRes (fun n => readSet f (objOf f) n h) (readRange (objOf f) sel) with
      | .ok l => .ok (unwrap l)
      | .error e => .error (readErr e)) := by
  unfold World.readSets
  simp only [fresh_new]
  rfl

/-! Writing. -/

/-- The dictionary and the outcome of a write do not depend on the file, and the new file depends on the old one
only. -/
theorem writeSet_file (w : World) (e : Env) (fd over : Bool) (d : Dict) :
    (w.writeSet e fd over d).1.file = some (fileAfter over w.file (writeBody e fd d)) ∧
    (w.writeSet e fd over d).2.1 = (writeBody e fd d).dict ∧
    (w.writeSet e fd over d).2.2 = (writeBody e fd d).res.map fun _ => () := by
  unfold World.writeSet
  dsimp only
  cases h : (writeBody e fd d).res with
  | ok a => exact ⟨rfl, rfl, rfl⟩
  | error x => exact ⟨rfl, rfl, rfl⟩

/-- The bytes added by one write in mode 'add'. -/
def added (r : WRes (Option Bytes)) : Bytes := match r.res with
  | .ok (some payload) => encode r.out ++ (payload ++ encode tailText)
  | _ => encode r.out

theorem fileAfter_add (file : Option Bytes) (r : WRes (Option Bytes)) :
    fileAfter false file r = file.getD [] ++ added r := by
  unfold fileAfter added
  simp only [Bool.false_eq_true, if_false]
  rcases r.res with e | _ | p <;> rfl

theorem addAll_cons_ok {w : World} {e : Env} {fd : Bool} {d : Dict} {ds : List Dict} {a : Option Bytes}
    (h : (writeBody e fd d).res = .ok a) :
    w.addAll e fd (d :: ds) =
      (((w.writeSet e fd false d).1.addAll e.next fd ds).1,
       (writeBody e fd d).dict :: ((w.writeSet e fd false d).1.addAll e.next fd ds).2.1,
       ((w.writeSet e fd false d).1.addAll e.next fd ds).2.2) := by
  have h2 := (writeSet_file w e fd false d).2
  rw [h] at h2
  conv => lhs; unfold World.addAll
  have : w.writeSet e fd false d = ((w.writeSet e fd false d).1, (writeBody e fd d).dict, .ok ()) := by
    rw [← h2.1]; exact Prod.ext rfl (Prod.ext rfl h2.2)
  rw [this]

theorem addAll_cons_err {w : World} {e : Env} {fd : Bool} {d : Dict} {ds : List Dict} {x : Err}
    (h : (writeBody e fd d).res = .error x) :
    w.addAll e fd (d :: ds) =
      (⟨some (w.file.getD [] ++ added (writeBody e fd d)), w.obj⟩, (writeBody e fd d).dict :: ds, .error x) := by
  conv => lhs; unfold World.addAll World.writeSet
  dsimp only
  rw [fileAfter_add, h]

theorem addAll_prefix (w : World) (e : Env) (fd : Bool) (ds : List Dict) :
    w.file.getD [] <+: (w.addAll e fd ds).1.file.getD [] := by
  induction ds generalizing w e with
  | nil => exact List.prefix_refl _
  | cons d ds ih =>
    cases h : (writeBody e fd d).res with
    | error x => rw [addAll_cons_err h]; exact List.prefix_append _ _
    | ok a =>
      rw [addAll_cons_ok h]
      refine List.IsPrefix.trans ?_ (ih _ _)
      rw [(writeSet_file w e fd false d).1, fileAfter_add]
      exact List.prefix_append _ _

/-- The file, the dictionaries and the outcome depend on the content of the file only. -/
theorem addAll_congr (w w' : World) (h : w.file.getD [] = w'.file.getD []) (e : Env) (fd : Bool) (ds : List Dict)
    (hne : ds ≠ []) :
    (w.addAll e fd ds).1.file = (w'.addAll e fd ds).1.file ∧ (w.addAll e fd ds).2 = (w'.addAll e fd ds).2 := by
  induction ds generalizing w w' e with
  | nil => exact absurd rfl hne
  | cons d ds ih =>
    cases hr : (writeBody e fd d).res with
    | error x => rw [addAll_cons_err hr, addAll_cons_err hr, h]; exact ⟨rfl, rfl⟩
    | ok a =>
      rw [addAll_cons_ok hr, addAll_cons_ok hr]
      have hf : (w.writeSet e fd false d).1.file = (w'.writeSet e fd false d).1.file := by
        rw [(writeSet_file w e fd false d).1, (writeSet_file w' e fd false d).1, fileAfter_add, fileAfter_add, h]
      cases ds with
      | nil => exact ⟨hf, rfl⟩
      | cons d' ds =>
        have := ih (w.writeSet e fd false d).1 (w'.writeSet e fd false d).1 (by rw [hf]) e.next (by simp)
        simp only
        rw [this.2]
        exact ⟨this.1, rfl⟩

theorem writeSets_add (w : World) (e : Env) (mode : Text) (hm : lower mode = "add".toList) (fd : Bool) (d : Dict)
    (ds : List Dict) : w.writeSets e mode fd (d :: ds) = w.addAll e fd (d :: ds) := by
  unfold World.writeSets
  simp only
  rw [hm, if_neg (by decide), if_pos rfl]

end Verif
