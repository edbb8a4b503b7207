import Verif.Lemmas.Sets
/-
Writing and reading lists of well-formed data-sets.
-/
namespace Verif

/-- The bytes between the delimiters that hold a data-set. -/
structure BlockOf (s : DataSet) (b : Bytes) : Prop where
  framed : Framed s.num b
  rd : readBlock s.num false b = .ok s.readBack
  rdh : readBlock s.num true b = .ok s.headerBack

/-- The same for lists. -/
inductive Blocks : List DataSet → List Bytes → Prop
  | nil : Blocks [] []
  | cons {s b ss bs} : BlockOf s b → Blocks ss bs → Blocks (s :: ss) (b :: bs)

theorem Blocks.length {ss : List DataSet} {bs : List Bytes} (h : Blocks ss bs) : bs.length = ss.length := by
  induction h with
  | nil => rfl
  | cons _ _ ih => simp [ih]

theorem Blocks.terminated {ss : List DataSet} {bs : List Bytes} (h : Blocks ss bs) : Terminated (bs.flatMap closed) := by
  induction h with
  | nil => left; rfl
  | cons _ _ ih => rw [List.flatMap_cons]; exact terminated_append _ _ (terminated_closed _) ih

theorem Blocks.balanced {ss : List DataSet} {bs : List Bytes} (h : Blocks ss bs) : Balanced (bs.flatMap closed) := by
  induction h with
  | nil => unfold Balanced; decide
  | cons hb _ ih =>
    rw [List.flatMap_cons]
    exact balanced_append _ _ (terminated_closed _) hb.framed.balanced ih

theorem Blocks.sets {ss : List DataSet} {bs : List Bytes} (h : Blocks ss bs) : sets (bs.flatMap closed) = bs := by
  induction h with
  | nil => decide
  | cons hb _ ih =>
    rw [List.flatMap_cons, sets_append _ _ (terminated_closed _) hb.framed.balanced, hb.framed.sets, ih]
    rfl

theorem Blocks.types {ss : List DataSet} {bs : List Bytes} (h : Blocks ss bs) :
    bs.map blockType = ss.map DataSet.num := by
  induction h with
  | nil => rfl
  | cons hb _ ih => simp [hb.framed.type, ih]

theorem Blocks.read {ss : List DataSet} {bs : List Bytes} (h : Blocks ss bs) :
    mapRes (fun b => readBlock (blockType b) false b) bs = .ok (ss.map DataSet.readBack) := by
  induction h with
  | nil => rfl
  | cons hb _ ih => unfold mapRes; rw [hb.framed.type, hb.rd, ih]; rfl

theorem Blocks.readHeader {ss : List DataSet} {bs : List Bytes} (h : Blocks ss bs) :
    mapRes (fun b => readBlock (blockType b) true b) bs = .ok (ss.map DataSet.headerBack) := by
  induction h with
  | nil => rfl
  | cons hb _ ih => unfold mapRes; rw [hb.framed.type, hb.rdh, ih]; rfl

theorem setCount_pos_of_append (f b : Bytes) (h1 : Terminated f) (h2 : Balanced f) (h3 : sets b ≠ []) :
    setCount (f ++ b) ≠ 0 := by
  rw [← sets_length, sets_append f b h1 h2, List.length_append]
  have := List.length_pos_iff.2 h3
  omega

/-- Appending well-formed data-sets. -/
theorem addAll_given {e : Env} {fd : Bool} {ds : List Dict} {ss : List DataSet} (h : GivenAll e fd ds ss) :
    ∃ bs, Blocks ss bs ∧ ∀ w : World,
      (w.addAll e fd ds).2.2 = .ok () ∧
      (w.addAll e fd ds).1.file.getD [] = w.file.getD [] ++ bs.flatMap closed ∧
      (ds ≠ [] → Terminated (w.file.getD []) → Balanced (w.file.getD []) →
        (w.addAll e fd ds).1 = World.new (some (w.file.getD [] ++ bs.flatMap closed))) := by
  induction h with
  | nil =>
    refine ⟨[], .nil, fun w => ⟨rfl, ?_, fun h => absurd rfl h⟩⟩
    simp [World.addAll]
  | @cons e fd d s ds ss hd hds ih =>
    obtain ⟨bs, hbs, hall⟩ := ih
    obtain ⟨b, hb⟩ := written e fd d s hd
    obtain ⟨out, d', ret, hw, ha, _⟩ := hb.wr
    refine ⟨b :: bs, .cons ⟨hb.framed, hb.rd, hb.rdh⟩ hbs, fun w => ?_⟩
    have hres : (writeBody e fd d).res = .ok ret := by rw [hw]
    have hfile : fileAfter false w.file (writeBody e fd d) = w.file.getD [] ++ closed b := by
      rw [fileAfter_add, hw, ha]
    have hw1 : (w.writeSet e fd false d).1 = (World.refresh ⟨some (w.file.getD [] ++ closed b), w.obj⟩).1 := by
      unfold World.writeSet
      dsimp only
      rw [hres, hfile]
    rw [addAll_cons_ok hres]
    obtain ⟨h1, h2, h3⟩ := hall (w.writeSet e fd false d).1
    have hf : (w.writeSet e fd false d).1.file.getD [] = w.file.getD [] ++ closed b := by rw [hw1]; rfl
    refine ⟨h1, ?_, fun _ ht hbal => ?_⟩
    · simp only
      rw [h2, hf, List.flatMap_cons, List.append_assoc]
    · simp only
      have ht' := terminated_append _ _ ht (terminated_closed b)
      have hbal' := balanced_append _ _ ht hbal hb.framed.balanced
      cases hds with
      | nil =>
        cases hbs
        simp only [World.addAll, List.flatMap_cons, List.flatMap_nil, List.append_nil]
        rw [hw1, new_some]
        unfold World.refresh
        dsimp only
        rw [refreshObj_eq]
        exact setCount_pos_of_append _ _ ht hbal (by rw [hb.framed.sets]; simp)
      | cons _ _ =>
        rw [h3 (by simp) (by rw [hf]; exact ht') (by rw [hf]; exact hbal'), hf, List.flatMap_cons, List.append_assoc]

theorem sets_getElem (f : Bytes) (k : Nat) (hk : k < setCount f) : (sets f)[k]? = some (setBytes f k) := by
  unfold sets
  rw [List.getElem?_map, List.getElem?_range hk]; rfl

theorem mapRes_congr {α β} {f g : α → Res β} (l : List α) (h : ∀ a ∈ l, f a = g a) : mapRes f l = mapRes g l := by
  induction l with
  | nil => rfl
  | cons a l ih => unfold mapRes; rw [h a (by simp), ih fun b hb => h b (by simp [hb])]

theorem mapRes_comp {α β γ} (f : β → Res γ) (g : α → β) (l : List α) : mapRes f (l.map g) = mapRes (f ∘ g) l := by
  induction l with
  | nil => rfl
  | cons a l ih => simp only [List.map_cons, mapRes, ih, Function.comp]

/-- Reading all data-sets of a file. -/
theorem readAll_eq (f : Bytes) (h : Bool) :
    mapRes (fun n => readSet f (objOf f) n h) (readRange (objOf f) .all)
      = mapRes (fun b => readBlock (blockType b) h b) (sets f) := by
  have : readRange (objOf f) .all = (List.range (setCount f)).map Int.ofNat := by
    unfold readRange; rw [objOf_eq]
  rw [this, mapRes_comp]
  unfold sets
  rw [mapRes_comp]
  apply mapRes_congr
  intro k hk
  rw [List.mem_range] at hk
  exact readSet_in f k hk h

end Verif
