import Verif.Spec.Store
import Verif.Lemmas.Many
/-
The bytes of a file and the list of its data-sets.
-/
namespace Verif

/-- A block of a file, seen from outside. -/
def Item.block (b : Bytes) : Item := ⟨blockType b, readBlock (blockType b) false b, readBlock (blockType b) true b⟩

theorem Item.block_get (b : Bytes) (h : Bool) : (Item.block b).get h = readBlock (blockType b) h b := by
  cases h <;> rfl

theorem Blocks.items {ss : List DataSet} {bs : List Bytes} (h : Blocks ss bs) :
    bs.map Item.block = ss.map Item.written := by
  induction h with
  | nil => rfl
  | cons hb _ ih =>
    rw [List.map_cons, List.map_cons, ih]
    congr 1
    unfold Item.block Item.written
    rw [hb.framed.type, hb.rd, hb.rdh]

/-- The object of a view: it has not seen the file, or it knows the data-sets of a beginning of it. -/
def ViewOf (file : Option Bytes) (v : View) (o : Obj) : Prop :=
  (v.known = none ∧ v.good = true ∧ o = .empty) ∨
  ∃ f g, file = some f ∧ o = objOf g ∧ v.known = some ((sets g).map blockType) ∧
    (v.good = true → Terminated g ∧ Balanced g ∧ ∃ h, f = g ++ h) ∧ (v.good = false → setCount f ≠ 0)

/-- The file of a list of data-sets. -/
def FileOf (file : Option Bytes) (items : Option (List Item)) : Prop :=
  (file = none ∧ items = none) ∨
  ∃ f, file = some f ∧ Terminated f ∧ Balanced f ∧ items = some ((sets f).map Item.block)

/-- File and objects of a store. -/
structure Rel (s : Session) (st : Store) : Prop where
  file : FileOf s.file st.items
  objs : ∀ i, ViewOf s.file (st.views i) (s.objs i)

theorem objOf_nil (f : Bytes) (h : setCount f = 0) : objOf f = ⟨[], true, 0, [], []⟩ := by
  unfold objOf; rw [refreshObj_nil f _ h]; rfl

theorem viewOf_refresh {f : Bytes} {v : View} {o : Obj} (h : ViewOf (some f) v o) : (refreshObj (some f) o).1 = objOf f := by
  by_cases h0 : setCount f = 0
  · rw [refreshObj_nil f o h0]
    rcases h with ⟨_, _, rfl⟩ | ⟨f', g, hf, rfl, _, h1, h2⟩
    · rw [objOf_nil f h0]; rfl
    · cases hf
      cases hg : v.good with
      | false => exact absurd h0 (h2 hg)
      | true =>
        obtain ⟨ht, hb, t, rfl⟩ := h1 hg
        have hg0 : setCount g = 0 := by
          have := h0
          rw [← sets_length, sets_append g t ht hb, List.length_append, sets_length] at this
          omega
        rw [objOf_nil _ h0, objOf_nil _ hg0]
  · exact refreshObj_eq f o h0

theorem viewOf_look {f : Bytes} (ht : Terminated f) (hb : Balanced f) :
    ViewOf (some f) (Store.look (some ((sets f).map Item.block))) (objOf f) := by
  refine .inr ⟨f, f, rfl, rfl, ?_, fun _ => ⟨ht, hb, [], by simp⟩, fun h => absurd h (by simp [Store.look])⟩
  simp [Store.look, Function.comp_def, Item.block]

/-- Something is added to the file. -/
theorem viewOf_append {f b : Bytes} {v : View} {o : Obj} (hf : Terminated f) (h : ViewOf (some f) v o) :
    ViewOf (some (f ++ b)) v o := by
  rcases h with h | ⟨f', g, hf', ho, hk, h1, h2⟩
  · exact .inl h
  · cases hf'
    refine .inr ⟨f ++ b, g, rfl, ho, hk, fun hg => ?_, fun hg => ?_⟩
    · obtain ⟨ht, hb, t, rfl⟩ := h1 hg
      exact ⟨ht, hb, t ++ b, by simp⟩
    · have := h2 hg
      have hl := (sets_prefix f b hf).length_le
      rw [sets_length, sets_length] at hl
      omega

theorem viewOf_none {v : View} {o : Obj} (h : ViewOf none v o) : v.known = none ∧ v.good = true ∧ o = .empty := by
  rcases h with h | ⟨_, _, h, _⟩
  · exact h
  · cases h

/-- A file appears, or something is added to it. -/
theorem viewOf_grow {file : Option Bytes} {b : Bytes} {v : View} {o : Obj} (hf : Terminated (file.getD []))
    (h : ViewOf file v o) : ViewOf (some (file.getD [] ++ b)) v o := by
  cases file with
  | none => exact .inl (viewOf_none h)
  | some f => exact viewOf_append hf h

/-- The end of `read_sets`. -/
def packed : Res (List Dict) → Res ReadOut
  | .ok r => .ok (unwrap r)
  | .error e => .error (readErr e)

theorem readSets_packed (f : Bytes) (o : Obj) (sel : Sel) (header : Bool) :
    World.readSets ⟨some f, o⟩ sel header = (World.fresh ⟨some f, o⟩,
      packed (mapRes (fun n => readSet f (World.fresh ⟨some f, o⟩).obj n header) (readRange o sel))) := by
  unfold World.readSets packed
  dsimp only
  split <;> simp_all

theorem collect_eq (l : List Int) (f : Int → Res Dict) :
    packed (mapRes f l) = (Store.collect (l.map f)).map Store.shape := by
  have hs : ∀ r : List Dict, unwrap r = Store.shape r := by
    intro r
    match r with
    | [] => rfl
    | [d] => rfl
    | a :: b :: r => rfl
  have : Store.collect (l.map f) = match mapRes f l with
      | .ok r => Except.ok r
      | .error e => .error (readErr e) := by
    induction l with
    | nil => rfl
    | cons a l ih =>
      rw [List.map_cons]
      unfold mapRes
      cases ha : f a with
      | error e => cases e <;> rfl
      | ok d =>
        unfold Store.collect
        rw [ih]
        cases mapRes f l <;> rfl
  rw [this]
  cases mapRes f l with
  | ok r => simp only [Except.map, packed, hs]
  | error e => rfl

/-- What an object reads that knows a beginning of the file. -/
theorem readSet_pick (g h : Bytes) (ht : Terminated g) (hb : Balanced g) (header : Bool) (k : Int) :
    readSet (g ++ h) (objOf g) k header =
      Store.pick (((sets (g ++ h)).map Item.block).take (setCount g)) header k := by
  have e : ((sets (g ++ h)).map Item.block).take (setCount g) = (sets g).map Item.block := by
    rw [sets_append g h ht hb, List.map_append, ← sets_length, List.take_left' (by simp)]
  rw [e]
  unfold readSet Store.pick
  rw [objOf_eq]
  simp only
  by_cases hk : k < 0
  · rw [if_pos (Or.inr hk), if_pos hk]
  · rw [if_neg hk]
    by_cases hk' : k > (setCount g : Int) - 1
    · rw [if_pos (Or.inl hk'), List.getElem?_eq_none (by rw [List.length_map, sets_length]; omega)]
    · rw [if_neg (by omega)]
      obtain ⟨n, rfl⟩ := Int.eq_ofNat_of_zero_le (by omega : 0 ≤ k)
      have hn : n < setCount g := by omega
      simp only [Int.toNat_natCast, List.getElem?_map, List.getElem?_range hn, Option.map_some, sets_getElem g n hn]
      rw [Item.block_get, blockBytes_left, ← setBytes_eq]
      have : delimPos g (2 * n + 1) ∈ delims g := by
        unfold delimPos
        have hl : 2 * n + 1 < (delims g).length := by unfold setCount at hn; omega
        rw [List.getElem?_eq_getElem hl, Option.getD_some]
        exact List.getElem_mem hl
      exact Nat.le_of_lt (delims_lt g _ this)

end Verif
