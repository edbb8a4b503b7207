import Verif.Lemmas.Many
/-
Properties C01, C02, C08, C10 and C11: which data-sets an object finds in a file, and what bytes added to the file do to
them.
-/
namespace Verif

/-- A small file for the examples: a 151, a line that only looks like a delimiter, a delimiter padded to 80 columns, an
unsupported type, and an opening delimiter without partner. -/
def exFile : Bytes := encode (("    -1\n   151\nMODEL\n    -1\n    -1x\n    -1" : String).toList ++
  List.replicate 74 ' ' ++ ("\n  9999\nabc\n    -1\r\n    -1\n" : String).toList)

/-! ### C01 -/

/-- `delims` lists exactly the offsets of delimiters, in ascending order. -/
theorem C01_delims (f : Bytes) : (∀ i, i ∈ delims f ↔ DelimAt f i) ∧ (delims f).Pairwise (· < ·) := by
  constructor
  · intro i
    unfold delims
    simp only [List.mem_filter, List.mem_range, decide_eq_true_eq, and_iff_right_iff_imp]
    intro h
    have h0 := h.1 0 (by omega)
    have : (delimBytes[0]? : Option UInt8) = some 32 := rfl
    rw [this, List.getElem?_eq_some_iff] at h0
    obtain ⟨h0, _⟩ := h0
    omega
  · exact List.Pairwise.filter _ List.pairwise_lt_range

/-- Opening a file finds one data-set for each pair of delimiters. -/
theorem C01_count (f : Bytes) : (World.new (some f)).getNSets.2 = (delims f).length / 2 := by
  unfold World.getNSets
  rw [fresh_new, new_some, objOf_eq]
  rfl

/-- Data-set `k` extends from the `2k`-th to the `2k+1`-th delimiter. -/
theorem C01_extent (f : Bytes) (k : Nat) :
    (World.new (some f)).obj.blockInd[k]? =
      if k < (delims f).length / 2 then some (delimPos f (2 * k), delimPos f (2 * k + 1)) else none := by
  rw [new_some, objOf_eq]
  simp only [List.getElem?_map]
  show Option.map _ (List.range (setCount f))[k]? = if k < setCount f then _ else _
  split
  · rename_i h; rw [List.getElem?_range h]; rfl
  · rename_i h; rw [List.getElem?_eq_none (by simpa using h)]; rfl

/-- The type reported for data-set `k` is the number in the first six bytes of its second line. -/
theorem C01_types (f : Bytes) :
    (World.new (some f)).getSetTypes.2.length = (delims f).length / 2 ∧
    ∀ k t, (World.new (some f)).getSetTypes.2[k]? = some t → TypeIs (setBytes f k) t := by
  unfold World.getSetTypes
  rw [fresh_new, new_some, objOf_eq]
  refine ⟨by simp [sets_length]; rfl, fun k t h => ?_⟩
  simp only [List.getElem?_map, Option.map_eq_some_iff] at h
  obtain ⟨b, hb, rfl⟩ := h
  have hk : k < setCount f := by rw [← sets_length]; exact (List.getElem?_eq_some_iff.1 hb).1
  rw [sets_getElem f k hk] at hb
  cases hb
  exact (typeIs_iff _ _).2 rfl

/-- What is read for data-set `k` depends on its bytes only: not on the rest of the file, nor on its position. -/
theorem C01_content (f g : Bytes) (k j : Nat) (hk : k < (delims f).length / 2) (hj : j < (delims g).length / 2)
    (h : setBytes f k = setBytes g j) (header : Bool) :
    ((World.new (some f)).readSets (.one k) header).2 = ((World.new (some g)).readSets (.one j) header).2 := by
  rw [readSets_new, readSets_new]
  simp only [readRange, mapRes, readSet_in f k hk, readSet_in g j hj, h]

/-- Refreshing any object finds the same as opening the file, when there is at least one data-set (see C10). -/
theorem C01_refresh (f : Bytes) (o : Obj) (h : 2 ≤ (delims f).length) :
    (World.mk (some f) o).refresh = (World.new (some f), true) := by
  unfold World.refresh
  dsimp only
  rw [refreshObj_eq f o (by unfold setCount; omega), refreshObj_true, new_some]


example : delims exFile = [0, 20, 35, 127, 135] := by decide +kernel
example : (World.new (some exFile)).getNSets.2 = 2 := by decide +kernel
example : (World.new (some exFile)).getSetTypes.2 = [151, 9999] := by decide +kernel

/-! ### C02 and C08 -/

/-- Data-set `k` of `f` is still data-set `k` of `f'`, at the same place, with the same bytes, type and content. -/
structure Kept (f f' : Bytes) (k : Nat) : Prop where
  there : k < setCount f'
  start : delimPos f' (2 * k) = delimPos f (2 * k)
  stop : delimPos f' (2 * k + 1) = delimPos f (2 * k + 1)
  bytes : setBytes f' k = setBytes f k
  type : (World.new (some f')).getSetTypes.2[k]? = (World.new (some f)).getSetTypes.2[k]?
  read : ∀ header, ((World.new (some f')).readSets (.one k) header).2 = ((World.new (some f)).readSets (.one k) header).2

theorem getSetTypes_new (f : Bytes) : (World.new (some f)).getSetTypes.2 = (sets f).map blockType := by
  unfold World.getSetTypes
  rw [fresh_new, new_some, objOf_eq]

theorem delimPos_append (f b : Bytes) (h : Terminated f) (i : Nat) (hi : i < (delims f).length) :
    delimPos (f ++ b) i = delimPos f i := by
  unfold delimPos
  rw [delims_append f b h, List.getElem?_append_left hi]

theorem setCount_append_le (f b : Bytes) (h : Terminated f) : setCount f ≤ setCount (f ++ b) := by
  rw [← sets_length, ← sets_length]; exact (sets_prefix f b h).length_le

theorem kept_append (f b : Bytes) (h : Terminated f) (k : Nat) (hk : k < setCount f) : Kept f (f ++ b) k := by
  have h1 : 2 * k < (delims f).length := by unfold setCount at hk; omega
  have h2 : 2 * k + 1 < (delims f).length := by unfold setCount at hk; omega
  have hk' : k < setCount (f ++ b) := Nat.lt_of_lt_of_le hk (setCount_append_le f b h)
  have hb : setBytes (f ++ b) k = setBytes f k := by
    obtain ⟨t, ht⟩ := sets_prefix f b h
    have e1 := sets_getElem (f ++ b) k hk'
    rw [← ht, List.getElem?_append_left (by rw [sets_length]; exact hk), sets_getElem f k hk] at e1
    exact (Option.some.inj e1).symm
  refine ⟨hk', delimPos_append f b h _ h1, delimPos_append f b h _ h2, hb, ?_, ?_⟩
  · rw [getSetTypes_new, getSetTypes_new, List.getElem?_map, List.getElem?_map, sets_getElem _ _ hk', sets_getElem _ _ hk, hb]
  · intro header; exact C01_content _ _ _ _ hk' hk hb header

/-- However an appending write ends, the old bytes stay in place and all data-sets of a file that ends with a line feed
(or is empty or absent) are kept. -/
theorem C02_append (w : World) (e : Env) (mode : Text) (hm : lower mode = "add".toList) (fd : Bool) (ds : List Dict)
    (ht : Terminated (w.file.getD [])) :
    w.file.getD [] <+: (w.writeSets e mode fd ds).1.file.getD [] ∧
    ∀ k < setCount (w.file.getD []), Kept (w.file.getD []) ((w.writeSets e mode fd ds).1.file.getD []) k := by
  have hp : w.file.getD [] <+: (w.writeSets e mode fd ds).1.file.getD [] := by
    cases ds with
    | nil => exact List.prefix_refl _
    | cons d ds => rw [writeSets_add w e mode hm]; exact addAll_prefix w e fd _
  refine ⟨hp, ?_⟩
  obtain ⟨b, hb⟩ := hp
  rw [← hb]
  exact fun k hk => kept_append _ b ht k hk

/-- The object knows at least the data-sets of `f`, which is a prefix of the file. -/
structure Knows (w : World) (f : Bytes) : Prop where
  data : ∃ x, w.file = some (f ++ x)
  fresh : w.obj.refreshed = true
  count : setCount f ≤ w.obj.nSets
  ind : (objOf f).blockInd <+: w.obj.blockInd
  types : (objOf f).types <+: w.obj.types

theorem objOf_count (f : Bytes) : (objOf f).nSets = setCount f := by rw [objOf_eq]

theorem knows_new (f b : Bytes) (h : Terminated f) : Knows (World.new (some (f ++ b))) f := by
  refine ⟨⟨b, rfl⟩, objOf_refreshed _, ?_, ?_, ?_⟩
  · rw [new_some, objOf_count]; exact setCount_append_le f b h
  · rw [new_some]
    obtain ⟨t, ht⟩ := pairUp_prefix (delims f) ((delims b).map (· + f.length))
    rw [objOf_eq, objOf_eq]
    show List.map _ (List.range ((delims f).length / 2)) <+: List.map _ (List.range ((delims (f ++ b)).length / 2))
    have e1 := pairUp_eq (delims f)
    have e2 := pairUp_eq (delims (f ++ b))
    unfold delimPos
    rw [← e1, ← e2, delims_append f b h, ← ht]
    exact List.prefix_append _ _
  · rw [new_some, objOf_eq, objOf_eq]
    exact (sets_prefix f b h).map _

theorem knows_refresh (f : Bytes) (h : Terminated f) (w : World) (hw : Knows w f) (b : Bytes) :
    Knows (World.refresh ⟨some (w.file.getD [] ++ b), w.obj⟩).1 f := by
  obtain ⟨x, hx⟩ := hw.data
  rw [hx, Option.getD_some, List.append_assoc]
  unfold World.refresh
  dsimp only
  by_cases hc : setCount (f ++ (x ++ b)) = 0
  · rw [refreshObj_nil _ _ hc]
    exact ⟨⟨_, rfl⟩, rfl, hw.count, hw.ind, hw.types⟩
  · rw [refreshObj_eq _ _ hc]
    exact knows_new f _ h

theorem knows_addAll (f : Bytes) (ht : Terminated f) (e : Env) (fd : Bool) (ds : List Dict) (w : World) (hw : Knows w f) :
    Knows (w.addAll e fd ds).1 f := by
  induction ds generalizing w e with
  | nil => exact hw
  | cons d ds ih =>
    cases h : (writeBody e fd d).res with
    | error x =>
      rw [addAll_cons_err h]
      obtain ⟨x, hx⟩ := hw.data
      exact ⟨⟨_, by rw [hx, Option.getD_some, List.append_assoc]⟩, hw.fresh, hw.count, hw.ind, hw.types⟩
    | ok a =>
      rw [addAll_cons_ok h]
      apply ih
      have : (w.writeSet e fd false d).1 = (World.refresh ⟨some (w.file.getD [] ++ added (writeBody e fd d)), w.obj⟩).1 := by
        unfold World.writeSet
        dsimp only
        rw [h, fileAfter_add]
      rw [this]
      exact knows_refresh f ht w hw _

theorem knows_read (w : World) (f : Bytes) (hw : Knows w f) (k : Nat) (hk : k < setCount f) (header : Bool) :
    (w.readSets (.one k) header).2 = ((World.new (some f)).readSets (.one k) header).2 := by
  obtain ⟨x, hx⟩ := hw.data
  have hf : w.fresh = w := by unfold World.fresh; rw [if_pos hw.fresh]
  have hr : readSet (f ++ x) w.obj k header = readSet f (objOf f) k header := by
    rw [readSet_in f k hk]
    unfold readSet
    rw [if_neg (by have := hw.count; omega)]
    obtain ⟨t1, h1⟩ := hw.ind
    obtain ⟨t2, h2⟩ := hw.types
    rw [Int.toNat_natCast, ← h1, ← h2, objOf_eq]
    simp only
    rw [List.getElem?_append_left (by simpa using hk), List.getElem?_append_left (by simpa [sets_length] using hk),
      List.getElem?_map, List.getElem?_map, List.getElem?_range hk, sets_getElem f k hk]
    simp only [Option.map_some]
    rw [setBytes_eq, blockBytes_left]
    have : 2 * k + 1 < (delims f).length := by unfold setCount at hk; omega
    refine Nat.le_of_lt (delims_lt f _ ?_)
    unfold delimPos
    rw [List.getElem?_eq_getElem this, Option.getD_some]
    exact List.getElem_mem _
  rw [readSets_new]
  unfold World.readSets
  simp only [hx, hf, readRange, mapRes, hr]
  cases readSet f (objOf f) k header <;> rfl

/-- The object that did the write (not only a fresh one) still knows every earlier data-set, whether the write succeeded
or not. -/
theorem C02_object (f : Bytes) (e : Env) (mode : Text) (hm : lower mode = "add".toList) (fd : Bool) (ds : List Dict)
    (ht : Terminated f) (k : Nat) (hk : k < setCount f) :
    ((World.new (some f)).writeSets e mode fd ds).1.getSetTypes.2[k]? = (World.new (some f)).getSetTypes.2[k]? ∧
    ∀ header, (((World.new (some f)).writeSets e mode fd ds).1.readSets (.one k) header).2 =
      ((World.new (some f)).readSets (.one k) header).2 := by
  have hn : Knows (World.new (some f)) f := by
    have := knows_new f [] ht
    rwa [List.append_nil] at this
  have hK : Knows ((World.new (some f)).writeSets e mode fd ds).1 f := by
    cases ds with
    | nil => exact hn
    | cons d ds =>
      rw [writeSets_add _ e mode hm]
      exact knows_addAll f ht e fd _ _ hn
  refine ⟨?_, knows_read _ f hK k hk⟩
  have hf : ((World.new (some f)).writeSets e mode fd ds).1.fresh = ((World.new (some f)).writeSets e mode fd ds).1 := by
    rw [World.fresh, if_pos hK.fresh]
  obtain ⟨t, h2⟩ := hK.types
  unfold World.getSetTypes
  dsimp only
  rw [hf, ← h2, fresh_new, new_some, List.getElem?_append_left]
  rw [objOf_eq]
  simpa [sets_length] using hk

/-- The file may also be one that the writer was still working on: whatever part `cut` of the appended bytes has reached
the file, all data-sets of the old file are kept. -/
theorem C08_crash (w : World) (e : Env) (mode : Text) (hm : lower mode = "add".toList) (fd : Bool) (ds : List Dict)
    (ht : Terminated (w.file.getD [])) (n : Nat) :
    let old := w.file.getD []
    let added := ((w.writeSets e mode fd ds).1.file.getD []).drop old.length
    old ++ added = (w.writeSets e mode fd ds).1.file.getD [] ∧
    ∀ k < setCount old, Kept old (old ++ added.take n) k := by
  intro old added
  refine ⟨?_, fun k hk => kept_append _ _ ht k hk⟩
  obtain ⟨b, hb⟩ := (C02_append w e mode hm fd ds ht).1
  show old ++ List.drop old.length _ = _
  rw [← hb, List.drop_left]

/-- The environment after `n` data-sets. -/
def Env.after (e : Env) : Nat → Env
  | 0 => e
  | n + 1 => e.next.after n

theorem addAll_append (w : World) (e : Env) (fd : Bool) (ds₁ ds₂ : List Dict) (h : (w.addAll e fd ds₁).2.2 = .ok ()) :
    (w.addAll e fd (ds₁ ++ ds₂)).1 = ((w.addAll e fd ds₁).1.addAll (e.after ds₁.length) fd ds₂).1 ∧
    (w.addAll e fd (ds₁ ++ ds₂)).2.2 = ((w.addAll e fd ds₁).1.addAll (e.after ds₁.length) fd ds₂).2.2 := by
  induction ds₁ generalizing w e with
  | nil => exact ⟨rfl, rfl⟩
  | cons d ds ih =>
    rw [List.cons_append]
    cases hr : (writeBody e fd d).res with
    | error x => rw [addAll_cons_err hr] at h; cases h
    | ok a =>
      rw [addAll_cons_ok hr] at h ⊢
      rw [addAll_cons_ok hr]
      exact ih _ e.next h

/-- The data-sets of a batch that were completely written before the cut are kept, too: if `ds₁` are well-formed, the
file cut anywhere inside the bytes of `ds₂` holds the old data-sets and those of `ds₁`. -/
theorem C08_batch (w : World) (e : Env) (mode : Text) (hm : lower mode = "add".toList) (fd : Bool) (ds₁ ds₂ : List Dict)
    (ss : List DataSet) (h : GivenAll e fd ds₁ ss) (hne : ds₁ ≠ []) (ht : Terminated (w.file.getD []))
    (hb : Balanced (w.file.getD [])) (n : Nat) :
    let old := w.file.getD []
    let part := (w.writeSets e mode fd ds₁).1.file.getD []
    let all := (w.writeSets e mode fd (ds₁ ++ ds₂)).1.file.getD []
    part <+: all ∧ setCount part = setCount old + ss.length ∧
      ∀ k < setCount old + ss.length, Kept part (part ++ (all.drop part.length).take n) k := by
  intro old part all
  obtain ⟨bs, hbs, hall⟩ := addAll_given h
  obtain ⟨hok, hfile, _⟩ := hall w
  have hpart : part = old ++ bs.flatMap closed := by
    show (w.writeSets e mode fd ds₁).1.file.getD [] = _
    obtain ⟨d, ds, rfl⟩ := List.exists_cons_of_ne_nil hne
    rw [writeSets_add w e mode hm, hfile]
  have hc : setCount part = setCount old + ss.length := by
    rw [hpart, ← sets_length, sets_append _ _ ht hb, List.length_append, sets_length, hbs.sets, hbs.length]
  refine ⟨?_, hc, ?_⟩
  · show (w.writeSets e mode fd ds₁).1.file.getD [] <+: (w.writeSets e mode fd (ds₁ ++ ds₂)).1.file.getD []
    obtain ⟨d, ds, rfl⟩ := List.exists_cons_of_ne_nil hne
    rw [writeSets_add w e mode hm, List.cons_append, writeSets_add w e mode hm, ← List.cons_append,
      (addAll_append w e fd _ ds₂ hok).1]
    exact addAll_prefix _ _ _ _
  · intro k hk
    apply kept_append
    · rw [hpart]; exact terminated_append _ _ ht hbs.terminated
    · rw [hc]; exact hk

example : Terminated exFile ∧ setCount exFile = 2 := by decide +kernel

/-! ### C10 -/

/-- After a refresh the information depends on the file only, when the file holds a complete data-set.
The general claim is false: see `C10_stale`. -/
theorem C10_info_partial (f : Bytes) (o o' : Obj) (h : 2 ≤ (delims f).length) :
    (World.mk (some f) o).refresh = (World.mk (some f) o').refresh := by
  rw [C01_refresh f o h, C01_refresh f o' h]

/-- Opening a file afresh always gives the information of this file. -/
theorem C10_new (f : Bytes) : (World.new (some f)).getNSets.2 = (sets f).length ∧
    (World.new (some f)).getSetTypes.2.length = (sets f).length ∧
    (World.new (some f)).getSetFormats.2.length = (sets f).length := by
  refine ⟨?_, ?_, ?_⟩
  · rw [C01_count, sets_length]; rfl
  · rw [(C01_types f).1, sets_length]; rfl
  · unfold World.getSetFormats
    rw [fresh_new, new_some, objOf_eq, sets_length]; simp

/-- When the file holds no complete data-set, refresh keeps whatever the object knew before. -/
theorem C10_stale (f : Bytes) (o : Obj) (h : (delims f).length < 2) :
    (World.mk (some f) o).refresh.1.getNSets.2 = o.nSets ∧
    (World.mk (some f) o).refresh.1.getSetTypes.2 = o.types := by
  have hc : setCount f = 0 := by unfold setCount; omega
  have : (World.mk (some f) o).refresh.1 = ⟨some f, { o with refreshed := true }⟩ := by
    unfold World.refresh
    dsimp only
    rw [refreshObj_nil f o hc]
  rw [this]
  exact ⟨rfl, rfl⟩

/-- When the file has been deleted by somebody else, `refresh` says so, and the object goes on reporting what it knew. -/
theorem C10_gone (o : Obj) : (World.mk none o).refresh.2 = false ∧ (World.mk none o).refresh.1.file = none ∧
    (World.mk none o).refresh.1.getNSets.2 = o.nSets ∧ (World.mk none o).refresh.1.getSetTypes.2 = o.types ∧
    (World.mk none o).refresh.1.getSetFormats.2 = o.formats :=
  ⟨rfl, rfl, rfl, rfl, rfl⟩

/-- A history that shows it: an object on a file with two data-sets overwrites the file with a data-set of an unsupported
type.  The file is now empty, and a new object finds nothing in it, but this object still reports two data-sets. -/
theorem C10_counterexample :
    let e : Env := ⟨true, fun _ => ([], [])⟩
    let w := ((World.new (some exFile)).writeSets e "overwrite".toList true [[("type", .int 9999)]]).1
    w.file = some [] ∧ (World.new w.file).getNSets.2 = 0 ∧ w.refresh.1.getNSets.2 = 2 ∧
      w.refresh.1.getSetTypes.2 = [151, 9999] := by
  decide +kernel

/-! ### C11 -/

/-- A data-set is marked binary when byte 6 of its second line is `b` or `B`. -/
def MarkedBinary (b : Bytes) : Prop :=
  ∃ l c, (splitLinesB b)[1]? = some l ∧ l[6]? = some c ∧ (c = 98 ∨ c = 66)

/-- `get_set_formats` reports 0 for every data-set of every file. -/
theorem C11_always_ascii (f : Bytes) : (World.new (some f)).getSetFormats.2 = List.replicate ((delims f).length / 2) 0 := by
  unfold World.getSetFormats
  rw [fresh_new, new_some, objOf_eq]; rfl

/-- So data-sets that are not marked binary are reported correctly (they are all that is). -/
theorem C11_formats_partial (f : Bytes) (k : Nat) (hk : k < (delims f).length / 2) (_h : ¬ MarkedBinary (setBytes f k)) :
    (World.new (some f)).getSetFormats.2[k]? = some 0 := by
  rw [C11_always_ascii, List.getElem?_replicate, if_pos hk]

/-- A file with a data-set marked binary. -/
def exBinary : Bytes := encode "    -1\n    58b     1     2\n    -1\n".toList
theorem exBinary_marked : 0 < (delims exBinary).length / 2 ∧ MarkedBinary (setBytes exBinary 0) :=
  ⟨by decide +kernel, "    58b     1     2".toList.map (fun c => UInt8.ofNat c.toNat), 98, by decide +kernel, by decide +kernel,
    .inl rfl⟩

/-- The claim is false. -/
theorem C11_negation : ¬ ∀ (f : Bytes) (k : Nat), k < (delims f).length / 2 →
    ((World.new (some f)).getSetFormats.2[k]? = some 1 ↔ MarkedBinary (setBytes f k)) := by
  intro h
  have h1 := (h exBinary 0 exBinary_marked.1).2 exBinary_marked.2
  rw [C11_always_ascii, List.getElem?_replicate, if_pos exBinary_marked.1] at h1
  cases h1

example : 0 < (delims exFile).length / 2 ∧ ¬ MarkedBinary (setBytes exFile 0) := by
  refine ⟨by decide +kernel, ?_⟩
  rintro ⟨l, c, h1, h2, _⟩
  have h3 : (splitLinesB (setBytes exFile 0))[1]? = some [32, 32, 32, 49, 53, 49] := by decide +kernel
  rw [h3] at h1
  cases h1
  cases h2

end Verif
