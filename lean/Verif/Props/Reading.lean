import Verif.Props.Writing
/-
Properties C06, C07, C12, C13, C36 and C40: reading, invalid and ignored data-sets, cleaning of data.
-/
namespace Verif

/-! ### C06 -/

theorem fresh_of {w : World} (h : w.getStatus = true) : w.fresh = w := by
  unfold World.fresh; exact if_pos h

theorem readSets_fresh {w : World} (h : w.getStatus = true) (sel : Sel) (header : Bool) :
    w.readSets sel header = (w, match w.file with
      | none => .error (.exc "Cannot read from a non-existing file")
      | some f => match mapRes (fun n => readSet f w.obj n header) (readRange w.obj sel) with
        | .ok l => .ok (unwrap l)
        | .error e => .error (readErr e)) := by
  unfold World.readSets
  dsimp only
  rw [fresh_of h]
  cases w.file <;> rfl

theorem mapRes_iff {α β} (f : α → Res β) (l : List α) (r : List β) :
    mapRes f l = .ok r ↔ OneByOne (fun a b => f a = .ok b) l r := by
  induction l generalizing r with
  | nil =>
    simp only [mapRes, Except.ok.injEq]
    constructor
    · rintro rfl; exact ⟨rfl, by simp⟩
    · intro h; exact (List.length_eq_zero_iff.1 h.1.symm).symm
  | cons a l ih =>
    unfold mapRes
    constructor
    · intro h
      cases ha : f a with
      | error e => rw [ha] at h; cases h
      | ok b =>
        rw [ha] at h
        simp only at h
        cases hl : mapRes f l with
        | error e => rw [hl] at h; cases h
        | ok bs =>
          rw [hl] at h
          simp only [Except.ok.injEq] at h
          subst h
          have := (ih bs).1 hl
          refine ⟨by simp [this.1], fun i x y hx hy => ?_⟩
          cases i with
          | zero => simp only [List.getElem?_cons_zero, Option.some.injEq] at hx hy; rw [← hx, ← hy]; exact ha
          | succ i => simp only [List.getElem?_cons_succ] at hx hy; exact this.2 i x y hx hy
    · intro h
      cases r with
      | nil => simp at h; exact absurd h.1 (by simp)
      | cons b r =>
        have h0 := h.2 0 a b rfl rfl
        rw [h0]
        have : mapRes f l = .ok r := (ih r).2 ⟨by simpa using h.1, fun i x y hx hy => h.2 (i + 1) x y hx hy⟩
        rw [this]

theorem one_iff {w : World} (h : w.getStatus = true) (f : Bytes) (hf : w.file = some f) (n : Int) (header : Bool) (d : Dict) :
    (w.readSets (.one n) header).2 = .ok (.single d) ↔ readSet f w.obj n header = .ok d := by
  rw [readSets_fresh h, hf]
  simp only [readRange, mapRes]
  cases readSet f w.obj n header with
  | error e => simp
  | ok d' => simp [unwrap]

/-- A number selects one data-set, which is never wrapped in a list. -/
theorem C06_one (w : World) (n : Int) (header : Bool) (out : ReadOut)
    (h : (w.readSets (.one n) header).2 = .ok out) : ∃ d, out = .single d := by
  unfold World.readSets at h
  cases hf : w.file with
  | none => rw [hf] at h; cases h
  | some f =>
    rw [hf] at h
    simp only [readRange, mapRes] at h
    cases hr : readSet f w.fresh.obj n header with
    | error e => rw [hr] at h; cases h
    | ok d => rw [hr] at h; cases h; exact ⟨d, rfl⟩

/-- A list of numbers selects those data-sets, in that order and with repetitions; the call succeeds exactly when it
succeeds for each of them. -/
theorem C06_many (w : World) (hw : w.getStatus = true) (l : List Int) (header : Bool) (out : ReadOut) (hf : w.fileExists = true) :
    (w.readSets (.many l) header).2 = .ok out ↔
      ∃ ds, OneByOne (fun n d => (w.readSets (.one n) header).2 = .ok (.single d)) l ds ∧ ReadsAs out ds := by
  obtain ⟨f, hf⟩ := Option.isSome_iff_exists.1 hf
  simp only [one_iff hw f hf]
  rw [readSets_fresh hw, hf]
  simp only [readRange]
  constructor
  · intro h
    cases hm : mapRes (fun n => readSet f w.obj n header) l with
    | error e => rw [hm] at h; cases h
    | ok ds =>
      rw [hm] at h
      simp only [Except.ok.injEq] at h
      exact ⟨ds, (mapRes_iff _ _ _).1 hm, h ▸ readsAs_unwrap ds⟩
  · rintro ⟨ds, h1, h2⟩
    rw [(mapRes_iff (fun n => readSet f w.obj n header) l ds).2 h1]
    simp only [Except.ok.injEq]
    rcases h2 with ⟨d, rfl, rfl⟩ | ⟨h2, rfl⟩
    · rfl
    · match ds with
      | [] => rfl
      | [d] => exact absurd rfl h2
      | a :: b :: r => rfl

/-- No number selects all data-sets: 0 up to the number of data-sets. -/
theorem C06_all (w : World) (hw : w.getStatus = true) (header : Bool) :
    w.readSets .all header = w.readSets (.many ((List.range w.getNSets.2).map Int.ofNat)) header := by
  rw [readSets_fresh hw, readSets_fresh hw]
  simp only [readRange, World.getNSets, fresh_of hw]

/-- Entry `k` of what `read_sets()` returns is what `read_sets(k)` returns. -/
theorem C06_entry (w : World) (hw : w.getStatus = true) (hf : w.fileExists = true) (header : Bool) (l : List Dict)
    (h : (w.readSets .all header).2 = .ok (.list l)) :
    l.length = w.getNSets.2 ∧
    ∀ (k : Nat) d, l[k]? = some d → (w.readSets (.one k) header).2 = .ok (.single d) := by
  rw [C06_all w hw header] at h
  obtain ⟨ds, h1, h2⟩ := (C06_many w hw _ header _ hf).1 h
  have : ds = l := by
    rcases h2 with ⟨d, _, h2⟩ | ⟨_, h2⟩
    · cases h2
    · cases h2; rfl
  subst this
  refine ⟨by have := h1.1; simp at this; exact this.symm, fun k d hk => h1.2 k _ d ?_ hk⟩
  have hlt : k < ds.length := (List.getElem?_eq_some_iff.1 hk).1
  have : k < w.getNSets.2 := by have := h1.1; simp at this; omega
  rw [List.getElem?_map, List.getElem?_range this]; rfl

theorem mapRes_err {α β} (f : α → Res β) (l : List α) (a : α) (ha : a ∈ l) (h : ∃ e, f a = .error e) :
    ∃ e, mapRes f l = .error e := by
  cases hm : mapRes f l with
  | error e => exact ⟨e, rfl⟩
  | ok r =>
    obtain ⟨i, hi⟩ := List.mem_iff_getElem?.1 ha
    have h1 := (mapRes_iff f l r).1 hm
    have hlt : i < r.length := by rw [← h1.1]; exact (List.getElem?_eq_some_iff.1 hi).1
    have := h1.2 i a _ hi (List.getElem?_eq_getElem hlt)
    obtain ⟨e, he⟩ := h
    simp only [he] at this; cases this

/-- A number outside the range raises, alone or in a list. -/
theorem C06_range (w : World) (hw : w.getStatus = true) (l : List Int) (n : Int) (hn : n ∈ l)
    (h : n < 0 ∨ (w.getNSets.2 : Int) ≤ n) (header : Bool) :
    (∃ e, (w.readSets (.many l) header).2 = .error e) ∧ ∃ e, (w.readSets (.one n) header).2 = .error e := by
  have hs : ∀ f, readSet f w.obj n header = .error (.exc "Cannot read data-set") := by
    intro f
    unfold readSet
    rw [if_pos]
    unfold World.getNSets at h
    rw [fresh_of hw] at h
    simp only at h
    omega
  rw [readSets_fresh hw, readSets_fresh hw]
  cases w.file with
  | none => exact ⟨⟨_, rfl⟩, ⟨_, rfl⟩⟩
  | some f =>
    obtain ⟨e, he⟩ := mapRes_err (fun n => readSet f w.obj n header) l n hn ⟨_, hs f⟩
    simp only [readRange, he, mapRes, hs f]
    exact ⟨⟨_, rfl⟩, ⟨_, rfl⟩⟩

/-- Data-sets 1 and 0 of the example file: the second of an unsupported type, and an error for 2. -/
example : let w := World.new (some exFile)
    w.getStatus = true ∧ w.fileExists = true ∧
    (w.readSets (.many [1, 1]) false).2 = .ok (.list [[("type", .int 9999)], [("type", .int 9999)]]) ∧
    (w.getNSets.2 : Int) ≤ 2 ∧ (w.readSets (.many [1, 2]) false).2 = .error (.exc "Error when reading data-set(s).") := by
  decide +kernel

/-! ### C07 -/

/-- The operations that only read. -/
inductive ReadOp where
  | refresh
  | nSets
  | types
  | formats
  | exists_
  | status
  | read (sel : Sel) (header : Bool)

/-- Their answers. -/
inductive Answer where
  | bool (b : Bool)
  | num (n : Nat)
  | ints (l : List Int)
  | nums (l : List Nat)
  | sets (r : Res ReadOut)

/-- One operation: the object afterwards and the answer. -/
def World.ask (w : World) : ReadOp → World × Answer
  | .refresh => (w.refresh.1, .bool w.refresh.2)
  | .nSets => (w.getNSets.1, .num w.getNSets.2)
  | .types => (w.getSetTypes.1, .ints w.getSetTypes.2)
  | .formats => (w.getSetFormats.1, .nums w.getSetFormats.2)
  | .exists_ => (w, .bool w.fileExists)
  | .status => (w, .bool w.getStatus)
  | .read sel header => ((w.readSets sel header).1, .sets (w.readSets sel header).2)

/-- The object after several operations. -/
def World.asks (w : World) : List ReadOp → World
  | [] => w
  | o :: os => (w.ask o).1.asks os

theorem readSets_world (w : World) (sel : Sel) (header : Bool) :
    (w.readSets sel header).1 = w ∨ (w.readSets sel header).1 = w.fresh := by
  unfold World.readSets
  cases w.file with
  | none => exact .inl rfl
  | some f => exact .inr rfl

theorem ask_world (w : World) (o : ReadOp) : (w.ask o).1 = w ∨ (w.ask o).1 = w.refresh.1 := by
  have hf : w.fresh = w ∨ w.fresh = w.refresh.1 := by
    unfold World.fresh; split <;> simp
  cases o with
  | refresh => exact .inr rfl
  | nSets | types | formats => exact hf
  | exists_ | status => exact .inl rfl
  | read sel header =>
    rcases readSets_world w sel header with h | h
    · exact .inl h
    · exact hf.imp h.trans h.trans

/-- No sequence of reading operations changes the file. -/
theorem C07_file (w : World) (os : List ReadOp) : (w.asks os).file = w.file := by
  induction os generalizing w with
  | nil => rfl
  | cons o os ih =>
    unfold World.asks
    rw [ih]
    rcases ask_world w o with h | h <;> rw [h]
    rfl

/-- Refreshing twice is refreshing once. -/
theorem C07_refresh (w : World) : w.refresh.1.refresh = w.refresh := by
  cases w with
  | mk file obj =>
    cases file with
    | none => rfl
    | some f =>
      unfold World.refresh
      dsimp only
      by_cases h : setCount f = 0
      · rw [refreshObj_nil f obj h, refreshObj_true, refreshObj_true, refreshObj_nil f _ h]
      · rw [refreshObj_eq f obj h, refreshObj_eq f _ h, refreshObj_true, refreshObj_true]

/-- From a refresh on (opening a file refreshes too) no sequence of reading operations changes anything, so that every
operation keeps giving the same answer.  What is missing: an object that has never seen its file, see
`C07_counterexample`. -/
theorem C07_repeat_partial (w : World) (os : List ReadOp) (o : ReadOp) :
    w.refresh.1.asks os = w.refresh.1 ∧ ((w.refresh.1.asks os).ask o).2 = (w.refresh.1.ask o).2 := by
  have h : w.refresh.1.asks os = w.refresh.1 := by
    induction os with
    | nil => rfl
    | cons o os ih =>
      unfold World.asks
      rcases ask_world w.refresh.1 o with h | h
      · rw [h, ih]
      · rw [h, C07_refresh, ih]
  exact ⟨h, by rw [h]⟩

/-- Opening a file is a refresh. -/
example (f : Bytes) : World.new (some f) = (World.refresh ⟨some f, .empty⟩).1 := rfl

/-- An object created before its file exists: after some other object has written the file, `read_sets()` first returns
an empty list, and, when repeated, the data-sets. -/
theorem C07_counterexample :
    let w : World := ⟨some exFile, (World.new none).obj⟩
    (w.readSets .all true).2 = .ok (.list []) ∧
    ((w.readSets .all true).1.readSets .all true).2 ≠ (w.readSets .all true).2 := by
  decide +kernel

/-- The same for every file with data-sets. -/
theorem C07_negation (f : Bytes) (h : 2 ≤ (delims f).length) (header : Bool) :
    let w : World := ⟨some f, (World.new none).obj⟩
    (w.readSets .all header).2 = .ok (.list []) ∧
    (w.readSets .all header).1.readSets .all header = (World.new (some f)).readSets .all header ∧
    ((World.new (some f)).readSets .all header).2 ≠ .ok (.list []) := by
  intro w
  have hw : (w.readSets .all header).1 = World.new (some f) := rfl
  refine ⟨rfl, by rw [hw], ?_⟩
  intro hc
  obtain ⟨h1, _⟩ := C06_entry _ (by rw [new_some]; exact objOf_refreshed f) rfl header _ hc
  rw [C01_count] at h1
  simp only [List.length_nil] at h1
  omega

example : 2 ≤ (delims exFile).length := by decide +kernel

/-! ### C12 -/

/-- The types that are written and read. -/
def supported : List Int := [15, 18, 55, 58, 82, 151, 164, 1858, 2400, 2411, 2412, 2414, 2420, 2429, 2467]

theorem dispatch_unsupported (e : Env) (fd : Bool) (t : Int) (ht : t ∉ supported) :
    writeDispatch e fd (.int t) = W.pure none := by
  simp only [supported, List.mem_cons, List.not_mem_nil, or_false, not_or] at ht
  unfold writeDispatch
  simp only [Val.numEq]
  simp [ht]

/-- Writing a data-set of an unsupported type succeeds and writes nothing; a missing file is created. -/
theorem C12_write (w : World) (e : Env) (mode : Text) (hm : lower mode = "add".toList) (fd : Bool) (d d' : Dict) (t : Int)
    (ht : d.get? "type" = some (.int t)) (hs : t ∉ supported) (hc : CleanD d d') :
    (w.writeSets e mode fd [d]).2.2 = .ok () ∧ (w.writeSets e mode fd [d]).1.file = some (w.file.getD []) ∧
    (w.writeSets e mode fd [d]).2.1 = [d'] := by
  have hb : writeBody e fd d = ⟨[], d', .ok none⟩ := by
    rw [writeBody_eq (n := t) hc (by rw [cleanD_get hc (by decide)]; exact ht), dispatch_unsupported e fd t hs]
    rfl
  rw [writeSets_add w e mode hm, addAll_cons_ok (a := none) (by rw [hb])]
  refine ⟨rfl, ?_, by rw [hb]; rfl⟩
  show (w.writeSet e fd false d).1.file = _
  rw [(writeSet_file w e fd false d).1, fileAfter_add, hb]
  simp [added, encode]

/-- In a list of data-sets those of unsupported types leave no trace. -/
theorem C12_list (w : World) (e : Env) (fd : Bool) (ds₁ ds₂ : List Dict) (d d' : Dict) (t : Int)
    (ht : d.get? "type" = some (.int t)) (hs : t ∉ supported) (hc : CleanD d d')
    (h : (w.addAll e fd ds₁).2.2 = .ok ()) :
    (w.addAll e fd (ds₁ ++ d :: ds₂)).1.file.getD [] =
      ((w.addAll e fd ds₁).1.addAll (e.after (ds₁.length + 1)) fd ds₂).1.file.getD [] ∧
    (w.addAll e fd (ds₁ ++ d :: ds₂)).2.2 =
      ((w.addAll e fd ds₁).1.addAll (e.after (ds₁.length + 1)) fd ds₂).2.2 := by
  obtain ⟨a1, a2⟩ := addAll_append w e fd ds₁ (d :: ds₂) h
  rw [a1, a2]
  have hb : writeBody (e.after ds₁.length) fd d = ⟨[], d', .ok none⟩ := by
    rw [writeBody_eq (n := t) hc (by rw [cleanD_get hc (by decide)]; exact ht), dispatch_unsupported _ fd t hs]
    rfl
  rw [addAll_cons_ok (a := none) (by rw [hb])]
  have he : ∀ (n : Nat) (e : Env), e.after (n + 1) = (e.after n).next := by
    intro n
    induction n with
    | zero => intro e; rfl
    | succ n ih => intro e; show (e.next).after (n + 1) = _; rw [ih]; rfl
  rw [he]
  generalize (w.addAll e fd ds₁).1 = v
  have hf : (v.writeSet (e.after ds₁.length) fd false d).1.file.getD [] = v.file.getD [] := by
    rw [(writeSet_file v _ fd false d).1, fileAfter_add, hb]
    simp [added, encode]
  cases ds₂ with
  | nil => exact ⟨hf, rfl⟩
  | cons d₂ ds₂ =>
    have := addAll_congr _ v hf (e.after ds₁.length).next fd (d₂ :: ds₂) (by simp)
    simp only
    rw [this.1, this.2]
    exact ⟨rfl, rfl⟩

/-- Reading one returns its type and nothing else. -/
theorem C12_read (f : Bytes) (k : Nat) (hk : k < setCount f) (t : Int) (ht : TypeIs (setBytes f k) t) (hs : t ∉ supported)
    (header : Bool) :
    ((World.new (some f)).readSets (.one k) header).2 = .ok (.single [("type", .int t)]) := by
  rw [readSets_new]
  simp only [readRange, mapRes, readSet_in f k hk]
  rw [(typeIs_iff _ _).1 ht]
  simp only [supported, List.mem_cons, List.not_mem_nil, or_false, not_or] at hs
  have : readBlock t header (setBytes f k) = .ok [("type", .int t)] := by
    unfold readBlock
    simp [hs]
  rw [this]; rfl

example : CleanD [("type", .int 9999), ("data", .arrF [fA])] [("type", .int 9999), ("data", .arrF [fA])] ∧
    (9999 : Int) ∉ supported ∧ 1 < setCount exFile ∧ TypeIs (setBytes exFile 1) 9999 :=
  ⟨.inr ⟨_, _, rfl, .arrF (oneByOne_refl (fun x hx => by
      simp only [List.mem_cons, List.not_mem_nil, or_false] at hx
      subst hx; exact cleanF_self (by decide))), rfl⟩, by decide, by decide +kernel, (typeIs_iff _ _).2 (by decide +kernel)⟩

/-! ### C13 -/

/-- Nothing to write: an error, in every mode, and nothing changes. -/
theorem C13_empty (w : World) (e : Env) (mode : Text) (fd : Bool) :
    w.writeSets e mode fd [] = (w, [], .error (.exc "Nothing to write")) := rfl

/-- An unknown mode: an error, and neither the file nor the dictionaries change. -/
theorem C13_mode (w : World) (e : Env) (mode : Text) (fd : Bool) (ds : List Dict) (h1 : lower mode ≠ "overwrite".toList)
    (h2 : lower mode ≠ "add".toList) : ∃ x, w.writeSets e mode fd ds = (w, ds, .error x) := by
  cases ds with
  | nil => exact ⟨_, rfl⟩
  | cons d ds =>
    refine ⟨.exc "Unknown mode", ?_⟩
    unfold World.writeSets
    simp only
    rw [if_neg h1, if_neg h2]

/-- Reading a file that does not exist. -/
theorem C13_read (w : World) (h : w.fileExists = false) (sel : Sel) (header : Bool) :
    ∃ x, w.readSets sel header = (w, .error x) := by
  unfold World.fileExists at h
  have : w.file = none := by simpa using h
  unfold World.readSets
  rw [this]
  exact ⟨_, rfl⟩

/-- A dictionary without type: an error.  In mode 'add' the content of the file stays (a missing file is created), in mode
'overwrite' it is lost. -/
theorem C13_type (w : World) (e : Env) (mode : Text) (fd : Bool) (d : Dict) (ds : List Dict) (h : d.get? "type" = none) :
    (∃ x, (w.writeSets e mode fd (d :: ds)).2.2 = .error x) ∧
    (w.writeSets e mode fd (d :: ds)).2.1 = d :: ds ∧
    (lower mode = "add".toList → (w.writeSets e mode fd (d :: ds)).1.file = some (w.file.getD [])) ∧
    (lower mode = "overwrite".toList → (w.writeSets e mode fd (d :: ds)).1.file = some []) := by
  have hb : writeBody e fd d = ⟨[], d, .error (.exc "missing type")⟩ := by unfold writeBody; rw [h]
  by_cases ho : lower mode = "overwrite".toList
  · have : w.writeSet e fd true d = (⟨some [], w.obj⟩, d, .error (.exc "missing type")) := by
      unfold World.writeSet; rw [hb]; rfl
    rw [writeSets_over w e mode ho, this]
    refine ⟨⟨_, rfl⟩, rfl, ?_, fun _ => rfl⟩
    intro ha; rw [ha] at ho; exact absurd ho (by decide)
  · by_cases ha : lower mode = "add".toList
    · rw [writeSets_add w e mode ha, addAll_cons_err (by rw [hb])]
      refine ⟨⟨_, rfl⟩, by rw [hb], fun _ => ?_, fun h => absurd h ho⟩
      rw [hb]; simp [added, encode]
    · obtain ⟨x, hx⟩ := C13_mode w e mode fd (d :: ds) ho ha
      rw [hx]
      exact ⟨⟨x, rfl⟩, rfl, fun h => absurd h ha, fun h => absurd h ho⟩

example : lower "append".toList ≠ "overwrite".toList ∧ lower "append".toList ≠ "add".toList ∧
    lower "OverWrite".toList = "overwrite".toList ∧ (World.new none).fileExists = false ∧
    Dict.get? [("data", .arrF [fA])] "type" = none := by decide

/-! ### C36 -/

/-- Every number in the value is finite. -/
inductive FiniteV : Val → Prop
  | none : FiniteV .none
  | bool b : FiniteV (.bool b)
  | int n : FiniteV (.int n)
  | str s : FiniteV (.str s)
  | arrI l : FiniteV (.arrI l)
  | dict d : FiniteV (.dict d)
  | float {x} : x.finite = true → FiniteV (.float x)
  | cplx {x y} : x.finite = true → y.finite = true → FiniteV (.cplx x y)
  | arrF {l} : (∀ x ∈ l, x.finite = true) → FiniteV (.arrF l)
  | arrC {l} : (∀ z ∈ l, z.1.finite = true ∧ z.2.finite = true) → FiniteV (.arrC l)
  | mat {l} : (∀ r ∈ l, ∀ x ∈ r, x.finite = true) → FiniteV (.mat l)

theorem cleanF_finite {x y : F64} (h : CleanF x y) : y.finite = true := by
  rcases h with ⟨h, rfl⟩ | ⟨_, rfl⟩ | ⟨_, _, h⟩
  · exact h
  · decide
  · unfold F64.finite; rw [h]; decide

theorem oneByOne_all {α β} {P : α → β → Prop} {Q : β → Prop} {l : List α} {m : List β} (h : OneByOne P l m)
    (hq : ∀ a b, P a b → Q b) : ∀ b ∈ m, Q b := by
  intro b hb
  obtain ⟨i, hi⟩ := List.mem_iff_getElem?.1 hb
  have hlt : i < l.length := by rw [h.1]; exact (List.getElem?_eq_some_iff.1 hi).1
  exact hq _ _ (h.2 i _ b (List.getElem?_eq_getElem hlt) hi)

theorem cleanV_finite {v v' : Val} (h : CleanV v v') : FiniteV v' := by
  cases h with
  | none => exact .none
  | bool b => exact .bool b
  | int n => exact .int n
  | str s => exact .str s
  | arrI l => exact .arrI l
  | dict d => exact .dict d
  | float h => exact .float (cleanF_finite h)
  | cplx h h' => exact .cplx (cleanF_finite h) (cleanF_finite h')
  | arrF h => exact .arrF (oneByOne_all h fun _ _ => cleanF_finite)
  | arrC h => exact .arrC (oneByOne_all h fun _ _ h => ⟨cleanF_finite h.1, cleanF_finite h.2⟩)
  | mat h => exact .mat (oneByOne_all h fun _ _ h => oneByOne_all h fun _ _ => cleanF_finite)
  | listI _ => exact .arrI _
  | listF h => exact .arrF (oneByOne_all h fun _ _ => cleanF_finite)
  | listC _ h => exact .arrC (oneByOne_all h fun _ _ h => ⟨cleanF_finite h.1, cleanF_finite h.2⟩)

theorem nanToNum_finite {x : F64} (h : x.finite = true) : x.nanToNum = x := cleanF_eq (.inl ⟨h, rfl⟩)

theorem finiteV_nanToNum {v : Val} (h : FiniteV v) : nanToNumV v = .ok v := by
  cases h with
  | none | bool | int | str | arrI | dict => rfl
  | float h => simp only [nanToNumV, nanToNum_finite h]
  | cplx h h' => simp only [nanToNumV, nanToNum_finite h, nanToNum_finite h']
  | arrF h =>
    simp only [nanToNumV]
    rw [List.map_congr_left (f := F64.nanToNum) (g := id) (fun x hx => nanToNum_finite (h x hx)), List.map_id]
  | arrC h =>
    simp only [nanToNumV]
    rw [List.map_congr_left (g := id)
      (fun z hz => by simp only [nanToNum_finite (h z hz).1, nanToNum_finite (h z hz).2, id]), List.map_id]
  | mat h =>
    simp only [nanToNumV]
    rw [List.map_congr_left (g := id) (fun r hr => by
      rw [List.map_congr_left (f := F64.nanToNum) (g := id) (fun x hx => nanToNum_finite (h r hr x hx)), List.map_id]; rfl), List.map_id]

/-- Every number, array or matrix can be cleaned. -/
theorem C36_total (l : List F64) (c : List (F64 × F64)) (m : List (List F64)) :
    (∃ v, CleanV (.arrF l) v) ∧ (∃ v, CleanV (.list (l.map .float)) v) ∧ (∃ v, CleanV (.arrC c) v) ∧ ∃ v, CleanV (.mat m) v :=
  ⟨⟨_, .arrF (oneByOne_self cleanF_nanToNum l)⟩, ⟨_, .listF (oneByOne_self cleanF_nanToNum l)⟩,
   ⟨_, .arrC (oneByOne_self (f := fun z => (z.1.nanToNum, z.2.nanToNum))
     (fun z => ⟨cleanF_nanToNum z.1, cleanF_nanToNum z.2⟩) c)⟩,
   ⟨_, .mat (oneByOne_self (f := fun r => r.map F64.nanToNum) (fun r => oneByOne_self cleanF_nanToNum r) m)⟩⟩

theorem cleanData_clean {d d' : Dict} (h : CleanD d d') : cleanData d' = .ok d' := by
  rcases h with ⟨h, rfl⟩ | ⟨v, v', h, hv, rfl⟩
  · unfold cleanData; rw [h]
  · unfold cleanData
    rw [Dict.get?_set_self]
    simp only [finiteV_nanToNum (cleanV_finite hv)]
    show Except.ok ((d.set "data" v').set "data" v') = _
    rw [Dict.set_self (Dict.get?_set_self _ _ _)]

theorem writeBody_clean {d d' : Dict} (h : CleanD d d') (ht : d.get? "type" ≠ none) (e : Env) (fd : Bool) :
    writeBody e fd d = writeBody e fd d' := by
  unfold writeBody
  rw [cleanD_get h (by decide), cleanD_eq h, cleanData_clean h]
  cases hc : d.get? "type" with
  | none => exact absurd hc ht
  | some t => rfl

/-- Writing a dictionary with a type has in all respects (file, object, dictionaries afterwards, outcome) the effect of
writing the same dictionary with its data cleaned: NaN replaced by 0.0, infinities by the largest double of their sign,
finite numbers unchanged (`CleanF`); and these data are finite. -/
theorem C36_clean (w : World) (e : Env) (mode : Text) (fd : Bool) (d d' : Dict) (ds : List Dict) (h : CleanD d d')
    (ht : d.get? "type" ≠ none) (hm : lower mode = "add".toList ∨ lower mode = "overwrite".toList) :
    w.writeSets e mode fd (d :: ds) = w.writeSets e mode fd (d' :: ds) ∧
    ∀ v, d'.get? "data" = some v → FiniteV v := by
  constructor
  · have hs : ∀ over, w.writeSet e fd over d = w.writeSet e fd over d' := by
      intro over
      unfold World.writeSet
      rw [writeBody_clean h ht]
    rcases hm with hm | hm
    · rw [writeSets_add w e mode hm, writeSets_add w e mode hm]
      unfold World.addAll
      rw [hs]
    · rw [writeSets_over w e mode hm, writeSets_over w e mode hm, hs]
  · intro v hv
    rcases h with ⟨h, rfl⟩ | ⟨u, u', _, hu, rfl⟩
    · rw [h] at hv; cases hv
    · rw [Dict.get?_set_self] at hv
      cases hv
      exact cleanV_finite hu

/-- NaN, minus infinity, a finite number. -/
example : CleanV (.arrF [⟨false, F64.infMag + 1, by decide⟩, ⟨true, F64.infMag, by decide⟩, fA])
    (.arrF [F64.zero, ⟨true, F64.infMag - 1, by decide⟩, fA]) := by
  refine .arrF ⟨rfl, fun i x y hx hy => ?_⟩
  match i with
  | 0 => cases hx; cases hy; exact .inr (.inl ⟨by decide, rfl⟩)
  | 1 => cases hx; cases hy; exact .inr (.inr ⟨by decide, rfl, rfl⟩)
  | 2 => cases hx; cases hy; exact .inl ⟨by decide, rfl⟩
  | n + 3 => simp at hx

/-! ### C40 -/

theorem get?_update2 (d : Dict) (a b : Val) (k : Key) (h1 : Key.s "x" ≠ k) (h2 : Key.s "data" ≠ k) :
    (d.update [("x", a), ("data", b)]).get? k = d.get? k := by
  show ((d.set "x" a).set "data" b).get? k = _
  rw [Dict.get?_set_ne _ _ _ _ h2, Dict.get?_set_ne _ _ _ _ h1]

theorem assign58_get (d : Dict) (odt sp : Int) (mn inc : F64) (v : List F64) (k : Key) (h1 : Key.s "x" ≠ k)
    (h2 : Key.s "data" ≠ k) : (assign58 d odt sp mn inc v).get? k = d.get? k := by
  unfold assign58
  dsimp only
  split
  · split <;> exact get?_update2 _ _ _ _ h1 h2
  · split
    · split <;> exact get?_update2 _ _ _ _ h1 h2
    · rfl

/-- Whatever the block: when the full reading succeeds, so does the reading of the header; it gives the same values except
for `x` and `data`, which are `None`. -/
theorem extract58_header (b : Bytes) (d : Dict) (h : extract58 b false = .ok d) :
    ∃ d', extract58 b true = .ok d' ∧ d'.get? "x" = some .none ∧ d'.get? "data" = some .none ∧
      ∀ k : Key, k ≠ "x" → k ≠ "data" → d'.get? k = d.get? k := by
  unfold extract58 at h ⊢
  cases hh : readHead58 (splitLinesKeep (decode ((splitLinesKeepB b).take 13).flatten)) with
  | error x => rw [hh] at h; cases x <;> cases h
  | ok p =>
    obtain ⟨binary, d0⟩ := p
    rw [hh] at h
    refine ⟨(d0.set "x" .none).set "data" .none, rfl, ?_, Dict.get?_set_self _ _ _, ?_⟩
    · rw [Dict.get?_set_ne _ _ _ _ (by decide), Dict.get?_set_self]
    · intro k h1 h2
      rw [Dict.get?_set_ne _ _ _ _ (Ne.symm h2), Dict.get?_set_ne _ _ _ _ (Ne.symm h1)]
      simp only [ok_bind, Bool.false_eq_true, if_false] at h
      cases hb : bodyArgs d0 with
      | error x => rw [hb] at h; cases x <;> cases h
      | ok q =>
        obtain ⟨odt, sp, mn, inc⟩ := q
        rw [hb] at h
        simp only [ok_bind] at h
        have key : ∃ v, d = assign58 d0 odt sp mn inc v := by
          cases binary with
          | true =>
            simp only [if_true] at h
            cases hl : littleOf d0 with
            | error x => rw [hl] at h; cases x <;> cases h
            | ok little => rw [hl] at h; simp only [readGuard, Except.ok.injEq] at h; exact ⟨_, h.symm⟩
          | false =>
            simp only [Bool.false_eq_true, if_false] at h
            cases hl : asciiValues odt sp ((splitLinesKeep (decode b)).drop 13) with
            | error x => rw [hl] at h; cases x <;> cases h
            | ok v => rw [hl] at h; simp only [readGuard, ok_bind, Except.ok.injEq] at h; exact ⟨_, h.symm⟩
        obtain ⟨v, rfl⟩ := key
        exact (assign58_get d0 odt sp mn inc v k (Ne.symm h1) (Ne.symm h2)).symm

/-- `read_sets(k, header_only=True)` for every file: for a data-set 58 the values of the full reading, with `x` and `data`
set to `None`; for any other type the full reading. -/
theorem C40_header (f : Bytes) (k : Nat) (hk : k < setCount f) :
    (TypeIs (setBytes f k) 58 → ∀ d, ((World.new (some f)).readSets (.one k) false).2 = .ok (.single d) →
      ∃ d', ((World.new (some f)).readSets (.one k) true).2 = .ok (.single d') ∧
        d'.get? "x" = some .none ∧ d'.get? "data" = some .none ∧
        ∀ q : Key, q ≠ "x" → q ≠ "data" → d'.get? q = d.get? q) ∧
    (¬ TypeIs (setBytes f k) 58 →
      ((World.new (some f)).readSets (.one k) true).2 = ((World.new (some f)).readSets (.one k) false).2) := by
  have hst : (World.new (some f)).getStatus = true := by rw [new_some]; exact objOf_refreshed f
  have hob : (World.new (some f)).obj = objOf f := rfl
  constructor
  · intro ht d hd
    rw [one_iff hst f rfl, hob, readSet_in f k hk, (typeIs_iff _ _).1 ht] at hd
    obtain ⟨d', h1, h2⟩ := extract58_header (setBytes f k) d hd
    refine ⟨d', ?_, h2⟩
    rw [one_iff hst f rfl, hob, readSet_in f k hk, (typeIs_iff _ _).1 ht]
    exact h1
  · intro ht
    rw [typeIs_iff] at ht
    have : readBlock (blockType (setBytes f k)) true (setBytes f k) =
        readBlock (blockType (setBytes f k)) false (setBytes f k) := by
      unfold readBlock
      simp only [ht, if_false]
    rw [readSets_new, readSets_new]
    simp only [readRange, mapRes, readSet_in f k hk, this]

/-- A file with a binary data-set 58 that can be read. -/
example : ∃ f d, 0 < setCount f ∧ TypeIs (setBytes f 0) 58 ∧
    ((World.new (some f)).readSets (.one 0) false).2 = .ok (.single d) := by
  obtain ⟨b, hb⟩ := written exEnv true (ex58 false exReal (.binary true)).dict (.s58 (ex58 false exReal (.binary true)))
    (DS58.given _ _ _ (ex58_ok _ _ _ (.inl rfl)) (by intro _; simp [ex58]) (by intro le h; cases h; rfl))
  have hs := hb.framed.sets
  have hc : 0 < setCount (closed b) := by rw [← sets_length, hs]; simp
  have h0 : setBytes (closed b) 0 = b := by
    have := sets_getElem (closed b) 0 hc
    rw [hs] at this
    exact (Option.some.inj this).symm
  have ht : blockType b = 58 := hb.framed.type
  refine ⟨closed b, (DataSet.s58 (ex58 false exReal (.binary true))).readBack, hc, ?_, ?_⟩
  · rw [h0, typeIs_iff]; exact ht
  · have : readSet (closed b) (objOf (closed b)) 0 false =
        .ok (DataSet.s58 (ex58 false exReal (.binary true))).readBack := by
      have h1 := readSet_in (closed b) 0 hc false
      rw [h0, ht] at h1
      exact h1.trans hb.rd
    rw [readSets_new]
    simp only [readRange, mapRes, this]
    rfl

end Verif
