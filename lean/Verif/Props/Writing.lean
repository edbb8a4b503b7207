import Verif.Props.Discovery
import Verif.Props.Cases
import Verif.Lemmas.Keep
/-
Properties C03, C04, C05 and C09: writing lists of data-sets.
-/
namespace Verif

/-- The result of `read_sets` for a list of dictionaries: the dictionary itself when there is one. -/
def ReadsAs (out : ReadOut) (l : List Dict) : Prop :=
  (∃ d, l = [d] ∧ out = .single d) ∨ (l.length ≠ 1 ∧ out = .list l)

theorem readsAs_unwrap (l : List Dict) : ReadsAs (unwrap l) l := by
  match l with
  | [] => right; exact ⟨by simp, rfl⟩
  | [d] => left; exact ⟨d, rfl, rfl⟩
  | a :: b :: r => right; exact ⟨by simp, rfl⟩

/-! A list of data-sets for the examples. -/

/-- Any environment. -/
def exEnv : Env := ⟨true, fun _ => ("16-Nov-26".toList, "10:00:00".toList)⟩
/-- Dictionaries of eight types. -/
def exDicts : List Dict := [ex151.dict, ex164.dict, ex15.dict, (ex58 true exCplx (.ascii true)).dict, ex82.dict, ex2467.dict,
  (ex58 false exReal (.binary true)).dict, ex2412.dict]
/-- What they mean. -/
def exSets : List DataSet := [.s151 ex151, .s164 ex164, .s15 ex15, .s58 (ex58 true exCplx (.ascii true)), .s82 ex82,
  .s2467 ex2467, .s58 (ex58 false exReal (.binary true)), .s2412 ex2412]

theorem ex_givenAll : GivenAll exEnv true exDicts exSets :=
  .cons (DS151.given _ _ _ ex151_ok) <| .cons (DS164.given _ _ _ ex164_ok) <| .cons (DS15.given _ _ _ ex15_ok) <|
  .cons (DS58.given _ _ _ (ex58_ok _ _ _ (.inr rfl)) (by intro _; simp [ex58]) (by intro le h; cases h)) <|
  .cons (DS82.given _ _ _ ex82_ok) <| .cons (DS2467.given _ _ _ ex2467_ok) <|
  .cons (DS58.given _ _ _ (ex58_ok _ _ _ (.inl rfl)) (by intro _; simp [ex58]) (by intro le h; cases h; rfl)) <|
  .cons (DS2412.given _ _ _ ex2412_ok) .nil

/-! ### C03 -/

theorem GivenAll.ne {e : Env} {fd : Bool} {ds : List Dict} {ss : List DataSet} (h : GivenAll e fd ds ss) (hs : ss ≠ []) :
    ds ≠ [] := by
  cases h with
  | nil => exact absurd rfl hs
  | cons _ _ => simp

theorem writeSets_add' (w : World) (e : Env) (mode : Text) (hm : lower mode = "add".toList) (fd : Bool) (ds : List Dict)
    (h : ds ≠ []) : w.writeSets e mode fd ds = w.addAll e fd ds := by
  obtain ⟨d, ds, rfl⟩ := List.exists_cons_of_ne_nil h
  exact writeSets_add w e mode hm fd d ds

/-- Appending `N ≥ 1` well-formed data-sets to a file of complete data-sets (or to no file) succeeds and adds exactly `N`
data-sets with their types in order, whatever the object knew before; the file is again one of complete data-sets. -/
theorem C03_counting (w : World) (e : Env) (mode : Text) (hm : lower mode = "add".toList) (fd : Bool) (ds : List Dict)
    (ss : List DataSet) (h : GivenAll e fd ds ss) (hs : ss ≠ []) (ht : Terminated (w.file.getD []))
    (hb : Balanced (w.file.getD [])) :
    let w' := (w.writeSets e mode fd ds).1
    (w.writeSets e mode fd ds).2.2 = .ok () ∧
    w'.getNSets.2 = setCount (w.file.getD []) + ss.length ∧
    w'.getSetTypes.2 = (World.new (some (w.file.getD []))).getSetTypes.2 ++ ss.map DataSet.num ∧
    Terminated (w'.file.getD []) ∧ Balanced (w'.file.getD []) ∧ w' = World.new w'.file := by
  intro w'
  have hne := h.ne hs
  obtain ⟨bs, hbs, hall⟩ := addAll_given h
  obtain ⟨h1, h2, h3⟩ := hall w
  have hw' : w' = World.new (some (w.file.getD [] ++ bs.flatMap closed)) := by
    show (w.writeSets e mode fd ds).1 = _
    rw [writeSets_add' w e mode hm fd ds hne]
    exact h3 hne ht hb
  refine ⟨by rw [writeSets_add' w e mode hm fd ds hne]; exact h1, ?_, ?_, ?_, ?_, ?_⟩
  · rw [hw', C01_count]
    show setCount _ = _
    rw [← sets_length, sets_append _ _ ht hb, List.length_append, sets_length, hbs.sets, hbs.length]
  · rw [hw', getSetTypes_new, getSetTypes_new, sets_append _ _ ht hb, List.map_append, hbs.sets, hbs.types]
  · rw [hw']; exact terminated_append _ _ ht hbs.terminated
  · rw [hw']; exact balanced_append _ _ ht hb hbs.balanced
  · rw [hw']; rfl

example : GivenAll exEnv true exDicts exSets ∧ exSets ≠ [] ∧ Terminated ([] : Bytes) ∧ Balanced ([] : Bytes) :=
  ⟨ex_givenAll, by simp [exSets], by decide, by decide⟩

/-! ### C05 -/

/-- Reading after writing: `read_sets()` returns the old data-sets followed by the new ones, in order.  (Whatever the old
data-sets are: if one of them cannot be read, neither can the whole list.) -/
theorem C05_append (f : Bytes) (e : Env) (mode : Text) (hm : lower mode = "add".toList) (fd : Bool) (ds : List Dict)
    (ss : List DataSet) (h : GivenAll e fd ds ss) (hs : ss ≠ []) (ht : Terminated f) (hb : Balanced f) (w : World)
    (hw : w.file.getD [] = f) (old : List Dict) :
    (∃ out, ((World.new (some f)).readSets .all false).2 = .ok out ∧ ReadsAs out old) →
    ∃ out, ((w.writeSets e mode fd ds).1.readSets .all false).2 = .ok out ∧ ReadsAs out (old ++ ss.map DataSet.readBack) := by
  rintro ⟨out, ho, hout⟩
  have hne := h.ne hs
  obtain ⟨bs, hbs, hall⟩ := addAll_given h
  obtain ⟨h1, h2, h3⟩ := hall w
  rw [hw] at h3
  rw [writeSets_add' w e mode hm fd ds hne, h3 hne ht hb]
  rw [readSets_new, readAll_eq] at ho
  rw [readSets_new, readAll_eq, sets_append f _ ht hb, hbs.sets]
  cases hr : mapRes (fun b => readBlock (blockType b) false b) (sets f) with
  | error x => rw [hr] at ho; cases ho
  | ok l =>
    rw [hr] at ho
    cases ho
    have hl : l = old := by
      rcases hout with ⟨d, rfl, h⟩ | ⟨h', h⟩
      · match l with
        | [] => cases h
        | [a] => cases h; rfl
        | a :: b :: r => cases h
      · match l with
        | [] => cases h; rfl
        | [a] => cases h
        | a :: b :: r => cases h; rfl
    subst hl
    have happ : ∀ (g : Bytes → Res Dict) (a b : List Bytes) (x y : List Dict), mapRes g a = .ok x → mapRes g b = .ok y →
        mapRes g (a ++ b) = .ok (x ++ y) := by
      intro g a b
      induction a with
      | nil => intro x y hx hy; cases hx; exact hy
      | cons c a ih =>
        intro x y hx hy
        rw [List.cons_append]
        unfold mapRes at hx ⊢
        cases hc : g c with
        | error e => rw [hc] at hx; cases hx
        | ok v =>
          rw [hc] at hx
          cases ha : mapRes g a with
          | error e => rw [ha] at hx; cases hx
          | ok vs =>
            rw [ha] at hx
            cases hx
            simp only [ih vs y ha hy]
            rfl
    rw [happ _ _ _ _ _ hr hbs.read]
    exact ⟨_, rfl, readsAs_unwrap _⟩

/-- A list written to a new file, or over any old file, comes back whole and in order; with `header_only` the same without
the data of 58.  (For mode 'overwrite' the first data-set must not be a binary 58, see C04.) -/
theorem addAll_new {e : Env} {fd : Bool} {ds : List Dict} {ss : List DataSet} (h : GivenAll e fd ds ss) (hs : ss ≠ []) :
    ∃ bs, Blocks ss bs ∧ (World.new none).addAll e fd ds =
      (World.new (some (bs.flatMap closed)), ((World.new none).addAll e fd ds).2.1, .ok ()) := by
  obtain ⟨bs, hbs, hall⟩ := addAll_given h
  obtain ⟨h1, h2, h3⟩ := hall (World.new none)
  have h4 := h3 (h.ne hs) (.inl rfl) (by decide)
  refine ⟨bs, hbs, Prod.ext h4 (Prod.ext rfl h1)⟩

/-- Reading any file made of the blocks of `ss`. -/
theorem blocks_read {ss : List DataSet} {bs : List Bytes} (h : Blocks ss bs) (header : Bool) :
    ∃ out, ((World.new (some (bs.flatMap closed))).readSets .all header).2 = .ok out ∧
      ReadsAs out (ss.map (if header then DataSet.headerBack else DataSet.readBack)) := by
  rw [readSets_new, readAll_eq, h.sets]
  cases header
  · rw [h.read]; exact ⟨_, rfl, readsAs_unwrap _⟩
  · rw [h.readHeader]; exact ⟨_, rfl, readsAs_unwrap _⟩

theorem C05_roundtrip (e : Env) (mode : Text) (hm : lower mode = "add".toList) (fd : Bool) (ds : List Dict)
    (ss : List DataSet) (h : GivenAll e fd ds ss) (hs : ss ≠ []) (header : Bool) :
    let r := (World.new none).writeSets e mode fd ds
    r.2.2 = .ok () ∧ ∃ out, (r.1.readSets .all header).2 = .ok out ∧
      ReadsAs out (ss.map (if header then DataSet.headerBack else DataSet.readBack)) := by
  intro r
  obtain ⟨bs, hbs, hr⟩ := addAll_new h hs
  have : r = (World.new none).addAll e fd ds := writeSets_add' _ e mode hm fd ds (h.ne hs)
  rw [this, hr]
  exact ⟨rfl, blocks_read hbs header⟩

/-! ### C04 -/

/-- The dictionary does not ask for a binary data-set 58: its type is not 58, or its flag `binary` is absent or false. -/
def NotBinary (d : Dict) : Prop :=
  (∃ t, d.get? "type" = some t ∧ t.numEq 58 = false) ∨ d.get? "binary" = none ∨ d.get? "binary" = some (.int 0) ∨
    d.get? "binary" = some (.bool false)

theorem none_step {c : Prop} [Decidable c] {m : W Unit} {rest : W (Option Bytes)} {d : Dict} {p : Bytes}
    (h : ((if c then W.none m else rest) d).res = .ok (some p)) : (rest d).res = .ok (some p) := by
  split at h
  · unfold W.none at h
    simp only at h
    cases hm : (m d).res <;> rw [hm] at h <;> cases h
  · exact h

theorem dispatch_binary {e : Env} {fd : Bool} {t : Val} {d : Dict} {p : Bytes}
    (h : (writeDispatch e fd t d).res = .ok (some p)) : t.numEq 58 = true ∧ (write58 e.little fd d).res = .ok (some p) := by
  unfold writeDispatch at h
  split at h
  · cases h
  · cases h
  · cases h
  · cases h
  replace h := none_step (none_step (none_step h))
  by_cases h58 : t.numEq 58 = true
  · rw [if_pos h58] at h; exact ⟨h58, h⟩
  · rw [if_neg h58] at h
    exfalso
    replace h := none_step (none_step (none_step (none_step (none_step (none_step (none_step (none_step (none_step
      (none_step (none_step h))))))))))
    cases h

theorem writeBody_text (e : Env) (fd : Bool) (d : Dict) (h : NotBinary d) (p : Bytes) :
    (writeBody e fd d).res ≠ .ok (some p) := by
  intro hp
  unfold writeBody at hp
  cases ht : d.get? "type" with
  | none => rw [ht] at hp; cases hp
  | some t =>
    rw [ht] at hp
    simp only at hp
    cases hc : cleanData d with
    | error x => rw [hc] at hp; cases hp
    | ok d' =>
      rw [hc] at hp
      simp only at hp
      obtain ⟨h1, h2⟩ := dispatch_binary hp
      have hb : d'.get? "binary" = d.get? "binary" := by
        unfold cleanData at hc
        split at hc
        · cases hc; rfl
        · rename_i v _
          cases hv : nanToNumV v with
          | error x => rw [hv] at hc; cases hc
          | ok v' => rw [hv] at hc; cases hc; rw [Dict.get?_set_ne _ _ _ _ (by decide)]
      have h3 := write58_binary e.little fd (d'.getOr "binary" (.int 0)) d' rfl _ h2 rfl
      rcases h with ⟨t', ht', hn⟩ | hn
      · rw [ht] at ht'; cases ht'; rw [hn] at h1; cases h1
      · unfold Dict.getOr at h3
        rw [hb] at h3
        rcases hn with hn | hn | hn <;> rw [hn] at h3 <;> revert h3 <;> decide

theorem writeSets_over (w : World) (e : Env) (mode : Text) (hm : lower mode = "overwrite".toList) (fd : Bool) (d : Dict)
    (ds : List Dict) : w.writeSets e mode fd (d :: ds) =
      match w.writeSet e fd true d with
      | (w', d', .ok ()) => ((w'.addAll e.next fd ds).1, d' :: (w'.addAll e.next fd ds).2.1, (w'.addAll e.next fd ds).2.2)
      | (w', d', .error x) => (w', d' :: ds, .error x) := by
  unfold World.writeSets
  simp only
  rw [hm, if_pos rfl]
  rcases w.writeSet e fd true d with ⟨w', d', _ | _⟩ <;> rfl

theorem addAll_file (w w' : World) (h : w.file = w'.file) (e : Env) (fd : Bool) (ds : List Dict) :
    (w.addAll e fd ds).1.file = (w'.addAll e fd ds).1.file ∧ (w.addAll e fd ds).2 = (w'.addAll e fd ds).2 := by
  cases ds with
  | nil => exact ⟨h, rfl⟩
  | cons d ds => exact addAll_congr w w' (by rw [h]) e fd _ (by simp)

theorem addAll_some (w : World) (e : Env) (fd : Bool) (ds : List Dict) (f : Bytes) (h : w.file = some f) :
    ∃ f', (w.addAll e fd ds).1.file = some f' := by
  induction ds generalizing w e f with
  | nil => exact ⟨f, h⟩
  | cons d ds ih =>
    cases hr : (writeBody e fd d).res with
    | error x => rw [addAll_cons_err hr]; exact ⟨_, rfl⟩
    | ok a =>
      rw [addAll_cons_ok hr]
      exact ih _ _ _ (writeSet_file w e fd false d).1

/-- Overwriting: the new file, the dictionaries and the outcome do not depend on the old file or on the object. -/
theorem C04_forgets (w w' : World) (e : Env) (mode : Text) (hm : lower mode = "overwrite".toList) (fd : Bool)
    (d : Dict) (ds : List Dict) :
    (w.writeSets e mode fd (d :: ds)).1.file = (w'.writeSets e mode fd (d :: ds)).1.file ∧
    (w.writeSets e mode fd (d :: ds)).2 = (w'.writeSets e mode fd (d :: ds)).2 := by
  rw [writeSets_over w e mode hm, writeSets_over w' e mode hm]
  obtain ⟨a1, a2, a3⟩ := writeSet_file w e fd true d
  obtain ⟨b1, b2, b3⟩ := writeSet_file w' e fd true d
  have hf : (w.writeSet e fd true d).1.file = (w'.writeSet e fd true d).1.file := by
    rw [a1, b1]; unfold fileAfter; rfl
  rcases hw : w.writeSet e fd true d with ⟨v, x, r⟩
  rcases hw' : w'.writeSet e fd true d with ⟨v', x', r'⟩
  rw [hw] at a2 a3 hf
  rw [hw'] at b2 b3 hf
  simp only at a2 a3 b2 b3 hf
  have hr : r = r' := by rw [a3, b3]
  have hx : x = x' := by rw [a2, b2]
  subst hr hx
  cases r with
  | error y => exact ⟨hf, rfl⟩
  | ok u =>
    have := addAll_file v v' hf e.next fd ds
    simp only
    rw [this.2]
    exact ⟨this.1, rfl⟩

/-- It is the file that appending to an absent file gives, unless the first data-set is a binary 58 (`C04_binary` shows
that the claim fails for every one of these). -/
theorem C04_overwrite_partial (w : World) (e : Env) (over add : Text) (ho : lower over = "overwrite".toList)
    (ha : lower add = "add".toList) (fd : Bool) (d : Dict) (ds : List Dict) (hd : NotBinary d) :
    (w.writeSets e over fd (d :: ds)).1.file = ((World.new none).writeSets e add fd (d :: ds)).1.file ∧
    (w.writeSets e over fd (d :: ds)).2 = ((World.new none).writeSets e add fd (d :: ds)).2 := by
  rw [writeSets_over w e over ho, writeSets_add _ e add ha]
  obtain ⟨a1, a2, a3⟩ := writeSet_file w e fd true d
  obtain ⟨b1, b2, b3⟩ := writeSet_file (World.new none) e fd false d
  have hf : (w.writeSet e fd true d).1.file = ((World.new none).writeSet e fd false d).1.file := by
    rw [a1, b1]
    unfold fileAfter
    have := writeBody_text e fd d hd
    rcases hr : (writeBody e fd d).res with x | _ | p
    · rfl
    · rfl
    · exact absurd hr (this p)
  cases hr : (writeBody e fd d).res with
  | error x =>
    rw [addAll_cons_err hr]
    rw [hr] at a3
    have : w.writeSet e fd true d = ((w.writeSet e fd true d).1, (writeBody e fd d).dict, .error x) := by
      rw [← a2]; exact Prod.ext rfl (Prod.ext rfl a3)
    rw [this]
    simp only
    refine ⟨?_, trivial⟩
    rw [hf, b1, fileAfter_add]
  | ok u =>
    rw [addAll_cons_ok hr]
    rw [hr] at a3
    have : w.writeSet e fd true d = ((w.writeSet e fd true d).1, (writeBody e fd d).dict, .ok ()) := by
      rw [← a2]; exact Prod.ext rfl (Prod.ext rfl a3)
    rw [this]
    simp only
    have := addAll_file _ _ hf e.next fd ds
    rw [this.2]
    exact ⟨this.1, rfl⟩

/-- Overwriting a file with a binary data-set 58 loses it: nothing but the closing delimiter is left, and a new object
finds no data-set. -/
theorem C04_binary (w : World) (e : Env) (mode : Text) (hm : lower mode = "overwrite".toList) (fd : Bool) (d : Dict)
    (s : DataSet) (h : Given e fd d s) (hb : s.Binary) :
    (w.writeSets e mode fd [d]).2.2 = .ok () ∧
    (w.writeSets e mode fd [d]).1.file = some (encode "    -1\n".toList) ∧
    (World.new (w.writeSets e mode fd [d]).1.file).getNSets.2 = 0 := by
  obtain ⟨b, wr, _, _, _⟩ := written e fd d s h
  obtain ⟨out, d', ret, hw, _, hret⟩ := wr
  obtain ⟨a1, a2, a3⟩ := writeSet_file w e fd true d
  rw [hw] at a1 a2 a3
  have : w.writeSet e fd true d = ((w.writeSet e fd true d).1, d', .ok ()) :=
    Prod.ext rfl (Prod.ext a2 a3)
  have hfile : (w.writeSet e fd true d).1.file = some (encode "    -1\n".toList) := by
    rw [a1]
    have := hret.2 hb
    cases ret with
    | none => cases this
    | some p => rfl
  rw [writeSets_over w e mode hm, this]
  simp only [World.addAll]
  refine ⟨trivial, hfile, ?_⟩
  rw [hfile]; decide

/-- Such data-sets exist. -/
example : Given exEnv true (ex58 false exReal (.binary true)).dict (.s58 (ex58 false exReal (.binary true))) ∧
    (DataSet.s58 (ex58 false exReal (.binary true))).Binary :=
  ⟨DS58.given _ _ _ (ex58_ok _ _ _ (.inl rfl)) (by intro _; simp [ex58]) (by intro le h; cases h; rfl), trivial⟩
/-- Data-sets that do not ask for it. -/
example : NotBinary ex151.dict ∧ NotBinary (ex58 true exCplx (.ascii true)).dict :=
  ⟨.inl ⟨_, rfl, by decide⟩, .inr (.inr (.inl rfl))⟩

/-! ### Histories of writes (C03, C04, C05) -/

/-- One call of `write_sets`: the environment, the mode ('overwrite' or 'add'), `force_double`, the dictionaries, and what
they mean. -/
structure Batch where
  e : Env
  over : Bool
  fd : Bool
  ds : List Dict
  ss : List DataSet

/-- At least one data-set, all well-formed; when overwriting, the first is not a binary 58. -/
structure Batch.Good (b : Batch) : Prop where
  given : GivenAll b.e b.fd b.ds b.ss
  some : b.ss ≠ []
  first : b.over = true → ∀ s, b.ss.head? = .some s → ¬ s.Binary

/-- The object after a number of calls. -/
def World.batches (w : World) : List Batch → World
  | [] => w
  | b :: bs => ((w.writeSets b.e (if b.over then "overwrite".toList else "add".toList) b.fd b.ds).1).batches bs

/-- The data-sets the file should hold: the last one overwritten, and those added since. -/
def expected (old : List DataSet) : List Batch → List DataSet
  | [] => old
  | b :: bs => expected (if b.over then b.ss else old ++ b.ss) bs

theorem Blocks.append {ss ss' : List DataSet} {bs bs' : List Bytes} (h : Blocks ss bs) (h' : Blocks ss' bs') :
    Blocks (ss ++ ss') (bs ++ bs') := by
  induction h with
  | nil => exact h'
  | cons hb _ ih => exact .cons hb ih

/-- The object knows a file of these data-sets. -/
structure Holds (w : World) (ss : List DataSet) : Prop where
  file : ∃ bs, Blocks ss bs ∧ w.file.getD [] = bs.flatMap closed
  synced : w = World.new w.file

theorem overwrite_given {e : Env} {fd : Bool} {ds : List Dict} {ss : List DataSet} (h : GivenAll e fd ds ss) (hs : ss ≠ [])
    (hf : ∀ s, ss.head? = some s → ¬ s.Binary) (w : World) (mode : Text) (hm : lower mode = "overwrite".toList) :
    (w.writeSets e mode fd ds).2.2 = .ok () ∧ Holds (w.writeSets e mode fd ds).1 ss := by
  cases h with
  | nil => exact absurd rfl hs
  | @cons e fd d s ds ss hd hds =>
    obtain ⟨b, hb⟩ := written e fd d s hd
    obtain ⟨out, d', ret, hw, ha, hret⟩ := hb.wr
    obtain ⟨a1, a2, a3⟩ := writeSet_file w e fd true d
    have hnb : ret = none := by
      cases ret with
      | none => rfl
      | some p => exact absurd (hret.1 rfl) (hf s rfl)
    subst hnb
    have hw1 : w.writeSet e fd true d = (World.new (some (closed b)), d', .ok ()) := by
      have hfile : fileAfter true w.file (writeBody e fd d) = closed b := by
        rw [hw]
        unfold fileAfter
        simp only [if_true, List.nil_append]
        exact ha
      unfold World.writeSet
      dsimp only
      rw [hfile, hw]
      simp only
      refine Prod.ext ?_ rfl
      unfold World.refresh
      simp only
      rw [new_some, refreshObj_eq]
      rw [← sets_length, hb.framed.sets]; simp
    obtain ⟨bs, hbs, hall⟩ := addAll_given hds
    obtain ⟨h1, h2, h3⟩ := hall (World.new (some (closed b)))
    rw [writeSets_over w e mode hm, hw1]
    simp only
    refine ⟨h1, ⟨b :: bs, .cons ⟨hb.framed, hb.rd, hb.rdh⟩ hbs, ?_⟩, ?_⟩
    · rw [h2, List.flatMap_cons]; rfl
    · by_cases hne : ds = []
      · subst hne; rfl
      · rw [h3 hne (terminated_closed b) hb.framed.balanced]; rfl

theorem add_given {e : Env} {fd : Bool} {ds : List Dict} {ss : List DataSet} (h : GivenAll e fd ds ss) (hs : ss ≠ [])
    (w : World) (old : List DataSet) (hw : Holds w old) (mode : Text) (hm : lower mode = "add".toList) :
    (w.writeSets e mode fd ds).2.2 = .ok () ∧ Holds (w.writeSets e mode fd ds).1 (old ++ ss) := by
  obtain ⟨bs, hbs, hall⟩ := addAll_given h
  obtain ⟨os, hos, hf⟩ := hw.file
  obtain ⟨h1, h2, h3⟩ := hall w
  have h4 := h3 (h.ne hs) (by rw [hf]; exact hos.terminated) (by rw [hf]; exact hos.balanced)
  rw [writeSets_add' w e mode hm fd ds (h.ne hs)]
  refine ⟨h1, ⟨os ++ bs, hos.append hbs, ?_⟩, ?_⟩
  · rw [h2, hf, List.flatMap_append]
  · rw [h4]; rfl

theorem holds_batches (w : World) (old : List DataSet) (hw : Holds w old) (bs : List Batch) (h : ∀ b ∈ bs, b.Good) :
    Holds (w.batches bs) (expected old bs) := by
  induction bs generalizing w old with
  | nil => exact hw
  | cons b bs ih =>
    have hb := h b (by simp)
    unfold World.batches expected
    apply ih _ _ _ fun b hb => h b (by simp [hb])
    cases ho : b.over with
    | true => exact (overwrite_given hb.given hb.some (hb.first ho) w _ (by decide)).2
    | false => exact (add_given hb.given hb.some w old hw _ (by decide)).2

/-- After any history of calls of `write_sets` on a new path (any number of calls, in both modes, any well-formed
data-sets) the object reports the data-sets written since the last overwriting, with their types, and `read_sets` returns
exactly their contents, in order. -/
theorem C05_history (bs : List Batch) (h : ∀ b ∈ bs, b.Good) (hne : bs ≠ []) :
    let w := (World.new none).batches bs
    w.getNSets.2 = (expected [] bs).length ∧ w.getSetTypes.2 = (expected [] bs).map DataSet.num ∧
    ∀ header, ∃ out, (w.readSets .all header).2 = .ok out ∧
      ReadsAs out ((expected [] bs).map (if header then DataSet.headerBack else DataSet.readBack)) := by
  intro w
  have hw : Holds w (expected [] bs) := holds_batches _ [] ⟨⟨[], .nil, rfl⟩, rfl⟩ bs h
  obtain ⟨os, hos, hf⟩ := hw.file
  have hsome : ∃ f, w.file = some f := by
    have : ∀ (bs : List Batch) (w : World), (∀ b ∈ bs, b.Good) → (bs ≠ [] ∨ ∃ f, w.file = some f) →
        ∃ f, (w.batches bs).file = some f := by
      intro bs
      induction bs with
      | nil => intro w _ h; rcases h with h | h; exact absurd rfl h; exact h
      | cons b bs ih =>
        intro w hg _
        unfold World.batches
        apply ih _ (fun b hb => hg b (by simp [hb]))
        right
        have hb := hg b (by simp)
        obtain ⟨d, ds, hd⟩ := List.exists_cons_of_ne_nil (hb.given.ne hb.some)
        rw [hd]
        cases b.over with
        | true =>
          rw [if_pos rfl, writeSets_over w _ _ (by decide)]
          obtain ⟨a1, a2, a3⟩ := writeSet_file w b.e b.fd true d
          rcases hw : w.writeSet b.e b.fd true d with ⟨v, x, r⟩
          rw [hw] at a1
          cases r with
          | error y => exact ⟨_, a1⟩
          | ok u =>
            simp only
            cases ds with
            | nil => exact ⟨_, a1⟩
            | cons d' ds =>
              have := addAll_congr v ⟨some (v.file.getD []), v.obj⟩ rfl b.e.next b.fd (d' :: ds) (by simp)
              rw [this.1]
              exact addAll_some _ _ _ _ _ rfl
        | false =>
          rw [if_neg (by simp), writeSets_add w _ _ (by decide)]
          have := addAll_congr w ⟨some (w.file.getD []), w.obj⟩ rfl b.e b.fd (d :: ds) (by simp)
          rw [this.1]
          exact addAll_some _ _ _ _ _ rfl
    exact this bs _ h (.inl hne)
  obtain ⟨f, hf'⟩ := hsome
  have hw2 : w = World.new (some (os.flatMap closed)) := by
    rw [hw.synced, hf']
    rw [hf'] at hf
    rw [← hf]; rfl
  rw [hw2]
  refine ⟨?_, ?_, fun header => blocks_read hos header⟩
  · rw [C01_count]
    show setCount _ = _
    rw [← sets_length, hos.sets, hos.length]
  · rw [getSetTypes_new, hos.sets, hos.types]

/-- Three calls: eight data-sets, an overwriting with them, and one more. -/
def exBatches : List Batch := [⟨exEnv, false, true, exDicts, exSets⟩, ⟨exEnv, true, true, exDicts, exSets⟩,
  ⟨exEnv, false, true, [ex151.dict], [.s151 ex151]⟩]

example : (∀ b ∈ exBatches, b.Good) ∧ exBatches ≠ [] ∧ (expected [] exBatches).length = 9 := by
  refine ⟨fun b hb => ?_, by simp [exBatches], by decide⟩
  simp only [exBatches, List.mem_cons, List.not_mem_nil, or_false] at hb
  rcases hb with rfl | rfl | rfl
  · exact ⟨ex_givenAll, by simp [exSets], by simp⟩
  · exact ⟨ex_givenAll, by simp [exSets], by intro _ s hs; cases hs; exact id⟩
  · exact ⟨.cons (DS151.given _ _ _ ex151_ok) .nil, by simp, by simp⟩

/-! ### C09 -/

/-- The exact outcome of a failing call in mode 'add': the data-sets before the first failing one are written as if they
alone had been given; the text that the failing writer produced before the exception is appended; the rest is not looked
at; and the object still describes the file as it was before the failing data-set. -/
theorem C09_contract (w : World) (e : Env) (mode : Text) (hm : lower mode = "add".toList) (fd : Bool) (ds : List Dict)
    (x : Err) (hne : ds ≠ []) (h : (w.writeSets e mode fd ds).2.2 = .error x) :
    ∃ good bad rest, ds = good ++ bad :: rest ∧ (w.addAll e fd good).2.2 = .ok () ∧
      (writeBody (e.after good.length) fd bad).res = .error x ∧
      (w.writeSets e mode fd ds).1.file =
        some ((w.addAll e fd good).1.file.getD [] ++ encode (writeBody (e.after good.length) fd bad).out) ∧
      (w.writeSets e mode fd ds).1.obj = (w.addAll e fd good).1.obj := by
  rw [writeSets_add' w e mode hm fd ds hne] at h ⊢
  clear hne hm
  induction ds generalizing w e with
  | nil => cases h
  | cons d ds ih =>
    cases hr : (writeBody e fd d).res with
    | error y =>
      rw [addAll_cons_err hr] at h ⊢
      simp only [Except.error.injEq] at h
      subst h
      refine ⟨[], d, ds, rfl, rfl, hr, ?_, rfl⟩
      simp only [added, hr]; rfl
    | ok a =>
      rw [addAll_cons_ok hr] at h ⊢
      obtain ⟨good, bad, rest, h1, h2, h3, h4, h5⟩ := ih _ _ h
      refine ⟨d :: good, bad, rest, by rw [h1]; rfl, ?_, h3, ?_, ?_⟩
      · rw [addAll_cons_ok hr]; exact h2
      · rw [addAll_cons_ok hr]; exact h4
      · rw [addAll_cons_ok hr]; exact h5

/-- The same for 'overwrite' when the first data-set fails: the old content is gone. -/
theorem C09_overwrite (w : World) (e : Env) (mode : Text) (hm : lower mode = "overwrite".toList) (fd : Bool) (d : Dict)
    (ds : List Dict) (x : Err) (h : (writeBody e fd d).res = .error x) :
    (w.writeSets e mode fd (d :: ds)).2.2 = .error x ∧
    (w.writeSets e mode fd (d :: ds)).1.file = some (encode (writeBody e fd d).out) ∧
    (w.writeSets e mode fd (d :: ds)).1.obj = w.obj := by
  rw [writeSets_over w e mode hm]
  have : w.writeSet e fd true d = (⟨some (encode (writeBody e fd d).out), w.obj⟩, (writeBody e fd d).dict, .error x) := by
    unfold World.writeSet fileAfter
    simp only [h]
    rfl
  rw [this]
  exact ⟨rfl, rfl, rfl⟩

/-- A data-set 164 (units) without its fields. -/
def exBad : Dict := [("type", .int 164)]
/-- What is left of it. -/
def exDangling : Bytes := encode ("    -1\n   164".toList ++ List.replicate 74 ' ' ++ "\n".toList)

theorem exBad_write (e : Env) (fd : Bool) :
    (writeBody e fd exBad).out = "    -1\n   164".toList ++ List.replicate 74 ' ' ++ "\n".toList ∧
    ∃ x, (writeBody e fd exBad).res = .error x := by
  refine ⟨rfl, ⟨_, rfl⟩⟩

/-- The claim fails for every file: appending this dictionary raises and changes the file. -/
theorem C09_negation (f : Bytes) (e : Env) (fd : Bool) :
    ∃ x, ((World.new (some f)).writeSets e "add".toList fd [exBad]).2.2 = .error x ∧
      ((World.new (some f)).writeSets e "add".toList fd [exBad]).1.file = some (f ++ exDangling) ∧
      some (f ++ exDangling) ≠ some f := by
  obtain ⟨ho, x, hx⟩ := exBad_write e fd
  refine ⟨x, ?_, ?_, ?_⟩
  · rw [writeSets_add _ e _ (by decide), addAll_cons_err hx]
  · rw [writeSets_add _ e _ (by decide), addAll_cons_err hx]
    simp only [added, hx, ho]; rfl
  · intro h
    have := congrArg List.length (Option.some.inj h)
    rw [List.length_append] at this
    have h2 : exDangling.length = 88 := by decide
    omega

theorem delims_dangling : delims exDangling = [0] := by decide +kernel

theorem blockBytes_shift (a b : Bytes) (x y : Nat) :
    blockBytes (a ++ b) (x + a.length, y + a.length) = blockBytes b (x, y) := blockBytes_right a b (x, y)

/-- A closing delimiter followed by data-sets. -/
theorem sets_shifted {ss : List DataSet} {bs : List Bytes} (h : Blocks ss bs) :
    delims (tagPat ++ [10] ++ bs.flatMap closed) = 0 :: (delims (bs.flatMap closed)).map (· + 7) ∧
    sets (tagPat ++ [10] ++ bs.flatMap closed) = List.replicate ss.length (tagPat ++ [10]) := by
  have ht : Terminated (tagPat ++ [10]) := .inr rfl
  have hd : delims (tagPat ++ [10] ++ bs.flatMap closed) = 0 :: (delims (bs.flatMap closed)).map (· + 7) := by
    rw [delims_append _ _ ht]; rfl
  refine ⟨hd, ?_⟩
  induction h with
  | nil => decide
  | @cons s b ss bs hb hbs ih =>
    have hd' : delims ((b :: bs).flatMap closed) =
        0 :: b.length :: (delims (bs.flatMap closed)).map (· + (b.length + 7)) := by
      rw [List.flatMap_cons, delims_append _ _ (terminated_closed b), hb.framed.delims]
      simp [closed, tagPat]
    have ih' := ih (by rw [delims_append _ _ ht]; rfl)
    rw [sets_eq] at ih' ⊢
    rw [hd, hd']
    have e1 : tagPat ++ [10] ++ (b :: bs).flatMap closed = (tagPat ++ [10] ++ b) ++ (tagPat ++ [10] ++ bs.flatMap closed) := by
      rw [List.flatMap_cons, closed]; simp
    have e3 : (0 :: ((0 :: b.length :: (delims (bs.flatMap closed)).map (· + (b.length + 7))).map (· + 7))) =
        [0, 7] ++ ((delims (tagPat ++ [10] ++ bs.flatMap closed)).map (· + (tagPat ++ [10] ++ b).length)) := by
      rw [delims_append _ _ ht]
      have : delims (tagPat ++ [10]) = [0] := by decide
      rw [this]
      simp only [List.map_cons, List.map_map, List.cons_append, List.nil_append, List.length_append]
      have l1 : tagPat.length = 6 := rfl
      have l2 : ([10] : Bytes).length = 1 := rfl
      rw [l1, l2]
      congr 2
      congr 1
      · omega
      · apply List.map_congr_left
        intro i _
        simp only [Function.comp]
        omega
    rw [e3, pairUp_even _ _ (by simp), List.map_append, e1, pairUp_map, List.map_map]
    have e4 : ((blockBytes (tagPat ++ [10] ++ b ++ (tagPat ++ [10] ++ bs.flatMap closed))) ∘
        fun p : Nat × Nat => (p.1 + (tagPat ++ [10] ++ b).length, p.2 + (tagPat ++ [10] ++ b).length)) =
        blockBytes (tagPat ++ [10] ++ bs.flatMap closed) := by
      funext p
      exact blockBytes_right _ _ p
    rw [e4, ih', List.length_cons, List.replicate_succ]
    simp [pairUp, blockBytes, slice, tagPat]

/-- What a dangling opening delimiter does: however many (`N + 1`) well-formed data-sets are appended afterwards, all
successfully, none of them can be found: the file shows the remains of the failed data-set and `N` empty blocks. -/
theorem C09_lost (f part : Bytes) (hf : Terminated f) (hb : Balanced f) (hp : Terminated part) (hd : delims part = [0])
    (e : Env) (mode : Text) (hm : lower mode = "add".toList) (fd : Bool) (ds : List Dict) (ss : List DataSet)
    (h : GivenAll e fd ds ss) (hs : ss ≠ []) (w : World) (hw : w.file = some (f ++ part)) :
    (w.writeSets e mode fd ds).2.2 = .ok () ∧
    ∃ f', (w.writeSets e mode fd ds).1.file = some f' ∧
      sets f' = sets f ++ part :: List.replicate (ss.length - 1) (delimBytes ++ [10]) := by
  obtain ⟨bs, hbs, hall⟩ := addAll_given h
  obtain ⟨h1, h2, _⟩ := hall w
  rw [writeSets_add' w e mode hm fd ds (h.ne hs)]
  refine ⟨h1, f ++ part ++ bs.flatMap closed, ?_, ?_⟩
  · obtain ⟨f', hf'⟩ := addAll_some w e fd ds _ hw
    rw [hf'] at h2 ⊢
    rw [hw] at h2
    exact congrArg some h2
  · rw [List.append_assoc, sets_append f _ hf hb]
    congr 1
    cases hbs with
    | nil => exact absurd rfl hs
    | @cons s b ss bs hb hbs =>
      have hlen : 0 < part.length := delims_lt part 0 (by rw [hd]; simp)
      obtain ⟨g1, g2⟩ := sets_shifted hbs
      have e1 : part ++ (b :: bs).flatMap closed = (part ++ b) ++ (tagPat ++ [10] ++ bs.flatMap closed) := by
        rw [List.flatMap_cons, closed]; simp
      have hdel : delims (part ++ (b :: bs).flatMap closed) =
          [0, part.length] ++ (delims (tagPat ++ [10] ++ bs.flatMap closed)).map (· + (part ++ b).length) := by
        rw [delims_append _ _ hp, hd, g1, List.flatMap_cons, delims_append _ _ (terminated_closed b), hb.framed.delims]
        simp only [List.map_cons, List.map_map, List.cons_append, List.nil_append, List.length_append]
        congr 2
        · omega
        · congr 1
          · omega
          · apply List.map_congr_left
            intro i _
            simp only [Function.comp, closed, List.length_append]
            have l1 : tagPat.length = 6 := rfl
            have l2 : ([10] : Bytes).length = 1 := rfl
            rw [l1, l2]
            omega
      rw [sets_eq] at g2 ⊢
      rw [hdel, pairUp_even _ _ (by simp), List.map_append, e1, pairUp_map, List.map_map]
      have e4 : ((blockBytes (part ++ b ++ (tagPat ++ [10] ++ bs.flatMap closed))) ∘
          fun p : Nat × Nat => (p.1 + (part ++ b).length, p.2 + (part ++ b).length)) =
          blockBytes (tagPat ++ [10] ++ bs.flatMap closed) := by
        funext p
        exact blockBytes_right _ _ p
      rw [e4, g2]
      simp [pairUp, blockBytes, slice]
      exact .inr rfl

/-- A file of one data-set. -/
def exOne : Bytes := encode "    -1\n   151\nMODEL\n    -1\n".toList
/-- So it is for this file after the failure of `C09_negation`, with eight more data-sets. -/
example : Terminated exOne ∧ Balanced exOne ∧ Terminated exDangling ∧ delims exDangling = [0] ∧
    GivenAll exEnv true exDicts exSets ∧ exSets ≠ [] :=
  ⟨by decide +kernel, by decide +kernel, .inr (by decide +kernel), delims_dangling, ex_givenAll, by simp [exSets]⟩

end Verif
