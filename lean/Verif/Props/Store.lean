import Verif.Lemmas.Store
import Verif.Props.Writing
import Verif.Props.Reading
/-
Any history of calls of any number of objects for one file behaves as the simple machine of `Spec/Store.lean` (C45).
-/
namespace Verif

/-! ### C45 -/

/-- What a call means for the list of data-sets. -/
inductive Means : Call → Op → Prop
  | create : Means .create .create
  | nSets : Means .nSets .nSets
  | types : Means .types .types
  | formats : Means .formats .formats
  | fileExists : Means .fileExists .fileExists
  | status : Means .status .status
  | refresh : Means .refresh .refresh
  | read (sel : Sel) (header : Bool) : Means (.read sel header) (.read sel header)
  /-- mode 'add', well-formed data-sets -/
  | add {e mode fd ds ss} : lower mode = "add".toList → GivenAll e fd ds ss → ss ≠ [] →
      Means (.write e mode fd ds) (.add ss)
  /-- mode 'overwrite', well-formed data-sets, the first one not a binary 58 (see `C04_binary`) -/
  | replace {e mode fd ds ss} : lower mode = "overwrite".toList → GivenAll e fd ds ss → ss ≠ [] →
      (∀ s, ss.head? = some s → ¬ s.Binary) → Means (.write e mode fd ds) (.replace ss)
  /-- a type that is not supported -/
  | ignored {e mode fd d d' t} : lower mode = "add".toList → d.get? "type" = some (.int t) → t ∉ supported → CleanD d d' →
      Means (.write e mode fd [d]) .ignored
  /-- no type -/
  | failed {e mode fd d ds} : lower mode = "add".toList → d.get? "type" = none →
      Means (.write e mode fd (d :: ds)) (.failed (.exc "missing type"))
  /-- nothing to write -/
  | empty {e mode fd} : Means (.write e mode fd []) (.refused (.exc "Nothing to write"))
  /-- a mode that does not exist -/
  | mode {e mode fd d ds} : lower mode ≠ "overwrite".toList → lower mode ≠ "add".toList →
      Means (.write e mode fd (d :: ds)) (.refused (.exc "Unknown mode"))

/-- The same for histories. -/
inductive MeansAll : List (Nat × Call) → List (Nat × Op) → Prop
  | nil : MeansAll [] []
  | cons {i c o cs os} : Means c o → MeansAll cs os → MeansAll ((i, c) :: cs) ((i, o) :: os)

/-- The world of object `i`. -/
def Session.world (s : Session) (i : Nat) : World := ⟨s.file, s.objs i⟩

theorem rel_see {s : Session} {st : Store} (h : Rel s st) (i : Nat) (o : Obj) (v : View) (hv : ViewOf s.file v o) :
    Rel ⟨s.file, fun j => if j = i then o else s.objs j⟩ (st.see i v) := by
  refine ⟨h.file, fun j => ?_⟩
  simp only [Store.see]
  by_cases hj : j = i
  · rw [if_pos hj, if_pos hj]; exact hv
  · rw [if_neg hj, if_neg hj]; exact h.objs j

theorem rel_same {s : Session} {st : Store} (h : Rel s st) (i : Nat) :
    Rel ⟨s.file, fun j => if j = i then s.objs i else s.objs j⟩ st := by
  refine ⟨h.file, fun j => ?_⟩
  by_cases hj : j = i
  · simp only [hj, if_true]; exact h.objs i
  · simp only [hj, if_false]; exact h.objs j

/-- Looking at the file. -/
theorem look_refresh {s : Session} {st : Store} (h : Rel s st) (i : Nat) :
    ViewOf s.file (Store.look st.items) (refreshObj s.file (s.objs i)).1 ∧
    (refreshObj s.file (s.objs i)).2 = st.items.isSome ∧
    ViewOf s.file (Store.look st.items) (World.new s.file).obj := by
  have hi := h.objs i
  rcases h.file with ⟨h1, h2⟩ | ⟨f, h1, ht, hb, h2⟩
  · rw [h1] at hi ⊢
    obtain ⟨_, _, ho⟩ := viewOf_none hi
    rw [h2, ho]
    exact ⟨.inl ⟨rfl, rfl, rfl⟩, rfl, .inl ⟨rfl, rfl, rfl⟩⟩
  · rw [h1] at hi ⊢
    rw [viewOf_refresh hi, refreshObj_true, h2]
    exact ⟨viewOf_look ht hb, rfl, viewOf_look ht hb⟩

/-- An object that has not seen the file looks. -/
theorem fresh_view {s : Session} {st : Store} (h : Rel s st) (i : Nat) :
    ViewOf s.file (st.fresh i) (s.world i).fresh.obj ∧ (s.world i).fresh.file = s.file := by
  have hi := h.objs i
  unfold Session.world World.fresh Store.fresh
  rcases hi with ⟨h1, h2, h3⟩ | ⟨f, g, hf, ho, hk, h1, h2⟩
  · rw [h1]
    have : (s.objs i).refreshed = false := by rw [h3]; rfl
    simp only [this, Bool.false_eq_true, if_false, Option.isSome_none]
    exact ⟨(look_refresh h i).1, rfl⟩
  · rw [hk]
    have : (s.objs i).refreshed = true := by rw [ho]; exact objOf_refreshed g
    simp only [this, if_true, Option.isSome_some]
    exact ⟨.inr ⟨f, g, hf, ho, hk, h1, h2⟩, trivial⟩

/-- What an object reports. -/
theorem reports {file : Option Bytes} {v : View} {o : Obj} (h : ViewOf file v o) :
    o.types = v.known.getD [] ∧ o.nSets = (v.known.getD []).length ∧ o.formats = (v.known.getD []).map (fun _ => 0) ∧
    o.refreshed = v.known.isSome := by
  rcases h with ⟨h1, h2, rfl⟩ | ⟨f, g, hf, rfl, hk, _⟩
  · rw [h1]; exact ⟨rfl, rfl, rfl, rfl⟩
  · rw [hk, objOf_eq]
    simp only [Option.getD_some, List.length_map, sets_length, List.map_map, Option.isSome_some, and_true, true_and]
    rw [← sets_length]
    exact (List.map_const' ..).symm

theorem store_step {s : Session} {st : Store} (h : Rel s st) (i : Nat) {c : Call} {o : Op} (hm : Means c o)
    (hr : ∀ sel header, o = .read sel header → (st.views i).good = true) :
    Rel (s.call i c).1 (st.call i o).1 ∧ (s.call i c).2 = (st.call i o).2 := by
  obtain ⟨hfv, hff⟩ := fresh_view h i
  obtain ⟨hl1, hl2, hl3⟩ := look_refresh h i
  obtain ⟨r1, r2, r3, r4⟩ := reports hfv
  have hsome : s.file.isSome = st.items.isSome := by
    rcases h.file with ⟨h1, h2⟩ | ⟨f, h1, _, _, h2⟩ <;> rw [h1, h2] <;> rfl
  have hterm : Terminated (s.file.getD []) := by
    rcases h.file with ⟨h1, h2⟩ | ⟨f, h1, ht, _, h2⟩ <;> rw [h1]
    · exact .inl rfl
    · exact ht
  have hbal : Balanced (s.file.getD []) := by
    rcases h.file with ⟨h1, h2⟩ | ⟨f, h1, _, hb, h2⟩ <;> rw [h1]
    · unfold Balanced; decide
    · exact hb
  have hitems : st.items.getD [] = (sets (s.file.getD [])).map Item.block := by
    rcases h.file with ⟨h1, h2⟩ | ⟨f, h1, _, _, h2⟩ <;> rw [h1, h2]
    · rfl
    · rfl
  have hrf : Rel ⟨(s.world i).fresh.file, fun j => if j = i then (s.world i).fresh.obj else s.objs j⟩
      (st.see i (st.fresh i)) := by rw [hff]; exact rel_see h i _ _ hfv
  cases hm with
  | create =>
    refine ⟨?_, rfl⟩
    exact rel_see h i _ _ hl3
  | nSets =>
    refine ⟨?_, by simp only [Session.call, World.call, Store.call, World.getNSets]; rw [← r2]; rfl⟩
    exact hrf
  | types =>
    refine ⟨?_, by simp only [Session.call, World.call, Store.call, World.getSetTypes]; rw [← r1]; rfl⟩
    exact hrf
  | formats =>
    refine ⟨?_, by simp only [Session.call, World.call, Store.call, World.getSetFormats]; rw [← r3]; rfl⟩
    exact hrf
  | fileExists =>
    refine ⟨rel_same h i, ?_⟩
    simp only [Session.call, World.call, Store.call, World.fileExists, hsome]
  | status =>
    refine ⟨rel_same h i, ?_⟩
    simp only [Session.call, World.call, Store.call, World.getStatus]
    rw [(reports (h.objs i)).2.2.2]
  | refresh =>
    refine ⟨rel_see h i _ _ hl1, ?_⟩
    simp only [Session.call, World.call, Store.call, World.refresh]
    rw [hl2]
  | read sel header =>
    have hgood := hr sel header rfl
    rcases h.file with ⟨h1, h2⟩ | ⟨f, h1, ht, hb, h2⟩
    · have e1 : s.call i (.read sel header) = (⟨s.file, fun j => if j = i then s.objs i else s.objs j⟩,
          .sets (.error (.exc "Cannot read from a non-existing file"))) := by
        unfold Session.call World.call World.readSets
        rw [h1]
      have e2 : st.call i (.read sel header) = (st, .sets (.error (.exc "Cannot read from a non-existing file"))) := by
        unfold Store.call; rw [h2]
      rw [e1, e2]
      exact ⟨rel_same h i, rfl⟩
    · have e1 : s.call i (.read sel header) =
          (⟨s.file, fun j => if j = i then (s.world i).fresh.obj else s.objs j⟩,
          .sets (packed (mapRes (fun n => readSet f (s.world i).fresh.obj n header) (readRange (s.objs i) sel)))) := by
        have : World.readSets ⟨s.file, s.objs i⟩ sel header = ((s.world i).fresh,
            packed (mapRes (fun n => readSet f (s.world i).fresh.obj n header) (readRange (s.objs i) sel))) := by
          unfold Session.world
          rw [h1]
          exact readSets_packed f _ sel header
        unfold Session.call World.call
        simp only [this]
        rw [hff]
      have e2 : st.call i (.read sel header) = (st.see i (st.fresh i),
          .sets ((Store.collect ((Store.wanted ((st.views i).known.getD []).length sel).map
            (Store.pick (((sets f).map Item.block).take ((st.fresh i).known.getD []).length) header))).map Store.shape)) := by
        unfold Store.call; rw [h2]
      rw [e1, e2]
      refine ⟨rel_see h i _ _ hfv, ?_⟩
      simp only
      rw [collect_eq]
      have hrange : readRange (s.objs i) sel = Store.wanted ((st.views i).known.getD []).length sel := by
        rw [← (reports (h.objs i)).2.1]
        cases sel <;> rfl
      rw [hrange]
      have hfg : (st.fresh i).good = true := by
        unfold Store.fresh
        split
        · exact hgood
        · rfl
      have hread : (fun n => readSet f (s.world i).fresh.obj n header) =
          Store.pick (((sets f).map Item.block).take ((st.fresh i).known.getD []).length) header := by
        funext n
        rcases hfv with ⟨hk, _, ho⟩ | ⟨f', g, hf', ho, hk, hg, _⟩
        · exfalso
          have : (s.world i).fresh.obj.refreshed = true := by
            unfold World.fresh
            split
            · assumption
            · unfold Session.world World.refresh
              rw [h1]; exact refreshObj_refreshed f _
          rw [ho] at this; cases this
        · rw [h1] at hf'; cases hf'
          obtain ⟨ht', hb', t, rfl⟩ := hg hfg
          rw [ho, hk, readSet_pick g t ht' hb', Option.getD_some, List.length_map, sets_length]
      rw [hread]
  | @add e mode fd ds ss hmode hg hne =>
    obtain ⟨bs, hbs, hall⟩ := addAll_given hg
    obtain ⟨a1, a2, a3⟩ := hall (s.world i)
    have a4 := a3 (hg.ne hne) hterm hbal
    have ew := writeSets_add' (s.world i) e mode hmode fd ds (hg.ne hne)
    have e1 : s.call i (.write e mode fd ds) =
        (⟨some (s.file.getD [] ++ bs.flatMap closed),
          fun j => if j = i then objOf (s.file.getD [] ++ bs.flatMap closed) else s.objs j⟩, .wrote (.ok ())) := by
      unfold Session.call World.call
      simp only
      rw [show (⟨s.file, s.objs i⟩ : World) = s.world i from rfl, ew, a4, a1]
      rfl
    rw [e1]
    have ei : st.items.getD [] ++ ss.map Item.written = (sets (s.file.getD [] ++ bs.flatMap closed)).map Item.block := by
      rw [sets_append _ _ hterm hbal, List.map_append, ← hitems, hbs.sets, hbs.items]
    have ht' := terminated_append _ _ hterm hbs.terminated
    have hb' := balanced_append _ _ hterm hbal hbs.balanced
    refine ⟨⟨.inr ⟨_, rfl, ht', hb', by simp only [Store.call]; rw [ei]⟩, fun j => ?_⟩, rfl⟩
    simp only [Store.call]
    by_cases hj : j = i
    · rw [if_pos hj, if_pos hj, ei]; exact viewOf_look ht' hb'
    · rw [if_neg hj, if_neg hj]; exact viewOf_grow hterm (h.objs j)
  | @replace e mode fd ds ss hmode hg hne hbin =>
    obtain ⟨a1, ⟨bs, hbs, hf⟩, a3⟩ := overwrite_given hg hne hbin (s.world i) mode hmode
    have hcount : setCount (bs.flatMap closed) ≠ 0 := by
      rw [← sets_length, hbs.sets, hbs.length]
      exact fun h => hne (List.length_eq_zero_iff.1 h)
    have hfile : ((s.world i).writeSets e mode fd ds).1.file = some (bs.flatMap closed) := by
      cases hw : ((s.world i).writeSets e mode fd ds).1.file with
      | none =>
        rw [hw] at hf
        simp only [Option.getD_none] at hf
        rw [← hf] at hcount
        exact absurd (by decide) hcount
      | some f => rw [hw] at hf; simp only [Option.getD_some] at hf; rw [hf]
    have e1 : s.call i (.write e mode fd ds) =
        (⟨some (bs.flatMap closed), fun j => if j = i then objOf (bs.flatMap closed) else s.objs j⟩, .wrote (.ok ())) := by
      unfold Session.call World.call
      simp only
      rw [show (⟨s.file, s.objs i⟩ : World) = s.world i from rfl, a3, hfile, a1]
      rfl
    rw [e1]
    have ei : ss.map Item.written = (sets (bs.flatMap closed)).map Item.block := by rw [hbs.sets, hbs.items]
    refine ⟨⟨.inr ⟨_, rfl, hbs.terminated, hbs.balanced, by simp only [Store.call]; rw [ei]⟩, fun j => ?_⟩, rfl⟩
    simp only [Store.call]
    by_cases hj : j = i
    · rw [if_pos hj, if_pos hj, ei]; exact viewOf_look hbs.terminated hbs.balanced
    · rw [if_neg hj, if_neg hj]
      rcases h.objs j with ⟨h1, _, h3⟩ | ⟨f, g, _, ho, hk, _, _⟩
      · exact .inl ⟨h1, by rw [h1]; rfl, h3⟩
      · exact .inr ⟨_, g, rfl, ho, hk, by rw [hk]; simp, fun _ => hcount⟩
  | @ignored e mode fd d d' t hmode ht hs hc =>
    have hb : writeBody e fd d = ⟨[], d', .ok none⟩ := by
      rw [writeBody_eq (n := t) hc (by rw [cleanD_get hc (by decide)]; exact ht), dispatch_unsupported e fd t hs]
      rfl
    have hg := viewOf_grow (b := []) hterm (h.objs i)
    rw [List.append_nil] at hg
    have e1 : s.call i (.write e mode fd [d]) =
        (⟨some (s.file.getD []), fun j => if j = i then objOf (s.file.getD []) else s.objs j⟩, .wrote (.ok ())) := by
      have : World.writeSets ⟨s.file, s.objs i⟩ e mode fd [d] =
          (⟨some (s.file.getD []), objOf (s.file.getD [])⟩, [d'], .ok ()) := by
        rw [writeSets_add _ e mode hmode]
        unfold World.addAll World.writeSet
        simp only [hb, World.addAll, World.refresh]
        rw [fileAfter_add]
        simp only [added, encode, List.flatMap_nil, List.append_nil]
        rw [viewOf_refresh hg]
      unfold Session.call World.call
      simp only [this]
    rw [e1]
    refine ⟨⟨.inr ⟨_, rfl, hterm, hbal, by simp only [Store.call]; rw [hitems]⟩, fun j => ?_⟩, rfl⟩
    simp only [Store.call]
    by_cases hj : j = i
    · rw [if_pos hj, if_pos hj, hitems]; exact viewOf_look hterm hbal
    · rw [if_neg hj, if_neg hj]
      have := viewOf_grow (b := []) hterm (h.objs j)
      rwa [List.append_nil] at this
  | @failed e mode fd d ds hmode ht =>
    have hb : writeBody e fd d = ⟨[], d, .error (.exc "missing type")⟩ := by unfold writeBody; rw [ht]
    have e1 : s.call i (.write e mode fd (d :: ds)) =
        (⟨some (s.file.getD []), fun j => if j = i then s.objs i else s.objs j⟩, .wrote (.error (.exc "missing type"))) := by
      have : World.writeSets ⟨s.file, s.objs i⟩ e mode fd (d :: ds) =
          (⟨some (s.file.getD []), s.objs i⟩, d :: ds, .error (.exc "missing type")) := by
        rw [writeSets_add _ e mode hmode, addAll_cons_err (x := .exc "missing type") (by rw [hb]), hb]
        simp [added, encode]
      unfold Session.call World.call
      simp only [this]
    rw [e1]
    refine ⟨⟨.inr ⟨_, rfl, hterm, hbal, by simp only [Store.call]; rw [hitems]⟩, fun j => ?_⟩, rfl⟩
    have := viewOf_grow (b := []) hterm (h.objs j)
    rw [List.append_nil] at this
    by_cases hj : j = i
    · simp only [Store.call, if_pos hj]; rw [← hj]; exact this
    · simp only [Store.call, if_neg hj]; exact this
  | empty => exact ⟨rel_same h i, rfl⟩
  | @mode e mode fd d ds h1 h2 =>
    have : World.writeSets ⟨s.file, s.objs i⟩ e mode fd (d :: ds) =
        (⟨s.file, s.objs i⟩, d :: ds, .error (.exc "Unknown mode")) := by
      unfold World.writeSets; simp only; rw [if_neg h1, if_neg h2]
    refine ⟨?_, by unfold Session.call World.call; simp only [this]; rfl⟩
    unfold Session.call World.call
    simp only [this]
    exact rel_same h i

/-- **Refinement.**  Any number of objects for one file, called in any order, any number of times, answer as the simple
machine does: a list of data-sets, and for each object the part of the list it has seen.  At the beginning there is no
file, or any file of complete data-sets; no object has been created yet.  (Required is that writers get well-formed
data-sets or arguments that are refused, and that nobody reads through an object after another object has overwritten the
file; `C45_overwritten` shows what is read then.) -/
theorem C45_refinement_partial (file : Option Bytes) (hf : ∀ f, file = some f → Terminated f ∧ Balanced f)
    (cs : List (Nat × Call)) (os : List (Nat × Op)) (hm : MeansAll cs os) :
    let st : Store := ⟨file.map fun f => (sets f).map Item.block, fun _ => ⟨none, true⟩⟩
    st.Fair os → (Session.run ⟨file, fun _ => .empty⟩ cs).2 = (st.run os).2 := by
  intro st hfair
  have h0 : Rel ⟨file, fun _ => .empty⟩ st := by
    refine ⟨?_, fun i => .inl ⟨rfl, rfl, rfl⟩⟩
    cases file with
    | none => exact .inl ⟨rfl, rfl⟩
    | some f => exact .inr ⟨f, rfl, (hf f rfl).1, (hf f rfl).2, rfl⟩
  generalize (⟨file, fun _ => .empty⟩ : Session) = s at h0
  clear_value st
  induction hm generalizing s st with
  | nil => rfl
  | @cons i c o cs os hc _ ih =>
    obtain ⟨h1, h2⟩ := store_step h0 i hc hfair.1
    unfold Session.run Store.run
    simp only
    rw [h2, ih _ hfair.2 _ h1]

/-- Two objects for a file that does not exist: the first one writes eight data-sets, the second one looks, the first one
adds one more (the second one does not notice), fails to write, and overwrites everything; the second one refreshes. -/
def exCalls : List (Nat × Call) :=
  [(0, .create), (1, .create), (1, .status), (1, .read .all false), (0, .write exEnv "add".toList true exDicts), (1, .nSets),
   (0, .write exEnv "Add".toList true [ex151.dict]), (1, .types), (1, .read (.one 7) true), (1, .read (.one 8) false),
   (0, .write exEnv "append".toList true [ex151.dict]), (0, .write exEnv "add".toList true [[("type", .int 9999)]]),
   (0, .write exEnv "add".toList true [[]]), (0, .write exEnv "overwrite".toList true [ex151.dict]), (1, .nSets), (1, .refresh),
   (1, .read .all false)]

/-- What they mean. -/
def exOps : List (Nat × Op) :=
  [(0, .create), (1, .create), (1, .status), (1, .read .all false), (0, .add exSets), (1, .nSets),
   (0, .add [.s151 ex151]), (1, .types), (1, .read (.one 7) true), (1, .read (.one 8) false),
   (0, .refused (.exc "Unknown mode")), (0, .ignored), (0, .failed (.exc "missing type")), (0, .replace [.s151 ex151]),
   (1, .nSets), (1, .refresh), (1, .read .all false)]

/-- Its answers. -/
def exOuts : List Out :=
  [.nothing, .nothing, .flag false, .sets (.error (.exc "Cannot read from a non-existing file")), .wrote (.ok ()), .num 8,
   .wrote (.ok ()), .types (exSets.map DataSet.num),
   .sets (match exSets[7]? with
    | some s => .ok (.single s.headerBack)
    | none => .error .index),
   .sets (.error (.exc "Error when reading data-set(s).")), .wrote (.error (.exc "Unknown mode")), .wrote (.ok ()),
   .wrote (.error (.exc "missing type")), .wrote (.ok ()), .num 8, .flag true, .sets (.ok (.single ex151.readBack))]

theorem ex_meansAll : MeansAll exCalls exOps := by
  have g1 : GivenAll exEnv true [ex151.dict] [.s151 ex151] := .cons (DS151.given _ _ _ ex151_ok) .nil
  exact .cons .create <| .cons .create <| .cons .status <| .cons (.read _ _) <|
    .cons (.add (by decide) ex_givenAll (by simp [exSets])) <| .cons .nSets <|
    .cons (.add (by decide) g1 (by simp)) <| .cons .types <| .cons (.read _ _) <| .cons (.read _ _) <|
    .cons (.mode (by decide) (by decide)) <|
    .cons (.ignored (t := 9999) (by decide) rfl (by decide) (.inl ⟨rfl, rfl⟩)) <|
    .cons (.failed (by decide) rfl) <|
    .cons (.replace (by decide) g1 (by simp) (by intro s hs; cases hs; exact id)) <| .cons .nSets <|
    .cons .refresh <| .cons (.read _ _) .nil

example : MeansAll exCalls exOps ∧ (⟨none, fun _ => ⟨none, true⟩⟩ : Store).Fair exOps ∧
    ((⟨none, fun _ => ⟨none, true⟩⟩ : Store).run exOps).2 = exOuts := by
  refine ⟨ex_meansAll, ?_, ?_⟩
  · refine ⟨nofun, nofun, nofun, fun _ _ _ => ?_, nofun, nofun, nofun, nofun, fun _ _ _ => ?_, fun _ _ _ => ?_, nofun,
      nofun, nofun, nofun, nofun, nofun, fun _ _ _ => ?_, trivial⟩
    all_goals decide +kernel
  · decide +kernel

/-- Two data-sets. -/
def exPair : Bytes := encode "    -1\n   151\nMODEL\n    -1\n    -1\n  9999\nXYZ\n    -1\n".toList

/-- What the hypothesis on reading excludes: object 1 has seen two data-sets, object 0 overwrites the file with one of type
151.  Object 1 goes on reporting the old types, reads a data-set 1 that is not in the file, and cannot read data-set
0 because it takes the bytes from the old place. -/
theorem C45_overwritten :
    let s := (Session.run ⟨some exPair, fun _ => .empty⟩
      [(0, .create), (1, .create), (0, .write exEnv "overwrite".toList true [ex151.dict])]).1
    (s.call 0 .types).2 = .types [151] ∧ (s.call 1 .types).2 = .types [151, 9999] ∧
    (s.call 0 (.read (.one 1) false)).2 = .sets (.error (.exc "Error when reading data-set(s).")) ∧
    (s.call 1 (.read (.one 1) false)).2 = .sets (.ok (.single [("type", .int 9999)])) ∧
    (s.call 0 (.read (.one 0) false)).2 = .sets (.ok (.single ex151.readBack)) ∧
    (s.call 1 (.read (.one 0) false)).2 = .sets (.error (.exc "Error when reading data-set(s).")) := by
  decide +kernel

end Verif
