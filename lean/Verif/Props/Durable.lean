import Verif.Props.Store
/-
C62: what no history of calls can destroy, however the calls end.
-/
namespace Verif

/-- A call that does not overwrite: any call but `write_sets` in mode 'overwrite'.  What is to be written may be anything. -/
def Call.Appends : Call → Prop
  | .write _ mode _ _ => lower mode ≠ "overwrite".toList
  | _ => True

/-- The file begins with `f`, and an object that has looked at it knows the data-sets of `f`. -/
structure Durable (f : Bytes) (w : World) : Prop where
  data : ∃ x, w.file = some (f ++ x)
  obj : w.obj = .empty ∨ Knows w f

theorem durable_refresh {f : Bytes} (ht : Terminated f) {w : World} (h : Durable f w) (b : Bytes) :
    Knows (World.refresh ⟨some (w.file.getD [] ++ b), w.obj⟩).1 f := by
  rcases h.obj with ho | ho
  · obtain ⟨x, hx⟩ := h.data
    rw [hx, ho, Option.getD_some, List.append_assoc]
    exact knows_new f (x ++ b) ht
  · exact knows_refresh f ht w ho b

theorem durable_look {f : Bytes} (ht : Terminated f) {w : World} (h : Durable f w) : Knows w.refresh.1 f := by
  obtain ⟨x, hx⟩ := h.data
  have := durable_refresh ht h []
  rw [hx, Option.getD_some, List.append_nil, ← hx] at this
  exact this

theorem durable_fresh {f : Bytes} (ht : Terminated f) {w : World} (h : Durable f w) : Knows w.fresh f := by
  unfold World.fresh
  split
  · next hr =>
    rcases h.obj with ho | ho
    · rw [ho] at hr; cases hr
    · exact ho
  · exact durable_look ht h

theorem Knows.durable {f : Bytes} {w : World} (h : Knows w f) : Durable f w := ⟨h.data, .inr h⟩

theorem durable_addAll {f : Bytes} (ht : Terminated f) (e : Env) (fd : Bool) (ds : List Dict) {w : World} (h : Durable f w) :
    Durable f (w.addAll e fd ds).1 := by
  induction ds generalizing w e with
  | nil => exact h
  | cons d ds ih =>
    cases hr : (writeBody e fd d).res with
    | error x =>
      rw [addAll_cons_err hr]
      obtain ⟨x, hx⟩ := h.data
      have hd : ∀ b, some (w.file.getD [] ++ b) = some (f ++ (x ++ b)) := by
        intro b; rw [hx, Option.getD_some, List.append_assoc]
      refine ⟨⟨_, hd _⟩, h.obj.imp id fun hk => ?_⟩
      exact ⟨⟨_, hd _⟩, hk.fresh, hk.count, hk.ind, hk.types⟩
    | ok a =>
      rw [addAll_cons_ok hr]
      apply ih
      have : (w.writeSet e fd false d).1 = (World.refresh ⟨some (w.file.getD [] ++ added (writeBody e fd d)), w.obj⟩).1 := by
        unfold World.writeSet
        dsimp only
        rw [hr, fileAfter_add]
      rw [this]
      exact (durable_refresh ht h _).durable

theorem durable_call {f : Bytes} (ht : Terminated f) {w : World} (h : Durable f w) (c : Call) (hc : c.Appends) :
    Durable f (w.call c).1 := by
  have hfresh := (durable_fresh ht h).durable
  cases c with
  | create =>
    obtain ⟨x, hx⟩ := h.data
    show Durable f (World.new w.file)
    rw [hx]
    exact (knows_new f x ht).durable
  | nSets => exact hfresh
  | types => exact hfresh
  | formats => exact hfresh
  | fileExists => exact h
  | status => exact h
  | refresh => exact (durable_look ht h).durable
  | read sel header =>
    show Durable f (w.readSets sel header).1
    unfold World.readSets
    dsimp only
    split
    · exact h
    · exact hfresh
  | write e mode fd ds =>
    show Durable f (w.writeSets e mode fd ds).1
    cases ds with
    | nil => exact h
    | cons d ds =>
      by_cases ha : lower mode = "add".toList
      · rw [writeSets_add _ e mode ha]; exact durable_addAll ht e fd _ h
      · unfold World.writeSets
        simp only
        rw [if_neg hc, if_neg ha]
        exact h

/-- Calls never take anything away from the end of the file. -/
theorem call_grows {f : Bytes} (ht : Terminated f) {w : World} (h : Durable f w) (c : Call) (hc : c.Appends) :
    ∃ b, (w.call c).1.file = some (w.file.getD [] ++ b) := by
  obtain ⟨x, hx⟩ := h.data
  have same : ∀ w' : World, w'.file = w.file → ∃ b, w'.file = some (w.file.getD [] ++ b) := by
    intro w' hw
    exact ⟨[], by rw [hw, hx, Option.getD_some, List.append_nil]⟩
  have hfr : w.fresh.file = w.file := by unfold World.fresh World.refresh; split <;> rfl
  cases c with
  | create => exact same _ rfl
  | nSets => exact same _ hfr
  | types => exact same _ hfr
  | formats => exact same _ hfr
  | fileExists => exact same _ rfl
  | status => exact same _ rfl
  | refresh => exact same _ rfl
  | read sel header => exact same _ (by
      show (w.readSets sel header).1.file = _
      unfold World.readSets; dsimp only; split
      · rfl
      · exact hfr)
  | write e mode fd ds =>
    show ∃ b, (w.writeSets e mode fd ds).1.file = _
    cases ds with
    | nil => exact same _ rfl
    | cons d ds =>
      by_cases ha : lower mode = "add".toList
      · rw [writeSets_add _ e mode ha]
        obtain ⟨b, hb⟩ := addAll_prefix w e fd (d :: ds)
        refine ⟨b, ?_⟩
        rw [hb]
        have := (durable_addAll ht e fd (d :: ds) h).data
        obtain ⟨y, hy⟩ := this
        rw [hy]; rfl
      · refine same _ ?_
        unfold World.writeSets
        simp only
        rw [if_neg hc, if_neg ha]

/-- All objects of a session. -/
def AllDurable (f : Bytes) (s : Session) : Prop := ∀ j, Durable f (s.world j)

theorem allDurable_call {f : Bytes} (ht : Terminated f) {s : Session} (h : AllDurable f s) (i : Nat) (c : Call) (hc : c.Appends) :
    AllDurable f (s.call i c).1 := by
  intro j
  have hi := durable_call ht (h i) c hc
  by_cases hj : j = i
  · subst hj
    have : (s.call j c).1.world j = ((s.world j).call c).1 := by
      unfold Session.call Session.world
      simp only [if_true]
    rw [this]; exact hi
  · obtain ⟨b, hb⟩ := call_grows ht (h i) c hc
    have e : (s.call i c).1.world j = ⟨((s.world i).call c).1.file, s.objs j⟩ := by
      unfold Session.call Session.world
      simp only [if_neg hj]
    rw [e, hb]
    obtain ⟨x, hx⟩ := (h j).data
    have hd : (some ((s.world i).file.getD [] ++ b)) = some (f ++ (x ++ b)) := by
      rw [show (s.world i).file = (s.world j).file from rfl, hx, Option.getD_some, List.append_assoc]
    exact ⟨⟨_, hd⟩, (h j).obj.imp id fun hk => ⟨⟨_, hd⟩, hk.fresh, hk.count, hk.ind, hk.types⟩⟩

theorem allDurable_run {f : Bytes} (ht : Terminated f) (cs : List (Nat × Call)) (hc : ∀ p ∈ cs, p.2.Appends) {s : Session}
    (h : AllDurable f s) : AllDurable f (Session.run s cs).1 := by
  induction cs generalizing s with
  | nil => exact h
  | cons p cs ih =>
    obtain ⟨i, c⟩ := p
    exact ih (fun p hp => hc p (List.mem_cons_of_mem _ hp)) (allDurable_call ht h i c (hc _ (List.mem_cons_self ..)))

/-- **C62 (nothing is lost).** Any number of objects for a file that ends with a line feed are called in any order, any number of
times, and asked to add anything: well-formed data-sets, data-sets of unknown types, dictionaries at which the writer fails
half-way.  As long as nobody overwrites, the bytes of the file stay where they are, every data-set it had is still there under its
number, and every object (also one that has never looked) reads it as a new object would have read it before. -/
theorem C62_kept (f : Bytes) (ht : Terminated f) (cs : List (Nat × Call)) (hc : ∀ p ∈ cs, p.2.Appends) :
    let s := (Session.run ⟨some f, fun _ => .empty⟩ cs).1
    (∃ x, s.file = some (f ++ x)) ∧
    ∀ k < setCount f, Kept f (s.file.getD []) k ∧
      ∀ i, (∀ header, (s.call i (.read (.one k) header)).2 = .sets ((World.new (some f)).readSets (.one k) header).2) ∧
        (∃ l, (s.call i .types).2 = .types l ∧ l[k]? = (World.new (some f)).getSetTypes.2[k]?) ∧
        ∃ n, (s.call i .nSets).2 = .num n ∧ k < n := by
  intro s
  have h0 : AllDurable f ⟨some f, fun _ => .empty⟩ := fun j => ⟨⟨[], by rw [List.append_nil]; rfl⟩, .inl rfl⟩
  have h : AllDurable f s := allDurable_run ht cs hc h0
  obtain ⟨x, hx⟩ := (h 0).data
  have hx' : s.file = some (f ++ x) := hx
  refine ⟨⟨x, hx'⟩, fun k hk => ⟨?_, fun i => ?_⟩⟩
  · rw [hx']; exact kept_append f x ht k hk
  · have hK := durable_fresh ht (h i)
    refine ⟨fun header => ?_, ?_, ?_⟩
    · rw [← knows_read _ f hK k hk header]
      show Out.sets ((s.world i).readSets (.one k) header).2 = _
      congr 1
      unfold World.readSets
      have hfile : (s.world i).file = some (f ++ x) := hx'
      have hff : (s.world i).fresh.file = some (f ++ x) := by
        rw [← hfile]; unfold World.fresh World.refresh; split <;> rfl
      have hfix : (s.world i).fresh.fresh = (s.world i).fresh := by
        have : ∀ w : World, w.obj.refreshed = true → w.fresh = w := fun w hw => by unfold World.fresh; rw [if_pos hw]
        exact this _ hK.fresh
      simp only [hfile, hff, hfix, readRange]
    · refine ⟨_, rfl, ?_⟩
      obtain ⟨t, h2⟩ := hK.types
      show (s.world i).fresh.obj.types[k]? = _
      unfold World.getSetTypes
      dsimp only
      rw [← h2, fresh_new, new_some, List.getElem?_append_left]
      rw [objOf_eq]
      simpa [sets_length] using hk
    · exact ⟨_, rfl, Nat.lt_of_lt_of_le hk hK.count⟩

/-- **C62 (repair).** Whatever the file holds (also the remains of failed calls, or no data-set at all) and whatever the objects
believe: an overwriting call with well-formed data-sets, the first one not binary, succeeds, and afterwards the object that made it
and every new object read exactly these data-sets. -/
theorem C62_repaired (s : Session) (i : Nat) (e : Env) (mode : Text) (hm : lower mode = "overwrite".toList) (fd : Bool)
    (ds : List Dict) (ss : List DataSet) (h : GivenAll e fd ds ss) (hs : ss ≠ []) (hb : ∀ s, ss.head? = some s → ¬ s.Binary)
    (header : Bool) :
    let s' := (s.call i (.write e mode fd ds)).1
    (s.call i (.write e mode fd ds)).2 = .wrote (.ok ()) ∧
    (s'.call i .types).2 = .types (ss.map DataSet.num) ∧
    s'.world i = World.new s'.file ∧
    ∃ out, (s'.call i (.read .all header)).2 = .sets (.ok out) ∧
      ReadsAs out (ss.map (if header then DataSet.headerBack else DataSet.readBack)) := by
  intro s'
  obtain ⟨a1, ⟨bs, hbs, hf⟩, a3⟩ := overwrite_given h hs hb (s.world i) mode hm
  have hfile : ((s.world i).writeSets e mode fd ds).1.file = some (bs.flatMap closed) := by
    cases hw : ((s.world i).writeSets e mode fd ds).1.file with
    | none =>
      rw [hw] at hf
      simp only [Option.getD_none] at hf
      have hl := hbs.sets
      rw [← hf] at hl
      have : bs = [] := by rw [← hl]; decide
      have h0 := hbs.length
      rw [this] at h0
      exact absurd (List.length_eq_zero_iff.1 h0.symm) hs
    | some f => rw [hw] at hf; simp only [Option.getD_some] at hf; rw [hf]
  have hw : s'.world i = World.new (some (bs.flatMap closed)) := by
    rw [← hfile, ← a3]
    show (s.call i (.write e mode fd ds)).1.world i = _
    unfold Session.call Session.world
    simp only [if_true]
    rfl
  have hs' : s'.file = some (bs.flatMap closed) := hfile
  refine ⟨congrArg Out.wrote a1, ?_, by rw [hw, hs'], ?_⟩
  · show Out.types (s'.world i).getSetTypes.2 = _
    rw [hw, getSetTypes_new, hbs.sets, hbs.types]
  · obtain ⟨out, h1, h2⟩ := blocks_read hbs header
    refine ⟨out, ?_, h2⟩
    show Out.sets ((s'.world i).readSets .all header).2 = _
    rw [hw, h1]

/-- A history: object 0 adds a dictionary at which the writer fails, object 1 a data-set 151 (which is lost, see `C09_lost`), object
0 one of an unknown type. -/
def exTroubles : List (Nat × Call) :=
  [(0, .create), (0, .write exEnv "add".toList true [exBad]), (1, .write exEnv "ADD".toList true [ex151.dict]),
   (0, .read .all false), (0, .write exEnv "add".toList false [[("type", .int 9999)]]), (1, .refresh)]

/-- It meets the hypotheses, and shows that the failing call does leave something behind. -/
example : Terminated exPair ∧ setCount exPair = 2 ∧ (∀ p ∈ exTroubles, p.2.Appends) ∧
    (Session.run ⟨some exPair, fun _ => .empty⟩ exTroubles).2[1]? ≠ some (.wrote (.ok ())) ∧
    (Session.run ⟨some exPair, fun _ => .empty⟩ exTroubles).1.file ≠ some exPair := by
  refine ⟨by decide +kernel, by decide +kernel, ?_, by decide +kernel, by decide +kernel⟩
  intro p hp
  simp only [exTroubles, List.mem_cons, List.not_mem_nil, or_false] at hp
  rcases hp with rfl | rfl | rfl | rfl | rfl | rfl <;> first | trivial | (show lower _ ≠ _; decide)

/-- After it, and after overwriting with a data-set 151, object 1 still believes in the old file; object 0 and new objects see what has
been written. -/
example :
    let s := (Session.run ⟨some exPair, fun _ => .empty⟩ exTroubles).1
    let s' := (s.call 0 (.write exEnv "overwrite".toList true [ex151.dict])).1
    (s'.call 0 .types).2 = .types [151] ∧ (s'.call 2 .types).2 = .types [151] ∧ (s'.call 1 .nSets).2 ≠ .num 1 := by
  decide +kernel

/-- The hypotheses of `C62_repaired` hold for it. -/
example : GivenAll exEnv true [ex151.dict] [.s151 ex151] ∧ ∀ s, [DataSet.s151 ex151].head? = some s → ¬ s.Binary := by
  refine ⟨.cons (DS151.given _ _ _ ex151_ok) .nil, ?_⟩
  intro s hs
  cases hs
  exact id

end Verif
