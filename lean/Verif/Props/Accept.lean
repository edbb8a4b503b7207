import Verif.Lemmas.Accept58
import Verif.Props.Used
/-
C68: when exactly a call writes.
-/
namespace Verif
open W (JR jr_none)

/-- All types but functions (58). -/
def acceptTypes : List Int := [15, 18, 55, 82, 151, 164, 1858, 2400, 2411, 2412, 2414, 2420, 2429, 2467]

/-- A function, or a dictionary of one of these types, or of a type that is not supported, or without a type, with values of the kinds the
model covers. -/
def Covered (d : Dict) : Prop :=
  (d.get? "type" = some (.int 58) ∧ Known58 d) ∨
  d.get? "data" = none ∧ ∀ v, d.get? "type" = some v → ∃ t : Int, v = .int t ∧ (t ∈ acceptTypes ∨ t ∉ supported) ∧ described t d

/-- The dictionary has a type and can be written; for functions this depends on whether the call asks for double precision (`fd`). -/
def Acceptable (fd : Bool) (d : Dict) : Prop :=
  (∃ t : Int, d.get? "type" = some (.int t) ∧ writable t d = true) ∨ (d.get? "type" = some (.int 58) ∧ canWrite58 fd d = true)

theorem acc_type {fd : Bool} {d : Dict} (h : Acceptable fd d) (h58 : d.get? "type" ≠ some (.int 58)) :
    ∃ t : Int, d.get? "type" = some (.int t) ∧ writable t d = true := h.resolve_right fun h => h58 h.1

theorem dispatch_accept (e : Env) (fd : Bool) {t : Int} {d : Dict} (ht : t ∈ acceptTypes ∨ t ∉ supported) (hk : described t d) :
    JR (writeDispatch e fd (.int t)) d (writable t d = true) := by
  rcases ht with ht | ht
  · simp only [acceptTypes, List.mem_cons, List.not_mem_nil, or_false] at ht
    rcases ht with rfl | rfl | rfl | rfl | rfl | rfl | rfl | rfl | rfl | rfl | rfl | rfl | rfl | rfl
    · rw [disp15]; exact jr_none (accept15 hk)
    · rw [disp18]; exact jr_none (accept18 hk)
    · rw [disp55]; exact jr_none (accept55 hk)
    · rw [disp82]; exact jr_none (accept82 hk)
    · rw [disp151]; exact jr_none (accept151 _ _ hk)
    · rw [disp164]; exact jr_none (accept164 hk)
    · rw [disp1858]; exact jr_none (accept1858 hk)
    · rw [disp2400]; exact jr_none (accept2400 hk)
    · rw [disp2411]; exact jr_none (accept2411 hk)
    · rw [disp2412]; exact jr_none (accept2412 hk)
    · rw [disp2414]; exact jr_none (accept2414 hk)
    · rw [disp2420]; exact jr_none (accept2420 hk)
    · rw [disp2429]; exact jr_none (accept2429 hk)
    · rw [disp2467]; exact jr_none (accept2467 hk)
  · rw [dispatch_unsupported e fd _ ht]
    have hs : ∀ n : Int, n ∈ supported → t ≠ n := fun n hn h => ht (h ▸ hn)
    have h15 := hs 15 (by decide)
    have h18 := hs 18 (by decide)
    have h151 := hs 151 (by decide)
    have h164 := hs 164 (by decide)
    have h1858 := hs 1858 (by decide)
    have h2400 := hs 2400 (by decide)
    have h2411 := hs 2411 (by decide)
    have h2429 := hs 2429 (by decide)
    have h82 := hs 82 (by decide)
    have h2412 := hs 2412 (by decide)
    have h2420 := hs 2420 (by decide)
    have h2467 := hs 2467 (by decide)
    have h2414 := hs 2414 (by decide)
    have h55 := hs 55 (by decide)
    have h58 := hs 58 (by decide)
    have hc : writable t d = true := by
      unfold writable canWrite fieldsOf columnsOf
      simp only [h55, h58, h82, h2412, h2414, h2420, h2467, h15, h18, h151, h164, h1858, h2400, h2411, h2429, if_false, List.all_nil, Bool.and_self]
    exact ⟨⟨fun _ => hc, fun _ => rfl⟩, py_ok⟩

theorem body_accept (e : Env) (fd : Bool) {d : Dict} (h : Covered d) :
    ((writeBody e fd d).res.isOk = true ↔ Acceptable fd d) ∧ Py (writeBody e fd d).res := by
  unfold writeBody Acceptable
  rcases h with ⟨ht, hk⟩ | h
  · rw [ht]
    obtain ⟨d', h1, h2, h3⟩ := clean58 fd hk
    simp only [h1]
    have hr := accept58 e.little fd h2
    rw [← disp58, h3] at hr
    refine ⟨hr.ok.trans ⟨fun hw => .inr ⟨trivial, hw⟩, ?_⟩, hr.py⟩
    rintro (⟨t, ht', hw⟩ | ⟨-, hw⟩)
    · cases ht'
      cases hw
    · exact hw
  cases ht : d.get? "type" with
  | none =>
    refine ⟨⟨fun h => (by cases h), ?_⟩, fun h => by cases h⟩
    rintro (⟨_, h, _⟩ | ⟨h, _⟩) <;> cases h
  | some v =>
    obtain ⟨t, rfl, hs, hk⟩ := h.2 v ht
    have hcl : cleanData d = .ok d := by unfold cleanData; rw [h.1]
    rw [hcl]
    obtain ⟨h1, h2⟩ := dispatch_accept e fd hs hk
    refine ⟨h1.trans ⟨fun hw => .inl ⟨t, rfl, hw⟩, ?_⟩, h2⟩
    rintro (⟨t', e', hw⟩ | ⟨e', -⟩)
    · cases e'
      exact hw
    · cases e'
      rcases hs with hs | hs
      · exact absurd hs (by decide)
      · exact absurd (by decide) hs

theorem set_accept (w : World) (e : Env) (fd over : Bool) {d : Dict} (h : Covered d) :
    ((w.writeSet e fd over d).2.2 = .ok () ↔ Acceptable fd d) ∧ Py (w.writeSet e fd over d).2.2 := by
  obtain ⟨h1, h2⟩ := body_accept e fd h
  rw [← h1]
  unfold World.writeSet
  simp only
  cases hr : (writeBody e fd d).res with
  | ok a => exact ⟨⟨fun _ => rfl, fun _ => rfl⟩, py_ok⟩
  | error x => exact ⟨⟨fun h => (by cases h), fun h => (by cases h)⟩, fun h => h2 (by rw [hr]; cases h; rfl)⟩

theorem addAll_accept (fd : Bool) : ∀ (ds : List Dict) (w : World) (e : Env), (∀ d ∈ ds, Covered d) →
    ((World.addAll w e fd ds).2.2 = .ok () ↔ ∀ d ∈ ds, Acceptable fd d) ∧ Py (World.addAll w e fd ds).2.2
  | [], _, _, _ => ⟨⟨fun _ _ h => (by cases h), fun _ => rfl⟩, py_ok⟩
  | d :: ds, w, e, h => by
    obtain ⟨h1, h2⟩ := set_accept w e fd false (h d List.mem_cons_self)
    rw [List.forall_mem_cons, ← h1]
    unfold World.addAll
    rcases hw : w.writeSet e fd false d with ⟨w', d', r⟩
    rw [hw] at h2
    cases r with
    | error x => exact ⟨⟨fun h => (by cases h), fun h => (by cases h.1)⟩, h2⟩
    | ok u =>
      obtain ⟨h3, h4⟩ := addAll_accept fd ds w' e.next fun b hb => h b (List.mem_cons_of_mem _ hb)
      exact ⟨h3.trans ⟨fun g => ⟨rfl, g⟩, fun g => g.2⟩, h4⟩

/-- C68: a call succeeds exactly when the mode is known, there is something to write, and every dictionary has a type and acceptable
entries.  Nothing else matters: not the file, what the object knew about it, the clock, nor the other entries. -/
theorem C68_accept (w : World) (e : Env) (mode : Text) (fd : Bool) (ds : List Dict) (h : ∀ d ∈ ds, Covered d) :
    (w.writeSets e mode fd ds).2.2 = .ok () ↔
      (lower mode = "add".toList ∨ lower mode = "overwrite".toList) ∧ ds ≠ [] ∧ ∀ d ∈ ds, Acceptable fd d := by
  cases ds with
  | nil => exact ⟨fun h => (by cases h), fun h => absurd rfl h.2.1⟩
  | cons d ds =>
    by_cases hm : knownMode mode
    · obtain ⟨over, hw, -⟩ := writeSets_cons (w := w) (e := e) (fd := fd) (d := d) (ds := ds) hm
      rw [hw]
      obtain ⟨h1, -⟩ := set_accept w e fd over (h d List.mem_cons_self)
      rw [List.forall_mem_cons, ← h1]
      rcases hw' : w.writeSet e fd over d with ⟨w', d', r⟩
      cases r with
      | error x => exact ⟨fun h => (by cases h), fun h => (by cases h.2.2.1)⟩
      | ok u =>
        obtain ⟨h3, -⟩ := addAll_accept fd ds w' e.next fun b hb => h b (List.mem_cons_of_mem _ hb)
        exact h3.trans ⟨fun g => ⟨hm, by simp, rfl, g⟩, fun g => g.2.2.2⟩
    · have h1 : ¬ lower mode = "overwrite".toList := fun x => hm (.inr x)
      have h2 : ¬ lower mode = "add".toList := fun x => hm (.inl x)
      unfold World.writeSets
      simp only
      rw [if_neg h1, if_neg h2]
      exact ⟨fun h => (by cases h), fun h => absurd h.1 hm⟩

/-- C68: otherwise Python raises an exception; the model does not leave the outcome open. -/
theorem C68_refused (w : World) (e : Env) (mode : Text) (fd : Bool) (ds : List Dict) (h : ∀ d ∈ ds, Covered d) :
    (w.writeSets e mode fd ds).2.2 = .ok () ∨ ∃ x, (w.writeSets e mode fd ds).2.2 = .error x ∧ x ≠ .unmodelled := by
  have key : Py (w.writeSets e mode fd ds).2.2 := by
    cases ds with
    | nil => exact py_err (by decide)
    | cons d ds =>
      by_cases hm : knownMode mode
      · obtain ⟨over, hw, -⟩ := writeSets_cons (w := w) (e := e) (fd := fd) (d := d) (ds := ds) hm
        rw [hw]
        obtain ⟨-, h2⟩ := set_accept w e fd over (h d List.mem_cons_self)
        rcases hw' : w.writeSet e fd over d with ⟨w', d', r⟩
        rw [hw'] at h2
        cases r with
        | error x => exact h2
        | ok u => exact (addAll_accept fd ds w' e.next fun b hb => h b (List.mem_cons_of_mem _ hb)).2
      · have h1 : ¬ lower mode = "overwrite".toList := fun x => hm (.inr x)
        have h2 : ¬ lower mode = "add".toList := fun x => hm (.inl x)
        unfold World.writeSets
        simp only
        rw [if_neg h1, if_neg h2]
        exact py_err (by decide)
  cases hr : (w.writeSets e mode fd ds).2.2 with
  | ok u => exact .inl rfl
  | error x => exact .inr ⟨x, rfl, fun hx => key (by rw [hr, hx])⟩

/-! Cases. -/

theorem known_items {v : Val} {K : EntryKind} {l : List Val} (hl : v.items = .ok l) (ha : l.all K.known = true) {i : Nat} {x : Val} (hx : v.idx i = .ok x) :
    K.known x = true := by
  have hd : ∀ l, v ≠ .dict l := by rintro l rfl; cases hl
  rcases items_len hd with ⟨l', h1, -, h3⟩ | ⟨h1, -⟩
  · rw [hl] at h1
    cases h1
    rw [h3] at hx
    cases hg : l[i]? with
    | none => rw [hg] at hx; cases hx
    | some y =>
      rw [hg] at hx
      cases hx
      exact List.all_eq_true.1 ha _ (List.mem_of_getElem? hg)
  · rw [hl] at h1; cases h1

/-- The entries are covered. -/
def entriesB (d : Dict) (F : List (String × EntryKind × Bool)) : Bool :=
  F.all fun f => match d.get? (.s f.1) with
    | none => true
    | some v => f.2.1.known v
/-- The items of the lists are covered. -/
def columnsB (d : Dict) (F : List (String × EntryKind × Bool)) : Bool :=
  F.all fun f => match d.get? (.s f.1) with
    | none => true
    | some v => match v.items with
      | .ok l => l.all f.2.1.known
      | .error _ => false

theorem entries_of {d : Dict} {F : List (String × EntryKind × Bool)} (h : entriesB d F = true) :
    ∀ f ∈ F, ∀ v, d.get? (.s f.1) = some v → f.2.1.known v = true := by
  intro f hf v hv
  have := List.all_eq_true.1 h f hf
  simp only [hv] at this
  exact this

theorem columns_of {d : Dict} {F : List (String × EntryKind × Bool)} (h : columnsB d F = true) : ∀ f ∈ F, ∀ v, d.get? (.s f.1) = some v →
    (∀ l, v ≠ .dict l) ∧ ∀ i x, v.idx i = .ok x → f.2.1.known x = true := by
  intro f hf v hv
  have := List.all_eq_true.1 h f hf
  simp only [hv] at this
  cases hi : v.items with
  | error e => rw [hi] at this; cases this
  | ok l =>
    rw [hi] at this
    exact ⟨fun l' h' => (by rw [h'] at hi; cases hi), fun i x hx => known_items hi this hx⟩

/-- The items of a list pass the check. -/
def itemsB (P : Val → Bool) (d : Dict) (k : String) : Bool :=
  match d.get? (.s k) with
  | none => true
  | some v => match v.items with
    | .ok l => l.all P
    | .error _ => false
/-- A row is covered. -/
def floatsB (v : Val) : Bool :=
  match v.items with
  | .ok l => l.all scalarKnown
  | .error _ => false
/-- Rows are covered. -/
def rowsB (v : Val) : Bool :=
  match v.items with
  | .ok l => l.all floatsB
  | .error _ => false

theorem itemsB_of {P : Val → Bool} {d : Dict} {k : String} (h : itemsB P d k = true) {v x : Val} {i : Nat} (hv : d.get? (.s k) = some v)
    (hx : v.idx i = .ok x) : P x = true := by
  unfold itemsB at h
  rw [hv] at h
  simp only at h
  cases hl : v.items with
  | error e => rw [hl] at h; cases h
  | ok l =>
    rw [hl] at h
    have hd : ∀ l, v ≠ .dict l := by rintro l rfl; cases hl
    rcases items_len hd with ⟨l', h1, -, h3⟩ | ⟨h1, -⟩
    · rw [hl] at h1
      cases h1
      rw [h3] at hx
      cases hg : l[i]? with
      | none => rw [hg] at hx; cases hx
      | some y =>
        rw [hg] at hx
        cases hx
        exact List.all_eq_true.1 h _ (List.mem_of_getElem? hg)
    · rw [hl] at h1; cases h1

theorem floatsB_of {v : Val} (h : floatsB v = true) : floatsKnown v := by
  unfold floatsB at h
  refine ⟨fun l hl => (by subst hl; cases h), fun l hl x hx => ?_⟩
  rw [hl] at h
  exact List.all_eq_true.1 h x hx

theorem rowsB_of {v : Val} (h : rowsB v = true) : rowsKnown v := by
  unfold rowsB at h
  refine ⟨fun l hl => (by subst hl; cases h), fun l hl x hx => ?_⟩
  rw [hl] at h
  exact floatsB_of (List.all_eq_true.1 h x hx)

/-- All values are covered, checked by looking at them. -/
def knownB (t : Int) (d : Dict) : Bool :=
  if t = 82 then entriesB d fields82 && match d.get? "nodes" with
    | some (.arrC _) | some (.mat _) => false
    | _ => true
  else if t = 2412 then d.all fun kv => match kv.1 with
    | .s _ => true
    | .i _ => match kv.2 with
      | .dict _ => false
      | v => match v.items with
        | .ok l => l.all fun e => match e with
          | .dict e => entriesB e (fieldsElem ++ fieldsRod ++ [("nodes_nums", .ints, false)])
          | _ => true
        | .error _ => true
  else if t = 2420 then entriesB d fields2420 && columnsB d cols2420
  else if t = 2467 then match d.get? "groups" with
    | none => true
    | some v => match v.items with
      | .ok l => l.all fun g => match g with
        | .dict g => entriesB g fieldsGroup && columnsB g colsGroup
        | _ => true
      | .error _ => false
  else if t = 2414 then entriesB d (headResults ++ headFreq ++ headPlain) &&
    (["node_nums", "element_nums", "IEXP", "number_of_nodes", "number_of_values_per_node"].all (itemsB scalarKnown d) &&
      (["x", "y", "z"].all (itemsB numberKnown d) && (["data_at_node", "data_at_element"].all (itemsB floatsB d) &&
        itemsB rowsB d "data_at_nodes_on_element")))
  else if t = 55 then entriesB d (headNodes ++ headNormal ++ headStep ++ headComplex) &&
    ((["eig", "modal_a", "modal_b"].all fun k => match d.get? (.s k) with
      | none => true
      | some v => single v) && (itemsB scalarKnown d "node_nums" && match d.get? "r1" with
        | none => true
        | some r => (match r with
          | .list l => l.all fun x => single x && match x with
            | .dict _ => false
            | _ => true
          | _ => true) && ["r1", "r2", "r3", "r4", "r5", "r6"].all (itemsB (if complexData r then single else scalarKnown) d)))
  else entriesB d (fieldsOf t) && match columnsOf t with
    | none => true
    | some (_, _, cols) => columnsB d cols

theorem counted {t : Int} : ∀ count places cols, columnsOf t = some (count, places, cols) → ∃ f ∈ cols, f.1 = count := by
  intro count places cols h
  unfold columnsOf at h
  split at h
  · cases h; exact ⟨_, List.mem_cons_self, rfl⟩
  split at h
  · cases h; exact ⟨_, List.mem_cons_self, rfl⟩
  split at h
  · cases h; exact ⟨_, List.mem_cons_self, rfl⟩
  split at h
  · cases h; exact ⟨_, List.mem_cons_self, rfl⟩
  · cases h

theorem described_of {t : Int} {d : Dict} (h : knownB t d = true) : described t d := by
  unfold knownB at h
  unfold described
  by_cases h82 : t = 82
  · rw [if_pos h82] at h ⊢
    rw [Bool.and_eq_true] at h
    refine ⟨entries_of h.1, fun v hv => ?_⟩
    have := h.2
    rw [hv] at this
    exact ⟨fun l hl => (by subst hl; cases this), fun l hl => by subst hl; cases this⟩
  rw [if_neg h82] at h ⊢
  by_cases h2412 : t = 2412
  · rw [if_pos h2412] at h ⊢
    rintro ⟨k, v⟩ hkv n hn
    cases hn
    have := List.all_eq_true.1 h _ hkv
    simp only at this
    have hd : ∀ l, v ≠ .dict l := fun l hl => by subst hl; cases this
    refine ⟨hd, fun l hl e he g hg => ?_⟩
    subst hg
    have hv : (match v.items with
        | .ok l => l.all fun e => match e with
          | .dict e => entriesB e (fieldsElem ++ fieldsRod ++ [("nodes_nums", EntryKind.ints, false)])
          | _ => true
        | .error _ => true) = true := by
      cases v with
      | dict l => exact absurd rfl (hd l)
      | _ => exact this
    rw [hl] at hv
    exact entries_of (List.all_eq_true.1 hv _ he)
  rw [if_neg h2412] at h ⊢
  by_cases h2420 : t = 2420
  · rw [if_pos h2420] at h ⊢
    rw [Bool.and_eq_true] at h
    exact ⟨entries_of h.1, fun f hf v i x hv hx => (columns_of h.2 f hf v hv).2 i x hx⟩
  rw [if_neg h2420] at h ⊢
  by_cases h2467 : t = 2467
  · rw [if_pos h2467] at h ⊢
    intro v hv
    rw [hv] at h
    simp only at h
    refine ⟨fun l hl => (by subst hl; cases h), fun l hl e he g hg => ?_⟩
    subst hg
    rw [hl] at h
    have := List.all_eq_true.1 h _ he
    simp only [Bool.and_eq_true] at this
    exact ⟨entries_of this.1, fun f hf v i x hv hx => (columns_of this.2 f hf v hv).2 i x hx⟩
  rw [if_neg h2467] at h ⊢
  by_cases h2414 : t = 2414
  · rw [if_pos h2414] at h ⊢
    simp only [Bool.and_eq_true] at h
    obtain ⟨g1, g2, g3, g4, g5⟩ := h
    exact ⟨entries_of g1, fun k hk v i x hv hx => itemsB_of (List.all_eq_true.1 g2 k hk) hv hx,
      fun k hk v i x hv hx => itemsB_of (List.all_eq_true.1 g3 k hk) hv hx,
      fun k hk v i x hv hx => floatsB_of (itemsB_of (List.all_eq_true.1 g4 k hk) hv hx),
      fun v i x hv hx => rowsB_of (itemsB_of g5 hv hx)⟩
  rw [if_neg h2414] at h ⊢
  by_cases h55 : t = 55
  · rw [if_pos h55] at h ⊢
    simp only [Bool.and_eq_true] at h
    obtain ⟨g1, g2, g3, g4⟩ := h
    refine ⟨entries_of g1, fun k hk v hv => ?_, fun l hl x hx => ?_, fun v hv => ⟨fun g hg => ?_, fun i x hx => itemsB_of g3 hv hx⟩, fun r hr k hk v i x hv hx => ?_⟩
    · have := List.all_eq_true.1 g2 k hk
      simp only [hv] at this
      exact this
    · rw [hl] at g4
      simp only [Bool.and_eq_true] at g4
      have := List.all_eq_true.1 g4.1 x hx
      rw [Bool.and_eq_true] at this
      exact ⟨this.1, fun g hg => (by subst hg; cases this.2)⟩
    · subst hg
      unfold itemsB at g3
      rw [hv] at g3
      cases g3
    · rw [hr] at g4
      simp only [Bool.and_eq_true] at g4
      have := itemsB_of (List.all_eq_true.1 g4.2 k hk) hv hx
      by_cases hc : complexData r = true
      · rw [if_pos hc] at this ⊢
        exact this
      · rw [if_neg hc] at this ⊢
        exact this
  rw [if_neg h55] at h ⊢
  rw [Bool.and_eq_true] at h
  refine ⟨entries_of h.1, fun count places cols he => ?_⟩
  have h2 := h.2
  rw [he] at h2
  refine ⟨fun v hv => ?_, fun f hf v i x hv hx => (columns_of h2 f hf v hv).2 i x hx⟩
  obtain ⟨f, hf, rfl⟩ := counted _ _ _ he
  exact (columns_of h2 f hf v hv).1

theorem covered_of {t : Int} {d : Dict} (hd : d.get? "data" = none) (ht : d.get? "type" = some (.int t)) (hs : t ∈ acceptTypes ∨ t ∉ supported)
    (hk : knownB t d = true) : Covered d :=
  .inr ⟨hd, fun v hv => by rw [ht] at hv; cases hv; exact ⟨t, rfl, hs, described_of hk⟩⟩

/-- A not-a-number among the node numbers. -/
def exNan15 : Dict := min15_0.set "node_nums" (.arrF [⟨false, F64.infMag + 1, by decide⟩])
/-- The same with nodes in double precision. -/
def exNan2411 : Dict := min2411_0.set "node_nums" (.arrF [⟨false, F64.infMag + 1, by decide⟩])
/-- Five entities, four tags. -/
def exShort2429 : Dict := (min2429_0.set "entity_type_code" (.arrI [7, 7, 7, 7, 7])).set "entity_tag" (.arrI [1, 2, 3, 4])

/-- Two coordinate systems without types and colours. -/
def exTwo2420 : Dict := ((min2420_0.set "CS_sys_labels" (.arrI [1, 2])).set "CS_names" (.list [.str ['a'], .str ['b']])).set "CS_matrices"
  (.list [.mat [[fA, fB, fA], [fA, fB, fA], [fA, fB, fA], [fA, fB, fA]], .mat [[fA, fB, fA], [fA, fB, fA], [fA, fB, fA], [fA, fB, fA]]])
/-- A group with a number, a name and an entity. -/
def exPlainGroup : Dict := [((.s "group_number" : Key), Val.int 1), ("group_name", .str ['a']), ("entity_type_code", .arrI [7]), ("entity_tag", .arrI [1]),
  ("entity_node_leaf_id", .arrI [0]), ("entity_component_id", .arrI [0])]
/-- It, with the numbers of the active sets beside it. -/
def ex2467Plain : Dict := [((.s "type" : Key), Val.int 2467), ("groups", .list [.dict exPlainGroup])]
/-- It, with the numbers of the active sets in it. -/
def ex2467Full : Dict := [((.s "type" : Key), Val.int 2467), ("groups", .list [.dict (exPlainGroup ++ optGroup)])]
/-- A rod and a triangle. -/
def ex2412Two : Dict := [((.s "type" : Key), Val.int 2412), (.i 2, .list [.dict [((.s "element_nums" : Key), Val.int 1), ("fe_descriptor", .int 11), ("phys_table", .int 1),
  ("mat_table", .int 1), ("color", .int 1), ("num_nodes", .int 2), ("beam_orientation", .int 0), ("beam_foreend_cross", .int 1), ("beam_aftend_cross", .int 1),
  ("nodes_nums", .arrI [1, 2])]]), (.i 3, .list [.dict [((.s "element_nums" : Key), Val.int 2), ("fe_descriptor", .int 91), ("phys_table", .int 1),
  ("mat_table", .int 1), ("color", .int 1), ("num_nodes", .int 3), ("nodes_nums", .arrI [1, 2, 3])]])]

theorem cov_more : ∀ d ∈ [min82_0, min2420_0, exTwo2420, ex2467Plain, ex2467Full, ex2412Two], Covered d := by
  simp only [List.forall_mem_cons, List.not_mem_nil, false_implies, implies_true, and_true]
  exact ⟨covered_of (t := 82) (by decide +kernel) (by decide +kernel) (by decide) (by decide +kernel),
    covered_of (t := 2420) (by decide +kernel) (by decide +kernel) (by decide) (by decide +kernel),
    covered_of (t := 2420) (by decide +kernel) (by decide +kernel) (by decide) (by decide +kernel),
    covered_of (t := 2467) (by decide +kernel) (by decide +kernel) (by decide) (by decide +kernel),
    covered_of (t := 2467) (by decide +kernel) (by decide +kernel) (by decide) (by decide +kernel),
    covered_of (t := 2412) (by decide +kernel) (by decide +kernel) (by decide) (by decide +kernel)⟩

theorem cov_min : ∀ d ∈ [min15_0, min18_0, min151_0, min164_0, min1858_0, min2411_0, min2429_0, exShort2429, exNan15, exNan2411,
    [((.s "type" : Key), Val.int 999)], [((.s "type" : Key), Val.int 2400)]], Covered d := by
  simp only [List.forall_mem_cons, List.not_mem_nil, false_implies, implies_true, and_true]
  exact ⟨covered_of (t := 15) (by decide +kernel) (by decide +kernel) (by decide) (by decide +kernel),
    covered_of (t := 18) (by decide +kernel) (by decide +kernel) (by decide) (by decide +kernel),
    covered_of (t := 151) (by decide +kernel) (by decide +kernel) (by decide) (by decide +kernel),
    covered_of (t := 164) (by decide +kernel) (by decide +kernel) (by decide) (by decide +kernel),
    covered_of (t := 1858) (by decide +kernel) (by decide +kernel) (by decide) (by decide +kernel),
    covered_of (t := 2411) (by decide +kernel) (by decide +kernel) (by decide) (by decide +kernel),
    covered_of (t := 2429) (by decide +kernel) (by decide +kernel) (by decide) (by decide +kernel),
    covered_of (t := 2429) (by decide +kernel) (by decide +kernel) (by decide) (by decide +kernel),
    covered_of (t := 15) (by decide +kernel) (by decide +kernel) (by decide) (by decide +kernel),
    covered_of (t := 2411) (by decide +kernel) (by decide +kernel) (by decide) (by decide +kernel),
    covered_of (t := 999) (by decide +kernel) (by decide +kernel) (by decide) (by decide +kernel),
    covered_of (t := 2400) (by decide +kernel) (by decide +kernel) (by decide) (by decide +kernel)⟩

/-- One dictionary of each type, with only what is needed, into any file. -/
example (w : World) (e : Env) (fd : Bool) : (w.writeSets e "add".toList fd [min15_0, min18_0, min151_0, min164_0, min1858_0,
    [((.s "type" : Key), Val.int 2400)], min2411_0, min2429_0, [((.s "type" : Key), Val.int 999)]]).2.2 = .ok () := by
  refine (C68_accept w e _ fd _ fun d hd => cov_min d ?_).2 ⟨.inl (by decide), by simp, ?_⟩
  · simp only [List.mem_cons, List.not_mem_nil, or_false] at hd ⊢
    tauto
  · simp only [List.forall_mem_cons, List.not_mem_nil, false_implies, implies_true, and_true]
    exact ⟨.inl ⟨15, by decide +kernel, by decide +kernel⟩, .inl ⟨18, by decide +kernel, by decide +kernel⟩, .inl ⟨151, by decide +kernel, by decide +kernel⟩,
      .inl ⟨164, by decide +kernel, by decide +kernel⟩, .inl ⟨1858, by decide +kernel, by decide +kernel⟩, .inl ⟨2400, by decide +kernel, by decide +kernel⟩,
      .inl ⟨2411, by decide +kernel, by decide +kernel⟩, .inl ⟨2429, by decide +kernel, by decide +kernel⟩, .inl ⟨999, by decide +kernel, by decide +kernel⟩⟩

/-- C68: what is accepted is not always what makes sense.  A node number that is not a number is written by data-set 15 and refused by
2411; five entities with four tags are a group that is written. -/
theorem C68_odd (w : World) (e : Env) (mode : Text) (hm : lower mode = "add".toList ∨ lower mode = "overwrite".toList) (fd : Bool) :
    (w.writeSets e mode fd [exNan15]).2.2 = .ok () ∧
    (w.writeSets e mode fd [exNan2411]).2.2 ≠ .ok () ∧
    (w.writeSets e mode fd [exShort2429]).2.2 = .ok () := by
  have one : ∀ d ∈ [exNan15, exNan2411, exShort2429], (w.writeSets e mode fd [d]).2.2 = .ok () ↔ Acceptable fd d := by
    intro d hd
    rw [C68_accept w e mode fd [d] (by
      intro b hb
      rw [List.mem_singleton.1 hb]
      apply cov_min
      simp only [List.mem_cons, List.not_mem_nil, or_false] at hd ⊢
      tauto)]
    exact ⟨fun h => h.2.2 d List.mem_cons_self, fun h => ⟨hm, by simp, fun b hb => by rw [List.mem_singleton.1 hb]; exact h⟩⟩
  refine ⟨(one _ (by simp)).2 (.inl ⟨15, by decide +kernel, by decide +kernel⟩), fun h => ?_, (one _ (by simp)).2 (.inl ⟨2429, by decide +kernel, by decide +kernel⟩)⟩
  have ht : exNan2411.get? "type" = some (.int 2411) := by decide +kernel
  obtain ⟨t, h1, h2⟩ := acc_type ((one _ (by simp)).1 h) (by rw [ht]; decide)
  rw [ht] at h1
  cases h1
  exact absurd h2 (by decide +kernel)

/-- Trace lines, elements, coordinate systems and groups into any file. -/
example (w : World) (e : Env) (fd : Bool) : (w.writeSets e "add".toList fd [min82_0, ex2412Two, min2420_0, ex2467Full]).2.2 = .ok () := by
  refine (C68_accept w e _ fd _ fun d hd => cov_more d ?_).2 ⟨.inl (by decide), by simp, ?_⟩
  · simp only [List.mem_cons, List.not_mem_nil, or_false] at hd ⊢
    tauto
  · simp only [List.forall_mem_cons, List.not_mem_nil, false_implies, implies_true, and_true]
    exact ⟨.inl ⟨82, by decide +kernel, by decide +kernel⟩, .inl ⟨2412, by decide +kernel, by decide +kernel⟩, .inl ⟨2420, by decide +kernel, by decide +kernel⟩,
      .inl ⟨2467, by decide +kernel, by decide +kernel⟩⟩

/-- C68: the default lists of data-set 2420 have one item, so without types or without colours only a data-set with exactly one coordinate
system can be written, whatever else it has. -/
theorem C68_defaults_2420 (w : World) (e : Env) (mode : Text) (fd : Bool) (ds : List Dict) (h : ∀ d ∈ ds, Covered d) (d : Dict) (hd : d ∈ ds)
    (ht : d.get? "type" = some (.int 2420)) (k : String) (hk : k = "CS_types" ∨ k = "CS_colors") (hn : d.get? (.s k) = none)
    (v : Val) (hv : d.get? "CS_sys_labels" = some v) (hl : v.len ≠ .ok 1) : (w.writeSets e mode fd ds).2.2 ≠ .ok () := by
  intro hw
  obtain ⟨t, h1, h2⟩ := acc_type (((C68_accept w e mode fd ds h).1 hw).2.2 d hd) (by rw [ht]; decide)
  rw [ht] at h1
  cases h1
  have h2 : canWrite2420 d = true := h2
  unfold canWrite2420 at h2
  rw [hv] at h2
  simp only [Bool.and_eq_true] at h2
  cases hlen : v.len with
  | error x => rw [hlen] at h2; cases h2.2
  | ok n =>
    rw [hlen] at h2
    simp only [Bool.and_eq_true, List.all_eq_true] at h2
    have := h2.2.1 (k, true) (by rcases hk with rfl | rfl <;> simp [same2420])
    unfold lengthOk at this
    rw [hn] at this
    have hn1 : n = 1 := by simpa using this
    exact hl (by rw [hlen, hn1])

example (w : World) (e : Env) (fd : Bool) : (w.writeSets e "add".toList fd [min2420_0, exTwo2420]).2.2 ≠ .ok () :=
  C68_defaults_2420 w e _ fd _ (fun d hd => cov_more d (by simp only [List.mem_cons, List.not_mem_nil, or_false] at hd ⊢; tauto)) exTwo2420 (by simp)
    (by decide +kernel) "CS_types" (.inl rfl) (by decide +kernel) (.arrI [1, 2]) (by decide +kernel) (by decide)

/-- C68: the defaults of data-set 2467 are set beside the groups, not in them: a group without one of the numbers of active sets cannot be
written, whatever the dictionary has beside the groups. -/
theorem C68_defaults_2467 (w : World) (e : Env) (mode : Text) (fd : Bool) (ds : List Dict) (h : ∀ d ∈ ds, Covered d) (d : Dict) (hd : d ∈ ds)
    (ht : d.get? "type" = some (.int 2467)) (l : List Val) (hv : d.get? "groups" = some (.list l)) (g : Dict) (hg : .dict g ∈ l)
    (k : String) (hk : k ∈ ["active_constraint_set_no_for_group", "active_restraint_set_no_for_group", "active_load_set_no_for_group",
      "active_dof_set_no_for_group", "active_temperature_set_no_for_group", "active_contact_set_no_for_group"]) (hn : g.get? (.s k) = none) :
    (w.writeSets e mode fd ds).2.2 ≠ .ok () := by
  intro hw
  obtain ⟨t, h1, h2⟩ := acc_type (((C68_accept w e mode fd ds h).1 hw).2.2 d hd) (by rw [ht]; decide)
  rw [ht] at h1
  cases h1
  have h2 : canWrite2467 d = true := h2
  unfold canWrite2467 at h2
  rw [hv] at h2
  have h3 := List.all_eq_true.1 h2 _ hg
  unfold groupOk at h3
  rw [Bool.and_eq_true] at h3
  have := List.all_eq_true.1 h3.1 (k, .int, false) (by
    simp only [List.mem_cons, List.not_mem_nil, or_false] at hk
    rcases hk with rfl | rfl | rfl | rfl | rfl | rfl <;> simp [fieldsGroup])
  unfold entryOk at this
  rw [hn] at this
  cases this

example (w : World) (e : Env) (fd : Bool) : (w.writeSets e "add".toList fd [min82_0, ex2467Plain]).2.2 ≠ .ok () :=
  C68_defaults_2467 w e _ fd _ (fun d hd => cov_more d (by simp only [List.mem_cons, List.not_mem_nil, or_false] at hd ⊢; tauto)) ex2467Plain (by simp)
    (by decide +kernel) [.dict exPlainGroup] (by decide +kernel) exPlainGroup (by simp) "active_dof_set_no_for_group" (by simp) (by decide +kernel)

/-- Results at nodes. -/
def exAtNodes : Dict := ((min2414_0.set "dataset_location" (.int 1)).set "node_nums" (.arrI [1, 2])).set "data_at_node" (.list [.arrF [fA, fB], .list [.int 1, .bool true]])
/-- The node numbers as a list. -/
def exNodeList : Dict := exAtNodes.set "node_nums" (.list [.int 1, .int 2])
/-- A value that is a text. -/
def exTextValue : Dict := exAtNodes.set "data_at_node" (.list [.arrF [fA, fB], .list [.int 1, .str ['2']]])
/-- Results at a location the writer does not know. -/
def exElsewhere : Dict := exAtNodes.set "dataset_location" (.int 4)
/-- Results on elements and at nodes on elements. -/
def exOnElems : Dict := ((min2414_0.set "dataset_location" (.int 2)).set "element_nums" (.arrI [4])).set "data_at_element" (.list [.arrF [fA, fB]])
/-- The other one. -/
def exOnElemNodes : Dict := (((((min2414_0.set "dataset_location" (.int 3)).set "element_nums" (.arrI [4])).set "IEXP" (.arrI [1])).set "number_of_nodes" (.arrI [2])).set
  "number_of_values_per_node" (.arrI [2])).set "data_at_nodes_on_element" (.list [.mat [[fA, fB], [fC, fA]]])
/-- A frequency response. -/
def exResponse : Dict := (min2414_5.set "number_of_data_values_for_the_data_component" (.int 1)).set "x" (.arrC [(fA, fB)])
/-- Six values per node, none of which is written. -/
def exSixValues : Dict := exResponse.set "number_of_data_values_for_the_data_component" (.int 6)

theorem cov_results : ∀ d ∈ [min2414_0, min2414_5, exAtNodes, exNodeList, exTextValue, exElsewhere, exOnElems, exOnElemNodes, exResponse, exSixValues], Covered d := by
  have one : ∀ d ∈ [min2414_0, min2414_5, exAtNodes, exNodeList, exTextValue, exElsewhere, exOnElems, exOnElemNodes, exResponse, exSixValues],
      d.get? "data" = none ∧ d.get? "type" = some (.int 2414) ∧ knownB 2414 d = true := by decide +kernel
  intro d hd
  obtain ⟨h1, h2, h3⟩ := one d hd
  exact covered_of h1 h2 (by decide) h3

/-- Results of all kinds into any file. -/
example (w : World) (e : Env) (fd : Bool) : (w.writeSets e "overwrite".toList fd [min2414_0, min2414_5, exAtNodes, exElsewhere, exOnElems, exOnElemNodes, exResponse,
    exSixValues]).2.2 = .ok () := by
  refine (C68_accept w e _ fd _ fun d hd => cov_results d ?_).2 ⟨.inr (by decide), by simp, ?_⟩
  · simp only [List.mem_cons, List.not_mem_nil, or_false] at hd ⊢
    tauto
  · have all : ∀ d ∈ [min2414_0, min2414_5, exAtNodes, exElsewhere, exOnElems, exOnElemNodes, exResponse, exSixValues],
      d.get? "type" = some (.int 2414) ∧ writable 2414 d = true := by decide +kernel
    exact fun d hd => .inl ⟨2414, all d hd⟩
/-- A text among the values is refused. -/
example (w : World) (e : Env) (mode : Text) (fd : Bool) : (w.writeSets e mode fd [exAtNodes, exTextValue]).2.2 ≠ .ok () := by
  intro h
  have ht : exTextValue.get? "type" = some (.int 2414) := by decide +kernel
  obtain ⟨t, h1, h2⟩ := acc_type (((C68_accept w e _ fd _ fun d hd => cov_results d (by
    simp only [List.mem_cons, List.not_mem_nil, or_false] at hd ⊢
    tauto)).1 h).2.2 exTextValue (by simp)) (by rw [ht]; decide)
  rw [ht] at h1
  cases h1
  exact absurd h2 (by decide +kernel)

/-- C68: node numbers of results must be an array.  A list of the same numbers, which all other writers take, is refused. -/
theorem C68_results_array (w : World) (e : Env) (mode : Text) (fd : Bool) (ds : List Dict) (h : ∀ d ∈ ds, Covered d) (d : Dict) (hd : d ∈ ds)
    (ht : d.get? "type" = some (.int 2414)) (a : Int) (ha : d.get? "analysis_type" = some (.int a))
    (hl : a = 5 ∨ d.get? "dataset_location" = some (.int 1)) (l : List Val) (hn : d.get? "node_nums" = some (.list l)) :
    (w.writeSets e mode fd ds).2.2 ≠ .ok () := by
  intro hw
  obtain ⟨t, h1, h2⟩ := acc_type (((C68_accept w e mode fd ds h).1 hw).2.2 d hd) (by rw [ht]; decide)
  rw [ht] at h1
  cases h1
  have h2 : canWrite2414 d = true := h2
  unfold canWrite2414 at h2
  rw [Bool.and_eq_true] at h2
  have no : ∀ P, forRows d "node_nums" P = false := fun P => by
    unfold forRows
    rw [hn]
    rfl
  have is5 : entryIs d "analysis_type" 5 = (a == 5) := by
    unfold entryIs
    rw [ha]
    rfl
  by_cases h5 : a = 5
  · have h3 := h2.2
    rw [is5, h5, if_pos (by decide)] at h3
    unfold freqOk at h3
    rw [no, Bool.and_false] at h3
    cases h3
  · have h3 := h2.2
    have hb : (a == 5) = false := beq_eq_false_iff_ne.2 h5
    rw [is5, hb, if_neg (by decide)] at h3
    have hl := hl.resolve_left h5
    have is1 : entryIs d "dataset_location" 1 = true := by
      unfold entryIs
      rw [hl]
      rfl
    unfold plainOk locOk at h3
    rw [if_pos is1, no, Bool.and_false] at h3
    cases h3

example (w : World) (e : Env) (mode : Text) (fd : Bool) : (w.writeSets e mode fd [exAtNodes, exNodeList]).2.2 ≠ .ok () :=
  C68_results_array w e mode fd _ (fun d hd => cov_results d (by simp only [List.mem_cons, List.not_mem_nil, or_false] at hd ⊢; tauto)) exNodeList (by simp)
    (by decide +kernel) 0 (by decide +kernel) (.inr (by decide +kernel)) [.int 1, .int 2] (by decide +kernel)

/-- C68: results whose location is not one of 1, 2, 3 are written whenever their header can be, whatever their data: the data are not
looked at. -/
theorem C68_results_dropped (w : World) (e : Env) (mode : Text) (hm : lower mode = "add".toList ∨ lower mode = "overwrite".toList) (fd : Bool) (d : Dict)
    (h : Covered d) (ht : d.get? "type" = some (.int 2414)) (a : Int) (ha : d.get? "analysis_type" = some (.int a)) (h5 : a ≠ 5)
    (l : Int) (hl : d.get? "dataset_location" = some (.int l)) (h1 : l ≠ 1) (h2 : l ≠ 2) (h3 : l ≠ 3) :
    (w.writeSets e mode fd [d]).2.2 = .ok () ↔ ∀ f ∈ headResults ++ headPlain, entryOk d f = true := by
  have isA : entryIs d "analysis_type" 5 = (a == 5) := by
    unfold entryIs
    rw [ha]
    rfl
  have isL : ∀ n, entryIs d "dataset_location" n = (l == n) := fun n => by
    unfold entryIs
    rw [hl]
    rfl
  have key : canWrite2414 d = true ↔ ∀ f ∈ headResults ++ headPlain, entryOk d f = true := by
    unfold canWrite2414 plainOk locOk
    rw [isA, isL, isL, isL, beq_eq_false_iff_ne.2 h5, beq_eq_false_iff_ne.2 h1, beq_eq_false_iff_ne.2 h2, beq_eq_false_iff_ne.2 h3]
    simp only [Bool.false_eq_true, if_false, Bool.and_true, Bool.and_eq_true, List.all_eq_true]
    rw [List.forall_mem_append]
  rw [C68_accept w e mode fd [d] (fun b hb => by rw [List.mem_singleton.1 hb]; exact h), ← key]
  constructor
  · intro g
    obtain ⟨t, g1, g2⟩ := acc_type (g.2.2 d List.mem_cons_self) (by rw [ht]; decide)
    rw [ht] at g1
    cases g1
    exact g2
  · intro g
    refine ⟨hm, by simp, fun b hb => ?_⟩
    rw [List.mem_singleton.1 hb]
    exact .inl ⟨2414, ht, g⟩

example (w : World) (e : Env) (fd : Bool) : (w.writeSets e "add".toList fd [exElsewhere]).2.2 = .ok () :=
  (C68_results_dropped w e _ (.inl (by decide)) fd exElsewhere (cov_results _ (by simp)) (by decide +kernel) 0 (by decide +kernel) (by decide) 4 (by decide +kernel)
    (by decide) (by decide) (by decide)).2 (by decide +kernel)

/-- A complex component and a real one, as lists, with components 4 to 6 that are not numbers. -/
def exMixed55 : Dict := ((((min55_3.set "r1" (.list [.cplx fA fB])).set "r2" (.list [.int 1])).set "r4" (.list [.str ['a']])).set "r5" (.list [])).set "r6" (.arrF [])
/-- The same with a real first component: now the components 4 to 6 are written. -/
def exReal55 : Dict := exMixed55.set "r1" (.list [.float fA])
/-- A modal mass that is a text. -/
def exText55 : Dict := min55_3.set "modal_a" (.str ['1'])
/-- An analysis type that is not known. -/
def exStatic55 : Dict := min55_2.set "analysis_type" (.int 1)

theorem cov_nodes : ∀ d ∈ [min55_2, min55_3, min55_5, min55_7, exMixed55, exReal55, exText55, exStatic55], Covered d := by
  have one : ∀ d ∈ [min55_2, min55_3, min55_5, min55_7, exMixed55, exReal55, exText55, exStatic55],
      d.get? "data" = none ∧ d.get? "type" = some (.int 55) ∧ knownB 55 d = true := by decide +kernel
  intro d hd
  obtain ⟨h1, h2, h3⟩ := one d hd
  exact covered_of h1 h2 (by decide) h3

/-- Data at nodes of all analysis types into any file. -/
example (w : World) (e : Env) (fd : Bool) : (w.writeSets e "Add".toList fd [min55_2, min55_3, min55_5, min55_7, exMixed55]).2.2 = .ok () := by
  refine (C68_accept w e _ fd _ fun d hd => cov_nodes d ?_).2 ⟨.inl (by decide), by simp, ?_⟩
  · simp only [List.mem_cons, List.not_mem_nil, or_false] at hd ⊢
    tauto
  · have all : ∀ d ∈ [min55_2, min55_3, min55_5, min55_7, exMixed55], d.get? "type" = some (.int 55) ∧ writable 55 d = true := by decide +kernel
    exact fun d hd => .inl ⟨55, all d hd⟩

/-- C68: whether components 4 to 6 of data at nodes matter depends on the first component: when it is complex they are not looked at, when
it is real they have to be numbers. -/
theorem C68_components (w : World) (e : Env) (mode : Text) (hm : lower mode = "add".toList ∨ lower mode = "overwrite".toList) (fd : Bool) :
    (w.writeSets e mode fd [exMixed55]).2.2 = .ok () ∧ (w.writeSets e mode fd [exReal55]).2.2 ≠ .ok () ∧
    (w.writeSets e mode fd [exText55]).2.2 ≠ .ok () ∧ (w.writeSets e mode fd [exStatic55]).2.2 ≠ .ok () := by
  have one : ∀ d ∈ [exMixed55, exReal55, exText55, exStatic55], (w.writeSets e mode fd [d]).2.2 = .ok () ↔ Acceptable fd d := by
    intro d hd
    rw [C68_accept w e mode fd [d] (by
      intro b hb
      rw [List.mem_singleton.1 hb]
      apply cov_nodes
      simp only [List.mem_cons, List.not_mem_nil, or_false] at hd ⊢
      tauto)]
    exact ⟨fun h => h.2.2 d List.mem_cons_self, fun h => ⟨hm, by simp, fun b hb => by rw [List.mem_singleton.1 hb]; exact h⟩⟩
  have no : ∀ d ∈ [exReal55, exText55, exStatic55], d.get? "type" = some (.int 55) ∧ writable 55 d = false := by decide +kernel
  have bad : ∀ d ∈ [exReal55, exText55, exStatic55], ¬ Acceptable fd d := by
    intro d hd h
    obtain ⟨g1, g2⟩ := no d hd
    obtain ⟨t, h1, h2⟩ := acc_type h (by rw [g1]; decide)
    rw [g1] at h1
    cases h1
    rw [g2] at h2
    cases h2
  exact ⟨(one _ (by simp)).2 (.inl ⟨55, by decide +kernel, by decide +kernel⟩), fun h => bad exReal55 (by simp) ((one _ (by simp)).1 h),
    fun h => bad exText55 (by simp) ((one _ (by simp)).1 h), fun h => bad exStatic55 (by simp) ((one _ (by simp)).1 h)⟩


/-- All values of a function are covered, checked by looking at them. -/
def functionB (d : Dict) : Bool :=
  entriesB d (headFunction ++ headUnits) && ((["ord_data_type", "abscissa_spacing", "binary"].all fun k => match d.get? (.s k) with
    | none => true
    | some v => scalarKnown v) && ((match d.get? "data" with
    | none | some (.arrF _) | some (.arrC _) => true
    | _ => false) && match d.get? "x" with
    | none | some (.arrF _) => true
    | _ => false))

theorem function_of {d : Dict} (h : functionB d = true) : Known58 d := by
  unfold functionB at h
  simp only [Bool.and_eq_true] at h
  obtain ⟨h1, h2, h3, h4⟩ := h
  refine ⟨entries_of h1, fun k hk v hv => ?_, fun v hv => ?_, fun v hv => ?_⟩
  · have := List.all_eq_true.1 h2 k hk
    simp only [hv] at this
    exact this
  · rw [hv] at h3
    cases v with
    | arrF l => exact .inl ⟨l, rfl⟩
    | arrC l => exact .inr ⟨l, rfl⟩
    | _ => cases h3
  · rw [hv] at h4
    cases v with
    | arrF l => exact ⟨l, rfl⟩
    | _ => cases h4

/-- C68: when a function is written: its type is one of seven, the entries of the header are there and of the right kind, the precision is
known, there are two abscissas, and as many as ordinates unless the abscissas are said to be evenly spaced. -/
theorem C68_function (w : World) (e : Env) (mode : Text) (hm : lower mode = "add".toList ∨ lower mode = "overwrite".toList) (fd : Bool) (d : Dict)
    (ht : d.get? "type" = some (.int 58)) (hk : Known58 d) :
    (w.writeSets e mode fd [d]).2.2 = .ok () ↔
      functionType d = true ∧ (∀ f ∈ headFunction ++ headUnits, entryOk d f = true) ∧ (fd = true ∨ ∃ n ∈ [(2 : Int), 4, 5, 6], entryIs d "ord_data_type" n = true) ∧
      ∃ xs n, d.get? "x" = some (.arrF xs) ∧ ordinates d = some n ∧ 2 ≤ xs.length ∧ (evenly d = true ∨ xs.length = n) := by
  rw [C68_accept w e mode fd [d] (fun b hb => by rw [List.mem_singleton.1 hb]; exact .inl ⟨ht, hk⟩)]
  have key : canWrite58 fd d = true ↔ functionType d = true ∧ (∀ f ∈ headFunction ++ headUnits, entryOk d f = true) ∧
      (fd = true ∨ ∃ n ∈ [(2 : Int), 4, 5, 6], entryIs d "ord_data_type" n = true) ∧
      ∃ xs n, d.get? "x" = some (.arrF xs) ∧ ordinates d = some n ∧ 2 ≤ xs.length ∧ (evenly d = true ∨ xs.length = n) := by
    unfold canWrite58 precisionOk
    simp only [Bool.and_eq_true, Bool.or_eq_true, List.all_eq_true, List.any_eq_true]
    refine and_congr_right fun _ => and_congr_right fun _ => and_congr_right fun _ => ?_
    cases ho : ordinates d with
    | none =>
      unfold lengthsOk
      rw [ho]
      exact ⟨fun h => (by cases h), fun ⟨_, _, _, h, _⟩ => by cases h⟩
    | some n =>
      rw [lengths_iff ho]
      simp only [Bool.or_eq_true, beq_iff_eq]
      exact ⟨fun ⟨xs, a, b, c⟩ => ⟨xs, n, a, rfl, b, c⟩, fun ⟨xs, m, a, h, b, c⟩ => by cases h; exact ⟨xs, a, b, c⟩⟩
  rw [← key]
  constructor
  · intro h
    rcases h.2.2 d List.mem_cons_self with ⟨t, h1, h2⟩ | ⟨-, h⟩
    · rw [ht] at h1
      cases h1
      cases h2
    · exact h
  · intro h
    exact ⟨hm, by simp, fun b hb => by rw [List.mem_singleton.1 hb]; exact .inr ⟨ht, h⟩⟩

/-- C68: asking for double precision only makes more functions acceptable, and the declared data type is then not looked at. -/
theorem C68_double (w : World) (e : Env) (mode : Text) (d : Dict) (ht : d.get? "type" = some (.int 58)) (hk : Known58 d)
    (h : (w.writeSets e mode false [d]).2.2 = .ok ()) (v : Val) (hv : scalarKnown v = true) :
    (w.writeSets e mode true [d.set "ord_data_type" v]).2.2 = .ok () := by
  have hm := ((C68_accept w e mode false [d] (fun b hb => by rw [List.mem_singleton.1 hb]; exact .inl ⟨ht, hk⟩)).1 h).1
  obtain ⟨h1, h2, -, h4⟩ := (C68_function w e mode hm false d ht hk).1 h
  have other : ∀ {k : String}, k ≠ "ord_data_type" → (d.set "ord_data_type" v).get? (.s k) = d.get? (.s k) := fun h =>
    Dict.get?_set_ne _ _ _ _ fun e => h (by cases e; rfl)
  have hk' : Known58 (d.set "ord_data_type" v) := by
    refine ⟨fun f hf u hu => hk.entries f hf u ?_, fun k hm u hu => ?_, fun u hu => hk.ordinate u ?_, fun u hu => hk.abscissa u ?_⟩
    · rwa [other ((apart58 (k := "ord_data_type") (by simp)).1 f hf)] at hu
    · by_cases he : k = "ord_data_type"
      · subst he
        rw [Dict.get?_set_self] at hu
        cases hu
        exact hv
      · rw [other he] at hu
        exact hk.flags k hm u hu
    · rwa [other (by decide)] at hu
    · rwa [other (by decide)] at hu
  refine (C68_function w e mode hm true _ (by rw [other (by decide)]; exact ht) hk').2 ⟨?_, fun f hf => ?_, .inl rfl, ?_⟩
  · unfold functionType
    rw [other (by decide)]
    exact h1
  · rw [entryOk_set ((apart58 (k := "ord_data_type") (by simp)).1 f hf)]
    exact h2 f hf
  · unfold ordinates evenly
    rw [other (by decide), other (by decide), other (by decide)]
    exact h4

/-- C68: an evenly spaced function is written whatever the number of its ordinates: what is written about the abscissa comes from its first
two values. -/
theorem C68_even_any (w : World) (e : Env) (mode : Text) (fd : Bool) (d : Dict) (ht : d.get? "type" = some (.int 58)) (hk : Known58 d)
    (he : evenly d = true) (h : (w.writeSets e mode fd [d]).2.2 = .ok ()) (y : Val) (hy : (∃ l, y = .arrF l) ∨ ∃ l, y = .arrC l) :
    (w.writeSets e mode fd [d.set "data" y]).2.2 = .ok () := by
  have hm := ((C68_accept w e mode fd [d] (fun b hb => by rw [List.mem_singleton.1 hb]; exact .inl ⟨ht, hk⟩)).1 h).1
  obtain ⟨h1, h2, h3, xs, n, h4, h5, h6, -⟩ := (C68_function w e mode hm fd d ht hk).1 h
  have other : ∀ {k : String}, k ≠ "data" → (d.set "data" y).get? (.s k) = d.get? (.s k) := fun h =>
    Dict.get?_set_ne _ _ _ _ fun e => h (by cases e; rfl)
  have hk' : Known58 (d.set "data" y) := by
    refine ⟨fun f hf u hu => hk.entries f hf u ?_, fun k hm u hu => hk.flags k hm u ?_, fun u hu => ?_, fun u hu => hk.abscissa u ?_⟩
    · rwa [other ((apart58 (k := "data") (by simp)).1 f hf)] at hu
    · rwa [other (by rintro rfl; simp at hm)] at hu
    · rw [Dict.get?_set_self] at hu
      cases hu
      exact hy
    · rwa [other (by decide)] at hu
  have ho : ∃ m, ordinates (d.set "data" y) = some m := by
    unfold ordinates
    rw [Dict.get?_set_self]
    rcases hy with ⟨l, rfl⟩ | ⟨l, rfl⟩ <;> exact ⟨_, rfl⟩
  obtain ⟨m, ho⟩ := ho
  refine (C68_function w e mode hm fd _ (by rw [other (by decide)]; exact ht) hk').2 ⟨?_, fun f hf => ?_, h3.imp id ?_, xs, m, ?_, ho, h6, .inl ?_⟩
  · unfold functionType
    rw [other (by decide)]
    exact h1
  · rw [entryOk_set ((apart58 (k := "data") (by simp)).1 f hf)]
    exact h2 f hf
  · rintro ⟨n, hn, hd⟩
    refine ⟨n, hn, ?_⟩
    unfold entryIs at hd ⊢
    rw [other (by decide)]
    exact hd
  · rw [other (by decide)]
    exact h4
  · unfold evenly at he ⊢
    rw [other (by decide)]
    exact he

/-- The data type is not one of the four. -/
def exOddType : Dict := min58_0.set "ord_data_type" (.str ['4'])
/-- Evenly spaced, complex. -/
def exEvenFn : Dict := ((exFn 1 [fA, fB, fC]).set "data" (.arrC [(fA, fB), (fB, fC)])).set "binary" (.int 1)
/-- A function type that is not known. -/
def exFuncType : Dict := min58_0.set "func_type" (.int 5)

theorem cov_functions : ∀ d ∈ [min58_0, exOddType, exEvenFn, exFuncType, exFn 0 [fA, fB, fC]], d.get? "type" = some (.int 58) ∧ Known58 d := by
  have one : ∀ d ∈ [min58_0, exOddType, exEvenFn, exFuncType, exFn 0 [fA, fB, fC]], d.get? "type" = some (.int 58) ∧ functionB d = true := by decide +kernel
  exact fun d hd => ⟨(one d hd).1, function_of (one d hd).2⟩

/-- Functions, nodes and a group into any file. -/
example (w : World) (e : Env) (fd : Bool) : (w.writeSets e "add".toList fd [min58_0, min15_0, exEvenFn, exShort2429]).2.2 = .ok () := by
  have hc : ∀ d ∈ [min58_0, exEvenFn], d.get? "type" = some (.int 58) ∧ Known58 d := fun d hd => cov_functions d (by
    simp only [List.mem_cons, List.not_mem_nil, or_false] at hd ⊢
    tauto)
  refine (C68_accept w e _ fd _ ?_).2 ⟨.inl (by decide), by simp, ?_⟩
  · simp only [List.forall_mem_cons, List.not_mem_nil, false_implies, implies_true, and_true]
    exact ⟨.inl (hc _ (by simp)), cov_min _ (by simp), .inl (hc _ (by simp)), cov_min _ (by simp)⟩
  · have all : ∀ b : Bool, canWrite58 b min58_0 = true ∧ canWrite58 b exEvenFn = true := by decide +kernel
    simp only [List.forall_mem_cons, List.not_mem_nil, false_implies, implies_true, and_true]
    exact ⟨.inr ⟨(hc _ (by simp)).1, (all fd).1⟩, .inl ⟨15, by decide +kernel, by decide +kernel⟩, .inr ⟨(hc _ (by simp)).1, (all fd).2⟩,
      .inl ⟨2429, by decide +kernel, by decide +kernel⟩⟩

/-- C68: a data type that is not a number is refused, unless the call asks for double precision; three abscissas for two ordinates are
refused, unless they are said to be evenly spaced; other function types are refused. -/
theorem C68_functions (w : World) (e : Env) (mode : Text) (hm : lower mode = "add".toList ∨ lower mode = "overwrite".toList) (fd : Bool) :
    ((w.writeSets e mode fd [exOddType]).2.2 = .ok () ↔ fd = true) ∧ (w.writeSets e mode fd [exFn 0 [fA, fB, fC]]).2.2 ≠ .ok () ∧
    (w.writeSets e mode fd [exEvenFn]).2.2 = .ok () ∧ (w.writeSets e mode fd [exFuncType]).2.2 ≠ .ok () := by
  have one : ∀ d ∈ [min58_0, exOddType, exEvenFn, exFuncType, exFn 0 [fA, fB, fC]], (w.writeSets e mode fd [d]).2.2 = .ok () ↔ canWrite58 fd d = true := by
    intro d hd
    obtain ⟨ht, hk⟩ := cov_functions d hd
    rw [C68_accept w e mode fd [d] (fun b hb => by rw [List.mem_singleton.1 hb]; exact .inl ⟨ht, hk⟩)]
    constructor
    · intro h
      rcases h.2.2 d List.mem_cons_self with ⟨t, h1, h2⟩ | ⟨-, h⟩
      · rw [ht] at h1
        cases h1
        cases h2
      · exact h
    · exact fun h => ⟨hm, by simp, fun b hb => by rw [List.mem_singleton.1 hb]; exact .inr ⟨ht, h⟩⟩
  have vals : ∀ b : Bool, canWrite58 b exOddType = b ∧ canWrite58 b (exFn 0 [fA, fB, fC]) = false ∧ canWrite58 b exEvenFn = true ∧
      canWrite58 b exFuncType = false := by decide +kernel
  obtain ⟨v1, v2, v3, v4⟩ := vals fd
  rw [one exOddType (by simp), Ne, one (exFn 0 [fA, fB, fC]) (by simp), one exEvenFn (by simp), Ne, one exFuncType (by simp), v1, v2, v3, v4]
  exact ⟨Iff.rfl, by decide, rfl, by decide⟩

/-- Any data type, with double precision. -/
example (w : World) (e : Env) (n : Int) : (w.writeSets e "add".toList true [min58_0.set "ord_data_type" (.int n)]).2.2 = .ok () := by
  obtain ⟨ht, hk⟩ := cov_functions min58_0 (by simp)
  exact C68_double w e _ _ ht hk ((C68_function w e _ (.inl (by decide)) false _ ht hk).2 ⟨by decide +kernel, by decide +kernel, .inr ⟨4, by simp, by decide +kernel⟩,
    [fA, fB], 2, by decide +kernel, by decide +kernel, by decide, .inr rfl⟩) (.int n) rfl
/-- Any number of ordinates. -/
example (w : World) (e : Env) (fd : Bool) (l : List F64) : (w.writeSets e "add".toList fd [exEvenFn.set "data" (.arrF l)]).2.2 = .ok () := by
  obtain ⟨ht, hk⟩ := cov_functions exEvenFn (by simp)
  exact C68_even_any w e _ fd _ ht hk (by decide +kernel) (C68_functions w e _ (.inl (by decide)) fd).2.2.1 _ (.inl ⟨l, rfl⟩)

end Verif
