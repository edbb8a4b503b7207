import Verif.Lemmas.Crlf4
import Verif.Model.Uff
import Verif.Spec.Typed
/-
The entries of the dictionaries that the readers return, whatever they read.
-/
namespace Verif

/-- A name is appended unless it is there. -/
def addName (l : List Key) (k : Key) : List Key := if k ∈ l then l else l ++ [k]

theorem names_set (d : Dict) (k : Key) (v : Val) : (d.set k v).names = addName d.names k := by
  induction d with
  | nil => rfl
  | cons kv r ih =>
    obtain ⟨k', v'⟩ := kv
    unfold Dict.set
    by_cases h : k' = k
    · subst h; simp [Dict.names, addName]
    · rw [if_neg h]
      show k' :: (Dict.set r k v).names = addName (k' :: Dict.names r) k
      rw [ih]
      unfold addName
      by_cases hk : k ∈ Dict.names r
      · rw [if_pos hk, if_pos (by simp [hk])]
      · rw [if_neg hk, if_neg (by simp [hk, Ne.symm h]), List.cons_append]

theorem names_update (d e : Dict) : (d.update e).names = e.names.foldl addName d.names := by
  unfold Dict.update
  induction e generalizing d with
  | nil => rfl
  | cons kv r ih => rw [List.foldl_cons, ih, names_set]; rfl

/-- The names of the fields of a header line that are kept. -/
def keptNames : List FTy → List Key → List Key
  | ty :: tys, k :: ks => if ty = .ign then keptNames tys ks else k :: keptNames tys ks
  | _, _ => []

theorem headerLoop_names : ∀ (m : Nat) (tys : List FTy) (ks : List Key) (ss : List Text) (acc e : Dict), ks.length = ss.length →
    ks.length = tys.length → headerLoop m tys ks ss acc = .ok e → e.names = (keptNames tys ks).foldl addName acc.names
  | m, tys, [], ss, acc, e, _, ht, h => by
    unfold headerLoop at h; cases h
    cases tys with
    | nil => rfl
    | cons _ _ => rfl
  | m, tys, k :: ks, [], acc, e, hs, _, h => by simp at hs
  | m, [], k :: ks, s :: ss, acc, e, _, _, h => by unfold headerLoop at h; cases h
  | m, ty :: tys, k :: ks, s :: ss, acc, e, hs, ht, h => by
    have hs' : ks.length = ss.length := by simpa using hs
    have ht' : ks.length = tys.length := by simpa using ht
    unfold headerLoop at h
    unfold keptNames
    cases ty with
    | ign =>
      simp only [headerField] at h
      rw [if_pos rfl]
      exact headerLoop_names _ _ _ _ _ _ hs' ht' h
    | str =>
      simp only [headerField] at h
      rw [if_neg (by decide), headerLoop_names _ _ _ _ _ _ hs' ht' h, names_set]; rfl
    | int =>
      rw [if_neg (by decide)]
      simp only [headerField] at h
      cases hp : pyInt s with
      | ok n =>
        rw [hp] at h
        rw [headerLoop_names _ _ _ _ _ _ hs' ht' h, names_set]; rfl
      | error x =>
        rw [hp] at h
        simp only [Except.map] at h
        split at h
        · rw [headerLoop_names _ _ _ _ _ _ hs' ht' h, names_set]; rfl
        · cases h
    | flt =>
      rw [if_neg (by decide)]
      simp only [headerField] at h
      cases hp : pyFloat s with
      | ok n =>
        rw [hp] at h
        rw [headerLoop_names _ _ _ _ _ _ hs' ht' h, names_set]; rfl
      | error x =>
        rw [hp] at h
        simp only [Except.map] at h
        split at h
        · rw [headerLoop_names _ _ _ _ _ _ hs' ht' h, names_set]; rfl
        · cases h

theorem parseHeader_names {l : Text} {m : Nat} {ws : List Nat} {tys : List FTy} {ks : List Key} {e : Dict}
    (h1 : ks.length = ws.length) (h2 : ks.length = tys.length) (h : parseHeader l m ws tys ks = .ok e) :
    e.names = (keptNames tys ks).foldl addName [] := by
  unfold parseHeader at h
  dsimp only at h
  generalize (if l.length < 80 then l ++ blanks (80 - l.length) else l) = l' at h
  split at h
  · cases h
  · exact headerLoop_names _ _ _ _ _ _ (by rw [cutFields_length]; exact h1) h2 h

/-- A dictionary with the entries `ks`, of the type `n`. -/
def Shaped (n : Int) (ks : List Key) (d : Dict) : Prop := d.names = ks ∧ d.get? "type" = some (.int n)

/-- What is returned, if anything, satisfies `P`. -/
def Returns {α} (P : α → Prop) (r : Res α) : Prop := ∀ a, r = .ok a → P a

theorem returns_bind {α β} {P : β → Prop} {m : Res α} {f : α → Res β} (h : ∀ a, m = .ok a → Returns P (f a)) :
    Returns P (m >>= f) := by
  intro b hb
  cases m with
  | ok a => exact h a rfl b hb
  | error x => cases hb

theorem returns_guard {α} {P : α → Prop} {n : Nat} {r : Res α} (h : Returns P r) : Returns P (readGuard n r) := by
  intro a ha
  unfold readGuard at ha
  split at ha
  · next a' => cases ha; exact h _ rfl
  · cases ha
  · cases ha

theorem returns_ok {α} {P : α → Prop} {a : α} (h : P a) : Returns P (.ok a) := by
  intro b hb; cases hb; exact h

theorem returns_error {α} {P : α → Prop} {x : Err} : Returns P (.error x) := fun _ h => nomatch h

/-- A header line: its names, and no `type`. -/
theorem returns_head {β} {P : β → Prop} {l : Text} {m : Nat} {ws : List Nat} {tys : List FTy} {ks : List Key} {f : Dict → Res β}
    (h1 : ks.length = ws.length ∧ ks.length = tys.length ∧ Key.s "type" ∉ ks)
    (h : ∀ e, e.names = (keptNames tys ks).foldl addName [] → e.get? "type" = none → Returns P (f e)) :
    Returns P (parseHeader l m ws tys ks >>= f) :=
  returns_bind fun e he => h e (parseHeader_names h1.1 h1.2.1 he) (parseHeader_other h1.2.2 he)

/-- One header line: the index of the line, and the line. -/
macro "heads" : tactic => `(tactic| (repeat' (first
  | (with_reducible refine returns_head (by decide) fun _ _ _ => ?_)
  | (with_reducible refine returns_bind fun _ _ => ?_))))

theorem get?_none_of_names {d : Dict} {k : Key} (h : k ∉ d.names) : d.get? k = none := by
  induction d with
  | nil => rfl
  | cons kv r ih =>
    obtain ⟨k', v⟩ := kv
    simp only [Dict.names, List.map_cons, List.mem_cons, not_or] at h
    unfold Dict.get?
    rw [if_neg (Ne.symm h.1)]
    exact ih h.2

/-- Finish: the names are computed, and no header line has a `type`. -/
macro "shaped" : tactic => `(tactic| first | exact returns_ok ⟨rfl, rfl⟩ | (
  refine returns_ok ⟨?_, ?_⟩
  · simp only [names_update, names_set, *]; decide
  · simp only [update_other, *, Dict.get?_set_ne, ne_eq, not_false_eq_true, reduceCtorEq, Key.s.injEq, String.reduceEq]; rfl))

theorem returns15 (t : Text) : Returns (Shaped 15 (entriesOf 15)) (extract15 t) := by
  refine returns_guard ?_
  heads
  shaped

theorem returns18 (t : Text) : Returns (Shaped 18 (entriesOf 18)) (extract18 t) := by
  refine returns_guard ?_
  heads
  shaped

theorem returns82 (t : Text) : Returns (Shaped 82 (entriesOf 82)) (extract82 t) := by
  refine returns_guard ?_
  heads
  shaped

theorem returns151 (t : Text) : Returns (Shaped 151 (entriesOf 151)) (extract151 t) := by
  refine returns_guard ?_
  heads
  shaped

theorem returns164 (t : Text) : Returns (Shaped 164 (entriesOf 164)) (extract164 t) := by
  refine returns_guard ?_
  heads
  shaped

theorem returns1858 (t : Text) : Returns (Shaped 1858 (entriesOf 1858)) (extract1858 t) := by
  refine returns_guard ?_
  heads
  shaped

theorem returns2400 (t : Text) : Returns (Shaped 2400 (entriesOf 2400)) (extract2400 t) := by
  refine returns_guard ?_
  heads
  shaped

theorem returns2411 (t : Text) : Returns (Shaped 2411 (entriesOf 2411)) (extract2411 t) := by
  refine returns_guard ?_
  heads
  shaped

theorem returns2420 (t : Text) : Returns (Shaped 2420 (entriesOf 2420)) (extract2420 t) := by
  unfold extract2420
  heads
  shaped

theorem returns2429 (t : Text) : Returns (Shaped 2429 (entriesOf 2429)) (extract2429 t) := by
  refine returns_guard ?_
  heads
  shaped

theorem returns2467 (t : Text) : Returns (Shaped 2467 (entriesOf 2467)) (extract2467 t) := by
  unfold extract2467
  heads
  shaped

/-! ### Data-set 2412 -/

theorem addElem_type (d : Dict) (e : Int × Dict) : (addElem d e).get? "type" = d.get? "type" := by
  unfold addElem
  split
  · exact Dict.get?_set_ne _ _ _ _ (by simp)
  · exact Dict.get?_set_ne _ _ _ _ (by simp)
  · rfl

theorem addLegacy_type (d : Dict) (n : Int) (name : String) (h : name ≠ "type") :
    Returns (fun e : Dict => e.get? "type" = d.get? "type") (addLegacy d n name) := by
  unfold addLegacy
  split
  · exact returns_ok rfl
  · refine returns_bind fun _ _ => returns_bind fun _ _ => returns_ok ?_
    exact Dict.get?_set_ne _ _ _ _ (by simpa using h)

theorem returns2412 (t : Text) : Returns (fun d : Dict => d.get? "type" = some (.int 2412)) (extract2412 t) := by
  refine returns_guard (returns_bind fun es _ => ?_)
  have h0 : ∀ (es : List (Int × Dict)) (d : Dict), (es.foldl addElem d).get? "type" = d.get? "type" := by
    intro es
    induction es with
    | nil => intro d; rfl
    | cons e r ih => intro d; rw [List.foldl_cons, ih, addElem_type]
  refine returns_bind fun d hd => ?_
  have h1 := addLegacy_type _ 41 "triangle" (by decide) d hd
  intro e he
  have h2 := addLegacy_type d 44 "quad" (by decide) e he
  rw [h2, h1, h0]; rfl

theorem mem_names {d : Dict} {k : Key} : k ∈ d.names ↔ d.get? k ≠ none := by
  constructor
  · intro h
    induction d with
    | nil => cases h
    | cons kv r ih =>
      obtain ⟨k', v⟩ := kv
      unfold Dict.get?
      by_cases hk : k' = k
      · simp [hk]
      · rw [if_neg hk]
        refine ih ?_
        rcases List.mem_cons.1 h with e | e
        · exact absurd e.symm hk
        · exact e
  · intro h
    by_cases hm : k ∈ d.names
    · exact hm
    · exact absurd (get?_none_of_names hm) h

theorem addElem_names (d : Dict) (e : Int × Dict) (fes : List Int) (hd : fes.Nodup) (h : d.names = .s "type" :: fes.map Key.i) :
    ∃ fes' : List Int, fes'.Nodup ∧ (addElem d e).names = .s "type" :: fes'.map Key.i := by
  have hin : ∀ v, d.get? (.i e.1) ≠ none → (d.set (.i e.1) v).names = .s "type" :: fes.map Key.i := by
    intro v hv
    rw [names_set, ← h]
    exact if_pos (mem_names.2 hv)
  unfold addElem
  split
  · next hn =>
    have hni : Key.i e.1 ∉ d.names := fun hm => mem_names.1 hm hn
    refine ⟨fes ++ [e.1], ?_, ?_⟩
    · rw [List.nodup_append]
      refine ⟨hd, by simp, fun a ha b hb => ?_⟩
      rw [List.mem_singleton.1 hb]
      rintro rfl
      exact hni (by rw [h]; exact List.mem_cons_of_mem _ (List.mem_map.2 ⟨_, ha, rfl⟩))
    · rw [names_set, addName, if_neg hni, h, List.map_append]; rfl
  · next l hl => exact ⟨fes, hd, hin _ (by rw [hl]; simp)⟩
  · exact ⟨fes, hd, h⟩

theorem addElems_names : ∀ (es : List (Int × Dict)) (d : Dict) (fes : List Int), fes.Nodup → d.names = .s "type" :: fes.map Key.i →
    ∃ fes' : List Int, fes'.Nodup ∧ (es.foldl addElem d).names = .s "type" :: fes'.map Key.i
  | [], _, fes, hd, h => ⟨fes, hd, h⟩
  | e :: r, d, fes, hd, h => by
    obtain ⟨f', h1, h2⟩ := addElem_names d e fes hd h
    exact addElems_names r _ f' h1 h2

theorem addLegacy_names (d : Dict) (n : Int) (name : String) (h : Key.s name ∉ d.names) :
    Returns (fun e : Dict => e.names = d.names ++ if Key.i n ∈ d.names then [Key.s name] else []) (addLegacy d n name) := by
  unfold addLegacy
  cases hv : d.get? (.i n) with
  | none => exact returns_ok (by rw [if_neg fun hm => mem_names.1 hm hv, List.append_nil])
  | some v =>
    refine returns_bind fun _ _ => returns_bind fun _ _ => returns_ok ?_
    rw [if_pos (mem_names.2 (by rw [hv]; simp)), names_set, addName, if_neg h]

theorem returns2412_names (t : Text) :
    Returns (fun d : Dict => ∃ fes : List Int, fes.Nodup ∧ d.names = entries2412 fes) (extract2412 t) := by
  refine returns_guard (returns_bind fun es _ => ?_)
  obtain ⟨fes, h1, h2⟩ := addElems_names es [("type", .int 2412)] [] List.nodup_nil rfl
  refine returns_bind fun d hd => ?_
  have h3 := addLegacy_names _ 41 "triangle" (by rw [h2]; simp) d hd
  rw [h2] at h3
  intro e he
  have h4 := addLegacy_names d 44 "quad" (by rw [h3]; split <;> simp) e he
  refine ⟨fes, h1, ?_⟩
  rw [h4, h3]
  by_cases c1 : (41 : Int) ∈ fes <;> by_cases c2 : (44 : Int) ∈ fes <;> simp [entries2412, c1, c2]

/-! ### Data-set 55 -/

theorem names_del {d e : Dict} {k : Key} (h : d.del k = .ok e) : e.names = d.names.erase k := by
  induction d generalizing e with
  | nil => cases h
  | cons kv r ih =>
    obtain ⟨k', v⟩ := kv
    unfold Dict.del at h
    by_cases hk : k' = k
    · subst hk
      rw [if_pos rfl] at h
      cases h
      simp [Dict.names]
    · rw [if_neg hk] at h
      split at h
      · next r' hr =>
        cases h
        have := ih hr
        simp only [Dict.names, List.map_cons] at this ⊢
        rw [List.erase_cons_tail (by simpa using hk), this]
      · cases h

theorem get?_del {d e : Dict} {k q : Key} (h : d.del k = .ok e) (hq : k ≠ q) : e.get? q = d.get? q := by
  induction d generalizing e with
  | nil => cases h
  | cons kv r ih =>
    obtain ⟨k', v⟩ := kv
    unfold Dict.del at h
    by_cases hk : k' = k
    · subst hk
      rw [if_pos rfl] at h
      cases h
      conv => rhs; unfold Dict.get?
      rw [if_neg hq]
    · rw [if_neg hk] at h
      split at h
      · next r' hr =>
        cases h
        unfold Dict.get?
        rw [ih hr]
      · cases h

theorem returns_del {β} {P : β → Prop} {d : Dict} {k : Key} {f : Dict → Res β}
    (hk : k ≠ Key.s "type")
    (h : ∀ e : Dict, e.names = d.names.erase k → e.get? "type" = d.get? "type" → Returns P (f e)) : Returns P (d.del k >>= f) :=
  returns_bind fun e he => h e (names_del he) (get?_del he hk)

theorem returns_joinParts (d : Dict) (v : Val)
    (h : d.names = entries55 ++
      (["load_case", "mode_n", "eig_r", "eig_i", "modal_a_r", "modal_a_i", "modal_b_r", "modal_b_i"] : List Key))
    (ht : d.get? "type" = some v) :
    Returns (fun e : Dict => e.names = entries55 ++ (["load_case", "mode_n", "modal_a", "modal_b", "eig"] : List Key) ∧
      e.get? "type" = some v)
      (joinParts d) := by
  unfold joinParts
  refine returns_bind fun _ _ => returns_bind fun _ _ => returns_bind fun _ _ => ?_
  refine returns_del (by decide) fun d1 n1 t1 => returns_del (by decide) fun d2 n2 t2 =>
    returns_del (by decide) fun d3 n3 t3 => returns_del (by decide) fun d4 n4 t4 => returns_del (by decide) fun d5 n5 t5 => ?_
  intro e he
  rw [names_del he, get?_del he (by decide), t5, t4, t3, t2, t1, n5, n4, n3, n2, n1]
  simp only [names_set, h]
  refine ⟨by decide, ?_⟩
  rw [Dict.get?_set_ne _ _ _ _ (by decide), Dict.get?_set_ne _ _ _ _ (by decide), Dict.get?_set_ne _ _ _ _ (by decide), ht]

theorem returns_head55 (ls : List Text) (d : Dict) (v : Val) (h : d.names = entries55) (ht : d.get? "type" = some v) :
    Returns (fun e : Dict => (∃ m ∈ middle55, e.names = entries55 ++ m) ∧ e.get? "type" = some v) (readHead55 ls d) := by
  unfold readHead55
  refine returns_bind fun a _ => returns_bind fun an _ => ?_
  split
  · heads
    refine returns_ok ⟨⟨_, List.mem_cons_self .., ?_⟩, ?_⟩
    · simp only [names_update, *]; decide
    · simp only [update_other, *]
  · refine returns_bind fun _ _ => returns_head (by decide) fun e8 n8 t8 => returns_bind fun _ _ =>
      returns_head (by decide) fun e9 n9 t9 => ?_
    intro e he
    obtain ⟨h1, h2⟩ := returns_joinParts _ v (by simp only [names_update, n8, n9, h]; decide)
      (by rw [update_other t9, update_other t8, ht]) e he
    exact ⟨⟨_, List.mem_cons_of_mem _ (List.mem_cons_self ..), h1⟩, h2⟩
  · heads
    refine returns_ok ⟨⟨["load_case", "freq_step_n", "freq"], by decide, ?_⟩, ?_⟩
    · simp only [names_update, *]; decide
    · simp only [update_other, *]
  · exact returns_ok ⟨⟨[], by decide, by simp [h]⟩, ht⟩

/-- The entries of data at nodes. -/
def Shaped55 (d : Dict) : Prop :=
  (∃ m ∈ middle55, ∃ l ∈ data55, d.names = entries55 ++ (m ++ l)) ∧ d.get? "type" = some (.int 55)

theorem names55 : ∀ m ∈ middle55, ∀ l ∈ data55, l.foldl addName (entries55 ++ m) = entries55 ++ (m ++ l) := by decide +kernel

theorem returns_body55 (t : Text) (d : Dict) (m : List Key) (hm : m ∈ middle55) (h : d.names = entries55 ++ m)
    (ht : d.get? "type" = some (.int 55)) : Returns Shaped55 (readBody55 t d) := by
  have key : ∀ e : Dict, e.names ∈ data55 → Shaped55 (d.update e) := by
    intro e he
    refine ⟨⟨m, hm, e.names, he, by rw [names_update, h, names55 m hm _ he]⟩, ?_⟩
    rw [update_other (get?_none_of_names ?_), ht]
    intro hc
    exact absurd hc ((by decide : ∀ l ∈ data55, Key.s "type" ∉ l) _ he)
  unfold readBody55
  refine returns_bind fun _ _ => returns_bind fun _ _ => returns_bind fun _ _ => returns_bind fun _ _ => returns_bind fun _ _ => ?_
  split
  · split
    · exact returns_ok (key _ (List.mem_cons_self ..))
    · exact returns_ok (key _ (List.mem_cons_of_mem _ (List.mem_cons_self ..)))
  · split
    · split
      · refine returns_bind fun _ _ => returns_bind fun _ _ => returns_bind fun _ _ => ?_
        exact returns_ok (key _ (List.mem_cons_self ..))
      · exact returns_error
    · exact returns_error

theorem returns55 (t : Text) : Returns Shaped55 (extract55 t) := by
  refine returns_guard ?_
  refine returns_bind fun _ _ => returns_head (by decide) fun e2 n2 t2 => returns_bind fun _ _ =>
    returns_head (by decide) fun e3 n3 t3 => returns_bind fun _ _ => returns_head (by decide) fun e4 n4 t4 =>
    returns_bind fun _ _ => returns_head (by decide) fun e5 n5 t5 => returns_bind fun _ _ =>
    returns_head (by decide) fun e6 n6 t6 => returns_bind fun _ _ => returns_head (by decide) fun e7 n7 t7 =>
    returns_bind fun d hd => ?_
  obtain ⟨⟨m, hm, hn⟩, ht⟩ := returns_head55 _ _ (.int 55) (by simp only [names_update, n2, n3, n4, n5, n6, n7]; decide)
    (by simp only [update_other, t2, t3, t4, t5, t6, t7]; rfl) d hd
  exact returns_body55 _ d m hm hn ht

/-! ### Data-set 58 -/

theorem returns_units {β} {P : β → Prop} {r : Res Text} {k : UnitKeys} {f : Dict → Res β}
    (hk : Key.s "type" ∉ [k.spec, k.len, k.force, k.temp, k.lab, k.units] ∧
      Key.s "binary" ∉ [k.spec, k.len, k.force, k.temp, k.lab, k.units])
    (h : ∀ e : Dict, e.names = [k.spec, k.len, k.force, k.temp, k.lab, k.units].foldl addName [] → e.get? "type" = none →
      e.get? "binary" = none → Returns P (f e)) :
    Returns P (readUnits r k >>= f) := by
  refine returns_bind fun e he => h e ?_ (readUnits_other hk.1 he) (readUnits_other hk.2 he)
  unfold readUnits at he
  split at he
  · cases he
  · exact parseHeader_names rfl rfl he

/-- The same, and no `binary`. -/
theorem returns_head58 {β} {P : β → Prop} {l : Text} {m : Nat} {ws : List Nat} {tys : List FTy} {ks : List Key}
    {f : Dict → Res β}
    (h1 : ks.length = ws.length ∧ ks.length = tys.length ∧ Key.s "type" ∉ ks ∧ Key.s "binary" ∉ ks)
    (h : ∀ e, e.names = (keptNames tys ks).foldl addName [] → e.get? "type" = none → e.get? "binary" = none → Returns P (f e)) :
    Returns P (parseHeader l m ws tys ks >>= f) :=
  returns_bind fun e he => h e (parseHeader_names h1.1 h1.2.1 he) (parseHeader_other h1.2.2.1 he) (parseHeader_other h1.2.2.2 he)

/-- `b` says whether the data-set is binary. -/
def Says (b : Bool) (d : Dict) : Prop :=
  d.get? "type" = some (.int 58) ∧ d.get? "binary" = some (.int (if b then 1 else 0))

theorem Says.update {b : Bool} {d e : Dict} (h : Says b d) (h1 : e.get? "type" = none) (h2 : e.get? "binary" = none) :
    Says b (d.update e) := ⟨by rw [update_other h1]; exact h.1, by rw [update_other h2]; exact h.2⟩

/-- The names of the identifier line. -/
def idNames (b : Bool) : List Key :=
  (["type", "binary"] ++ (if b then ["byte_ordering", "fp_format", "n_ascii_lines", "n_bytes"] else [])).map Key.s

theorem returns_id58 (l : Text) :
    Returns (fun d : Dict => d.names = idNames (isBinary58 l) ∧ Says (isBinary58 l) d) (idEntries58 l) := by
  unfold idEntries58
  dsimp only
  cases isBinary58 l with
  | false => exact returns_ok ⟨rfl, rfl, rfl⟩
  | true =>
    simp only [if_true]
    split
    · next e he =>
      refine returns_ok ⟨?_, ?_⟩
      · rw [names_update, parseHeader_names rfl rfl he]; decide
      · refine Says.update ⟨rfl, rfl⟩ (parseHeader_other (by decide) he) (parseHeader_other (by decide) he)
    · exact returns_error

theorem returns_readHead58 (ls : List Text) :
    Returns (fun p : Bool × Dict => p.2.names = entries58 p.1 ∧ Says p.1 p.2) (readHead58 ls) := by
  unfold readHead58
  refine returns_bind fun l _ => returns_bind fun d hd => ?_
  obtain ⟨hn, hs⟩ := returns_id58 l d hd
  refine returns_bind fun _ _ => returns_head58 (by decide) fun e2 n2 t2 b2 => returns_bind fun _ _ =>
    returns_head58 (by decide) fun e3 n3 t3 b3 => returns_bind fun _ _ => returns_head58 (by decide) fun e4 n4 t4 b4 =>
    returns_bind fun _ _ => returns_head58 (by decide) fun e5 n5 t5 b5 => returns_bind fun _ _ =>
    returns_head58 (by decide) fun e6 n6 t6 b6 => returns_bind fun _ _ => returns_head58 (by decide) fun e7 n7 t7 b7 =>
    returns_bind fun _ _ => returns_head58 (by decide) fun e8 n8 t8 b8 => returns_units (by decide) fun e9 n9 t9 b9 =>
    returns_units (by decide) fun e10 n10 t10 b10 => returns_units (by decide) fun e11 n11 t11 b11 =>
    returns_units (by decide) fun e12 n12 t12 b12 => returns_ok ⟨?_, ?_⟩
  · simp only [names_update, n2, n3, n4, n5, n6, n7, n8, n9, n10, n11, n12, hn]
    cases isBinary58 l <;> decide +kernel
  · exact ((((((((((hs.update t2 b2).update t3 b3).update t4 b4).update t5 b5).update t6 b6).update t7 b7).update
      t8 b8).update t9 b9).update t10 b10).update t11 b11).update t12 b12

/-- The entries of a function. -/
def Shaped58 (header : Bool) (d : Dict) : Prop :=
  d.get? "type" = some (.int 58) ∧ ∃ b : Bool, d.get? "binary" = some (.int (if b then 1 else 0)) ∧
    (d.names = entries58 b ++ [Key.s "x", Key.s "data"] ∨ (header = false ∧ b = true ∧ d.names = entries58 b))

theorem names58 : ∀ b, [Key.s "x", Key.s "data"].foldl addName (entries58 b) = entries58 b ++ [Key.s "x", Key.s "data"] := by
  decide +kernel

theorem assign58_shape (d : Dict) (b : Bool) (hn : d.names = entries58 b) (hs : Says b d) (odt sp : Int) (mn inc : F64)
    (v : List F64) (hu : b = false → odt = 2 ∨ odt = 4 ∨ odt = 5 ∨ odt = 6) : Shaped58 false (assign58 d odt sp mn inc v) := by
  have key : ∀ e : Dict, e.names = [Key.s "x", Key.s "data"] → Shaped58 false (d.update e) := by
    intro e he
    have h1 : e.get? "type" = none := get?_none_of_names (by rw [he]; decide)
    have h2 : e.get? "binary" = none := get?_none_of_names (by rw [he]; decide)
    exact ⟨(hs.update h1 h2).1, b, (hs.update h1 h2).2, .inl (by rw [names_update, he, hn, names58])⟩
  unfold assign58
  dsimp only
  split
  · split <;> exact key _ rfl
  · split
    · split <;> exact key _ rfl
    · next h1 h2 =>
      refine ⟨hs.1, b, hs.2, .inr ⟨rfl, ?_, hn⟩⟩
      cases b with
      | true => rfl
      | false => exact absurd (hu rfl) (by omega)

theorem asciiValues_form {odt sp : Int} {ls : List Text} {v : List F64} (h : asciiValues odt sp ls = .ok v) :
    odt = 2 ∨ odt = 4 ∨ odt = 5 ∨ odt = 6 := by
  unfold asciiValues at h
  by_cases h1 : odt = 2 ∨ odt = 5
  · omega
  rw [if_neg h1] at h
  by_cases h2 : (odt = 4 ∨ odt = 6) ∧ sp = 1
  · omega
  rw [if_neg h2] at h
  by_cases h3 : odt = 4 ∧ sp = 0
  · omega
  rw [if_neg h3] at h
  by_cases h4 : odt = 6 ∧ sp = 0
  · omega
  rw [if_neg h4] at h
  cases h

theorem returns58 (block : Bytes) (header : Bool) : Returns (Shaped58 header) (extract58 block header) := by
  refine returns_guard (returns_bind fun p hp => ?_)
  obtain ⟨b, d⟩ := p
  obtain ⟨hn, hs⟩ := returns_readHead58 _ _ hp
  dsimp only at hn hs ⊢
  cases header with
  | true =>
    simp only [if_true]
    refine returns_ok ⟨?_, b, ?_, .inl ?_⟩
    · rw [Dict.get?_set_ne _ _ _ _ (by decide), Dict.get?_set_ne _ _ _ _ (by decide)]; exact hs.1
    · rw [Dict.get?_set_ne _ _ _ _ (by decide), Dict.get?_set_ne _ _ _ _ (by decide)]; exact hs.2
    · rw [names_set, names_set, hn]; exact names58 b
  | false =>
    simp only [Bool.false_eq_true, if_false]
    refine returns_bind fun q _ => ?_
    obtain ⟨odt, sp, mn, inc⟩ := q
    cases b with
    | true =>
      simp only [if_true]
      split <;> exact returns_bind fun v _ => returns_ok (assign58_shape d true hn hs odt sp mn inc v (fun h => by cases h))
    | false =>
      simp only [Bool.false_eq_true, if_false]
      exact returns_bind fun v hv => returns_ok (assign58_shape d false hn hs odt sp mn inc v fun _ => asciiValues_form hv)

/-! ### Data-set 2414 -/

theorem returns_readHead2414 (ls : List Text) : Returns (Shaped 2414 entries2414) (readHead2414 ls) := by
  unfold readHead2414
  heads
  shaped

theorem returns_freqHead (ls : List Text) : Returns (fun d : Dict => d.names = freq2414) (readFreqHead ls) := by
  unfold readFreqHead
  heads
  refine returns_ok ?_
  simp only [names_update, *]; decide +kernel

theorem returns_plainHead (ls : List Text) : Returns (fun d : Dict => d.names = plain2414) (readPlainHead ls) := by
  unfold readPlainHead
  heads
  refine returns_ok ?_
  simp only [names_update, *]; decide +kernel

theorem returns_freqData (c : Int) (ls : List Text) :
    Returns (fun d : Dict => d.names ∈ freqData2414) (readFreqData c ls) := by
  have hy : ∀ (p : Prop) [Decidable p] (k : Key) (r : Res Val), Returns (fun d : Dict => d.names = if p then [k] else [])
      (if p then r.map fun v => [(k, v)] else .ok []) := by
    intro p _ k r
    split
    · intro d hd
      cases r with
      | ok v => cases hd; rfl
      | error x => cases hd
    · exact returns_ok rfl
  unfold readFreqData
  refine returns_bind fun _ _ => ?_
  dsimp only
  split
  · refine returns_bind fun _ _ => returns_bind fun _ _ => returns_ok ?_
    show [Key.s "node_nums", Key.s "x"] ∈ freqData2414
    decide
  · refine returns_bind fun _ _ => returns_bind fun _ _ => returns_bind fun y h1 => returns_bind fun z h2 => returns_ok ?_
    have e1 := hy _ _ _ y h1
    have e2 := hy _ _ _ z h2
    show Key.s "node_nums" :: Key.s "x" :: (y ++ z).map Prod.fst ∈ freqData2414
    rw [List.map_append, show y.map Prod.fst = _ from e1, show z.map Prod.fst = _ from e2]
    by_cases c3 : c ≥ 3
    · rw [if_pos c3, if_pos (show c ≥ 2 by omega)]; decide
    · rw [if_neg c3]
      by_cases c2 : c ≥ 2
      · rw [if_pos c2]; decide
      · rw [if_neg c2]; decide

theorem returns_plainData (loc : Int) (ls : List Text) :
    Returns (fun d : Dict => d.names ∈ plainData2414) (readPlainData loc ls) := by
  unfold readPlainData
  split
  · refine returns_bind fun _ _ => returns_bind fun _ _ => returns_ok ?_
    exact List.mem_cons_of_mem _ (List.mem_cons_self ..)
  split
  · refine returns_bind fun _ _ => returns_bind fun _ _ => returns_bind fun _ _ => returns_ok ?_
    exact List.mem_cons_of_mem _ (List.mem_cons_of_mem _ (List.mem_cons_self ..))
  split
  · unfold readElemNodes
    refine returns_bind fun _ _ => returns_bind fun _ _ => returns_bind fun _ _ => returns_bind fun _ _ =>
      returns_bind fun _ _ => returns_ok ?_
    exact List.mem_cons_of_mem _ (List.mem_cons_of_mem _ (List.mem_cons_of_mem _ (List.mem_cons_self ..)))
  · exact returns_ok (List.mem_cons_self ..)

/-- The entries of results. -/
def Shaped2414 (d : Dict) : Prop :=
  d.get? "type" = some (.int 2414) ∧ ((∃ l ∈ freqData2414, d.names = entries2414 ++ (freq2414 ++ l)) ∨
    (∃ l ∈ plainData2414, d.names = entries2414 ++ (plain2414 ++ l)))

theorem names_freq : ∀ l ∈ freqData2414, l.foldl addName (freq2414.foldl addName entries2414) = entries2414 ++ (freq2414 ++ l) ∧
    Key.s "type" ∉ l := by decide +kernel
theorem names_plain : ∀ l ∈ plainData2414,
    l.foldl addName (plain2414.foldl addName entries2414) = entries2414 ++ (plain2414 ++ l) ∧ Key.s "type" ∉ l := by
  decide +kernel

theorem returns2414 (t : Text) : Returns Shaped2414 (extract2414 t) := by
  refine returns_guard (returns_bind fun d hd => ?_)
  obtain ⟨hn, ht⟩ := returns_readHead2414 _ d hd
  refine returns_bind fun q _ => ?_
  obtain ⟨loc, a, dt, c⟩ := q
  dsimp only
  split
  · refine returns_bind fun h hh => returns_bind fun e he => returns_ok ?_
    have h1 := returns_freqHead _ h hh
    have h2 : e.names ∈ freqData2414 := by
      split at he
      · exact returns_freqData _ _ e he
      · cases he; exact List.mem_cons_self ..
    obtain ⟨k1, k2⟩ := names_freq _ h2
    refine ⟨?_, .inl ⟨_, h2, by rw [names_update, names_update, hn, h1, k1]⟩⟩
    rw [update_other (get?_none_of_names k2), update_other (get?_none_of_names (by rw [h1]; decide +kernel)), ht]
  · refine returns_bind fun h hh => returns_bind fun e he => returns_ok ?_
    have h1 := returns_plainHead _ h hh
    have h2 := returns_plainData _ _ e he
    obtain ⟨k1, k2⟩ := names_plain _ h2
    refine ⟨?_, .inr ⟨_, h2, by rw [names_update, names_update, hn, h1, k1]⟩⟩
    rw [update_other (get?_none_of_names k2), update_other (get?_none_of_names (by rw [h1]; decide +kernel)), ht]

end Verif
