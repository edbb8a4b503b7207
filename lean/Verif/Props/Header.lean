import Verif.Model.Tools
import Verif.Lemmas.Frame
/-
Property C15: the fixed-width fields of a header line.
-/
namespace Verif

/-- Field `i` of a line cut into consecutive fields of the given widths; a line shorter than 80 is padded with blanks; blanks around the
field are removed. -/
def fieldText (line : Text) (widths : List Nat) (i : Nat) : Text :=
  strip (((line ++ List.replicate (80 - line.length) ' ').drop (widths.take i).sum).take (widths[i]?.getD 0))

/-- The field is a number when one is asked for. -/
def WellFormed (ty : FTy) (s : Text) : Prop := match ty with
  | .int => parseInt s ≠ none
  | .flt => parseFloat s ≠ none
  | .str | .ign => True

instance (ty : FTy) (s : Text) : Decidable (WellFormed ty s) := by
  unfold WellFormed
  cases ty <;> infer_instance

/-- What the field becomes: nothing for an ignored field, the text, the number, or 0 when the text is not a number. -/
def fieldValue (ty : FTy) (s : Text) : Option Val := match ty with
  | .ign => none
  | .str => some (.str s)
  | .int => some (.int ((parseInt s).getD 0))
  | .flt => some (.float ((parseFloat s).getD F64.zero))

/-- The fields with their names. -/
def namedFields (line : Text) (widths : List Nat) (types : List FTy) (names : List Key) : Dict :=
  (List.range widths.length).filterMap fun i =>
    match types[i]?, names[i]? with
    | some ty, some k => (fieldValue ty (fieldText line widths i)).map fun v => (k, v)
    | _, _ => none

theorem slice_eq (l : Text) (a w : Nat) : slice l a (a + w) = (l.drop a).take w := by
  unfold slice
  rw [Nat.add_sub_cancel_left]

theorem cutFields_eq (line : Text) (si : Nat) (ws : List Nat) :
    cutFields line si ws = (List.range ws.length).map fun i =>
      strip ((line.drop (si + (ws.take i).sum)).take (ws[i]?.getD 0)) := by
  induction ws generalizing si with
  | nil => rfl
  | cons w ws ih =>
    unfold cutFields
    rw [ih, List.length_cons, List.range_succ_eq_map, List.map_cons, List.map_map, slice_eq]
    congr 1
    apply List.map_congr_left
    intro i _
    simp only [Function.comp, List.take_succ_cons, List.sum_cons, List.getElem?_cons_succ, Nat.add_assoc]

theorem Dict.set_new {d : Dict} {k : Key} {v : Val} (h : k ∉ d.map Prod.fst) : d.set k v = d ++ [(k, v)] := by
  induction d with
  | nil => rfl
  | cons a d ih =>
    obtain ⟨k', v'⟩ := a
    simp only [List.map_cons, List.mem_cons, not_or] at h
    unfold Dict.set
    rw [if_neg (fun e => h.1 e.symm), ih h.2]
    rfl

/-- One field. -/
theorem headerLoop_step (m : Nat) (ty : FTy) (tys : List FTy) (k : Key) (ks : List Key) (s : Text) (ss : List Text) (acc : Dict) :
    headerLoop m (ty :: tys) (k :: ks) (s :: ss) acc =
      if WellFormed ty s ∨ m = 0 then headerLoop (m - 1) tys ks ss (match fieldValue ty s with
        | some v => acc.set k v
        | none => acc)
      else .error .value := by
  cases ty with
  | ign => simp [headerLoop, headerField, WellFormed, fieldValue]
  | str => simp [headerLoop, headerField, WellFormed, fieldValue]
  | int =>
    rcases Option.eq_none_or_eq_some (parseInt s) with hp | ⟨n, hp⟩
    · by_cases hm : m = 0 <;>
        simp [headerLoop, headerField, WellFormed, fieldValue, pyInt, hp, orValue, Except.map, headerDefault, hm]
    · simp [headerLoop, headerField, WellFormed, fieldValue, pyInt, hp, orValue, Except.map]
  | flt =>
    rcases Option.eq_none_or_eq_some (parseFloat s) with hp | ⟨n, hp⟩
    · by_cases hm : m = 0 <;>
        simp [headerLoop, headerField, WellFormed, fieldValue, pyFloat, hp, orValue, Except.map, headerDefault, hm]
    · simp [headerLoop, headerField, WellFormed, fieldValue, pyFloat, hp, orValue, Except.map]

/-- The names of the fields that are not ignored. -/
def usedNames (types : List FTy) (names : List Key) : List Key :=
  (types.zip names).filterMap fun p => if p.1 = .ign then none else some p.2

theorem fieldValue_ign (ty : FTy) (s : Text) : fieldValue ty s = none ↔ ty = .ign := by cases ty <;> simp [fieldValue]

theorem usedNames_cons (ty : FTy) (tys : List FTy) (k : Key) (ks : List Key) :
    usedNames (ty :: tys) (k :: ks) = if ty = .ign then usedNames tys ks else k :: usedNames tys ks := by
  unfold usedNames
  rw [List.zip_cons_cons, List.filterMap_cons]
  by_cases h : ty = .ign
  · simp [h]
  · simp [h]

/-- The fields of a list of texts. -/
def named : List FTy → List Key → List Text → Dict
  | ty :: tys, k :: ks, s :: ss => (match fieldValue ty s with
    | some v => [(k, v)]
    | none => []) ++ named tys ks ss
  | _, _, _ => []

theorem headerLoop_iff (ss : List Text) : ∀ (m : Nat) (tys : List FTy) (ks : List Key) (acc out : Dict),
    (acc.map Prod.fst ++ usedNames tys ks).Nodup → ss.length ≤ ks.length →
    (headerLoop m tys ks ss acc = .ok out ↔ ss.length ≤ tys.length ∧
      (∀ i < m, ∀ ty s, tys[i]? = some ty → ss[i]? = some s → WellFormed ty s) ∧ out = acc ++ named tys ks ss) := by
  induction ss with
  | nil =>
    intro m tys ks acc out hn hl
    have h1 : headerLoop m tys ks [] acc = .ok acc := by
      cases ks <;> cases tys <;> rfl
    have h2 : named tys ks [] = [] := by cases tys <;> cases ks <;> rfl
    rw [h1, h2]
    simp [eq_comm]
  | cons s ss ih =>
    intro m tys ks acc out hn hl
    cases ks with
    | nil => simp at hl
    | cons k ks =>
      cases tys with
      | nil => simp [headerLoop]
      | cons ty tys =>
        rw [headerLoop_step]
        rw [usedNames_cons] at hn
        have hk : ∀ v, fieldValue ty s = some v → k ∉ acc.map Prod.fst := by
          intro v hv hk
          rw [if_neg (fun e => by rw [(fieldValue_ign ty s).2 e] at hv; cases hv)] at hn
          have := (List.nodup_append.1 hn).2.2
          exact this k hk k (by simp) rfl
        by_cases hw : WellFormed ty s ∨ m = 0
        · rw [if_pos hw]
          have hn' : ((match fieldValue ty s with
              | some v => acc.set k v
              | none => acc).map Prod.fst ++ usedNames tys ks).Nodup := by
            cases hv : fieldValue ty s with
            | none =>
              rw [if_pos ((fieldValue_ign ty s).1 hv)] at hn
              exact hn
            | some v =>
              rw [if_neg (fun e => by rw [(fieldValue_ign ty s).2 e] at hv; cases hv)] at hn
              simp only [Dict.set_new (hk v hv), List.map_append, List.map_cons, List.map_nil, List.append_assoc]
              exact hn
          rw [ih (m - 1) tys ks _ out hn' (by simpa using hl)]
          simp only [List.length_cons, Nat.add_le_add_iff_right]
          have e : (match fieldValue ty s with
              | some v => acc.set k v
              | none => acc) ++ named tys ks ss = acc ++ named (ty :: tys) (k :: ks) (s :: ss) := by
            simp only [named]
            cases hv : fieldValue ty s with
            | none => simp
            | some v => simp [Dict.set_new (hk v hv)]
          rw [e]
          constructor
          · rintro ⟨h1, h2, h3⟩
            refine ⟨h1, fun i hi ty' s' ht hs => ?_, h3⟩
            cases i with
            | zero =>
              simp only [List.getElem?_cons_zero, Option.some.injEq] at ht hs
              subst ht hs
              exact hw.resolve_right (by omega)
            | succ i => exact h2 i (by omega) ty' s' (by simpa using ht) (by simpa using hs)
          · rintro ⟨h1, h2, h3⟩
            exact ⟨h1, fun i hi ty' s' ht hs => h2 (i + 1) (by omega) ty' s' (by simpa using ht) (by simpa using hs), h3⟩
        · rw [if_neg hw]
          simp only [not_or] at hw
          constructor
          · intro h; cases h
          · rintro ⟨_, h2, _⟩
            exact absurd (h2 0 (by omega) ty s rfl rfl) hw.1

theorem named_eq (tys : List FTy) (ks : List Key) (f : Nat → Text) (n : Nat) :
    named tys ks ((List.range n).map f) = (List.range n).filterMap fun i =>
      match tys[i]?, ks[i]? with
      | some ty, some k => (fieldValue ty (f i)).map fun v => (k, v)
      | _, _ => none := by
  induction n generalizing tys ks f with
  | zero => cases tys <;> cases ks <;> rfl
  | succ n ih =>
    rw [List.range_succ_eq_map, List.map_cons, List.map_map, List.filterMap_cons, List.filterMap_map]
    cases tys with
    | nil => simp [named]
    | cons ty tys =>
      cases ks with
      | nil => simp [named]
      | cons k ks =>
        simp only [named, List.getElem?_cons_zero]
        rw [show (f ∘ Nat.succ) = fun i => f (i + 1) from rfl, ih]
        cases fieldValue ty (f 0) with
        | none => simp [Function.comp_def]
        | some v => simp [Function.comp_def]

/-- A header line is cut into consecutive fields.  For every table in which the fields that are not ignored have distinct names, the call succeeds exactly when there are enough names and types, no
more mandatory fields than fields, and every mandatory numeric field holds a number; then the result is exactly the fields that are not
ignored, in order: texts stripped, numbers read, malformed optional numbers replaced by 0. -/
theorem C15_parse (line : Text) (min : Nat) (widths : List Nat) (types : List FTy) (names : List Key) (hn : (usedNames types names).Nodup)
    (out : Dict) :
    parseHeader line min widths types names = .ok out ↔
      widths.length ≤ names.length ∧ min ≤ widths.length ∧ widths.length ≤ types.length ∧
      (∀ i < min, ∀ ty, types[i]? = some ty → WellFormed ty (fieldText line widths i)) ∧
      out = namedFields line widths types names := by
  have hp : (if line.length < 80 then line ++ blanks (80 - line.length) else line) = line ++ List.replicate (80 - line.length) ' ' := by
    split
    · rfl
    · rw [Nat.sub_eq_zero_of_le (by omega)]; simp
  unfold parseHeader
  rw [hp]
  simp only [cutFields_eq, Nat.zero_add, List.length_map, List.length_range]
  have hf : (List.range widths.length).map (fun i =>
      strip ((line ++ List.replicate (80 - line.length) ' ').drop (widths.take i).sum |>.take (widths[i]?.getD 0))) =
      (List.range widths.length).map (fieldText line widths) := rfl
  rw [hf]
  by_cases h : names.length < widths.length ∨ min > widths.length
  · rw [if_pos h]
    constructor
    · intro h'; cases h'
    · rintro ⟨h1, h2, _⟩; omega
  · rw [if_neg h]
    simp only [not_or, Nat.not_lt] at h
    rw [headerLoop_iff _ _ _ _ _ _ (by simpa using hn) (by simpa using h.1), named_eq]
    simp only [List.length_map, List.length_range, List.nil_append]
    constructor
    · rintro ⟨h1, h2, h3⟩
      refine ⟨h.1, h.2, h1, fun i hi ty ht => ?_, h3⟩
      refine h2 i hi ty _ ht ?_
      rw [List.getElem?_map, List.getElem?_range (by omega)]; rfl
    · rintro ⟨_, _, h1, h2, h3⟩
      refine ⟨h1, fun i hi ty s ht hs => ?_, h3⟩
      rw [List.getElem?_map, List.getElem?_range (by omega)] at hs
      obtain rfl := Option.some.inj hs
      exact h2 i hi ty ht

/-- Every key of the result is the name of a field that is cut and not ignored. -/
theorem C15_keys (line : Text) (min : Nat) (widths : List Nat) (types : List FTy) (names : List Key) (hn : (usedNames types names).Nodup)
    (out : Dict) (h : parseHeader line min widths types names = .ok out) (k : Key) (v : Val) (hk : (k, v) ∈ out) :
    ∃ i ty, i < widths.length ∧ names[i]? = some k ∧ types[i]? = some ty ∧ ty ≠ .ign ∧
      fieldValue ty (fieldText line widths i) = some v := by
  obtain ⟨-, -, -, -, rfl⟩ := (C15_parse line min widths types names hn out).1 h
  unfold namedFields at hk
  obtain ⟨i, hi, hv⟩ := List.mem_filterMap.1 hk
  cases ht : types[i]? with
  | none => rw [ht] at hv; cases hv
  | some ty =>
    cases hs : names[i]? with
    | none => rw [ht, hs] at hv; cases hv
    | some k' =>
      rw [ht, hs] at hv
      simp only [Option.map_eq_some_iff, Prod.mk.injEq] at hv
      obtain ⟨a, ha, rfl, rfl⟩ := hv
      refine ⟨i, ty, List.mem_range.1 hi, hs, ht, ?_, ha⟩
      rintro rfl
      cases ha

/-- A mandatory numeric field that is blank or malformed raises, whatever the rest of the line. -/
theorem C15_mandatory (line : Text) (min : Nat) (widths : List Nat) (types : List FTy) (names : List Key) (hn : (usedNames types names).Nodup)
    (i : Nat) (hi : i < min) (ty : FTy) (ht : types[i]? = some ty) (hw : ¬ WellFormed ty (fieldText line widths i)) :
    ∃ e, parseHeader line min widths types names = .error e := by
  cases h : parseHeader line min widths types names with
  | error e => exact ⟨e, rfl⟩
  | ok out =>
    have := ((C15_parse line min widths types names hn out).1 h).2.2.2.1 i hi ty ht
    exact absurd this hw

/-- A short line with a malformed optional number, and one with a malformed mandatory number. -/
example : parseHeader "   7  abc  x   ".toList 1 [4, 5, 4, 4] [.int, .str, .flt, .ign] ["a", "b", "c", "d"] =
    .ok [("a", .int 7), ("b", .str "abc".toList), ("c", .float F64.zero)] := by decide +kernel
example : ¬ WellFormed .int (fieldText "   x  abc".toList [4, 5] 0) := by
  have : parseInt (fieldText "   x  abc".toList [4, 5] 0) = none := by decide +kernel
  exact fun h => h this

end Verif
