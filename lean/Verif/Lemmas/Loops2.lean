import Verif.Lemmas.Loops
import Verif.Spec.Loops
import Verif.Lemmas.Row
/-
The group and element records of the loops, and loops whose index only grows.
-/
namespace Verif
namespace Loops

variable {α : Type} {cond : Int → Bool} {body : Int → Res (α × Int)}

/-- A loop whose index grows in every pass ends. -/
theorem ends_of_grows {L : Nat} (hc : ∀ i, cond i = true → i < L) (hb : ∀ i p, 0 ≤ i → cond i = true → body i = .ok p → i < p.2)
    (n : Nat) (i : Int) (acc : List α) (hi : 0 ≤ i) (hn : L ≤ i + n) : ∃ r, loopPasses cond body (n + 1) i acc = .ended r := by
  induction n generalizing i acc with
  | zero =>
    have h : ¬ cond i = true := fun h => by have := hc i h; omega
    unfold loopPasses
    rw [if_neg h]; exact ⟨_, rfl⟩
  | succ n ih =>
    unfold loopPasses
    by_cases h : cond i = true
    · rw [if_pos h]
      cases hbi : body i with
      | error e => exact ⟨_, rfl⟩
      | ok p =>
        have := hb i p hi h hbi
        exact ih p.2 _ (by omega) (by omega)
    · rw [if_neg h]; exact ⟨_, rfl⟩

/-- A loop that comes to an index from which it does not move never ends. -/
theorem never_of_stays {m : Nat} {i₀ i : Int} {acc l : List α} {a : α} (hr : loopPasses cond body m i₀ acc = .running i l)
    (hc : cond i = true) (hb : body i = .ok (a, i)) (n : Nat) : ∃ j l, loopPasses cond body n i₀ acc = .running j l ∧
      l.length = acc.length + n := by
  have hm : iter (next cond body) m i₀ = some i := by
    rcases passes_running (cond := cond) (body := body) m i₀ acc with ⟨j, l', h1, _, h2⟩ | ⟨⟨r, h1⟩, _⟩
    · rw [hr] at h1; cases h1; exact h2
    · rw [hr] at h1; cases h1
  have hcyc : iter (next cond body) 1 i = some i := by
    unfold iter next
    rw [if_pos hc, hb]; rfl
  have hn : (iter (next cond body) n i₀).isSome := by
    refine iter_le (m := m + n) (by omega) ?_
    rw [iter_add, hm]
    exact iter_cycle (by omega) hcyc n
  rcases passes_running (cond := cond) (body := body) n i₀ acc with ⟨j, l', h1, h2, _⟩ | ⟨_, h1⟩
  · exact ⟨j, l', h1, h2⟩
  · rw [h1] at hn; cases hn

theorem pyAt_nat {β : Type} (l : List β) (i : Nat) : pyAt l (i : Int) = orIndex l[i]? := by
  unfold pyAt
  rw [if_pos (by omega)]; rfl

theorem pyClamp_nat (n i : Nat) : pyClamp n (i : Int) = i := by
  unfold pyClamp
  rw [if_pos (by omega)]; rfl

theorem pySlice_nat {β : Type} (l : List β) (i j : Nat) : pySlice l (i : Int) (j : Int) = (l.drop i).take (j - i) := by
  unfold pySlice
  rw [pyClamp_nat, pyClamp_nat]

theorem orIndex_ok {β : Type} {o : Option β} {b : β} (h : orIndex o = .ok b) : o = some b := by
  cases o with
  | none => cases h
  | some c => cases h; rfl

theorem pyAt_mem {β : Type} {l : List β} {i : Int} {b : β} (h : pyAt l i = .ok b) : b ∈ l := by
  unfold pyAt at h
  split at h
  · exact List.mem_of_getElem? (orIndex_ok h)
  · split at h
    · exact List.mem_of_getElem? (orIndex_ok h)
    · cases h

theorem groupHead_iff (l1 l2 : Text) (g : Dict) : groupHead l1 l2 = .ok g ↔
    (∀ i < 8, parseInt (fieldText l1 [10, 10, 10, 10, 10, 10, 10, 10] i) ≠ none) ∧
    g = (Dict.update [] (namedFields l1 [10, 10, 10, 10, 10, 10, 10, 10] [.int, .int, .int, .int, .int, .int, .int, .int]
    ["group_number", "active_constraint_set_no_for_group", "active_restraint_set_no_for_group",
     "active_load_set_no_for_group", "active_dof_set_no_for_group", "active_temperature_set_no_for_group",
     "active_contact_set_no_for_group", "number_of_entities_in_group"])).update (namedFields l2 [40] [.str] ["group_name"]) := by
  have h2 : parseHeader l2 1 [40] [.str] ["group_name"] = .ok (namedFields l2 [40] [.str] ["group_name"]) := by
    refine (C15_parse _ _ _ _ _ (by decide) _).2 ⟨by decide, by decide, by decide, ?_, rfl⟩
    intro i hi ty hty
    obtain rfl : i = 0 := by omega
    cases hty
    trivial
  have hty : ∀ i < 8, ([.int, .int, .int, .int, .int, .int, .int, .int] : List FTy)[i]? = some .int := by decide
  unfold groupHead
  constructor
  · intro h
    cases h1 : parseHeader l1 8 [10, 10, 10, 10, 10, 10, 10, 10] [.int, .int, .int, .int, .int, .int, .int, .int]
      ["group_number", "active_constraint_set_no_for_group", "active_restraint_set_no_for_group",
       "active_load_set_no_for_group", "active_dof_set_no_for_group", "active_temperature_set_no_for_group",
       "active_contact_set_no_for_group", "number_of_entities_in_group"] with
    | error e => rw [h1] at h; cases h
    | ok d =>
      rw [h1, h2] at h
      obtain ⟨-, -, -, hw, rfl⟩ := (C15_parse _ _ _ _ _ (by decide) _).1 h1
      cases h
      exact ⟨fun i hi => hw i hi .int (hty i hi), rfl⟩
  · rintro ⟨hw, rfl⟩
    rw [(C15_parse _ _ _ _ _ (by decide) _).2 ⟨by decide, by decide, by decide, fun i hi ty ht => by
      rw [hty i hi] at ht; cases ht; exact hw i hi, rfl⟩, h2]
    rfl

theorem groupCount_eq (l1 l2 : Text) : groupCount ((Dict.update [] (namedFields l1 [10, 10, 10, 10, 10, 10, 10, 10]
    [.int, .int, .int, .int, .int, .int, .int, .int]
    ["group_number", "active_constraint_set_no_for_group", "active_restraint_set_no_for_group",
     "active_load_set_no_for_group", "active_dof_set_no_for_group", "active_temperature_set_no_for_group",
     "active_contact_set_no_for_group", "number_of_entities_in_group"])).update (namedFields l2 [40] [.str] ["group_name"])) =
    .ok ((parseInt (fieldText l1 [10, 10, 10, 10, 10, 10, 10, 10] 7)).getD 0) := rfl

/-- The header of a group is read when its first line has eight integers; the eighth one is the count. -/
theorem groupHead_of {l1 : Text} {n : Int} (h : GroupLine l1 n) (l2 : Text) : ∃ g, groupHead l1 l2 = .ok g ∧ groupCount g = .ok n := by
  refine ⟨_, (groupHead_iff l1 l2 _).2 ⟨h.1, rfl⟩, ?_⟩
  rw [groupCount_eq, h.2]; rfl

theorem groupLine_of {l1 l2 : Text} {g : Dict} {n : Int} (h : groupHead l1 l2 = .ok g) (hn : groupCount g = .ok n) : GroupLine l1 n := by
  obtain ⟨hw, rfl⟩ := (groupHead_iff l1 l2 g).1 h
  rw [groupCount_eq] at hn
  refine ⟨hw, ?_⟩
  cases hp : parseInt (fieldText l1 [10, 10, 10, 10, 10, 10, 10, 10] 7) with
  | none => exact absurd hp (hw 7 (by decide))
  | some m => rw [hp] at hn; cases hn; rfl

theorem word_bind {β : Type} (o : Option Text) (f : Int → Res β) (b : β) :
    (orIndex o >>= fun w => pyInt w >>= f) = .ok b ↔ ∃ n, o.bind parseInt = some n ∧ f n = .ok b := by
  cases o with
  | none => exact ⟨fun h => (by cases h), fun ⟨_, h, _⟩ => (by cases h)⟩
  | some w =>
    show (orValue (parseInt w) >>= f) = .ok b ↔ ∃ n, parseInt w = some n ∧ f n = .ok b
    cases parseInt w with
    | none => exact ⟨fun h => (by cases h), fun ⟨_, h, _⟩ => (by cases h)⟩
    | some m => exact ⟨fun h => ⟨m, rfl, h⟩, fun ⟨_, h, h'⟩ => (by cases h; exact h')⟩

theorem elemRecord_iff (l : Text) (e : Int × Int × Int × Int) :
    elemRecord l = .ok e ↔ ElementLine l e.1 e.2.1 e.2.2.1 e.2.2.2 := by
  unfold elemRecord ElementLine
  simp only [word_bind]
  obtain ⟨a, b, c, d⟩ := e
  constructor
  · rintro ⟨_, h0, _, h1, _, h2, _, h3, h⟩
    cases h
    exact ⟨h0, h1, h2, h3⟩
  · rintro ⟨h0, h1, h2, h3⟩
    exact ⟨_, h0, _, h1, _, h2, _, h3, rfl⟩

theorem body2429_ok {ls : List Text} {i : Int} {p : Val × Int} (h : body2429 ls i = .ok p) :
    ∃ l ∈ ls, ∃ n, GroupLine l n ∧ pyAt ls i = .ok l ∧ p.2 = ceilDiv n 4 + i + 2 := by
  unfold body2429 at h
  cases h1 : pyAt ls i with
  | error e => rw [h1] at h; cases h
  | ok l1 =>
    rw [h1, ok_bind] at h
    cases h2 : pyAt ls (i + 1) with
    | error e => rw [h2] at h; cases h
    | ok l2 =>
      rw [h2, ok_bind] at h
      cases h3 : groupHead l1 l2 with
      | error e => rw [h3] at h; cases h
      | ok g =>
        rw [h3, ok_bind] at h
        cases h4 : groupCount g with
        | error e => rw [h4] at h; cases h
        | ok n =>
          rw [h4, ok_bind] at h
          refine ⟨l1, pyAt_mem h1, n, groupLine_of h3 h4, rfl, ?_⟩
          cases h5 : groupValues (pySlice ls (i + 2) (ceilDiv n 4 + i + 2)) with
          | error e => simp only [h5, error_bind] at h; cases h
          | ok vs => simp only [h5, ok_bind] at h; cases h; rfl

theorem body2467_ok {ls : List Text} {i : Int} {p : Val × Int} (h : body2467 ls i = .ok p) :
    ∃ l ∈ ls, ∃ n, GroupLine l n ∧ pyAt ls i = .ok l ∧ p.2 = ceilDiv n 2 + i + 2 := by
  unfold body2467 at h
  cases h1 : pyAt ls i with
  | error e => rw [h1] at h; cases h
  | ok l1 =>
    rw [h1, ok_bind] at h
    cases h2 : pyAt ls (i + 1) with
    | error e => rw [h2] at h; cases h
    | ok l2 =>
      rw [h2, ok_bind] at h
      cases h3 : groupHead l1 l2 with
      | error e => rw [h3] at h; cases h
      | ok g =>
        rw [h3, ok_bind] at h
        cases h4 : groupCount g with
        | error e => rw [h4] at h; cases h
        | ok n =>
          rw [h4, ok_bind] at h
          refine ⟨l1, pyAt_mem h1, n, groupLine_of h3 h4, rfl, ?_⟩
          cases h5 : groupValues (pySlice ls (i + 2) (ceilDiv n 2 + i + 2)) with
          | error e => simp only [h5, error_bind] at h; cases h
          | ok vs => simp only [h5, ok_bind] at h; cases h; rfl

theorem bodyElem_ok {ls : List Text} {i : Int} {p : ((Int × Int × Int × Int) × Val) × Int} (h : bodyElem ls i = .ok p) :
    ∃ l ∈ ls, ∃ e iexp nodes vals, ElementLine l e iexp nodes vals ∧ pyAt ls i = .ok l ∧ p.2 = i + 1 + elemLines iexp nodes vals := by
  unfold bodyElem at h
  cases h1 : pyAt ls i with
  | error e => rw [h1] at h; cases h
  | ok l =>
    rw [h1, ok_bind] at h
    cases h2 : elemRecord l with
    | error e => rw [h2] at h; cases h
    | ok e =>
      rw [h2, ok_bind] at h
      refine ⟨l, pyAt_mem h1, e.1, e.2.1, e.2.2.1, e.2.2.2, (elemRecord_iff l e).1 h2, rfl, ?_⟩
      cases h3 : floatLists (pySlice ls (i + 1) (i + 1 + elemLines e.2.1 e.2.2.1 e.2.2.2)) with
      | error e => simp only [h3, error_bind] at h; cases h
      | ok vs => simp only [h3, ok_bind] at h; cases h; rfl

theorem values_nil : groupValues [] = .ok [] := rfl

/-- A pass at a group whose count makes the index stay. -/
theorem body2429_stays {ls : List Text} {i : Nat} {l1 l2 : Text} {n : Int} (h1 : ls[i]? = some l1) (h2 : ls[i + 1]? = some l2)
    (hl : GroupLine l1 n) (hn : ceilDiv n 4 = -2) : ∃ a, body2429 ls i = .ok (a, (i : Int)) := by
  obtain ⟨g, hg, hc⟩ := groupHead_of hl l2
  have hs : pySlice ls ((i : Int) + 2) (i : Int) = [] := by
    have : ((i : Int) + 2) = ((i + 2 : Nat) : Int) := by omega
    rw [this, pySlice_nat, show i - (i + 2) = 0 by omega]; rfl
  unfold body2429
  rw [show ((i : Int) + 1) = ((i + 1 : Nat) : Int) by omega, pyAt_nat, pyAt_nat, h1, h2]
  simp only [orIndex, ok_bind, hg, hc, hn]
  rw [show (-2 + (i : Int) + 2) = i by omega, hs, values_nil]
  exact ⟨_, rfl⟩

theorem body2467_stays {ls : List Text} {i : Nat} {l1 l2 : Text} {n : Int} (h1 : ls[i]? = some l1) (h2 : ls[i + 1]? = some l2)
    (hl : GroupLine l1 n) (hn : ceilDiv n 2 = -2) : ∃ a, body2467 ls i = .ok (a, (i : Int)) := by
  obtain ⟨g, hg, hc⟩ := groupHead_of hl l2
  have hs : pySlice ls ((i : Int) + 2) (i : Int) = [] := by
    have : ((i : Int) + 2) = ((i + 2 : Nat) : Int) := by omega
    rw [this, pySlice_nat, show i - (i + 2) = 0 by omega]; rfl
  unfold body2467
  rw [show ((i : Int) + 1) = ((i + 1 : Nat) : Int) by omega, pyAt_nat, pyAt_nat, h1, h2]
  simp only [orIndex, ok_bind, hg, hc, hn]
  rw [show (-2 + (i : Int) + 2) = i by omega, hs, values_nil]
  exact ⟨_, rfl⟩

theorem bodyElem_stays {ls : List Text} {i : Nat} {l : Text} {e iexp nodes vals : Int} (h1 : ls[i]? = some l)
    (hl : ElementLine l e iexp nodes vals) (hn : elemLines iexp nodes vals = -1) : ∃ a, bodyElem ls i = .ok (a, (i : Int)) := by
  have hs : pySlice ls ((i : Int) + 1) (i : Int) = [] := by
    have : ((i : Int) + 1) = ((i + 1 : Nat) : Int) := by omega
    rw [this, pySlice_nat, show i - (i + 1) = 0 by omega]; rfl
  have he := (elemRecord_iff l (e, iexp, nodes, vals)).2 hl
  unfold bodyElem
  rw [pyAt_nat, h1]
  simp only [orIndex, ok_bind, he, hn]
  rw [show ((i : Int) + 1 + -1) = i by omega, hs]
  exact ⟨_, rfl⟩

end Loops
end Verif
