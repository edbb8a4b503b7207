import Verif.Lemmas.RT2412
import Verif.Lemmas.Records
/-
Counting the lines of elements.
-/
namespace Verif
namespace DS2412

/-- The lines the reader takes for an element. -/
def cost (fe : Int) : Nat := if isRod fe then 3 else 2

/-- The lines the reader takes for the elements in a dictionary. -/
def weigh (d : Dict) : Nat := (d.map fun kv => match kv with
  | (.i t, .list l) => l.length * cost t
  | _ => 0).sum

theorem weigh_cons (k : Key) (v : Val) (d : Dict) : weigh ((k, v) :: d) = weigh [(k, v)] + weigh d := by
  simp [weigh]

theorem weigh_append (a b : Dict) : weigh (a ++ b) = weigh a + weigh b := by
  simp [weigh]

theorem weigh_set_s (d : Dict) (k : String) (v : Val) : weigh (d.set (.s k) v) = weigh d := by
  induction d with
  | nil => rfl
  | cons kv d ih =>
    obtain ⟨k', v'⟩ := kv
    unfold Dict.set
    split
    · rename_i h
      subst h
      rw [weigh_cons, weigh_cons (.s k) v']
      rfl
    · rw [weigh_cons, ih, ← weigh_cons]

theorem weigh_set_new (d : Dict) (t : Int) (x : Val) (h : d.get? (.i t) = none) :
    weigh (d.set (.i t) (.list [x])) = weigh d + cost t := by
  induction d with
  | nil => simp [Dict.set, weigh]
  | cons kv d ih =>
    obtain ⟨k', v'⟩ := kv
    unfold Dict.set
    unfold Dict.get? at h
    split at h
    · cases h
    · rename_i hk
      rw [if_neg hk, weigh_cons, ih h, weigh_cons k' v' d]
      omega

theorem weigh_set_more (d : Dict) (t : Int) (x : Val) (l : List Val) (h : d.get? (.i t) = some (.list l)) :
    weigh (d.set (.i t) (.list (l ++ [x]))) = weigh d + cost t := by
  induction d with
  | nil => cases h
  | cons kv d ih =>
    obtain ⟨k', v'⟩ := kv
    unfold Dict.set
    unfold Dict.get? at h
    split at h
    · rename_i hk
      cases h
      rw [if_pos hk, weigh_cons, weigh_cons k' _ d, hk]
      simp only [weigh, List.map_cons, List.map_nil, List.sum_cons, List.sum_nil, List.length_append, List.length_cons,
        List.length_nil, Nat.add_mul]
      omega
    · rename_i hk
      rw [if_neg hk, weigh_cons, ih h, weigh_cons k' v' d]
      omega

theorem weigh_groups (l : List (Int × Dict)) :
    weigh ((Key.s "type", Val.int 2412) :: groupsOf l) = (l.map fun e => cost e.1).sum := by
  have key : ∀ n, ∀ l : List (Int × Dict), l.length = n →
      weigh ((Key.s "type", Val.int 2412) :: groupsOf l) = (l.map fun e => cost e.1).sum := by
    intro n
    induction n with
    | zero =>
      intro l hl
      rw [List.eq_nil_of_length_eq_zero hl]
      rfl
    | succ n ih =>
      intro l hl
      rcases List.eq_nil_or_concat l with rfl | ⟨l', e, rfl⟩
      · simp at hl
      · rw [List.concat_eq_append] at hl ⊢
        have hl' : l'.length = n := by simpa using hl
        rw [← add_step]
        have hg : Dict.get? ((Key.s "type", Val.int 2412) :: groupsOf l') (.i e.1)
            = if e.1 ∈ l'.map (·.1) then some (.list ((l'.filter (·.1 = e.1)).map (.dict ·.2))) else none := by
          unfold Dict.get?
          rw [if_neg (by intro h; cases h)]
          unfold groupsOf
          rw [get?_tab]
          simp only [mem_firsts]
        have hs : (((l' ++ [e]).map fun e => cost e.1).sum : Nat) = (l'.map fun e => cost e.1).sum + cost e.1 := by simp
        rw [hs, ← ih l' hl']
        unfold addElem
        by_cases hm : e.1 ∈ l'.map (·.1)
        · rw [if_pos hm] at hg
          rw [hg]
          exact weigh_set_more _ _ _ _ hg
        · rw [if_neg hm] at hg
          rw [hg]
          exact weigh_set_new _ _ _ hg
  exact key _ l rfl

theorem weigh_legacy (d d' : Dict) (fe : Int) (name : String) (h : addLegacy d fe name = .ok d') : weigh d' = weigh d := by
  unfold addLegacy at h
  cases hg : d.get? (.i fe) with
  | none => rw [hg] at h; cases h; rfl
  | some v =>
    rw [hg] at h
    simp only at h
    cases hi : v.items with
    | error x => rw [hi] at h; cases h
    | ok l =>
      rw [hi] at h
      simp only [ok_bind] at h
      cases hl : legacy l ["element_nums", "fe_descriptor", "phys_table", "mat_table", "color", "num_nodes", "nodes_nums"] with
      | error x => rw [hl] at h; cases h
      | ok r =>
        rw [hl] at h
        simp only [ok_bind] at h
        cases h
        exact weigh_set_s _ _ _

/-- The reader takes two or three lines for each element. -/
theorem readElems_lines (ls : List (List Text)) (l : List (Int × Dict)) (h : readElems ls = .ok l) :
    ls.length = (l.map fun e => cost e.1).sum := by
  fun_induction readElems ls generalizing l <;> first
    | cases h; done
    | (cases h; rfl)
    | (rename_i ih
       cases h
       simp_all [cost]
       omega)

theorem extract_weigh (block : Text) (d : Dict) (h : extract2412 block = .ok d) :
    ((splitLines block).drop 2).length = weigh d := by
  unfold extract2412 at h
  have h' := Records.guard_ok.1 h
  cases hr : readElems (((splitLines block).map splitWs).drop 2) with
  | error x => rw [hr] at h'; cases h'
  | ok l =>
    rw [hr] at h'
    simp only [ok_bind, fold_add] at h'
    cases h1 : addLegacy ((Key.s "type", Val.int 2412) :: groupsOf l) 41 "triangle" with
    | error x => rw [h1] at h'; cases h'
    | ok d1 =>
      rw [h1] at h'
      simp only [ok_bind] at h'
      rw [weigh_legacy _ _ _ _ h', weigh_legacy _ _ _ _ h1, weigh_groups, ← readElems_lines _ _ hr]
      simp

theorem weigh_readBack (r : DS2412) : weigh r.readBack = (r.elems.map fun e => cost e.fe).sum := by
  have hc : ∀ fe (name : String), weigh (r.columns fe name) = 0 := by
    intro fe name
    unfold columns
    split <;> rfl
  have hg := weigh_groups (r.elems.map pair)
  rw [groups_eq] at hg
  unfold readBack
  rw [weigh_append, weigh_append, hc, hc]
  rw [List.map_map] at hg
  exact hg

theorem lines_length (es : List Elem) : (es.flatMap row).length = (es.map fun e => if e.fe = 11 then 3 else 2).sum := by
  induction es with
  | nil => rfl
  | cons e es ih =>
    rw [List.flatMap_cons, List.length_append, ih, List.map_cons, List.sum_cons]
    congr 1
    unfold row
    split <;> rfl

/-- Beams and rods other than those with descriptor 11 are written with one line too few. -/
theorem no_rod (es : List Elem) (h : (es.map fun e => if e.fe = 11 then 3 else 2).sum = (es.map fun e => cost e.fe).sum) :
    ∀ e ∈ es, e.fe ≠ 21 ∧ e.fe ≠ 22 ∧ e.fe ≠ 23 ∧ e.fe ≠ 24 := by
  have one : ∀ e : Elem, (if e.fe = 11 then 3 else 2) ≤ cost e.fe := by
    intro e
    unfold cost
    split
    · rename_i h; rw [h]; decide
    · split <;> omega
  have le : ∀ es : List Elem, (es.map fun e => if e.fe = 11 then 3 else 2).sum ≤ (es.map fun e => cost e.fe).sum := by
    intro es
    induction es with
    | nil => exact Nat.le_refl _
    | cons e es ih =>
      rw [List.map_cons, List.sum_cons, List.map_cons, List.sum_cons]
      exact Nat.add_le_add (one e) ih
  induction es with
  | nil => simp
  | cons e es ih =>
    rw [List.map_cons, List.sum_cons, List.map_cons, List.sum_cons] at h
    have h1 := one e
    have h2 := le es
    have he : (if e.fe = 11 then 3 else 2) = cost e.fe := by omega
    intro x hx
    rcases List.mem_cons.1 hx with rfl | hx
    · refine ⟨?_, ?_, ?_, ?_⟩ <;> intro hf <;> rw [hf] at he <;> exact absurd he (by decide)
    · exact ih (by omega) x hx

end DS2412
end Verif
