import Verif.Lemmas.Groups
/-
C52: groups (2429, 2467) of any program.
-/
namespace Verif
open Groups

/-- Groups (2429), whoever wrote them, when something is behind the first two lines of the last group: all of them are read, with
all their entities, however the numbers are distributed over the lines.  One or two lines behind the last group are ignored.  Missing
for the general claim: a last group without entities (`C52_lost_2429`). -/
theorem C52_2429_partial (f : Bytes) (k : Nat) (hk : k < setCount f) (ht : TypeIs (setBytes f k) 2429) (l1 l2 : Text)
    (gs : List GroupLines) (tail : List Text) (hl : splitLines (decode (setBytes f k)) = l1 :: l2 :: (gs.flatMap GroupLines.lines ++ tail))
    (hg : ∀ g ∈ gs, g.Good 2 4) (h2 : tail.length ≤ 2) (hlast : ∀ g, gs.getLast? = some g → g.rows ≠ [] ∨ tail ≠ []) (header : Bool) :
    ((World.new (some f)).readSets (.one k) header).2 = .ok (.single (groupsDict2429 gs)) := by
  refine read_typed f k hk 2429 ht header _ ?_
  show extract2429 _ = _
  unfold extract2429
  rw [hl]
  simp only [List.drop_succ_cons, List.drop_zero]
  rw [read2429 gs tail h2 hg hlast]
  · rfl
  · rw [List.length_append]
    refine Nat.le_trans ?_ (Nat.le_add_right _ _)
    clear hl hlast hg
    induction gs with
    | nil => exact Nat.zero_le _
    | cons g gs ih => simp only [List.flatMap_cons, List.length_append, List.length_cons, GroupLines.lines]; omega

/-- A group without entities at the end of a data-set 2429 is lost, whatever groups are before it. -/
theorem C52_lost_2429 (f : Bytes) (k : Nat) (hk : k < setCount f) (ht : TypeIs (setBytes f k) 2429) (l1 l2 : Text)
    (gs : List GroupLines) (g : GroupLines) (hl : splitLines (decode (setBytes f k)) = l1 :: l2 :: (gs ++ [g]).flatMap GroupLines.lines)
    (hg : ∀ g' ∈ gs, g'.Good 2 4) (hr : g.Good 2 4) (he : g.entities = []) (header : Bool) :
    ((World.new (some f)).readSets (.one k) header).2 = .ok (.single (groupsDict2429 gs)) := by
  have hrows : g.rows = [] := List.length_eq_zero_iff.1 (by rw [hr.rows, he]; rfl)
  refine C52_2429_partial f k hk ht l1 l2 gs [g.head, g.name] ?_ hg (by simp) (fun _ _ => .inr (by simp)) header
  rw [hl, List.flatMap_append, List.flatMap_singleton, GroupLines.lines, hrows]

/-- Groups (2467), whoever wrote them: all of them are read, with all their entities. -/
theorem C52_2467 (f : Bytes) (k : Nat) (hk : k < setCount f) (ht : TypeIs (setBytes f k) 2467) (l1 l2 : Text)
    (gs : List GroupLines) (hl : splitLinesKeep (decode (setBytes f k)) = l1 :: l2 :: gs.flatMap GroupLines.lines)
    (hg : ∀ g ∈ gs, g.Good 4 2) (header : Bool) :
    ((World.new (some f)).readSets (.one k) header).2 = .ok (.single (groupsDict2467 gs)) := by
  refine read_typed f k hk 2467 ht header _ ?_
  show extract2467 _ = _
  unfold extract2467
  rw [hl]
  simp only [List.drop_succ_cons, List.drop_zero]
  rw [read2467 gs hg]
  · rfl
  · clear hl hg
    induction gs with
    | nil => exact Nat.zero_le _
    | cons g gs ih => simp only [List.flatMap_cons, List.length_append, List.length_cons, GroupLines.lines]; omega

/-! ### Examples -/

/-- Five entities in two lines, three in the first and two in the second. -/
def exUneven : GroupLines where
  head := chars!"         1         0         0         0         0         0         0         5"
  name := chars!"wing"
  rows := [chars!" 8 11 8 12 8 13", chars!"         8        14         7        15"]
  entities := [[8, 11], [8, 12], [8, 13], [8, 14], [7, 15]]

theorem exUneven_good : exUneven.Good 2 4 where
  ints := by decide +kernel
  count := by decide +kernel
  shape := by decide
  rows := rfl
  words := ⟨[[8, 11, 8, 12, 8, 13], [8, 14, 7, 15]],
    .cons (intLine _ _ (by decide +kernel)) (.cons (intLine _ _ (by decide +kernel)) .nil), rfl⟩
  small := by decide

/-- A group without entities. -/
def exHollow : GroupLines where
  head := chars!"         7         0         0         0         0         0         3         0"
  name := chars!"to be done"
  rows := []
  entities := []

theorem exHollow_good : exHollow.Good 2 4 where
  ints := by decide +kernel
  count := by decide +kernel
  shape := by decide
  rows := rfl
  words := ⟨[], .nil, rfl⟩
  small := by decide

/-- The hollow group first, then the uneven one, and an empty line. -/
def exGroupsA : Bytes := encode chars!"    -1\n  2429\n         7         0         0         0         0         0         3         0\nto be done\n         1         0         0         0         0         0         0         5\nwing\n 8 11 8 12 8 13\n         8        14         7        15\n\n    -1\n"

example : ((World.new (some exGroupsA)).readSets (.one (0 : Nat)) false).2 = .ok (.single (groupsDict2429 [exHollow, exUneven])) :=
  C52_2429_partial exGroupsA 0 (by rw [count_fast]; decide +kernel) (by rw [bytes_fast, typeIs_iff]; decide +kernel)
    chars!"    -1" chars!"  2429" [exHollow, exUneven] [[]] (by rw [bytes_fast]; decide +kernel)
    (by intro g hg; rcases List.mem_cons.1 hg with rfl | hg
        · exact exHollow_good
        · rw [List.mem_singleton.1 hg]; exact exUneven_good) (by decide) (fun _ _ => .inr (by simp)) false

example : exUneven.dict2429.get? "entity_tag" = some (.arrI [11, 12, 13, 14, 15]) ∧
    exUneven.dict2429.get? "group_name" = some (.str chars!"wing") := by decide +kernel

/-- The same groups in the other order. -/
def exGroupsB : Bytes := encode chars!"    -1\n  2429\n         1         0         0         0         0         0         0         5\nwing\n 8 11 8 12 8 13\n         8        14         7        15\n         7         0         0         0         0         0         3         0\nto be done\n    -1\n"

/-- The group without entities is not read when it is the last one. -/
theorem C52_negation_last : ((World.new (some exGroupsB)).readSets (.one (0 : Nat)) false).2 = .ok (.single (groupsDict2429 [exUneven])) ∧
    splitLines (decode (setBytes exGroupsB 0)) = chars!"    -1" :: chars!"  2429" :: [exUneven, exHollow].flatMap GroupLines.lines ∧
    exHollow.Good 2 4 := by
  have h : splitLines (decode (setBytes exGroupsB 0)) = chars!"    -1" :: chars!"  2429" :: [exUneven, exHollow].flatMap GroupLines.lines := by
    rw [bytes_fast]; decide +kernel
  refine ⟨C52_lost_2429 exGroupsB 0 (by rw [count_fast]; decide +kernel) (by rw [bytes_fast, typeIs_iff]; decide +kernel)
    _ _ [exUneven] exHollow h ?_ exHollow_good rfl false, h, exHollow_good⟩
  intro g hg
  rw [List.mem_singleton.1 hg]; exact exUneven_good

/-- A data-set 2429 that ends before all its entities have been given: the eight announced are returned as the number of entities,
together with the four that are there, and nothing is reported. -/
theorem C52_negation_short :
    let file := encode chars!"    -1\n  2429\n         1         0         0         0         0         0         0         8\nwing\n 8 11 8 12 8 13 8 14\n    -1\n"
    ((World.new (some file)).readSets .all false).2 = .ok (.single [("type", .int 2429), ("groups", .list [.dict
      [("group_number", .int 1), ("active_constraint_set_no_for_group", .int 0), ("active_restraint_set_no_for_group", .int 0),
       ("active_load_set_no_for_group", .int 0), ("active_dof_set_no_for_group", .int 0),
       ("active_temperature_set_no_for_group", .int 0), ("active_contact_set_no_for_group", .int 0),
       ("number_of_entities_in_group", .int 8), ("group_name", .str chars!"wing"), ("entity_type_code", .arrI [8, 8, 8, 8]),
       ("entity_tag", .arrI [11, 12, 13, 14])]])]) := by decide +kernel

/-- Three entities of four numbers in two lines. -/
def exFours : GroupLines where
  head := chars!"         2         0         0         0         0         0         0         3\n"
  name := chars!"fuselage\n"
  rows := [chars!"         8        11         0         0         8        12         0         0\n", chars!" 7 13 0 1\n"]
  entities := [[8, 11, 0, 0], [8, 12, 0, 0], [7, 13, 0, 1]]

/-- The file. -/
def exGroupsC : Bytes := encode (chars!"    -1\n  2467\n         2         0         0         0         0         0         0         3\nfuselage\n" ++ chars!"         8        11         0         0         8        12         0         0\n 7 13 0 1\n    -1\n")

example : ((World.new (some exGroupsC)).readSets (.one (0 : Nat)) false).2 = .ok (.single (groupsDict2467 [exFours])) :=
  C52_2467 exGroupsC 0 (by rw [count_fast]; decide +kernel) (by rw [bytes_fast, typeIs_iff]; decide +kernel)
    chars!"    -1\n" chars!"  2467\n" [exFours] (by rw [bytes_fast]; decide +kernel)
    (by intro g hg; rw [List.mem_singleton.1 hg]
        exact { ints := by decide +kernel, count := by decide +kernel, shape := by decide, rows := rfl,
                 words := ⟨[[8, 11, 0, 0, 8, 12, 0, 0], [7, 13, 0, 1]],
                   .cons (intLine _ _ (by decide +kernel)) (.cons (intLine _ _ (by decide +kernel)) .nil), rfl⟩,
                 small := by decide }) false

end Verif
