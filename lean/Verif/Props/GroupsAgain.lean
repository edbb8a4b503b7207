import Verif.Props.Required
import Verif.Props.Again
/-
C41: permanent groups cannot be saved again.
-/
namespace Verif

theorem groups_read {t : Text} {d : Dict} (h : extract2429 t = .ok d) :
    ∃ gs, d = [((.s "type" : Key), Val.int 2429), (.s "groups", .list gs)] := by
  unfold extract2429 at h
  simp only at h
  cases hg : groups2429 ((splitLines t).drop 2).length ((splitLines t).drop 2) with
  | error x =>
    rw [hg] at h
    cases x <;> cases h
  | ok gs =>
    rw [hg] at h
    cases h
    exact ⟨gs, rfl⟩

/-- Whatever program wrote the file, and whatever groups it holds: what is read of a data-set 2429 is refused by `write_sets`, in
any list, for any file and in any mode.  The reader puts the groups in a list under `groups`
(`/repo/pyuff/datasets/dataset_2429.py:152`), the writer looks for one group in the dictionary itself
(`/repo/pyuff/datasets/dataset_2429.py:118-125`). -/
theorem C41_groups (f : Bytes) (k : Nat) (header : Bool) (d : Dict)
    (ht : (World.new (some f)).getSetTypes.2[k]? = some 2429)
    (hr : ((World.new (some f)).readSets (.one k) header).2 = .ok (.single d))
    (w : World) (e : Env) (mode : Text) (fd : Bool) (ds : List Dict) (hd : d ∈ ds) :
    ∃ x, (w.writeSets e mode fd ds).2.2 = .error x := by
  rw [getSetTypes_new, List.getElem?_map, Option.map_eq_some_iff] at ht
  obtain ⟨b, hb, ht⟩ := ht
  have hk : k < setCount f := by
    rw [← sets_length]
    exact (List.getElem?_eq_some_iff.1 hb).1
  rw [sets_getElem f k hk] at hb
  cases hb
  rw [readSets_new] at hr
  simp only [readRange, mapRes] at hr
  rw [readSet_in _ _ hk, ht] at hr
  have hx : extract2429 (decode (setBytes f k)) = .ok d := by
    have e1 : readBlock 2429 header (setBytes f k) = extract2429 (decode (setBytes f k)) := rfl
    rw [e1] at hr
    cases hx : extract2429 (decode (setBytes f k)) with
    | error y => rw [hx] at hr; cases hr
    | ok r =>
      rw [hx] at hr
      cases hr
      rfl
  obtain ⟨gs, rfl⟩ := groups_read hx
  exact C48_missing w e mode fd ds _ 2429 "entity_type_code" hd rfl (by cases fd <;> decide) rfl

/-- A file with a permanent group of four entities. -/
example : let f := ((World.new none).writeSets exEnv "add".toList true [ex2429.dict]).1.file.getD []
    (World.new (some f)).getSetTypes.2[0]? = some 2429 ∧
    ((World.new (some f)).readSets (.one 0) false).2 = .ok (.single ex2429.readBack) := by
  decide +kernel

end Verif
