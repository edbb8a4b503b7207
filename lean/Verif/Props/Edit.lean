import Verif.Lemmas.Edit
import Verif.Props.Foreign
/-
C50: data-sets are independent of the rest of the file: text between them is ignored, damage inside one does not reach the others,
and they can be cut out, selected and joined.
-/
namespace Verif
open Edit

/-- Lines between two data-sets (or before the first or behind the last one) are ignored, if there is no delimiter among them. -/
theorem C50_between (p m m' s : Bytes) (hp : Terminated p) (hb : Balanced p) (hm : Terminated m) (hd : delims m = [])
    (hm' : Terminated m') (hd' : delims m' = []) (sel : Sel) (header : Bool) :
    ((World.new (some (p ++ (m ++ s)))).readSets sel header).2 = ((World.new (some (p ++ (m' ++ s)))).readSets sel header).2 ∧
    (World.new (some (p ++ (m ++ s)))).getNSets.2 = (World.new (some (p ++ (m' ++ s)))).getNSets.2 ∧
    (World.new (some (p ++ (m ++ s)))).getSetTypes.2 = (World.new (some (p ++ (m' ++ s)))).getSetTypes.2 := by
  have h0 : ∀ m, Terminated m → delims m = [] → sets (p ++ (m ++ s)) = sets p ++ sets s := by
    intro m hm hd
    have hbm : Balanced m := by unfold Balanced; rw [hd]; rfl
    have hn : sets m = [] := by rw [sets_eq, hd]; rfl
    rw [sets_append p _ hp hb, sets_append m _ hm hbm, hn, List.nil_append]
  have hs : sets (p ++ (m ++ s)) = sets (p ++ (m' ++ s)) := by rw [h0 m hm hd, h0 m' hm' hd']
  refine ⟨readSets_sets hs sel header, ?_, by rw [getSetTypes_new, getSetTypes_new, hs]⟩
  rw [C01_count, C01_count]
  exact (setBytes_of_sets hs).1

/-- Lines inside data-set `k` can be changed, added or removed, if no delimiter is among them: all other data-sets are read as
before, and their numbers stay. -/
theorem C50_inside (p m m' s : Bytes) (hp : Terminated p) (hb : ¬ Balanced p) (hm : Terminated m) (hd : delims m = [])
    (hm' : Terminated m') (hd' : delims m' = []) :
    (World.new (some (p ++ (m ++ s)))).getNSets.2 = (World.new (some (p ++ (m' ++ s)))).getNSets.2 ∧
    ∀ j, j ≠ (delims p).length / 2 →
      (World.new (some (p ++ (m ++ s)))).getSetTypes.2[j]? = (World.new (some (p ++ (m' ++ s)))).getSetTypes.2[j]? ∧
      ∀ header, ((World.new (some (p ++ (m ++ s)))).readSets (.one j) header).2 =
        ((World.new (some (p ++ (m' ++ s)))).readSets (.one j) header).2 := by
  have hc : setCount (p ++ (m ++ s)) = setCount (p ++ (m' ++ s)) := by
    rw [setCount_middle p m s hp hm hd, setCount_middle p m' s hp hm' hd']
  have hbytes : ∀ j, j ≠ (delims p).length / 2 → j < setCount (p ++ (m ++ s)) →
      setBytes (p ++ (m ++ s)) j = setBytes (p ++ (m' ++ s)) j := by
    intro j hj hlt
    have h1 := setBytes_middle p m s hp hm hd j hlt
    have h2 := setBytes_middle p m' s hp hm' hd' j (hc ▸ hlt)
    have hodd : (delims p).length % 2 = 1 := by unfold Balanced at hb; omega
    by_cases h : j < (delims p).length / 2
    · rw [h1.1 (by omega), h2.1 (by omega)]
    · rw [h1.2 (by omega), h2.2 (by omega)]
  refine ⟨by rw [C01_count, C01_count]; exact hc, fun j hj => ⟨?_, fun header => ?_⟩⟩
  · rw [getSetTypes_new, getSetTypes_new, List.getElem?_map, List.getElem?_map]
    by_cases h : j < setCount (p ++ (m ++ s))
    · rw [sets_getElem _ _ h, sets_getElem _ _ (hc ▸ h), hbytes j hj h]
    · rw [List.getElem?_eq_none (by rw [sets_length]; omega), List.getElem?_eq_none (by rw [sets_length]; omega)]
  · by_cases h : j < setCount (p ++ (m ++ s))
    · exact C01_content _ _ j j h (hc ▸ h : j < setCount _) (hbytes j hj h) header
    · rw [readSets_new, readSets_new]
      simp only [readRange, mapRes]
      rw [readSet_out _ _ (.inr (by omega)), readSet_out _ _ (.inr (by omega))]

/-- Any data-sets of a file, each with a closing delimiter and written one behind the other in any order and number, are a file
from which `read_sets()` reads what `read_sets([...])` reads from the first file. -/
theorem C50_select (f : Bytes) (ks : List Nat) (h : ∀ k ∈ ks, k < setCount f) (header : Bool) :
    ((World.new (some (ks.map fun k => setBytes f k ++ (delimBytes ++ [10])).flatten)).readSets .all header).2 =
      ((World.new (some f)).readSets (.many (ks.map Int.ofNat)) header).2 := by
  have hs : sets (ks.map fun k => setBytes f k ++ (delimBytes ++ [10])).flatten = ks.map (setBytes f) := sets_select f ks h
  generalize (ks.map fun k => setBytes f k ++ (delimBytes ++ [10])).flatten = g at hs
  have hc : setCount g = ks.length := by rw [← sets_length, hs, List.length_map]
  rw [readSets_new, readSets_new]
  have hr : readRange (objOf g) .all = (List.range ks.length).map Int.ofNat := by
    rw [objOf_eq, hc]; rfl
  have hm : mapRes (fun n => readSet g (objOf g) n header) ((List.range ks.length).map Int.ofNat) =
      mapRes (fun n => readSet f (objOf f) n header) (ks.map Int.ofNat) := by
    rw [mapRes_comp, mapRes_comp]
    have hks : ks = (List.range ks.length).map fun i => ks[i]?.getD 0 := by
      apply List.ext_getElem
      · simp
      · intro i h1 h2
        simp [List.getElem?_eq_getElem h1]
    conv => rhs; rw [hks]
    rw [mapRes_comp]
    apply mapRes_congr
    intro i hi
    rw [List.mem_range] at hi
    have hg := sets_getElem g i (by omega)
    rw [hs, List.getElem?_map, List.getElem?_eq_getElem hi, Option.map_some, Option.some.injEq] at hg
    have hlt := h ks[i] (List.getElem_mem hi)
    apply readSet_map
    left
    simp only [List.getElem?_eq_getElem hi, Option.getD_some]
    exact ⟨Int.natCast_nonneg _, by have := hi; simp; omega, Int.natCast_nonneg _, by simpa using hlt, hg.symm⟩
  rw [hr]
  simp only [hm, readRange]

/-- Two files written one behind the other are read as the list of the data-sets of both. -/
theorem C50_join (f g : Bytes) (hf : Terminated f) (hb : Balanced f) (header : Bool) :
    (World.new (some (f ++ g))).getNSets.2 = (World.new (some f)).getNSets.2 + (World.new (some g)).getNSets.2 ∧
    (World.new (some (f ++ g))).getSetTypes.2 = (World.new (some f)).getSetTypes.2 ++ (World.new (some g)).getSetTypes.2 ∧
    (∀ k < (World.new (some f)).getNSets.2, ((World.new (some (f ++ g))).readSets (.one k) header).2 =
      ((World.new (some f)).readSets (.one k) header).2) ∧
    ∀ k < (World.new (some g)).getNSets.2,
      ((World.new (some (f ++ g))).readSets (.one ((World.new (some f)).getNSets.2 + k : Nat)) header).2 =
        ((World.new (some g)).readSets (.one k) header).2 := by
  have hs := sets_append f g hf hb
  have hc : setCount (f ++ g) = setCount f + setCount g := by
    rw [← sets_length, hs, List.length_append, sets_length, sets_length]
  have hn : ∀ f, (World.new (some f)).getNSets.2 = setCount f := C01_count
  simp only [hn]
  refine ⟨hc, by rw [getSetTypes_new, getSetTypes_new, getSetTypes_new, hs, List.map_append], fun k hk => ?_, fun k hk => ?_⟩
  · exact (kept_append f g hf k hk).read header
  · refine C01_content _ _ _ _ (show _ < setCount (f ++ g) by omega) hk ?_ header
    have h1 := sets_getElem (f ++ g) (setCount f + k) (by omega)
    rw [hs, List.getElem?_append_right (by rw [sets_length]; omega), sets_length, Nat.add_sub_cancel_left,
      sets_getElem g k hk] at h1
    exact (Option.some.inj h1).symm

/-! ### Examples -/

/-- Two small data-sets. -/
def exJoinA : Bytes := encode chars!"    -1\n    82\n         1         2         3\nwing\n         5         6\n    -1\n"
def exJoinB : Bytes := encode chars!"    -1\n  9999\nanything\n    -1\n"

example : ((World.new (some (exJoinA ++ (encode chars!"a remark\nwith two lines\n" ++ exJoinB)))).readSets .all false).2 =
    ((World.new (some (exJoinA ++ ([] ++ exJoinB)))).readSets .all false).2 :=
  (C50_between exJoinA _ [] exJoinB (by decide +kernel) (by unfold Balanced; rw [delims_eq]; decide +kernel) (by decide +kernel)
    (by rw [delims_eq]; decide +kernel) (.inl rfl) (by rw [delims_eq]; decide +kernel) .all false).1

/-- The first data-set is damaged and cannot be read any more, the second one can. -/
def exJoinHead : Bytes := encode chars!"    -1\n    82\n"

example : ((World.new (some (exJoinHead ++ (encode chars!"         ?         2         3\nwing\n" ++ (encode chars!"    -1\n" ++ exJoinB))))).readSets (.one (1 : Nat)) false).2 =
    ((World.new (some (exJoinHead ++ (encode chars!"         1         2         3\nwing\n         5         6\n" ++ (encode chars!"    -1\n" ++ exJoinB))))).readSets (.one (1 : Nat)) false).2 :=
  ((C50_inside exJoinHead _ _ _ (by decide +kernel) (by unfold Balanced; rw [delims_eq]; decide +kernel) (by decide +kernel)
    (by rw [delims_eq]; decide +kernel) (by decide +kernel) (by rw [delims_eq]; decide +kernel)).2 1
    (by rw [delims_eq]; decide +kernel)).2 false

example : ((World.new (some ([1, 0, 1].map fun k => setBytes (exJoinA ++ exJoinB) k ++ (delimBytes ++ [10])).flatten)).readSets .all false).2 =
    ((World.new (some (exJoinA ++ exJoinB))).readSets (.many [1, 0, 1]) false).2 :=
  C50_select (exJoinA ++ exJoinB) [1, 0, 1] (by rw [count_fast]; decide +kernel) false

example : (World.new (some (exJoinA ++ exJoinB))).getSetTypes.2 = [82, 9999] := by
  rw [(C50_join exJoinA exJoinB (by decide +kernel) (by unfold Balanced; rw [delims_eq]; decide +kernel) false).2.1]
  decide +kernel

end Verif
