import Verif.Lemmas.Bare
import Verif.Props.Again
import Verif.Props.Reading
/-
Property C42: adding to a file whose last line has no line end.
-/
namespace Verif

theorem kept_of_delims (f b : Bytes) (h : delims (f ++ b) = delims f ++ (delims b).map (· + f.length)) (k : Nat)
    (hk : k < setCount f) : Kept f (f ++ b) k := by
  have h1 : 2 * k < (delims f).length := by unfold setCount at hk; omega
  have h2 : 2 * k + 1 < (delims f).length := by unfold setCount at hk; omega
  have hp : sets f <+: sets (f ++ b) := by
    rw [sets_eq, sets_eq, h]
    obtain ⟨t, ht⟩ := pairUp_prefix (delims f) ((delims b).map (· + f.length))
    rw [← ht, List.map_append, map_blocks_left]
    exact List.prefix_append _ _
  have hk' : k < setCount (f ++ b) := Nat.lt_of_lt_of_le hk (by rw [← sets_length, ← sets_length]; exact hp.length_le)
  have hpos : ∀ i < (delims f).length, delimPos (f ++ b) i = delimPos f i := by
    intro i hi
    unfold delimPos
    rw [h, List.getElem?_append_left hi]
  have hb : setBytes (f ++ b) k = setBytes f k := by
    obtain ⟨t, ht⟩ := hp
    have e1 := sets_getElem (f ++ b) k hk'
    rw [← ht, List.getElem?_append_left (by rw [sets_length]; exact hk), sets_getElem f k hk] at e1
    exact (Option.some.inj e1).symm
  refine ⟨hk', hpos _ h1, hpos _ h2, hb, ?_, ?_⟩
  · rw [getSetTypes_new, getSetTypes_new, List.getElem?_map, List.getElem?_map, sets_getElem _ _ hk', sets_getElem _ _ hk, hb]
  · intro header; exact C01_content _ _ _ _ hk' hk hb header

/-- Adding to a file without a line end at the end keeps all its data-sets, however the write ends, when the last byte is
neither a blank nor `-` nor `1`. -/
theorem C42_keeps (w : World) (f : Bytes) (hf : w.file = some f) (e : Env) (mode : Text) (hm : lower mode = "add".toList)
    (fd : Bool) (ds : List Dict) (c : UInt8) (h : f.getLast? = some c) (h1 : c ≠ 32) (h2 : c ≠ 45) (h3 : c ≠ 49) :
    f <+: (w.writeSets e mode fd ds).1.file.getD [] ∧
    ∀ k < setCount f, Kept f ((w.writeSets e mode fd ds).1.file.getD []) k := by
  have hp : f <+: (w.writeSets e mode fd ds).1.file.getD [] := by
    have hf' : f = w.file.getD [] := by rw [hf]; rfl
    cases ds with
    | nil => rw [hf']; exact List.prefix_refl _
    | cons d ds => rw [writeSets_add w e mode hm, hf']; exact addAll_prefix w e fd _
  refine ⟨hp, ?_⟩
  obtain ⟨b, hb⟩ := hp
  rw [← hb]
  exact fun k hk => kept_of_delims f b (delims_sealed f b c h h1 h2 h3) k hk

/-- Adding `N ≥ 1` data-sets to a file of complete data-sets that ends with a bare delimiter loses every one of them, with
no error: the last data-set of the file gets the bytes of a delimiter at its end, and the only data-sets after it are
`N - 1` empty ones of type 0. -/
theorem C42_lost (w : World) (g : Bytes) (hf : w.file = some (g ++ delimBytes)) (hb : Balanced (g ++ delimBytes)) (e : Env)
    (mode : Text) (hm : lower mode = "add".toList) (fd : Bool) (ds : List Dict) (ss : List DataSet)
    (h : GivenAll e fd ds ss) (hs : ss ≠ []) :
    let f' := (w.writeSets e mode fd ds).1.file.getD []
    let n := setCount (g ++ delimBytes)
    (w.writeSets e mode fd ds).2.2 = .ok () ∧
    (∃ init last, sets (g ++ delimBytes) = init ++ [last] ∧
      sets f' = init ++ (last ++ delimBytes) :: List.replicate (ss.length - 1) (delimBytes ++ [10])) ∧
    (World.new (some f')).getNSets.2 = n + (ss.length - 1) ∧
    ∀ k < ss.length - 1, ∀ header, ((World.new (some f')).readSets (.one (n + k : Nat)) header).2 =
      .ok (.single [("type", .int 0)]) := by
  intro f' n
  have hne := h.ne hs
  obtain ⟨bs, hbs, hall⟩ := addAll_given h
  obtain ⟨h1, h2, -⟩ := hall w
  have hbne : bs ≠ [] := by
    intro e; have := hbs.length; rw [e] at this
    exact hs (List.length_eq_zero_iff.1 this.symm)
  have hf' : f' = (g ++ delimBytes) ++ bs.flatMap closed := by
    show (w.writeSets e mode fd ds).1.file.getD [] = _
    rw [writeSets_add' w e mode hm fd ds hne, h2, hf]; rfl
  obtain ⟨init, last, ha, hc⟩ := sets_bare g hbs hbne hb
  have hset : sets f' = init ++ (last ++ delimBytes) :: List.replicate (ss.length - 1) (delimBytes ++ [10]) := by
    rw [hf']; exact hc
  have hn : n = init.length + 1 := by
    show setCount _ = _
    rw [← sets_length]
    show (sets (g ++ tagPat)).length = _
    rw [ha, List.length_append]; rfl
  have hcount : setCount f' = n + (ss.length - 1) := by
    rw [← sets_length, hset, List.length_append, List.length_cons, List.length_replicate, hn]; omega
  refine ⟨by rw [writeSets_add' w e mode hm fd ds hne]; exact h1, ⟨init, last, ha, hset⟩, ?_, ?_⟩
  · rw [C01_count]; exact hcount
  · intro k hk header
    have hk' : n + k < setCount f' := by omega
    have hby : setBytes f' (n + k) = delimBytes ++ [10] := by
      have := sets_getElem f' (n + k) hk'
      rw [hset, hn, List.getElem?_append_right (by omega), show init.length + 1 + k - init.length = k + 1 by omega,
        List.getElem?_cons_succ, List.getElem?_replicate, if_pos hk] at this
      rw [hn]; exact (Option.some.inj this).symm
    exact C12_read f' (n + k) hk' 0 (by rw [hby, typeIs_iff]; decide) (by decide) header

/-! Examples -/

/-- A file with a data-set 2412 as `pyuff` writes it, but without the last line feed. -/
def exBare : Bytes := (((World.new none).writeSets exEnv "add".toList true [ex2412.dict]).1.file.getD []).dropLast

/-- The part before the last delimiter. -/
def exBody : Bytes := exBare.take (exBare.length - 6)

theorem exBare_eq : exBare = exBody ++ delimBytes := by decide +kernel

example : Balanced (exBody ++ delimBytes) ∧ GivenAll exEnv true exDicts exSets ∧ exSets ≠ [] ∧
    setCount (exBody ++ delimBytes) = 1 :=
  ⟨by unfold Balanced; rw [delims_eq]; decide +kernel, ex_givenAll, by simp [exSets],
    by unfold setCount; rw [delims_eq]; decide +kernel⟩

example : (exBare ++ [13]).getLast? = some 13 ∧ setCount (exBare ++ [13]) = 1 :=
  ⟨by decide +kernel, by unfold setCount; rw [delims_eq]; decide +kernel⟩

/-- The file without the last line feed is read like the one with it; once a data-set has been added, which succeeds, the
file has one data-set as before and it cannot be read any more. -/
theorem C42_negation :
    let w := World.new (some exBare)
    let w' := (w.writeSets exEnv "add".toList true [ex151.dict]).1
    (w.readSets .all false).2 = .ok (.single ex2412.readBack) ∧
    (w.writeSets exEnv "add".toList true [ex151.dict]).2.2 = .ok () ∧
    w'.getNSets.2 = 1 ∧ (w'.readSets .all false).2 = .error (.exc "Error when reading data-set(s).") := by
  decide +kernel

/-- The bytes at the end need not be a delimiter: after `    -1` and 70 blanks, which is none, the next delimiter makes it
one. -/
theorem C42_negation_blanks :
    let f := encode "    -1\n   999\n    -1\n    -1".toList ++ List.replicate 70 32
    let w' := ((World.new (some f)).writeSets exEnv "add".toList true [ex151.dict]).1
    Balanced f ∧ (World.new (some f)).getSetTypes.2 = [999] ∧ w'.getSetTypes.2 = [999, 0] := by
  refine ⟨?_, by decide +kernel, by decide +kernel⟩
  unfold Balanced; rw [delims_eq]; decide +kernel

end Verif
