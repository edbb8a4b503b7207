import Verif.Lemmas.Many
import Verif.Props.Reading
/-
Data-sets cut out of a file, and files with the same data-sets.
-/
namespace Verif
namespace Edit

/-- The closing line. -/
def closing : Bytes := delimBytes ++ [10]

theorem closed_eq (b : Bytes) : closed b = b ++ closing := rfl

theorem mapRes_comp {α β γ : Type} (f : β → Res γ) (g : α → β) (l : List α) : mapRes f (l.map g) = mapRes (fun a => f (g a)) l := by
  induction l with
  | nil => rfl
  | cons a l ih => rw [List.map_cons]; unfold mapRes; rw [ih]

/-- What is read depends on the data-sets only. -/
theorem readSet_map {f g : Bytes} {n m : Int} (h : Bool)
    (hn : (0 ≤ n ∧ n < setCount f ∧ 0 ≤ m ∧ m < setCount g ∧ setBytes f n.toNat = setBytes g m.toNat) ∨
      ((n < 0 ∨ (setCount f : Int) ≤ n) ∧ (m < 0 ∨ (setCount g : Int) ≤ m))) :
    readSet f (objOf f) n h = readSet g (objOf g) m h := by
  rcases hn with ⟨h1, h2, h3, h4, h5⟩ | ⟨h1, h2⟩
  · have a := readSet_in f n.toNat (by omega) h
    have b := readSet_in g m.toNat (by omega) h
    rw [Int.toNat_of_nonneg h1] at a
    rw [Int.toNat_of_nonneg h3] at b
    rw [a, b, h5]
  · rw [readSet_out f n h1, readSet_out g m h2]

theorem setBytes_of_sets {f g : Bytes} (h : sets f = sets g) : setCount f = setCount g ∧ ∀ k < setCount f, setBytes f k = setBytes g k := by
  have hc : setCount f = setCount g := by rw [← sets_length, ← sets_length, h]
  refine ⟨hc, fun k hk => ?_⟩
  have := sets_getElem f k hk
  rw [h, sets_getElem g k (hc ▸ hk)] at this
  exact (Option.some.inj this).symm

theorem readSets_sets {f g : Bytes} (hs : sets f = sets g) (sel : Sel) (h : Bool) :
    ((World.new (some f)).readSets sel h).2 = ((World.new (some g)).readSets sel h).2 := by
  obtain ⟨hc, hb⟩ := setBytes_of_sets hs
  rw [readSets_new, readSets_new]
  have hr : readRange (objOf f) sel = readRange (objOf g) sel := by
    rw [objOf_eq, objOf_eq, hc]
    cases sel <;> rfl
  have hm : mapRes (fun n => readSet f (objOf f) n h) (readRange (objOf g) sel) =
      mapRes (fun n => readSet g (objOf g) n h) (readRange (objOf g) sel) := by
    apply mapRes_congr
    intro n _
    apply readSet_map
    by_cases hn : 0 ≤ n ∧ n < setCount f
    · exact .inl ⟨hn.1, hn.2, hn.1, by omega, hb _ (by omega)⟩
    · exact .inr ⟨by omega, by omega⟩
  rw [hr]
  simp only [hm]

theorem delims_unique {f : Bytes} {l : List Nat} (hs : l.Pairwise (· < ·)) (hm : ∀ i, i ∈ l ↔ DelimAt f i) : delims f = l := by
  apply List.Perm.eq_of_pairwise (le := (· < ·))
  · intro a b _ _ h1 h2; exact absurd h1 (by omega)
  · exact (C01_delims f).2
  · exact hs
  · rw [List.perm_ext_iff_of_nodup ((C01_delims f).2.imp (fun h => by omega)) (hs.imp (fun h => by omega))]
    intro i
    rw [(C01_delims f).1, hm]

/-- Two delimiters in a row, no other one between them. -/
structure Gap (f : Bytes) (p q : Nat) : Prop where
  first : DelimAt f p
  second : DelimAt f q
  lt : p < q
  none : ∀ i, p < i → i < q → ¬ DelimAt f i

theorem gap_of (f : Bytes) (k : Nat) (hk : k < setCount f) : Gap f (delimPos f (2 * k)) (delimPos f (2 * k + 1)) := by
  have hl : 2 * k + 1 < (delims f).length := by unfold setCount at hk; omega
  have h1 : delimPos f (2 * k) = (delims f)[2 * k] := by
    unfold delimPos; rw [List.getElem?_eq_getElem (by omega)]; rfl
  have h2 : delimPos f (2 * k + 1) = (delims f)[2 * k + 1] := by
    unfold delimPos; rw [List.getElem?_eq_getElem hl]; rfl
  rw [h1, h2]
  have hp := List.pairwise_iff_getElem.1 (C01_delims f).2
  refine ⟨((C01_delims f).1 _).1 (List.getElem_mem _), ((C01_delims f).1 _).1 (List.getElem_mem _), hp _ _ _ _ (by omega), ?_⟩
  intro i hi1 hi2 hd
  obtain ⟨j, hj, rfl⟩ := List.getElem_of_mem (((C01_delims f).1 i).2 hd)
  have ha : 2 * k < j := by
    refine Decidable.byContradiction fun h => ?_
    rcases Nat.lt_or_eq_of_le (Nat.le_of_not_lt h) with h | h
    · have := hp j (2 * k) hj (by omega) h; omega
    · subst h; omega
  have hb : j < 2 * k + 1 := by
    refine Decidable.byContradiction fun h => ?_
    rcases Nat.lt_or_eq_of_le (Nat.le_of_not_lt h) with h | h
    · have := hp (2 * k + 1) j hl hj h; omega
    · subst h; omega
  omega

/-- The bytes from one delimiter to the next, closed with a delimiter of their own, are a file with these two delimiters. -/
theorem Gap.delims {f : Bytes} {p q : Nat} (h : Gap f p q) : delims (closed ((f.take q).drop p)) = [0, q - p] := by
  obtain ⟨hp, hq, hlt, hno⟩ := h
  have hqb : ∀ j < 6, f[q + j]? = delimBytes[j]? := hq.1
  have hpb : ∀ j < 6, f[p + j]? = delimBytes[j]? := hp.1
  have d0 : delimBytes[0]? = some (32 : UInt8) := rfl
  have d4 : delimBytes[4]? = some (45 : UInt8) := rfl
  have d5 : delimBytes[5]? = some (49 : UInt8) := rfl
  have hlen : q + 6 ≤ f.length := by
    have := hqb 5 (by omega)
    rw [d5, List.getElem?_eq_some_iff] at this
    obtain ⟨h, _⟩ := this
    omega
  have hL : ((f.take q).drop p).length = q - p := by simp; omega
  have hg : ∀ i < q - p + 6, (closed ((f.take q).drop p))[i]? = f[p + i]? := by
    intro i hi
    rw [closed_eq]
    by_cases h : i < q - p
    · rw [List.getElem?_append_left (by omega), List.getElem?_drop, List.getElem?_take_of_lt (by omega)]
    · rw [List.getElem?_append_right (by omega), hL]
      have := hqb (i - (q - p)) (by omega)
      rw [show p + i = q + (i - (q - p)) by omega, this]
      unfold closing
      rw [List.getElem?_append_left (by have : delimBytes.length = 6 := rfl; omega)]
  have hg6 : (closed ((f.take q).drop p))[q - p + 6]? = some 10 := by
    rw [closed_eq, List.getElem?_append_right (by omega), hL, Nat.add_sub_cancel_left]; rfl
  have hglen : (closed ((f.take q).drop p)).length = q - p + 7 := by
    rw [closed_eq, List.length_append, hL]; rfl
  generalize closed ((f.take q).drop p) = g at hg hg6 hglen
  generalize hLe : q - p = L at *
  have h6 : 6 ≤ L := by
    refine Decidable.byContradiction fun hc => ?_
    have a := hpb 4 (by omega)
    have a' := hpb 5 (by omega)
    have hcases : L = 1 ∨ L = 2 ∨ L = 3 ∨ L = 4 ∨ L = 5 := by omega
    rcases hcases with h | h | h | h | h
    · have b := hqb 3 (by omega); rw [show q + 3 = p + 4 by omega, a] at b; exact absurd b (by decide)
    · have b := hqb 2 (by omega); rw [show q + 2 = p + 4 by omega, a] at b; exact absurd b (by decide)
    · have b := hqb 1 (by omega); rw [show q + 1 = p + 4 by omega, a] at b; exact absurd b (by decide)
    · have b := hqb 0 (by omega); rw [show q + 0 = p + 4 by omega, a] at b; exact absurd b (by decide)
    · have b := hqb 0 (by omega); rw [show q + 0 = p + 5 by omega, a'] at b; exact absurd b (by decide)
  refine delims_unique (by simp; omega) fun i => ?_
  rw [List.mem_cons, List.mem_singleton]
  constructor
  · rintro (hi | hi)
    · subst hi
      refine ⟨fun j hj => by rw [hg _ (by omega), Nat.zero_add]; exact hpb j hj, ?_⟩
      rcases hp.2 with h | h | h | ⟨h, hb⟩
      · omega
      · right; left; rw [hg _ (by omega), Nat.zero_add]; exact h
      · right; right; left; rw [hg _ (by omega), Nat.zero_add]; exact h
      · have hL74 : 76 ≤ L := by
          refine Decidable.byContradiction fun hc => ?_
          have a := hb (L + 4 - 6) (by omega)
          have b := hqb 4 (by omega)
          rw [show q + 4 = p + 6 + (L + 4 - 6) by omega, a] at b
          exact absurd b (by decide)
        right; right; right
        refine ⟨by omega, fun j hj => ?_⟩
        rw [hg _ (by omega), show p + (0 + 6 + j) = p + 6 + j by omega]
        exact hb j hj
    · rw [hi]
      refine ⟨fun j hj => ?_, .inr (.inl hg6)⟩
      rw [hg _ (by omega), show p + (L + j) = q + j by omega]
      exact hqb j hj
  · intro hi
    have h5 := hi.1 5 (by omega)
    have hi5 : i ≤ L := by
      refine Decidable.byContradiction fun hc => ?_
      by_cases he : i + 5 = L + 6
      · rw [he, hg6] at h5; exact absurd h5 (by decide)
      · by_cases he' : i + 5 < L + 6
        · omega
        · rw [List.getElem?_eq_none (by omega)] at h5; exact absurd h5 (by decide)
    by_cases hiL : i = L
    · exact .inr hiL
    left
    by_cases hi0 : i = 0
    · exact hi0
    exfalso
    refine hno (p + i) (by omega) (by omega) ⟨fun j hj => ?_, ?_⟩
    · have := hi.1 j hj
      rw [hg _ (by omega)] at this
      rw [← this]; congr 1; omega
    · rcases hi.2 with h | h | h | ⟨h, hb⟩
      · omega
      · right; left; rw [hg _ (by omega)] at h; rw [← h]; congr 1
      · right; right; left; rw [hg _ (by omega)] at h; rw [← h]; congr 1
      · right; right; right
        have hne : i + 80 ≠ L + 6 := by
          intro he
          have a := hb 73 (by omega)
          rw [show i + 6 + 73 = L + 5 by omega, hg _ (by omega), show p + (L + 5) = q + 5 by omega, hqb 5 (by omega)] at a
          exact absurd a (by decide)
        refine ⟨by omega, fun j hj => ?_⟩
        have := hb j hj
        rw [hg _ (by omega)] at this
        rw [← this]; congr 1; omega

theorem sets_closed (f : Bytes) (k : Nat) (hk : k < setCount f) : sets (closed (setBytes f k)) = [setBytes f k] := by
  have hg := gap_of f k hk
  have hd := hg.delims
  have hle : delimPos f (2 * k + 1) ≤ f.length := by
    have := hg.second.1 0 (by omega)
    have d0 : delimBytes[0]? = some (32 : UInt8) := rfl
    rw [d0, List.getElem?_eq_some_iff] at this
    obtain ⟨h, _⟩ := this
    omega
  have hl : (setBytes f k).length = delimPos f (2 * k + 1) - delimPos f (2 * k) := by
    unfold setBytes; simp; omega
  rw [sets_eq]
  unfold setBytes at hl ⊢
  rw [hd, ← hl]
  simp [pairUp, blockBytes, slice, closed]

theorem balanced_closed (f : Bytes) (k : Nat) (hk : k < setCount f) : Balanced (closed (setBytes f k)) := by
  unfold Balanced setBytes
  rw [(gap_of f k hk).delims]; simp

/-- Data-sets of a file, each closed, one behind the other. -/
theorem sets_select (f : Bytes) (ks : List Nat) (h : ∀ k ∈ ks, k < setCount f) :
    sets (ks.map fun k => closed (setBytes f k)).flatten = ks.map (setBytes f) := by
  induction ks with
  | nil => simp [sets, setCount, delims]
  | cons k ks ih =>
    rw [List.map_cons, List.flatten_cons, sets_append _ _ (terminated_closed _) (balanced_closed f k (h k (by simp))),
      sets_closed f k (h k (by simp)), ih fun j hj => h j (by simp [hj])]
    rfl

theorem delims_middle (p m s : Bytes) (hp : Terminated p) (hm : Terminated m) (hd : delims m = []) :
    delims (p ++ (m ++ s)) = delims p ++ (delims s).map (· + (p ++ m).length) := by
  rw [delims_append p _ hp, delims_append m _ hm, hd, List.nil_append, List.map_map]
  congr 1
  apply List.map_congr_left
  intro i _
  simp only [Function.comp_apply, List.length_append]; omega

theorem setCount_middle (p m s : Bytes) (hp : Terminated p) (hm : Terminated m) (hd : delims m = []) :
    setCount (p ++ (m ++ s)) = ((delims p).length + (delims s).length) / 2 := by
  unfold setCount
  rw [delims_middle p m s hp hm hd, List.length_append, List.length_map]

/-- A data-set before or behind the place where a file is edited. -/
theorem setBytes_middle (p m s : Bytes) (hp : Terminated p) (hm : Terminated m) (hd : delims m = []) (j : Nat)
    (hj : j < setCount (p ++ (m ++ s))) :
    (2 * j + 1 < (delims p).length → setBytes (p ++ (m ++ s)) j = setBytes p j) ∧
    ((delims p).length ≤ 2 * j → setBytes (p ++ (m ++ s)) j =
      blockBytes s (((delims s)[2 * j - (delims p).length]?).getD 0, ((delims s)[2 * j + 1 - (delims p).length]?).getD 0)) := by
  have hl := setCount_middle p m s hp hm hd
  constructor
  · intro h
    exact (kept_append p (m ++ s) hp j (by unfold setCount; omega)).bytes
  · intro h
    have hpos : ∀ i, (delims p).length ≤ i → i < (delims p).length + (delims s).length →
        delimPos (p ++ (m ++ s)) i = (((delims s)[i - (delims p).length]?).getD 0) + (p ++ m).length := by
      intro i h1 h2
      unfold delimPos
      rw [delims_middle p m s hp hm hd, List.getElem?_append_right h1, List.getElem?_map,
        List.getElem?_eq_getElem (by omega)]
      rfl
    rw [setBytes_eq, hpos _ (by omega) (by omega), hpos _ (by omega) (by omega), ← List.append_assoc]
    exact blockBytes_right (p ++ m) s (_, _)

end Edit
end Verif
