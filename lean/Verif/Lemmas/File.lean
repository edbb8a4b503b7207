import Verif.Spec.File
import Verif.Lemmas.Bin58
/-
Lemmas about the delimiters and data-sets of a file.
-/
namespace Verif

theorem isPrefix_iff_getElem? {α} (p s : List α) : p <+: s ↔ ∀ j < p.length, s[j]? = p[j]? := by
  induction p generalizing s with
  | nil => simp
  | cons a p ih =>
    cases s with
    | nil =>
      simp only [List.prefix_nil, reduceCtorEq, false_iff]
      intro h
      have := h 0 (by simp)
      simp at this
    | cons b s =>
      rw [List.cons_prefix_cons, ih]
      constructor
      · rintro ⟨rfl, h⟩ j hj
        cases j with
        | zero => rfl
        | succ j => simpa using h j (by simpa using hj)
      · intro h
        refine ⟨by simpa using (h 0 (by simp)).symm, fun j hj => ?_⟩
        simpa using h (j + 1) (by simpa using hj)

theorem slice_eq_replicate {α} (s : List α) (a n : Nat) (c : α) :
    slice s a (a + n) = List.replicate n c ↔ ∀ j < n, s[a + j]? = some c := by
  unfold slice
  rw [Nat.add_sub_cancel_left]
  constructor
  · intro h j hj
    have := congrArg (·[j]?) h
    simp only [List.getElem?_take, hj, if_true, List.getElem?_drop, List.getElem?_replicate] at this
    exact this
  · intro h
    apply List.ext_getElem?
    intro j
    rw [List.getElem?_take, List.getElem?_replicate, List.getElem?_drop]
    split
    · rename_i hj; exact h j hj
    · rfl

theorem isTag_iff (f : Bytes) (i : Nat) (hi : i < f.length) : isTag (f.drop i) ↔ DelimAt f i := by
  unfold isTag DelimAt
  rw [isPrefix_iff_getElem?, slice_eq_replicate (f.drop i) 6 74]
  simp only [List.getElem?_drop, List.length_drop]
  have e : (tagPat : Bytes) = delimBytes := rfl
  rw [e]
  simp only [delimBytes, List.length_cons, List.length_nil, Nat.zero_add, Nat.reduceAdd, Nat.add_assoc]
  constructor
  · rintro ⟨h, h2 | h2 | h2 | ⟨h2, h3⟩⟩
    · exact ⟨h, .inl (by omega)⟩
    · exact ⟨h, .inr (.inl h2)⟩
    · exact ⟨h, .inr (.inr (.inl h2))⟩
    · exact ⟨h, .inr (.inr (.inr ⟨by omega, h3⟩))⟩
  · rintro ⟨h, h2 | h2 | h2 | ⟨h2, h3⟩⟩
    · exact ⟨h, .inl (by omega)⟩
    · exact ⟨h, .inr (.inl h2)⟩
    · exact ⟨h, .inr (.inr (.inl h2))⟩
    · exact ⟨h, .inr (.inr (.inr ⟨by omega, h3⟩))⟩

theorem tagsFrom_filter (s : Bytes) :
    tagsFrom 0 s = (List.range s.length).filter fun i => isTag (s.drop i) := by
  induction s with
  | nil => rfl
  | cons c r ih =>
    rw [tagsFrom, tagsFrom_shift r (0 + 1), ih, List.length_cons, List.range_succ_eq_map, List.filter_cons,
      List.filter_map]
    have e : ((fun i => decide (isTag ((c :: r).drop i))) ∘ Nat.succ) = fun i => decide (isTag (r.drop i)) := by
      funext i; simp
    rw [e]
    by_cases h : isTag (c :: r)
    · simp [h]
    · simp [h]

theorem delims_eq (f : Bytes) : delims f = tagsFrom 0 f := by
  rw [tagsFrom_filter]
  unfold delims
  apply List.filter_congr
  intro i hi
  rw [List.mem_range] at hi
  simp only [isTag_iff f i hi]

theorem scanTags_delims (f : Bytes) : scanTags f = delims f := by rw [scanTags_eq, delims_eq]

theorem delims_lt (f : Bytes) (i : Nat) (h : i ∈ delims f) : i < f.length := by
  unfold delims at h
  simpa using (List.mem_filter.1 h).1

theorem pairUp_eq (l : List Nat) :
    pairUp l = (List.range (l.length / 2)).map fun k => (l[2 * k]?.getD 0, l[2 * k + 1]?.getD 0) := by
  induction l using pairUp.induct with
  | case1 a b r ih =>
    rw [pairUp, ih]
    have e : (a :: b :: r).length / 2 = r.length / 2 + 1 := by simp; omega
    rw [e, List.range_succ_eq_map, List.map_cons, List.map_map]
    congr 1
  | case2 l h =>
    match l, h with
    | [], _ => rfl
    | [a], _ => simp [pairUp]
    | a :: b :: r, h => exact absurd rfl (h a b r)

theorem pairUp_length (l : List Nat) : (pairUp l).length = l.length / 2 := by
  rw [pairUp_eq]; simp

theorem setBytes_eq (f : Bytes) (k : Nat) :
    setBytes f k = blockBytes f (delimPos f (2 * k), delimPos f (2 * k + 1)) := by
  unfold setBytes blockBytes slice
  rw [List.drop_take]

theorem sets_eq (f : Bytes) : sets f = (pairUp (delims f)).map (blockBytes f) := by
  unfold sets setCount
  rw [pairUp_eq, List.map_map]
  apply List.map_congr_left
  intro k _
  rw [setBytes_eq]; rfl

theorem sets_length (f : Bytes) : (sets f).length = setCount f := by unfold sets; simp

theorem pairUp_even (a b : List Nat) (h : a.length % 2 = 0) : pairUp (a ++ b) = pairUp a ++ pairUp b := by
  induction a using pairUp.induct with
  | case1 x y r ih =>
    simp only [List.cons_append, pairUp, List.cons.injEq, true_and]
    exact ih (by simp only [List.length_cons] at h; omega)
  | case2 l hl =>
    match l, hl with
    | [], _ => simp [pairUp]
    | [a], _ => simp at h
    | a :: b :: r, hl => exact absurd rfl (hl a b r)

theorem pairUp_prefix (a b : List Nat) : pairUp a <+: pairUp (a ++ b) := by
  induction a using pairUp.induct with
  | case1 x y r ih =>
    simp only [List.cons_append, pairUp]
    exact List.cons_prefix_cons.2 ⟨rfl, ih⟩
  | case2 l hl =>
    match l, hl with
    | [], _ => simp [pairUp]
    | [a], _ => simp [pairUp]
    | a :: b :: r, hl => exact absurd rfl (hl a b r)

theorem pairUp_map (f : Nat → Nat) (l : List Nat) :
    pairUp (l.map f) = (pairUp l).map fun p => (f p.1, f p.2) := by
  induction l using pairUp.induct with
  | case1 x y r ih => simp [pairUp, ih]
  | case2 l hl =>
    match l, hl with
    | [], _ => simp [pairUp]
    | [a], _ => simp [pairUp]
    | a :: b :: r, hl => exact absurd rfl (hl a b r)

theorem pairUp_mem (l : List Nat) (p : Nat × Nat) (h : p ∈ pairUp l) : p.1 ∈ l ∧ p.2 ∈ l := by
  induction l using pairUp.induct with
  | case1 x y r ih =>
    rw [pairUp] at h
    rcases List.mem_cons.1 h with rfl | h
    · simp
    · have := ih h; simp [this]
  | case2 l hl =>
    match l, hl with
    | [], _ => simp [pairUp] at h
    | [a], _ => simp [pairUp] at h
    | a :: b :: r, hl => exact absurd rfl (hl a b r)

theorem terminated_iff (f : Bytes) : Terminated f ↔ f = [] ∨ EndsLF f := by
  unfold Terminated EndsLF
  constructor
  · rintro (h | h)
    · exact .inl h
    · exact .inr ⟨f.dropLast, by
        have hne : f ≠ [] := by intro e; simp [e] at h
        conv => lhs; rw [← List.dropLast_concat_getLast hne]
        rw [List.getLast?_eq_some_getLast hne] at h
        rw [Option.some.inj h]⟩
  · rintro (h | ⟨a, h⟩)
    · exact .inl h
    · right; rw [h]; simp

theorem delims_append (a b : Bytes) (h : Terminated a) :
    delims (a ++ b) = delims a ++ (delims b).map (· + a.length) := by
  rw [delims_eq, delims_eq, delims_eq, tagsFrom_append _ _ ((terminated_iff a).1 h), tagsFrom_shift b, Nat.zero_add]

theorem blockBytes_left (a b : Bytes) (p : Nat × Nat) (h : p.2 ≤ a.length) :
    blockBytes (a ++ b) p = blockBytes a p := by
  unfold blockBytes slice
  rw [← List.drop_take, ← List.drop_take, List.take_append_of_le_length h]

theorem blockBytes_right (a b : Bytes) (p : Nat × Nat) :
    blockBytes (a ++ b) (p.1 + a.length, p.2 + a.length) = blockBytes b p := by
  unfold blockBytes slice
  simp only
  rw [List.drop_append, List.drop_eq_nil_of_le (by omega), List.nil_append]
  congr 1
  · omega
  · congr 1; omega

theorem map_blocks_left (a b : Bytes) :
    (pairUp (delims a)).map (blockBytes (a ++ b)) = (pairUp (delims a)).map (blockBytes a) := by
  apply List.map_congr_left
  intro p hp
  exact blockBytes_left a b p (Nat.le_of_lt (delims_lt a _ (pairUp_mem _ _ hp).2))

/-- Bytes added behind a terminated file do not disturb its data-sets. -/
theorem sets_prefix (a b : Bytes) (h : Terminated a) : sets a <+: sets (a ++ b) := by
  rw [sets_eq, sets_eq, delims_append a b h]
  obtain ⟨t, ht⟩ := pairUp_prefix (delims a) ((delims b).map (· + a.length))
  rw [← ht, List.map_append, map_blocks_left]
  exact List.prefix_append _ _

theorem sets_append (a b : Bytes) (h : Terminated a) (hb : Balanced a) : sets (a ++ b) = sets a ++ sets b := by
  rw [sets_eq, sets_eq, sets_eq, delims_append a b h, pairUp_even _ _ hb, List.map_append, map_blocks_left,
    pairUp_map, List.map_map]
  congr 1
  apply List.map_congr_left
  intro p _
  exact blockBytes_right a b p

theorem balanced_append (a b : Bytes) (h : Terminated a) (ha : Balanced a) (hb : Balanced b) : Balanced (a ++ b) := by
  unfold Balanced at *
  rw [delims_append a b h]
  simp; omega

theorem terminated_append (a b : Bytes) (ha : Terminated a) (hb : Terminated b) : Terminated (a ++ b) := by
  unfold Terminated at *
  rcases hb with rfl | hb
  · simpa using ha
  · right; simp [List.getLast?_append, hb]

/-! Concatenated data-sets. -/

/-- A block and its closing delimiter. -/
def closed (b : Bytes) : Bytes := b ++ (tagPat ++ [10])

theorem terminated_closed (b : Bytes) : Terminated (closed b) := by
  right; simp [closed]

theorem Framed.delims {n : Int} {b : Bytes} (h : Framed n b) : delims (closed b) = [0, b.length] := by
  rw [delims_eq]; exact h.tags

theorem Framed.balanced {n : Int} {b : Bytes} (h : Framed n b) : Balanced (closed b) := by
  unfold Balanced; rw [h.delims]; simp

theorem Framed.sets {n : Int} {b : Bytes} (h : Framed n b) : sets (closed b) = [b] := by
  rw [sets_eq, h.delims]
  simp [pairUp, blockBytes, slice, closed]

end Verif
