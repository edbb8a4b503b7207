import Verif.Spec.Crlf
import Verif.Lemmas.World
/-
Delimiters, data-sets and types of a file with CR LF.
-/
namespace Verif

theorem crlf_nil : crlf [] = [] := rfl
theorem crlf_lf (r : Bytes) : crlf (10 :: r) = 13 :: 10 :: crlf r := rfl
theorem crlf_other {c : UInt8} (h : c ≠ 10) (r : Bytes) : crlf (c :: r) = c :: crlf r := by
  simp [crlf, List.flatMap_cons, h]
theorem crlf_append (a b : Bytes) : crlf (a ++ b) = crlf a ++ crlf b := by simp [crlf]

theorem crlf_id {a : Bytes} (h : ∀ c ∈ a, c ≠ 10) : crlf a = a := by
  induction a with
  | nil => rfl
  | cons c r ih => rw [crlf_other (h c (by simp)), ih fun x hx => h x (by simp [hx])]

theorem crlf_eq_nil {a : Bytes} : crlf a = [] ↔ a = [] := by
  cases a with
  | nil => simp [crlf_nil]
  | cons c r =>
    by_cases h : c = 10
    · subst h; simp [crlf_lf]
    · simp [crlf_other h]

theorem crlf_head {a : Bytes} : (crlf a)[0]? = some 10 ∨ (crlf a)[0]? = some 13 ↔ a[0]? = some 10 ∨ a[0]? = some 13 := by
  cases a with
  | nil => simp [crlf_nil]
  | cons c r =>
    by_cases h : c = 10
    · subst h; simp [crlf_lf]
    · simp [crlf_other h]

/-- A prefix without line feed. -/
theorem crlf_prefix {p s : Bytes} (hp : ∀ c ∈ p, c ≠ 10 ∧ c ≠ 13) : p <+: crlf s ↔ p <+: s := by
  induction p generalizing s with
  | nil => simp
  | cons c p ih =>
    cases s with
    | nil => simp [crlf_nil]
    | cons d s =>
      have hc := hp c (by simp)
      by_cases h : d = 10
      · subst h
        rw [crlf_lf, List.cons_prefix_cons, List.cons_prefix_cons]
        constructor
        · rintro ⟨e, _⟩; exact absurd e hc.2
        · rintro ⟨e, _⟩; exact absurd e hc.1
      · rw [crlf_other h, List.cons_prefix_cons, List.cons_prefix_cons, ih fun x hx => hp x (by simp [hx])]

/-- The acceptance test, for the bytes after the delimiter. -/
theorem isTag_split (s : Bytes) : isTag s ↔ ∃ r, s = tagPat ++ r ∧ (r = [] ∨ (r[0]? = some 10 ∨ r[0]? = some 13) ∨
    ∃ q, q ≠ [] ∧ r = List.replicate 74 32 ++ q) := by
  constructor
  · rintro ⟨⟨r, rfl⟩, h⟩
    refine ⟨r, rfl, ?_⟩
    have e6 : tagPat.length = 6 := rfl
    rcases h with h | h | h | ⟨h1, h2⟩
    · left
      rw [List.length_append, e6] at h
      exact List.length_eq_zero_iff.1 (by omega)
    · right; left; left
      rwa [List.getElem?_append_right (by rw [e6])] at h
    · right; left; right
      rwa [List.getElem?_append_right (by rw [e6])] at h
    · right; right
      rw [List.length_append, e6] at h1
      have h3 : r.take 74 = List.replicate 74 32 := by
        have := slice_append_right tagPat r 6 80 (by rw [e6])
        rw [this, e6] at h2
        unfold slice at h2
        simpa using h2
      refine ⟨r.drop 74, ?_, ?_⟩
      · intro e
        have := congrArg List.length e
        rw [List.length_drop, List.length_nil] at this
        omega
      · rw [← h3]; exact (List.take_append_drop 74 r).symm
  · rintro ⟨r, rfl, h⟩
    have e6 : tagPat.length = 6 := rfl
    refine ⟨List.prefix_append _ _, ?_⟩
    rcases h with h | h | ⟨q, hq, h⟩
    · left; rw [h]; rfl
    · rw [List.getElem?_append_right (by rw [e6])]
      rcases h with h | h
      · right; left; exact h
      · right; right; left; exact h
    · right; right; right
      have := List.length_pos_iff.2 hq
      refine ⟨by rw [h, List.length_append, List.length_append, List.length_replicate, e6]; omega, ?_⟩
      rw [slice_append_right tagPat r 6 80 (by rw [e6]), h]
      exact slice_prefix _ _ _ (by simp [e6])

theorem isTag_crlf (s : Bytes) : isTag (crlf s) ↔ isTag s := by
  have hnl : ∀ c ∈ tagPat, c ≠ 10 ∧ c ≠ 13 := by decide
  have hbl : ∀ c ∈ List.replicate 74 (32 : UInt8), c ≠ 10 ∧ c ≠ 13 := by decide
  by_cases hp : tagPat <+: s
  · obtain ⟨r, rfl⟩ := hp
    rw [crlf_append, crlf_id fun c hc => (hnl c hc).1, isTag_split, isTag_split]
    have h3 : (∃ q, q ≠ [] ∧ crlf r = List.replicate 74 32 ++ q) ↔ ∃ q, q ≠ [] ∧ r = List.replicate 74 32 ++ q := by
      constructor
      · rintro ⟨q, hq, h⟩
        obtain ⟨q', h'⟩ := (crlf_prefix (s := r) hbl).1 ⟨q, h.symm⟩
        refine ⟨q', ?_, h'.symm⟩
        rintro rfl
        rw [← h', List.append_nil, crlf_id fun c hc => (hbl c hc).1] at h
        exact hq (List.append_right_eq_self.1 h.symm)
      · rintro ⟨q, hq, rfl⟩
        exact ⟨crlf q, fun h => hq (crlf_eq_nil.1 h), by rw [crlf_append, crlf_id fun c hc => (hbl c hc).1]⟩
    constructor
    · rintro ⟨x, hx, h⟩
      have hx := List.append_cancel_left hx
      subst hx
      exact ⟨r, rfl, by rw [crlf_eq_nil, crlf_head, h3] at h; exact h⟩
    · rintro ⟨x, hx, h⟩
      have hx := List.append_cancel_left hx
      subst hx
      exact ⟨crlf r, rfl, by rw [crlf_eq_nil, crlf_head, h3]; exact h⟩
  · constructor
    · rintro ⟨h, _⟩; exact absurd ((crlf_prefix hnl).1 h) hp
    · rintro ⟨h, _⟩; exact absurd h hp

/-- Where the byte at offset `i` goes. -/
def crlfPos (f : Bytes) (i : Nat) : Nat := (crlf (f.take i)).length

theorem tags_crlf (p s : Bytes) :
    tagsFrom (crlf p).length (crlf s) = (tagsFrom p.length s).map (crlfPos (p ++ s)) := by
  induction s generalizing p with
  | nil => rfl
  | cons c r ih =>
    have e : p ++ c :: r = (p ++ [c]) ++ r := by simp
    have hr := ih (p ++ [c])
    rw [crlf_append] at hr
    have hpos : crlfPos (p ++ c :: r) p.length = (crlf p).length := by
      unfold crlfPos; rw [List.take_left]
    have hlen : (p ++ [c]).length = p.length + 1 := by simp
    by_cases h : c = 10
    · subst h
      rw [crlf_lf]
      have n1 : ¬ isTag (13 :: 10 :: crlf r) := by
        rintro ⟨h, _⟩; rw [show tagPat = 32 :: [32, 32, 32, 45, 49] from rfl, List.cons_prefix_cons] at h; exact absurd h.1 (by decide)
      have n2 : ¬ isTag (10 :: crlf r) := by
        rintro ⟨h, _⟩; rw [show tagPat = 32 :: [32, 32, 32, 45, 49] from rfl, List.cons_prefix_cons] at h; exact absurd h.1 (by decide)
      have n3 : ¬ isTag (10 :: r) := by
        rintro ⟨h, _⟩; rw [show tagPat = 32 :: [32, 32, 32, 45, 49] from rfl, List.cons_prefix_cons] at h; exact absurd h.1 (by decide)
      simp only [tagsFrom, n1, n2, n3, if_false, List.nil_append]
      rw [e, ← hlen, ← hr, List.length_append]
      rfl
    · rw [crlf_other h]
      have n1 : isTag (c :: crlf r) ↔ isTag (c :: r) := by rw [← crlf_other h]; exact isTag_crlf _
      simp only [tagsFrom, List.map_append]
      congr 1
      · by_cases ht : isTag (c :: r)
        · rw [if_pos (n1.2 ht), if_pos ht, List.map_singleton, hpos]
        · rw [if_neg fun x => ht (n1.1 x), if_neg ht]; rfl
      · rw [e, ← hlen, ← hr, List.length_append, crlf_other h]
        rfl

theorem delims_crlf (f : Bytes) : delims (crlf f) = (delims f).map (crlfPos f) := by
  rw [delims_eq, delims_eq]
  exact tags_crlf [] f

theorem blockBytes_crlf (f : Bytes) (a b : Nat) (h : a ≤ b) :
    blockBytes (crlf f) (crlfPos f a, crlfPos f b) = crlf (blockBytes f (a, b)) := by
  unfold blockBytes slice crlfPos
  simp only
  have e1 : crlf f = crlf (f.take a) ++ crlf (f.drop a) := by rw [← crlf_append, List.take_append_drop]
  have e2 : f.take b = f.take a ++ (f.drop a).take (b - a) := by
    conv_lhs => rw [show b = a + (b - a) by omega]
    exact List.take_add
  rw [e2, crlf_append, List.length_append, e1, List.drop_left, Nat.add_sub_cancel_left]
  conv_lhs => rw [show crlf (f.drop a) = crlf ((f.drop a).take (b - a)) ++ crlf ((f.drop a).drop (b - a)) by
    rw [← crlf_append, List.take_append_drop]]
  exact List.take_left

theorem tagsFrom_sorted (s : Bytes) (i : Nat) : (tagsFrom i s).Pairwise (· < ·) ∧ ∀ x ∈ tagsFrom i s, i ≤ x := by
  induction s generalizing i with
  | nil => exact ⟨List.Pairwise.nil, fun x hx => by cases hx⟩
  | cons c r ih =>
    obtain ⟨h1, h2⟩ := ih (i + 1)
    simp only [tagsFrom]
    split
    · refine ⟨List.pairwise_cons.2 ⟨fun x hx => h2 x hx, h1⟩, fun x hx => ?_⟩
      rcases List.mem_cons.1 hx with rfl | hx
      · exact Nat.le_refl _
      · exact Nat.le_of_succ_le (h2 x hx)
    · exact ⟨h1, fun x hx => Nat.le_of_succ_le (h2 x hx)⟩

theorem pairUp_le {l : List Nat} (h : l.Pairwise (· < ·)) : ∀ p ∈ pairUp l, p.1 ≤ p.2 := by
  match l, h with
  | [], _ => intro p hp; cases hp
  | [_], _ => intro p hp; cases hp
  | a :: b :: r, h =>
    intro p hp
    simp only [pairUp] at hp
    rw [List.pairwise_cons] at h
    rcases List.mem_cons.1 hp with rfl | hp
    · exact Nat.le_of_lt (h.1 b (by simp))
    · exact pairUp_le (List.pairwise_cons.1 h.2).2 p hp

/-- The data-sets are the same, with CR LF. -/
theorem sets_crlf (f : Bytes) : sets (crlf f) = (sets f).map crlf := by
  rw [sets_eq, sets_eq, delims_crlf, pairUp_map, List.map_map, List.map_map]
  apply List.map_congr_left
  intro p hp
  exact blockBytes_crlf f p.1 p.2 (pairUp_le (by rw [delims_eq]; exact (tagsFrom_sorted f 0).1) p hp)

theorem setCount_crlf (f : Bytes) : setCount (crlf f) = setCount f := by
  unfold setCount; rw [delims_crlf, List.length_map]

end Verif
