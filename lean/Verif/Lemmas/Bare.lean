import Verif.Lemmas.Many
/-
Files whose last line has no line end.
-/
namespace Verif

theorem delims_split (a b : Bytes) : delims (a ++ b) =
    ((List.range a.length).filter fun i => DelimAt (a ++ b) i) ++ (delims b).map (· + a.length) := by
  unfold delims
  rw [List.length_append, List.range_add, List.filter_append, List.filter_map]
  congr 1
  have e : ((fun i => decide (DelimAt (a ++ b) i)) ∘ fun x => a.length + x) = fun i => decide (DelimAt b i) := by
    funext i
    have h : ∀ j, (a ++ b)[a.length + i + j]? = b[i + j]? := by
      intro j
      rw [List.getElem?_append_right (by omega)]
      congr 1; omega
    have : DelimAt (a ++ b) (a.length + i) ↔ DelimAt b i := by
      unfold DelimAt
      have h6 : ∀ j, (a ++ b)[a.length + i + 6 + j]? = b[i + 6 + j]? := by
        intro j; rw [Nat.add_assoc, h]; congr 1; omega
      simp only [h, h6, List.length_append]
      have e1 : a.length + b.length = a.length + i + 6 ↔ b.length = i + 6 := by omega
      have e2 : a.length + i + 80 < a.length + b.length ↔ i + 80 < b.length := by omega
      rw [e1, e2]
    simp only [Function.comp, this]
  rw [e]
  apply List.map_congr_left
  intro i _; omega

/-- The last byte of a nonempty file. -/
theorem last_getElem (f : Bytes) (c : UInt8) (h : f.getLast? = some c) : 0 < f.length ∧ f[f.length - 1]? = some c := by
  rw [List.getLast?_eq_getElem?] at h
  refine ⟨?_, h⟩
  cases f with
  | nil => simp at h
  | cons _ _ => simp

/-- Bytes behind a last byte that cannot be part of a delimiter do not change the delimiters before it. -/
theorem delimAt_sealed (f b : Bytes) (c : UInt8) (h : f.getLast? = some c) (h1 : c ≠ 32) (h2 : c ≠ 45) (h3 : c ≠ 49)
    (i : Nat) (hi : i < f.length) : DelimAt (f ++ b) i ↔ DelimAt f i := by
  obtain ⟨hp, hl⟩ := last_getElem f c h
  have g : ∀ j, j < f.length → (f ++ b)[j]? = f[j]? := fun j hj => List.getElem?_append_left hj
  have six : ∀ (q : Bytes), (∀ j, j < f.length → q[j]? = f[j]?) → (∀ j < 6, q[i + j]? = delimBytes[j]?) → i + 6 < f.length := by
    intro q hq hs
    by_contra hn
    have hj : f.length - 1 - i < 6 := by omega
    have := hs _ hj
    rw [hq _ (by omega), show i + (f.length - 1 - i) = f.length - 1 by omega, hl] at this
    generalize f.length - 1 - i = j at this hj
    have : j = 0 ∨ j = 1 ∨ j = 2 ∨ j = 3 ∨ j = 4 ∨ j = 5 := by omega
    rcases this with rfl | rfl | rfl | rfl | rfl | rfl <;> simp_all [delimBytes]
  have blank : ∀ (q : Bytes), (∀ j, j < f.length → q[j]? = f[j]?) → i + 6 < f.length → (∀ j < 74, q[i + 6 + j]? = some 32) →
      i + 80 < f.length := by
    intro q hq h6 hs
    by_contra hn
    have := hs (f.length - 1 - (i + 6)) (by omega)
    rw [hq _ (by omega), show i + 6 + (f.length - 1 - (i + 6)) = f.length - 1 by omega, hl] at this
    exact h1 (Option.some.inj this)
  constructor
  · rintro ⟨hs, ht⟩
    have h6 := six (f ++ b) g hs
    refine ⟨fun j hj => by rw [← g _ (by omega)]; exact hs j hj, ?_⟩
    rcases ht with ht | ht | ht | ⟨ht, hb⟩
    · rw [List.length_append] at ht; omega
    · rw [g _ h6] at ht; exact .inr (.inl ht)
    · rw [g _ h6] at ht; exact .inr (.inr (.inl ht))
    · have h80 := blank (f ++ b) g h6 hb
      exact .inr (.inr (.inr ⟨h80, fun j hj => by rw [← g _ (by omega)]; exact hb j hj⟩))
  · rintro ⟨hs, ht⟩
    have h6 := six f (fun _ _ => rfl) hs
    refine ⟨fun j hj => by rw [g _ (by omega)]; exact hs j hj, ?_⟩
    rcases ht with ht | ht | ht | ⟨ht, hb⟩
    · omega
    · exact .inr (.inl (by rw [g _ h6]; exact ht))
    · exact .inr (.inr (.inl (by rw [g _ h6]; exact ht)))
    · exact .inr (.inr (.inr ⟨by rw [List.length_append]; omega, fun j hj => by rw [g _ (by omega)]; exact hb j hj⟩))

/-- A delimiter at the very end of a file is no longer one when bytes follow that start with a delimiter; the others are not
touched. -/
theorem delimAt_bare (g b : Bytes) (i : Nat) (hi : i < (g ++ tagPat).length) :
    DelimAt ((g ++ tagPat) ++ (tagPat ++ b)) i ↔ DelimAt (g ++ tagPat) i ∧ i ≠ g.length := by
  generalize hf : g ++ tagPat = f at hi
  have hlen : f.length = g.length + 6 := by rw [← hf]; simp [tagPat]
  have hl : f[f.length - 1]? = some 49 := by
    rw [hlen, ← hf, List.getElem?_append_right (by omega)]
    simp [tagPat]
  have gf : ∀ j, j < f.length → (f ++ (tagPat ++ b))[j]? = f[j]? := fun j hj => List.getElem?_append_left hj
  have gb : ∀ j, j < 6 → (f ++ (tagPat ++ b))[f.length + j]? = tagPat[j]? := by
    intro j hj
    rw [List.getElem?_append_right (by omega), Nat.add_sub_cancel_left, List.getElem?_append_left (by simp [tagPat]; omega)]
  constructor
  · rintro ⟨hs, ht⟩
    have h6 : i + 6 ≤ f.length := by
      by_contra hn
      have hj : f.length - 1 - i < 6 := by omega
      have := hs _ hj
      rw [gf _ (by omega), show i + (f.length - 1 - i) = f.length - 1 by omega, hl] at this
      have hj5 : f.length - 1 - i < 5 := by omega
      generalize f.length - 1 - i = j at this hj5
      have : j = 0 ∨ j = 1 ∨ j = 2 ∨ j = 3 ∨ j = 4 := by omega
      rcases this with rfl | rfl | rfl | rfl | rfl <;> simp_all [delimBytes]
    have hne : i + 6 ≠ f.length := by
      intro he
      rw [he] at ht
      rcases ht with ht | ht | ht | ⟨_, hb⟩
      · simp [tagPat] at ht
      · have := gb 0 (by decide); rw [Nat.add_zero] at this; rw [this] at ht; exact absurd ht (by decide)
      · have := gb 0 (by decide); rw [Nat.add_zero] at this; rw [this] at ht; exact absurd ht (by decide)
      · have := hb 4 (by decide); rw [gb 4 (by decide)] at this; exact absurd this (by decide)
    have h6 : i + 6 < f.length := by omega
    refine ⟨⟨fun j hj => by rw [← gf _ (by omega)]; exact hs j hj, ?_⟩, by omega⟩
    rcases ht with ht | ht | ht | ⟨ht, hb⟩
    · rw [List.length_append] at ht; omega
    · rw [gf _ h6] at ht; exact .inr (.inl ht)
    · rw [gf _ h6] at ht; exact .inr (.inr (.inl ht))
    · have h80 : i + 80 < f.length := by
        by_contra hn
        have := hb (f.length - 1 - (i + 6)) (by omega)
        rw [gf _ (by omega), show i + 6 + (f.length - 1 - (i + 6)) = f.length - 1 by omega, hl] at this
        exact absurd this (by decide)
      exact .inr (.inr (.inr ⟨h80, fun j hj => by rw [← gf _ (by omega)]; exact hb j hj⟩))
  · rintro ⟨⟨hs, ht⟩, hne⟩
    have h6 : i + 6 < f.length := by
      have h6 : i + 6 ≤ f.length := by
        by_contra hn
        have := hs 5 (by decide)
        rw [List.getElem?_eq_none (by omega)] at this
        exact absurd this (by decide)
      omega
    refine ⟨fun j hj => by rw [gf _ (by omega)]; exact hs j hj, ?_⟩
    rcases ht with ht | ht | ht | ⟨ht, hb⟩
    · omega
    · exact .inr (.inl (by rw [gf _ h6]; exact ht))
    · exact .inr (.inr (.inl (by rw [gf _ h6]; exact ht)))
    · exact .inr (.inr (.inr ⟨by rw [List.length_append]; omega, fun j hj => by rw [gf _ (by omega)]; exact hb j hj⟩))

theorem delims_sealed (f b : Bytes) (c : UInt8) (h : f.getLast? = some c) (h1 : c ≠ 32) (h2 : c ≠ 45) (h3 : c ≠ 49) :
    delims (f ++ b) = delims f ++ (delims b).map (· + f.length) := by
  rw [delims_split]
  congr 1
  unfold delims
  apply List.filter_congr
  intro i hi
  simp only [delimAt_sealed f b c h h1 h2 h3 i (List.mem_range.1 hi)]

/-- The delimiters before the last. -/
def inner (g : Bytes) : List Nat := (List.range g.length).filter fun i => DelimAt (g ++ tagPat) i

theorem delimAt_last (g : Bytes) : DelimAt (g ++ tagPat) g.length := by
  refine ⟨fun j hj => ?_, .inl (by simp [tagPat])⟩
  rw [List.getElem?_append_right (by omega), Nat.add_sub_cancel_left]; rfl

theorem delims_bareFile (g : Bytes) : delims (g ++ tagPat) = inner g ++ [g.length] := by
  unfold delims inner
  have : (g ++ tagPat).length = g.length + 6 := by simp [tagPat]
  rw [this, List.range_add, List.filter_append]
  congr 1
  have e : (List.range 6).map (g.length + ·) = [g.length, g.length + 1, g.length + 2, g.length + 3, g.length + 4, g.length + 5] := by
    rfl
  have no : ∀ k, 0 < k → ¬ DelimAt (g ++ tagPat) (g.length + k) := by
    rintro k hk ⟨hs, _⟩
    have := hs 5 (by decide)
    rw [List.getElem?_eq_none (by simp [tagPat]; omega)] at this
    exact absurd this (by decide)
  rw [e]
  simp only [List.filter_cons, delimAt_last g, no 1 (by omega), no 2 (by omega), no 3 (by omega), no 4 (by omega),
    no 5 (by omega), decide_true, decide_false, if_true, List.filter_nil]
  rfl

theorem delims_bare (g b : Bytes) : delims ((g ++ tagPat) ++ (tagPat ++ b)) =
    inner g ++ (delims (tagPat ++ b)).map (· + (g ++ tagPat).length) := by
  rw [delims_split]
  congr 1
  have hlen : (g ++ tagPat).length = g.length + 6 := by simp [tagPat]
  rw [hlen, List.range_add, List.filter_append]
  have h2 : ((List.range 6).map (g.length + ·)).filter (fun i => decide (DelimAt ((g ++ tagPat) ++ (tagPat ++ b)) i)) = [] := by
    rw [List.filter_eq_nil_iff]
    intro i hi
    obtain ⟨k, hk, rfl⟩ := List.mem_map.1 hi
    have hk := List.mem_range.1 hk
    rw [decide_eq_true_eq, delimAt_bare g b _ (by omega)]
    rintro ⟨⟨hs, _⟩, hne⟩
    have := hs 5 (by decide)
    rw [List.getElem?_eq_none (by omega)] at this
    exact absurd this (by decide)
  rw [h2, List.append_nil]
  unfold inner
  apply List.filter_congr
  intro i hi
  have := List.mem_range.1 hi
  simp only [delimAt_bare g b i (by omega), show i ≠ g.length by omega, ne_eq, not_false_eq_true, and_true]

/-- What the scan finds in data-sets that follow a bare delimiter: the pieces between them. -/
theorem pairs_shifted (p : Bytes) (x : Nat) {ss : List DataSet} {bs : List Bytes} (h : Blocks ss bs) (hne : bs ≠ []) :
    (pairUp (x :: (delims (bs.flatMap closed)).map (· + p.length))).map (blockBytes (p ++ bs.flatMap closed)) =
    blockBytes (p ++ bs.flatMap closed) (x, p.length) :: List.replicate (ss.length - 1) (tagPat ++ [10]) := by
  induction h generalizing p x with
  | nil => exact absurd rfl hne
  | @cons s b ss bs hb hbs ih =>
    have hd : (delims ((b :: bs).flatMap closed)).map (· + p.length) =
        p.length :: (p.length + b.length) :: (delims (bs.flatMap closed)).map (· + (p ++ closed b).length) := by
      rw [List.flatMap_cons, delims_append _ _ (terminated_closed b), hb.framed.delims, List.map_append, List.map_map]
      simp only [List.map_cons, List.map_nil, List.cons_append, List.nil_append, Nat.zero_add]
      rw [Nat.add_comm b.length]
      congr 2
      apply List.map_congr_left
      intro i _
      simp only [Function.comp, List.length_append]; omega
    rw [hd]
    simp only [pairUp, List.map_cons]
    congr 1
    have hp : p ++ (b :: bs).flatMap closed = (p ++ closed b) ++ bs.flatMap closed := by
      rw [List.flatMap_cons, List.append_assoc]
    rw [hp]
    cases hbs with
    | nil => simp [delims, pairUp]
    | @cons s' b' ss' bs' hb' hbs' =>
      rw [ih (p ++ closed b) (p.length + b.length) (by simp)]
      have e : blockBytes (p ++ closed b ++ (b' :: bs').flatMap closed) (p.length + b.length, (p ++ closed b).length) =
          tagPat ++ [10] := by
        rw [blockBytes_left _ _ _ (Nat.le_refl _)]
        unfold blockBytes slice closed
        rw [← List.append_assoc, ← List.length_append, List.drop_left, List.length_append (as := p ++ b), Nat.add_sub_cancel_left,
          List.take_length]
      rw [e]
      rfl

theorem prefix_of_delim {f : Bytes} (h : 0 ∈ delims f) : ∃ t, f = tagPat ++ t := by
  have := (List.mem_filter.1 h).2
  rw [decide_eq_true_eq] at this
  have hp : tagPat <+: f := by
    rw [isPrefix_iff_getElem?]
    intro j hj
    have := this.1 j hj
    rwa [Nat.zero_add] at this
  obtain ⟨t, rfl⟩ := hp
  exact ⟨t, rfl⟩

theorem Blocks.starts {ss : List DataSet} {bs : List Bytes} (h : Blocks ss bs) (hne : bs ≠ []) :
    ∃ t, bs.flatMap closed = tagPat ++ t := by
  cases h with
  | nil => exact absurd rfl hne
  | @cons s b ss bs hb _ =>
    apply prefix_of_delim
    rw [List.flatMap_cons, delims_append _ _ (terminated_closed b), hb.framed.delims]
    simp

/-- Data-sets behind a bare delimiter. -/
theorem sets_bare (g : Bytes) {ss : List DataSet} {bs : List Bytes} (h : Blocks ss bs) (hne : bs ≠ [])
    (hb : Balanced (g ++ tagPat)) : ∃ init last, sets (g ++ tagPat) = init ++ [last] ∧
      sets ((g ++ tagPat) ++ bs.flatMap closed) =
        init ++ (last ++ tagPat) :: List.replicate (ss.length - 1) (tagPat ++ [10]) := by
  unfold Balanced at hb
  rw [delims_bareFile] at hb
  have hodd : (inner g).length % 2 = 1 := by
    rw [List.length_append, List.length_singleton] at hb; omega
  obtain ⟨D, x, hD⟩ : ∃ D x, inner g = D ++ [x] := by
    have : inner g ≠ [] := by intro e; rw [e] at hodd; simp at hodd
    exact ⟨_, _, (List.dropLast_concat_getLast this).symm⟩
  have hDe : D.length % 2 = 0 := by rw [hD] at hodd; simp at hodd; omega
  have hmem : ∀ y ∈ inner g, y < g.length := fun y hy => List.mem_range.1 (List.mem_filter.1 hy).1
  have hx : x < g.length := hmem x (by rw [hD]; simp)
  obtain ⟨t, ht⟩ := h.starts hne
  refine ⟨(pairUp D).map (blockBytes (g ++ tagPat)), blockBytes (g ++ tagPat) (x, g.length), ?_, ?_⟩
  · rw [sets_eq, delims_bareFile, hD, List.append_assoc, pairUp_even _ _ hDe, List.map_append]
    rfl
  · have hds := delims_bare g t
    rw [← ht] at hds
    rw [sets_eq, hds, hD, List.append_assoc D, pairUp_even _ _ hDe, List.map_append]
    congr 1
    · apply List.map_congr_left
      intro p hp
      have hp2 : p.2 ∈ inner g := by rw [hD]; exact List.mem_append_left _ (pairUp_mem _ _ hp).2
      exact blockBytes_left _ _ p (by have := hmem _ hp2; rw [List.length_append]; omega)
    · rw [List.singleton_append, pairs_shifted _ x h hne]
      congr 1
      rw [blockBytes_left _ _ _ (Nat.le_refl _)]
      unfold blockBytes slice
      simp only [List.length_append]
      rw [List.drop_append_of_le_length (by omega), List.take_of_length_le (by simp; omega),
        List.take_append_of_le_length (by simp)]
      rw [List.take_of_length_le (by simp)]

end Verif
