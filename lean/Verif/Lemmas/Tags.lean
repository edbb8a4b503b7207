import Verif.Model.Scan
import Verif.Lemmas.Lines
import Verif.Lemmas.Utf8
/-
Lemmas about the delimiter scan.
-/
namespace Verif

/-- The acceptance test on the suffix that starts at the hit. -/
def isTag (s : Bytes) : Prop :=
  tagPat <+: s ∧ (s.length = 6 ∨ s[6]? = some 10 ∨ s[6]? = some 13 ∨
    (80 < s.length ∧ slice s 6 80 = List.replicate 74 32))

instance (s : Bytes) : Decidable (isTag s) := by unfold isTag; infer_instance

/-- Offsets of the delimiters, by recursion over the suffixes. -/
def tagsFrom : Nat → Bytes → List Nat
  | _, [] => []
  | i, c :: r => (if isTag (c :: r) then [i] else []) ++ tagsFrom (i + 1) r

theorem not_isTag_nil : ¬ isTag [] := by decide

theorem isTag_drop (data : Bytes) (i : Nat) (hp : tagPat <+: data.drop i) :
    isTag (data.drop i) ↔ tagOk data i = true := by
  have hlen : 6 ≤ (data.drop i).length := by
    have := hp.length_le; simpa [tagPat] using this
  rw [List.length_drop] at hlen
  unfold isTag tagOk
  simp only [hp, true_and, List.length_drop, List.getElem?_drop]
  have hs : slice (data.drop i) 6 80 = slice data (i + 6) (i + 80) := by
    unfold slice; rw [List.drop_drop]; congr 1; omega
  rw [hs]
  constructor
  · rintro (h | h | h | ⟨h, h'⟩)
    · rw [if_pos (by omega)]
    · split
      · rfl
      · rw [if_pos ⟨by omega, Or.inl h⟩]
    · split
      · rfl
      · rw [if_pos ⟨by omega, Or.inr h⟩]
    · split
      · rfl
      · split
        · rfl
        · rw [if_pos ⟨by omega, h'⟩]
  · intro h
    split at h
    · left; omega
    · split at h
      · rename_i h1 h2
        rcases h2.2 with h2 | h2
        · right; left; exact h2
        · right; right; left; exact h2
      · split at h
        · rename_i h3; right; right; right; exact ⟨by omega, h3.2⟩
        · cases h

theorem findAux_spec (s : Bytes) (i : Nat) :
    (findAux tagPat s i = none → tagsFrom i s = []) ∧
    (∀ k, findAux tagPat s i = some k → i ≤ k ∧ k - i < s.length ∧ tagPat <+: s.drop (k - i) ∧
      tagsFrom i s = tagsFrom k (s.drop (k - i))) := by
  induction s generalizing i with
  | nil =>
    constructor
    · intro _; rfl
    · intro k h; simp [findAux, tagPat] at h
  | cons c r ih =>
    unfold findAux
    by_cases hp : tagPat.isPrefixOf (c :: r) = true
    · rw [if_pos hp]
      constructor
      · intro h; cases h
      · intro k h; cases h
        simp only [Nat.sub_self, List.drop_zero]
        exact ⟨Nat.le_refl _, by simp, by simpa using hp, trivial⟩
    · rw [if_neg hp]
      have hnt : ¬ isTag (c :: r) := by
        intro h; exact hp (by simpa using h.1)
      constructor
      · intro h
        unfold tagsFrom
        rw [if_neg hnt, (ih (i + 1)).1 h]; rfl
      · intro k h
        obtain ⟨h1, h2, h3, h4⟩ := (ih (i + 1)).2 k h
        have e : (c :: r).drop (k - i) = r.drop (k - (i + 1)) := by
          have : k - i = (k - (i + 1)) + 1 := by omega
          rw [this, List.drop_succ_cons]
        refine ⟨by omega, by simp; omega, by rw [e]; exact h3, ?_⟩
        rw [e, ← h4]
        conv => lhs; unfold tagsFrom
        rw [if_neg hnt]; rfl

theorem scanLoop_eq (data : Bytes) (fuel start : Nat) (h : data.length < fuel + start) :
    scanLoop data fuel start = tagsFrom start (data.drop start) := by
  induction fuel generalizing start with
  | zero =>
    rw [List.drop_eq_nil_of_le (by omega)]; rfl
  | succ f ih =>
    unfold scanLoop bytesFind
    by_cases hs : start ≤ data.length
    · rw [if_pos hs]
      have sp := findAux_spec (data.drop start) start
      cases hf : findAux tagPat (data.drop start) start with
      | none => rw [sp.1 hf]
      | some k =>
        obtain ⟨h1, h2, h3, h4⟩ := sp.2 k hf
        rw [List.length_drop] at h2
        rw [List.drop_drop, show start + (k - start) = k by omega] at h3 h4
        rw [h4]
        simp only
        rw [ih (k + 1) (by omega)]
        have hk : data.drop k = data[k]'(by omega) :: data.drop (k + 1) := List.drop_eq_getElem_cons (by omega)
        have hd := isTag_drop data k h3
        rw [hk] at hd ⊢
        rw [tagsFrom]
        congr 1
        by_cases ht : tagOk data k = true
        · rw [if_pos ht, if_pos (hd.2 ht)]
        · rw [if_neg ht, if_neg (fun x => ht (hd.1 x))]
    · rw [if_neg hs, List.drop_eq_nil_of_le (by omega)]; rfl

theorem scanTags_eq (data : Bytes) : scanTags data = tagsFrom 0 data := by
  unfold scanTags
  rw [scanLoop_eq data _ 0 (by omega)]; rfl

theorem tagsFrom_shift (s : Bytes) (i : Nat) : tagsFrom i s = (tagsFrom 0 s).map (· + i) := by
  induction s generalizing i with
  | nil => rfl
  | cons c r ih =>
    unfold tagsFrom
    rw [ih (i + 1), ih (0 + 1), List.map_append, List.map_map]
    congr 1
    · split <;> simp
    · apply List.map_congr_left
      intro a _; simp; omega

/-- `s` ends in a line feed. -/
def EndsLF (s : Bytes) : Prop := ∃ a, s = a ++ [10]

theorem EndsLF.append {a b : Bytes} (h : EndsLF b) : EndsLF (a ++ b) := by
  obtain ⟨x, rfl⟩ := h
  exact ⟨a ++ x, by simp⟩

theorem prefix_getElem? {α} {p s : List α} (h : p <+: s) {i : Nat} (hi : i < p.length) : s[i]? = p[i]? := by
  obtain ⟨t, rfl⟩ := h
  rw [List.getElem?_append_left hi]

/-- Adding bytes after a line feed does not change the acceptance test before it. -/
theorem isTag_append (s b : Bytes) (h : EndsLF s) : isTag (s ++ b) ↔ isTag s := by
  obtain ⟨a, rfl⟩ := h
  have hlf : ∀ (t : Bytes), (a ++ [10] ++ t)[a.length]? = some 10 := by intro t; simp
  have hlf0 : (a ++ [10] : Bytes)[a.length]? = some 10 := by simp
  have hnp : ∀ i, i < 6 → tagPat[i]? ≠ some (10 : UInt8) := by decide
  by_cases hl : a.length < 6
  · constructor
    · rintro ⟨h, -⟩
      exact absurd ((prefix_getElem? h hl).symm.trans (hlf b)) (hnp _ hl)
    · rintro ⟨h, -⟩
      exact absurd ((prefix_getElem? h hl).symm.trans hlf0) (hnp _ hl)
  · have hp : tagPat <+: a ++ [10] ++ b ↔ tagPat <+: a ++ [10] := by
      constructor
      · intro h
        exact List.prefix_of_prefix_length_le h (List.prefix_append _ _) (by simp [tagPat]; omega)
      · intro h; exact h.trans (List.prefix_append _ _)
    have h6 : (a ++ [10] ++ b)[6]? = (a ++ [10] : Bytes)[6]? := by
      rw [List.getElem?_append_left (by simp; omega)]
    unfold isTag
    rw [hp, h6]
    refine and_congr_right fun _ => ?_
    have l1 : (a ++ [10] ++ b).length = a.length + 1 + b.length := by simp; omega
    have l0 : (a ++ [10] : Bytes).length = a.length + 1 := by simp
    rw [l1, l0]
    have key : (80 < a.length + 1 + b.length ∧ slice (a ++ [10] ++ b) 6 80 = List.replicate 74 32) ↔
        (80 < a.length + 1 ∧ slice (a ++ [10]) 6 80 = List.replicate 74 32) := by
      by_cases h80 : 80 < a.length + 1
      · have : slice (a ++ [10] ++ b) 6 80 = slice (a ++ [10]) 6 80 := by
          unfold slice
          rw [List.drop_append_of_le_length (by simp; omega), List.take_append_of_le_length (by simp; omega)]
        rw [this]
        constructor
        · rintro ⟨_, h⟩; exact ⟨h80, h⟩
        · rintro ⟨_, h⟩; exact ⟨by omega, h⟩
      · constructor
        · rintro ⟨_, h⟩
          exfalso
          have e : (slice (a ++ [10] ++ b) 6 80)[a.length - 6]? = some 10 := by
            unfold slice
            rw [List.getElem?_take_of_lt (by omega), List.getElem?_drop,
              show 6 + (a.length - 6) = a.length by omega]
            exact hlf b
          rw [h, List.getElem?_replicate_of_lt (by omega)] at e
          exact absurd e (by decide)
        · rintro ⟨h, _⟩; omega
    rw [key]
    constructor
    · rintro (h | h | h | h)
      · have : a.length = 5 ∨ a.length < 5 := by omega
        omega
      · exact Or.inr (Or.inl h)
      · exact Or.inr (Or.inr (Or.inl h))
      · exact Or.inr (Or.inr (Or.inr h))
    · rintro (h | h | h | h)
      · omega
      · exact Or.inr (Or.inl h)
      · exact Or.inr (Or.inr (Or.inl h))
      · exact Or.inr (Or.inr (Or.inr h))

theorem tagsFrom_append (a b : Bytes) (h : a = [] ∨ EndsLF a) (i : Nat) :
    tagsFrom i (a ++ b) = tagsFrom i a ++ tagsFrom (i + a.length) b := by
  induction a generalizing i with
  | nil => simp [tagsFrom]
  | cons c r ih =>
    have hE : EndsLF (c :: r) := by
      rcases h with h | h
      · cases h
      · exact h
    have hr : r = [] ∨ EndsLF r := by
      obtain ⟨x, hx⟩ := hE
      cases x with
      | nil => left; simp at hx; exact hx.2
      | cons y x => right; simp at hx; exact ⟨x, hx.2⟩
    simp only [List.cons_append, tagsFrom]
    rw [ih hr (i + 1)]
    have e := isTag_append (c :: r) b hE
    simp only [List.cons_append] at e
    by_cases ht : isTag (c :: r)
    · rw [if_pos ht, if_pos (e.2 ht)]
      simp; congr 1; omega
    · rw [if_neg ht, if_neg (fun x => ht (e.1 x))]
      simp; congr 1; omega

/-! ### Lines without delimiters -/

/-- The delimiter as text. -/
def tagText : Text := "    -1".toList

/-- No suffix of the line is the delimiter, or starts with the delimiter followed by 74 blanks. -/
def TagFree (l : Text) : Prop :=
  ∀ s, s <:+ l → s ≠ tagText ∧ ¬ (tagText ++ blanks 74 <+: s)

theorem encode_ascii (t : Text) (h : ∀ c ∈ t, c.toNat < 0x80) :
    encode t = t.map fun c => UInt8.ofNat c.toNat := by
  induction t with
  | nil => rfl
  | cons c r ih =>
    rw [encode_cons, ih (fun x hx => h x (List.mem_cons_of_mem _ hx)),
      encodeChar_ascii c (h c (List.mem_cons_self ..))]
    rfl

theorem encode_tagText : encode tagText = tagPat := by decide

theorem encode_blanks (k : Nat) : encode (blanks k) = List.replicate k 32 := by
  rw [encode_ascii _ (by intro c hc; rw [blanks, List.mem_replicate] at hc; rw [hc.2]; decide)]
  simp [blanks]

theorem encode_injective {a b : Text} (h : encode a = encode b) : a = b := by
  rw [← decode_encode a, ← decode_encode b, h]

/-- A suffix of an encoded text that starts with an ASCII byte is the encoding of a suffix. -/
theorem suffix_encode (l : Text) (s : Bytes) (hs : s <:+ encode l) (c : UInt8) (r : Bytes)
    (he : s = c :: r) (hc : c.toNat < 0x80) : ∃ t, t <:+ l ∧ s = encode t := by
  induction l with
  | nil =>
    rw [encode_nil, List.suffix_nil] at hs
    rw [hs] at he; cases he
  | cons x l ih =>
    rw [encode_cons] at hs
    obtain ⟨p, hp⟩ := hs
    rcases List.append_eq_append_iff.1 hp with ⟨a, h1, h2⟩ | ⟨a, h1, h2⟩
    · cases a with
      | nil => 
        obtain ⟨t, ht, e⟩ := ih ⟨[], by simpa using h2⟩
        exact ⟨t, ht.trans (List.suffix_cons ..), e⟩
      | cons y a =>
        have hy : y = c := by rw [he] at h2; simp at h2; exact h2.1.symm
        by_cases hx : x.toNat < 0x80
        · rw [encodeChar_ascii x hx] at h1
          cases p with
          | nil => exact ⟨x :: l, List.suffix_refl _, by rw [encode_cons, encodeChar_ascii x hx, h1]; simpa using h2⟩
          | cons z p => simp at h1
        · have := encodeChar_high x (by omega) y (by rw [h1]; simp)
          rw [hy] at this; omega
    · obtain ⟨t, ht, e⟩ := ih ⟨a, h2.symm⟩
      exact ⟨t, ht.trans (List.suffix_cons ..), e⟩

theorem prefix_of_encode_prefix (p t : Text) (h : encode p <+: encode t) : p <+: t := by
  obtain ⟨r, hr⟩ := h
  refine ⟨decode r, ?_⟩
  rw [← decode_encode_append, hr, decode_encode]

theorem prefix_take_six {s : Bytes} (h : tagPat <+: s) : s = tagPat ++ s.drop 6 := by
  obtain ⟨t, rfl⟩ := h
  simp [tagPat]

theorem encode_noLF (l : Text) (h : NoBreak l) : ∀ b ∈ encode l, b ≠ 10 ∧ b ≠ 13 := by
  induction l with
  | nil => intro b hb; simp [encode_nil] at hb
  | cons c r ih =>
    intro b hb
    rw [encode_cons, List.mem_append] at hb
    rcases hb with hb | hb
    · by_cases hc : c.toNat < 0x80
      · rw [encodeChar_ascii c hc, List.mem_singleton] at hb
        have hbr := h c (List.mem_cons_self ..)
        have e : b.toNat = c.toNat := by rw [hb]; exact toNat_ofNat_u8 _ (by omega)
        simp [isBreak] at hbr
        constructor
        · rintro rfl
          have : c.toNat = 10 := by rw [← e]; rfl
          omega
        · rintro rfl
          have : c.toNat = 13 := by rw [← e]; rfl
          omega
      · have := encodeChar_high c (by omega) b hb
        constructor
        · rintro rfl; exact absurd this (by decide)
        · rintro rfl; exact absurd this (by decide)
    · exact ih (fun x hx => h x (List.mem_cons_of_mem _ hx)) b hb

theorem tagsFrom_eq_nil (s : Bytes) (h : ∀ t, t <:+ s → ¬ isTag t) (i : Nat) : tagsFrom i s = [] := by
  induction s generalizing i with
  | nil => rfl
  | cons c r ih =>
    unfold tagsFrom
    rw [if_neg (h _ (List.suffix_refl _)), ih (fun t ht => h t (ht.trans (List.suffix_cons ..)))]
    rfl

/-- A line without delimiter contributes no delimiter. -/
theorem tags_line (l : Text) (hb' : NoBreak l) (hf : TagFree l) (i : Nat) :
    tagsFrom i (encode l ++ [10]) = [] := by
  apply tagsFrom_eq_nil
  intro t ht hT
  obtain ⟨hp, hT⟩ := hT
  have e := prefix_take_six hp
  obtain ⟨q, hq⟩ := ht
  -- `t` is not a suffix of the final line feed
  have hne : t ≠ [10] := by rintro rfl; exact absurd hp (by decide)
  have main : ∀ a, t = a ++ [10] → a <:+ encode l → False := by
    intro a h2 ha
    have hpa : tagPat <+: a := by
      rw [h2] at hp
      rcases List.prefix_concat_iff.1 hp with h | h
      · exfalso
        have := congrArg List.getLast? h
        simp [tagPat] at this
      · exact h
    have ea := prefix_take_six hpa
    have hal : 6 ≤ a.length := by simpa [tagPat] using hpa.length_le
    obtain ⟨t', ht', e'⟩ := suffix_encode l a ha 32 ([32, 32, 32, 45, 49] ++ a.drop 6)
      (by conv => lhs; rw [ea]
          rfl) (by decide)
    obtain ⟨f1, f2⟩ := hf t' ht'
    have hmem : ∀ b ∈ a, b ≠ 10 ∧ b ≠ 13 := fun b hb => encode_noLF l hb' b (ha.subset hb)
    rcases hT with h | h | h | ⟨h, h'⟩
    · rw [h2] at h; simp at h; omega
    · rw [h2] at h
      by_cases h6 : 6 < a.length
      · rw [List.getElem?_append_left h6] at h
        exact (hmem 10 (List.mem_of_getElem? h)).1 rfl
      · apply f1
        apply encode_injective
        rw [← e', encode_tagText, ea, List.drop_eq_nil_of_le (by omega)]; rfl
    · rw [h2] at h
      by_cases h6 : 6 < a.length
      · rw [List.getElem?_append_left h6] at h
        exact (hmem 13 (List.mem_of_getElem? h)).2 rfl
      · have : a.length = 6 := by omega
        rw [← this] at h; simp at h
    · rw [h2] at h h'
      simp at h
      apply f2
      apply prefix_of_encode_prefix
      rw [encode_append, encode_tagText, encode_blanks, ← e', ea, ← h']
      unfold slice
      rw [List.drop_append_of_le_length (by omega), List.take_append_of_le_length (by simp; omega)]
      rw [List.prefix_append_right_inj]
      exact List.take_prefix _ _
  rcases List.append_eq_append_iff.1 hq with ⟨a, h1, h2⟩ | ⟨a, h1, h2⟩
  · exact main a h2 ⟨q, h1.symm⟩
  · cases a with
    | nil => exact hne (by simpa using h2.symm)
    | cons y a =>
      cases t with
      | nil => exact absurd hp (by decide)
      | cons z t => simp at h2

/-- The delimiter line contributes exactly one delimiter, at its start. -/
theorem tags_tagLine (i : Nat) : tagsFrom i (tagPat ++ [10]) = [i] := by
  rw [tagsFrom_shift, show tagsFrom 0 (tagPat ++ [10]) = [0] by decide]; simp

theorem encode_LF : encode ['\n'] = [10] := by decide

theorem endsLF_encode (l : Text) : EndsLF (encode (l ++ ['\n'])) := ⟨encode l, by rw [encode_append, encode_LF]⟩

theorem endsLF_joinLines (ls : List Text) : joinLines ls = [] ∨ EndsLF (encode (joinLines ls)) := by
  induction ls with
  | nil => left; rfl
  | cons l r ih =>
    right
    rw [joinLines_cons, show l ++ '\n' :: joinLines r = (l ++ ['\n']) ++ joinLines r by simp]
    rcases ih with h | h
    · rw [h, List.append_nil]; exact endsLF_encode l
    · rw [encode_append]; exact h.append

/-- A block of lines none of which is a delimiter. -/
theorem tags_joinLines (ls : List Text) (hb : ∀ l ∈ ls, NoBreak l) (hf : ∀ l ∈ ls, TagFree l) (i : Nat) :
    tagsFrom i (encode (joinLines ls)) = [] := by
  induction ls generalizing i with
  | nil => rfl
  | cons l r ih =>
    rw [joinLines_cons, show l ++ '\n' :: joinLines r = (l ++ ['\n']) ++ joinLines r by simp, encode_append,
      tagsFrom_append _ _ (Or.inr (endsLF_encode l)), encode_append, encode_LF,
      tags_line l (hb l (List.mem_cons_self ..)) (hf l (List.mem_cons_self ..)),
      ih (fun x hx => hb x (List.mem_cons_of_mem _ hx)) (fun x hx => hf x (List.mem_cons_of_mem _ hx))]
    rfl

end Verif
