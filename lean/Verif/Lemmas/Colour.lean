import Verif.Lemmas.Unclosed
import Verif.Lemmas.Edit
import Verif.Lemmas.RT2411
/-
Lines that end like a delimiter: how many delimiters a text has.
-/
namespace Verif

/-- A line that ends with the delimiter, early enough, is one delimiter. -/
theorem delims_tagRow (a : Bytes) (h1 : a.length ≤ 70) (h2 : ∀ c ∈ a, c ≠ 10 ∧ c ≠ 13) :
    delims (a ++ (delimBytes ++ [10])) = [a.length] := by
  have hlen : (a ++ (delimBytes ++ [10])).length = a.length + 7 := by simp [delimBytes]
  apply Edit.delims_unique (by simp)
  intro i
  rw [List.mem_singleton]
  constructor
  · rintro rfl
    refine ⟨fun j hj => ?_, .inr (.inl ?_)⟩
    · rw [List.getElem?_append_right (by omega), show a.length + j - a.length = j by omega,
        List.getElem?_append_left (by simpa [delimBytes] using hj)]
    · rw [List.getElem?_append_right (by omega), show a.length + 6 - a.length = 6 by omega]
      rfl
  · rintro ⟨hp, h | h | h | h⟩
    · rw [hlen] at h
      have h5 := hp 5 (by omega)
      rw [List.getElem?_append_right (by omega), show i + 5 - a.length = 6 by omega] at h5
      exact absurd h5 (by decide)
    · by_cases hi : i + 6 < a.length
      · rw [List.getElem?_append_left hi] at h
        exact absurd rfl (h2 _ (List.mem_of_getElem? h)).1
      · rw [List.getElem?_append_right (by omega)] at h
        obtain ⟨m, hm⟩ : ∃ m, i + 6 - a.length = m := ⟨_, rfl⟩
        rw [hm] at h
        match m, h, hm with
        | 6, _, hm => omega
        | 0, h, _ => exact absurd h (by decide)
        | 1, h, _ => exact absurd h (by decide)
        | 2, h, _ => exact absurd h (by decide)
        | 3, h, _ => exact absurd h (by decide)
        | 4, h, _ => exact absurd h (by decide)
        | 5, h, _ => exact absurd h (by decide)
        | _ + 7, h, _ => simp [delimBytes] at h
    · by_cases hi : i + 6 < a.length
      · rw [List.getElem?_append_left hi] at h
        exact absurd rfl (h2 _ (List.mem_of_getElem? h)).2
      · rw [List.getElem?_append_right (by omega)] at h
        have := List.mem_of_getElem? h
        exact absurd this (by decide)
    · omega

/-- A text whose lines have no delimiter but possibly at their end has as many delimiters as lines that end with one. -/
theorem delims_lines (ls : List Text) (h : ∀ l ∈ ls, NoBreak l ∧ (TagFree l ∨ ∃ a, l = a ++ tagText ∧ (encode a).length ≤ 70)) :
    (delims (encode (joinLines ls))).length = ls.countP (fun l => decide (tagText <:+ l)) := by
  induction ls with
  | nil => rfl
  | cons l ls ih =>
    obtain ⟨hb, hl⟩ := h l List.mem_cons_self
    rw [joinLines_cons, show l ++ '\n' :: joinLines ls = (l ++ ['\n']) ++ joinLines ls by simp, encode_append,
      delims_append _ _ ((terminated_iff _).2 (.inr (endsLF_encode l))), List.length_append, List.length_map,
      ih fun x hx => h x (List.mem_cons_of_mem _ hx), List.countP_cons, Nat.add_comm]
    congr 1
    rcases hl with hl | ⟨a, rfl, ha⟩
    · rw [encode_append, encode_LF, delims_eq, tags_line l hb hl, if_neg]
      · rfl
      · intro hs
        exact (hl tagText (of_decide_eq_true hs)).1 rfl
    · rw [encode_append, encode_append, encode_LF, encode_tagText, List.append_assoc,
        show tagPat ++ [10] = delimBytes ++ [10] by decide, delims_tagRow _ ha (encode_noLF a fun c hc => hb c (by simp [hc])), if_pos]
      · rfl
      · exact decide_eq_true ⟨a, rfl⟩

namespace DS2411

/-- The values of the node fit the fields, whatever the colour. -/
structure NodeFit (n : Node) : Prop where
  num : Fits 9 n.num
  defCs : Fits 9 n.defCs
  dispCs : Fits 9 n.dispCs
  color : Fits 9 n.color
  x : n.x.finite = true
  y : n.y.finite = true
  z : n.z.finite = true

theorem NodeFit.ok {n : Node} (h : NodeFit n) (h1 : n.color ≠ -1) : NodeOk n :=
  ⟨h.num, h.defCs, h.dispCs, h.color, h1, h.x, h.y, h.z⟩

/-- The same node with colour 0. -/
def white (n : Node) : Node := { n with color := 0 }

theorem NodeFit.white {n : Node} (h : NodeFit n) : NodeOk (white n) :=
  ⟨h.num, h.defCs, h.dispCs, by show Fits 9 0; decide, by show (0 : Int) ≠ -1; decide, h.x, h.y, h.z⟩

theorem row_free {n : Node} (ok : NodeOk n) : NoBreak (fieldLine (f1 n)) ∧ TagFree (fieldLine (f1 n)) := by
  have := safe ⟨[n]⟩ (by intro x hx; rw [List.mem_singleton.1 hx]; exact ok)
  exact this _ (by simp [lines])

theorem row2_free {n : Node} (ok : NodeOk n) : NoBreak (fieldLine (f2 n)) ∧ TagFree (fieldLine (f2 n)) := by
  have := safe ⟨[n]⟩ (by intro x hx; rw [List.mem_singleton.1 hx]; exact ok)
  exact this _ (by simp [lines])

/-- What precedes the delimiter in the first line of a node of colour -1. -/
def before (n : Node) : Text :=
  padLeft 10 (intRepr n.num) ++ (padLeft 10 (intRepr n.defCs) ++ (padLeft 10 (intRepr n.dispCs) ++ blanks 4))

theorem row_tag {n : Node} (h : NodeFit n) (h1 : n.color = -1) :
    fieldLine (f1 n) = before n ++ tagText ∧ NoBreak (fieldLine (f1 n)) ∧ (encode (before n)).length ≤ 70 := by
  have e : fieldLine (f1 n) = before n ++ tagText := by
    unfold f1 before fieldLine
    rw [h1]
    simp only [List.map_cons, List.map_nil, List.flatten_cons, List.flatten_nil, List.append_assoc, List.append_nil]
    rfl
  have hw := row_free h.white
  have ew : fieldLine (f1 (white n)) = before n ++ (blanks 5 ++ ['0']) := by
    unfold f1 before fieldLine white
    simp only [List.map_cons, List.map_nil, List.flatten_cons, List.flatten_nil, List.append_assoc, List.append_nil]
    rfl
  rw [ew] at hw
  have hb : NoBreak (before n) := fun c hc => hw.1 c (by simp [hc])
  refine ⟨e, ?_, ?_⟩
  · rw [e]
    intro c hc
    rcases List.mem_append.1 hc with hc | hc
    · exact hb c hc
    · exact noBreak_tagText c hc
  · have hlen : (before n).length = 34 := by
      simp [before, blanks, len_int 10 _ (h.num.mono (by decide)), len_int 10 _ (h.defCs.mono (by decide)),
        len_int 10 _ (h.dispCs.mono (by decide))]
    rw [encode_ascii, List.length_map, hlen]
    · decide
    · have hp : ∀ m : Int, ∀ c ∈ padLeft 10 (intRepr m), c.toNat < 0x80 := by
        intro m c hc
        unfold padLeft at hc
        rcases List.mem_append.1 hc with hc | hc
        · rw [(List.mem_replicate.1 hc).2]; decide
        · rcases intRepr_chars m c hc with hd | rfl
          · exact Nat.lt_of_le_of_lt hd.2 (by decide)
          · decide
      intro c hc
      unfold before at hc
      simp only [List.mem_append] at hc
      rcases hc with hc | hc | hc | hc
      · exact hp _ c hc
      · exact hp _ c hc
      · exact hp _ c hc
      · rw [(List.mem_replicate.1 hc).2]; decide

/-- The delimiters of nodes whose values fit: two, and one for each node of colour -1. -/
theorem frame_count (r : DS2411) (ok : ∀ n ∈ r.nodes, NodeFit n) :
    (delims (encode (frameText r.lines))).length = 2 + r.nodes.countP (fun n => n.color = -1) := by
  unfold frameText
  rw [delims_lines]
  · have e : ∀ l : List Node, (∀ n ∈ l, NodeFit n) →
        (l.flatMap fun n => [fieldLine (f1 n), fieldLine (f2 n)]).countP (fun l => decide (tagText <:+ l)) =
          l.countP (fun n => n.color = -1) := by
      intro l hl
      induction l with
      | nil => rfl
      | cons n l ih =>
        have hn := hl n List.mem_cons_self
        have h2 : ¬ tagText <:+ fieldLine (f2 n) := fun hs => ((row2_free hn.white).2 tagText hs).1 rfl
        have h1 : tagText <:+ fieldLine (f1 n) ↔ n.color = -1 := by
          constructor
          · intro hs
            by_contra hc
            exact ((row_free (hn.ok hc)).2 tagText hs).1 rfl
          · intro hc
            exact ⟨_, (row_tag hn hc).1.symm⟩
        rw [List.flatMap_cons, List.countP_append, ih fun x hx => hl x (List.mem_cons_of_mem _ hx), List.countP_cons,
          List.countP_cons, List.countP_cons, List.countP_nil]
        simp only [h1, h2, decide_false, decide_eq_true_eq]
        simp
        omega
    simp only [lines, List.cons_append, List.countP_cons, List.countP_append, List.countP_nil, e r.nodes ok]
    have a1 : (decide (tagText <:+ tagText)) = true := by decide
    have a2 : (decide (tagText <:+ idLine 2411)) = false := by decide
    rw [a1, a2]
    simp
    omega
  · intro l hl
    have ht : NoBreak tagText ∧ (TagFree tagText ∨ ∃ a, tagText = a ++ tagText ∧ (encode a).length ≤ 70) :=
      ⟨noBreak_tagText, .inr ⟨[], rfl, by decide⟩⟩
    simp only [lines, List.cons_append, List.mem_cons, List.mem_append, List.mem_flatMap, List.not_mem_nil, or_false] at hl
    rcases hl with rfl | rfl | ⟨n, hn, rfl | rfl⟩ | rfl
    · exact ht
    · have := safe ⟨[]⟩ (by intro x hx; cases hx) (idLine 2411) (by simp [lines])
      exact ⟨this.1, .inl this.2⟩
    · by_cases hc : n.color = -1
      · obtain ⟨h1, h2, h3⟩ := row_tag (ok n hn) hc
        exact ⟨h2, .inr ⟨_, h1, h3⟩⟩
      · have := row_free ((ok n hn).ok hc)
        exact ⟨this.1, .inl this.2⟩
    · have := row2_free (ok n hn).white
      exact ⟨this.1, .inl this.2⟩
    · exact ht

end DS2411
end Verif
