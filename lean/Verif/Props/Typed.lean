import Verif.Lemmas.Typed
import Verif.Py.Lit
import Verif.Props.Foreign
import Verif.Props.Crlf
/-
C58 (reading): what any data-set of a file is read as.
-/
namespace Verif

theorem returns_block (t : Int) (header : Bool) (b : Bytes) :
    Returns (fun d : Dict => d.get? "type" = some (.int t) ∧ Entries t header d.names) (readBlock t header b) := by
  have fixed : ∀ n : Int, n ∈ ([15, 18, 82, 151, 164, 1858, 2400, 2411, 2420, 2429, 2467] : List Int) →
      ∀ d : Dict, Shaped n (entriesOf n) d → d.get? "type" = some (.int n) ∧ Entries n header d.names := by
    intro n hn d hd
    refine ⟨hd.2, ?_⟩
    have : n ≠ 55 ∧ n ≠ 58 ∧ n ≠ 2412 ∧ n ≠ 2414 := by
      refine ⟨?_, ?_, ?_, ?_⟩ <;> (rintro rfl; revert hn; decide)
    unfold Entries
    rw [if_neg this.1, if_neg this.2.1, if_neg this.2.2.1, if_neg this.2.2.2, if_pos hn]
    exact hd.1
  unfold readBlock
  by_cases h15 : t = 15
  · rw [if_pos h15]; subst h15; intro d hd; exact fixed _ (by decide) d (returns15 _ d hd)
  rw [if_neg h15]
  by_cases h18 : t = 18
  · rw [if_pos h18]; subst h18; intro d hd; exact fixed _ (by decide) d (returns18 _ d hd)
  rw [if_neg h18]
  by_cases h55 : t = 55
  · rw [if_pos h55]; subst h55; intro d hd; exact ⟨(returns55 _ d hd).2, (returns55 _ d hd).1⟩
  rw [if_neg h55]
  by_cases h58 : t = 58
  · rw [if_pos h58]; subst h58; intro d hd; obtain ⟨h1, b, _, h2⟩ := returns58 _ _ d hd
    rcases h2 with h2 | ⟨h2, rfl, h3⟩
    · exact ⟨h1, .inl ⟨b, h2⟩⟩
    · exact ⟨h1, .inr ⟨h2, h3⟩⟩
  rw [if_neg h58]
  by_cases h82 : t = 82
  · rw [if_pos h82]; subst h82; intro d hd; exact fixed _ (by decide) d (returns82 _ d hd)
  rw [if_neg h82]
  by_cases h151 : t = 151
  · rw [if_pos h151]; subst h151; intro d hd; exact fixed _ (by decide) d (returns151 _ d hd)
  rw [if_neg h151]
  by_cases h164 : t = 164
  · rw [if_pos h164]; subst h164; intro d hd; exact fixed _ (by decide) d (returns164 _ d hd)
  rw [if_neg h164]
  by_cases h1858 : t = 1858
  · rw [if_pos h1858]; subst h1858; intro d hd; exact fixed _ (by decide) d (returns1858 _ d hd)
  rw [if_neg h1858]
  by_cases h2400 : t = 2400
  · rw [if_pos h2400]; subst h2400; intro d hd; exact fixed _ (by decide) d (returns2400 _ d hd)
  rw [if_neg h2400]
  by_cases h2411 : t = 2411
  · rw [if_pos h2411]; subst h2411; intro d hd; exact fixed _ (by decide) d (returns2411 _ d hd)
  rw [if_neg h2411]
  by_cases h2412 : t = 2412
  · rw [if_pos h2412]; subst h2412; intro d hd; exact ⟨returns2412 _ d hd, returns2412_names _ d hd⟩
  rw [if_neg h2412]
  by_cases h2414 : t = 2414
  · rw [if_pos h2414]; subst h2414; intro d hd; exact returns2414 _ d hd
  rw [if_neg h2414]
  by_cases h2420 : t = 2420
  · rw [if_pos h2420]; subst h2420; intro d hd; exact fixed _ (by decide) d (returns2420 _ d hd)
  rw [if_neg h2420]
  by_cases h2429 : t = 2429
  · rw [if_pos h2429]; subst h2429; intro d hd; exact fixed _ (by decide) d (returns2429 _ d hd)
  rw [if_neg h2429]
  by_cases h2467 : t = 2467
  · rw [if_pos h2467]; subst h2467; intro d hd; exact fixed _ (by decide) d (returns2467 _ d hd)
  rw [if_neg h2467]
  refine returns_ok ⟨rfl, ?_⟩
  unfold Entries
  rw [if_neg h55, if_neg h58, if_neg h2412, if_neg h2414, if_neg (by simp; omega)]
  rfl

/-- **C58 (type and entries).** Whatever bytes a data-set of a file holds, reading it either fails or gives a dictionary
whose `type` is the one on the second line of the data-set and whose entries are exactly those of that type, in the
order in which the code makes them: nothing in a damaged or foreign data-set can remove one or add another. -/
theorem C58_entries (f : Bytes) (k : Nat) (hk : k < setCount f) (t : Int) (ht : TypeIs (setBytes f k) t) (header : Bool)
    (d : Dict) (h : ((World.new (some f)).readSets (.one k) header).2 = .ok (.single d)) :
    d.get? "type" = some (.int t) ∧ Entries t header d.names := by
  rw [one_iff (new_status f) f rfl, show (World.new (some f)).obj = objOf f from rfl, readSet_in f k hk,
    (typeIs_iff _ _).1 ht] at h
  exact returns_block t header _ d h

/-- **C58 (binary).** The entry `binary` of a function read is 0 or 1, and it is 1 exactly if the four entries of the binary
record are there. -/
theorem C58_binary (f : Bytes) (k : Nat) (hk : k < setCount f) (ht : TypeIs (setBytes f k) 58) (header : Bool)
    (d : Dict) (h : ((World.new (some f)).readSets (.one k) header).2 = .ok (.single d)) :
    (d.get? "binary" = some (.int 0) ∨ d.get? "binary" = some (.int 1)) ∧
      ∀ n ∈ ["byte_ordering", "fp_format", "n_ascii_lines", "n_bytes"],
        (d.get? "binary" = some (.int 1) ↔ d.get? (.s n) ≠ none) := by
  rw [one_iff (new_status f) f rfl, show (World.new (some f)).obj = objOf f from rfl, readSet_in f k hk,
    (typeIs_iff _ _).1 ht] at h
  obtain ⟨_, b, hb, hn⟩ := returns58 _ header d h
  refine ⟨by rw [hb]; cases b <;> simp, fun n hm => ?_⟩
  rw [← mem_names, hb]
  have key : ∀ b : Bool, ∀ n ∈ ["byte_ordering", "fp_format", "n_ascii_lines", "n_bytes"],
      (b = true ↔ Key.s n ∈ entries58 b ++ [.s "x", .s "data"]) ∧ (b = true ↔ Key.s n ∈ entries58 b) := by decide +kernel
  have e : (some (Val.int (if b then 1 else 0)) = some (.int 1)) ↔ b = true := by cases b <;> simp
  rw [e]
  rcases hn with hn | ⟨_, _, hn⟩
  · rw [hn]; exact (key b n hm).1
  · rw [hn]; exact (key b n hm).2

/-- **C58 (whole file).** If all of a file can be read, the types of the dictionaries are those `get_set_types` reports,
one for one, also where the type is unsupported or is no number. -/
theorem C58_types (f : Bytes) (header : Bool) (l : List Dict)
    (h : ((World.new (some f)).readSets .all header).2 = .ok (.list l)) :
    l.map (fun d => d.get? "type") = (World.new (some f)).getSetTypes.2.map fun t => some (.int t) := by
  obtain ⟨h1, h2⟩ := C06_entry _ (new_status f) rfl header l h
  obtain ⟨h3, h4⟩ := C01_types f
  have hc : setCount f = (delims f).length / 2 := rfl
  have hn : (World.new (some f)).getNSets.2 = (delims f).length / 2 := C01_count f
  refine List.ext_getElem (by simp only [List.length_map]; omega) fun k k1 k2 => ?_
  rw [List.length_map] at k1 k2
  simp only [List.getElem_map]
  exact (C58_entries f k (by omega) _ (h4 k _ (List.getElem?_eq_getElem k2)) header _
    (h2 k _ (List.getElem?_eq_getElem k1))).1

/-- A file with a binary function of integers (kind 9, which no branch handles) and a data-set whose type is no number. -/
def exOdd : Bytes := encode chars!"    -1
    58b     1     2          11           4     0     0           0           0
damaged


NONE

    5         1    1         0 NONE               1   1 NONE               1   1
         9         1         1  0.00000e+00  1.00000e+00  0.00000e+00
        18    0    0    0 NONE                 NONE
        12    0    0    0 NONE                 NONE
         0    0    0    0 NONE                 NONE
         0    0    0    0 NONE                 NONE
abcd
    -1
    -1
    xx
    -1
"

example : setCount exOdd = 2 ∧ TypeIs (setBytes exOdd 0) 58 ∧
    (∃ d, ((World.new (some exOdd)).readSets (.one 0) false).2 = .ok (.single d) ∧ d.names = entries58 true) ∧
    (∃ d e, ((World.new (some exOdd)).readSets .all false).2 = .ok (.list [d, e])) ∧
    (World.new (some exOdd)).getSetTypes.2 = [58, 0] := by
  refine ⟨by rw [count_fast]; decide +kernel, by rw [bytes_fast, typeIs_iff]; decide +kernel, ?_, ?_, by decide +kernel⟩
  · have : (match ((World.new (some exOdd)).readSets (.one 0) false).2 with
      | .ok (.single d) => decide (d.names = entries58 true) | _ => false) = true := by decide +kernel
    revert this
    rcases ((World.new (some exOdd)).readSets (.one 0) false).2 with _ | d | l
    · intro h; cases h
    · intro h; exact ⟨d, rfl, of_decide_eq_true h⟩
    · intro h; cases h
  · have : (match ((World.new (some exOdd)).readSets .all false).2 with
      | .ok (.list l) => decide (l.length = 2) | _ => false) = true := by decide +kernel
    revert this
    rcases ((World.new (some exOdd)).readSets .all false).2 with _ | d | l
    · intro h; cases h
    · intro h; cases h
    · intro h
      match l, of_decide_eq_true h with
      | [d, e], _ => exact ⟨d, e, rfl⟩

end Verif
