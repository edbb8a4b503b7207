import Verif.Lemmas.Framing
import Verif.Props.Optional
/-
From what a writer writes to what is in the file.
-/
namespace Verif

theorem frames_mono {α} {P Q : Dict → Prop} {p : Text} {q : α → Text} {m : W α} (h : Frames Q p q m)
    (hPQ : ∀ d, P d → Q d) : Frames P p q m :=
  fun d => ⟨fun a hd => (h d).1 a (hPQ d hd), (h d).2⟩

/-- Every writer, whatever the dictionary. -/
theorem frames_dispatch (e : Env) (fd : Bool) (t : Int) (ht : t ∈ supported) :
    Frames (fun d => t = 2414 → Closing d) (opening t.toNat) endOf (writeDispatch e fd (.int t)) := by
  simp only [supported, List.mem_cons, List.not_mem_nil, or_false] at ht
  rcases ht with rfl | rfl | rfl | rfl | rfl | rfl | rfl | rfl | rfl | rfl | rfl | rfl | rfl | rfl | rfl
  · exact frames_mono (frames_none frames15) fun _ _ => trivial
  · exact frames_mono (frames_none frames18) fun _ _ => trivial
  · exact frames_mono (frames_none frames55) fun _ _ => trivial
  · exact frames_mono (frames58 _ _) fun _ _ => trivial
  · exact frames_mono (frames_none frames82) fun _ _ => trivial
  · exact frames_mono (frames_none (frames151 _ _)) fun _ _ => trivial
  · exact frames_mono (frames_none frames164) fun _ _ => trivial
  · exact frames_mono (frames_none frames1858) fun _ _ => trivial
  · exact frames_mono (frames_none frames2400) fun _ _ => trivial
  · exact frames_mono (frames_none frames2411) fun _ _ => trivial
  · exact frames_mono (frames_none frames2412) fun _ _ => trivial
  · exact frames_mono (frames_none frames2414) fun _ h => h rfl
  · exact frames_mono (frames_none frames2420) fun _ _ => trivial
  · exact frames_mono (frames_none frames2429) fun _ _ => trivial
  · exact frames_mono (frames_none frames2467) fun _ _ => trivial

theorem tail_bytes : encode tailText = [32, 32, 32, 32, 45, 49, 10] := by decide

/-- What one call of a writer adds to the file. -/
theorem added_framed (e : Env) (fd : Bool) (d : Dict) (t : Int) (ht : d.get? "type" = some (.int t)) (hs : t ∈ supported) :
    (∀ a, (writeBody e fd d).res = .ok a → ¬ NeverClosed d → FramedAs t (added (writeBody e fd d))) ∧
    (∀ x, (writeBody e fd d).res = .error x → StartedAs t (added (writeBody e fd d))) := by
  have hb : writeBody e fd d = match cleanData d with
      | .error x => ⟨[], d, .error x⟩
      | .ok d' => writeDispatch e fd (.int t) d' := by unfold writeBody; rw [ht]; rfl
  cases hc : cleanData d with
  | error x =>
    rw [hc] at hb
    rw [hb]
    exact ⟨fun a h _ => (nomatch h), fun _ _ => .inl rfl⟩
  | ok d' =>
    rw [hc] at hb
    simp only at hb
    rw [hb]
    obtain ⟨h1, h2⟩ := frames_dispatch e fd t hs d'
    constructor
    · intro a ha hn
      have hcl : t = 2414 → Closing d' := by
        rintro rfl v x hv hx
        rw [cleanData_get hc _ (by decide)] at hv hx
        by_cases h5 : v.numEq 5 = true
        · refine .inr ?_
          cases hx5 : x.numEq 5 with
          | true => rfl
          | false => exact absurd ⟨ht, v, x, hv, hx, h5, hx5⟩ hn
        · exact .inl (by simpa using h5)
      obtain ⟨mid, hm⟩ := h1 a hcl ha
      unfold added
      rw [ha, hm]
      cases a with
      | none => exact ⟨encode mid, by simp only [encode_append, endOf, tail_bytes]⟩
      | some p => exact ⟨encode mid ++ p, by simp only [encode_append, endOf, tail_bytes, List.append_assoc]; rfl⟩
    · intro x hx
      have := h2 ⟨x, hx⟩
      unfold added
      rw [hx]
      rcases this with h | ⟨mid, h⟩
      · left; simp only [h]; rfl
      · exact .inr ⟨encode mid, by simp only [h, encode_append]⟩

/-! ### The delimiters of framed bytes -/

theorem framed_length {n : Int} {b : Bytes} (hs : n ∈ supported) (h : FramedAs n b) : ∃ mid, b.length = 13 + mid + 7 := by
  obtain ⟨mid, rfl⟩ := h
  refine ⟨mid.length, ?_⟩
  have : ∀ n ∈ supported, (encode (opening n.toNat)).length = 13 := by decide +kernel
  simp [this n hs]; omega

/-- The opening, byte by byte. -/
theorem opening_bytes (n : Int) (hs : n ∈ supported) : ∃ t : Bytes, t.length = 6 ∧
    encode (opening n.toNat) = delimBytes ++ 10 :: t ∧ parseIntB t = some n ∧ t[5]? ≠ some 32 ∧ ∀ b ∈ t, b ≠ 10 ∧ b ≠ 13 ∧ b ≠ 45 := by
  have : ∀ n ∈ supported, (encode (opening n.toNat)).take 7 = delimBytes ++ [10] ∧
      ((encode (opening n.toNat)).drop 7).length = 6 ∧ parseIntB ((encode (opening n.toNat)).drop 7) = some n ∧
      ((encode (opening n.toNat)).drop 7)[5]? ≠ some 32 ∧ ∀ b ∈ (encode (opening n.toNat)).drop 7, b ≠ 10 ∧ b ≠ 13 ∧ b ≠ 45 := by decide +kernel
  obtain ⟨h1, h2, h3, h4, h5⟩ := this n hs
  refine ⟨_, h2, ?_, h3, h4, h5⟩
  conv => lhs; rw [← List.take_append_drop 7 (encode (opening n.toNat)), h1]
  simp

theorem delim_first {n : Int} {b : Bytes} (hs : n ∈ supported) (h : FramedAs n b) : DelimAt b 0 := by
  obtain ⟨mid, rfl⟩ := h
  obtain ⟨t, ht, he, -, -, -⟩ := opening_bytes n hs
  rw [he]
  refine ⟨fun j hj => ?_, .inr (.inl ?_)⟩
  · rw [Nat.zero_add, List.append_assoc, List.getElem?_append_left (by simpa [delimBytes] using hj)]
  · simp [delimBytes]

theorem delim_last {n : Int} {b : Bytes} (h : FramedAs n b) : DelimAt b (b.length - 7) := by
  obtain ⟨mid, rfl⟩ := h
  generalize encode (opening n.toNat) = o
  rw [← List.append_assoc]
  generalize o ++ mid = l
  have e : (l ++ [32, 32, 32, 32, 45, 49, 10]).length - 7 = l.length := by simp
  rw [e]
  refine ⟨fun j hj => ?_, .inr (.inl ?_)⟩
  · rw [List.getElem?_append_right (by omega)]
    have : l.length + j - l.length = j := by omega
    rw [this]
    match j, hj with
    | 0, _ | 1, _ | 2, _ | 3, _ | 4, _ | 5, _ => rfl
  · rw [List.getElem?_append_right (by omega)]
    have : l.length + 6 - l.length = 6 := by omega
    rw [this]; rfl

/-- No delimiter begins inside the opening. -/
theorem delim_second {n : Int} {b : Bytes} (hs : n ∈ supported) (h : FramedAs n b) {i : Nat} (hi : DelimAt b i) (h0 : 0 < i) :
    13 ≤ i := by
  obtain ⟨mid, rfl⟩ := h
  obtain ⟨t, ht, he, -, h6, hb⟩ := opening_bytes n hs
  rw [he] at hi
  by_contra hlt
  match t, ht with
  | [a, b, c, d, e, f], _ =>
    simp only [List.mem_cons, List.not_mem_nil, or_false, forall_eq_or_imp, forall_eq] at hb
    have h4 := hi.1 4 (by omega)
    have h3 := hi.1 3 (by omega)
    have h2 := hi.1 2 (by omega)
    have h1 := hi.1 1 (by omega)
    have h0' := hi.1 0 (by omega)
    have hi' : i = 1 ∨ i = 2 ∨ i = 3 ∨ i = 4 ∨ i = 5 ∨ i = 6 ∨ i = 7 ∨ i = 8 ∨ i = 9 ∨ i = 10 ∨ i = 11 ∨ i = 12 := by omega
    rcases hi' with rfl | rfl | rfl | rfl | rfl | rfl | rfl | rfl | rfl | rfl | rfl | rfl <;>
      simp_all [delimBytes]

theorem delims_framed {n : Int} {b : Bytes} (hs : n ∈ supported) (h : FramedAs n b) :
    ∃ p l, delims b = 0 :: p :: l ∧ 13 ≤ p ∧ p < b.length := by
  obtain ⟨m, hm⟩ := framed_length hs h
  have hl : b.length = (b.length - 1) + 1 := by omega
  have e : delims b = 0 :: ((List.range (b.length - 1)).map Nat.succ).filter fun i => DelimAt b i := by
    unfold delims
    rw [hl, List.range_succ_eq_map, List.filter_cons, if_pos (by simpa using delim_first hs h)]
    rfl
  have hin : b.length - 7 ∈ ((List.range (b.length - 1)).map Nat.succ).filter fun i => DelimAt b i := by
    refine List.mem_filter.2 ⟨List.mem_map.2 ⟨b.length - 8, List.mem_range.2 (by omega), by omega⟩, ?_⟩
    simpa using delim_last h
  cases hr : ((List.range (b.length - 1)).map Nat.succ).filter fun i => DelimAt b i with
  | nil => rw [hr] at hin; cases hin
  | cons p l =>
    have hp : p ∈ ((List.range (b.length - 1)).map Nat.succ).filter fun i => DelimAt b i := by rw [hr]; simp
    obtain ⟨h1, h2⟩ := List.mem_filter.1 hp
    obtain ⟨q, hq, rfl⟩ := List.mem_map.1 h1
    have := List.mem_range.1 hq
    exact ⟨_, l, by rw [e, hr], delim_second hs h (by simpa using h2) (by omega), by omega⟩

/-- At least one data-set. -/
theorem count_framed {n : Int} {b : Bytes} (hs : n ∈ supported) (h : FramedAs n b) : 1 ≤ setCount b := by
  obtain ⟨p, l, e, -, -⟩ := delims_framed hs h
  unfold setCount
  rw [e]
  simp only [List.length_cons]
  omega

theorem terminated_framed {n : Int} {b : Bytes} (h : FramedAs n b) : Terminated b := by
  obtain ⟨mid, rfl⟩ := h
  right
  simp

/-! ### The type of the first data-set -/

/-- `bytes.splitlines()` with a line already begun. -/
def linesFrom (acc r : Bytes) : List Bytes := splitLinesGen 13 10 (fun c : UInt8 => c == 10 || c == 13) false acc r

theorem linesFrom_step (acc : Bytes) (c : UInt8) (r : Bytes) (h : c ≠ 10 ∧ c ≠ 13) :
    linesFrom acc (c :: r) = linesFrom (c :: acc) r := by
  have hb : (c == 10 || c == 13) = false := by simp [h.1, h.2]
  unfold linesFrom
  cases r with
  | nil => simp [splitLinesGen, hb]
  | cons d cs =>
    rw [splitLinesGen, if_neg (fun x => h.2 x.1), if_neg (by rw [hb]; decide)]

theorem linesFrom_begun (r : Bytes) : ∀ acc, acc ≠ [] → ∃ l ls, linesFrom acc r = l :: ls ∧ acc.reverse <+: l := by
  induction r with
  | nil =>
    intro acc h
    exact ⟨acc.reverse, [], by simp [linesFrom, splitLinesGen, h], List.prefix_refl _⟩
  | cons c r ih =>
    intro acc h
    by_cases hc : c ≠ 10 ∧ c ≠ 13
    · rw [linesFrom_step acc c r hc]
      obtain ⟨l, ls, e, hp⟩ := ih (c :: acc) (by simp)
      refine ⟨l, ls, e, List.IsPrefix.trans ?_ hp⟩
      simp
    · have hb : (c == 10 || c == 13) = true := by
        simp only [ne_eq, not_and_or, not_not] at hc
        rcases hc with rfl | rfl <;> rfl
      unfold linesFrom
      cases r with
      | nil => exact ⟨acc.reverse, [], by simp [splitLinesGen, hb], List.prefix_refl _⟩
      | cons d cs =>
        rw [splitLinesGen]
        split
        · exact ⟨_, _, rfl, List.prefix_refl _⟩
        · exact ⟨_, _, rfl, List.prefix_refl _⟩

theorem linesFrom_append (t : Bytes) : ∀ acc r, (∀ b ∈ t, b ≠ 10 ∧ b ≠ 13) →
    linesFrom acc (t ++ r) = linesFrom (t.reverse ++ acc) r := by
  induction t with
  | nil => intro acc r _; rfl
  | cons c t ih =>
    intro acc r h
    rw [List.cons_append, linesFrom_step _ _ _ (h c (by simp)), ih _ _ (fun b hb => h b (by simp [hb]))]
    simp

/-- Bytes that begin with the opening of a supported type are of that type. -/
theorem typeIs_opening (n : Int) (hs : n ∈ supported) (r : Bytes) : TypeIs (encode (opening n.toNat) ++ r) n := by
  obtain ⟨t, ht, he, hp, -, hb⟩ := opening_bytes n hs
  rw [he, List.append_assoc, List.cons_append]
  have h1 : splitLinesB (delimBytes ++ 10 :: (t ++ r)) = delimBytes :: splitLinesB (t ++ r) :=
    splitLinesB_line _ _ (by decide)
  have h2 : splitLinesB (t ++ r) = linesFrom (t.reverse ++ []) r :=
    linesFrom_append t [] r (fun b h => ⟨(hb b h).1, (hb b h).2.1⟩)
  obtain ⟨l, ls, e, x, hx⟩ := linesFrom_begun r (t.reverse ++ []) (by
    intro h; rw [List.append_nil, List.reverse_eq_nil_iff] at h; rw [h] at ht; simp at ht)
  left
  refine ⟨l, by rw [h1, h2, e]; rfl, .inl ?_⟩
  rw [← hx]
  simp only [List.append_nil, List.reverse_reverse]
  rw [← ht, List.take_left, hp]

theorem first_framed {n : Int} {b : Bytes} (hs : n ∈ supported) (h : FramedAs n b) : TypeIs (setBytes b 0) n := by
  obtain ⟨p, l, e, hp, hpl⟩ := delims_framed hs h
  have e0 : delimPos b (2 * 0) = 0 := by unfold delimPos; rw [e]; rfl
  have e1 : delimPos b (2 * 0 + 1) = p := by unfold delimPos; rw [e]; rfl
  unfold setBytes
  rw [e0, e1, List.drop_zero]
  obtain ⟨mid, rfl⟩ := h
  have h13 : (encode (opening n.toNat)).length = 13 := by
    have : ∀ n ∈ supported, (encode (opening n.toNat)).length = 13 := by decide +kernel
    exact this n hs
  rw [List.take_append, List.take_of_length_le (by omega)]
  exact typeIs_opening n hs _

end Verif
