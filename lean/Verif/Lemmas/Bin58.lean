import Verif.Lemmas.Num58
import Verif.Spec.S58
/-
Bytes: packed doubles, a payload inside a frame, the columns of the values.
-/
namespace Verif

theorem everyN_short {α : Type} (step k : Nat) (l : List α) (a : α) (hl : l.length ≤ step) (h : l[k]? = some a) :
    everyN k step l = [a] := by
  unfold everyN
  have := everyAux_hit step l [] k a h
  rw [List.append_nil, List.append_nil] at this
  rw [this]
  have hk : k < l.length := by
    rcases Nat.lt_or_ge k l.length with h' | h'
    · exact h'
    · rw [List.getElem?_eq_none h'] at h; simp at h
  have e := everyAux_skip step (l.drop (k + 1)) [] (step - 1) (by rw [List.length_drop]; omega)
  rw [List.append_nil] at e
  rw [e]
  simp [everyAux]

/-- A column of rows, the last row cut short (`v[:-1:2]`). -/
theorem everyN_take {α β : Type} (step k j : Nat) (hj : k + j < step) (rows : List β) (f : β → List α) (g : β → α)
    (hl : ∀ r, (f r).length = step) (h : ∀ r, (f r)[k]? = some (g r)) :
    everyN k step ((rows.flatMap f).take ((rows.flatMap f).length - j)) = rows.map g := by
  induction rows with
  | nil => simp [everyN, everyAux]
  | cons a r ih =>
    cases r with
    | nil =>
      simp only [List.flatMap_cons, List.flatMap_nil, List.append_nil, List.map_cons, List.map_nil]
      apply everyN_short
      · rw [List.length_take, hl]; omega
      · rw [List.getElem?_take_of_lt (by rw [hl]; omega), h]
    | cons b r =>
      have hge : step ≤ ((b :: r).flatMap f).length := by
        rw [List.flatMap_cons, List.length_append, hl]; omega
      rw [List.flatMap_cons (x := a), List.map_cons, List.length_append, List.take_append, hl a,
        List.take_of_length_le (by rw [hl]; omega), everyN_block step k (f a) _ (g a) (hl a) (h a)]
      congr 1
      rw [← ih]
      congr 2
      omega

theorem leBytes_length (k b : Nat) : (leBytes k b).length = k := by
  induction k generalizing b with
  | zero => rfl
  | succ k ih => simp [leBytes, ih]

theorem beNat_leBytes (k b : Nat) : beNat (leBytes k b).reverse = b % 256 ^ k := by
  induction k generalizing b with
  | zero => simp [leBytes, beNat, Nat.mod_one]
  | succ k ih =>
    have h := ih (b / 256)
    unfold beNat at h ⊢
    simp only [leBytes, List.reverse_cons, List.foldl_append, List.foldl_cons, List.foldl_nil]
    rw [h, toNat_ofNat_u8 _ (Nat.mod_lt _ (by decide)), Nat.pow_succ, Nat.mul_comm (256 ^ k) 256, Nat.mod_mul]
    omega

theorem F64.bits_lt (x : F64) : x.bits < 2 ^ 64 := by
  have := x.lt
  unfold F64.bits
  cases x.neg <;> simp <;> omega

theorem F64.ofBits_bits (x : F64) : F64.ofBits x.bits = x := by
  obtain ⟨n, m, h⟩ := x
  have h64 : (F64.bits ⟨n, m, h⟩) % 2 ^ 64 = F64.bits ⟨n, m, h⟩ := Nat.mod_eq_of_lt (F64.bits_lt _)
  unfold F64.ofBits
  simp only [h64]
  cases n with
  | false =>
    have e : F64.bits ⟨false, m, h⟩ = m := by simp [F64.bits]
    simp only [e, F64.mk.injEq]
    exact ⟨by simp; omega, Nat.mod_eq_of_lt h⟩
  | true =>
    have e : F64.bits ⟨true, m, h⟩ = 2 ^ 63 + m := by simp [F64.bits]
    simp only [e, F64.mk.injEq]
    exact ⟨by simp, by rw [Nat.add_mod_left, Nat.mod_eq_of_lt h]⟩

theorem pack64_length (little : Bool) (x : F64) : (pack64 little x).length = 8 := by
  cases little <;> simp [pack64, leBytes_length]

theorem unpack_pack (little : Bool) (x : F64) :
    F64.ofBits (beNat (if little then (pack64 little x).reverse else pack64 little x)) = x := by
  have h : beNat (leBytes 8 x.bits).reverse = x.bits := by
    rw [beNat_leBytes]; exact Nat.mod_eq_of_lt (F64.bits_lt x)
  cases little <;> simp only [pack64, if_true, if_false, Bool.false_eq_true] <;> rw [h, F64.ofBits_bits]

/-- Binary values are read back bit for bit. -/
theorem binValues_pack (little : Bool) (xs : List F64) : binValues little false (xs.flatMap (pack64 little)) = xs := by
  unfold binValues byteGroups
  have hl := length_flatMap_const 8 xs (pack64 little) (pack64_length little)
  rw [if_neg (by decide), hl, Nat.mul_div_cancel_left _ (by decide), List.map_map]
  apply List.ext_getElem
  · simp
  · intro i h1 h2
    rw [List.getElem_map, List.getElem_range]
    simp only [Function.comp, Nat.mul_add, Nat.mul_one]
    rw [slice_flatMap 8 xs _ (fun a _ => pack64_length little a) i h2]
    exact unpack_pack little _

theorem payload_eq (little : Bool) (r : DS58) : DS58.payload little r = r.stored.flatMap (pack64 little) := by
  unfold DS58.payload
  apply flatMap_congr'
  intro x _
  have e : (List.range 8).map (fun i => UInt8.ofNat (x.bits / 256 ^ i % 256)) = leBytes 8 x.bits := by
    simp only [List.range, List.range.loop, List.map_cons, List.map_nil, leBytes, Nat.div_div_eq_div_mul]
    norm_num
  simp only [e, pack64]

/-! ### Lines of bytes -/

theorem splitLinesGen_flatten {α : Type} [DecidableEq α] (cr lf : α) (brk : α → Bool) (acc t : List α) :
    (splitLinesGen cr lf brk true acc t).flatten = acc.reverse ++ t := by
  induction acc, t using splitLinesGen.induct cr lf brk with
  | case1 acc h => simp [splitLinesGen, List.isEmpty_iff.1 h]
  | case2 acc h => simp [splitLinesGen, h]
  | case3 acc c h => simp [splitLinesGen, h]
  | case4 acc c h => simp [splitLinesGen, h]
  | case5 acc c d cs h ih => simp [splitLinesGen, h, ih]
  | case6 acc c d cs h hb ih => simp [splitLinesGen, h, hb, ih]
  | case7 acc c d cs h hb ih => simp [splitLinesGen, h, hb, ih]

theorem splitLinesKeepB_flatten (b : Bytes) : (splitLinesKeepB b).flatten = b := by
  unfold splitLinesKeepB
  rw [splitLinesGen_flatten]; rfl

theorem splitLinesKeepB_line (l r : Bytes) (h : ∀ b ∈ l, b ≠ 10 ∧ b ≠ 13) :
    splitLinesKeepB (l ++ 10 :: r) = (l ++ [10]) :: splitLinesKeepB r := by
  unfold splitLinesKeepB
  have := splitLinesGen_line (13 : UInt8) 10 (fun c => c == 10 || c == 13) true (by decide) (by decide)
    (by decide) l [] r (by intro c hc; have := h c hc; simp [this.1, this.2])
  rw [this]
  simp

theorem splitLinesKeepB_lines (ls : List Text) (h : ∀ l ∈ ls, NoBreak l) (p : Bytes) :
    splitLinesKeepB (encode (joinLines ls) ++ p) = ls.map (fun l => encode (l ++ ['\n'])) ++ splitLinesKeepB p := by
  induction ls with
  | nil => rfl
  | cons l ls ih =>
    rw [joinLines_cons, show l ++ '\n' :: joinLines ls = l ++ (['\n'] ++ joinLines ls) by simp, encode_append,
      encode_append, encode_LF, List.append_assoc, List.append_assoc, List.singleton_append,
      splitLinesKeepB_line _ _ (encode_noLF l (h l (by simp))), ih fun l hl => h l (by simp [hl])]
    simp [encode_append, encode_LF]

theorem joinLines_encode (ls : List Text) :
    (ls.map fun l => encode (l ++ ['\n'])).flatten = encode (joinLines ls) := by
  induction ls with
  | nil => rfl
  | cons l ls ih =>
    rw [joinLines_cons, show l ++ '\n' :: joinLines ls = (l ++ ['\n']) ++ joinLines ls by simp, encode_append]
    simp [ih]

/-! ### A payload inside a frame -/

theorem tags_payload (p : Bytes) (h : ¬ tagPat <:+: p) (i : Nat) :
    tagsFrom i (p ++ (tagPat ++ [10])) = [i + p.length] := by
  induction p generalizing i with
  | nil => exact tags_tagLine i
  | cons c p ih =>
    have hn : ¬ isTag (c :: p ++ (tagPat ++ [10])) := by
      intro ht
      have hp := ht.1
      rcases Nat.lt_or_ge (c :: p).length 6 with hlt | hge
      · -- the pattern would overlap the closing delimiter
        have h1 : tagPat.drop (c :: p).length <+: (tagPat ++ [10]) := by
          obtain ⟨s, hs⟩ := hp
          refine ⟨s, ?_⟩
          have e := congrArg (List.drop (c :: p).length) hs
          rw [List.drop_append_of_le_length (by show _ ≤ 6; omega), List.drop_left] at e
          exact e
        have hk : 1 ≤ (c :: p).length := by simp
        generalize (c :: p).length = k at h1 hlt hk
        have key : ∀ k < 6, 1 ≤ k → ¬ tagPat.drop k <+: (tagPat ++ [10]) := by decide
        exact key k hlt hk h1
      · apply h
        have : tagPat <+: (c :: p) := by
          apply List.prefix_of_prefix_length_le hp (List.prefix_append _ _)
          exact hge
        exact this.isInfix
    have hp' : ¬ tagPat <:+: p := fun hi => h (hi.trans (List.suffix_cons c p).isInfix)
    show (if isTag (c :: p ++ (tagPat ++ [10])) then [i] else []) ++ tagsFrom (i + 1) (p ++ (tagPat ++ [10])) = _
    rw [if_neg hn, ih hp']
    simp; omega

/-- A block of bytes as `refresh` sees it: alone between delimiters, of the given type. -/
structure Framed (n : Int) (block : Bytes) : Prop where
  /-- The only delimiters are the opening and the closing one. -/
  tags : tagsFrom 0 (block ++ (tagPat ++ [10])) = [0, block.length]
  type : blockType block = n

theorem framed_text (n : Int) (idl : Text) (rest : List Text) (h : Safe (idl :: rest))
    (ht : (parseIntB ((encode idl).take 6)).getD 0 = n) : Framed n (encode (blockText (idl :: rest))) := by
  constructor
  · have := tags_frame (idl :: rest) h 0
    rw [frameText_eq, encode_append, encode_append, encode_tagText, encode_LF, Nat.zero_add] at this
    exact this
  · rw [blockType_block _ _ (h idl (by simp)).1, ht]

theorem blockType_payload (idl : Text) (rest : List Text) (h : NoBreak idl) (p : Bytes) :
    blockType (encode (blockText (idl :: rest)) ++ p) = (parseIntB ((encode idl).take 6)).getD 0 := by
  have e : encode (blockText (idl :: rest)) ++ p
      = tagPat ++ 10 :: (encode idl ++ 10 :: (encode (joinLines rest) ++ p)) := by
    unfold blockText
    rw [joinLines_cons, joinLines_cons, show tagText ++ '\n' :: (idl ++ '\n' :: joinLines rest)
      = tagText ++ (['\n'] ++ (idl ++ (['\n'] ++ joinLines rest))) by simp]
    simp only [encode_append, encode_tagText, encode_LF]; simp
  unfold blockType
  rw [e, splitLinesB_line _ _ (by decide), splitLinesB_line _ _ (encode_noLF idl h)]
  rfl

theorem framed_payload (n : Int) (idl : Text) (rest : List Text) (h : Safe (idl :: rest))
    (ht : (parseIntB ((encode idl).take 6)).getD 0 = n) (p : Bytes) (hp : ¬ tagPat <:+: p) :
    Framed n (encode (blockText (idl :: rest)) ++ p) := by
  constructor
  · have hE : EndsLF (encode (blockText (idl :: rest))) := by
      rcases endsLF_joinLines (tagText :: idl :: rest) with h0 | h0
      · simp [joinLines] at h0
      · exact h0
    rw [List.append_assoc, tagsFrom_append _ _ (Or.inr hE), tags_payload p hp]
    have h1 := tags_frame (idl :: rest) h 0
    rw [frameText_eq, encode_append, encode_append, encode_tagText, encode_LF, Nat.zero_add,
      tagsFrom_append _ _ (Or.inr hE), tags_tagLine] at h1
    have h2 : tagsFrom 0 (encode (blockText (idl :: rest))) = [0] := by
      have e : ([0, (encode (blockText (idl :: rest))).length] : List Nat)
        = [0] ++ [0 + (encode (blockText (idl :: rest))).length] := by simp
      rw [e] at h1
      exact List.append_cancel_right h1
    rw [h2]
    simp
  · rw [blockType_payload _ _ (h idl (by simp)).1, ht]

end Verif
