import Verif.Lemmas.Crlf1
import Verif.Lemmas.Frame
/-
Texts with CR LF: decoding, lines, tokens, header fields.
-/
namespace Verif

/-- The text with a carriage return before every line feed. -/
def crlfT (t : Text) : Text := t.flatMap fun c => if c = '\n' then ['\r', '\n'] else [c]

theorem crlfT_nil : crlfT [] = [] := rfl
theorem crlfT_lf (r : Text) : crlfT ('\n' :: r) = '\r' :: '\n' :: crlfT r := rfl
theorem crlfT_other {c : Char} (h : c ≠ '\n') (r : Text) : crlfT (c :: r) = c :: crlfT r := by
  simp [crlfT, List.flatMap_cons, h]
theorem crlfT_append (a b : Text) : crlfT (a ++ b) = crlfT a ++ crlfT b := by simp [crlfT]

theorem crlfT_flatten (ls : List Text) : crlfT ls.flatten = (ls.map crlfT).flatten := by
  induction ls with
  | nil => rfl
  | cons l r ih => simp only [List.flatten_cons, List.map_cons, crlfT_append, ih]

/-! ### Lines -/
section
variable {α : Type} [DecidableEq α] {cr lf : α} {brk : α → Bool}

/-- The same on any list. -/
def eolG (cr lf : α) (s : List α) : List α := s.flatMap fun c => if c = lf then [cr, lf] else [c]

theorem eolG_id {s : List α} (h : lf ∉ s) : eolG cr lf s = s := by
  induction s with
  | nil => rfl
  | cons c r ih =>
    rw [List.mem_cons, not_or] at h
    have : c ≠ lf := fun e => h.1 e.symm
    unfold eolG at ih ⊢
    rw [List.flatMap_cons, ih h.2]
    simp [this]

theorem splitGen_brk {c : α} (hc : brk c = true) (hne : c ≠ cr) (keep : Bool) (acc t : List α) :
    splitLinesGen cr lf brk keep acc (c :: t)
      = (if keep then (c :: acc).reverse else acc.reverse) :: splitLinesGen cr lf brk keep [] t := by
  cases t with
  | nil => simp [splitLinesGen, hc]
  | cons d t => rw [splitLinesGen, if_neg (fun h => hne h.1), if_pos hc]

theorem splitGen_eol (hcr : brk cr = true) (hlf : brk lf = true) (hne : lf ≠ cr) (keep : Bool) (s : List α)
    (hs : cr ∉ s) (acc : List α) (ha : lf ∉ acc) :
    splitLinesGen cr lf brk keep acc (eolG cr lf s)
      = (splitLinesGen cr lf brk keep acc s).map (if keep then eolG cr lf else id) := by
  induction s generalizing acc with
  | nil =>
    show splitLinesGen cr lf brk keep acc [] = _
    unfold splitLinesGen
    by_cases h : acc.isEmpty = true
    · rw [if_pos h]; rfl
    · rw [if_neg h]
      cases keep
      · rfl
      · simp only [if_true, List.map_cons, List.map_nil]
        rw [eolG_id (by simpa using ha)]
  | cons c t ih =>
    rw [List.mem_cons, not_or] at hs
    have ih := ih hs.2
    have hccr : c ≠ cr := fun e => hs.1 e.symm
    by_cases h : c = lf
    · subst h
      have e : eolG cr c (c :: t) = cr :: c :: eolG cr c t := by simp [eolG]
      rw [e, splitGen_brk hlf hne, splitLinesGen, if_pos ⟨rfl, rfl⟩, ih [] (by simp), List.map_cons]
      congr 1
      cases keep
      · rfl
      · simp only [if_true, List.reverse_cons]
        have : eolG cr c (acc.reverse ++ [c]) = eolG cr c acc.reverse ++ [cr, c] := by
          unfold eolG; rw [List.flatMap_append]; simp
        rw [this, eolG_id (by simpa using ha)]
        simp
    · have e : eolG cr lf (c :: t) = c :: eolG cr lf t := by simp [eolG, h]
      rw [e]
      by_cases hb : brk c = true
      · rw [splitGen_brk hb hccr, splitGen_brk hb hccr, ih [] (by simp), List.map_cons]
        congr 1
        cases keep
        · rfl
        · simp only [if_true]
          rw [eolG_id]
          simp only [List.reverse_cons, List.mem_append, List.mem_reverse, List.mem_singleton, not_or]
          exact ⟨ha, fun e => h e.symm⟩
      · have hb : brk c = false := by simpa using hb
        rw [splitLinesGen_cons_noBrk cr lf brk keep hcr _ _ _ hb, splitLinesGen_cons_noBrk cr lf brk keep hcr _ _ _ hb, ih (c :: acc)]
        simp only [List.mem_cons, not_or]
        exact ⟨fun e => h e.symm, ha⟩

/-- A line feed occurs only at the end of a line. -/
theorem splitGen_last (hcr : brk cr = true) (hlf : brk lf = true) (s : List α)
    (hs : cr ∉ s) (acc : List α) (ha : lf ∉ acc) :
    ∀ l ∈ splitLinesGen cr lf brk true acc s, lf ∉ l ∨ ∃ c, lf ∉ c ∧ l = c ++ [lf] := by
  induction s generalizing acc with
  | nil =>
    intro l hl
    unfold splitLinesGen at hl
    by_cases h : acc.isEmpty = true
    · rw [if_pos h] at hl; cases hl
    · rw [if_neg h, List.mem_singleton] at hl
      subst hl
      left; simpa using ha
  | cons c t ih =>
    rw [List.mem_cons, not_or] at hs
    have hccr : c ≠ cr := fun e => hs.1 e.symm
    intro l hl
    by_cases hb : brk c = true
    · rw [splitGen_brk hb hccr, List.mem_cons] at hl
      rcases hl with rfl | hl
      · simp only [if_true, List.reverse_cons]
        by_cases h : c = lf
        · right; exact ⟨acc.reverse, by simpa using ha, by rw [h]⟩
        · left
          simp only [List.mem_append, List.mem_reverse, List.mem_singleton, not_or]
          exact ⟨ha, fun e => h e.symm⟩
      · exact ih hs.2 [] (by simp) l hl
    · have hb : brk c = false := by simpa using hb
      rw [splitLinesGen_cons_noBrk cr lf brk true hcr _ _ _ hb] at hl
      refine ih hs.2 (c :: acc) ?_ l hl
      simp only [List.mem_cons, not_or]
      exact ⟨fun e => (by rw [← e, hlf] at hb; cases hb), ha⟩
end

/-- A line feed at most at the end. -/
def EolEnd (l : Text) : Prop := '\n' ∉ l ∨ ∃ c, '\n' ∉ c ∧ l = c ++ ['\n']

theorem lines_end (t : Text) (h : '\r' ∉ t) : ∀ l ∈ splitLinesKeep t, EolEnd l :=
  splitGen_last (by decide) (by decide) t h [] (by simp)

theorem splitLinesKeep_crlf (t : Text) (h : '\r' ∉ t) : splitLinesKeep (crlfT t) = (splitLinesKeep t).map crlfT :=
  splitGen_eol (by decide) (by decide) (by decide) true t h [] (by simp)

theorem splitLines_crlf (t : Text) (h : '\r' ∉ t) : splitLines (crlfT t) = splitLines t := by
  have := splitGen_eol (cr := '\r') (lf := '\n') (brk := isBreak) (by decide) (by decide) (by decide) false t h [] (by simp)
  have e : (if false = true then eolG '\r' '\n' else id : Text → Text) = id := rfl
  rw [e, List.map_id] at this
  exact this

theorem splitLinesKeepB_crlf (b : Bytes) (h : NoCr b) : splitLinesKeepB (crlf b) = (splitLinesKeepB b).map crlf :=
  splitGen_eol (by decide) (by decide) (by decide) true b (fun hc => h 13 hc rfl) [] (by simp)

theorem splitLinesB_crlf (b : Bytes) (h : NoCr b) : splitLinesB (crlf b) = splitLinesB b := by
  have := splitGen_eol (cr := 13) (lf := 10) (brk := fun c : UInt8 => c == 10 || c == 13) (by decide) (by decide) (by decide)
    false b (fun hc => h 13 hc rfl) [] (by simp)
  have e : (if false = true then eolG 13 10 else id : Bytes → Bytes) = id := rfl
  rw [e, List.map_id] at this
  exact this

theorem blockType_crlf (b : Bytes) (h : NoCr b) : blockType (crlf b) = blockType b := by
  unfold blockType; rw [splitLinesB_crlf b h]

/-! ### Tokens -/

theorem splitWsAux_crlf (acc t : Text) : splitWsAux acc (crlfT t) = splitWsAux acc t := by
  induction t generalizing acc with
  | nil => rfl
  | cons c r ih =>
    by_cases h : c = '\n'
    · subst h
      rw [crlfT_lf]
      have a : isSpace '\r' = true := by decide
      have b : isSpace '\n' = true := by decide
      simp only [splitWsAux, a, b, if_true, List.isEmpty_nil, ih]
    · rw [crlfT_other h]
      simp only [splitWsAux, ih]

theorem splitWs_crlf (t : Text) : splitWs (crlfT t) = splitWs t := splitWsAux_crlf [] t

/-! ### Header fields -/

theorem crlfT_end {l : Text} (h : EolEnd l) : ∃ c a b, l = c ++ a ∧ crlfT l = c ++ b ∧ (∀ x ∈ a, isSpace x = true) ∧
    (∀ x ∈ b, isSpace x = true) := by
  have hid : ∀ c : Text, '\n' ∉ c → crlfT c = c := fun c hc => eolG_id (cr := '\r') hc
  rcases h with h | ⟨c, hc, rfl⟩
  · exact ⟨l, [], [], by simp, by rw [hid l h]; simp, by simp, by simp⟩
  · exact ⟨c, ['\n'], ['\r', '\n'], rfl, by rw [crlfT_append, hid c hc]; rfl, by decide, by decide⟩

/-- The same, with blanks that `int()` and `float()` skip. -/
theorem crlfT_numEnd {l : Text} (h : EolEnd l) : ∃ c a b, l = c ++ a ∧ crlfT l = c ++ b ∧ (∀ x ∈ a, isNumSpace x = true) ∧
    (∀ x ∈ b, isNumSpace x = true) := by
  have hid : ∀ c : Text, '\n' ∉ c → crlfT c = c := fun c hc => eolG_id (cr := '\r') hc
  rcases h with h | ⟨c, hc, rfl⟩
  · exact ⟨l, [], [], by simp, by rw [hid l h]; simp, by simp, by simp⟩
  · exact ⟨c, ['\n'], ['\r', '\n'], rfl, by rw [crlfT_append, hid c hc]; rfl, by decide, by decide⟩

theorem numStrip_slice (c a : Text) (h : ∀ x ∈ a, isNumSpace x = true) (i j : Nat) :
    numStrip (slice (c ++ a) i j) = numStrip (slice c i j) := by
  unfold slice
  rw [List.drop_append, List.take_append]
  exact numStrip_append_right _ _ fun x hx => h x (List.drop_subset _ _ (List.take_subset _ _ hx))

theorem strip_slice (c a : Text) (h : ∀ x ∈ a, isSpace x = true) (i j : Nat) :
    strip (slice (c ++ a) i j) = strip (slice c i j) := by
  unfold slice
  rw [List.drop_append, List.take_append]
  exact strip_append_right _ _ fun x hx => h x (List.drop_subset _ _ (List.take_subset _ _ hx))

theorem cutFields_spaces (c a b : Text) (ha : ∀ x ∈ a, isSpace x = true) (hb : ∀ x ∈ b, isSpace x = true) (si : Nat)
    (ws : List Nat) : cutFields (c ++ a) si ws = cutFields (c ++ b) si ws := by
  induction ws generalizing si with
  | nil => rfl
  | cons w ws ih => simp only [cutFields]; rw [strip_slice c a ha, strip_slice c b hb, ih]

theorem parseHeader_spaces (c a b : Text) (ha : ∀ x ∈ a, isSpace x = true) (hb : ∀ x ∈ b, isSpace x = true) (m : Nat)
    (ws : List Nat) (tys : List FTy) (ks : List Key) : parseHeader (c ++ a) m ws tys ks = parseHeader (c ++ b) m ws tys ks := by
  have key : ∀ d : Text, (∀ x ∈ d, isSpace x = true) →
      cutFields (if (c ++ d).length < 80 then c ++ d ++ blanks (80 - (c ++ d).length) else c ++ d) 0 ws = cutFields c 0 ws := by
    intro d hd
    have h0 : cutFields c 0 ws = cutFields (c ++ []) 0 ws := by rw [List.append_nil]
    split
    · rw [List.append_assoc, h0]
      refine cutFields_spaces c _ _ (fun x hx => ?_) (by simp) 0 ws
      rcases List.mem_append.1 hx with hx | hx
      · exact hd x hx
      · exact isSpace_replicate _ x hx
    · rw [h0]; exact cutFields_spaces c _ _ hd (by simp) 0 ws
  unfold parseHeader
  simp only
  rw [key a ha, key b hb]

theorem parseHeader_crlf {l : Text} (h : EolEnd l) (m : Nat) (ws : List Nat) (tys : List FTy) (ks : List Key) :
    parseHeader (crlfT l) m ws tys ks = parseHeader l m ws tys ks := by
  obtain ⟨c, a, b, h1, h2, ha, hb⟩ := crlfT_end h
  rw [h2, h1]
  exact parseHeader_spaces c b a hb ha m ws tys ks

/-! ### Decoding -/

theorem ofNat_low {n : Nat} (c : Char) (hc : c.toNat < 0x80) (h0 : c ≠ Char.ofNat 0) (hn : 0x80 ≤ n) : c ≠ Char.ofNat n := by
  intro e
  by_cases hv : n.isValidChar
  · have : (Char.ofNat n).toNat = n := by
      unfold Char.ofNat
      rw [dif_pos hv]; rfl
    rw [e, this] at hc
    omega
  · apply h0
    rw [e]
    unfold Char.ofNat
    rw [dif_neg hv]; rfl

/-- The first character, and how many bytes it takes besides the first. -/
def decStep (b0 : UInt8) (r0 : Bytes) : Char × Nat :=
  let n0 := b0.toNat
  if n0 < 0x80 then (Char.ofNat n0, 0)
  else if 0xc2 ≤ n0 ∧ n0 < 0xe0 then
    match r0 with
    | b1 :: _ => if isCont b1 then (Char.ofNat ((n0 - 0xc0) * 64 + (b1.toNat - 0x80)), 1) else (repl, 0)
    | [] => (repl, 0)
  else if 0xe0 ≤ n0 ∧ n0 < 0xf0 then
    match r0 with
    | b1 :: r1 =>
      if second3 b0 b1 then
        match r1 with
        | b2 :: _ =>
          if isCont b2 then (Char.ofNat ((n0 - 0xe0) * 4096 + (b1.toNat - 0x80) * 64 + (b2.toNat - 0x80)), 2)
          else (repl, 1)
        | [] => (repl, 1)
      else (repl, 0)
    | [] => (repl, 0)
  else if 0xf0 ≤ n0 ∧ n0 < 0xf5 then
    match r0 with
    | b1 :: r1 =>
      if second4 b0 b1 then
        match r1 with
        | b2 :: r2 =>
          if isCont b2 then
            match r2 with
            | b3 :: _ =>
              if isCont b3 then
                (Char.ofNat ((n0 - 0xf0) * 262144 + (b1.toNat - 0x80) * 4096 + (b2.toNat - 0x80) * 64 + (b3.toNat - 0x80)), 3)
              else (repl, 2)
            | [] => (repl, 2)
          else (repl, 1)
        | [] => (repl, 1)
      else (repl, 0)
    | [] => (repl, 0)
  else (repl, 0)

theorem decode_step (b0 : UInt8) (r0 : Bytes) :
    decode (b0 :: r0) = (decStep b0 r0).1 :: decode (r0.drop (decStep b0 r0).2) := by
  conv => lhs; rw [decode.eq_def]
  unfold decStep
  simp only
  split
  · rfl
  split
  · rcases r0 with _ | ⟨b1, r1⟩
    · simp [decode]
    · simp only; split <;> simp
  split
  · rcases r0 with _ | ⟨b1, _ | ⟨b2, r2⟩⟩
    · simp [decode]
    · simp only; split <;> simp [decode]
    · simp only; split
      · split <;> simp
      · simp
  split
  · rcases r0 with _ | ⟨b1, _ | ⟨b2, _ | ⟨b3, r3⟩⟩⟩
    · simp [decode]
    · simp only; split <;> simp [decode]
    · simp only; split
      · split <;> simp [decode]
      · simp
    · simp only; split
      · split
        · split <;> simp
        · simp
      · simp
  · simp

theorem cont_low {c : UInt8} (h : c.toNat < 0x80) : isCont c = false := by
  simp only [isCont, Bool.and_eq_false_iff, decide_eq_false_iff_not]; left; omega
theorem second3_low {b c : UInt8} (h : c.toNat < 0x80) : second3 b c = false := by
  unfold second3
  split
  · simp only [Bool.and_eq_false_iff, decide_eq_false_iff_not]; left; omega
  split
  · simp only [Bool.and_eq_false_iff, decide_eq_false_iff_not]; left; omega
  · exact cont_low h
theorem second4_low {b c : UInt8} (h : c.toNat < 0x80) : second4 b c = false := by
  unfold second4
  split
  · simp only [Bool.and_eq_false_iff, decide_eq_false_iff_not]; left; omega
  split
  · simp only [Bool.and_eq_false_iff, decide_eq_false_iff_not]; left; omega
  · exact cont_low h

theorem decStep_low {b0 : UInt8} (h : b0.toNat < 0x80) (r : Bytes) : decStep b0 r = (Char.ofNat b0.toNat, 0) := by
  unfold decStep; simp only [h, if_true]

theorem high_ex (m k : Nat) (h : 0x80 ≤ m) : ∃ n, 0x80 ≤ n ∧ (Char.ofNat m, k).1 = Char.ofNat n := ⟨m, h, rfl⟩

theorem decStep_high {b0 : UInt8} (h : ¬ b0.toNat < 0x80) (r : Bytes) : ∃ n, 0x80 ≤ n ∧ (decStep b0 r).1 = Char.ofNat n := by
  have hr : ∃ n, 0x80 ≤ n ∧ repl = Char.ofNat n := ⟨0xFFFD, by decide, rfl⟩
  unfold decStep
  simp only [h, if_false]
  split
  · rcases r with _ | ⟨b1, r⟩
    · exact hr
    · simp only; split
      · exact high_ex _ _ (by omega)
      · exact hr
  split
  · rcases r with _ | ⟨b1, _ | ⟨b2, r⟩⟩
    · exact hr
    · simp only; split <;> exact hr
    · simp only; split
      · rename_i h3
        split
        · refine high_ex _ _ ?_
          unfold second3 at h3
          split at h3
          · simp only [Bool.and_eq_true, decide_eq_true_eq] at h3; omega
          · omega
        · exact hr
      · exact hr
  split
  · rcases r with _ | ⟨b1, _ | ⟨b2, _ | ⟨b3, r⟩⟩⟩
    · exact hr
    · simp only; split <;> exact hr
    · simp only; split
      · split <;> exact hr
      · exact hr
    · simp only; split
      · rename_i h4
        split
        · split
          · refine high_ex _ _ ?_
            unfold second4 at h4
            split at h4
            · simp only [Bool.and_eq_true, decide_eq_true_eq] at h4; omega
            · omega
          · exact hr
        · exact hr
      · exact hr
  · exact hr

theorem decStep_append (b0 : UInt8) (r x : Bytes) (hx : ∀ c, x.head? = some c → c.toNat < 0x80) :
    decStep b0 (r ++ x) = decStep b0 r ∧ (decStep b0 r).2 ≤ r.length := by
  have h1 : ∀ c y, x = c :: y → c.toNat < 0x80 := fun c y e => hx c (by rw [e]; rfl)
  unfold decStep
  simp only
  split
  · exact ⟨rfl, Nat.zero_le _⟩
  split
  · rcases r with _ | ⟨b1, r1⟩
    · rcases x with _ | ⟨c, y⟩
      · simp
      · simp [cont_low (h1 c y rfl)]
    · simp only [List.cons_append]; split <;> simp
  split
  · rcases r with _ | ⟨b1, _ | ⟨b2, r2⟩⟩
    · rcases x with _ | ⟨c, y⟩
      · simp
      · simp [second3_low (h1 c y rfl)]
    · rcases x with _ | ⟨c, y⟩
      · simp only [List.append_nil, true_and]; split <;> simp
      · simp only [List.cons_append, List.nil_append]; split
        · simp [cont_low (h1 c y rfl)]
        · simp
    · simp only [List.cons_append, true_and]; split
      · split <;> simp
      · simp
  split
  · rcases r with _ | ⟨b1, _ | ⟨b2, _ | ⟨b3, r3⟩⟩⟩
    · rcases x with _ | ⟨c, y⟩
      · simp
      · simp [second4_low (h1 c y rfl)]
    · rcases x with _ | ⟨c, y⟩
      · simp only [List.append_nil, true_and]; split <;> simp
      · simp only [List.cons_append, List.nil_append]; split
        · simp [cont_low (h1 c y rfl)]
        · simp
    · rcases x with _ | ⟨c, y⟩
      · simp only [List.append_nil, true_and]; split
        · split <;> simp
        · simp
      · simp only [List.cons_append, List.nil_append]; split
        · split
          · simp [cont_low (h1 c y rfl)]
          · simp
        · simp
    · simp only [List.cons_append, true_and]; split
      · split
        · split <;> simp
        · simp
      · simp
  · simp

/-- The ASCII characters of the text are bytes of the file. -/
theorem mem_decode (b : Bytes) (c : Char) (hc : c.toNat < 0x80) (h0 : c ≠ Char.ofNat 0) (h : c ∈ decode b) :
    UInt8.ofNat c.toNat ∈ b := by
  match b with
  | [] => unfold decode at h; cases h
  | b0 :: r =>
    rw [decode_step, List.mem_cons] at h
    rcases h with h | h
    · by_cases hl : b0.toNat < 0x80
      · rw [decStep_low hl] at h
        have : c.toNat = b0.toNat := by rw [h]; exact toNat_ofNat_small _ (by omega)
        rw [this, UInt8.ofNat_toNat]
        exact List.mem_cons_self
      · obtain ⟨n, hn, e⟩ := decStep_high hl r
        exact absurd (h.trans e) (ofNat_low c hc h0 hn)
    · exact List.mem_cons_of_mem _ (List.drop_subset _ _ (mem_decode (r.drop (decStep b0 r).2) c hc h0 h))
termination_by b.length
decreasing_by simp only [List.length_drop, List.length_cons]; omega

theorem decode_append (a x : Bytes) (hx : ∀ c, x.head? = some c → c.toNat < 0x80) : decode (a ++ x) = decode a ++ decode x := by
  match a with
  | [] => simp [decode]
  | b0 :: r =>
    obtain ⟨e, hl⟩ := decStep_append b0 r x hx
    rw [List.cons_append, decode_step, decode_step, e, List.cons_append, List.drop_append, Nat.sub_eq_zero_of_le hl,
      List.drop_zero, decode_append (r.drop (decStep b0 r).2) x hx]
termination_by a.length
decreasing_by simp only [List.length_drop, List.length_cons]; omega

theorem decode_low {c : UInt8} (h : c.toNat < 0x80) (r : Bytes) : decode (c :: r) = Char.ofNat c.toNat :: decode r := by
  rw [decode_step, decStep_low h]; rfl

theorem decode_crlf_step (a : Bytes) (ha : ∀ c ∈ a, c ≠ 10) : crlfT (decode a) = decode a := by
  refine eolG_id (cr := '\r') fun h => ?_
  exact ha 10 (mem_decode a '\n' (by decide) (by decide) h) rfl

theorem decode_crlf (b : Bytes) : decode (crlf b) = crlfT (decode b) := by
  suffices h : ∀ a : Bytes, (∀ c ∈ a, c ≠ 10) → decode (a ++ crlf b) = crlfT (decode (a ++ b)) from h [] (by simp)
  induction b with
  | nil => intro a ha; rw [crlf_nil, List.append_nil, decode_crlf_step a ha]
  | cons c r ih =>
    intro a ha
    by_cases h : c = 10
    · subst h
      rw [crlf_lf, decode_append a _ (by simp), decode_append a _ (by simp), crlfT_append, decode_crlf_step a ha,
        decode_low (by decide), decode_low (by decide), decode_low (by decide), show decode (crlf r) = crlfT (decode r) from ih [] (by simp)]
      rfl
    · have := ih (a ++ [c]) (by
        intro x hx
        rcases List.mem_append.1 hx with hx | hx
        · exact ha x hx
        · rw [List.mem_singleton.1 hx]; exact h)
      rw [crlf_other h]
      simpa using this

theorem noCr_decode (b : Bytes) (h : NoCr b) : '\r' ∉ decode b :=
  fun hc => h 13 (mem_decode b '\r' (by decide) (by decide) hc) rfl

end Verif
