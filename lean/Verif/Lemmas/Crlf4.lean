import Verif.Lemmas.Crlf3
import Verif.Lemmas.Lines
/-
The readers of the types 55 and 58, which cut the values by column.
-/
namespace Verif

theorem forall2_append {α β : Type} {R : α → β → Prop} {a c : List α} {b d : List β} (h : List.Forall₂ R a b)
    (h' : List.Forall₂ R c d) : List.Forall₂ R (a ++ c) (b ++ d) := by
  induction h with
  | nil => exact h'
  | cons h _ ih => exact .cons h ih

theorem forall2_flatten {α β : Type} {R : α → β → Prop} {a : List (List α)} {b : List (List β)}
    (h : List.Forall₂ (List.Forall₂ R) a b) : List.Forall₂ R a.flatten b.flatten := by
  induction h with
  | nil => exact .nil
  | cons h _ ih => exact forall2_append h ih

theorem forall2_map {α β γ : Type} {R : β → γ → Prop} (f : α → β) (g : α → γ) (l : List α) (h : ∀ a ∈ l, R (f a) (g a)) :
    List.Forall₂ R (l.map f) (l.map g) := by
  induction l with
  | nil => exact .nil
  | cons a r ih => exact .cons (h a (List.mem_cons_self ..)) (ih fun b hb => h b (List.mem_cons_of_mem _ hb))

theorem forall2_filter {α : Type} {R : α → α → Prop} {a b : List α} (p : α → Bool) (h : List.Forall₂ R a b)
    (hp : ∀ x y, R x y → p x = p y) : List.Forall₂ R (a.filter p) (b.filter p) := by
  induction h with
  | nil => exact .nil
  | @cons x y r s h _ ih =>
    rw [List.filter_cons, List.filter_cons, hp x y h]
    split
    · exact .cons h ih
    · exact ih

theorem forall2_mono {α β : Type} {R S : α → β → Prop} {a : List α} {b : List β} (h : List.Forall₂ R a b)
    (hs : ∀ x y, R x y → S x y) : List.Forall₂ S a b := by
  induction h with
  | nil => exact .nil
  | cons h _ ih => exact .cons (hs _ _ h) ih

/-- Two cells that are read alike. -/
def CellEq (w : Nat) (a b : Text) : Prop := numStrip a = numStrip b ∧ (a = blanks w ↔ b = blanks w)

theorem CellEq.flt {w : Nat} {a b : Text} (h : CellEq w a b) : pyFloat a = pyFloat b := by
  unfold pyFloat parseFloat; rw [h.1]

theorem slice_blank (c a : Text) (ha : ∀ x ∈ a, x ≠ ' ') (i n : Nat) :
    slice (c ++ a) i (i + n) = blanks n ↔ slice c i (i + n) = blanks n := by
  unfold slice
  rw [List.drop_append, List.take_append]
  generalize hx : List.take (i + n - i - (c.drop i).length) (a.drop (i - c.length)) = x
  have hm : ∀ y ∈ x, y ≠ ' ' := fun y hy => ha y (List.mem_of_mem_drop (List.mem_of_mem_take (hx ▸ hy)))
  constructor
  · intro h
    have : x = [] := by
      cases x with
      | nil => rfl
      | cons y r =>
        exfalso
        refine hm y (List.mem_cons_self ..) ?_
        have : y ∈ blanks n := h ▸ List.mem_append_right _ (List.mem_cons_self ..)
        exact List.eq_of_mem_replicate this
    rw [this, List.append_nil] at h
    exact h
  · intro h
    have hl : (List.take (i + n - i) (c.drop i)).length = n := by rw [h]; exact List.length_replicate
    rw [List.length_take] at hl
    have : x = [] := by
      rw [← hx, show i + n - i - (c.drop i).length = 0 by omega]; rfl
    rw [this, List.append_nil]
    exact h

theorem crlfT_eol {l : Text} (h : EolEnd l) : ∃ c a b, l = c ++ a ∧ crlfT l = c ++ b ∧ ((a = [] ∧ b = []) ∨
    (a = ['\n'] ∧ b = ['\r', '\n'])) := by
  rcases h with h | ⟨c, hc, rfl⟩
  · exact ⟨l, [], [], by simp, by rw [crlfT_id h]; simp, .inl ⟨rfl, rfl⟩⟩
  · exact ⟨c, ['\n'], ['\r', '\n'], rfl, by rw [crlfT_append, crlfT_id hc]; rfl, .inr ⟨rfl, rfl⟩⟩

theorem slice_cell {l : Text} (h : EolEnd l) (i n : Nat) : CellEq n (slice (crlfT l) i (i + n)) (slice l i (i + n)) := by
  obtain ⟨c, a, b, h1, h2, hab⟩ := crlfT_eol h
  have ha : (∀ x ∈ a, isNumSpace x = true) ∧ (∀ x ∈ b, isNumSpace x = true) ∧ (∀ x ∈ a, x ≠ ' ') ∧ (∀ x ∈ b, x ≠ ' ') := by
    rcases hab with ⟨rfl, rfl⟩ | ⟨rfl, rfl⟩ <;> decide
  rw [h2, h1]
  exact ⟨by rw [numStrip_slice _ _ ha.1, numStrip_slice _ _ ha.2.1], by rw [slice_blank _ _ ha.2.2.1, slice_blank _ _ ha.2.2.2]⟩

/-- No cell of width `w` is made of the end of the line and CR LF. -/
def NoTail (w : Nat) (l : Text) : Prop := ∀ c, l = c ++ ['\n'] → c.length % w ≠ w - 2

theorem chunk_count {w : Nat} (hw : 2 ≤ w) {l : Text} (h : EolEnd l) (ht : NoTail w l) :
    (crlfT l).length / w = l.length / w := by
  obtain ⟨c, a, b, h1, h2, hab⟩ := crlfT_eol h
  rcases hab with ⟨rfl, rfl⟩ | ⟨rfl, rfl⟩
  · rw [h2, h1]
  · have := ht c h1
    rw [h2, h1, List.length_append, List.length_append]
    simp only [List.length_cons, List.length_nil, Nat.zero_add]
    have hd := Nat.div_add_mod c.length w
    have hlt := Nat.mod_lt c.length (show w > 0 by omega)
    generalize c.length / w = q at *
    generalize c.length % w = r at *
    have e1 : c.length + 1 = r + 1 + w * q := by omega
    have e2 : c.length + (1 + 1) = r + 2 + w * q := by omega
    rw [e1, e2, Nat.add_mul_div_left _ _ (by omega), Nat.add_mul_div_left _ _ (by omega)]
    by_cases hr : r + 1 = w
    · rw [hr, Nat.div_self (by omega), show r + 2 = w + 1 by omega, Nat.add_div_left _ (by omega), Nat.div_eq_of_lt (by omega)]
    · rw [Nat.div_eq_of_lt (by omega), Nat.div_eq_of_lt (by omega)]

theorem chunks_cells {w : Nat} (hw : 2 ≤ w) {l : Text} (h : EolEnd l) (ht : NoTail w l) :
    List.Forall₂ (CellEq w) (chunks w (crlfT l)) (chunks w l) := by
  unfold chunks
  rw [chunk_count hw h ht]
  refine forall2_map _ _ _ fun i _ => ?_
  rw [Nat.mul_add, Nat.mul_one]
  exact slice_cell h _ _

theorem forall2_length {α β : Type} {R : α → β → Prop} {a : List α} {b : List β} (h : List.Forall₂ R a b) :
    a.length = b.length := by
  induction h with
  | nil => rfl
  | cons _ _ ih => simp [ih]

theorem floatRows_congr {w : Nat} {a b : List (List Text)} (h : List.Forall₂ (List.Forall₂ (CellEq w)) a b) :
    floatRows a = floatRows b := by
  cases h with
  | nil => rfl
  | @cons x y r s h h' =>
    unfold floatRows
    dsimp only
    have e : (r.all fun t => t.length == x.length) = s.all fun t => t.length == y.length := by
      rw [forall2_length h]
      induction h' with
      | nil => rfl
      | cons h1 _ ih => rw [List.all_cons, List.all_cons, forall2_length h1, ih]
    rw [e, mapRes_forall2 (forall2_mono (forall2_flatten (.cons h h')) fun _ _ hc => hc.flt)]

theorem readHead55_crlf (ls : List Text) (hl : ∀ l ∈ ls, EolEnd l) (d : Dict) :
    readHead55 (ls.map crlfT) d = readHead55 ls d := by
  unfold readHead55
  refine res_congr fun a => ?_
  refine res_congr fun k => ?_
  cases k with
  | none => rfl
  | some k =>
    cases k
    · hdr hl
      hdr hl
    · hdr hl
      hdr hl
    · hdr hl
      hdr hl

theorem readBody55_crlf (t : Text) (h : '\r' ∉ t) (hc : ∀ l ∈ everyN 1 2 (splitLinesKeep t), NoTail 13 l) (d : Dict) :
    readBody55 (crlfT t) d = readBody55 t d := by
  have hl := lines_end t h
  unfold readBody55
  rw [splitLinesKeep_crlf t h]
  dsimp only
  generalize splitLinesKeep t = ls at hl hc ⊢
  rw [everyN_map, everyN_map, mapRes_mapped,
    mapRes_congr' (f := fun b => pyInt (crlfT b)) (everyN 0 2 ls) fun l hm => pyInt_crlf (hl l (everyAux_mem _ _ _ l hm))]
  have e : floatRows (((everyN 1 2 ls).map crlfT).map (chunks 13)) = floatRows ((everyN 1 2 ls).map (chunks 13)) := by
    rw [List.map_map]
    exact floatRows_congr (w := 13) (forall2_map _ _ _ fun l hm =>
      chunks_cells (by decide) (hl l (everyAux_mem _ _ _ l hm)) (hc l hm))
  rw [e]

theorem extract55_crlf' (t : Text) (h : '\r' ∉ t)
    (hc : ∀ l ∈ everyN 1 2 (splitLinesKeep ((splitLinesKeep t).drop 10).flatten), NoTail 13 l) :
    extract55 (crlfT t) = extract55 t := by
  have hl := lines_end t h
  have hd := drop_noCr h 10
  unfold extract55
  rw [splitLinesKeep_crlf t h]
  refine congrArg (readGuard 55) ?_
  dsimp only
  generalize splitLinesKeep t = ls at hl hd hc ⊢
  hdr hl
  hdr hl
  hdr hl
  hdr hl
  hdr hl
  hdr hl
  rw [readHead55_crlf ls hl]
  refine res_congr fun _ => ?_
  rw [← List.map_drop, ← crlfT_flatten, readBody55_crlf _ hd hc]

theorem isBinary58_crlf {l : Text} (h : EolEnd l) : isBinary58 (crlfT l) = isBinary58 l := by
  obtain ⟨c, a, b, h1, h2, hab⟩ := crlfT_eol h
  unfold isBinary58
  rw [h2, h1]
  rcases hab with ⟨rfl, rfl⟩ | ⟨rfl, rfl⟩
  · rfl
  · rw [List.getElem?_append, List.getElem?_append]
    split
    · rfl
    · have : ∀ n : Nat, (Option.any (fun c => decide (lowerChar c = 'b')) ['\r', '\n'][n]?)
          = Option.any (fun c => decide (lowerChar c = 'b')) ['\n'][n]? := by
        intro n
        match n with
        | 0 => decide
        | 1 => decide
        | n + 2 => rfl
      exact this _

theorem readUnits_crlf {ls : List Text} (hl : ∀ l ∈ ls, EolEnd l) (i : Nat) (k : UnitKeys) :
    readUnits (orIndex (ls.map crlfT)[i]?) k = readUnits (orIndex ls[i]?) k := by
  rw [List.getElem?_map]
  cases e : ls[i]? with
  | none => rfl
  | some l =>
    show readUnits (.ok (crlfT l)) k = readUnits (.ok l) k
    unfold readUnits
    exact parseHeader_crlf (hl l (List.mem_of_getElem? e)) _ _ _ _

theorem readHead58_crlf (ls : List Text) (hl : ∀ l ∈ ls, EolEnd l) : readHead58 (ls.map crlfT) = readHead58 ls := by
  unfold readHead58
  refine at_line hl _ _ _ fun l1 hl1 => ?_
  have e : idEntries58 (crlfT l1) = idEntries58 l1 := by
    unfold idEntries58
    rw [isBinary58_crlf hl1, parseHeader_crlf hl1]
  rw [e, isBinary58_crlf hl1]
  refine res_congr fun _ => ?_
  hdr hl
  hdr hl
  hdr hl
  hdr hl
  hdr hl
  hdr hl
  hdr hl
  rw [readUnits_crlf hl, readUnits_crlf hl, readUnits_crlf hl, readUnits_crlf hl]

theorem forall2_flatMap {w : Nat} (ls : List Text) (f : Text → List Text)
    (h : ∀ l ∈ ls, List.Forall₂ (CellEq w) (f (crlfT l)) (f l)) :
    List.Forall₂ (CellEq w) ((ls.map crlfT).flatMap f) (ls.flatMap f) := by
  induction ls with
  | nil => exact .nil
  | cons l r ih =>
    rw [List.map_cons, List.flatMap_cons, List.flatMap_cons]
    exact forall2_append (h l (List.mem_cons_self ..)) (ih fun b hb => h b (List.mem_cons_of_mem _ hb))

theorem slice_slice (t : Text) (a n i j : Nat) (hj : i + j ≤ n) : slice (slice t a (a + n)) i (i + j) = slice t (a + i) (a + i + j) := by
  unfold slice
  rw [List.drop_take, List.drop_drop, List.take_take]
  congr 1
  omega

theorem pairCells_crlf {l : Text} (h : EolEnd l) (ht : NoTail 33 l) :
    mapRes pyFloat (pairCells (crlfT l)) = mapRes pyFloat (pairCells l) := by
  refine mapRes_forall2 ?_
  unfold pairCells chunks
  rw [chunk_count (by decide) h ht, List.flatMap_map, List.flatMap_map]
  generalize List.range (l.length / 33) = r
  induction r with
  | nil => exact .nil
  | cons i r ih =>
    rw [List.flatMap_cons, List.flatMap_cons]
    refine forall2_append ?_ ih
    have e : 33 * (i + 1) = 33 * i + 33 := by omega
    rw [e]
    have e1 : ∀ t : Text, slice (slice t (33 * i) (33 * i + 33)) 0 13 = slice t (33 * i) (33 * i + 13) :=
      fun t => slice_slice t (33 * i) 33 0 13 (by decide)
    have e2 : ∀ t : Text, slice (slice t (33 * i) (33 * i + 33)) 13 33 = slice t (33 * i + 13) (33 * i + 13 + 20) :=
      fun t => slice_slice t (33 * i) 33 13 20 (by decide)
    simp only [e1, e2]
    exact .cons (slice_cell h _ _).flt (.cons (slice_cell h _ _).flt .nil)

theorem mapRes_split {α β : Type} (f : α → Res β) (a b : List α) :
    mapRes f (a ++ b) = mapRes f a >>= fun x => mapRes f b >>= fun y => .ok (x ++ y) := by
  induction a with
  | nil =>
    show mapRes f b = mapRes f b >>= fun y => .ok y
    cases mapRes f b <;> rfl
  | cons x r ih =>
    rw [List.cons_append]
    simp only [mapRes]
    cases f x with
    | error e => rfl
    | ok y =>
      dsimp only
      rw [ih]
      cases mapRes f r with
      | error e => rfl
      | ok z =>
        simp only [ok_bind]
        cases mapRes f b <;> rfl

theorem mapRes_flatMap_crlf (ls : List Text) (f : Text → List Text)
    (h : ∀ l ∈ ls, mapRes pyFloat (f (crlfT l)) = mapRes pyFloat (f l)) :
    mapRes pyFloat ((ls.map crlfT).flatMap f) = mapRes pyFloat (ls.flatMap f) := by
  induction ls with
  | nil => rfl
  | cons l r ih =>
    rw [List.map_cons, List.flatMap_cons, List.flatMap_cons, mapRes_split, mapRes_split, h l (List.mem_cons_self ..),
      ih fun b hb => h b (List.mem_cons_of_mem _ hb)]

/-! ### The ASCII values of type 58 -/

theorem chunks_flt {w : Nat} (hw : 2 ≤ w) {l : Text} (h : EolEnd l) (ht : NoTail w l) :
    mapRes pyFloat (chunks w (crlfT l)) = mapRes pyFloat (chunks w l) :=
  mapRes_forall2 (forall2_mono (chunks_cells hw h ht) fun _ _ hc => hc.flt)

theorem asciiValues_crlf (odt sp : Int) (ls : List Text) (hl : ∀ l ∈ ls, EolEnd l)
    (ht : ∀ w, cellWidth odt sp = some w → ∀ l ∈ ls, NoTail w l) :
    asciiValues odt sp (ls.map crlfT) = asciiValues odt sp ls := by
  unfold cellWidth at ht
  unfold asciiValues
  by_cases h1 : odt = 2 ∨ odt = 5
  · rw [if_pos h1] at ht ⊢
    rw [if_pos h1, List.getLast?_map]
    have ht := ht 13 rfl
    cases e : ls.getLast? with
    | none => rfl
    | some last =>
      have hm : last ∈ ls := List.mem_of_getLast? e
      dsimp only [Option.map_some]
      rw [← List.map_dropLast, mapRes_split, mapRes_split,
        mapRes_flatMap_crlf _ _ fun l hd => chunks_flt (by decide) (hl l (List.dropLast_subset _ hd))
          (ht l (List.dropLast_subset _ hd))]
      have : mapRes pyFloat ((chunks 13 (crlfT last)).filter fun c => c ≠ blanks 13)
          = mapRes pyFloat ((chunks 13 last).filter fun c => c ≠ blanks 13) := by
        refine mapRes_forall2 (forall2_mono (forall2_filter _ (chunks_cells (by decide) (hl last hm) (ht last hm)) ?_)
          fun _ _ hc => hc.flt)
        intro x y hxy
        simp only [ne_eq, decide_not, hxy.2]
      rw [this]
  · rw [if_neg h1] at ht ⊢
    rw [if_neg h1]
    by_cases h2 : (odt = 4 ∨ odt = 6) ∧ sp = 1
    · rw [if_pos h2] at ht ⊢
      rw [if_pos h2]
      exact mapRes_flatMap_crlf _ _ fun l hm => chunks_flt (by decide) (hl l hm) (ht 20 rfl l hm)
    · rw [if_neg h2] at ht ⊢
      rw [if_neg h2]
      by_cases h3 : odt = 4 ∧ sp = 0
      · rw [if_pos h3] at ht ⊢
        rw [if_pos h3]
        exact mapRes_flatMap_crlf _ _ fun l hm => pairCells_crlf (hl l hm) (ht 33 rfl l hm)
      · rw [if_neg h3, if_neg h3]
        split
        · refine mapRes_flatMap_crlf _ _ fun l hm => mapRes_forall2 ?_
          have := hl l hm
          exact .cons (pyFloat_slice_crlf this _ _) (.cons (pyFloat_slice_crlf this _ _)
            (.cons (pyFloat_slice_crlf this _ _) .nil))
        · rfl

theorem head58_lines (b : Bytes) (h : NoCr b) :
    splitLinesKeep (decode ((splitLinesKeepB (crlf b)).take 13).flatten)
      = (splitLinesKeep (decode ((splitLinesKeepB b).take 13).flatten)).map crlfT ∧
    ∀ l ∈ splitLinesKeep (decode ((splitLinesKeepB b).take 13).flatten), EolEnd l := by
  have hf : NoCr ((splitLinesKeepB b).take 13).flatten := by
    intro c hc
    obtain ⟨l, hm, hcl⟩ := List.mem_flatten.1 hc
    refine h c ?_
    rw [← splitLinesKeepB_flatten b]
    exact List.mem_flatten.2 ⟨l, List.mem_of_mem_take hm, hcl⟩
  have e : ((splitLinesKeepB (crlf b)).take 13).flatten = crlf ((splitLinesKeepB b).take 13).flatten := by
    rw [splitLinesKeepB_crlf b h, ← List.map_take]
    generalize (splitLinesKeepB b).take 13 = ls
    induction ls with
    | nil => rfl
    | cons l r ih => rw [List.map_cons, List.flatten_cons, List.flatten_cons, ih, crlf_append]
  rw [e, decode_crlf]
  exact ⟨splitLinesKeep_crlf _ (noCr_decode _ hf), lines_end _ (noCr_decode _ hf)⟩

theorem extract58_header_crlf (b : Bytes) (h : NoCr b) : extract58 (crlf b) true = extract58 b true := by
  unfold extract58
  rw [(head58_lines b h).1, readHead58_crlf _ (head58_lines b h).2]
  rfl

theorem extract58_crlf' (b : Bytes) (h : NoCr b)
    (hb : ∀ p, readHead58 (splitLinesKeep (decode ((splitLinesKeepB b).take 13).flatten)) = .ok p → p.1 = false)
    (ht : ∀ p odt sp mn inc w, readHead58 (splitLinesKeep (decode ((splitLinesKeepB b).take 13).flatten)) = .ok p →
      bodyArgs p.2 = .ok (odt, sp, mn, inc) → cellWidth odt sp = some w →
      ∀ l ∈ (splitLinesKeep (decode b)).drop 13, NoTail w l) :
    extract58 (crlf b) false = extract58 b false := by
  unfold extract58
  rw [(head58_lines b h).1, readHead58_crlf _ (head58_lines b h).2]
  refine congrArg (readGuard 58) ?_
  cases e : readHead58 (splitLinesKeep (decode ((splitLinesKeepB b).take 13).flatten)) with
  | error e => rfl
  | ok p =>
    obtain ⟨bin, d⟩ := p
    have hb := hb _ e
    dsimp only at hb
    subst hb
    simp only [ok_bind, Bool.false_eq_true, if_false]
    cases e2 : bodyArgs d with
    | error e => rfl
    | ok q =>
      obtain ⟨odt, sp, mn, inc⟩ := q
      simp only [ok_bind]
      rw [decode_crlf, splitLinesKeep_crlf _ (noCr_decode b h), ← List.map_drop,
        asciiValues_crlf odt sp _ (fun l hm => lines_end _ (noCr_decode b h) l (List.mem_of_mem_drop hm))
          fun w hw => ht _ odt sp mn inc w e e2 hw]

/-! ### Lines with and without their ends -/

/-- The line without the line break at its end. -/
def chopLine (l : Text) : Text :=
  match l.getLast? with
  | some c => if isBreak c then l.dropLast else l
  | none => l

theorem chopLine_brk (a : Text) {c : Char} (h : isBreak c = true) : chopLine (a ++ [c]) = a := by
  simp [chopLine, h]
theorem chopLine_id {a : Text} (h : ∀ c ∈ a, isBreak c = false) : chopLine a = a := by
  unfold chopLine
  cases e : a.getLast? with
  | none => rfl
  | some c => simp [h c (List.mem_of_getLast? e)]

theorem split_chop (s : Text) (h : '\r' ∉ s) (acc : Text) (ha : ∀ c ∈ acc, isBreak c = false) :
    splitLinesGen '\r' '\n' isBreak false acc s = (splitLinesGen '\r' '\n' isBreak true acc s).map chopLine := by
  induction s generalizing acc with
  | nil =>
    unfold splitLinesGen
    split
    · rfl
    · rw [List.map_cons, List.map_nil, chopLine_id fun c hc => ha c (List.mem_reverse.1 hc)]
  | cons c r ih =>
    have hr : '\r' ∉ r := fun hm => h (List.mem_cons_of_mem _ hm)
    have hc : c ≠ '\r' := fun e => h (e ▸ List.mem_cons_self ..)
    by_cases hb : isBreak c = true
    · rw [splitGen_brk hb hc, splitGen_brk hb hc, List.map_cons, ih hr [] (by simp)]
      simp only [if_true, List.reverse_cons, chopLine_brk _ hb]
      rfl
    · have hb : isBreak c = false := by simpa using hb
      rw [splitLinesGen_cons_noBrk '\r' '\n' isBreak false (by decide) _ _ _ hb, splitLinesGen_cons_noBrk '\r' '\n' isBreak true (by decide) _ _ _ hb]
      exact ih hr _ fun x hx => by
        rcases List.mem_cons.1 hx with rfl | hx
        · exact hb
        · exact ha x hx

theorem splitLines_chop (t : Text) (h : '\r' ∉ t) : splitLines t = (splitLinesKeep t).map chopLine :=
  split_chop t h [] (by simp)

theorem noTail_chop {w : Nat} {l : Text} (h : (chopLine l).length % w ≠ w - 2) : NoTail w l := by
  intro c e
  rw [e, chopLine_brk c (by decide)] at h
  exact h

/-- Splitting the lines from some line on again gives the same lines. -/
theorem split_rest (s : Text) (acc : Text) (l : Text) (rest : List Text)
    (h : splitLinesGen '\r' '\n' isBreak true acc s = l :: rest) : splitLinesKeep rest.flatten = rest := by
  have fl : ∀ t, (splitLinesGen '\r' '\n' isBreak true [] t).flatten = t := fun t => splitLinesKeep_flatten t
  induction acc, s using splitLinesGen.induct '\r' '\n' isBreak with
  | case1 acc h' => simp [splitLinesGen, h'] at h
  | case2 acc h' => simp [splitLinesGen, h'] at h; rw [h.2]; rfl
  | case3 acc c hb => simp [splitLinesGen, hb] at h; rw [h.2]; rfl
  | case4 acc c hb => simp [splitLinesGen, hb] at h; rw [h.2]; rfl
  | case5 acc c d cs hcd ih =>
    rw [splitLinesGen, if_pos hcd] at h
    rw [← (List.cons.inj h).2, fl]; rfl
  | case6 acc c d cs hcd hb ih =>
    rw [splitLinesGen, if_neg hcd, if_pos hb] at h
    rw [← (List.cons.inj h).2, fl]; rfl
  | case7 acc c d cs hcd hb ih =>
    rw [splitLinesGen, if_neg hcd, if_neg hb] at h
    exact ih h

theorem split_drop (t : Text) (k : Nat) : splitLinesKeep ((splitLinesKeep t).drop k).flatten = (splitLinesKeep t).drop k := by
  induction k generalizing t with
  | zero => rw [List.drop_zero, splitLinesKeep_flatten]
  | succ k ih =>
    cases e : splitLinesKeep t with
    | nil => rfl
    | cons l rest =>
      have := split_rest t [] l rest e
      rw [List.drop_succ_cons]
      have h := ih rest.flatten
      rw [this] at h
      exact h

theorem everyAux_drop {α : Type} (s k : Nat) (l : List α) : everyAux s k l = everyAux s 0 (l.drop k) := by
  induction k generalizing l with
  | zero => rfl
  | succ k ih => cases l with
    | nil => rfl
    | cons a r => rw [List.drop_succ_cons, ← ih]; rfl

theorem extract55_crlf (t : Text) (h : '\r' ∉ t) (hc : ∀ l ∈ everyN 11 2 (splitLines t), l.length % 13 ≠ 11) :
    extract55 (crlfT t) = extract55 t := by
  refine extract55_crlf' t h fun l hm => noTail_chop (hc _ ?_)
  rw [split_drop] at hm
  rw [splitLines_chop t h, everyN_map]
  refine List.mem_map.2 ⟨l, ?_, rfl⟩
  unfold everyN at hm ⊢
  rw [everyAux_drop, List.drop_drop] at hm
  rw [everyAux_drop]
  exact hm

theorem headerLoop_other (q : Key) : ∀ (m : Nat) (tys : List FTy) (ks : List Key) (ss : List Text) (acc e : Dict), q ∉ ks →
    headerLoop m tys ks ss acc = .ok e → e.get? q = acc.get? q
  | m, tys, [], ss, acc, e, hq, h => by unfold headerLoop at h; cases h; rfl
  | m, tys, k :: ks, [], acc, e, hq, h => by unfold headerLoop at h; cases h; rfl
  | m, [], k :: ks, s :: ss, acc, e, hq, h => by unfold headerLoop at h; cases h
  | m, ty :: tys, k :: ks, s :: ss, acc, e, hq, h => by
    have hk : k ≠ q := fun x => hq (x ▸ List.mem_cons_self ..)
    have hq' : q ∉ ks := fun x => hq (List.mem_cons_of_mem _ x)
    unfold headerLoop at h
    split at h
    · exact headerLoop_other q _ _ _ _ _ _ hq' h
    · rw [headerLoop_other q _ _ _ _ _ _ hq' h, Dict.get?_set_ne _ _ _ _ hk]
    · split at h
      · rw [headerLoop_other q _ _ _ _ _ _ hq' h, Dict.get?_set_ne _ _ _ _ hk]
      · cases h

theorem parseHeader_other {l : Text} {m : Nat} {ws : List Nat} {tys : List FTy} {ks : List Key} {e : Dict} {q : Key}
    (hq : q ∉ ks) (h : parseHeader l m ws tys ks = .ok e) : e.get? q = .none := by
  unfold parseHeader at h
  dsimp only at h
  generalize cutFields _ 0 ws = fs at h
  split at h
  · cases h
  · rw [headerLoop_other q _ _ _ _ _ _ hq h]; rfl

theorem update_other {d e : Dict} {q : Key} (h : e.get? q = .none) : (d.update e).get? q = d.get? q := by
  unfold Dict.update
  induction e generalizing d with
  | nil => rfl
  | cons kv r ih =>
    obtain ⟨k, v⟩ := kv
    unfold Dict.get? at h
    split at h
    · cases h
    · next hk => rw [List.foldl_cons, ih h, Dict.get?_set_ne _ _ _ _ hk]

theorem readUnits_other {r : Res Text} {k : UnitKeys} {e : Dict} {q : Key}
    (hq : q ∉ [k.spec, k.len, k.force, k.temp, k.lab, k.units]) (h : readUnits r k = .ok e) : e.get? q = .none := by
  unfold readUnits at h
  split at h
  · cases h
  · exact parseHeader_other hq h

theorem bind_ok_split {α β : Type} {m : Res α} {f : α → Res β} {b : β} (h : (m >>= f) = .ok b) : ∃ a, m = .ok a ∧ f a = .ok b := by
  cases m with
  | error e => cases h
  | ok a => exact ⟨a, rfl, h⟩

theorem idEntries58_binary {l1 : Text} {d : Dict} (h : idEntries58 l1 = .ok d) :
    d.get? "binary" = some (.int (if isBinary58 l1 then 1 else 0)) := by
  unfold idEntries58 at h
  dsimp only at h
  split at h
  · next hb =>
    rw [if_pos hb]
    split at h
    · next e he =>
      cases h
      rw [update_other (parseHeader_other (by decide) he)]
      rfl
    · cases h
  · next hb =>
    rw [if_neg hb]
    cases h; rfl

theorem readHead58_binary {ls : List Text} {p : Bool × Dict} (h : readHead58 ls = .ok p) :
    p.2.get? "binary" = some (.int (if p.1 then 1 else 0)) := by
  unfold readHead58 at h
  obtain ⟨l1, -, h⟩ := bind_ok_split h
  obtain ⟨d, hd, h⟩ := bind_ok_split h
  obtain ⟨_, -, h⟩ := bind_ok_split h
  obtain ⟨e2, h2, h⟩ := bind_ok_split h
  obtain ⟨_, -, h⟩ := bind_ok_split h
  obtain ⟨e3, h3, h⟩ := bind_ok_split h
  obtain ⟨_, -, h⟩ := bind_ok_split h
  obtain ⟨e4, h4, h⟩ := bind_ok_split h
  obtain ⟨_, -, h⟩ := bind_ok_split h
  obtain ⟨e5, h5, h⟩ := bind_ok_split h
  obtain ⟨_, -, h⟩ := bind_ok_split h
  obtain ⟨e6, h6, h⟩ := bind_ok_split h
  obtain ⟨_, -, h⟩ := bind_ok_split h
  obtain ⟨e7, h7, h⟩ := bind_ok_split h
  obtain ⟨_, -, h⟩ := bind_ok_split h
  obtain ⟨e8, h8, h⟩ := bind_ok_split h
  obtain ⟨e9, h9, h⟩ := bind_ok_split h
  obtain ⟨e10, h10, h⟩ := bind_ok_split h
  obtain ⟨e11, h11, h⟩ := bind_ok_split h
  obtain ⟨e12, h12, h⟩ := bind_ok_split h
  cases h
  dsimp only
  rw [update_other (readUnits_other (by decide) h12), update_other (readUnits_other (by decide) h11),
    update_other (readUnits_other (by decide) h10), update_other (readUnits_other (by decide) h9),
    update_other (parseHeader_other (by decide) h8), update_other (parseHeader_other (by decide) h7),
    update_other (parseHeader_other (by decide) h6), update_other (parseHeader_other (by decide) h5),
    update_other (parseHeader_other (by decide) h4), update_other (parseHeader_other (by decide) h3),
    update_other (parseHeader_other (by decide) h2)]
  exact idEntries58_binary hd

theorem get_ok {d : Dict} {k : Key} {v : Val} (h : d.get k = .ok v) : d.get? k = some v := by
  unfold Dict.get at h
  split at h
  · next e => cases h; exact e
  · cases h

theorem extract58_crlf (b : Bytes) (h : NoCr b)
    (hb : ∀ d, extract58 b true = .ok d → d.get? "binary" = some (.int 0))
    (ht : ∀ d odt sp w, extract58 b true = .ok d → d.get? "ord_data_type" = some (.int odt) →
      d.get? "abscissa_spacing" = some (.int sp) → cellWidth odt sp = some w →
      ∀ l ∈ (splitLines (decode b)).drop 13, l.length % w ≠ w - 2) :
    extract58 (crlf b) false = extract58 b false := by
  have key : ∀ p, readHead58 (splitLinesKeep (decode ((splitLinesKeepB b).take 13).flatten)) = .ok p →
      extract58 b true = .ok ((p.2.set "x" .none).set "data" .none) := by
    intro p e
    unfold extract58
    rw [e]; rfl
  have oth : ∀ (d : Dict) (q : Key), q ≠ "x" → q ≠ "data" → ((d.set "x" .none).set "data" .none).get? q = d.get? q := by
    intro d q h1 h2
    rw [Dict.get?_set_ne _ _ _ _ h2.symm, Dict.get?_set_ne _ _ _ _ h1.symm]
  refine extract58_crlf' b h ?_ ?_
  · intro p e
    have h1 := hb _ (key p e)
    rw [oth _ _ (by decide) (by decide), readHead58_binary e] at h1
    by_cases hp : p.1 = true
    · rw [if_pos hp] at h1; cases h1
    · simpa using hp
  · intro p odt sp mn inc w e e2 hw l hm
    unfold bodyArgs at e2
    split at e2
    · next g1 g2 g3 g4 =>
      cases e2
      refine noTail_chop (ht _ odt sp w (key p e) ?_ ?_ hw _ ?_)
      · rw [oth _ _ (by decide) (by decide)]; exact get_ok g1
      · rw [oth _ _ (by decide) (by decide)]; exact get_ok g2
      · rw [splitLines_chop _ (noCr_decode b h), ← List.map_drop]
        exact List.mem_map.2 ⟨l, hm, rfl⟩
    · cases e2

end Verif
