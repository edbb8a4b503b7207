import Verif.Spec.Foreign
import Verif.Lemmas.Val58
import Verif.Lemmas.Crlf5
import Verif.Lemmas.Fix
/-
Reading the values of a data-set 58, whoever wrote it.
-/
namespace Verif

theorem set_set_same (d : Dict) (k : Key) (a b : Val) : (d.set k a).set k b = d.set k b := by
  induction d with
  | nil => simp [Dict.set]
  | cons kv r ih =>
    obtain ⟨q, v⟩ := kv
    unfold Dict.set
    by_cases h : q = k
    · simp [h, Dict.set]
    · simp [h, Dict.set, ih]

theorem set_set_other (d : Dict) (k j : Key) (a b c : Val) (h : k ≠ j) :
    (((d.set k a).set j b).set k c) = (d.set k c).set j b := by
  induction d with
  | nil => simp [Dict.set, h]
  | cons kv r ih =>
    obtain ⟨q, v⟩ := kv
    by_cases h1 : q = k
    · subst h1; simp [Dict.set, h]
    · by_cases h2 : q = j
      · subst h2; simp only [Dict.set, if_neg h1, if_true]
        rw [set_set_same]
      · simp [Dict.set, h1, h2, ih]

theorem set_body (d : Dict) (x y : Val) :
    (((d.set "x" .none).set "data" .none).set "x" x).set "data" y = (d.set "x" x).set "data" y := by
  rw [set_set_other _ "x" "data" _ _ _ (by decide), set_set_same]

theorem chunks_rest (fs : List Text) (k : Nat) (t : Text) (h : ∀ f ∈ fs, f.length = 13) (ht : t.length < 13) :
    chunks 13 (fs.flatten ++ (List.replicate (13 * k) ' ' ++ t)) = fs ++ List.replicate k (blanks 13) := by
  have e : List.replicate (13 * k) ' ' = (List.replicate k (blanks 13)).flatten := by
    induction k with
    | zero => rfl
    | succ k ih =>
      rw [List.replicate_succ, List.flatten_cons, ← ih, Nat.mul_succ, Nat.add_comm, ← List.replicate_append_replicate]; rfl
  rw [e, ← List.append_assoc, ← List.flatten_append]
  apply chunks_flatten _ _ _ _ ht
  intro f hf
  rcases List.mem_append.1 hf with hf | hf
  · exact h f hf
  · rw [List.eq_of_mem_replicate hf]; rfl

theorem flatMap_text (ls : List Line58) (g : Text → List Text) (h : ∀ l ∈ ls, g l.text = l.cells) :
    (ls.map Line58.text).flatMap g = ls.flatMap Line58.cells := by
  rw [List.flatMap_map]
  exact flatMap_congr' h

theorem pairCells_eq (cells : List Text) (rest : Text) (k : Nat)
    (h : cells.map List.length = (List.replicate k [13, 20]).flatten) (hr : rest.length < 33) :
    pairCells (cells.flatten ++ rest) = cells := by
  have key : ∃ ps : List (Text × Text), cells = ps.flatMap (fun p => [p.1, p.2]) ∧
      ∀ p ∈ ps, p.1.length = 13 ∧ p.2.length = 20 := by
    induction k generalizing cells with
    | zero => exact ⟨[], by simpa using h, by simp⟩
    | succ k ih =>
      match cells, h with
      | a :: b :: cs, h =>
        simp only [List.map_cons, List.replicate_succ, List.flatten_cons, List.cons_append, List.nil_append, List.cons.injEq] at h
        obtain ⟨ps, e, hp⟩ := ih cs h.2.2
        refine ⟨(a, b) :: ps, by rw [e]; rfl, ?_⟩
        intro p hp'
        rcases List.mem_cons.1 hp' with rfl | hp'
        · exact ⟨h.1, h.2.1⟩
        · exact hp p hp'
      | [a], h => simp [List.replicate_succ] at h
      | [], h => simp [List.replicate_succ] at h
  obtain ⟨ps, rfl, hp⟩ := key
  have e : (ps.flatMap (fun p => [p.1, p.2])).flatten = (ps.map fun p => p.1 ++ p.2).flatten := by
    clear hp h
    induction ps with
    | nil => rfl
    | cons p ps ih => simp only [List.flatMap_cons, List.flatten_append, ih, List.map_cons, List.flatten_cons]; simp
  unfold pairCells
  rw [e, chunks_flatten 33 _ _ (by
    intro t ht
    obtain ⟨p, hp', rfl⟩ := List.mem_map.1 ht
    rw [List.length_append, (hp p hp').1, (hp p hp').2]) hr, List.flatMap_map]
  apply flatMap_congr'
  intro p hp'
  rw [slice_prefix _ _ _ (hp p hp').1]
  have := DS58.slice_mid p.1 p.2 [] 13 33 (hp p hp').1 (by rw [(hp p hp').2])
  rw [List.append_nil] at this
  rw [this]

theorem triple_eq (cells : List Text) (rest : Text) (h : cells.map List.length = [13, 20, 20]) :
    [slice (cells.flatten ++ rest) 0 13, slice (cells.flatten ++ rest) 13 33, slice (cells.flatten ++ rest) 33 53] = cells := by
  match cells, h with
  | [a, b, c], h =>
    simp only [List.map_cons, List.map_nil, List.cons.injEq, and_true] at h
    obtain ⟨h1, h2, h3⟩ := h
    have e : [a, b, c].flatten ++ rest = a ++ (b ++ (c ++ rest)) := by simp
    rw [e, slice_prefix _ _ _ h1, DS58.slice_mid _ _ _ 13 33 h1 (by rw [h2]), ← List.append_assoc,
      DS58.slice_mid _ _ _ 33 53 (by rw [List.length_append, h1, h2]) (by rw [h3])]
  | [_], h => simp at h
  | [_, _], h => simp at h
  | _ :: _ :: _ :: _ :: _, h => simp at h

/-- The cells that are read are those of the layout. -/
theorem asciiValues_cells (form : Form58) (ls : List Line58) (ok : form.LinesOk ls) :
    asciiValues form.code form.spacing (ls.map Line58.text) = mapRes pyFloat (ls.flatMap Line58.cells) := by
  obtain ⟨double, real, even⟩ := form
  unfold asciiValues
  cases double with
  | false =>
    have hcode : (⟨false, real, even⟩ : Form58).code = 2 ∨ (⟨false, real, even⟩ : Form58).code = 5 := by cases real <;> first | exact .inl rfl | exact .inr rfl
    rw [if_pos hcode]
    rcases ok with ⟨h, _⟩ | ⟨front, last, rfl, hf, hl⟩
    · cases h
    · simp only [Form58.LineOk, if_true, Bool.false_eq_true, if_false] at hf hl
      obtain ⟨h1, ⟨k, t, hr, ht⟩, hb⟩ := hl
      rw [List.map_append, List.map_cons, List.map_nil]
      simp only [List.getLast?_concat, List.dropLast_concat]
      rw [flatMap_text front (chunks 13) fun l hl => chunks_flatten 13 _ _ (hf l hl).1 (hf l hl).2]
      have e : (chunks 13 last.text).filter (fun c => c ≠ blanks 13) = last.cells := by
        unfold Line58.text
        rw [hr, chunks_rest _ _ _ h1 ht, List.filter_append]
        rw [List.filter_eq_self.2, List.filter_eq_nil_iff.2, List.append_nil]
        · intro c hc
          rw [List.eq_of_mem_replicate hc]; simp
        · intro c hc
          obtain ⟨x, hx, hne⟩ := hb c hc
          simp only [ne_eq, decide_eq_true_eq]
          rintro rfl
          exact hne (List.eq_of_mem_replicate hx)
      rw [e, List.flatMap_append]
      simp
  | true =>
    have hcode : ¬ ((⟨true, real, even⟩ : Form58).code = 2 ∨ (⟨true, real, even⟩ : Form58).code = 5) := by cases real <;> rintro (h | h) <;> cases h
    rw [if_neg hcode]
    have hall : ∀ l ∈ ls, ∃ b, Form58.LineOk ⟨true, real, even⟩ b l := by
      rcases ok with ⟨_, rfl⟩ | ⟨front, last, rfl, hf, hl⟩
      · simp
      · intro l hm
        rcases List.mem_append.1 hm with hm | hm
        · exact ⟨_, hf l hm⟩
        · rw [List.mem_singleton.1 hm]; exact ⟨_, hl⟩
    cases even with
    | true =>
      rw [if_pos (by cases real <;> decide)]
      congr 1
      refine flatMap_text _ _ fun l hl => ?_
      obtain ⟨b, h⟩ := hall l hl
      simp only [Form58.LineOk, if_true, Bool.true_eq_false, if_false] at h
      exact chunks_flatten 20 _ _ h.1 h.2
    | false =>
      rw [if_neg (by cases real <;> decide)]
      cases real with
      | true =>
        rw [if_pos (by decide)]
        congr 1
        refine flatMap_text _ _ fun l hl => ?_
        obtain ⟨b, h⟩ := hall l hl
        simp only [Form58.LineOk, if_true, Bool.true_eq_false, Bool.false_eq_true, if_false] at h
        obtain ⟨⟨k, hk⟩, hr⟩ := h
        exact pairCells_eq _ _ k hk hr
      | false =>
        rw [if_neg (by decide), if_pos (by decide)]
        congr 1
        refine flatMap_text _ _ fun l hl => ?_
        obtain ⟨b, h⟩ := hall l hl
        simp only [Form58.LineOk, Bool.true_eq_false, Bool.false_eq_true, if_false] at h
        exact triple_eq _ _ h

/-- A sample as a point. -/
def Sample.pt (s : Sample) : DS58.Pt58 := (s.x, (s.re, s.im))

theorem numbers_eq (form : Form58) (l : List Sample) :
    l.flatMap form.numbers = (l.map Sample.pt).flatMap (DS58.nums form.real form.even) := by
  rw [List.flatMap_map]; rfl

/-- Abscissa and ordinate put together. -/
theorem assign_samples (form : Form58) (d : Dict) (mn inc : F64) (l : List Sample)
    (hf : form.real = false → ∀ s ∈ l, s.re.finite = true ∧ s.im.finite = true) :
    assign58 d form.code form.spacing mn inc (l.flatMap form.numbers)
      = (d.set "x" (.arrF (form.abscissa mn inc l))).set "data" (form.ordinate l) := by
  rw [numbers_eq]
  have hc : form.code = DS58.code form.double form.real := by
    obtain ⟨a, b, c⟩ := form; cases a <;> cases b <;> rfl
  rw [hc, show form.spacing = (if form.even then 1 else 0) from rfl, DS58.assign_eq]
  show (d.set "x" _).set "data" _ = _
  have hx : (if form.even = true then arange58 mn inc (l.map Sample.pt).length else (l.map Sample.pt).map (·.1))
      = form.abscissa mn inc l := by
    unfold Form58.abscissa arange58
    rw [List.length_map, List.map_map]; rfl
  have hy : (if form.real = true then Val.arrF ((l.map Sample.pt).map (·.2.1))
      else .arrC ((l.map Sample.pt).map fun p => cplxOf p.2.1 p.2.2)) = form.ordinate l := by
    unfold Form58.ordinate
    rw [List.map_map, List.map_map]
    cases hr : form.real with
    | true => rfl
    | false =>
      simp only [Bool.false_eq_true, if_false]
      congr 1
      exact List.map_congr_left fun s hs => cplxOf_eq _ _ (hf hr s hs).1 (hf hr s hs).2
  rw [hx, hy]

/-- What the header alone says of the whole reading. -/
theorem extract58_full (b : Bytes) (d : Dict) (odt sp : Int) (mn inc : F64) (bin : Bool) (h : extract58 b true = .ok d)
    (h0 : d.get? "binary" = some (.int (if bin then 1 else 0)))
    (h1 : d.get? "ord_data_type" = some (.int odt)) (h2 : d.get? "abscissa_spacing" = some (.int sp))
    (h3 : d.get? "abscissa_min" = some (.float mn)) (h4 : d.get? "abscissa_inc" = some (.float inc)) :
    ∃ d0 : Dict, d = (d0.set "x" .none).set "data" .none ∧
      extract58 b false = readGuard 58 (do
        let v ← if bin then
            match littleOf d0 with
            | .error e => .error e
            | .ok little => .ok (binValues little (decide (odt = 2 ∨ odt = 5)) ((splitLinesKeepB b).drop 13).flatten)
          else asciiValues odt sp ((splitLinesKeep (decode b)).drop 13)
        .ok (assign58 d0 odt sp mn inc v)) := by
  unfold extract58 at h ⊢
  cases hh : readHead58 (splitLinesKeep (decode ((splitLinesKeepB b).take 13).flatten)) with
  | error x => rw [hh] at h; cases x <;> cases h
  | ok p =>
    have hp := readHead58_binary hh
    obtain ⟨binary, d0⟩ := p
    rw [hh] at h
    have hd : d = (d0.set "x" .none).set "data" .none := by
      simp only [ok_bind, if_true] at h
      unfold readGuard at h
      exact (Except.ok.inj h).symm
    have oth : ∀ (q : Key), q ≠ "x" → q ≠ "data" → d.get? q = d0.get? q := by
      intro q h1 h2
      rw [hd, Dict.get?_set_ne _ _ _ _ h2.symm, Dict.get?_set_ne _ _ _ _ h1.symm]
    rw [oth _ (by decide) (by decide)] at h0 h1 h2 h3 h4
    have hb : binary = bin := by
      rw [hp] at h0
      cases binary <;> cases bin <;> first | rfl | (simp at h0)
    subst hb
    refine ⟨d0, hd, ?_⟩
    have hargs : bodyArgs d0 = .ok (odt, sp, mn, inc) := by
      unfold bodyArgs Dict.get
      simp only [h1, h2, h3, h4]
    simp only [ok_bind, Bool.false_eq_true, if_false, hargs]
    cases binary with
    | true => simp only [if_true]; cases littleOf d0 <;> rfl
    | false => rfl

/-- Reading an ASCII data-set: the header and the cells decide. -/
theorem extract58_ascii (b : Bytes) (d : Dict) (form : Form58) (mn inc : F64) (h : extract58 b true = .ok d)
    (h0 : d.get? "binary" = some (.int 0))
    (h1 : d.get? "ord_data_type" = some (.int form.code)) (h2 : d.get? "abscissa_spacing" = some (.int form.spacing))
    (h3 : d.get? "abscissa_min" = some (.float mn)) (h4 : d.get? "abscissa_inc" = some (.float inc))
    (ls : List Line58) (hl : (splitLinesKeep (decode b)).drop 13 = ls.map Line58.text) (ok : form.LinesOk ls) :
    (∀ l : List Sample, mapRes pyFloat (ls.flatMap Line58.cells) = .ok (l.flatMap form.numbers) →
      (form.real = false → ∀ s ∈ l, s.re.finite = true ∧ s.im.finite = true) →
      extract58 b false = .ok ((d.set "x" (.arrF (form.abscissa mn inc l))).set "data" (form.ordinate l))) ∧
    (mapRes pyFloat (ls.flatMap Line58.cells) = .error .value → extract58 b false = .error (.reading 58)) := by
  obtain ⟨d0, hd, he⟩ := extract58_full b d _ _ mn inc false h h0 h1 h2 h3 h4
  simp only [Bool.false_eq_true, if_false, hl, asciiValues_cells form ls ok] at he
  constructor
  · intro l hv hf
    rw [he, hv, ok_bind, assign_samples form d0 mn inc l hf, hd, set_body]; rfl
  · intro hv
    rw [he, hv]; rfl

theorem mapRes_bad (l : List Text) (c : Text) (hc : c ∈ l) (h : parseFloat c = .none) : mapRes pyFloat l = .error .value := by
  induction l with
  | nil => cases hc
  | cons a r ih =>
    have hp : ∀ t, pyFloat t = .error .value ∨ ∃ x, pyFloat t = .ok x := by
      intro t
      unfold pyFloat
      cases parseFloat t with
      | none => exact .inl rfl
      | some x => exact .inr ⟨x, rfl⟩
    unfold mapRes
    rcases hp a with ha | ⟨x, ha⟩
    · rw [ha]
    · rw [ha]
      rcases List.mem_cons.1 hc with rfl | hc
      · unfold pyFloat at ha; rw [h] at ha; cases ha
      · simp only [ih hc]

/-! Binary values. -/

theorem splitLinesKeepB_heads (ls : List Bytes) (p : Bytes) (h : ∀ l ∈ ls, ByteLine l) :
    splitLinesKeepB (ls.flatten ++ p) = ls ++ splitLinesKeepB p := by
  induction ls with
  | nil => rfl
  | cons l ls ih =>
    have := ih fun l hl => h l (List.mem_cons_of_mem _ hl)
    obtain ⟨c, hc, rfl | rfl⟩ := h l (List.mem_cons_self ..)
    · rw [List.flatten_cons, show (c ++ [10] ++ ls.flatten) ++ p = c ++ 10 :: (ls.flatten ++ p) by simp,
        splitLinesKeepB_line _ _ hc, this]; rfl
    · rw [List.flatten_cons, show (c ++ [13, 10] ++ ls.flatten) ++ p = c ++ 13 :: 10 :: (ls.flatten ++ p) by simp,
        splitLinesKeepB_crlfLine _ _ hc, this]; rfl

theorem byteGroups_flatten (w : Nat) (hw : 0 < w) (gs : List Bytes) (rest : Bytes) (h : ∀ g ∈ gs, g.length = w)
    (hr : rest.length < w) : byteGroups w (gs.flatten ++ rest) = gs := by
  induction gs with
  | nil =>
    unfold byteGroups
    rw [List.flatten_nil, List.nil_append, Nat.div_eq_of_lt hr]; rfl
  | cons g gs ih =>
    have hg := h g (List.mem_cons_self ..)
    have ih := ih fun g hg => h g (List.mem_cons_of_mem _ hg)
    unfold byteGroups at ih ⊢
    rw [List.flatten_cons, List.append_assoc, List.length_append, hg, Nat.add_comm w, Nat.add_div_right _ hw,
      List.range_succ_eq_map, List.map_cons, List.map_map]
    congr 1
    · rw [Nat.mul_zero, Nat.zero_add, Nat.mul_one, slice_prefix _ _ _ hg]
    · conv_rhs => rw [← ih]
      apply List.map_congr_left
      intro i _
      simp only [Function.comp]
      rw [slice_append_right _ _ _ _ (by rw [hg]; exact Nat.le_mul_of_pos_right _ (Nat.succ_pos i)), hg]
      congr 1
      · simp [Nat.mul_succ]
      · simp [Nat.mul_succ]

theorem binValues_eq (form : Form58) (little : Bool) (ws : List Bytes) (xs : List F64) (rest : Bytes)
    (h : OneByOne (form.Word little) ws xs) (hr : rest.length < form.size) :
    binValues little (decide (form.code = 2 ∨ form.code = 5)) (ws.flatten ++ rest) = xs := by
  have hw : ∀ i (h1 : i < ws.length) (h2 : i < xs.length), form.Word little ws[i] xs[i] := fun i h1 h2 =>
    h.2 i _ _ (List.getElem?_eq_getElem h1) (List.getElem?_eq_getElem h2)
  have hall : ∀ g ∈ ws, g.length = form.size := by
    intro g hg
    obtain ⟨i, hi, rfl⟩ := List.mem_iff_getElem.1 hg
    have := hw i hi (by rw [← h.1]; exact hi)
    unfold Form58.Word at this
    unfold Form58.size
    cases hd : form.double with
    | true => simp only [hd, if_true] at this; exact this.1
    | false => simp only [hd, Bool.false_eq_true, if_false] at this; exact this.1
  unfold binValues
  cases hd : form.double with
  | true =>
    have hc : decide (form.code = 2 ∨ form.code = 5) = false := by
      obtain ⟨a, b, c⟩ := form; cases b <;> cases hd <;> rfl
    have hs : form.size = 8 := by unfold Form58.size; rw [hd]; rfl
    rw [hs] at hall hr
    rw [hc, if_neg (by decide), byteGroups_flatten 8 (by decide) _ _ hall hr]
    refine List.ext_getElem (by simp [h.1]) fun i h1 h2 => ?_
    have := hw i (by simpa using h1) h2
    unfold Form58.Word at this
    simp only [hd, if_true] at this
    rw [List.getElem_map, this.2]; rfl
  | false =>
    have hc : decide (form.code = 2 ∨ form.code = 5) = true := by
      obtain ⟨a, b, c⟩ := form; cases b <;> cases hd <;> rfl
    have hs : form.size = 4 := by unfold Form58.size; rw [hd]; rfl
    rw [hs] at hall hr
    rw [hc, if_pos rfl, byteGroups_flatten 4 (by decide) _ _ hall hr]
    refine List.ext_getElem (by simp [h.1]) fun i h1 h2 => ?_
    have := hw i (by simpa using h1) h2
    unfold Form58.Word at this
    simp only [hd, Bool.false_eq_true, if_false] at this
    rw [List.getElem_map, this.2]; rfl

/-- Reading a binary data-set. -/
theorem extract58_bin (b : Bytes) (d : Dict) (form : Form58) (mn inc : F64) (order : Int) (h : extract58 b true = .ok d)
    (h0 : d.get? "binary" = some (.int 1))
    (h1 : d.get? "ord_data_type" = some (.int form.code)) (h2 : d.get? "abscissa_spacing" = some (.int form.spacing))
    (h3 : d.get? "abscissa_min" = some (.float mn)) (h4 : d.get? "abscissa_inc" = some (.float inc))
    (h5 : d.get? "byte_ordering" = some (.int order))
    (heads words : List Bytes) (rest : Bytes) (hb : b = heads.flatten ++ (words.flatten ++ rest)) (hn : heads.length = 13)
    (hh : ∀ l ∈ heads, ByteLine l) (hr : rest.length < form.size) (l : List Sample)
    (hw : OneByOne (form.Word (decide (order = 1))) words (l.flatMap form.numbers))
    (hf : form.real = false → ∀ s ∈ l, s.re.finite = true ∧ s.im.finite = true) :
    extract58 b false = .ok ((d.set "x" (.arrF (form.abscissa mn inc l))).set "data" (form.ordinate l)) := by
  obtain ⟨d0, hd, he⟩ := extract58_full b d _ _ mn inc true h h0 h1 h2 h3 h4
  have hl : littleOf d0 = .ok (decide (order = 1)) := by
    rw [hd, Dict.get?_set_ne _ _ _ _ (by decide), Dict.get?_set_ne _ _ _ _ (by decide)] at h5
    unfold littleOf Dict.get
    rw [h5]
    rfl
  have hp : ((splitLinesKeepB b).drop 13).flatten = words.flatten ++ rest := by
    rw [hb, splitLinesKeepB_heads _ _ hh, ← hn, List.drop_left, splitLinesKeepB_flatten]
  simp only [if_true, hl, hp, binValues_eq form _ words _ rest hw hr, ok_bind] at he
  rw [he, assign_samples form d0 mn inc l hf, hd, set_body]; rfl

end Verif
