import Verif.Lemmas.Typed
import Verif.Lemmas.Shapes
import Verif.Spec.OneLine
/-
The texts that the readers return.
-/
namespace Verif

theorem space_iff (c : Char) : isSpace c = true ↔ c ∈ blankChars := by
  constructor
  · intro h
    have hc : Char.ofNat c.toNat = c := Char.ofNat_toNat c
    unfold isSpace at h
    simp only [Bool.or_eq_true, Bool.and_eq_true, decide_eq_true_eq, beq_iff_eq] at h
    rw [← hc]
    unfold blankChars
    refine List.mem_map.2 ⟨c.toNat, ?_, rfl⟩
    simp only [List.mem_cons, List.not_mem_nil, or_false]
    omega
  · intro h
    exact (by decide +kernel : ∀ c ∈ blankChars, isSpace c = true) c h

/-- A line: after a break there are only blanks. -/
def LineLike (l : Text) : Prop := ∃ a e, l = a ++ e ∧ NoBreak a ∧ ∀ c ∈ e, isSpace c = true

theorem LineLike.take {l : Text} (h : LineLike l) (n : Nat) : LineLike (l.take n) := by
  obtain ⟨a, e, rfl, h1, h2⟩ := h
  rw [List.take_append]
  exact ⟨_, _, rfl, fun c hc => h1 c (List.mem_of_mem_take hc), fun c hc => h2 c (List.mem_of_mem_take hc)⟩

theorem LineLike.drop {l : Text} (h : LineLike l) (n : Nat) : LineLike (l.drop n) := by
  obtain ⟨a, e, rfl, h1, h2⟩ := h
  rw [List.drop_append]
  exact ⟨_, _, rfl, fun c hc => h1 c (List.mem_of_mem_drop hc), fun c hc => h2 c (List.mem_of_mem_drop hc)⟩

theorem LineLike.append {l b : Text} (h : LineLike l) (hb : ∀ c ∈ b, isSpace c = true) : LineLike (l ++ b) := by
  obtain ⟨a, e, rfl, h1, h2⟩ := h
  refine ⟨a, e ++ b, by rw [List.append_assoc], h1, fun c hc => ?_⟩
  rcases List.mem_append.1 hc with hc | hc
  · exact h2 c hc
  · exact hb c hc

theorem LineLike.of_noBreak {l : Text} (h : NoBreak l) : LineLike l := ⟨l, [], by simp, h, by simp⟩

theorem LineLike.rstrip {l : Text} (h : LineLike l) : NoBreak (rstrip l) := by
  obtain ⟨a, e, rfl, h1, h2⟩ := h
  have : Verif.rstrip (a ++ e) = Verif.rstrip a := by
    unfold Verif.rstrip
    rw [List.reverse_append, List.dropWhile_append_of_pos (by simpa using h2)]
  rw [this]
  intro c hc
  unfold Verif.rstrip at hc
  rw [List.mem_reverse] at hc
  exact h1 c (List.mem_reverse.1 ((List.dropWhile_suffix _).subset hc))

theorem LineLike.lstrip {l : Text} (h : LineLike l) : LineLike (lstrip l) := by
  unfold Verif.lstrip
  have : ∃ n, l.dropWhile isSpace = l.drop n := by
    obtain ⟨t, ht⟩ := List.dropWhile_suffix (l := l) isSpace
    exact ⟨t.length, by conv => rhs; rw [← ht]
                        simp⟩
  obtain ⟨n, hn⟩ := this
  rw [hn]; exact h.drop n

theorem splitGen_line (keep : Bool) : ∀ (n : Nat) (acc t : Text), t.length ≤ n → NoBreak acc →
    ∀ l ∈ splitLinesGen '\r' '\n' isBreak keep acc t, LineLike l := by
  intro n
  induction n with
  | zero =>
    intro acc t ht ha l hl
    cases t with
    | cons c r => simp at ht
    | nil =>
      unfold splitLinesGen at hl
      split at hl
      · cases hl
      · rw [List.mem_singleton.1 hl]
        exact .of_noBreak fun c hc => ha c (List.mem_reverse.1 hc)
  | succ n ih =>
    intro acc t ht ha l hl
    have hr : NoBreak acc.reverse := fun c hc => ha c (List.mem_reverse.1 hc)
    have cons : ∀ c, isBreak c = false → NoBreak (c :: acc) := by
      intro c hc x hx
      rcases List.mem_cons.1 hx with rfl | hx
      · exact hc
      · exact ha x hx
    have one : ∀ c, isBreak c = true → LineLike (if keep then (c :: acc).reverse else acc.reverse) := by
      intro c hc
      split
      · refine ⟨acc.reverse, [c], by simp, hr, fun x hx => ?_⟩
        rw [List.mem_singleton.1 hx]; exact (by decide : ∀ c ∈ lineBreaks, isSpace c = true) c ((break_iff c).1 hc)
      · exact .of_noBreak hr
    match t with
    | [] =>
      unfold splitLinesGen at hl
      split at hl
      · cases hl
      · rw [List.mem_singleton.1 hl]
        exact .of_noBreak hr
    | [c] =>
      unfold splitLinesGen at hl
      split at hl
      · next hb => rw [List.mem_singleton.1 hl]; exact one c hb
      · next hb =>
        rw [List.mem_singleton.1 hl]
        exact .of_noBreak fun x hx => cons c (by simpa using hb) x (List.mem_reverse.1 hx)
    | c :: d :: cs =>
      unfold splitLinesGen at hl
      simp only [List.length_cons] at ht
      split at hl
      · next hb =>
        rcases List.mem_cons.1 hl with rfl | hl
        · obtain ⟨rfl, rfl⟩ := hb
          split
          · refine ⟨acc.reverse, ['\r', '\n'], by simp, hr, by decide⟩
          · exact .of_noBreak hr
        · exact ih [] cs (by omega) (by intro c hc; cases hc) l hl
      · split at hl
        · next hb =>
          rcases List.mem_cons.1 hl with rfl | hl
          · exact one c hb
          · exact ih [] (d :: cs) (by simp only [List.length_cons]; omega) (by intro c hc; cases hc) l hl
        · next hb => exact ih _ (d :: cs) (by simp only [List.length_cons]; omega) (cons c (by simpa using hb)) l hl

theorem lines_keep (t : Text) : ∀ l ∈ splitLinesKeep t, LineLike l :=
  splitGen_line true _ [] t (Nat.le_refl _) (by intro c hc; cases hc)
theorem lines_drop (t : Text) : ∀ l ∈ splitLines t, LineLike l :=
  splitGen_line false _ [] t (Nat.le_refl _) (by intro c hc; cases hc)

/-- What is known of the texts taken from fields of a line. -/
def Cell (Q : Text → Prop) : Prop := ∀ l a w, LineLike l → w ≤ 80 → Q (strip (slice l a (a + w)))

/-- All texts in the value. -/
def GV (Q : Text → Prop) (v : Val) : Prop := ∀ s, HasText v s → Q s
/-- All texts in the dictionary. -/
def Good (Q : Text → Prop) (d : Dict) : Prop := ∀ kv ∈ d, GV Q kv.2

section
variable {Q : Text → Prop}

theorem gv_none : GV Q .none := fun _ h => nomatch h
theorem gv_int (n : Int) : GV Q (.int n) := fun _ h => nomatch h
theorem gv_float (x : F64) : GV Q (.float x) := fun _ h => nomatch h
theorem gv_cplx (x y : F64) : GV Q (.cplx x y) := fun _ h => nomatch h
theorem gv_arrI (l : List Int) : GV Q (.arrI l) := fun _ h => nomatch h
theorem gv_arrF (l : List F64) : GV Q (.arrF l) := fun _ h => nomatch h
theorem gv_arrC (l : List (F64 × F64)) : GV Q (.arrC l) := fun _ h => nomatch h
theorem gv_mat (l : List (List F64)) : GV Q (.mat l) := fun _ h => nomatch h
theorem gv_str {s : Text} (h : Q s) : GV Q (.str s) := fun _ hs => by cases hs; exact h
theorem gv_list {l : List Val} (h : ∀ v ∈ l, GV Q v) : GV Q (.list l) := fun _ hs => by
  cases hs with | list hv hs => exact h _ hv _ hs
theorem gv_dict {d : Dict} (h : Good Q d) : GV Q (.dict d) := fun _ hs => by
  cases hs with | dict hv hs => exact h _ hv _ hs
theorem gv_list_inv {l : List Val} (h : GV Q (.list l)) : ∀ v ∈ l, GV Q v := fun _ hv s hs => h s (.list hv hs)
theorem gv_dict_inv {d : Dict} (h : GV Q (.dict d)) : Good Q d := fun kv hv s hs => h s (.dict (k := kv.1) (v := kv.2) hv hs)
theorem gv_ints (l : List Int) : GV Q (.list (l.map .int)) := gv_list fun v hv => by
  obtain ⟨n, _, rfl⟩ := List.mem_map.1 hv; exact gv_int n
theorem gv_floats (l : List F64) : GV Q (.list (l.map .float)) := gv_list fun v hv => by
  obtain ⟨n, _, rfl⟩ := List.mem_map.1 hv; exact gv_float n

theorem good_nil : Good Q [] := fun _ h => nomatch h
theorem good_cons {k : Key} {v : Val} {d : Dict} (hv : GV Q v) (hd : Good Q d) : Good Q ((k, v) :: d) := fun kv h => by
  rcases List.mem_cons.1 h with rfl | h
  · exact hv
  · exact hd kv h
theorem good_append {d e : Dict} (hd : Good Q d) (he : Good Q e) : Good Q (d ++ e) := fun kv h => by
  rcases List.mem_append.1 h with h | h
  · exact hd kv h
  · exact he kv h
theorem good_set {d : Dict} {k : Key} {v : Val} (hd : Good Q d) (hv : GV Q v) : Good Q (d.set k v) := by
  induction d with
  | nil => exact good_cons hv good_nil
  | cons kv r ih =>
    obtain ⟨k', v'⟩ := kv
    unfold Dict.set
    split
    · exact good_cons hv fun q hq => hd q (List.mem_cons_of_mem _ hq)
    · exact good_cons (hd _ (List.mem_cons_self ..)) (ih fun q hq => hd q (List.mem_cons_of_mem _ hq))
theorem good_update {d e : Dict} (hd : Good Q d) (he : Good Q e) : Good Q (d.update e) := by
  unfold Dict.update
  induction e generalizing d with
  | nil => exact hd
  | cons kv r ih =>
    rw [List.foldl_cons]
    exact ih (good_set hd (he _ (List.mem_cons_self ..))) fun q hq => he q (List.mem_cons_of_mem _ hq)
theorem good_del {d e : Dict} {k : Key} (hd : Good Q d) (h : d.del k = .ok e) : Good Q e := by
  induction d generalizing e with
  | nil => cases h
  | cons kv r ih =>
    obtain ⟨k', v⟩ := kv
    unfold Dict.del at h
    split at h
    · cases h; exact fun q hq => hd q (List.mem_cons_of_mem _ hq)
    · split at h
      · next r' hr =>
        cases h
        exact good_cons (hd _ (List.mem_cons_self ..)) (ih (fun q hq => hd q (List.mem_cons_of_mem _ hq)) hr)
      · cases h
theorem good_get? {d : Dict} {k : Key} {v : Val} (hd : Good Q d) (h : d.get? k = some v) : GV Q v := by
  induction d with
  | nil => cases h
  | cons kv r ih =>
    obtain ⟨k', v'⟩ := kv
    unfold Dict.get? at h
    split at h
    · cases h; exact hd _ (List.mem_cons_self ..)
    · exact ih (fun q hq => hd q (List.mem_cons_of_mem _ hq)) h

theorem cut_cells (hQ : Cell Q) {l : Text} (hl : LineLike l) : ∀ (ws : List Nat) (si : Nat), (∀ w ∈ ws, w ≤ 80) →
    ∀ s ∈ cutFields l si ws, Q s
  | [], _, _, s, hs => by cases hs
  | w :: ws, si, hw, s, hs => by
    unfold cutFields at hs
    rcases List.mem_cons.1 hs with rfl | hs
    · exact hQ l si w hl (hw w (List.mem_cons_self ..))
    · exact cut_cells hQ hl ws _ (fun x hx => hw x (List.mem_cons_of_mem _ hx)) s hs

theorem cell_nil (hQ : Cell Q) : Q [] := hQ [] 0 0 (.of_noBreak fun _ h => nomatch h) (by decide)

theorem headerLoop_good (hQ : Cell Q) : ∀ (m : Nat) (tys : List FTy) (ks : List Key) (ss : List Text) (acc e : Dict),
    (∀ s ∈ ss, Q s) → Good Q acc → headerLoop m tys ks ss acc = .ok e → Good Q e
  | m, tys, [], ss, acc, e, _, ha, h => by unfold headerLoop at h; cases h; exact ha
  | m, tys, k :: ks, [], acc, e, _, ha, h => by unfold headerLoop at h; cases h; exact ha
  | m, [], k :: ks, s :: ss, acc, e, _, _, h => by unfold headerLoop at h; cases h
  | m, ty :: tys, k :: ks, s :: ss, acc, e, hs, ha, h => by
    have hs' : ∀ x ∈ ss, Q x := fun x hx => hs x (List.mem_cons_of_mem _ hx)
    have hd : GV Q (headerDefault ty) := by
      cases ty
      · exact gv_str (cell_nil hQ)
      · exact gv_int _
      · exact gv_float _
      · exact gv_float _
    unfold headerLoop at h
    split at h
    · exact headerLoop_good hQ _ _ _ _ _ _ hs' ha h
    · next v hv =>
      refine headerLoop_good hQ _ _ _ _ _ _ hs' (good_set ha ?_) h
      cases ty with
      | ign => cases hv
      | str => cases hv; exact gv_str (hs s (List.mem_cons_self ..))
      | int =>
        unfold headerField at hv
        cases hp : pyInt s with
        | ok n => rw [hp] at hv; cases hv; exact gv_int n
        | error x => rw [hp] at hv; cases hv
      | flt =>
        unfold headerField at hv
        cases hp : pyFloat s with
        | ok n => rw [hp] at hv; cases hv; exact gv_float n
        | error x => rw [hp] at hv; cases hv
    · split at h
      · exact headerLoop_good hQ _ _ _ _ _ _ hs' (good_set ha hd) h
      · cases h

theorem parseHeader_good (hQ : Cell Q) {l : Text} (hl : LineLike l) {m : Nat} {ws : List Nat} {tys : List FTy} {ks : List Key}
    {e : Dict} (hw : ∀ w ∈ ws, w ≤ 80) (h : parseHeader l m ws tys ks = .ok e) : Good Q e := by
  unfold parseHeader at h
  dsimp only at h
  have hl' : LineLike (if l.length < 80 then l ++ blanks (80 - l.length) else l) := by
    split
    · refine hl.append fun c hc => ?_
      have := List.eq_of_mem_replicate hc
      rw [this]; decide
    · exact hl
  generalize (if l.length < 80 then l ++ blanks (80 - l.length) else l) = l' at h hl'
  split at h
  · cases h
  · exact headerLoop_good hQ _ _ _ _ _ _ (cut_cells hQ hl' ws 0 hw) good_nil h

/-- A header line taken from a list of lines. -/
theorem good_line (hQ : Cell Q) {β} {P : β → Prop} {ls : List Text} (hl : ∀ l ∈ ls, LineLike l) {i m : Nat} {ws : List Nat}
    {tys : List FTy} {ks : List Key} {f : Dict → Res β} (hw : ∀ w ∈ ws, w ≤ 80) (h : ∀ e, Good Q e → Returns P (f e)) :
    Returns P ((orIndex ls[i]?) >>= fun l => parseHeader l m ws tys ks >>= f) := by
  refine returns_bind fun l hl' => returns_bind fun e he => h e (parseHeader_good hQ (hl l ?_) hw he)
  unfold orIndex at hl'
  split at hl'
  · next h' => cases hl'; exact List.mem_of_getElem? h'
  · cases hl'

end

/-- One record after the other. -/
macro "good_heads " hQ:term ", " hl:term : tactic => `(tactic| (repeat' (first
  | (with_reducible refine good_line $hQ $hl (by decide) fun _ _ => ?_)
  | (with_reducible refine returns_bind fun _ _ => ?_))))

/-- A dictionary put together from records. -/
macro "goods" : tactic => `(tactic| (repeat' (first
  | assumption
  | (exact gv_int _)
  | (exact gv_float _)
  | (exact gv_arrF _)
  | (exact gv_arrI _)
  | (exact gv_arrC _)
  | (exact gv_ints _)
  | (exact gv_floats _)
  | (exact gv_mat _)
  | (exact gv_none)
  | (exact good_nil)
  | (refine good_update ?_ ?_)
  | (refine good_set ?_ ?_)
  | (refine good_cons ?_ ?_))))

section
variable {Q : Text → Prop}

theorem good15 (t : Text) : Returns (Good Q) (extract15 t) := by
  refine returns_guard (returns_bind fun _ _ => returns_ok ?_)
  goods

theorem good2411 (t : Text) : Returns (Good Q) (extract2411 t) := by
  refine returns_guard (returns_bind fun _ _ => returns_ok ?_)
  goods

theorem good82 (hQ : Cell Q) (t : Text) : Returns (Good Q) (extract82 t) := by
  refine returns_guard ?_
  good_heads hQ, lines_keep t
  refine returns_ok ?_
  goods

theorem good151 (hQ : Cell Q) (t : Text) : Returns (Good Q) (extract151 t) := by
  refine returns_guard ?_
  good_heads hQ, lines_keep t
  refine returns_ok ?_
  goods

theorem good164 (hQ : Cell Q) (t : Text) : Returns (Good Q) (extract164 t) := by
  refine returns_guard ?_
  good_heads hQ, lines_keep t
  refine returns_ok ?_
  goods

theorem good1858 (hQ : Cell Q) (t : Text) : Returns (Good Q) (extract1858 t) := by
  refine returns_guard ?_
  good_heads hQ, fun l hl => lines_keep t l (List.mem_of_mem_take hl)
  refine returns_ok ?_
  goods

theorem good2400 (hQ : Cell Q) (t : Text) : Returns (Good Q) (extract2400 t) := by
  refine returns_guard ?_
  good_heads hQ, lines_keep t
  refine returns_ok ?_
  goods

theorem gv_vstack3 {a b c : List F64} {v : Val} (h : vstack3T a b c = .ok v) : GV Q v := by
  unfold vstack3T at h
  split at h
  · cases h; exact gv_mat _
  · cases h

theorem good18 (h18 : ∀ l, LineLike l → Q (strip l)) (t : Text) : Returns (Good Q) (extract18 t) := by
  refine returns_guard ?_
  refine returns_bind fun _ _ => returns_bind fun _ _ => returns_bind fun _ h1 => returns_bind fun _ h2 =>
    returns_bind fun _ _ => returns_bind fun _ h3 => returns_ok ?_
  have e1 := gv_vstack3 (Q := Q) h1
  have e2 := gv_vstack3 (Q := Q) h2
  have e3 := gv_vstack3 (Q := Q) h3
  goods
  refine gv_list fun v hv => ?_
  obtain ⟨l, hl, rfl⟩ := List.mem_map.1 hv
  exact gv_str (h18 l (lines_drop t l (everyAux_mem _ _ _ l hl)))

theorem gv_vstack4 {a b c e : List F64} {v : Val} (h : vstack4 a b c e = .ok v) : GV Q v := by
  unfold vstack4 at h
  split at h
  · cases h; exact gv_mat _
  · cases h

theorem good2420 (h24 : ∀ l, LineLike l → Q (rstrip l)) (t : Text) : Returns (Good Q) (extract2420 t) := by
  unfold extract2420
  refine returns_bind fun _ _ => returns_bind fun _ _ => returns_bind fun l3 h3 => returns_bind fun _ _ => returns_bind fun _ _ =>
    returns_bind fun _ _ => returns_bind fun _ _ => returns_bind fun _ _ => returns_bind fun ms hms => returns_ok ?_
  have hl : LineLike l3 := by
    unfold orIndex at h3
    split at h3
    · next h' => cases h3; exact lines_keep t _ (List.mem_of_getElem? h')
    · cases h3
  goods
  · exact gv_str (h24 _ hl)
  · refine gv_list fun v hv => ?_
    obtain ⟨l, hl, rfl⟩ := List.mem_map.1 hv
    exact gv_str (h24 l (lines_keep t l (everyAux_mem _ _ _ l hl)))
  · refine gv_list fun v hv => ?_
    obtain ⟨k, _, hk⟩ := Shapes.mapRes_all hms v hv
    exact gv_vstack4 hk

theorem good_groupHead (hQ : Cell Q) {l1 l2 : Text} (h1 : LineLike l1) (h2 : LineLike l2) :
    Returns (Good Q) (groupHead l1 l2) := by
  unfold groupHead
  refine returns_bind fun _ e1 => returns_bind fun _ e2 => returns_ok ?_
  exact good_update (good_update good_nil (parseHeader_good hQ h1 (by decide) e1)) (parseHeader_good hQ h2 (by decide) e2)

theorem good_groups2429 (hQ : Cell Q) : ∀ (n : Nat) (ls : List Text), (∀ l ∈ ls, LineLike l) →
    Returns (fun vs : List Val => ∀ v ∈ vs, GV Q v) (groups2429 n ls) := by
  intro n
  induction n with
  | zero =>
    intro ls _
    unfold groups2429
    split
    · exact returns_ok (by simp)
    · exact returns_error
  | succ n ih =>
    intro ls hl
    unfold groups2429
    split
    · next l1 l2 l3 r =>
      refine returns_bind fun g hg => returns_bind fun _ _ => returns_bind fun _ _ => ?_
      have := good_groupHead hQ (hl _ (by simp)) (hl _ (by simp)) g hg
      dsimp only
      split
      · exact returns_error
      · refine returns_bind fun r hr => returns_ok fun v hv => ?_
        rcases List.mem_cons.1 hv with rfl | hv
        · refine gv_dict ?_
          goods
        · exact ih _ (fun l h => hl l (List.mem_of_mem_drop h)) r hr v hv
    · exact returns_ok (by simp)

theorem good_groups2467 (hQ : Cell Q) : ∀ (n : Nat) (ls : List Text), (∀ l ∈ ls, LineLike l) →
    Returns (fun vs : List Val => ∀ v ∈ vs, GV Q v) (groups2467 n ls) := by
  intro n
  induction n with
  | zero =>
    intro ls _
    unfold groups2467
    split
    · exact returns_ok (by simp)
    · exact returns_error
  | succ n ih =>
    intro ls hl
    unfold groups2467
    split
    · exact returns_ok (by simp)
    · next l1 r =>
      refine returns_bind fun l2 h2 => returns_bind fun g hg => returns_bind fun _ _ => returns_bind fun _ _ => ?_
      have h2' : LineLike l2 := by
        unfold orIndex at h2
        split at h2
        · next h' => cases h2; exact hl _ (List.mem_cons_of_mem _ (List.mem_of_getElem? h'))
        · cases h2
      have := good_groupHead hQ (hl _ (by simp)) h2' g hg
      dsimp only
      split
      · exact returns_error
      · refine returns_bind fun r hr => returns_ok fun v hv => ?_
        rcases List.mem_cons.1 hv with rfl | hv
        · refine gv_dict ?_
          goods
        · exact ih _ (fun l h => hl l (List.mem_of_mem_drop h)) r hr v hv

theorem good2429 (hQ : Cell Q) (t : Text) : Returns (Good Q) (extract2429 t) := by
  refine returns_guard (returns_bind fun gs hg => returns_ok ?_)
  have := good_groups2429 hQ _ _ (fun l h => lines_drop t l (List.mem_of_mem_drop h)) gs hg
  goods
  exact gv_list this

theorem good2467 (hQ : Cell Q) (t : Text) : Returns (Good Q) (extract2467 t) := by
  unfold extract2467
  refine returns_bind fun gs hg => returns_ok ?_
  have := good_groups2467 hQ _ _ (fun l h => lines_keep t l (List.mem_of_mem_drop h)) gs hg
  have e : GV Q (.list []) := gv_list (by simp)
  goods
  exact gv_list this

/-! ### Elements -/

theorem good_elemHead (l : List Text) : Returns (fun p : Int × Dict => Good Q p.2) (elemHead l) := by
  unfold elemHead
  refine returns_bind fun _ _ => returns_bind fun _ _ => returns_bind fun _ _ => returns_bind fun _ _ => returns_bind fun _ _ =>
    returns_bind fun _ _ => returns_ok ?_
  goods

theorem good_elemBeam (l : List Text) : Returns (Good Q) (elemBeam l) := by
  unfold elemBeam
  refine returns_bind fun _ _ => returns_bind fun _ _ => returns_bind fun _ _ => returns_ok ?_
  goods

theorem good_elemNodes (l : List Text) : Returns (Good Q) (elemNodes l) := by
  unfold elemNodes
  refine returns_bind fun _ _ => returns_ok ?_
  goods

theorem good_readElems (n : Nat) : ∀ ls : List (List Text), ls.length ≤ n →
    Returns (fun es : List (Int × Dict) => ∀ e ∈ es, Good Q e.2) (readElems ls) := by
  induction n with
  | zero =>
    intro ls hl
    cases ls with
    | nil => unfold readElems; exact returns_ok (by simp)
    | cons _ _ => simp at hl
  | succ n ih =>
    intro ls hl
    cases ls with
    | nil => unfold readElems; exact returns_ok (by simp)
    | cons l ls =>
      simp only [List.length_cons] at hl
      unfold readElems
      split
      · exact returns_error
      · next fe h hh =>
        have gh : Good Q h := good_elemHead l _ hh
        split
        · split
          · next b m rest =>
            simp only [List.length_cons] at hl
            split
            · next bd nd hb hn =>
              split
              · next r hr =>
                refine returns_ok fun e he => ?_
                rcases List.mem_cons.1 he with rfl | he
                · exact good_append (good_append gh (good_elemBeam _ _ hb)) (good_elemNodes _ _ hn)
                · exact ih rest (by omega) r hr e he
              · exact returns_error
            · exact returns_error
            · exact returns_error
          · exact returns_error
        · split
          · next m rest =>
            simp only [List.length_cons] at hl
            split
            · next nd hn =>
              split
              · next r hr =>
                refine returns_ok fun e he => ?_
                rcases List.mem_cons.1 he with rfl | he
                · exact good_append gh (good_elemNodes _ _ hn)
                · exact ih rest (by omega) r hr e he
              · exact returns_error
            · exact returns_error
          · exact returns_error

theorem good_addElem {d : Dict} {e : Int × Dict} (hd : Good Q d) (he : Good Q e.2) : Good Q (addElem d e) := by
  unfold addElem
  split
  · exact good_set hd (gv_list fun v hv => by rw [List.mem_singleton.1 hv]; exact gv_dict he)
  · next l hl =>
    refine good_set hd (gv_list fun v hv => ?_)
    rcases List.mem_append.1 hv with hv | hv
    · exact gv_list_inv (good_get? hd hl) v hv
    · rw [List.mem_singleton.1 hv]; exact gv_dict he
  · exact hd

theorem good_addElems : ∀ (es : List (Int × Dict)) (d : Dict), (∀ e ∈ es, Good Q e.2) → Good Q d → Good Q (es.foldl addElem d)
  | [], _, _, hd => hd
  | e :: es, d, he, hd => by
    rw [List.foldl_cons]
    exact good_addElems es _ (fun x hx => he x (List.mem_cons_of_mem _ hx)) (good_addElem hd (he e (List.mem_cons_self ..)))

theorem good_items {v : Val} (hv : GV Q v) : Returns (fun l : List Val => ∀ d, Val.dict d ∈ l → Good Q d) v.items := by
  intro l hl
  cases v with
  | list l' => cases hl; exact fun d hd => gv_dict_inv (gv_list_inv hv _ hd)
  | arrI l' => cases hl; intro d hd; simp at hd
  | arrF l' => cases hl; intro d hd; simp at hd
  | arrC l' => cases hl; intro d hd; simp at hd
  | mat l' => cases hl; intro d hd; simp at hd
  | str l' => cases hl; intro d hd; simp at hd
  | _ => cases hl

theorem good_legacy {l : List Val} (hl : ∀ d, Val.dict d ∈ l → Good Q d) : ∀ ks : List String, Returns (Good Q) (legacy l ks)
  | [] => by unfold legacy; exact returns_ok good_nil
  | k :: ks => by
    unfold legacy
    refine returns_bind fun vs hvs => returns_bind fun r hr => returns_ok (good_cons (gv_list fun v hv => ?_) (good_legacy hl ks r hr))
    obtain ⟨e, he, h⟩ := Shapes.mapRes_all hvs v hv
    unfold Val.getK at h
    split at h
    · next d =>
      unfold Dict.get at h
      split at h
      · next hg => cases h; exact good_get? (hl _ he) hg
      · cases h
    · cases h
    · cases h
    · cases h
    · cases h
    · cases h

theorem good_addLegacy {d : Dict} (hd : Good Q d) (n : Int) (name : String) : Returns (Good Q) (addLegacy d n name) := by
  unfold addLegacy
  split
  · exact returns_ok hd
  · next v hv =>
    refine returns_bind fun l hl => returns_bind fun r hr => returns_ok (good_set hd (gv_dict ?_))
    exact good_legacy (good_items (good_get? hd hv) l hl) _ r hr

theorem good2412 (t : Text) : Returns (Good Q) (extract2412 t) := by
  refine returns_guard (returns_bind fun es hes => returns_bind fun d hd => ?_)
  have h0 : Good Q (es.foldl addElem [("type", .int 2412)]) :=
    good_addElems es _ (good_readElems _ _ (Nat.le_refl _) es hes) (by goods)
  exact good_addLegacy (good_addLegacy h0 _ _ d hd) _ _

/-! ### Data at nodes -/

theorem gv_cplxKeys {d : Dict} {a b : Key} {v : Val} (h : cplxKeys d a b = .ok v) : GV Q v := by
  unfold cplxKeys at h
  split at h <;> cases h
  exact gv_cplx _ _

theorem good_joinParts {d : Dict} (hd : Good Q d) : Returns (Good Q) (joinParts d) := by
  unfold joinParts
  refine returns_bind fun _ h1 => returns_bind fun _ h2 => returns_bind fun _ h3 => ?_
  have e1 := gv_cplxKeys (Q := Q) h1
  have e2 := gv_cplxKeys (Q := Q) h2
  have e3 := gv_cplxKeys (Q := Q) h3
  refine returns_bind fun _ g1 => returns_bind fun _ g2 => returns_bind fun _ g3 => returns_bind fun _ g4 =>
    returns_bind fun _ g5 => fun e g6 => ?_
  refine good_del (good_del (good_del (good_del (good_del (good_del ?_ g1) g2) g3) g4) g5) g6
  goods

theorem good_head55 (hQ : Cell Q) {ls : List Text} (hl : ∀ l ∈ ls, LineLike l) {d : Dict} (hd : Good Q d) :
    Returns (Good Q) (readHead55 ls d) := by
  unfold readHead55
  refine returns_bind fun a _ => returns_bind fun an _ => ?_
  split
  · good_heads hQ, hl
    refine returns_ok ?_
    goods
  · refine good_line hQ hl (by decide) fun e8 g8 => good_line hQ hl (by decide) fun e9 g9 => ?_
    exact good_joinParts (by goods)
  · good_heads hQ, hl
    refine returns_ok ?_
    goods
  · exact returns_ok hd

theorem gv_asIntArray {l : List Int} {v : Val} (h : asIntArray l = .ok v) : GV Q v := by
  unfold asIntArray at h
  split at h
  · cases h; exact gv_arrF _
  · split at h
    · cases h; exact gv_arrI _
    · cases h

theorem gv_cplxCols {l : List F64} {a b : Nat} {v : Val} (h : cplxCols l a b = .ok v) : GV Q v := by
  unfold cplxCols at h
  dsimp only at h
  split at h
  · cases h; exact gv_arrC _
  · split at h
    · cases h; exact gv_arrC _
    · cases h; exact gv_arrC _
    · cases h

theorem good_body55 (t : Text) {d : Dict} (hd : Good Q d) : Returns (Good Q) (readBody55 t d) := by
  unfold readBody55
  refine returns_bind fun _ _ => returns_bind fun _ hn => returns_bind fun _ _ => returns_bind fun _ _ => returns_bind fun _ _ => ?_
  have e0 := gv_asIntArray (Q := Q) hn
  split
  · split
    · exact returns_ok (by goods)
    · exact returns_ok (by goods)
  · split
    · split
      · refine returns_bind fun _ h1 => returns_bind fun _ h2 => returns_bind fun _ h3 => ?_
        have e1 := gv_cplxCols (Q := Q) h1
        have e2 := gv_cplxCols (Q := Q) h2
        have e3 := gv_cplxCols (Q := Q) h3
        exact returns_ok (by goods)
      · exact returns_error
    · exact returns_error

theorem good55 (hQ : Cell Q) (t : Text) : Returns (Good Q) (extract55 t) := by
  refine returns_guard ?_
  have hl := lines_keep t
  refine good_line hQ hl (by decide) fun e2 g2 => good_line hQ hl (by decide) fun e3 g3 => good_line hQ hl (by decide) fun e4 g4 =>
    good_line hQ hl (by decide) fun e5 g5 => good_line hQ hl (by decide) fun e6 g6 => good_line hQ hl (by decide) fun e7 g7 =>
    returns_bind fun d hd => ?_
  exact good_body55 _ (good_head55 hQ hl (by goods) d hd)

/-! ### Functions -/

theorem good_units (hQ : Cell Q) {β} {P : β → Prop} {ls : List Text} (hl : ∀ l ∈ ls, LineLike l) {i : Nat} {k : UnitKeys}
    {f : Dict → Res β} (h : ∀ e, Good Q e → Returns P (f e)) : Returns P (readUnits (orIndex ls[i]?) k >>= f) := by
  refine returns_bind fun e he => h e ?_
  unfold readUnits at he
  split at he
  · cases he
  · next l hl' =>
    unfold orIndex at hl'
    split at hl'
    · next h' => cases hl'; exact parseHeader_good hQ (hl _ (List.mem_of_getElem? h')) (by decide) he
    · cases hl'

theorem good_id58 (hQ : Cell Q) {l : Text} (hl : LineLike l) : Returns (Good Q) (idEntries58 l) := by
  unfold idEntries58
  dsimp only
  split
  · split
    · next e he =>
      have := parseHeader_good hQ hl (by decide) he
      exact returns_ok (by goods)
    · exact returns_error
  · exact returns_ok (by goods)

theorem good_readHead58 (hQ : Cell Q) {ls : List Text} (hl : ∀ l ∈ ls, LineLike l) :
    Returns (fun p : Bool × Dict => Good Q p.2) (readHead58 ls) := by
  unfold readHead58
  refine returns_bind fun l hl1 => returns_bind fun d hd => ?_
  have hl' : LineLike l := by
    unfold orIndex at hl1
    split at hl1
    · next h' => cases hl1; exact hl _ (List.mem_of_getElem? h')
    · cases hl1
  have gd := good_id58 hQ hl' d hd
  refine good_line hQ hl (by decide) fun e2 g2 => good_line hQ hl (by decide) fun e3 g3 => good_line hQ hl (by decide) fun e4 g4 =>
    good_line hQ hl (by decide) fun e5 g5 => good_line hQ hl (by decide) fun e6 g6 => good_line hQ hl (by decide) fun e7 g7 =>
    good_line hQ hl (by decide) fun e8 g8 => good_units hQ hl fun e9 g9 => good_units hQ hl fun e10 g10 =>
    good_units hQ hl fun e11 g11 => good_units hQ hl fun e12 g12 => returns_ok ?_
  show Good Q _
  goods

theorem good_assign58 {d : Dict} (hd : Good Q d) (odt sp : Int) (mn inc : F64) (v : List F64) :
    Good Q (assign58 d odt sp mn inc v) := by
  unfold assign58
  dsimp only
  split
  · split <;> goods
  · split
    · split <;> goods
    · exact hd

theorem good58 (hQ : Cell Q) (b : Bytes) (header : Bool) : Returns (Good Q) (extract58 b header) := by
  refine returns_guard (returns_bind fun p hp => ?_)
  obtain ⟨b, d⟩ := p
  have gd : Good Q d := good_readHead58 hQ (lines_keep _) _ hp
  dsimp only
  split
  · exact returns_ok (by goods)
  · refine returns_bind fun q _ => ?_
    obtain ⟨odt, sp, mn, inc⟩ := q
    split
    · split <;> exact returns_bind fun v _ => returns_ok (good_assign58 gd odt sp mn inc v)
    · exact returns_bind fun v _ => returns_ok (good_assign58 gd odt sp mn inc v)

/-! ### Results -/

theorem gv_cplxBroadcast {a b : List F64} {v : Val} (h : cplxBroadcast a b = .ok v) : GV Q v := by
  unfold cplxBroadcast at h
  split at h
  · cases h; exact gv_arrC _
  · split at h
    · cases h; exact gv_arrC _
    · cases h; exact gv_arrC _
    · cases h

theorem good_freqData (c : Int) (ls : List Text) : Returns (Good Q) (readFreqData c ls) := by
  have hy : ∀ (p : Prop) [Decidable p] (k : Key) (a b : List F64), Returns (Good Q)
      (if p then (cplxBroadcast a b).map fun v => [(k, v)] else .ok []) := by
    intro p _ k a b
    split
    · intro d hd
      cases hr : cplxBroadcast a b with
      | ok v => rw [hr] at hd; cases hd; exact good_cons (gv_cplxBroadcast hr) good_nil
      | error x => rw [hr] at hd; cases hd
    · exact returns_ok good_nil
  unfold readFreqData
  refine returns_bind fun _ _ => ?_
  dsimp only
  split
  · refine returns_bind fun _ _ => returns_bind fun _ h1 => returns_ok ?_
    have := gv_cplxBroadcast (Q := Q) h1
    goods
  · refine returns_bind fun _ _ => returns_bind fun _ h1 => returns_bind fun y h2 => returns_bind fun z h3 => returns_ok ?_
    have e1 := gv_cplxBroadcast (Q := Q) h1
    refine good_append ?_ (good_append (hy _ _ _ _ y h2) (hy _ _ _ _ z h3))
    goods

theorem gv_floatLists {ls : List Text} {vs : List Val} (h : floatLists ls = .ok vs) : ∀ v ∈ vs, GV Q v := by
  intro v hv
  obtain ⟨l, _, h⟩ := Shapes.mapRes_all h v hv
  cases hr : mapRes pyFloat (splitWs l) with
  | ok x => rw [hr] at h; cases h; exact gv_arrF _
  | error x => rw [hr] at h; cases h

theorem good_elemLoop : ∀ (n : Nat) (ls : List Text),
    Returns (fun es : List ((Int × Int × Int × Int) × Val) => ∀ e ∈ es, GV Q e.2) (elemLoop n ls) := by
  intro n
  induction n with
  | zero =>
    intro ls
    cases ls with
    | nil => unfold elemLoop; exact returns_ok (by simp)
    | cons _ _ => unfold elemLoop; exact returns_error
  | succ n ih =>
    intro ls
    cases ls with
    | nil => unfold elemLoop; exact returns_ok (by simp)
    | cons l ls =>
      unfold elemLoop
      refine returns_bind fun _ _ => ?_
      dsimp only
      split
      · exact returns_error
      · refine returns_bind fun v hv => returns_bind fun r hr => returns_ok fun e he => ?_
        rcases List.mem_cons.1 he with rfl | he
        · exact gv_list (gv_floatLists hv)
        · exact ih _ r hr e he

theorem good_plainData (loc : Int) (ls : List Text) : Returns (Good Q) (readPlainData loc ls) := by
  unfold readPlainData
  split
  · refine returns_bind fun _ h1 => returns_bind fun _ _ => returns_ok ?_
    have := gv_list (gv_floatLists (Q := Q) h1)
    goods
  split
  · refine returns_bind fun _ h1 => returns_bind fun _ _ => returns_bind fun _ _ => returns_ok ?_
    have := gv_list (gv_floatLists (Q := Q) h1)
    goods
  split
  · unfold readElemNodes
    refine returns_bind fun es hes => returns_bind fun _ _ => returns_bind fun _ _ => returns_bind fun _ _ =>
      returns_bind fun _ _ => returns_ok ?_
    have : GV Q (.list (es.map (·.2))) := gv_list fun v hv => by
      obtain ⟨e, he, rfl⟩ := List.mem_map.1 hv
      exact good_elemLoop _ _ es hes e he
    goods
  · exact returns_ok good_nil

theorem good2414 (hQ : Cell Q) (t : Text) : Returns (Good Q) (extract2414 t) := by
  have hl : ∀ l ∈ (splitLinesKeep t).take 15, LineLike l := fun l h => lines_keep t l (List.mem_of_mem_take h)
  refine returns_guard (returns_bind fun d hd => ?_)
  have gd : Good Q d := by
    refine (?_ : Returns (Good Q) (readHead2414 _)) d hd
    unfold readHead2414
    good_heads hQ, hl
    exact returns_ok (by goods)
  refine returns_bind fun q _ => ?_
  obtain ⟨loc, a, dt, c⟩ := q
  dsimp only
  split
  · refine returns_bind fun h hh => returns_bind fun e he => returns_ok ?_
    have gh : Good Q h := by
      refine (?_ : Returns (Good Q) (readFreqHead _)) h hh
      unfold readFreqHead
      good_heads hQ, hl
      exact returns_ok (by goods)
    have ge : Good Q e := by
      split at he
      · exact good_freqData _ _ e he
      · cases he; exact good_nil
    goods
  · refine returns_bind fun h hh => returns_bind fun e he => returns_ok ?_
    have gh : Good Q h := by
      refine (?_ : Returns (Good Q) (readPlainHead _)) h hh
      unfold readPlainHead
      good_heads hQ, hl
      exact returns_ok (by goods)
    have ge := good_plainData (Q := Q) _ _ e he
    goods

end
end Verif
