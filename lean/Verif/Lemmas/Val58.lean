import Verif.Lemmas.Bin58
/-
The numbers of a data-set 58, written and read.
-/
namespace Verif
namespace DS58

/-- A point: abscissa and ordinate. -/
abbrev Pt58 := F64 × Cplx

/-- Numbers stored for a point. -/
def nums (real even : Bool) (p : Pt58) : List F64 :=
  (if even then [] else [p.1]) ++ (p.2.1 :: if real then [] else [p.2.2])

/-- The formats of a point. -/
def fmts (double real even : Bool) : List (Nat × Nat) :=
  let w := if double then (20, 11) else (13, 5)
  (if even then [] else [(13, 5)]) ++ (w :: if real then [] else [w])

/-- Points per line. -/
def perLine (double real even : Bool) : Nat :=
  if double then (if even then if real then 4 else 2 else if real then 2 else 1)
  else (if even then if real then 6 else 3 else if real then 3 else 2)

theorem lineFmt_eq (double real even : Bool) :
    lineFmt double real even = (List.replicate (perLine double real even) (fmts double real even)).flatten := by
  cases double <;> cases real <;> cases even <;> rfl

theorem nums_length (double real even : Bool) (p : Pt58) : (nums real even p).length = (fmts double real even).length := by
  cases double <;> cases real <;> cases even <;> rfl

theorem fmts_pos (double real even : Bool) : 0 < (fmts double real even).length := by
  cases double <;> cases real <;> cases even <;> decide

theorem perLine_pos (double real even : Bool) : 0 < perLine double real even := by
  cases double <;> cases real <;> cases even <;> decide

/-- The ordinate is real. -/
def isReal : Ord58 → Bool
  | .real _ => true
  | .cplx _ => false

/-- The ordinate as complex numbers. -/
def ys : Ord58 → List Cplx
  | .real l => l.map fun x => (x, F64.zero)
  | .cplx l => l

/-- The points. -/
def pts (r : DS58) : List Pt58 :=
  if r.even then (ys r.ord).map fun z => (F64.zero, z) else r.abscissaVals.zip (ys r.ord)

theorem count_eq (r : DS58) : r.count = (ys r.ord).length := by
  unfold count ys; cases r.ord <;> simp

theorem pts_length (r : DS58) (h : r.even = false → r.abscissaVals.length = r.count) : r.pts.length = r.count := by
  unfold pts
  cases he : r.even with
  | true => simp [count_eq]
  | false =>
    have := h he
    rw [count_eq] at this ⊢
    simp only [Bool.false_eq_true, if_false, List.length_zip]; omega

theorem stored_eq (r : DS58) : r.stored = r.pts.flatMap (nums (isReal r.ord) r.even) := by
  unfold stored pts
  cases ho : r.ord with
  | real l =>
    cases he : r.even with
    | true => simp [nums, isReal, ys, List.flatMap_map]
    | false =>
      simp only [nums, isReal, ys, Bool.false_eq_true, if_false, if_true, List.zip_map_right, List.flatMap_map]
      rfl
  | cplx l =>
    cases he : r.even with
    | true => simp [nums, isReal, ys, List.flatMap_map]
    | false => rfl

theorem ordinate_eq (o : Ord58) : (match o with | .real l => ordinate58 (.arrF l) | .cplx l => ordinate58 (.arrC l))
    = .ok (ys o) := by
  cases o <;> rfl

/-- The abscissa given to the writer, when it matters. -/
theorem interleave_eq (r : DS58) (x : Val) (hx : r.even = false → x.floats = .ok r.abscissaVals)
    (hl : r.even = false → r.abscissaVals.length = r.count) :
    interleave58 (isReal r.ord) r.even x (ys r.ord) = .ok r.stored := by
  unfold interleave58 stored
  cases he : r.even with
  | true =>
    simp only [if_true]
    cases ho : r.ord with
    | real l =>
      simp only [isReal, ys, if_true, List.map_map]
      rw [show ((fun z : F64 × F64 => z.1) ∘ fun x => (x, F64.zero)) = id from rfl, List.map_id]
    | cplx l => simp [isReal, ys]
  | false =>
    simp only [Bool.false_eq_true, if_false, hx he]
    rw [if_pos (by rw [hl he, count_eq])]
    cases ho : r.ord with
    | real l =>
      simp only [isReal, ys, if_true, List.zip_map_right, List.flatMap_map]
      rfl
    | cplx l => simp [isReal, ys]

/-- What is kept of a point. -/
def keep (s : Store58) (p : Pt58) : Pt58 := (keepX s p.1, (keepY s p.2.1, keepY s p.2.2))

theorem quants_eq (double real even : Bool) (p : Pt58) :
    quants (fmts double real even) (nums real even) p = nums real even (keep (.ascii double) p) := by
  cases double <;> cases real <;> cases even <;> rfl

/-- Finite points. -/
def FinPt (p : Pt58) : Prop := p.1.finite = true ∧ p.2.1.finite = true ∧ p.2.2.finite = true

theorem nums_finite (real even : Bool) (p : Pt58) (h : FinPt p) : ∀ x ∈ nums real even p, x.finite = true := by
  obtain ⟨h1, h2, h3⟩ := h
  cases real <;> cases even <;> simp [nums, h1, h2, h3]

theorem keep_fin (s : Store58) (p : Pt58) (h : FinPt p) : FinPt (keep s p) := by
  obtain ⟨h1, h2, h3⟩ := h
  cases s with
  | ascii d => cases d with
    | true => exact ⟨quant_finite_5 _ h1, quant_finite_11 _ h2, quant_finite_11 _ h3⟩
    | false => exact ⟨quant_finite_5 _ h1, quant_finite_5 _ h2, quant_finite_5 _ h3⟩
  | binary l => exact ⟨h1, h2, h3⟩

theorem zero_fin : F64.zero.finite = true := by decide

theorem pts_fin (r : DS58) (ok : Fit r) : ∀ p ∈ r.pts, FinPt p := by
  have hy : ∀ z ∈ ys r.ord, z.1.finite = true ∧ z.2.finite = true := by
    have := ok.ord
    cases ho : r.ord with
    | real l =>
      rw [ho] at this
      intro z hz
      obtain ⟨y, hy, rfl⟩ := List.mem_map.1 hz
      exact ⟨this y hy, zero_fin⟩
    | cplx l => rw [ho] at this; exact this
  intro p hp
  unfold pts at hp
  cases he : r.even with
  | true =>
    rw [he, if_pos rfl] at hp
    obtain ⟨z, hz, rfl⟩ := List.mem_map.1 hp
    exact ⟨zero_fin, hy z hz⟩
  | false =>
    rw [he, if_neg (by decide)] at hp
    have h1 := List.of_mem_zip (a := p.1) (b := p.2) hp
    exact ⟨ok.xs _ h1.1, hy _ h1.2⟩

/-! Cutting lines of numbers. -/

theorem cut_uniform {ρ : Type} (w p : Nat) (hw : p + 8 ≤ w) (m : Nat) (f : ρ → List F64) (q : List ρ)
    (h : ∀ r ∈ q, ∀ x ∈ f r, x.finite = true) :
    chunks w (recLine (List.replicate m (w, p)) f q ++ ['\n']) = q.flatMap (cells (List.replicate m (w, p)) f) := by
  unfold recLine
  apply chunks_flatten
  · intro t ht
    obtain ⟨r, hr, ht⟩ := List.mem_flatMap.1 ht
    obtain ⟨v, hv, x, hx, rfl⟩ := cells_mem ht
    rw [(List.mem_replicate.1 hv).2]
    exact len_flt w p x (h r hr x hx) hw
  · simp; omega

/-- Lines of numbers all of the same width. -/
theorem values_uniform {ρ : Type} (w p : Nat) (hw : p + 8 ≤ w) (m : Nat) (f : ρ → List F64) (j : Nat) (hj : 0 < j)
    (rs : List ρ) (h : ∀ r ∈ rs, ∀ x ∈ f r, x.finite = true) :
    mapRes pyFloat ((((rowsOf j rs).map (recLine (List.replicate m (w, p)) f)).map (· ++ ['\n'])).flatMap (chunks w))
      = .ok (rs.flatMap (quants (List.replicate m (w, p)) f)) := by
  rw [cut_records _ f j hj rs (chunks w) fun q hq => cut_uniform w p hw m f q fun r hr => h r (rowsOf_mem hq r hr)]
  exact mapRes_records _ f rs h

/-- The numbers of the last line are not blank. -/
theorem filter_last {ρ : Type} (w p : Nat) (hw : p + 8 ≤ w) (m : Nat) (f : ρ → List F64) (q : List ρ)
    (h : ∀ r ∈ q, ∀ x ∈ f r, x.finite = true) :
    (chunks w (recLine (List.replicate m (w, p)) f q ++ ['\n'])).filter (fun c => c ≠ blanks w)
      = chunks w (recLine (List.replicate m (w, p)) f q ++ ['\n']) := by
  rw [cut_uniform w p hw m f q h]
  apply List.filter_eq_self.2
  intro t ht
  obtain ⟨r, hr, ht⟩ := List.mem_flatMap.1 ht
  obtain ⟨v, hv, x, hx, rfl⟩ := cells_mem ht
  simp only [ne_eq, decide_eq_true_eq]
  exact nonblank_cell _ _ x (h r hr x hx) _

theorem slice_mid {α : Type} (a b c : List α) (i j : Nat) (h1 : a.length = i) (h2 : i + b.length = j) :
    slice (a ++ (b ++ c)) i j = b := by
  rw [slice_append_right _ _ _ _ (by omega), h1, Nat.sub_self, slice_prefix _ _ _ (by omega)]

theorem cut_pairs (q : List Pt58) (h : ∀ p ∈ q, FinPt p) :
    pairCells (recLine (fmts true true false) (nums true false) q ++ ['\n'])
      = q.flatMap (cells (fmts true true false) (nums true false)) := by
  have hc : ∀ p : Pt58, cells (fmts true true false) (nums true false) p
      = [padLeft 13 (fmtE 5 p.1), padLeft 20 (fmtE 11 p.2.1)] := fun _ => rfl
  have e : recLine (fmts true true false) (nums true false) q
      = (q.map fun p => padLeft 13 (fmtE 5 p.1) ++ padLeft 20 (fmtE 11 p.2.1)).flatten := by
    unfold recLine
    clear h
    induction q with
    | nil => rfl
    | cons p q ih =>
      simp only [List.flatMap_cons, List.flatten_append, List.map_cons, List.flatten_cons, ih, hc]; simp
  have hl : ∀ p ∈ q, (padLeft 13 (fmtE 5 p.1)).length = 13 ∧ (padLeft 20 (fmtE 11 p.2.1)).length = 20 :=
    fun p hp => ⟨len_flt 13 5 _ (h p hp).1 (by decide), len_flt 20 11 _ (h p hp).2.1 (by decide)⟩
  unfold pairCells
  rw [e, chunks_flatten 33 _ _ (by
    intro t ht
    obtain ⟨p, hp, rfl⟩ := List.mem_map.1 ht
    rw [List.length_append, (hl p hp).1, (hl p hp).2]) (by decide), List.flatMap_map]
  apply flatMap_congr'
  intro p hp
  rw [slice_prefix _ _ _ (hl p hp).1]
  have := slice_mid (padLeft 13 (fmtE 5 p.1)) (padLeft 20 (fmtE 11 p.2.1)) [] 13 33 (hl p hp).1 (by rw [(hl p hp).2])
  rw [List.append_nil] at this
  rw [this, hc]

theorem cut_triples (q : List Pt58) (h : ∀ p ∈ q, FinPt p) (hq : q.length ≤ 1) (hn : q ≠ []) :
    (fun l : Text => [slice l 0 13, slice l 13 33, slice l 33 53]) (recLine (fmts true false false) (nums false false) q ++ ['\n'])
      = q.flatMap (cells (fmts true false false) (nums false false)) := by
  match q, hn, hq with
  | [p], _, _ =>
    obtain ⟨h1, h2, h3⟩ := h p (by simp)
    have l1 := len_flt 13 5 p.1 h1 (by decide)
    have l2 := len_flt 20 11 p.2.1 h2 (by decide)
    have l3 := len_flt 20 11 p.2.2 h3 (by decide)
    have e : recLine (fmts true false false) (nums false false) [p] ++ ['\n']
        = padLeft 13 (fmtE 5 p.1) ++ (padLeft 20 (fmtE 11 p.2.1) ++ (padLeft 20 (fmtE 11 p.2.2) ++ ['\n'])) := by
      have : recLine (fmts true false false) (nums false false) [p]
        = padLeft 13 (fmtE 5 p.1) ++ (padLeft 20 (fmtE 11 p.2.1) ++ (padLeft 20 (fmtE 11 p.2.2) ++ [])) := rfl
      rw [this]; simp
    have hc : [p].flatMap (cells (fmts true false false) (nums false false))
        = [padLeft 13 (fmtE 5 p.1), padLeft 20 (fmtE 11 p.2.1), padLeft 20 (fmtE 11 p.2.2)] := rfl
    simp only [e, hc]
    rw [slice_prefix _ _ _ l1, slice_mid _ _ _ 13 33 l1 (by rw [l2]), ← List.append_assoc,
      slice_mid _ _ _ 33 53 (by rw [List.length_append, l1, l2]) (by rw [l3])]

/-- The type code of stored data. -/
def code (double real : Bool) : Int := if double then (if real then 4 else 6) else (if real then 2 else 5)

/-- The numbers read from the lines. -/
theorem asciiValues_eq (double real even : Bool) (rs : List Pt58) (h : ∀ p ∈ rs, FinPt p) (hne : rs ≠ []) :
    asciiValues (code double real) (if even then 1 else 0)
      (((rowsOf (perLine double real even) rs).map (recLine (fmts double real even) (nums real even))).map (· ++ ['\n']))
      = .ok ((rs.map (keep (.ascii double))).flatMap (nums real even)) := by
  have hf : ∀ r ∈ rs, ∀ x ∈ nums real even r, x.finite = true := fun r hr => nums_finite _ _ _ (h r hr)
  have goal : rs.flatMap (quants (fmts double real even) (nums real even))
      = (rs.map (keep (.ascii double))).flatMap (nums real even) := by
    rw [List.flatMap_map]
    exact flatMap_congr' fun p _ => quants_eq double real even p
  rw [← goal]
  unfold asciiValues
  cases double with
  | false =>
    have hcode : code false real = 2 ∨ code false real = 5 := by cases real <;> decide
    have hrep : fmts false real even = List.replicate ((nums real even (F64.zero, F64.zero, F64.zero)).length) (13, 5) := by
      cases real <;> cases even <;> rfl
    rw [if_pos hcode]
    have hrn : rowsOf (perLine false real even) rs ≠ [] := by
      intro h0
      have := rowsOf_flatten (perLine false real even) (perLine_pos _ _ _) rs
      rw [h0] at this
      exact hne this.symm
    have hsplit := List.dropLast_concat_getLast hrn
    have hlast := List.getLast_mem hrn
    generalize List.getLast (rowsOf (perLine false real even) rs) hrn = last at hsplit hlast
    have hm : ((rowsOf (perLine false real even) rs).map (recLine (fmts false real even) (nums real even))).map (· ++ ['\n'])
        = (((rowsOf (perLine false real even) rs).dropLast.map (recLine (fmts false real even) (nums real even))).map
            (· ++ ['\n'])) ++ [recLine (fmts false real even) (nums real even) last ++ ['\n']] := by
      conv_lhs => rw [← hsplit]
      simp
    have hv := values_uniform 13 5 (by decide) ((nums real even (F64.zero, F64.zero, F64.zero)).length) (nums real even)
      (perLine false real even) (perLine_pos _ _ _) rs hf
    rw [← hrep, hm, List.flatMap_append] at hv
    rw [hm]
    simp only [List.getLast?_concat, List.dropLast_concat]
    have hfl := filter_last 13 5 (by decide) ((nums real even (F64.zero, F64.zero, F64.zero)).length) (nums real even) last
      fun r hr => hf r (rowsOf_mem hlast r hr)
    rw [← hrep] at hfl
    rw [hfl]
    simpa using hv
  | true =>
    have hcode : ¬ (code true real = 2 ∨ code true real = 5) := by cases real <;> decide
    rw [if_neg hcode]
    cases even with
    | true =>
      have hc2 : (code true real = 4 ∨ code true real = 6) ∧ (if true = true then 1 else 0 : Int) = 1 := by cases real <;> decide
      rw [if_pos hc2]
      have hrep : fmts true real true = List.replicate ((nums real true (F64.zero, F64.zero, F64.zero)).length) (20, 11) := by
        cases real <;> rfl
      have hv := values_uniform 20 11 (by decide) ((nums real true (F64.zero, F64.zero, F64.zero)).length) (nums real true)
        (perLine true real true) (perLine_pos _ _ _) rs hf
      rw [← hrep] at hv
      exact hv
    | false =>
      rw [if_neg (by simp)]
      cases real with
      | true =>
        rw [if_pos (by decide), cut_records _ (nums true false) _ (perLine_pos _ _ _) rs pairCells
          fun q hq => cut_pairs q fun p hp => h p (rowsOf_mem hq p hp)]
        exact mapRes_records _ _ rs hf
      | false =>
        rw [if_neg (by decide), if_pos (by decide), show perLine true false false = 1 from rfl, cut_records _ (nums false false) 1 (by decide) rs _
          fun q hq => cut_triples q (fun p hp => h p (rowsOf_mem hq p hp)) (rowsOf_len hq) (rowsOf_ne_nil (by decide) hq)]
        exact mapRes_records _ _ rs hf

/-- Abscissa and ordinate recovered from the numbers. -/
theorem assign_eq (double real even : Bool) (d : Dict) (mn inc : F64) (rs : List Pt58) :
    assign58 d (code double real) (if even then 1 else 0) mn inc (rs.flatMap (nums real even))
      = d.update [("x", .arrF (if even then arange58 mn inc rs.length else rs.map (·.1))),
          ("data", if real then .arrF (rs.map (·.2.1)) else .arrC (rs.map fun p => cplxOf p.2.1 p.2.2))] := by
  unfold assign58
  have zw : ∀ (a b : Pt58 → F64), cplxZip (rs.map a) (rs.map b) = rs.map fun p => cplxOf (a p) (b p) := by
    intro a b
    unfold cplxZip
    induction rs with
    | nil => rfl
    | cons p rs ih => simp [ih]
  cases real with
  | true =>
    rw [if_pos (by cases double <;> decide)]
    cases even with
    | true =>
      have e : rs.flatMap (nums true true) = rs.map (·.2.1) := by
        induction rs with
        | nil => rfl
        | cons p rs ih => rw [List.flatMap_cons, ih (by intro a b; unfold cplxZip; clear zw ih; induction rs with | nil => rfl | cons p rs ih => simp [ih])]; rfl
      rw [if_neg (by decide), e]
      simp
    | false =>
      rw [if_pos (by decide)]
      have e1 := everyN_take 2 0 1 (by decide) rs (nums true false) (·.1) (fun _ => rfl) (fun _ => rfl)
      have e2 := everyN_flatMap 2 1 rs (nums true false) (·.2.1) (fun _ _ => rfl) (fun _ _ => rfl)
      simp only [e1, e2, Bool.false_eq_true, if_false, if_true]
  | false =>
    rw [if_neg (by cases double <;> decide), if_pos (by cases double <;> decide)]
    cases even with
    | true =>
      rw [if_neg (by decide)]
      have e1 := everyN_take 2 0 1 (by decide) rs (nums false true) (·.2.1) (fun _ => rfl) (fun _ => rfl)
      have e2 := everyN_flatMap 2 1 rs (nums false true) (·.2.2) (fun _ _ => rfl) (fun _ _ => rfl)
      have hl := length_flatMap_const 2 rs (nums false true) (fun _ => rfl)
      have e3 : ((rs.flatMap (nums false true)).length + 1) / 2 = rs.length := by rw [hl]; omega
      simp only [e1, e2, e3, Bool.false_eq_true, if_false, if_true, zw]
    | false =>
      rw [if_pos (by decide)]
      have e1 := everyN_take 3 0 2 (by decide) rs (nums false false) (·.1) (fun _ => rfl) (fun _ => rfl)
      have e2 := everyN_take 3 1 1 (by decide) rs (nums false false) (·.2.1) (fun _ => rfl) (fun _ => rfl)
      have e3 := everyN_flatMap 3 2 rs (nums false false) (·.2.2) (fun _ _ => rfl) (fun _ _ => rfl)
      simp only [e1, e2, e3, Bool.false_eq_true, if_false, zw]

end DS58
end Verif
