import Verif.Model.DS58
import Verif.Lemmas.RT55
/-
Lines of numbers of data-set 58.
-/
namespace Verif

/-- A full line at a time, the last one possibly shorter. -/
theorem numLines_rows (ws : List (Nat × Nat)) (xs : List F64) (hw : 0 < ws.length) :
    numLines ws xs = (rowsOf ws.length xs).flatMap (numLine ws) := by
  unfold numLines rowsOf
  have h1 := Nat.div_add_mod xs.length ws.length
  have h2 := Nat.mod_lt xs.length hw
  by_cases h : 0 < xs.length % ws.length
  · have e : (xs.length + (ws.length - 1)) / ws.length = xs.length / ws.length + 1 := by
      have : xs.length + (ws.length - 1)
          = (xs.length % ws.length - 1) + ws.length * (xs.length / ws.length + 1) := by
        rw [Nat.mul_add]; omega
      rw [this, Nat.add_mul_div_left _ _ hw, Nat.div_eq_of_lt (by omega), Nat.zero_add]
    rw [e, if_pos h, List.range_succ, List.map_append, List.flatMap_append]
    have e2 : slice xs (ws.length * (xs.length / ws.length)) (ws.length * (xs.length / ws.length) + ws.length)
        = xs.drop (ws.length * (xs.length / ws.length)) := by
      unfold slice
      rw [List.take_of_length_le]
      rw [List.length_drop]; omega
    simp only [List.flatMap_map, List.map_cons, List.map_nil, List.flatMap_cons, List.flatMap_nil, List.append_nil,
      Nat.mul_add, Nat.mul_one, e2]
  · have h0 : xs.length % ws.length = 0 := by omega
    have e : (xs.length + (ws.length - 1)) / ws.length = xs.length / ws.length := by
      have : xs.length + (ws.length - 1) = (ws.length - 1) + ws.length * (xs.length / ws.length) := by omega
      rw [this, Nat.add_mul_div_left _ _ hw, Nat.div_eq_of_lt (by omega), Nat.zero_add]
    rw [e, if_neg h, List.append_nil]
    simp only [List.flatMap_map, Nat.mul_add, Nat.mul_one]

theorem flatMap_congr' {α β : Type} {l : List α} {f g : α → List β} (h : ∀ a ∈ l, f a = g a) :
    l.flatMap f = l.flatMap g := by
  rw [List.flatMap_def, List.flatMap_def, List.map_congr_left h]

theorem cells_len (fs : List (Nat × Nat)) (l : List F64) (hw : ∀ w ∈ fs, w.2 + 8 ≤ w.1)
    (h : ∀ x ∈ l, x.finite = true) (hl : l.length = fs.length) :
    (List.zipWith (fun (w : Nat × Nat) x => padLeft w.1 (fmtE w.2 x)) fs l).flatten.length = (fs.map (·.1)).sum := by
  induction fs generalizing l with
  | nil => simp
  | cons w fs ih =>
    cases l with
    | nil => simp at hl
    | cons x l =>
      simp only [List.zipWith_cons_cons, List.flatten_cons, List.length_append, List.map_cons, List.sum_cons]
      rw [len_flt w.1 w.2 x (h x (by simp)) (hw w (by simp)),
        ih l (fun w' hw' => hw w' (by simp [hw'])) (fun y hy => h y (by simp [hy])) (by simpa using hl)]

/-- Printed values of a record. -/
def cells {ρ : Type} (fs : List (Nat × Nat)) (f : ρ → List F64) (r : ρ) : List Text :=
  List.zipWith (fun (w : Nat × Nat) x => padLeft w.1 (fmtE w.2 x)) fs (f r)

theorem drop_flatMap {α β : Type} (m : Nat) (rows : List α) (f : α → List β) (h : ∀ a, (f a).length = m) (k : Nat) :
    (rows.flatMap f).drop (m * k) = (rows.drop k).flatMap f := by
  induction k generalizing rows with
  | zero => simp
  | succ k ih =>
    cases rows with
    | nil => simp
    | cons a r =>
      rw [List.flatMap_cons, List.drop_succ_cons, ← ih r, Nat.mul_add, Nat.mul_one, Nat.add_comm,
        ← List.drop_drop]
      rw [List.drop_append_of_le_length (Nat.le_of_eq (h a).symm), List.drop_of_length_le (Nat.le_of_eq (h a)),
        List.nil_append]

theorem take_flatMap {α β : Type} (m : Nat) (rows : List α) (f : α → List β) (h : ∀ a, (f a).length = m) (k : Nat) :
    (rows.flatMap f).take (m * k) = (rows.take k).flatMap f := by
  induction k generalizing rows with
  | zero => simp
  | succ k ih =>
    cases rows with
    | nil => simp
    | cons a r =>
      rw [List.flatMap_cons, List.take_succ_cons, List.flatMap_cons, ← ih r, Nat.mul_add, Nat.mul_one, Nat.add_comm,
        List.take_append, h a, Nat.add_sub_cancel_left, List.take_of_length_le (by rw [h]; omega)]

theorem length_flatMap_const {α β : Type} (m : Nat) (rows : List α) (f : α → List β) (h : ∀ a, (f a).length = m) :
    (rows.flatMap f).length = m * rows.length := by
  induction rows with
  | nil => simp
  | cons a r ih => rw [List.flatMap_cons, List.length_append, h, ih, List.length_cons, Nat.mul_add]; omega

/-- Rows of whole records. -/
theorem rowsOf_flatMap {ρ β : Type} (j m : Nat) (hj : 0 < j) (hm : 0 < m) (rs : List ρ) (f : ρ → List β)
    (h : ∀ a, (f a).length = m) : rowsOf (m * j) (rs.flatMap f) = (rowsOf j rs).map fun p => p.flatMap f := by
  unfold rowsOf
  have e : ((rs.flatMap f).length + (m * j - 1)) / (m * j) = (rs.length + (j - 1)) / j := by
    rw [length_flatMap_const m rs f h, ← Nat.div_div_eq_div_mul]
    congr 1
    have h1 : 1 ≤ m * j := Nat.mul_pos hm hj
    have h2 : m * (rs.length + (j - 1)) + m = m * rs.length + m * j := by
      rw [← Nat.mul_add_one, ← Nat.mul_add]; congr 1; omega
    have : m * rs.length + (m * j - 1) = (m - 1) + m * (rs.length + (j - 1)) := by omega
    rw [this, Nat.add_mul_div_left _ _ hm, Nat.div_eq_of_lt (by omega), Nat.zero_add]
  rw [e, List.map_map]
  apply List.map_congr_left
  intro i _
  simp only [Function.comp, slice]
  rw [Nat.add_sub_cancel_left, Nat.add_sub_cancel_left, Nat.mul_assoc, drop_flatMap m rs f h,
    take_flatMap m _ f h]

theorem zipWith_records {ρ : Type} (fs : List (Nat × Nat)) (f : ρ → List F64) (h : ∀ r, (f r).length = fs.length)
    (p : List ρ) (j : Nat) (hp : p.length ≤ j) :
    List.zipWith (fun (w : Nat × Nat) x => padLeft w.1 (fmtE w.2 x)) (List.replicate j fs).flatten (p.flatMap f)
      = p.flatMap (cells fs f) := by
  induction p generalizing j with
  | nil => simp
  | cons a r ih =>
    cases j with
    | zero => simp at hp
    | succ j =>
      simp only [List.replicate_succ, List.flatten_cons, List.flatMap_cons]
      rw [List.zipWith_append (by rw [h]), ih j (by simpa using hp)]
      rfl

/-- One line of records. -/
def recLine {ρ : Type} (fs : List (Nat × Nat)) (f : ρ → List F64) (p : List ρ) : Text := (p.flatMap (cells fs f)).flatten

theorem rowsOf_len {α : Type} {w : Nat} {l r : List α} (h : r ∈ rowsOf w l) : r.length ≤ w := by
  obtain ⟨i, -, rfl⟩ := List.mem_map.1 h
  simp only [slice, List.length_take]; omega

theorem rowsOf_ne_nil {α : Type} {w : Nat} {l r : List α} (hw : 0 < w) (h : r ∈ rowsOf w l) : r ≠ [] := by
  obtain ⟨i, hi, rfl⟩ := List.mem_map.1 h
  have hi := List.mem_range.1 hi
  have h1 : (i + 1) * w ≤ l.length + (w - 1) := (Nat.le_div_iff_mul_le hw).1 hi
  have h2 : w * i < l.length := by rw [Nat.add_mul, Nat.mul_comm] at h1; omega
  intro h0
  have := congrArg List.length h0
  simp only [slice, List.length_take, List.length_drop, List.length_nil] at this
  omega

/-- Writing whole records, `j` on a line. -/
theorem numLines_records {ρ : Type} (fs : List (Nat × Nat)) (f : ρ → List F64) (hf : ∀ r, (f r).length = fs.length)
    (hm : 0 < fs.length) (j : Nat) (hj : 0 < j) (rs : List ρ) :
    numLines (List.replicate j fs).flatten (rs.flatMap f) = joinLines ((rowsOf j rs).map (recLine fs f)) := by
  have hl : (List.replicate j fs).flatten.length = fs.length * j := by
    simp [List.length_flatten, Nat.mul_comm]
  rw [numLines_rows _ _ (by rw [hl]; exact Nat.mul_pos hm hj), hl, rowsOf_flatMap j fs.length hj hm rs f hf]
  unfold joinLines
  rw [List.flatMap_map, List.flatMap_map]
  apply flatMap_congr'
  intro p hp
  unfold numLine recLine
  rw [zipWith_records fs f hf p j (rowsOf_len hp)]

/-- The values a record becomes. -/
def quants {ρ : Type} (fs : List (Nat × Nat)) (f : ρ → List F64) (r : ρ) : List F64 :=
  List.zipWith (fun (w : Nat × Nat) x => x.quant w.2) fs (f r)

theorem mapRes_cellsAux (fs : List (Nat × Nat)) (l : List F64) (h : ∀ x ∈ l, x.finite = true) :
    mapRes pyFloat (List.zipWith (fun (w : Nat × Nat) x => padLeft w.1 (fmtE w.2 x)) fs l)
      = .ok (List.zipWith (fun (w : Nat × Nat) x => x.quant w.2) fs l) := by
  induction fs generalizing l with
  | nil => simp; rfl
  | cons w fs ih =>
    cases l with
    | nil => rfl
    | cons x l =>
      simp only [List.zipWith_cons_cons]
      exact mapRes_cons (pyFloat_pad _ _ _ (h x (by simp))) (ih l fun y hy => h y (by simp [hy]))

theorem mapRes_records {ρ : Type} (fs : List (Nat × Nat)) (f : ρ → List F64) (rs : List ρ)
    (h : ∀ r ∈ rs, ∀ x ∈ f r, x.finite = true) :
    mapRes pyFloat (rs.flatMap (cells fs f)) = .ok (rs.flatMap (quants fs f)) :=
  mapRes_flatMap _ _ _ fun r hr => mapRes_cellsAux fs (f r) (h r hr)

/-- Reading lines of records with a cutter that recovers the cells of a line. -/
theorem cut_records {ρ : Type} (fs : List (Nat × Nat)) (f : ρ → List F64) (j : Nat) (hj : 0 < j) (rs : List ρ)
    (cut : Text → List Text)
    (hc : ∀ p ∈ rowsOf j rs, cut (recLine fs f p ++ ['\n']) = p.flatMap (cells fs f)) :
    (((rowsOf j rs).map (recLine fs f)).map (· ++ ['\n'])).flatMap cut = rs.flatMap (cells fs f) := by
  rw [List.map_map, List.flatMap_map]
  have : (rowsOf j rs).flatMap (fun a => cut (((fun x => x ++ ['\n']) ∘ recLine fs f) a))
      = (rowsOf j rs).flatMap fun p => p.flatMap (cells fs f) := flatMap_congr' fun p hp => hc p hp
  rw [this, List.flatMap_def, flatten_map_flatMap, rowsOf_flatten j hj]

/-- Widths of the cells. -/
theorem cells_mem {ρ : Type} {fs : List (Nat × Nat)} {f : ρ → List F64} {r : ρ} {t : Text} (h : t ∈ cells fs f r) :
    ∃ w ∈ fs, ∃ x ∈ f r, t = padLeft w.1 (fmtE w.2 x) := by
  unfold cells at h
  generalize f r = l at h
  induction fs generalizing l with
  | nil => simp at h
  | cons w fs ih =>
    cases l with
    | nil => simp at h
    | cons x l =>
      simp only [List.zipWith_cons_cons, List.mem_cons] at h
      rcases h with rfl | h
      · exact ⟨w, by simp, x, by simp, rfl⟩
      · obtain ⟨w', hw, y, hy, rfl⟩ := ih l h
        exact ⟨w', by simp [hw], y, by simp [hy], rfl⟩

theorem nonblank_cell (w p : Nat) (x : F64) (hx : x.finite = true) (k : Nat) : padLeft w (fmtE p x) ≠ blanks k := by
  intro h
  have h1 : strip (padLeft w (fmtE p x)) = fmtE p x := by
    rw [strip_padLeft, strip_eq_self_of_noSpace _ (fmtE_noSpace p x hx)]
  have h2 : strip (blanks k) = [] := by
    have := strip_append_left (blanks k) [] (isSpace_replicate k)
    rw [List.append_nil] at this
    rw [this]; rfl
  rw [h, h2] at h1
  have := fmtE_length_ge p x hx
  rw [← h1] at this
  simp at this

/-- Lines of numbers are safe. -/
theorem safe_records {ρ : Type} (fs : List (Nat × Nat)) (f : ρ → List F64) (hf : ∀ r, (f r).length = fs.length)
    (hm : 0 < fs.length) (j : Nat) (hj : 0 < j)
    (hw : ∀ w ∈ fs, w.2 + 8 ≤ w.1) (h80 : (fs.map (·.1)).sum * j ≤ 80) (rs : List ρ)
    (h : ∀ r ∈ rs, ∀ x ∈ f r, x.finite = true) : Safe ((rowsOf j rs).map (recLine fs f)) := by
  have cl : ∀ r ∈ rs, (cells fs f r).flatten.length = (fs.map (·.1)).sum := by
    intro r hr
    exact cells_len fs (f r) hw (h r hr) (hf r)
  intro t ht
  obtain ⟨p, hp, rfl⟩ := List.mem_map.1 ht
  have hpm : ∀ a ∈ p, a ∈ rs := rowsOf_mem hp
  have hpl := rowsOf_len hp
  have hpn := rowsOf_ne_nil hj hp
  have len : ∀ q : List ρ, (∀ a ∈ q, a ∈ rs) → (recLine fs f q).length = (fs.map (·.1)).sum * q.length := by
    intro q hq
    induction q with
    | nil => simp [recLine]
    | cons a q ih =>
      have := ih fun b hb => hq b (by simp [hb])
      simp only [recLine, List.flatMap_cons, List.flatten_append, List.length_append, List.length_cons] at this ⊢
      rw [this, cl a (hq a (by simp)), Nat.mul_add]; omega
  constructor
  · apply noBreak_fields
    intro t ht
    obtain ⟨r, hr, ht⟩ := List.mem_flatMap.1 ht
    obtain ⟨w, -, x, hx, rfl⟩ := cells_mem ht
    exact noBreak_flt _ _ _ (h r (hpm r hr) x hx)
  · -- the last cell
    have hlen : (recLine fs f p).length ≤ 80 := by
      rw [len p hpm]
      exact Nat.le_trans (Nat.mul_le_mul_left _ hpl) h80
    have hcne : p.flatMap (cells fs f) ≠ [] := by
      cases p with
      | nil => exact absurd rfl hpn
      | cons a q =>
        rw [List.flatMap_cons]
        intro h0
        have h0 := (List.append_eq_nil_iff.1 h0).1
        have := congrArg List.length h0
        unfold cells at this
        rw [List.length_zipWith, hf a, Nat.min_self, List.length_nil] at this
        omega
    have hl := List.dropLast_concat_getLast hcne
    have hmem := List.getLast_mem hcne
    obtain ⟨r, hr, ht⟩ := List.mem_flatMap.1 hmem
    obtain ⟨w, hwm, x, hx, he⟩ := cells_mem ht
    have hxf := h r (hpm r hr) x hx
    unfold recLine
    rw [← hl, he]
    apply tagFree_flt _ _ _ _ _ hxf (hw w hwm)
    have := hlen
    unfold recLine at this
    rw [← hl, he, List.flatten_append, List.length_append] at this
    simp only [List.flatten_cons, List.flatten_nil, List.append_nil] at this
    rw [len_flt w.1 w.2 x hxf (hw w hwm)] at this
    exact this

end Verif
