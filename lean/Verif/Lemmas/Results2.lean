import Verif.Lemmas.Results
/-
The data of results, line by line.
-/
namespace Verif
namespace Results
open Records Systems

theorem break_space (c : Char) (h : isBreak c = true) : isSpace c = true := by
  unfold isBreak at h
  unfold isSpace
  simp only [Bool.or_eq_true, Bool.and_eq_true, decide_eq_true_eq, beq_iff_eq] at h ⊢
  omega

theorem split_end (a e : Text) (h : ∀ c ∈ e, isSpace c = true) : splitWs (a ++ e) = splitWs a := by
  rw [splitWs_append a e (fun c hc => h c (List.mem_of_mem_head? hc)), splitWs_all_spaces e h, List.append_nil]

/-- Line ends are no words. -/
theorem words_keep (t : Text) : (splitLines t).map splitWs = (splitLinesKeep t).map splitWs := by
  have : ∀ acc s, (splitLinesGen '\r' '\n' isBreak false acc s).map splitWs = (splitLinesGen '\r' '\n' isBreak true acc s).map splitWs := by
    intro acc s
    have one : ∀ (acc : Text) (c : Char), isBreak c = true → splitWs acc.reverse = splitWs (c :: acc).reverse := by
      intro acc c hc
      rw [List.reverse_cons, split_end _ [c] (by intro d hd; rw [List.mem_singleton.1 hd]; exact break_space c hc)]
    induction acc, s using splitLinesGen.induct '\r' '\n' isBreak with
    | case1 acc h => simp [splitLinesGen, h]
    | case2 acc h => simp [splitLinesGen, h]
    | case3 acc c hb =>
      simp only [splitLinesGen, hb, if_true, List.map_cons, List.map_nil, Bool.false_eq_true, if_false]
      rw [one acc c hb]
    | case4 acc c hb => simp [splitLinesGen, hb]
    | case5 acc c d cs hcd ih =>
      simp only [splitLinesGen, hcd, and_self, if_true, List.map_cons, ih, Bool.false_eq_true, if_false]
      rw [one acc '\r' (by decide), one ('\r' :: acc) '\n' (by decide)]
    | case6 acc c d cs hcd hb ih =>
      rw [splitLinesGen, if_neg hcd, if_pos hb, splitLinesGen, if_neg hcd, if_pos hb, List.map_cons, List.map_cons, ih]
      simp only [if_true, Bool.false_eq_true, if_false]
      rw [one acc c hb]
    | case7 acc c d cs hcd hb ih =>
      rw [splitLinesGen, if_neg hcd, if_neg hb, splitLinesGen, if_neg hcd, if_neg hb]
      exact ih
  exact this [] t

theorem mapRes_words {β : Type} (g : List Text → Res β) : ∀ ls : List Text, mapRes (fun l => g (splitWs l)) ls = mapRes g (ls.map splitWs)
  | [] => rfl
  | l :: ls => by
    rw [List.map_cons]
    unfold mapRes
    rw [mapRes_words g ls]

/-! Only words matter. -/

theorem floatLists_words {a b : List Text} (h : a.map splitWs = b.map splitWs) : floatLists a = floatLists b := by
  unfold floatLists
  rw [mapRes_words (fun w => (mapRes pyFloat w).map Val.arrF), mapRes_words (fun w => (mapRes pyFloat w).map Val.arrF), h]

theorem intColumn_words {a b : List Text} (h : a.map splitWs = b.map splitWs) (k : Nat) : intColumn k a = intColumn k b := by
  unfold intColumn
  rw [h]

theorem elemRecord_words {a b : Text} (h : splitWs a = splitWs b) : elemRecord a = elemRecord b := by
  unfold elemRecord
  rw [h]

theorem elemLoop_words (fuel : Nat) : ∀ {a b : List Text}, a.map splitWs = b.map splitWs → elemLoop fuel a = elemLoop fuel b := by
  induction fuel with
  | zero =>
    intro a b h
    cases a <;> cases b <;> simp at h <;> rfl
  | succ fuel ih =>
    intro a b h
    cases a with
    | nil => cases b with
      | nil => rfl
      | cons => simp at h
    | cons x a => cases b with
      | nil => simp at h
      | cons y b =>
        rw [List.map_cons, List.map_cons, List.cons.injEq] at h
        unfold elemLoop
        rw [elemRecord_words h.1]
        congr 1
        funext e
        simp only
        split
        · rfl
        · have h1 : ∀ k, (a.take k).map splitWs = (b.take k).map splitWs := fun k => by rw [List.map_take, List.map_take, h.2]
          have h2 : ∀ k, (a.drop k).map splitWs = (b.drop k).map splitWs := fun k => by rw [List.map_drop, List.map_drop, h.2]
          rw [floatLists_words (h1 _), ih (h2 _)]

theorem plainData_words (loc : Int) {a b : List Text} (h : a.map splitWs = b.map splitWs) : readPlainData loc a = readPlainData loc b := by
  have he : ∀ i n, (everyN i n a).map splitWs = (everyN i n b).map splitWs := fun i n => by rw [← everyN_map, ← everyN_map, h]
  have hl : a.length = b.length := by simpa using congrArg List.length h
  unfold readPlainData readElemNodes
  rw [floatLists_words (he 1 2), intColumn_words (he 0 2), intColumn_words (he 0 2), elemLoop_words _ h, hl]

/-- Data in the lines of the file. -/
theorem plainData_keep (block : Text) (h : ResultLines) (data : List Text) (hl : splitLinesKeep block = h.lines ++ data) (loc : Int) :
    readPlainData loc (splitLines data.flatten) = readPlainData loc data := by
  refine plainData_words loc ?_
  rw [words_keep]
  have := split_drop block 15
  rw [hl, List.drop_left' (show h.lines.length = 15 from rfl)] at this
  rw [this]

/-! Nodes and elements. -/

theorem arr64_small (l : List Int) (h : ∀ n ∈ l, -(2 ^ 63) ≤ n ∧ n < 2 ^ 63) : arr64 l = .ok l := by
  unfold arr64
  rw [if_pos]
  rw [List.all_eq_true]
  intro n hn
  simp only [decide_eq_true_eq]
  exact h n hn

theorem intColumn_ok {α : Type} (l : List α) (hne : l ≠ []) (t : α → Text) (n k : Nat) (g : α → Int)
    (hl : ∀ a ∈ l, (splitWs (t a)).length = n) (hk : ∀ a ∈ l, intWord k (splitWs (t a)) = .ok (g a))
    (hg : ∀ a ∈ l, -(2 ^ 63) ≤ g a ∧ g a < 2 ^ 63) : intColumn k (l.map t) = .ok (l.map g) := by
  unfold intColumn
  have e : (l.map t).map splitWs = l.map fun a => splitWs (t a) := by rw [List.map_map]; rfl
  rw [e]
  have mp : mapRes (intWord k) (l.map fun a => splitWs (t a)) = .ok (l.map g) := mapRes_map l _ _ hk
  cases l with
  | nil => exact absurd rfl hne
  | cons a r =>
    have all : (((a :: r).map fun a => splitWs (t a)).all fun q => decide (q.length = (splitWs (t a)).length)) = true := by
      simp only [List.all_map, List.all_eq_true, Function.comp, decide_eq_true_eq]
      intro x hx
      rw [hl x hx, hl a (by simp)]
    simp only [List.map_cons] at mp all ⊢
    rw [if_pos all, mp]
    simp only
    rw [arr64_small]
    intro n hn
    rw [← List.map_cons] at hn
    obtain ⟨x, hx, rfl⟩ := List.mem_map.1 hn
    exact hg x hx

theorem floatLists_ok {α : Type} (l : List α) (t : α → Text) (g : α → List F64) (h : ∀ a ∈ l, FloatLine (t a) (g a)) :
    floatLists (l.map t) = .ok (l.map fun a => .arrF (g a)) := by
  unfold floatLists
  refine mapRes_map l _ _ fun a ha => ?_
  rw [floatLine_ok (h a ha)]
  rfl

theorem nodeVals_col {m w : Nat} {n : NodeVals} (h : n.Good m w) :
    (splitWs n.head).length = w ∧ ∀ k i, n.nums[k]? = some i → intWord k (splitWs n.head) = .ok i := by
  obtain ⟨ws, more, hw, hl, ho⟩ := h.words
  rw [hw.split]
  refine ⟨hl, fun k i hk => ?_⟩
  unfold intWord
  have hi : k < n.nums.length := (List.getElem?_eq_some_iff.1 hk).1
  have hlt : k < ws.length := by rw [ho.1]; exact hi
  rw [List.getElem?_append_left hlt, List.getElem?_eq_getElem hlt]
  exact ho.2 k _ _ (List.getElem?_eq_getElem hlt) hk

theorem nodeVals_data (ns : List NodeVals) : everyN 0 2 (ns.flatMap NodeVals.lines) = ns.map (·.head) ∧
    everyN 1 2 (ns.flatMap NodeVals.lines) = ns.map (·.vals) :=
  ⟨everyN_flatMap 2 0 ns _ _ (fun _ _ => rfl) (fun _ _ => rfl), everyN_flatMap 2 1 ns _ _ (fun _ _ => rfl) (fun _ _ => rfl)⟩

theorem nodes_ok (ns : List NodeVals) (hne : ns ≠ []) (w : Nat) (h : ∀ n ∈ ns, n.Good 1 w) :
    readPlainData 1 (ns.flatMap NodeVals.lines) = .ok (nodesDict2414 ns) := by
  have one : ∀ n ∈ ns, n.nums[0]? = some (n.nums.headD 0) := by
    intro n hn
    have := (h n hn).count
    rcases hx : n.nums with _ | ⟨a, l⟩
    · rw [hx] at this; cases this
    · rfl
  unfold readPlainData
  rw [if_pos rfl, (nodeVals_data ns).1, (nodeVals_data ns).2, floatLists_ok ns _ (·.values) (fun n hn => (h n hn).values), ok_bind,
    intColumn_ok ns hne _ w 0 (fun n => n.nums.headD 0) (fun n hn => (nodeVals_col (h n hn)).1)
      (fun n hn => (nodeVals_col (h n hn)).2 0 _ (one n hn)) (fun n hn => (h n hn).small _ (List.mem_of_getElem? (one n hn))), ok_bind]
  rfl

theorem elems_ok (ns : List NodeVals) (hne : ns ≠ []) (w : Nat) (h : ∀ n ∈ ns, n.Good 2 w) :
    readPlainData 2 (ns.flatMap NodeVals.lines) = .ok (elemsDict2414 ns) := by
  have two : ∀ n ∈ ns, n.nums[0]? = some (n.nums.headD 0) ∧ n.nums[1]? = some (n.nums.tail.headD 0) := by
    intro n hn
    have := (h n hn).count
    rcases hx : n.nums with _ | ⟨a, _ | ⟨b, l⟩⟩
    · rw [hx] at this; cases this
    · rw [hx] at this; cases this
    · exact ⟨rfl, rfl⟩
  unfold readPlainData
  rw [if_neg (by decide), if_pos rfl, (nodeVals_data ns).1, (nodeVals_data ns).2, floatLists_ok ns _ (·.values) (fun n hn => (h n hn).values), ok_bind,
    intColumn_ok ns hne _ w 0 (fun n => n.nums.headD 0) (fun n hn => (nodeVals_col (h n hn)).1)
      (fun n hn => (nodeVals_col (h n hn)).2 0 _ (two n hn).1) (fun n hn => (h n hn).small _ (List.mem_of_getElem? (two n hn).1)), ok_bind,
    intColumn_ok ns hne _ w 1 (fun n => n.nums.tail.headD 0) (fun n hn => (nodeVals_col (h n hn)).1)
      (fun n hn => (nodeVals_col (h n hn)).2 1 _ (two n hn).2) (fun n hn => (h n hn).small _ (List.mem_of_getElem? (two n hn).2)), ok_bind]
  rfl

/-! Values at the nodes of elements. -/

theorem elemRecord_ok {line : Text} {a b c d : Int} (h : IntLineStart line [a, b, c, d]) : elemRecord line = .ok (a, b, c, d) := by
  obtain ⟨ws, more, hw, hl, ho⟩ := h
  match ws, hl with
  | [t0, t1, t2, t3], _ =>
    have h0 : pyInt t0 = .ok a := ho 0 _ _ rfl rfl
    have h1 : pyInt t1 = .ok b := ho 1 _ _ rfl rfl
    have h2 : pyInt t2 = .ok c := ho 2 _ _ rfl rfl
    have h3 : pyInt t3 = .ok d := ho 3 _ _ rfl rfl
    unfold elemRecord
    rw [hw.split]
    simp only [List.cons_append, List.getElem?_cons_zero, List.getElem?_cons_succ, orIndex, ok_bind, h0, h1, h2, h3]

theorem elemLines_ok (e : ElemRows) (h : e.Good) : elemLines e.iexp e.nodes e.nvals = (e.rows.length : Int) := by
  obtain ⟨per, h1, h2, h3⟩ := h.count
  have : ceilDiv e.nvals 6 = per := by unfold ceilDiv; omega
  unfold elemLines
  rw [h3, this]

theorem floatRows_ok (rows : List Text) (vs : List (List F64)) (h : OneByOne FloatLine rows vs) : floatLists rows = .ok (vs.map .arrF) := by
  unfold floatLists
  refine (mapRes_iff _ _ _).2 ⟨by rw [h.1, List.length_map], fun i a b ha hb => ?_⟩
  rw [List.getElem?_map] at hb
  rcases hx : vs[i]? with _ | v
  · rw [hx] at hb; cases hb
  · rw [hx] at hb; cases hb
    rw [floatLine_ok (h.2 i a v ha hx)]
    rfl

theorem elemLoop_ok (es : List ElemRows) (h : ∀ e ∈ es, e.Good) (fuel : Nat) (hf : (es.flatMap ElemRows.lines).length ≤ fuel) :
    elemLoop fuel (es.flatMap ElemRows.lines) = .ok (es.map fun e => ((e.num, e.iexp, e.nodes, e.nvals), Val.list (e.values.map .arrF))) := by
  induction es generalizing fuel with
  | nil => cases fuel <;> rfl
  | cons e r ih =>
    have hg := h e (by simp)
    cases fuel with
    | zero => simp [ElemRows.lines] at hf
    | succ fuel =>
      rw [List.flatMap_cons, ElemRows.lines, List.cons_append]
      unfold elemLoop
      rw [elemRecord_ok hg.head, ok_bind]
      simp only [elemLines_ok e hg]
      rw [if_neg (by omega), Int.toNat_natCast, List.take_left, List.drop_left, floatRows_ok _ _ hg.values, ok_bind,
        ih (fun x hx => h x (by simp [hx])) fuel (by
          simp only [List.flatMap_cons, List.length_append, ElemRows.lines, List.length_cons] at hf
          omega), ok_bind]
      rfl

theorem elemNodes_ok (es : List ElemRows) (h : ∀ e ∈ es, e.Good) :
    readPlainData 3 (es.flatMap ElemRows.lines) = .ok (elemNodesDict2414 es) := by
  have small : ∀ g : ElemRows → Int, (∀ e, g e ∈ [e.num, e.iexp, e.nodes, e.nvals]) → arr64 (es.map g) = .ok (es.map g) := by
    intro g hg
    refine arr64_small _ fun n hn => ?_
    obtain ⟨e, he, rfl⟩ := List.mem_map.1 hn
    exact (h e he).small _ (hg e)
  unfold readPlainData
  rw [if_neg (by decide), if_neg (by decide), if_pos rfl]
  unfold readElemNodes
  rw [elemLoop_ok es h _ (Nat.le_refl _), ok_bind]
  simp only [List.map_map, Function.comp_def]
  rw [small (·.num) (by simp), ok_bind, small (·.iexp) (by simp), ok_bind, small (·.nodes) (by simp), ok_bind, small (·.nvals) (by simp), ok_bind]
  rfl

/-! Frequency responses. -/

theorem numbers_length (n : NodeCplx) : n.numbers.length = 2 * n.values.length + 1 := by
  unfold NodeCplx.numbers
  rw [List.length_cons]
  congr 1
  induction n.values with
  | nil => rfl
  | cons z l ih => rw [List.flatMap_cons, List.length_append, ih, List.length_cons]; simp only [List.length_cons, List.length_nil]; omega

theorem parts_get (l : List Cplx) (i : Nat) : (l.flatMap fun z : Cplx => [z.1, z.2])[2 * i]? = (l[i]?).map (·.1) ∧
    (l.flatMap fun z : Cplx => [z.1, z.2])[2 * i + 1]? = (l[i]?).map (·.2) := by
  induction l generalizing i with
  | nil => simp
  | cons z l ih =>
    rw [List.flatMap_cons]
    cases i with
    | zero => simp
    | succ i =>
      have := ih i
      rw [show 2 * (i + 1) = 2 * i + 1 + 1 by omega]
      simpa using this

theorem numbers_get (n : NodeCplx) (i : Nat) (hi : i < n.values.length) :
    n.numbers[2 * i + 1]? = some (n.values.getD i (F64.zero, F64.zero)).1 ∧ n.numbers[2 * i + 2]? = some (n.values.getD i (F64.zero, F64.zero)).2 := by
  unfold NodeCplx.numbers
  have h := parts_get n.values i
  have hd : n.values.getD i (F64.zero, F64.zero) = n.values[i] := by rw [List.getD_eq_getElem?_getD, List.getElem?_eq_getElem hi]; rfl
  rw [List.getElem?_eq_getElem hi] at h
  rw [List.getElem?_cons_succ, List.getElem?_cons_succ, hd]
  exact h

theorem broadcast_ok (ns : List NodeCplx) (g : NodeCplx → Cplx) (h : ∀ n ∈ ns, (g n).1.finite = true ∧ (g n).2.finite = true) :
    cplxBroadcast (ns.map fun n => (g n).1) (ns.map fun n => (g n).2) = .ok (.arrC (ns.map fun n => Cplx.unsigned (g n))) := by
  unfold cplxBroadcast cplxZip
  rw [if_pos (by simp)]
  congr 2
  induction ns with
  | nil => rfl
  | cons a r ih =>
    simp only [List.map_cons, List.zipWith_cons_cons]
    rw [ih fun b hb => h b (by simp [hb]), cplxOf_eq _ _ (h a (by simp)).1 (h a (by simp)).2]

theorem truncInts_ok (l : List Int) (h : ∀ n ∈ l, n.natAbs < 2 ^ 53) : truncInts (l.map F64.ofInt) = .ok l := by
  have := mapRes_map (f := fun x : F64 => match x.toInt with
    | some n => if -(2 ^ 63) ≤ n ∧ n < 2 ^ 63 then Except.ok n else .error .unmodelled
    | none => .error .unmodelled) l F64.ofInt id (by
      intro n hn
      have h1 := h n hn
      rw [toInt_ofInt n h1]
      simp only
      rw [if_pos (by constructor <;> omega)]
      rfl)
  rw [List.map_id] at this
  exact this

theorem freq_ok (c : Nat) (hc : 1 ≤ c) (ns : List NodeCplx) (data : List Text) (hd : FloatLine data.flatten (ns.flatMap NodeCplx.numbers))
    (hn : ∀ n ∈ ns, n.num.natAbs < 2 ^ 53 ∧ n.values.length = c ∧ ∀ z ∈ n.values, z.1.finite = true ∧ z.2.finite = true) :
    readFreqData c data = .ok (freqDict2414 c ns) := by
  have hlen : ∀ n ∈ ns, n.numbers.length = 2 * c + 1 := fun n h => by rw [numbers_length, (hn n h).2.1]
  have e0 : everyN 0 (2 * c + 1) (ns.flatMap NodeCplx.numbers) = (ns.map (·.num)).map F64.ofInt := by
    rw [List.map_map]
    exact everyN_flatMap _ 0 ns _ _ hlen fun _ _ => rfl
  have ec : ∀ i < c, cplxBroadcast (everyN (2 * i + 1) (2 * c + 1) (ns.flatMap NodeCplx.numbers))
      (everyN (2 * i + 2) (2 * c + 1) (ns.flatMap NodeCplx.numbers)) = .ok (component i ns) := by
    intro i hi
    rw [everyN_flatMap _ (2 * i + 1) ns _ (fun n => (n.values.getD i (F64.zero, F64.zero)).1) hlen
        (fun n h => (numbers_get n i (by rw [(hn n h).2.1]; exact hi)).1),
      everyN_flatMap _ (2 * i + 2) ns _ (fun n => (n.values.getD i (F64.zero, F64.zero)).2) hlen
        (fun n h => (numbers_get n i (by rw [(hn n h).2.1]; exact hi)).2)]
    refine broadcast_ok ns (fun n => n.values.getD i (F64.zero, F64.zero)) fun n h => ?_
    have hi' : i < n.values.length := by rw [(hn n h).2.1]; exact hi
    have hd : n.values.getD i (F64.zero, F64.zero) = n.values[i] := by rw [List.getD_eq_getElem?_getD, List.getElem?_eq_getElem hi']; rfl
    simp only [hd]
    exact (hn n h).2.2 _ (List.getElem_mem hi')
  unfold readFreqData
  rw [floatLine_ok hd, ok_bind]
  have en : ((c : Int) * 2 + 1).toNat = 2 * c + 1 := by omega
  simp only
  rw [if_neg (by omega), en, e0, truncInts_ok _ (by
    intro m hm
    obtain ⟨n, h, rfl⟩ := List.mem_map.1 hm
    exact (hn n h).1), ok_bind, show everyN 1 = everyN (2 * 0 + 1) from rfl, show everyN 2 = everyN (2 * 0 + 2) from rfl, ec 0 (by omega), ok_bind]
  unfold freqDict2414
  by_cases h3 : 3 ≤ c
  · rw [if_pos (by omega), show everyN 3 = everyN (2 * 1 + 1) from rfl, show everyN 4 = everyN (2 * 1 + 2) from rfl, ec 1 (by omega),
      if_pos (by omega), show everyN 5 = everyN (2 * 2 + 1) from rfl, show everyN 6 = everyN (2 * 2 + 2) from rfl, ec 2 (by omega), if_pos (by omega), if_pos h3]
    rfl
  · by_cases h2 : 2 ≤ c
    · rw [if_pos (by omega), show everyN 3 = everyN (2 * 1 + 1) from rfl, show everyN 4 = everyN (2 * 1 + 2) from rfl, ec 1 (by omega),
        if_neg (by omega), if_pos (by omega), if_neg h3]
      rfl
    · rw [if_neg (by omega), if_neg (by omega), if_neg (by omega), if_neg (by omega)]
      rfl

end Results
end Verif
