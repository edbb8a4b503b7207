import Verif.Lemmas.Cut
import Verif.Lemmas.Bare
import Verif.Lemmas.Crlf3
import Verif.Lemmas.Framing2
import Verif.Props.Framing
import Verif.Props.RoundTrip
import Verif.Props.Records
/-
C59: lines that look like a delimiter.
-/
namespace Verif

/-- The closing line. -/
def closingLine : Bytes := [32, 32, 32, 32, 45, 49, 10]

theorem whole_iff {t : Int} {b : Bytes} (hs : t ∈ supported) (h : FramedAs t b) :
    b.take (delimPos b 1) ++ closingLine = b ↔ (delims b).length = 2 := by
  obtain ⟨p, l, e, hp, hpl⟩ := delims_framed hs h
  have hpos : delimPos b 1 = p := by unfold delimPos; rw [e]; rfl
  have hlast : b.length - 7 ∈ delims b := by
    obtain ⟨m, hm⟩ := framed_length hs h
    exact List.mem_filter.2 ⟨List.mem_range.2 (by omega), by simpa using delim_last h⟩
  have hsort : (delims b).Pairwise (· < ·) := by
    unfold delims
    exact List.Pairwise.filter _ List.pairwise_lt_range
  have hbound : ∀ i ∈ delims b, i + 6 ≤ b.length := by
    intro i hi
    have := (List.mem_filter.1 hi).2
    rw [decide_eq_true_eq] at this
    have h5 := this.1 5 (by decide)
    by_contra hlt
    rw [List.getElem?_eq_none (by omega)] at h5
    cases h5
  have hend : b.drop (b.length - 7) = closingLine := by
    obtain ⟨m, rfl⟩ := h
    have : (encode (opening t.toNat) ++ (m ++ [32, 32, 32, 32, 45, 49, 10])).length - 7 =
      (encode (opening t.toNat) ++ m).length := by simp; omega
    rw [this, ← List.append_assoc, List.drop_left]; rfl
  obtain ⟨m, hm⟩ := framed_length hs h
  constructor
  · intro hw
    have hlen := congrArg List.length hw
    rw [hpos, List.length_append, List.length_take, show closingLine.length = 7 from rfl] at hlen
    rw [e]
    simp only [List.length_cons]
    cases l with
    | nil => rfl
    | cons q l =>
      exfalso
      rw [e] at hsort hbound
      have h1 : p < q := by
        have := (List.pairwise_cons.1 (List.pairwise_cons.1 hsort).2).1
        exact this q (by simp)
      have h2 := hbound q (by simp)
      have hq : q = p + 1 := by omega
      subst hq
      -- two delimiters cannot start at neighbouring bytes
      have hd1 : DelimAt b p := by
        have : p ∈ delims b := by rw [e]; simp
        simpa using (List.mem_filter.1 this).2
      have hd2 : DelimAt b (p + 1) := by
        have : p + 1 ∈ delims b := by rw [e]; simp
        simpa using (List.mem_filter.1 this).2
      have a1 := hd1.1 4 (by decide)
      have a2 := hd2.1 3 (by decide)
      rw [show p + 1 + 3 = p + 4 by omega, a1] at a2
      cases a2
  · intro hw
    rw [e] at hw hlast
    cases l with
    | cons q l => simp at hw
    | nil =>
      have : p = b.length - 7 := by
        simp only [List.mem_cons, List.not_mem_nil, or_false] at hlast
        rcases hlast with h | h <;> omega
      rw [hpos, this, ← hend, List.take_append_drop]

/-- **C59 (new data-set).** Whatever the dictionary holds, a successful call adds one stretch of bytes that begins and ends with a
delimiter line.  The new data-set goes from its beginning to the next delimiter in it; it is the whole stretch but for
the closing line exactly if nothing in between looks like a delimiter.  Every two delimiters in the stretch count as a data-set, and the
file is again one of complete data-sets exactly if their number is even. -/
theorem C59_new (w : World) (e : Env) (mode : Text) (hm : lower mode = "add".toList) (fd : Bool) (d : Dict) (t : Int)
    (h : Writable d t) (hf : Terminated (w.file.getD [])) (hb : Balanced (w.file.getD []))
    (hok : (w.writeSets e mode fd [d]).2.2 = .ok ()) :
    ∃ b, FramedAs t b ∧
      let old := w.file.getD []
      let new := (w.writeSets e mode fd [d]).1.file.getD []
      new = old ++ b ∧ sets new = sets old ++ sets b ∧
      (World.new (some new)).getNSets.2 = setCount old + (delims b).length / 2 ∧ 2 ≤ (delims b).length ∧
      setBytes new (setCount old) = b.take (delimPos b 1) ∧
      (setBytes new (setCount old) ++ closingLine = b ↔ (delims b).length = 2) ∧
      (Balanced new ↔ (delims b).length % 2 = 0) := by
  obtain ⟨bs, hbs, he⟩ := C58_written w e mode hm fd [d] [t] (.cons h .nil) hok
  cases hbs with
  | @cons _ b _ l h1 h2 =>
    cases h2
    simp only [List.flatten_cons, List.flatten_nil, List.append_nil] at he
    refine ⟨b, h1, he, ?_⟩
    rw [he]
    generalize w.file.getD [] = f at hf hb
    have hs := sets_append f b hf hb
    obtain ⟨p, l, hd, hp, hpl⟩ := delims_framed h.2.1 h1
    have hcount : setCount (f ++ b) = setCount f + setCount b := by
      rw [← sets_length, ← sets_length, ← sets_length, hs, List.length_append]
    have hc1 := count_framed h.2.1 h1
    have hk : setCount f < setCount (f ++ b) := by omega
    have hsb : setBytes (f ++ b) (setCount f) = setBytes b 0 := by
      have := sets_getElem _ _ hk
      rw [hs, ← sets_length, List.getElem?_append_right (Nat.le_refl _), Nat.sub_self, sets_getElem b 0 (by omega)] at this
      rw [← sets_length]
      exact (Option.some.inj this).symm
    have hfirst : setBytes b 0 = b.take (delimPos b 1) := by
      unfold setBytes delimPos
      rw [hd]; rfl
    refine ⟨hs, ?_, by rw [hd]; simp, hsb.trans hfirst, ?_, ?_⟩
    · rw [C01_count]; exact hcount
    · rw [hsb, hfirst]; exact whole_iff h.2.1 h1
    · unfold Balanced at hb ⊢
      rw [delims_append f b hf, List.length_append, List.length_map]
      omega

/-- **C59 (lost data-sets).** After an odd number of delimiters, whatever their origin, `N ≥ 1` well-formed data-sets are
added without an error and none of them can be found: the file gets a data-set from its last delimiter to its end and `N - 1`
empty data-sets of type 0. -/
theorem C59_lost (w : World) (f : Bytes) (hw : w.file = some f) (hf : Terminated f) (hb : ¬ Balanced f) (e : Env) (mode : Text)
    (hm : lower mode = "add".toList) (fd : Bool) (ds : List Dict) (ss : List DataSet) (h : GivenAll e fd ds ss) (hs : ss ≠ []) :
    (w.writeSets e mode fd ds).2.2 = .ok () ∧
    sets ((w.writeSets e mode fd ds).1.file.getD []) =
      sets f ++ f.drop (delimPos f ((delims f).length - 1)) :: List.replicate (ss.length - 1) (delimBytes ++ [10]) := by
  obtain ⟨bs, hbs, hall⟩ := addAll_given h
  obtain ⟨h1, h2, _⟩ := hall w
  rw [writeSets_add' w e mode hm fd ds (h.ne hs)]
  refine ⟨h1, ?_⟩
  rw [h2, hw]
  simp only [Option.getD_some]
  have hbne : bs ≠ [] := by
    intro e; have := hbs.length; rw [e] at this
    exact hs (List.length_eq_zero_iff.1 this.symm)
  obtain ⟨D, x, hD⟩ : ∃ D x, delims f = D ++ [x] := by
    have : delims f ≠ [] := by intro e; exact hb (by unfold Balanced; rw [e]; rfl)
    exact ⟨_, _, (List.dropLast_concat_getLast this).symm⟩
  have hDe : D.length % 2 = 0 := by
    unfold Balanced at hb; rw [hD] at hb; simp at hb; omega
  have hmem : ∀ y ∈ delims f, y < f.length := fun y hy => delims_lt f y hy
  have hpos : delimPos f ((delims f).length - 1) = x := by
    unfold delimPos; rw [hD]; simp
  have hx : pairUp [x] = [] := rfl
  rw [hpos, sets_eq, sets_eq f, delims_append f _ hf, hD, pairUp_even D [x] hDe, hx, List.append_nil, List.append_assoc,
    pairUp_even _ _ hDe, List.map_append, List.singleton_append, pairs_shifted f x hbs hbne]
  congr 1
  · apply List.map_congr_left
    intro p hp
    have hp2 : p.2 ∈ delims f := by rw [hD]; exact List.mem_append_left _ (pairUp_mem _ _ hp).2
    exact blockBytes_left _ _ p (Nat.le_of_lt (hmem _ hp2))
  · congr 1
    rw [blockBytes_left _ _ _ (Nat.le_refl _)]
    unfold blockBytes slice
    exact List.take_of_length_le (by simp)

/-! ### Nodes: a colour -1 -/

namespace DS2411

/-- The beginning of the first line of a node with colour -1. -/
def start (n : Node) : Text := fieldLine [(10, intRepr n.num), (10, intRepr n.defCs), (10, intRepr n.dispCs)] ++ blanks 4

theorem line_cut (n : Node) (h : n.color = -1) : fieldLine (f1 n) = start n ++ tagText := by
  unfold f1 start
  rw [h]
  have : padLeft 10 (intRepr (-1)) = blanks 4 ++ tagText := by decide
  simp only [fieldLine_cons, fieldLine_nil, List.append_nil, List.append_assoc, this]

theorem lines_cut (a b : List Node) (n : Node) (h : n.color = -1) : lines ⟨a ++ n :: b⟩ =
    idLine 2411 :: ((a.flatMap fun n => [fieldLine (f1 n), fieldLine (f2 n)]) ++ (start n ++ tagText) ::
      (fieldLine (f2 n) :: b.flatMap fun n => [fieldLine (f1 n), fieldLine (f2 n)])) := by
  unfold lines
  simp only [List.flatMap_append, List.flatMap_cons, List.cons_append, List.nil_append, line_cut n h]

theorem startFields_ok (n : Node) (h : Fits 9 n.num ∧ Fits 9 n.defCs ∧ Fits 9 n.dispCs) :
    ∀ f ∈ [(10, intRepr n.num), (10, intRepr n.defCs), (10, intRepr n.dispCs)], TokOk f.1 f.2 := by
  all_mem
  exact ⟨tok_int _ _ h.1 (by decide), tok_int _ _ h.2.1 (by decide), tok_int _ _ h.2.2 (by decide)⟩

theorem read_cut (a : List Node) (n : Node) (ha : ∀ m ∈ a, NodeOk m) (h : Fits 9 n.num ∧ Fits 9 n.defCs ∧ Fits 9 n.dispCs) :
    extract2411 (blockText (idLine 2411 :: a.flatMap fun n => [fieldLine (f1 n), fieldLine (f2 n)]) ++ start n) =
    .ok [("type", .int 2411), ("node_nums", .arrF ((a ++ [n]).map fun n => F64.ofInt n.num)),
      ("def_cs", .arrF ((a ++ [n]).map fun n => F64.ofInt n.defCs)),
      ("disp_cs", .arrF ((a ++ [n]).map fun n => F64.ofInt n.dispCs)),
      ("color", .arrF (a.map fun n => F64.ofInt n.color)),
      ("x", .arrF (a.map (·.x))), ("y", .arrF (a.map (·.y))), ("z", .arrF (a.map (·.z)))] := by
  have e : ((splitLinesKeep (blockText (idLine 2411 :: a.flatMap fun n => [fieldLine (f1 n), fieldLine (f2 n)]) ++ start n)).drop
      2).flatten = ((a.flatMap fun n => [f1 n, f2 n]).flatMap fun l => fieldLine l ++ ['\n']) ++ start n := by
    unfold blockText
    rw [joinLines_cons, joinLines_cons]
    simp only [List.append_assoc, List.cons_append]
    rw [splitLinesKeep_line _ _ noBreak_tagText, splitLinesKeep_line _ _ (by decide)]
    simp only [List.drop_succ_cons, List.drop_zero, splitLinesKeep_flatten]
    congr 1
    unfold joinLines
    simp [List.flatMap_assoc]
  unfold extract2411
  rw [e, splitWs_lines _ _ (by
    intro l hl g hg
    obtain ⟨m, hm, hl⟩ := List.mem_flatMap.1 hl
    simp only [List.mem_cons, List.not_mem_nil, or_false] at hl
    rcases hl with rfl | rfl
    · exact tok1 m (ha m hm) g hg
    · exact tok2 m (ha m hm) g hg)]
  unfold start
  rw [splitWs_fieldLine _ (blanks 4) (startFields_ok n h) (show StartsSpace (' ' :: blanks 3) from StartsSpace.cons (by decide)),
    splitWs_all_spaces (blanks 4) (by decide)]
  have hv : mapRes deFloat ((a.flatMap fun n => [f1 n, f2 n]).flatten.map (·.2) ++
      ([(10, intRepr n.num), (10, intRepr n.defCs), (10, intRepr n.dispCs)].map (·.2) ++ [])) =
      .ok (a.flatMap vals ++ [F64.ofInt n.num, F64.ofInt n.defCs, F64.ofInt n.dispCs]) := by
    refine mapRes_append ?_ ?_
    · have e2 : (a.flatMap fun n => [f1 n, f2 n]).flatten.map (·.2) = a.flatMap fun n => (f1 n ++ f2 n).map (·.2) := by
        rw [List.flatten_eq_flatMap, List.flatMap_assoc]
        simp [List.map_flatMap]
      rw [e2]
      refine mapRes_flatMap a _ vals fun m hm => ?_
      have o := ha m hm
      have q : ∀ x : F64, x.finite = true → deFloat (fmtE 16 x) = .ok x := by
        intro x hx; rw [deFloat_flt 16 x hx, quant_exact 16 (by decide) x hx]
      exact mapRes_cons (deFloat_int _) (mapRes_cons (deFloat_int _) (mapRes_cons (deFloat_int _)
        (mapRes_cons (deFloat_int _) (mapRes_cons (q _ o.x) (mapRes_cons (q _ o.y) (mapRes_cons (q _ o.z) rfl))))))
    · exact mapRes_cons (deFloat_int _) (mapRes_cons (deFloat_int _) (mapRes_cons (deFloat_int _) rfl))
  rw [hv]
  have ev : ∀ (k : Nat) (g : Node → F64), (∀ m, (vals m)[k]? = some (g m)) → k < 7 →
      everyN k 7 (a.flatMap vals ++ [F64.ofInt n.num, F64.ofInt n.defCs, F64.ofInt n.dispCs]) =
        a.map g ++ everyN k 7 [F64.ofInt n.num, F64.ofInt n.defCs, F64.ofInt n.dispCs] := by
    intro k g hg hk
    clear hv e
    induction a with
    | nil => rfl
    | cons m a ih =>
      rw [List.flatMap_cons, List.append_assoc, everyN_block 7 k (vals m) _ (g m) rfl (hg m),
        ih fun x hx => ha x (by simp [hx])]
      rfl
  simp only [ok_bind, readGuard]
  rw [ev 0 (fun n => F64.ofInt n.num) (fun _ => rfl) (by decide), ev 1 (fun n => F64.ofInt n.defCs) (fun _ => rfl) (by decide),
    ev 2 (fun n => F64.ofInt n.dispCs) (fun _ => rfl) (by decide), ev 3 (fun n => F64.ofInt n.color) (fun _ => rfl) (by decide),
    ev 4 (·.x) (fun _ => rfl) (by decide), ev 5 (·.y) (fun _ => rfl) (by decide), ev 6 (·.z) (fun _ => rfl) (by decide)]
  simp [everyN, everyAux]

theorem start_ok (n : Node) (h : Fits 9 n.num ∧ Fits 9 n.defCs ∧ Fits 9 n.dispCs) : NoBreak (start n) ∧ (start n).length ≤ 73 := by
  refine ⟨(noBreak_fieldLine _ fun f hf => NoBreak.of_noSpace (startFields_ok n h f hf).noSpace).append (NoBreak.replicate 4), ?_⟩
  unfold start
  rw [List.length_append, fieldLine_length _ fun f hf => Nat.le_of_lt (startFields_ok n h f hf).lt]
  simp [blanks]

theorem safe_nodes (a : List Node) (ha : ∀ m ∈ a, NodeOk m) :
    Safe (idLine 2411 :: a.flatMap fun n => [fieldLine (f1 n), fieldLine (f2 n)]) := safe ⟨a⟩ ha

end DS2411

/-- **C59 (nodes).** Nodes one of which has colour -1: the call succeeds.  Of the first such node only its number and coordinate
systems are read; its colour and coordinates and all nodes behind it are not.  The arrays read have different lengths. -/
theorem C59_2411 (e : Env) (fd : Bool) (d d' : Dict) (hc : CleanD d d') (a b : List Node) (n : Node)
    (h : DS2411.Rep d' ⟨a ++ n :: b⟩) (ha : ∀ m ∈ a, DS2411.NodeOk m) (hn : Fits 9 n.num ∧ Fits 9 n.defCs ∧ Fits 9 n.dispCs)
    (hcol : n.color = -1) (mode : Text) (hm : lower mode = "add".toList) (w : World) (hT : Terminated (w.file.getD []))
    (hB : Balanced (w.file.getD [])) (header : Bool) :
    (w.writeSets e mode fd [d]).2.2 = .ok () ∧
    ((w.writeSets e mode fd [d]).1.readSets (.one (setCount (w.file.getD []))) header).2 = .ok (.single
      [("type", .int 2411), ("node_nums", .arrF ((a ++ [n]).map fun n => F64.ofInt n.num)),
       ("def_cs", .arrF ((a ++ [n]).map fun n => F64.ofInt n.defCs)),
       ("disp_cs", .arrF ((a ++ [n]).map fun n => F64.ofInt n.dispCs)),
       ("color", .arrF (a.map fun n => F64.ofInt n.color)),
       ("x", .arrF (a.map (·.x))), ("y", .arrF (a.map (·.y))), ("z", .arrF (a.map (·.z)))]) := by
  rw [writeSets_add w e mode hm fd d []]
  have hw := DS2411.write_eq d' _ h
  rw [DS2411.lines_cut a b n hcol] at hw
  have := read_cut (e := e) (fd := fd) (ex := extract2411) hc h.type (n := 2411) rfl (fun _ _ => rfl) hw (by decide +kernel) (by decide) (DS2411.safe_nodes a ha)
    (DS2411.start_ok n hn).1 (DS2411.start_ok n hn).2 w hT hB header
  rw [DS2411.read_cut a n ha hn] at this
  exact this

/-- **C59 (nodes, exactly).** Nodes whose numbers fit their columns come back exactly if none has colour -1. -/
theorem C59_2411_iff (e : Env) (fd : Bool) (d d' : Dict) (hc : CleanD d d') (r : DS2411) (h : r.Rep d')
    (ok : ∀ n ∈ r.nodes, Fits 9 n.num ∧ Fits 9 n.defCs ∧ Fits 9 n.dispCs ∧ Fits 9 n.color ∧ n.x.finite = true ∧
      n.y.finite = true ∧ n.z.finite = true) :
    StoredAs e fd d r.readBack r.readBack ↔ ∀ n ∈ r.nodes, n.color ≠ -1 := by
  have okn : ∀ n ∈ r.nodes, n.color ≠ -1 → DS2411.NodeOk n := fun n hn h1 => by
    obtain ⟨a1, a2, a3, a4, a5, a6, a7⟩ := ok n hn
    exact ⟨a1, a2, a3, a4, h1, a5, a6, a7⟩
  constructor
  · intro hs n hn h1
    -- the first node with colour -1
    obtain ⟨a, m, b, hab, ha, hm⟩ : ∃ a m b, r.nodes = a ++ m :: b ∧ (∀ x ∈ a, x.color ≠ -1) ∧ m.color = -1 := by
      clear hs h okn ok
      generalize r.nodes = l at hn
      induction l with
      | nil => cases hn
      | cons x l ih =>
        by_cases hx : x.color = -1
        · exact ⟨[], x, l, rfl, by simp, hx⟩
        · rcases List.mem_cons.1 hn with rfl | hn
          · exact absurd h1 hx
          · obtain ⟨a, m, b, e, h2, h3⟩ := ih hn
            refine ⟨x :: a, m, b, by rw [e]; rfl, ?_, h3⟩
            intro y hy
            rcases List.mem_cons.1 hy with rfl | hy
            · exact hx
            · exact h2 y hy
    have hm' := ok m (by rw [hab]; simp)
    have h' : DS2411.Rep d' ⟨a ++ m :: b⟩ := by rw [← hab]; exact h
    have hr := (C59_2411 e fd d d' hc a b m h' (fun x hx => okn x (by rw [hab]; simp [hx]) (ha x hx))
      ⟨hm'.1, hm'.2.1, hm'.2.2.1⟩ hm "add".toList (by decide) (World.new none) (.inl rfl) (by decide) false).2
    have hs' := (hs.all (World.new none) (.inl rfl) (by decide)).2.2.1
    rw [hr] at hs'
    simp only [Except.ok.injEq, ReadOut.single.injEq] at hs'
    have := congrArg (fun d : Dict => d.get? "x") hs'
    unfold DS2411.readBack at this
    rw [hab] at this
    have h2 : (some (Val.arrF (a.map (·.x)))) = some (.arrF ((a ++ m :: b).map (·.x))) := this
    simp only [Option.some.injEq, Val.arrF.injEq] at h2
    have h3 := congrArg List.length h2
    simp at h3
  · intro hn
    exact C28_roundtrip_partial e fd d d' r hc h fun n h1 => okn n h1 (hn n h1)

/-! ### A model header: -1 as version, parent or switches -/

theorem splitLinesKeep_noBreak (x : Text) (hx : NoBreak x) (h0 : x ≠ []) : splitLinesKeep x = [x] := by
  unfold splitLinesKeep
  have key : ∀ (x acc : Text), NoBreak x → x ++ acc ≠ [] → splitLinesGen '\r' '\n' isBreak true acc x = [acc.reverse ++ x] := by
    intro x
    induction x with
    | nil =>
      intro acc _ h
      cases acc with
      | nil => exact absurd rfl h
      | cons a acc => simp [splitLinesGen]
    | cons c cs ih =>
      intro acc h _
      rw [splitLinesGen_cons_noBrk _ _ _ _ (by decide) _ _ _ (h c (by simp)), ih _ (fun d hd => h d (by simp [hd])) (by simp)]
      simp
  simpa using key x [] hx (by simpa using h0)

theorem splitKeep_cut (L : List Text) (x : Text) (h : Safe L) (hx : NoBreak x) :
    splitLinesKeep (blockText L ++ x) = (tagText ++ ['\n']) :: (L.map (· ++ ['\n']) ++ (if x = [] then [] else [x])) := by
  unfold blockText
  have key : ∀ ls : List Text, (∀ l ∈ ls, NoBreak l) → splitLinesKeep (joinLines ls ++ x) =
      ls.map (· ++ ['\n']) ++ (if x = [] then [] else [x]) := by
    intro ls hls
    induction ls with
    | nil =>
      show splitLinesKeep x = _
      by_cases hx0 : x = []
      · subst hx0; rfl
      · rw [if_neg hx0]; exact splitLinesKeep_noBreak x hx hx0
    | cons l ls ih =>
      rw [joinLines_cons, List.append_assoc, List.cons_append, splitLinesKeep_line _ _ (hls l (by simp)),
        ih fun l hl => hls l (by simp [hl])]
      rfl
  rw [key _ (by
    intro l hl
    rcases List.mem_cons.1 hl with rfl | hl
    · exact noBreak_tagText
    · exact (h l hl).1)]
  rfl

namespace DS2400
open Records

theorem fails (t : Text) (h : ∀ l, (splitLinesKeep t)[7]? = some l → ¬ IntAt l 0 12) : extract2400 t = .error (.reading 2400) := by
  unfold extract2400
  refine (guard_known (n := 2400) ?_).resolve_left ?_
  · repeat' first
      | with_reducible exact known_map (fun _ => known_int _) _
      | with_reducible exact known_ok _
      | with_reducible exact known_index _
      | with_reducible exact known_head _ _ _ _ _
      | with_reducible refine known_bind ?_ fun _ _ => ?_
  · rintro ⟨d, hd⟩
    rw [guard_ok] at hd
    simp (disch := decide) only [index_bind, head_bind, good_24a, good_str, true_and, named_24a, named_text] at hd
    obtain ⟨l2, h2, g2, l3, h3, l4, h4, l5, h5, hd⟩ := hd
    rw [ok_iff] at hd
    obtain ⟨mask, hm, hd⟩ := hd
    simp (disch := decide) only [index_bind, head_bind, good_24b, good_24c, named_24b, named_24c, Except.ok.injEq] at hd
    obtain ⟨l6, h6, g6, l7, h7, g7, hd⟩ := hd
    exact h l7 h7 g7

/-- The integers that end a line may be anything that fits its columns. -/
structure Fit (r : DS2400) : Prop where
  ok : Ok { r with version := 0, parent := 0, switches := 0 }
  version : Fits 12 r.version
  parent : Fits 12 r.parent
  switches : Fits 12 r.switches

theorem Fit.toOk {r : DS2400} (h : Fit r) (h1 : r.version ≠ -1) (h2 : r.parent ≠ -1) (h3 : r.switches ≠ -1) : Ok r :=
  { uid := h.ok.uid, entityType := h.ok.entityType, subtype := h.ok.subtype, version := h.version, version1 := h1,
    name := h.ok.name, part := h.ok.part, mask32 := h.ok.mask32, mask := h.ok.mask, date := h.ok.date, time := h.ok.time,
    idmVersion := h.ok.idmVersion, idmItem := h.ok.idmItem, parent := h.parent, parent1 := h2, switches := h.switches,
    switches1 := h3 }

theorem zero12 : Fits 12 0 := by decide
theorem zero1 : (0 : Int) ≠ -1 := by decide
theorem minus12 : padLeft 12 (intRepr (-1)) = blanks 6 ++ tagText := by decide

/-- The lines of a header whose first -1 at the end of a line is at the end of `x ++ tagText`. -/
theorem lines_cut (r : DS2400) (h : Fit r) (h1 : r.version = -1 ∨ r.parent = -1 ∨ r.switches = -1) :
    ∃ pre x post, r.lines = idLine 2400 :: (pre ++ (x ++ tagText) :: post) ∧ Safe (idLine 2400 :: pre) ∧ NoBreak x ∧
      x.length ≤ 73 ∧ (pre.length ≤ 4 ∨ pre.length = 5 ∧ x = blanks 6) := by
  have sub : ∀ {a b : List Text}, Safe (a ++ b) → Safe a := fun h l hl => h l (List.mem_append_left _ hl)
  by_cases hv : r.version = -1
  · refine ⟨[], [padLeft 12 (intRepr r.uid), padLeft 6 (intRepr r.entityType), padLeft 6 (intRepr r.subtype), blanks 6].flatten,
      r.lines.drop 2, ?_, ?_, ?_, ?_, .inl (by decide)⟩
    · unfold lines; rw [hv, minus12]; simp
    · exact sub (a := [idLine 2400]) (safe _ h.ok)
    · apply noBreak_fields
      all_mem
      exact ⟨noBreak_int _ _, noBreak_int _ _, noBreak_int _ _, NoBreak.replicate 6⟩
    · simp [len_int 12 _ h.ok.uid, len_int 6 _ h.ok.entityType, len_int 6 _ h.ok.subtype, blanks]
  · by_cases hp : r.parent = -1
    · have ok : Ok { r with parent := 0, switches := 0 } := Fit.toOk
        ⟨h.ok, h.version, zero12, zero12⟩ hv zero1 zero1
      refine ⟨[_, _, _, _], [padRight 10 r.date, padRight 10 r.time, padLeft 12 (intRepr r.idmVersion),
        padLeft 12 (intRepr r.idmItem), blanks 6].flatten, r.lines.drop 6, ?_, sub (a := [_, _, _, _, _]) (safe _ ok), ?_, ?_, .inl ?_⟩
      · unfold lines; rw [hp, minus12]; simp
      · apply noBreak_fields
        all_mem
        exact ⟨h.ok.date.noBreak.padRight, h.ok.time.noBreak.padRight, noBreak_int _ _, noBreak_int _ _, NoBreak.replicate 6⟩
      · simp [h.ok.date.lenR, h.ok.time.lenR, len_int 12 _ h.ok.idmVersion, len_int 12 _ h.ok.idmItem, blanks]
      · exact Nat.le_refl 4
    · have hs : r.switches = -1 := by
        rcases h1 with h1 | h1 | h1
        · exact absurd h1 hv
        · exact absurd h1 hp
        · exact h1
      have ok : Ok { r with switches := 0 } := Fit.toOk
        ⟨h.ok, h.version, h.parent, zero12⟩ hv hp zero1
      refine ⟨[_, _, _, _, _], blanks 6, [], ?_, sub (a := [_, _, _, _, _, _]) (safe _ ok), NoBreak.replicate 6, by decide,
        .inr ⟨rfl, rfl⟩⟩
      unfold lines; rw [hs, minus12]; simp

end DS2400

/-- **C59 (model header).** A version, parent or set of switches -1: the call succeeds and the data-set cannot be read. -/
theorem C59_2400 (e : Env) (fd : Bool) (d d' : Dict) (hc : CleanD d d') (r : DS2400) (h : r.Rep d') (fit : r.Fit)
    (h1 : r.version = -1 ∨ r.parent = -1 ∨ r.switches = -1) (mode : Text) (hm : lower mode = "add".toList) (w : World)
    (hT : Terminated (w.file.getD [])) (hB : Balanced (w.file.getD [])) (header : Bool) :
    (w.writeSets e mode fd [d]).2.2 = .ok () ∧
    ((w.writeSets e mode fd [d]).1.readSets (.one (setCount (w.file.getD []))) header).2 =
      .error (.exc "Error when reading data-set(s).") := by
  rw [writeSets_add w e mode hm fd d []]
  have hw := DS2400.write_eq d' _ h
  obtain ⟨pre, x, post, hl, hsafe, hx, hx73, hlen⟩ := DS2400.lines_cut r fit h1
  rw [hl] at hw
  have := read_cut (e := e) (fd := fd) (ex := extract2400) hc h.type (n := 2400) rfl (fun _ _ => rfl) hw (by decide +kernel)
    (by decide) hsafe hx hx73 w hT hB header
  rw [DS2400.fails _ (by
    intro l hl
    rw [splitKeep_cut _ _ hsafe hx] at hl
    rcases hlen with hlen | ⟨hlen, rfl⟩
    · have : 7 < ((tagText ++ ['\n']) :: ((idLine 2400 :: pre).map (· ++ ['\n']) ++ (if x = [] then [] else [x]))).length :=
        (List.getElem?_eq_some_iff.1 hl).1
      simp only [List.length_cons, List.length_append, List.length_map] at this
      have h1 : (if x = [] then ([] : List Text) else [x]).length ≤ 1 := by split <;> simp
      omega
    · rw [List.getElem?_cons_succ, List.getElem?_append_right (by simp [hlen]), if_neg (by decide)] at hl
      simp only [List.length_map, List.length_cons, hlen] at hl
      cases hl
      decide)] at this
  exact this

/-- **C59 (model header, exactly).** A model header whose entries fit their columns comes back exactly if its version, parent and
switches are not -1. -/
theorem C59_2400_iff (e : Env) (fd : Bool) (d d' : Dict) (hc : CleanD d d') (r : DS2400) (h : r.Rep d') (fit : r.Fit) :
    StoredAs e fd d r.readBack r.readBack ↔ r.version ≠ -1 ∧ r.parent ≠ -1 ∧ r.switches ≠ -1 := by
  constructor
  · intro hs
    refine Classical.byContradiction fun hn => ?_
    have h1 : r.version = -1 ∨ r.parent = -1 ∨ r.switches = -1 := by omega
    have hr := (C59_2400 e fd d d' hc r h fit h1 "add".toList (by decide) (World.new none) (.inl rfl) (by decide) false).2
    have hs' := (hs.all (World.new none) (.inl rfl) (by decide)).2.2.1
    rw [hr] at hs'
    cases hs'
  · rintro ⟨h1, h2, h3⟩
    exact C27_roundtrip_partial e fd d d' r hc h (fit.toOk h1 h2 h3)

/-! ### Units: a temperature mode -1 -/

namespace DS164
open Records

theorem fails (L : List Text) (x : Text) (h : L.length ≤ 1) (hs : Safe L) (hx : NoBreak x) :
    extract164 (blockText L ++ x) = .error (.reading 164) := by
  unfold extract164
  refine (guard_known (n := 164) ?_).resolve_left ?_
  · unfold dFloat; known
  · rintro ⟨d, hd⟩
    rw [guard_ok, splitKeep_cut _ _ hs hx] at hd
    have e : (((tagText ++ ['\n']) :: (L.map (· ++ ['\n']) ++ (if x = [] then [] else [x]))).drop 3).flatten = [] := by
      rw [List.drop_eq_nil_of_le]
      · rfl
      · simp only [List.length_cons, List.length_append, List.length_map]
        split <;> simp <;> omega
    simp only [e] at hd
    simp (disch := decide) only [index_bind, head_bind, good_164, named_164] at hd
    obtain ⟨l, h2, hi, hd⟩ := hd
    obtain ⟨t, ht, _⟩ := hd
    cases ht

theorem minus10 : padLeft 10 (intRepr (-1)) = blanks 4 ++ tagText := by decide

/-- The temperature mode may be anything that fits its columns. -/
structure Fit (r : DS164) : Prop where
  ok : Ok { r with tempMode := 0 }
  tempMode : Fits 10 r.tempMode

end DS164

/-- **C59 (units).** A temperature mode -1: the call succeeds and the data-set cannot be read. -/
theorem C59_164 (e : Env) (fd : Bool) (d d' : Dict) (hc : CleanD d d') (r : DS164) (h : r.Rep d') (fit : r.Fit)
    (h1 : r.tempMode = -1) (mode : Text) (hm : lower mode = "add".toList) (w : World)
    (hT : Terminated (w.file.getD [])) (hB : Balanced (w.file.getD [])) (header : Bool) :
    (w.writeSets e mode fd [d]).2.2 = .ok () ∧
    ((w.writeSets e mode fd [d]).1.readSets (.one (setCount (w.file.getD []))) header).2 =
      .error (.exc "Error when reading data-set(s).") := by
  rw [writeSets_add w e mode hm fd d []]
  have hw := DS164.write_finite d' _ h ⟨fit.ok.length, fit.ok.force, fit.ok.temp, fit.ok.offset⟩
  have hl : r.lines = idLine 164 :: ([] ++ ([padLeft 10 (intRepr r.code), padLeft 20 r.descr, blanks 4].flatten ++ tagText) ::
      r.lines.drop 2) := by
    unfold DS164.lines; rw [h1, DS164.minus10]; simp
  rw [hl] at hw
  have hx : NoBreak [padLeft 10 (intRepr r.code), padLeft 20 r.descr, blanks 4].flatten := by
    simp only [List.flatten_cons, List.flatten_nil]
    exact (noBreak_int _ _).append ((NoBreak.padLeft fit.ok.descr.noBreak).append ((NoBreak.replicate 4).append NoBreak.nil))
  have hs : Safe [idLine 164] := fun l hl => DS164.safe _ fit.ok l (List.mem_cons.2 (.inl (List.mem_singleton.1 hl)))
  have := read_cut (e := e) (fd := fd) (ex := extract164) hc h.type (n := 164) rfl (fun _ _ => rfl) hw (by decide +kernel)
    (by decide) hs hx (by
      simp [len_int 10 _ fit.ok.code, padLeft_length 20 _ fit.ok.descr.fits, blanks]) w hT hB header
  rw [DS164.fails _ _ (by decide) hs hx] at this
  exact this

/-- **C59 (units, exactly).** Units whose entries fit their columns come back exactly if the temperature mode is not -1. -/
theorem C59_164_iff (e : Env) (fd : Bool) (d d' : Dict) (hc : CleanD d d') (r : DS164) (h : r.Rep d') (fit : r.Fit) :
    StoredAs e fd d r.readBack r.readBack ↔ r.tempMode ≠ -1 := by
  constructor
  · intro hs h1
    have hr := (C59_164 e fd d d' hc r h fit h1 "add".toList (by decide) (World.new none) (.inl rfl) (by decide) false).2
    have hs' := (hs.all (World.new none) (.inl rfl) (by decide)).2.2.1
    rw [hr] at hs'
    cases hs'
  · intro h1
    exact C25_roundtrip e fd d d' r hc h
      ⟨fit.ok.code, fit.ok.descr, fit.tempMode, h1, fit.ok.length, fit.ok.force, fit.ok.temp, fit.ok.offset⟩

/-! ### Cases -/

/-- Three nodes, the second with colour -1. -/
def cut2411 : DS2411 := ⟨[⟨1, 0, 0, 8, fA, fB, F64.zero⟩] ++ ⟨2, 3, 4, -1, fB, fA, fC⟩ :: [⟨3, 0, 0, 11, fB, fA, fC⟩]⟩

/-- Two numbers, one colour and one coordinate of each kind are read. -/
example : ((World.new none).writeSets exEnv "add".toList true [cut2411.dict]).2.2 = .ok () ∧
    (((World.new none).writeSets exEnv "add".toList true [cut2411.dict]).1.readSets (.one (0 : Nat)) false).2 = .ok (.single
      [("type", .int 2411), ("node_nums", .arrF [F64.ofInt 1, F64.ofInt 2]), ("def_cs", .arrF [F64.ofInt 0, F64.ofInt 3]),
       ("disp_cs", .arrF [F64.ofInt 0, F64.ofInt 4]), ("color", .arrF [F64.ofInt 8]), ("x", .arrF [fA]), ("y", .arrF [fB]),
       ("z", .arrF [F64.zero])]) :=
  C59_2411 exEnv true _ cut2411.dict (cleanD_none rfl) [⟨1, 0, 0, 8, fA, fB, F64.zero⟩] [⟨3, 0, 0, 11, fB, fA, fC⟩]
    ⟨2, 3, 4, -1, fB, fA, fC⟩
    ⟨rfl, ⟨_, rfl, isSeq_arrI _⟩, ⟨_, rfl, isSeq_arrI _⟩, ⟨_, rfl, isSeq_arrI _⟩, ⟨_, rfl, isSeq_arrI _⟩,
      ⟨_, rfl, isSeq_arrF _⟩, ⟨_, rfl, isSeq_arrF _⟩, ⟨_, rfl, isSeq_arrF _⟩⟩
    (by all_mem; constructor <;> decide +kernel) (by decide) rfl _ (by decide) (World.new none) (.inl rfl) (by decide) false

example : ∀ n ∈ cut2411.nodes, Fits 9 n.num ∧ Fits 9 n.defCs ∧ Fits 9 n.dispCs ∧ Fits 9 n.color ∧ n.x.finite = true ∧
    n.y.finite = true ∧ n.z.finite = true := by decide +kernel

example : DS2400.Fit { ex2400 with parent := -1 } :=
  ⟨by constructor <;> decide +kernel, by decide, by decide, by decide⟩
example : DS2400.Fit { ex2400 with switches := -1 } :=
  ⟨by constructor <;> decide +kernel, by decide, by decide, by decide⟩

/-- A model without a parent, written behind another data-set. -/
example : ((World.new (some (exFile.take 135))).writeSets exEnv "add".toList true [bad2400'.dict]).2.2 = .ok () ∧
    (((World.new (some (exFile.take 135))).writeSets exEnv "add".toList true [bad2400'.dict]).1.readSets (.one (setCount (exFile.take 135))) true).2 =
      .error (.exc "Error when reading data-set(s).") :=
  C59_2400 exEnv true _ bad2400'.dict (cleanD_none rfl) bad2400' (by
    constructor <;> first | rfl | exact ⟨_, rfl, rfl⟩ | exact isSeq_arrI _)
    ⟨by constructor <;> decide +kernel, by decide, by decide, by decide⟩ (.inr (.inl rfl)) _ (by decide)
    (World.new (some (exFile.take 135))) (by decide +kernel) (by decide +kernel) true

/-- Units with a temperature mode -1. -/
def cut164 : DS164 := { ex164 with tempMode := -1 }

example : ((World.new none).writeSets exEnv "add".toList true [cut164.dict]).2.2 = .ok () ∧
    (((World.new none).writeSets exEnv "add".toList true [cut164.dict]).1.readSets (.one (0 : Nat)) false).2 =
      .error (.exc "Error when reading data-set(s).") :=
  C59_164 exEnv true _ cut164.dict (cleanD_none rfl) cut164
    ⟨rfl, ⟨_, rfl, rfl⟩, rfl, rfl, ⟨_, rfl, rfl⟩, ⟨_, rfl, rfl⟩, ⟨_, rfl, rfl⟩, ⟨_, rfl, rfl⟩⟩
    ⟨by constructor <;> decide +kernel, by decide⟩ rfl _ (by decide) (World.new none) (.inl rfl) (by decide) false

/-- Colour -1 in one of the nodes leaves five delimiters: the next data-set is lost (`C59_new`, `C59_lost`). -/
example : ¬ Balanced (((World.new none).writeSets exEnv "add".toList true [cut2411.dict]).1.file.getD []) := by
  unfold Balanced; rw [delims_eq]; decide +kernel

example : Writable cut2411.dict 2411 ∧ ((World.new none).writeSets exEnv "add".toList true [cut2411.dict]).2.2 = .ok () ∧
    Terminated ((World.new none).file.getD []) ∧ Balanced ((World.new none).file.getD []) :=
  ⟨⟨rfl, by decide, fun h => absurd h.1 (by decide)⟩, by decide +kernel, .inl rfl, by decide⟩

example : GivenAll exEnv true [ex15.dict, ex82.dict] [.s15 ex15, .s82 ex82] ∧ Terminated exFile ∧ ¬ Balanced exFile :=
  ⟨.cons (DS15.given _ _ _ ex15_ok) (.cons (DS82.given _ _ _ ex82_ok) .nil), by decide +kernel, by decide +kernel⟩

end Verif
