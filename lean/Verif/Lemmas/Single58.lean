import Verif.Spec.Single58
import Verif.Lemmas.RT58b
import Verif.Lemmas.Arrays
import Verif.Lemmas.Payload
/-
Binary data-sets 58 declared as single precision: eight bytes per value are written, four are read.
-/
namespace Verif
namespace DS58

theorem leBytes_add (a b n : Nat) : leBytes (a + b) n = leBytes a n ++ leBytes b (n / 256 ^ a) := by
  induction a generalizing n with
  | zero => simp [leBytes]
  | succ a ih =>
    rw [show a + 1 + b = (a + b) + 1 by omega]
    simp only [leBytes, List.cons_append]
    rw [ih, Nat.div_div_eq_div_mul, Nat.pow_succ, Nat.mul_comm 256]

/-- The two groups of four bytes of a double. -/
def quads (little : Bool) (x : F64) : List Bytes :=
  if little then [leBytes 4 x.bits, leBytes 4 (x.bits / 2 ^ 32)]
  else [(leBytes 4 (x.bits / 2 ^ 32)).reverse, (leBytes 4 x.bits).reverse]

theorem quads_flatten (little : Bool) (x : F64) : (quads little x).flatten = pack64 little x := by
  have h := leBytes_add 4 4 x.bits
  unfold quads pack64
  cases little with
  | true => simp only [if_true]; rw [h]; simp
  | false => simp only [Bool.false_eq_true, if_false]; rw [h]; simp

theorem quads_length (little : Bool) (x : F64) : ∀ q ∈ quads little x, q.length = 4 := by
  unfold quads
  cases little <;> simp [leBytes_length]

theorem quads_value (little : Bool) (x : F64) :
    (quads little x).map (fun g => F64.ofBits32 (beNat (if little then g.reverse else g))) = halves little x := by
  have h := F64.bits_lt x
  unfold halves firstHalf secondHalf
  have h1 : beNat (leBytes 4 x.bits).reverse = x.bits % 2 ^ 32 := beNat_leBytes 4 _
  have h2 : beNat (leBytes 4 (x.bits / 2 ^ 32)).reverse = x.bits / 2 ^ 32 := by
    rw [beNat_leBytes]; exact Nat.mod_eq_of_lt (by omega)
  unfold quads
  cases little with
  | true => simp only [if_true, List.map_cons, List.map_nil, h1, h2]
  | false => simp only [Bool.false_eq_true, if_false, List.map_cons, List.map_nil, h1, h2]

theorem binValues_single (little : Bool) (xs : List F64) :
    binValues little true (xs.flatMap (pack64 little)) = xs.flatMap (halves little) := by
  have e : xs.flatMap (pack64 little) = (xs.flatMap (quads little)).flatMap id := by
    rw [List.flatMap_assoc]
    congr 1
    funext x
    rw [List.flatMap_id, quads_flatten]
  have hq : ∀ q ∈ xs.flatMap (quads little), q.length = 4 := by
    intro q hm
    obtain ⟨x, -, hx⟩ := List.mem_flatMap.1 hm
    exact quads_length little x q hx
  have e2 : xs.flatMap (halves little)
      = (xs.flatMap (quads little)).map (fun g => F64.ofBits32 (beNat (if little then g.reverse else g))) := by
    rw [List.map_flatMap]
    congr 1
    funext x
    exact (quads_value little x).symm
  rw [e, e2]
  generalize xs.flatMap (quads little) = ws at hq
  have hl : (ws.flatMap id).length = 4 * ws.length := by
    clear e e2
    induction ws with
    | nil => rfl
    | cons a r ih =>
      rw [List.flatMap_cons, List.length_append, ih (fun q h => hq q (by simp [h])), id, hq a (by simp), List.length_cons]
      omega
  unfold binValues byteGroups
  rw [if_pos rfl, hl, Nat.mul_div_cancel_left _ (by decide), List.map_map]
  apply List.ext_getElem
  · simp
  · intro i h1 h2
    rw [List.getElem_map, List.getElem_range, List.getElem_map]
    simp only [Function.comp, Nat.mul_add, Nat.mul_one]
    rw [slice_flatMap 4 ws id hq i (by simpa using h2)]
    rfl

/-- The same information, to be stored as text in single precision: its header is the one written. -/
def plain (r : DS58) : DS58 := { r with store := .ascii false }

theorem plain_content {d : Dict} {r : DS58} (h : Content d r) : Content d r.plain where
  type := h.type
  id1 := h.id1
  id2 := h.id2
  id3 := h.id3
  id4 := h.id4
  id5 := h.id5
  func := h.func
  funcId := h.funcId
  ver := h.ver
  load := h.load
  rspName := h.rspName
  rspNode := h.rspNode
  rspDir := h.rspDir
  refName := h.refName
  refNode := h.refNode
  refDir := h.refDir
  zValue := h.zValue
  abscissa := h.abscissa
  ordinate := h.ordinate
  denomSpec := h.denomSpec
  orddenom := h.orddenom
  zAxis := h.zAxis
  spacing := h.spacing
  x := h.x
  ord := h.ord

theorem plain_ok {r : DS58} (h : Fit r) : Fit r.plain where
  id1 := h.id1
  id2 := h.id2
  id3 := h.id3
  id4 := h.id4
  id5 := h.id5
  func := h.func
  funcId := h.funcId
  ver := h.ver
  load := h.load
  rspName := h.rspName
  rspNode := h.rspNode
  rspDir := h.rspDir
  refName := h.refName
  refNode := h.refNode
  refDir := h.refDir
  zValue := h.zValue
  abscissa := h.abscissa
  ordinate := h.ordinate
  orddenom := h.orddenom
  zAxis := h.zAxis
  pos := h.pos
  count := h.count
  xs := h.xs
  dx := h.dx
  length := h.length
  ord := h.ord

/-- The identifier line. -/
def singleId (little : Bool) (r : DS58) : Text := padLeft 6 (natRepr 58) ++ (binFields little (4 * r.count)).flatten

/-- The block written. -/
def singleBlock (little : Bool) (r : DS58) : Bytes :=
  encode (blockText (singleId little r :: head r.plain)) ++ payload little r

theorem singleId_fits (r : DS58) (ok : Fit r) : Fits 12 ((4 * r.count : Nat) : Int) := by
  have := ok.count
  unfold Fits
  norm_num at this ⊢
  omega

theorem single_write (little : Bool) (d : Dict) (r : DS58) (h : SingleRep d r) (ok : Fit r) :
    write58 little false d = ⟨blockText (singleId little r :: head r.plain), d3 false d r.plain, .ok (some (payload little r))⟩ := by
  obtain ⟨bv, hb, hv⟩ := h.binary
  have hbt : bv.truthy = .ok true := by rcases hv with rfl | rfl <;> rfl
  have hot : r.plain.ordType = (match r.ord with | .real _ => 2 | .cplx _ => 5) := by
    unfold ordType plain
    cases r.ord <;> rfl
  have hn : nb r.plain = 4 * r.count := by
    show r.count * 4 = _
    omega
  have hrest : idRest58 little true (.ok (nb r.plain)) (d3 false d r.plain) =
      ⟨(binFields little (4 * r.count)).flatten ++ ['\n'], d3 false d r.plain, .ok ()⟩ := by
    unfold idRest58
    rw [if_pos rfl, W.bind_lift_ok, hn]
    refine W.row_eq (.cons (fld_c ?_) (.cons (fld_c (fmtI_eq (isInt_int _) 6)) (.cons (fld_c (fmtI_eq (isInt_int _) 12))
      (.cons (fld_c (fmtI_eq (isInt_int _) 12)) (.cons (fld_c (fmtI_eq (isInt_int _) 6)) (.cons (fld_c (fmtI_eq (isInt_int _) 6))
      (.cons (fld_c (fmtI_eq (isInt_int _) 12)) (.cons (fld_c (fmtI_eq (isInt_int _) 12)) .nil))))))))
    cases little <;> rfl
  have hbody : body58 little true (some (dbl r.plain.store)) (isReal r.plain.ord) r.plain.even r.plain.stored (d3 false d r.plain)
      = ⟨[], d3 false d r.plain, .ok (some (payload little r))⟩ := by
    unfold body58
    rw [if_pos rfl, payload_eq]
    rfl
  rw [write_core little false d r.plain (plain_content h.toContent) (plain_ok ok) bv true
    (by rw [get_d3 (by decide) (by decide) (by decide)]; exact get?_opt_present hb) hbt
    (by
      unfold d1
      rw [if_neg (by decide), hot]
      exact get?_opt_present h.prec) (fun hf => by cases hf) _ _ _ hrest hbody, List.append_nil]
  rfl

theorem single_framed (little : Bool) (r : DS58) (ok : Fit r) (hp : NoDelim (payload little r)) :
    Framed 58 (singleBlock little r) := by
  have hh : Safe (head r.plain) := by
    intro l hl
    exact safe _ (plain_ok ok) l (by unfold lines; simp [hl])
  refine framed_clean _ _ _ (binLine_safe little _ (singleId_fits r ok) hh) ?_ _ ((clean_iff _).1 hp)
  rw [encode_append, List.take_append_of_le_length (by decide +kernel)]
  decide +kernel

theorem singleHead_eq (little : Bool) (r : DS58) :
    binBack little (4 * r.count) ++ (r.plain.idBack ++ (r.plain.formBack ++ r.plain.axesBack)) = singleHead little r := by
  unfold singleHead binBack formBack
  have hc : ((4 * r.count : Nat) : Int) = 4 * (r.count : Int) := by push_cast; rfl
  have ho : r.plain.ordType = (match r.ord with | .real _ => 2 | .cplx _ => 5) := by
    unfold ordType plain
    cases r.ord <;> rfl
  rw [hc, ho]
  rfl

theorem single_lines (little : Bool) (r : DS58) (ok : Fit r) :
    readHead58 (splitLinesKeep (decode ((splitLinesKeepB (singleBlock little r)).take 13).flatten))
      = .ok (true, singleHead little r) ∧
    ((splitLinesKeepB (singleBlock little r)).drop 13).flatten = payload little r := by
  have hh : Safe (head r.plain) := by
    intro l hl
    exact safe _ (plain_ok ok) l (by unfold lines; simp [hl])
  have hs : Safe (singleId little r :: head r.plain) := binLine_safe little _ (singleId_fits r ok) hh
  have hnb : ∀ l ∈ tagText :: singleId little r :: head r.plain, NoBreak l := by
    intro l hl
    rcases List.mem_cons.1 hl with rfl | hl
    · exact noBreak_tagText
    · exact (hs l hl).1
  have e : splitLinesKeepB (singleBlock little r)
      = (tagText :: singleId little r :: head r.plain).map (fun l => encode (l ++ ['\n'])) ++
        splitLinesKeepB (payload little r) := by
    unfold singleBlock blockText
    rw [splitLinesKeepB_lines _ hnb]
  have hl : ((tagText :: singleId little r :: head r.plain).map (fun l => encode (l ++ ['\n']))).length = 13 := by simp [head]
  obtain ⟨hb, hd⟩ := read_binLine little _ (singleId_fits r ok)
  rw [e]
  constructor
  · rw [List.take_append_of_le_length (by rw [hl]), List.take_of_length_le (by rw [hl]), joinLines_encode, decode_encode,
      splitLinesKeep_joinLines _ hnb]
    rw [← singleHead_eq]
    exact read_head_core r.plain (plain_ok ok) _ _ _ hb hd (.inr rfl)
  · rw [List.drop_append_of_le_length (by rw [hl]), List.drop_of_length_le (by rw [hl]), List.nil_append,
      splitLinesKeepB_flatten]

theorem single_args (little : Bool) (r : DS58) :
    bodyArgs (singleHead little r) = .ok (code false (isReal r.ord), if r.even then 1 else 0, r.min.quant 5, r.inc.quant 5) ∧
    littleOf (singleHead little r) = .ok little := by
  constructor
  · unfold singleHead
    cases r.ord <;> rfl
  · cases little
    · exact congrArg Except.ok (show Val.numEq (.int 2) 1 = false by decide)
    · exact congrArg Except.ok (show Val.numEq (.int 1) 1 = true by decide)

theorem single_vals (little : Bool) (r : DS58) :
    r.stored.flatMap (halves little) = (singlePts little r).flatMap (nums (isReal r.ord) r.even) := by
  unfold stored singlePts
  cases r.ord with
  | real l =>
    cases r.even with
    | true => simp only [if_true, List.flatMap_assoc]; rfl
    | false => simp only [Bool.false_eq_true, if_false, List.flatMap_assoc]; rfl
  | cplx l =>
    cases r.even with
    | true => simp only [if_true, List.flatMap_assoc]; rfl
    | false => simp only [Bool.false_eq_true, if_false, List.flatMap_assoc]; rfl

theorem single_nodup (little : Bool) (r : DS58) (a b : Val) :
    ((singleHead little r ++ ([("x", a), ("data", b)] : Dict)).map (·.1)).Nodup := by
  simp only [singleHead, List.map_append, idBack, axesBack, axisBack, List.map_cons, List.map_nil,
        List.cons_append, List.nil_append]
  decide +kernel

theorem single_read (little : Bool) (r : DS58) (ok : Fit r) :
    extract58 (singleBlock little r) false = .ok (singleBack little r) := by
  obtain ⟨h1, h2⟩ := single_lines little r ok
  obtain ⟨h3, h4⟩ := single_args little r
  have hc : decide (code false (isReal r.ord) = 2 ∨ code false (isReal r.ord) = 5) = true := by
    cases isReal r.ord <;> rfl
  unfold extract58
  rw [h1, h2]
  simp only [ok_bind, Bool.false_eq_true, if_false, h3, if_true, h4, hc]
  rw [payload_eq, binValues_single, single_vals, assign_eq, Dict.update_fresh _ _ (single_nodup little r _ _)]
  unfold singleBack
  cases r.ord <;> rfl

theorem single_readHeader (little : Bool) (r : DS58) (ok : Fit r) :
    extract58 (singleBlock little r) true = .ok (singleHeaderBack little r) := by
  obtain ⟨h1, h2⟩ := single_lines little r ok
  unfold extract58
  rw [h1]
  simp only [ok_bind, if_true, Dict.set_eq_update, Dict.update_update, List.cons_append, List.nil_append]
  rw [Dict.update_fresh _ _ (single_nodup little r _ _)]
  rfl

theorem singlePts_length (little : Bool) (r : DS58) (ok : Fit r) : (singlePts little r).length = 2 * r.count := by
  have hl := ok.length
  unfold singlePts
  unfold count at hl ⊢
  cases ho : r.ord with
  | real l =>
    cases he : r.even with
    | true => exact length_flatMap_const 2 _ _ (by intro; rfl)
    | false =>
      have : r.abscissaVals.length = l.length := by have := hl he; rw [ho] at this; exact this
      simp only
      rw [length_flatMap_const 2 _ _ (by intro; rfl), List.length_zip, this, Nat.min_self]
  | cplx l =>
    cases he : r.even with
    | true => exact length_flatMap_const 2 _ _ (by intro; rfl)
    | false =>
      have : r.abscissaVals.length = l.length := by have := hl he; rw [ho] at this; exact this
      simp only
      rw [length_flatMap_const 2 _ _ (by intro; rfl), List.length_zip, this, Nat.min_self]

end DS58
end Verif
