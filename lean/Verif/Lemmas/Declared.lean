import Verif.Spec.Declared
import Verif.Lemmas.RT58b
import Verif.Lemmas.Literals2
import Verif.Lemmas.Foreign
/-
Data-sets 58 declared as of the wrong kind: the lines of numbers of the one kind under the header of the other.
-/
namespace Verif
namespace DS58

/-- An ordinate of the other kind, of the same length. -/
def other : Ord58 → Ord58
  | .real l => .cplx (l.map fun y => (y, F64.zero))
  | .cplx l => .real (l.map (·.1))

/-- As the header describes it. -/
def decl (r : DS58) : DS58 := r.withOrd (other r.ord)

theorem decl_count (r : DS58) : r.decl.count = r.count := by
  unfold decl withOrd count other
  cases r.ord <;> simp

theorem decl_type (r : DS58) (double : Bool) (hs : r.store = .ascii double) : r.decl.ordType = wrongType r.ord double := by
  unfold decl withOrd ordType other wrongType
  simp only [hs]
  cases r.ord <;> cases double <;> rfl

theorem decl_fit {r : DS58} (h : Fit r) : Fit r.decl where
  id1 := h.id1
  id2 := h.id2
  id3 := h.id3
  id4 := h.id4
  id5 := h.id5
  func := h.func
  funcId := h.funcId
  ver := h.ver
  load := h.load
  rspName := h.rspName
  rspNode := h.rspNode
  rspDir := h.rspDir
  refName := h.refName
  refNode := h.refNode
  refDir := h.refDir
  zValue := h.zValue
  abscissa := h.abscissa
  ordinate := h.ordinate
  orddenom := h.orddenom
  zAxis := h.zAxis
  pos := by rw [decl_count]; exact h.pos
  count := by rw [decl_count]; exact h.count
  xs := h.xs
  dx := h.dx
  length := by rw [decl_count]; exact h.length
  ord := by
    have := h.ord
    unfold OrdOk decl withOrd other at *
    cases ho : r.ord with
    | real l =>
      rw [ho] at this
      simp only [List.mem_map, forall_exists_index, and_imp, forall_apply_eq_imp_iff₂]
      exact fun y hy => ⟨this y hy, (by decide : F64.zero.finite = true)⟩
    | cplx l =>
      rw [ho] at this
      simp only [List.mem_map, forall_exists_index, and_imp, forall_apply_eq_imp_iff₂]
      exact fun z hz => (this z hz).1

/-- The lines between the delimiters. -/
def wrongLines (double : Bool) (r : DS58) : List Text := idLine 58 :: (head r.decl ++ numLinesOf double r)

theorem wrong_write (little double : Bool) (d : Dict) (r : DS58) (h : WrongRep d double r) (ok : Fit r) (hs : r.store = .ascii double) :
    write58 little false d = ⟨frameText (wrongLines double r), d3 false d r, .ok none⟩ := by
  obtain ⟨bv, hb, hv⟩ := h.text
  have hbt : bv.truthy = .ok false := by rcases hv with rfl | rfl <;> rfl
  have hrest : idRest58 little false (.ok (nb r)) (d3 false d r) = ⟨padLeft 74 [' '] ++ ['\n'], d3 false d r, .ok ()⟩ := rfl
  have hbody := body_eq little r false (by rw [hs]; simp) (by rw [hs]; simp) (d3 false d r)
  have hret : r.ret = none := by unfold ret; rw [hs]
  have hbd : r.body = numLinesOf double r := by unfold body; rw [hs]
  rw [hret, hbd] at hbody
  simp only [hs] at hbody
  rw [← hs] at hbody
  rw [write_decl little false d r (other r.ord) (decl_count r) h.toContent ok bv false
    (by
      rw [get_d3 (by decide) (by decide) (by decide)]
      unfold d0
      rw [get?_opt_default (v := .int 0) rfl, hb]) hbt
    (by
      unfold d1
      rw [if_neg (by decide), ← decl, decl_type r double hs]
      exact get?_opt_present h.declared) (fun hf => by cases hf) _ _ _ hrest hbody]
  simp [frameText, wrongLines, joinLines, tailText, tagText, decl, idLine]
  rfl

theorem head_safe {r : DS58} (ok : Fit r) : Safe (head r) := by
  intro l hl
  exact safe r ok l (by unfold lines; simp [hl])

theorem wrong_safe (double : Bool) (r : DS58) (ok : Fit r) : Safe (wrongLines double r) := by
  unfold wrongLines
  refine safe_idLine 58 (by decide) (by decide) (by decide) (by decide) ?_
  intro l hl
  rcases List.mem_append.1 hl with hl | hl
  · exact head_safe (decl_fit ok) l hl
  · exact nums_safe double r ok l hl

/-- The block between the opening and the closing delimiter. -/
def wrongBlock (double : Bool) (r : DS58) : Bytes := encode (blockText (wrongLines double r))

theorem wrong_framed (double : Bool) (r : DS58) (ok : Fit r) : Framed 58 (wrongBlock double r) :=
  framed_text _ _ _ (wrong_safe double r ok) (by decide +kernel)

theorem wrongHead_eq (double : Bool) (r : DS58) (hs : r.store = .ascii double) : r.decl.headBack = wrongHead double r := by
  rw [headBack_eq]
  unfold wrongHead storeBack formBack
  rw [decl_count, decl_type r double hs]
  have : r.decl.store = r.store := rfl
  rw [this, hs]
  rfl

theorem wrong_lines (double : Bool) (r : DS58) (ok : Fit r) (hs : r.store = .ascii double) :
    readHead58 (splitLinesKeep (decode ((splitLinesKeepB (wrongBlock double r)).take 13).flatten)) = .ok (false, wrongHead double r) ∧
    (splitLinesKeep (decode (wrongBlock double r))).drop 13 = (numLinesOf double r).map (· ++ ['\n']) := by
  have hsafe := wrong_safe double r ok
  have hnb : ∀ l ∈ tagText :: wrongLines double r, NoBreak l := by
    intro l hl
    rcases List.mem_cons.1 hl with rfl | hl
    · exact noBreak_tagText
    · exact (hsafe l hl).1
  have e : splitLinesKeepB (wrongBlock double r)
      = (tagText :: idLine 58 :: head r.decl).map (fun l => encode (l ++ ['\n'])) ++
        (numLinesOf double r).map (fun l => encode (l ++ ['\n'])) := by
    unfold wrongBlock blockText
    have := splitLinesKeepB_lines _ hnb (p := [])
    rw [List.append_nil] at this
    rw [this]
    simp [wrongLines]
    rfl
  have hl : ((tagText :: idLine 58 :: head r.decl).map (fun l => encode (l ++ ['\n']))).length = 13 := by simp [head]
  have hidl : idl r.decl = idLine 58 := by
    unfold idl
    have : r.decl.store = r.store := rfl
    rw [this, hs]
  constructor
  · rw [e, List.take_append_of_le_length (by rw [hl]), List.take_of_length_le (by rw [hl]), joinLines_encode]
    rw [← hidl, head_lines r.decl (decl_fit ok), read_head r.decl (decl_fit ok), wrongHead_eq double r hs]
    have : r.decl.store = r.store := rfl
    rw [this, hs]
  · unfold wrongBlock
    rw [decode_encode, splitKeep_block _ hsafe]
    unfold wrongLines
    rfl

theorem wrong_args (double : Bool) (r : DS58) (hs : r.store = .ascii double) :
    bodyArgs (wrongHead double r) = .ok (code double (!isReal r.ord), if r.even then 1 else 0, r.min.quant 5, r.inc.quant 5) := by
  rw [← wrongHead_eq double r hs, bodyArgs_eq, decl_type r double hs]
  have : wrongType r.ord double = code double (!isReal r.ord) := by
    unfold wrongType code
    cases r.ord <;> cases double <;> rfl
  rw [this]
  rfl

theorem wrong_nodup (double : Bool) (r : DS58) (a b : Val) :
    ((wrongHead double r ++ ([("x", a), ("data", b)] : Dict)).map (·.1)).Nodup := by
  simp only [wrongHead, idBack, axesBack, axisBack, List.map_cons, List.map_nil,
        List.cons_append, List.nil_append]
  decide +kernel

theorem wrong_readHeader (double : Bool) (r : DS58) (ok : Fit r) (hs : r.store = .ascii double) :
    extract58 (wrongBlock double r) true = .ok (wrongHeader double r) := by
  unfold extract58
  rw [(wrong_lines double r ok hs).1]
  simp only [ok_bind, if_true, Dict.set_eq_update, Dict.update_update, List.cons_append, List.nil_append]
  rw [Dict.update_fresh _ _ (wrong_nodup double r _ _)]
  rfl

/-- What is read, in terms of the numbers read. -/
theorem wrong_read (double : Bool) (r : DS58) (ok : Fit r) (hs : r.store = .ascii double) :
    extract58 (wrongBlock double r) false = readGuard 58 ((asciiValues (code double (!isReal r.ord)) (if r.even then 1 else 0)
      ((numLinesOf double r).map (· ++ ['\n']))).bind fun v =>
        .ok (assign58 (wrongHead double r) (code double (!isReal r.ord)) (if r.even then 1 else 0) (r.min.quant 5) (r.inc.quant 5) v)) := by
  unfold extract58
  rw [(wrong_lines double r ok hs).1, (wrong_lines double r ok hs).2]
  simp only [ok_bind, Bool.false_eq_true, if_false, wrong_args double r hs]
  rfl

/-- With equal spacing the readers of both kinds read the same numbers. -/
theorem values_even (double real : Bool) (ls : List Text) :
    asciiValues (code double (!real)) 1 ls = asciiValues (code double real) 1 ls := by
  unfold asciiValues
  cases double <;> cases real <;> rfl

theorem wrong_even (double : Bool) (r : DS58) (ok : Fit r) (hs : r.store = .ascii double) (he : r.even = true) :
    extract58 (wrongBlock double r) false = .ok (assign58 (wrongHead double r) (code double (!isReal r.ord)) 1 (r.min.quant 5)
      (r.inc.quant 5) ((r.pts.map (keep (.ascii double))).flatMap (nums (isReal r.ord) true))) := by
  rw [wrong_read double r ok hs, he]
  simp only [if_true]
  rw [values_even]
  have := asciiValues_eq double (isReal r.ord) true r.pts (pts_fin r ok) (pts_ne r ok)
  simp only [if_true] at this
  unfold numLinesOf
  rw [he, this]
  rfl

theorem keep_digits (double : Bool) (y : F64) : keepY (.ascii double) y = y.quant (digits double) := by cases double <;> rfl

theorem wrong_cplx (double : Bool) (r : DS58) (ok : Fit r) (hs : r.store = .ascii double) (he : r.even = true) (l : List Cplx)
    (ho : r.ord = .cplx l) : extract58 (wrongBlock double r) false = .ok (wrongBack double r (spaced r (2 * l.length))
      (.arrF (l.flatMap fun z => [z.1.quant (digits double), z.2.quant (digits double)]))) := by
  rw [wrong_even double r ok hs he]
  have hv : (r.pts.map (keep (.ascii double))).flatMap (nums (isReal r.ord) true) =
      l.flatMap fun z => [z.1.quant (digits double), z.2.quant (digits double)] := by
    unfold pts
    rw [he, ho]
    simp only [ys, if_true, List.map_map, List.flatMap_map]
    congr 1
    funext z
    simp only [Function.comp, keep, keep_digits]
    rfl
  rw [hv]
  have hc : code double (!isReal r.ord) = 2 ∨ code double (!isReal r.ord) = 4 := by rw [ho]; simp only [isReal]; cases double <;> decide
  unfold assign58
  simp only
  rw [if_pos hc, if_neg (by decide), Dict.update_fresh _ _ (wrong_nodup double r _ _),
    length_flatMap_const 2 l (fun z => [z.1.quant (digits double), z.2.quant (digits double)]) (fun _ => rfl)]
  rfl

theorem pairUp_parts {α : Type} : ∀ l : List α, everyN 0 2 (l.take (l.length - 1)) = (pairUp l).map (·.1) ∧ everyN 1 2 l = (pairUp l).map (·.2)
  | [] => ⟨rfl, rfl⟩
  | [_] => ⟨rfl, rfl⟩
  | a :: b :: l => by
    obtain ⟨h1, h2⟩ := pairUp_parts l
    constructor
    · cases l with
      | nil => rfl
      | cons c l =>
        have : (a :: b :: c :: l).length - 1 = (c :: l).length - 1 + 2 := by simp
        rw [this, List.take_succ_cons, List.take_succ_cons]
        show a :: everyN 0 2 _ = _
        rw [h1]
        rfl
    · show b :: everyN 1 2 l = _
      rw [h2]
      rfl

theorem pairUp_mem {α : Type} : ∀ {l : List α} {p : α × α}, p ∈ pairUp l → p.1 ∈ l ∧ p.2 ∈ l
  | [], _, h => by cases h
  | [_], _, h => by cases h
  | a :: b :: l, p, h => by
    rcases List.mem_cons.1 h with rfl | h
    · exact ⟨by simp, by simp⟩
    · obtain ⟨h1, h2⟩ := pairUp_mem h
      exact ⟨by simp [h1], by simp [h2]⟩

theorem wrong_real (double : Bool) (r : DS58) (ok : Fit r) (hs : r.store = .ascii double) (he : r.even = true) (l : List F64)
    (ho : r.ord = .real l) : extract58 (wrongBlock double r) false = .ok (wrongBack double r (spaced r ((l.length + 1) / 2))
      (.arrC ((pairUp (l.map fun y => y.quant (digits double))).map Cplx.unsigned))) := by
  rw [wrong_even double r ok hs he]
  have hv : (r.pts.map (keep (.ascii double))).flatMap (nums (isReal r.ord) true) = l.map fun y => y.quant (digits double) := by
    unfold pts
    rw [he, ho]
    simp only [ys, if_true, List.map_map, List.flatMap_map, isReal]
    clear ho
    induction l with
    | nil => rfl
    | cons a l ih =>
      rw [List.flatMap_cons, ih]
      simp only [Function.comp, keep, keep_digits]
      rfl
  rw [hv]
  have hfin : ∀ y ∈ l.map (fun y => y.quant (digits double)), y.finite = true := by
    intro y hy
    obtain ⟨x, hx, rfl⟩ := List.mem_map.1 hy
    have := ok.ord
    rw [ho] at this
    have h2 := keep_fin (.ascii double) (F64.zero, (x, F64.zero)) ⟨(by decide : F64.zero.finite = true), this x hx, (by decide : F64.zero.finite = true)⟩
    have := h2.2.1
    simp only [keep, keep_digits] at this
    exact this
  have hc : code double (!isReal r.ord) = 5 ∨ code double (!isReal r.ord) = 6 := by rw [ho]; simp only [isReal]; cases double <;> decide
  have hc' : ¬ (code double (!isReal r.ord) = 2 ∨ code double (!isReal r.ord) = 4) := by rw [ho]; simp only [isReal]; cases double <;> decide
  unfold assign58
  simp only
  rw [if_neg hc', if_pos hc, if_neg (by decide), Dict.update_fresh _ _ (wrong_nodup double r _ _), List.length_map]
  have hlen : l.length = (l.map fun y => y.quant (digits double)).length := by simp
  have h12 := pairUp_parts (l.map fun y => y.quant (digits double))
  rw [← hlen] at h12
  rw [h12.1, h12.2]
  have hz : cplxZip ((pairUp (l.map fun y => y.quant (digits double))).map (·.1)) ((pairUp (l.map fun y => y.quant (digits double))).map (·.2))
      = (pairUp (l.map fun y => y.quant (digits double))).map Cplx.unsigned := by
    have hp : ∀ p ∈ pairUp (l.map fun y => y.quant (digits double)), cplxOf p.1 p.2 = Cplx.unsigned p := by
      intro p hp
      obtain ⟨h1, h2⟩ := pairUp_mem hp
      exact cplxOf_eq _ _ (hfin _ h1) (hfin _ h2)
    generalize pairUp (l.map fun y => y.quant (digits double)) = ps at hp
    unfold cplxZip
    induction ps with
    | nil => rfl
    | cons p ps ih =>
      simp only [List.map_cons, List.zipWith_cons_cons]
      rw [hp p (by simp), ih fun q hq => hp q (by simp [hq])]
  rw [hz]
  rfl


/-! Unequal spacing, double precision. -/

theorem cut_first (q : List Pt58) (h : ∀ p ∈ q, FinPt p) (hq : q.length ≤ 1) (hn : q ≠ []) :
    pairCells (recLine (fmts true false false) (nums false false) q ++ ['\n']) = q.flatMap (cells (fmts true true false) (nums true false)) := by
  match q, hn, hq with
  | [p], _, _ =>
    obtain ⟨h1, h2, h3⟩ := h p (by simp)
    have l1 := len_flt 13 5 p.1 h1 (by decide)
    have l2 := len_flt 20 11 p.2.1 h2 (by decide)
    have l3 := len_flt 20 11 p.2.2 h3 (by decide)
    have e : recLine (fmts true false false) (nums false false) [p] ++ ['\n']
        = [padLeft 13 (fmtE 5 p.1) ++ padLeft 20 (fmtE 11 p.2.1)].flatten ++ (padLeft 20 (fmtE 11 p.2.2) ++ ['\n']) := by
      have : recLine (fmts true false false) (nums false false) [p]
        = padLeft 13 (fmtE 5 p.1) ++ (padLeft 20 (fmtE 11 p.2.1) ++ (padLeft 20 (fmtE 11 p.2.2) ++ [])) := rfl
      rw [this]; simp
    have hc : [p].flatMap (cells (fmts true true false) (nums true false))
        = [padLeft 13 (fmtE 5 p.1), padLeft 20 (fmtE 11 p.2.1)] := rfl
    unfold pairCells
    rw [e, chunks_flatten 33 _ _ (by
      intro t ht
      rw [List.mem_singleton.1 ht, List.length_append, l1, l2]) (by rw [List.length_append, l3]; decide), hc]
    have := slice_mid (padLeft 13 (fmtE 5 p.1)) (padLeft 20 (fmtE 11 p.2.1)) [] 13 33 l1 (by rw [l2])
    rw [List.append_nil] at this
    simp only [List.flatMap_cons, List.flatMap_nil, List.append_nil]
    rw [slice_prefix _ _ _ l1, this]

/-- Complex values under a header of real ones: the abscissa and the real parts. -/
theorem values_first (rs : List Pt58) (h : ∀ p ∈ rs, FinPt p) :
    asciiValues (code true true) 0 (((rowsOf (perLine true false false) rs).map (recLine (fmts true false false) (nums false false))).map (· ++ ['\n']))
      = .ok ((rs.map (keep (.ascii true))).flatMap (nums true false)) := by
  have hf : ∀ r ∈ rs, ∀ x ∈ nums true false r, x.finite = true := fun r hr => nums_finite _ _ _ (h r hr)
  have goal : rs.flatMap (quants (fmts true true false) (nums true false)) = (rs.map (keep (.ascii true))).flatMap (nums true false) := by
    rw [List.flatMap_map]
    exact flatMap_congr' fun p _ => quants_eq true true false p
  rw [← goal]
  unfold asciiValues
  rw [if_neg (by decide), if_neg (by decide), if_pos (by decide), show perLine true false false = 1 from rfl, List.map_map, List.flatMap_map]
  have : (rowsOf 1 rs).flatMap (fun a => pairCells (((fun x => x ++ ['\n']) ∘ recLine (fmts true false false) (nums false false)) a))
      = (rowsOf 1 rs).flatMap fun p => p.flatMap (cells (fmts true true false) (nums true false)) :=
    flatMap_congr' fun q hq => cut_first q (fun p hp => h p (rowsOf_mem hq p hp)) (rowsOf_len hq) (rowsOf_ne_nil (by decide) hq)
  rw [this, List.flatMap_def, flatten_map_flatMap, rowsOf_flatten 1 (by decide)]
  exact mapRes_records _ _ rs hf

theorem wrong_parts (r : DS58) (ok : Fit r) (hs : r.store = .ascii true) (he : r.even = false) (l : List Cplx) (ho : r.ord = .cplx l) :
    extract58 (wrongBlock true r) false = .ok (wrongBack true r (r.abscissaVals.map fun x => x.quant 5) (.arrF (l.map fun z => z.1.quant 11))) := by
  rw [wrong_read true r ok hs, he]
  have hreal : isReal r.ord = false := by rw [ho]; rfl
  simp only [Bool.false_eq_true, if_false, hreal, Bool.not_false]
  have hv := values_first r.pts (pts_fin r ok)
  unfold numLinesOf
  rw [he, hreal, hv]
  have ha := assign_eq true true false (wrongHead true r) (r.min.quant 5) (r.inc.quant 5) (r.pts.map (keep (.ascii true)))
  simp only [Bool.false_eq_true, if_false, if_true] at ha
  show readGuard 58 (.ok (assign58 _ (code true true) _ _ _ _)) = _
  rw [ha, Dict.update_fresh _ _ (wrong_nodup true r _ _)]
  have hlen : r.abscissaVals.length = l.length := by
    have := ok.length he
    unfold count at this
    rw [ho] at this
    exact this
  have hp : r.pts = r.abscissaVals.zip l := by unfold pts; rw [he, ho]; rfl
  have h1 : (r.pts.map (keep (.ascii true))).map (·.1) = r.abscissaVals.map fun x => x.quant 5 := by
    rw [hp, List.map_map]
    have : ((fun p : Pt58 => p.1) ∘ keep (.ascii true)) = (fun x : F64 => x.quant 5) ∘ Prod.fst := rfl
    rw [this, ← List.map_map, List.map_fst_zip (by omega)]
  have h2 : (r.pts.map (keep (.ascii true))).map (·.2.1) = l.map fun z => z.1.quant 11 := by
    rw [hp, List.map_map]
    have : ((fun p : Pt58 => p.2.1) ∘ keep (.ascii true)) = (fun z : Cplx => z.1.quant 11) ∘ Prod.snd := rfl
    rw [this, ← List.map_map, List.map_snd_zip (by omega)]
  rw [h1, h2]
  rfl

/-- A text with a blank between two characters that are none is no number. -/
theorem float_gap (u v : Text) (hu : ∃ c ∈ u, isSpace c = false) (hv : ∃ c ∈ v, isSpace c = false) :
    parseFloat (u ++ ' ' :: v) = .none := by
  cases hp : parseFloat (u ++ ' ' :: v) with
  | none => rfl
  | some x =>
    exfalso
    have key : ∀ a m b : Text, u ++ ' ' :: v = a ++ m ++ b → (∀ c ∈ a, IsBlank c) → (∀ c ∈ b, IsBlank c) → ' ' ∉ m → False := by
      intro a m b e ha hb hm
      obtain ⟨c, hc, hcs⟩ := hu
      obtain ⟨c', hc', hcs'⟩ := hv
      have na : ∀ t : Text, (∀ c ∈ t, IsBlank c) → ∀ c ∈ t, isSpace c = false → False := by
        intro t ht c hc hs
        have h1 := (blank_iff c).2 (ht c hc)
        rw [numSpace_of_noSpace hs] at h1
        cases h1
      rw [List.append_assoc] at e
      rcases List.append_eq_append_iff.1 e with ⟨a', rfl, e'⟩ | ⟨a', rfl, e'⟩
      · exact na _ ha c (by simp [hc]) hcs
      · rcases List.append_eq_append_iff.1 e' with ⟨m', h1, h2⟩ | ⟨m', rfl, h2⟩
        · exact na _ hb c' (by rw [h2]; simp [hc']) hcs'
        · cases m' with
          | nil =>
            rw [List.nil_append] at h2
            exact na _ hb c' (by rw [← h2]; simp [hc']) hcs'
          | cons k m' =>
            rw [List.cons_append] at h2
            injection h2 with h3 h4
            exact hm (by rw [← h3]; simp)
    have hword : ∀ (w : Text) (neg : Bool), (∀ k ∈ w, 64 < k.toNat) → WordText w (u ++ ' ' :: v) neg → False := by
      rintro w neg hw ⟨a, s, m, b, e, ha, hb, hs, hf⟩
      refine key a (s ++ m) b (by rw [e]; simp) ha hb ?_
      intro hm0
      rcases List.mem_append.1 hm0 with hm | hm
      · have := sign_noSpace hs _ hm
        revert this
        decide
      · obtain ⟨k, hk, hkm⟩ : ∃ k ∈ w, ' ' = k ∨ (' ' : Char).toNat + 32 = k.toNat := by
          clear hb ha e hs hw hm0
          induction hf with
          | nil => cases hm
          | @cons c k m w hck _ ih =>
            rcases List.mem_cons.1 hm with rfl | hm
            · exact ⟨k, by simp, hck⟩
            · obtain ⟨k', hk', h'⟩ := ih hm
              exact ⟨k', by simp [hk'], h'⟩
        have h64 := hw k hk
        rcases hkm with rfl | hkm
        · revert h64; decide
        · have : (' ' : Char).toNat + 32 = 64 := by decide
          omega
    rcases (float_iff _ _).1 hp with ⟨neg, h, -⟩ | ⟨neg, h, -⟩ | ⟨a, s, m, y, b, ds, k, e, neg, h, ha, hb, hs, hm, hy, -⟩
    · rcases h with h | h
      · exact hword _ neg (by decide) h
      · exact hword _ neg (by decide) h
    · exact hword _ neg (by decide) h
    · refine key a (s ++ m ++ y) b (by rw [h]; simp) ha hb ?_
      intro hmem
      have hsp : isSpace ' ' = true := by decide
      rcases List.mem_append.1 hmem with hmem | hmem
      · rcases List.mem_append.1 hmem with hmem | hmem
        · rw [sign_noSpace hs _ hmem] at hsp; cases hsp
        · rw [mantissa_noSpace hm _ hmem] at hsp; cases hsp
      · rw [exponent_noSpace hy _ hmem] at hsp; cases hsp


theorem third_bad (q : List Pt58) (h : ∀ p ∈ q, FinPt p) (hq : q.length ≤ 2) (hn : q ≠ []) :
    parseFloat (slice (recLine (fmts true true false) (nums true false) q ++ ['\n']) 33 53) = .none := by
  have hl : ∀ p ∈ q, (padLeft 13 (fmtE 5 p.1)).length = 13 ∧ (padLeft 20 (fmtE 11 p.2.1)).length = 20 :=
    fun p hp => ⟨len_flt 13 5 _ (h p hp).1 (by decide), len_flt 20 11 _ (h p hp).2.1 (by decide)⟩
  match q, hn, hq with
  | [p], _, _ =>
    obtain ⟨l1, l2⟩ := hl p (by simp)
    have e : recLine (fmts true true false) (nums true false) [p] ++ ['\n']
        = (padLeft 13 (fmtE 5 p.1) ++ padLeft 20 (fmtE 11 p.2.1)) ++ ['\n'] := by
      have : recLine (fmts true true false) (nums true false) [p] = padLeft 13 (fmtE 5 p.1) ++ (padLeft 20 (fmtE 11 p.2.1) ++ []) := rfl
      rw [this]; simp
    rw [e, slice_append_right _ _ _ _ (by rw [List.length_append]; omega), List.length_append, l1, l2]
    decide
  | [p, p'], _, _ =>
    obtain ⟨l1, l2⟩ := hl p (by simp)
    obtain ⟨l1', l2'⟩ := hl p' (by simp)
    have f1 := (h p' (by simp)).1
    have f2 := (h p' (by simp)).2.1
    have hlo := fmtE_length_ge 11 _ f2
    have hhi := fmtE_length 11 _ f2
    have e : recLine (fmts true true false) (nums true false) [p, p'] ++ ['\n']
        = (padLeft 13 (fmtE 5 p.1) ++ padLeft 20 (fmtE 11 p.2.1)) ++ (padLeft 13 (fmtE 5 p'.1) ++ (padLeft 20 (fmtE 11 p'.2.1) ++ ['\n'])) := by
      have : recLine (fmts true true false) (nums true false) [p, p'] = padLeft 13 (fmtE 5 p.1) ++ (padLeft 20 (fmtE 11 p.2.1) ++
        (padLeft 13 (fmtE 5 p'.1) ++ (padLeft 20 (fmtE 11 p'.2.1) ++ []))) := rfl
      rw [this]; simp
    have hpad : padLeft 20 (fmtE 11 p'.2.1) = ' ' :: (List.replicate (19 - (fmtE 11 p'.2.1).length) ' ' ++ fmtE 11 p'.2.1) := by
      unfold padLeft
      have : 20 - (fmtE 11 p'.2.1).length = (19 - (fmtE 11 p'.2.1).length) + 1 := by omega
      rw [this, List.replicate_succ]
      rfl
    rw [e, slice_append_right _ _ _ _ (by rw [List.length_append]; omega), List.length_append, l1, l2]
    show parseFloat (List.take 20 (List.drop 0 _)) = _
    rw [List.drop_zero, List.take_append, List.take_of_length_le (by omega), l1', hpad]
    show parseFloat (_ ++ List.take 7 _) = _
    rw [List.cons_append, List.take_succ_cons]
    apply float_gap
    · obtain ⟨c, t, hc⟩ := List.exists_cons_of_ne_nil (fmtE_ne_nil 5 _ f1)
      exact ⟨c, by unfold padLeft; rw [hc]; simp, fmtE_noSpace 5 _ f1 c (by rw [hc]; simp)⟩
    · obtain ⟨c, t, hc⟩ := List.exists_cons_of_ne_nil (fmtE_ne_nil 11 _ f2)
      refine ⟨c, ?_, fmtE_noSpace 11 _ f2 c (by rw [hc]; simp)⟩
      rw [List.append_assoc, List.take_append, List.length_replicate]
      apply List.mem_append_right
      obtain ⟨k, hk⟩ : ∃ k, 6 - (19 - (fmtE 11 p'.2.1).length) = k + 1 := ⟨5 - (19 - (fmtE 11 p'.2.1).length), by omega⟩
      rw [hk, hc]
      simp

/-- Real values under a header of complex ones are never read. -/
theorem values_third (rs : List Pt58) (h : ∀ p ∈ rs, FinPt p) (hne : rs ≠ []) :
    asciiValues (code true false) 0 (((rowsOf (perLine true true false) rs).map (recLine (fmts true true false) (nums true false))).map (· ++ ['\n']))
      = .error .value := by
  unfold asciiValues
  rw [if_neg (by decide), if_neg (by decide), if_neg (by decide), if_pos (by decide), show perLine true true false = 2 from rfl]
  cases hr : rowsOf 2 rs with
  | nil =>
    have := rowsOf_flatten 2 (by decide) rs
    rw [hr] at this
    exact absurd this.symm hne
  | cons q rest =>
    have hq : q ∈ rowsOf 2 rs := by rw [hr]; simp
    refine mapRes_bad _ (slice (recLine (fmts true true false) (nums true false) q ++ ['\n']) 33 53) ?_
      (third_bad q (fun p hp => h p (rowsOf_mem hq p hp)) (rowsOf_len hq) (rowsOf_ne_nil (by decide) hq))
    simp

theorem wrong_lost (r : DS58) (ok : Fit r) (hs : r.store = .ascii true) (he : r.even = false) (l : List F64) (ho : r.ord = .real l) :
    extract58 (wrongBlock true r) false = readGuard 58 (.error .value) := by
  rw [wrong_read true r ok hs, he]
  have hreal : isReal r.ord = true := by rw [ho]; rfl
  simp only [Bool.false_eq_true, if_false, hreal, Bool.not_true]
  have hv := values_third r.pts (pts_fin r ok) (pts_ne r ok)
  unfold numLinesOf
  rw [he, hreal, hv]
  rfl


theorem assign_kind (double real : Bool) (d : Dict) (sp : Int) (mn inc : F64) (v : List F64) :
    (real = true → ∃ y, (assign58 d (code double real) sp mn inc v).get? "data" = some (.arrF y)) ∧
    (real = false → ∃ y, (assign58 d (code double real) sp mn inc v).get? "data" = some (.arrC y)) := by
  have put : ∀ a b : Val, (d.update [("x", a), ("data", b)]).get? "data" = some b := by
    intro a b
    show ((d.set "x" a).set "data" b).get? "data" = _
    exact Dict.get?_set_self _ _ _
  unfold assign58
  simp only
  constructor
  · rintro rfl
    rw [if_pos (by cases double <;> decide)]
    split
    · exact ⟨_, put _ _⟩
    · exact ⟨_, put _ _⟩
  · rintro rfl
    rw [if_neg (by cases double <;> decide), if_pos (by cases double <;> decide)]
    split
    · exact ⟨_, put _ _⟩
    · exact ⟨_, put _ _⟩

theorem wrong_kind (double : Bool) (r : DS58) (ok : Fit r) (hs : r.store = .ascii double) (b : Dict)
    (h : extract58 (wrongBlock double r) false = .ok b) : b.get? "data" ≠ some r.ordBack := by
  rw [wrong_read double r ok hs] at h
  cases hv : asciiValues (code double (!isReal r.ord)) (if r.even then 1 else 0) ((numLinesOf double r).map (· ++ ['\n'])) with
  | error y =>
    rw [hv] at h
    cases y <;> cases h
  | ok v =>
    rw [hv] at h
    have hb : assign58 (wrongHead double r) (code double (!isReal r.ord)) (if r.even then 1 else 0) (r.min.quant 5) (r.inc.quant 5) v = b := by
      injection h
    rw [← hb]
    obtain ⟨k1, k2⟩ := assign_kind double (!isReal r.ord) (wrongHead double r) (if r.even then 1 else 0) (r.min.quant 5) (r.inc.quant 5) v
    unfold ordBack
    cases ho : r.ord with
    | real l =>
      rw [ho] at k2
      obtain ⟨y, hy⟩ := k2 rfl
      rw [hy]
      simp
    | cplx l =>
      rw [ho] at k1
      obtain ⟨y, hy⟩ := k1 rfl
      rw [hy]
      simp

end DS58
end Verif
