import Verif.Lemmas.Crlf5
/-
Data-sets written on Windows.
-/
namespace Verif
namespace DS58

theorem recLine_len {ρ : Type} (fs : List (Nat × Nat)) (f : ρ → List F64) (hf : ∀ r, (f r).length = fs.length)
    (hw : ∀ w ∈ fs, w.2 + 8 ≤ w.1) (rs : List ρ) (h : ∀ r ∈ rs, ∀ x ∈ f r, x.finite = true) :
    (recLine fs f rs).length = (fs.map (·.1)).sum * rs.length := by
  unfold recLine
  induction rs with
  | nil => rfl
  | cons r rs ih =>
    have e : (cells fs f r).flatten.length = (fs.map (·.1)).sum := cells_len fs (f r) hw (h r (List.mem_cons_self ..)) (hf r)
    rw [List.flatMap_cons, List.flatten_append, List.length_append, e, ih fun x hx => h x (List.mem_cons_of_mem _ hx),
      List.length_cons]
    ring

theorem eolSafe (r : DS58) (ok : Ok r) (dd : Bool) (hs : r.store = .ascii dd) (header : Bool) :
    EolSafe header r.block := by
  have hty := (framed r ok).type
  have hh : readBlock 58 true r.block = .ok r.headerBack := readHeader_eq r ok
  have hex : r.extra = [] := by unfold extra; rw [hs]
  have g1 : r.headerBack.get? "ord_data_type" = some (.int r.ordType) :=
    get?_left (get_ok (head_get r "ord_data_type" (.int r.ordType) rfl (by decide +kernel)))
  have g2 : r.headerBack.get? "abscissa_spacing" = some (.int (if r.even then 1 else 0)) :=
    get?_left (get_ok (head_get r "abscissa_spacing" (.int (if r.even then 1 else 0)) rfl (by decide +kernel)))
  have g3 : r.headerBack.get? "binary" = some (.int 0) := by
    refine get?_left ?_
    rw [headBack_eq]
    refine get?_left ?_
    unfold storeBack
    rw [hs]
    rfl
  refine ⟨fun ht => absurd ((typeIs_eq ht).symm.trans hty) (by decide), fun _ _ d hd => ?_, fun _ _ d odt sp w hd h1 h2 hw l hl => ?_⟩
  · rw [hh] at hd
    rw [← Except.ok.inj hd, g3]
  · rw [hh] at hd
    rw [← Except.ok.inj hd] at h1 h2
    rw [g1] at h1
    rw [g2] at h2
    have h1 : r.ordType = odt := by injection Option.some.inj h1
    have h2 : (if r.even then 1 else 0 : Int) = sp := by injection Option.some.inj h2
    rw [code_eq, hs, show dbl (.ascii dd) = dd from rfl] at h1
    unfold block at hl
    rw [hex, List.append_nil, decode_encode, splitLines_block (safe r ok)] at hl
    have hl : l ∈ numLinesOf dd r := by
      have e : (tagText :: r.lines).drop 13 = numLinesOf dd r := by
        unfold lines body
        rw [hs]
        rfl
      rw [e] at hl
      exact hl
    unfold numLinesOf at hl
    obtain ⟨p, hp, rfl⟩ := List.mem_map.1 hl
    have key : ∀ (a b c : Bool) (w : Nat), cellWidth (code a b) (if c then 1 else 0) = some w →
        2 < w ∧ ((fmts a b c).map (·.1)).sum % w = 0 := by
      intro a b c w
      cases a <;> cases b <;> cases c <;> simp [cellWidth, code, fmts] <;> rintro rfl <;> decide
    rw [← h1, ← h2] at hw
    have hk := key _ _ _ _ hw
    rw [recLine_len _ _ (nums_length dd _ _) (by
      generalize isReal r.ord = a
      generalize r.even = b
      cases dd <;> cases a <;> cases b <;> decide) p fun x hx => nums_finite _ _ _ (pts_fin r ok x (rowsOf_mem hp x hx)),
      Nat.mul_mod, hk.2, Nat.zero_mul, Nat.zero_mod]
    omega

/-! ### Binary data-sets -/

/-- The block on Windows: the payload is written in binary mode. -/
def winBlock (r : DS58) : Bytes := crlf (encode (blockText r.lines)) ++ r.extra

theorem keepB_crlfLines (ls : List Text) (h : ∀ l ∈ ls, NoBreak l) (p : Bytes) :
    splitLinesKeepB (crlf (encode (joinLines ls)) ++ p)
      = ls.map (fun l => crlf (encode (l ++ ['\n']))) ++ splitLinesKeepB p := by
  induction ls with
  | nil => rfl
  | cons l ls ih =>
    have hn := encode_noLF l (h l (List.mem_cons_self ..))
    have hc : crlf (encode (l ++ ['\n'])) = encode l ++ [13, 10] := by
      rw [encode_append, crlf_append, crlf_id fun c hc => (hn c hc).1]; rfl
    rw [joinLines_cons, show l ++ '\n' :: joinLines ls = (l ++ ['\n']) ++ joinLines ls by simp, encode_append, crlf_append,
      hc, List.map_cons, hc, List.append_assoc, List.append_assoc,
      show ([13, 10] : Bytes) ++ (crlf (encode (joinLines ls)) ++ p) = 13 :: 10 :: (crlf (encode (joinLines ls)) ++ p) from rfl,
      splitLinesKeepB_crlfLine _ _ hn, ih fun x hx => h x (List.mem_cons_of_mem _ hx)]
    rfl

theorem win_flatten (ls : List Text) :
    (ls.map fun l => crlf (encode (l ++ ['\n']))).flatten = crlf (encode (joinLines ls)) := by
  induction ls with
  | nil => rfl
  | cons l ls ih =>
    rw [joinLines_cons, show l ++ '\n' :: joinLines ls = (l ++ ['\n']) ++ joinLines ls by simp, encode_append, crlf_append,
      List.map_cons, List.flatten_cons, ih]

theorem win_lines (r : DS58) (ok : Ok r) (le : Bool) (hs : r.store = .binary le) :
    ((splitLinesKeepB r.winBlock).take 13).flatten = crlf (encode (joinLines (tagText :: idl r :: head r))) ∧
    ((splitLinesKeepB r.winBlock).drop 13).flatten = r.extra := by
  have hsafe := safe r ok
  have hbody : r.body = [] := by unfold body; rw [hs]
  have e : splitLinesKeepB r.winBlock
      = (tagText :: idl r :: head r).map (fun l => crlf (encode (l ++ ['\n']))) ++ splitLinesKeepB r.extra := by
    unfold winBlock blockText
    rw [keepB_crlfLines _ (by
      intro l hl
      rcases List.mem_cons.1 hl with rfl | hl
      · exact noBreak_tagText
      · exact (hsafe l hl).1)]
    unfold lines
    rw [hbody, List.append_nil]
  have hl : ((tagText :: idl r :: head r).map (fun l => crlf (encode (l ++ ['\n'])))).length = 13 := by simp [head]
  rw [e]
  constructor
  · rw [List.take_append_of_le_length (by rw [hl]), List.take_of_length_le (by rw [hl]), win_flatten]
  · rw [List.drop_append_of_le_length (by rw [hl]), List.drop_of_length_le (by rw [hl]), List.nil_append,
      splitLinesKeepB_flatten]

theorem win_head (r : DS58) (ok : Ok r) (le : Bool) (hs : r.store = .binary le) :
    readHead58 (splitLinesKeep (decode ((splitLinesKeepB r.winBlock).take 13).flatten)) = .ok (true, r.headBack) := by
  have hn : NoCr (encode (joinLines (tagText :: idl r :: head r))) := by
    refine noCr_lines _ fun l hl => ?_
    rcases List.mem_cons.1 hl with rfl | hl
    · exact noBreak_tagText
    · exact (safe r ok l (by unfold lines; rw [← List.cons_append]; exact List.mem_append_left _ hl)).1
  have hn := noCr_decode _ hn
  rw [(win_lines r ok le hs).1, decode_crlf, splitLinesKeep_crlf _ hn, readHead58_crlf _ (lines_end _ hn), head_lines r ok,
    read_head r ok, hs]

theorem win_read (r : DS58) (ok : Ok r) (le : Bool) (hs : r.store = .binary le) :
    extract58 r.winBlock false = .ok r.readBack := by
  unfold extract58
  rw [win_head r ok le hs, (win_lines r ok le hs).2]
  simp only [ok_bind, bodyArgs_eq, Bool.false_eq_true, if_false]
  have hb := assign_back r ok
  rw [if_pos trivial, littleOf_eq r le hs]
  have hex : r.extra = payload le r := by unfold extra; rw [hs]
  have hc : decide (r.ordType = 2 ∨ r.ordType = 5) = false := by
    rw [code_eq, hs, show dbl (.binary le) = true from rfl]
    cases isReal r.ord <;> decide
  rw [List.map_id'' (f := keep r.store) (by intro p; rw [hs]; rfl)] at hb
  simp only [hc, hex]
  rw [payload_eq, binValues_pack, stored_eq, hb]
  rfl

theorem win_readHeader (r : DS58) (ok : Ok r) (le : Bool) (hs : r.store = .binary le) :
    extract58 r.winBlock true = .ok r.headerBack := by
  have h := readHeader_eq r ok
  unfold extract58 block at h
  unfold extract58
  rw [(block_lines r ok r.extra).1, head_lines r ok, read_head r ok] at h
  rw [win_head r ok le hs]
  simp only [ok_bind, if_true] at h ⊢
  exact h

theorem win_framed (r : DS58) (ok : Ok r) : FramedWin 58 r.winBlock := by
  have hf : Framed 58 (encode (blockText r.lines)) := framed_text _ _ _ (safe r ok) (idl_type r)
  unfold winBlock
  cases hs : r.store with
  | ascii dd =>
    have hex : r.extra = [] := by unfold extra; rw [hs]
    rw [hex, List.append_nil]
    exact framedWin_crlf hf (noCr_block (safe r ok))
  | binary le =>
    have hex : r.extra = payload le r := by unfold extra; rw [hs]
    have hp := ok.store
    unfold StoreOk at hp
    rw [hs] at hp
    rw [hex]
    exact framedWin_payload (safe r ok) _ hp hf

end DS58

/-! ### One data-set of any type -/

/-- The bytes added by one write in mode 'add' on Windows. -/
def addedWin (r : WRes (Option Bytes)) : Bytes := match r.res with
  | .ok (some payload) => winText r.out ++ (payload ++ winText tailText)
  | _ => winText r.out

theorem fileAfterWin_add (file : Option Bytes) (r : WRes (Option Bytes)) :
    fileAfterWin false file r = file.getD [] ++ addedWin r := by
  unfold fileAfterWin addedWin
  simp only [Bool.false_eq_true, if_false]
  rcases r.res with e | _ | p <;> rfl

/-- The dictionary is written on Windows as the block, with its closing delimiter, and the block reads as the data-set. -/
structure WrittenWin (e : Env) (fd : Bool) (d : Dict) (s : DataSet) (block : Bytes) : Prop where
  wr : ∃ a, (writeBody e fd d).res = .ok a ∧ addedWin (writeBody e fd d) = closedWin block
  framed : FramedWin s.num block
  rd : readBlock s.num false block = .ok s.readBack
  rdh : readBlock s.num true block = .ok s.headerBack

theorem winText_tail : winText tailText = tagPat ++ [13, 10] := by decide

theorem crlf_closed (b : Bytes) : crlf (closed b) = closedWin (crlf b) := by
  unfold closed closedWin
  rw [crlf_append, crlf_tag]

/-- Both ways to write a data-set. -/
structure WrittenBoth (e : Env) (fd : Bool) (d : Dict) (s : DataSet) (b c : Bytes) : Prop where
  unix : Written e fd d s b
  win : WrittenWin e fd d s c
  text : ¬ s.Binary → NoCr b ∧ (∀ header, EolSafe header b) ∧ c = crlf b

theorem both_text {e : Env} {fd : Bool} {d : Dict} {s : DataSet} {b : Bytes} (hw : Written e fd d s b) (hb : ¬ s.Binary)
    (hn : NoCr b) (hs : ∀ header, EolSafe header b) : ∃ b c, WrittenBoth e fd d s b c := by
  refine ⟨b, crlf b, hw, ⟨?_, framedWin_crlf hw.framed hn, ?_, ?_⟩, fun _ => ⟨hn, hs, rfl⟩⟩
  · obtain ⟨out, d', ret, h1, h2, h3⟩ := hw.wr
    refine ⟨ret, by rw [h1], ?_⟩
    cases ret with
    | some p => exact absurd (h3.1 rfl) hb
    | none =>
      rw [h1, ← crlf_closed, ← h2]
      exact winText_eq out
  · have := readBlock_crlf b hn false (hs false)
    rw [hw.framed.type] at this
    rw [this, hw.rd]
  · have := readBlock_crlf b hn true (hs true)
    rw [hw.framed.type] at this
    rw [this, hw.rdh]

theorem both_of {e : Env} {fd : Bool} {d d' : Dict} {s : DataSet} {w : W Unit} {ex : Text → Res Dict}
    {lines : List Text} (hc : CleanD d d') (ht : d'.get? "type" = some (.int s.num))
    (hw : writeDispatch e fd (.int s.num) = W.none w) (hr : ∀ h b, readBlock s.num h b = ex (decode b))
    (hh : s.headerBack = s.readBack) (hb : ¬ s.Binary) (rt : RoundTrip s.num w ex d' s.readBack lines)
    (hs : ∀ header, EolSafe header (encode (blockText lines))) : ∃ b c, WrittenBoth e fd d s b c := by
  exact both_text (written_lines hc ht hw hr hh hb rt) hb (noCr_block rt.safe) hs

theorem ne_of_beq {a b : Int} (h : decide (a = b) = false) : a ≠ b := of_decide_eq_false h

theorem both_other {e : Env} {fd : Bool} {d d' : Dict} {s : DataSet} {w : W Unit} {ex : Text → Res Dict}
    {lines : List Text} (h1 : s.num ≠ 55) (h2 : s.num ≠ 58) (hc : CleanD d d') (ht : d'.get? "type" = some (.int s.num))
    (hw : writeDispatch e fd (.int s.num) = W.none w) (hr : ∀ h b, readBlock s.num h b = ex (decode b))
    (hh : s.headerBack = s.readBack) (hb : ¬ s.Binary) (rt : RoundTrip s.num w ex d' s.readBack lines) :
    ∃ b c, WrittenBoth e fd d s b c :=
  both_of hc ht hw hr hh hb rt fun _ => EolSafe.other rt.ty h1 h2

theorem written_both (e : Env) (fd : Bool) (d : Dict) (s : DataSet) (h : Given e fd d s) : ∃ b c, WrittenBoth e fd d s b c := by
  obtain ⟨d', hc, hr, ok⟩ := h
  cases s with
  | s15 r => exact both_other (ne_of_beq rfl) (ne_of_beq rfl) hc hr.type rfl (fun _ _ => rfl) rfl id (DS15.roundTrip d' r hr ok)
  | s18 r => exact both_other (ne_of_beq rfl) (ne_of_beq rfl) hc hr.set rfl (fun _ _ => rfl) rfl id (DS18.roundTrip d' r hr ok)
  | s55 r =>
    exact both_of hc hr.type rfl (fun _ _ => rfl) rfl id (DS55.roundTrip d' r hr ok)
      fun header => DS55.eolSafe r ok header (DS55.roundTrip d' r hr ok).ty
  | s82 r => exact both_other (ne_of_beq rfl) (ne_of_beq rfl) hc hr.type rfl (fun _ _ => rfl) rfl id (DS82.roundTrip d' r hr ok)
  | s151 r => exact both_other (ne_of_beq rfl) (ne_of_beq rfl) hc hr.type rfl (fun _ _ => rfl) rfl id (DS151.roundTrip _ _ d' r hr ok)
  | s164 r => exact both_other (ne_of_beq rfl) (ne_of_beq rfl) hc hr.type rfl (fun _ _ => rfl) rfl id (DS164.roundTrip d' r hr ok)
  | s1858 r => exact both_other (ne_of_beq rfl) (ne_of_beq rfl) hc hr.type rfl (fun _ _ => rfl) rfl id (DS1858.roundTrip d' r hr ok)
  | s2400 r => exact both_other (ne_of_beq rfl) (ne_of_beq rfl) hc hr.type rfl (fun _ _ => rfl) rfl id (DS2400.roundTrip d' r hr ok)
  | s2411 r => exact both_other (ne_of_beq rfl) (ne_of_beq rfl) hc hr.type rfl (fun _ _ => rfl) rfl id (DS2411.roundTrip d' r hr ok)
  | s2412 r => exact both_other (ne_of_beq rfl) (ne_of_beq rfl) hc hr.type rfl (fun _ _ => rfl) rfl id (DS2412.roundTrip d' r hr ok)
  | s2420 r => exact both_other (ne_of_beq rfl) (ne_of_beq rfl) hc hr.set rfl (fun _ _ => rfl) rfl id (DS2420.roundTrip d' r hr ok)
  | s2429 r => exact both_other (ne_of_beq rfl) (ne_of_beq rfl) hc hr.type rfl (fun _ _ => rfl) rfl id (DS2429.roundTrip d' r hr ok)
  | s2414 r => exact both_other (ne_of_beq rfl) (ne_of_beq rfl) hc hr.type rfl (fun _ _ => rfl) rfl id (DS2414.roundTrip d' r hr ok)
  | s2467 r => exact both_other (ne_of_beq rfl) (ne_of_beq rfl) hc hr.type rfl (fun _ _ => rfl) rfl id (DS2467.roundTrip d' r hr ok)
  | s58 r =>
    have ok : r.Ok := ok
    have hw : Written e fd d (.s58 r) r.block := written_58 hc hr ok
    cases hs : r.store with
    | ascii dd =>
      have hex : r.extra = [] := by unfold DS58.extra; rw [hs]
      have hb : ¬ DataSet.Binary (.s58 r) := by unfold DataSet.Binary; simp only; rw [hs]; simp
      refine both_text hw hb ?_ (DS58.eolSafe r ok dd hs)
      unfold DS58.block
      rw [hex, List.append_nil]
      exact noCr_block (DS58.safe r ok)
    | binary le =>
      have hb : DataSet.Binary (.s58 r) := by unfold DataSet.Binary; simp only; rw [hs]; simp
      refine ⟨_, r.winBlock, hw, ⟨?_, DS58.win_framed r ok, DS58.win_read r ok le hs, DS58.win_readHeader r ok le hs⟩, fun h => absurd hb h⟩
      obtain ⟨out, d2, ret, h1, h2, h3⟩ := hw.wr
      refine ⟨ret, by rw [h1], ?_⟩
      have e1 : writeBody e fd d = ⟨DS58.textOut r, DS58.d3 fd d' r, .ok r.ret⟩ := by
        rw [writeBody_eq hc hr.type]
        exact DS58.write_eq _ _ _ _ hr ok
      rw [e1]
      unfold addedWin closedWin DS58.winBlock DS58.textOut DS58.ret DS58.extra
      rw [hs]
      simp only [winText_tail, List.append_assoc]
      rw [winText_eq]

/-! ### Lists of data-sets -/

/-- The bytes between the delimiters that hold a data-set written on Windows. -/
structure BlockOfWin (s : DataSet) (b : Bytes) : Prop where
  framed : FramedWin s.num b
  rd : readBlock s.num false b = .ok s.readBack
  rdh : readBlock s.num true b = .ok s.headerBack

/-- The same for lists. -/
inductive BlocksWin : List DataSet → List Bytes → Prop
  | nil : BlocksWin [] []
  | cons {s b ss bs} : BlockOfWin s b → BlocksWin ss bs → BlocksWin (s :: ss) (b :: bs)

theorem terminated_closedWin (b : Bytes) : Terminated (closedWin b) := by
  right; simp [closedWin]

theorem FramedWin.delims {n : Int} {b : Bytes} (h : FramedWin n b) : delims (closedWin b) = [0, b.length] := by
  rw [delims_eq]; exact h.tags

theorem FramedWin.balanced {n : Int} {b : Bytes} (h : FramedWin n b) : Balanced (closedWin b) := by
  unfold Balanced; rw [h.delims]; simp

theorem FramedWin.sets {n : Int} {b : Bytes} (h : FramedWin n b) : sets (closedWin b) = [b] := by
  rw [sets_eq, h.delims]
  simp [pairUp, blockBytes, slice, closedWin]

theorem BlocksWin.length {ss : List DataSet} {bs : List Bytes} (h : BlocksWin ss bs) : bs.length = ss.length := by
  induction h with
  | nil => rfl
  | cons _ _ ih => simp [ih]

theorem BlocksWin.terminated {ss : List DataSet} {bs : List Bytes} (h : BlocksWin ss bs) : Terminated (bs.flatMap closedWin) := by
  induction h with
  | nil => left; rfl
  | cons _ _ ih => rw [List.flatMap_cons]; exact terminated_append _ _ (terminated_closedWin _) ih

theorem BlocksWin.balanced {ss : List DataSet} {bs : List Bytes} (h : BlocksWin ss bs) : Balanced (bs.flatMap closedWin) := by
  induction h with
  | nil => unfold Balanced; decide
  | cons hb _ ih =>
    rw [List.flatMap_cons]
    exact balanced_append _ _ (terminated_closedWin _) hb.framed.balanced ih

theorem BlocksWin.sets {ss : List DataSet} {bs : List Bytes} (h : BlocksWin ss bs) : sets (bs.flatMap closedWin) = bs := by
  induction h with
  | nil => decide
  | cons hb _ ih =>
    rw [List.flatMap_cons, sets_append _ _ (terminated_closedWin _) hb.framed.balanced, hb.framed.sets, ih]
    rfl

theorem BlocksWin.types {ss : List DataSet} {bs : List Bytes} (h : BlocksWin ss bs) :
    bs.map blockType = ss.map DataSet.num := by
  induction h with
  | nil => rfl
  | cons hb _ ih => simp [hb.framed.type, ih]

theorem BlocksWin.read {ss : List DataSet} {bs : List Bytes} (h : BlocksWin ss bs) :
    mapRes (fun b => readBlock (blockType b) false b) bs = .ok (ss.map DataSet.readBack) := by
  induction h with
  | nil => rfl
  | cons hb _ ih => unfold mapRes; rw [hb.framed.type, hb.rd, ih]; rfl

theorem BlocksWin.readHeader {ss : List DataSet} {bs : List Bytes} (h : BlocksWin ss bs) :
    mapRes (fun b => readBlock (blockType b) true b) bs = .ok (ss.map DataSet.headerBack) := by
  induction h with
  | nil => rfl
  | cons hb _ ih => unfold mapRes; rw [hb.framed.type, hb.rdh, ih]; rfl

theorem addAllWin_cons_ok {w : World} {e : Env} {fd : Bool} {d : Dict} {ds : List Dict} {a : Option Bytes}
    (h : (writeBody e fd d).res = .ok a) :
    w.addAllWin e fd (d :: ds) =
      (((w.writeSetWin e fd false d).1.addAllWin e.next fd ds).1,
       (writeBody e fd d).dict :: ((w.writeSetWin e fd false d).1.addAllWin e.next fd ds).2.1,
       ((w.writeSetWin e fd false d).1.addAllWin e.next fd ds).2.2) := by
  conv => lhs; unfold World.addAllWin
  have : w.writeSetWin e fd false d = ((w.writeSetWin e fd false d).1, (writeBody e fd d).dict, .ok ()) := by
    unfold World.writeSetWin
    dsimp only
    rw [h]
  rw [this]

/-- Appending well-formed data-sets on Windows. -/
theorem addAllWin_given {e : Env} {fd : Bool} {ds : List Dict} {ss : List DataSet} (h : GivenAll e fd ds ss) :
    ∃ bs, BlocksWin ss bs ∧ ∀ w : World,
      (w.addAllWin e fd ds).2.2 = .ok () ∧
      (w.addAllWin e fd ds).1.file.getD [] = w.file.getD [] ++ bs.flatMap closedWin ∧
      (ds ≠ [] → Terminated (w.file.getD []) → Balanced (w.file.getD []) →
        (w.addAllWin e fd ds).1 = World.new (some (w.file.getD [] ++ bs.flatMap closedWin))) := by
  induction h with
  | nil =>
    refine ⟨[], .nil, fun w => ⟨rfl, ?_, fun h => absurd rfl h⟩⟩
    simp [World.addAllWin]
  | @cons e fd d s ds ss hd hds ih =>
    obtain ⟨bs, hbs, hall⟩ := ih
    obtain ⟨_, b, hboth⟩ := written_both e fd d s hd
    have hb := hboth.win
    obtain ⟨ret, hres, ha⟩ := hb.wr
    refine ⟨b :: bs, .cons ⟨hb.framed, hb.rd, hb.rdh⟩ hbs, fun w => ?_⟩
    have hfile : fileAfterWin false w.file (writeBody e fd d) = w.file.getD [] ++ closedWin b := by
      rw [fileAfterWin_add, ha]
    have hw1 : (w.writeSetWin e fd false d).1 = (World.refresh ⟨some (w.file.getD [] ++ closedWin b), w.obj⟩).1 := by
      unfold World.writeSetWin
      dsimp only
      rw [hres, hfile]
    rw [addAllWin_cons_ok hres]
    obtain ⟨h1, h2, h3⟩ := hall (w.writeSetWin e fd false d).1
    have hf : (w.writeSetWin e fd false d).1.file.getD [] = w.file.getD [] ++ closedWin b := by rw [hw1]; rfl
    refine ⟨h1, ?_, fun _ ht hbal => ?_⟩
    · simp only
      rw [h2, hf, List.flatMap_cons, List.append_assoc]
    · simp only
      have ht' := terminated_append _ _ ht (terminated_closedWin b)
      have hbal' := balanced_append _ _ ht hbal hb.framed.balanced
      cases hds with
      | nil =>
        cases hbs
        simp only [World.addAllWin, List.flatMap_cons, List.flatMap_nil, List.append_nil]
        rw [hw1, new_some]
        unfold World.refresh
        dsimp only
        rw [refreshObj_eq]
        exact setCount_pos_of_append _ _ ht hbal (by rw [hb.framed.sets]; simp)
      | cons _ _ =>
        rw [h3 (by simp) (by rw [hf]; exact ht') (by rw [hf]; exact hbal'), hf, List.flatMap_cons, List.append_assoc]

/-- The blocks of data-sets written as text. -/
theorem addAll_text {e : Env} {fd : Bool} {ds : List Dict} {ss : List DataSet} (h : GivenAll e fd ds ss)
    (hb : ∀ s ∈ ss, ¬ s.Binary) :
    ∃ bs, Blocks ss bs ∧ (∀ b ∈ bs, NoCr b ∧ ∀ header, EolSafe header b) ∧ ∀ w : World,
      (w.addAll e fd ds).1.file.getD [] = w.file.getD [] ++ bs.flatMap closed := by
  induction h with
  | nil => exact ⟨[], .nil, by simp, fun w => by simp [World.addAll]⟩
  | @cons e fd d s ds ss hd hds ih =>
    obtain ⟨bs, hbs, hsafe, hall⟩ := ih fun x hx => hb x (List.mem_cons_of_mem _ hx)
    obtain ⟨b, c, hboth⟩ := written_both e fd d s hd
    have ht := hboth.text (hb s (List.mem_cons_self ..))
    have hu := hboth.unix
    obtain ⟨out, d', ret, hw, ha, _⟩ := hu.wr
    refine ⟨b :: bs, .cons ⟨hu.framed, hu.rd, hu.rdh⟩ hbs, ?_, fun w => ?_⟩
    · intro x hx
      rcases List.mem_cons.1 hx with rfl | hx
      · exact ⟨ht.1, ht.2.1⟩
      · exact hsafe x hx
    · have hres : (writeBody e fd d).res = .ok ret := by rw [hw]
      rw [addAll_cons_ok hres]
      simp only
      rw [hall, (writeSet_file w e fd false d).1, fileAfter_add, hw, ha, List.flatMap_cons]
      simp

end Verif
