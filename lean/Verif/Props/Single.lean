import Verif.Props.RoundTrip
import Verif.Lemmas.Single58
import Verif.Lemmas.Whole
/-
Property C22: binary data: the exact condition on the data, and data declared as single precision.
-/
namespace Verif

theorem readBlock58 (header : Bool) (b : Bytes) : readBlock 58 header b = extract58 b header := by
  unfold readBlock
  rw [if_neg (by decide), if_neg (by decide), if_neg (by decide), if_pos (by decide)]

/-- The exact condition on binary data: a function in double precision comes back if and only if no delimiter begins inside its
bytes.  Otherwise the call succeeds all the same, and fewer points are read than were given. -/
theorem C22_iff (e : Env) (fd : Bool) (d d' : Dict) (r : DS58) (hc : CleanD d d') (h : r.Rep e.little fd d') (fit : r.Fit)
    (hs : r.store = .binary e.little) :
    (StoredAs e fd d r.readBack r.headerBack ↔ NoDelim (DS58.payload e.little r)) ∧
    (¬ NoDelim (DS58.payload e.little r) → ∀ w : World, Terminated (w.file.getD []) → Balanced (w.file.getD []) →
      (w.writeSets e "add".toList fd [d]).2.2 = .ok () ∧
      ∃ k rb n, k < (DS58.payload e.little r).length ∧ DelimAt (DS58.payload e.little r ++ delimBytes ++ [10]) k ∧
        ((w.writeSets e "add".toList fd [d]).1.readSets (.one (setCount (w.file.getD []))) false).2 = .ok (.single rb) ∧
        countOf rb "data" = some n ∧ n < r.count) := by
  have hw : writeBody e fd d = ⟨DS58.textOut r, DS58.d3 fd d' r, .ok r.ret⟩ := by
    rw [writeBody_eq hc h.type]
    exact DS58.write_eq _ _ _ _ h fit
  have hl : r.lines = DS58.idl r :: (DS58.head r ++ DS58.body r) := rfl
  have hadd : added ⟨DS58.textOut r, DS58.d3 fd d' r, .ok r.ret⟩ = closed (encode (blockText r.lines) ++ DS58.payload e.little r) := by
    unfold added closed DS58.textOut DS58.ret DS58.extra
    rw [hs]
    simp only [encode_tail, List.append_assoc]
  have hsafe := DS58.safe r fit
  have hcut : ¬ NoDelim (DS58.payload e.little r) → ∀ w : World, Terminated (w.file.getD []) → Balanced (w.file.getD []) →
      (w.writeSets e "add".toList fd [d]).2.2 = .ok () ∧
      ∃ k rb n, k < (DS58.payload e.little r).length ∧ DelimAt (DS58.payload e.little r ++ delimBytes ++ [10]) k ∧
        ((w.writeSets e "add".toList fd [d]).1.readSets (.one (setCount (w.file.getD []))) false).2 = .ok (.single rb) ∧
        countOf rb "data" = some n ∧ n < r.count := by
    intro hn w hT hB
    rw [writeSets_add' w e "add".toList (by decide) fd [d] (by simp)]
    rcases tags_first (DS58.payload e.little r) 0 with h1 | ⟨k, hk, T, h1⟩
    · exact absurd ((clean_iff _).2 (by rw [h1, Nat.zero_add])) hn
    · rw [Nat.zero_add] at h1
      obtain ⟨q1, q2⟩ := read_payload hk h1 (hl ▸ hsafe) hw (hl ▸ hadd) (DS58.idl_type r) w hT hB false
      rw [readBlock58, ← hl, DS58.cut_read r fit _ hs] at q2
      have hn := assign_count (DS58.dbl r.store) (DS58.isReal r.ord) r.even r.headBack (r.min.quant 5) (r.inc.quant 5)
        (binValues e.little false ((DS58.payload e.little r).take k))
      rw [← DS58.code_eq] at hn
      refine ⟨q1, k, _, _, hk, ((mem_tags _ k).1 (by rw [h1]; simp)).2, q2, hn, ?_⟩
      rw [DS58.payload_length _ _ fit] at hk
      have hlen : (binValues e.little false ((DS58.payload e.little r).take k)).length = k / 8 := by
        unfold binValues
        rw [if_neg (by decide), List.length_map, byteGroups_length, List.length_take, DS58.payload_length _ _ fit, Nat.min_eq_left (by omega)]
      rw [hlen]
      refine Nat.div_lt_of_lt_mul ?_
      omega
  refine ⟨⟨fun hst => ?_, fun hp => ?_⟩, hcut⟩
  · by_contra hn
    obtain ⟨-, k, rb, n, -, -, h2, h3, h4⟩ := hcut hn (World.new none) (.inl rfl) (by decide)
    have := (hst.all (World.new none) (.inl rfl) (by decide)).2.2.1
    rw [h2] at this
    cases this
    rw [DS58.count_back] at h3
    cases h3
    omega
  · refine ⟨fun w ht hb => ?_⟩
    intro q
    have hq : q = w.addAll e fd [d] := writeSets_add' w e "add".toList (by decide) fd [d] (by simp)
    have hf : Framed 58 (encode (blockText r.lines) ++ DS58.payload e.little r) :=
      hl ▸ framed_clean _ _ _ (hl ▸ hsafe) (DS58.idl_type r) _ ((clean_iff _).1 hp)
    have hbk : encode (blockText r.lines) ++ DS58.payload e.little r = r.block := by
      unfold DS58.block DS58.extra
      rw [hs]
    obtain ⟨h1, h2, h3⟩ := read_framed hw hadd hf w ht hb false
    obtain ⟨-, -, h4⟩ := read_framed hw hadd hf w ht hb true
    rw [readBlock58, hbk, DS58.read_eq _ fit] at h3
    rw [readBlock58, hbk, DS58.readHeader_eq _ fit] at h4
    rw [hq]
    exact ⟨h1, h2, h3, h4⟩

/-- The conditions are met, on both sides: data without and with a delimiter. -/
example : NoDelim (DS58.payload true (ex58 false exCplx (.binary true))) := by decide +kernel
example : ¬ NoDelim (DS58.payload true (ex58 true (.real [⟨false, 0x0A0A312D20202020, by decide⟩, fB, fC]) (.binary true))) := by
  decide +kernel
/-- Six bytes of a delimiter that no line end follows do no harm. -/
example : NoDelim (DS58.payload true (ex58 true (.real [⟨false, 0x0000312D20202020, by decide⟩, fB, fC]) (.binary true))) ∧
    ¬ (ex58 true (.real [⟨false, 0x0000312D20202020, by decide⟩, fB, fC]) (.binary true)).StoreOk := by
  refine ⟨by decide +kernel, fun h => h ?_⟩
  exact ⟨[], _, rfl⟩

/-- Binary data-sets declared as single precision (`ord_data_type` 2 or 5, `force_double=False`), whatever the data: the call
succeeds, the header announces four bytes for each point, and what is read has twice as many points as the header says, each double
being taken for two numbers of four bytes.  So the claim of C22 fails for every one of them. -/
theorem C22_single (e : Env) (d d' : Dict) (r : DS58) (hc : CleanD d d') (h : r.SingleRep d') (ok : r.Fit)
    (hp : NoDelim (DS58.payload e.little r)) :
    StoredAs e false d (r.singleBack e.little) (r.singleHeaderBack e.little) ∧
    (r.singleBack e.little).get? "num_pts" = some (.int r.count) ∧
    (r.singleBack e.little).get? "n_bytes" = some (.int (4 * r.count)) ∧
    (∀ l, r.ord = .real l → ∃ xs ys, (r.singleBack e.little).get? "x" = some (.arrF xs) ∧
      (r.singleBack e.little).get? "data" = some (.arrF ys) ∧ xs.length = 2 * l.length ∧ ys.length = 2 * l.length ∧
      (r.even = true → ys = l.flatMap (DS58.halves e.little))) ∧
    (∀ l, r.ord = .cplx l → ∃ xs ys, (r.singleBack e.little).get? "x" = some (.arrF xs) ∧
      (r.singleBack e.little).get? "data" = some (.arrC ys) ∧ xs.length = 2 * l.length ∧ ys.length = 2 * l.length) := by
  have hw : writeBody e false d = ⟨blockText (DS58.singleId e.little r :: DS58.head r.plain), DS58.d3 false d' r.plain,
      .ok (some (DS58.payload e.little r))⟩ := by
    rw [writeBody_eq hc h.type]
    exact DS58.single_write _ _ _ h ok
  have hadd : added ⟨blockText (DS58.singleId e.little r :: DS58.head r.plain), DS58.d3 false d' r.plain,
      .ok (some (DS58.payload e.little r))⟩ = closed (DS58.singleBlock e.little r) := by
    unfold added closed DS58.singleBlock
    simp only [encode_tail, List.append_assoc]
  have hd : (r.singleBack e.little).get? "data" = some (match r.ord with
      | .real _ => .arrF ((DS58.singlePts e.little r).map (·.2.1))
      | .cplx _ => .arrC ((DS58.singlePts e.little r).map fun q => DS58.plusJ q.2.1 q.2.2)) := rfl
  have hlen := DS58.singlePts_length e.little r ok
  refine ⟨⟨fun w ht hb => ?_⟩, ?_, ?_, ?_, ?_⟩
  · intro q
    have hq : q = w.addAll e false [d] := writeSets_add' w e "add".toList (by decide) false [d] (by simp)
    obtain ⟨h1, h2, h3⟩ := read_framed hw hadd (DS58.single_framed _ _ ok hp) w ht hb false
    obtain ⟨-, -, h4⟩ := read_framed hw hadd (DS58.single_framed _ _ ok hp) w ht hb true
    rw [readBlock58, DS58.single_read _ _ ok] at h3
    rw [readBlock58, DS58.single_readHeader _ _ ok] at h4
    rw [hq]
    exact ⟨h1, h2, h3, h4⟩
  · rfl
  · rfl
  · intro l hl
    have hn : r.count = l.length := by unfold DS58.count; rw [hl]
    refine ⟨_, (DS58.singlePts e.little r).map (·.2.1), rfl, ?_, ?_, ?_, ?_⟩
    · rw [hd, hl]
    · split <;> simp [hlen, hn]
    · simp [hlen, hn]
    · intro he
      unfold DS58.singlePts
      rw [hl, he]
      simp only [List.map_flatMap]
      rfl
  · intro l hl
    have hn : r.count = l.length := by unfold DS58.count; rw [hl]
    refine ⟨_, (DS58.singlePts e.little r).map (fun q => DS58.plusJ q.2.1 q.2.2), rfl, ?_, ?_, ?_⟩
    · rw [hd, hl]
    · split <;> simp [hlen, hn]
    · simp [hlen, hn]

/-- The dictionary that holds a binary function, declared as single precision. -/
def DS58.asSingle (r : DS58) : Dict :=
  r.dict.set "ord_data_type" (.int (match r.ord with | .real _ => 2 | .cplx _ => 5))

theorem DS58.single_rep (r : DS58) (le : Bool) (hs : r.store = .binary le) : r.SingleRep r.asSingle := by
  have hdata : r.asSingle.get? "data" = some r.ord.val := rfl
  have hb : r.asSingle.get? "binary" = some (.int r.store.flag) := rfl
  refine ⟨⟨rfl, rfl, rfl, rfl, rfl, rfl, rfl, rfl, rfl, rfl, rfl, ⟨_, rfl, rfl⟩, ⟨_, rfl, rfl⟩, rfl, ⟨_, rfl, rfl⟩,
    ⟨_, rfl, rfl⟩, rfl, ⟨rfl, rfl, rfl, rfl, rfl, rfl⟩, ⟨rfl, rfl, rfl, rfl, rfl, rfl⟩, rfl,
    ⟨rfl, rfl, rfl, rfl, rfl, rfl⟩, ⟨rfl, rfl, rfl, rfl, rfl, rfl⟩, ⟨_, rfl, .inl rfl⟩, ⟨_, rfl, isSeq_arrF' _⟩, ?_⟩, ?_, rfl⟩
  · unfold DS58.OrdRep
    cases h : r.ord <;> simp [hdata, h, Ord58.val]
  · exact ⟨_, hb, .inl (by rw [hs]; rfl)⟩

/-- So every function that meets the conditions of C22 is lost when it is declared as single precision. -/
theorem C22_single_any (e : Env) (r : DS58) (ok : r.Fit) (hs : r.store = .binary e.little)
    (hp : NoDelim (DS58.payload e.little r)) :
    StoredAs e false r.asSingle (r.singleBack e.little) (r.singleHeaderBack e.little) :=
  have hdata : r.asSingle.get? "data" = some r.ord.val := rfl
  (C22_single e _ _ r (.inr ⟨_, _, hdata, Ord58.clean ok.ord, (Dict.set_self hdata).symm⟩) (r.single_rep _ hs) ok hp).1

example (even : Bool) : StoredAs exEnv false (ex58 even exReal (.binary exEnv.little)).asSingle
    ((ex58 even exReal (.binary exEnv.little)).singleBack exEnv.little)
    ((ex58 even exReal (.binary exEnv.little)).singleHeaderBack exEnv.little) :=
  C22_single_any _ _ (ex58_fit _ _ _ (.inl rfl)) rfl (by cases even <;> decide +kernel)

example : (ex58 true exReal (.binary exEnv.little)).asSingle = single58 := by decide +kernel

end Verif
