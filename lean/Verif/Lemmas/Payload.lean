import Verif.Lemmas.Whole
import Verif.Lemmas.Arrays
import Verif.Spec.Payload
/-
Binary data that contain a delimiter.
-/
namespace Verif

theorem tags_first (p : Bytes) (i : Nat) : tagsFrom i (p ++ (tagPat ++ [10])) = [i + p.length] ∨
    ∃ k < p.length, ∃ T, tagsFrom i (p ++ (tagPat ++ [10])) = (i + k) :: T := by
  induction p generalizing i with
  | nil => exact .inl (tags_tagLine i)
  | cons c p ih =>
    have e : tagsFrom i (c :: p ++ (tagPat ++ [10])) =
      (if isTag (c :: p ++ (tagPat ++ [10])) then [i] else []) ++ tagsFrom (i + 1) (p ++ (tagPat ++ [10])) := rfl
    rw [e]
    split
    · exact .inr ⟨0, by simp, _, rfl⟩
    · rcases ih (i + 1) with h | ⟨k, hk, T, h⟩
      · left; rw [h]; simp; omega
      · refine .inr ⟨k + 1, by simpa using hk, T, ?_⟩
        rw [h]; simp; omega

theorem mem_tags (p : Bytes) (i : Nat) : i ∈ tagsFrom 0 (p ++ (tagPat ++ [10])) ↔
    i < p.length + 7 ∧ DelimAt (p ++ delimBytes ++ [10]) i := by
  rw [← delims_eq, List.append_assoc]
  unfold delims
  have hl : (p ++ (tagPat ++ [10])).length = p.length + 7 := by simp [tagPat]
  rw [List.mem_filter, List.mem_range, decide_eq_true_iff, hl]
  rfl

theorem clean_iff (p : Bytes) : NoDelim p ↔
    tagsFrom 0 (p ++ (tagPat ++ [10])) = [p.length] := by
  constructor
  · intro h
    rcases tags_first p 0 with h1 | ⟨k, hk, T, h1⟩
    · rw [h1, Nat.zero_add]
    · have := (mem_tags p k).1 (by rw [h1]; simp)
      exact absurd this.2 (h k hk)
  · intro h i hi hd
    have := (mem_tags p i).2 ⟨by omega, hd⟩
    rw [h] at this
    simp at this
    omega

theorem head_tags (idl : Text) (rest : List Text) (h : Safe (idl :: rest)) :
    EndsLF (encode (blockText (idl :: rest))) ∧ tagsFrom 0 (encode (blockText (idl :: rest))) = [0] := by
  have hE : EndsLF (encode (blockText (idl :: rest))) := by
    rcases endsLF_joinLines (tagText :: idl :: rest) with h0 | h0
    · simp [joinLines] at h0
    · exact h0
  refine ⟨hE, ?_⟩
  have h1 := (framed_text _ idl rest h rfl).tags
  rw [tagsFrom_append _ _ (Or.inr hE), tags_tagLine] at h1
  have e : ([0, (encode (blockText (idl :: rest))).length] : List Nat)
    = [0] ++ [0 + (encode (blockText (idl :: rest))).length] := by simp
  rw [e] at h1
  exact List.append_cancel_right h1

theorem framed_clean (n : Int) (idl : Text) (rest : List Text) (h : Safe (idl :: rest))
    (ht : (parseIntB ((encode idl).take 6)).getD 0 = n) (p : Bytes) (hp : tagsFrom 0 (p ++ (tagPat ++ [10])) = [p.length]) :
    Framed n (encode (blockText (idl :: rest)) ++ p) := by
  obtain ⟨hE, h2⟩ := head_tags idl rest h
  constructor
  · rw [List.append_assoc, tagsFrom_append _ _ (Or.inr hE), tagsFrom_shift (p ++ _), hp, h2]
    simp; omega
  · rw [blockType_payload _ _ (h idl (by simp)).1, ht]

/-- Binary data that contain a delimiter: the first data-set added ends there. -/
theorem first_payload (f : Bytes) (hT : Terminated f) (hB : Balanced f) (idl : Text) (rest : List Text)
    (h : Safe (idl :: rest)) (p : Bytes) (k : Nat) (T : List Nat) (hk : k < p.length)
    (hp : tagsFrom 0 (p ++ (tagPat ++ [10])) = k :: T) :
    setCount f < setCount (f ++ closed (encode (blockText (idl :: rest)) ++ p)) ∧
    setBytes (f ++ closed (encode (blockText (idl :: rest)) ++ p)) (setCount f) = encode (blockText (idl :: rest)) ++ p.take k := by
  obtain ⟨hE, h2⟩ := head_tags idl rest h
  have ec : closed (encode (blockText (idl :: rest)) ++ p) = encode (blockText (idl :: rest)) ++ (p ++ (tagPat ++ [10])) := by
    unfold closed
    rw [List.append_assoc]
  have hs := sets_append f (closed (encode (blockText (idl :: rest)) ++ p)) hT hB
  have hd : delims (closed (encode (blockText (idl :: rest)) ++ p)) =
      0 :: (k + (encode (blockText (idl :: rest))).length) :: T.map (· + (encode (blockText (idl :: rest))).length) := by
    rw [delims_eq, ec, tagsFrom_append _ _ (Or.inr hE), tagsFrom_shift (p ++ _), hp, h2]
    simp
  have h1 : sets (closed (encode (blockText (idl :: rest)) ++ p)) = (encode (blockText (idl :: rest)) ++ p.take k) ::
      (sets (closed (encode (blockText (idl :: rest)) ++ p))).tail := by
    rw [sets_eq, hd]
    simp only [pairUp, List.map_cons, List.tail_cons, List.cons.injEq, and_true]
    have e : closed (encode (blockText (idl :: rest)) ++ p) =
        (encode (blockText (idl :: rest)) ++ p.take k) ++ (p.drop k ++ (tagPat ++ [10])) := by
      rw [ec, List.append_assoc, ← List.append_assoc (p.take k), List.take_append_drop]
    rw [e]
    unfold blockBytes
    exact slice_prefix _ _ _ (by simp [List.length_take]; omega)
  have hc : setCount f < setCount (f ++ closed (encode (blockText (idl :: rest)) ++ p)) := by
    rw [← sets_length, ← sets_length, hs, h1]; simp
  refine ⟨hc, ?_⟩
  have := sets_getElem _ _ hc
  rw [hs, h1, ← sets_length, List.getElem?_append_right (Nat.le_refl _), Nat.sub_self] at this
  rw [← sets_length]
  exact (Option.some.inj this).symm

/-- What is read of it. -/
theorem read_payload {e : Env} {fd : Bool} {d o : Dict} {n : Int} {out : Text} {ret : Option Bytes} {idl : Text}
    {rest : List Text} {p : Bytes} {k : Nat} {T : List Nat} (hk : k < p.length)
    (hp : tagsFrom 0 (p ++ (tagPat ++ [10])) = k :: T) (h : Safe (idl :: rest))
    (hw : writeBody e fd d = ⟨out, o, .ok ret⟩)
    (ha : added ⟨out, o, .ok ret⟩ = closed (encode (blockText (idl :: rest)) ++ p))
    (ht : (parseIntB ((encode idl).take 6)).getD 0 = n)
    (u : World) (hT : Terminated (u.file.getD [])) (hB : Balanced (u.file.getD [])) (header : Bool) :
    (u.addAll e fd [d]).2.2 = .ok () ∧
    ((u.addAll e fd [d]).1.readSets (.one (setCount (u.file.getD []))) header).2 =
      (match readBlock n header (encode (blockText (idl :: rest)) ++ p.take k) with
        | .ok r => .ok (.single r)
        | .error y => .error (readErr y)) := by
  have hres : (writeBody e fd d).res = .ok ret := by rw [hw]
  have hfile : fileAfter false u.file (writeBody e fd d) = u.file.getD [] ++ closed (encode (blockText (idl :: rest)) ++ p) := by
    rw [fileAfter_add, hw, ha]
  obtain ⟨hc, hs⟩ := first_payload (u.file.getD []) hT hB idl rest h p k T hk hp
  have hnew : (u.addAll e fd [d]).1 = World.new (some (u.file.getD [] ++ closed (encode (blockText (idl :: rest)) ++ p))) := by
    rw [addAll_cons_ok hres]
    simp only [World.addAll]
    unfold World.writeSet
    dsimp only
    rw [hres, hfile, new_some]
    unfold World.refresh
    dsimp only
    rw [refreshObj_eq _ _ (by omega)]
  refine ⟨by rw [addAll_cons_ok hres]; rfl, ?_⟩
  rw [hnew, readSets_new]
  simp only [readRange, mapRes]
  rw [readSet_in _ _ hc, hs, blockType_payload _ _ (h idl (by simp)).1, ht]
  cases readBlock n header (encode (blockText (idl :: rest)) ++ p.take k) <;> rfl

/-- Numbers for each point. -/
def perPoint (real even : Bool) : Nat := (if even then 0 else 1) + (if real then 1 else 2)

/-- The number of ordinates read, from the number of values. -/
theorem assign_count (double real even : Bool) (d : Dict) (mn inc : F64) (v : List F64) :
    countOf (assign58 d (DS58.code double real) (if even then 1 else 0) mn inc v) "data" =
      some (v.length / perPoint real even) := by
  have key : ∀ (a b : Val) (n : Nat), countOf [("x", b)] "x" = some n →
      countOf (d.update [("x", a), ("data", b)]) "data" = some n := by
    intro a b n hb
    have e : (d.update [("x", a), ("data", b)]).get? (.s "data") = some b := Dict.get?_set_self _ _ _
    rw [← hb]
    unfold countOf
    rw [e]
    rfl
  unfold assign58
  dsimp only
  cases real with
  | true =>
    rw [if_pos (by cases double <;> decide)]
    cases even with
    | true =>
      rw [if_neg (by decide)]
      refine (key _ _ _ rfl).trans (congrArg some ?_)
      simp [perPoint]
    | false =>
      rw [if_pos (by decide)]
      refine (key _ _ _ rfl).trans (congrArg some ?_)
      rw [everyN_length _ _ (by decide)]
      simp [perPoint]
  | false =>
    rw [if_neg (by cases double <;> decide), if_pos (by cases double <;> decide)]
    cases even with
    | true =>
      rw [if_neg (by decide)]
      refine (key _ _ _ rfl).trans (congrArg some ?_)
      unfold cplxZip
      rw [List.length_zipWith, everyN_length _ _ (by decide), everyN_length _ _ (by decide), List.length_take]
      simp only [perPoint, if_true, Bool.false_eq_true, if_false]
      omega
    | false =>
      rw [if_pos (by decide)]
      refine (key _ _ _ rfl).trans (congrArg some ?_)
      unfold cplxZip
      rw [List.length_zipWith, everyN_length _ _ (by decide), everyN_length _ _ (by decide), List.length_take]
      simp only [perPoint, Bool.false_eq_true, if_false]
      omega

theorem byteGroups_length (w : Nat) (b : Bytes) : (byteGroups w b).length = b.length / w := by
  unfold byteGroups; simp

namespace DS58

theorem payload_length (le : Bool) (r : DS58) (fit : Fit r) :
    (payload le r).length = 8 * (perPoint (isReal r.ord) r.even * r.count) := by
  rw [payload_eq, length_flatMap_const 8 _ _ (fun x => by unfold pack64; cases le <;> simp [leBytes]), stored_eq,
    length_flatMap_const (perPoint (isReal r.ord) r.even) _ _ (fun p => by unfold nums perPoint; cases isReal r.ord <;> cases r.even <;> rfl),
    pts_length r fit.length]

/-- What is read of a data-set whose binary data are cut. -/
theorem cut_read (r : DS58) (fit : Fit r) (le : Bool) (hs : r.store = .binary le) (p : Bytes) :
    extract58 (encode (blockText r.lines) ++ p) false =
      .ok (assign58 r.headBack r.ordType (if r.even then 1 else 0) (r.min.quant 5) (r.inc.quant 5) (binValues le false p)) := by
  obtain ⟨h1, h2⟩ := block_lines r fit p
  unfold extract58
  rw [h1, head_lines r fit, read_head r fit, h2]
  simp only [ok_bind, bodyArgs_eq, Bool.false_eq_true, if_false]
  simp only [hs, if_true, littleOf_eq r le hs]
  have hbody : r.body = [] := by unfold body; rw [hs]
  have hc : decide (r.ordType = 2 ∨ r.ordType = 5) = false := by
    rw [code_eq, hs, show dbl (.binary le) = true from rfl]
    cases isReal r.ord <;> decide
  simp only [hc, hbody]
  rw [show encode (joinLines []) = [] from rfl, List.nil_append]
  rfl

theorem count_back (r : DS58) : countOf r.readBack "data" = some r.count := by
  have e : r.readBack.get? "data" = some r.ordBack := data58 r
  unfold countOf
  rw [e]
  unfold ordBack count
  cases r.ord <;> simp

end DS58
end Verif
