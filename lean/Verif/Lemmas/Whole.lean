import Verif.Props.RoundTrip
/-
What is read of a data-set just written, whatever the reader makes of it.
-/
namespace Verif

/-- A data-set written as a block without inner delimiters: the call succeeds, there is one data-set more, and reading it is
what the reader makes of the block. -/
theorem read_framed {e : Env} {fd : Bool} {d o : Dict} {n : Int} {b : Bytes} {out : Text} {ret : Option Bytes}
    (hw : writeBody e fd d = ⟨out, o, .ok ret⟩) (ha : added ⟨out, o, .ok ret⟩ = closed b) (hf : Framed n b)
    (u : World) (hT : Terminated (u.file.getD [])) (hB : Balanced (u.file.getD [])) (header : Bool) :
    (u.addAll e fd [d]).2.2 = .ok () ∧
    (u.addAll e fd [d]).1.getNSets.2 = setCount (u.file.getD []) + 1 ∧
    ((u.addAll e fd [d]).1.readSets (.one (setCount (u.file.getD []))) header).2 =
      (match readBlock n header b with
        | .ok r => .ok (.single r)
        | .error y => .error (readErr y)) := by
  have hres : (writeBody e fd d).res = .ok ret := by rw [hw]
  have hfile : fileAfter false u.file (writeBody e fd d) = u.file.getD [] ++ closed b := by
    rw [fileAfter_add, hw, ha]
  have hs : sets (u.file.getD [] ++ closed b) = sets (u.file.getD []) ++ [b] := by
    rw [sets_append _ _ hT hB, hf.sets]
  have hc : setCount (u.file.getD [] ++ closed b) = setCount (u.file.getD []) + 1 := by
    rw [← sets_length, hs, List.length_append, sets_length]; rfl
  have hnew : (u.addAll e fd [d]).1 = World.new (some (u.file.getD [] ++ closed b)) := by
    rw [addAll_cons_ok hres]
    simp only [World.addAll]
    unfold World.writeSet
    dsimp only
    rw [hres, hfile, new_some]
    unfold World.refresh
    dsimp only
    rw [refreshObj_eq _ _ (by omega)]
  have hk : setCount (u.file.getD []) < setCount (u.file.getD [] ++ closed b) := by omega
  have hsb : setBytes (u.file.getD [] ++ closed b) (setCount (u.file.getD [])) = b := by
    have := sets_getElem _ _ hk
    rw [hs, ← sets_length, List.getElem?_append_right (Nat.le_refl _), Nat.sub_self] at this
    rw [← sets_length]
    exact (Option.some.inj this).symm
  refine ⟨by rw [addAll_cons_ok hres]; rfl, ?_, ?_⟩
  · rw [hnew]; exact (C01_count _).trans hc
  · rw [hnew, readSets_new]
    simp only [readRange, mapRes]
    rw [readSet_in _ _ hk, hsb, hf.type]
    cases readBlock n header b <;> rfl

/-- The same for a data-set written as text. -/
theorem read_lines {e : Env} {fd : Bool} {d d' : Dict} {n : Int} {w : W Unit} {ex : Text → Res Dict} {lines : List Text}
    {o : Dict} (hc : CleanD d d') (ht : d'.get? "type" = some (.int n)) (hw : writeDispatch e fd (.int n) = W.none w)
    (hr : ∀ h b, readBlock n h b = ex (decode b)) (ho : w d' = ⟨frameText lines, o, .ok ()⟩) (hs : Safe lines)
    (ty : blockType (encode (blockText lines)) = n)
    (u : World) (hT : Terminated (u.file.getD [])) (hB : Balanced (u.file.getD [])) (header : Bool) :
    (u.addAll e fd [d]).2.2 = .ok () ∧
    (u.addAll e fd [d]).1.getNSets.2 = setCount (u.file.getD []) + 1 ∧
    ((u.addAll e fd [d]).1.readSets (.one (setCount (u.file.getD []))) header).2 =
      (match ex (blockText lines) with
        | .ok r => .ok (.single r)
        | .error y => .error (readErr y)) := by
  have := read_framed (e := e) (fd := fd) (d := d) (o := o) (n := n) (b := encode (blockText lines)) (out := frameText lines)
    (ret := none) (by rw [writeBody_eq hc ht, hw]; unfold W.none; rw [ho]; rfl)
    (by
      unfold added closed
      simp only
      rw [frameText_eq, encode_append]; rfl)
    ⟨by
      have := tags_frame lines hs 0
      rw [frameText_eq, encode_append, Nat.zero_add] at this
      exact this, ty⟩ u hT hB header
  rwa [hr, decode_encode] at this

end Verif
