import Verif.Props.Lengths
/-
C32: permanent groups of two, three or seven entities.
-/
namespace Verif
open W

theorem missing2429 {u : Val} {n : Nat} (hu : seqLength u = some n) (hn : n = 2 ∨ n = 3 ∨ n = 7) :
    Fails (Entry "entity_type_code" (NoItem (if n = 7 then 8 else 4)) "entity_type_code" u) write2429 := by
  have hi : 0 < n := by omega
  unfold write2429
  apply fails_guardedAny
  with_reducible refine fails_skip (by numkeep) fun _ => ?_
  with_reducible refine fails_skip (by numkeep) fun _ => ?_
  refine num_len hu hi ?_
  with_reducible refine fails_skip (by numkeep) fun _ => ?_
  with_reducible refine fails_skip (by numkeep) fun _ => ?_
  with_reducible refine fails_skip (by numkeep) fun _ => ?_
  with_reducible apply fails_here
  refine fails_pass (a := if n = 7 then 2 else 1) (List.mem_range.2 (by split <;> omega)) (fun _ => by numkeep) ?_
  with_reducible apply fails_here
  apply fails_format
  have e : (if n = 7 then 2 else 1) * 4 = (if n = 7 then 8 else 4) := by split <;> rfl
  rw [e]
  noneflds

/-- A permanent group of two, three or seven entities is refused, whatever else is in the dictionary, whatever is written with it
and whatever the file: the last line asks for an entity that does not exist (`/repo/pyuff/datasets/dataset_2429.py:140`). -/
theorem C32_refused (w : World) (e : Env) (mode : Text) (fd : Bool) (ds : List Dict) (d : Dict) (v : Val) (n : Nat) (hd : d ∈ ds)
    (ht : d.get? "type" = some (.int 2429)) (hv : d.get? "entity_type_code" = some v) (hn : seqLength v = some n)
    (h : n = 2 ∨ n = 3 ∨ n = 7) : ∃ x, (w.writeSets e mode fd ds).2.2 = .error x := by
  refine writeSets_fails (fun e' => ?_) ds w e mode hd
  refine body_num (k := "entity_type_code") (c := "entity_type_code") (Q := NoItem (if n = 7 then 8 else 4)) (by decide) (by decide) ht
    ⟨⟨v, hv, n, hn, by split <;> omega⟩, hv⟩ (by rw [disp2429]; exact fails_none (missing2429 hn h))

theorem ints_length {v : Val} {l : List Int} (h : IsSeq IsInt v l) (hl : l ≠ []) : seqLength v = some l.length := by
  obtain ⟨xs, h1, h2, h3⟩ := h
  have hp := List.length_pos_iff.2 hl
  cases v <;> simp only [Val.items, reduceCtorEq, Except.ok.injEq] at h1
  case str s =>
    subst h1
    have := h3 0 (by omega) hp
    simp [IsInt] at this
    cases this
  all_goals
    subst h1
    simp [seqLength] at h2 ⊢
    exact h2

/-- Of the permanent groups whose numbers fit, exactly those of two, three and seven entities cannot be written. -/
theorem C32_counts (w : World) (e : Env) (mode : Text) (hm : lower mode = "add".toList) (fd : Bool) (d d' : Dict) (r : DS2429)
    (hc : CleanD d d') (h : r.Rep d') (hg : r.grp.Ok) (hl : Fits 10 r.ents.length) (h0 : r.ents ≠ [])
    (hcode : ∀ x ∈ r.ents, Fits 9 x.code) (htag : ∀ x ∈ r.ents, Fits 9 x.tag ∧ x.tag ≠ -1) :
    (w.writeSets e mode fd [d]).2.2 = .ok () ↔ r.ents.length ≠ 2 ∧ r.ents.length ≠ 3 ∧ r.ents.length ≠ 7 := by
  constructor
  · intro hw
    by_contra hn
    obtain ⟨v, hv, hs⟩ := h.code
    have hlen := ints_length hs (by simpa using h0)
    rw [List.length_map] at hlen
    have g1 := cleanD_get hc (k := "type") (by decide)
    have g2 := cleanD_get hc (k := "entity_type_code") (by decide)
    obtain ⟨x, hx⟩ := C32_refused w e mode fd [d] d v _ (by simp) (by rw [← g1]; exact h.type) (by rw [← g2]; exact hv) hlen (by omega)
    rw [hw] at hx
    cases hx
  · intro hn
    have hlen := List.length_pos_iff.2 h0
    have ok : r.Ok := ⟨hg, hl, ⟨by omega, hn⟩, hcode, fun x hx => (htag x hx).1, fun x hx => (htag x hx).2⟩
    obtain ⟨b, ⟨out, o, ret, hw, -⟩, -⟩ := written e fd d (.s2429 r) ⟨d', hc, h, ok⟩
    rw [writeSets_add w e mode hm, addAll_cons_ok (a := ret) (by rw [hw])]
    rfl

/-- Six entities: the numbers fit. -/
def exSixEnts : DS2429 := ⟨exGrp, [⟨7, 1⟩, ⟨7, 2⟩, ⟨8, 3⟩, ⟨8, 4⟩, ⟨8, 5⟩, ⟨7, 6⟩]⟩

/-- A group of six entities can be written, one of seven cannot: all the hypotheses of `C32_counts` and `C32_refused` hold. -/
example : exSixEnts.Rep exSixEnts.dict ∧ CleanD exSixEnts.dict exSixEnts.dict ∧ exSixEnts.grp.Ok ∧ Fits 10 exSixEnts.ents.length ∧ exSixEnts.ents ≠ [] ∧
    (∀ x ∈ exSixEnts.ents, Fits 9 x.code) ∧ (∀ x ∈ exSixEnts.ents, Fits 9 x.tag ∧ x.tag ≠ -1) ∧
    seqLength (.arrI [7, 7, 8, 8, 8, 7, 7]) = some 7 :=
  ⟨⟨rfl, ⟨_, rfl, rfl⟩, rfl, rfl, rfl, rfl, rfl, rfl, ⟨_, rfl, rfl⟩, ⟨_, rfl, isSeq_arrI _⟩, ⟨_, rfl, isSeq_arrI _⟩⟩,
    cleanD_none rfl, exGrp_ok, by decide, by decide, by decide, by decide, rfl⟩

end Verif
