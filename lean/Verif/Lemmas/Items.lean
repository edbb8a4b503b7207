import Verif.Lemmas.Number
/-
Writers fail when an entry has fewer values than there are items, or a value that is not a number.
-/
namespace Verif

/-- There is no value number `i`. -/
def NoItem (i : Nat) (v : Val) : Prop := ∃ m, seqLength v = some m ∧ m ≤ i
/-- Value number `i` is not a number. -/
def BadItem (i : Nat) (v : Val) : Prop := ∃ l x, v = .list l ∧ l[i]? = some x ∧ notNumber x = true

theorem seq_items {v : Val} {m : Nat} (h : seqLength v = some m) : ∃ l, v.items = .ok l ∧ l.length = m ∧ v.len = .ok m ∧
    ∀ i, v.idx i = orIndex l[i]? := by
  cases v <;> simp only [seqLength, reduceCtorEq, Option.some.injEq] at h <;> subst h <;>
    exact ⟨_, rfl, by simp, rfl, fun _ => rfl⟩

theorem noItem_idx {i : Nat} {v : Val} (h : NoItem i v) : v.idx i = .error .index := by
  obtain ⟨m, hm, hi⟩ := h
  obtain ⟨l, -, hl, -, hx⟩ := seq_items hm
  rw [hx, List.getElem?_eq_none (by omega)]
  rfl

theorem badItem_idx {i : Nat} {v : Val} (h : BadItem i v) : ∃ x, v.idx i = .ok x ∧ notNumber x = true := by
  obtain ⟨l, x, rfl, hx, hn⟩ := h
  refine ⟨x, ?_, hn⟩
  show orIndex l[i]? = _
  rw [hx]; rfl

namespace W

variable {α β : Type} {P : Dict → Prop} {k c : Key} {u : Val} {i : Nat}

theorem at_none {d : Dict} (h : Entry k (NoItem i) c u d) : Fld.at_ k i d = .error .index := by
  obtain ⟨⟨v, hv, hn⟩, -⟩ := h
  unfold Fld.at_
  simp only [get_bad hv, noItem_idx hn]

theorem at_bad {d : Dict} (h : Entry k (BadItem i) c u d) : ∃ x, Fld.at_ k i d = .ok x ∧ notNumber x = true := by
  obtain ⟨⟨v, hv, hn⟩, -⟩ := h
  obtain ⟨x, hx, hn⟩ := badItem_idx hn
  refine ⟨x, ?_, hn⟩
  unfold Fld.at_
  simp only [get_bad hv, hx]

theorem none_at {fmt : Val → Res Text} : AccFails (Entry k (NoItem i) c u) ⟨Fld.at_ k i, fmt⟩ := fun _ h => ⟨_, at_none h⟩
theorem none_at2 {fmt : Val → Res Text} {j : Nat} : AccFails (Entry k (NoItem i) c u) ⟨Fld.at2 k i j, fmt⟩ := fun d h =>
  ⟨.index, by show Fld.at2 k i j d = _; unfold Fld.at2; rw [at_none h]⟩
theorem none_intAt {w : Nat} : AccFails (Entry k (NoItem i) c u) (Fld.intAt w k i) := fun d h =>
  ⟨.index, by unfold Fld.intAt; simp only [at_none h]⟩
theorem none_reAt {w p : Nat} : AccFails (Entry k (NoItem i) c u) (Fld.re w p (Fld.at_ k i)) := fun d h =>
  ⟨.index, by unfold Fld.re; simp only [at_none h]⟩

theorem bad_at {fmt : Val → Res Text} (hf : ∀ v, notNumber v = true → ∃ e, fmt v = .error e) :
    FldBad (Entry k (BadItem i) c u) ⟨Fld.at_ k i, fmt⟩ := by
  intro d hd
  obtain ⟨x, hx, hn⟩ := at_bad hd
  obtain ⟨e, he⟩ := hf x hn
  exact ⟨e, by show (Fld.at_ k i d >>= fmt) = _; rw [hx]; exact he⟩
theorem bad_atI {w : Nat} : FldBad (Entry k (BadItem i) c u) ⟨Fld.at_ k i, fmtI w⟩ := bad_at fun _ => fmtI_bad
theorem bad_atE {w p : Nat} : FldBad (Entry k (BadItem i) c u) ⟨Fld.at_ k i, fmtEV w p⟩ := bad_at fun _ => fmtEV_bad
theorem bad_reAt {w p : Nat} : FldBad (Entry k (BadItem i) c u) (Fld.re w p (Fld.at_ k i)) := by
  intro d hd
  obtain ⟨x, hx, hn⟩ := at_bad hd
  unfold Fld.re
  simp only [hx]
  cases x <;> simp [notNumber] at hn <;> exact ⟨_, rfl⟩

/-- One of the passes fails. -/
theorem fails_pass {l : List α} {a : α} (ha : a ∈ l) {body : α → W Unit} (hk : ∀ b, Keeps (fun d d' => P d → P d') (body b))
    (h : Fails P (body a)) : Fails P (W.forL l body) := by
  induction l with
  | nil => cases ha
  | cons b r ih =>
    unfold W.forL
    rcases List.mem_cons.1 ha with rfl | ha
    · exact fails_here' h
    · exact fails_skip' (hk b) fun _ => ih ha

end W
open W

/-- Shows that one of the expressions of a line needs the missing value. -/
macro "noneflds" : tactic => `(tactic|
  (repeat' first
    | with_reducible exact flds_head none_at
    | with_reducible exact flds_head none_at2
    | with_reducible exact flds_head none_intAt
    | with_reducible exact flds_head none_reAt
    | with_reducible apply flds_tail))

/-- Goes through a pass up to the line that needs the missing value. -/
macro "noitem" : tactic => `(tactic|
  (repeat' first
    | (with_reducible apply fails_here; with_reducible apply fails_row; noneflds; done)
    | (with_reducible apply fails_row; noneflds; done)
    | with_reducible refine fails_skip (by numkeep; done) fun _ => ?_))

/-- Shows that one of the values of a line is not a number. -/
macro "baditems" : tactic => `(tactic|
  (repeat' first
    | with_reducible exact bad_head bad_atI
    | with_reducible exact bad_head bad_atE
    | with_reducible exact bad_head bad_reAt
    | with_reducible apply bad_tail))

/-- Goes through a pass up to the line with the value. -/
macro "baditem" : tactic => `(tactic|
  (repeat' first
    | (with_reducible apply fails_here; with_reducible apply bad_row; baditems; done)
    | (with_reducible apply bad_row; baditems; done)
    | with_reducible refine fails_skip (by numkeep; done) fun _ => ?_))

/-- One goal for each entry. -/
macro "each_item" : tactic => `(tactic|
  (simp only [List.forall_mem_cons, List.not_mem_nil, false_implies, implies_true, and_true]; repeat' apply And.intro))

section
variable {u : Val} {n i : Nat} (hu : seqLength u = some n) (hi : i < n)
include hu hi

theorem num_len {k c : Key} {β : Type} {Q : Val → Prop} {f : Nat → W β} (hf : Fails (Entry k Q c u) (f n)) :
    Fails (Entry k Q c u) (W.key c >>= fun a => W.lift a.len >>= f) := by
  obtain ⟨l, -, -, hl, -⟩ := seq_items hu
  exact num_value (fails_lift hl hf)

theorem short15 : ∀ k ∈ (["def_cs", "disp_cs", "color", "x", "y", "z"] : List String),
    Fails (Entry (.s k) (NoItem i) "node_nums" u) write15 := by
  each_item
  all_goals
    unfold write15
    apply fails_guarded
    refine num_len hu hi ?_
    with_reducible refine fails_skip (by numkeep) fun _ => ?_
    with_reducible refine fails_skip (by numkeep) fun _ => ?_
    with_reducible apply fails_here
    refine fails_pass (List.mem_range.2 hi) (fun _ => by numkeep) ?_
    apply fails_evalFlds
    simp only [List.map_cons, List.map_nil]
    noneflds

theorem short18 : ∀ k ∈ (["cs_type", "ref_cs_num", "color", "method", "cs_name", "ref_o", "x_point", "xz_point"] : List String),
    Fails (Entry (.s k) (NoItem i) "cs_num" u) write18 := by
  each_item
  all_goals
    unfold write18
    apply fails_guarded
    refine num_len hu hi ?_
    with_reducible refine fails_skip (by numkeep) fun _ => ?_
    with_reducible refine fails_skip (by numkeep) fun _ => ?_
    with_reducible apply fails_here
    refine fails_pass (List.mem_range.2 hi) (fun _ => by numkeep) ?_
    noitem

theorem mem_zipIdx {l : List Val} (hl : i < l.length) : ∃ x, (x, i) ∈ l.zipIdx :=
  ⟨l[i], List.mk_mem_zipIdx_iff_getElem?.2 (List.getElem?_eq_getElem hl)⟩

theorem short2411 : ∀ k ∈ (["def_cs", "disp_cs", "color", "x", "y", "z"] : List String),
    Fails (Entry (.s k) (NoItem i) "node_nums" u) write2411 := by
  obtain ⟨l, hl, hn, -, -⟩ := seq_items hu
  obtain ⟨x, hx⟩ := mem_zipIdx hu hi (l := l) (by omega)
  each_item
  all_goals
    unfold write2411
    apply fails_guardedAny
    with_reducible refine fails_skip (by numkeep) fun _ => ?_
    with_reducible refine fails_skip (by numkeep) fun _ => ?_
    refine num_value (fails_lift hl ?_)
    with_reducible apply fails_here
    refine fails_pass hx (fun _ => by numkeep) ?_
    noitem

theorem items_num2411 : ∀ k ∈ (["def_cs", "disp_cs", "color", "x", "y", "z"] : List String),
    Fails (Entry (.s k) (BadItem i) "node_nums" u) write2411 := by
  obtain ⟨l, hl, hn, -, -⟩ := seq_items hu
  obtain ⟨x, hx⟩ := mem_zipIdx hu hi (l := l) (by omega)
  each_item
  all_goals
    unfold write2411
    apply fails_guardedAny
    with_reducible refine fails_skip (by numkeep) fun _ => ?_
    with_reducible refine fails_skip (by numkeep) fun _ => ?_
    refine num_value (fails_lift hl ?_)
    with_reducible apply fails_here
    refine fails_pass hx (fun _ => by numkeep) ?_
    baditem

/-- Up to the values of a node. -/
theorem pass55 {k : Key} {Q : Val → Prop}
    (ha : (("modal_a" : Key) ≠ k ∧ ("modal_a" : Key) ≠ "node_nums") ∧ ("modal_b" : Key) ≠ k ∧ ("modal_b" : Key) ≠ "node_nums")
    (hf : ∀ cplx six, Fails (Entry k Q "node_nums" u) (W.row (vals55 cplx six i))) : Fails (Entry k Q "node_nums" u) write55 := by
  unfold write55
  apply fails_guarded
  iterate 3 with_reducible refine fails_skip (by numkeep) fun _ => ?_
  with_reducible refine fails_skip (keeps_prep55Num _ ha) fun _ => ?_
  iterate 10 with_reducible refine fails_skip (by numkeep) fun _ => ?_
  with_reducible refine fails_skip (keeps_head55 _) fun _ => ?_
  refine num_len hu hi ?_
  with_reducible apply fails_here
  refine fails_pass (List.mem_range.2 hi) (fun _ => by numkeep) ?_
  with_reducible refine fails_skip (by numkeep) fun _ => ?_
  exact hf _ _

theorem short55 : ∀ k ∈ (["r1", "r2", "r3"] : List String), Fails (Entry (.s k) (NoItem i) "node_nums" u) write55 := by
  each_item
  all_goals
    refine pass55 hu hi (by decide) fun cplx six => ?_
    apply fails_row
    unfold vals55
    split
    · noneflds
    · split <;> noneflds

theorem items_num55 : ∀ k ∈ (["r1", "r2", "r3"] : List String), Fails (Entry (.s k) (BadItem i) "node_nums" u) write55 := by
  each_item
  all_goals
    refine pass55 hu hi (by decide) fun cplx six => ?_
    apply bad_row
    unfold vals55
    split
    · baditems
    · split <;> baditems

end

theorem recField_bad {v : Val} (h : notNumber v = true) (f : RFmt) : ∃ e, recField v f = .error e := by
  cases f <;> cases v <;> simp [notNumber] at h <;> exact ⟨_, rfl⟩

theorem recLoop_bad {b : Bool} : ∀ (vs : List Val) (fs : List RFmt) (j : Nat) (v : Val), vs[j]? = some v → notNumber v = true →
    j < fs.length → ∃ e, recLoop b vs fs = .error e
  | [], _, _, _, h, _, _ => by simp at h
  | a :: vs, [], _, _, _, _, h => by simp at h
  | a :: vs, f :: fs, 0, v, h, hn, _ => by
    simp only [List.getElem?_cons_zero, Option.some.injEq] at h
    subst h
    obtain ⟨e, he⟩ := recField_bad hn f
    exact ⟨e, by unfold recLoop; rw [he]⟩
  | a :: vs, f :: fs, j + 1, v, h, hn, hj => by
    obtain ⟨e, he⟩ := recLoop_bad (b := b) vs fs j v (by simpa using h) hn (by simpa using hj)
    unfold recLoop
    cases recField a f with
    | error x => exact ⟨x, rfl⟩
    | ok t => exact ⟨e, by simp only [he]⟩

theorem evalFlds_get {d : Dict} : ∀ (fs : List Fld) (vs : List Val) (j : Nat) (f : Fld), evalFlds d fs = .ok vs → fs[j]? = some f →
    ∃ v, vs[j]? = some v ∧ f.acc d = .ok v
  | [], _, _, _, _, h => by simp at h
  | g :: fs, vs, j, f, h, hf => by
    unfold evalFlds at h
    cases hg : g.acc d with
    | error e => rw [hg] at h; cases h
    | ok a =>
      rw [hg] at h
      cases hr : evalFlds d fs with
      | error e => rw [hr] at h; cases h
      | ok ws =>
        rw [hr] at h
        cases h
        cases j with
        | zero => simp only [List.getElem?_cons_zero, Option.some.injEq] at hf; subst hf; exact ⟨a, rfl, hg⟩
        | succ j => exact evalFlds_get fs ws j f hr (by simpa using hf)

theorem items_num15 {u : Val} {n i : Nat} (hu : seqLength u = some n) (hi : i < n) :
    ∀ k ∈ (["def_cs", "disp_cs", "color", "x", "y", "z"] : List String), Fails (Entry (.s k) (BadItem i) "node_nums" u) write15 := by
  intro k hk
  obtain ⟨j, hj⟩ : ∃ j : Fin 7, (["node_nums", "def_cs", "disp_cs", "color", "x", "y", "z"] : List String)[j.1]? = some k := by
    revert k; decide
  unfold write15
  apply fails_guarded
  refine num_len hu hi ?_
  with_reducible refine fails_skip (by numkeep) fun _ => ?_
  with_reducible refine fails_skip (by numkeep) fun _ => ?_
  with_reducible apply fails_here
  refine fails_pass (List.mem_range.2 hi) (fun _ => by numkeep) ?_
  refine fails_getDict fun d hd => ?_
  cases hv : evalFlds d ((["node_nums", "def_cs", "disp_cs", "color", "x", "y", "z"] : List String).map
      fun k => ⟨Fld.at_ (.s k) i, fun _ => .ok []⟩) with
  | error x => exact fails_here (fails_error rfl)
  | ok vs =>
    refine fails_lift rfl ?_
    obtain ⟨v, hv, ha⟩ := evalFlds_get _ vs j.1 ⟨Fld.at_ (.s k) i, fun _ => .ok []⟩ hv (by rw [List.getElem?_map, hj]; rfl)
    obtain ⟨x, hx, hn⟩ := at_bad hd
    have : v = x := by
      have ha : Fld.at_ (.s k) i d = .ok v := ha
      rw [hx] at ha; cases ha; rfl
    subst this
    obtain ⟨e, he⟩ := recLoop_bad (b := false) vs formats15 j.1 v hv hn j.2
    exact fails_here' (fails_error he)

theorem mapRes_mem {α β : Type} {f : α → Res β} {l : List α} {r : List β} (h : mapRes f l = .ok r) {a : α} {b : β} (ha : a ∈ l)
    (hb : f a = .ok b) : b ∈ r := by
  induction l generalizing r with
  | nil => cases ha
  | cons c l ih =>
    unfold mapRes at h
    cases hc : f c with
    | error e => rw [hc] at h; cases h
    | ok x =>
      rw [hc] at h
      cases hr : mapRes f l with
      | error e => rw [hr] at h; cases h
      | ok r' =>
        rw [hr] at h
        cases h
        rcases List.mem_cons.1 ha with rfl | ha
        · rw [hb] at hc; cases hc; exact List.mem_cons_self
        · exact List.mem_cons_of_mem _ (ih hr ha)

theorem differ2420 {u : Val} {n : Nat} (hu : seqLength u = some n) :
    ∀ k ∈ (["CS_types", "CS_colors", "CS_names", "CS_matrices"] : List String),
    Fails (Entry (.s k) (fun v => ∃ m, seqLength v = some m ∧ m ≠ n) "CS_sys_labels" u) write2420 := by
  intro k hk
  unfold write2420
  apply fails_guardedAny
  iterate 4 with_reducible refine fails_skip (by numkeep) fun _ => ?_
  refine fails_getDict fun d hd => ?_
  obtain ⟨⟨v, hv, m, hm, hmi⟩, hc⟩ := hd
  obtain ⟨-, -, -, hul, -⟩ := seq_items hu
  obtain ⟨-, -, -, hvl, -⟩ := seq_items hm
  refine fails_lift (a := n) (by unfold lenKey; rw [get_bad hc]; exact hul) ?_
  cases hls : mapRes (lenKey d) (["CS_types", "CS_colors", "CS_names", "CS_matrices"] : List Key) with
  | error x => exact fails_here (fails_error rfl)
  | ok ls =>
    refine fails_lift rfl ?_
    have : m ∈ ls := by
      have hkm : lenKey d (.s k) = .ok m := by unfold lenKey; rw [get_bad hv]; exact hvl
      refine mapRes_mem hls (a := .s k) ?_ hkm
      clear hkm hls hv
      revert k
      each_item
      all_goals simp
    rw [if_neg (by
      intro h
      have := List.all_eq_true.1 h m this
      simp only [decide_eq_true_eq] at this
      omega)]
    exact fails_here (fails_error rfl)

end Verif
