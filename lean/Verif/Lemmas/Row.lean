import Verif.Lemmas.Fields
import Verif.Model.Row
/-
Formatted lines: what a writer emits for given dictionary contents.
-/
namespace Verif

/-- The item evaluates and prints as `t`. -/
def FldOk (d : Dict) (f : Fld) (t : Text) : Prop := ∃ v, f.acc d = .ok v ∧ f.fmt v = .ok t

/-- All items of a tuple. -/
inductive FldsOk (d : Dict) : List Fld → List Text → Prop where
  | nil : FldsOk d [] []
  | cons {f t fs ts} : FldOk d f t → FldsOk d fs ts → FldsOk d (f :: fs) (t :: ts)

theorem FldsOk.eval {d : Dict} {fs : List Fld} {ts : List Text} (h : FldsOk d fs ts) :
    ∃ vs, evalFlds d fs = .ok vs ∧ fmtFlds fs vs = .ok ts.flatten := by
  induction h with
  | nil => exact ⟨[], rfl, rfl⟩
  | cons h _ ih =>
    obtain ⟨v, h1, h2⟩ := h
    obtain ⟨vs, h3, h4⟩ := ih
    exact ⟨v :: vs, by simp [evalFlds, h1, h3], by simp [fmtFlds, h2, h4]⟩

theorem W.format_eq {d : Dict} {fs : List Fld} {ts : List Text} (h : FldsOk d fs ts) :
    W.format fs d = ⟨[], d, .ok ts.flatten⟩ := by
  obtain ⟨vs, h1, h2⟩ := h.eval
  unfold W.format; rw [h1]; simp only [h2]

theorem W.row_eq {d : Dict} {fs : List Fld} {ts : List Text} (h : FldsOk d fs ts) :
    W.row fs d = ⟨ts.flatten ++ ['\n'], d, .ok ()⟩ := by
  unfold W.row
  rw [W.bind_ok (W.format_eq h)]
  rfl

theorem W.bind_row {d : Dict} {fs : List Fld} {ts : List Text} (h : FldsOk d fs ts) {β} (g : Unit → W β) :
    W.bind (W.row fs) g d = ⟨(ts.flatten ++ ['\n']) ++ (g () d).out, (g () d).dict, (g () d).res⟩ :=
  W.bind_ok (W.row_eq h)

theorem HasInt.fld {d : Dict} {k : Key} {n : Int} (h : HasInt d k n) (w : Nat) :
    FldOk d (.i w k) (padLeft w (intRepr n)) := by
  obtain ⟨v, g, i⟩ := h
  exact ⟨v, by simp [Fld.i, Dict.get, g], fmtI_eq i w⟩
theorem HasFloat.fld {d : Dict} {k : Key} {x : F64} (h : HasFloat d k x) (w p : Nat) :
    FldOk d (.e w p k) (padLeft w (fmtE p x)) := by
  obtain ⟨v, g, i⟩ := h
  exact ⟨v, by simp [Fld.e, Dict.get, g], fmtEV_eq i w p⟩
theorem HasStr.fldL {d : Dict} {k : Key} {s : Text} (h : HasStr d k s) (w : Nat) :
    FldOk d (.sl w k) (padRight w s) := by
  obtain ⟨v, g, i⟩ := h
  exact ⟨v, by simp [Fld.sl, Dict.get, g], fmtSL_eq i w⟩
theorem HasStr.fldR {d : Dict} {k : Key} {s : Text} (h : HasStr d k s) (w : Nat) :
    FldOk d (.sr w k) (padLeft w s) := by
  obtain ⟨v, g, i⟩ := h
  exact ⟨v, by simp [Fld.sr, Dict.get, g], fmtSR_eq i w⟩
theorem fld_c {d : Dict} {fmt : Val → Res Text} {v : Val} {t : Text} (h : fmt v = .ok t) : FldOk d (.c fmt v) t :=
  ⟨v, rfl, h⟩

/-! Optional keys after the defaults were filled in. -/

section opt
variable {d : Dict} {fs : List (Key × Val)} {k : Key}

theorem HasInt.opt {n : Int} (h : HasInt d k n) : HasInt (optFields d fs) k n := by
  obtain ⟨v, g, i⟩ := h; exact ⟨v, get?_opt_present g, i⟩
theorem HasFloat.opt {n : F64} (h : HasFloat d k n) : HasFloat (optFields d fs) k n := by
  obtain ⟨v, g, i⟩ := h; exact ⟨v, get?_opt_present g, i⟩
theorem HasStr.opt {n : Text} (h : HasStr d k n) : HasStr (optFields d fs) k n := by
  obtain ⟨v, g, i⟩ := h; exact ⟨v, get?_opt_present g, i⟩
theorem HasInts.opt {n : List Int} (h : HasInts d k n) : HasInts (optFields d fs) k n := by
  obtain ⟨v, g, i⟩ := h; exact ⟨v, get?_opt_present g, i⟩
theorem HasFloats.opt {n : List F64} (h : HasFloats d k n) : HasFloats (optFields d fs) k n := by
  obtain ⟨v, g, i⟩ := h; exact ⟨v, get?_opt_present g, i⟩
theorem HasStrs.opt {n : List Text} (h : HasStrs d k n) : HasStrs (optFields d fs) k n := by
  obtain ⟨v, g, i⟩ := h; exact ⟨v, get?_opt_present g, i⟩
theorem HasRows.opt {n : List (List F64)} (h : HasRows d k n) : HasRows (optFields d fs) k n := by
  obtain ⟨v, g, i⟩ := h; exact ⟨v, get?_opt_present g, i⟩
theorem HasIntOr.opt {dv n : Int} (h : HasIntOr d k dv n) (hf : Dict.get? fs k = some (.int dv)) :
    HasInt (optFields d fs) k n := ⟨_, get?_opt_default hf, h⟩
theorem HasFloatOr.opt {dv : Val} {n : F64} (h : HasFloatOr d k dv n) (hf : Dict.get? fs k = some dv) :
    HasFloat (optFields d fs) k n := ⟨_, get?_opt_default hf, h⟩
theorem HasStrOr.opt {dv : String} {n : Text} (h : HasStrOr d k dv n) (hf : Dict.get? fs k = some (.str dv.toList)) :
    HasStr (optFields d fs) k n := ⟨_, get?_opt_default hf, h⟩
theorem HasIntsOr.opt {dv : Val} {n : List Int} (h : HasIntsOr d k dv n) (hf : Dict.get? fs k = some dv) :
    HasInts (optFields d fs) k n := ⟨_, get?_opt_default hf, h⟩
theorem HasStrsOr.opt {dv : Val} {n : List Text} (h : HasStrsOr d k dv n) (hf : Dict.get? fs k = some dv) :
    HasStrs (optFields d fs) k n := ⟨_, get?_opt_default hf, h⟩
theorem HasFloatsOr.opt {dv : Val} {n : List F64} (h : HasFloatsOr d k dv n) (hf : Dict.get? fs k = some dv) :
    HasFloats (optFields d fs) k n := ⟨_, get?_opt_default hf, h⟩
end opt

theorem mapRes_ok {α β} (f : α → Res β) (g : α → β) (l : List α) (h : ∀ a ∈ l, f a = .ok (g a)) :
    mapRes f l = .ok (l.map g) := by
  induction l with
  | nil => rfl
  | cons a r ih =>
    unfold mapRes
    rw [h a (by simp), ih (fun x hx => h x (by simp [hx]))]; rfl

theorem mapRes_get {α β} (f : α → Res β) (l : List α) (l' : List β) (hl : l.length = l'.length)
    (h : ∀ i, (h1 : i < l.length) → (h2 : i < l'.length) → f l[i] = .ok l'[i]) : mapRes f l = .ok l' := by
  induction l generalizing l' with
  | nil => cases l' with
    | nil => rfl
    | cons _ _ => simp at hl
  | cons a r ih =>
    cases l' with
    | nil => simp at hl
    | cons b r' =>
      unfold mapRes
      have h0 := h 0 (by simp) (by simp)
      simp only [List.getElem_cons_zero] at h0
      rw [h0, ih r' (by simpa using hl) (fun i h1 h2 => by
        have := h (i + 1) (by simpa using h1) (by simpa using h2)
        simpa using this)]

theorem IsSeq.len {α} {P : Val → α → Prop} {v : Val} {l : List α} (h : IsSeq P v l) : v.len = .ok l.length := by
  obtain ⟨xs, h1, h2, -⟩ := h
  rw [← h2]
  cases v <;> simp only [Val.items, Except.ok.injEq, reduceCtorEq] at h1 <;>
    first | (subst h1; simp [Val.len]) | skip

theorem IsSeq.idx {α} {P : Val → α → Prop} {v : Val} {l : List α} (h : IsSeq P v l) {i : Nat} (hi : i < l.length) :
    ∃ x, v.idx i = .ok x ∧ P x l[i] := by
  obtain ⟨xs, h1, h2, h3⟩ := h
  refine ⟨xs[i], ?_, h3 i (by omega) hi⟩
  have : v.idx i = orIndex xs[i]? := by
    unfold Val.idx
    cases v <;> first | (simp only [Val.items, reduceCtorEq] at h1; done) | (simp only [h1])
  rw [this, List.getElem?_eq_getElem (by omega)]; rfl

/-! Items of sequences. -/

section items
variable {d : Dict} {k : Key}
theorem HasInts.at_ {l : List Int} (h : HasInts d k l) {i : Nat} (hi : i < l.length) (w : Nat) :
    FldOk d ⟨Fld.at_ k i, fmtI w⟩ (padLeft w (intRepr l[i])) := by
  obtain ⟨v, g, s⟩ := h
  obtain ⟨x, h1, h2⟩ := s.idx hi
  exact ⟨x, by simp [Fld.at_, Dict.get, g, h1], fmtI_eq h2 w⟩
theorem HasFloats.at_ {l : List F64} (h : HasFloats d k l) {i : Nat} (hi : i < l.length) (w p : Nat) :
    FldOk d ⟨Fld.at_ k i, fmtEV w p⟩ (padLeft w (fmtE p l[i])) := by
  obtain ⟨v, g, s⟩ := h
  obtain ⟨x, h1, h2⟩ := s.idx hi
  exact ⟨x, by simp [Fld.at_, Dict.get, g, h1], fmtEV_eq h2 w p⟩
theorem HasStrs.atL {l : List Text} (h : HasStrs d k l) {i : Nat} (hi : i < l.length) (w : Nat) :
    FldOk d ⟨Fld.at_ k i, fmtSL w⟩ (padRight w l[i]) := by
  obtain ⟨v, g, s⟩ := h
  obtain ⟨x, h1, h2⟩ := s.idx hi
  exact ⟨x, by simp [Fld.at_, Dict.get, g, h1], fmtSL_eq h2 w⟩
theorem HasRows.at2 {l : List (List F64)} (h : HasRows d k l) {i : Nat} (hi : i < l.length) {m : Nat}
    (hm : m < l[i].length) (w p : Nat) : FldOk d ⟨Fld.at2 k i m, fmtEV w p⟩ (padLeft w (fmtE p l[i][m])) := by
  obtain ⟨v, g, s⟩ := h
  obtain ⟨x, h1, h2⟩ := s.idx hi
  obtain ⟨y, h3, h4⟩ := h2.idx hm
  exact ⟨y, by simp [Fld.at2, Fld.at_, Dict.get, g, h1, h3], fmtEV_eq h4 w p⟩
end items

theorem headerLoop_cons (mand : Nat) (ty : FTy) (tys : List FTy) (k : Key) (ks : List Key) (s : Text)
    (ss : List Text) (acc : Dict) :
    headerLoop mand (ty :: tys) (k :: ks) (s :: ss) acc
      = match headerField ty s with
        | .ok none => headerLoop (mand - 1) tys ks ss acc
        | .ok (some v) => headerLoop (mand - 1) tys ks ss (acc.set k v)
        | .error e =>
          if mand = 0 then headerLoop 0 tys ks ss (acc.set k (headerDefault ty)) else .error e := rfl

theorem ok_bind {α β : Type} (a : α) (f : α → Res β) : ((Except.ok a : Res α) >>= f) = f a := rfl
theorem error_bind {α β : Type} (e : Err) (f : α → Res β) : ((Except.error e : Res α) >>= f) = .error e := rfl

theorem Fits.mono {w w' : Nat} {n : Int} (h : Fits w n) (hw : w ≤ w') : Fits w' n := by
  obtain ⟨h1, h2⟩ := h
  have e1 : (10 : Int) ^ (w - 1) ≤ 10 ^ (w' - 1) := by
    exact_mod_cast Nat.pow_le_pow_right (by decide : 0 < 10) (show w - 1 ≤ w' - 1 by omega)
  have e2 : (10 : Int) ^ w ≤ 10 ^ w' := by exact_mod_cast Nat.pow_le_pow_right (by decide : 0 < 10) hw
  exact ⟨by omega, by omega⟩

theorem strip_append_blanks (t : Text) (k : Nat) : strip (t ++ blanks k) = strip t :=
  strip_append_right _ _ (by intro c hc; rw [List.eq_of_mem_replicate hc]; decide)

/-- The line is padded to 80 columns before it is cut. -/
theorem parseHeader_padded (line : Text) (minV : Nat) (ws : List Nat) (tys : List FTy) (ks : List Key) :
    parseHeader line minV ws tys ks = parseHeader (line ++ blanks (80 - line.length)) minV ws tys ks := by
  by_cases h : line.length < 80
  · unfold parseHeader
    have h2 : ¬ (line ++ blanks (80 - line.length)).length < 80 := by simp [blanks]; omega
    simp only [h, h2, if_true, if_false]
  · have h2 : 80 - line.length = 0 := by omega
    rw [h2, show line ++ blanks 0 = line from List.append_nil line]

/-- The `i`-th of a sequence of fields of equal width. -/
theorem slice_fields (fs : List Text) (w : Nat) (h : ∀ t ∈ fs, t.length = w) (rest : Text) (i : Nat)
    (hi : i < fs.length) : slice (fs.flatten ++ rest) (i * w) (i * w + w) = fs[i] := by
  rw [← slice_flatten w fs rest h i hi, Nat.mul_comm i w, Nat.mul_succ]

/-! Building a dictionary with distinct keys. -/

theorem Dict.set_fresh (d : Dict) (k : Key) (v : Val) (h : k ∉ d.map (·.1)) : d.set k v = d ++ [(k, v)] := by
  induction d with
  | nil => rfl
  | cons kv r ih =>
    obtain ⟨k', v'⟩ := kv
    simp only [List.map_cons, List.mem_cons, not_or] at h
    unfold Dict.set
    rw [if_neg (fun e => h.1 e.symm), ih h.2]; rfl

theorem Dict.update_fresh (d e : Dict) (h : ((d ++ e).map (·.1)).Nodup) : d.update e = d ++ e := by
  induction e generalizing d with
  | nil => simp [Dict.update]
  | cons kv r ih =>
    have hk : kv.1 ∉ d.map (·.1) := by
      rw [List.map_append, List.nodup_append] at h
      intro hm
      exact h.2.2 _ hm _ (by simp) rfl
    have e1 : d.update (kv :: r) = (d.set kv.1 kv.2).update r := rfl
    rw [e1, Dict.set_fresh _ _ _ hk, ih]
    · simp
    · simpa using h

theorem Dict.update_update (d e e' : Dict) : (d.update e).update e' = d.update (e ++ e') := by
  simp [Dict.update, List.foldl_append]
theorem Dict.set_eq_update (d : Dict) (k : Key) (v : Val) : d.set k v = d.update [(k, v)] := rfl

/-- Normalise a dictionary built by successive updates with distinct keys. -/
macro "build_dict" : tactic => `(tactic| (
  simp only [Dict.set_eq_update, Dict.update_update, List.cons_append, List.nil_append]
  rw [Dict.update_fresh _ _ (by
    simp only [List.map_cons, List.map_nil, List.cons_append, List.nil_append]
    decide +kernel)]
  rfl))

/-! Safety of lines. -/

theorem noBreak_fields (ts : List Text) (h : ∀ t ∈ ts, NoBreak t) : NoBreak ts.flatten := (noBreak_flatten_iff ts).2 h

/-- Lines ending in a right-aligned integer. -/
theorem tagFree_int (pre : List Text) (w : Nat) (n : Int) (hl : pre.flatten.length + w ≤ 80) (hf : Fits w n)
    (hn : n ≠ -1) (hw : 3 ≤ w) : TagFree (pre ++ [padLeft w (intRepr n)]).flatten := by
  have e : (pre ++ [padLeft w (intRepr n)]).flatten = pre.flatten ++ padLeft w (intRepr n) := by simp
  rw [e]
  refine tagFree_of_short _ ?_ ?_ (not_tag_int _ _ _ hn hw)
  · rw [List.length_append, len_int w n hf (by omega)]; exact hl
  · unfold padLeft
    rw [← List.append_assoc, List.getLast?_append]
    cases h : (intRepr n).getLast? with
    | none => rw [List.getLast?_eq_none_iff] at h; exact absurd h (intRepr_ne_nil n)
    | some c =>
      simp
      rintro rfl
      exact absurd (intRepr_noSpace n _ (List.mem_of_getLast? h)) (by decide)

/-- Lines ending in a right-aligned float. -/
theorem tagFree_flt (pre : List Text) (w p : Nat) (x : F64) (hl : pre.flatten.length + w ≤ 80) (hx : x.finite = true)
    (hw : p + 8 ≤ w) : TagFree (pre ++ [padLeft w (fmtE p x)]).flatten := by
  have e : (pre ++ [padLeft w (fmtE p x)]).flatten = pre.flatten ++ padLeft w (fmtE p x) := by simp
  rw [e]
  refine tagFree_of_short _ ?_ ?_ (not_tag_flt _ _ _ _ hx)
  · rw [List.length_append, len_flt w p x hx hw]; exact hl
  · unfold padLeft
    rw [← List.append_assoc, List.getLast?_append]
    cases h : (fmtE p x).getLast? with
    | none => rw [List.getLast?_eq_none_iff] at h; exact absurd h (fmtE_ne_nil p x hx)
    | some c =>
      simp
      rintro rfl
      exact absurd (fmtE_noSpace p x hx _ (List.mem_of_getLast? h)) (by decide)

/-- Short lines whose last field (at least 6 columns wide) does not end with the delimiter. -/
theorem tagFree_last (pre : List Text) (l : Text) (hl : (pre ++ [l]).flatten.length < 80) (h6 : 6 ≤ l.length)
    (hd : ¬ delim <:+ l) : TagFree (pre ++ [l]).flatten := by
  refine tagFree_of_lt _ hl fun hs => hd ?_
  have e : (pre ++ [l]).flatten = pre.flatten ++ l := by simp
  rw [e] at hs
  exact List.suffix_of_suffix_length_le hs (List.suffix_append _ _) (by simpa [delim] using h6)

theorem safe_idLine (n : Nat) {ls : List Text} (hb : NoBreak (idLine n)) (h1 : (idLine n).length ≤ 80)
    (h2 : idLine n ≠ tagText ++ blanks 74) (h3 : ¬ tagText <:+ idLine n) (h : Safe ls) : Safe (idLine n :: ls) :=
  Safe.cons hb (tagFree_of_short' _ h1 h2 h3) h

end Verif
