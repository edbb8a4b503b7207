import Verif.Lemmas.Accept55
import Verif.Spec.Accept58
/-
Which dictionaries the writer of data-set 58 accepts.
-/
namespace Verif
open W (JR jr_emit jr_seq jr_then jr_emit_then jr_key jr_lift jr_opt jr_guarded jr_guardedAny jr_format jr_row jr_row_then jr_forL jr_none)

variable {d : Dict} {α β : Type} {P Q : Prop}

/-- A step that succeeds. -/
theorem jr_step {m : W α} {f : α → W β} {d' : Dict} {a : α} (hd : (m d).dict = d') (hm : (m d).res = .ok a) (h : JR (f a) d' P) : JR (m >>= f) d P := by
  constructor
  · show (W.bind m f d).res.isOk = true ↔ _
    rw [W.bind_res, hm, hd]
    exact h.ok
  · show Py (W.bind m f d).res
    rw [W.bind_res, hm, hd]
    exact h.py

/-- A step that fails. -/
theorem jr_stop {m : W α} {f : α → W β} {e : Err} (hm : (m d).res = .error e) (he : e ≠ .unmodelled) (hp : ¬ P) : JR (m >>= f) d P := by
  constructor
  · show (W.bind m f d).res.isOk = true ↔ _
    rw [W.bind_res, hm]
    exact ⟨fun h => (by cases h), fun h => absurd h hp⟩
  · show Py (W.bind m f d).res
    rw [W.bind_res, hm]
    exact py_err he

theorem jr_have {k : Key} {v : Val} {f : Val → W β} (hv : d.get? k = some v) (h : JR (f v) d P) : JR (W.key k >>= f) d P :=
  jr_step (m := W.key k) rfl (getRes_ok.2 hv) h

theorem jr_lack {k : Key} {f : Val → W β} (hv : d.get? k = Option.none) (hp : ¬ P) : JR (W.key k >>= f) d P := by
  refine jr_stop (m := W.key k) (e := .key k) ?_ (by intro h; cases h) hp
  show d.get k = _
  unfold Dict.get
  rw [hv]

theorem jr_val {r : Res α} {a : α} {f : α → W β} (hr : r = .ok a) (h : JR (f a) d P) : JR (W.lift r >>= f) d P :=
  jr_step (m := W.lift r) rfl hr h

theorem jr_put {k : Key} {v : Val} {f : Unit → W β} (h : JR (f ()) (d.set k v) P) : JR (W.put k v >>= f) d P :=
  jr_step (m := W.put k v) rfl rfl h

theorem jr_skip {c : Prop} [Decidable c] {m : W Unit} {f : Unit → W β} (hc : ¬ c) (h : JR (f ()) d P) : JR (W.when c m >>= f) d P := by
  unfold W.when
  rw [if_neg hc]
  exact jr_step (m := W.pure ()) rfl rfl h

theorem jr_take {c : Prop} [Decidable c] {k : Key} {v : Val} {f : Unit → W β} (hc : c) (h : JR (f ()) (d.set k v) P) : JR (W.when c (W.put k v) >>= f) d P := by
  unfold W.when
  rw [if_pos hc]
  exact jr_put h

/-- The entries of functions with their kinds. -/
def kinds58 : List (String × EntryKind) := (headFunction ++ headUnits).map fun f => (f.1, f.2.1)

theorem fits_sr1 (w : Nat) : FitsK .text (fun v => (fmtSR w v).map fun t => ' ' :: t) :=
  ⟨fun v => (isOk_map _ _).trans ((fits_sr w).ok v), fun v h => py_map ((fits_sr w).py v h)⟩
theorem fits_sl1 (w : Nat) : FitsK .text (fun v => (fmtSL w v).map fun t => ' ' :: t) :=
  ⟨fun v => (isOk_map _ _).trans ((fits_sl w).ok v), fun v h => py_map ((fits_sl w).py v h)⟩

theorem fj_sr1 {L : List (String × EntryKind)} {fs : List Fld} {k : String} (hk : KnownE d L) {w : Nat} (hm : (k, .text) ∈ L) (h : FJ fs d Q) :
    FJ (.sr1 w (.s k) :: fs) d (entryOk d (k, .text, false) = true ∧ Q) := fj_get hk (fits_sr1 w) hm h
theorem fj_sl1 {L : List (String × EntryKind)} {fs : List Fld} {k : String} (hk : KnownE d L) {w : Nat} (hm : (k, .text) ∈ L) (h : FJ fs d Q) :
    FJ (.sl1 w (.s k) :: fs) d (entryOk d (k, .text, false) = true ∧ Q) := fj_get hk (fits_sl1 w) hm h

theorem jr_units {L : List (String × EntryKind)} {a b c e l u : String} (hk : KnownE d L) {K : UnitKeys} (hK : K = ⟨.s a, .s b, .s c, .s e, .s l, .s u⟩)
    (ha : (a, .int) ∈ L) (hb : (b, .int) ∈ L) (hc : (c, .int) ∈ L) (he : (e, .int) ∈ L) (hl : (l, .text) ∈ L) (hu : (u, .text) ∈ L)
    {f : Unit → W β} (h : JR (f ()) d Q) : JR (unitsRow K >>= f) d ((entryOk d (a, .int, false) = true ∧ entryOk d (b, .int, false) = true ∧
      entryOk d (c, .int, false) = true ∧ entryOk d (e, .int, false) = true ∧ entryOk d (l, .text, false) = true ∧
      entryOk d (u, .text, false) = true ∧ True) ∧ Q) := by
  subst hK
  exact jr_row_then (f := f) (fj_i hk ha (fj_i hk hb (fj_i hk hc (fj_i hk he (fj_sl1 hk hl (fj_sl1 hk hu fj_nil)))))) h

/-- The data lines. -/
def lines58 (little cplx even binary : Bool) (pr : Option Bool) (y x : Val) : W (Option Bytes) :=
  W.lift (ordinate58 y) >>= fun ys => W.lift (interleave58 (!cplx) even x ys) >>= fun data => body58 little binary pr (!cplx) even data

/-- The rows of the header and the data lines. -/
def rows58 (little cplx even binary : Bool) (pr : Option Bool) (y x odt x0 dx : Val) (n : Nat) : W (Option Bytes) := do
    W.row [.sl 80 "id1"]
    W.row [.sl 80 "id2"]
    W.row [.sl 80 "id3"]
    W.row [.sl 80 "id4"]
    W.row [.sl 80 "id5"]
    W.row [.i 5 "func_type", .i 10 "func_id", .i 5 "ver_num", .i 10 "load_case_id", .sr1 10 "rsp_ent_name",
      .i 10 "rsp_node", .i 4 "rsp_dir", .sr1 10 "ref_ent_name", .i 10 "ref_node", .i 4 "ref_dir"]
    W.row [.c (fmtI 10) odt, .c (fmtI 10) (.int n), .c (fmtI 10) (.bool even), ⟨fun _ => boolTimes even x0, fmtEV 13 5⟩,
      ⟨fun _ => boolTimes even dx, fmtEV 13 5⟩, .e 13 5 "z_axis_value"]
    unitsRow abscissaKeys
    unitsRow ordinateKeys
    unitsRow orddenomKeys
    unitsRow zAxisKeys
    lines58 little cplx even binary pr y x

/-- What comes after the precision is known. -/
def tail58 (little cplx : Bool) (pr : Option Bool) (y odt : Val) (n : Nat) : W (Option Bytes) := do
    let sp ← W.key "abscissa_spacing"
    let even ← W.lift sp.truthy
    let x ← W.key "x"
    let x0 ← W.lift (x.idx 0)
    W.put "abscissa_min" x0
    let x1 ← W.lift (x.idx 1)
    let dx ← W.lift (x1.minus x0)
    W.emit (padLeft 6 ['-', '1'] ++ '\n' :: padLeft 6 (natRepr 58))
    let b ← W.key "binary"
    let binary ← W.lift b.truthy
    idRest58 little binary (nBytes58 n pr)
    rows58 little cplx even binary pr y x odt x0 dx n

theorem write58_tail (little fd : Bool) : write58 little fd = W.guarded 58 (do
    let ft ← W.key "func_type"
    let good ← W.lift (funcOk ft)
    W.when (good = false) (W.raise .value)
    W.opt opt58
    let y ← W.key "data"
    let n ← W.lift y.len
    let cplx ← W.lift y.isComplexObj
    W.when (fd = true) (W.put "ord_data_type" (.int (if cplx then 6 else 4)))
    let odt ← W.key "ord_data_type"
    let pr ← W.lift (prec58 odt)
    let d ← W.getDict
    W.when (d.has "n_bytes" = true) (W.bind (W.lift (nBytes58 n pr)) fun k => W.put "n_bytes" (.int k))
    tail58 little cplx pr y odt n) := rfl

/-- The values of the ordinate, and whether they are complex. -/
inductive Ordinate : Val → Nat → Bool → Prop where
  | real (l : List F64) : Ordinate (.arrF l) l.length false
  | cplx (l : List (F64 × F64)) : Ordinate (.arrC l) l.length true

theorem accept_data {little cplx even binary : Bool} {pr : Option Bool} {y : Val} {n : Nat} {xs : List F64} (hy : Ordinate y n cplx) (hb : binary = true → pr ≠ Option.none) :
    JR (lines58 little cplx even binary pr y (.arrF xs)) d ((even || xs.length == n) = true ∧ pr ≠ Option.none) := by
  obtain ⟨ys, h1, h2⟩ : ∃ ys, ordinate58 y = .ok ys ∧ ys.length = n := by
    cases hy with
    | real l => exact ⟨_, rfl, List.length_map ..⟩
    | cplx l => exact ⟨_, rfl, rfl⟩
  refine jr_val h1 ?_
  subst h2
  have body : ∀ data, JR (body58 little binary pr (!cplx) even data) d (pr ≠ Option.none) := by
    intro data
    unfold body58
    cases binary with
    | true => exact ⟨⟨fun _ => hb rfl, fun _ => rfl⟩, py_ok⟩
    | false =>
      cases pr with
      | none => exact ⟨⟨fun h => (by cases h), fun h => absurd rfl h⟩, py_err (by decide)⟩
      | some b => exact ⟨⟨fun _ h => (by cases h), fun _ => rfl⟩, py_ok⟩
  by_cases hl : (even || xs.length == ys.length) = true
  · obtain ⟨data, hd⟩ : ∃ data, interleave58 (!cplx) even (.arrF xs) ys = .ok data := by
      unfold interleave58
      cases even with
      | true => exact ⟨_, rfl⟩
      | false =>
        have : xs.length = ys.length := by simpa using hl
        exact ⟨_, by simp only [Val.floats, if_pos this]; rfl⟩
    refine jr_val hd ((body data).iff ?_)
    simp [hl]
  · have he : interleave58 (!cplx) even (.arrF xs) ys = .error .value := by
      rw [Bool.not_eq_true, Bool.or_eq_false_iff] at hl
      obtain ⟨h1, h2⟩ := hl
      subst h1
      have : ¬ xs.length = ys.length := by simpa using h2
      unfold interleave58
      simp only [Val.floats, if_neg this]
      rfl
    exact jr_stop (m := W.lift _) he (by decide) fun h => hl h.1

theorem fj_fix {f : Fld} {fs : List Fld} {v : Val} {t : Text} (ha : f.acc d = .ok v) (hf : f.fmt v = .ok t) (h : FJ fs d Q) : FJ (f :: fs) d Q := by
  have := fj_cons (f := f) (P := True) ⟨fun _ => trivial, fun _ => ⟨v, t, ha, hf⟩⟩ (by rw [ha]; exact py_ok) (fun u hu => by
    rw [ha] at hu; cases hu; rw [hf]; exact py_ok) h
  rwa [true_and] at this

theorem accept_rows {little cplx even binary : Bool} {pr : Option Bool} {y odt : Val} {n : Nat} {xs : List F64} {x0 dx : F64} (hk : KnownE d kinds58)
    (hy : Ordinate y n cplx) (hb : binary = true → pr ≠ Option.none) (ho : scalarKnown odt = true) :
    JR (rows58 little cplx even binary pr y (.arrF xs) odt (.float x0) (.float dx) n) d
      (((headFunction ++ headUnits).all fun f => entryOk d (f.1, f.2.1, false)) = true ∧ ((even || xs.length == n) = true ∧ pr ≠ Option.none) ∧
        intOk odt = true) := by
  have code : ∀ {fs : List Fld} {Q : Prop}, FJ fs d Q → FJ (.c (fmtI 10) odt :: fs) d (intOk odt = true ∧ Q) := by
    intro fs Q h
    refine fj_cons ?_ py_ok (fun u hu => by cases hu; exact (fits_i 10).py odt ho) h
    rw [show intOk odt = EntryKind.int.accepts odt from rfl, ← (fits_i 10).ok odt, isOk_iff]
    exact ⟨fun ⟨v, t, h1, h2⟩ => (by cases h1; exact ⟨t, h2⟩), fun ⟨t, h⟩ => ⟨odt, t, rfl, h⟩⟩
  have hbt : ∀ x : F64, ∃ z, boolTimes even (.float x) = .ok (.float z) := fun x => ⟨_, rfl⟩
  obtain ⟨z0, hz0⟩ := hbt x0
  obtain ⟨z1, hz1⟩ := hbt dx
  have u4 := jr_units hk (K := zAxisKeys) rfl (of_decide_eq_true rfl) (of_decide_eq_true rfl) (of_decide_eq_true rfl) (of_decide_eq_true rfl) (of_decide_eq_true rfl)
    (of_decide_eq_true rfl) (f := fun _ => lines58 little cplx even binary pr y (.arrF xs)) (accept_data (d := d) (even := even) (xs := xs) (little := little) hy hb)
  have u3 := jr_units hk (K := orddenomKeys) rfl (of_decide_eq_true rfl) (of_decide_eq_true rfl) (of_decide_eq_true rfl) (of_decide_eq_true rfl) (of_decide_eq_true rfl)
    (of_decide_eq_true rfl) (f := fun _ => _) u4
  have u2 := jr_units hk (K := ordinateKeys) rfl (of_decide_eq_true rfl) (of_decide_eq_true rfl) (of_decide_eq_true rfl) (of_decide_eq_true rfl) (of_decide_eq_true rfl)
    (of_decide_eq_true rfl) (f := fun _ => _) u3
  have u1 := jr_units hk (K := abscissaKeys) rfl (of_decide_eq_true rfl) (of_decide_eq_true rfl) (of_decide_eq_true rfl) (of_decide_eq_true rfl) (of_decide_eq_true rfl)
    (of_decide_eq_true rfl) (f := fun _ => _) u2
  have r7 := jr_row_then (f := fun _ => _) (code (fj_c (d := d) (fmt := fmtI 10) (v := .int n) rfl (fj_c (fmt := fmtI 10) (v := .bool even) rfl
    (fj_fix (f := ⟨fun _ => boolTimes even (.float x0), fmtEV 13 5⟩) hz0 rfl (fj_fix (f := ⟨fun _ => boolTimes even (.float dx), fmtEV 13 5⟩) hz1 rfl
      (fj_e hk (w := 13) (p := 5) (k := "z_axis_value") (of_decide_eq_true rfl) fj_nil)))))) u1
  have r6 := jr_row_then (f := fun _ => _) (fj_i hk (w := 5) (k := "func_type") (of_decide_eq_true rfl) (fj_i hk (w := 10) (k := "func_id") (of_decide_eq_true rfl)
    (fj_i hk (w := 5) (k := "ver_num") (of_decide_eq_true rfl) (fj_i hk (w := 10) (k := "load_case_id") (of_decide_eq_true rfl)
    (fj_sr1 hk (w := 10) (k := "rsp_ent_name") (of_decide_eq_true rfl) (fj_i hk (w := 10) (k := "rsp_node") (of_decide_eq_true rfl)
    (fj_i hk (w := 4) (k := "rsp_dir") (of_decide_eq_true rfl) (fj_sr1 hk (w := 10) (k := "ref_ent_name") (of_decide_eq_true rfl)
    (fj_i hk (w := 10) (k := "ref_node") (of_decide_eq_true rfl) (fj_i hk (w := 4) (k := "ref_dir") (of_decide_eq_true rfl) fj_nil)))))))))) r7
  have r5 := jr_row_then (f := fun _ => _) (fj_sl hk (w := 80) (k := "id5") (of_decide_eq_true rfl) fj_nil) r6
  have r4 := jr_row_then (f := fun _ => _) (fj_sl hk (w := 80) (k := "id4") (of_decide_eq_true rfl) fj_nil) r5
  have r3 := jr_row_then (f := fun _ => _) (fj_sl hk (w := 80) (k := "id3") (of_decide_eq_true rfl) fj_nil) r4
  have r2 := jr_row_then (f := fun _ => _) (fj_sl hk (w := 80) (k := "id2") (of_decide_eq_true rfl) fj_nil) r3
  have r1 := jr_row_then (f := fun _ => _) (fj_sl hk (w := 80) (k := "id1") (of_decide_eq_true rfl) fj_nil) r2
  refine JR.iff (m := rows58 little cplx even binary pr y (.arrF xs) odt (.float x0) (.float dx) n) r1 ?_
  simp only [headFunction, headUnits, List.cons_append, List.nil_append, Bool.and_eq_true, List.all_cons, List.all_nil, and_true, and_assoc]
  by_cases hi : intOk odt = true
  · simp only [hi, true_and, and_true]
  · simp only [hi, false_and, and_false, Bool.false_eq_true]

theorem entryOk_set {k : String} {f : String × EntryKind × Bool} {v : Val} (h : f.1 ≠ k) : entryOk (d.set (.s k) v) f = entryOk d f := by
  unfold entryOk
  rw [Dict.get?_set_ne _ _ _ _ fun e => h (by cases e; rfl)]

theorem entries_set {k : String} {F : List (String × EntryKind × Bool)} {v : Val} (h : ∀ f ∈ F, f.1 ≠ k) :
    (F.all fun f => entryOk (d.set (.s k) v) (f.1, f.2.1, false)) = F.all fun f => entryOk d (f.1, f.2.1, false) := by
  rw [Bool.eq_iff_iff, List.all_eq_true, List.all_eq_true]
  exact forall₂_congr fun f hf => by rw [entryOk_set (f := (f.1, f.2.1, false)) (h f hf)]

theorem knownE_set {k : String} {L : List (String × EntryKind)} {v : Val} (hk : KnownE d L) (h : ∀ f ∈ L, f.1 ≠ k) : KnownE (d.set (.s k) v) L := by
  intro p hp u hu
  rw [Dict.get?_set_ne _ _ _ _ fun e => h p hp (by cases e; rfl)] at hu
  exact hk p hp u hu

theorem truthy_of {v : Val} (h : scalarKnown v = true) : ∃ b, v.truthy = .ok b := by
  cases v with
  | arrI l => cases h
  | arrF l => cases h
  | arrC l => cases h
  | mat l => cases h
  | _ => exact ⟨_, rfl⟩

theorem xs_idx {xs : List F64} {i : Nat} : Val.idx (.arrF xs) i = match xs[i]? with
    | some x => .ok (.float x)
    | Option.none => .error .index := by
  show orIndex ((xs.map Val.float)[i]?) = _
  rw [List.getElem?_map]
  cases xs[i]? <;> rfl

theorem accept_tail {little cplx even : Bool} {pr : Option Bool} {y odt sp bv : Val} {n : Nat} (hk : KnownE d kinds58) (hy : Ordinate y n cplx)
    (ho : scalarKnown odt = true) (hsp : d.get? "abscissa_spacing" = some sp) (he : sp.truthy = .ok even) (hbv : d.get? "binary" = some bv) (hbs : scalarKnown bv = true)
    (hx : ∀ v, d.get? "x" = some v → ∃ l, v = .arrF l) :
    JR (tail58 little cplx pr y odt n) d (((headFunction ++ headUnits).all fun f => entryOk d (f.1, f.2.1, false)) = true ∧
      (∃ xs, d.get? "x" = some (.arrF xs) ∧ 2 ≤ xs.length ∧ (even || xs.length == n) = true) ∧ pr ≠ Option.none ∧ intOk odt = true) := by
  refine jr_have hsp (jr_val he ?_)
  cases hgx : d.get? "x" with
  | none => exact jr_lack hgx fun h => by obtain ⟨xs, h1, -⟩ := h.2.1; cases h1
  | some v =>
    obtain ⟨xs, rfl⟩ := hx v hgx
    refine jr_have hgx ?_
    have short : xs.length < 2 → ¬ (((headFunction ++ headUnits).all fun f => entryOk d (f.1, f.2.1, false)) = true ∧
      (∃ xs', some (Val.arrF xs) = some (.arrF xs') ∧ 2 ≤ xs'.length ∧ (even || xs'.length == n) = true) ∧ pr ≠ Option.none ∧ intOk odt = true) := by
      rintro hl ⟨-, ⟨xs', h1, h2, -⟩, -⟩
      cases h1
      omega
    cases h0 : xs[0]? with
    | none =>
      refine jr_stop (m := W.lift _) (e := .index) (by show Val.idx (.arrF xs) 0 = .error .index; rw [xs_idx, h0]) (by decide) (short ?_)
      rw [List.getElem?_eq_none_iff] at h0
      omega
    | some x0 =>
      refine jr_val (a := .float x0) (by rw [xs_idx, h0]) (jr_put ?_)
      cases h1 : xs[1]? with
      | none =>
        refine jr_stop (m := W.lift _) (e := .index) (by show Val.idx (.arrF xs) 1 = .error .index; rw [xs_idx, h1]) (by decide) (short ?_)
        rw [List.getElem?_eq_none_iff] at h1
        omega
      | some x1 =>
        have hl : 2 ≤ xs.length := by
          obtain ⟨hlt, -⟩ := List.getElem?_eq_some_iff.1 h1
          omega
        obtain ⟨bin, hbin⟩ := truthy_of hbs
        refine jr_val (a := .float x1) (by rw [xs_idx, h1]) (jr_val (a := .float (x1.sub x0)) rfl (jr_emit_then ?_))
        refine jr_have (v := bv) ((Dict.get?_set_ne _ _ _ _ (by decide)).trans hbv) (jr_val hbin ?_)
        have hk' : KnownE (d.set (.s "abscissa_min") (.float x0)) kinds58 := knownE_set hk (by decide +kernel)
        have fin : ∀ hb : bin = true → pr ≠ Option.none, JR (rows58 little cplx even bin pr y (.arrF xs) odt (.float x0) (.float (x1.sub x0)) n)
            (d.set (.s "abscissa_min") (.float x0)) (((headFunction ++ headUnits).all fun f => entryOk d (f.1, f.2.1, false)) = true ∧
              (∃ xs', some (Val.arrF xs) = some (.arrF xs') ∧ 2 ≤ xs'.length ∧ (even || xs'.length == n) = true) ∧ pr ≠ Option.none ∧ intOk odt = true) := by
          intro hb
          refine (accept_rows hk' hy hb ho).iff ?_
          rw [entries_set (by decide +kernel)]
          constructor
          · rintro ⟨g1, ⟨g2, g3⟩, g4⟩
            exact ⟨g1, ⟨xs, rfl, hl, g2⟩, g3, g4⟩
          · rintro ⟨g1, ⟨xs', e, -, g2⟩, g3, g4⟩
            cases e
            exact ⟨g1, ⟨g2, g3⟩, g4⟩
        cases bin with
        | false => exact jr_step (m := idRest58 little false _) (a := ()) rfl rfl (fin fun h => by cases h)
        | true =>
          cases pr with
          | none => exact jr_stop (m := idRest58 little true _) (e := .unbound) rfl (by decide) fun h => h.2.2.1 rfl
          | some b =>
            cases b with
            | true => exact jr_step (m := idRest58 little true _) (a := ()) rfl rfl (fin fun _ h => by cases h)
            | false => exact jr_step (m := idRest58 little true _) (a := ()) rfl rfl (fin fun _ h => by cases h)

theorem zero_eq {v : Val} (h : scalarKnown v = true) : v.isZero = zeroNum v := by
  cases v with
  | int m => exact (Bool.beq_eq_decide_eq m 0).symm
  | float x => exact (Bool.beq_eq_decide_eq x.mag 0).symm
  | cplx x y => cases h
  | _ => rfl

theorem notArr {v : Val} (h : scalarKnown v = true) : v.isArr = false := by
  cases v with
  | arrI l => cases h
  | arrF l => cases h
  | arrC l => cases h
  | mat l => cases h
  | _ => rfl

theorem funcOk_eq {v : Val} (h : scalarKnown v = true) : funcOk v = .ok (zeroNum v || [1, 2, 3, 4, 6, 9].any fun n => isNum n v) := by
  unfold funcOk
  rw [notArr h, zero_eq h]
  simp only [isNum_eq h]
  rfl

theorem prec_eq {v : Val} (h : scalarKnown v = true) : ∃ pr, prec58 v = .ok pr ∧ (pr ≠ Option.none ↔ ([2, 4, 5, 6].any fun n => isNum n v) = true) := by
  unfold prec58
  rw [notArr h]
  simp only [isNum_eq h, List.any_cons, List.any_nil, Bool.or_false, Bool.false_eq_true, if_false]
  generalize isNum 2 v = a
  generalize isNum 4 v = b
  generalize isNum 5 v = c
  generalize isNum 6 v = e
  cases a <;> cases b <;> cases c <;> cases e <;> simp

theorem code_int {n : Int} {v : Val} (hn : n ∈ [(2 : Int), 4, 5, 6]) (h : isNum n v = true) : intOk v = true := by
  cases v with
  | int m => rfl
  | bool b => rfl
  | float x =>
    have hx : x = F64.ofInt n := eq_of_beq h
    subst hx
    simp only [List.mem_cons, List.not_mem_nil, or_false] at hn
    rcases hn with rfl | rfl | rfl | rfl <;> decide +kernel
  | _ => cases h

theorem spacing_eq {sp : Val} (hs : scalarKnown sp = true) (h : (optFields d opt58).get? "abscissa_spacing" = some sp) : sp.truthy = .ok (evenly d) := by
  rw [get?_optFields] at h
  have ho : Dict.get? opt58 (.s "abscissa_spacing") = some (.int 0) := by decide +kernel
  rw [ho] at h
  unfold evenly
  cases hd : d.get? "abscissa_spacing" with
  | none => rw [hd] at h; cases h; rfl
  | some v =>
    rw [hd] at h
    cases h
    cases sp with
    | none => rfl
    | bool b => cases b <;> rfl
    | int m => simp only [Val.truthy, zeroNum]; congr 1; by_cases hm : m = 0 <;> simp [hm]
    | float x => simp only [Val.truthy, zeroNum]; congr 1; by_cases hm : x.mag = 0 <;> simp [hm]
    | str s => simp only [Val.truthy]; congr 1; cases s <;> rfl
    | list l => rfl
    | dict l => rfl
    | _ => cases hs


/-- Entries that the writer adds or changes, and that are not in the header. -/
theorem apart58 {k : String} (hk : k ∈ ["ord_data_type", "n_bytes", "abscissa_min", "data"]) : (∀ f ∈ headFunction ++ headUnits, f.1 ≠ k) ∧ ∀ f ∈ kinds58, f.1 ≠ k := by
  simp only [List.mem_cons, List.not_mem_nil, or_false] at hk
  rcases hk with rfl | rfl | rfl | rfl <;> exact ⟨by decide +kernel, by decide +kernel⟩

/-- Two dictionaries with the same entries for the rest of the writer. -/
structure Same58 (D D' : Dict) : Prop where
  known : KnownE D kinds58 → KnownE D' kinds58
  entries : ((headFunction ++ headUnits).all fun f => entryOk D' (f.1, f.2.1, false)) = (headFunction ++ headUnits).all fun f => entryOk D (f.1, f.2.1, false)
  same : ∀ k ∈ ["abscissa_spacing", "binary", "x"], D'.get? (.s k) = D.get? (.s k)

theorem same58_refl (D : Dict) : Same58 D D := ⟨id, rfl, fun _ _ => rfl⟩
theorem same58_set (D : Dict) {k : String} (hk : k ∈ ["ord_data_type", "n_bytes"]) (v : Val) : Same58 D (D.set (.s k) v) := by
  have hk' : k ∈ ["ord_data_type", "n_bytes", "abscissa_min", "data"] := by
    simp only [List.mem_cons, List.not_mem_nil, or_false] at hk ⊢
    tauto
  obtain ⟨h1, h2⟩ := apart58 hk'
  refine ⟨fun h => knownE_set h h2, entries_set h1, fun q hq => Dict.get?_set_ne _ _ _ _ ?_⟩
  intro e
  cases e
  simp only [List.mem_cons, List.not_mem_nil, or_false] at hk hq
  rcases hk with rfl | rfl <;> simp at hq
theorem same58_trans {A B C : Dict} (h : Same58 A B) (h' : Same58 B C) : Same58 A C :=
  ⟨fun k => h'.known (h.known k), h'.entries.trans h.entries, fun k hk => (h'.same k hk).trans (h.same k hk)⟩

theorem ordinate_of {y : Val} (h : (∃ l, y = .arrF l) ∨ ∃ l, y = .arrC l) : ∃ n c, Ordinate y n c ∧ y.len = .ok n ∧ y.isComplexObj = .ok c := by
  rcases h with ⟨l, rfl⟩ | ⟨l, rfl⟩
  · exact ⟨_, _, .real l, rfl, rfl⟩
  · exact ⟨_, _, .cplx l, rfl, rfl⟩

theorem ordinates_of {y : Val} {n : Nat} {c : Bool} (hy : Ordinate y n c) (h : d.get? "data" = some y) : ordinates d = some n := by
  unfold ordinates
  rw [h]
  cases hy <;> rfl

theorem lengths_iff {n : Nat} (h : ordinates d = some n) :
    lengthsOk d = true ↔ ∃ xs, d.get? "x" = some (.arrF xs) ∧ 2 ≤ xs.length ∧ (evenly d || xs.length == n) = true := by
  unfold lengthsOk
  rw [h]
  cases hx : d.get? "x" with
  | none => simp
  | some v =>
    cases v with
    | arrF xs => simp
    | _ => simp

theorem accept58 (little fd : Bool) (hk : Known58 d) : JR (write58 little fd) d (canWrite58 fd d = true) := by
  rw [write58_tail]
  refine jr_guarded ?_
  cases hft : d.get? "func_type" with
  | none =>
    exact jr_lack hft fun h => by
      unfold canWrite58 functionType at h
      rw [hft] at h
      cases h
  | some ft =>
  refine jr_have hft ?_
  have hs : scalarKnown ft = true := hk.entries ("func_type", .int, false) (of_decide_eq_true rfl) ft hft
  refine jr_val (funcOk_eq hs) ?_
  have hfd : functionType d = (zeroNum ft || [1, 2, 3, 4, 6, 9].any fun n => isNum n ft) := by unfold functionType; rw [hft]
  rw [← hfd]
  cases hf : functionType d with
  | false => exact jr_stop (m := W.when _ _) (e := .value) rfl (by decide) fun h => by unfold canWrite58 at h; rw [hf] at h; cases h
  | true =>
  refine jr_skip (by decide) (jr_opt ?_)
  have hdata : (optFields d opt58).get? "data" = d.get? "data" := opt_other (by decide +kernel)
  cases hgd : d.get? "data" with
  | none =>
    exact jr_lack (hdata.trans hgd) fun h => by
      unfold canWrite58 lengthsOk ordinates at h
      rw [hgd] at h
      simp at h
  | some y =>
  refine jr_have (hdata.trans hgd) ?_
  obtain ⟨n, c, hy, hlen, hc⟩ := ordinate_of (hk.ordinate y hgd)
  refine jr_val hlen (jr_val hc ?_)
  have hE : KnownE (optFields d opt58) kinds58 := known_opt' (by decide +kernel) hk.entries
  have hent := entries_opt (d := d) (os := opt58) (F := headFunction ++ headUnits) (by decide +kernel)
  have hgx : (optFields d opt58).get? "x" = d.get? "x" := opt_other (by decide +kernel)
  have hodt : (optFields d opt58).get? "ord_data_type" = d.get? "ord_data_type" := opt_other (by decide +kernel)
  have there : ∀ {k : String}, k ∈ ["ord_data_type", "abscissa_spacing", "binary"] → Dict.get? opt58 (.s k) = some (.int 0) →
      ∃ v, (optFields d opt58).get? (.s k) = some v ∧ scalarKnown v = true := by
    intro k hm ho
    cases hd : d.get? (.s k) with
    | some v => exact ⟨v, by rw [get?_optFields, hd]; rfl, hk.flags k hm v hd⟩
    | none => exact ⟨_, by rw [get?_optFields, hd, ho]; rfl, rfl⟩
  obtain ⟨sp, hsp, hss⟩ := there (k := "abscissa_spacing") (by simp) (by decide +kernel)
  obtain ⟨bv, hbv, hbs⟩ := there (k := "binary") (by simp) (by decide +kernel)
  have heven := spacing_eq hss hsp
  generalize optFields d opt58 = D at hE hent hgx hodt hsp hbv ⊢
  have last : ∀ {D' : Dict} {pr : Option Bool} {odt : Val}, Same58 D D' → scalarKnown odt = true → (pr ≠ Option.none → intOk odt = true) →
      (pr ≠ Option.none ↔ precisionOk fd d = true) → JR (tail58 little c pr y odt n) D' (canWrite58 fd d = true) := by
    intro D' pr odt hD ho hi hpr
    refine (accept_tail (even := evenly d) (hD.known hE) hy ho ((hD.same _ (by simp)).trans hsp) heven ((hD.same _ (by simp)).trans hbv) hbs
      fun v hv => hk.abscissa v (by rw [← hgx, ← hD.same "x" (by simp)]; exact hv)).iff ?_
    rw [hD.entries, hD.same "x" (by simp), hgx, ← lengths_iff (ordinates_of hy hgd), ← hent]
    unfold canWrite58
    rw [hf]
    simp only [Bool.and_eq_true, true_and]
    exact ⟨fun ⟨a, b, c, _⟩ => ⟨a, hpr.1 c, b⟩, fun ⟨a, b, c⟩ => ⟨a, c, hpr.2 b, hi (hpr.2 b)⟩⟩
  have mid : ∀ {D' : Dict} {pr : Option Bool} {odt : Val}, Same58 D D' → scalarKnown odt = true → (pr ≠ Option.none → intOk odt = true) →
      (pr ≠ Option.none ↔ precisionOk fd d = true) →
      JR (W.getDict >>= fun d => W.when (d.has "n_bytes" = true) (W.bind (W.lift (nBytes58 n pr)) fun k => W.put "n_bytes" (.int k)) >>= fun _ =>
        tail58 little c pr y odt n) D' (canWrite58 fd d = true) := by
    intro D' pr odt hD ho hi hpr
    refine jr_step (m := W.getDict) (a := D') rfl rfl ?_
    by_cases hn : D'.has "n_bytes" = true
    · cases pr with
      | none =>
        refine jr_stop (m := W.when _ _) (e := .unbound) ?_ (by decide) ?_
        · unfold W.when
          rw [if_pos hn]
          rfl
        · intro h
          unfold canWrite58 at h
          simp only [Bool.and_eq_true] at h
          exact hpr.2 h.2.2.1 rfl
      | some b =>
        have : ∃ k, nBytes58 n (some b) = .ok k := by cases b <;> exact ⟨_, rfl⟩
        obtain ⟨k, hkb⟩ := this
        refine jr_step (m := W.when _ _) (a := ()) (d' := D'.set "n_bytes" (.int k)) ?_ ?_ (last (same58_trans hD (same58_set D' (by simp) _)) ho hi hpr)
        · unfold W.when
          rw [if_pos hn, hkb]
          rfl
        · unfold W.when
          rw [if_pos hn, hkb]
          rfl
    · refine jr_step (m := W.when _ _) (a := ()) (d' := D') ?_ ?_ (last hD ho hi hpr)
      · unfold W.when
        rw [if_neg hn]
        rfl
      · unfold W.when
        rw [if_neg hn]
        rfl
  have code : ∀ {v : Val}, scalarKnown v = true → (precisionOk fd d = [2, 4, 5, 6].any fun n => isNum n v) → ∃ pr, prec58 v = .ok pr ∧
      (pr ≠ Option.none → intOk v = true) ∧ (pr ≠ Option.none ↔ precisionOk fd d = true) := by
    intro v hv he
    obtain ⟨pr, h1, h2⟩ := prec_eq hv
    refine ⟨pr, h1, fun h => ?_, by rw [he]; exact h2⟩
    obtain ⟨m, hm, hm'⟩ := List.any_eq_true.1 (h2.1 h)
    exact code_int hm hm'
  cases fd with
  | true =>
    refine jr_take rfl ?_
    refine jr_have (Dict.get?_set_self _ _ _) ?_
    obtain ⟨pr, h1, h2, h3⟩ := code (v := .int (if c then 6 else 4)) rfl (by
      rw [show precisionOk true d = true from rfl]
      cases c <;> decide)
    refine jr_val h1 ?_
    exact mid (D' := D.set (.s "ord_data_type") (.int (if c then 6 else 4))) (pr := pr) (odt := .int (if c then 6 else 4)) (same58_set D (by simp) _) rfl h2 h3
  | false =>
    refine jr_skip (by decide) ?_
    cases ho : d.get? "ord_data_type" with
    | none =>
      refine jr_lack (hodt.trans ho) fun h => ?_
      unfold canWrite58 precisionOk entryIs at h
      rw [ho] at h
      simp at h
    | some v =>
      refine jr_have (hodt.trans ho) ?_
      have hv := hk.flags "ord_data_type" (by simp) v ho
      obtain ⟨pr, h1, h2, h3⟩ := code hv (by
        have he : entryIs d "ord_data_type" = fun n => isNum n v := by
          funext n
          unfold entryIs
          rw [ho]
        unfold precisionOk
        rw [he, Bool.false_or])
      refine jr_val h1 ?_
      exact mid (same58_refl D) hv h2 h3


/-- Replacing values that are not numbers in the ordinate changes nothing here. -/
theorem clean58 (fd : Bool) (hk : Known58 d) : ∃ d', cleanData d = .ok d' ∧ Known58 d' ∧ canWrite58 fd d' = canWrite58 fd d := by
  unfold cleanData
  cases hd : d.get? "data" with
  | none => exact ⟨d, rfl, hk, rfl⟩
  | some y =>
    obtain ⟨y', h1, h2, h3⟩ : ∃ y', nanToNumV y = .ok y' ∧ ((∃ l, y' = .arrF l) ∨ ∃ l, y' = .arrC l) ∧ ordinates (d.set "data" y') = ordinates d := by
      unfold ordinates
      simp only [Dict.get?_set_self, hd]
      rcases hk.ordinate y hd with ⟨l, rfl⟩ | ⟨l, rfl⟩
      · exact ⟨_, rfl, .inl ⟨_, rfl⟩, by simp only [List.length_map]⟩
      · exact ⟨_, rfl, .inr ⟨_, rfl⟩, by simp only [List.length_map]⟩
    simp only [h1]
    refine ⟨d.set "data" y', rfl, ?_, ?_⟩
    · have other : ∀ {k : String}, k ≠ "data" → (d.set "data" y').get? (.s k) = d.get? (.s k) := fun h =>
        Dict.get?_set_ne _ _ _ _ fun e => h (by cases e; rfl)
      refine ⟨fun f hf v hv => hk.entries f hf v ?_, fun k hm v hv => hk.flags k hm v ?_, fun v hv => ?_, fun v hv => hk.abscissa v ?_⟩
      · rwa [other ((apart58 (k := "data") (by simp)).1 f hf)] at hv
      · rwa [other (by rintro rfl; simp at hm)] at hv
      · rw [Dict.get?_set_self] at hv
        cases hv
        exact h2
      · rwa [other (by decide)] at hv
    · have other : ∀ {k : String}, k ≠ "data" → (d.set "data" y').get? (.s k) = d.get? (.s k) := fun h =>
        Dict.get?_set_ne _ _ _ _ fun e => h (by cases e; rfl)
      have h4 : functionType (d.set "data" y') = functionType d := by unfold functionType; rw [other (by decide)]
      have h5 : (headFunction ++ headUnits).all (entryOk (d.set "data" y')) = (headFunction ++ headUnits).all (entryOk d) := by
        rw [Bool.eq_iff_iff, List.all_eq_true, List.all_eq_true]
        exact forall₂_congr fun f hf => by rw [entryOk_set ((apart58 (k := "data") (by simp)).1 f hf)]
      have h6 : entryIs (d.set "data" y') "ord_data_type" = entryIs d "ord_data_type" := by
        funext n
        unfold entryIs
        rw [other (by decide)]
      have h7 : evenly (d.set "data" y') = evenly d := by unfold evenly; rw [other (by decide)]
      unfold canWrite58 precisionOk lengthsOk
      rw [h3, h4, h5, h6, h7, other (k := "x") (by decide)]

end Verif
