import Verif.Lemmas.Cplx
import Verif.Lemmas.Exact4
import Verif.Lemmas.RT2429
/-
Round trip of data-set 55.
-/
namespace Verif

theorem optFields_append (d : Dict) (a b : List (Key × Val)) : optFields d (a ++ b) = optFields (optFields d a) b := by
  induction a generalizing d with
  | nil => rfl
  | cons kv r ih =>
    obtain ⟨k, v⟩ := kv
    simp only [List.cons_append, optFields]
    exact ih _

theorem cutFields_widths (line : Text) (si : Nat) (a b : List Nat) :
    cutFields line si (a ++ b) = cutFields line si a ++ cutFields line (si + a.sum) b := by
  induction a generalizing si with
  | nil => simp [cutFields]
  | cons w r ih =>
    simp only [List.cons_append, cutFields, ih, List.sum_cons]
    rw [Nat.add_assoc]

theorem cutFields_length (line : Text) (si : Nat) (a : List Nat) : (cutFields line si a).length = a.length := by
  induction a generalizing si with
  | nil => rfl
  | cons w r ih => simp [cutFields, ih]

/-- A line with fewer fields than the format: the missing ones are some texts. -/
theorem parseHeader_short (fs : List Text) (rest : Text) (minV : Nat) (ws ws' : List Nat) (tys : List FTy)
    (ks : List Key) (hw : fs.map List.length = ws) (hk : fs.length + ws'.length ≤ ks.length) (hm : minV ≤ fs.length) :
    ∃ tl : List Text, tl.length = ws'.length ∧
      parseHeader (fs.flatten ++ rest) minV (ws ++ ws') tys ks = headerLoop minV tys ks (fs.map strip ++ tl) [] := by
  rw [parseHeader_padded]
  refine ⟨cutFields (fs.flatten ++ rest ++ blanks (80 - (fs.flatten ++ rest).length)) ws.sum ws', cutFields_length _ _ _, ?_⟩
  unfold parseHeader
  have h2 : ¬ (fs.flatten ++ rest ++ blanks (80 - (fs.flatten ++ rest).length)).length < 80 := by
    rw [List.length_append]; simp [blanks]; omega
  simp only [h2, if_false]
  have e : cutFields (fs.flatten ++ rest ++ blanks (80 - (fs.flatten ++ rest).length)) 0 (ws ++ ws')
      = fs.map strip ++ cutFields (fs.flatten ++ rest ++ blanks (80 - (fs.flatten ++ rest).length)) ws.sum ws' := by
    rw [cutFields_widths, Nat.zero_add, ← hw]
    congr 1
    rw [List.append_assoc]
    exact cutFields_flatten fs _
  rw [e, if_neg]
  rw [List.length_append, cutFields_length, List.length_map]
  omega

theorem length_two {α : Type} {l : List α} (h : l.length = 2) : ∃ a b, l = [a, b] := by
  match l, h with
  | [a, b], _ => exact ⟨a, b, rfl⟩

theorem fmtEV_float (w p : Nat) (x : F64) : fmtEV w p (.float x) = .ok (padLeft w (fmtE p x)) := rfl

theorem fld_re {d : Dict} {acc : Dict → Res Val} {x y : F64} (h : acc d = .ok (.cplx x y)) (w p : Nat) :
    FldOk d (.re w p acc) (padLeft w (fmtE p x)) :=
  ⟨.float x, by simp only [Fld.re, h, Val.re], fmtEV_float w p _⟩
theorem fld_im {d : Dict} {acc : Dict → Res Val} {x y : F64} (h : acc d = .ok (.cplx x y)) (w p : Nat) :
    FldOk d (.im w p acc) (padLeft w (fmtE p y)) :=
  ⟨.float y, by simp only [Fld.im, h, Val.im], fmtEV_float w p _⟩

theorem fld_reK {d : Dict} {k : Key} {x y : F64} (h : d.get? k = some (.cplx x y)) (w p : Nat) :
    FldOk d (.re w p (·.get k)) (padLeft w (fmtE p x)) := fld_re (y := y) (by simp only [Dict.get, h]) w p
theorem fld_imK {d : Dict} {k : Key} {x y : F64} (h : d.get? k = some (.cplx x y)) (w p : Nat) :
    FldOk d (.im w p (·.get k)) (padLeft w (fmtE p y)) := fld_im (x := x) (by simp only [Dict.get, h]) w p

theorem makeComplex_cplx {d : Dict} {k : Key} {x y : F64} (h : d.get? k = some (.cplx x y)) :
    makeComplex k d = ⟨[], d, .ok ()⟩ := by
  unfold makeComplex
  rw [W.bind_key h]
  rfl

theorem an55_int (n : Int) : an55 (.int n) = .ok (if n = 2 then some .normal else if n = 3 ∨ n = 7 then some .cmplx
    else if n = 5 then some .frf else none) := by
  unfold an55 Val.numEq
  by_cases h2 : n = 2
  · simp [h2]
  · by_cases h3 : n = 3
    · simp [h3]
    · by_cases h7 : n = 7
      · simp [h7]
      · by_cases h5 : n = 5 <;> simp [h2, h3, h5, h7]

theorem IsSeq.isComplexObj_real {v : Val} {l : List F64} (h : IsSeq IsFloat v l) (hv : v ≠ .arrC []) :
    v.isComplexObj = .ok false := by
  obtain ⟨xs, hi, hl, hx⟩ := h
  have key : ∀ x ∈ xs, x.isFlat = true ∧ x.isCplx = false := by
    intro x hxm
    obtain ⟨i, hi', rfl⟩ := List.getElem_of_mem hxm
    have := hx i hi' (by omega)
    generalize xs[i] = y at this
    cases y <;> simp [IsFloat, Val.toFloat] at this <;> exact ⟨rfl, rfl⟩
  cases v with
  | list l' =>
    simp only [Val.items, Except.ok.injEq] at hi
    subst hi
    unfold Val.isComplexObj
    have h1 : l'.all Val.isFlat = true := List.all_eq_true.2 fun x h => (key x h).1
    have h2 : l'.any Val.isCplx = false := by
      rw [List.any_eq_false]; intro x h; simp [(key x h).2]
    simp only [h1, h2, if_true, Bool.false_and]
  | arrC c =>
    cases c with
    | nil => exact absurd rfl hv
    | cons z r =>
      simp only [Val.items, Except.ok.injEq] at hi
      subst hi
      have := (key (.cplx z.1 z.2) (by simp)).2
      simp [Val.isCplx] at this
  | cplx x y => simp [Val.items] at hi
  | _ => rfl

theorem IsSeq.isComplexObj_cplx {v : Val} {l : List Cplx} (h : IsSeq IsCplx v l) (hv : l = [] → v = .arrC []) :
    v.isComplexObj = .ok true := by
  obtain ⟨xs, hi, hl, hx⟩ := h
  have key : ∀ x ∈ xs, x.isFlat = true ∧ x.isCplx = true := by
    intro x hxm
    obtain ⟨i, hi', rfl⟩ := List.getElem_of_mem hxm
    have := hx i hi' (by omega)
    unfold IsCplx at this
    rw [this]; exact ⟨rfl, rfl⟩
  by_cases h0 : l = []
  · rw [hv h0]; rfl
  · have hne : xs ≠ [] := by
      intro e; rw [e] at hl; exact h0 (List.length_eq_zero_iff.1 hl.symm)
    have hc := fun x hx => (key x hx).2
    cases v <;> simp only [Val.items, Except.ok.injEq, reduceCtorEq] at hi
    case arrC => rfl
    case list l' =>
      subst hi
      unfold Val.isComplexObj
      have h1 : l'.all Val.isFlat = true := List.all_eq_true.2 fun x h => (key x h).1
      have h2 : l'.any Val.isCplx = true := by
        obtain ⟨a, r, e⟩ := List.exists_cons_of_ne_nil hne
        exact List.any_eq_true.2 ⟨a, by rw [e]; simp, hc a (by rw [e]; simp)⟩
      have h3 : l'.all Val.isNumber = true := by
        refine List.all_eq_true.2 fun x h => ?_
        have := hc x h
        cases x <;> first | rfl | cases this
      simp only [h1, h2, h3, if_true, Bool.true_and]
    all_goals
      subst hi
      rename_i m
      cases m with
      | nil => exact absurd rfl hne
      | cons a r => exact absurd (hc _ (List.mem_cons_self)) (by simp [Val.isCplx])

theorem pyInt_line (w : Nat) (n : Int) : pyInt (padLeft w (intRepr n) ++ ['\n']) = .ok n := by
  unfold pyInt
  rw [parseInt_right _ _ (by decide), parseInt_padLeft]; rfl

namespace DS55

/-- Defaults of the analysis type. -/
def opts : Head55 → List (Key × Val)
  | .normal .. => opt55n
  | .cmplx .. => opt55c
  | .frf .. => []

/-- The dictionary after the defaults. -/
def filled (d : Dict) (r : DS55) : Dict := optFields d (opt55 ++ opts r.head)

/-- The two lines of the analysis type. -/
def headFields : Head55 → List Text × List Text
  | .normal load mode freq m vis his =>
    ([padLeft 10 (intRepr 2), padLeft 10 (intRepr 4), padLeft 10 (intRepr load), padLeft 10 (intRepr mode)],
     [padLeft 13 (fmtE 5 freq), padLeft 13 (fmtE 5 m), padLeft 13 (fmtE 5 vis), padLeft 13 (fmtE 5 his)])
  | .cmplx _ load mode eig a b =>
    ([padLeft 10 (intRepr 2), padLeft 10 (intRepr 6), padLeft 10 (intRepr load), padLeft 10 (intRepr mode)],
     [padLeft 13 (fmtE 5 eig.1), padLeft 13 (fmtE 5 eig.2), padLeft 13 (fmtE 5 a.1), padLeft 13 (fmtE 5 a.2),
      padLeft 13 (fmtE 5 b.1), padLeft 13 (fmtE 5 b.2)])
  | .frf load step freq =>
    ([padLeft 10 (intRepr 2), padLeft 10 (intRepr 1), padLeft 10 (intRepr load), padLeft 10 (intRepr step)],
     [padLeft 13 (fmtE 5 freq)])

/-- Node numbers and values. -/
def rows : Data55 → List (Int × List F64)
  | .real3 l => l.map fun n => (n.num, [n.x, n.y, n.z])
  | .real6 l => l.map fun n => (n.num, [n.x, n.y, n.z, n.xx, n.yy, n.zz])
  | .cplx3 l => l.map fun n => (n.num, [n.x.1, n.x.2, n.y.1, n.y.2, n.z.1, n.z.2])

/-- Printed values. -/
def vfields (vs : List F64) : List Text := vs.map fun x => padLeft 13 (fmtE 5 x)

/-- The two lines of a node. -/
def nodeLines (n : Int × List F64) : List Text := [padLeft 10 (intRepr n.1), (vfields n.2).flatten]

/-- Line of the types, with the number `c` of values per node. -/
def typeFieldsWith (c : Int) (r : DS55) : List Text :=
  [padLeft 10 (intRepr r.model), padLeft 10 (intRepr (anType r.head)), padLeft 10 (intRepr r.ch),
   padLeft 10 (intRepr r.spec), padLeft 10 (intRepr (kind r.data).1), padLeft 10 (intRepr c)]

/-- The lines between the delimiters. -/
def linesWith (c : Int) (r : DS55) : List Text :=
  idLine 55 :: padRight 80 r.id1 :: padRight 80 r.id2 :: padRight 80 r.id3 :: padRight 80 r.id4 :: padRight 80 r.id5 ::
  (typeFieldsWith c r).flatten :: (headFields r.head).1.flatten :: (headFields r.head).2.flatten :: (rows r.data).flatMap nodeLines

/-- Line of the types. -/
def typeFields (r : DS55) : List Text := typeFieldsWith (kind r.data).2 r

/-- The lines between the delimiters. -/
def lines (r : DS55) : List Text := linesWith (kind r.data).2 r

/-- The code of the analysis type. -/
def an : Head55 → An55
  | .normal .. => .normal
  | .cmplx .. => .cmplx
  | .frf .. => .frf

theorem an_eq (h : Head55) : an55 (.int (anType h)) = .ok (some (an h)) := by
  rw [an55_int]
  cases h with
  | normal => rfl
  | cmplx s => cases s <;> rfl
  | frf => rfl

theorem prep_eq (d : Dict) (r : DS55) (h : Carries d r) :
    prep55 (some (an r.head)) (optFields d opt55) = ⟨[], filled d r, .ok ()⟩ := by
  have hh := h.head
  unfold filled
  rw [optFields_append]
  cases hr : r.head with
  | normal => rfl
  | frf => rfl
  | cmplx s load mode eig a b =>
    rw [hr] at hh
    obtain ⟨-, -, -, ha, hb⟩ := hh
    simp only [prep55, an, opts]
    rw [W.bind_opt, ← optFields_append]
    have h1 : (optFields d (opt55 ++ opt55c)).get? "modal_a" = some (.cplx a.1 a.2) := by
      rw [get?_opt_default (v := .cplx F64.zero F64.zero) rfl]; exact congrArg some ha
    have h2 : (optFields d (opt55 ++ opt55c)).get? "modal_b" = some (.cplx b.1 b.2) := by
      rw [get?_opt_default (v := .cplx F64.zero F64.zero) rfl]; exact congrArg some hb
    rw [W.bind_ok (makeComplex_cplx h1), makeComplex_cplx h2]
    simp only [List.append_nil]

theorem head_eq (d : Dict) (r : DS55) (h : Carries d r) :
    head55 (some (an r.head)) (filled d r)
      = ⟨joinLines [(headFields r.head).1.flatten, (headFields r.head).2.flatten], filled d r, .ok ()⟩ := by
  have hh := h.head
  unfold filled
  cases hr : r.head with
  | normal load mode freq m vis his =>
    rw [hr] at hh
    obtain ⟨h1, h2, h3, h4, h5, h6⟩ := hh
    show W.bind (W.row _) _ _ = _
    rw [W.bind_row (.cons (fld_c (t := padLeft 10 (intRepr 2)) rfl) (.cons (fld_c (t := padLeft 10 (intRepr 4)) rfl)
        (.cons (h1.opt.fld 10) (.cons (h2.opt.fld 10) .nil)))),
      W.row_eq (.cons (h3.opt.fld 13 5) (.cons ((h4.opt rfl).fld 13 5) (.cons ((h5.opt rfl).fld 13 5)
        (.cons ((h6.opt rfl).fld 13 5) .nil))))]
    simp [joinLines, headFields]
  | frf load step freq =>
    rw [hr] at hh
    obtain ⟨h1, h2, h3⟩ := hh
    show W.bind (W.row _) _ _ = _
    rw [W.bind_row (.cons (fld_c (t := padLeft 10 (intRepr 2)) rfl) (.cons (fld_c (t := padLeft 10 (intRepr 1)) rfl)
        (.cons (h1.opt.fld 10) (.cons (h2.opt.fld 10) .nil)))),
      W.row_eq (.cons (h3.opt.fld 13 5) .nil)]
    simp [joinLines, headFields]
  | cmplx s load mode eig a b =>
    rw [hr] at hh
    obtain ⟨h1, h2, ⟨v, hv, h3⟩, ha, hb⟩ := hh
    have g1 : (optFields d (opt55 ++ opt55c)).get? "eig" = some (.cplx eig.1 eig.2) := by
      rw [get?_opt_present hv]; exact congrArg some h3
    have g2 : (optFields d (opt55 ++ opt55c)).get? "modal_a" = some (.cplx a.1 a.2) := by
      rw [get?_opt_default (v := .cplx F64.zero F64.zero) rfl]; exact congrArg some ha
    have g3 : (optFields d (opt55 ++ opt55c)).get? "modal_b" = some (.cplx b.1 b.2) := by
      rw [get?_opt_default (v := .cplx F64.zero F64.zero) rfl]; exact congrArg some hb
    simp only [head55, an, opts, W.bind_eq]
    rw [W.bind_row (.cons (fld_c (t := padLeft 10 (intRepr 2)) rfl) (.cons (fld_c (t := padLeft 10 (intRepr 6)) rfl)
        (.cons (h1.opt.fld 10) (.cons (h2.opt.fld 10) .nil)))),
      W.row_eq (.cons (fld_reK g1 13 5) (.cons (fld_imK g1 13 5) (.cons (fld_reK g2 13 5)
        (.cons (fld_imK g2 13 5) (.cons (fld_reK g3 13 5) (.cons (fld_imK g3 13 5) .nil))))))]
    simp [joinLines, headFields]

/-- Complex data. -/
def cplxB : Data55 → Bool
  | .cplx3 _ => true
  | _ => false
/-- Six values per node. -/
def sixB : Data55 → Bool
  | .real6 _ => true
  | _ => false

theorem r1_get (d : Dict) (r : DS55) (h : Carries d r) :
    ∃ v, (filled d r).get? "r1" = some v ∧ v.isComplexObj = .ok (cplxB r.data) := by
  have hd := h.data
  unfold filled
  cases hr : r.data with
  | real3 l =>
    rw [hr] at hd
    obtain ⟨-, ⟨v, hv, hs⟩, -, -, hne, -⟩ := hd
    exact ⟨v, get?_opt_present hv, hs.isComplexObj_real (by rintro rfl; exact hne hv)⟩
  | real6 l =>
    rw [hr] at hd
    obtain ⟨-, ⟨v, hv, hs⟩, -, -, -, -, -, hne⟩ := hd
    exact ⟨v, get?_opt_present hv, hs.isComplexObj_real (by rintro rfl; exact hne hv)⟩
  | cplx3 l =>
    rw [hr] at hd
    obtain ⟨-, ⟨v, hv, hs⟩, -, -, hne⟩ := hd
    refine ⟨v, get?_opt_present hv, hs.isComplexObj_cplx ?_⟩
    intro h0
    rw [hne (List.map_eq_nil_iff.1 h0)] at hv
    exact (Option.some.inj hv).symm

theorem has_filled (d : Dict) (r : DS55) (k : Key) (h1 : Dict.get? opt55 k = none) (h2 : Dict.get? opt55n k = none)
    (h3 : Dict.get? opt55c k = none) : (filled d r).has k = d.has k := by
  unfold filled Dict.has
  rw [optFields_append, get?_optFields, get?_optFields, h1]
  have : Dict.get? (opts r.head) k = none := by
    cases r.head with
    | normal => exact h2
    | cmplx => exact h3
    | frf => rfl
  rw [this]
  simp

theorem six_eq (d : Dict) (r : DS55) (h : Rep d r) :
    ((filled d r).has "r4" && (filled d r).has "r5" && (filled d r).has "r6") = sixB r.data := by
  have hd := h.data
  rw [has_filled d r "r4" rfl rfl rfl, has_filled d r "r5" rfl rfl rfl, has_filled d r "r6" rfl rfl rfl]
  have key : ∀ a b c : Bool, ¬ (a = true ∧ b = true ∧ c = true) → (a && b && c) = false := by decide
  cases hr : r.data with
  | real3 l =>
    rw [hr] at hd
    obtain ⟨-, -, -, -, -, ht⟩ := hd
    exact key _ _ _ ht
  | cplx3 l => exact key _ _ _ (h.three l hr)
  | real6 l =>
    rw [hr] at hd
    obtain ⟨-, -, -, -, ⟨a, ha, -⟩, ⟨b, hb, -⟩, ⟨c, hc, -⟩, -⟩ := hd
    simp only [Dict.has, ha, hb, hc, sixB]
    rfl

theorem cplx_at {α : Type} {d : Dict} {k : Key} {l : List α} {f : α → Cplx} (h : HasCplxs d k (l.map f)) {i : Nat}
    (hi : i < l.length) : Fld.at_ k i d = .ok (.cplx (f l[i]).1 (f l[i]).2) := by
  obtain ⟨v, g, s⟩ := h
  obtain ⟨x, h1, h2⟩ := s.idx (i := i) (by simpa using hi)
  simp only [Fld.at_, Dict.get, g, h1]
  unfold IsCplx at h2
  rw [h2, List.getElem_map]

theorem opt_cplxs {d : Dict} {k : Key} {l : List Cplx} {fs : List (Key × Val)} (h : HasCplxs d k l) :
    HasCplxs (optFields d fs) k l := by
  obtain ⟨v, g, s⟩ := h
  exact ⟨v, get?_opt_present g, s⟩

theorem loop_eq (d : Dict) (r : DS55) (h : Carries d r) (six : Bool) (hsix : cplxB r.data = false → six = sixB r.data) :
    ∃ v, (filled d r).get? "node_nums" = some v ∧ v.len = .ok (rows r.data).length ∧
    W.forL (List.range (rows r.data).length) (fun k => do
      W.row [⟨Fld.at_ "node_nums" k, fmtI 10⟩]
      W.row (vals55 (cplxB r.data) six k)) (filled d r)
      = ⟨(rows r.data).flatMap fun n => joinLines (nodeLines n), filled d r, .ok ()⟩ := by
  have hd := h.data
  unfold filled
  generalize hfs : opt55 ++ opts r.head = fs
  cases hr : r.data with
  | real3 l =>
    rw [hr] at hd hsix
    obtain rfl := hsix rfl
    obtain ⟨hn, h1, h2, h3, -, -⟩ := hd
    have hn' := hn.opt (fs := fs)
    obtain ⟨v, hv, hs⟩ := hn'
    refine ⟨v, hv, by rw [hs.len]; simp [rows], ?_⟩
    apply W.forL_range
    intro i hi
    have hi' : i < l.length := by simpa [rows] using hi
    simp only [W.bind_eq]
    rw [W.bind_row (.cons (HasInts.at_row ⟨v, hv, hs⟩ hi' 10) .nil)]
    simp only [vals55, cplxB, sixB, Bool.false_eq_true, if_false]
    rw [W.row_eq (.cons (h1.opt.at_row hi' 13 5) (.cons (h2.opt.at_row hi' 13 5) (.cons (h3.opt.at_row hi' 13 5) .nil)))]
    simp [joinLines, nodeLines, rows, vfields]
  | real6 l =>
    rw [hr] at hd hsix
    obtain rfl := hsix rfl
    obtain ⟨hn, h1, h2, h3, h4, h5, h6, -⟩ := hd
    have hn' := hn.opt (fs := fs)
    obtain ⟨v, hv, hs⟩ := hn'
    refine ⟨v, hv, by rw [hs.len]; simp [rows], ?_⟩
    apply W.forL_range
    intro i hi
    have hi' : i < l.length := by simpa [rows] using hi
    simp only [W.bind_eq]
    rw [W.bind_row (.cons (HasInts.at_row ⟨v, hv, hs⟩ hi' 10) .nil)]
    simp only [vals55, cplxB, sixB, Bool.false_eq_true, if_false, if_true]
    rw [W.row_eq (.cons (h1.opt.at_row hi' 13 5) (.cons (h2.opt.at_row hi' 13 5) (.cons (h3.opt.at_row hi' 13 5)
      (.cons (h4.opt.at_row hi' 13 5) (.cons (h5.opt.at_row hi' 13 5) (.cons (h6.opt.at_row hi' 13 5) .nil))))))]
    simp [joinLines, nodeLines, rows, vfields]
  | cplx3 l =>
    rw [hr] at hd
    obtain ⟨hn, h1, h2, h3, -⟩ := hd
    have hn' := hn.opt (fs := fs)
    obtain ⟨v, hv, hs⟩ := hn'
    refine ⟨v, hv, by rw [hs.len]; simp [rows], ?_⟩
    apply W.forL_range
    intro i hi
    have hi' : i < l.length := by simpa [rows] using hi
    simp only [W.bind_eq]
    rw [W.bind_row (.cons (HasInts.at_row ⟨v, hv, hs⟩ hi' 10) .nil)]
    simp only [vals55, cplxB, if_true]
    have e1 := cplx_at (opt_cplxs (fs := fs) h1) hi'
    have e2 := cplx_at (opt_cplxs (fs := fs) h2) hi'
    have e3 := cplx_at (opt_cplxs (fs := fs) h3) hi'
    rw [W.row_eq (.cons (fld_re e1 13 5) (.cons (fld_im e1 13 5) (.cons (fld_re e2 13 5)
      (.cons (fld_im e2 13 5) (.cons (fld_re e3 13 5) (.cons (fld_im e3 13 5) .nil))))))]
    simp [joinLines, nodeLines, rows, vfields]

theorem write_with (d : Dict) (r : DS55) (h : Carries d r) (six : Bool) (hsix : cplxB r.data = false → six = sixB r.data)
    (h6 : ((filled d r).has "r4" && (filled d r).has "r5" && (filled d r).has "r6") = six) :
    write55 d = ⟨frameText (linesWith (if six then 6 else 3) r), filled d r, .ok ()⟩ := by
  obtain ⟨v1, hv1, hc⟩ := r1_get d r h
  obtain ⟨v2, hv2, hlen, hloop⟩ := loop_eq d r h six hsix
  simp only [W.bind_eq] at hloop
  have an' : (optFields d opt55).get? "analysis_type" = some (.int (anType r.head)) := get?_opt_present h.an
  have k1 : (if cplxB r.data = true then 5 else 2 : Int) = (kind r.data).1 := by cases r.data <;> rfl
  have ia : HasInt (filled d r) "analysis_type" (anType r.head) := ⟨_, get?_opt_present h.an, rfl⟩
  have i1 : HasStr (filled d r) "id1" r.id1 := h.id1.opt rfl
  have i2 : HasStr (filled d r) "id2" r.id2 := h.id2.opt rfl
  have i3 : HasStr (filled d r) "id3" r.id3 := h.id3.opt rfl
  have i4 : HasStr (filled d r) "id4" r.id4 := h.id4.opt rfl
  have i5 : HasStr (filled d r) "id5" r.id5 := h.id5.opt rfl
  have im : HasInt (filled d r) "model_type" r.model := h.model.opt rfl
  have ic : HasInt (filled d r) "data_ch" r.ch := h.ch.opt
  have is : HasInt (filled d r) "spec_data_type" r.spec := h.spec.opt
  unfold write55
  apply W.guarded_ok
  simp only [W.bind_eq, W.bind_opt]
  rw [W.bind_key an', an_eq, W.bind_lift_ok, W.bind_ok (prep_eq d r h), W.bind_getDict, h6, W.bind_key hv1, hc,
    W.bind_lift_ok, W.bind_emit, k1,
    W.bind_row (.cons (i1.fldL 80) .nil), W.bind_row (.cons (i2.fldL 80) .nil),
    W.bind_row (.cons (i3.fldL 80) .nil), W.bind_row (.cons (i4.fldL 80) .nil),
    W.bind_row (.cons (i5.fldL 80) .nil),
    W.bind_row (.cons (im.fld 10) (.cons (ia.fld 10) (.cons (ic.fld 10) (.cons (is.fld 10)
      (.cons (fld_c (fmtI_eq (isInt_int _) 10)) (.cons (fld_c (fmtI_eq (isInt_int _) 10)) .nil)))))),
    W.bind_ok (head_eq d r h), W.bind_key hv2, hlen, W.bind_lift_ok]
  rw [W.bind_forL_eq hloop]
  simp only [W.emit_eq]
  have e : (rows r.data).flatMap (fun n => joinLines (nodeLines n)) = joinLines ((rows r.data).flatMap nodeLines) :=
    (joinLines_flatMap _ _).symm
  rw [e]
  simp [frameText, linesWith, headText_eq, tailText, tagText, typeFieldsWith, joinLines]
  rfl

theorem write_eq (d : Dict) (r : DS55) (h : Rep d r) :
    write55 d = ⟨frameText r.lines, filled d r, .ok ()⟩ := by
  have k2 : (if sixB r.data = true then 6 else 3 : Int) = (kind r.data).2 := by cases r.data <;> rfl
  rw [write_with d r h.toCarries (sixB r.data) (fun _ => rfl) (six_eq d r h), k2]
  rfl

/-! Reading. -/

/-- Node numbers fit and values are finite. -/
def RowsOk (m : Nat) (l : List (Int × List F64)) : Prop :=
  ∀ n ∈ l, Fits 10 n.1 ∧ n.1 ≠ -1 ∧ n.2.length = m ∧ ∀ x ∈ n.2, x.finite = true

/-- Values per line. -/
def perLine : Data55 → Nat
  | .real3 _ => 3
  | _ => 6

theorem rows_ok (r : DS55) (ok : Ok r) : RowsOk (perLine r.data) (rows r.data) := by
  have hd := ok.data
  cases hr : r.data with
  | real3 l =>
    rw [hr] at hd
    intro n hn
    obtain ⟨a, ha, rfl⟩ := List.mem_map.1 hn
    obtain ⟨h1, h2, h3, h4, h5⟩ := hd a ha
    exact ⟨h1, h2, rfl, by simp [h3, h4, h5]⟩
  | real6 l =>
    rw [hr] at hd
    intro n hn
    obtain ⟨a, ha, rfl⟩ := List.mem_map.1 hn
    obtain ⟨h1, h2, h3, h4, h5, h6, h7, h8⟩ := hd a ha
    exact ⟨h1, h2, rfl, by simp [h3, h4, h5, h6, h7, h8]⟩
  | cplx3 l =>
    rw [hr] at hd
    intro n hn
    obtain ⟨a, ha, rfl⟩ := List.mem_map.1 hn
    obtain ⟨h1, h2, h3, h4, h5⟩ := hd a ha
    exact ⟨h1, h2, rfl, by simp [h3.1, h3.2, h4.1, h4.2, h5.1, h5.2]⟩

theorem vfields_len (vs : List F64) (h : ∀ x ∈ vs, x.finite = true) : ∀ t ∈ vfields vs, t.length = 13 := by
  intro t ht
  obtain ⟨x, hx, rfl⟩ := List.mem_map.1 ht
  exact len_flt 13 5 x (h x hx) (by decide)

theorem vfields_noBreak (vs : List F64) (h : ∀ x ∈ vs, x.finite = true) : NoBreak (vfields vs).flatten := by
  apply noBreak_fields
  intro t ht
  obtain ⟨x, hx, rfl⟩ := List.mem_map.1 ht
  exact noBreak_flt 13 5 x (h x hx)

theorem vfields_tagFree (vs : List F64) (h : ∀ x ∈ vs, x.finite = true) (hne : vs ≠ []) (hl : vs.length ≤ 6) :
    TagFree (vfields vs).flatten := by
  obtain ⟨pre, x, rfl⟩ : ∃ pre x, vs = pre ++ [x] := ⟨vs.dropLast, vs.getLast hne, (List.dropLast_concat_getLast hne).symm⟩
  have e : vfields (pre ++ [x]) = vfields pre ++ [padLeft 13 (fmtE 5 x)] := by simp [vfields]
  rw [e]
  refine tagFree_flt _ 13 5 x ?_ (h x (by simp)) (by decide)
  rw [flatten_length 13 _ (vfields_len pre fun y hy => h y (by simp [hy]))]
  simp [vfields] at hl ⊢
  omega

theorem perLine_le (r : DS55) : perLine r.data ≠ 0 ∧ perLine r.data ≤ 6 := by
  cases r.data <;> simp [perLine]

theorem headFields_vals (h : Head55) (ok : HeadOk h) :
    ∃ vs c load m, headFields h = ([padLeft 10 (intRepr 2), padLeft 10 (intRepr c), padLeft 10 (intRepr load),
      padLeft 10 (intRepr m)], vfields vs) ∧ (∀ x ∈ vs, x.finite = true) ∧ vs ≠ [] ∧ vs.length ≤ 6 ∧ Fits 10 load ∧
      Fits 10 m ∧ m ≠ -1 ∧ Fits 10 c := by
  cases h with
  | normal load mode freq m vis his =>
    obtain ⟨h1, h2, h3, h4, h5, h6, h7⟩ := ok
    exact ⟨[freq, m, vis, his], 4, load, mode, rfl, by simp [h4, h5, h6, h7], by simp, by simp, h1, h2, h3, by decide⟩
  | cmplx s load mode eig a b =>
    obtain ⟨h1, h2, h3, h4, h5, h6⟩ := ok
    exact ⟨[eig.1, eig.2, a.1, a.2, b.1, b.2], 6, load, mode, rfl, by simp [h4.1, h4.2, h5.1, h5.2, h6.1, h6.2], by simp,
      by simp, h1, h2, h3, by decide⟩
  | frf load step freq =>
    obtain ⟨h1, h2, h3, h4⟩ := ok
    exact ⟨[freq], 1, load, step, rfl, by simp [h4], by simp, by simp, h1, h2, h3, by decide⟩

theorem fits_an (h : Head55) : Fits 10 (anType h) := by
  cases h with
  | normal => exact (by decide : Fits 10 2)
  | cmplx s => cases s; exact (by decide : Fits 10 3); exact (by decide : Fits 10 7)
  | frf => exact (by decide : Fits 10 5)
theorem fits_kind1 (d : Data55) : Fits 10 (kind d).1 := by
  cases d
  exacts [(by decide : Fits 10 2), (by decide : Fits 10 2), (by decide : Fits 10 5)]
theorem fits_kind2 (d : Data55) : Fits 10 (kind d).2 ∧ (kind d).2 ≠ -1 := by
  cases d
  exacts [(by decide : Fits 10 3 ∧ (3 : Int) ≠ -1), (by decide : Fits 10 6 ∧ (6 : Int) ≠ -1), (by decide : Fits 10 3 ∧ (3 : Int) ≠ -1)]

theorem nodes_safe (r : DS55) (ok : Ok r) : Safe ((rows r.data).flatMap nodeLines) := by
  refine Safe.flatMap fun n hn => ?_
  obtain ⟨h1, h2, h3, h4⟩ := rows_ok r ok n hn
  obtain ⟨p1, p2⟩ := perLine_le r
  refine Safe.cons (noBreak_int _ _) ?_ (Safe.cons (vfields_noBreak _ h4) (vfields_tagFree _ h4 ?_ (by omega)) Safe.nil)
  · have := tagFree_int [] 10 n.1 (by decide) h1 h2 (by decide)
    simpa using this
  · intro e; rw [e] at h3; simp at h3; omega

theorem safe_with (r : DS55) (ok : Ok r) (n : Int) (hk : Fits 10 n) (hk1 : n ≠ -1) : Safe (linesWith n r) := by
  obtain ⟨vs, c, load, m, e, hv, hne, hl6, hl, hm, hm1, hc⟩ := headFields_vals r.head ok.head
  have l1 : ∀ {t}, LineText 80 t → NoBreak (padRight 80 t) := fun h => NoBreak.padRight h.noBreak
  have l2 : ∀ {t}, LineText 80 t → TagFree (padRight 80 t) := fun h => (tagFree_iff _).2 h.noDelim
  refine safe_idLine 55 (by decide) (by decide) (by decide) (by decide) (Safe.cons (l1 ok.id1) (l2 ok.id1)
    (Safe.cons (l1 ok.id2) (l2 ok.id2) (Safe.cons (l1 ok.id3) (l2 ok.id3) (Safe.cons (l1 ok.id4) (l2 ok.id4)
    (Safe.cons (l1 ok.id5) (l2 ok.id5) (Safe.cons ?_ ?_ (Safe.cons ?_ ?_ (Safe.cons ?_ ?_ (nodes_safe r ok)))))))))
  · apply noBreak_fields
    unfold typeFieldsWith
    simp only [List.forall_mem_cons, noBreak_int, true_and]
    simp
  · refine tagFree_int [_, _, _, _, _] 10 _ ?_ hk hk1 (by decide)
    simp [len_int 10 _ ok.model, len_int 10 _ ok.ch, len_int 10 _ ok.spec, len_int 10 _ (fits_an r.head),
      len_int 10 _ (fits_kind1 r.data)]
  · rw [e]
    apply noBreak_fields
    simp only [List.forall_mem_cons, noBreak_int, true_and]
    simp
  · rw [e]
    refine tagFree_int [_, _, _] 10 _ ?_ hm hm1 (by decide)
    simp [len_int 10 _ hl, len_int 10 _ hc, len_int 10 2 (by decide)]
  · rw [e]; exact vfields_noBreak _ hv
  · rw [e]; exact vfields_tagFree _ hv hne hl6

theorem safe (r : DS55) (ok : Ok r) : Safe r.lines := safe_with r ok _ (fits_kind2 r.data).1 (fits_kind2 r.data).2

theorem readTypes (c : Int) (hk : Fits 10 c) (r : DS55) (ok : Ok r) :
    parseHeader ((typeFieldsWith c r).flatten ++ ['\n']) 6 [10, 10, 10, 10, 10, 10] [.int, .int, .int, .int, .int, .int]
      ["model_type", "analysis_type", "data_ch", "spec_data_type", "data_type", "n_data_per_node"]
      = .ok [("model_type", .int r.model), ("analysis_type", .int (anType r.head)), ("data_ch", .int r.ch),
          ("spec_data_type", .int r.spec), ("data_type", .int (kind r.data).1), ("n_data_per_node", .int c)] := by
  rw [parseHeader_fields _ _ _ _ _ _ (by
    simp [typeFieldsWith, len_int 10 _ ok.model, len_int 10 _ ok.ch, len_int 10 _ ok.spec, len_int 10 _ (fits_an r.head),
      len_int 10 _ (fits_kind1 r.data), len_int 10 _ hk]) (by simp [typeFieldsWith]) (by simp [typeFieldsWith])]
  simp only [typeFieldsWith, List.map_cons, List.map_nil, headerLoop_cons, headerField_int]
  simp only [headerLoop]
  build_dict

theorem readLoad (c load m : Int) (key : String) (hk : key = "mode_n" ∨ key = "freq_step_n") (hc : Fits 10 c)
    (hl : Fits 10 load) (hm : Fits 10 m) :
    parseHeader ([padLeft 10 (intRepr 2), padLeft 10 (intRepr c), padLeft 10 (intRepr load),
      padLeft 10 (intRepr m)].flatten ++ ['\n']) 4 [10, 10, 10, 10, 10, 10, 10, 10]
      [.ign, .ign, .int, .int, .ign, .ign, .ign, .ign] ["", "", "load_case", key, "", "", "", ""]
      = .ok [("load_case", .int load), (key, .int m)] := by
  obtain ⟨tl, h1, h2⟩ := parseHeader_short [padLeft 10 (intRepr 2), padLeft 10 (intRepr c), padLeft 10 (intRepr load),
      padLeft 10 (intRepr m)] ['\n'] 4 [10, 10, 10, 10] [10, 10, 10, 10]
      [.ign, .ign, .int, .int, .ign, .ign, .ign, .ign] ["", "", "load_case", key, "", "", "", ""]
      (by simp [len_int 10 _ hl, len_int 10 _ hc, len_int 10 _ hm, len_int 10 2 (by decide)]) (by simp) (by simp)
  have e : ([10, 10, 10, 10, 10, 10, 10, 10] : List Nat) = [10, 10, 10, 10] ++ [10, 10, 10, 10] := rfl
  rw [e, h2]
  match tl, h1 with
  | [a, b, c, d], _ =>
    simp only [List.map_cons, List.map_nil, List.cons_append, List.nil_append, headerLoop_cons, headerField_int, headerField_ign]
    simp only [headerLoop]
    rcases hk with rfl | rfl <;> build_dict

theorem headerField_v (x : F64) (hx : x.finite = true) :
    headerField .flt (strip (padLeft 13 (fmtE 5 x))) = .ok (some (.float (x.quant 5))) := headerField_flt 13 5 x hx

theorem cplxKeys_eq {d : Dict} {a b : Key} {x y : F64} (ha : d.get? a = some (.float x)) (hb : d.get? b = some (.float y)) :
    cplxKeys d a b = .ok (.cplx (cplxOf x y).1 (cplxOf x y).2) := by
  unfold cplxKeys Dict.get; rw [ha, hb]

theorem cplx_back (z : Cplx) (h : z.Finite) : cplxOf (z.1.quant 5) (z.2.quant 5) = z.quant 5 :=
  cplxOf_eq _ _ (quant_finite_5 _ h.1) (quant_finite_5 _ h.2)

theorem map_len (vs : List F64) (h : ∀ x ∈ vs, x.finite = true) (n : Nat) (hn : vs.length = n) :
    (vfields vs).map List.length = List.replicate n 13 := by
  subst hn
  apply List.eq_replicate_iff.2
  refine ⟨by simp [vfields], ?_⟩
  intro b hb
  obtain ⟨t, ht, rfl⟩ := List.mem_map.1 hb
  exact vfields_len vs h t ht

theorem readNormal (freq m vis his : F64) (h4 : freq.finite = true) (h5 : m.finite = true) (h6 : vis.finite = true)
    (h7 : his.finite = true) :
    parseHeader ([padLeft 13 (fmtE 5 freq), padLeft 13 (fmtE 5 m), padLeft 13 (fmtE 5 vis),
      padLeft 13 (fmtE 5 his)].flatten ++ ['\n']) 4 [13, 13, 13, 13, 13, 13] [.flt, .flt, .flt, .flt, .ign, .ign]
      ["freq", "modal_m", "modal_damp_vis", "modal_damp_his", "", ""]
      = .ok [("freq", .float (freq.quant 5)), ("modal_m", .float (m.quant 5)), ("modal_damp_vis", .float (vis.quant 5)),
          ("modal_damp_his", .float (his.quant 5))] := by
  obtain ⟨tl, t1, t2⟩ := parseHeader_short [padLeft 13 (fmtE 5 freq), padLeft 13 (fmtE 5 m), padLeft 13 (fmtE 5 vis),
      padLeft 13 (fmtE 5 his)] ['\n'] 4 [13, 13, 13, 13] [13, 13] [.flt, .flt, .flt, .flt, .ign, .ign]
      ["freq", "modal_m", "modal_damp_vis", "modal_damp_his", "", ""]
      (by simp [len_flt 13 5 _ h4, len_flt 13 5 _ h5, len_flt 13 5 _ h6, len_flt 13 5 _ h7]) (by simp) (by simp)
  have e : ([13, 13, 13, 13, 13, 13] : List Nat) = [13, 13, 13, 13] ++ [13, 13] := rfl
  rw [e, t2]
  obtain ⟨a, b, rfl⟩ := length_two t1
  · simp only [List.map_cons, List.map_nil, List.cons_append, List.nil_append, headerLoop_cons, headerField_v _ h4,
      headerField_v _ h5, headerField_v _ h6, headerField_v _ h7, headerField_ign]
    simp only [headerLoop]
    build_dict

theorem readFrf (freq : F64) (h4 : freq.finite = true) :
    parseHeader ([padLeft 13 (fmtE 5 freq)].flatten ++ ['\n']) 1 [13, 13, 13, 13, 13, 13]
      [.flt, .ign, .ign, .ign, .ign, .ign] ["freq", "", "", "", "", ""] = .ok [("freq", .float (freq.quant 5))] := by
  obtain ⟨tl, t1, t2⟩ := parseHeader_short [padLeft 13 (fmtE 5 freq)] ['\n'] 1 [13] [13, 13, 13, 13, 13]
      [.flt, .ign, .ign, .ign, .ign, .ign] ["freq", "", "", "", "", ""] (by simp [len_flt 13 5 _ h4]) (by simp) (by simp)
  have e : ([13, 13, 13, 13, 13, 13] : List Nat) = [13] ++ [13, 13, 13, 13, 13] := rfl
  rw [e, t2]
  match tl, t1 with
  | [a, b, c, d, e], _ =>
    simp only [List.map_cons, List.map_nil, List.cons_append, List.nil_append, headerLoop_cons, headerField_v _ h4,
      headerField_ign]
    simp only [headerLoop]
    build_dict

theorem readCmplx (eig a b : Cplx) (h4 : eig.Finite) (h5 : a.Finite) (h6 : b.Finite) :
    parseHeader ([padLeft 13 (fmtE 5 eig.1), padLeft 13 (fmtE 5 eig.2), padLeft 13 (fmtE 5 a.1), padLeft 13 (fmtE 5 a.2),
      padLeft 13 (fmtE 5 b.1), padLeft 13 (fmtE 5 b.2)].flatten ++ ['\n']) 4 [13, 13, 13, 13, 13, 13]
      [.flt, .flt, .flt, .flt, .flt, .flt] ["eig_r", "eig_i", "modal_a_r", "modal_a_i", "modal_b_r", "modal_b_i"]
      = .ok [("eig_r", .float (eig.1.quant 5)), ("eig_i", .float (eig.2.quant 5)), ("modal_a_r", .float (a.1.quant 5)),
          ("modal_a_i", .float (a.2.quant 5)), ("modal_b_r", .float (b.1.quant 5)), ("modal_b_i", .float (b.2.quant 5))] := by
  rw [parseHeader_fields _ _ _ _ _ _ (by simp [len_flt 13 5 _ h4.1, len_flt 13 5 _ h5.1, len_flt 13 5 _ h6.1,
    len_flt 13 5 _ h4.2, len_flt 13 5 _ h5.2, len_flt 13 5 _ h6.2]) (by simp) (by simp)]
  simp only [List.map_cons, List.map_nil, headerLoop_cons, headerField_v _ h4.1,
    headerField_v _ h5.1, headerField_v _ h6.1, headerField_v _ h4.2, headerField_v _ h5.2, headerField_v _ h6.2]
  simp only [headerLoop]
  build_dict

theorem del_fresh (d e : Dict) (k : Key) (h : k ∉ d.map (·.1)) :
    Dict.del (d ++ e) k = match Dict.del e k with
      | .ok r => .ok (d ++ r)
      | .error x => .error x := by
  induction d with
  | nil => cases h' : Dict.del e k <;> simp [h']
  | cons kv r ih =>
    obtain ⟨k', v⟩ := kv
    simp only [List.map_cons, List.mem_cons, not_or] at h
    rw [List.cons_append]
    show (if k' = k then _ else match Dict.del (r ++ e) k with
      | Except.ok r' => Except.ok ((k', v) :: r')
      | Except.error e => Except.error e) = _
    rw [if_neg (fun e => h.1 e.symm), ih h.2]
    cases h' : Dict.del e k <;> rfl

/-- The keys used for the parts of complex numbers, and the complex numbers. -/
def partKeys : List Key := ["eig_r", "eig_i", "modal_a_r", "modal_a_i", "modal_b_r", "modal_b_i", "modal_a", "modal_b", "eig"]

theorem get?_fresh (d e : Dict) (k : Key) (h : k ∉ d.map (·.1)) : Dict.get? (d ++ e) k = Dict.get? e k := by
  induction d with
  | nil => rfl
  | cons kv r ih =>
    obtain ⟨k', v⟩ := kv
    simp only [List.map_cons, List.mem_cons, not_or] at h
    rw [List.cons_append]
    show (if k' = k then some v else Dict.get? (r ++ e) k) = _
    rw [if_neg (fun e => h.1 e.symm), ih h.2]

theorem set_fresh' (d e : Dict) (k : Key) (v : Val) (h : k ∉ d.map (·.1)) : Dict.set (d ++ e) k v = d ++ Dict.set e k v := by
  induction d with
  | nil => rfl
  | cons kv r ih =>
    obtain ⟨k', v'⟩ := kv
    simp only [List.map_cons, List.mem_cons, not_or] at h
    rw [List.cons_append]
    show (if k' = k then _ else (k', v') :: Dict.set (r ++ e) k v) = _
    rw [if_neg (fun e => h.1 e.symm), ih h.2]; rfl

theorem joinParts_tail (v1 v2 v3 v4 v5 v6 : F64) :
    joinParts [("eig_r", .float v1), ("eig_i", .float v2), ("modal_a_r", .float v3), ("modal_a_i", .float v4),
      ("modal_b_r", .float v5), ("modal_b_i", .float v6)]
      = .ok [("modal_a", .cplx (cplxOf v3 v4).1 (cplxOf v3 v4).2), ("modal_b", .cplx (cplxOf v5 v6).1 (cplxOf v5 v6).2),
          ("eig", .cplx (cplxOf v1 v2).1 (cplxOf v1 v2).2)] := rfl

theorem joinParts_fresh (d e : Dict) (h : ∀ k ∈ partKeys, k ∉ d.map (·.1)) :
    joinParts (d ++ e) = match joinParts e with
      | .ok r => .ok (d ++ r)
      | .error x => .error x := by
  unfold partKeys at h
  simp only [List.forall_mem_cons] at h
  obtain ⟨k1, k2, k3, k4, k5, k6, k7, k8, k9, -⟩ := h
  have c : ∀ (e : Dict) (a b : Key), a ∉ d.map (·.1) → b ∉ d.map (·.1) → cplxKeys (d ++ e) a b = cplxKeys e a b := by
    intro e a b ha hb
    unfold cplxKeys Dict.get
    rw [get?_fresh d e a ha, get?_fresh d e b hb]
  unfold joinParts
  rw [c _ _ _ k3 k4]
  cases cplxKeys e "modal_a_r" "modal_a_i" with
  | error x => rfl
  | ok v =>
    simp only [ok_bind, set_fresh' d _ _ _ k7]
    rw [c _ _ _ k5 k6]
    cases cplxKeys (e.set "modal_a" v) "modal_b_r" "modal_b_i" with
    | error x => rfl
    | ok v =>
      simp only [ok_bind, set_fresh' d _ _ _ k8]
      rw [c _ _ _ k1 k2]
      generalize Dict.set (e.set "modal_a" _) "modal_b" _ = e
      cases cplxKeys e "eig_r" "eig_i" with
      | error x => rfl
      | ok v =>
        simp only [ok_bind, set_fresh' d _ _ _ k9]
        rw [del_fresh d _ _ k3]
        generalize Dict.set e "eig" v = e
        cases Dict.del e "modal_a_r" with
        | error x => rfl
        | ok e =>
          simp only [ok_bind]
          rw [del_fresh d _ _ k4]
          cases Dict.del e "modal_a_i" with
          | error x => rfl
          | ok e =>
            simp only [ok_bind]
            rw [del_fresh d _ _ k5]
            cases Dict.del e "modal_b_r" with
            | error x => rfl
            | ok e =>
              simp only [ok_bind]
              rw [del_fresh d _ _ k6]
              cases Dict.del e "modal_b_i" with
              | error x => rfl
              | ok e =>
                simp only [ok_bind]
                rw [del_fresh d _ _ k1]
                cases Dict.del e "eig_r" with
                | error x => rfl
                | ok e =>
                  simp only [ok_bind]
                  rw [del_fresh d _ _ k2]

/-- The entries common to all analysis types, with the number `c` of values per node. -/
def commonWith (c : Int) (r : DS55) : Dict :=
  [("type", .int 55), ("id1", .str (strip r.id1)), ("id2", .str (strip r.id2)), ("id3", .str (strip r.id3)),
   ("id4", .str (strip r.id4)), ("id5", .str (strip r.id5)), ("model_type", .int r.model),
   ("analysis_type", .int (anType r.head)), ("data_ch", .int r.ch), ("spec_data_type", .int r.spec),
   ("data_type", .int (kind r.data).1), ("n_data_per_node", .int c)]

theorem readHead_with (c : Int) (r : DS55) (ok : Ok r) (pre : List Text) (rest : List Text) (hp : pre.length = 8) :
    readHead55 (pre ++ ((headFields r.head).1.flatten ++ ['\n']) :: ((headFields r.head).2.flatten ++ ['\n']) :: rest) (commonWith c r)
      = .ok (commonWith c r ++ headBack r.head) := by
  have i8 : (pre ++ ((headFields r.head).1.flatten ++ ['\n']) :: ((headFields r.head).2.flatten ++ ['\n']) :: rest)[8]?
      = some ((headFields r.head).1.flatten ++ ['\n']) := by
    rw [List.getElem?_append_right (by omega), hp]; rfl
  have i9 : (pre ++ ((headFields r.head).1.flatten ++ ['\n']) :: ((headFields r.head).2.flatten ++ ['\n']) :: rest)[9]?
      = some ((headFields r.head).2.flatten ++ ['\n']) := by
    rw [List.getElem?_append_right (by omega), hp]; rfl
  have ga : Dict.get (commonWith c r) "analysis_type" = .ok (.int (anType r.head)) := rfl
  have hok := ok.head
  unfold readHead55
  rw [ga, ok_bind, an_eq, ok_bind, i8, i9]
  clear i8 i9 ga
  cases hr : r.head with
  | normal load mode freq m vis his =>
    rw [hr] at hok
    obtain ⟨h1, h2, h3, h4, h5, h6, h7⟩ := hok
    simp only [an, headFields, orIndex, ok_bind]
    rw [readLoad 4 load mode "mode_n" (Or.inl rfl) (by decide) h1 h2, ok_bind, readNormal _ _ _ _ h4 h5 h6 h7, ok_bind]
    rw [Dict.update_update, Dict.update_fresh]
    · rfl
    · simp only [commonWith, List.map_cons, List.map_nil, List.cons_append, List.nil_append]
      decide +kernel
  | frf load step freq =>
    rw [hr] at hok
    obtain ⟨h1, h2, h3, h4⟩ := hok
    simp only [an, headFields, orIndex, ok_bind]
    rw [readLoad 1 load step "freq_step_n" (Or.inr rfl) (by decide) h1 h2, ok_bind, readFrf _ h4, ok_bind]
    rw [Dict.update_update, Dict.update_fresh]
    · rfl
    · simp only [commonWith, List.map_cons, List.map_nil, List.cons_append, List.nil_append]
      decide +kernel
  | cmplx s load mode eig a b =>
    rw [hr] at hok
    obtain ⟨h1, h2, h3, h4, h5, h6⟩ := hok
    simp only [an, headFields, orIndex, ok_bind]
    rw [readLoad 6 load mode "mode_n" (Or.inl rfl) (by decide) h1 h2, ok_bind, readCmplx _ _ _ h4 h5 h6, ok_bind]
    rw [Dict.update_update, Dict.update_fresh]
    · rw [← List.append_assoc, joinParts_fresh, joinParts_tail]
      · simp only [cplx_back _ h4, cplx_back _ h5, cplx_back _ h6]
        rw [List.append_assoc]; rfl
      · intro k hk
        simp only [commonWith, List.map_cons, List.map_nil, List.cons_append, List.nil_append]
        revert k
        unfold partKeys
        decide +kernel
    · simp only [commonWith, List.map_cons, List.map_nil, List.cons_append, List.nil_append]
      decide +kernel

theorem readHead (r : DS55) (ok : Ok r) (pre : List Text) (rest : List Text) (hp : pre.length = 8) :
    readHead55 (pre ++ ((headFields r.head).1.flatten ++ ['\n']) :: ((headFields r.head).2.flatten ++ ['\n']) :: rest) r.common
      = .ok (r.common ++ headBack r.head) := readHead_with _ r ok pre rest hp

theorem mapRes_floats (vs : List F64) (h : ∀ x ∈ vs, x.finite = true) :
    mapRes pyFloat (vfields vs) = .ok (vs.map (F64.quant 5)) :=
  mapRes_map vs _ _ fun x hx => pyFloat_pad 13 5 x (h x hx)

theorem mapRes_rows (l : List (Int × List F64)) (m : Nat) (h : RowsOk m l) :
    mapRes pyFloat ((l.map fun n => vfields n.2).flatten) = .ok (l.flatMap fun n => n.2.map (F64.quant 5)) := by
  rw [← List.flatMap_def]
  exact mapRes_flatMap l _ _ fun n hn => mapRes_floats n.2 (h n hn).2.2.2

theorem floatRows_eq (l : List (Int × List F64)) (m : Nat) (h : RowsOk m l) :
    floatRows (l.map fun n => vfields n.2) = .ok (l.flatMap fun n => n.2.map (F64.quant 5)) := by
  cases l with
  | nil => rfl
  | cons a r =>
    have := mapRes_rows (a :: r) m h
    rw [List.map_cons] at this ⊢
    unfold floatRows
    simp only
    rw [if_pos, this]
    rw [List.all_eq_true]
    intro s hs
    obtain ⟨n, hn, rfl⟩ := List.mem_map.1 hs
    simp [vfields, (h n (by simp [hn])).2.2.1, (h a (by simp)).2.2.1]

theorem asIntArray_eq (l : List Int) (h : ∀ n ∈ l, Fits 10 n) : asIntArray l = .ok (numsBack l) := by
  unfold asIntArray numsBack
  by_cases h0 : l.isEmpty = true
  · rw [if_pos h0, if_pos h0]
  · rw [if_neg h0, if_neg h0, if_pos]
    rw [List.all_eq_true]
    intro n hn
    obtain ⟨h1, h2⟩ := h n hn
    simp only [decide_eq_true_eq]
    constructor <;> omega

theorem body_lines (r : DS55) (ok : Ok r) :
    splitLinesKeep (((rows r.data).flatMap nodeLines).map (· ++ ['\n'])).flatten
      = (rows r.data).flatMap fun n => [padLeft 10 (intRepr n.1) ++ ['\n'], (vfields n.2).flatten ++ ['\n']] := by
  have e : (((rows r.data).flatMap nodeLines).map (· ++ ['\n'])).flatten = joinLines ((rows r.data).flatMap nodeLines) := by
    unfold joinLines; rw [← List.flatMap_def]
  rw [e, splitLinesKeep_joinLines _ (fun l hl => ((nodes_safe r ok) l hl).1), List.map_flatMap]
  rfl

theorem zip_cols {α : Type} (l : List α) (f g : α → F64) (h : α → Cplx)
    (e : ∀ a ∈ l, cplxOf (f a) (g a) = h a) : ((l.map f).zip (l.map g)).map (fun p => cplxOf p.1 p.2) = l.map h := by
  induction l with
  | nil => rfl
  | cons a r ih =>
    simp only [List.map_cons, List.zip_cons_cons]
    rw [e a (by simp), ih fun b hb => e b (by simp [hb])]

theorem numEqs : (Val.int 2).numEq 2 = true ∧ (Val.int 3).numEq 3 = true ∧ (Val.int 6).numEq 3 = false
    ∧ (Val.int 5).numEq 2 = false ∧ (Val.int 5).numEq 5 = true := by decide

theorem cols {α : Type} (l : List α) (f : α → Int × List F64) (n k : Nat) (g : α → F64)
    (h1 : ∀ a ∈ l, (f a).2.length = n) (h2 : ∀ a ∈ l, (f a).2[k]? = some (g a)) :
    everyN k n ((l.map f).flatMap fun n => n.2.map (F64.quant 5)) = l.map fun a => (g a).quant 5 := by
  rw [List.flatMap_map]
  refine everyN_flatMap n k l _ _ (fun a ha => by simp [h1 a ha]) fun a ha => ?_
  rw [List.getElem?_map, h2 a ha]; rfl

theorem readBody (r : DS55) (ok : Ok r) :
    readBody55 (((rows r.data).flatMap nodeLines).map (· ++ ['\n'])).flatten (r.common ++ headBack r.head)
      = .ok (r.common ++ (headBack r.head ++ dataBack r.data)) := by
  have hrows := rows_ok r ok
  have e1 : everyN 0 2 ((rows r.data).flatMap fun n => [padLeft 10 (intRepr n.1) ++ ['\n'], (vfields n.2).flatten ++ ['\n']])
      = (rows r.data).map fun n => padLeft 10 (intRepr n.1) ++ ['\n'] :=
    everyN_flatMap 2 0 _ _ _ (fun _ _ => rfl) (fun _ _ => rfl)
  have e2 : everyN 1 2 ((rows r.data).flatMap fun n => [padLeft 10 (intRepr n.1) ++ ['\n'], (vfields n.2).flatten ++ ['\n']])
      = (rows r.data).map fun n => (vfields n.2).flatten ++ ['\n'] :=
    everyN_flatMap 2 1 _ _ _ (fun _ _ => rfl) (fun _ _ => rfl)
  have e3 : ((rows r.data).map fun n => (vfields n.2).flatten ++ ['\n']).map (chunks 13) = (rows r.data).map fun n => vfields n.2 := by
    rw [List.map_map]
    refine List.map_congr_left fun n hn => ?_
    exact chunks_flatten 13 _ ['\n'] (vfields_len _ (hrows n hn).2.2.2) (by decide)
  have e4 : mapRes pyInt ((rows r.data).map fun n => padLeft 10 (intRepr n.1) ++ ['\n']) = .ok ((rows r.data).map (·.1)) :=
    mapRes_map _ _ _ fun n _ => pyInt_line 10 n.1
  have g1 : Dict.get (r.common ++ headBack r.head) "data_type" = .ok (.int (kind r.data).1) := rfl
  have g2 : Dict.get (r.common ++ headBack r.head) "n_data_per_node" = .ok (.int (kind r.data).2) := rfl
  have fresh : ∀ e : Dict, (∀ k ∈ e.map (·.1), k ∈ (["node_nums", "r1", "r2", "r3", "r4", "r5", "r6"] : List Key)) →
      (e.map (·.1)).Nodup → (r.common ++ headBack r.head).update e = r.common ++ (headBack r.head ++ e) := by
    intro e h1 h2
    rw [Dict.update_fresh, List.append_assoc]
    rw [List.map_append]
    refine List.nodup_append.2 ⟨?_, h2, ?_⟩
    · cases r.head
      all_goals
        simp only [common, headBack, List.map_cons, List.map_nil, List.cons_append, List.nil_append]
        decide +kernel
    · intro a ha b hb hab
      subst hab
      have hb := h1 a hb
      revert a
      have : ∀ a ∈ (["node_nums", "r1", "r2", "r3", "r4", "r5", "r6"] : List Key), a ∉ (r.common ++ headBack r.head).map (·.1) := by
        cases r.head
        all_goals
          simp only [common, headBack, List.map_cons, List.map_nil, List.cons_append, List.nil_append]
          decide +kernel
      intro a ha _ hb
      exact this a hb ha
  unfold readBody55
  simp only [body_lines r ok, e1, e2, e3, e4, ok_bind, floatRows_eq _ _ hrows, g1, g2]
  rw [asIntArray_eq _ (by
    intro n hn
    obtain ⟨a, ha, rfl⟩ := List.mem_map.1 hn
    exact (hrows a ha).1), ok_bind]
  have hd := ok.data
  clear e1 e2 e3 e4 g1 g2 hrows
  cases hr : r.data with
  | real3 l =>
    simp only [kind, numEqs, rows, if_true, Bool.false_eq_true, if_false]
    rw [fresh _ (by simp) (by
      simp only [List.map_cons, List.map_nil]; decide +kernel)]
    rw [cols l _ 3 0 (·.x) (fun _ _ => rfl) (fun _ _ => rfl), cols l _ 3 1 (·.y) (fun _ _ => rfl) (fun _ _ => rfl),
      cols l _ 3 2 (·.z) (fun _ _ => rfl) (fun _ _ => rfl), List.map_map]
    rfl
  | real6 l =>
    simp only [kind, numEqs, rows, if_true, Bool.false_eq_true, if_false]
    rw [fresh _ (by simp) (by
      simp only [List.map_cons, List.map_nil]; decide +kernel)]
    rw [cols l _ 6 0 (·.x) (fun _ _ => rfl) (fun _ _ => rfl), cols l _ 6 1 (·.y) (fun _ _ => rfl) (fun _ _ => rfl),
      cols l _ 6 2 (·.z) (fun _ _ => rfl) (fun _ _ => rfl), cols l _ 6 3 (·.xx) (fun _ _ => rfl) (fun _ _ => rfl),
      cols l _ 6 4 (·.yy) (fun _ _ => rfl) (fun _ _ => rfl), cols l _ 6 5 (·.zz) (fun _ _ => rfl) (fun _ _ => rfl),
      List.map_map]
    rfl
  | cplx3 l =>
    rw [hr] at hd
    simp only [kind, numEqs, rows, if_true, Bool.false_eq_true, if_false]
    have c : ∀ (a b : Nat) (f : NodeC → Cplx), (∀ n ∈ l, (f n).Finite) →
        (∀ n : NodeC, [n.x.1, n.x.2, n.y.1, n.y.2, n.z.1, n.z.2][a]? = some (f n).1) →
        (∀ n : NodeC, [n.x.1, n.x.2, n.y.1, n.y.2, n.z.1, n.z.2][b]? = some (f n).2) →
        cplxCols ((l.map fun n => (n.num, [n.x.1, n.x.2, n.y.1, n.y.2, n.z.1, n.z.2])).flatMap
          fun n => n.2.map (F64.quant 5)) a b = .ok (.arrC (l.map fun n => (f n).quant 5)) := by
      intro a b f hf ha hb
      unfold cplxCols
      rw [cols l _ 6 a (fun n => (f n).1) (fun _ _ => rfl) (fun n _ => ha n),
        cols l _ 6 b (fun n => (f n).2) (fun _ _ => rfl) (fun n _ => hb n)]
      simp only [List.length_map, if_true]
      rw [zip_cols l _ _ (fun n => (f n).quant 5) fun n hn => cplx_back _ (hf n hn)]
    rw [c 0 1 (·.x) (fun n hn => (hd n hn).2.2.1) (fun _ => rfl) (fun _ => rfl), ok_bind,
      c 2 3 (·.y) (fun n hn => (hd n hn).2.2.2.1) (fun _ => rfl) (fun _ => rfl), ok_bind,
      c 4 5 (·.z) (fun n hn => (hd n hn).2.2.2.2) (fun _ => rfl) (fun _ => rfl), ok_bind,
      fresh _ (by simp) (by simp only [List.map_cons, List.map_nil]; decide +kernel), List.map_map]
    rfl

theorem read_with (c : Int) (hk : Fits 10 c) (hk1 : c ≠ -1) (r : DS55) (ok : Ok r) :
    extract55 (blockText (linesWith c r)) = readGuard 55 (readBody55 (((rows r.data).flatMap nodeLines).map (· ++ ['\n'])).flatten
      (commonWith c r ++ headBack r.head)) := by
  have ids : ∀ (t : Text) (k : Key), LineText 80 t → parseHeader (padRight 80 t ++ ['\n']) 1 [80] [.str] [k]
      = .ok [(k, .str (strip t))] := fun t k h => parseHeader_str 80 t _ k h.fits
  unfold extract55
  rw [splitKeep_block _ (safe_with r ok c hk hk1)]
  simp only [linesWith, List.map_cons, List.getElem?_cons_succ, List.getElem?_cons_zero, orIndex, ok_bind, ids _ _ ok.id1,
    ids _ _ ok.id2, ids _ _ ok.id3, ids _ _ ok.id4, ids _ _ ok.id5, readTypes c hk r ok]
  have hd : ((((((Dict.update [("type", .int 55)] [("id1", .str (strip r.id1))]).update [("id2", .str (strip r.id2))]).update
      [("id3", .str (strip r.id3))]).update [("id4", .str (strip r.id4))]).update [("id5", .str (strip r.id5))]).update
      [("model_type", .int r.model), ("analysis_type", .int (anType r.head)), ("data_ch", .int r.ch),
       ("spec_data_type", .int r.spec), ("data_type", .int (kind r.data).1), ("n_data_per_node", .int c)])
      = commonWith c r := by
    unfold commonWith
    build_dict
  rw [hd]
  have := readHead_with c r ok ((tagText ++ ['\n']) :: (idLine 55 ++ ['\n']) :: (padRight 80 r.id1 ++ ['\n']) :: (padRight 80 r.id2 ++ ['\n'])
    :: (padRight 80 r.id3 ++ ['\n']) :: (padRight 80 r.id4 ++ ['\n']) :: (padRight 80 r.id5 ++ ['\n']) :: [(typeFieldsWith c r).flatten ++ ['\n']])
    (((rows r.data).flatMap nodeLines).map (· ++ ['\n'])) rfl
  simp only [List.cons_append, List.nil_append] at this
  rw [this, ok_bind]
  simp only [List.drop_succ_cons, List.drop_zero]

theorem read_eq (r : DS55) (ok : Ok r) : extract55 (blockText r.lines) = .ok r.readBack := by
  rw [lines, read_with _ (fits_kind2 r.data).1 (fits_kind2 r.data).2 r ok]
  show readGuard 55 (readBody55 _ (r.common ++ headBack r.head)) = _
  rw [readBody r ok]
  rfl

/-- Six complex values per node cannot be read. -/
theorem read_lost (r : DS55) (ok : Ok r) (l : List NodeC) (hl : r.data = .cplx3 l) :
    extract55 (blockText (linesWith 6 r)) = .error (.reading 55) := by
  have hrows := rows_ok r ok
  have e1 : everyN 0 2 ((rows r.data).flatMap fun n => [padLeft 10 (intRepr n.1) ++ ['\n'], (vfields n.2).flatten ++ ['\n']])
      = (rows r.data).map fun n => padLeft 10 (intRepr n.1) ++ ['\n'] :=
    everyN_flatMap 2 0 _ _ _ (fun _ _ => rfl) (fun _ _ => rfl)
  have e2 : everyN 1 2 ((rows r.data).flatMap fun n => [padLeft 10 (intRepr n.1) ++ ['\n'], (vfields n.2).flatten ++ ['\n']])
      = (rows r.data).map fun n => (vfields n.2).flatten ++ ['\n'] :=
    everyN_flatMap 2 1 _ _ _ (fun _ _ => rfl) (fun _ _ => rfl)
  have e3 : ((rows r.data).map fun n => (vfields n.2).flatten ++ ['\n']).map (chunks 13) = (rows r.data).map fun n => vfields n.2 := by
    rw [List.map_map]
    refine List.map_congr_left fun n hn => ?_
    exact chunks_flatten 13 _ ['\n'] (vfields_len _ (hrows n hn).2.2.2) (by decide)
  have e4 : mapRes pyInt ((rows r.data).map fun n => padLeft 10 (intRepr n.1) ++ ['\n']) = .ok ((rows r.data).map (·.1)) :=
    mapRes_map _ _ _ fun n _ => pyInt_line 10 n.1
  have g1 : Dict.get (commonWith 6 r ++ headBack r.head) "data_type" = .ok (.int (kind r.data).1) := rfl
  have g2 : Dict.get (commonWith 6 r ++ headBack r.head) "n_data_per_node" = .ok (.int 6) := rfl
  rw [read_with 6 (by decide) (by decide) r ok]
  unfold readBody55
  simp only [body_lines r ok, e1, e2, e3, e4, ok_bind, floatRows_eq _ _ hrows, g1, g2]
  rw [asIntArray_eq _ (by
    intro n hn
    obtain ⟨a, ha, rfl⟩ := List.mem_map.1 hn
    exact (hrows a ha).1), ok_bind, hl]
  rfl

theorem roundTrip (d : Dict) (r : DS55) (h : Rep d r) (ok : Ok r) :
    RoundTrip 55 write55 extract55 d r.readBack r.lines :=
  ⟨safe r ok, ⟨_, write_eq d r h⟩, (blockType_block _ _ (by decide)).trans (by decide +kernel), read_eq r ok⟩

end DS55
end Verif
