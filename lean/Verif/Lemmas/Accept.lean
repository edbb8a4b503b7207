import Verif.Spec.Accept
import Verif.Lemmas.Used
/-
Which dictionaries a writer accepts.
-/
namespace Verif

/-- The outcome is not one the model leaves open. -/
def Py {α} (r : Res α) : Prop := r ≠ .error .unmodelled

theorem py_ok {α} {a : α} : Py (.ok a : Res α) := by intro h; cases h

theorem py_err {α} {e : Err} (h : e ≠ .unmodelled) : Py (.error e : Res α) := fun h' => h (Except.error.inj h')

theorem py_map {α β} {r : Res α} {f : α → β} (h : Py r) : Py (r.map f) := by
  cases r with
  | ok a => exact py_ok
  | error e => intro h'; apply h; cases h'; rfl

theorem py_index {α} (o : Option α) : Py (orIndex o) := by cases o <;> (intro h; cases h)

theorem py_get (d : Dict) (k : Key) : Py (d.get k) := by
  unfold Dict.get Py
  cases d.get? k <;> (intro h; cases h)

theorem py_idx (v : Val) (i : Nat) : Py (v.idx i) := by
  cases v with
  | dict l => exact py_get l (.i i)
  | none => intro h; cases h
  | bool b => intro h; cases h
  | int n => intro h; cases h
  | float x => intro h; cases h
  | cplx x y => intro h; cases h
  | str s => exact py_index _
  | arrI l => exact py_index _
  | arrF l => exact py_index _
  | arrC l => exact py_index _
  | mat l => exact py_index _
  | list l => exact py_index _

theorem py_len (v : Val) : Py v.len := by cases v <;> (intro h; cases h)

/-- `fmt` succeeds exactly on the acceptable values of the kind. -/
structure FitsK (K : EntryKind) (fmt : Val → Res Text) : Prop where
  ok : ∀ v, (fmt v).isOk = K.accepts v
  py : ∀ v, K.known v = true → Py (fmt v)

theorem isOk_map {α β} (r : Res α) (f : α → β) : (r.map f).isOk = r.isOk := by cases r <;> rfl

theorem toInt_ok (v : Val) : v.toInt.isOk = intOk v := by
  cases v with
  | float x =>
    unfold Val.toInt intOk F64.toInt
    by_cases h : x.finite = true
    · simp only [h, if_true]; rfl
    · simp only [h]; rfl
  | _ => rfl
theorem toInt_py (v : Val) (h : scalarKnown v = true) : Py v.toInt := by
  cases v with
  | float x =>
    have hx : (Val.float x).toInt = match x.toInt with
      | some n => .ok n
      | none => .error (if x.isNaN then .value else .overflow) := rfl
    rw [hx]
    generalize x.toInt = o
    generalize x.isNaN = b
    cases o with
    | some n => exact py_ok
    | none => cases b <;> exact py_err (by decide)
  | none => intro h; cases h
  | bool b => intro h; cases h
  | int n => intro h; cases h
  | str s => intro h; cases h
  | list l => intro h; cases h
  | dict l => intro h; cases h
  | _ => cases h
theorem toFloat_ok (v : Val) : v.toFloat.isOk = floatOk v := by
  cases v with
  | int n =>
    unfold Val.toFloat floatOk
    simp only
    generalize F64.ofInt n = x
    by_cases h : x.finite = true
    · rw [if_pos h, h]; rfl
    · rw [if_neg h, Bool.eq_false_iff.2 h]; rfl
  | _ => rfl
theorem toFloat_py (v : Val) (h : scalarKnown v = true) : Py v.toFloat := by
  cases v with
  | int n =>
    have hx : (Val.int n).toFloat = if (F64.ofInt n).finite then .ok (F64.ofInt n) else .error .overflow := rfl
    rw [hx]
    generalize F64.ofInt n = x
    by_cases hf : x.finite = true
    · rw [if_pos hf]; exact py_ok
    · rw [if_neg hf]; exact py_err (by decide)
  | none => intro h; cases h
  | bool b => intro h; cases h
  | float x => intro h; cases h
  | str s => intro h; cases h
  | list l => intro h; cases h
  | dict l => intro h; cases h
  | _ => cases h

theorem fits_i (w : Nat) : FitsK .int (fmtI w) := ⟨fun v => (isOk_map _ _).trans (toInt_ok v), fun v h => py_map (toInt_py v h)⟩
theorem fits_e (w p : Nat) : FitsK .float (fmtEV w p) := ⟨fun v => (isOk_map _ _).trans (toFloat_ok v), fun v h => py_map (toFloat_py v h)⟩
theorem fits_sl (w : Nat) : FitsK .text (fmtSL w) :=
  ⟨fun v => (isOk_map _ _).trans (by cases v <;> rfl), fun v h => py_map (by cases v <;> first | (cases h; done) | (intro h; cases h))⟩
theorem fits_sr (w : Nat) : FitsK .text (fmtSR w) :=
  ⟨fun v => (isOk_map _ _).trans (by cases v <;> rfl), fun v h => py_map (by cases v <;> first | (cases h; done) | (intro h; cases h))⟩
theorem recField_eq (v : Val) (f : RFmt) (h : ∀ s, v ≠ .str s) : ∃ g : F64 → Text, recField v f = v.toFloat.map g := by
  cases f with
  | f0 w => exact ⟨fun x => padLeft w (fmtF0 x), by cases v with
    | str s => exact absurd rfl (h s)
    | _ => rfl⟩
  | eU w p => exact ⟨fun x => padLeft w (fmtEU p x), by cases v with
    | str s => exact absurd rfl (h s)
    | _ => rfl⟩
theorem fits_rec (f : RFmt) : FitsK .float (fun v => recField v f) := by
  have hs : ∀ s, recField (.str s) f = .error .value := fun s => by cases f <;> rfl
  have each : ∀ v : Val, (recField v f).isOk = floatOk v ∧ (scalarKnown v = true → Py (recField v f)) := by
    intro v
    by_cases hv : ∃ s, v = .str s
    · obtain ⟨s, rfl⟩ := hv
      rw [hs]
      exact ⟨rfl, fun _ h => by cases h⟩
    · obtain ⟨g, hg⟩ := recField_eq v f fun s h => hv ⟨s, h⟩
      rw [hg, isOk_map]
      exact ⟨toFloat_ok v, fun h => py_map (toFloat_py v h)⟩
  exact ⟨fun v => (each v).1, fun v => (each v).2⟩

theorem mapRes_isOk {α β} (f : α → Res β) (l : List α) : (mapRes f l).isOk = l.all fun a => (f a).isOk := by
  induction l with
  | nil => rfl
  | cons a r ih =>
    rw [List.all_cons, ← ih]
    conv_lhs => unfold mapRes
    cases f a with
    | error e => rfl
    | ok b => cases mapRes f r <;> rfl
theorem mapRes_py {α β} (f : α → Res β) (l : List α) (h : ∀ a ∈ l, Py (f a)) : Py (mapRes f l) := by
  induction l with
  | nil => exact py_ok
  | cons a r ih =>
    have h1 := h a List.mem_cons_self
    have h2 := ih fun b hb => h b (List.mem_cons_of_mem _ hb)
    unfold mapRes
    cases hf : f a with
    | error e => rw [hf] at h1; intro h'; cases h'; exact h1 rfl
    | ok b =>
      cases hm : mapRes f r with
      | error e => rw [hm] at h2; intro h'; cases h'; exact h2 rfl
      | ok bs => exact py_ok

theorem fits_mask : FitsK .ints maskText := by
  have key : ∀ v : Val, maskText v = match v.items with
      | .error e => .error e
      | .ok l => (mapRes (fmtI 2) l).map List.flatten := by
    intro v
    unfold maskText
    cases v.items with
    | error e => rfl
    | ok l =>
      rw [ok_bind]
      simp only
      cases mapRes (fmtI 2) l with
      | error e => rw [error_bind]; rfl
      | ok ts => rw [ok_bind]; rfl
  refine ⟨fun v => ?_, fun v h => ?_⟩
  · have hacc : EntryKind.accepts .ints v = match v.items with
      | .ok l => l.all intOk
      | .error _ => false := by cases v <;> rfl
    rw [key, hacc]
    cases v.items with
    | error e => rfl
    | ok l =>
      simp only [isOk_map, mapRes_isOk]
      congr 1
      funext a
      exact (isOk_map _ _).trans (toInt_ok a)
  · rw [key]
    have hl : ∀ l, (l.all scalarKnown = true) → Py ((mapRes (fmtI 2) l).map List.flatten) := fun l hl =>
      py_map (mapRes_py _ _ fun a ha => py_map (toInt_py a (List.all_eq_true.1 hl a ha)))
    cases v with
    | dict l => cases h
    | none => exact py_err (by decide)
    | bool b => exact py_err (by decide)
    | int n => exact py_err (by decide)
    | float x => exact py_err (by decide)
    | cplx x y => exact py_err (by decide)
    | str s => exact hl _ h
    | arrI l => exact hl _ h
    | arrF l => exact hl _ h
    | arrC l => exact hl _ h
    | mat l => exact hl _ h
    | list l => exact hl _ h

/-- The tuple `fs` can be formatted exactly when `P` holds. -/
structure FJ (fs : List Fld) (d : Dict) (P : Prop) : Prop where
  ok : (∃ vs t, evalFlds d fs = .ok vs ∧ fmtFlds fs vs = .ok t) ↔ P
  pe : Py (evalFlds d fs)
  pf : ∀ vs, evalFlds d fs = .ok vs → Py (fmtFlds fs vs)

theorem fj_nil {d : Dict} : FJ [] d True :=
  ⟨⟨fun _ => trivial, fun _ => ⟨[], [], rfl, rfl⟩⟩, py_ok, fun _ _ => py_ok⟩

theorem fj_cons {f : Fld} {fs : List Fld} {d : Dict} {P Q : Prop} (hp : (∃ v t, f.acc d = .ok v ∧ f.fmt v = .ok t) ↔ P)
    (pa : Py (f.acc d)) (pf : ∀ v, f.acc d = .ok v → Py (f.fmt v)) (h : FJ fs d Q) : FJ (f :: fs) d (P ∧ Q) := by
  have he : ∀ vs, evalFlds d (f :: fs) = .ok vs → ∃ v us, f.acc d = .ok v ∧ evalFlds d fs = .ok us ∧ vs = v :: us := by
    intro vs hv
    unfold evalFlds at hv
    cases ha : f.acc d with
    | error e => rw [ha] at hv; cases hv
    | ok v =>
      rw [ha] at hv
      cases hb : evalFlds d fs with
      | error e => rw [hb] at hv; cases hv
      | ok us => rw [hb] at hv; cases hv; exact ⟨v, us, rfl, rfl, rfl⟩
  refine ⟨⟨?_, ?_⟩, ?_, ?_⟩
  · rintro ⟨vs, t, h1, h2⟩
    obtain ⟨v, us, ha, hb, rfl⟩ := he vs h1
    unfold fmtFlds at h2
    cases hc : f.fmt v with
    | error e => rw [hc] at h2; cases h2
    | ok t1 =>
      rw [hc] at h2
      cases hd : fmtFlds fs us with
      | error e => rw [hd] at h2; cases h2
      | ok t2 => exact ⟨hp.1 ⟨v, t1, ha, hc⟩, h.ok.1 ⟨us, t2, hb, hd⟩⟩
  · rintro ⟨p, q⟩
    obtain ⟨v, t1, ha, hc⟩ := hp.2 p
    obtain ⟨us, t2, hb, hd⟩ := h.ok.2 q
    exact ⟨v :: us, t1 ++ t2, by simp only [evalFlds, ha, hb], by simp only [fmtFlds, hc, hd]⟩
  · unfold evalFlds
    cases ha : f.acc d with
    | error e => rw [ha] at pa; intro h'; cases h'; exact pa rfl
    | ok v =>
      have := h.pe
      cases hb : evalFlds d fs with
      | error e => rw [hb] at this; intro h'; cases h'; exact this rfl
      | ok us => exact py_ok
  · intro vs hv
    obtain ⟨v, us, ha, hb, rfl⟩ := he vs hv
    have h1 := pf v ha
    have h2 := h.pf us hb
    unfold fmtFlds
    cases hc : f.fmt v with
    | error e => rw [hc] at h1; intro h'; cases h'; exact h1 rfl
    | ok t1 =>
      cases hd : fmtFlds fs us with
      | error e => rw [hd] at h2; intro h'; cases h'; exact h2 rfl
      | ok t2 => exact py_ok

theorem isOk_iff {α} {r : Res α} : r.isOk = true ↔ ∃ a, r = .ok a := by
  cases r with
  | ok a => exact ⟨fun _ => ⟨a, rfl⟩, fun _ => rfl⟩
  | error e => exact ⟨fun h => (by cases h), fun ⟨_, h⟩ => by cases h⟩

theorem entryOk_iff {d : Dict} {k : String} {K : EntryKind} : entryOk d (k, K, false) = true ↔ ∃ v, d.get? (.s k) = some v ∧ K.accepts v = true := by
  unfold entryOk
  cases d.get? (.s k) <;> simp

theorem itemOk_iff {d : Dict} {k : String} {K : EntryKind} {i : Nat} :
    itemOk d i (k, K, false) = true ↔ ∃ v x, d.get? (.s k) = some v ∧ v.idx i = .ok x ∧ K.accepts x = true := by
  unfold itemOk
  cases hd : d.get? (.s k) with
  | none => simp
  | some v => simp only; cases hv : v.idx i <;> simp [hv]

theorem getRes_ok {d : Dict} {k : Key} {v : Val} : d.get k = .ok v ↔ d.get? k = some v := by
  unfold Dict.get
  cases d.get? k <;> simp

theorem at_ok {d : Dict} {k : Key} {i : Nat} {x : Val} : Fld.at_ k i d = .ok x ↔ ∃ v, d.get? k = some v ∧ v.idx i = .ok x := by
  unfold Fld.at_ Dict.get
  cases d.get? k <;> simp

theorem py_at (d : Dict) (k : Key) (i : Nat) : Py (Fld.at_ k i d) := by
  unfold Fld.at_
  cases h : d.get k with
  | error e => have := py_get d k; rw [h] at this; intro h'; cases h'; exact this rfl
  | ok v => exact py_idx v i

/-- The entries are ones the model covers. -/
def KnownE (d : Dict) (L : List (String × EntryKind)) : Prop := ∀ p ∈ L, ∀ v, d.get? (.s p.1) = some v → p.2.known v = true
/-- The items are ones the model covers. -/
def KnownI (d : Dict) (L : List (String × EntryKind)) : Prop :=
  ∀ p ∈ L, ∀ v i x, d.get? (.s p.1) = some v → v.idx i = .ok x → p.2.known x = true

variable {d : Dict} {L : List (String × EntryKind)} {fs : List Fld} {Q : Prop} {k : String}

theorem fj_get (hk : KnownE d L) {K : EntryKind} {fmt : Val → Res Text} (hf : FitsK K fmt) (hm : (k, K) ∈ L) (h : FJ fs d Q) :
    FJ (⟨fun d => d.get (.s k), fmt⟩ :: fs) d (entryOk d (k, K, false) = true ∧ Q) := by
  refine fj_cons ?_ (py_get _ _) (fun v hv => hf.py v (hk _ hm v (getRes_ok.1 hv))) h
  rw [entryOk_iff]
  constructor
  · rintro ⟨v, t, h1, h2⟩
    exact ⟨v, getRes_ok.1 h1, (hf.ok v).symm.trans (isOk_iff.2 ⟨t, h2⟩)⟩
  · rintro ⟨v, h1, h2⟩
    obtain ⟨t, ht⟩ := isOk_iff.1 ((hf.ok v).trans h2)
    exact ⟨v, t, getRes_ok.2 h1, ht⟩
theorem fj_i (hk : KnownE d L) {w : Nat} (hm : (k, .int) ∈ L) (h : FJ fs d Q) :
    FJ (.i w (.s k) :: fs) d (entryOk d (k, .int, false) = true ∧ Q) := fj_get hk (fits_i w) hm h
theorem fj_e (hk : KnownE d L) {w p : Nat} (hm : (k, .float) ∈ L) (h : FJ fs d Q) :
    FJ (.e w p (.s k) :: fs) d (entryOk d (k, .float, false) = true ∧ Q) := fj_get hk (fits_e w p) hm h
theorem fj_sl (hk : KnownE d L) {w : Nat} (hm : (k, .text) ∈ L) (h : FJ fs d Q) :
    FJ (.sl w (.s k) :: fs) d (entryOk d (k, .text, false) = true ∧ Q) := fj_get hk (fits_sl w) hm h
theorem fj_sr (hk : KnownE d L) {w : Nat} (hm : (k, .text) ∈ L) (h : FJ fs d Q) :
    FJ (.sr w (.s k) :: fs) d (entryOk d (k, .text, false) = true ∧ Q) := fj_get hk (fits_sr w) hm h
theorem fj_c {fmt : Val → Res Text} {v : Val} {t : Text} (hv : fmt v = .ok t) (h : FJ fs d Q) : FJ (.c fmt v :: fs) d Q := by
  have := fj_cons (f := .c fmt v) (P := True) ⟨fun _ => trivial, fun _ => ⟨v, t, rfl, hv⟩⟩ py_ok (fun u hu => by
    cases hu; show Py (fmt v); rw [hv]; exact py_ok) h
  rwa [true_and] at this

theorem fj_at (hk : KnownI d L) {K : EntryKind} {fmt : Val → Res Text} {i : Nat} (hf : FitsK K fmt) (hm : (k, K) ∈ L) (h : FJ fs d Q) :
    FJ (⟨Fld.at_ (.s k) i, fmt⟩ :: fs) d (itemOk d i (k, K, false) = true ∧ Q) := by
  refine fj_cons ?_ (py_at _ _ _) (fun x hx => ?_) h
  · rw [itemOk_iff]
    constructor
    · rintro ⟨x, t, h1, h2⟩
      obtain ⟨v, hv, hx⟩ := at_ok.1 h1
      exact ⟨v, x, hv, hx, (hf.ok x).symm.trans (isOk_iff.2 ⟨t, h2⟩)⟩
    · rintro ⟨v, x, h1, h2, h3⟩
      obtain ⟨t, ht⟩ := isOk_iff.1 ((hf.ok x).trans h3)
      exact ⟨x, t, at_ok.2 ⟨v, h1, h2⟩, ht⟩
  · obtain ⟨v, hv, hx⟩ := at_ok.1 hx
    exact hf.py x (hk _ hm v i x hv hx)

theorem intCall_ok (v : Val) : v.intCall.isOk = EntryKind.accepts .intCall v := by
  cases v with
  | str s =>
    show (orValue (parseInt s)).isOk = (parseInt s).isSome
    cases parseInt s <;> rfl
  | none => exact toInt_ok (.none)
  | bool a => exact toInt_ok (.bool a)
  | int a => exact toInt_ok (.int a)
  | float a => exact toInt_ok (.float a)
  | arrI a => exact toInt_ok (.arrI a)
  | arrF a => exact toInt_ok (.arrF a)
  | arrC a => exact toInt_ok (.arrC a)
  | mat a => exact toInt_ok (.mat a)
  | list a => exact toInt_ok (.list a)
  | dict a => exact toInt_ok (.dict a)
  | cplx a b => exact toInt_ok (.cplx a b)
theorem intCall_py (v : Val) (h : scalarKnown v = true) : Py v.intCall := by
  cases v with
  | str s =>
    show Py (orValue (parseInt s))
    cases parseInt s <;> (intro h; cases h)
  | _ => exact toInt_py _ h

theorem fj_call {v : Val} {w : Nat} (hv : scalarKnown v = true) (h : FJ fs d Q) :
    FJ (⟨fun _ => v.intCall.map .int, fmtI w⟩ :: fs) d (EntryKind.accepts .intCall v = true ∧ Q) := by
  refine fj_cons ?_ (py_map (intCall_py v hv)) (fun x hx => ?_) h
  · rw [← intCall_ok]
    constructor
    · rintro ⟨x, t, h1, h2⟩
      cases hc : v.intCall with
      | error e => rw [hc] at h1; cases h1
      | ok n => rfl
    · intro hi
      obtain ⟨n, hn⟩ := isOk_iff.1 hi
      exact ⟨.int n, _, by rw [hn]; rfl, rfl⟩
  · cases hc : v.intCall with
    | error e => rw [hc] at hx; cases hx
    | ok n => rw [hc] at hx; cases hx; exact py_ok

theorem fj_intAt (hk : KnownI d L) {i w : Nat} (hm : (k, .intCall) ∈ L) (h : FJ fs d Q) :
    FJ (.intAt w (.s k) i :: fs) d (itemOk d i (k, .intCall, false) = true ∧ Q) := by
  have key : ∀ x, Fld.at_ (.s k) i d = .ok x → (Fld.intAt w (.s k) i).acc d = x.intCall.map .int := by
    intro x hx
    unfold Fld.intAt
    simp only [hx]
  refine fj_cons ?_ ?_ (fun x hx => ?_) h
  · rw [itemOk_iff]
    constructor
    · rintro ⟨y, t, h1, h2⟩
      cases ha : Fld.at_ (.s k) i d with
      | error e => unfold Fld.intAt at h1; simp only [ha] at h1; cases h1
      | ok x =>
        rw [key x ha] at h1
        obtain ⟨v, hv, hx⟩ := at_ok.1 ha
        refine ⟨v, x, hv, hx, ?_⟩
        rw [← intCall_ok]
        cases hc : x.intCall with
        | error e => rw [hc] at h1; cases h1
        | ok n => rfl
    · rintro ⟨v, x, h1, h2, h3⟩
      rw [← intCall_ok] at h3
      obtain ⟨n, hn⟩ := isOk_iff.1 h3
      exact ⟨.int n, _, by rw [key x (at_ok.2 ⟨v, h1, h2⟩), hn]; rfl, rfl⟩
  · cases ha : Fld.at_ (.s k) i d with
    | error e =>
      have := py_at d (.s k) i
      unfold Fld.intAt
      simp only [ha]
      rw [ha] at this
      intro h'; cases h'; exact this rfl
    | ok x =>
      rw [key x ha]
      obtain ⟨v, hv, hx⟩ := at_ok.1 ha
      exact py_map (intCall_py x (hk _ hm v i x hv hx))
  · cases ha : Fld.at_ (.s k) i d with
    | error e => unfold Fld.intAt at hx; simp only [ha] at hx; cases hx
    | ok y =>
      rw [key y ha] at hx
      cases hc : y.intCall with
      | error e => rw [hc] at hx; cases hx
      | ok n => rw [hc] at hx; cases hx; exact py_ok

theorem at2_ok {k : Key} {i j : Nat} {y : Val} : Fld.at2 k i j d = .ok y ↔ ∃ x, Fld.at_ k i d = .ok x ∧ x.idx j = .ok y := by
  unfold Fld.at2
  cases Fld.at_ k i d <;> simp

theorem fj_three (hk : KnownI d L) {i w p : Nat} (hm : (k, .three) ∈ L) (h : FJ fs d Q) :
    FJ (⟨Fld.at2 (.s k) i 0, fmtEV w p⟩ :: ⟨Fld.at2 (.s k) i 1, fmtEV w p⟩ :: ⟨Fld.at2 (.s k) i 2, fmtEV w p⟩ :: fs) d
      (itemOk d i (k, .three, false) = true ∧ Q) := by
  have one : ∀ {j : Nat} {fs : List Fld} {Q : Prop}, j < 3 → FJ fs d Q → FJ (⟨Fld.at2 (.s k) i j, fmtEV w p⟩ :: fs) d
      ((∃ x y, Fld.at_ (.s k) i d = .ok x ∧ x.idx j = .ok y ∧ floatOk y = true) ∧ Q) := by
    intro j fs Q hj h
    refine fj_cons ?_ ?_ (fun y hy => ?_) h
    · constructor
      · rintro ⟨y, t, h1, h2⟩
        obtain ⟨x, hx, hy⟩ := at2_ok.1 h1
        exact ⟨x, y, hx, hy, ((fits_e w p).ok y).symm.trans (isOk_iff.2 ⟨t, h2⟩)⟩
      · rintro ⟨x, y, h1, h2, h3⟩
        obtain ⟨t, ht⟩ := isOk_iff.1 (((fits_e w p).ok y).trans h3)
        exact ⟨y, t, at2_ok.2 ⟨x, h1, h2⟩, ht⟩
    · show Py (Fld.at2 (.s k) i j d)
      unfold Fld.at2
      have := py_at d (.s k) i
      cases ha : Fld.at_ (.s k) i d with
      | error e => rw [ha] at this; intro h'; cases h'; exact this rfl
      | ok x => exact py_idx x j
    · obtain ⟨x, hx, hy⟩ := at2_ok.1 hy
      obtain ⟨v, hv, hx⟩ := at_ok.1 hx
      have hkn := hk _ hm v i x hv hx
      simp only [EntryKind.known, List.all_eq_true, List.mem_range] at hkn
      have := hkn j hj
      rw [hy] at this
      exact (fits_e w p).py y this
  have := one (by decide : 0 < 3) (one (by decide : 1 < 3) (one (by decide : 2 < 3) h))
  refine ⟨this.ok.trans ?_, this.pe, this.pf⟩
  rw [itemOk_iff]
  constructor
  · rintro ⟨⟨x, y0, ha, h0, g0⟩, ⟨x1, y1, ha1, h1, g1⟩, ⟨x2, y2, ha2, h2, g2⟩, q⟩
    rw [ha] at ha1 ha2
    cases ha1; cases ha2
    obtain ⟨v, hv, hx⟩ := at_ok.1 ha
    refine ⟨⟨v, x, hv, hx, ?_⟩, q⟩
    simp [EntryKind.accepts, List.range, List.range.loop, h0, h1, h2, g0, g1, g2]
  · rintro ⟨⟨v, x, hv, hx, hacc⟩, q⟩
    have ha : Fld.at_ (.s k) i d = .ok x := at_ok.2 ⟨v, hv, hx⟩
    simp only [EntryKind.accepts, List.all_eq_true, List.mem_range] at hacc
    have each : ∀ j < 3, ∃ x y, Fld.at_ (.s k) i d = .ok x ∧ x.idx j = .ok y ∧ floatOk y = true := by
      intro j hj
      have hj := hacc j hj
      cases hy : x.idx j with
      | error e => rw [hy] at hj; cases hj
      | ok y => rw [hy] at hj; exact ⟨x, y, ha, hy, hj⟩
    exact ⟨each 0 (by decide), each 1 (by decide), each 2 (by decide), q⟩

namespace W

/-- `m` succeeds on `d` exactly when `P` holds. -/
structure JR {α} (m : W α) (d : Dict) (P : Prop) : Prop where
  ok : (m d).res.isOk = true ↔ P
  py : Py (m d).res

variable {α β : Type} {P : Prop}

theorem JR.iff {m : W α} {P' : Prop} (h : JR m d P) (hp : P ↔ P') : JR m d P' := ⟨h.ok.trans hp, h.py⟩

theorem jr_emit {t : Text} : JR (W.emit t) d True := ⟨⟨fun _ => trivial, fun _ => rfl⟩, py_ok⟩

/-- A step that leaves the dictionary alone. -/
theorem jr_seq {m : W α} {f : α → W β} {R : α → Prop} (hd : (m d).dict = d) (hp : Py (m d).res)
    (h : ∀ a, (m d).res = .ok a → JR (f a) d (R a)) : JR (m >>= f) d (∃ a, (m d).res = .ok a ∧ R a) := by
  constructor
  · show (W.bind m f d).res.isOk = true ↔ _
    rw [bind_res, hd]
    cases hm : (m d).res with
    | error e => exact ⟨fun h => (by cases h), fun ⟨_, h, _⟩ => by cases h⟩
    | ok a =>
      simp only
      rw [(h a hm).ok]
      exact ⟨fun r => ⟨a, rfl, r⟩, fun ⟨b, hb, r⟩ => by cases hb; exact r⟩
  · show Py (W.bind m f d).res
    rw [bind_res, hd]
    cases hm : (m d).res with
    | error e => rw [hm] at hp; intro h'; cases h'; exact hp rfl
    | ok a => exact (h a hm).py

theorem jr_then {m : W Unit} {f : Unit → W β} (hd : (m d).dict = d) (hm : JR m d P) (h : JR (f ()) d Q) : JR (m >>= f) d (P ∧ Q) := by
  refine (jr_seq (R := fun _ => Q) hd hm.py fun _ _ => h).iff ?_
  rw [← hm.ok, isOk_iff]
  exact ⟨fun ⟨a, h1, h2⟩ => ⟨⟨a, h1⟩, h2⟩, fun ⟨⟨a, h1⟩, h2⟩ => ⟨a, h1, h2⟩⟩

theorem jr_emit_then {t : Text} {f : Unit → W β} (h : JR (f ()) d Q) : JR (W.emit t >>= f) d Q :=
  (jr_then rfl jr_emit h).iff (true_and _).to_iff

theorem jr_key {q : Key} {f : Val → W β} {R : Val → Prop} (h : ∀ v, d.get? q = some v → JR (f v) d (R v)) :
    JR (W.key q >>= f) d (∃ v, d.get? q = some v ∧ R v) := by
  refine (jr_seq (R := R) (m := W.key q) rfl (py_get d q) fun v hv => h v (getRes_ok.1 hv)).iff ?_
  exact ⟨fun ⟨v, h1, h2⟩ => ⟨v, getRes_ok.1 h1, h2⟩, fun ⟨v, h1, h2⟩ => ⟨v, getRes_ok.2 h1, h2⟩⟩

theorem jr_lift {r : Res α} {f : α → W β} {R : α → Prop} (hp : Py r) (h : ∀ a, r = .ok a → JR (f a) d (R a)) :
    JR (W.lift r >>= f) d (∃ a, r = .ok a ∧ R a) := jr_seq (m := W.lift r) rfl hp h

theorem jr_opt {os : List (Key × Val)} {f : Unit → W β} (h : JR (f ()) (optFields d os) Q) : JR (W.opt os >>= f) d Q := by
  constructor
  · show (W.bind (W.opt os) f d).res.isOk = true ↔ _
    rw [bind_res]; exact h.ok
  · show Py (W.bind (W.opt os) f d).res
    rw [bind_res]; exact h.py

theorem jr_guarded {s : Nat} {m : W α} (h : JR m d P) : JR (W.guarded s m) d P := by
  obtain ⟨h1, h2⟩ := h
  unfold W.guarded
  constructor
  · rcases hm : m d with ⟨o, e, r⟩
    simp only [hm] at h1
    rcases r with x | a
    · rcases x with (_ | _) | _ | _ | _ | _ | _ | _ | _ | _ | _ | _ <;> (simp only; exact h1)
    · simp only; exact h1
  · rcases hm : m d with ⟨o, e, r⟩
    simp only [hm] at h2
    rcases r with x | a
    · rcases x with (_ | _) | _ | _ | _ | _ | _ | _ | _ | _ | _ | _ <;>
        first | exact absurd rfl h2 | (simp only; intro h; cases h)
    · simp only; exact h2

theorem jr_guardedAny {s : Nat} {m : W α} (h : JR m d P) : JR (W.guardedAny s m) d P := by
  obtain ⟨h1, h2⟩ := h
  unfold W.guardedAny
  constructor
  · rcases hm : m d with ⟨o, e, r⟩
    simp only [hm] at h1
    rcases r with x | a
    · rcases x with (_ | _) | _ | _ | _ | _ | _ | _ | _ | _ | _ | _ <;> (simp only; exact h1)
    · simp only; exact h1
  · rcases hm : m d with ⟨o, e, r⟩
    simp only [hm] at h2
    rcases r with x | a
    · rcases x with (_ | _) | _ | _ | _ | _ | _ | _ | _ | _ | _ | _ <;>
        first | exact absurd rfl h2 | (simp only; intro h; cases h)
    · simp only; exact h2

theorem jr_format {f : Text → W β} (h : FJ fs d P) (hf : ∀ t, JR (f t) d Q) : JR (W.format fs >>= f) d (P ∧ Q) := by
  have hr : (W.format fs d).res = match evalFlds d fs with
    | .error e => .error e
    | .ok vs => fmtFlds fs vs := rfl
  refine (jr_seq (m := W.format fs) (R := fun _ => Q) rfl ?_ fun t _ => hf t).iff ?_
  · rw [hr]
    have := h.pe
    cases he : evalFlds d fs with
    | error e => rw [he] at this; intro h'; cases h'; exact this rfl
    | ok vs => exact h.pf vs he
  · rw [hr, ← h.ok]
    cases he : evalFlds d fs with
    | error e => exact ⟨fun ⟨_, h, _⟩ => (by cases h), fun ⟨⟨_, _, h, _⟩, _⟩ => by cases h⟩
    | ok vs => exact ⟨fun ⟨t, h1, h2⟩ => ⟨⟨vs, t, rfl, h1⟩, h2⟩, fun ⟨⟨us, t, h0, h1⟩, h2⟩ => by cases h0; exact ⟨t, h1, h2⟩⟩

theorem jr_row (h : FJ fs d P) : JR (W.row fs) d P :=
  JR.iff (m := W.row fs) (jr_format (f := fun t => W.emit (t ++ ['\n'])) h fun _ => jr_emit) (and_true _).to_iff

theorem jr_row_then {f : Unit → W β} (h : FJ fs d P) (hf : JR (f ()) d Q) : JR (W.row fs >>= f) d (P ∧ Q) :=
  jr_then ((keeps_row pre_eq fs).run d).symm (jr_row h) hf

theorem jr_forL {l : List α} {body : α → W Unit} {R : α → Prop} (hd : ∀ a, Keeps (· = ·) (body a)) (h : ∀ a ∈ l, JR (body a) d (R a)) :
    JR (W.forL l body) d (∀ a ∈ l, R a) := by
  induction l with
  | nil => exact ⟨⟨fun _ _ h => (by cases h), fun _ => rfl⟩, py_ok⟩
  | cons a r ih =>
    refine JR.iff (m := W.forL (a :: r) body) (jr_then (f := fun _ => W.forL r body) ((hd a).run d).symm (h a List.mem_cons_self)
      (ih fun b hb => h b (List.mem_cons_of_mem _ hb))) ?_
    simp only [List.forall_mem_cons]

theorem jr_none {m : W Unit} (h : JR m d P) : JR (W.none m : W (Option Bytes)) d P :=
  ⟨by show ((m d).res.map _).isOk = true ↔ _; rw [isOk_map]; exact h.ok, py_map h.py⟩

end W

/-- The default of an entry that may be missing can be written, and an entry that may not be missing has no default. -/
def optCond (os : List (Key × Val)) (f : String × EntryKind × Bool) : Bool :=
  match Dict.get? os (.s f.1) with
  | none => !f.2.2
  | some v => f.2.2 && (f.2.1.accepts v && f.2.1.known v)

theorem entry_opt {os : List (Key × Val)} {f : String × EntryKind × Bool} (h : optCond os f = true) :
    entryOk d f = entryOk (optFields d os) (f.1, f.2.1, false) := by
  unfold optCond at h
  unfold entryOk
  simp only [get?_optFields]
  cases d.get? (.s f.1) with
  | some v => rfl
  | none =>
    cases hg : Dict.get? os (.s f.1) with
    | none => rw [hg] at h; simpa using h
    | some v => rw [hg] at h; simp only [Bool.and_eq_true] at h; simp [h]

theorem entries_opt {os : List (Key × Val)} {F : List (String × EntryKind × Bool)} (h : F.all (optCond os) = true) :
    F.all (entryOk d) = F.all fun f => entryOk (optFields d os) (f.1, f.2.1, false) := by
  rw [List.all_eq_true] at h
  rw [Bool.eq_iff_iff, List.all_eq_true, List.all_eq_true]
  exact forall₂_congr fun f hf => by rw [entry_opt (h f hf)]

theorem known_opt {os : List (Key × Val)} {F : List (String × EntryKind × Bool)} (h : F.all (optCond os) = true)
    (hk : ∀ f ∈ F, ∀ v, d.get? (.s f.1) = some v → f.2.1.known v = true) :
    KnownE (optFields d os) (F.map fun f => (f.1, f.2.1)) := by
  intro p hp v hv
  obtain ⟨f, hf, rfl⟩ := List.mem_map.1 hp
  simp only [get?_optFields] at hv
  have hc := List.all_eq_true.1 h f hf
  unfold optCond at hc
  cases hd : d.get? (.s f.1) with
  | some u => rw [hd] at hv; cases hv; exact hk f hf _ hd
  | none =>
    rw [hd, Option.none_or] at hv
    rw [hv] at hc
    simp only [Bool.and_eq_true] at hc
    exact hc.2.2

end Verif
