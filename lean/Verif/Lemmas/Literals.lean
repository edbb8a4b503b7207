import Verif.Spec.Literals
import Verif.Lemmas.Num
import Mathlib.Data.List.Forall2
/-
The programs for `int()` and `float()` against the grammar of literals.
-/
namespace Verif
open F64

/-! ### characters -/

theorem blank_iff (c : Char) : isNumSpace c = true ↔ IsBlank c := by
  unfold isNumSpace isSpace IsBlank
  simp
  omega

theorem zeros_apart : (48 :: digitZeros).Pairwise fun a b => a + 9 < b := by decide

theorem zeros_unique {a b n : Nat} (ha : a ∈ 48 :: digitZeros) (hb : b ∈ 48 :: digitZeros) (h1 : a ≤ n) (h2 : n ≤ a + 9)
    (h3 : b ≤ n) (h4 : n ≤ b + 9) : a = b := by
  by_contra hne
  have := zeros_apart
  rcases List.pairwise_iff_getElem.1 this with h
  obtain ⟨i, hi, rfl⟩ := List.getElem_of_mem ha
  obtain ⟨j, hj, rfl⟩ := List.getElem_of_mem hb
  rcases Nat.lt_trichotomy i j with hij | hij | hij
  · have := h i j hi hj hij; omega
  · subst hij; exact hne rfl
  · have := h j i hj hi hij; omega

theorem digit_iff (c : Char) (d : Nat) : digitVal c = some d ↔ IsDecimal c d := by
  unfold digitVal IsDecimal
  constructor
  · intro h
    split at h
    · have : c.toNat - 48 = d := Option.some.inj h
      exact ⟨by omega, 48, by simp, by omega⟩
    · split at h
      · cases h
      · rw [Option.map_eq_some_iff] at h
        obtain ⟨z, hz, he⟩ := h
        have hm := List.mem_of_find?_eq_some hz
        have hp := List.find?_some hz
        simp at hp
        exact ⟨by omega, z, List.mem_cons_of_mem _ hm, by omega⟩
  · rintro ⟨hd, z, hz, hc⟩
    rcases List.mem_cons.1 hz with rfl | hz'
    · rw [if_pos (by omega)]; congr 1; omega
    · have big : ∀ z ∈ digitZeros, 128 ≤ z := by decide
      have := big z hz'
      rw [if_neg (by omega), if_neg (by omega)]
      cases hf : digitZeros.find? fun z => z ≤ c.toNat && c.toNat ≤ z + 9 with
      | none =>
        rw [List.find?_eq_none] at hf
        have := hf z hz'
        simp at this
        omega
      | some y =>
        have hm := List.mem_of_find?_eq_some hf
        have hp := List.find?_some hf
        simp at hp
        have := zeros_unique (List.mem_cons_of_mem 48 hm) hz hp.1 hp.2 (by omega) (by omega)
        subst this
        simp
        omega

theorem digit_ne_under {c : Char} {d : Nat} (h : digitVal c = some d) : c ≠ '_' := by
  rintro rfl
  revert h
  rw [show digitVal '_' = none by decide]
  simp

/-! ### runs of digits -/

/-- The digits of a text without underscores. -/
def PlainDigits (s : Text) (ds : List Nat) : Prop := List.Forall₂ (fun c d => digitVal c = some d) s ds

theorem parseNatAux_plain (s : Text) (acc n : Nat) :
    parseNatAux acc s = some n ↔ ∃ ds, PlainDigits s ds ∧ n = ds.foldl (fun a d => 10 * a + d) acc := by
  induction s generalizing acc with
  | nil =>
    simp only [parseNatAux, Option.some.injEq]
    constructor
    · rintro rfl; exact ⟨[], .nil, rfl⟩
    · rintro ⟨ds, h, rfl⟩; cases h; rfl
  | cons c cs ih =>
    simp only [parseNatAux]
    cases hd : digitVal c with
    | none =>
      simp only
      constructor
      · intro h; cases h
      · rintro ⟨ds, h, -⟩
        cases h with
        | cons h1 _ => rw [hd] at h1; cases h1
    | some d =>
      simp only
      rw [ih]
      constructor
      · rintro ⟨ds, h, rfl⟩
        exact ⟨d :: ds, .cons hd h, by rw [List.foldl_cons, Nat.mul_comm]⟩
      · rintro ⟨ds, h, rfl⟩
        cases h with
        | cons h1 h2 =>
          rw [hd] at h1
          cases h1
          exact ⟨_, h2, by rw [List.foldl_cons, Nat.mul_comm]⟩

theorem parseNat_plain (s : Text) (n : Nat) : parseNat s = some n ↔ s ≠ [] ∧ ∃ ds, PlainDigits s ds ∧ n = decimal ds := by
  unfold parseNat decimal
  cases s with
  | nil => simp
  | cons c cs => simp only [List.isEmpty_cons, Bool.false_eq_true, if_false, parseNatAux_plain]; simp

theorem dropUnders_cons (b : Bool) (c : Char) (cs : Text) : dropUnders b (c :: cs) =
    if c = '_' then
      match cs with
      | d :: _ => if b ∧ (digitVal d).isSome then dropUnders false cs else none
      | [] => none
    else (dropUnders (digitVal c).isSome cs).map (c :: ·) := by
  rw [dropUnders.eq_def]
  rfl

theorem dropUnders_nil {b : Bool} {t : Text} (h : dropUnders b t = some []) : t = [] := by
  induction t generalizing b with
  | nil => rfl
  | cons c cs ih =>
    rw [dropUnders_cons] at h
    split at h
    · cases cs with
      | nil => cases h
      | cons d r =>
        simp only at h
        split at h
        · have := ih h; cases this
        · cases h
    · rw [Option.map_eq_some_iff] at h
      obtain ⟨a, -, h⟩ := h
      cases h

theorem run_of_drop {b : Bool} {t s : Text} {ds : List Nat} (h : dropUnders b t = some s) (hs : s ≠ []) (hp : PlainDigits s ds) :
    Run t ds ∨ (b = true ∧ ∃ u, t = '_' :: u ∧ Run u ds) := by
  induction t generalizing b s ds with
  | nil => rw [dropUnders] at h; cases h; exact absurd rfl hs
  | cons c cs ih =>
    rw [dropUnders_cons] at h
    split at h
    case isTrue hc =>
      subst hc
      cases cs with
      | nil => cases h
      | cons d r =>
        simp only at h
        split at h
        case isTrue hd =>
          right
          refine ⟨hd.1, _, rfl, ?_⟩
          rcases ih h hs hp with h' | ⟨h', -⟩
          · exact h'
          · cases h'
        · cases h
    case isFalse hc =>
      left
      rw [Option.map_eq_some_iff] at h
      obtain ⟨s', h, rfl⟩ := h
      cases hp with
      | @cons _ d _ ds' hd hp' =>
        have hd' := (digit_iff _ _).1 hd
        by_cases hs' : s' = []
        · subst hs'
          cases hp'
          rw [dropUnders_nil h]
          exact .one hd'
        · rcases ih h hs' hp' with h' | ⟨-, u, rfl, h'⟩
          · exact .next hd' h'
          · exact .under hd' h'

theorem run_head {t : Text} {ds : List Nat} (h : Run t ds) : ∃ c d r, t = c :: r ∧ digitVal c = some d := by
  cases h with
  | one h => exact ⟨_, _, _, rfl, (digit_iff _ _).2 h⟩
  | next h _ => exact ⟨_, _, _, rfl, (digit_iff _ _).2 h⟩
  | under h _ => exact ⟨_, _, _, rfl, (digit_iff _ _).2 h⟩

theorem drop_of_run {t : Text} {ds : List Nat} (h : Run t ds) (b : Bool) : ∃ s, dropUnders b t = some s ∧ s ≠ [] ∧ PlainDigits s ds := by
  induction h generalizing b with
  | @one c d h =>
    have h' := (digit_iff _ _).2 h
    exact ⟨[c], by rw [dropUnders_cons, if_neg (digit_ne_under h')]; rfl, by simp, .cons h' .nil⟩
  | @next c d t ds h r ih =>
    have h' := (digit_iff _ _).2 h
    obtain ⟨s, h1, h2, h3⟩ := ih (digitVal c).isSome
    exact ⟨c :: s, by rw [dropUnders_cons, if_neg (digit_ne_under h'), h1]; rfl, by simp, .cons h' h3⟩
  | @under c d t ds h r ih =>
    have h' := (digit_iff _ _).2 h
    obtain ⟨s, h1, h2, h3⟩ := ih false
    obtain ⟨c2, d2, r2, rfl, hc2⟩ := run_head r
    refine ⟨c :: s, ?_, by simp, .cons h' h3⟩
    rw [dropUnders_cons, if_neg (digit_ne_under h'), dropUnders_cons, if_pos rfl]
    simp only
    rw [if_pos (by rw [h', hc2]; exact ⟨rfl, rfl⟩), h1]
    rfl

/-! ### splitting at other characters -/

theorem dropUnders_split {b : Bool} {t x y : Text} {c : Char} (hc : digitVal c = none) (h : dropUnders b t = some (x ++ c :: y)) :
    ∃ t1 t2, t = t1 ++ c :: t2 ∧ dropUnders b t1 = some x ∧ dropUnders false t2 = some y := by
  induction t generalizing b x with
  | nil => rw [dropUnders] at h; simp at h
  | cons a t ih =>
    rw [dropUnders_cons] at h
    split at h
    case isTrue ha =>
      subst ha
      cases t with
      | nil => cases h
      | cons d r =>
        simp only at h
        split at h
        case isTrue hd =>
          obtain ⟨t1, t2, e, h1, h2⟩ := ih h
          refine ⟨'_' :: t1, t2, by rw [e]; rfl, ?_, h2⟩
          cases t1 with
          | nil =>
            simp at e
            rw [e.1, hc] at hd
            simp at hd
          | cons d' r' =>
            simp at e
            rw [dropUnders_cons, if_pos rfl]
            simp only
            rw [← e.1, if_pos hd, e.1, h1]
        · cases h
    case isFalse ha =>
      rw [Option.map_eq_some_iff] at h
      obtain ⟨s, h, e⟩ := h
      cases x with
      | nil =>
        simp at e
        obtain ⟨rfl, rfl⟩ := e
        refine ⟨[], t, rfl, rfl, ?_⟩
        rwa [hc] at h
      | cons x0 x =>
        simp at e
        obtain ⟨rfl, rfl⟩ := e
        obtain ⟨t1, t2, rfl, h1, h2⟩ := ih h
        exact ⟨a :: t1, t2, rfl, by rw [dropUnders_cons, if_neg ha, h1]; rfl, h2⟩

theorem dropUnders_join {b : Bool} {t1 t2 x y : Text} {c : Char} (hc : digitVal c = none) (hu : c ≠ '_')
    (h1 : dropUnders b t1 = some x) (h2 : dropUnders false t2 = some y) : dropUnders b (t1 ++ c :: t2) = some (x ++ c :: y) := by
  induction t1 generalizing b x with
  | nil =>
    rw [dropUnders] at h1
    cases h1
    rw [List.nil_append, dropUnders_cons, if_neg hu, hc]
    simp [h2]
  | cons a t ih =>
    rw [dropUnders_cons] at h1
    rw [List.cons_append, dropUnders_cons]
    split at h1
    case isTrue ha =>
      rw [if_pos ha]
      cases t with
      | nil => cases h1
      | cons d r =>
        simp only [List.cons_append] at h1 ⊢
        split at h1
        case isTrue hd =>
          rw [if_pos hd]
          exact ih h1
        · cases h1
    case isFalse ha =>
      rw [Option.map_eq_some_iff] at h1
      obtain ⟨s, h1, rfl⟩ := h1
      rw [if_neg ha, ih h1]
      rfl

/-! ### signs -/

theorem parseSigned_iff (s : Text) (n : Int) :
    parseSigned s = some n ↔ ∃ g r neg m, s = g ++ r ∧ Sign g neg ∧ parseNat r = some m ∧ n = if neg then -(m : Int) else m := by
  constructor
  · intro h
    cases s with
    | nil => cases h
    | cons c r =>
      rw [parseSigned] at h
      split at h
      case isTrue hc =>
        rw [Option.map_eq_some_iff] at h
        obtain ⟨m, h, rfl⟩ := h
        exact ⟨['-'], r, true, m, by rw [hc]; rfl, .minus, h, rfl⟩
      · split at h
        case isTrue hc =>
          rw [Option.map_eq_some_iff] at h
          obtain ⟨m, h, rfl⟩ := h
          exact ⟨['+'], r, false, m, by rw [hc]; rfl, .plus, h, rfl⟩
        · rw [Option.map_eq_some_iff] at h
          obtain ⟨m, h, rfl⟩ := h
          exact ⟨[], c :: r, false, m, rfl, .absent, h, rfl⟩
  · rintro ⟨g, r, neg, m, rfl, hg, hm, rfl⟩
    cases hg with
    | absent =>
      cases r with
      | nil => cases hm
      | cons c r =>
        have hd := (parseNat_plain _ _).1 hm
        obtain ⟨-, ds, hp, -⟩ := hd
        cases hp with
        | cons h1 _ =>
          have h2 : c ≠ '-' := by rintro rfl; rw [show digitVal '-' = none by decide] at h1; cases h1
          have h3 : c ≠ '+' := by rintro rfl; rw [show digitVal '+' = none by decide] at h1; cases h1
          rw [List.nil_append, parseSigned, if_neg h2, if_neg h3, hm]
          rfl
    | plus =>
      show parseSigned ('+' :: r) = _
      rw [parseSigned, if_neg (by decide), if_pos rfl, hm]; rfl
    | minus =>
      show parseSigned ('-' :: r) = _
      rw [parseSigned, if_pos rfl, hm]; rfl

theorem digit_sign : digitVal '-' = none ∧ digitVal '+' = none ∧ digitVal '.' = none ∧ digitVal 'e' = none ∧ digitVal 'E' = none := by
  decide

/-- A sign and a run of digits, before and after the underscores are removed. -/
theorem signed_run (t : Text) (n : Int) : (∃ s, dropUnders false t = some s ∧ parseSigned s = some n) ↔
    ∃ g r neg ds, t = g ++ r ∧ Sign g neg ∧ Run r ds ∧ n = if neg then -(decimal ds : Int) else decimal ds := by
  constructor
  · rintro ⟨s, h, hp⟩
    obtain ⟨g, r, neg, m, rfl, hg, hm, rfl⟩ := (parseSigned_iff _ _).1 hp
    obtain ⟨hr, ds, hp', rfl⟩ := (parseNat_plain _ _).1 hm
    cases hg with
    | absent =>
      rcases run_of_drop h (by simpa using hr) (by simpa using hp') with h' | ⟨h', -⟩
      · exact ⟨[], t, false, ds, rfl, .absent, h', rfl⟩
      · cases h'
    | plus =>
      obtain ⟨t1, t2, rfl, h1, h2⟩ := dropUnders_split (x := []) digit_sign.2.1 h
      rw [dropUnders_nil h1]
      rcases run_of_drop h2 hr hp' with h' | ⟨h', -⟩
      · exact ⟨['+'], t2, false, ds, rfl, .plus, h', rfl⟩
      · cases h'
    | minus =>
      obtain ⟨t1, t2, rfl, h1, h2⟩ := dropUnders_split (x := []) digit_sign.1 h
      rw [dropUnders_nil h1]
      rcases run_of_drop h2 hr hp' with h' | ⟨h', -⟩
      · exact ⟨['-'], t2, true, ds, rfl, .minus, h', rfl⟩
      · cases h'
  · rintro ⟨g, r, neg, ds, rfl, hg, hr, rfl⟩
    obtain ⟨s, h1, h2, h3⟩ := drop_of_run hr false
    have hm : parseNat s = some (decimal ds) := (parseNat_plain _ _).2 ⟨h2, ds, h3, rfl⟩
    refine ⟨g ++ s, ?_, (parseSigned_iff _ _).2 ⟨g, s, neg, _, rfl, hg, hm, rfl⟩⟩
    cases hg with
    | absent => exact h1
    | plus => exact dropUnders_join (t1 := []) digit_sign.2.1 (by decide) rfl h1
    | minus => exact dropUnders_join (t1 := []) digit_sign.1 (by decide) rfl h1

/-! ### blanks -/

theorem numStrip_core {a t b : Text} (ha : ∀ c ∈ a, IsBlank c) (hb : ∀ c ∈ b, IsBlank c) (ht : ∀ c ∈ t, isSpace c = false) :
    numStrip (a ++ t ++ b) = t := by
  rw [numStrip_append_right _ _ (fun c hc => (blank_iff c).2 (hb c hc)),
    numStrip_append_left _ _ (fun c hc => (blank_iff c).2 (ha c hc)), numStrip_eq_self_of_noSpace _ ht]

theorem run_noSpace {t : Text} {ds : List Nat} (h : Run t ds) : ∀ c ∈ t, isSpace c = false := by
  induction h with
  | one h => intro c hc; rw [List.mem_singleton] at hc; subst hc; exact digitVal_noSpace ((digit_iff _ _).2 h)
  | next h _ ih =>
    intro c hc
    rcases List.mem_cons.1 hc with rfl | hc
    · exact digitVal_noSpace ((digit_iff _ _).2 h)
    · exact ih c hc
  | under h _ ih =>
    intro c hc
    rcases List.mem_cons.1 hc with rfl | hc
    · exact digitVal_noSpace ((digit_iff _ _).2 h)
    · rcases List.mem_cons.1 hc with rfl | hc
      · decide
      · exact ih c hc

theorem sign_noSpace {t : Text} {neg : Bool} (h : Sign t neg) : ∀ c ∈ t, isSpace c = false := by
  cases h <;> decide

theorem parseInt_iff (t : Text) (n : Int) : parseInt t = some n ↔ IntText t n := by
  constructor
  · intro h
    unfold parseInt at h
    obtain ⟨a, b, e, ha, hb⟩ := numStrip_parts t
    cases hd : dropUnders false (numStrip t) with
    | none => rw [hd] at h; cases h
    | some s =>
      rw [hd] at h
      obtain ⟨g, r, neg, ds, e2, hg, hr, hn⟩ := (signed_run _ _).1 ⟨s, hd, h⟩
      exact ⟨a, g, r, b, neg, ds, by rw [e2] at e; rw [e]; simp, fun c hc => (blank_iff c).1 (ha c hc), fun c hc => (blank_iff c).1 (hb c hc),
        hg, hr, hn⟩
  · rintro ⟨a, g, r, b, neg, ds, rfl, ha, hb, hg, hr, hn⟩
    unfold parseInt
    have e : numStrip (a ++ g ++ r ++ b) = g ++ r := by
      rw [List.append_assoc a g r]
      exact numStrip_core ha hb fun c hc => by
        rcases List.mem_append.1 hc with h | h
        · exact sign_noSpace hg c h
        · exact run_noSpace hr c h
    obtain ⟨s, h1, h2⟩ := (signed_run _ _).2 ⟨g, r, neg, ds, rfl, hg, hr, hn⟩
    rw [e, h1]
    exact h2


/-! ### decimal numbers -/

theorem digitsPrefix_spec (t : Text) : ∃ ds, t = (digitsPrefix t).1 ++ (digitsPrefix t).2 ∧ PlainDigits (digitsPrefix t).1 ds ∧
    ∀ c r, (digitsPrefix t).2 = c :: r → digitVal c = none := by
  induction t with
  | nil => exact ⟨[], rfl, .nil, by intro c r h; cases h⟩
  | cons c cs ih =>
    rw [digitsPrefix]
    cases hd : digitVal c with
    | none =>
      simp only [Option.isSome_none, Bool.false_eq_true, if_false]
      exact ⟨[], rfl, .nil, by intro a r h; cases h; exact hd⟩
    | some d =>
      simp only [Option.isSome_some, if_true]
      obtain ⟨ds, h1, h2, h3⟩ := ih
      exact ⟨d :: ds, by rw [List.cons_append, ← h1], .cons hd h2, h3⟩

theorem digitsPrefix_plain {i : Text} {ds : List Nat} (hi : PlainDigits i ds) (r : Text) (hr : ∀ c q, r = c :: q → digitVal c = none) :
    digitsPrefix (i ++ r) = (i, r) := by
  induction hi with
  | nil =>
    cases r with
    | nil => rfl
    | cons c q => rw [List.nil_append, digitsPrefix, hr c q rfl]; rfl
  | cons hd _ ih =>
    rw [List.cons_append, digitsPrefix, hd]
    simp only [Option.isSome_some, if_true]
    rw [ih]

theorem plain_append {a b : Text} {x y : List Nat} (ha : PlainDigits a x) (hb : PlainDigits b y) : PlainDigits (a ++ b) (x ++ y) := List.rel_append ha hb

theorem plain_length {a : Text} {x : List Nat} (ha : PlainDigits a x) : a.length = x.length := ha.length_eq

theorem parseExpOpt_head {x : Text} {e : Int} (h : parseExpOpt x = some e) :
    ∀ c q, x = c :: q → digitVal c = none ∧ c ≠ '.' ∧ c ≠ '_' ∧ parseSigned q = some e ∧ (c = 'e' ∨ c = 'E') := by
  rintro c q rfl
  rw [parseExpOpt] at h
  split at h
  case isTrue hc =>
    refine ⟨?_, ?_, ?_, h, hc⟩ <;> rcases hc with rfl | rfl <;> decide
  · cases h

theorem parseDec_dot {u i q f x : Text} (h1 : digitsPrefix u = (i, '.' :: q)) (h2 : digitsPrefix q = (f, x)) : parseDec u =
    match parseNat (i ++ f), parseExpOpt x with
      | some n, some e => some (n, e - (f.length : Int))
      | _, _ => none := by
  unfold parseDec
  simp only [h1, h2]
  cases parseNat (i ++ f) <;> cases parseExpOpt x <;> rfl

theorem parseDec_none {u i r : Text} (h1 : digitsPrefix u = (i, r)) (h2 : ∀ q, r ≠ '.' :: q) : parseDec u =
    match parseNat (i ++ []), parseExpOpt r with
      | some n, some e => some (n, e - ((([] : Text).length : Nat) : Int))
      | _, _ => none := by
  unfold parseDec
  simp only [h1]
  cases r with
  | nil => cases parseNat (i ++ []) <;> cases parseExpOpt [] <;> rfl
  | cons c q =>
    have hc : c ≠ '.' := by rintro rfl; exact h2 q rfl
    (repeat' split) <;> simp_all

theorem parseDec_iff (u : Text) (n : Nat) (e : Int) : parseDec u = some (n, e) ↔
    ∃ i p f x is fs e', u = i ++ (p ++ (f ++ x)) ∧ PlainDigits i is ∧ PlainDigits f fs ∧ is ++ fs ≠ [] ∧ (p = [] ∧ f = [] ∨ p = ['.']) ∧
      parseExpOpt x = some e' ∧ n = decimal (is ++ fs) ∧ e = e' - fs.length := by
  constructor
  · intro h
    obtain ⟨is, h1, h2, h3⟩ := digitsPrefix_spec u
    have hpair : digitsPrefix u = ((digitsPrefix u).1, (digitsPrefix u).2) := rfl
    generalize (digitsPrefix u).1 = i at *
    generalize (digitsPrefix u).2 = r at *
    have fin : ∀ (p f x : Text) (fs : List Nat), r = p ++ (f ++ x) → PlainDigits f fs → (p = [] ∧ f = [] ∨ p = ['.']) →
        (match parseNat (i ++ f), parseExpOpt x with
          | some n, some e => some (n, e - (f.length : Int))
          | _, _ => none) = some (n, e) → ∃ i p f x is fs e', u = i ++ (p ++ (f ++ x)) ∧ PlainDigits i is ∧ PlainDigits f fs ∧ is ++ fs ≠ [] ∧
            (p = [] ∧ f = [] ∨ p = ['.']) ∧ parseExpOpt x = some e' ∧ n = decimal (is ++ fs) ∧ e = e' - fs.length := by
      intro p f x fs e1 hf hp hh
      cases hn : parseNat (i ++ f) with
      | none => rw [hn] at hh; cases hh
      | some m =>
        cases hx : parseExpOpt x with
        | none => rw [hn, hx] at hh; cases hh
        | some e' =>
          rw [hn, hx] at hh
          simp only [Option.some.injEq, Prod.mk.injEq] at hh
          obtain ⟨hne, ds, hds, hm⟩ := (parseNat_plain _ _).1 hn
          have hpl := plain_append h2 hf
          have : ds = is ++ fs := by
            have : ∀ (a : Text) (x y : List Nat), PlainDigits a x → PlainDigits a y → x = y := by
              intro a x y hx hy
              induction hx generalizing y with
              | nil => cases hy; rfl
              | cons ha _ ih =>
                cases hy with
                | cons hb hy => rw [ha] at hb; cases hb; rw [ih _ hy]
            exact this _ _ _ hds hpl
          refine ⟨i, p, f, x, is, fs, e', by rw [h1, e1], h2, hf, ?_, hp, hx, by rw [← hh.1, hm, this], by rw [← hh.2, plain_length hf]⟩
          intro h0
          apply hne
          have := plain_length hpl
          rw [h0] at this
          exact List.length_eq_zero_iff.1 this
    by_cases hdot : ∃ q, r = '.' :: q
    · obtain ⟨q, rfl⟩ := hdot
      obtain ⟨fs, g1, g2, -⟩ := digitsPrefix_spec q
      rw [parseDec_dot hpair (f := (digitsPrefix q).1) (x := (digitsPrefix q).2) rfl] at h
      exact fin ['.'] _ _ fs (by rw [← g1]; rfl) g2 (.inr rfl) h
    · rw [parseDec_none hpair fun q hq => hdot ⟨q, hq⟩] at h
      exact fin [] [] r [] rfl .nil (.inl ⟨rfl, rfl⟩) h
  · rintro ⟨i, p, f, x, is, fs, e', rfl, hi, hf, hne, hp, hx, rfl, rfl⟩
    have hh := parseExpOpt_head hx
    have hx0 : ∀ c q, x = c :: q → digitVal c = none := fun c q h => (hh c q h).1
    have hn : parseNat (i ++ f) = some (decimal (is ++ fs)) := by
      refine (parseNat_plain _ _).2 ⟨?_, _, plain_append hi hf, rfl⟩
      intro h0
      apply hne
      have := plain_length (plain_append hi hf)
      rw [h0] at this
      exact List.length_eq_zero_iff.1 this.symm
    rcases hp with ⟨rfl, rfl⟩ | rfl
    · cases hf
      rw [List.nil_append, List.nil_append, parseDec_none (digitsPrefix_plain hi _ hx0) fun q hq => (hh _ _ hq).2.1 rfl, hn, hx]
      rfl
    · rw [List.singleton_append, parseDec_dot (digitsPrefix_plain hi _ (by intro c q h; cases h; decide)) (digitsPrefix_plain hf x hx0), hn, hx, plain_length hf]

theorem exp_tail {b : Bool} {t f x : Text} {e : Int} (h : dropUnders b t = some (f ++ x)) (hx : parseExpOpt x = some e) :
    ∃ t1 t2, t = t1 ++ t2 ∧ dropUnders b t1 = some f ∧ Exponent t2 e := by
  cases x with
  | nil =>
    rw [parseExpOpt] at hx
    cases hx
    exact ⟨t, [], by simp, by simpa using h, .absent⟩
  | cons c q =>
    obtain ⟨h1, -, -, h4, h5⟩ := parseExpOpt_head hx c q rfl
    obtain ⟨t1, t2, rfl, ht1, ht2⟩ := dropUnders_split h1 h
    obtain ⟨g, r, neg, ds, rfl, hg, hr, rfl⟩ := (signed_run _ _).1 ⟨q, ht2, h4⟩
    exact ⟨t1, _, rfl, ht1, .given h5 hg hr⟩

theorem exp_join {b : Bool} {t1 t2 f : Text} {e : Int} (h : dropUnders b t1 = some f) (hx : Exponent t2 e) :
    ∃ x, dropUnders b (t1 ++ t2) = some (f ++ x) ∧ parseExpOpt x = some e := by
  cases hx with
  | absent => exact ⟨[], by simpa using h, rfl⟩
  | @given c s r neg ds hc hs hr =>
    obtain ⟨q, h1, h2⟩ := (signed_run (s ++ r) _).2 ⟨s, r, neg, ds, rfl, hs, hr, rfl⟩
    have hd : digitVal c = none := by rcases hc with rfl | rfl <;> decide
    have hu : c ≠ '_' := by rcases hc with rfl | rfl <;> decide
    exact ⟨c :: q, dropUnders_join hd hu h h1, by rw [parseExpOpt, if_pos hc, h2]⟩

theorem run_plain {t s : Text} {ds : List Nat} (h : dropUnders false t = some s) (hs : s ≠ []) (hp : PlainDigits s ds) : Run t ds := by
  rcases run_of_drop h hs hp with h' | ⟨h', -⟩
  · exact h'
  · cases h'

theorem dec_iff (t : Text) (n : Nat) (e : Int) : (∃ u, dropUnders false t = some u ∧ parseDec u = some (n, e)) ↔
    ∃ m x ds k e', t = m ++ x ∧ Mantissa m ds k ∧ Exponent x e' ∧ n = decimal ds ∧ e = e' - k := by
  constructor
  · rintro ⟨u, hu, hd⟩
    obtain ⟨i, p, f, x, is, fs, e', rfl, hi, hf, hne, hp, hx, rfl, rfl⟩ := (parseDec_iff _ _ _).1 hd
    rcases hp with ⟨rfl, rfl⟩ | rfl
    · cases hf
      obtain ⟨t1, t2, rfl, h1, h2⟩ := exp_tail hu hx
      have hi0 : i ≠ [] := by rintro rfl; cases hi; exact hne rfl
      exact ⟨t1, t2, is, 0, e', rfl, .whole (run_plain h1 hi0 hi), h2, by simp, by simp⟩
    · obtain ⟨t1, t2, rfl, h1, h2⟩ := dropUnders_split (x := i) (y := f ++ x) digit_sign.2.2.1 hu
      obtain ⟨t3, t4, rfl, h3, h4⟩ := exp_tail h2 hx
      by_cases hi0 : i = []
      · subst hi0
        cases hi
        rw [dropUnders_nil h1]
        have hf0 : f ≠ [] := by rintro rfl; cases hf; exact hne rfl
        exact ⟨'.' :: t3, t4, fs, fs.length, e', rfl, .frac (run_plain h3 hf0 hf), h4, rfl, rfl⟩
      · by_cases hf0 : f = []
        · subst hf0
          cases hf
          rw [show t3 = [] from dropUnders_nil h3]
          exact ⟨t1 ++ ['.'], t4, is, 0, e', by simp, .point (run_plain h1 hi0 hi), h4, by simp, by simp⟩
        · exact ⟨t1 ++ '.' :: t3, t4, is ++ fs, fs.length, e', by simp, .both (run_plain h1 hi0 hi) (run_plain h3 hf0 hf), h4, rfl, rfl⟩
  · rintro ⟨m, x, ds, k, e', rfl, hm, hx, rfl, rfl⟩
    cases hm with
    | whole h =>
      obtain ⟨i, h1, h2, h3⟩ := drop_of_run h false
      obtain ⟨y, h4, h5⟩ := exp_join h1 hx
      exact ⟨_, h4, (parseDec_iff _ _ _).2 ⟨i, [], [], y, ds, [], e', rfl, h3, .nil,
        by intro h0; rw [List.append_nil] at h0; subst h0; cases h3; exact h2 rfl, .inl ⟨rfl, rfl⟩, h5, by simp, by simp⟩⟩
    | @point r _ h =>
      obtain ⟨i, h1, h2, h3⟩ := drop_of_run h false
      obtain ⟨y, h4, h5⟩ := exp_join (b := false) (t1 := []) (f := []) rfl hx
      refine ⟨_, by rw [List.append_assoc]; exact dropUnders_join digit_sign.2.2.1 (by decide) h1 h4,
        (parseDec_iff _ _ _).2 ⟨i, ['.'], [], y, ds, [], e', rfl, h3, .nil,
          by intro h0; rw [List.append_nil] at h0; subst h0; cases h3; exact h2 rfl, .inr rfl, h5, by simp, by simp⟩⟩
    | @both r is f fs h g =>
      obtain ⟨i, h1, h2, h3⟩ := drop_of_run h false
      obtain ⟨j, g1, g2, g3⟩ := drop_of_run g false
      obtain ⟨y, h4, h5⟩ := exp_join g1 hx
      refine ⟨_, by rw [List.append_assoc]; exact dropUnders_join digit_sign.2.2.1 (by decide) h1 h4,
        (parseDec_iff _ _ _).2 ⟨i, ['.'], j, y, is, fs, e', rfl, h3, g3,
          by intro h0; rw [List.append_eq_nil_iff] at h0; rw [h0.1] at h3; cases h3; exact h2 rfl, .inr rfl, h5, rfl, rfl⟩⟩
    | @frac f _ g =>
      obtain ⟨j, g1, g2, g3⟩ := drop_of_run g false
      obtain ⟨y, h4, h5⟩ := exp_join g1 hx
      exact ⟨_, dropUnders_join (t1 := []) digit_sign.2.2.1 (by decide) rfl h4,
        (parseDec_iff _ _ _).2 ⟨[], ['.'], j, y, [], ds, e', rfl, .nil, g3,
          by intro h0; rw [List.nil_append] at h0; subst h0; cases g3; exact g2 rfl, .inr rfl, h5, rfl, rfl⟩⟩

/-! ### words -/

theorem dropUnders_letters {b : Bool} {t s : Text} (h : dropUnders b t = some s) (hs : ∀ c ∈ s, digitVal c = none) : t = s := by
  induction t generalizing b s with
  | nil => rw [dropUnders] at h; cases h; rfl
  | cons c cs ih =>
    rw [dropUnders_cons] at h
    split at h
    · cases cs with
      | nil => cases h
      | cons d r =>
        simp only at h
        split at h
        case isTrue hd =>
          have := ih h hs
          have := hs d (by rw [← this]; simp)
          rw [this] at hd
          simp at hd
        · cases h
    · rw [Option.map_eq_some_iff] at h
      obtain ⟨s', h, rfl⟩ := h
      rw [ih h fun c hc => hs c (List.mem_cons_of_mem _ hc)]

/-- A word of small letters. -/
def Small (w : Text) : Prop := ∀ l ∈ w, 97 ≤ l.toNat ∧ l.toNat ≤ 122

theorem lowerChar_eq (c l : Char) (h : 97 ≤ l.toNat ∧ l.toNat ≤ 122) : lowerChar c = l ↔ c = l ∨ c.toNat + 32 = l.toNat := by
  unfold lowerChar
  split
  case isTrue hc =>
    have hv : (Char.ofNat (c.toNat + 32)).toNat = c.toNat + 32 := by
      have all : ∀ n < 123, (Char.ofNat n).toNat = n := by decide
      exact all _ (by omega)
    constructor
    · rintro rfl; right; rw [hv]
    · rintro (rfl | h2)
      · omega
      · apply Char.toNat_inj.1; rw [hv, h2]
  case isFalse hc =>
    constructor
    · exact .inl
    · rintro (h2 | h2)
      · exact h2
      · omega

theorem lower_iff (u w : Text) (hw : Small w) : lower u = w ↔ List.Forall₂ (fun c l => c = l ∨ c.toNat + 32 = l.toNat) u w := by
  induction u generalizing w with
  | nil => cases w <;> simp [lower]
  | cons c u ih =>
    cases w with
    | nil => simp [lower]
    | cons l w =>
      have h1 := lowerChar_eq c l (hw l (by simp))
      have h2 := ih w fun x hx => hw x (List.mem_cons_of_mem _ hx)
      unfold lower at h2 ⊢
      rw [List.map_cons, List.cons.injEq, h1, h2, List.forall₂_cons]

theorem word_letters {u w : Text} (hw : Small w) (h : List.Forall₂ (fun c l => c = l ∨ c.toNat + 32 = l.toNat) u w) :
    ∀ c ∈ u, 65 ≤ c.toNat ∧ c.toNat ≤ 122 ∧ c.toNat ≠ 95 := by
  induction h with
  | nil => simp
  | @cons c l u w hc _ ih =>
    intro x hx
    have hl := hw l (by simp)
    rcases List.mem_cons.1 hx with rfl | hx
    · rcases hc with rfl | hc <;> omega
    · exact ih (fun y hy => hw y (List.mem_cons_of_mem _ hy)) x hx

theorem letter_facts {c : Char} (h : 65 ≤ c.toNat ∧ c.toNat ≤ 122 ∧ c.toNat ≠ 95) : digitVal c = none ∧ c ≠ '_' ∧ isSpace c = false := by
  refine ⟨?_, ?_, ?_⟩
  · unfold digitVal; rw [if_neg (by omega), if_pos (by omega)]
  · rintro rfl; exact h.2.2 rfl
  · unfold isSpace; simp; omega

end Verif
