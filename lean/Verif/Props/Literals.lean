import Verif.Lemmas.Literals2
import Verif.Lemmas.Rounded
import Verif.Model.Scan
import Verif.Model.DS164
import Verif.Model.DS2411
import Verif.Model.DS2420
import Verif.Py.Lit
/-
Property C57: which texts are numbers for the readers, and which numbers they are.
-/
namespace Verif
open F64

/-- `int()` accepts exactly the integers in decimal notation (blanks around, a sign, digits of any script, single underscores between
digits) and gives their value. -/
theorem C57_int (t : Text) (n : Int) : parseInt t = some n ↔ IntText t n := parseInt_iff t n

theorem isDecimal_of (c : Char) (d : Nat) (h : digitVal c = some d := by decide) : IsDecimal c d := (digit_iff c d).1 h

example : IntText chars!"  -1_20 " (-120) :=
  ⟨chars!"  ", ['-'], chars!"1_20", [' '], true, [1, 2, 0], rfl, by unfold IsBlank; decide, by unfold IsBlank; decide, .minus,
    .under (isDecimal_of '1' 1) (.next (isDecimal_of '2' 2) (.one (isDecimal_of '0' 0))), rfl⟩
example : parseInt chars!"  -1_20 " = some (-120) ∧ parseInt chars!"1__2" = none ∧ parseInt chars!"- 1" = none ∧ parseInt chars!"1." = none ∧
    parseInt ['\x1c', '1'] = none := by decide +kernel

/-- The type of a data-set is read from bytes: these have to be ASCII. -/
theorem C57_bytes (b : Bytes) (n : Int) :
    parseIntB b = some n ↔ (∀ c ∈ b, c < 128) ∧ IntText (b.map fun c => Char.ofNat c.toNat) n := by
  rw [← C57_int]
  unfold parseIntB
  have small : ∀ k < 256, (Char.ofNat k).toNat = k := by decide +kernel
  constructor
  · intro h
    split at h
    · cases h
    case isFalse hn =>
      refine ⟨fun c hc => ?_, h⟩
      by_contra hge
      apply hn
      rw [List.any_eq_true]
      exact ⟨c, hc, by simp [UInt8.not_lt.1 hge]⟩
  · rintro ⟨h1, h2⟩
    split
    case isTrue hn =>
      exfalso
      rw [List.any_eq_true] at hn
      obtain ⟨c, hc, hh⟩ := hn
      have hlt := h1 c hc
      have hctl : 28 ≤ c.toNat ∧ c.toNat ≤ 31 := by
        rw [Bool.or_eq_true] at hh
        rcases hh with hh | hh
        · have := UInt8.not_lt.2 (of_decide_eq_true hh)
          exact absurd hlt this
        · simpa [UInt8.le_iff_toNat_le] using hh
      obtain ⟨a, s, r, b', neg, ds, e, ha, hb, hs, hr, -⟩ := (C57_int _ _).1 h2
      have hm : Char.ofNat c.toNat ∈ a ++ s ++ r ++ b' := by rw [← e]; exact List.mem_map.2 ⟨c, hc, rfl⟩
      have hv := small c.toNat c.toNat_lt
      have sp : isSpace (Char.ofNat c.toNat) = true := by unfold isSpace; simp only [hv]; simp; omega
      have nb : ¬ IsBlank (Char.ofNat c.toNat) := by unfold IsBlank; rw [hv]; simp; omega
      rcases List.mem_append.1 hm with hm | hm
      · rcases List.mem_append.1 hm with hm | hm
        · rcases List.mem_append.1 hm with hm | hm
          · exact nb (ha _ hm)
          · rw [sign_noSpace hs _ hm] at sp; cases sp
        · rw [run_noSpace hr _ hm] at sp; cases sp
      · exact nb (hb _ hm)
    · exact h2

example : parseIntB [32, 32, 32, 32, 53, 56] = some 58 ∧ parseIntB [0xd9, 0xa1] = none := by decide +kernel

/-- `float()` accepts exactly the decimal numbers, `inf`, `infinity` and `nan`.  A decimal number gives the nearest double, the even one
on a tie, and infinity if it is too large. -/
theorem C57_float (t : Text) (x : F64) : parseFloat t = some x ↔
    (∃ neg q, DecText t neg q ∧ Rounded x neg q) ∨
    (∃ neg, (WordText chars!"inf" t neg ∨ WordText chars!"infinity" t neg) ∧ x = inf neg) ∨
    (∃ neg, WordText chars!"nan" t neg ∧ x = nan) := by
  have cast : ∀ (k : Nat) (e : Int) (ds : List Nat), ((decimal ds : Nat) : ℚ) * (10 : ℚ) ^ (e - (k : Int)) = (decimal ds) * (10 : ℚ) ^ (e - k) := by
    intros; rfl
  rw [float_iff]
  constructor
  · rintro (h | h | ⟨a, s, m, y, b, ds, k, e, neg, rfl, ha, hb, hs, hm, hy, rfl⟩)
    · exact .inr (.inl h)
    · exact .inr (.inr h)
    · exact .inl ⟨neg, _, ⟨a, s, m, y, b, ds, k, e, rfl, ha, hb, hs, hm, hy, rfl⟩, ofDec_rounded neg _ _⟩
  · rintro (⟨neg, q, ⟨a, s, m, y, b, ds, k, e, rfl, ha, hb, hs, hm, hy, rfl⟩, hr⟩ | h | h)
    · exact .inr (.inr ⟨a, s, m, y, b, ds, k, e, neg, rfl, ha, hb, hs, hm, hy, rounded_unique hr (ofDec_rounded neg _ _)⟩)
    · exact .inl h
    · exact .inr (.inl h)

theorem run2 (a b : Char) (x y : Nat) (ha : digitVal a = some x := by decide) (hb : digitVal b = some y := by decide) : Run [a, b] [x, y] :=
  .next (isDecimal_of a x ha) (.one (isDecimal_of b y hb))

/-- ` -12.50e-03` is -1250 hundred-thousandths. -/
theorem exDec : DecText chars!" -12.50e-03" true (1250 * 10 ^ (-5 : Int)) :=
  ⟨[' '], ['-'], chars!"12.50", chars!"e-03", [], [1, 2, 5, 0], 2, -3, rfl, by unfold IsBlank; decide, by simp, .minus,
    .both (run2 '1' '2' 1 2) (run2 '5' '0' 5 0), .given (neg := true) (.inl rfl) .minus (run2 '0' '3' 0 3), by norm_num [decimal]⟩
example : ∃ x, parseFloat chars!" -12.50e-03" = some x ∧ Rounded x true (1250 * 10 ^ (-5 : Int)) := by
  have h : (parseFloat chars!" -12.50e-03").isSome = true := by decide +kernel
  obtain ⟨x, hx⟩ := Option.isSome_iff_exists.1 h
  refine ⟨x, hx, ?_⟩
  rcases (C57_float _ _).1 hx with ⟨neg, q, hd, hr⟩ | ⟨neg, h, rfl⟩ | ⟨neg, h, rfl⟩
  · have hy := (C57_float _ (ofDec true 1250 (-5))).2 (.inl ⟨true, _, exDec, by simpa using ofDec_rounded true 1250 (-5)⟩)
    rw [hy] at hx
    cases hx
    simpa using ofDec_rounded true 1250 (-5)
  · exfalso; revert hx; generalize neg = b; revert b; decide +kernel
  · exfalso; revert hx; decide +kernel
/-- Halfway between 1 and the next double the even one is taken; from halfway above the greatest double on, infinity. -/
example : parseFloat chars!"1.00000000000000011102230246251565404236316680908203125" = some one ∧
    parseFloat chars!"1.00000000000000011102230246251565404236316680908203126" = some ⟨false, one.mag + 1, by decide⟩ ∧
    parseFloat chars!"1.7976931348623158e308" = some (maxFinite false) ∧ parseFloat chars!"-1.7976931348623159e308" = some (inf true) ∧
    parseFloat chars!"+InFinity" = some (inf false) ∧ parseFloat chars!".5" ≠ none ∧ parseFloat chars!"." = none ∧
    parseFloat chars!"1e" = none ∧ parseFloat chars!"1_000.5" ≠ none ∧ parseFloat chars!"1_.5" = none := by decide +kernel

/-! ### the exponent letter of Fortran -/

theorem run_not_letter {t : Text} {ds : List Nat} (h : Run t ds) : ∀ c ∈ t, ¬ (65 ≤ c.toNat ∧ c.toNat ≤ 90) ∧ ¬ (97 ≤ c.toNat ∧ c.toNat ≤ 122) := by
  have dig : ∀ {c d}, IsDecimal c d → ¬ (65 ≤ c.toNat ∧ c.toNat ≤ 90) ∧ ¬ (97 ≤ c.toNat ∧ c.toNat ≤ 122) := by
    rintro c d ⟨hd, z, hz, e⟩
    have big : ∀ z ∈ digitZeros, 128 ≤ z := by decide
    rcases List.mem_cons.1 hz with rfl | hz
    · omega
    · have := big z hz; omega
  induction h with
  | one h => intro c hc; rw [List.mem_singleton.1 hc]; exact dig h
  | next h _ ih =>
    intro c hc
    rcases List.mem_cons.1 hc with rfl | hc
    · exact dig h
    · exact ih c hc
  | under h _ ih =>
    intro c hc
    rcases List.mem_cons.1 hc with rfl | hc
    · exact dig h
    · rcases List.mem_cons.1 hc with rfl | hc
      · decide
      · exact ih c hc

theorem mantissa_not_letter {t : Text} {ds : List Nat} {k : Nat} (h : Mantissa t ds k) :
    ∀ c ∈ t, ¬ (65 ≤ c.toNat ∧ c.toNat ≤ 90) ∧ ¬ (97 ≤ c.toNat ∧ c.toNat ≤ 122) := by
  intro c hc
  cases h with
  | whole h => exact run_not_letter h c hc
  | point h =>
    rcases List.mem_append.1 hc with h' | h'
    · exact run_not_letter h c h'
    · rw [List.mem_singleton.1 h']; decide
  | both h g =>
    rcases List.mem_append.1 hc with h' | h'
    · exact run_not_letter h c h'
    · rcases List.mem_cons.1 h' with rfl | h'
      · decide
      · exact run_not_letter g c h'
  | frac g =>
    rcases List.mem_cons.1 hc with rfl | h'
    · decide
    · exact run_not_letter g c h'

theorem sign_not_letter {t : Text} {neg : Bool} (h : Sign t neg) : ∀ c ∈ t, ¬ (65 ≤ c.toNat ∧ c.toNat ≤ 90) ∧ ¬ (97 ≤ c.toNat ∧ c.toNat ≤ 122) := by
  cases h <;> decide

theorem blank_not_letter {c : Char} (h : IsBlank c) : ¬ (65 ≤ c.toNat ∧ c.toNat ≤ 90) ∧ ¬ (97 ≤ c.toNat ∧ c.toNat ≤ 122) := by
  unfold IsBlank at h
  simp at h
  omega

theorem letters_no_d {u w : Text} (hw : ∀ l ∈ w, l ≠ 'd' ∧ l ≠ 'D' ∧ l.toNat ≠ 132)
    (hf : List.Forall₂ (fun c l => c = l ∨ c.toNat + 32 = l.toNat) u w) : ∀ c ∈ u, c ≠ 'd' ∧ c ≠ 'D' := by
  induction hf with
  | nil => simp
  | @cons x l u w h1 _ ih =>
    intro c hc
    have hl := hw l (by simp)
    rcases List.mem_cons.1 hc with rfl | hc
    · rcases h1 with rfl | h1
      · exact ⟨hl.1, hl.2.1⟩
      · refine ⟨?_, ?_⟩
        · rintro rfl; exact hl.2.2 h1.symm
        · rintro rfl; exact hl.1 (Char.toNat_inj.1 h1.symm)
    · exact ih (fun y hy => hw y (List.mem_cons_of_mem _ hy)) c hc

theorem word_no_d {w t : Text} {neg : Bool} (hw : ∀ l ∈ w, l ≠ 'd' ∧ l ≠ 'D' ∧ l.toNat ≠ 132) (h : WordText w t neg) : ∀ c ∈ t, c ≠ 'd' ∧ c ≠ 'D' := by
  obtain ⟨a, s, u, b, rfl, ha, hb, hs, hf⟩ := h
  have nl : ∀ {c : Char}, ¬ (65 ≤ c.toNat ∧ c.toNat ≤ 90) ∧ ¬ (97 ≤ c.toNat ∧ c.toNat ≤ 122) → c ≠ 'd' ∧ c ≠ 'D' := by
    intro c hc
    constructor
    · rintro rfl; exact hc.2 (by decide)
    · rintro rfl; exact hc.1 (by decide)
  intro c hc
  rcases List.mem_append.1 hc with hc | hc
  · rcases List.mem_append.1 hc with hc | hc
    · rcases List.mem_append.1 hc with hc | hc
      · exact nl (blank_not_letter (ha c hc))
      · exact nl (sign_not_letter hs c hc)
    · exact letters_no_d hw hf c hc
  · exact nl (blank_not_letter (hb c hc))

/-- A number with the exponent letter `D`, as Fortran writes double precision, is not a number for `float()`; the readers of types 15, 18,
55, 58, 82 and 2414 and the header fields of all types use it directly. -/
theorem C57_negation_fortran (t : Text) (h : 'D' ∈ t ∨ 'd' ∈ t) : parseFloat t = none := by
  cases hp : parseFloat t with
  | none => rfl
  | some x =>
    exfalso
    have key : ∀ c ∈ t, c ≠ 'd' ∧ c ≠ 'D' := by
      rcases (C57_float t x).1 hp with ⟨neg, q, ⟨a, s, m, y, b, ds, k, e, rfl, ha, hb, hs, hm, hy, -⟩, -⟩ | ⟨neg, hw, -⟩ | ⟨neg, hw, -⟩
      · have nl : ∀ {c : Char}, ¬ (65 ≤ c.toNat ∧ c.toNat ≤ 90) ∧ ¬ (97 ≤ c.toNat ∧ c.toNat ≤ 122) → c ≠ 'd' ∧ c ≠ 'D' := by
          intro c hc
          constructor
          · rintro rfl; exact hc.2 (by decide)
          · rintro rfl; exact hc.1 (by decide)
        intro c hc
        rcases List.mem_append.1 hc with hc | hc
        · rcases List.mem_append.1 hc with hc | hc
          · rcases List.mem_append.1 hc with hc | hc
            · rcases List.mem_append.1 hc with hc | hc
              · exact nl (blank_not_letter (ha c hc))
              · exact nl (sign_not_letter hs c hc)
            · exact nl (mantissa_not_letter hm c hc)
          · cases hy with
            | absent => simp at hc
            | given hx hs' hr =>
              rcases List.mem_cons.1 hc with rfl | hc
              · rcases hx with rfl | rfl <;> decide
              · rcases List.mem_append.1 hc with hc | hc
                · exact nl (sign_not_letter hs' c hc)
                · exact nl (run_not_letter hr c hc)
        · exact nl (blank_not_letter (hb c hc))
      · rcases hw with hw | hw
        · exact word_no_d (by decide) hw
        · exact word_no_d (by decide) hw
      · exact word_no_d (by decide) hw
    rcases h with h | h
    · exact (key _ h).2 rfl
    · exact (key _ h).1 rfl

example : parseFloat chars!"1.0D+00" = none := C57_negation_fortran _ (.inl (by decide))

/-- A number with the exponent letter `D` or `d`. -/
def FortranText (t : Text) (neg : Bool) (q : ℚ) : Prop :=
  ∃ a s m c g r b eneg ds k es, t = a ++ s ++ m ++ (c :: (g ++ r)) ++ b ∧ (c = 'D' ∨ c = 'd') ∧ (∀ c ∈ a, IsBlank c) ∧ (∀ c ∈ b, IsBlank c) ∧
    Sign s neg ∧ Mantissa m ds k ∧ Sign g eneg ∧ Run r es ∧
    q = decimal ds * (10 : ℚ) ^ ((if eneg then -(decimal es : Int) else decimal es) - k)

theorem map_fix {φ : Char → Char} {t : Text} (hφ : ∀ c, ¬ (65 ≤ c.toNat ∧ c.toNat ≤ 90) ∧ ¬ (97 ≤ c.toNat ∧ c.toNat ≤ 122) → φ c = c)
    (h : ∀ c ∈ t, ¬ (65 ≤ c.toNat ∧ c.toNat ≤ 90) ∧ ¬ (97 ≤ c.toNat ∧ c.toNat ≤ 122)) : t.map φ = t := by
  conv_rhs => rw [← List.map_id t]
  exact List.map_congr_left fun c hc => hφ c (h c hc)

theorem fortran_map (φ : Char → Char) (hφ : ∀ c, ¬ (65 ≤ c.toNat ∧ c.toNat ≤ 90) ∧ ¬ (97 ≤ c.toNat ∧ c.toNat ≤ 122) → φ c = c)
    (hD : φ 'D' = 'e' ∨ φ 'D' = 'E') (hd : φ 'd' = 'e' ∨ φ 'd' = 'E') {t : Text} {neg : Bool} {q : ℚ} (h : FortranText t neg q) :
    ∃ x, pyFloat (t.map φ) = .ok x ∧ Rounded x neg q := by
  obtain ⟨a, s, m, c, g, r, b, eneg, ds, k, es, rfl, hc, ha, hb, hs, hm, hg, hr, rfl⟩ := h
  have hc' : φ c = 'e' ∨ φ c = 'E' := by rcases hc with rfl | rfl <;> assumption
  have e : (a ++ s ++ m ++ (c :: (g ++ r)) ++ b).map φ = a ++ s ++ m ++ (φ c :: (g ++ r)) ++ b := by
    simp only [List.map_append, List.map_cons]
    rw [map_fix hφ fun c hc => blank_not_letter (ha c hc), map_fix hφ fun c hc => blank_not_letter (hb c hc), map_fix hφ (sign_not_letter hs),
      map_fix hφ (mantissa_not_letter hm), map_fix hφ (sign_not_letter hg), map_fix hφ (run_not_letter hr)]
  refine ⟨ofDec neg (decimal ds) ((if eneg then -(decimal es : Int) else decimal es) - k), ?_, ofDec_rounded neg _ _⟩
  have := (C57_float (a ++ s ++ m ++ (φ c :: (g ++ r)) ++ b) _).2
    (.inl ⟨neg, _, ⟨a, s, m, φ c :: (g ++ r), b, ds, k, _, rfl, ha, hb, hs, hm, .given hc' hg hr, rfl⟩, ofDec_rounded neg _ _⟩)
  rw [e]
  unfold pyFloat
  rw [this]
  rfl

/-- The readers of types 164, 2411 and 2420 understand the exponent letter `D` as `E`. -/
theorem C57_fortran (t : Text) (neg : Bool) (q : ℚ) (h : FortranText t neg q) :
    (∃ x, dFloat t = .ok x ∧ Rounded x neg q) ∧ (∃ x, deFloat t = .ok x ∧ Rounded x neg q) ∧
    (∃ x, dFloat2420 t = .ok x ∧ Rounded x neg q) := by
  have ne : ∀ c : Char, ¬ (65 ≤ c.toNat ∧ c.toNat ≤ 90) ∧ ¬ (97 ≤ c.toNat ∧ c.toNat ≤ 122) → c ≠ 'd' ∧ c ≠ 'D' := by
    intro c hc
    constructor
    · rintro rfl; exact hc.2 (by decide)
    · rintro rfl; exact hc.1 (by decide)
  refine ⟨?_, ?_, ?_⟩
  · have := fortran_map (fun c => if lowerChar c = 'd' then 'e' else lowerChar c) (fun c hc => by
      have hl : lowerChar c = c := by unfold lowerChar; rw [if_neg (by omega)]
      simp only [hl, if_neg (ne c hc).1]) (by decide) (by decide) h
    unfold dFloat replaceChar lower
    rw [List.map_map]
    exact this
  · have := fortran_map (fun c => if (if c = 'D' then 'E' else c) = 'd' then 'E' else (if c = 'D' then 'E' else c)) (fun c hc => by
      simp only [if_neg (ne c hc).1, if_neg (ne c hc).2]) (by decide) (by decide) h
    unfold deFloat replaceChar
    rw [List.map_map]
    exact this
  · have := fortran_map (fun c => if (if c = 'd' then 'e' else c) = 'D' then 'E' else (if c = 'd' then 'e' else c)) (fun c hc => by
      simp only [if_neg (ne c hc).1, if_neg (ne c hc).2]) (by decide) (by decide) h
    unfold dFloat2420 replaceChar
    rw [List.map_map]
    exact this

example : FortranText chars!"  0.25D-01" false (25 * 10 ^ (-3 : Int)) := 
  ⟨chars!"  ", [], chars!"0.25", 'D', ['-'], chars!"01", [], true, [0, 2, 5], 2, [0, 1], rfl, .inl rfl, by unfold IsBlank; decide, by simp, .absent,
    .both (.one (isDecimal_of '0' 0)) (run2 '2' '5' 2 5), .minus, run2 '0' '1' 0 1, by norm_num [decimal]⟩

end Verif
