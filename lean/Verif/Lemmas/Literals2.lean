import Verif.Lemmas.Literals
/-
The program for `float()` against the grammar of literals.
-/
namespace Verif
open F64

theorem word_inf : Small ['i', 'n', 'f'] := by unfold Small; decide
theorem word_infinity : Small ['i', 'n', 'f', 'i', 'n', 'i', 't', 'y'] := by unfold Small; decide
theorem word_nan : Small ['n', 'a', 'n'] := by unfold Small; decide

theorem dec_not_word {u w : Text} {n : Nat} {e : Int} (hw : Small w) (h : parseDec u = some (n, e)) : lower u ≠ w := by
  intro hl
  have hf := (lower_iff u w hw).1 hl
  have hc := word_letters hw hf
  obtain ⟨i, p, f, x, is, fs, e', rfl, hi, hf', hne, -⟩ := (parseDec_iff _ _ _).1 h
  have none_digit : ∀ c ∈ i ++ f, digitVal c = none := by
    intro c hcm
    refine (letter_facts (hc c ?_)).1
    rcases List.mem_append.1 hcm with h | h <;> simp [h]
  have hp := plain_append hi hf'
  generalize i ++ f = a at *
  generalize is ++ fs = b at *
  cases hp with
  | nil => exact hne rfl
  | cons h1 _ => rw [none_digit _ (by simp)] at h1; cases h1

theorem body_iff (neg : Bool) (u : Text) (x : F64) : parseFloatBody neg u = some x ↔
    ((lower u = ['i', 'n', 'f'] ∨ lower u = ['i', 'n', 'f', 'i', 'n', 'i', 't', 'y']) ∧ x = inf neg) ∨
    (lower u = ['n', 'a', 'n'] ∧ x = nan) ∨ ∃ n e, parseDec u = some (n, e) ∧ x = ofDec neg n e := by
  unfold parseFloatBody
  simp only
  by_cases h1 : lower u = ['i', 'n', 'f'] ∨ lower u = ['i', 'n', 'f', 'i', 'n', 'i', 't', 'y']
  · rw [if_pos h1]
    constructor
    · intro h; left; exact ⟨h1, (Option.some.inj h).symm⟩
    · rintro (⟨-, rfl⟩ | ⟨h2, -⟩ | ⟨n, e, h2, -⟩)
      · rfl
      · rw [h2] at h1; exact absurd h1 (by decide)
      · rcases h1 with h1 | h1
        · exact absurd h1 (dec_not_word word_inf h2)
        · exact absurd h1 (dec_not_word word_infinity h2)
  · rw [if_neg h1]
    by_cases h2 : lower u = ['n', 'a', 'n']
    · rw [if_pos h2]
      constructor
      · intro h; right; left; exact ⟨h2, (Option.some.inj h).symm⟩
      · rintro (⟨h3, -⟩ | ⟨-, rfl⟩ | ⟨n, e, h3, -⟩)
        · exact absurd h3 h1
        · rfl
        · exact absurd h2 (dec_not_word word_nan h3)
    · rw [if_neg h2, Option.map_eq_some_iff]
      constructor
      · rintro ⟨⟨n, e⟩, h, rfl⟩; exact .inr (.inr ⟨n, e, h, rfl⟩)
      · rintro (⟨h3, -⟩ | ⟨h3, -⟩ | ⟨n, e, h3, rfl⟩)
        · exact absurd h3 h1
        · exact absurd h3 h2
        · exact ⟨(n, e), h3, rfl⟩

theorem body_head {neg : Bool} {c : Char} {r : Text} (hc : c = '+' ∨ c = '-') : parseFloatBody neg (c :: r) = none := by
  have hp : digitsPrefix (c :: r) = ([], c :: r) := by rw [digitsPrefix]; rcases hc with rfl | rfl <;> rfl
  have hd : parseDec (c :: r) = none := by
    rw [parseDec_none hp (by rintro q h; cases h; revert hc; decide)]
    rfl
  unfold parseFloatBody
  simp only [hd, lower, List.map_cons]
  rcases hc with rfl | rfl
  · rw [show lowerChar '+' = '+' by decide]; simp
  · rw [show lowerChar '-' = '-' by decide]; simp

theorem signedFloat_iff (s : Text) (x : F64) : parseSignedFloat s = some x ↔
    ∃ g r neg, s = g ++ r ∧ Sign g neg ∧ parseFloatBody neg r = some x := by
  constructor
  · intro h
    cases s with
    | nil => cases h
    | cons c r =>
      rw [parseSignedFloat] at h
      split at h
      case isTrue hc => subst hc; exact ⟨['-'], r, true, rfl, .minus, h⟩
      · split at h
        case isTrue hc => subst hc; exact ⟨['+'], r, false, rfl, .plus, h⟩
        · exact ⟨[], _, false, rfl, .absent, h⟩
  · rintro ⟨g, r, neg, rfl, hg, h⟩
    cases hg with
    | minus => exact h
    | plus => exact h
    | absent =>
      cases r with
      | nil => revert h; decide +revert
      | cons c r =>
        have h1 : c ≠ '-' := by rintro rfl; rw [body_head (.inr rfl)] at h; cases h
        have h2 : c ≠ '+' := by rintro rfl; rw [body_head (.inl rfl)] at h; cases h
        rw [List.nil_append, parseSignedFloat, if_neg h1, if_neg h2, h]

theorem drop_sign {t g r : Text} {neg : Bool} (hg : Sign g neg) (h : dropUnders false t = some (g ++ r)) :
    ∃ t', t = g ++ t' ∧ dropUnders false t' = some r := by
  cases hg with
  | absent => exact ⟨t, rfl, h⟩
  | plus =>
    obtain ⟨t1, t2, rfl, h1, h2⟩ := dropUnders_split (x := []) digit_sign.2.1 h
    rw [dropUnders_nil h1]
    exact ⟨t2, rfl, h2⟩
  | minus =>
    obtain ⟨t1, t2, rfl, h1, h2⟩ := dropUnders_split (x := []) digit_sign.1 h
    rw [dropUnders_nil h1]
    exact ⟨t2, rfl, h2⟩

theorem join_sign {t g r : Text} {neg : Bool} (hg : Sign g neg) (h : dropUnders false t = some r) :
    dropUnders false (g ++ t) = some (g ++ r) := by
  cases hg with
  | absent => exact h
  | plus => exact dropUnders_join (t1 := []) digit_sign.2.1 (by decide) rfl h
  | minus => exact dropUnders_join (t1 := []) digit_sign.1 (by decide) rfl h

theorem mantissa_noSpace {t : Text} {ds : List Nat} {k : Nat} (h : Mantissa t ds k) : ∀ c ∈ t, isSpace c = false := by
  have dot : isSpace '.' = false := by decide
  intro c hc
  cases h with
  | whole h => exact run_noSpace h c hc
  | point h =>
    rcases List.mem_append.1 hc with h' | h'
    · exact run_noSpace h c h'
    · rw [List.mem_singleton.1 h']; exact dot
  | both h g =>
    rcases List.mem_append.1 hc with h' | h'
    · exact run_noSpace h c h'
    · rcases List.mem_cons.1 h' with rfl | h'
      · exact dot
      · exact run_noSpace g c h'
  | frac g =>
    rcases List.mem_cons.1 hc with rfl | h'
    · exact dot
    · exact run_noSpace g c h'

theorem exponent_noSpace {t : Text} {e : Int} (h : Exponent t e) : ∀ c ∈ t, isSpace c = false := by
  intro c hc
  cases h with
  | absent => simp at hc
  | given hx hs hr =>
    rcases List.mem_cons.1 hc with rfl | h'
    · rcases hx with rfl | rfl <;> decide
    · rcases List.mem_append.1 h' with h' | h'
      · exact sign_noSpace hs c h'
      · exact run_noSpace hr c h'

theorem float_iff (t : Text) (x : F64) : parseFloat t = some x ↔
    (∃ neg, (WordText ['i', 'n', 'f'] t neg ∨ WordText ['i', 'n', 'f', 'i', 'n', 'i', 't', 'y'] t neg) ∧ x = inf neg) ∨
    (∃ neg, WordText ['n', 'a', 'n'] t neg ∧ x = nan) ∨
    ∃ a s m y b ds k e neg, t = a ++ s ++ m ++ y ++ b ∧ (∀ c ∈ a, IsBlank c) ∧ (∀ c ∈ b, IsBlank c) ∧ Sign s neg ∧ Mantissa m ds k ∧
      Exponent y e ∧ x = ofDec neg (decimal ds) (e - k) := by
  constructor
  · intro h
    unfold parseFloat at h
    obtain ⟨a, b, e, ha, hb⟩ := numStrip_parts t
    have ha' : ∀ c ∈ a, IsBlank c := fun c hc => (blank_iff c).1 (ha c hc)
    have hb' : ∀ c ∈ b, IsBlank c := fun c hc => (blank_iff c).1 (hb c hc)
    cases hd : dropUnders false (numStrip t) with
    | none => rw [hd] at h; cases h
    | some s =>
      rw [hd] at h
      obtain ⟨g, r, neg, rfl, hg, hbody⟩ := (signedFloat_iff _ _).1 h
      obtain ⟨t', et, ht'⟩ := drop_sign hg hd
      rw [et] at e
      have word : ∀ w : Text, Small w → lower r = w → WordText w t neg := by
        intro w hw hl
        have hf := (lower_iff r w hw).1 hl
        have := dropUnders_letters ht' fun c hc => (letter_facts (word_letters hw hf c hc)).1
        subst this
        exact ⟨a, g, t', b, by rw [e]; simp, ha', hb', hg, hf⟩
      rcases (body_iff _ _ _).1 hbody with ⟨hw, rfl⟩ | ⟨hw, rfl⟩ | ⟨n, ex, hdec, rfl⟩
      · left
        refine ⟨neg, ?_, rfl⟩
        rcases hw with hw | hw
        · exact .inl (word _ word_inf hw)
        · exact .inr (word _ word_infinity hw)
      · exact .inr (.inl ⟨neg, word _ word_nan hw, rfl⟩)
      · right; right
        obtain ⟨m, y, ds, k, e', rfl, hm, hy, rfl, rfl⟩ := (dec_iff _ _ _).1 ⟨r, ht', hdec⟩
        exact ⟨a, g, m, y, b, ds, k, e', neg, by rw [e]; simp, ha', hb', hg, hm, hy, rfl⟩
  · have word : ∀ (w : Text) (neg : Bool), Small w → WordText w t neg → ∃ g u, numStrip t = g ++ u ∧ Sign g neg ∧
        dropUnders false (g ++ u) = some (g ++ u) ∧ lower u = w := by
      rintro w neg hw ⟨a, g, u, b, rfl, ha, hb, hg, hf⟩
      have hl := word_letters hw hf
      refine ⟨g, u, ?_, hg, ?_, (lower_iff u w hw).2 hf⟩
      · rw [List.append_assoc a g u]
        exact numStrip_core ha hb fun c hc => by
          rcases List.mem_append.1 hc with h | h
          · exact sign_noSpace hg c h
          · exact (letter_facts (hl c h)).2.2
      · exact join_sign hg (dropUnders_noUnder _ _ fun c hc => (letter_facts (hl c hc)).2.1)
    have done : ∀ (g u : Text) (neg : Bool) (x : F64), numStrip t = g ++ u → Sign g neg → dropUnders false (g ++ u) = some (g ++ u) →
        parseFloatBody neg u = some x → parseFloat t = some x := by
      intro g u neg x h1 h2 h3 h4
      unfold parseFloat
      rw [h1, h3]
      exact (signedFloat_iff _ _).2 ⟨g, u, neg, rfl, h2, h4⟩
    rintro (⟨neg, hw, rfl⟩ | ⟨neg, hw, rfl⟩ | ⟨a, s, m, y, b, ds, k, e, neg, rfl, ha, hb, hs, hm, hy, rfl⟩)
    · rcases hw with hw | hw
      · obtain ⟨g, u, h1, h2, h3, h4⟩ := word _ _ word_inf hw
        exact done g u neg _ h1 h2 h3 ((body_iff _ _ _).2 (.inl ⟨.inl h4, rfl⟩))
      · obtain ⟨g, u, h1, h2, h3, h4⟩ := word _ _ word_infinity hw
        exact done g u neg _ h1 h2 h3 ((body_iff _ _ _).2 (.inl ⟨.inr h4, rfl⟩))
    · obtain ⟨g, u, h1, h2, h3, h4⟩ := word _ _ word_nan hw
      exact done g u neg _ h1 h2 h3 ((body_iff _ _ _).2 (.inr (.inl ⟨h4, rfl⟩)))
    · obtain ⟨u, hu, hd⟩ := (dec_iff (m ++ y) (decimal ds) (e - k)).2 ⟨m, y, ds, k, e, rfl, hm, hy, rfl, rfl⟩
      have e1 : numStrip (a ++ s ++ m ++ y ++ b) = s ++ (m ++ y) := by
        rw [List.append_assoc a s m, List.append_assoc a (s ++ m) y, List.append_assoc s m y]
        exact numStrip_core ha hb fun c hc => by
          rcases List.mem_append.1 hc with h | h
          · exact sign_noSpace hs c h
          · rcases List.mem_append.1 h with h | h
            · exact mantissa_noSpace hm c h
            · exact exponent_noSpace hy c h
      unfold parseFloat
      rw [e1, join_sign hs hu]
      exact (signedFloat_iff _ _).2 ⟨s, u, neg, rfl, hs, (body_iff _ _ _).2 (.inr (.inr ⟨_, _, hd, rfl⟩))⟩

end Verif
