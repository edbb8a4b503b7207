import Verif.Py.Utf8
import Verif.Lemmas.Text
/-
UTF-8: decoding inverts encoding.
-/
namespace Verif

theorem char_toNat_bound (c : Char) :
    c.toNat < 0xd800 ∨ (0xdfff < c.toNat ∧ c.toNat < 0x110000) := by
  have h := c.valid
  rcases h with h | h
  · left; exact h
  · right; exact h

theorem char_ofNat_toNat (c : Char) : Char.ofNat c.toNat = c := Char.ofNat_toNat c

theorem toNat_ofNat_u8 (n : Nat) (h : n < 256) : (UInt8.ofNat n).toNat = n := by
  rw [UInt8.toNat_ofNat']; omega

theorem decode_encodeChar (c : Char) (r : Bytes) : decode (encodeChar c ++ r) = c :: decode r := by
  have hb := char_toNat_bound c
  have hc := char_ofNat_toNat c
  generalize hn : c.toNat = n at hb hc
  unfold encodeChar
  simp only [hn]
  by_cases h1 : n < 0x80
  · simp only [h1, if_true, List.cons_append, List.nil_append]
    conv => lhs; rw [decode.eq_def]
    simp only [toNat_ofNat_u8 n (by omega), h1, if_true, hc]
  · simp only [h1, if_false]
    by_cases h2 : n < 0x800
    · simp only [h2, if_true, List.cons_append, List.nil_append]
      conv => lhs; rw [decode.eq_def]
      have e1 := toNat_ofNat_u8 (0xc0 + n / 64) (by omega)
      have e2 := toNat_ofNat_u8 (0x80 + n % 64) (by omega)
      simp only [e1]
      rw [if_neg (by omega), if_pos (by omega)]
      have hcont : isCont (UInt8.ofNat (0x80 + n % 64)) = true := by
        simp only [isCont, e2, Bool.and_eq_true, decide_eq_true_eq]; omega
      simp only [hcont, if_true, e2]
      rw [show (0xc0 + n / 64 - 0xc0) * 64 + (0x80 + n % 64 - 0x80) = n by omega, hc]
    · simp only [h2, if_false]
      by_cases h3 : n < 0x10000
      · simp only [h3, if_true, List.cons_append, List.nil_append]
        conv => lhs; rw [decode.eq_def]
        have e1 := toNat_ofNat_u8 (0xe0 + n / 4096) (by omega)
        have e2 := toNat_ofNat_u8 (0x80 + n / 64 % 64) (by omega)
        have e3 := toNat_ofNat_u8 (0x80 + n % 64) (by omega)
        simp only [e1]
        rw [if_neg (by omega), if_neg (by omega), if_pos (by omega)]
        have hs : second3 (UInt8.ofNat (0xe0 + n / 4096)) (UInt8.ofNat (0x80 + n / 64 % 64)) = true := by
          simp only [second3, isCont, e1, e2]
          split
          · simp only [Bool.and_eq_true, decide_eq_true_eq]; omega
          · split
            · simp only [Bool.and_eq_true, decide_eq_true_eq]; omega
            · simp only [Bool.and_eq_true, decide_eq_true_eq]; omega
        have hcont : isCont (UInt8.ofNat (0x80 + n % 64)) = true := by
          simp only [isCont, e3, Bool.and_eq_true, decide_eq_true_eq]; omega
        simp only [hs, hcont, if_true, e2, e3]
        rw [show (0xe0 + n / 4096 - 0xe0) * 4096 + (0x80 + n / 64 % 64 - 0x80) * 64 + (0x80 + n % 64 - 0x80) = n by omega, hc]
      · simp only [h3, if_false, List.cons_append, List.nil_append]
        conv => lhs; rw [decode.eq_def]
        have e1 := toNat_ofNat_u8 (0xf0 + n / 262144) (by omega)
        have e2 := toNat_ofNat_u8 (0x80 + n / 4096 % 64) (by omega)
        have e3 := toNat_ofNat_u8 (0x80 + n / 64 % 64) (by omega)
        have e4 := toNat_ofNat_u8 (0x80 + n % 64) (by omega)
        simp only [e1]
        rw [if_neg (by omega), if_neg (by omega), if_neg (by omega), if_pos (by omega)]
        have hs : second4 (UInt8.ofNat (0xf0 + n / 262144)) (UInt8.ofNat (0x80 + n / 4096 % 64)) = true := by
          simp only [second4, isCont, e1, e2]
          split
          · simp only [Bool.and_eq_true, decide_eq_true_eq]; omega
          · split
            · simp only [Bool.and_eq_true, decide_eq_true_eq]; omega
            · simp only [Bool.and_eq_true, decide_eq_true_eq]; omega
        have hc3 : isCont (UInt8.ofNat (0x80 + n / 64 % 64)) = true := by
          simp only [isCont, e3, Bool.and_eq_true, decide_eq_true_eq]; omega
        have hc4 : isCont (UInt8.ofNat (0x80 + n % 64)) = true := by
          simp only [isCont, e4, Bool.and_eq_true, decide_eq_true_eq]; omega
        simp only [hs, hc3, hc4, if_true, e2, e3, e4]
        rw [show (0xf0 + n / 262144 - 0xf0) * 262144 + (0x80 + n / 4096 % 64 - 0x80) * 4096 + (0x80 + n / 64 % 64 - 0x80) * 64 + (0x80 + n % 64 - 0x80) = n by omega, hc]

theorem encode_nil : encode [] = [] := rfl
theorem encode_cons (c : Char) (t : Text) : encode (c :: t) = encodeChar c ++ encode t := by simp [encode]
theorem encode_append (a b : Text) : encode (a ++ b) = encode a ++ encode b := by simp [encode]

theorem decode_encode_append (t : Text) (r : Bytes) : decode (encode t ++ r) = t ++ decode r := by
  induction t with
  | nil => rfl
  | cons c t ih =>
    rw [encode_cons, List.append_assoc, decode_encodeChar, ih]
    rfl

theorem decode_encode (t : Text) : decode (encode t) = t := by
  have := decode_encode_append t []
  simpa [decode] using this

theorem encodeChar_ascii (c : Char) (h : c.toNat < 0x80) : encodeChar c = [UInt8.ofNat c.toNat] := by
  simp [encodeChar, h]

/-- Non-ASCII characters are encoded by bytes `≥ 0x80` only. -/
theorem encodeChar_high (c : Char) (h : 0x80 ≤ c.toNat) : ∀ b ∈ encodeChar c, 0x80 ≤ b.toNat := by
  have hb := char_toNat_bound c
  intro b hm
  unfold encodeChar at hm
  simp only [Nat.not_lt.mpr h, if_false] at hm
  generalize c.toNat = n at *
  split at hm
  · simp only [List.mem_cons, List.not_mem_nil, or_false] at hm
    rcases hm with rfl | rfl <;> rw [toNat_ofNat_u8 _ (by omega)] <;> omega
  · split at hm
    · simp only [List.mem_cons, List.not_mem_nil, or_false] at hm
      rcases hm with rfl | rfl | rfl <;> rw [toNat_ofNat_u8 _ (by omega)] <;> omega
    · simp only [List.mem_cons, List.not_mem_nil, or_false] at hm
      rcases hm with rfl | rfl | rfl | rfl <;> rw [toNat_ofNat_u8 _ (by omega)] <;> omega

theorem encodeChar_ne_nil (c : Char) : encodeChar c ≠ [] := by
  unfold encodeChar
  simp only
  split
  · simp
  · split
    · simp
    · split <;> simp

end Verif
