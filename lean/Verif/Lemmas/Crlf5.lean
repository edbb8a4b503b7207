import Verif.Lemmas.Crlf4
import Verif.Lemmas.Many
import Verif.Model.Windows
/-
What pyuff writes, with CR LF.
-/
namespace Verif

theorem ite_step {α : Type} {c : Prop} [Decidable c] {a b a' b' : α} (h1 : c → a = a') (h2 : b = b') :
    (if c then a else b) = if c then a' else b' := by
  split
  · next h => exact h1 h
  · exact h2

/-- Reading a block does not depend on its line ends. -/
theorem readBlock_crlf (b : Bytes) (h : NoCr b) (header : Bool) (hs : EolSafe header b) :
    readBlock (blockType b) header (crlf b) = readBlock (blockType b) header b := by
  have hd := noCr_decode b h
  unfold readBlock
  rw [decode_crlf]
  refine ite_step (fun _ => extract15_crlf _ hd) ?_
  refine ite_step (fun _ => extract18_crlf _ hd) ?_
  refine ite_step (fun ht => extract55_crlf _ hd (hs.cells55 ((typeIs_iff _ _).2 ht))) ?_
  refine ite_step (fun ht => ?_) ?_
  · have ht := (typeIs_iff _ _).2 ht
    cases header with
    | true => exact extract58_header_crlf b h
    | false => exact extract58_crlf b h (hs.ascii58 ht rfl) (hs.cells58 ht rfl)
  refine ite_step (fun _ => extract82_crlf _ hd) ?_
  refine ite_step (fun _ => extract151_crlf _ hd) ?_
  refine ite_step (fun _ => extract164_crlf _ hd) ?_
  refine ite_step (fun _ => extract1858_crlf _ hd) ?_
  refine ite_step (fun _ => extract2400_crlf _ hd) ?_
  refine ite_step (fun _ => extract2411_crlf _ hd) ?_
  refine ite_step (fun _ => extract2412_crlf _ hd) ?_
  refine ite_step (fun _ => extract2414_crlf _ hd) ?_
  refine ite_step (fun _ => extract2420_crlf _ hd) ?_
  refine ite_step (fun _ => extract2429_crlf _ hd) ?_
  exact ite_step (fun _ => extract2467_crlf _ hd) rfl

/-! ### The blocks that are written have no carriage return -/

theorem noCr_nil : NoCr [] := by decide
theorem NoCr.append {a b : Bytes} (h1 : NoCr a) (h2 : NoCr b) : NoCr (a ++ b) := by
  intro c hc
  rcases List.mem_append.1 hc with h | h
  · exact h1 c h
  · exact h2 c h

theorem noCr_lines (ls : List Text) (h : ∀ l ∈ ls, NoBreak l) : NoCr (encode (joinLines ls)) := by
  induction ls with
  | nil => exact noCr_nil
  | cons l r ih =>
    rw [joinLines_cons, show l ++ '\n' :: joinLines r = l ++ (['\n'] ++ joinLines r) by simp, encode_append, encode_append]
    refine NoCr.append (fun c hc => (encode_noLF l (h l (List.mem_cons_self ..)) c hc).2) (NoCr.append (by decide) ?_)
    exact ih fun x hx => h x (List.mem_cons_of_mem _ hx)

theorem noCr_block {lines : List Text} (h : Safe lines) : NoCr (encode (blockText lines)) := by
  refine noCr_lines _ fun l hl => ?_
  rcases List.mem_cons.1 hl with rfl | hl
  · exact noBreak_tagText
  · exact (h l hl).1

theorem encodeChar_noLF {c : Char} (h : c ≠ '\n') : ∀ b ∈ encodeChar c, b ≠ 10 := by
  intro b hb
  by_cases hc : c.toNat < 0x80
  · rw [encodeChar_ascii c hc, List.mem_singleton] at hb
    have e : b.toNat = c.toNat := by rw [hb]; exact toNat_ofNat_u8 _ (by omega)
    rintro rfl
    apply h
    have : c.toNat = 10 := by rw [← e]; rfl
    exact Char.toNat_inj.1 this
  · have := encodeChar_high c (by omega) b hb
    rintro rfl; exact absurd this (by decide)

/-- Text mode on Windows: line ends can be changed before or after encoding. -/
theorem winText_eq (t : Text) : winText t = crlf (encode t) := by
  show encode (crlfT t) = crlf (encode t)
  induction t with
  | nil => rfl
  | cons c r ih =>
    by_cases h : c = '\n'
    · subst h
      rw [crlfT_lf, encode_cons, encode_cons, encode_cons, ih, crlf_append]
      rfl
    · rw [crlfT_other h, encode_cons, encode_cons, ih, crlf_append, crlf_id (encodeChar_noLF h)]

/-! ### Frames -/

/-- A block as it is followed by its closing delimiter on Windows. -/
def closedWin (b : Bytes) : Bytes := b ++ (tagPat ++ [13, 10])

/-- A block of bytes as `refresh` sees it on Windows. -/
structure FramedWin (n : Int) (block : Bytes) : Prop where
  tags : tagsFrom 0 (closedWin block) = [0, block.length]
  type : blockType block = n

theorem crlf_tag : crlf (tagPat ++ [10]) = tagPat ++ [13, 10] := by decide

theorem framedWin_crlf {n : Int} {b : Bytes} (h : Framed n b) (hc : NoCr b) : FramedWin n (crlf b) := by
  constructor
  · have e := tags_crlf [] (b ++ (tagPat ++ [10]))
    rw [show ([] : Bytes).length = 0 from rfl, crlf_nil, h.tags, crlf_append, crlf_tag] at e
    unfold closedWin
    rw [show ([] : Bytes).length = 0 from rfl] at e
    rw [e]
    simp [crlfPos, crlf_nil]
  · rw [blockType_crlf b hc, h.type]

theorem tags_payloadWin (p : Bytes) (h : ¬ tagPat <:+: p) (i : Nat) :
    tagsFrom i (p ++ (tagPat ++ [13, 10])) = [i + p.length] := by
  induction p generalizing i with
  | nil => rw [tagsFrom_shift, List.nil_append, show tagsFrom 0 (tagPat ++ [13, 10]) = [0] by decide]; simp
  | cons c p ih =>
    have hn : ¬ isTag (c :: p ++ (tagPat ++ [13, 10])) := by
      intro ht
      have hp := ht.1
      rcases Nat.lt_or_ge (c :: p).length 6 with hlt | hge
      · have h1 : tagPat.drop (c :: p).length <+: (tagPat ++ [13, 10]) := by
          obtain ⟨s, hs⟩ := hp
          refine ⟨s, ?_⟩
          have e := congrArg (List.drop (c :: p).length) hs
          rw [List.drop_append_of_le_length (by show _ ≤ 6; omega), List.drop_left] at e
          exact e
        have hk : 1 ≤ (c :: p).length := by simp
        generalize (c :: p).length = k at h1 hlt hk
        have key : ∀ k < 6, 1 ≤ k → ¬ tagPat.drop k <+: (tagPat ++ [13, 10]) := by decide
        exact key k hlt hk h1
      · apply h
        have : tagPat <+: (c :: p) := by
          apply List.prefix_of_prefix_length_le hp (List.prefix_append _ _)
          exact hge
        exact this.isInfix
    have hp' : ¬ tagPat <:+: p := fun hi => h (hi.trans (List.suffix_cons c p).isInfix)
    show (if isTag (c :: p ++ (tagPat ++ [13, 10])) then [i] else []) ++ tagsFrom (i + 1) (p ++ (tagPat ++ [13, 10])) = _
    rw [if_neg hn, ih hp']
    simp; omega

theorem endsLF_crlf {a : Bytes} (h : EndsLF a) : EndsLF (crlf a) := by
  obtain ⟨x, rfl⟩ := h
  exact ⟨crlf x ++ [13], by rw [crlf_append]; simp [crlf]⟩

theorem splitGen_crlf {α : Type} [DecidableEq α] (cr lf : α) (brk : α → Bool) (keep : Bool) (hcr : brk cr = true)
    (l acc t : List α) (hl : ∀ c ∈ l, brk c = false) :
    splitLinesGen cr lf brk keep acc (l ++ cr :: lf :: t)
      = (if keep then acc.reverse ++ l ++ [cr, lf] else acc.reverse ++ l) :: splitLinesGen cr lf brk keep [] t := by
  induction l generalizing acc with
  | nil =>
    rw [List.nil_append, splitLinesGen, if_pos ⟨rfl, rfl⟩]
    simp
  | cons c l ih =>
    rw [List.cons_append, splitLinesGen_cons_noBrk cr lf brk keep hcr acc _ c (hl c (List.mem_cons_self ..)),
      ih _ fun d hd => hl d (List.mem_cons_of_mem _ hd)]
    simp

theorem splitLinesB_crlfLine (l r : Bytes) (h : ∀ b ∈ l, b ≠ 10 ∧ b ≠ 13) :
    splitLinesB (l ++ 13 :: 10 :: r) = l :: splitLinesB r := by
  unfold splitLinesB
  rw [splitGen_crlf 13 10 _ false (by decide) l [] r (by intro c hc; have := h c hc; simp [this.1, this.2])]
  simp

theorem splitLinesKeepB_crlfLine (l r : Bytes) (h : ∀ b ∈ l, b ≠ 10 ∧ b ≠ 13) :
    splitLinesKeepB (l ++ 13 :: 10 :: r) = (l ++ [13, 10]) :: splitLinesKeepB r := by
  unfold splitLinesKeepB
  rw [splitGen_crlf 13 10 _ true (by decide) l [] r (by intro c hc; have := h c hc; simp [this.1, this.2])]
  simp

theorem framedWin_payload {n : Int} {idl : Text} {rest : List Text} (h : Safe (idl :: rest)) (p : Bytes) (hp : ¬ tagPat <:+: p)
    (hf : Framed n (encode (blockText (idl :: rest)))) : FramedWin n (crlf (encode (blockText (idl :: rest))) ++ p) := by
  have hw := framedWin_crlf hf (noCr_block h)
  have hE : EndsLF (encode (blockText (idl :: rest))) := by
    rcases endsLF_joinLines (tagText :: idl :: rest) with h0 | h0
    · simp [joinLines] at h0
    · exact h0
  have hE := endsLF_crlf hE
  constructor
  · unfold closedWin
    rw [List.append_assoc, tagsFrom_append _ _ (Or.inr hE), tags_payloadWin p hp]
    have h1 := hw.tags
    unfold closedWin at h1
    rw [tagsFrom_append _ _ (Or.inr hE), show tagPat ++ [13, 10] = [] ++ (tagPat ++ [13, 10]) from rfl,
      tags_payloadWin [] (by decide)] at h1
    generalize crlf (encode (blockText (idl :: rest))) = b at h1 ⊢
    have h2 : tagsFrom 0 b = [0] := by
      have e : ([0, b.length] : List Nat) = [0] ++ [0 + b.length + ([] : Bytes).length] := by simp
      rw [e] at h1
      exact List.append_cancel_right h1
    rw [h2]
    simp
  · have e := hw.type
    have hx : ∀ q : Bytes, crlf (encode (blockText (idl :: rest))) ++ q
        = tagPat ++ 13 :: 10 :: (encode idl ++ 13 :: 10 :: (crlf (encode (joinLines rest)) ++ q)) := by
      intro q
      unfold blockText
      rw [joinLines_cons, joinLines_cons, show tagText ++ '\n' :: (idl ++ '\n' :: joinLines rest)
        = tagText ++ (['\n'] ++ (idl ++ (['\n'] ++ joinLines rest))) by simp]
      simp only [encode_append, encode_tagText, encode_LF, crlf_append]
      rw [crlf_id (a := encode idl) (fun c hc => (encode_noLF idl (h idl (by simp)).1 c hc).1), crlf_id (a := tagPat) (by decide)]
      simp [crlf]
    have ht : ∀ q : Bytes, blockType (crlf (encode (blockText (idl :: rest))) ++ q) = (parseIntB ((encode idl).take 6)).getD 0 := by
      intro q
      unfold blockType
      rw [hx, splitLinesB_crlfLine _ _ (by decide), splitLinesB_crlfLine _ _ (encode_noLF idl (h idl (by simp)).1)]
      rfl
    have h0 := ht []
    rw [List.append_nil, e] at h0
    rw [ht, h0]

/-! ### Blocks whose line ends do not matter -/

theorem typeIs_eq {b : Bytes} {n : Int} (h : TypeIs b n) : blockType b = n := (typeIs_iff _ _).1 h

theorem EolSafe.other {b : Bytes} {n : Int} {header : Bool} (h : blockType b = n) (h1 : n ≠ 55) (h2 : n ≠ 58) : EolSafe header b :=
  ⟨fun ht => absurd ((typeIs_eq ht).symm.trans h).symm h1, fun ht => absurd ((typeIs_eq ht).symm.trans h).symm h2,
    fun ht => absurd ((typeIs_eq ht).symm.trans h).symm h2⟩

theorem splitLines_block {lines : List Text} (h : Safe lines) : splitLines (blockText lines) = tagText :: lines := by
  unfold blockText
  refine splitLines_joinLines _ fun l hl => ?_
  rcases List.mem_cons.1 hl with rfl | hl
  · exact noBreak_tagText
  · exact (h l hl).1

theorem flatten_len {w : Nat} (ts : List Text) (h : ∀ t ∈ ts, t.length = w) : ts.flatten.length = w * ts.length := by
  induction ts with
  | nil => rfl
  | cons t r ih =>
    rw [List.flatten_cons, List.length_append, h t (List.mem_cons_self ..), ih fun x hx => h x (List.mem_cons_of_mem _ hx),
      List.length_cons]
    ring

theorem DS55.eolSafe (r : DS55) (ok : DS55.Ok r) (header : Bool) (ty : blockType (encode (blockText r.lines)) = 55) :
    EolSafe header (encode (blockText r.lines)) := by
  refine ⟨fun _ => ?_, fun ht => ?_, fun ht => ?_⟩
  · rw [decode_encode, splitLines_block (DS55.safe r ok)]
    have e : everyN 11 2 (tagText :: r.lines) = (DS55.rows r.data).map fun n => (DS55.vfields n.2).flatten := by
      have := everyN_flatMap 2 1 (DS55.rows r.data) DS55.nodeLines (fun n => (DS55.vfields n.2).flatten) (fun _ _ => rfl) (fun _ _ => rfl)
      rw [← this]
      rfl
    rw [e]
    intro l hl
    obtain ⟨n, hn, rfl⟩ := List.mem_map.1 hl
    have hf := (DS55.rows_ok r ok) n hn
    rw [flatten_len (w := 13) _ (DS55.vfields_len n.2 hf.2.2.2), Nat.mul_mod_right]
    decide
  · exact absurd ((typeIs_eq ht).symm.trans ty) (by decide)
  · exact absurd ((typeIs_eq ht).symm.trans ty) (by decide)

end Verif
