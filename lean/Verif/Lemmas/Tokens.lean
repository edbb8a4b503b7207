import Verif.Spec.Tokens
import Verif.Lemmas.RT2412
import Verif.Lemmas.RT2411
import Verif.Lemmas.RT15
import Verif.Lemmas.Foreign
import Verif.Props.Reading
/-
Reading nodes, trace lines and elements made of words.
-/
namespace Verif

theorem splitWs_word (w t : Text) (hw : w ≠ []) (hs : ∀ c ∈ w, isSpace c = false)
    (ht : ∀ c, t.head? = some c → isSpace c = true) : splitWs (w ++ t) = w :: splitWs t := by
  unfold splitWs
  rw [splitWsAux_tok _ _ _ hs, List.append_nil]
  cases t with
  | nil => simp [splitWsAux, hw]
  | cons c t =>
    have hc := ht c rfl
    rw [splitWsAux_space _ _ _ hc (by simpa using hw), List.reverse_reverse]
    congr 1
    simp [splitWsAux, hc]

theorem Words.split {t : Text} {ws : List Text} (h : Words t ws) : splitWs t = ws := by
  induction h with
  | blank hg => exact splitWs_all_spaces _ hg
  | word hg hw hs ht _ ih => rw [splitWs_spaces _ _ hg, splitWs_word _ _ hw hs ht, ih]

/-- Every text has its words. -/
theorem words_splitWs (t : Text) : Words t (splitWs t) := by
  generalize hn : t.length = n
  induction n using Nat.strongRecOn generalizing t with
  | _ n ih =>
    have e : t = t.takeWhile isSpace ++ t.dropWhile isSpace := List.takeWhile_append_dropWhile.symm
    have hg : ∀ c ∈ t.takeWhile isSpace, isSpace c = true := fun c hc => List.all_eq_true.1 List.all_takeWhile c hc
    generalize hr : t.dropWhile isSpace = r at e
    cases r with
    | nil =>
      rw [List.append_nil] at e
      rw [e, splitWs_all_spaces _ hg]
      exact .blank hg
    | cons a r =>
      have ha : isSpace a = false := by
        have := List.head?_dropWhile_not isSpace t
        rw [hr] at this
        simpa using this
      have e2 : a :: r = (a :: r).takeWhile (fun c => !isSpace c) ++ (a :: r).dropWhile (fun c => !isSpace c) :=
        List.takeWhile_append_dropWhile.symm
      have hw : ∀ c ∈ (a :: r).takeWhile (fun c => !isSpace c), isSpace c = false := fun c hc => by
        have := List.all_eq_true.1 (List.all_takeWhile (p := fun c => !isSpace c) (l := a :: r)) c hc
        simpa using this
      have hne : (a :: r).takeWhile (fun c => !isSpace c) ≠ [] := by simp [List.takeWhile, ha]
      have ht : ∀ c, ((a :: r).dropWhile (fun c => !isSpace c)).head? = some c → isSpace c = true := fun c hc => by
        have := List.head?_dropWhile_not (fun c => !isSpace c) (a :: r)
        rw [hc] at this
        simpa using this
      generalize (a :: r).takeWhile (fun c => !isSpace c) = w at *
      generalize (a :: r).dropWhile (fun c => !isSpace c) = q at *
      generalize t.takeWhile isSpace = g at *
      rw [e, e2, splitWs_spaces _ _ hg, splitWs_word _ _ hne hw ht]
      refine .word hg hne hw ht (ih q.length ?_ q rfl)
      have := List.length_pos_iff.2 hne
      rw [← hn, e, e2]
      simp only [List.length_append]
      omega

theorem splitWs_append (a b : Text) (hb : ∀ c, b.head? = some c → isSpace c = true) :
    splitWs (a ++ b) = splitWs a ++ splitWs b := by
  have h : ∀ {a : Text} {ws : List Text}, Words a ws → splitWs (a ++ b) = ws ++ splitWs b := by
    intro a ws h
    induction h with
    | blank hg => rw [splitWs_spaces _ _ hg]; rfl
    | @word g w t ws hg hw hs ht _ ih =>
      rw [List.append_assoc, List.append_assoc, splitWs_spaces _ _ hg, splitWs_word _ _ hw hs, ih]; · rfl
      intro c hc
      cases t with
      | nil => exact hb c hc
      | cons d t => exact ht c hc
  exact h (words_splitWs a)

theorem head_flatten (ls : List Text) (h : ∀ l ∈ ls, ∀ c, l.head? = some c → isSpace c = true) :
    ∀ c, ls.flatten.head? = some c → isSpace c = true := by
  induction ls with
  | nil => intro c hc; cases hc
  | cons a r ih =>
    intro c hc
    cases a with
    | nil => exact ih (fun x hx => h x (by simp [hx])) c hc
    | cons d a => exact h (d :: a) (by simp) c hc

theorem splitWs_flatten (ls : List Text) (h : ∀ l ∈ ls, ∀ c, l.head? = some c → isSpace c = true) :
    splitWs ls.flatten = (ls.map splitWs).flatten := by
  induction ls with
  | nil => rfl
  | cons l ls ih =>
    rw [List.flatten_cons, List.map_cons, List.flatten_cons, splitWs_append, ih fun x hx => h x (by simp [hx])]
    exact head_flatten ls fun x hx => h x (by simp [hx])

theorem everyN_nodes (l : List NodeF) :
    everyN 0 7 (l.flatMap NodeF.numbers) = l.map (·.num) ∧ everyN 1 7 (l.flatMap NodeF.numbers) = l.map (·.defCs) ∧
    everyN 2 7 (l.flatMap NodeF.numbers) = l.map (·.dispCs) ∧ everyN 3 7 (l.flatMap NodeF.numbers) = l.map (·.color) ∧
    everyN 4 7 (l.flatMap NodeF.numbers) = l.map (·.x) ∧ everyN 5 7 (l.flatMap NodeF.numbers) = l.map (·.y) ∧
    everyN 6 7 (l.flatMap NodeF.numbers) = l.map (·.z) :=
  ⟨everyN_flatMap 7 0 l _ _ (fun _ _ => rfl) (fun _ _ => rfl), everyN_flatMap 7 1 l _ _ (fun _ _ => rfl) (fun _ _ => rfl),
   everyN_flatMap 7 2 l _ _ (fun _ _ => rfl) (fun _ _ => rfl), everyN_flatMap 7 3 l _ _ (fun _ _ => rfl) (fun _ _ => rfl),
   everyN_flatMap 7 4 l _ _ (fun _ _ => rfl) (fun _ _ => rfl), everyN_flatMap 7 5 l _ _ (fun _ _ => rfl) (fun _ _ => rfl),
   everyN_flatMap 7 6 l _ _ (fun _ _ => rfl) (fun _ _ => rfl)⟩

theorem deFloat_fortran (t : Text) : deFloat t = pyFloat (t.map fun c => if c = 'D' ∨ c = 'd' then 'E' else c) := by
  unfold deFloat replaceChar
  rw [List.map_map]
  congr 1
  apply List.map_congr_left
  intro c _
  simp only [Function.comp]
  by_cases h : c = 'D'
  · subst h; rfl
  · by_cases h' : c = 'd' <;> simp [h, h']

theorem extract2411_words (block : Text) (l1 l2 : Text) (ls : List Text) (hl : splitLinesKeep block = l1 :: l2 :: ls)
    (ws : List Text) (hw : Words ls.flatten ws) (nodes : List NodeF) (hn : OneByOne FortranNumber ws (nodes.flatMap NodeF.numbers)) :
    extract2411 block = .ok (nodesDict 2411 .arrF nodes) := by
  unfold extract2411
  have hm : mapRes deFloat ws = .ok (nodes.flatMap NodeF.numbers) := by
    rw [mapRes_iff]
    exact ⟨hn.1, fun i x y hx hy => (deFloat_fortran x).trans (hn.2 i x y hx hy)⟩
  simp only [hl, List.drop_succ_cons, List.drop_zero, hw.split, hm, ok_bind, readGuard]
  obtain ⟨h0, h1, h2, h3, h4, h5, h6⟩ := everyN_nodes nodes
  rw [h0, h1, h2, h3, h4, h5, h6]
  rfl

theorem extract15_words (block : Text) (l1 l2 : Text) (ls : List Text) (hl : splitLines block = l1 :: l2 :: ls)
    (hb : ∀ l ∈ ls, ∀ c, l.head? = some c → isSpace c = true)
    (wss : List (List Text)) (hw : OneByOne Words ls wss) (nodes : List NodeF)
    (hn : OneByOne (fun t x => pyFloat t = .ok x) wss.flatten (nodes.flatMap NodeF.numbers)) :
    extract15 block = .ok (nodesDict 15 (fun l => .list (l.map .float)) nodes) := by
  unfold extract15
  have he : ls.map splitWs = wss := by
    apply List.ext_getElem?
    intro i
    rw [List.getElem?_map]
    cases h1 : ls[i]? with
    | none =>
      rw [List.getElem?_eq_none_iff, hw.1, ← List.getElem?_eq_none_iff] at h1
      rw [h1]; rfl
    | some a =>
      cases h2 : wss[i]? with
      | none =>
        rw [List.getElem?_eq_none_iff, ← hw.1, ← List.getElem?_eq_none_iff, h1] at h2
        cases h2
      | some b => rw [Option.map_some, (hw.2 i a b h1 h2).split]
  have hm := (mapRes_iff pyFloat wss.flatten _).2 hn
  simp only [hl, List.drop_succ_cons, List.drop_zero, splitWs_flatten ls hb, he, hm, ok_bind, readGuard]
  obtain ⟨h0, h1, h2, h3, h4, h5, h6⟩ := everyN_nodes nodes
  rw [h0, h1, h2, h3, h4, h5, h6]
  rfl

theorem parseHeader_id (line : Text) (k : Key) : parseHeader line 1 [80] [.str] [k] = .ok [(k, .str (strip (line.take 80)))] := by
  have e : cutFields (if line.length < 80 then line ++ blanks (80 - line.length) else line) 0 [80] = [strip (line.take 80)] := by
    split
    · rename_i h
      simp only [cutFields, slice, List.drop_zero]
      rw [List.take_of_length_le (by simp [blanks]; omega), strip_append_blanks, List.take_of_length_le (by omega)]
    · simp [cutFields, slice]
  unfold parseHeader
  simp only [e]
  rfl

theorem extract82_words (block : Text) (l1 l2 f1 f2 f3 rest l4 : Text) (ls : List Text)
    (hl : splitLinesKeep block = l1 :: l2 :: (f1 ++ (f2 ++ (f3 ++ rest))) :: l4 :: ls)
    (w1 : f1.length = 10) (w2 : f2.length = 10) (w3 : f3.length = 10) (a b c : Int)
    (h1 : pyInt f1 = .ok a) (h2 : pyInt f2 = .ok b) (h3 : pyInt f3 = .ok c)
    (ws : List Text) (hw : Words ls.flatten ws) (nodes : List F64) (hn : OneByOne (fun t x => pyFloat t = .ok x) ws nodes) :
    extract82 block = .ok [("type", .int 82), ("trace_num", .int a), ("n_nodes", .int b), ("color", .int c),
      ("id", .str (strip (l4.take 80))), ("nodes", .arrF nodes)] := by
  unfold extract82
  have hh : parseHeader (f1 ++ (f2 ++ (f3 ++ rest))) 3 [10, 10, 10] [.int, .int, .int] ["trace_num", "n_nodes", "color"] =
      .ok [("trace_num", .int a), ("n_nodes", .int b), ("color", .int c)] := by
    have := parseHeader_fields [f1, f2, f3] rest 3 [10, 10, 10] [.int, .int, .int] ["trace_num", "n_nodes", "color"]
      (by simp [w1, w2, w3]) (by simp) (by simp)
    simp only [List.flatten_cons, List.flatten_nil, List.append_nil, List.append_assoc] at this
    rw [this]
    have k : ∀ t n, pyInt t = .ok n → headerField .int (strip t) = .ok (some (.int n)) := by
      intro t n h
      unfold headerField
      unfold pyInt at h ⊢
      cases hp : parseInt t with
      | none => rw [hp] at h; cases h
      | some m => rw [hp] at h; cases h; rw [parseInt_strip hp]; rfl
    simp only [List.map_cons, List.map_nil, headerLoop, k _ _ h1, k _ _ h2, k _ _ h3]
    rfl
  have hm := (mapRes_iff pyFloat ws _).2 hn
  simp only [hl, List.getElem?_cons_zero, List.getElem?_cons_succ, orIndex, ok_bind, hh, parseHeader_id, List.drop_succ_cons,
    List.drop_zero, hw.split, hm]
  rfl

/-! ### Elements -/

namespace DS2412

theorem tokInt_of {ws : List Text} {l : List Int} (h : OneByOne (fun t n => pyInt t = .ok n) ws l) (more : List Text) (k : Nat)
    (n : Int) (hk : l[k]? = some n) : tokInt (ws ++ more) k = .ok n := by
  have hlt : k < ws.length := by rw [h.1]; exact (List.getElem?_eq_some_iff.1 hk).1
  unfold tokInt
  rw [List.getElem?_append_left hlt, List.getElem?_eq_getElem hlt]
  exact h.2 k _ n (List.getElem?_eq_getElem hlt) hk

theorem head_of {e : Elem} {h : Text} (hh : IntLineStart h (n1 e)) : elemHead (splitWs h) = .ok (e.fe, [("element_nums", .int e.num),
    ("fe_descriptor", .int e.fe), ("phys_table", .int e.phys),
    ("mat_table", .int e.mat), ("color", .int e.color), ("num_nodes", .int e.numNodes)]) := by
  obtain ⟨ws, more, hw, ho⟩ := hh
  rw [hw.split]
  unfold elemHead
  rw [tokInt_of ho more 0 e.num rfl, tokInt_of ho more 1 e.fe rfl, tokInt_of ho more 2 e.phys rfl, tokInt_of ho more 3 e.mat rfl,
    tokInt_of ho more 4 e.color rfl, tokInt_of ho more 5 e.numNodes rfl]
  simp only [ok_bind]

theorem beam_of {e : Elem} {b : Text} (hb : IntLineStart b (n2 e)) : elemBeam (splitWs b) = .ok [("beam_orientation", .int e.beam.1),
    ("beam_foreend_cross", .int e.beam.2.1), ("beam_aftend_cross", .int e.beam.2.2)] := by
  obtain ⟨ws, more, hw, ho⟩ := hb
  rw [hw.split]
  unfold elemBeam
  rw [tokInt_of ho more 0 e.beam.1 rfl, tokInt_of ho more 1 e.beam.2.1 rfl, tokInt_of ho more 2 e.beam.2.2 rfl]
  simp only [ok_bind]

theorem nodes_of {n : Text} {l : List Int} (hn : IntLine n l) : elemNodes (splitWs n) = .ok [("nodes_nums", .list (l.map .int))] := by
  obtain ⟨ws, hw, ho⟩ := hn
  rw [hw.split]
  unfold elemNodes
  rw [(mapRes_iff pyInt ws l).2 ho]
  rfl

theorem readElems_of (es : List Elem) (lss : List (List Text)) (h : Each ElemLines es lss) :
    readElems (lss.flatten.map splitWs) = .ok (es.map pair) := by
  induction h with
  | nil => rfl
  | @cons e l es lss h1 _ ih =>
    rw [List.flatten_cons, List.map_append]
    cases h1 with
    | rod hf hh hb hn =>
      simp only [List.map_cons, List.map_nil, List.cons_append, List.nil_append]
      unfold readElems
      rw [head_of hh]
      have hr : isRod e.fe = true := by
        simp only [List.mem_cons, List.not_mem_nil, or_false] at hf
        rcases hf with h | h | h | h | h <;> rw [h] <;> rfl
      simp only [hr, if_true, beam_of hb, nodes_of hn, ih]
      simp only [pair, Elem.dict, if_pos hf]
    | other hf hh hn =>
      simp only [List.map_cons, List.map_nil, List.cons_append, List.nil_append]
      unfold readElems
      rw [head_of hh]
      have hr : isRod e.fe = false := by
        simp only [List.mem_cons, List.not_mem_nil, or_false, not_or] at hf
        obtain ⟨a, b, c, d, f⟩ := hf
        simp [isRod, a, b, c, d, f]
      simp only [hr, Bool.false_eq_true, if_false, nodes_of hn, ih]
      simp only [pair, Elem.dict, if_neg hf]

end DS2412
end Verif
