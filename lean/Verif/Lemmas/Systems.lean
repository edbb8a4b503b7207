import Verif.Spec.Systems
import Verif.Props.Tokens
import Verif.Lemmas.RT2420
/-
Reading coordinate systems line by line.
-/
namespace Verif
namespace Systems

/-- Rows of words, one after the other. -/
theorem rows_ok {α : Type} {f : Text → Res α} {β : Type} (rows : List β) (line : β → Text) (vals : β → List α)
    (h : ∀ b ∈ rows, mapRes f (splitWs (line b)) = .ok (vals b)) : mapRes f ((rows.map line).map splitWs).flatten = .ok (rows.flatMap vals) := by
  induction rows with
  | nil => rfl
  | cons b rows ih =>
    rw [List.map_cons, List.map_cons, List.flatten_cons, List.flatMap_cons]
    exact mapRes_append (h b (by simp)) (ih fun x hx => h x (by simp [hx]))

theorem floatLine_ok {line : Text} {l : List F64} (h : FloatLine line l) : mapRes pyFloat (splitWs line) = .ok l := by
  obtain ⟨ws, hw, ho⟩ := h
  rw [hw.split]; exact (mapRes_iff _ _ _).2 ho

theorem dFloat_eq (t : Text) : dFloat2420 t = pyFloat (t.map fun c => if c = 'D' then 'E' else if c = 'd' then 'e' else c) := by
  unfold dFloat2420 replaceChar
  rw [List.map_map]
  congr 2
  funext c
  simp only [Function.comp]
  by_cases h1 : c = 'D'
  · subst h1; rfl
  · by_cases h2 : c = 'd'
    · subst h2; rfl
    · simp [h1, h2]

theorem dLine_ok {line : Text} {l : List F64} (h : DLine line l) : mapRes dFloat2420 (splitWs line) = .ok l := by
  obtain ⟨ws, hw, ho⟩ := h
  rw [hw.split]
  exact (mapRes_iff _ _ _).2 ⟨ho.1, fun i a b ha hb => (dFloat_eq _).trans (ho.2 i a b ha hb)⟩

theorem intLine_ok {line : Text} {l : List Int} (h : IntLine line l) : mapRes pyInt (splitWs line) = .ok l := by
  obtain ⟨ws, hw, ho⟩ := h
  rw [hw.split]; exact (mapRes_iff _ _ _).2 ho

theorem split_ended (a b : Text) (h : BlankEnd a) : splitWs (a ++ b) = splitWs a ++ splitWs b := by
  obtain ⟨t, c, rfl, hc⟩ := h
  rw [List.append_assoc, splitWs_append t _ (by intro d hd; cases hd; exact hc), splitWs_append t [c] (by intro d hd; cases hd; exact hc),
    splitWs_spaces [c] b (by intro d hd; rw [List.mem_singleton.1 hd]; exact hc),
    splitWs_all_spaces [c] (by intro d hd; rw [List.mem_singleton.1 hd]; exact hc), List.append_nil]

theorem split_lines (ls : List Text) (h : ∀ l ∈ ls, BlankEnd l) : splitWs ls.flatten = (ls.map splitWs).flatten := by
  induction ls with
  | nil => rfl
  | cons l ls ih => rw [List.flatten_cons, split_ended _ _ (h l (by simp)), ih fun x hx => h x (by simp [hx])]; rfl

theorem cells_ok {β : Type} (w : Nat) (hw : 0 < w) (rows : List β) (line : β → Text) (vals : β → List F64)
    (h : ∀ b ∈ rows, CellLine w (line b) (vals b)) : mapRes pyFloat (chunks w (rows.map line).flatten) = .ok (rows.flatMap vals) := by
  have : ∃ css : List Text, (rows.map line).flatten = css.flatten ∧ (∀ c ∈ css, c.length = w) ∧ mapRes pyFloat css = .ok (rows.flatMap vals) := by
    induction rows with
    | nil => exact ⟨[], rfl, by simp, rfl⟩
    | cons b rows ih =>
      obtain ⟨css, h1, h2, h3⟩ := ih fun x hx => h x (by simp [hx])
      obtain ⟨cs, e, hl, ho⟩ := h b (by simp)
      refine ⟨cs ++ css, ?_, ?_, ?_⟩
      · rw [List.map_cons, List.flatten_cons, List.flatten_append, h1, e]
      · intro c hc
        rcases List.mem_append.1 hc with hc | hc
        · exact hl c hc
        · exact h2 c hc
      · rw [List.flatMap_cons]
        exact mapRes_append ((mapRes_iff _ _ _).2 ho) h3
  obtain ⟨css, h1, h2, h3⟩ := this
  have hc := chunks_flatten w css [] h2 (by simpa using hw)
  rw [List.append_nil] at hc
  rw [h1, hc, h3]

theorem extract18_lines (block l1 l2 : Text) (ss : List SysLines) (hl : splitLines block = l1 :: l2 :: ss.flatMap SysLines.lines)
    (h : ∀ s ∈ ss, s.Good) : extract18 block = .ok (systemsDict18 ss) := by
  have e : ∀ (k : Nat) (g : SysLines → Text), (∀ s, s.lines[k]? = some (g s)) → everyN (2 + k) 4 (splitLines block) = ss.map g := by
    intro k g hg
    rw [hl, show l1 :: l2 :: ss.flatMap SysLines.lines = [l1, l2] ++ ss.flatMap SysLines.lines from rfl]
    exact everyN_rows 2 4 k [l1, l2] ss _ _ rfl (fun _ _ => rfl) (fun s _ => hg s)
  unfold extract18
  simp only [e 0 (·.head) (fun _ => rfl), e 1 (·.name) (fun _ => rfl), e 2 (·.axes) (fun _ => rfl), e 3 (·.plane) (fun _ => rfl)]
  rw [splitWs_flatten _ (by
      intro l hl
      obtain ⟨s, hs, rfl⟩ := List.mem_map.1 hl
      exact (h s hs).blank),
    rows_ok ss (·.head) (fun s => [s.num, s.type, s.ref, s.color, s.method]) (fun s hs => floatLine_ok (h s hs).head), ok_bind,
    cells_ok 13 (by decide) ss (·.axes) (fun s => [s.o.x, s.o.y, s.o.z, s.x.x, s.x.y, s.x.z]) (fun s hs => (h s hs).axes), ok_bind,
    cells_ok 13 (by decide) ss (·.plane) (fun s => [s.xz.x, s.xz.y, s.xz.z]) (fun s hs => (h s hs).plane)]
  have f1 : ∀ (k : Nat) (g : SysLines → F64), (∀ s : SysLines, [s.num, s.type, s.ref, s.color, s.method][k]? = some (g s)) →
      everyN k 5 (ss.flatMap fun s => [s.num, s.type, s.ref, s.color, s.method]) = ss.map g :=
    fun k g hg => everyN_flatMap 5 k ss _ _ (fun _ _ => rfl) (fun s _ => hg s)
  have f2 : ∀ (k : Nat) (g : SysLines → F64), (∀ s : SysLines, [s.o.x, s.o.y, s.o.z, s.x.x, s.x.y, s.x.z][k]? = some (g s)) →
      everyN k 6 (ss.flatMap fun s => [s.o.x, s.o.y, s.o.z, s.x.x, s.x.y, s.x.z]) = ss.map g :=
    fun k g hg => everyN_flatMap 6 k ss _ _ (fun _ _ => rfl) (fun s _ => hg s)
  have f3 : ∀ (k : Nat) (g : SysLines → F64), (∀ s : SysLines, [s.xz.x, s.xz.y, s.xz.z][k]? = some (g s)) →
      everyN k 3 (ss.flatMap fun s => [s.xz.x, s.xz.y, s.xz.z]) = ss.map g :=
    fun k g hg => everyN_flatMap 3 k ss _ _ (fun _ _ => rfl) (fun s _ => hg s)
  rw [f1 0 (·.num) (fun _ => rfl), f1 1 (·.type) (fun _ => rfl), f1 2 (·.ref) (fun _ => rfl), f1 3 (·.color) (fun _ => rfl),
    f1 4 (·.method) (fun _ => rfl), f2 0 (·.o.x) (fun _ => rfl), f2 1 (·.o.y) (fun _ => rfl), f2 2 (·.o.z) (fun _ => rfl),
    f2 3 (·.x.x) (fun _ => rfl), f2 4 (·.x.y) (fun _ => rfl), f2 5 (·.x.z) (fun _ => rfl)]
  simp only [ok_bind]
  rw [f3 0 (·.xz.x) (fun _ => rfl), f3 1 (·.xz.y) (fun _ => rfl), f3 2 (·.xz.z) (fun _ => rfl), vstack3T_map, vstack3T_map, vstack3T_map]
  simp only [ok_bind, readGuard, List.map_map]
  rfl

theorem extract2420_lines (block l1 l2 l3 l4 : Text) (uid : Int) (hu : pyInt l3 = .ok uid) (ss : List MatLines)
    (hl : splitLinesKeep block = l1 :: l2 :: l3 :: l4 :: ss.flatMap MatLines.lines) (h : ∀ s ∈ ss, s.Good) :
    extract2420 block = .ok (systemsDict2420 uid l4 ss) := by
  have e : ∀ (k : Nat) (g : MatLines → Text), (∀ s, s.lines[k]? = some (g s)) → everyN (4 + k) 6 (splitLinesKeep block) = ss.map g := by
    intro k g hg
    rw [hl, show l1 :: l2 :: l3 :: l4 :: ss.flatMap MatLines.lines = [l1, l2, l3, l4] ++ ss.flatMap MatLines.lines from rfl]
    exact everyN_rows 4 6 k [l1, l2, l3, l4] ss _ _ rfl (fun _ _ => rfl) (fun s _ => hg s)
  have hend : ∀ (k : Nat) (g : MatLines → Text), (∀ s : MatLines, s.lines[k]? = some (g s)) → ∀ l ∈ ss.map g, BlankEnd l := by
    intro k g hg l hl
    obtain ⟨s, hs, rfl⟩ := List.mem_map.1 hl
    exact (h s hs).ended _ (List.mem_of_getElem? (hg s))
  unfold extract2420
  simp only [e 0 (·.head) (fun _ => rfl), e 1 (·.name) (fun _ => rfl), e 2 (·.row1) (fun _ => rfl), e 3 (·.row2) (fun _ => rfl),
    e 4 (·.row3) (fun _ => rfl), e 5 (·.row4) (fun _ => rfl)]
  rw [split_lines _ (hend 0 (·.head) (fun _ => rfl)), split_lines _ (hend 2 (·.row1) (fun _ => rfl)),
    split_lines _ (hend 3 (·.row2) (fun _ => rfl)), split_lines _ (hend 4 (·.row3) (fun _ => rfl)),
    split_lines _ (hend 5 (·.row4) (fun _ => rfl)),
    rows_ok ss (·.head) (fun s => [s.label, s.type, s.color]) (fun s hs => intLine_ok (h s hs).head),
    rows_ok ss (·.row1) (fun s => s.a.row) (fun s hs => dLine_ok (h s hs).row1),
    rows_ok ss (·.row2) (fun s => s.b.row) (fun s hs => dLine_ok (h s hs).row2),
    rows_ok ss (·.row3) (fun s => s.c.row) (fun s hs => dLine_ok (h s hs).row3),
    rows_ok ss (·.row4) (fun s => s.o.row) (fun s hs => dLine_ok (h s hs).row4)]
  have g3 : orIndex (splitLinesKeep block)[2]? = .ok l3 := by rw [hl]; rfl
  have g4 : orIndex (splitLinesKeep block)[3]? = .ok l4 := by rw [hl]; rfl
  simp only [g3, g4, hu, ok_bind]
  have hn : ((ss.flatMap fun s => s.a.row).length + 2) / 3 = ss.length := by
    have : (ss.flatMap fun s => s.a.row).length = 3 * ss.length := by
      clear h hl e hend g3 g4
      induction ss with
      | nil => rfl
      | cons s ss ih => rw [List.flatMap_cons, List.length_append, ih, List.length_cons]; simp only [Pt.row, List.length_cons, List.length_nil]; omega
    omega
  rw [hn]
  have hm : mapRes (fun k => vstack4 (slice (ss.flatMap fun s => s.a.row) (3 * k) (3 * k + 3))
      (slice (ss.flatMap fun s => s.b.row) (3 * k) (3 * k + 3)) (slice (ss.flatMap fun s => s.c.row) (3 * k) (3 * k + 3))
      (slice (ss.flatMap fun s => s.o.row) (3 * k) (3 * k + 3))) (List.range ss.length) =
      .ok (ss.map fun s => .mat [s.a.row, s.b.row, s.c.row, s.o.row]) := by
    rw [mapRes_iff]
    refine ⟨by simp, fun i a b ha hb => ?_⟩
    obtain ⟨hi, rfl⟩ := List.getElem?_eq_some_iff.1 ha
    simp only [List.length_range] at hi
    rw [List.getElem?_map, List.getElem?_eq_getElem hi] at hb
    cases hb
    rw [List.getElem_range, slice_flatMap 3 ss _ (fun _ _ => rfl) i hi, slice_flatMap 3 ss _ (fun _ _ => rfl) i hi,
      slice_flatMap 3 ss _ (fun _ _ => rfl) i hi, slice_flatMap 3 ss _ (fun _ _ => rfl) i hi]
    rfl
  rw [hm]
  have f1 : ∀ (k : Nat) (g : MatLines → Int), (∀ s : MatLines, [s.label, s.type, s.color][k]? = some (g s)) →
      everyN k 3 (ss.flatMap fun s => [s.label, s.type, s.color]) = ss.map g :=
    fun k g hg => everyN_flatMap 3 k ss _ _ (fun _ _ => rfl) (fun s _ => hg s)
  rw [f1 0 (·.label) (fun _ => rfl), f1 1 (·.type) (fun _ => rfl), f1 2 (·.color) (fun _ => rfl)]
  simp only [ok_bind, List.map_map]
  rfl

end Systems
end Verif
