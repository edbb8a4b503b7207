import Verif.Lemmas.FixName
import Verif.Lemmas.Fix
import Verif.Props.Writing
/-
C37: `fix_58b`.
-/
namespace Verif

/-! ### The files -/

/-- A missing source is an error and no file changes. -/
theorem C37_missing (fs : Files) (name : Text) (fixed : Option Text) :
    ((∃ e, (fix58b fs name fixed).2 = .error e) ↔ fs name = none) ∧
      (fs name = none → (fix58b fs name fixed).1 = fs) := by
  unfold fix58b
  cases h : fs name with
  | none => exact ⟨⟨fun _ => rfl, fun _ => ⟨_, rfl⟩⟩, fun _ => rfl⟩
  | some d =>
    refine ⟨⟨?_, fun h => nomatch h⟩, fun h => nomatch h⟩
    rintro ⟨e, he⟩
    cases he

/-- Only the target changes; with the default name the source never changes. -/
theorem C37_input (fs : Files) (name : Text) (fixed : Option Text) (n : Text) :
    (fix58b fs name fixed).1 n ≠ fs n →
      match fixed with
      | none => n ≠ name ∧ ∃ base ext, name = base ++ ext ∧ n = base ++ ("_fixed".toList ++ ext)
      | some t => n = t := by
  unfold fix58b
  cases h : fs name with
  | none => intro h; exact absurd rfl h
  | some d =>
    intro hn
    cases fixed with
    | none =>
      dsimp only at hn ⊢
      have : n = fixedName name := by
        refine Classical.byContradiction fun hc => hn ?_
        rw [if_neg hc]
      exact ⟨this ▸ fixedName_ne name, _, _, (splitExt_append name).symm, this⟩
    | some t =>
      dsimp only at hn ⊢
      refine Classical.byContradiction fun hc => hn ?_
      rw [if_neg hc]

/-- The content of the target is a function of the content of the source: with a target of its own the source is
untouched, and repairing again from the same source gives the same file. -/
theorem C37_target (fs : Files) (name t : Text) (data : Bytes) (h : fs name = some data) (ht : t ≠ name) :
    let fs' := (fix58b fs name (some t)).1
    fs' name = some data ∧ fs' t = some (fixBytes data) ∧ (fix58b fs' name (some t)).1 t = fs' t := by
  intro fs'
  have e : fs' = fun n => if n = t then some (fixBytes data) else fs n := by
    show (fix58b fs name (some t)).1 = _
    unfold fix58b; rw [h]
  have h1 : fs' name = some data := by rw [e]; simp [Ne.symm ht, h]
  refine ⟨h1, by rw [e]; simp, ?_⟩
  unfold fix58b
  rw [h1, e]; simp

/-- Default names. -/
example : fixedName "a.b/x.uff".toList = "a.b/x_fixed.uff".toList ∧ fixedName "a.b/x".toList = "a.b/x_fixed".toList ∧
    fixedName ".uff".toList = ".uff_fixed".toList := by decide

/-- The default name of the repaired file: `_fixed` is put before the extension of the last component of the path — the part from
its last dot on — and at the end when this component has no dot, or only dots at its start (as in `.hidden`).  Every path is of one
of the two kinds; dots in names of directories do not count. -/
theorem C37_name (fs : Files) (dir base : Text) (hd : dir = [] ∨ dir.getLast? = some '/') (hb : '/' ∉ base) (data : Bytes)
    (h : fs (dir ++ base) = some data) :
    (∀ stem ext, base = stem ++ '.' :: ext → '.' ∉ ext → (∃ c ∈ stem, c ≠ '.') →
      (fix58b fs (dir ++ base) none).1 (dir ++ (stem ++ ("_fixed".toList ++ '.' :: ext))) = some (fixBytes data)) ∧
    (∀ dots rest, base = dots ++ rest → (∀ c ∈ dots, c = '.') → '.' ∉ rest →
      (fix58b fs (dir ++ base) none).1 (dir ++ base ++ "_fixed".toList) = some (fixBytes data)) := by
  have e : (fix58b fs (dir ++ base) none).1 (fixedName (dir ++ base)) = some (fixBytes data) := by
    unfold fix58b; rw [h]; simp
  constructor
  · intro stem ext hbase he hs
    subst hbase
    rwa [fixedName_ext dir stem ext hd hb he hs] at e
  · intro dots rest hbase hdots hr
    subst hbase
    rwa [fixedName_plain dir dots rest hd hb hdots hr] at e

example (fs : Files) (data : Bytes) (h : fs "runs.v2/beam.uff".toList = some data) :
    (fix58b fs "runs.v2/beam.uff".toList none).1 "runs.v2/beam_fixed.uff".toList = some (fixBytes data) :=
  (C37_name fs "runs.v2/".toList "beam.uff".toList (.inr rfl) (by decide) data h).1 "beam".toList "uff".toList rfl (by decide) ⟨'b', by decide⟩

example (fs : Files) (data : Bytes) (h : fs "runs.v2/beam".toList = some data) :
    (fix58b fs "runs.v2/beam".toList none).1 "runs.v2/beam_fixed".toList = some (fixBytes data) :=
  (C37_name fs "runs.v2/".toList "beam".toList (.inr rfl) (by decide) data h).2 [] "beam".toList rfl (by decide) (by decide)

/-! ### The bytes -/

/-- Nothing but white space is removed or added — unless the last line is a delimiter without line end. -/
theorem C37_visible (f : Bytes) (ls : List Bytes) (hl : IsLines f ls)
    (h : ∀ t, ls.getLast? = some t → Lone t → ∃ c, t.getLast? = some c ∧ White c) :
    visible (fixBytes f) = visible f := by
  have he := hl.ended
  unfold fixBytes
  rw [hl.split, visible_fixPairs _ (fixLast_dropLast _ _ he), visible_fixLast, hl.flatten]
  intro t ht hT
  obtain ⟨c, hc, hw⟩ := h t ht ((loneTag_iff t).1 hT)
  obtain ⟨x, hx⟩ := List.getLast?_eq_some_iff.1 hc
  exact ⟨x, c, hx, hw⟩

/-- In a file whose last byte is a line end, only white space is removed or added. -/
theorem C37_visible_eol (f : Bytes) (h : f.getLast? = some 10 ∨ f.getLast? = some 13) :
    visible (fixBytes f) = visible f := by
  obtain ⟨ls, hl⟩ := exists_lines f
  refine C37_visible f ls hl fun t ht _ => ?_
  rcases List.eq_nil_or_concat ls with rfl | ⟨l, b, rfl⟩
  · cases ht
  · rw [List.concat_eq_append] at ht hl
    rw [List.getLast?_concat] at ht
    cases ht
    have hf := hl.flatten
    rw [List.flatten_append, List.flatten_singleton] at hf
    have hne : t ≠ [] := by
      have : ∀ (f : Bytes) (ls : List Bytes), IsLines f ls → ∀ l ∈ ls, l ≠ [] := by
        intro f ls h
        induction h with
        | nil => intro l hl; cases hl
        | last c hne _ => intro l hl; rw [List.mem_singleton] at hl; rw [hl]; exact hne
        | line c e f ls _ he _ ih =>
          intro l hl
          rcases List.mem_cons.1 hl with rfl | hl
          · rcases he with rfl | ⟨rfl, -⟩ | rfl <;> simp
          · exact ih l hl
      exact this f _ hl t (by simp)
    rw [← hf, List.getLast?_append, List.getLast?_eq_some_getLast hne, Option.some_or] at h
    rw [List.getLast?_eq_some_getLast hne]
    rcases h with h | h
    · exact ⟨10, h, by decide⟩
    · exact ⟨13, h, by decide⟩

/-- Without that line end the digit is written twice, and the file no longer ends with a delimiter. -/
theorem C37_negation_newline :
    let f : Bytes := [97, 10, 32, 32, 32, 32, 45, 49]
    delims f = [2] ∧ fixBytes f = [97, 32, 32, 32, 32, 45, 49, 49] ∧ delims (fixBytes f) = [] ∧
      visible (fixBytes f) ≠ visible f := by decide +kernel

/-- A file whose last line is not a lone delimiter and that has no two lone delimiters in consecutive lines is copied
verbatim. -/
theorem C37_verbatim (f : Bytes) (ls : List Bytes) (hl : IsLines f ls)
    (h1 : ls.length ≤ 1 ∨ ∀ t, ls.getLast? = some t → ¬ Lone t)
    (h2 : ∀ i a b, ls[i]? = some a → ls[i + 1]? = some b → ¬ (Lone a ∧ Lone b)) : fixBytes f = f := by
  unfold fixBytes
  rw [hl.split, fixLast_id, fixPairs_id, hl.flatten]
  · intro i a b ha hb _ h
    exact h2 (i + 1) a b ha hb ⟨(loneTag_iff a).1 h.1, (loneTag_iff b).1 h.2⟩
  · rcases h1 with h1 | h1
    · exact Or.inl h1
    · refine Or.inr fun t ht => ?_
      rw [← Bool.not_eq_true, loneTag_iff]
      exact h1 t ht

/-- A line end inside or after a data-set: LF or CR LF. -/
def Eol (e : Bytes) : Prop := e = [10] ∨ e = [13, 10]

/-- `D` is the content of a data-set: the opening delimiter on a line of its own, then at least two lines, none of which
is a lone delimiter when the line end `e` follows. -/
structure Content (e D : Bytes) : Prop where
  lines : ∃ e0 rest ls, Eol e0 ∧ D = delimBytes ++ (e0 ++ rest) ∧ IsLines (rest ++ e) ls ∧ 2 ≤ ls.length ∧
    ∀ l ∈ ls, ¬ Lone l

/-- A data-set whose closing delimiter is on a line of its own. -/
def ownLine (e D : Bytes) : Bytes := D ++ (e ++ (delimBytes ++ e))
/-- A data-set whose closing delimiter follows directly. -/
def direct (D : Bytes) : Bytes := D ++ (delimBytes ++ [10])

theorem ownLine_last (e : Bytes) (he : Eol e) (D : Bytes) : (ownLine e D).getLast? = some 10 := by
  unfold ownLine
  rcases he with rfl | rfl <;> simp [delimBytes, List.getLast?_append]

theorem content_lines (e : Bytes) (he : Eol e) (D D' t : Bytes) (hc : Content e D) (ht : D = D' ++ t)
    (hD : e = [10] ∧ (t = [] ∧ D'.getLast? ≠ some 13 ∨ t = [13]) ∨ e = [13, 10] ∧ t = []) :
    ∃ s : SetLines, s.Ok ∧ IsLines (ownLine e D) s.lines ∧ s.fixed.flatten = direct D' ∧
      IsLines (direct D') s.fixed ∧ Ended s.b ∧ ∃ pre, IsLines (D ++ e) (pre ++ [s.z]) := by
  obtain ⟨e0, rest, ls, h0, rfl, hl, hlen, hlone⟩ := hc.lines
  -- the payload without the bytes that get lost
  obtain ⟨rest', hr⟩ : ∃ rest', rest = rest' ++ t := by
    rcases hD with ⟨-, ⟨h, -⟩ | h⟩ | ⟨-, h⟩
    · exact ⟨rest, by simp [h]⟩
    · rcases List.eq_nil_or_concat rest with hr | ⟨r, b, hr⟩
      · exfalso
        subst hr
        obtain ⟨l1, l2, ls', hls⟩ : ∃ l1 l2 ls', ls = l1 :: l2 :: ls' := by
          match ls, hlen with
          | _ :: _ :: _, _ => exact ⟨_, _, _, rfl⟩
        have hu := hl.split
        rw [hls] at hu
        rcases he with rfl | rfl
        · exact absurd (congrArg List.length hu) (by
            have : splitLinesKeepB ([] ++ [10]) = [[10]] := by decide
            rw [this]; simp)
        · exact absurd (congrArg List.length hu) (by
            have : splitLinesKeepB ([] ++ [13, 10]) = [[13, 10]] := by decide
            rw [this]; simp)
      · rw [List.concat_eq_append] at hr
        refine ⟨r, ?_⟩
        subst h
        rw [hr] at ht ⊢
        have := congrArg List.getLast? ht
        rw [← List.append_assoc, ← List.append_assoc, List.getLast?_concat, List.getLast?_concat] at this
        rw [Option.some.inj this]
    · exact ⟨rest, by simp [h]⟩
  subst hr
  have hD' : D' = delimBytes ++ (e0 ++ rest') := by
    rw [← List.append_assoc, ← List.append_assoc] at ht
    have := List.append_cancel_right ht
    rw [← this, List.append_assoc]
  have hcond : t ++ e = [10] ∧ rest'.getLast? ≠ some 13 ∨ t ++ e = [13, 10] := by
    rcases hD with ⟨rfl, ⟨rfl, h⟩ | rfl⟩ | ⟨rfl, rfl⟩
    · refine Or.inl ⟨rfl, fun hx => h ?_⟩
      rw [hD', ← List.append_assoc, List.getLast?_append, hx]; rfl
    · exact Or.inr rfl
    · exact Or.inr rfl
  obtain ⟨R, hR⟩ := exists_lines rest'
  obtain ⟨pre, c, h1, h2, h3⟩ := hR.addEol (t ++ e) hcond
  rw [List.append_assoc] at hl
  have hls := hl.unique h1
  subst hls
  have hpre : ∃ y l, pre = y :: l := by
    cases pre with
    | nil => simp at hlen
    | cons y l => exact ⟨y, l, rfl⟩
  obtain ⟨y, l, rfl⟩ := hpre
  have hno : NoEol delimBytes := by unfold NoEol; decide
  have hz : rstripEol (c ++ (t ++ e)) = c := rstripEol_noEol _ _ h2 (by
    rcases hcond with ⟨h, -⟩ | h <;> rw [h] <;> simp)
  have hm : moveUp (c ++ (t ++ e)) (delimBytes ++ e) = c ++ delimBytes ++ [10] := by
    unfold moveUp
    rw [hz]
    rcases he with rfl | rfl <;> rfl
  have hopen : ∀ g L, IsLines g L → IsLines (delimBytes ++ (e0 ++ g)) ((delimBytes ++ e0) :: L) := fun g L hg =>
    IsLines.line delimBytes e0 g L hno (by rcases h0 with h | h <;> tauto) hg
  refine ⟨⟨delimBytes ++ e0, y, l, c ++ (t ++ e), delimBytes ++ e⟩, ⟨?_, ?_, ?_, ?_, ?_⟩, ?_, ?_, ?_, ?_,
    (delimBytes ++ e0) :: y :: l, ?_⟩
  · show loneTag (delimBytes ++ e0) = true
    rcases h0 with rfl | rfl <;> decide
  · rw [← Bool.not_eq_true, loneTag_iff]; exact hlone y (by simp)
  · intro x hx; rw [← Bool.not_eq_true, loneTag_iff]; exact hlone x (by simp [hx])
  · rw [← Bool.not_eq_true, loneTag_iff]; exact hlone _ (by simp)
  · show loneTag (delimBytes ++ e) = true
    rcases he with rfl | rfl <;> decide
  · have hb : IsLines (delimBytes ++ e) [delimBytes ++ e] := by
      have := IsLines.line delimBytes e [] [] hno (by rcases he with h | h <;> tauto) .nil
      simpa using this
    have hlast : rest' ++ (t ++ e) = [] ∨ (rest' ++ (t ++ e)).getLast? = some 10 := by
      right
      rcases hcond with ⟨h, -⟩ | h <;> rw [h] <;> simp
    have hall := h1.append hlast hb
    have := hopen _ _ hall
    unfold ownLine SetLines.lines
    simpa using this
  · unfold SetLines.fixed direct
    rw [hm, hD', ← h3]
    simp
  · have := hopen _ _ (h1.setLast (c := c ++ delimBytes) ⟨by simp [h2.1, hno.1], by simp [h2.2, hno.2]⟩ (by simp [delimBytes]))
    unfold SetLines.fixed direct
    rw [hm, hD', ← h3]
    simpa using this
  · rcases he with rfl | rfl
    · exact ⟨delimBytes, 10, rfl, by decide⟩
    · exact ⟨delimBytes ++ [13], 10, rfl, by decide⟩
  · have := hopen _ _ h1
    simpa using this

theorem fix_contents (e : Bytes) (he : Eol e) (Ds : List (Bytes × Bytes)) (h : ∀ p ∈ Ds, Content e (p.1 ++ p.2) ∧
    (e = [10] ∧ (p.2 = [] ∧ p.1.getLast? ≠ some 13 ∨ p.2 = [13]) ∨ e = [13, 10] ∧ p.2 = [])) :
    fixBytes (Ds.flatMap fun p => ownLine e (p.1 ++ p.2)) = Ds.flatMap fun p => direct p.1 := by
  have key : ∃ ss : List SetLines, (∀ s ∈ ss, s.Ok) ∧
      IsLines (Ds.flatMap fun p => ownLine e (p.1 ++ p.2)) (ss.flatMap SetLines.lines) ∧
      (ss.flatMap SetLines.fixed).flatten = Ds.flatMap fun p => direct p.1 := by
    induction Ds with
    | nil => exact ⟨[], by simp, .nil, rfl⟩
    | cons p Ds ih =>
      obtain ⟨ss, i1, i2, i3⟩ := ih fun q hq => h q (by simp [hq])
      obtain ⟨hc, hp⟩ := h p (by simp)
      obtain ⟨s, s1, s2, s3, -⟩ := content_lines e he _ p.1 p.2 hc rfl hp
      refine ⟨s :: ss, ?_, ?_, ?_⟩
      · intro x hx
        rcases List.mem_cons.1 hx with rfl | hx
        · exact s1
        · exact i1 x hx
      · rw [List.flatMap_cons, List.flatMap_cons]
        refine s2.append (Or.inr ?_) i2
        exact ownLine_last e he _
      · rw [List.flatMap_cons, List.flatMap_cons, List.flatten_append, s3, i3]
  obtain ⟨ss, h1, h2, h3⟩ := key
  unfold fixBytes
  rw [h2.split, fix_lines ss h1, h3]

/-- The repair: in a file of any number of data-sets, text or binary, whose closing delimiters are on lines of their own,
every delimiter is moved directly behind its data and every other byte is kept — provided no data-set ends with a CR that
would merge with the LF behind it, and no line inside a data-set is a lone delimiter. -/
theorem C37_repairs_partial (e : Bytes) (he : Eol e) (Ds : List Bytes) (h : ∀ D ∈ Ds, Content e D)
    (hcr : e = [10] → ∀ D ∈ Ds, D.getLast? ≠ some 13) :
    fixBytes (Ds.flatMap (ownLine e)) = Ds.flatMap direct := by
  have := fix_contents e he (Ds.map fun D => (D, [])) (by
    intro p hp
    obtain ⟨D, hD, rfl⟩ := List.mem_map.1 hp
    refine ⟨by simpa using h D hD, ?_⟩
    rcases he with rfl | rfl
    · exact Or.inl ⟨rfl, Or.inl ⟨rfl, hcr rfl D hD⟩⟩
    · exact Or.inr ⟨rfl, rfl⟩)
  rw [List.flatMap_map, List.flatMap_map] at this
  simpa using this

/-- What is missing above: a data-set that ends with the byte CR, as binary data may, loses this byte. -/
theorem C37_negation_cr (D : Bytes) (h : Content [10] (D ++ [13])) :
    fixBytes (ownLine [10] (D ++ [13])) = direct D ∧ direct D ≠ direct (D ++ [13]) := by
  have := fix_contents [10] (Or.inl rfl) [(D, [13])] (by
    intro p hp
    rw [List.mem_singleton] at hp
    subst hp
    exact ⟨h, Or.inl ⟨rfl, Or.inr rfl⟩⟩)
  refine ⟨by simpa using this, fun h => ?_⟩
  have := congrArg List.length h
  simp [direct] at this

/-- The number and the content of the data-sets: the repair removes from every data-set the line end at its end and
nothing else. -/
theorem C37_sets_partial (e : Bytes) (he : Eol e) (Ds : List Bytes) (h : ∀ D ∈ Ds, Content e D)
    (hcr : e = [10] → ∀ D ∈ Ds, D.getLast? ≠ some 13)
    (ht : ∀ D ∈ Ds, delims (ownLine e D) = [0, (D ++ e).length] ∧ delims (direct D) = [0, D.length]) :
    sets (Ds.flatMap (ownLine e)) = Ds.map (· ++ e) ∧ sets (fixBytes (Ds.flatMap (ownLine e))) = Ds := by
  rw [C37_repairs_partial e he Ds h hcr]
  have one : ∀ (b x : Bytes), delims (b ++ x) = [0, b.length] → sets (b ++ x) = [b] := by
    intro b x h
    rw [sets_eq, h]
    simp [pairUp, blockBytes, slice]
  have many : ∀ (g k : Bytes → Bytes), (∀ D ∈ Ds, Terminated (g D) ∧ Balanced (g D) ∧ sets (g D) = [k D]) →
      sets (Ds.flatMap g) = Ds.map k := by
    intro g k hg
    clear h hcr ht
    induction Ds with
    | nil => exact (by decide : sets [] = [])
    | cons D Ds ih =>
      obtain ⟨h1, h2, h3⟩ := hg D (by simp)
      rw [List.flatMap_cons, sets_append _ _ h1 h2, h3, ih fun x hx => hg x (by simp [hx])]
      rfl
  constructor
  · apply many
    intro D hD
    refine ⟨Or.inr ?_, ?_, ?_⟩
    · exact ownLine_last e he D
    · unfold Balanced; rw [(ht D hD).1]; simp
    · have := (ht D hD).1
      unfold ownLine at this ⊢
      rw [← List.append_assoc] at this ⊢
      exact one _ _ this
  · have := many direct (fun D => D) (by
      intro D hD
      refine ⟨Or.inr ?_, ?_, one _ _ (ht D hD).2⟩
      · unfold direct; simp
      · unfold Balanced; rw [(ht D hD).2]; simp)
    rw [this, List.map_id']

/-- A file written by the package, with any data-sets in it, whose closing delimiters were moved to lines of their own
afterwards, is restored byte by byte; so it is read as before. -/
theorem C37_restores_partial (en : Env) (mode : Text) (hm : lower mode = "add".toList) (fd : Bool) (ds : List Dict)
    (ss : List DataSet) (h : GivenAll en fd ds ss) (hs : ss ≠ []) (e : Bytes) (he : Eol e) :
    ∃ f, ((World.new none).writeSets en mode fd ds).1.file = some f ∧
      ((∀ D ∈ sets f, Content e D ∧ (e = [10] → D.getLast? ≠ some 13)) →
        fixBytes ((sets f).flatMap (ownLine e)) = f) := by
  obtain ⟨bs, hbs, hr⟩ := addAll_new h hs
  rw [writeSets_add' _ en mode hm fd ds (h.ne hs), hr]
  refine ⟨_, rfl, fun hc => ?_⟩
  rw [hbs.sets] at hc ⊢
  exact C37_repairs_partial e he bs (fun D hD => (hc D hD).1) fun e D hD => (hc D hD).2 e

/-- Repairing twice is repairing once, when the last line of each data-set shows something. -/
theorem C37_twice_partial (e : Bytes) (he : Eol e) (Ds : List Bytes) (h : ∀ D ∈ Ds, Content e D)
    (hcr : e = [10] → ∀ D ∈ Ds, D.getLast? ≠ some 13)
    (hv : ∀ D ∈ Ds, ∀ ls z, IsLines (D ++ e) ls → ls.getLast? = some z → visible z ≠ []) :
    fixBytes (fixBytes (Ds.flatMap (ownLine e))) = fixBytes (Ds.flatMap (ownLine e)) := by
  rw [C37_repairs_partial e he Ds h hcr]
  have key : ∃ ss : List SetLines, (∀ s ∈ ss, s.Ok) ∧ (∀ s ∈ ss, loneTag (moveUp s.z s.b) = false) ∧
      IsLines (Ds.flatMap direct) (ss.flatMap SetLines.fixed) := by
    induction Ds with
    | nil => exact ⟨[], by simp, by simp, .nil⟩
    | cons D Ds ih =>
      obtain ⟨ss, i1, i2, i3⟩ := ih (fun q hq => h q (by simp [hq])) (fun he q hq => hcr he q (by simp [hq]))
        fun q hq => hv q (by simp [hq])
      obtain ⟨s, s1, -, -, s4, s5, pre, s6⟩ := content_lines e he D D [] (h D (by simp)) (by simp) (by
        rcases he with rfl | rfl
        · exact Or.inl ⟨rfl, Or.inl ⟨rfl, hcr rfl D (by simp)⟩⟩
        · exact Or.inr ⟨rfl, rfl⟩)
      refine ⟨s :: ss, ?_, ?_, ?_⟩
      · intro x hx
        rcases List.mem_cons.1 hx with rfl | hx
        · exact s1
        · exact i1 x hx
      · intro x hx
        rcases List.mem_cons.1 hx with rfl | hx
        · exact not_lone_of_visible _ _ (hv D (by simp) _ _ s6 (by simp)) s5
        · exact i2 x hx
      · rw [List.flatMap_cons, List.flatMap_cons]
        exact s4.append (Or.inr (by simp [direct])) i3
  obtain ⟨ss, h1, h2, h3⟩ := key
  unfold fixBytes
  rw [h3.split, fix_fixed ss h1 h2, h3.flatten]

/-- What is missing above: a blank line before the closing delimiter; the second repair moves the delimiter again. -/
theorem C37_negation_twice :
    let f : Bytes := [97, 10, 10, 32, 32, 32, 32, 45, 49, 10]
    fixBytes f = [97, 10, 32, 32, 32, 32, 45, 49, 10] ∧ fixBytes (fixBytes f) = [97, 32, 32, 32, 32, 45, 49, 10] := by
  decide +kernel

/-! ### Cases -/

/-- A check for `Content` with the opening delimiter followed by LF. -/
theorem content_of_check (e D : Bytes) (h1 : D.take 7 = delimBytes ++ [10])
    (h2 : 2 ≤ (splitLinesKeepB (D.drop 7 ++ e)).length ∧ ∀ l ∈ splitLinesKeepB (D.drop 7 ++ e), ¬ Lone l) : Content e D :=
  ⟨[10], D.drop 7, _, Or.inl rfl, by
    conv => lhs; rw [← List.take_append_drop 7 D, h1]
    simp, isLines_split _, h2.1, h2.2⟩

/-- Another way to find the data-sets, quicker to evaluate. -/
def setsFast (f : Bytes) : List Bytes := (pairUp (tagsFrom 0 f)).map (blockBytes f)

theorem sets_fast (f : Bytes) : sets f = setsFast f := by rw [sets_eq, delims_eq]; rfl

/-- A text and a binary data-set. -/
def exTwo : List Dict := [ex151.dict, (ex58 false exReal (.binary true)).dict]

theorem ex_two : GivenAll exEnv true exTwo [.s151 ex151, .s58 (ex58 false exReal (.binary true))] :=
  .cons (DS151.given _ _ _ ex151_ok) <|
  .cons (DS58.given _ _ _ (ex58_ok _ _ _ (.inl rfl)) (by intro _; simp [ex58]) (by intro le h; cases h; rfl)) .nil

/-- The file. -/
def exFile2 : Bytes := ((World.new none).writeSets exEnv "add".toList true exTwo).1.file.getD []

example : GivenAll exEnv true exTwo [.s151 ex151, .s58 (ex58 false exReal (.binary true))] ∧ Eol [10] ∧
    ((World.new none).writeSets exEnv "add".toList true exTwo).1.file = some exFile2 ∧ (sets exFile2).length = 2 ∧
    ∀ D ∈ sets exFile2, Content [10] D ∧ D.getLast? ≠ some 13 :=
  ⟨ex_two, Or.inl rfl, by decide +kernel, by rw [sets_fast]; decide +kernel, by
    rw [sets_fast]
    have : ∀ D ∈ setsFast exFile2, (D.take 7 = delimBytes ++ [10] ∧ 2 ≤ (splitLinesKeepB (D.drop 7 ++ [10])).length ∧
      ∀ l ∈ splitLinesKeepB (D.drop 7 ++ [10]), ¬ Lone l) ∧ D.getLast? ≠ some 13 := by decide +kernel
    intro D hD
    obtain ⟨⟨h1, h2⟩, h3⟩ := this D hD
    exact ⟨content_of_check _ _ h1 h2, h3⟩⟩

/-- Two text data-sets 58 without the line end before their closing delimiters. -/
def exContents : List Bytes :=
  (setsFast (((World.new none).writeSets exEnv "add".toList true
    [(ex58 true exCplx (.ascii true)).dict, (ex58 false exReal (.ascii false)).dict]).1.file.getD [])).map List.dropLast

/-- They meet the hypotheses on contents, delimiters and last lines. -/
example : exContents.length = 2 ∧ (∀ D ∈ exContents, Content [10] D) ∧ (∀ D ∈ exContents, D.getLast? ≠ some 13) ∧
    (∀ D ∈ exContents, delims (ownLine [10] D) = [0, (D ++ [10]).length] ∧ delims (direct D) = [0, D.length]) ∧
    ∀ D ∈ exContents, ∀ ls z, IsLines (D ++ [10]) ls → ls.getLast? = some z → visible z ≠ [] :=
  ⟨by decide +kernel, by
    have : ∀ D ∈ exContents, D.take 7 = delimBytes ++ [10] ∧ 2 ≤ (splitLinesKeepB (D.drop 7 ++ [10])).length ∧
      ∀ l ∈ splitLinesKeepB (D.drop 7 ++ [10]), ¬ Lone l := by decide +kernel
    exact fun D hD => content_of_check _ _ (this D hD).1 (this D hD).2, by decide +kernel, by
    simp only [delims_eq]
    decide +kernel, by
    have : ∀ D ∈ exContents, ∀ z ∈ (splitLinesKeepB (D ++ [10])).getLast?, visible z ≠ [] := by decide +kernel
    intro D hD ls z hl hz
    rw [← hl.split] at hz
    exact this D hD z hz⟩

/-- Binary data that end with a CR: the last big-endian byte of the last number. -/
def exCr : DS58 := ex58 true (.real [fA, fB, ⟨false, 0x3FF000000000000D, by decide⟩]) (.binary false)

/-- A big-endian machine. -/
def exBig : Env := ⟨false, exEnv.clock⟩

/-- The package writes and reads them; moved to a line of its own, the delimiter is brought back with the last byte of the
data lost. -/
theorem C37_negation_binary :
    let f := ((World.new none).writeSets exBig "add".toList true [exCr.dict]).1.file.getD []
    (∃ D, sets f = [D ++ [13]] ∧ Content [10] (D ++ [13])) ∧
      (∃ d, ((World.new (some f)).readSets .all false).2 = .ok (.single d)) ∧
      fixBytes ((sets f).flatMap (ownLine [10])) ≠ f := by
  intro f
  rw [sets_fast]
  refine ⟨⟨(setsFast f).flatten.dropLast, by decide +kernel, content_of_check _ _ (by decide +kernel) (by decide +kernel)⟩, ?_,
    by decide +kernel⟩
  have : ∃ d ∈ (match ((World.new (some f)).readSets .all false).2 with
    | .ok (.single d) => some d
    | _ => none), True := by
    have h : (match ((World.new (some f)).readSets .all false).2 with
      | .ok (.single d) => some d
      | _ => none).isSome = true := by decide +kernel
    obtain ⟨d, hd⟩ := Option.isSome_iff_exists.1 h
    exact ⟨d, hd, trivial⟩
  obtain ⟨d, hd, -⟩ := this
  refine ⟨d, ?_⟩
  revert hd
  generalize ((World.new (some f)).readSets .all false).2 = r
  match r with
  | .ok (.single d') => intro hd; cases hd; rfl
  | .ok (.list _) => intro hd; cases hd
  | .error _ => intro hd; cases hd

/-- A function whose first two identification lines are `-1`. -/
def exIds : DS58 := { ex58 true exReal (.ascii true) with id1 := "-1".toList, id2 := "-1".toList }

/-- Lone delimiters inside a data-set: a file written and read by the package without loss has no misplaced delimiter, yet
the identification lines are taken for delimiters, the file gets a third delimiter, and it can no longer be read. -/
theorem C37_negation_ids :
    let w := ((World.new none).writeSets exEnv "add".toList true [exIds.dict]).1
    let f := w.file.getD []
    (w.readSets .all false).2 = .ok (.single exIds.readBack) ∧ (delims f).length = 2 ∧ (delims (fixBytes f)).length = 3 ∧
      ∃ e, ((World.new (some (fixBytes f))).readSets .all false).2 = .error e := by
  intro w f
  rw [delims_eq, delims_eq]
  refine ⟨by decide +kernel, by decide +kernel, by decide +kernel, ?_⟩
  have h : (match ((World.new (some (fixBytes f))).readSets .all false).2 with
    | .ok _ => false
    | .error _ => true) = true := by decide +kernel
  revert h
  generalize ((World.new (some (fixBytes f))).readSets .all false).2 = r
  match r with
  | .ok _ => intro h; cases h
  | .error e => intro _; exact ⟨e, rfl⟩

end Verif
