import Verif.Lemmas.OneLine
import Verif.Props.RoundTrip
import Verif.Props.Foreign
import Verif.Props.Typed
import Verif.Py.Lit
/-
C60: the texts that are read from a file.
-/
namespace Verif

/-- What `read_sets` returns, as a list. -/
def ReadOut.dicts : ReadOut → List Dict
  | .single d => [d]
  | .list l => l

theorem returned {w : World} {sel : Sel} {header : Bool} {o : ReadOut} (h : (w.readSets sel header).2 = .ok o) :
    ∀ d ∈ o.dicts, ∃ t b, readBlock t header b = .ok d := by
  unfold World.readSets at h
  dsimp only at h
  split at h
  · cases h
  · next data hd =>
    dsimp only at h
    split at h
    · next l hl =>
      cases h
      have hu : (unwrap l).dicts = l := by
        unfold unwrap
        split <;> rfl
      rw [hu]
      intro d hdl
      obtain ⟨n, _, hn⟩ := Shapes.mapRes_all hl d hdl
      unfold readSet at hn
      split at hn
      · cases hn
      · split at hn
        · exact ⟨_, _, hn⟩
        · cases hn
    · cases h

theorem good_block {Q : Text → Prop} (t : Int) (header : Bool) (b : Bytes) (hQ : Cell Q)
    (h18 : t = 18 → ∀ l, LineLike l → Q (strip l)) (h24 : t = 2420 → ∀ l, LineLike l → Q (rstrip l)) :
    Returns (Good Q) (readBlock t header b) := by
  unfold readBlock
  by_cases h15 : t = 15
  · rw [if_pos h15]; exact good15 _
  rw [if_neg h15]
  by_cases h18' : t = 18
  · rw [if_pos h18']; exact good18 (h18 h18') _
  rw [if_neg h18']
  by_cases h55 : t = 55
  · rw [if_pos h55]; exact good55 hQ _
  rw [if_neg h55]
  by_cases h58 : t = 58
  · rw [if_pos h58]; exact good58 hQ _ _
  rw [if_neg h58]
  by_cases h82 : t = 82
  · rw [if_pos h82]; exact good82 hQ _
  rw [if_neg h82]
  by_cases h151 : t = 151
  · rw [if_pos h151]; exact good151 hQ _
  rw [if_neg h151]
  by_cases h164 : t = 164
  · rw [if_pos h164]; exact good164 hQ _
  rw [if_neg h164]
  by_cases h1858 : t = 1858
  · rw [if_pos h1858]; exact good1858 hQ _
  rw [if_neg h1858]
  by_cases h2400 : t = 2400
  · rw [if_pos h2400]; exact good2400 hQ _
  rw [if_neg h2400]
  by_cases h2411 : t = 2411
  · rw [if_pos h2411]; exact good2411 _
  rw [if_neg h2411]
  by_cases h2412 : t = 2412
  · rw [if_pos h2412]; exact good2412 _
  rw [if_neg h2412]
  by_cases h2414 : t = 2414
  · rw [if_pos h2414]; exact good2414 hQ _
  rw [if_neg h2414]
  by_cases h2420 : t = 2420
  · rw [if_pos h2420]; exact good2420 (h24 h2420) _
  rw [if_neg h2420]
  by_cases h2429 : t = 2429
  · rw [if_pos h2429]; exact good2429 hQ _
  rw [if_neg h2429]
  by_cases h2467 : t = 2467
  · rw [if_pos h2467]; exact good2467 hQ _
  rw [if_neg h2467]
  refine returns_ok ?_
  goods

theorem slice_line {l : Text} (h : LineLike l) (a b : Nat) : LineLike (slice l a b) := by
  unfold slice; first | exact (h.drop _).take _ | exact (h.take _).drop _

theorem rstrip_last (l : Text) (c : Char) (h : (rstrip l).getLast? = some c) : c ∉ blankChars := by
  rw [← space_iff]
  unfold rstrip at h
  rw [List.getLast?_reverse] at h
  have := List.head?_dropWhile_not isSpace l.reverse
  rw [h] at this
  simpa using this

theorem strip_head (l : Text) (c : Char) (h : (strip l).head? = some c) : c ∉ blankChars := by
  rw [← space_iff]
  have hp : strip l <+: lstrip l := by
    unfold strip rstrip
    have := List.dropWhile_suffix (l := (lstrip l).reverse) isSpace
    have := List.reverse_prefix.2 this
    rwa [List.reverse_reverse] at this
  obtain ⟨r, hr⟩ := hp
  have h1 : (lstrip l).head? = some c := by
    rw [← hr, List.head?_append, h]; rfl
  have := List.head?_dropWhile_not isSpace l
  rw [show l.dropWhile isSpace = lstrip l from rfl, h1] at this
  simpa using this

theorem strip_length (l : Text) : (strip l).length ≤ l.length := by
  unfold strip rstrip lstrip
  rw [List.length_reverse]
  refine Nat.le_trans (List.dropWhile_suffix _).length_le ?_
  rw [List.length_reverse]
  exact (List.dropWhile_suffix _).length_le

/-- **C60 (texts).** Whatever a file contains and whatever was done with the object before, every text in the dictionaries that
`read_sets` returns - names, descriptions, labels, also inside lists and groups - is on one line (none of the ten line breaks
of Python is in it), and it does not end with a blank.  Texts do not begin with a blank either, except in data-sets 2420, and
they have at most 80 characters, except in data-sets 18 and 2420. -/
theorem C60_texts (w : World) (sel : Sel) (header : Bool) (o : ReadOut) (h : (w.readSets sel header).2 = .ok o) (d : Dict)
    (hd : d ∈ o.dicts) (s : Text) (hs : HasText (.dict d) s) :
    (∀ c ∈ s, c ∉ lineBreaks) ∧ (∀ c, s.getLast? = some c → c ∉ blankChars) ∧
    (d.get? "type" ≠ some (.int 2420) → ∀ c, s.head? = some c → c ∉ blankChars) ∧
    (d.get? "type" ≠ some (.int 18) → d.get? "type" ≠ some (.int 2420) → s.length ≤ 80) := by
  obtain ⟨t, b, hb⟩ := returned h d hd
  have ht := (returns_block t header b d hb).1
  have nb : ∀ s, NoBreak s → ∀ c ∈ s, c ∉ lineBreaks := by
    intro s hs c hc hm
    rw [← break_iff, hs c hc] at hm
    cases hm
  let Q : Text → Prop := fun s => (∀ c ∈ s, c ∉ lineBreaks) ∧ (∀ c, s.getLast? = some c → c ∉ blankChars) ∧
    (t ≠ 2420 → ∀ c, s.head? = some c → c ∉ blankChars) ∧ (t ≠ 18 → t ≠ 2420 → s.length ≤ 80)
  have key : ∀ l, LineLike l → (∀ c ∈ strip l, c ∉ lineBreaks) ∧ (∀ c, (strip l).getLast? = some c → c ∉ blankChars) ∧
      (∀ c, (strip l).head? = some c → c ∉ blankChars) := fun l hl =>
    ⟨nb _ hl.lstrip.rstrip, rstrip_last _, strip_head l⟩
  have hg : Good Q d := by
    refine good_block t header b ?_ ?_ ?_ d hb
    · intro l a w hl hw
      obtain ⟨h1, h2, h3⟩ := key _ (slice_line hl a (a + w))
      refine ⟨h1, h2, fun _ => h3, fun _ _ => Nat.le_trans (strip_length _) ?_⟩
      unfold slice
      simp only [List.length_take, List.length_drop]
      omega
    · intro ht l hl
      obtain ⟨h1, h2, h3⟩ := key _ hl
      exact ⟨h1, h2, fun _ => h3, fun h => absurd ht h⟩
    · intro ht l hl
      exact ⟨nb _ hl.rstrip, rstrip_last _, fun h => absurd ht h, fun _ h => absurd ht h⟩
  obtain ⟨h1, h2, h3, h4⟩ := gv_dict hg s hs
  have e : ∀ n : Int, d.get? "type" ≠ some (.int n) → t ≠ n := by
    rintro n hn rfl
    exact hn ht
  exact ⟨h1, h2, fun h => h3 (e _ h), fun ha hb => h4 (e _ ha) (e _ hb)⟩

/-- **C60 (lost).** So a dictionary with a text that holds a line break, or that ends with a blank, never comes back as it was
written. -/
theorem C60_lost (e : Env) (fd : Bool) (d rb hb : Dict) (s : Text) (hs : HasText (.dict rb) s)
    (h : (∃ c ∈ s, c ∈ lineBreaks) ∨ ∃ c ∈ blankChars, s.getLast? = some c) : ¬ StoredAs e fd d rb hb := by
  intro hst
  have hr := (hst.all (World.new none) (.inl rfl) (by decide)).2.2.1
  obtain ⟨h1, h2, _⟩ := C60_texts _ _ _ _ hr rb (List.mem_singleton.2 rfl) s hs
  rcases h with ⟨c, hc, hm⟩ | ⟨c, hm, hc⟩
  · exact h1 c hc hm
  · exact h2 c hc hm

/-- A model of another program: the description holds a group separator, the name a record separator. -/
def brokenModel : Dict :=
  { ex151 with model := "wing".toList ++ Char.ofNat 30 :: "A".toList, descr := "left".toList ++ Char.ofNat 29 :: "right".toList }.dict

/-- Each separator ends a line for the reader, so the name and the description fill four records: what follows is read from the
wrong records. -/
theorem C60_negation_shifted :
    let w := ((World.new none).writeSets exEnv "add".toList true [brokenModel]).1
    (w.readSets (.one 0) false).2.toOption.map (fun o => o.dicts.map fun d =>
        (d.get? "model_name", d.get? "description", d.get? "db_app", d.get? "date_db_created")) =
      some [(some (.str "wing".toList), some (.str "A".toList), some (.str "left".toList), some (.str "right".toList))] := by
  decide +kernel

/-- A data-set 2420 of another program: the name of the part begins and ends with blanks, the name of the system is 90
characters long.  The texts in it: on one line, and without blanks at the end. -/
def longNames : Dict :=
  { ex2420 with name := "  Part ".toList, systems := [⟨1, 0, 8, List.replicate 90 'n', exPt, exPt, exPt, exPt⟩] }.dict

example :
    let w := ((World.new none).writeSets exEnv "add".toList true [longNames]).1
    (w.readSets (.one 0) false).2.toOption.map (fun o => o.dicts.map fun d => (d.get? "Part_Name", d.get? "CS_names")) =
      some [(some (.str "  Part".toList), some (.list [.str (List.replicate 90 'n')]))] := by
  decide +kernel

/-- The hypotheses of `C60_texts` hold for it. -/
example :
    let w := ((World.new none).writeSets exEnv "add".toList true [longNames]).1
    ∃ o d, (w.readSets .all false).2 = .ok o ∧ d ∈ o.dicts ∧ HasText (.dict d) (List.replicate 90 'n') := by
  refine ⟨.single ((((World.new none).writeSets exEnv "add".toList true [longNames]).1.readSets .all false).2.toOption.elim []
    (fun o => o.dicts.headD [])), _, by decide +kernel, List.mem_singleton.2 rfl, ?_⟩
  refine .dict (k := "CS_names") (v := .list [.str (List.replicate 90 'n')]) (by decide +kernel) (.list (List.mem_singleton.2 rfl) (.str _))

/-- A name that ends with a blank does not come back as it is. -/
example : ¬ StoredAs exEnv true longNames longNames longNames :=
  C60_lost _ _ _ _ _ "  Part ".toList (.dict (k := "Part_Name") (v := .str "  Part ".toList) (by decide) (.str _))
    (.inr ⟨' ', by decide, rfl⟩)

end Verif
