import Verif.Lemmas.OneLine
import Verif.Spec.Arrays
/-
The lengths of the arrays that the readers return.
-/
namespace Verif

theorem everyN_length {α : Type} (k s : Nat) (hs : 1 ≤ s) (l : List α) : (everyN k s l).length = (l.length + (s - 1) - k) / s := by
  unfold everyN
  induction l generalizing k with
  | nil =>
    cases k with
    | zero => rw [Nat.div_eq_of_lt (by simp; omega)]; rfl
    | succ k => rw [Nat.div_eq_of_lt (by simp; omega)]; rfl
  | cons a r ih =>
    cases k with
    | zero =>
      simp only [everyAux, List.length_cons, ih]
      rw [show r.length + 1 + (s - 1) - 0 = r.length + s by omega, Nat.add_div_right _ (by omega)]
      congr 2; omega
    | succ k =>
      simp only [everyAux, List.length_cons, ih]
      congr 1; omega

/-- Columns of a list. -/
theorem columns {α : Type} (l : List α) (s : Nat) (hs : 1 ≤ s) (a b : Nat) (hab : a ≤ b) (hb : b < s) :
    (everyN b s l).length ≤ (everyN a s l).length ∧ (everyN a s l).length ≤ (everyN b s l).length + 1 := by
  rw [everyN_length _ _ hs, everyN_length _ _ hs]
  constructor
  · exact Nat.div_le_div_right (by omega)
  · refine Nat.le_trans (Nat.div_le_div_right (c := s) (show _ ≤ (l.length + (s - 1) - b) + s by omega)) ?_
    rw [Nat.add_div_right _ (by omega)]

theorem pairwise_columns {α : Type} (l : List α) (s : Nat) (hs : 1 ≤ s) (m : Nat) (hm : m ≤ s) :
    ((List.range m).map fun k => (everyN k s l).length).Pairwise fun a b => b ≤ a ∧ a ≤ b + 1 := by
  rw [List.pairwise_map]
  refine List.Pairwise.imp_of_mem ?_ (List.pairwise_lt_range)
  intro a b _ hb hab
  have := List.mem_range.1 hb
  exact columns l s hs a b (by omega) (by omega)

/-! ### Nodes -/

theorem steps15 (t : Text) :
    Returns (fun d => Steps d ["node_nums", "def_cs", "disp_cs", "color", "x", "y", "z"]) (extract15 t) := by
  refine returns_guard (returns_bind fun v _ => returns_ok ⟨_, ?_, pairwise_columns v 7 (by decide) 7 (by decide)⟩)
  simp [countOf, Dict.get?, List.range, List.range.loop]

theorem steps2411 (t : Text) :
    Returns (fun d => Steps d ["node_nums", "def_cs", "disp_cs", "color", "x", "y", "z"]) (extract2411 t) := by
  refine returns_guard (returns_bind fun v _ => returns_ok ⟨_, ?_, pairwise_columns v 7 (by decide) 7 (by decide)⟩)
  simp [countOf, Dict.get?, List.range, List.range.loop]

/-! ### Coordinate systems -/

theorem vstack3_rows {a b c : List F64} {v : Val} (h : vstack3T a b c = .ok v) :
    a.length = b.length ∧ b.length = c.length ∧ ∃ m, v = .mat m ∧ m.length = a.length ∧ ∀ r ∈ m, r.length = 3 := by
  unfold vstack3T at h
  split at h
  · next hl =>
    cases h
    refine ⟨hl.1, hl.2, _, rfl, ?_, ?_⟩
    · simp only [List.length_map, List.length_zip]; omega
    · intro r hr
      obtain ⟨x, _, rfl⟩ := List.mem_map.1 hr
      rfl
  · cases h

theorem steps18 (t : Text) :
    Returns (fun d => Steps d ["cs_num", "cs_type", "ref_cs_num", "color", "method"] ∧ Steps d ["ref_o", "x_point"] ∧
      Triples d "ref_o" ∧ Triples d "x_point" ∧ Triples d "xz_point") (extract18 t) := by
  refine returns_guard ?_
  refine returns_bind fun r1 _ => returns_bind fun r31 _ => returns_bind fun o h1 => returns_bind fun x h2 =>
    returns_bind fun r32 _ => returns_bind fun xz h3 => returns_ok ?_
  obtain ⟨_, _, mo, rfl, lo, ho⟩ := vstack3_rows h1
  obtain ⟨_, _, mx, rfl, lx, tx⟩ := vstack3_rows h2
  obtain ⟨_, _, mz, rfl, lz, tz⟩ := vstack3_rows h3
  refine ⟨⟨_, ?_, pairwise_columns r1 5 (by decide) 5 (by decide)⟩, ⟨[mo.length, mx.length], rfl, ?_⟩, ⟨mo, rfl, ho⟩, ⟨mx, rfl, tx⟩,
    ⟨mz, rfl, tz⟩⟩
  · simp [countOf, Dict.get?, List.range, List.range.loop]
  · have := columns r31 6 (by decide) 0 3 (by decide) (by decide)
    simp only [List.pairwise_cons, List.mem_singleton, forall_eq, List.not_mem_nil, false_imp_iff, implies_true, List.Pairwise.nil,
      and_true, lo, lx]
    exact this

theorem steps2420 (t : Text) :
    Returns (fun d => Steps d ["CS_sys_labels", "CS_types", "CS_colors"]) (extract2420 t) := by
  unfold extract2420
  refine returns_bind fun _ _ => returns_bind fun _ _ => returns_bind fun _ _ => returns_bind fun r3 _ => returns_bind fun _ _ =>
    returns_bind fun _ _ => returns_bind fun _ _ => returns_bind fun _ _ => returns_bind fun _ _ =>
    returns_ok ⟨_, ?_, pairwise_columns r3 3 (by decide) 3 (by decide)⟩
  simp [countOf, Dict.get?, List.range, List.range.loop]

theorem mask2400 (t : Text) : Returns (fun d => Equal d 32 ["status_mask"]) (extract2400 t) := by
  refine returns_guard ?_
  refine returns_bind fun _ _ => returns_bind fun h1 _ => returns_bind fun _ _ => returns_bind fun h2 _ => returns_bind fun _ _ =>
    returns_bind fun h3 _ => returns_bind fun _ _ => returns_bind fun mask hm => returns_bind fun _ _ =>
    returns_bind fun h5 e5 => returns_bind fun _ _ => returns_bind fun h6 e6 => returns_ok ?_
  intro k hk
  rw [List.mem_singleton.1 hk]
  unfold countOf
  rw [update_other (parseHeader_other (by decide) e6), update_other (parseHeader_other (by decide) e5), Dict.get?_set_self]
  have := ((mapRes_iff _ _ _).1 hm).1
  simp only [List.length_map]
  rw [← this]; rfl

/-! ### Elements -/

theorem legacy_equal {l : List Val} : ∀ ks : List String, ks.Nodup → Returns (fun r => Equal r l.length ks) (legacy l ks)
  | [], _ => by unfold legacy; exact returns_ok fun k hk => nomatch hk
  | k :: ks, hn => by
    unfold legacy
    refine returns_bind fun vs hvs => returns_bind fun r hr => returns_ok fun k' hk => ?_
    have ih := legacy_equal ks (List.nodup_cons.1 hn).2 r hr
    unfold countOf Dict.get?
    rcases List.mem_cons.1 hk with rfl | hk
    · rw [if_pos rfl]
      have := ((mapRes_iff _ _ _).1 hvs).1
      show some vs.length = some l.length
      rw [this]
    · have hne : k ≠ k' := by rintro rfl; exact (List.nodup_cons.1 hn).1 hk
      rw [if_neg (by simpa using hne)]
      exact ih k' hk

theorem addLegacy_equal (d : Dict) (num : Int) (name : String) (h : d.get? (.s name) = none) :
    Returns (fun e => ∀ r, e.get? (.s name) = some (.dict r) → ∃ n, Equal r n sevenNames) (addLegacy d num name) := by
  unfold addLegacy
  split
  · exact returns_ok fun r hr => by rw [h] at hr; cases hr
  · refine returns_bind fun l _ => returns_bind fun r hr => returns_ok fun r' hr' => ?_
    rw [Dict.get?_set_self] at hr'
    cases hr'
    exact ⟨_, legacy_equal _ (by decide) r hr⟩

theorem addLegacy_other (d : Dict) (num : Int) (name : String) (k : Key) (h : k ≠ .s name) :
    Returns (fun e : Dict => e.get? k = d.get? k) (addLegacy d num name) := by
  unfold addLegacy
  split
  · exact returns_ok rfl
  · refine returns_bind fun _ _ => returns_bind fun _ _ => returns_ok ?_
    exact Dict.get?_set_ne _ _ _ _ (fun e => h e.symm)

theorem addElems_str (k : String) : ∀ (es : List (Int × Dict)) (d : Dict), (es.foldl addElem d).get? (.s k) = d.get? (.s k)
  | [], _ => rfl
  | e :: es, d => by
    rw [List.foldl_cons, addElems_str k es]
    unfold addElem
    split
    · exact Dict.get?_set_ne _ _ _ _ (by simp)
    · exact Dict.get?_set_ne _ _ _ _ (by simp)
    · rfl

theorem equal2412 (t : Text) :
    Returns (fun d => ∀ name ∈ ["triangle", "quad"], ∀ r, d.get? (.s name) = some (.dict r) → ∃ n, Equal r n sevenNames)
      (extract2412 t) := by
  refine returns_guard (returns_bind fun es _ => returns_bind fun d hd => ?_)
  intro e he name hn r hr
  have h41 := addLegacy_equal _ 41 "triangle" (addElems_str _ es _) d hd
  have hq : d.get? (.s "quad") = none := (addLegacy_other _ 41 "triangle" (.s "quad") (by decide) d hd).trans (addElems_str _ es _)
  have h44 := addLegacy_equal d 44 "quad" hq e he
  rcases List.mem_cons.1 hn with rfl | hn
  · rw [addLegacy_other d 44 "quad" (.s "triangle") (by decide) e he] at hr
    exact h41 r hr
  · rw [List.mem_singleton.1 hn] at hr
    exact h44 r hr

/-! ### Groups -/

theorem steps_group {d : Dict} {vs : List Int} {s : Nat} (hs : 1 ≤ s) (ks : List String) (hk : ks.length ≤ s)
    (h : ks.map (countOf d) = (List.range ks.length).map fun k => some (everyN k s vs).length) : Steps d ks :=
  ⟨_, by rw [h, ← Function.comp_def, ← List.map_map], pairwise_columns vs s hs ks.length hk⟩

theorem steps_groups2429 : ∀ (n : Nat) (ls : List Text),
    Returns (fun vs : List Val => ∀ v ∈ vs, ∃ g, v = .dict g ∧ Steps g ["entity_type_code", "entity_tag"]) (groups2429 n ls) := by
  intro n
  induction n with
  | zero =>
    intro ls
    unfold groups2429
    split
    · exact returns_ok (by simp)
    · exact returns_error
  | succ n ih =>
    intro ls
    unfold groups2429
    split
    · refine returns_bind fun g _ => returns_bind fun _ _ => returns_bind fun vs _ => ?_
      dsimp only
      split
      · exact returns_error
      · refine returns_bind fun r hr => returns_ok fun v hv => ?_
        rcases List.mem_cons.1 hv with rfl | hv
        · refine ⟨_, rfl, steps_group (vs := vs) (s := 2) (by decide) _ (by decide) ?_⟩
          simp [countOf, Dict.get?_set_self, Dict.get?_set_ne, List.range, List.range.loop]
        · exact ih _ r hr v hv
    · exact returns_ok (by simp)

theorem steps_groups2467 : ∀ (n : Nat) (ls : List Text),
    Returns (fun vs : List Val => ∀ v ∈ vs, ∃ g, v = .dict g ∧
      Steps g ["entity_type_code", "entity_tag", "entity_node_leaf_id", "entity_component_id"]) (groups2467 n ls) := by
  intro n
  induction n with
  | zero =>
    intro ls
    unfold groups2467
    split
    · exact returns_ok (by simp)
    · exact returns_error
  | succ n ih =>
    intro ls
    unfold groups2467
    split
    · exact returns_ok (by simp)
    · refine returns_bind fun _ _ => returns_bind fun g _ => returns_bind fun _ _ => returns_bind fun vs _ => ?_
      dsimp only
      split
      · exact returns_error
      · refine returns_bind fun r hr => returns_ok fun v hv => ?_
        rcases List.mem_cons.1 hv with rfl | hv
        · refine ⟨_, rfl, steps_group (vs := vs) (s := 4) (by decide) _ (by decide) ?_⟩
          simp [countOf, Dict.get?_set_self, Dict.get?_set_ne, List.range, List.range.loop]
        · exact ih _ r hr v hv

/-! ### Functions -/

theorem countOf_update_other {d e : Dict} {k : String} (h : e.get? (.s k) = none) : countOf (d.update e) k = countOf d k := by
  unfold countOf; rw [update_other h]

theorem bodyArgs_inv {d : Dict} {o s : Int} {m i : F64} (h : bodyArgs d = .ok (o, s, m, i)) :
    d.get? "ord_data_type" = some (.int o) ∧ d.get? "abscissa_spacing" = some (.int s) := by
  unfold bodyArgs at h
  split at h
  · next h1 h2 _ _ =>
    cases h
    have inv : ∀ {k v}, d.get k = .ok v → d.get? k = some v := by
      intro k v h
      unfold Dict.get at h
      split at h
      · next hg => cases h; exact hg
      · cases h
    exact ⟨inv h1, inv h2⟩
  · cases h

theorem assign_paired {d : Dict} {odt sp : Int} {mn inc : F64} (v : List F64) (h1 : d.get? "ord_data_type" = some (.int odt))
    (h2 : d.get? "abscissa_spacing" = some (.int sp)) (hodt : odt = 2 ∨ odt = 4 ∨ odt = 5 ∨ odt = 6) :
    Paired (assign58 d odt sp mn inc v) := by
  have key : ∀ (a b : Val) (n m : Nat), countOf [("x", a)] "x" = some n → countOf [("x", b)] "x" = some m →
      (n = m ∨ ((odt = 5 ∨ odt = 6) ∧ sp ≠ 0 ∧ n = m + 1)) → Paired (d.update [("x", a), ("data", b)]) := by
    intro a b n m ha hb h
    refine ⟨odt, sp, n, m, ?_, ?_, ?_, ?_, h⟩
    · rw [update_other (by rfl)]; exact h1
    · rw [update_other (by rfl)]; exact h2
    · have e : (d.update [("x", a), ("data", b)]).get? (.s "x") = some a :=
        (Dict.get?_set_ne _ _ _ _ (by simp)).trans (Dict.get?_set_self _ _ _)
      rw [← ha]
      unfold countOf
      rw [e]
      rfl
    · have e : (d.update [("x", a), ("data", b)]).get? (.s "data") = some b := Dict.get?_set_self _ _ _
      rw [← hb]
      unfold countOf
      rw [e]
      rfl
  unfold assign58
  dsimp only
  by_cases hr : odt = 2 ∨ odt = 4
  · rw [if_pos hr]
    split
    · refine key _ _ _ _ rfl rfl (.inl ?_)
      rw [everyN_length _ _ (by decide), everyN_length _ _ (by decide), List.length_take]
      omega
    · refine key _ _ _ _ rfl rfl (.inl ?_)
      simp [arange58]
  · rw [if_neg hr, if_pos (by omega)]
    split
    · refine key _ _ _ _ rfl rfl (.inl ?_)
      unfold cplxZip
      rw [List.length_zipWith, everyN_length _ _ (by decide), everyN_length _ _ (by decide), everyN_length _ _ (by decide),
        List.length_take, List.length_take]
      omega
    · next hsp =>
      refine key _ _ _ _ rfl rfl ?_
      unfold cplxZip arange58
      rw [List.length_zipWith, everyN_length _ _ (by decide), everyN_length _ _ (by decide), List.length_take, List.length_map,
        List.length_range]
      by_cases hv : v.length % 2 = 0
      · left; omega
      · exact .inr ⟨by omega, hsp, by omega⟩

theorem paired58 (b : Bytes) : Returns (fun d : Dict => d.get? "x" ≠ none → Paired d) (extract58 b false) := by
  refine returns_guard (returns_bind fun p hp => ?_)
  obtain ⟨bin, d⟩ := p
  obtain ⟨hn, hs⟩ := returns_readHead58 _ _ hp
  dsimp only at hn hs ⊢
  rw [if_neg (by decide)]
  refine returns_bind fun q hq => ?_
  obtain ⟨odt, sp, mn, inc⟩ := q
  obtain ⟨h1, h2⟩ := bodyArgs_inv hq
  have hx : d.get? "x" = none := get?_none_of_names (by rw [hn]; cases bin <;> decide +kernel)
  have key : ∀ v, (assign58 d odt sp mn inc v).get? "x" ≠ none → Paired (assign58 d odt sp mn inc v) := by
    intro v hv
    refine assign_paired v h1 h2 ?_
    by_cases hodt : odt = 2 ∨ odt = 4 ∨ odt = 5 ∨ odt = 6
    · exact hodt
    · unfold assign58 at hv
      dsimp only at hv
      rw [if_neg (by omega), if_neg (by omega)] at hv
      exact absurd hx hv
  split
  · split <;> exact returns_bind fun v _ => returns_ok (key v)
  · exact returns_bind fun v _ => returns_ok (key v)

/-! ### Data at nodes -/

theorem get?_update_self {d e : Dict} {k : Key} {v : Val} (h : e.get? k = some v) (hn : e.names.Nodup) :
    (d.update e).get? k = some v := by
  unfold Dict.update
  induction e generalizing d with
  | nil => cases h
  | cons kv r ih =>
    obtain ⟨k', v'⟩ := kv
    rw [List.foldl_cons]
    have hn' := List.nodup_cons.1 (show (k' :: Dict.names r).Nodup from hn)
    unfold Dict.get? at h
    split at h
    · next hk =>
      subst hk
      cases h
      have := update_other (d := d.set k' v) (get?_none_of_names hn'.1)
      unfold Dict.update at this
      rw [this]
      exact Dict.get?_set_self _ _ _
    · exact ih h hn'.2

theorem countOf_update {d e : Dict} {k : String} {n : Nat} (h : countOf e k = some n) (hn : e.names.Nodup) :
    countOf (d.update e) k = some n := by
  have key : ∃ v, e.get? (.s k) = some v := by
    unfold countOf at h
    cases hg : e.get? (.s k) with
    | none => rw [hg] at h; cases h
    | some v => exact ⟨v, rfl⟩
  obtain ⟨v, hv⟩ := key
  rw [← h]
  unfold countOf
  rw [hv, get?_update_self hv hn]

theorem Steps.update {d e : Dict} {ks : List String} (h : Steps e ks) (hn : e.names.Nodup) : Steps (d.update e) ks := by
  obtain ⟨ns, h1, h2⟩ := h
  refine ⟨ns, ?_, h2⟩
  rw [← h1]
  refine List.map_congr_left fun k hk => ?_
  have : ∃ n, countOf e k = some n := by
    have := List.mem_map_of_mem (f := countOf e) hk
    rw [h1] at this
    obtain ⟨n, _, hn⟩ := List.mem_map.1 this
    exact ⟨n, hn.symm⟩
  obtain ⟨n, hc⟩ := this
  rw [hc, countOf_update hc hn]

theorem Equal.update {d e : Dict} {n : Nat} {ks : List String} (h : Equal e n ks) (hn : e.names.Nodup) : Equal (d.update e) n ks :=
  fun k hk => countOf_update (h k hk) hn

/-- The length of complex numbers made from two columns lies between those of the columns. -/
theorem broadcast_length {a b : List F64} {v : Val} (h : cplxBroadcast a b = .ok v) (h1 : b.length ≤ a.length)
    (h2 : a.length ≤ b.length + 1) : ∃ l, v = .arrC l ∧ b.length ≤ l.length ∧ l.length ≤ a.length := by
  unfold cplxBroadcast at h
  split at h
  · next he =>
    cases h
    refine ⟨_, rfl, ?_⟩
    unfold cplxZip
    rw [List.length_zipWith]
    omega
  · next he =>
    split at h
    · cases h
      exact ⟨_, rfl, by simp, by simpa using h1⟩
    · cases h
      exact ⟨_, rfl, by simpa using h1, by simp⟩
    · cases h

theorem cols_length {v : List F64} {a b : Nat} {w : Val} (h : cplxCols v a b = .ok w) (hab : a ≤ b) (hb : b < 6) :
    ∃ l, w = .arrC l ∧ (everyN b 6 v).length ≤ l.length ∧ l.length ≤ (everyN a 6 v).length := by
  have hc := columns v 6 (by decide) a b hab hb
  unfold cplxCols at h
  dsimp only at h
  revert h hc
  generalize everyN a 6 v = x
  generalize everyN b 6 v = y
  intro h hc
  split at h
  · next he =>
    cases h
    refine ⟨_, rfl, ?_⟩
    rw [List.length_map, List.length_zip]
    omega
  · next he =>
    split at h
    · cases h
      exact ⟨_, rfl, by simp, by simpa using hc.1⟩
    · cases h
      exact ⟨_, rfl, by simpa using hc.1, by simp⟩
    · cases h

theorem steps55 (t : Text) : Returns (fun d : Dict => Steps d ["r1", "r2", "r3"] ∧
    (d.get? "r4" ≠ none → Steps d ["r1", "r2", "r3", "r4", "r5", "r6"])) (extract55 t) := by
  refine returns_guard ?_
  refine returns_bind fun _ _ => returns_head (by decide) fun e2 n2 t2 => returns_bind fun _ _ =>
    returns_head (by decide) fun e3 n3 t3 => returns_bind fun _ _ => returns_head (by decide) fun e4 n4 t4 =>
    returns_bind fun _ _ => returns_head (by decide) fun e5 n5 t5 => returns_bind fun _ _ =>
    returns_head (by decide) fun e6 n6 t6 => returns_bind fun _ _ => returns_head (by decide) fun e7 n7 t7 =>
    returns_bind fun d hd => ?_
  obtain ⟨⟨m, hm, hn⟩, ht⟩ := returns_head55 _ _ (.int 55) (by simp only [names_update, n2, n3, n4, n5, n6, n7]; decide)
    (by simp only [update_other, t2, t3, t4, t5, t6, t7]; rfl) d hd
  have h4 : d.get? "r4" = none := by
    refine get?_none_of_names ?_
    rw [hn]
    exact (by decide : ∀ m ∈ middle55, Key.s "r4" ∉ entries55 ++ m) m hm
  unfold readBody55
  refine returns_bind fun nums _ => returns_bind fun _ _ => returns_bind fun v _ => returns_bind fun _ _ => returns_bind fun _ _ => ?_
  split
  · split
    · refine returns_ok ⟨Steps.update ⟨_, ?_, pairwise_columns v 3 (by decide) 3 (by decide)⟩ (by simp [Dict.names]), fun h => ?_⟩
      · simp [countOf, Dict.get?, List.range, List.range.loop]
      · rw [update_other (by rfl)] at h; exact absurd h4 h
    · refine returns_ok ⟨Steps.update ⟨_, ?_, pairwise_columns v 6 (by decide) 3 (by decide)⟩ (by simp [Dict.names]), fun _ =>
        Steps.update ⟨_, ?_, pairwise_columns v 6 (by decide) 6 (by decide)⟩ (by simp [Dict.names])⟩
      · simp [countOf, Dict.get?, List.range, List.range.loop]
      · simp [countOf, Dict.get?, List.range, List.range.loop]
  · split
    · split
      · refine returns_bind fun a ha => returns_bind fun b hb => returns_bind fun c hc => returns_ok ?_
        obtain ⟨la, rfl, a1, a2⟩ := cols_length ha (by decide) (by decide)
        obtain ⟨lb, rfl, b1, b2⟩ := cols_length hb (by decide) (by decide)
        obtain ⟨lc, rfl, c1, c2⟩ := cols_length hc (by decide) (by decide)
        refine ⟨Steps.update ⟨[la.length, lb.length, lc.length], rfl, ?_⟩ (by simp [Dict.names]), fun h => ?_⟩
        · have k1 := columns v 6 (by decide) 1 2 (by decide) (by decide)
          have k2 := columns v 6 (by decide) 3 4 (by decide) (by decide)
          have k3 := columns v 6 (by decide) 0 5 (by decide) (by decide)
          have k4 := columns v 6 (by decide) 0 3 (by decide) (by decide)
          have k5 := columns v 6 (by decide) 2 5 (by decide) (by decide)
          have k6 := columns v 6 (by decide) 1 4 (by decide) (by decide)
          simp only [List.pairwise_cons, List.mem_cons, List.not_mem_nil, or_false, forall_eq_or_imp, forall_eq, false_imp_iff, implies_true,
            List.Pairwise.nil, and_true]
          omega
        · rw [update_other (by rfl)] at h; exact absurd h4 h
      · exact returns_error
    · exact returns_error

/-! ### Analysis data -/

theorem truncInts_length {l : List F64} {n : List Int} (h : truncInts l = .ok n) : n.length = l.length :=
  ((mapRes_iff _ _ _).1 h).1.symm

theorem intColumn_length {k : Nat} {ls : List Text} {n : List Int} (h : intColumn k ls = .ok n) : n.length = ls.length := by
  unfold intColumn at h
  dsimp only at h
  split at h
  · cases h
  · split at h
    · split at h
      · cases h
      · next l hl =>
        unfold arr64 at h
        split at h
        · cases h
          have := ((mapRes_iff _ _ _).1 hl).1
          rw [← this, List.length_map]
        · cases h
    · cases h

theorem floatLists_length {ls : List Text} {v : List Val} (h : floatLists ls = .ok v) : v.length = ls.length :=
  ((mapRes_iff _ _ _).1 h).1.symm

theorem steps_freq (c : Int) (hc : 1 ≤ c) (ls : List Text) : Returns (fun d => Steps d (freqNames c)) (readFreqData c ls) := by
  unfold readFreqData
  refine returns_bind fun v _ => ?_
  dsimp only
  rw [if_neg (by omega)]
  obtain ⟨m, rfl⟩ : ∃ m : Nat, c = m := ⟨c.toNat, by omega⟩
  rw [show ((m : Int) * 2 + 1).toNat = 2 * m + 1 by omega]
  refine returns_bind fun nodes hn => returns_bind fun x hx => ?_
  have hl := truncInts_length hn
  have C := columns v (2 * m + 1) (by omega)
  have k12 := C 1 2 (by decide) (by omega)
  obtain ⟨lx, rfl, x1, x2⟩ := broadcast_length hx k12.1 k12.2
  have k01 := C 0 1 (by decide) (by omega)
  have k02 := C 0 2 (by decide) (by omega)
  by_cases h2 : (m : Int) ≥ 2
  · rw [if_pos h2]
    have k34 := C 3 4 (by decide) (by omega)
    have k23 := C 2 3 (by decide) (by omega)
    have k04 := C 0 4 (by decide) (by omega)
    have k14 := C 1 4 (by decide) (by omega)
    refine returns_bind fun y hy => ?_
    cases hyy : cplxBroadcast (everyN 3 (2 * m + 1) v) (everyN 4 (2 * m + 1) v) with
    | error e => rw [hyy] at hy; cases hy
    | ok vy =>
      rw [hyy] at hy
      cases hy
      obtain ⟨ly, rfl, y1, y2⟩ := broadcast_length hyy k34.1 k34.2
      by_cases h3 : (m : Int) ≥ 3
      · rw [if_pos h3]
        have k56 := C 5 6 (by decide) (by omega)
        have k45 := C 4 5 (by decide) (by omega)
        have k06 := C 0 6 (by decide) (by omega)
        have k16 := C 1 6 (by decide) (by omega)
        have k36 := C 3 6 (by decide) (by omega)
        have k25 := C 2 5 (by decide) (by omega)
        refine returns_bind fun z hz => ?_
        cases hzz : cplxBroadcast (everyN 5 (2 * m + 1) v) (everyN 6 (2 * m + 1) v) with
        | error e => rw [hzz] at hz; cases hz
        | ok vz =>
          rw [hzz] at hz
          cases hz
          obtain ⟨lz, rfl, z1, z2⟩ := broadcast_length hzz k56.1 k56.2
          refine returns_ok ?_
          unfold freqNames
          rw [if_pos h2, if_pos h3]
          refine ⟨[nodes.length, lx.length, ly.length, lz.length], rfl, ?_⟩
          simp only [List.pairwise_cons, List.mem_cons, List.not_mem_nil, or_false, forall_eq_or_imp, forall_eq, false_imp_iff,
            implies_true, List.Pairwise.nil, and_true]
          omega
      · rw [if_neg h3]
        refine returns_bind fun z hz => ?_
        cases hz
        refine returns_ok ?_
        unfold freqNames
        rw [if_pos h2, if_neg h3]
        refine ⟨[nodes.length, lx.length, ly.length], rfl, ?_⟩
        simp only [List.pairwise_cons, List.mem_cons, List.not_mem_nil, or_false, forall_eq_or_imp, forall_eq, false_imp_iff,
          implies_true, List.Pairwise.nil, and_true]
        omega
  · have h3 : ¬ (m : Int) ≥ 3 := by omega
    rw [if_neg h2, if_neg h3]
    refine returns_bind fun y hy => returns_bind fun z hz => ?_
    cases hy; cases hz
    refine returns_ok ?_
    unfold freqNames
    rw [if_neg h2, if_neg h3]
    refine ⟨[nodes.length, lx.length], rfl, ?_⟩
    simp only [List.pairwise_cons, List.mem_cons, List.not_mem_nil, or_false, forall_eq, false_imp_iff,
      implies_true, List.Pairwise.nil, and_true]
    omega

theorem arr64_eq {l r : List Int} (h : arr64 l = .ok r) : r = l := by
  unfold arr64 at h
  split at h
  · cases h; rfl
  · cases h

theorem steps_plain (loc : Int) (ls : List Text) : Returns (fun e : Dict => PlainSteps loc e ∧ e.names.Nodup) (readPlainData loc ls) := by
  have C := columns ls 2 (by decide) 0 1 (by decide) (by decide)
  unfold readPlainData
  split
  · next h1 =>
    refine returns_bind fun v hv => returns_bind fun n hn => returns_ok ⟨⟨fun _ => ⟨[n.length, v.length], rfl, ?_⟩, by omega, by omega⟩, by simp [Dict.names]⟩
    rw [floatLists_length hv, intColumn_length hn]
    simpa using C
  · split
    · next h2 =>
      refine returns_bind fun v hv => returns_bind fun n hn => returns_bind fun m hm =>
        returns_ok ⟨⟨by omega, fun _ => ⟨[n.length, m.length, v.length], rfl, ?_⟩, by omega⟩, by simp [Dict.names]⟩
      rw [floatLists_length hv, intColumn_length hn, intColumn_length hm]
      simp only [List.pairwise_cons, List.mem_cons, List.not_mem_nil, or_false, forall_eq_or_imp, forall_eq, false_imp_iff,
        implies_true, List.Pairwise.nil, and_true]
      omega
    · split
      · next h3 =>
        unfold readElemNodes
        refine returns_bind fun es _ => returns_bind fun a ha => returns_bind fun b hb => returns_bind fun c hc =>
          returns_bind fun d hd => returns_ok ⟨⟨by omega, by omega, fun _ => ⟨es.length, ?_⟩⟩, by simp [Dict.names]⟩
        rw [arr64_eq ha, arr64_eq hb, arr64_eq hc, arr64_eq hd]
        intro k hk
        simp only [List.mem_cons, List.not_mem_nil, or_false] at hk
        rcases hk with rfl | rfl | rfl | rfl | rfl <;> simp [countOf, Dict.get?]
      · exact returns_ok ⟨⟨by omega, by omega, by omega⟩, by simp [Dict.names]⟩

theorem args2414_inv {d : Dict} {l a t c : Int} (h : args2414 d = .ok (l, a, t, c)) :
    d.get? "dataset_location" = some (.int l) ∧ d.get? "analysis_type" = some (.int a) ∧ d.get? "data_type" = some (.int t) ∧
      d.get? "number_of_data_values_for_the_data_component" = some (.int c) := by
  have inv : ∀ {k v}, d.get k = .ok v → d.get? k = some v := by
    intro k v h
    unfold Dict.get at h
    split at h
    · next hg => cases h; exact hg
    · cases h
  unfold args2414 at h
  split at h
  · next h1 h2 h3 h4 => cases h; exact ⟨inv h1, inv h2, inv h3, inv h4⟩
  · cases h

theorem steps2414 (t : Text) : Returns Steps2414 (extract2414 t) := by
  refine returns_guard (returns_bind fun d hd => ?_)
  refine returns_bind fun q hq => ?_
  obtain ⟨loc, a, dt, c⟩ := q
  obtain ⟨g1, g2, g3, g4⟩ := args2414_inv hq
  have keep : ∀ h e : Dict, (∀ k ∈ (["dataset_location", "analysis_type", "data_type",
      "number_of_data_values_for_the_data_component"] : List Key), k ∉ h.names ∧ k ∉ e.names) →
      (((d.update h).update e).get? "dataset_location" = some (.int loc) ∧ ((d.update h).update e).get? "analysis_type" = some (.int a) ∧
      ((d.update h).update e).get? "data_type" = some (.int dt) ∧
      ((d.update h).update e).get? "number_of_data_values_for_the_data_component" = some (.int c)) := by
    intro h e hk
    have k : ∀ k ∈ (["dataset_location", "analysis_type", "data_type",
      "number_of_data_values_for_the_data_component"] : List Key), ((d.update h).update e).get? k = d.get? k := by
      intro k hm
      rw [update_other (get?_none_of_names (hk k hm).2), update_other (get?_none_of_names (hk k hm).1)]
    refine ⟨?_, ?_, ?_, ?_⟩
    · rw [k _ (by decide)]; exact g1
    · rw [k _ (by decide)]; exact g2
    · rw [k _ (by decide)]; exact g3
    · rw [k _ (by decide)]; exact g4
  dsimp only
  split
  · next ha =>
    refine returns_bind fun h hh => returns_bind fun e he => returns_ok ?_
    have h1 := returns_freqHead _ h hh
    have h2 : e.names ∈ freqData2414 := by
      split at he
      · exact returns_freqData _ _ e he
      · cases he; exact List.mem_cons_self ..
    obtain ⟨k1, k2, k3, k4⟩ := keep h e (by
      rw [h1]
      generalize e.names = n at h2
      revert h2; revert n
      decide +kernel)
    refine ⟨loc, a, dt, c, k1, k2, k3, k4, fun _ h5 hc => ?_, fun h => absurd ha h⟩
    rw [if_pos h5] at he
    refine Steps.update (steps_freq c hc _ e he) ?_
    generalize e.names = n at h2
    revert h2; revert n
    decide +kernel
  · next ha =>
    refine returns_bind fun h hh => returns_bind fun e he => returns_ok ?_
    have h1 := returns_plainHead _ h hh
    have h2 : e.names ∈ plainData2414 := returns_plainData _ _ e he
    obtain ⟨k1, k2, k3, k4⟩ := keep h e (by
      rw [h1]
      generalize e.names = n at h2
      revert h2; revert n
      decide +kernel)
    refine ⟨loc, a, dt, c, k1, k2, k3, k4, fun h => absurd h ha, fun _ => ?_⟩
    obtain ⟨⟨p1, p2, p3⟩, hnd⟩ := steps_plain _ _ e he
    exact ⟨fun hl => (p1 hl).update hnd, fun hl => (p2 hl).update hnd, fun hl => let ⟨n, h⟩ := p3 hl; ⟨n, h.update hnd⟩⟩

end Verif
