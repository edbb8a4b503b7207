import Verif.Lemmas.Again
/-
What was read can be saved again: the simple types.
-/
namespace Verif
open F64

theorem narrow_again {x : F64} (h : Narrow x) : Narrow (x.quant 5) :=
  ⟨quant_finite_5 x h.finite, by rw [fmtE_length_quant x h.finite (quant_finite_5 x h.finite)]; exact h.narrow⟩

theorem DS15.resave (e : Env) (fd : Bool) (r : DS15) (ok : r.Ok) :
    Given e fd r.readBack (.s15 r.again) ∧ r.again.readBack = r.readBack := by
  have k : ∀ f : Node → F64, IsSeq IsFloat (floats (r.nodes.map f)) (r.nodes.map f) := fun f => isSeq_floats _
  refine ⟨⟨_, cleanD_none rfl, ⟨rfl, ⟨_, rfl, ?_⟩, ?_, ?_, ?_, ⟨_, rfl, ?_⟩, ⟨_, rfl, ?_⟩, ⟨_, rfl, ?_⟩⟩, ?_⟩, ?_⟩
  · exact isSeq_of_eq (k fun n => F64.ofInt n.num) (by simp [again, Function.comp_def])
  · exact isSeq_of_eq (k fun n => F64.ofInt n.defCs) (by simp [again, Function.comp_def])
  · exact isSeq_of_eq (k fun n => F64.ofInt n.dispCs) (by simp [again, Function.comp_def])
  · exact isSeq_of_eq (k fun n => F64.ofInt n.color) (by simp [again, Function.comp_def])
  · exact isSeq_of_eq (k fun n => n.x.quant 5) (by simp [again, Function.comp_def])
  · exact isSeq_of_eq (k fun n => n.y.quant 5) (by simp [again, Function.comp_def])
  · exact isSeq_of_eq (k fun n => n.z.quant 5) (by simp [again, Function.comp_def])
  · intro n hn
    obtain ⟨m, hm, rfl⟩ := List.mem_map.1 hn
    have o := ok m hm
    exact ⟨o.num, o.defCs, o.dispCs, o.color, narrow_again o.x, narrow_again o.y, narrow_again o.z⟩
  · have h1 : ∀ n ∈ r.nodes, (n.x.quant 5).quant 5 = n.x.quant 5 := fun n hn => quant5 (ok n hn).x.finite
    have h2 : ∀ n ∈ r.nodes, (n.y.quant 5).quant 5 = n.y.quant 5 := fun n hn => quant5 (ok n hn).y.finite
    have h3 : ∀ n ∈ r.nodes, (n.z.quant 5).quant 5 = n.z.quant 5 := fun n hn => quant5 (ok n hn).z.finite
    simp only [readBack, again, List.map_map, Function.comp_def]
    rw [List.map_congr_left h1, List.map_congr_left h2, List.map_congr_left h3]

theorem Pt.again {p : Pt} (h : p.Finite) : (p.quant 5).Finite ∧ (p.quant 5).quant 5 = p.quant 5 := by
  refine ⟨⟨quant_finite_5 _ h.x, quant_finite_5 _ h.y, quant_finite_5 _ h.z⟩, ?_⟩
  simp only [Pt.quant, quant5 h.x, quant5 h.y, quant5 h.z]

theorem DS18.resave (e : Env) (fd : Bool) (r : DS18) (ok : r.Ok) (l : r.Lasting) :
    Given e fd r.readBack (.s18 r.again) ∧ r.again.readBack = r.readBack := by
  have k : ∀ f : CSys → Int, (∀ c ∈ r.systems, Fits 9 (f c)) →
      IsSeq IsInt (.arrF (r.systems.map fun c => F64.ofInt (f c))) (r.systems.map f) :=
    fun f h => isSeq_arrInts 9 (by decide) _ f h
  have kp : ∀ f : CSys → Pt, IsSeq (IsSeq IsFloat) (.mat (r.systems.map fun c => (f c).row)) (r.systems.map fun c => (f c).row) :=
    fun f => isSeq_rows _
  refine ⟨⟨_, cleanD_none rfl, ⟨rfl, ⟨_, rfl, ?_⟩, ?_, ⟨_, rfl, ?_⟩, ?_, ?_, ?_, ⟨_, rfl, ?_⟩, ⟨_, rfl, ?_⟩, ⟨_, rfl, ?_⟩⟩, ?_⟩, ?_⟩
  · exact isSeq_of_eq (k (·.num) fun c hc => (ok c hc).num) (by simp [again, Function.comp_def])
  · exact isSeq_of_eq (k (·.type) fun c hc => (ok c hc).type) (by simp [again, Function.comp_def])
  · exact isSeq_of_eq (k (·.ref) fun c hc => (ok c hc).ref) (by simp [again, Function.comp_def])
  · exact isSeq_of_eq (k (·.color) fun c hc => (ok c hc).color) (by simp [again, Function.comp_def])
  · exact isSeq_of_eq (k (·.method) fun c hc => (ok c hc).method) (by simp [again, Function.comp_def])
  · have := isSeq_map (P := IsStr) r.systems (fun c => .str (strip c.name)) (fun c => strip c.name)
      (.list (r.systems.map fun c => .str (strip c.name))) rfl (fun _ _ => rfl)
    exact isSeq_of_eq this (by simp [again, Function.comp_def])
  · exact isSeq_of_eq (kp fun c => c.o.quant 5) (by simp [again, Function.comp_def])
  · exact isSeq_of_eq (kp fun c => c.x.quant 5) (by simp [again, Function.comp_def])
  · exact isSeq_of_eq (kp fun c => c.xz.quant 5) (by simp [again, Function.comp_def])
  · intro n hn
    obtain ⟨m, hm, rfl⟩ := List.mem_map.1 hn
    have o := ok m hm
    have l0 := l m hm
    have lt := LineText.strip (w := 40) ⟨o.name, l0, o.nameD⟩ (by decide)
    exact ⟨o.num, o.type, o.ref, o.color, o.method, o.method1, lt.oneLine, lt.noDelim, (Pt.again o.o).1, (Pt.again o.x).1,
      (Pt.again o.xz).1⟩
  · have h1 : ∀ c ∈ r.systems, ((c.o.quant 5).quant 5).row = (c.o.quant 5).row :=
      fun c hc => by rw [(Pt.again (ok c hc).o).2]
    have h2 : ∀ c ∈ r.systems, ((c.x.quant 5).quant 5).row = (c.x.quant 5).row :=
      fun c hc => by rw [(Pt.again (ok c hc).x).2]
    have h3 : ∀ c ∈ r.systems, ((c.xz.quant 5).quant 5).row = (c.xz.quant 5).row :=
      fun c hc => by rw [(Pt.again (ok c hc).xz).2]
    simp only [readBack, again, List.map_map, Function.comp_def, strip_strip]
    rw [List.map_congr_left h1, List.map_congr_left h2, List.map_congr_left h3]

theorem DS82.stored_again (r : DS82) (l : r.Lasting) : r.stored = r.nodes := by
  unfold stored
  split
  next h => rw [l h, List.take_length]
  next => rfl

theorem DS82.resave (e : Env) (fd : Bool) (r : DS82) (ok : r.Ok) (l : r.Lasting) :
    Given e fd r.readBack (.s82 r.again) ∧ r.again.readBack = r.readBack := by
  have hs := r.stored_again l
  have ha : r.again.nodes = r.nodes := hs
  refine ⟨⟨_, cleanD_none rfl, ⟨rfl, ⟨_, rfl, rfl⟩, rfl, rfl, .inr rfl⟩, ?_⟩, ?_⟩
  · refine ⟨ok.trace, ok.color, ok.color1, ?_, ok.id.strip (by decide), ?_⟩
    · rw [ha]; exact ok.runs
    · rw [ha]; exact ok.nodes
  · have hs' : r.again.stored = r.nodes := by
      unfold stored
      rw [ha]
      have := hs
      unfold stored at this
      exact this
    unfold readBack
    rw [hs', hs, ha]
    simp only [again, strip_strip]

theorem parseNatAux_lt (t : Text) (acc n : Nat) (h : parseNatAux acc t = some n) : n < (acc + 1) * 10 ^ t.length := by
  induction t generalizing acc with
  | nil => simp only [parseNatAux, Option.some.injEq] at h; subst h; simp
  | cons c t ih =>
    unfold parseNatAux at h
    cases hd : digitVal c with
    | none => rw [hd] at h; cases h
    | some d =>
      rw [hd] at h
      have h1 := ih _ h
      have h2 : d < 10 := by
        exact digitVal_lt hd
      calc n < (acc * 10 + d + 1) * 10 ^ t.length := h1
        _ ≤ ((acc + 1) * 10) * 10 ^ t.length := Nat.mul_le_mul_right _ (by omega)
        _ = (acc + 1) * 10 ^ (t.length + 1) := by rw [Nat.pow_succ]; ring

theorem parseNat_length (t : Text) (n : Nat) (h : parseNat t = some n) : (natRepr n).length ≤ t.length ∧ t ≠ [] := by
  unfold parseNat at h
  cases t with
  | nil => cases h
  | cons c t =>
    refine ⟨natRepr_length n _ (by simp) ?_, by simp⟩
    have := parseNatAux_lt _ _ _ h
    simpa using this

theorem parseSigned_length (t : Text) (n : Int) (h : parseSigned t = some n) : (intRepr n).length ≤ t.length := by
  cases t with
  | nil => cases h
  | cons c t =>
    simp only [parseSigned] at h
    split at h
    · cases hp : parseNat t with
      | none => rw [hp] at h; cases h
      | some k =>
        rw [hp] at h
        cases h
        have := (parseNat_length t k hp).1
        unfold intRepr
        split
        · simp only [List.length_cons, Int.natAbs_neg, Int.natAbs_natCast]; omega
        · simp only [List.length_cons, Int.natAbs_neg, Int.natAbs_natCast]; omega
    · split at h
      · cases hp : parseNat t with
        | none => rw [hp] at h; cases h
        | some k =>
          rw [hp] at h
          cases h
          have := (parseNat_length t k hp).1
          unfold intRepr
          rw [if_neg (show ¬ (k : Int) < 0 by omega)]
          simp only [List.length_cons, Int.natAbs_natCast]; omega
      · cases hp : parseNat (c :: t) with
        | none => rw [hp] at h; cases h
        | some k =>
          rw [hp] at h
          cases h
          have := (parseNat_length _ k hp).1
          unfold intRepr
          rw [if_neg (show ¬ (k : Int) < 0 by omega)]
          simpa using this

theorem dropUnders_length (t s : Text) (p : Bool) (h : dropUnders p t = some s) : s.length ≤ t.length := by
  induction t generalizing p s with
  | nil => unfold dropUnders at h; cases h; simp
  | cons c t ih =>
    unfold dropUnders at h
    split at h
    · split at h
      · split at h
        · have := ih _ _ h; simp only [List.length_cons] at this ⊢; omega
        · cases h
      · cases h
    · cases hq : dropUnders (digitVal c).isSome t with
      | none => rw [hq] at h; cases h
      | some q =>
        rw [hq] at h; cases h
        have := ih _ _ hq
        simp only [List.length_cons]; omega

theorem number_length (t : Text) (w : Nat) (hw : 0 < w) (ht : t.length ≤ w) : (intRepr (DS151.number t)).length ≤ w := by
  unfold DS151.number
  cases hp : parseInt (strip t) with
  | none => exact (show (intRepr 0).length ≤ 1 by decide).trans hw
  | some n =>
    unfold parseInt at hp
    cases hd : dropUnders false (numStrip (strip t)) with
    | none => rw [hd] at hp; cases hp
    | some s =>
      rw [hd] at hp
      have h1 := parseSigned_length s n hp
      have h2 := dropUnders_length _ _ _ hd
      have h3 := ((numStrip_sublist (strip t)).trans (strip_sublist t)).length_le
      exact (h1.trans (h2.trans h3)).trans ht

theorem intRepr_oneLine (n : Int) : OneLine (intRepr n) := (oneLine_iff _).2 <| by
  intro c hc
  rcases intRepr_chars n c hc with h | h
  · obtain ⟨h1, h2⟩ := h
    unfold isBreak
    simp
    omega
  · rw [h]; decide

theorem number_intRepr (n : Int) : DS151.number (intRepr n) = n := by
  unfold DS151.number; rw [strip_intRepr, parseInt_intRepr]; rfl

theorem intRepr_end (n : Int) (h : n ≠ -1) : ¬ delim <:+ padLeft 10 (intRepr n) := not_tag_int [] 10 n h (by decide)

theorem DS151.resave (e : Env) (fd : Bool) (r : DS151) (ok : r.Ok) (l : r.Lasting) :
    Given e fd r.readBack (.s151 r.again) ∧ r.again.readBack = r.readBack := by
  have num : ∀ {t}, FieldText 10 t → FieldText 10 (intRepr (number t)) :=
    fun h => ⟨intRepr_oneLine _, number_length _ 10 (by decide) h.fits⟩
  refine ⟨⟨_, cleanD_none rfl, ⟨rfl, ⟨_, rfl, rfl⟩, ⟨_, rfl, rfl⟩, ⟨_, rfl, rfl⟩, rfl, rfl, rfl, rfl, rfl, rfl, rfl, ⟨_, rfl, rfl⟩,
    rfl, rfl⟩, ?_⟩, ?_⟩
  · exact ⟨ok.model.strip (by decide), ok.descr.strip (by decide), ok.dbApp.strip (by decide), ok.dateCreated.strip,
      ok.timeCreated.strip, num ok.version1, num ok.version2, num ok.fileType, intRepr_end _ l, ok.dateSaved.strip,
      ok.timeSaved.strip, noEnd_strip 10 _ ok.timeSaved.fits ok.timeSavedEnd, ok.program.strip (by decide),
      ok.dateWritten.strip, ok.timeWritten.strip, noEnd_strip 10 _ ok.timeWritten.fits ok.timeWrittenEnd⟩
  · simp only [readBack, again, strip_strip, number_intRepr]

theorem DS164.resave (e : Env) (fd : Bool) (r : DS164) (ok : r.Ok) :
    Given e fd r.readBack (.s164 r.again) ∧ r.again.readBack = r.readBack := by
  refine ⟨⟨_, cleanD_none rfl, ⟨rfl, ⟨_, rfl, rfl⟩, rfl, rfl, ⟨_, rfl, rfl⟩, ⟨_, rfl, rfl⟩, ⟨_, rfl, rfl⟩, ⟨_, rfl, rfl⟩⟩, ?_⟩, ?_⟩
  · exact ⟨ok.code, ok.descr.strip, ok.tempMode, ok.noDelim, ok.length, ok.force, ok.temp, ok.offset⟩
  · simp only [readBack, again, strip_strip]

theorem DS1858.resave (e : Env) (fd : Bool) (r : DS1858) (ok : r.Ok) :
    Given e fd r.readBack (.s1858 r.again) ∧ r.again.readBack = r.readBack := by
  refine ⟨⟨_, cleanD_none rfl, ?_, ?_⟩, ?_⟩
  · constructor <;> first | exact rfl | exact ⟨_, rfl, rfl⟩
  · refine { ok with rpm := quant_finite_7 _ ok.rpm, ztime := quant_finite_7 _ ok.ztime, order := quant_finite_7 _ ok.order, samples := quant_finite_7 _ ok.samples, user1 := quant_finite_7 _ ok.user1, user2 := quant_finite_7 _ ok.user2, user3 := quant_finite_7 _ ok.user3, user4 := quant_finite_7 _ ok.user4, damping := quant_finite_7 _ ok.damping, response := ok.response.strip, reference := ok.reference.strip, noDelim := ?_ }
    intro h
    have h1 : strip r.reference = [' ', ' ', '-', '1'] := h
    have h2 := congrArg strip h1
    rw [strip_strip, h1] at h2
    exact absurd h2 (by decide)
  · simp only [readBack, again, strip_strip, quant7 ok.rpm, quant7 ok.ztime, quant7 ok.order,
      quant7 ok.samples, quant7 ok.user1, quant7 ok.user2, quant7 ok.user3,
      quant7 ok.user4, quant7 ok.damping]

theorem DS2400.resave (e : Env) (fd : Bool) (r : DS2400) (ok : r.Ok) :
    Given e fd r.readBack (.s2400 r.again) ∧ r.again.readBack = r.readBack := by
  refine ⟨⟨_, cleanD_none rfl, ⟨rfl, rfl, rfl, rfl, rfl, rfl, rfl, isSeq_ints _, rfl, rfl, rfl, rfl, rfl, rfl⟩, ?_⟩, ?_⟩
  · exact { ok with name := ok.name.strip (by decide), part := ok.part.strip (by decide), date := ok.date.strip,
                    time := ok.time.strip }
  · simp only [readBack, again, strip_strip]

theorem DS2411.resave (e : Env) (fd : Bool) (r : DS2411) (ok : r.Ok) : Given e fd r.readBack (.s2411 r) := by
  have k : ∀ f : Node → Int, (∀ c ∈ r.nodes, Fits 9 (f c)) →
      IsSeq IsInt (.arrF (r.nodes.map fun c => F64.ofInt (f c))) (r.nodes.map f) :=
    fun f h => isSeq_arrInts 9 (by decide) _ f h
  exact ⟨_, cleanD_none rfl, ⟨rfl, ⟨_, rfl, k _ fun n hn => (ok n hn).num⟩, ⟨_, rfl, k _ fun n hn => (ok n hn).defCs⟩,
    ⟨_, rfl, k _ fun n hn => (ok n hn).dispCs⟩, ⟨_, rfl, k _ fun n hn => (ok n hn).color⟩, ⟨_, rfl, isSeq_arrF _⟩,
    ⟨_, rfl, isSeq_arrF _⟩, ⟨_, rfl, isSeq_arrF _⟩⟩, ok⟩

theorem DS2420.resave (e : Env) (fd : Bool) (r : DS2420) (ok : r.Ok) (l : r.Lasting) :
    Given e fd r.readBack (.s2420 r.again) ∧ r.again.readBack = r.readBack := by
  have k : ∀ f : CMat → Int, IsSeq IsInt (.list (r.systems.map fun m => .int (f m))) (r.systems.map f) :=
    fun f => isSeq_map r.systems _ f _ rfl fun _ _ => rfl
  have ks : IsSeq IsStr (.list (r.systems.map fun m => .str (rstrip m.name))) (r.systems.map fun m => rstrip m.name) :=
    isSeq_map r.systems _ _ _ rfl fun _ _ => rfl
  refine ⟨⟨_, cleanD_none rfl, ⟨rfl, rfl, rfl, ⟨_, rfl, ?_⟩, ?_, ?_, ⟨_, rfl, ?_⟩, ?_⟩, ?_⟩, ?_⟩
  · exact isSeq_of_eq (k (·.label)) (by simp [again, Function.comp_def])
  · exact isSeq_of_eq (k (·.type)) (by simp [again, Function.comp_def])
  · exact isSeq_of_eq (k (·.color)) (by simp [again, Function.comp_def])
  · exact isSeq_of_eq (ks) (by simp [again, Function.comp_def])
  · simp only [again, List.map_map, Function.comp_def]; rfl
  · refine ⟨ok.uid, ok.uid1, ok.name.sub (rstrip_sublist _), l.1, fun m hm => ?_⟩
    obtain ⟨n, hn, rfl⟩ := List.mem_map.1 hm
    have o := ok.systems n hn
    exact ⟨o.label, o.type, o.color, o.color1, o.name.sub (rstrip_sublist _), l.2 n hn, o.a, o.b, o.c, o.o⟩
  · simp only [readBack, again, List.map_map, Function.comp_def, rstrip_rstrip]; rfl

theorem DS2467.resave (e : Env) (fd : Bool) (r : DS2467) (ok : r.Ok) :
    Given e fd r.readBack (.s2467 r.again) ∧ r.again.readBack = r.readBack := by
  refine ⟨⟨_, cleanD_none rfl, ⟨rfl, ⟨_, rfl, ?_⟩⟩, ?_⟩, ?_⟩
  · refine isSeq_map r.groups (fun g => .dict g.dict) _ _ rfl fun g _ => ?_
    exact ⟨_, rfl, ⟨_, rfl, rfl⟩, ⟨_, rfl, rfl⟩, ⟨_, rfl, rfl⟩, ⟨_, rfl, rfl⟩, ⟨_, rfl, rfl⟩, ⟨_, rfl, rfl⟩, ⟨_, rfl, rfl⟩,
      ⟨_, rfl, rfl⟩, ⟨_, rfl, isSeq_arrI _⟩, ⟨_, rfl, isSeq_arrI _⟩, ⟨_, rfl, isSeq_arrI _⟩, ⟨_, rfl, isSeq_arrI _⟩⟩
  · intro g hg
    obtain ⟨m, hm, rfl⟩ := List.mem_map.1 hg
    have o := ok m hm
    exact { o with grp := { o.grp with name := o.grp.name.strip (by decide) } }
  · simp only [readBack, again, List.map_map, Function.comp_def, Group4.dict, Grp.dict, strip_strip]

end Verif
