import Mathlib.Data.List.Forall2
import Verif.Lemmas.Framing2
import Verif.Py.Lit
import Verif.Props.Foreign
/-
C58 (writing): what any dictionary of a supported type leaves in the file.
-/
namespace Verif

/-- A dictionary of the supported type `t` whose writer always closes its data-set. -/
def Writable (d : Dict) (t : Int) : Prop := d.get? "type" = some (.int t) ∧ t ∈ supported ∧ ¬ NeverClosed d

theorem not_some {m : W Unit} {d : Dict} {p : Bytes} (h : (W.none m d).res = .ok (some p)) : False := by
  unfold W.none at h
  cases hr : (m d).res with
  | ok a => rw [hr] at h; simp [Except.map] at h
  | error x => rw [hr] at h; simp [Except.map] at h

theorem addAll_framed (fd : Bool) (ds : List Dict) (ts : List Int) (h : List.Forall₂ Writable ds ts) :
    ∀ (w : World) (e : Env), (w.addAll e fd ds).2.2 = .ok () → ∃ bs, List.Forall₂ FramedAs ts bs ∧
      (w.addAll e fd ds).1.file.getD [] = w.file.getD [] ++ bs.flatten := by
  induction h with
  | nil => intro w e _; exact ⟨[], .nil, by simp [World.addAll]⟩
  | @cons d t ds ts hd _ ih =>
    intro w e hok
    cases hr : (writeBody e fd d).res with
    | error x =>
      have h2 := (writeSet_file w e fd false d).2
      rw [hr] at h2
      unfold World.addAll at hok
      rcases hw : w.writeSet e fd false d with ⟨w', d', r⟩
      rw [hw] at h2 hok
      obtain ⟨-, h3⟩ := h2
      simp only [Except.map] at h3
      subst h3
      cases hok
    | ok a =>
      rw [addAll_cons_ok hr] at hok ⊢
      obtain ⟨bs, hb, he⟩ := ih _ _ hok
      refine ⟨added (writeBody e fd d) :: bs, .cons ((added_framed e fd d t hd.1 hd.2.1).1 a hr hd.2.2) hb, ?_⟩
      simp only at he ⊢
      rw [he, (writeSet_file w e fd false d).1, fileAfter_add]
      simp

/-- C58, writing.  Whatever the dictionaries hold, when `write_sets` returns, the file has grown by one stretch of bytes per
dictionary, in order, each beginning with the delimiter line and the type of its dictionary and ending with the closing
delimiter line. -/
theorem C58_written (w : World) (e : Env) (mode : Text) (hm : lower mode = "add".toList) (fd : Bool) (ds : List Dict)
    (ts : List Int) (h : List.Forall₂ Writable ds ts) (hok : (w.writeSets e mode fd ds).2.2 = .ok ()) :
    ∃ bs, List.Forall₂ FramedAs ts bs ∧
      (w.writeSets e mode fd ds).1.file.getD [] = w.file.getD [] ++ bs.flatten := by
  have hne : ds ≠ [] := by rintro rfl; cases hok
  rw [writeSets_add' w e mode hm fd ds hne] at hok ⊢
  exact addAll_framed fd ds ts h w e hok

/-- C58, failure.  When writing a dictionary of a supported type fails, the file has grown by nothing at all or by bytes that
begin with the delimiter line and the type. -/
theorem C58_failed (w : World) (e : Env) (mode : Text) (hm : lower mode = "add".toList) (fd : Bool) (d : Dict) (t : Int)
    (ht : d.get? "type" = some (.int t)) (hs : t ∈ supported) (x : Err)
    (hx : (w.writeSets e mode fd [d]).2.2 = .error x) :
    ∃ b, StartedAs t b ∧ (w.writeSets e mode fd [d]).1.file.getD [] = w.file.getD [] ++ b := by
  rw [writeSets_add w e mode hm fd d []] at hx ⊢
  cases hr : (writeBody e fd d).res with
  | ok a => rw [addAll_cons_ok hr] at hx; cases hx
  | error y =>
    refine ⟨_, (added_framed e fd d t ht hs).2 y hr, ?_⟩
    have h2 := writeSet_file w e fd false d
    rw [hr, fileAfter_add] at h2
    unfold World.addAll
    rcases hw : w.writeSet e fd false d with ⟨w', d', r⟩
    rw [hw] at h2
    obtain ⟨h1, -, h3⟩ := h2
    simp only [Except.map] at h1 h3
    subst h3
    simp only
    rw [h1]; rfl

/-- C58, overwriting.  The file then holds exactly one such stretch, or, after a binary data-set 58, nothing but the closing
delimiter line (C04_binary). -/
theorem C58_overwritten (w : World) (e : Env) (mode : Text) (hm : lower mode = "overwrite".toList) (fd : Bool) (d : Dict)
    (t : Int) (h : Writable d t) (hok : (w.writeSets e mode fd [d]).2.2 = .ok ()) :
    FramedAs t ((w.writeSets e mode fd [d]).1.file.getD []) ∨
    ((w.writeSets e mode fd [d]).1.file.getD [] = [32, 32, 32, 32, 45, 49, 10] ∧ t = 58) := by
  have h2 := writeSet_file w e fd true d
  unfold World.writeSets at hok ⊢
  simp only [hm, if_true] at hok ⊢
  rcases hw : w.writeSet e fd true d with ⟨w', d', r⟩
  rw [hw] at h2 hok
  simp only at h2
  cases r with
  | error x => cases hok
  | ok u =>
    simp only [World.addAll]
    rw [h2.1]
    cases hr : (writeBody e fd d).res with
    | error x => rw [hr] at h2; cases h2.2.2
    | ok a =>
      have hfr := (added_framed e fd d t h.1 h.2.1).1 a hr h.2.2
      unfold added at hfr
      unfold fileAfter
      rw [hr] at hfr ⊢
      cases a with
      | none => left; simpa using hfr
      | some p =>
        right
        refine ⟨by simp [tail_bytes], ?_⟩
        by_contra h58
        unfold writeBody at hr
        rw [h.1] at hr
        simp only at hr
        split at hr
        · cases hr
        · have hs := h.2.1
          simp only [supported, List.mem_cons, List.not_mem_nil, or_false] at hs
          rcases hs with rfl | rfl | rfl | rfl | rfl | rfl | rfl | rfl | rfl | rfl | rfl | rfl | rfl | rfl | rfl <;>
            first
            | exact h58 rfl
            | (exact not_some hr)

theorem count_flatten {ts : List Int} {bs : List Bytes} (hs : ∀ t ∈ ts, t ∈ supported) (h : List.Forall₂ FramedAs ts bs) :
    ∀ f : Bytes, Terminated f → setCount f + bs.length ≤ setCount (f ++ bs.flatten) ∧ Terminated (f ++ bs.flatten) := by
  induction h with
  | nil => intro f hf; simp [hf]
  | @cons t b ts bs hb _ ih =>
    intro f hf
    have hts := hs t (by simp)
    obtain ⟨p, l, e, -, -⟩ := delims_framed hts hb
    have hT : Terminated (f ++ b) := by
      obtain ⟨mid, rfl⟩ := hb
      right; simp
    have hc : setCount f + 1 ≤ setCount (f ++ b) := by
      unfold setCount
      rw [delims_append f b hf, e]
      simp only [List.map_cons, List.length_append, List.length_cons]
      omega
    obtain ⟨h1, h2⟩ := ih (fun t ht => hs t (by simp [ht])) (f ++ b) hT
    rw [List.flatten_cons, ← List.append_assoc]
    refine ⟨?_, h2⟩
    simp only [List.length_cons]
    omega

/-- C58, counting.  Whatever the dictionaries hold, a file that ends with a line feed has at least one more data-set for each
of them afterwards, and ends with a line feed again. -/
theorem C58_counted (w : World) (e : Env) (mode : Text) (hm : lower mode = "add".toList) (fd : Bool) (ds : List Dict)
    (ts : List Int) (h : List.Forall₂ Writable ds ts) (hf : Terminated (w.file.getD []))
    (hok : (w.writeSets e mode fd ds).2.2 = .ok ()) :
    setCount (w.file.getD []) + ds.length ≤ setCount ((w.writeSets e mode fd ds).1.file.getD []) ∧
    Terminated ((w.writeSets e mode fd ds).1.file.getD []) := by
  obtain ⟨bs, hb, he⟩ := C58_written w e mode hm fd ds ts h hok
  have hs : ∀ t ∈ ts, t ∈ supported := by
    clear hok hb he
    induction h with
    | nil => simp
    | cons hd _ ih => intro t ht; rcases List.mem_cons.1 ht with rfl | ht; exacts [hd.2.1, ih t ht]
  rw [he, h.length_eq, hb.length_eq]
  exact count_flatten hs hb _ hf

/-- C58, type.  Whatever the dictionary holds, the first new data-set of a well-formed file is of the type of the dictionary. -/
theorem C58_typed (w : World) (e : Env) (mode : Text) (hm : lower mode = "add".toList) (fd : Bool) (d : Dict) (t : Int)
    (h : Writable d t) (hf : Terminated (w.file.getD [])) (hb : Balanced (w.file.getD []))
    (hok : (w.writeSets e mode fd [d]).2.2 = .ok ()) :
    setCount (w.file.getD []) < setCount ((w.writeSets e mode fd [d]).1.file.getD []) ∧
    TypeIs (setBytes ((w.writeSets e mode fd [d]).1.file.getD []) (setCount (w.file.getD []))) t := by
  obtain ⟨bs, hbs, he⟩ := C58_written w e mode hm fd [d] [t] (.cons h .nil) hok
  cases hbs with
  | @cons _ b _ l h1 h2 =>
    cases h2
    rw [he]
    simp only [List.flatten_cons, List.flatten_nil, List.append_nil]
    have hs := sets_append (w.file.getD []) b hf hb
    have hc := count_framed h.2.1 h1
    have hlen := congrArg List.length hs
    rw [List.length_append, sets_length, sets_length, sets_length] at hlen
    have hlt : setCount (w.file.getD []) < setCount (w.file.getD [] ++ b) := by omega
    refine ⟨hlt, ?_⟩
    have e1 := sets_getElem (w.file.getD [] ++ b) _ hlt
    rw [hs, List.getElem?_append_right (by rw [sets_length]), sets_length, Nat.sub_self,
      sets_getElem b 0 (by omega)] at e1
    rw [← Option.some.inj e1]
    exact first_framed h.2.1 h1

/-- The hypotheses hold for units whose description holds a delimiter line of its own: the call returns, and the file holds two
data-sets more, the first of them of type 164. -/
def strangeUnits : Dict :=
  [("type", .int 164), ("units_code", .int 1), ("units_description", .str chars!"SI\n    -1\n    -1\n  "),
   ("temp_mode", .int 1), ("length", .int 1), ("force", .int 1), ("temp", .int 1), ("temp_offset", .int 0)]

example : let w := (World.new (some (exFile.take 135))).writeSets exEnv chars!"add" false [strangeUnits]
    Writable strangeUnits 164 ∧ Terminated (exFile.take 135) ∧ Balanced (exFile.take 135) ∧ w.2.2 = .ok () ∧
      setCount (exFile.take 135) = 2 ∧ setCount (w.1.file.getD []) = 4 := by
  refine ⟨⟨by decide, by decide, fun h => ?_⟩, ?_⟩
  · cases h.1
  · rw [count_fast, count_fast]
    unfold Balanced
    rw [delims_eq]
    decide +kernel

end Verif
