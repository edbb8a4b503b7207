import Verif.Props.Lengths
import Verif.Props.Reading
import Verif.Lemmas.Typed
/-
C41: what is read of a function with `header_only=True` cannot be saved, and saving it empties the file in mode 'overwrite'.
-/
namespace Verif
open W

/-- The abscissas are `None`. -/
def NoX (d : Dict) : Prop := d.get? "x" = some Val.none

theorem keeps_putNoX {q : Key} {x : Val} (h : q ≠ "x") : Keeps (fun d d' => NoX d → NoX d') (W.put q x) := by
  refine ⟨fun d hd => ?_⟩
  show NoX (d.set q x)
  unfold NoX
  rw [Dict.get?_set_ne _ _ _ _ h]; exact hd

theorem keeps_optNoX {fs : List (Key × Val)} : Keeps (fun d d' => NoX d → NoX d') (W.opt fs) :=
  ⟨fun _ hd => get?_opt_present hd⟩

theorem noX58 (little fd : Bool) : Quiet NoX (write58 little fd) := by
  unfold write58
  refine quiet_guarded ?_
  refine quiet_bind (mute_keeps (fun _ => rfl) (keeps_key (pre_imp _) _)) fun _ => ?_
  refine quiet_bind (mute_keeps (fun _ => rfl) (keeps_lift (pre_imp _) _)) fun _ => ?_
  refine quiet_bind (mute_keeps (out_when fun _ => rfl) (keeps_when (pre_imp _) _ (keeps_raise (pre_imp _) _))) fun _ => ?_
  refine quiet_bind (mute_keeps (fun _ => rfl) keeps_optNoX) fun _ => ?_
  refine quiet_bind (mute_keeps (fun _ => rfl) (keeps_key (pre_imp _) _)) fun _ => ?_
  refine quiet_bind (mute_keeps (fun _ => rfl) (keeps_lift (pre_imp _) _)) fun n => ?_
  refine quiet_bind (mute_keeps (fun _ => rfl) (keeps_lift (pre_imp _) _)) fun _ => ?_
  refine quiet_bind (mute_keeps (out_when fun _ => rfl) (keeps_when (pre_imp _) _ (keeps_putNoX (by decide)))) fun _ => ?_
  refine quiet_bind (mute_keeps (fun _ => rfl) (keeps_key (pre_imp _) _)) fun _ => ?_
  refine quiet_bind (mute_keeps (fun _ => rfl) (keeps_lift (pre_imp _) _)) fun pr => ?_
  refine quiet_bind (mute_keeps (fun _ => rfl) (keeps_getDict (pre_imp _))) fun _ => ?_
  refine quiet_bind (mute_keeps (out_when fun d => ?_) (keeps_when (pre_imp _) _ (keeps_bind (pre_imp _) (keeps_lift (pre_imp _) _)
    fun _ => keeps_putNoX (by decide)))) fun _ => ?_
  · unfold W.bind W.lift
    cases nBytes58 n pr <;> rfl
  refine quiet_bind (mute_keeps (fun _ => rfl) (keeps_key (pre_imp _) _)) fun _ => ?_
  refine quiet_bind (mute_keeps (fun _ => rfl) (keeps_lift (pre_imp _) _)) fun _ => ?_
  refine quiet_known fun d x hd hx => ?_
  unfold NoX at hd
  rw [hx] at hd
  cases hd
  exact quiet_here rfl

theorem extract58_noX {b : Bytes} {d : Dict} (h : extract58 b true = .ok d) :
    d.get? "type" = some (.int 58) ∧ d.get? "x" = some Val.none := by
  refine ⟨(returns58 b true d h).1, ?_⟩
  unfold extract58 at h
  cases hh : readHead58 (splitLinesKeep (decode ((splitLinesKeepB b).take 13).flatten)) with
  | error x => rw [hh] at h; cases x <;> cases h
  | ok p =>
    obtain ⟨binary, d0⟩ := p
    rw [hh] at h
    have : d = (d0.set "x" .none).set "data" .none := by
      simp only [ok_bind, if_true, readGuard, Except.ok.injEq] at h
      exact h.symm
    rw [this, Dict.get?_set_ne _ _ _ _ (by decide), Dict.get?_set_self]

theorem header_refused {f : Bytes} {k : Nat} {d : Dict} (hk : k < setCount f) (ht : TypeIs (setBytes f k) 58)
    (hr : ((World.new (some f)).readSets (.one k) true).2 = .ok (.single d)) (e : Env) (fd : Bool) :
    (writeBody e fd d).out = [] ∧ ∃ x, (writeBody e fd d).res = .error x := by
  have hst : (World.new (some f)).getStatus = true := by rw [new_some]; exact objOf_refreshed f
  have hob : (World.new (some f)).obj = objOf f := rfl
  rw [one_iff hst f rfl, hob, readSet_in f k hk, (typeIs_iff _ _).1 ht] at hr
  obtain ⟨h1, h2⟩ := extract58_noX (b := setBytes f k) hr
  refine body_clean (c := "x") (by decide) h1 h2 fun d' hd' => ?_
  rw [disp58]
  exact noX58 _ _ d' hd'

/-- Whatever program wrote the file: what is read of a data-set 58 with `header_only=True` has `None` for `x`
(`/repo/pyuff/datasets/dataset_58.py:1075-1078`), and `write_sets` refuses it before anything of it is written
(`/repo/pyuff/datasets/dataset_58.py:905`).  In mode 'add' the file stays as it was; in mode 'overwrite' the file, which was
opened for writing first, is left empty, with all its data-sets lost. -/
theorem C41_header (f : Bytes) (k : Nat) (d : Dict) (hk : k < setCount f) (ht : TypeIs (setBytes f k) 58)
    (hr : ((World.new (some f)).readSets (.one k) true).2 = .ok (.single d))
    (w : World) (e : Env) (mode : Text) (fd : Bool) (ds : List Dict)
    (hm : lower mode = "add".toList ∨ lower mode = "overwrite".toList) :
    (∃ x, (w.writeSets e mode fd (d :: ds)).2.2 = .error x) ∧
    (w.writeSets e mode fd (d :: ds)).1 = ⟨some (if lower mode = "add".toList then w.file.getD [] else []), w.obj⟩ := by
  obtain ⟨ho, err, hx⟩ := header_refused hk ht hr e fd
  rw [refused_file ho hx hm]
  exact ⟨⟨err, rfl⟩, rfl⟩

/-- The same anywhere in a list, in any mode: a list with the header of a function among its dictionaries is never saved without
an exception. -/
theorem C41_header_any (f : Bytes) (k : Nat) (d : Dict) (hk : k < setCount f) (ht : TypeIs (setBytes f k) 58)
    (hr : ((World.new (some f)).readSets (.one k) true).2 = .ok (.single d))
    (w : World) (e : Env) (mode : Text) (fd : Bool) (ds : List Dict) (hd : d ∈ ds) :
    ∃ x, (w.writeSets e mode fd ds).2.2 = .error x :=
  writeSets_fails (fun e' => (header_refused hk ht hr e' fd).2) ds w e mode hd

/-- The file with one function. -/
def exHeaderFile : Bytes := ((World.new Option.none).writeSets exEnv "add".toList true [exFn 1 [fA, fB]]).1.file.getD []

/-- Whether a reading gave one dictionary. -/
def gaveOne : Res ReadOut → Bool
  | .ok (.single _) => true
  | _ => false

theorem gaveOne_iff {r : Res ReadOut} (h : gaveOne r = true) : ∃ d, r = .ok (.single d) := by
  unfold gaveOne at h
  split at h
  · exact ⟨_, rfl⟩
  · cases h

theorem exHeader_read : (decide (0 < setCount exHeaderFile) && decide (blockType (setBytes exHeaderFile 0) = 58) &&
    gaveOne ((World.new (some exHeaderFile)).readSets (.one 0) true).2) = true := by
  decide +kernel

attribute [irreducible] exHeaderFile

example : 0 < setCount exHeaderFile ∧ TypeIs (setBytes exHeaderFile 0) 58 ∧
    (∃ d, ((World.new (some exHeaderFile)).readSets (.one 0) true).2 = .ok (.single d)) := by
  have h := exHeader_read
  rw [Bool.and_eq_true, Bool.and_eq_true, decide_eq_true_eq, decide_eq_true_eq] at h
  exact ⟨h.1.1, (typeIs_iff _ _).2 h.1.2, gaveOne_iff h.2⟩

end Verif
