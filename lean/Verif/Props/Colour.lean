import Verif.Lemmas.Colour
import Verif.Props.Unclosed
/-
C28: how many data-sets nodes of colour -1 become.
-/
namespace Verif

/-- Nodes whose values fit, whatever their colours: the call succeeds, and every two nodes of colour -1 make one data-set
more than there should be.  When their number is odd, what is appended afterwards is paired with the wrong delimiters. -/
theorem C28_colours (w : World) (e : Env) (mode : Text) (hm : lower mode = "add".toList) (fd : Bool) (d d' : Dict) (r : DS2411)
    (hc : CleanD d d') (h : DS2411.Rep d' r) (ok : ∀ n ∈ r.nodes, DS2411.NodeFit n)
    (ht : Terminated (w.file.getD [])) (hb : Balanced (w.file.getD [])) :
    (w.writeSets e mode fd [d]).2.2 = .ok () ∧
    ∃ f', (w.writeSets e mode fd [d]).1.file = some f' ∧
      (World.new (some f')).getNSets.2 = setCount (w.file.getD []) + 1 + (r.nodes.countP fun n => n.color = -1) / 2 ∧
      (Balanced f' ↔ (r.nodes.countP fun n => n.color = -1) % 2 = 0) := by
  have hbody : writeBody e fd d = ⟨frameText r.lines, d', .ok Option.none⟩ := by
    have hdis : writeDispatch e fd (.int 2411) = W.none write2411 := rfl
    rw [writeBody_eq hc h.type, hdis]
    exact none_run (DS2411.write_eq d' r h)
  have hres : (writeBody e fd d).res = .ok Option.none := by rw [hbody]
  have hfile : (w.writeSets e mode fd [d]).1.file = some (w.file.getD [] ++ encode (frameText r.lines)) := by
    rw [writeSets_add w e mode hm, addAll_cons_ok hres]
    show (w.writeSet e fd false d).1.file = _
    rw [(writeSet_file w e fd false d).1, fileAfter_add, hbody]
    rfl
  have hlen : (delims (w.file.getD [] ++ encode (frameText r.lines))).length =
      (delims (w.file.getD [])).length + (2 + r.nodes.countP fun n => n.color = -1) := by
    rw [delims_append _ _ ht, List.length_append, List.length_map, DS2411.frame_count r ok]
  refine ⟨?_, _, hfile, ?_, ?_⟩
  · rw [writeSets_add w e mode hm, addAll_cons_ok hres]
    rfl
  · rw [C01_count, hlen]
    unfold setCount
    unfold Balanced at hb
    omega
  · unfold Balanced at hb ⊢
    rw [hlen]
    omega

/-- Three nodes, the first and the last of colour -1: two data-sets. -/
def exColours : DS2411 := ⟨[⟨1, 0, 0, -1, fA, fB, F64.zero⟩, ⟨2, 0, 0, 5, fA, fB, F64.zero⟩, ⟨3, 0, 0, -1, fA, fB, F64.zero⟩]⟩

example : lower "add".toList = "add".toList ∧ CleanD exColours.dict exColours.dict ∧ DS2411.Rep exColours.dict exColours ∧
    (∀ n ∈ exColours.nodes, DS2411.NodeFit n) ∧ Terminated exOne ∧ Balanced exOne ∧
    (exColours.nodes.countP fun n => n.color = -1) = 2 := by
  refine ⟨by decide, cleanD_none rfl, ⟨rfl, ⟨_, rfl, isSeq_arrI _⟩, ⟨_, rfl, isSeq_arrI _⟩, ⟨_, rfl, isSeq_arrI _⟩, ⟨_, rfl, isSeq_arrI _⟩,
    ⟨_, rfl, isSeq_arrF _⟩, ⟨_, rfl, isSeq_arrF _⟩, ⟨_, rfl, isSeq_arrF _⟩⟩, ?_, by decide +kernel, by decide +kernel, by decide⟩
  intro n hn
  simp only [exColours, List.mem_cons, List.not_mem_nil, or_false] at hn
  rcases hn with rfl | rfl | rfl <;> constructor <;> decide +kernel

end Verif
