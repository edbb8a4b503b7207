import Verif.Spec.DataSet
/-
Saving again what was read: which data-sets come back unchanged when the dictionaries returned by `read_sets` are
written and read a second time.
-/
namespace Verif

/-- Not `-0.0`. -/
def NotNegZero (x : F64) : Prop := x.mag = 0 → x.neg = false

/-- Not `-0.0-0.0j`, whose parts lose their signs one after the other when it is read (`C41_negation_zeros`). -/
def Cplx.Settled (z : Cplx) : Prop := NotNegZero z.1 ∨ NotNegZero z.2

namespace DS15
/-- The data-set as read. -/
def again (r : DS15) : DS15 :=
  ⟨r.nodes.map fun n => { n with x := n.x.quant 5, y := n.y.quant 5, z := n.z.quant 5 }⟩
end DS15

namespace DS18
/-- The data-set as read. -/
def again (r : DS18) : DS18 :=
  ⟨r.systems.map fun c => { c with name := strip c.name, o := c.o.quant 5, x := c.x.quant 5, xz := c.xz.quant 5 }⟩
/-- The names have at most 40 characters (longer ones are written in full, and may end like a delimiter once they have
been stripped). -/
def Lasting (r : DS18) : Prop := ∀ c ∈ r.systems, c.name.length ≤ 40
end DS18

namespace DS55
/-- The values of the analysis type as read. -/
def headAgain : Head55 → Head55
  | .normal load mode freq m vis his => .normal load mode (freq.quant 5) (m.quant 5) (vis.quant 5) (his.quant 5)
  | .cmplx second load mode eig a b => .cmplx second load mode (eig.quant 5) (a.quant 5) (b.quant 5)
  | .frf load step freq => .frf load step (freq.quant 5)
/-- The data as read. -/
def dataAgain : Data55 → Data55
  | .real3 l => .real3 (l.map fun n => ⟨n.num, n.x.quant 5, n.y.quant 5, n.z.quant 5⟩)
  | .real6 l => .real6 (l.map fun n => ⟨n.num, n.x.quant 5, n.y.quant 5, n.z.quant 5, n.xx.quant 5, n.yy.quant 5,
    n.zz.quant 5⟩)
  | .cplx3 l => .cplx3 (l.map fun n => ⟨n.num, n.x.quant 5, n.y.quant 5, n.z.quant 5⟩)
/-- The data-set as read. -/
def again (r : DS55) : DS55 :=
  { r with id1 := strip r.id1, id2 := strip r.id2, id3 := strip r.id3, id4 := strip r.id4, id5 := strip r.id5,
           head := headAgain r.head, data := dataAgain r.data }
/-- No complex number of the analysis type is `-0.0-0.0j`. -/
def HeadLasting : Head55 → Prop
  | .normal .. => True
  | .cmplx _ _ _ eig a b => eig.Settled ∧ a.Settled ∧ b.Settled
  | .frf .. => True
/-- No complex value is `-0.0-0.0j`. -/
def DataLasting : Data55 → Prop
  | .real3 _ => True
  | .real6 _ => True
  | .cplx3 l => ∀ n ∈ l, n.x.Settled ∧ n.y.Settled ∧ n.z.Settled
/-- No complex number is `-0.0-0.0j`. -/
def Lasting (r : DS55) : Prop := HeadLasting r.head ∧ DataLasting r.data
end DS55

namespace DS58
/-- The axis as read. -/
def axisAgain (a : Axis58) : Axis58 := { a with lab := strip a.lab, units := strip a.units }
/-- The ordinate as read. -/
def ordAgain (s : Store58) : Ord58 → Ord58
  | .real l => .real (l.map (keepY s))
  | .cplx l => .cplx (l.map fun z => Cplx.unsigned (keepY s z.1, keepY s z.2))
/-- The data-set as read. -/
def again (r : DS58) : DS58 :=
  { r with id1 := strip r.id1, id2 := strip r.id2, id3 := strip r.id3, id4 := strip r.id4, id5 := strip r.id5,
           rspName := strip r.rspName, refName := strip r.refName, zValue := r.zValue.quant 5,
           abscissa := axisAgain r.abscissa, ordinate := axisAgain r.ordinate, orddenom := axisAgain r.orddenom,
           zAxis := axisAgain r.zAxis, x0 := r.xBack[0]?.getD F64.zero, x1 := r.xBack[1]?.getD F64.zero,
           xs := r.xBack.drop 2, ord := ordAgain r.store r.ord }
/-- No complex value is `-0.0-0.0j`. -/
def OrdLasting : Ord58 → Prop
  | .real _ => True
  | .cplx l => ∀ z ∈ l, z.Settled
/-- What is needed to save a data-set 58 again.  `two`: the writer needs two abscissa values.  `step`: the increment
computed from the abscissa that was read is the one that was stored; this holds when an even abscissa starts at `0.0`
(`C41_from_zero`), but not always (`C41_negation_step`). -/
structure Lasting (r : DS58) : Prop where
  ord : OrdLasting r.ord
  /-- An even abscissa starts at `-0.0` only if it decreases. -/
  start : r.even = true → NotNegZero r.x0 ∨ (r.x1.sub r.x0).neg = true
  two : 2 ≤ r.count
  finite : ∀ x ∈ r.xBack, x.finite = true
  stepFinite : (r.again.x1.sub r.again.x0).finite = true
  step : r.again.inc.quant 5 = r.inc.quant 5
end DS58

namespace DS82
/-- The data-set as read. -/
def again (r : DS82) : DS82 := { r with id := strip r.id, nodes := r.stored }
/-- No node was dropped. -/
def Lasting (r : DS82) : Prop := runs r.nodes % 8 = 0 → runs r.nodes = r.nodes.length
end DS82

namespace DS151
/-- The data-set as read. -/
def again (r : DS151) : DS151 :=
  { model := strip r.model, descr := strip r.descr, dbApp := strip r.dbApp, dateCreated := strip r.dateCreated,
    timeCreated := strip r.timeCreated, version1 := intRepr (number r.version1), version2 := intRepr (number r.version2),
    fileType := intRepr (number r.fileType), dateSaved := strip r.dateSaved, timeSaved := strip r.timeSaved,
    program := strip r.program, dateWritten := strip r.dateWritten, timeWritten := strip r.timeWritten }
/-- The file type is not a text such as `-01` that is read as `-1`, which ends a line like a delimiter. -/
def Lasting (r : DS151) : Prop := number r.fileType ≠ -1
end DS151

/-- The data-set as read. -/
def DS164.again (r : DS164) : DS164 := { r with descr := strip r.descr }

namespace DS1858
/-- The data-set as read. -/
def again (r : DS1858) : DS1858 :=
  { r with rpm := r.rpm.quant 7, ztime := r.ztime.quant 7, order := r.order.quant 7, samples := r.samples.quant 7,
           user1 := r.user1.quant 7, user2 := r.user2.quant 7, user3 := r.user3.quant 7, user4 := r.user4.quant 7,
           damping := r.damping.quant 7, response := strip r.response, reference := strip r.reference }
end DS1858

/-- The data-set as read. -/
def DS2400.again (r : DS2400) : DS2400 :=
  { r with name := strip r.name, part := strip r.part, date := strip r.date, time := strip r.time }

/-- The data-set as read: the elements grouped by descriptor. -/
def DS2412.again (r : DS2412) : DS2412 := ⟨(firsts (r.elems.map (·.fe))).map r.ofType⟩

namespace DS2414
/-- Six numbers as read. -/
def sixAgain (r : Six) : Six :=
  ⟨r.x1.quant 5, r.x2.quant 5, r.x3.quant 5, r.x4.quant 5, r.x5.quant 5, r.x6.quant 5⟩
/-- The data of a frequency response as read. -/
def freqAgain : FreqData → FreqData
  | .one l => .one (l.map fun n => ⟨n.num, n.x.quant 5⟩)
  | .two l => .two (l.map fun n => ⟨n.num, n.x.quant 5, n.y.quant 5⟩)
  | .three l => .three (l.map fun n => ⟨n.num, n.x.quant 5, n.y.quant 5, n.z.quant 5⟩)
/-- The data of the other analysis types as read. -/
def plainAgain : PlainData → PlainData
  | .atNodes l => .atNodes (l.map fun n => ⟨n.num, n.vals.map (F64.quant 5)⟩)
  | .onElems l => .onElems (l.map fun n => ⟨n.num, n.vals.map (F64.quant 5)⟩)
  | .atElemNodes l => .atElemNodes (l.map fun e => { e with rows := e.rows.map fun v => v.map (F64.quant 5) })
  | .other loc => .other loc
/-- What depends on the analysis type as read. -/
def bodyAgain : Body2414 → Body2414
  | .freq loc h d => .freq loc { h with rec12 := sixAgain h.rec12, rec13 := sixAgain h.rec13 } (freqAgain d)
  | .plain a c h d => .plain a c { h with rec12 := sixAgain h.rec12, rec13 := sixAgain h.rec13 } (plainAgain d)
/-- The data-set as read. -/
def again (r : DS2414) : DS2414 :=
  { r with name := strip r.name, id1 := strip r.id1, id2 := strip r.id2, id3 := strip r.id3, id4 := strip r.id4,
           id5 := strip r.id5, body := bodyAgain r.body }
/-- No complex value is `-0.0-0.0j`. -/
def FreqLasting : FreqData → Prop
  | .one l => ∀ n ∈ l, n.x.Settled
  | .two l => ∀ n ∈ l, n.x.Settled ∧ n.y.Settled
  | .three l => ∀ n ∈ l, n.x.Settled ∧ n.y.Settled ∧ n.z.Settled
/-- No complex value is `-0.0-0.0j`, and the data of a frequency response are read (they are not when the data type is
not 5). -/
def Lasting (r : DS2414) : Prop := match r.body with
  | .freq _ _ d => FreqLasting d ∧ r.dtype = 5
  | .plain .. => True
end DS2414

namespace DS2420
/-- The data-set as read. -/
def again (r : DS2420) : DS2420 :=
  { r with name := rstrip r.name, systems := r.systems.map fun m => { m with name := rstrip m.name } }
/-- The names without their trailing blanks are not taken for a delimiter. -/
def Lasting (r : DS2420) : Prop :=
  ¬ HasDelim (padRight 80 (rstrip r.name)) ∧ ∀ m ∈ r.systems, ¬ HasDelim (rstrip m.name)
end DS2420

/-- The data-set as read. -/
def DS2467.again (r : DS2467) : DS2467 :=
  ⟨r.groups.map fun g => { g with grp := { g.grp with name := strip g.grp.name } }⟩

/-- The data-set that the dictionary returned by `read_sets` carries. -/
def DataSet.again : DataSet → DataSet
  | .s15 r => .s15 r.again | .s18 r => .s18 r.again | .s55 r => .s55 r.again | .s58 r => .s58 r.again
  | .s82 r => .s82 r.again | .s151 r => .s151 r.again | .s164 r => .s164 r.again | .s1858 r => .s1858 r.again
  | .s2400 r => .s2400 r.again | .s2411 r => .s2411 r | .s2412 r => .s2412 r.again | .s2414 r => .s2414 r.again
  | .s2420 r => .s2420 r.again | .s2429 r => .s2429 r | .s2467 r => .s2467 r.again

/-- The conditions under which saving again what was read changes nothing: see the types.  A data-set 2429 is never
lasting, because the writer does not accept what the reader returns (`C32_negation_again`). -/
def DataSet.Lasting : DataSet → Prop
  | .s18 r => r.Lasting | .s55 r => r.Lasting | .s58 r => r.Lasting | .s82 r => r.Lasting
  | .s151 r => r.Lasting | .s2414 r => r.Lasting | .s2420 r => r.Lasting | .s2429 _ => False
  | .s15 _ | .s164 _ | .s1858 _ | .s2400 _ | .s2411 _ | .s2412 _ | .s2467 _ => True

end Verif
