import Lean
import Verif.Props.Number
import Verif.Props.Lengths
import Verif.Props.Repeat
import Verif.Props.Declared
import Verif.Props.Used
import Verif.Props.Accept
import Verif.Props.Compose
import Verif.Props.Dropped
import Verif.Props.Layout
import Verif.Props.Unclosed
import Verif.Props.Empty2414
import Verif.Props.Counts
import Verif.Props.GroupsAgain
import Verif.Props.HeaderAgain
import Verif.Props.NoEntities
import Verif.Props.Colour
import Verif.Props.Framing
import Verif.Props.Typed
import Verif.Props.Cut
import Verif.Props.OneLine
import Verif.Props.Arrays
import Verif.Props.Durable
import Verif.Props.Single
import Verif.Props.Lost
import Verif.Props.Discovery
import Verif.Props.Writing
import Verif.Props.Reading
import Verif.Props.RoundTrip
import Verif.Props.Numbers
import Verif.Props.Header
import Verif.Props.Prepare
import Verif.Props.Optional
import Verif.Props.Fix58b
import Verif.Props.Again
import Verif.Props.Newline
import Verif.Props.Crlf
import Verif.Props.Prepare2
import Verif.Props.Store
import Verif.Props.Foreign
import Verif.Props.Tokens
import Verif.Props.Required
import Verif.Props.Loops
import Verif.Props.Edit
import Verif.Props.Records
import Verif.Props.Groups
import Verif.Props.Systems
import Verif.Props.Results
import Verif.Props.Shapes
import Verif.Props.Funcs
import Verif.Props.Literals
/-
The axioms of every property theorem: the build fails when a theorem whose name is `Verif.C` followed by a digit depends on
anything but the three standard axioms.
-/
open Lean Elab Command

run_cmd do
  let env ← getEnv
  let mut n : Nat := 0
  for (name, info) in env.constants.map₁.toList do
    if let .thmInfo _ := info then
      if name.getPrefix == `Verif then
        let s := name.getString!
        if s.length > 2 && (s.toList)[0]? == some 'C' && ((s.toList)[1]?.getD ' ').isDigit then
          n := n + 1
          for a in ← collectAxioms name do
            unless a == ``propext || a == ``Classical.choice || a == ``Quot.sound do
              throwError "{name} depends on {a}"
  logInfo m!"{n} property theorems depend on propext, Classical.choice and Quot.sound only"
