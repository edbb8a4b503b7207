import Verif.Lemmas.Text
import Verif.Lemmas.Lines
import Verif.Lemmas.Num
import Verif.Lemmas.Utf8
import Verif.Lemmas.Tags
import Verif.Lemmas.Frame
import Verif.Lemmas.Fields
import Verif.Lemmas.RT164
import Verif.Lemmas.RT151
import Verif.Lemmas.RT1858
import Verif.Lemmas.RT2400
import Verif.Lemmas.Exact4
import Verif.Lemmas.Ints
import Verif.Lemmas.Loop
import Verif.Lemmas.FmtU
import Verif.Lemmas.RT2411
import Verif.Lemmas.RT15
import Verif.Lemmas.RT18
import Verif.Lemmas.RT82
import Verif.Lemmas.RT2420
import Verif.Lemmas.RT2412
import Verif.Lemmas.RT2429
import Verif.Lemmas.RT2467
import Verif.Lemmas.RT55
import Verif.Lemmas.Num58
import Verif.Lemmas.Bin58
import Verif.Lemmas.Val58
import Verif.Lemmas.RT58
import Verif.Lemmas.RT58b
import Verif.Model.DS2414
import Verif.Model.Uff
import Verif.Spec.File
import Verif.Lemmas.File
import Verif.Lemmas.World
import Verif.Spec.DataSet
import Verif.Lemmas.Sets
import Verif.Lemmas.Many
import Verif.Lemmas.Keep
import Verif.Props.Cases
import Verif.Props.Discovery
import Verif.Props.Writing
import Verif.Props.Reading
import Verif.Props.RoundTrip
import Verif.Spec.Value
import Verif.Lemmas.Near
import Verif.Props.Numbers
import Verif.Model.Prepare
import Verif.Props.Header
import Verif.Props.Prepare
import Verif.Lemmas.Optional
import Verif.Props.Optional
import Verif.Spec.Fix
import Verif.Model.Fix58b
import Verif.Lemmas.Fix
import Verif.Lemmas.FixName
import Verif.Props.Fix58b
import Verif.Lemmas.Exact5
import Verif.Spec.Again
import Verif.Lemmas.Again
import Verif.Lemmas.Again1
import Verif.Lemmas.Again2
import Verif.Lemmas.Again3
import Verif.Lemmas.Again4
import Verif.Props.Again
import Verif.Props.Newline
import Verif.Spec.Crlf
import Verif.Model.Windows
import Verif.Lemmas.Crlf1
import Verif.Lemmas.Crlf2
import Verif.Lemmas.Crlf3
import Verif.Lemmas.Crlf4
import Verif.Lemmas.Crlf5
import Verif.Lemmas.Crlf6
import Verif.Props.Crlf
import Verif.Props.Prepare2
import Verif.Model.Session
import Verif.Spec.Store
import Verif.Lemmas.Store
import Verif.Props.Store
import Verif.Py.Lit
import Verif.Spec.Foreign
import Verif.Lemmas.Foreign
import Verif.Props.Foreign
import Verif.Spec.Tokens
import Verif.Lemmas.Tokens
import Verif.Props.Tokens
import Verif.Spec.Required
import Verif.Lemmas.Required
import Verif.Lemmas.Required2
import Verif.Props.Required
import Verif.Model.Loops
import Verif.Spec.Loops
import Verif.Lemmas.Loops
import Verif.Lemmas.Loops2
import Verif.Lemmas.Loops3
import Verif.Props.Loops
import Verif.Lemmas.Edit
import Verif.Props.Edit
import Verif.Spec.Records
import Verif.Lemmas.Records
import Verif.Props.Records
import Verif.Spec.Groups
import Verif.Lemmas.Groups
import Verif.Props.Groups
import Verif.Spec.Systems
import Verif.Lemmas.Systems
import Verif.Props.Systems
import Verif.Spec.Results
import Verif.Lemmas.Results
import Verif.Lemmas.Results2
import Verif.Props.Results
import Verif.Spec.Shapes
import Verif.Lemmas.Shapes
import Verif.Props.Shapes
import Verif.Spec.Funcs
import Verif.Lemmas.Funcs
import Verif.Props.Funcs
import Verif.Spec.Literals
import Verif.Lemmas.Near2
import Verif.Lemmas.Rounded
import Verif.Lemmas.Literals
import Verif.Lemmas.Literals2
import Verif.Props.Literals
import Verif.Spec.Framing
import Verif.Spec.Typed
import Verif.Lemmas.Framing
import Verif.Lemmas.Framing2
import Verif.Lemmas.Typed
import Verif.Props.Framing
import Verif.Props.Typed
import Verif.Lemmas.Cut
import Verif.Lemmas.Whole
import Verif.Lemmas.Wide
import Verif.Lemmas.Count
import Verif.Props.Cut
import Verif.Props.Lost
import Verif.Spec.OneLine
import Verif.Lemmas.OneLine
import Verif.Props.OneLine
import Verif.Spec.Arrays
import Verif.Lemmas.Arrays
import Verif.Props.Arrays
import Verif.Props.Durable
import Verif.Spec.Payload
import Verif.Lemmas.Payload
import Verif.Spec.Single58
import Verif.Lemmas.Single58
import Verif.Props.Single
import Verif.Spec.Number
import Verif.Lemmas.Number
import Verif.Lemmas.Items
import Verif.Lemmas.Same
import Verif.Lemmas.Same58
import Verif.Props.Number
import Verif.Props.Lengths
import Verif.Model.Alias
import Verif.Lemmas.Repeat
import Verif.Props.Repeat
import Verif.Spec.Declared
import Verif.Lemmas.Declared
import Verif.Props.Declared
import Verif.Spec.Used
import Verif.Lemmas.Used
import Verif.Spec.Accept
import Verif.Spec.AcceptMore
import Verif.Spec.Accept2414
import Verif.Spec.Accept55
import Verif.Spec.Accept58
import Verif.Lemmas.Accept
import Verif.Lemmas.AcceptAll
import Verif.Lemmas.AcceptMore
import Verif.Lemmas.Accept2414
import Verif.Lemmas.Accept55
import Verif.Lemmas.Accept58
import Verif.Lemmas.Compose
import Verif.Props.Used
import Verif.Props.Accept
import Verif.Props.Compose
import Verif.Lemmas.Dropped
import Verif.Props.Dropped
import Verif.Spec.Layout
import Verif.Lemmas.Layout
import Verif.Props.Layout
import Verif.Lemmas.Unclosed
import Verif.Props.Unclosed
import Verif.Lemmas.Empty2414
import Verif.Props.Empty2414
import Verif.Props.Counts
import Verif.Lemmas.Colour
import Verif.Props.Colour
import Verif.Props.NoEntities
import Verif.Props.GroupsAgain
import Verif.Props.HeaderAgain
import Verif.Axioms
