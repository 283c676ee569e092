import Verif.Model.Access
import Verif.Model.WF
import Verif.Model.NoThrow
import Verif.Model.HeadOK
import Verif.Peg.Rel
import Verif.Props.Identifiers
import Verif.Props.Literals
import Verif.Props.Outcome
import Verif.Props.Upload
import Verif.Props.Blanks
import Verif.Model.RegexGeom
import Verif.Model.RegexBest
import Verif.Props.InputLevel
import Verif.Props.Tree
import Verif.Props.Access
import Verif.Props.Geometry
import Verif.Props.Clauses
import Verif.Props.Faithful
import Verif.Props.LetterCase
import Verif.Test.Suite
import Verif.Model.AcceptTerm
import Verif.Model.AcceptWord
import Verif.Model.AcceptPred
import Verif.Model.AcceptCond
import Verif.Model.AcceptName
import Verif.Model.AcceptFront
import Verif.Model.AcceptTab
import Verif.Model.AcceptSelect
import Verif.Model.AcceptGeom
import Verif.Model.AcceptQuery
import Verif.Model.AcceptCase
import Verif.Model.AcceptAll
import Verif.Model.Reprint
import Verif.Model.Spell
import Verif.Model.Origin
import Verif.Model.Reach
import Verif.Props.Accept
import Verif.Props.RoundTrip
import Verif.Props.Same
import Verif.Props.Shape
import Verif.Props.Rearrange
import Verif.Props.Update
import Verif.Props.Cost
import Verif.Spec.System
import Verif.Spec.Comment
import Verif.Props.Comment
import Verif.Props.Spacing
import Verif.Props.ParensExact
import Verif.Peg.Nest
import Verif.Props.Nest
import Verif.Props.NestExpr
import Verif.Props.CostSub
import Verif.Peg.Blame
import Verif.Spec.Messages
import Verif.Props.Messages
import Verif.Spec.Alternatives
import Verif.Spec.Sealed
import Verif.Model.Seal
import Verif.Props.Sealed
import Verif.Model.Closes
import Verif.Props.Closed
import Verif.Spec.Compose
import Verif.Props.Compose
import Verif.Spec.Restrict
import Verif.Props.Edited
import Verif.Spec.Uses
import Verif.Model.Named
import Verif.Props.Uses
import Verif.Spec.Exchange
import Verif.Model.Exchange
import Verif.Model.ExchangeMade
import Verif.Model.ExchangeUses
import Verif.Props.Exchange
import Verif.Spec.Mapped
import Verif.Peg.Comm
import Verif.Model.CommRules
import Verif.Model.Pattern
import Verif.Props.Mapping
import Verif.Spec.Deep
import Verif.Model.Deep
import Verif.Model.DeepMade
import Verif.Model.DeepSelects
import Verif.Model.DeepReads
import Verif.Props.Deep
import Verif.Props.Canonical
import Verif.Spec.Limit
import Verif.Props.Limit
import Verif.Spec.Around
import Verif.Props.Around
import Verif.Model.DeepFlat
import Verif.Model.DeepEmpty
import Verif.Spec.Policy
import Verif.Props.Policy
import Verif.Spec.Value
import Verif.Props.Value
import Verif.Spec.Lookup
import Verif.Props.Lookup
import Verif.Spec.Parts
import Verif.Props.Parts
import Verif.Spec.Owner
import Verif.Props.Owner
import Verif.Spec.Span
import Verif.Props.Span
import Verif.Spec.Allowed
import Verif.Model.DeepUses
import Verif.Model.DeepGives
import Verif.Model.SelectsSub
import Verif.Props.Allowed
import Verif.Model.SelectsAll
import Verif.Props.Everywhere
