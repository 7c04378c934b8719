import Verif.Model.Update
import Verif.Tests
import Verif.Lemmas.Instances
import Verif.Lemmas.Kw
import Verif.Props.C01_C04
import Verif.Props.C11_C16
import Verif.Props.C17_C23
import Verif.Lemmas.Rendered
import Verif.Props.C08_C10
import Verif.Props.C07
import Verif.Lemmas.Avoid
import Verif.Props.C05_C06
import Verif.Spec.Canon
import Verif.Lemmas.Accept
import Verif.Lemmas.Tok
import Verif.Lemmas.Lists
import Verif.Props.C24_C29
import Verif.Spec.CanonTriples
import Verif.Spec.CanonWhere
import Verif.Lemmas.Triples
import Verif.Lemmas.Quads
import Verif.Lemmas.Where
import Verif.Lemmas.Dies
import Verif.Props.C33_C37
import Verif.Spec.CanonUpdate
import Verif.Props.C46_C50
import Verif.Spec.CanonExpr
import Verif.Lemmas.Calls
import Verif.Lemmas.Exprs
import Verif.Lemmas.ExprCalls
import Verif.Lemmas.ExprAccept
import Verif.Spec.CanonGroup
import Verif.Lemmas.Modifiers
import Verif.Lemmas.Groups
import Verif.Lemmas.GroupsMono
import Verif.Lemmas.WsLists
import Verif.Props.C38_C41
import Verif.Props.C42_C45
import Verif.Spec.CanonQuery
import Verif.Spec.Filled
import Verif.Lemmas.Dead
import Verif.Lemmas.Yields
import Verif.Lemmas.Queries
import Verif.Props.C30_C32
import Verif.Spec.Leaf
import Verif.Props.C51_C55
import Verif.Spec.Hex
import Verif.Lemmas.Hex
import Verif.Props.C56_C62
import Verif.Model.Cost
import Verif.Model.CostUpdate
import Verif.Lemmas.Cost
import Verif.Lemmas.CostJudge
import Verif.Lemmas.CostInstances
import Verif.Lemmas.CostLower
import Verif.Spec.Effort
import Verif.Lemmas.Effort
import Verif.Lemmas.EffortLex
import Verif.Lemmas.EffortAll
import Verif.Lemmas.EffortUpdate
import Verif.Lemmas.EffortUpdateLower
import Verif.Lemmas.EffortAccepted
import Verif.Props.C63
import Verif.Model.Depth
import Verif.Lemmas.Depth
import Verif.Props.C64
import Verif.Spec.Ieee
import Verif.Model.Float
import Verif.Lemmas.Float
import Verif.Props.C65
import Verif.Spec.Occurs
import Verif.Lemmas.Occurs
import Verif.Props.C66
import Verif.Model.Display
import Verif.Spec.Print
import Verif.Lemmas.Print
import Verif.Lemmas.Printable
import Verif.Props.C67
import Verif.Spec.Layout
import Verif.Lemmas.Layout
import Verif.Lemmas.LayoutLeaf
import Verif.Lemmas.LayoutAll
import Verif.Props.C68
import Verif.Spec.Swap
import Verif.Lemmas.Swap
import Verif.Lemmas.SwapDet
import Verif.Lemmas.SwapLeaf
import Verif.Lemmas.SwapTail
import Verif.Lemmas.SwapAll
import Verif.Props.C69
import Verif.Spec.Brackets
import Verif.Lemmas.Brackets
import Verif.Lemmas.BracketsAll
import Verif.Props.C70
import Verif.Props.C71
import Verif.Props.C72
import Verif.Lemmas.Escaped
import Verif.Props.C73
import Verif.Props.C74
import Verif.Model.CostPath
import Verif.Spec.PathEffort
import Verif.Lemmas.PathEffort
import Verif.Lemmas.PathLower
import Verif.Props.C75
import Verif.Spec.Restrictions
import Verif.Props.C76
import Verif.Spec.Units
import Verif.Lemmas.Units
import Verif.Lemmas.UnitsLeaf
import Verif.Lemmas.UnitsAll
import Verif.Lemmas.UnitsRead
import Verif.Lemmas.UnitsBlocks
import Verif.Props.C77
import Verif.Spec.Parts
import Verif.Lemmas.UnitsUpdate
import Verif.Props.C78
import Verif.Spec.Ebnf
import Verif.Lemmas.Ebnf
import Verif.Lemmas.EbnfAll
import Verif.Lemmas.EbnfScan
import Verif.Lemmas.EbnfTables
import Verif.Props.C79
import Verif.Spec.EbnfPlain
import Verif.Lemmas.EbnfRecog
import Verif.Lemmas.EbnfManage
import Verif.Spec.EbnfTidy
import Verif.Spec.EbnfFree
import Verif.Lemmas.EbnfCanon
import Verif.Lemmas.EbnfCanonTerms
import Verif.Lemmas.EbnfCanonTriples
import Verif.Lemmas.EbnfCanonGroups
import Verif.Lemmas.EbnfCanonRequests
import Verif.Lemmas.EbnfTidyCheck
import Verif.Lemmas.EbnfFree
import Verif.Lemmas.EbnfGuard
import Verif.Lemmas.EbnfFreeGen
import Verif.Lemmas.EbnfFreeCheck
import Verif.Props.C80
import Verif.Spec.Mistake
import Verif.Lemmas.Stops
import Verif.Lemmas.Reports
import Verif.Props.C81
import Verif.Spec.Size
import Verif.Lemmas.Size
import Verif.Props.C82
import Verif.Spec.Height
import Verif.Lemmas.Flat
import Verif.Lemmas.Height
import Verif.Props.C83
import Verif.Model.Equal
import Verif.Spec.Renumber
import Verif.Spec.Compare
import Verif.Lemmas.Equal
import Verif.Lemmas.EqualFixed
import Verif.Lemmas.EqualText
import Verif.Props.C84
import Verif.Spec.Stored
import Verif.Lemmas.Stored
import Verif.Props.C85
import Verif.Spec.Ink
import Verif.Lemmas.Ink
import Verif.Props.C86
