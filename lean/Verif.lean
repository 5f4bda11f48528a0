import Verif.Model.Base
import Verif.Model.Dialect
import Verif.Model.Kw
import Verif.Model.Token
import Verif.Model.Tokenizer
import Verif.Spec.Spelling
import Verif.Proofs.Keyword
import Verif.Proofs.Tokenizer
import Verif.Proofs.Next
import Verif.Proofs.Munch
import Verif.Proofs.Scan
import Verif.Proofs.Tokenize
import Verif.Spec.Position
import Verif.Proofs.Positions
import Verif.Props.Tokenizer
import Verif.Props.CommentText
import Verif.Model.Ast
import Verif.Model.ParserMonad
import Verif.Model.Parser
import Verif.Proofs.Zipper
import Verif.Proofs.Comments
import Verif.Proofs.Local
import Verif.Props.Stream
import Verif.Proofs.Mono
import Verif.Proofs.Wp
import Verif.Proofs.Term
import Verif.Props.Termination
import Verif.Model.Writer
import Verif.Model.Print
import Verif.Spec.Writer
import Verif.Proofs.Writer
import Verif.Props.Writer
import Verif.Spec.Decimal
import Verif.Proofs.Exec
import Verif.Proofs.KernelRfl
import Verif.Proofs.Decimal
import Verif.Proofs.Post
import Verif.Props.Findings
import Verif.Model.Kinds
import Verif.Model.Walk
import Verif.Model.Embed
import Verif.Spec.Walk
import Verif.Proofs.Walk
import Verif.Proofs.Embed
import Verif.Props.Walk
import Verif.Model.Apply
import Verif.Spec.Apply
import Verif.Proofs.Apply
import Verif.Props.Apply
import Verif.Model.CommentMap
import Verif.Spec.CommentMap
import Verif.Proofs.CommentMap
import Verif.Props.CommentMap
import Verif.Model.NodePos
import Verif.Spec.NodePos
import Verif.Proofs.NodePos
import Verif.Props.NodePos
import Verif.Proofs.NodePosStmt
import Verif.Proofs.NodePosStmt2
import Verif.Props.NodePosStmt
import Verif.Spec.Erase
import Verif.Proofs.Param
import Verif.Props.Param
import Verif.Proofs.PrintSep
import Verif.Proofs.ParseAttr
import Verif.Proofs.ParseBase
import Verif.Proofs.ParseNames
import Verif.Proofs.ParseExpr
import Verif.Proofs.ParseQuery
import Verif.Proofs.ParseTree
import Verif.Proofs.ParseStmt
import Verif.Proofs.EraseIdem
import Verif.Spec.Statements
import Verif.Proofs.Statements
import Verif.Proofs.Samples
import Verif.Props.RoundTrip
import Verif.Spec.Precedence
import Verif.Proofs.Precedence
import Verif.Props.Precedence
import Verif.Spec.Shape
import Verif.Proofs.ShapeBase
import Verif.Proofs.Shape
import Verif.Proofs.ShapeExpr
import Verif.Proofs.ShapeQuery
import Verif.Proofs.ShapeStmt
import Verif.Proofs.ShapeWf
import Verif.Props.Soundness
import Verif.Spec.Grammar
import Verif.Proofs.GrammarBase
import Verif.Proofs.GrammarExpr
import Verif.Proofs.GrammarQuery
import Verif.Proofs.GrammarStmt
import Verif.Props.Grammar
import Verif.Spec.Within
import Verif.Proofs.Within
import Verif.Proofs.WithinPos
import Verif.Props.Within
import Verif.Spec.Rename
import Verif.Proofs.Rename
import Verif.Props.Rename
import Verif.Proofs.Fine
import Verif.Proofs.FineStmt
import Verif.Proofs.LineBound
import Verif.Proofs.CommentPanic
import Verif.Props.CommentFile
import Verif.Props.CommentPanic
import Verif.Props.CommentPlace
import Verif.Spec.Cost
import Verif.Proofs.CostWp
import Verif.Proofs.Cost
import Verif.Props.Cost
import Verif.Proofs.ReadBase
import Verif.Proofs.ReadNames
import Verif.Proofs.ReadExpr
import Verif.Proofs.ReadExpr2
import Verif.Proofs.ReadExpr3
import Verif.Proofs.ReadQuery
import Verif.Proofs.ReadQuery2
import Verif.Proofs.ReadTree
import Verif.Proofs.ReadStmt
import Verif.Proofs.ReadStmt2
import Verif.Proofs.ReadStmt3
import Verif.Props.Complete
import Verif.Proofs.ShapeErase
import Verif.Props.Survive
import Verif.Spec.PositionExact
import Verif.Proofs.PositionsExact
import Verif.Props.PositionsExact
import Verif.Model.Utf8
import Verif.Spec.Utf8
import Verif.Proofs.Utf8
import Verif.Props.Utf8
import Verif.Spec.Atoms
import Verif.Proofs.Atoms
import Verif.Proofs.Quotes
import Verif.Props.Atoms
import Verif.Props.Quotes
import Verif.Spec.Script
import Verif.Proofs.BarrierWp
import Verif.Proofs.Barrier
import Verif.Proofs.Script
import Verif.Proofs.BarrierRun
import Verif.Props.Script
import Verif.Spec.Order
import Verif.Proofs.Order
import Verif.Props.Order
import Verif.Props.Keywords
import Verif.Spec.Panic
import Verif.Proofs.Panic
import Verif.Proofs.PanicRun
import Verif.Props.Panic
import Verif.Spec.CopyData
import Verif.Props.Injective
import Verif.Spec.Dialects
import Verif.Proofs.Alphabet
import Verif.Proofs.Dialects
import Verif.Props.Alphabet
import Verif.Props.Dialects
import Verif.Props.FileSpan
import Verif.Model.KindString
import Verif.Model.Genmark
import Verif.Props.KindString
import Verif.Props.Genmark
import Verif.Model.Session
import Verif.Props.Session
import Verif.Spec.Brackets
import Verif.Proofs.Brackets
import Verif.Props.Brackets
import Verif.Spec.Concat
import Verif.Proofs.Concat
import Verif.Props.Concat
import Verif.Spec.Beginnings
import Verif.Props.Beginnings
import Verif.Spec.Size
import Verif.Proofs.Size
import Verif.Props.Size
import Verif.Model.Strconv
import Verif.Spec.Float
import Verif.Proofs.Strconv
import Verif.Proofs.StrconvText
import Verif.Proofs.StrconvSpec
import Verif.Props.Strconv
import Verif.Spec.Kept
import Verif.Proofs.Kept
import Verif.Proofs.Floats
import Verif.Props.Kept
import Verif.Proofs.Attempt
import Verif.Props.Attempt
import Verif.Tests.Tokenizer
import Verif.Tests.Parser
import Verif.Tests.Print
import Verif.Tests.Tree
import Verif.Tests.E2e1
import Verif.Tests.E2e2
import Verif.Tests.E2e3
import Verif.Spec.NodeCount
import Verif.Proofs.NodeCount
import Verif.Proofs.Calls
import Verif.Props.NodeCount
import Verif.Props.LimitPlace
import Verif.Spec.Cut
import Verif.Proofs.Cut
import Verif.Props.Cut
import Verif.Spec.Alike
import Verif.Proofs.Alike
import Verif.Props.Alike
import Verif.Spec.Replace
import Verif.Proofs.Replace
import Verif.Props.Replace
import Verif.Spec.Typed
import Verif.Proofs.Typed
import Verif.Props.Typed
import Verif.Proofs.Ready
import Verif.Props.Ready
import Verif.Spec.Tour
import Verif.Proofs.Tour
import Verif.Props.Tour
import Verif.Spec.Rewrite
import Verif.Proofs.Rewrite
import Verif.Props.Rewrite
import Verif.Spec.Remake
import Verif.Proofs.Remake
import Verif.Props.Remake
import Verif.Model.Slices
import Verif.Proofs.Slices
import Verif.Props.Slices
