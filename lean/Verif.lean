import Verif.Model.Base
import Verif.Model.Track
import Verif.Model.Char
import Verif.Model.Word
import Verif.Model.F64
import Verif.Model.Token
import Verif.Model.Reader
import Verif.Model.Lexer
import Verif.Model.Punc
import Verif.Model.Ast
import Verif.Model.Untrack
import Verif.Model.AstEq
import Verif.Model.Cover
import Verif.Model.Parser.Base
import Verif.Model.Parser.Grammar
import Verif.Model.Parser.Program
import Verif.Spec.Reader
import Verif.Proofs.Reader
import Verif.Props.Reader
import Verif.Spec.Lex
import Verif.Proofs.LexBase
import Verif.Proofs.LexTrivia
import Verif.Proofs.LexEscape
import Verif.Proofs.LexWord
import Verif.Proofs.LexRegExp
import Verif.Proofs.LexString
import Verif.Spec.Number
import Verif.Proofs.LexNumber
import Verif.Proofs.LexToken
import Verif.Spec.Tokens
import Verif.Proofs.LexTokens
import Verif.Spec.Env
import Verif.Proofs.LexSeq
import Verif.Proofs.LexValue
import Verif.Props.Lexer
import Verif.Props.Words
import Verif.Spec.Infix
import Verif.Proofs.Stack
import Verif.Spec.Cover
import Verif.Proofs.Cover
import Verif.Spec.Ast
import Verif.Proofs.AstSame
import Verif.Proofs.AstAgree
import Verif.Props.Syntax
import Verif.Spec.Grammar
import Verif.Proofs.Parser.Wp
import Verif.Proofs.Parser.Rules
import Verif.Proofs.Parser.Function
import Verif.Proofs.Parser.Expr
import Verif.Proofs.Parser.Lhs
import Verif.Proofs.Parser.Ops
import Verif.Proofs.Parser.Stmt
import Verif.Proofs.Parser.Items
import Verif.Proofs.Parser.Knot
import Verif.Proofs.Parser.Top
import Verif.Spec.Tree
import Verif.Proofs.Parser.Nodes
import Verif.Spec.Brackets
import Verif.Proofs.Parser.Brackets
import Verif.Proofs.Tree
import Verif.Props.Parser
import Verif.Props.Tree
import Verif.Spec.Leaves
import Verif.Proofs.Parser.Leaves
import Verif.Spec.Locations
import Verif.Proofs.Parser.Locations
import Verif.Props.Source
import Verif.Proofs.Parser.Sim
import Verif.Proofs.Parser.SimFns
import Verif.Proofs.Parser.Modes
import Verif.Props.Modes
import Verif.Spec.Cites
import Verif.Proofs.Parser.Cites
import Verif.Props.Quotes
import Verif.Spec.Cursor
import Verif.Props.Cursor
import Verif.Spec.Operators
import Verif.Props.Operators
import Verif.Props.Context
import Verif.Props.Gaps
import Verif.Model.Unjson
import Verif.Props.Unjson
import Verif.Model.Estree
import Verif.Proofs.Estree
import Verif.Spec.Estree
import Verif.Props.Estree
import Verif.Props.EstreeRead
import Verif.Spec.Double
import Verif.Proofs.Double
import Verif.Proofs.DoubleRadix
import Verif.Props.Number
import Verif.Proofs.LexSep
import Verif.Props.Trivia
import Verif.Proofs.Parser.Forward
import Verif.Proofs.Parser.First
import Verif.Proofs.Untrack
import Verif.Proofs.CoverUntrack
import Verif.Proofs.Complete.Base
import Verif.Proofs.Complete.Motive
import Verif.Proofs.Complete.Expr
import Verif.Proofs.Complete.Ops
import Verif.Proofs.Complete.Function
import Verif.Proofs.Complete.Stmt
import Verif.Proofs.Complete.For
import Verif.Proofs.Complete.Main
import Verif.Proofs.Complete.Top
import Verif.Props.Complete
import Verif.Spec.Blame
import Verif.Proofs.Parser.Blame
import Verif.Proofs.Parser.BlameFns
import Verif.Props.Blame
import Verif.Spec.Exact
import Verif.Proofs.Complete.Plain
import Verif.Proofs.Complete.Labels
import Verif.Props.Exact
import Verif.Spec.LexFault
import Verif.Proofs.LexFault
import Verif.Proofs.LexFaultEval
import Verif.Props.LexFault
import Verif.Spec.Layout
import Verif.Proofs.Blur
import Verif.Proofs.BlurCover
import Verif.Proofs.Parser.Layout
import Verif.Proofs.Parser.LayoutBase
import Verif.Proofs.Parser.LayoutVals
import Verif.Proofs.Parser.LayoutFns
import Verif.Proofs.Parser.LayoutMono
import Verif.Proofs.Parser.LayoutKnot
import Verif.Proofs.LexSwap
import Verif.Proofs.LayoutSep
import Verif.Props.Layout
import Verif.Spec.Extent
import Verif.Proofs.Parser.Extent
import Verif.Props.Extent
import Verif.Model.Text
import Verif.Spec.Text
import Verif.Proofs.Text
import Verif.Props.Text
import Verif.Spec.Prologue
import Verif.Props.Prologue
import Verif.Model.Builders
import Verif.Props.Builders
import Verif.Spec.EstreeReads
import Verif.Proofs.EstreeTells
import Verif.Proofs.EstreeTold
import Verif.Proofs.CoverInj
import Verif.Proofs.EstreeWhole
import Verif.Props.EstreeReads
import Verif.Spec.EstreeSame
import Verif.Proofs.EstreeSame
import Verif.Props.EstreeSame
import Verif.Model.EstreeText
import Verif.Spec.EstreeText
import Verif.Props.EstreeText
import Verif.Model.Derive
import Verif.Spec.Derive
import Verif.Proofs.Derive
import Verif.Props.Derive
import Verif.Model.AstDecl
import Verif.Props.AstDecl
import Verif.Spec.Prompt
import Verif.Props.Prompt
import Verif.Model.Debug
import Verif.Spec.Debug
import Verif.Props.Debug
import Verif.Spec.Join
import Verif.Proofs.Complete.Join
import Verif.Proofs.Complete.JoinText
import Verif.Props.Join
import Verif.Spec.Wrap
import Verif.Proofs.Complete.Wrap
import Verif.Proofs.Complete.WrapText
import Verif.Props.Wrap
import Verif.Props.Paren
import Verif.Proofs.Complete.Lone
import Verif.Props.Leading
import Verif.Props.Rename
import Verif.Spec.Unit
import Verif.Props.Unit
import Verif.Spec.Semis
import Verif.Props.Semis
import Verif.Spec.Closing
import Verif.Props.Closing
import Verif.Spec.Breaks
import Verif.Props.Breaks
import Verif.Spec.Nesting
import Verif.Proofs.Nesting
import Verif.Props.Nesting
import Verif.Model.DebugToken
import Verif.Spec.DebugToken
import Verif.Props.DebugToken
