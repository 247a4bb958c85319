import Verif.Again.Alter
import Verif.Again.Atom
import Verif.Again.Create
import Verif.Again.Ddl
import Verif.Again.Ddl2
import Verif.Again.DdlWhole
import Verif.Again.Expr
import Verif.Again.Joined
import Verif.Again.Lex
import Verif.Again.Line
import Verif.Again.Main
import Verif.Again.Norm
import Verif.Again.Query
import Verif.Again.Say
import Verif.Again.SayCreate
import Verif.Again.SayInsert
import Verif.Again.SayTypes
import Verif.Again.Statements
import Verif.Again.Tables
import Verif.Again.Types
import Verif.Again.Whole
import Verif.Analysis.Certificate
import Verif.Analysis.Checked
import Verif.Analysis.Checked1
import Verif.Analysis.Checked2
import Verif.Analysis.Checked3
import Verif.Analysis.Checked4
import Verif.Analysis.Checked5
import Verif.Analysis.Domain
import Verif.Analysis.Result
import Verif.Analysis.Run
import Verif.Analysis.Sound.Ends
import Verif.Analysis.Sound.Eval
import Verif.Analysis.Sound.Expr
import Verif.Analysis.Sound.Fields
import Verif.Analysis.Sound.Func
import Verif.Analysis.Sound.Lexer
import Verif.Analysis.Sound.State
import Verif.Analysis.Sound.Stmt
import Verif.Analysis.Sound.Value
import Verif.Ast.AcceptTable
import Verif.Ast.FormatTable
import Verif.Ast.Lang
import Verif.Ast.Methods
import Verif.Ast.PosEndTable
import Verif.Ast.Schema
import Verif.Ast.Ty
import Verif.Ast.WalkTable
import Verif.Axioms
import Verif.Bytes
import Verif.Check.Golden
import Verif.Check.Learn
import Verif.Check.Main
import Verif.Check.Types
import Verif.Cli
import Verif.Complete.Alter
import Verif.Complete.Atom
import Verif.Complete.Clauses
import Verif.Complete.Columns
import Verif.Complete.Create
import Verif.Complete.Engine
import Verif.Complete.Expr
import Verif.Complete.Heads
import Verif.Complete.Insert
import Verif.Complete.Items
import Verif.Complete.Leaf
import Verif.Complete.Lists
import Verif.Complete.Main
import Verif.Complete.PartHeads
import Verif.Complete.Parts
import Verif.Complete.Prec
import Verif.Complete.Query
import Verif.Complete.Rules
import Verif.Complete.Simple
import Verif.Complete.Stmt
import Verif.Complete.Tables
import Verif.Complete.Tac
import Verif.Complete.TacRet
import Verif.Complete.Text
import Verif.Complete.Types
import Verif.Echo.All
import Verif.Echo.Count
import Verif.Echo.Elems
import Verif.Echo.Expr
import Verif.Echo.Glue
import Verif.Echo.Glue2
import Verif.Echo.Grammar
import Verif.Echo.Infix
import Verif.Echo.Infix2
import Verif.Echo.Join
import Verif.Echo.Leaf
import Verif.Echo.Lex
import Verif.Echo.Parts
import Verif.Echo.Post
import Verif.Echo.Print
import Verif.Echo.Print2
import Verif.Echo.Print3
import Verif.Echo.Print4
import Verif.Echo.Rewrite
import Verif.Echo.Rules
import Verif.Echo.Select
import Verif.Echo.Select2
import Verif.Echo.Select3
import Verif.Echo.Select4
import Verif.Echo.Stmt
import Verif.Echo.Sym
import Verif.Echo.Text
import Verif.Echo.Types
import Verif.Echo.Whole
import Verif.Echo.Window
import Verif.GoSet
import Verif.Group.Check
import Verif.Group.Hoare
import Verif.Group.Infix
import Verif.Group.Next
import Verif.Group.Run
import Verif.Group.Sig
import Verif.Group.Sound
import Verif.Group.Special
import Verif.Group.Unique
import Verif.Group.Words
import Verif.Keyword
import Verif.Lemmas.Accept
import Verif.Lemmas.AcceptTable
import Verif.Lemmas.Format
import Verif.Lemmas.Fuel
import Verif.Lemmas.Gaps
import Verif.Lemmas.Kids
import Verif.Lemmas.Lexemes
import Verif.Lemmas.Look
import Verif.Lemmas.Memo
import Verif.Lemmas.Reach
import Verif.Lemmas.Retry
import Verif.Lemmas.Safe
import Verif.Lemmas.Scan
import Verif.Lemmas.Source
import Verif.Lemmas.Token
import Verif.Lemmas.Typing
import Verif.Lemmas.Walk
import Verif.Lemmas.WalkTable
import Verif.Lexer
import Verif.Parser.Entry
import Verif.Parser.Fn
import Verif.Parser.Lang
import Verif.Parser.Table
import Verif.Parser.TableAlter
import Verif.Parser.TableColumn
import Verif.Parser.TableCommon
import Verif.Parser.TableDrop
import Verif.Parser.TableQuery
import Verif.Parser.TableSystem
import Verif.Parser.TableTable
import Verif.Parser.TableView
import Verif.Props.Again
import Verif.Props.Cli
import Verif.Props.Complete
import Verif.Props.Ddl
import Verif.Props.DdlAgain
import Verif.Props.Distinct
import Verif.Props.Format
import Verif.Props.Grouping
import Verif.Props.Joined
import Verif.Props.Lexer
import Verif.Props.Memo
import Verif.Props.Parser
import Verif.Props.Rewrite
import Verif.Props.RoundTrip
import Verif.Props.Same
import Verif.Props.Source
import Verif.Props.Statements
import Verif.Props.Steps
import Verif.Props.Tree
import Verif.Relation.Alike
import Verif.Relation.Check
import Verif.Relation.End
import Verif.Relation.Eval
import Verif.Relation.Exp
import Verif.Relation.First
import Verif.Relation.Format
import Verif.Relation.Guard
import Verif.Relation.Norm
import Verif.Relation.Result
import Verif.Relation.Sound
import Verif.Relation.Texts
import Verif.Relation.Typed
import Verif.Relation.Types
import Verif.Relation.Values
import Verif.Semi.Ahead
import Verif.Semi.Check
import Verif.Semi.Lexical
import Verif.Semi.Parts
import Verif.Semi.Run
import Verif.Semi.Segments
import Verif.Semi.Sound
import Verif.Semi.Stop
import Verif.Semi.Table
import Verif.Semi.Twin
import Verif.Source
import Verif.Spec.Core
import Verif.Spec.Ddl
import Verif.Spec.Grouping
import Verif.Spec.Items
import Verif.Spec.Kept
import Verif.Spec.Lexical
import Verif.Spec.Memo
import Verif.Spec.Orderly
import Verif.Spec.Parsed
import Verif.Spec.Plain
import Verif.Spec.Reformat
import Verif.Spec.Required
import Verif.Spec.Rewrite
import Verif.Spec.Same
import Verif.Spec.Scan
import Verif.Spec.Source
import Verif.Spec.Stmts
import Verif.Spec.Take
import Verif.Spec.Text
import Verif.Spec.Tree
import Verif.Spec.Visit
