/-
Generated by `lake env lean --run Verif/Check/Main.lean --learn`: what the analysis of the parser has found.
Nothing here is trusted: `Verif.Analysis.Checked` checks it.
-/
import Verif.Analysis.Run
import Verif.Parser.Fn

namespace Verif.An.Cert

/-- What holds of the fields of every struct the parser has finished (structs of parser/ast.go). -/
def need : Ty → List PNeed
  | .SelectItem => [.filled 0, .pos 0 ⟨true, some 0⟩, .end_ 0 ⟨true, some 4⟩, .pos 1 ⟨true, some 0⟩, .end_ 1 ⟨true, some (-1)⟩, .pos 2 ⟨true, some 0⟩, .end_ 2 ⟨true, some 0⟩, .own false ⟨true, some 0⟩, .own true ⟨true, some 4⟩]
  | .OperationExpr => [.bound 0 (-10), .own false ⟨true, some (-10)⟩, .own true ⟨true, some (-10)⟩]
  | .TernaryOperation => [.filled 0, .pos 0 ⟨true, some 0⟩, .end_ 0 ⟨true, some 4⟩, .filled 1, .pos 1 ⟨true, some 0⟩, .end_ 1 ⟨true, some 4⟩, .filled 2, .pos 2 ⟨true, some 0⟩, .end_ 2 ⟨true, some 4⟩, .own false ⟨true, some 0⟩, .own true ⟨true, some 4⟩]
  | .BinaryOperation => [.filled 0, .pos 0 ⟨true, some 0⟩, .end_ 0 ⟨true, some 4⟩, .filled 2, .pos 2 ⟨true, some 0⟩, .end_ 2 ⟨true, some 4⟩, .own false ⟨true, some 0⟩, .own true ⟨true, some 4⟩]
  | .IndexOperation => [.filled 0, .pos 0 ⟨true, some 0⟩, .end_ 0 ⟨true, some 4⟩, .filled 2, .pos 2 ⟨true, some 0⟩, .end_ 2 ⟨true, some 0⟩, .own false ⟨true, some 0⟩, .own true ⟨true, some 0⟩]
  | .JoinTableExpr => [.filled 0, .pos 0 ⟨true, some 0⟩, .end_ 0 ⟨true, some 4⟩, .bound 1 4, .pos 2 ⟨true, some (-6)⟩, .end_ 2 ⟨true, some 0⟩, .own false ⟨true, some 0⟩, .own true ⟨true, some 4⟩]
  | .AlterTable => [.bound 0 (-5), .bound 1 4, .filled 2, .pos 2 ⟨true, some 0⟩, .end_ 2 ⟨true, some 0⟩, .pos 3 ⟨true, some (-2)⟩, .end_ 3 ⟨true, some 0⟩, .filled 4, .pos 4 ⟨true, some (-3)⟩, .end_ 4 ⟨false, some 4⟩, .own false ⟨true, some (-5)⟩, .own true ⟨true, some 4⟩]
  | .AlterTableAttachPartition => [.bound 0 (-6), .filled 1, .pos 1 ⟨true, some (-9)⟩, .end_ 1 ⟨false, some 4⟩, .pos 2 ⟨true, some 0⟩, .end_ 2 ⟨true, some 0⟩, .own false ⟨true, some (-6)⟩, .own true ⟨false, some 4⟩]
  | .AlterTableDetachPartition => [.bound 0 (-6), .filled 1, .pos 1 ⟨true, some (-9)⟩, .end_ 1 ⟨true, some 4⟩, .pos 2 ⟨true, some 0⟩, .end_ 2 ⟨true, some 0⟩, .own false ⟨true, some (-6)⟩, .own true ⟨true, some 4⟩]
  | .AlterTableDropPartition => [.bound 0 (-4), .filled 2, .pos 2 ⟨true, some (-9)⟩, .end_ 2 ⟨true, some 4⟩, .pos 3 ⟨true, some 0⟩, .end_ 3 ⟨true, some 0⟩, .own false ⟨true, some (-4)⟩, .own true ⟨true, some 4⟩]
  | .AlterTableMaterializeProjection => [.bound 0 (-10), .bound 1 4, .filled 3, .pos 3 ⟨true, some 0⟩, .end_ 3 ⟨true, some 0⟩, .pos 4 ⟨true, some (-9)⟩, .end_ 4 ⟨false, some 4⟩, .own false ⟨true, some (-10)⟩, .own true ⟨true, some 4⟩]
  | .AlterTableMaterializeIndex => [.bound 0 (-10), .bound 1 4, .filled 3, .pos 3 ⟨true, some 0⟩, .end_ 3 ⟨true, some 0⟩, .pos 4 ⟨true, some (-9)⟩, .end_ 4 ⟨false, some 4⟩, .own false ⟨true, some (-10)⟩, .own true ⟨true, some 4⟩]
  | .AlterTableFreezePartition => [.bound 0 (-6), .bound 1 4, .pos 2 ⟨true, some (-9)⟩, .end_ 2 ⟨false, some 4⟩, .own false ⟨true, some (-6)⟩, .own true ⟨true, some 4⟩]
  | .AlterTableAddColumn => [.bound 0 (-3), .bound 1 4, .filled 2, .pos 2 ⟨true, some 0⟩, .end_ 2 ⟨true, some 4⟩, .pos 4 ⟨true, some 0⟩, .end_ 4 ⟨true, some 0⟩, .pos 5 ⟨true, some 0⟩, .end_ 5 ⟨true, some 0⟩, .own false ⟨true, some (-3)⟩, .own true ⟨true, some 4⟩]
  | .AlterTableAddIndex => [.bound 0 (-3), .bound 1 0, .filled 2, .pos 2 ⟨true, some (-5)⟩, .end_ 2 ⟨true, some 0⟩, .pos 4 ⟨true, some 0⟩, .end_ 4 ⟨true, some 0⟩, .own false ⟨true, some (-3)⟩, .own true ⟨true, some 0⟩]
  | .ProjectionOrderByClause => [.bound 0 (-5), .filled 1, .pos 1 ⟨true, some 0⟩, .end_ 1 ⟨true, some 4⟩, .own false ⟨true, some (-5)⟩, .own true ⟨true, some 4⟩]
  | .ProjectionSelectStmt => [.bound 0 (-1), .bound 1 (-1), .pos 2 ⟨true, some (-4)⟩, .end_ 2 ⟨true, some 4⟩, .filled 3, .pos 3 ⟨true, some 0⟩, .end_ 3 ⟨true, some 4⟩, .pos 4 ⟨true, some (-5)⟩, .end_ 4 ⟨true, some 4⟩, .pos 5 ⟨true, some (-5)⟩, .end_ 5 ⟨true, some 4⟩, .own false ⟨true, some (-1)⟩, .own true ⟨true, some (-1)⟩]
  | .TableProjection => [.bound 1 0, .filled 2, .pos 2 ⟨true, some 0⟩, .end_ 2 ⟨true, some 0⟩, .filled 3, .pos 3 ⟨true, some (-1)⟩, .end_ 3 ⟨true, some (-1)⟩, .own false ⟨true, some 0⟩, .own true ⟨true, some (-1)⟩]
  | .AlterTableAddProjection => [.bound 0 (-3), .bound 1 0, .filled 3, .pos 3 ⟨true, some 0⟩, .end_ 3 ⟨true, some (-1)⟩, .pos 4 ⟨true, some 0⟩, .end_ 4 ⟨true, some 0⟩, .own false ⟨true, some (-3)⟩, .own true ⟨true, some 0⟩]
  | .AlterTableDropColumn => [.bound 0 (-4), .filled 1, .pos 1 ⟨true, some 0⟩, .end_ 1 ⟨true, some 0⟩, .own false ⟨true, some (-4)⟩, .own true ⟨true, some 0⟩]
  | .AlterTableDropIndex => [.bound 0 (-4), .filled 1, .pos 1 ⟨true, some 0⟩, .end_ 1 ⟨true, some 0⟩, .own false ⟨true, some (-4)⟩, .own true ⟨true, some 0⟩]
  | .AlterTableDropProjection => [.bound 0 (-4), .filled 1, .pos 1 ⟨true, some 0⟩, .end_ 1 ⟨true, some 0⟩, .own false ⟨true, some (-4)⟩, .own true ⟨true, some 0⟩]
  | .AlterTableRemoveTTL => [.bound 0 (-6), .bound 1 0, .own false ⟨true, some (-6)⟩, .own true ⟨true, some 0⟩]
  | .AlterTableClearColumn => [.bound 0 (-5), .bound 1 4, .filled 3, .pos 3 ⟨true, some 0⟩, .end_ 3 ⟨true, some 0⟩, .pos 4 ⟨true, some (-9)⟩, .end_ 4 ⟨false, some 4⟩, .own false ⟨true, some (-5)⟩, .own true ⟨true, some 4⟩]
  | .AlterTableClearIndex => [.bound 0 (-5), .bound 1 4, .filled 3, .pos 3 ⟨true, some 0⟩, .end_ 3 ⟨true, some 0⟩, .pos 4 ⟨true, some (-9)⟩, .end_ 4 ⟨false, some 4⟩, .own false ⟨true, some (-5)⟩, .own true ⟨true, some 4⟩]
  | .AlterTableClearProjection => [.bound 0 (-5), .bound 1 4, .filled 3, .pos 3 ⟨true, some 0⟩, .end_ 3 ⟨true, some 0⟩, .pos 4 ⟨true, some (-9)⟩, .end_ 4 ⟨false, some 4⟩, .own false ⟨true, some (-5)⟩, .own true ⟨true, some 4⟩]
  | .AlterTableRenameColumn => [.bound 0 (-6), .filled 2, .pos 2 ⟨true, some 0⟩, .end_ 2 ⟨true, some 0⟩, .filled 3, .pos 3 ⟨true, some 0⟩, .end_ 3 ⟨true, some 0⟩, .own false ⟨true, some (-6)⟩, .own true ⟨true, some 0⟩]
  | .AlterTableModifyQuery => [.bound 0 (-6), .bound 1 4, .filled 2, .pos 2 ⟨true, some 0⟩, .end_ 2 ⟨true, some 4⟩, .own false ⟨true, some (-6)⟩, .own true ⟨true, some 4⟩]
  | .AlterTableModifyOrderBy => [.bound 0 (-6), .bound 1 4, .filled 2, .pos 2 ⟨true, some 0⟩, .end_ 2 ⟨true, some 4⟩, .own false ⟨true, some (-6)⟩, .own true ⟨true, some 4⟩]
  | .AlterTableModifyTTL => [.bound 0 (-6), .bound 1 4, .filled 2, .pos 2 ⟨true, some (-3)⟩, .end_ 2 ⟨true, some 4⟩, .own false ⟨true, some (-6)⟩, .own true ⟨true, some 4⟩]
  | .AlterTableModifyColumn => [.bound 0 (-6), .bound 1 4, .filled 3, .pos 3 ⟨true, some 0⟩, .end_ 3 ⟨true, some 4⟩, .pos 4 ⟨true, some (-6)⟩, .end_ 4 ⟨true, some 0⟩, .own false ⟨true, some (-6)⟩, .own true ⟨true, some 4⟩]
  | .AlterTableModifySetting => [.bound 0 (-6), .bound 1 0, .filled 2, .pos 2 ⟨true, some 0⟩, .end_ 2 ⟨true, some 0⟩, .own false ⟨true, some (-6)⟩, .own true ⟨true, some 0⟩]
  | .AlterTableResetSetting => [.bound 0 (-5), .bound 1 0, .filled 2, .pos 2 ⟨true, some 0⟩, .end_ 2 ⟨true, some 0⟩, .own false ⟨true, some (-5)⟩, .own true ⟨true, some 0⟩]
  | .AlterTableReplacePartition => [.bound 0 (-7), .filled 1, .pos 1 ⟨true, some (-9)⟩, .end_ 1 ⟨false, some 4⟩, .filled 2, .pos 2 ⟨true, some 0⟩, .end_ 2 ⟨true, some 0⟩, .own false ⟨true, some (-7)⟩, .own true ⟨true, some 0⟩]
  | .AlterTableDelete => [.bound 0 (-6), .bound 1 4, .filled 2, .pos 2 ⟨true, some 0⟩, .end_ 2 ⟨true, some 4⟩, .own false ⟨true, some (-6)⟩, .own true ⟨true, some 4⟩]
  | .AlterTableUpdate => [.bound 0 (-6), .bound 1 4, .filled 2, .pos 2 ⟨true, some 0⟩, .end_ 2 ⟨true, some 4⟩, .pos 3 ⟨true, some (-9)⟩, .end_ 3 ⟨false, some 4⟩, .filled 4, .pos 4 ⟨true, some 0⟩, .end_ 4 ⟨true, some 4⟩, .own false ⟨true, some (-6)⟩, .own true ⟨true, some 4⟩]
  | .UpdateAssignment => [.bound 0 0, .filled 1, .pos 1 ⟨true, some 0⟩, .end_ 1 ⟨true, some 0⟩, .filled 2, .pos 2 ⟨true, some 0⟩, .end_ 2 ⟨true, some 4⟩, .own false ⟨true, some 0⟩, .own true ⟨true, some 4⟩]
  | .RemovePropertyType => [.bound 0 (-6), .filled 1, .pos 1 ⟨true, some 0⟩, .end_ 1 ⟨true, some 0⟩, .own false ⟨true, some (-6)⟩, .own true ⟨true, some 0⟩]
  | .TableIndex => [.bound 0 (-5), .filled 1, .pos 1 ⟨true, some 0⟩, .end_ 1 ⟨true, some 0⟩, .filled 2, .pos 2 ⟨true, some 0⟩, .end_ 2 ⟨true, some 4⟩, .filled 3, .pos 3 ⟨true, some 0⟩, .end_ 3 ⟨true, some 0⟩, .filled 4, .pos 4 ⟨true, some 0⟩, .end_ 4 ⟨true, some 0⟩, .own false ⟨true, some (-5)⟩, .own true ⟨true, some 0⟩]
  | .Ident => [.bound 2 0, .bound 3 0, .own false ⟨true, some 0⟩, .own true ⟨true, some 0⟩]
  | .UUID => [.filled 0, .pos 0 ⟨true, some 0⟩, .end_ 0 ⟨true, some 0⟩, .own false ⟨true, some 0⟩, .own true ⟨true, some 0⟩]
  | .CreateDatabase => [.bound 0 (-6), .bound 1 4, .filled 2, .pos 2 ⟨true, some 0⟩, .end_ 2 ⟨true, some 0⟩, .pos 4 ⟨true, some (-2)⟩, .end_ 4 ⟨true, some 0⟩, .pos 5 ⟨true, some (-6)⟩, .end_ 5 ⟨true, some 4⟩, .pos 6 ⟨true, some 0⟩, .end_ 6 ⟨true, some 0⟩, .own false ⟨true, some (-6)⟩, .own true ⟨true, some 4⟩]
  | .CreateTable => [.bound 0 (-6), .bound 1 4, .filled 3, .pos 3 ⟨true, some 0⟩, .end_ 3 ⟨true, some 0⟩, .pos 5 ⟨true, some 0⟩, .end_ 5 ⟨true, some 0⟩, .pos 6 ⟨true, some (-2)⟩, .end_ 6 ⟨true, some 0⟩, .pos 7 ⟨true, some (-1)⟩, .end_ 7 ⟨true, some 1⟩, .pos 8 ⟨true, some (-6)⟩, .end_ 8 ⟨true, some 4⟩, .pos 9 ⟨true, some 0⟩, .end_ 9 ⟨true, some 4⟩, .pos 10 ⟨true, some 0⟩, .end_ 10 ⟨true, some (-1)⟩, .pos 12 ⟨true, some 0⟩, .end_ 12 ⟨true, some 0⟩, .own false ⟨true, some (-6)⟩, .own true ⟨true, some 4⟩]
  | .CreateMaterializedView => [.bound 0 (-6), .bound 1 4, .filled 2, .pos 2 ⟨true, some 0⟩, .end_ 2 ⟨true, some 0⟩, .pos 4 ⟨true, some (-2)⟩, .end_ 4 ⟨true, some 0⟩, .pos 5 ⟨true, some (-7)⟩, .end_ 5 ⟨true, some 0⟩, .pos 6 ⟨true, some 0⟩, .end_ 6 ⟨true, some 0⟩, .pos 7 ⟨true, some 0⟩, .end_ 7 ⟨true, some 0⟩, .pos 8 ⟨true, some 0⟩, .end_ 8 ⟨true, some 0⟩, .pos 10 ⟨true, some (-6)⟩, .end_ 10 ⟨true, some 4⟩, .pos 11 ⟨true, some (-1)⟩, .end_ 11 ⟨true, some 1⟩, .pos 13 ⟨true, some (-2)⟩, .end_ 13 ⟨true, some 1⟩, .pos 14 ⟨true, some 0⟩, .end_ 14 ⟨true, some 4⟩, .pos 16 ⟨true, some 0⟩, .end_ 16 ⟨true, some 0⟩, .pos 17 ⟨true, some 0⟩, .end_ 17 ⟨true, some 0⟩, .own false ⟨true, some (-6)⟩, .own true ⟨true, some 4⟩]
  | .CreateView => [.bound 0 (-6), .bound 1 4, .filled 3, .pos 3 ⟨true, some 0⟩, .end_ 3 ⟨true, some 0⟩, .pos 5 ⟨true, some 0⟩, .end_ 5 ⟨true, some 0⟩, .pos 6 ⟨true, some (-2)⟩, .end_ 6 ⟨true, some 0⟩, .pos 7 ⟨true, some (-1)⟩, .end_ 7 ⟨true, some 1⟩, .pos 8 ⟨true, some 0⟩, .end_ 8 ⟨true, some 0⟩, .pos 9 ⟨true, some 0⟩, .end_ 9 ⟨true, some 4⟩, .own false ⟨true, some (-6)⟩, .own true ⟨true, some 4⟩]
  | .CreateFunction => [.bound 0 (-6), .filled 3, .pos 3 ⟨true, some 0⟩, .end_ 3 ⟨true, some 0⟩, .pos 4 ⟨true, some (-2)⟩, .end_ 4 ⟨true, some 0⟩, .filled 5, .pos 5 ⟨true, some (-1)⟩, .end_ 5 ⟨true, some (-1)⟩, .filled 6, .pos 6 ⟨true, some 0⟩, .end_ 6 ⟨true, some 4⟩, .own false ⟨true, some (-6)⟩, .own true ⟨true, some 4⟩]
  | .RoleName => [.filled 0, .pos 0 ⟨true, some 0⟩, .end_ 0 ⟨true, some 0⟩, .pos 1 ⟨true, some 0⟩, .end_ 1 ⟨true, some 0⟩, .pos 2 ⟨true, some (-2)⟩, .end_ 2 ⟨true, some 0⟩, .own false ⟨true, some 0⟩, .own true ⟨true, some 0⟩]
  | .SettingPair => [.filled 0, .pos 0 ⟨true, some 0⟩, .end_ 0 ⟨true, some 0⟩, .pos 2 ⟨true, some 0⟩, .end_ 2 ⟨true, some 0⟩, .own false ⟨true, some 0⟩, .own true ⟨false, some 0⟩]
  | .RoleSetting => [.pos 0 ⟨true, some 0⟩, .end_ 0 ⟨false, some 0⟩, .pos 1 ⟨true, some 0⟩, .end_ 1 ⟨true, some 0⟩, .own false ⟨false, some 0⟩, .own true ⟨false, some 0⟩]
  | .CreateRole => [.bound 0 (-6), .bound 1 0, .filled 4, .pos 4 ⟨true, some 0⟩, .end_ 4 ⟨true, some 0⟩, .pos 5 ⟨true, some 0⟩, .end_ 5 ⟨true, some 0⟩, .pos 6 ⟨false, some 0⟩, .end_ 6 ⟨false, some 0⟩, .own false ⟨true, some (-6)⟩, .own true ⟨true, some 0⟩]
  | .AuthenticationClause => [.bound 0 (-3), .bound 1 0, .pos 4 ⟨true, some 0⟩, .end_ 4 ⟨true, some 0⟩, .pos 5 ⟨true, some 0⟩, .end_ 5 ⟨true, some 0⟩, .pos 6 ⟨true, some 0⟩, .end_ 6 ⟨true, some 0⟩, .own false ⟨true, some (-3)⟩, .own true ⟨true, some 0⟩]
  | .HostClause => [.bound 0 (-4), .bound 1 0, .pos 3 ⟨true, some 0⟩, .end_ 3 ⟨true, some 0⟩, .own false ⟨true, some (-4)⟩, .own true ⟨true, some 0⟩]
  | .DefaultRoleClause => [.bound 0 (-7), .bound 1 0, .pos 2 ⟨true, some 0⟩, .end_ 2 ⟨true, some 0⟩, .own false ⟨true, some (-7)⟩, .own true ⟨true, some 0⟩]
  | .GranteesClause => [.bound 0 (-8), .bound 1 0, .pos 2 ⟨true, some 0⟩, .end_ 2 ⟨true, some 0⟩, .pos 3 ⟨true, some 0⟩, .end_ 3 ⟨true, some 0⟩, .own false ⟨true, some (-8)⟩, .own true ⟨true, some 0⟩]
  | .CreateUser => [.bound 0 (-6), .bound 1 0, .pos 4 ⟨true, some 0⟩, .end_ 4 ⟨true, some 0⟩, .pos 5 ⟨true, some (-3)⟩, .end_ 5 ⟨true, some 0⟩, .pos 6 ⟨true, some 0⟩, .end_ 6 ⟨true, some 0⟩, .pos 7 ⟨true, some (-4)⟩, .end_ 7 ⟨true, some 0⟩, .pos 8 ⟨true, some (-7)⟩, .end_ 8 ⟨true, some 0⟩, .pos 9 ⟨true, some 0⟩, .end_ 9 ⟨true, some 0⟩, .pos 11 ⟨true, some (-8)⟩, .end_ 11 ⟨true, some 0⟩, .pos 12 ⟨false, some 0⟩, .end_ 12 ⟨false, some 0⟩, .own false ⟨true, some (-6)⟩, .own true ⟨true, some 0⟩]
  | .AlterRole => [.bound 0 (-5), .bound 1 0, .filled 3, .pos 3 ⟨true, some 0⟩, .end_ 3 ⟨true, some 0⟩, .pos 4 ⟨false, some 0⟩, .end_ 4 ⟨false, some 0⟩, .own false ⟨true, some (-5)⟩, .own true ⟨true, some 0⟩]
  | .RoleRenamePair => [.filled 0, .pos 0 ⟨true, some 0⟩, .end_ 0 ⟨true, some 0⟩, .pos 1 ⟨true, some 0⟩, .end_ 1 ⟨true, some 0⟩, .bound 2 0, .own false ⟨true, some 0⟩, .own true ⟨true, some 0⟩]
  | .DestinationClause => [.bound 0 (-2), .filled 1, .pos 1 ⟨true, some 0⟩, .end_ 1 ⟨true, some 0⟩, .pos 2 ⟨true, some (-1)⟩, .end_ 2 ⟨true, some 1⟩, .own false ⟨true, some (-2)⟩, .own true ⟨true, some 1⟩]
  | .ConstraintClause => [.bound 0 (-10), .filled 1, .pos 1 ⟨true, some 0⟩, .end_ 1 ⟨true, some 0⟩, .filled 2, .pos 2 ⟨true, some 0⟩, .end_ 2 ⟨true, some 4⟩, .own false ⟨true, some (-10)⟩, .own true ⟨true, some 4⟩]
  | .NullLiteral => [.bound 0 (-4), .own false ⟨true, some (-4)⟩, .own true ⟨true, some 0⟩]
  | .NotNullLiteral => [.bound 0 (-3), .filled 1, .pos 1 ⟨true, some (-4)⟩, .end_ 1 ⟨true, some 0⟩, .own false ⟨true, some (-3)⟩, .own true ⟨true, some 0⟩]
  | .NestedIdentifier => [.filled 0, .pos 0 ⟨true, some 0⟩, .end_ 0 ⟨true, some 0⟩, .pos 1 ⟨true, some 0⟩, .end_ 1 ⟨true, some 0⟩, .own false ⟨true, some 0⟩, .own true ⟨true, some 0⟩]
  | .Path => [.filled 0, .pos 0 ⟨true, some 0⟩, .end_ 0 ⟨true, some 0⟩, .own false ⟨true, some 0⟩, .own true ⟨true, some 0⟩]
  | .TableIdentifier => [.pos 0 ⟨true, some 0⟩, .end_ 0 ⟨true, some 0⟩, .filled 1, .pos 1 ⟨true, some 0⟩, .end_ 1 ⟨true, some 0⟩, .own false ⟨true, some 0⟩, .own true ⟨true, some 0⟩]
  | .TableSchemaClause => [.bound 0 (-1), .bound 1 1, .pos 2 ⟨true, some 0⟩, .end_ 2 ⟨true, some 4⟩, .pos 3 ⟨true, some 0⟩, .end_ 3 ⟨true, some 0⟩, .pos 4 ⟨true, some 0⟩, .end_ 4 ⟨true, some (-1)⟩, .own false ⟨true, some (-1)⟩, .own true ⟨true, some 1⟩]
  | .TableArgListExpr => [.bound 0 0, .bound 1 (-1), .pos 2 ⟨true, some 0⟩, .end_ 2 ⟨true, some 4⟩, .own false ⟨true, some 0⟩, .own true ⟨true, some (-1)⟩]
  | .TableFunctionExpr => [.filled 0, .pos 0 ⟨true, some 0⟩, .end_ 0 ⟨true, some 0⟩, .filled 1, .pos 1 ⟨true, some 0⟩, .end_ 1 ⟨true, some (-1)⟩, .own false ⟨true, some 0⟩, .own true ⟨true, some (-1)⟩]
  | .ClusterClause => [.bound 0 (-2), .filled 1, .pos 1 ⟨true, some 0⟩, .end_ 1 ⟨true, some 0⟩, .own false ⟨true, some (-2)⟩, .own true ⟨true, some 0⟩]
  | .PartitionClause => [.bound 0 (-9), .pos 1 ⟨true, some 0⟩, .end_ 1 ⟨true, some 4⟩, .pos 2 ⟨true, some 0⟩, .end_ 2 ⟨true, some 0⟩, .own false ⟨true, some (-9)⟩, .own true ⟨false, some 4⟩]
  | .PartitionByClause => [.bound 0 (-1), .filled 1, .pos 1 ⟨true, some 0⟩, .end_ 1 ⟨true, some 4⟩, .own false ⟨true, some (-1)⟩, .own true ⟨true, some 4⟩]
  | .PrimaryKeyClause => [.bound 0 (-7), .filled 1, .pos 1 ⟨true, some 0⟩, .end_ 1 ⟨true, some 4⟩, .own false ⟨true, some (-7)⟩, .own true ⟨true, some 4⟩]
  | .SampleByClause => [.bound 0 (-6), .filled 1, .pos 1 ⟨true, some 0⟩, .end_ 1 ⟨true, some 4⟩, .own false ⟨true, some (-6)⟩, .own true ⟨true, some 4⟩]
  | .TTLPolicyRuleAction => [.bound 0 (-6), .bound 1 0, .pos 3 ⟨true, some (-5)⟩, .end_ 3 ⟨true, some 1⟩, .own false ⟨true, some (-6)⟩, .own true ⟨true, some 1⟩]
  | .RefreshExpr => [.bound 0 (-7), .filled 2, .pos 2 ⟨true, some 0⟩, .end_ 2 ⟨true, some 0⟩, .pos 3 ⟨true, some 0⟩, .end_ 3 ⟨true, some 0⟩, .own false ⟨true, some (-7)⟩, .own true ⟨true, some 0⟩]
  | .TTLPolicyRule => [.bound 0 (-2), .pos 1 ⟨true, some 0⟩, .end_ 1 ⟨true, some 0⟩, .pos 2 ⟨true, some 0⟩, .end_ 2 ⟨true, some 0⟩, .pos 3 ⟨true, some (-6)⟩, .end_ 3 ⟨true, some 1⟩, .own false ⟨true, some (-2)⟩, .own true ⟨true, some 1⟩]
  | .TTLPolicy => [.filled 0, .pos 0 ⟨true, some (-2)⟩, .end_ 0 ⟨true, some 1⟩, .pos 1 ⟨true, some (-5)⟩, .end_ 1 ⟨true, some 4⟩, .pos 2 ⟨true, some (-5)⟩, .end_ 2 ⟨true, some 4⟩, .own false ⟨true, some (-2)⟩, .own true ⟨true, some 4⟩]
  | .TTLExpr => [.bound 0 (-3), .filled 1, .pos 1 ⟨true, some 0⟩, .end_ 1 ⟨true, some 4⟩, .pos 2 ⟨true, some (-2)⟩, .end_ 2 ⟨true, some 4⟩, .own false ⟨true, some (-3)⟩, .own true ⟨true, some 4⟩]
  | .TTLClause => [.bound 0 (-3), .bound 1 4, .pos 2 ⟨true, some (-3)⟩, .end_ 2 ⟨true, some 4⟩, .own false ⟨true, some (-3)⟩, .own true ⟨true, some 4⟩]
  | .Fill => [.bound 0 0, .pos 1 ⟨true, some 0⟩, .end_ 1 ⟨true, some 4⟩, .pos 2 ⟨true, some 0⟩, .end_ 2 ⟨true, some 4⟩, .pos 3 ⟨true, some 0⟩, .end_ 3 ⟨true, some 4⟩, .pos 4 ⟨true, some 0⟩, .end_ 4 ⟨true, some 4⟩, .own false ⟨true, some 0⟩, .own true ⟨true, some 4⟩]
  | .OrderExpr => [.bound 0 (-5), .filled 1, .pos 1 ⟨true, some 0⟩, .end_ 1 ⟨true, some 4⟩, .pos 2 ⟨true, some 0⟩, .end_ 2 ⟨true, some 0⟩, .pos 4 ⟨true, some 0⟩, .end_ 4 ⟨true, some 4⟩, .own false ⟨true, some (-5)⟩, .own true ⟨true, some 4⟩]
  | .InterpolateItem => [.filled 0, .pos 0 ⟨true, some 0⟩, .end_ 0 ⟨true, some 0⟩, .pos 1 ⟨true, some 0⟩, .end_ 1 ⟨true, some 4⟩, .own false ⟨true, some 0⟩, .own true ⟨true, some 4⟩]
  | .InterpolateClause => [.bound 0 (-10), .bound 1 0, .pos 2 ⟨true, some 0⟩, .end_ 2 ⟨true, some 4⟩, .own false ⟨true, some (-10)⟩, .own true ⟨true, some 0⟩]
  | .OrderByClause => [.bound 0 (-5), .bound 1 4, .pos 2 ⟨true, some (-5)⟩, .end_ 2 ⟨true, some 4⟩, .pos 3 ⟨true, some (-10)⟩, .end_ 3 ⟨true, some 0⟩, .own false ⟨true, some (-5)⟩, .own true ⟨true, some 4⟩]
  | .SettingExpr => [.bound 0 0, .filled 1, .pos 1 ⟨true, some 0⟩, .end_ 1 ⟨true, some 0⟩, .filled 2, .pos 2 ⟨true, some 0⟩, .end_ 2 ⟨true, some 0⟩, .own false ⟨true, some 0⟩, .own true ⟨true, some 0⟩]
  | .SettingsClause => [.bound 0 0, .bound 1 0, .pos 2 ⟨true, some 0⟩, .end_ 2 ⟨true, some 0⟩, .own false ⟨true, some 0⟩, .own true ⟨true, some 0⟩]
  | .ParamExprList => [.bound 0 (-1), .bound 1 (-1), .filled 2, .pos 2 ⟨true, some 0⟩, .end_ 2 ⟨true, some 4⟩, .pos 3 ⟨true, some (-1)⟩, .end_ 3 ⟨true, some (-1)⟩, .own false ⟨true, some (-1)⟩, .own true ⟨true, some (-1)⟩]
  | .KeyValue => [.pos 0 ⟨true, some 0⟩, .end_ 0 ⟨true, some 0⟩, .filled 1, .pos 1 ⟨true, some 0⟩, .end_ 1 ⟨true, some 4⟩, .own false ⟨true, some 0⟩, .own true ⟨true, some 0⟩]
  | .MapLiteral => [.bound 0 (-1), .bound 1 (-1), .pos 2 ⟨true, some 0⟩, .end_ 2 ⟨true, some 0⟩, .own false ⟨true, some (-1)⟩, .own true ⟨true, some (-1)⟩]
  | .NamedParameterExpr => [.bound 0 0, .filled 1, .pos 1 ⟨true, some 0⟩, .end_ 1 ⟨true, some 0⟩, .filled 2, .pos 2 ⟨true, some 0⟩, .end_ 2 ⟨true, some 4⟩, .own false ⟨true, some 0⟩, .own true ⟨true, some 4⟩]
  | .QueryParam => [.bound 0 (-1), .bound 1 (-1), .filled 2, .pos 2 ⟨true, some 0⟩, .end_ 2 ⟨true, some 0⟩, .filled 3, .pos 3 ⟨true, some 0⟩, .end_ 3 ⟨true, some 0⟩, .own false ⟨true, some (-1)⟩, .own true ⟨true, some (-1)⟩]
  | .ArrayParamList => [.bound 0 (-1), .bound 1 (-1), .filled 2, .pos 2 ⟨true, some 0⟩, .end_ 2 ⟨true, some 4⟩, .own false ⟨true, some (-1)⟩, .own true ⟨true, some (-1)⟩]
  | .ObjectParams => [.filled 0, .pos 0 ⟨true, some 0⟩, .end_ 0 ⟨true, some 4⟩, .filled 1, .pos 1 ⟨true, some (-1)⟩, .end_ 1 ⟨true, some (-1)⟩, .own false ⟨true, some 0⟩, .own true ⟨true, some (-1)⟩]
  | .FunctionExpr => [.filled 0, .pos 0 ⟨true, some 0⟩, .end_ 0 ⟨true, some 0⟩, .pos 1 ⟨true, some (-1)⟩, .end_ 1 ⟨true, some (-1)⟩, .own false ⟨true, some 0⟩, .own true ⟨false, some 0⟩]
  | .WindowFunctionExpr => [.filled 0, .pos 0 ⟨true, some 0⟩, .end_ 0 ⟨true, some (-1)⟩, .bound 1 (-4), .filled 2, .pos 2 ⟨true, some 0⟩, .end_ 2 ⟨true, some 0⟩, .own false ⟨true, some 0⟩, .own true ⟨true, some 0⟩]
  | .TypedPlaceholder => [.bound 0 (-1), .bound 1 0, .filled 2, .pos 2 ⟨true, some 0⟩, .end_ 2 ⟨true, some 0⟩, .filled 3, .pos 3 ⟨true, some 0⟩, .end_ 3 ⟨true, some 0⟩, .own false ⟨true, some (-1)⟩, .own true ⟨true, some 0⟩]
  | .ColumnExpr => [.filled 0, .pos 0 ⟨true, some 0⟩, .end_ 0 ⟨true, some 4⟩, .pos 1 ⟨true, some 0⟩, .end_ 1 ⟨true, some 0⟩, .own false ⟨true, some 0⟩, .own true ⟨true, some 4⟩]
  | .ColumnDef => [.bound 0 0, .bound 1 4, .filled 2, .pos 2 ⟨true, some 0⟩, .end_ 2 ⟨true, some 0⟩, .pos 3 ⟨true, some 0⟩, .end_ 3 ⟨true, some 0⟩, .pos 4 ⟨true, some (-3)⟩, .end_ 4 ⟨true, some 0⟩, .pos 5 ⟨true, some (-4)⟩, .end_ 5 ⟨true, some 0⟩, .pos 6 ⟨true, some 0⟩, .end_ 6 ⟨true, some 4⟩, .pos 7 ⟨true, some 0⟩, .end_ 7 ⟨true, some 4⟩, .pos 8 ⟨true, some 0⟩, .end_ 8 ⟨true, some 4⟩, .pos 9 ⟨true, some (-5)⟩, .end_ 9 ⟨true, some 1⟩, .pos 10 ⟨true, some (-3)⟩, .end_ 10 ⟨true, some 4⟩, .pos 11 ⟨true, some 0⟩, .end_ 11 ⟨true, some 0⟩, .pos 12 ⟨true, some (-10)⟩, .end_ 12 ⟨true, some (-10)⟩, .own false ⟨true, some 0⟩, .own true ⟨true, some 4⟩]
  | .ScalarType => [.filled 0, .pos 0 ⟨true, some 0⟩, .end_ 0 ⟨true, some 0⟩, .own false ⟨true, some 0⟩, .own true ⟨true, some 0⟩]
  | .JSONPath => [.filled 0, .pos 0 ⟨true, some 0⟩, .end_ 0 ⟨true, some 0⟩, .own false ⟨true, some 0⟩, .own true ⟨true, some 0⟩]
  | .JSONTypeHint => [.filled 0, .pos 0 ⟨true, some 0⟩, .end_ 0 ⟨true, some 0⟩, .filled 1, .pos 1 ⟨true, some 0⟩, .end_ 1 ⟨true, some 0⟩, .own false ⟨true, some 0⟩, .own true ⟨true, some 0⟩]
  | .JSONOption => [.pos 0 ⟨true, some 0⟩, .end_ 0 ⟨true, some 0⟩, .pos 1 ⟨true, some 0⟩, .end_ 1 ⟨true, some 0⟩, .pos 2 ⟨true, some 0⟩, .end_ 2 ⟨true, some 0⟩, .pos 3 ⟨true, some 0⟩, .end_ 3 ⟨true, some 0⟩, .pos 4 ⟨true, some 0⟩, .end_ 4 ⟨true, some 0⟩, .own false ⟨true, some 0⟩, .own true ⟨true, some 0⟩]
  | .JSONOptions => [.bound 0 0, .bound 1 (-1), .pos 2 ⟨true, some 0⟩, .end_ 2 ⟨true, some 0⟩, .own false ⟨true, some 0⟩, .own true ⟨true, some (-1)⟩]
  | .JSONType => [.filled 0, .pos 0 ⟨true, some 0⟩, .end_ 0 ⟨true, some 0⟩, .pos 1 ⟨true, some 0⟩, .end_ 1 ⟨true, some (-1)⟩, .own false ⟨true, some 0⟩, .own true ⟨true, some 0⟩]
  | .PropertyType => [.filled 0, .pos 0 ⟨true, some 0⟩, .end_ 0 ⟨true, some 0⟩, .own false ⟨true, some 0⟩, .own true ⟨true, some 0⟩]
  | .TypeWithParams => [.bound 0 0, .bound 1 (-1), .filled 2, .pos 2 ⟨true, some 0⟩, .end_ 2 ⟨true, some 0⟩, .pos 3 ⟨true, some 0⟩, .end_ 3 ⟨true, some 0⟩, .own false ⟨true, some 0⟩, .own true ⟨true, some (-1)⟩]
  | .ComplexType => [.bound 0 0, .bound 1 (-1), .filled 2, .pos 2 ⟨true, some 0⟩, .end_ 2 ⟨true, some 0⟩, .pos 3 ⟨true, some 0⟩, .end_ 3 ⟨true, some 0⟩, .own false ⟨true, some 0⟩, .own true ⟨true, some (-1)⟩]
  | .NestedType => [.bound 0 0, .bound 1 (-1), .filled 2, .pos 2 ⟨true, some 0⟩, .end_ 2 ⟨true, some 0⟩, .pos 3 ⟨true, some 0⟩, .end_ 3 ⟨true, some 0⟩, .own false ⟨true, some 0⟩, .own true ⟨true, some (-1)⟩]
  | .CompressionCodec => [.bound 0 (-5), .bound 1 1, .pos 2 ⟨true, some 0⟩, .end_ 2 ⟨true, some 0⟩, .pos 3 ⟨true, some 0⟩, .end_ 3 ⟨true, some 0⟩, .filled 4, .pos 4 ⟨true, some 0⟩, .end_ 4 ⟨true, some 0⟩, .pos 5 ⟨true, some 0⟩, .end_ 5 ⟨true, some 0⟩, .own false ⟨true, some (-5)⟩, .own true ⟨true, some 1⟩]
  | .NumberLiteral => [.bound 0 0, .bound 1 0, .own false ⟨true, some 0⟩, .own true ⟨true, some 0⟩]
  | .StringLiteral => [.bound 0 0, .bound 1 0, .own false ⟨true, some 0⟩, .own true ⟨true, some 0⟩]
  | .BoolLiteral => [.bound 0 (-4), .bound 1 0, .own false ⟨true, some (-4)⟩, .own true ⟨true, some 0⟩]
  | .PlaceHolder => [.bound 0 0, .bound 1 0, .own false ⟨true, some 0⟩, .own true ⟨true, some 0⟩]
  | .RatioExpr => [.filled 0, .pos 0 ⟨true, some 0⟩, .end_ 0 ⟨true, some 0⟩, .pos 1 ⟨true, some 0⟩, .end_ 1 ⟨true, some 0⟩, .own false ⟨true, some 0⟩, .own true ⟨true, some 0⟩]
  | .EnumValue => [.filled 0, .pos 0 ⟨true, some 0⟩, .end_ 0 ⟨true, some 0⟩, .filled 1, .pos 1 ⟨true, some 0⟩, .end_ 1 ⟨true, some 0⟩, .own false ⟨true, some 0⟩, .own true ⟨true, some 0⟩]
  | .EnumType => [.filled 0, .pos 0 ⟨true, some 0⟩, .end_ 0 ⟨true, some 0⟩, .bound 1 0, .bound 2 0, .pos 3 ⟨true, some 0⟩, .end_ 3 ⟨true, some 0⟩, .own false ⟨true, some 0⟩, .own true ⟨true, some 0⟩]
  | .IntervalExpr => [.bound 0 0, .filled 1, .pos 1 ⟨true, some 0⟩, .end_ 1 ⟨true, some 4⟩, .filled 2, .pos 2 ⟨true, some 0⟩, .end_ 2 ⟨true, some 0⟩, .own false ⟨true, some 0⟩, .own true ⟨true, some 0⟩]
  | .EngineExpr => [.bound 0 (-6), .bound 1 4, .pos 3 ⟨true, some (-1)⟩, .end_ 3 ⟨true, some (-1)⟩, .pos 4 ⟨true, some (-7)⟩, .end_ 4 ⟨true, some 4⟩, .pos 5 ⟨true, some (-9)⟩, .end_ 5 ⟨true, some 4⟩, .pos 6 ⟨true, some (-6)⟩, .end_ 6 ⟨true, some 4⟩, .pos 7 ⟨true, some (-3)⟩, .end_ 7 ⟨true, some 4⟩, .pos 8 ⟨true, some 0⟩, .end_ 8 ⟨true, some 0⟩, .pos 9 ⟨true, some (-5)⟩, .end_ 9 ⟨true, some 4⟩, .own false ⟨true, some (-6)⟩, .own true ⟨true, some 4⟩]
  | .ColumnTypeExpr => [.filled 0, .pos 0 ⟨true, some (-10)⟩, .end_ 0 ⟨true, some (-10)⟩, .own false ⟨true, some (-10)⟩, .own true ⟨true, some (-10)⟩]
  | .ColumnArgList => [.bound 1 (-1), .bound 2 (-1), .pos 3 ⟨true, some 0⟩, .end_ 3 ⟨true, some 4⟩, .own false ⟨true, some (-1)⟩, .own true ⟨true, some (-1)⟩]
  | .ColumnExprList => [.bound 0 0, .bound 1 4, .pos 3 ⟨true, some 0⟩, .end_ 3 ⟨true, some 4⟩, .own false ⟨true, some 0⟩, .own true ⟨true, some 4⟩]
  | .WhenClause => [.bound 0 (-4), .bound 1 (-4), .filled 2, .pos 2 ⟨true, some 0⟩, .end_ 2 ⟨true, some 4⟩, .filled 3, .pos 3 ⟨true, some 0⟩, .end_ 3 ⟨true, some 4⟩, .bound 4 0, .pos 5 ⟨true, some (-10)⟩, .end_ 5 ⟨true, some (-10)⟩, .own false ⟨true, some (-4)⟩, .own true ⟨true, some 4⟩]
  | .CaseExpr => [.bound 0 0, .bound 1 0, .pos 2 ⟨true, some 0⟩, .end_ 2 ⟨true, some 4⟩, .pos 3 ⟨true, some (-4)⟩, .end_ 3 ⟨true, some 4⟩, .bound 4 0, .pos 5 ⟨true, some 0⟩, .end_ 5 ⟨true, some 4⟩, .own false ⟨true, some 0⟩, .own true ⟨true, some 0⟩]
  | .CastExpr => [.bound 0 0, .filled 1, .pos 1 ⟨true, some 0⟩, .end_ 1 ⟨true, some 4⟩, .bound 3 (-1), .filled 4, .pos 4 ⟨true, some 0⟩, .end_ 4 ⟨true, some 0⟩, .own false ⟨true, some 0⟩, .own true ⟨true, some 0⟩]
  | .WithClause => [.bound 0 (-4), .bound 1 4, .filled 2, .pos 2 ⟨true, some 0⟩, .end_ 2 ⟨true, some 4⟩, .own false ⟨true, some (-4)⟩, .own true ⟨true, some 4⟩]
  | .TopClause => [.bound 0 (-3), .bound 1 1, .filled 2, .pos 2 ⟨true, some 0⟩, .end_ 2 ⟨true, some 0⟩, .own false ⟨true, some (-3)⟩, .own true ⟨true, some 1⟩]
  | .CreateLiveView => [.bound 0 (-6), .bound 1 4, .filled 2, .pos 2 ⟨true, some 0⟩, .end_ 2 ⟨true, some 0⟩, .pos 4 ⟨true, some 0⟩, .end_ 4 ⟨true, some 0⟩, .pos 5 ⟨true, some (-2)⟩, .end_ 5 ⟨true, some 0⟩, .pos 6 ⟨true, some (-2)⟩, .end_ 6 ⟨true, some 0⟩, .pos 7 ⟨true, some (-1)⟩, .end_ 7 ⟨true, some 1⟩, .pos 8 ⟨true, some (-4)⟩, .end_ 8 ⟨true, some 0⟩, .pos 9 ⟨true, some 0⟩, .end_ 9 ⟨true, some 4⟩, .own false ⟨true, some (-6)⟩, .own true ⟨true, some 4⟩]
  | .CreateDictionary => [.bound 0 (-6), .bound 1 0, .filled 3, .pos 3 ⟨true, some 0⟩, .end_ 3 ⟨true, some 0⟩, .pos 5 ⟨true, some 0⟩, .end_ 5 ⟨true, some 0⟩, .pos 6 ⟨true, some (-2)⟩, .end_ 6 ⟨true, some 0⟩, .filled 7, .pos 7 ⟨true, some (-1)⟩, .end_ 7 ⟨true, some 0⟩, .filled 8, .pos 8 ⟨true, some 0⟩, .end_ 8 ⟨true, some 0⟩, .pos 9 ⟨true, some 0⟩, .end_ 9 ⟨true, some 0⟩, .own false ⟨true, some (-6)⟩, .own true ⟨true, some 0⟩]
  | .CreateNamedCollection => [.bound 0 (-6), .bound 1 0, .filled 2, .pos 2 ⟨true, some 0⟩, .end_ 2 ⟨true, some 0⟩, .pos 4 ⟨true, some (-2)⟩, .end_ 4 ⟨true, some 0⟩, .pos 5 ⟨true, some 0⟩, .end_ 5 ⟨true, some 0⟩, .own false ⟨true, some (-6)⟩, .own true ⟨true, some 0⟩]
  | .NamedCollectionParam => [.bound 0 0, .filled 1, .pos 1 ⟨true, some 0⟩, .end_ 1 ⟨true, some 0⟩, .filled 2, .pos 2 ⟨true, some 0⟩, .end_ 2 ⟨true, some 0⟩, .own false ⟨true, some 0⟩, .own true ⟨true, some 0⟩]
  | .DictionarySchemaClause => [.bound 0 (-1), .filled 1, .pos 1 ⟨true, some 0⟩, .end_ 1 ⟨true, some 4⟩, .bound 2 (-1), .own false ⟨true, some (-1)⟩, .own true ⟨true, some 0⟩]
  | .DictionaryAttribute => [.bound 0 0, .bound 1 4, .filled 2, .pos 2 ⟨true, some 0⟩, .end_ 2 ⟨true, some 0⟩, .filled 3, .pos 3 ⟨true, some 0⟩, .end_ 3 ⟨true, some 0⟩, .pos 4 ⟨true, some 0⟩, .end_ 4 ⟨true, some 0⟩, .pos 5 ⟨true, some 0⟩, .end_ 5 ⟨true, some 4⟩, .own false ⟨true, some 0⟩, .own true ⟨true, some 4⟩]
  | .DictionaryEngineClause => [.bound 0 0, .pos 1 ⟨true, some (-7)⟩, .end_ 1 ⟨true, some 5⟩, .filled 2, .pos 2 ⟨true, some (-6)⟩, .end_ 2 ⟨true, some 0⟩, .pos 3 ⟨true, some (-8)⟩, .end_ 3 ⟨true, some 0⟩, .pos 4 ⟨true, some (-6)⟩, .end_ 4 ⟨true, some 0⟩, .pos 5 ⟨true, some (-5)⟩, .end_ 5 ⟨true, some 0⟩, .pos 6 ⟨true, some (-8)⟩, .end_ 6 ⟨true, some 0⟩, .own false ⟨true, some 0⟩, .own true ⟨true, some 0⟩]
  | .DictionaryPrimaryKeyClause => [.bound 0 (-7), .filled 1, .pos 1 ⟨true, some 0⟩, .end_ 1 ⟨true, some 4⟩, .bound 2 4, .own false ⟨true, some (-7)⟩, .own true ⟨true, some 5⟩]
  | .DictionarySourceClause => [.bound 0 (-6), .filled 1, .pos 1 ⟨true, some 0⟩, .end_ 1 ⟨true, some 0⟩, .pos 2 ⟨true, some 0⟩, .end_ 2 ⟨false, some 0⟩, .bound 3 (-1), .own false ⟨true, some (-6)⟩, .own true ⟨true, some 0⟩]
  | .DictionaryArgExpr => [.bound 0 0, .filled 1, .pos 1 ⟨true, some 0⟩, .end_ 1 ⟨true, some 0⟩, .pos 2 ⟨true, some 0⟩, .end_ 2 ⟨false, some 0⟩, .pos 3 ⟨true, some 0⟩, .end_ 3 ⟨false, some 0⟩, .bound 4 0, .bound 5 0, .own false ⟨true, some 0⟩, .own true ⟨false, some 0⟩]
  | .DictionaryLifetimeClause => [.bound 0 (-8), .pos 1 ⟨true, some 0⟩, .end_ 1 ⟨true, some 0⟩, .pos 2 ⟨true, some 0⟩, .end_ 2 ⟨true, some 0⟩, .pos 3 ⟨true, some 0⟩, .end_ 3 ⟨true, some 0⟩, .bound 4 (-1), .own false ⟨true, some (-8)⟩, .own true ⟨true, some 0⟩]
  | .DictionaryLayoutClause => [.bound 0 (-6), .filled 1, .pos 1 ⟨true, some 0⟩, .end_ 1 ⟨true, some 0⟩, .pos 2 ⟨true, some 0⟩, .end_ 2 ⟨false, some 0⟩, .bound 3 (-1), .own false ⟨true, some (-6)⟩, .own true ⟨true, some 0⟩]
  | .DictionaryRangeClause => [.bound 0 (-5), .filled 1, .pos 1 ⟨true, some 0⟩, .end_ 1 ⟨true, some 0⟩, .filled 2, .pos 2 ⟨true, some 0⟩, .end_ 2 ⟨true, some 0⟩, .bound 3 (-1), .own false ⟨true, some (-5)⟩, .own true ⟨true, some 0⟩]
  | .WithTimeoutClause => [.bound 0 (-4), .pos 1 ⟨true, some (-10)⟩, .end_ 1 ⟨true, some (-10)⟩, .pos 2 ⟨true, some 0⟩, .end_ 2 ⟨true, some 0⟩, .own false ⟨true, some (-4)⟩, .own true ⟨true, some 0⟩]
  | .TableExpr => [.bound 0 0, .bound 1 4, .pos 2 ⟨true, some (-10)⟩, .end_ 2 ⟨true, some (-10)⟩, .filled 3, .pos 3 ⟨true, some 0⟩, .end_ 3 ⟨true, some 4⟩, .own false ⟨true, some 0⟩, .own true ⟨true, some 4⟩]
  | .OnClause => [.bound 0 (-2), .filled 1, .pos 1 ⟨true, some 0⟩, .end_ 1 ⟨true, some 4⟩, .own false ⟨true, some (-2)⟩, .own true ⟨true, some 4⟩]
  | .UsingClause => [.bound 0 (-5), .filled 1, .pos 1 ⟨true, some 0⟩, .end_ 1 ⟨true, some 4⟩, .own false ⟨true, some (-5)⟩, .own true ⟨true, some 4⟩]
  | .JoinExpr => [.bound 0 0, .filled 1, .pos 1 ⟨true, some 0⟩, .end_ 1 ⟨true, some 4⟩, .pos 2 ⟨true, some 0⟩, .end_ 2 ⟨true, some 4⟩, .pos 4 ⟨true, some (-2)⟩, .end_ 4 ⟨true, some 4⟩, .own false ⟨true, some 0⟩, .own true ⟨true, some 4⟩]
  | .JoinConstraintClause => [.either 1 2, .bound 0 (-10), .filled 1, .pos 1 ⟨true, some (-10)⟩, .end_ 1 ⟨true, some (-10)⟩, .filled 2, .pos 2 ⟨true, some (-10)⟩, .end_ 2 ⟨true, some (-10)⟩, .own false ⟨true, some (-10)⟩, .own true ⟨true, some (-10)⟩]
  | .FromClause => [.bound 0 (-4), .filled 1, .pos 1 ⟨true, some 0⟩, .end_ 1 ⟨true, some 4⟩, .own false ⟨true, some (-4)⟩, .own true ⟨true, some 4⟩]
  | .IsNullExpr => [.bound 0 (-2), .bound 1 1, .filled 2, .pos 2 ⟨true, some 0⟩, .end_ 2 ⟨true, some 4⟩, .own false ⟨true, some 0⟩, .own true ⟨true, some 1⟩]
  | .IsNotNullExpr => [.bound 0 (-2), .bound 1 1, .filled 2, .pos 2 ⟨true, some 0⟩, .end_ 2 ⟨true, some 4⟩, .own false ⟨true, some 0⟩, .own true ⟨true, some 1⟩]
  | .AliasExpr => [.filled 0, .pos 0 ⟨true, some 0⟩, .end_ 0 ⟨true, some 4⟩, .bound 1 0, .filled 2, .pos 2 ⟨true, some 0⟩, .end_ 2 ⟨true, some 0⟩, .own false ⟨true, some 0⟩, .own true ⟨true, some 0⟩]
  | .WhereClause => [.bound 0 (-5), .filled 1, .pos 1 ⟨true, some 0⟩, .end_ 1 ⟨true, some 4⟩, .own false ⟨true, some (-5)⟩, .own true ⟨true, some 4⟩]
  | .PrewhereClause => [.bound 0 (-8), .filled 1, .pos 1 ⟨true, some 0⟩, .end_ 1 ⟨true, some 4⟩, .own false ⟨true, some (-8)⟩, .own true ⟨true, some 4⟩]
  | .GroupByClause => [.bound 0 (-5), .bound 1 4, .pos 3 ⟨true, some 0⟩, .end_ 3 ⟨true, some 4⟩, .own false ⟨true, some (-5)⟩, .own true ⟨true, some 4⟩]
  | .HavingClause => [.bound 0 (-6), .filled 1, .pos 1 ⟨true, some 0⟩, .end_ 1 ⟨true, some 4⟩, .own false ⟨true, some (-6)⟩, .own true ⟨true, some 4⟩]
  | .LimitClause => [.bound 0 (-5), .pos 1 ⟨true, some 0⟩, .end_ 1 ⟨true, some 4⟩, .pos 2 ⟨true, some 0⟩, .end_ 2 ⟨true, some 4⟩, .own false ⟨true, some (-5)⟩, .own true ⟨true, some 4⟩]
  | .LimitByClause => [.filled 0, .pos 0 ⟨true, some (-5)⟩, .end_ 0 ⟨true, some 4⟩, .filled 1, .pos 1 ⟨true, some 0⟩, .end_ 1 ⟨true, some 4⟩, .own false ⟨true, some (-5)⟩, .own true ⟨true, some 4⟩]
  | .WindowExpr => [.bound 0 (-1), .bound 1 (-1), .pos 2 ⟨true, some 0⟩, .end_ 2 ⟨true, some 0⟩, .pos 3 ⟨true, some (-1)⟩, .end_ 3 ⟨true, some 4⟩, .pos 4 ⟨true, some (-5)⟩, .end_ 4 ⟨true, some 4⟩, .pos 5 ⟨true, some (-4)⟩, .end_ 5 ⟨true, some 1⟩, .own false ⟨true, some (-1)⟩, .own true ⟨true, some (-1)⟩]
  | .WindowDefinition => [.filled 0, .pos 0 ⟨true, some 0⟩, .end_ 0 ⟨true, some 0⟩, .bound 1 (-2), .filled 2, .pos 2 ⟨true, some (-1)⟩, .end_ 2 ⟨true, some (-1)⟩, .own false ⟨true, some 0⟩, .own true ⟨true, some (-1)⟩]
  | .WindowClause => [.bound 0 (-6), .bound 1 0, .pos 2 ⟨true, some 0⟩, .end_ 2 ⟨true, some (-1)⟩, .own false ⟨true, some (-6)⟩, .own true ⟨true, some 0⟩]
  | .WindowFrameClause => [.bound 0 (-4), .filled 2, .pos 2 ⟨true, some 0⟩, .end_ 2 ⟨true, some 1⟩, .own false ⟨true, some (-4)⟩, .own true ⟨true, some 1⟩]
  | .WindowFrameExtendExpr => [.filled 0, .pos 0 ⟨true, some 0⟩, .end_ 0 ⟨true, some 0⟩, .bound 2 0, .own false ⟨true, some 0⟩, .own true ⟨true, some 0⟩]
  | .BetweenClause => [.pos 0 ⟨true, some 0⟩, .end_ 0 ⟨true, some 4⟩, .filled 2, .pos 2 ⟨true, some 0⟩, .end_ 2 ⟨true, some 4⟩, .bound 3 (-3), .filled 4, .pos 4 ⟨true, some 0⟩, .end_ 4 ⟨true, some 4⟩, .own false ⟨true, some 0⟩, .own true ⟨true, some 4⟩]
  | .WindowFrameCurrentRow => [.bound 0 (-7), .bound 1 1, .own false ⟨true, some (-7)⟩, .own true ⟨true, some 1⟩]
  | .WindowFrameUnbounded => [.bound 0 (-9), .bound 1 0, .own false ⟨true, some (-9)⟩, .own true ⟨true, some 0⟩]
  | .WindowFrameNumber => [.filled 0, .pos 0 ⟨true, some 0⟩, .end_ 0 ⟨true, some 0⟩, .bound 1 0, .own false ⟨true, some 0⟩, .own true ⟨true, some 0⟩]
  | .WindowFrameParam => [.filled 0, .pos 0 ⟨true, some (-1)⟩, .end_ 0 ⟨true, some (-1)⟩, .bound 1 0, .own false ⟨true, some (-1)⟩, .own true ⟨true, some 0⟩]
  | .SelectQuery => [.bound 0 0, .bound 1 4, .pos 2 ⟨true, some (-4)⟩, .end_ 2 ⟨true, some 4⟩, .pos 3 ⟨true, some (-3)⟩, .end_ 3 ⟨true, some 1⟩, .pos 5 ⟨true, some (-2)⟩, .end_ 5 ⟨true, some 0⟩, .pos 6 ⟨true, some 0⟩, .end_ 6 ⟨true, some 4⟩, .pos 7 ⟨true, some (-4)⟩, .end_ 7 ⟨true, some 4⟩, .pos 8 ⟨true, some (-6)⟩, .end_ 8 ⟨true, some 0⟩, .pos 9 ⟨true, some (-8)⟩, .end_ 9 ⟨true, some 4⟩, .pos 10 ⟨true, some (-5)⟩, .end_ 10 ⟨true, some 4⟩, .pos 11 ⟨true, some (-5)⟩, .end_ 11 ⟨true, some 4⟩, .pos 13 ⟨true, some (-6)⟩, .end_ 13 ⟨true, some 4⟩, .pos 14 ⟨true, some (-5)⟩, .end_ 14 ⟨true, some 4⟩, .pos 15 ⟨true, some (-5)⟩, .end_ 15 ⟨true, some 4⟩, .pos 16 ⟨true, some (-5)⟩, .end_ 16 ⟨true, some 4⟩, .pos 17 ⟨true, some 0⟩, .end_ 17 ⟨true, some 0⟩, .pos 18 ⟨true, some (-6)⟩, .end_ 18 ⟨true, some 0⟩, .pos 19 ⟨true, some 0⟩, .end_ 19 ⟨true, some 4⟩, .pos 20 ⟨true, some 0⟩, .end_ 20 ⟨true, some 4⟩, .pos 21 ⟨true, some 0⟩, .end_ 21 ⟨true, some 4⟩, .pos 22 ⟨true, some 0⟩, .end_ 22 ⟨true, some 4⟩, .own false ⟨true, some 0⟩, .own true ⟨true, some 4⟩]
  | .DistinctOn => [.filled 0, .pos 0 ⟨true, some 0⟩, .end_ 0 ⟨true, some 0⟩, .bound 1 (-2), .bound 2 0, .own false ⟨true, some (-2)⟩, .own true ⟨true, some 0⟩]
  | .SubQuery => [.filled 1, .pos 1 ⟨true, some 0⟩, .end_ 1 ⟨true, some 4⟩, .own false ⟨true, some 0⟩, .own true ⟨true, some 4⟩]
  | .NotExpr => [.bound 0 (-10), .filled 1, .pos 1 ⟨true, some (-10)⟩, .end_ 1 ⟨true, some (-10)⟩, .own false ⟨true, some (-10)⟩, .own true ⟨true, some (-10)⟩]
  | .NegateExpr => [.bound 0 (-10), .filled 1, .pos 1 ⟨true, some (-10)⟩, .end_ 1 ⟨true, some (-10)⟩, .own false ⟨true, some (-10)⟩, .own true ⟨true, some (-10)⟩]
  | .GlobalInOperation => [.bound 0 (-10), .filled 1, .pos 1 ⟨true, some (-10)⟩, .end_ 1 ⟨true, some (-10)⟩, .own false ⟨true, some (-10)⟩, .own true ⟨true, some (-10)⟩]
  | .IntervalFrom => [.filled 0, .pos 0 ⟨true, some 0⟩, .end_ 0 ⟨true, some 4⟩, .bound 1 (-4), .filled 2, .pos 2 ⟨true, some 0⟩, .end_ 2 ⟨true, some 4⟩, .own false ⟨true, some 0⟩, .own true ⟨true, some 4⟩]
  | .ExtractExpr => [.bound 0 0, .bound 1 (-1), .filled 2, .pos 2 ⟨true, some 0⟩, .end_ 2 ⟨true, some 4⟩, .own false ⟨true, some 0⟩, .own true ⟨true, some (-1)⟩]
  | .DropDatabase => [.bound 0 (-4), .bound 1 0, .filled 2, .pos 2 ⟨true, some 0⟩, .end_ 2 ⟨true, some 0⟩, .pos 4 ⟨true, some (-2)⟩, .end_ 4 ⟨true, some 0⟩, .own false ⟨true, some (-4)⟩, .own true ⟨true, some 0⟩]
  | .DropStmt => [.bound 0 (-4), .bound 1 0, .filled 3, .pos 3 ⟨true, some 0⟩, .end_ 3 ⟨true, some 0⟩, .pos 5 ⟨true, some (-2)⟩, .end_ 5 ⟨true, some 0⟩, .own false ⟨true, some (-4)⟩, .own true ⟨true, some 0⟩]
  | .DropUserOrRole => [.bound 0 (-4), .bound 2 0, .filled 3, .pos 3 ⟨true, some 0⟩, .end_ 3 ⟨true, some 0⟩, .pos 6 ⟨true, some 0⟩, .end_ 6 ⟨true, some 0⟩, .own false ⟨true, some (-4)⟩, .own true ⟨true, some 0⟩]
  | .UseStmt => [.bound 0 (-3), .bound 1 0, .filled 2, .pos 2 ⟨true, some 0⟩, .end_ 2 ⟨true, some 0⟩, .own false ⟨true, some (-3)⟩, .own true ⟨true, some 0⟩]
  | .CTEStmt => [.bound 0 0, .filled 1, .pos 1 ⟨true, some 0⟩, .end_ 1 ⟨true, some 4⟩, .filled 2, .pos 2 ⟨true, some 0⟩, .end_ 2 ⟨true, some 4⟩, .own false ⟨true, some 0⟩, .own true ⟨true, some 4⟩]
  | .SetStmt => [.bound 0 (-3), .filled 1, .pos 1 ⟨true, some 0⟩, .end_ 1 ⟨true, some 0⟩, .own false ⟨true, some (-3)⟩, .own true ⟨true, some 0⟩]
  | .FormatClause => [.bound 0 (-6), .filled 1, .pos 1 ⟨true, some 0⟩, .end_ 1 ⟨true, some 0⟩, .own false ⟨true, some (-6)⟩, .own true ⟨true, some 0⟩]
  | .OptimizeStmt => [.bound 0 (-8), .bound 1 4, .filled 2, .pos 2 ⟨true, some 0⟩, .end_ 2 ⟨true, some 0⟩, .pos 3 ⟨true, some (-2)⟩, .end_ 3 ⟨true, some 0⟩, .pos 4 ⟨true, some (-9)⟩, .end_ 4 ⟨false, some 4⟩, .pos 6 ⟨true, some (-10)⟩, .end_ 6 ⟨true, some 4⟩, .own false ⟨true, some (-8)⟩, .own true ⟨true, some 4⟩]
  | .DeduplicateClause => [.bound 0 (-10), .pos 1 ⟨true, some 0⟩, .end_ 1 ⟨true, some 4⟩, .pos 2 ⟨true, some 0⟩, .end_ 2 ⟨true, some 4⟩, .own false ⟨true, some (-10)⟩, .own true ⟨true, some 4⟩]
  | .SystemStmt => [.bound 0 (-6), .filled 1, .pos 1 ⟨true, some (-4)⟩, .end_ 1 ⟨true, some 0⟩, .own false ⟨true, some (-6)⟩, .own true ⟨true, some 0⟩]
  | .SystemFlushExpr => [.either 2 3, .bound 0 (-5), .bound 1 0, .pos 3 ⟨true, some 0⟩, .end_ 3 ⟨true, some 0⟩, .own false ⟨true, some (-5)⟩, .own true ⟨true, some 0⟩]
  | .SystemReloadExpr => [.bound 0 (-6), .bound 1 0, .pos 2 ⟨true, some (-2)⟩, .end_ 2 ⟨true, some 0⟩, .pos 3 ⟨true, some 0⟩, .end_ 3 ⟨true, some 0⟩, .own false ⟨true, some (-6)⟩, .own true ⟨true, some 0⟩]
  | .SystemSyncExpr => [.bound 0 (-4), .filled 1, .pos 1 ⟨true, some 0⟩, .end_ 1 ⟨true, some 0⟩, .own false ⟨true, some (-4)⟩, .own true ⟨true, some 0⟩]
  | .SystemCtrlExpr => [.bound 0 (-4), .bound 1 0, .pos 4 ⟨true, some 0⟩, .end_ 4 ⟨true, some 0⟩, .own false ⟨true, some (-4)⟩, .own true ⟨true, some 0⟩]
  | .SystemDropExpr => [.bound 0 (-4), .bound 1 0, .own false ⟨true, some (-4)⟩, .own true ⟨true, some 0⟩]
  | .TruncateTable => [.bound 0 (-8), .bound 1 0, .filled 4, .pos 4 ⟨true, some 0⟩, .end_ 4 ⟨true, some 0⟩, .pos 5 ⟨true, some (-2)⟩, .end_ 5 ⟨true, some 0⟩, .own false ⟨true, some (-8)⟩, .own true ⟨true, some 0⟩]
  | .SampleClause => [.bound 0 (-6), .filled 1, .pos 1 ⟨true, some 0⟩, .end_ 1 ⟨true, some 0⟩, .pos 2 ⟨true, some 0⟩, .end_ 2 ⟨true, some 0⟩, .own false ⟨true, some (-6)⟩, .own true ⟨true, some 0⟩]
  | .DeleteClause => [.bound 0 (-6), .filled 1, .pos 1 ⟨true, some 0⟩, .end_ 1 ⟨true, some 0⟩, .pos 2 ⟨true, some (-2)⟩, .end_ 2 ⟨true, some 0⟩, .filled 3, .pos 3 ⟨true, some 0⟩, .end_ 3 ⟨true, some 4⟩, .own false ⟨true, some (-6)⟩, .own true ⟨true, some 4⟩]
  | .ColumnNamesExpr => [.bound 0 (-1), .bound 1 (-1), .pos 2 ⟨true, some 0⟩, .end_ 2 ⟨true, some 0⟩, .own false ⟨true, some (-1)⟩, .own true ⟨true, some (-1)⟩]
  | .AssignmentValues => [.bound 0 (-1), .bound 1 (-1), .pos 2 ⟨true, some 0⟩, .end_ 2 ⟨true, some 4⟩, .own false ⟨true, some (-1)⟩, .own true ⟨true, some (-1)⟩]
  | .InsertStmt => [.bound 0 (-6), .pos 1 ⟨true, some (-6)⟩, .end_ 1 ⟨true, some 0⟩, .filled 3, .pos 3 ⟨true, some 0⟩, .end_ 3 ⟨true, some 0⟩, .pos 4 ⟨true, some (-1)⟩, .end_ 4 ⟨true, some (-1)⟩, .pos 5 ⟨true, some (-1)⟩, .end_ 5 ⟨true, some (-1)⟩, .pos 6 ⟨true, some 0⟩, .end_ 6 ⟨true, some 4⟩, .own false ⟨true, some (-6)⟩, .own true ⟨true, some 4⟩]
  | .CheckStmt => [.bound 0 (-5), .filled 1, .pos 1 ⟨true, some 0⟩, .end_ 1 ⟨true, some 0⟩, .pos 2 ⟨true, some (-9)⟩, .end_ 2 ⟨false, some 4⟩, .own false ⟨true, some (-5)⟩, .own true ⟨false, some 4⟩]
  | .UnaryExpr => [.bound 0 0, .filled 2, .pos 2 ⟨true, some 0⟩, .end_ 2 ⟨true, some 4⟩, .own false ⟨true, some 0⟩, .own true ⟨true, some 4⟩]
  | .RenameStmt => [.bound 0 (-6), .bound 1 0, .filled 3, .pos 3 ⟨true, some 0⟩, .end_ 3 ⟨true, some 0⟩, .pos 4 ⟨true, some (-2)⟩, .end_ 4 ⟨true, some 0⟩, .own false ⟨true, some (-6)⟩, .own true ⟨true, some 0⟩]
  | .TargetPair => [.filled 0, .pos 0 ⟨true, some 0⟩, .end_ 0 ⟨true, some 0⟩, .filled 1, .pos 1 ⟨true, some 0⟩, .end_ 1 ⟨true, some 0⟩, .own false ⟨true, some 0⟩, .own true ⟨true, some 0⟩]
  | .ExplainStmt => [.bound 0 (-7), .filled 2, .pos 2 ⟨true, some 0⟩, .end_ 2 ⟨true, some 4⟩, .own false ⟨true, some (-7)⟩, .own true ⟨true, some 4⟩]
  | .PrivilegeClause => [.bound 0 0, .bound 1 0, .filled 2, .pos 3 ⟨true, some (-1)⟩, .end_ 3 ⟨true, some (-1)⟩, .own false ⟨true, some 0⟩, .own true ⟨true, some 0⟩]
  | .GrantPrivilegeStmt => [.bound 0 (-5), .bound 1 1, .pos 2 ⟨true, some (-2)⟩, .end_ 2 ⟨true, some 0⟩, .filled 3, .pos 3 ⟨true, some 0⟩, .end_ 3 ⟨true, some 0⟩, .filled 4, .pos 4 ⟨true, some 0⟩, .end_ 4 ⟨true, some 0⟩, .pos 5 ⟨true, some 0⟩, .end_ 5 ⟨true, some 0⟩, .own false ⟨true, some (-5)⟩, .own true ⟨true, some 1⟩]
  | .ShowStmt => [.bound 0 (-4), .bound 1 1, .pos 3 ⟨true, some 0⟩, .end_ 3 ⟨true, some 0⟩, .pos 6 ⟨true, some 0⟩, .end_ 6 ⟨true, some 4⟩, .pos 7 ⟨true, some 0⟩, .end_ 7 ⟨true, some 4⟩, .pos 8 ⟨true, some 0⟩, .end_ 8 ⟨true, some 0⟩, .pos 9 ⟨true, some 0⟩, .end_ 9 ⟨true, some 0⟩, .own false ⟨true, some (-4)⟩, .own true ⟨true, some 4⟩]
  | .DescribeStmt => [.bound 0 (-4), .bound 1 0, .filled 3, .pos 3 ⟨true, some 0⟩, .end_ 3 ⟨true, some 0⟩, .own false ⟨true, some (-4)⟩, .own true ⟨true, some 0⟩]
  | .Token => [.bound 0 0, .bound 1 0]
  | .KeywordArgForm => [.filled 2, .lenGe 2 3]
  | .ParseError => [.bound 0 (-10), .bound 1 (-10), .bound 2 (-10), .filled 3, .pos 3 ⟨true, some (-10)⟩, .end_ 3 ⟨true, some (-10)⟩, .filled 4, .own false ⟨true, some (-10)⟩, .own true ⟨true, some (-10)⟩]
  | _ => []

/-- What holds before and after a call of each method of `Parser` (parser/parser_*.go, parse_system.go). -/
def sig : Fn → List Sig
  | .parseAnyKeyword =>
    [⟨.any, [],
      [⟨[.top, .err true false], .any, .eq⟩,
       ⟨[.ty (.ptr .Ident) true ⟨true, some 0⟩ ⟨true, some 0⟩, .nil], .any, .lt⟩], 0⟩]
  | .parseIdent =>
    [⟨.any, [],
      [⟨[.top, .err true false], .any, .eq⟩,
       ⟨[.ty (.ptr .Ident) true ⟨true, some 0⟩ ⟨true, some 0⟩, .nil], .any, .lt⟩], 0⟩]
  | .parseIdentOrStar =>
    [⟨.any, [],
      [⟨[.top, .err true false], (.tok 0 .any), .eq⟩,
       ⟨[.ty (.ptr .Ident) true ⟨true, some 0⟩ ⟨true, some 0⟩, .nil], .any, .lt⟩,
       ⟨[.top, .err true false], .any, .eq⟩], 1⟩]
  | .parseIdentOrString =>
    [⟨.any, [],
      [⟨[.top, .err true false], (.tok 0 .any), .eq⟩,
       ⟨[.ty (.ptr .Ident) true ⟨true, some 0⟩ ⟨true, some 0⟩, .nil], .any, .lt⟩,
       ⟨[.top, .err true false], .any, .eq⟩], 1⟩]
  | .tryParseDotIdent =>
    [⟨(.tok 1 (.kind b!".")), [.curPos],
      [⟨[.top, .err true false], .any, .lt⟩,
       ⟨[.ty (.ptr .Ident) true ⟨true, some 0⟩ ⟨true, some 0⟩, .nil], .any, .lt⟩], 0⟩,
     ⟨.any, [.curPos],
      [⟨[.nil, .nil], .any, .eq⟩,
       ⟨[.top, .err true false], .any, .lt⟩,
       ⟨[.ty (.ptr .Ident) true ⟨true, some 0⟩ ⟨true, some 0⟩, .nil], .any, .lt⟩], 0⟩]
  | .tryParseDotIdentOrString =>
    [⟨.any, [.curPos],
      [⟨[.nil, .nil], .any, .eq⟩,
       ⟨[.top, .err true false], (.tok 0 .any), .lt⟩,
       ⟨[.ty (.ptr .Ident) true ⟨true, some 0⟩ ⟨true, some 0⟩, .nil], .any, .lt⟩,
       ⟨[.top, .err true false], .any, .lt⟩], 0⟩]
  | .parseUUID =>
    [⟨(.tok 4 (.kw b!"UUID")), [],
      [⟨[.top, .err true false], .any, .lt⟩,
       ⟨[.ty (.ptr .UUID) true ⟨true, some 0⟩ ⟨true, some 0⟩, .nil], .any, .lt⟩], 0⟩]
  | .tryParseUUID =>
    [⟨.any, [],
      [⟨[.nil, .nil], .any, .eq⟩,
       ⟨[.top, .err true false], .any, .lt⟩,
       ⟨[.ty (.ptr .UUID) true ⟨true, some 0⟩ ⟨true, some 0⟩, .nil], .any, .lt⟩], 1⟩]
  | .tryParseComment =>
    [⟨(.tok 1 (.kind b!"(")), [],
      [⟨[.nil, .nil], (.tok 1 (.kind b!"(")), .eq⟩], 0⟩,
     ⟨.any, [],
      [⟨[.nil, .nil], .any, .eq⟩,
       ⟨[.top, .err true false], .any, .lt⟩,
       ⟨[.ty (.ptr .StringLiteral) true ⟨true, some 0⟩ ⟨true, some 0⟩, .nil], .any, .lt⟩], 0⟩]
  | .tryParseIfExists =>
    [⟨.any, [],
      [⟨[.bool (some false), .nil], .any, .eq⟩,
       ⟨[.top, .err true false], .any, .lt⟩,
       ⟨[.bool (some true), .nil], .any, .lt⟩], 0⟩]
  | .tryParseIfNotExists =>
    [⟨.any, [],
      [⟨[.bool (some false), .nil], .any, .eq⟩,
       ⟨[.top, .err true false], .any, .lt⟩,
       ⟨[.bool (some true), .nil], .any, .lt⟩], 0⟩]
  | .tryParseNull =>
    [⟨(.tok 6 (.kw b!"REMOVE")), [.curPos],
      [⟨[.nil], (.tok 6 (.kw b!"REMOVE")), .eq⟩], 0⟩,
     ⟨.any, [.curPos],
      [⟨[.nil], .any, .eq⟩,
       ⟨[.ty (.ptr .NullLiteral) true ⟨true, some (-4)⟩ ⟨true, some 0⟩], .any, .lt⟩], 0⟩]
  | .tryParseNotNull =>
    [⟨(.tok 6 (.kw b!"REMOVE")), [.curPos],
      [⟨[.nil, .nil], (.tok 6 (.kw b!"REMOVE")), .eq⟩], 0⟩,
     ⟨.any, [.curPos],
      [⟨[.nil, .nil], .any, .eq⟩,
       ⟨[.top, .err true false], .any, .lt⟩,
       ⟨[.ty (.ptr .NotNullLiteral) true ⟨true, some (-3)⟩ ⟨true, some 0⟩, .nil], .any, .lt⟩], 0⟩]
  | .parseDecimal =>
    [⟨.any, [.curPos],
      [⟨[.top, .err true false], (.tok 1 (.kind b!"<int>")), .eq⟩,
       ⟨[.top, .err true false], .any, .lt⟩,
       ⟨[.ty (.ptr .NumberLiteral) true ⟨true, some 0⟩ ⟨true, some 0⟩, .nil], .any, .lt⟩,
       ⟨[.top, .err true false], .any, .eq⟩], 1⟩]
  | .parseNumber =>
    [⟨.any, [.nat (some 0)],
      [⟨[.ty (.ptr .NumberLiteral) true ⟨true, some 0⟩ ⟨true, some 0⟩, .nil], .any, .lt⟩,
       ⟨[.top, .err true false], .any, .lt⟩,
       ⟨[.top, .err true false], (.tok 1 .any), .eq⟩,
       ⟨[.top, .err true false], .any, .eq⟩], 0⟩]
  | .parseString =>
    [⟨.any, [.nat (some 0)],
      [⟨[.top, .err true false], .any, .eq⟩,
       ⟨[.ty (.ptr .StringLiteral) true ⟨true, some 0⟩ ⟨true, some 0⟩, .nil], .any, .lt⟩], 0⟩]
  | .parseLiteral =>
    [⟨.any, [.curPos],
      [⟨[.ty (.iface .Expr) true ⟨true, some 0⟩ ⟨true, some 0⟩, .nil], .any, .lt⟩,
       ⟨[.top, .err true false], .any, .lt⟩,
       ⟨[.top, .err true false], (.tok 0 .any), .eq⟩,
       ⟨[.ty (.ptr .NullLiteral) true ⟨true, some (-4)⟩ ⟨true, some 0⟩, .nil], (.tok 4 (.kw b!"NULL")), .eq⟩,
       ⟨[.top, .err true false], .any, .eq⟩], 1⟩]
  | .ParseNestedIdentifier =>
    [⟨.any, [.nat (some 0)],
      [⟨[.top, .err true false], .any, .eq⟩,
       ⟨[.top, .err true false], .any, .lt⟩,
       ⟨[.ty (.ptr .NestedIdentifier) true ⟨true, some 0⟩ ⟨true, some 0⟩, .nil], .any, .lt⟩], 1⟩]
  | .tryParseFormat =>
    [⟨.any, [.curPos],
      [⟨[.nil, .nil], .any, .eq⟩,
       ⟨[.top, .err true false], .any, .lt⟩,
       ⟨[.ty (.ptr .FormatClause) true ⟨true, some (-6)⟩ ⟨true, some 0⟩, .nil], .any, .lt⟩], 1⟩]
  | .parseFormat =>
    [⟨(.tok 6 (.kw b!"FORMAT")), [.curPos],
      [⟨[.top, .err true false], .any, .lt⟩,
       ⟨[.ty (.ptr .FormatClause) true ⟨true, some (-6)⟩ ⟨true, some 0⟩, .nil], .any, .lt⟩], 0⟩]
  | .parseRatioExpr =>
    [⟨.any, [.curPos],
      [⟨[.top, .err true false], .any, .eq⟩,
       ⟨[.top, .err true false], .any, .lt⟩,
       ⟨[.ty (.ptr .RatioExpr) true ⟨true, some 0⟩ ⟨true, some 0⟩, .nil], .any, .lt⟩], 1⟩]
  | .tryParseWithClause =>
    [⟨.any, [.curPos],
      [⟨[.nil, .nil], .any, .eq⟩,
       ⟨[.top, .err true false], .any, .lt⟩,
       ⟨[.ty (.ptr .WithClause) true ⟨true, some (-4)⟩ ⟨true, some 4⟩, .nil], .any, .lt⟩], 1⟩]
  | .parseWithClause =>
    [⟨(.tok 4 (.kw b!"WITH")), [.curPos],
      [⟨[.top, .err true false], .any, .lt⟩,
       ⟨[.ty (.ptr .WithClause) true ⟨true, some (-4)⟩ ⟨true, some 4⟩, .nil], .any, .lt⟩,
       ⟨[.ty (.ptr .WithClause) true ⟨true, some (-4)⟩ ⟨true, some 4⟩, .nil], (.tok 2 .any), .lt⟩,
       ⟨[.ty (.ptr .WithClause) true ⟨true, some (-4)⟩ ⟨true, some 4⟩, .nil], .none, .lt⟩], 0⟩]
  | .tryParseTopClause =>
    [⟨.any, [.curPos],
      [⟨[.nil, .nil], .any, .eq⟩,
       ⟨[.top, .err true false], .any, .lt⟩,
       ⟨[.ty (.ptr .TopClause) true ⟨true, some (-3)⟩ ⟨true, some 1⟩, .nil], .any, .lt⟩], 1⟩]
  | .parseTopClause =>
    [⟨(.tok 3 (.kw b!"TOP")), [.curPos],
      [⟨[.top, .err true false], .any, .lt⟩,
       ⟨[.ty (.ptr .TopClause) true ⟨true, some (-3)⟩ ⟨true, some 1⟩, .nil], .any, .lt⟩], 0⟩]
  | .tryParseDistinctOn =>
    [⟨.any, [.curPos],
      [⟨[.nil, .nil], .any, .eq⟩,
       ⟨[.top, .err true false], .any, .lt⟩,
       ⟨[.ty (.ptr .DistinctOn) true ⟨true, some (-2)⟩ ⟨true, some 0⟩, .nil], .any, .lt⟩], 1⟩]
  | .parseDistinctOn =>
    [⟨(.tok 2 (.kw b!"ON")), [.curPos],
      [⟨[.top, .err true false], .any, .lt⟩,
       ⟨[.ty (.ptr .DistinctOn) true ⟨true, some (-2)⟩ ⟨true, some 0⟩, .nil], .any, .lt⟩], 0⟩]
  | .tryParseFromClause =>
    [⟨.any, [.curPos],
      [⟨[.nil, .nil], .none, .eq⟩,
       ⟨[.nil, .nil], .any, .eq⟩,
       ⟨[.top, .err true false], .any, .lt⟩,
       ⟨[.ty (.ptr .FromClause) true ⟨true, some (-4)⟩ ⟨true, some 4⟩, .nil], (.tok 1 .any), .lt⟩,
       ⟨[.ty (.ptr .FromClause) true ⟨true, some (-4)⟩ ⟨true, some 4⟩, .nil], .any, .lt⟩], 1⟩]
  | .parseFromClause =>
    [⟨(.tok 4 (.kw b!"FROM")), [.curPos],
      [⟨[.top, .err true false], .any, .lt⟩,
       ⟨[.ty (.ptr .FromClause) true ⟨true, some (-4)⟩ ⟨true, some 4⟩, .nil], (.tok 1 .any), .lt⟩,
       ⟨[.ty (.ptr .FromClause) true ⟨true, some (-4)⟩ ⟨true, some 4⟩, .nil], .any, .lt⟩], 0⟩]
  | .tryParseJoinConstraints =>
    [⟨.any, [.curPos],
      [⟨[.top, .err true false], (.tok 1 .any), .lt⟩,
       ⟨[.top, .err true false], .none, .lt⟩,
       ⟨[.top, .err true false], .any, .lt⟩,
       ⟨[.ty (.iface .Expr) true ⟨true, some (-2)⟩ ⟨true, some 0⟩, .nil], (.tok 0 .any), .lt⟩,
       ⟨[.ty (.iface .Expr) true ⟨true, some (-2)⟩ ⟨true, some 4⟩, .nil], .none, .lt⟩,
       ⟨[.ty (.iface .Expr) true ⟨true, some (-2)⟩ ⟨true, some 4⟩, .nil], .any, .lt⟩,
       ⟨[.nil, .nil], .any, .eq⟩], 0⟩]
  | .parseJoinType =>
    [⟨.any, [.curPos],
      [⟨[.ty (.slice .str) true .top .top], .any, .lt⟩,
       ⟨[.nil], .any, .eq⟩], 0⟩]
  | .parseJoinTableExpr =>
    [⟨.any, [.curPos],
      [⟨[.top, .err true false], .any, .eq⟩,
       ⟨[.top, .err true false], .any, .lt⟩,
       ⟨[.ty (.ptr .JoinTableExpr) true ⟨true, some 0⟩ ⟨true, some 4⟩, .nil], .any, .lt⟩,
       ⟨[.ty (.ptr .JoinTableExpr) true ⟨true, some (-1)⟩ ⟨true, some 4⟩, .nil], .none, .lt⟩,
       ⟨[.ty (.ptr .JoinTableExpr) true ⟨true, some 0⟩ ⟨true, some 4⟩, .nil], (.tok 1 .any), .lt⟩], 6⟩]
  | .parseJoinModifiers =>
    [⟨.any, [.curPos],
      [⟨[.nil, .nil], (.tok 6 (.kw b!"GLOBAL")), .eq⟩,
       ⟨[.top, .err true false], (.tok 4 (.kw b!"JOIN")), .lt⟩,
       ⟨[.top, .err true false], .any, .lt⟩,
       ⟨[.ty (.slice .str) true .top .top, .nil], .any, .lt⟩,
       ⟨[.nil, .nil], .any, .eq⟩], 1⟩]
  | .peekJoinAfterLocality =>
    [⟨(.tok 6 (.kw b!"GLOBAL")), [],
      [⟨[.bool (some true)], (.tok 6 (.kw b!"GLOBAL")), .eq⟩,
       ⟨[.bool (some false)], (.tok 6 (.kw b!"GLOBAL")), .eq⟩], 2⟩]
  | .parseJoinRightExpr =>
    [⟨.any, [.curPos],
      [⟨[.top, .err true false], .any, .lt⟩,
       ⟨[.nil, .nil], (.tok 6 (.kw b!"GLOBAL")), .eq⟩,
       ⟨[.ty (.iface .Expr) false ⟨true, some 0⟩ ⟨true, some 4⟩, .nil], .any, .lt⟩,
       ⟨[.nil, .nil], .any, .eq⟩,
       ⟨[.ty (.iface .Expr) true ⟨true, some 0⟩ ⟨true, some 4⟩, .nil], (.tok 0 .any), .lt⟩,
       ⟨[.ty (.ptr .JoinExpr) true ⟨true, some 0⟩ ⟨true, some 1⟩, .nil], .none, .lt⟩], 2⟩]
  | .parseJoinExpr =>
    [⟨.any, [.curPos],
      [⟨[.top, .err true false], .any, .eq⟩,
       ⟨[.top, .err true false], .any, .lt⟩,
       ⟨[.ty (.ptr .JoinTableExpr) true ⟨true, some 0⟩ ⟨true, some 4⟩, .nil], (.tok 1 .any), .lt⟩,
       ⟨[.ty (.iface .Expr) true ⟨true, some 0⟩ ⟨true, some 4⟩, .nil], .any, .lt⟩], 7⟩]
  | .parseTableExpr =>
    [⟨(.tok 0 .any), [.curPos],
      [⟨[.top, .err true false], .any, .lt⟩,
       ⟨[.top, .err true false], (.tok 0 .any), .eq⟩,
       ⟨[.ty (.ptr .TableExpr) true ⟨true, some 0⟩ ⟨true, some 4⟩, .nil], .any, .lt⟩,
       ⟨[.ty (.ptr .TableExpr) true ⟨true, some (-1)⟩ ⟨true, some 4⟩, .nil], .none, .lt⟩,
       ⟨[.ty (.ptr .TableExpr) true ⟨true, some 0⟩ ⟨true, some 4⟩, .nil], (.tok 1 .any), .lt⟩], 5⟩]
  | .tryParsePrewhereClause =>
    [⟨.any, [.curPos],
      [⟨[.nil, .nil], .none, .eq⟩,
       ⟨[.nil, .nil], .any, .eq⟩,
       ⟨[.top, .err true false], (.tok 1 .any), .lt⟩,
       ⟨[.top, .err true false], .none, .lt⟩,
       ⟨[.top, .err true false], .any, .lt⟩,
       ⟨[.ty (.ptr .PrewhereClause) true ⟨true, some (-8)⟩ ⟨true, some 0⟩, .nil], .none, .lt⟩,
       ⟨[.ty (.ptr .PrewhereClause) true ⟨true, some (-8)⟩ ⟨true, some 4⟩, .nil], .any, .lt⟩], 1⟩]
  | .parsePrewhereClause =>
    [⟨(.tok 8 (.kw b!"PREWHERE")), [.curPos],
      [⟨[.top, .err true false], (.tok 1 .any), .lt⟩,
       ⟨[.top, .err true false], .none, .lt⟩,
       ⟨[.top, .err true false], .any, .lt⟩,
       ⟨[.ty (.ptr .PrewhereClause) true ⟨true, some (-8)⟩ ⟨true, some 0⟩, .nil], .none, .lt⟩,
       ⟨[.ty (.ptr .PrewhereClause) true ⟨true, some (-8)⟩ ⟨true, some 4⟩, .nil], .any, .lt⟩], 0⟩]
  | .tryParseWhereClause =>
    [⟨.any, [.curPos],
      [⟨[.nil, .nil], .none, .eq⟩,
       ⟨[.nil, .nil], .any, .eq⟩,
       ⟨[.top, .err true false], (.tok 1 .any), .lt⟩,
       ⟨[.top, .err true false], .none, .lt⟩,
       ⟨[.top, .err true false], .any, .lt⟩,
       ⟨[.ty (.ptr .WhereClause) true ⟨true, some (-5)⟩ ⟨true, some 0⟩, .nil], .none, .lt⟩,
       ⟨[.ty (.ptr .WhereClause) true ⟨true, some (-5)⟩ ⟨true, some 4⟩, .nil], .any, .lt⟩], 1⟩]
  | .parseWhereClause =>
    [⟨(.tok 5 (.kw b!"WHERE")), [.curPos],
      [⟨[.top, .err true false], (.tok 1 .any), .lt⟩,
       ⟨[.top, .err true false], .none, .lt⟩,
       ⟨[.top, .err true false], .any, .lt⟩,
       ⟨[.ty (.ptr .WhereClause) true ⟨true, some (-5)⟩ ⟨true, some 0⟩, .nil], .none, .lt⟩,
       ⟨[.ty (.ptr .WhereClause) true ⟨true, some (-5)⟩ ⟨true, some 4⟩, .nil], .any, .lt⟩], 0⟩]
  | .tryParseGroupByClause =>
    [⟨.any, [.curPos],
      [⟨[.nil, .nil], .any, .eq⟩,
       ⟨[.top, .err true false], .any, .lt⟩,
       ⟨[.ty (.ptr .GroupByClause) true ⟨true, some (-5)⟩ ⟨true, some 4⟩, .nil], .any, .lt⟩], 1⟩]
  | .parseGroupByClause =>
    [⟨(.tok 5 (.kw b!"GROUP")), [.curPos],
      [⟨[.top, .err true false], .any, .lt⟩,
       ⟨[.ty (.ptr .GroupByClause) true ⟨true, some (-5)⟩ ⟨true, some 4⟩, .nil], .any, .lt⟩], 0⟩]
  | .tryParseLimitAfterLimitByClause =>
    [⟨.any, [.curPos],
      [⟨[.nil, .nil], .any, .eq⟩,
       ⟨[.top, .err true false], (.tok 1 .any), .lt⟩,
       ⟨[.top, .err true false], .none, .lt⟩,
       ⟨[.top, .err true false], .any, .lt⟩,
       ⟨[.ty (.ptr .LimitClause) true ⟨true, some (-5)⟩ ⟨true, some 4⟩, .nil], .any, .lt⟩], 1⟩]
  | .tryParseLimitClause =>
    [⟨.any, [.curPos],
      [⟨[.nil, .nil], .any, .eq⟩,
       ⟨[.top, .err true false], (.tok 1 .any), .lt⟩,
       ⟨[.top, .err true false], .none, .lt⟩,
       ⟨[.top, .err true false], .any, .lt⟩,
       ⟨[.ty (.ptr .LimitClause) true ⟨true, some (-5)⟩ ⟨true, some 4⟩, .nil], .any, .lt⟩], 1⟩]
  | .parseLimitClause =>
    [⟨(.tok 5 (.kw b!"LIMIT")), [.curPos],
      [⟨[.top, .err true false], (.tok 1 .any), .lt⟩,
       ⟨[.top, .err true false], .none, .lt⟩,
       ⟨[.top, .err true false], .any, .lt⟩,
       ⟨[.ty (.ptr .LimitClause) true ⟨true, some (-5)⟩ ⟨true, some 4⟩, .nil], .any, .lt⟩], 0⟩,
     ⟨(.tok 6 (.kw b!"OFFSET")), [.curPos],
      [⟨[.top, .err true false], (.tok 1 .any), .lt⟩,
       ⟨[.top, .err true false], .none, .lt⟩,
       ⟨[.top, .err true false], .any, .lt⟩,
       ⟨[.ty (.ptr .LimitClause) true ⟨true, some (-6)⟩ ⟨true, some 0⟩, .nil], .none, .lt⟩,
       ⟨[.ty (.ptr .LimitClause) true ⟨true, some (-6)⟩ ⟨true, some 4⟩, .nil], .any, .lt⟩], 0⟩]
  | .tryParseLimitByClause =>
    [⟨.any, [.curPos],
      [⟨[.nil, .nil], .any, .eq⟩,
       ⟨[.top, .err true false], .any, .lt⟩,
       ⟨[.ty (.iface .Expr) true ⟨true, some (-5)⟩ ⟨true, some 4⟩, .nil], .any, .lt⟩], 2⟩]
  | .parseBetweenClause =>
    [⟨(.tok 7 (.kw b!"BETWEEN")), [.ty (.iface .Expr) true ⟨true, some 0⟩ ⟨true, some 4⟩, .bool none],
      [⟨[.top, .err true false], (.tok 1 .any), .lt⟩,
       ⟨[.top, .err true false], .none, .lt⟩,
       ⟨[.top, .err true false], .any, .lt⟩,
       ⟨[.ty (.ptr .BetweenClause) true ⟨true, some 0⟩ ⟨true, some 0⟩, .nil], .none, .lt⟩,
       ⟨[.ty (.ptr .BetweenClause) true ⟨true, some 0⟩ ⟨true, some 4⟩, .nil], .any, .lt⟩], 0⟩]
  | .parseLimitByClause =>
    [⟨(.tok 5 (.kw b!"LIMIT")), [.curPos],
      [⟨[.top, .err true false], .any, .lt⟩,
       ⟨[.ty (.iface .Expr) true ⟨true, some (-5)⟩ ⟨true, some 4⟩, .nil], .any, .lt⟩,
       ⟨[.ty (.ptr .LimitByClause) true ⟨true, some (-5)⟩ ⟨true, some 0⟩, .nil], (.tok 0 .any), .lt⟩,
       ⟨[.ty (.ptr .LimitByClause) true ⟨true, some (-5)⟩ ⟨true, some 1⟩, .nil], .none, .lt⟩], 1⟩]
  | .tryParseWindowFrameClause =>
    [⟨.any, [.curPos],
      [⟨[.nil, .nil], .any, .eq⟩,
       ⟨[.top, .err true false], (.tok 4 .any), .eq⟩,
       ⟨[.top, .err true false], .any, .lt⟩,
       ⟨[.ty (.ptr .WindowFrameClause) true ⟨true, some (-4)⟩ ⟨true, some 1⟩, .nil], .any, .lt⟩], 1⟩]
  | .parseWindowFrameClause =>
    [⟨(.tok 4 .any), [.curPos],
      [⟨[.top, .err true false], (.tok 4 .any), .eq⟩,
       ⟨[.top, .err true false], .any, .lt⟩,
       ⟨[.ty (.ptr .WindowFrameClause) true ⟨true, some (-4)⟩ ⟨true, some 1⟩, .nil], .any, .lt⟩], 0⟩]
  | .parseFrameExtent =>
    [⟨.any, [],
      [⟨[.top, .err true false], .any, .eq⟩,
       ⟨[.top, .err true false], .any, .lt⟩,
       ⟨[.ty (.iface .Expr) true ⟨true, some 0⟩ ⟨true, some 1⟩, .nil], .any, .lt⟩], 2⟩]
  | .parseFrameCurrentRow =>
    [⟨(.tok 7 (.kw b!"CURRENT")), [],
      [⟨[.top, .err true false], .any, .lt⟩,
       ⟨[.ty (.ptr .WindowFrameCurrentRow) true ⟨true, some (-7)⟩ ⟨true, some 1⟩, .nil], .any, .lt⟩], 0⟩]
  | .parseFrameUnbounded =>
    [⟨(.tok 9 (.kw b!"UNBOUNDED")), [],
      [⟨[.top, .err true false], .any, .lt⟩,
       ⟨[.ty (.ptr .WindowFrameUnbounded) true ⟨true, some (-9)⟩ ⟨true, some 0⟩, .nil], .any, .lt⟩], 0⟩]
  | .parseFrameNumber =>
    [⟨(.tok 1 (.kind b!"<int>")), [],
      [⟨[.top, .err true false], (.tok 1 (.kind b!"<int>")), .eq⟩,
       ⟨[.top, .err true false], .any, .lt⟩,
       ⟨[.ty (.ptr .WindowFrameNumber) true ⟨true, some 0⟩ ⟨true, some 0⟩, .nil], .any, .lt⟩], 1⟩]
  | .parseFrameParam =>
    [⟨(.tok 1 (.kind b!"{")), [],
      [⟨[.top, .err true false], (.tok 1 (.kind b!"{")), .eq⟩,
       ⟨[.top, .err true false], .any, .lt⟩,
       ⟨[.ty (.ptr .WindowFrameParam) true ⟨true, some (-1)⟩ ⟨true, some 0⟩, .nil], .any, .lt⟩], 1⟩]
  | .parseFrameInterval =>
    [⟨(.tok 8 (.kw b!"INTERVAL")), [],
      [⟨[.top, .err true false], .any, .lt⟩,
       ⟨[.ty (.ptr .WindowFrameExtendExpr) true ⟨true, some 0⟩ ⟨true, some 0⟩, .nil], .any, .lt⟩], 1⟩]
  | .parseFrameDirection =>
    [⟨.any, [],
      [⟨[.str false, .nil], .any, .lt⟩,
       ⟨[.top, .err true false], .any, .eq⟩], 0⟩]
  | .parseFrameDirectionWithEnd =>
    [⟨.any, [],
      [⟨[.top, .top, .err true false], .any, .eq⟩,
       ⟨[.str false, .nat (some 0), .nil], .any, .lt⟩], 0⟩]
  | .tryParseWindowClause =>
    [⟨.any, [.curPos],
      [⟨[.nil, .nil], .any, .eq⟩,
       ⟨[.top, .err true false], .any, .lt⟩,
       ⟨[.ty (.ptr .WindowClause) true ⟨true, some (-6)⟩ ⟨true, some 0⟩, .nil], .any, .lt⟩], 1⟩]
  | .parseWindowCondition =>
    [⟨.any, [.curPos],
      [⟨[.top, .err true false], (.tok 0 .any), .lt⟩,
       ⟨[.top, .err true false], .any, .lt⟩,
       ⟨[.ty (.ptr .WindowExpr) true ⟨true, some (-1)⟩ ⟨true, some (-1)⟩, .nil], .any, .lt⟩,
       ⟨[.top, .err true false], .any, .eq⟩], 0⟩]
  | .canParseWindowNameInParens =>
    [⟨.any, [],
      [⟨[.bool (some false)], .any, .eq⟩,
       ⟨[.bool (some true)], (.tok 0 .any), .eq⟩], 0⟩]
  | .parseWindowClause =>
    [⟨(.tok 6 (.kw b!"WINDOW")), [.curPos],
      [⟨[.top, .err true false], .any, .lt⟩,
       ⟨[.ty (.ptr .WindowClause) true ⟨true, some (-6)⟩ ⟨true, some 0⟩, .nil], .any, .lt⟩], 0⟩]
  | .tryParseHavingClause =>
    [⟨.any, [.curPos],
      [⟨[.nil, .nil], .any, .eq⟩,
       ⟨[.top, .err true false], (.tok 1 .any), .lt⟩,
       ⟨[.top, .err true false], .any, .lt⟩,
       ⟨[.ty (.ptr .HavingClause) true ⟨true, some (-6)⟩ ⟨true, some 0⟩, .nil], .none, .lt⟩,
       ⟨[.ty (.ptr .HavingClause) true ⟨true, some (-6)⟩ ⟨true, some 4⟩, .nil], .any, .lt⟩], 1⟩]
  | .parseHavingClause =>
    [⟨(.tok 6 (.kw b!"HAVING")), [.curPos],
      [⟨[.top, .err true false], (.tok 1 .any), .lt⟩,
       ⟨[.top, .err true false], .any, .lt⟩,
       ⟨[.ty (.ptr .HavingClause) true ⟨true, some (-6)⟩ ⟨true, some 0⟩, .nil], .none, .lt⟩,
       ⟨[.ty (.ptr .HavingClause) true ⟨true, some (-6)⟩ ⟨true, some 4⟩, .nil], .any, .lt⟩], 0⟩]
  | .parseSubQuery =>
    [⟨.any, [.nat (some 0)],
      [⟨[.top, .err true false], .any, .lt⟩,
       ⟨[.top, .err true false], .any, .eq⟩,
       ⟨[.ty (.ptr .SubQuery) true ⟨true, some 0⟩ ⟨true, some 4⟩, .nil], .none, .lt⟩,
       ⟨[.ty (.ptr .SubQuery) true ⟨true, some 0⟩ ⟨true, some 4⟩, .nil], (.tok 2 .any), .lt⟩,
       ⟨[.ty (.ptr .SubQuery) true ⟨true, some 0⟩ ⟨true, some 4⟩, .nil], .any, .lt⟩], 4⟩]
  | .parseSelectQuery =>
    [⟨.any, [.nat (some 0)],
      [⟨[.top, .err true false], (.tok 4 .any), .eq⟩,
       ⟨[.top, .err true false], .any, .eq⟩,
       ⟨[.top, .err true false], .any, .lt⟩,
       ⟨[.ty (.ptr .SelectQuery) true ⟨true, some 0⟩ ⟨true, some 4⟩, .nil], .none, .lt⟩,
       ⟨[.ty (.ptr .SelectQuery) true ⟨true, some 0⟩ ⟨true, some 4⟩, .nil], (.tok 2 .any), .lt⟩,
       ⟨[.ty (.ptr .SelectQuery) true ⟨true, some 0⟩ ⟨true, some 4⟩, .nil], .any, .lt⟩], 3⟩]
  | .parseSelectStmt =>
    [⟨.any, [.curPos],
      [⟨[.top, .err true false], .any, .eq⟩,
       ⟨[.top, .err true false], .any, .lt⟩,
       ⟨[.ty (.ptr .SelectQuery) true ⟨true, some 0⟩ ⟨true, some 4⟩, .nil], .none, .lt⟩,
       ⟨[.ty (.ptr .SelectQuery) true ⟨true, some 0⟩ ⟨true, some 4⟩, .nil], (.tok 2 .any), .lt⟩,
       ⟨[.ty (.ptr .SelectQuery) true ⟨true, some 0⟩ ⟨true, some 4⟩, .nil], .any, .lt⟩], 2⟩]
  | .parseCTEStmt =>
    [⟨.any, [.curPos],
      [⟨[.top, .err true false], .none, .le⟩,
       ⟨[.top, .err true false], .any, .eq⟩,
       ⟨[.top, .err true false], .any, .lt⟩,
       ⟨[.top, .err true false], (.tok 1 .any), .le⟩,
       ⟨[.ty (.ptr .CTEStmt) true ⟨true, some 0⟩ ⟨true, some 4⟩, .nil], .any, .lt⟩,
       ⟨[.ty (.ptr .CTEStmt) true ⟨true, some 0⟩ ⟨true, some 4⟩, .nil], .none, .lt⟩,
       ⟨[.ty (.ptr .CTEStmt) true ⟨true, some 0⟩ ⟨true, some 4⟩, .nil], (.tok 2 .any), .lt⟩], 9⟩]
  | .tryParseSampleClause =>
    [⟨.any, [.curPos],
      [⟨[.nil, .nil], .any, .eq⟩,
       ⟨[.top, .err true false], .any, .lt⟩,
       ⟨[.ty (.ptr .SampleClause) true ⟨true, some (-6)⟩ ⟨true, some 0⟩, .nil], .any, .lt⟩], 1⟩]
  | .parseSampleClause =>
    [⟨(.tok 6 (.kw b!"SAMPLE")), [.curPos],
      [⟨[.top, .err true false], .any, .lt⟩,
       ⟨[.ty (.ptr .SampleClause) true ⟨true, some (-6)⟩ ⟨true, some 0⟩, .nil], .any, .lt⟩], 0⟩]
  | .parseExplainStmt =>
    [⟨(.tok 7 (.kw b!"EXPLAIN")), [.curPos],
      [⟨[.top, .err true false], .any, .lt⟩,
       ⟨[.ty (.ptr .ExplainStmt) true ⟨true, some (-7)⟩ ⟨true, some 4⟩, .nil], .none, .lt⟩,
       ⟨[.ty (.ptr .ExplainStmt) true ⟨true, some (-7)⟩ ⟨true, some 4⟩, .nil], (.tok 2 .any), .lt⟩,
       ⟨[.ty (.ptr .ExplainStmt) true ⟨true, some (-7)⟩ ⟨true, some 4⟩, .nil], .any, .lt⟩], 0⟩]
  | .tryParseColumnComment =>
    [⟨(.tok 6 (.kw b!"REMOVE")), [.curPos],
      [⟨[.nil, .nil], (.tok 6 (.kw b!"REMOVE")), .eq⟩], 0⟩,
     ⟨.any, [.curPos],
      [⟨[.nil, .nil], .any, .eq⟩,
       ⟨[.top, .err true false], .any, .lt⟩,
       ⟨[.ty (.ptr .StringLiteral) true ⟨true, some 0⟩ ⟨true, some 0⟩, .nil], .any, .lt⟩], 0⟩]
  | .getNextPrecedence =>
    [⟨.any, [],
      [⟨[.nat (some 16)], (.tok 1 .any), .eq⟩,
       ⟨[.nat (some 9)], .none, .le⟩,
       ⟨[.zero], .any, .eq⟩], 3⟩]
  | .parseInfix =>
    [⟨.any, [.ty (.iface .Expr) true ⟨true, some 0⟩ ⟨true, some 4⟩, .nat (some 16)],
      [⟨[.top, .err true false], (.tok 0 .any), .lt⟩,
       ⟨[.top, .err true false], .any, .lt⟩,
       ⟨[.ty (.iface .Expr) true ⟨true, some 0⟩ ⟨true, some 4⟩, .nil], .any, .lt⟩,
       ⟨[.top, .err true false], .any, .eq⟩], 1⟩]
  | .parseExpr =>
    [⟨.any, [.nat (some 0)],
      [⟨[.top, .err true false], .any, .lt⟩,
       ⟨[.top, .err true false], .any, .eq⟩,
       ⟨[.top, .err true false], .none, .le⟩,
       ⟨[.top, .err true false], (.tok 1 .any), .le⟩,
       ⟨[.ty (.iface .Expr) true ⟨true, some 0⟩ ⟨true, some 0⟩, .nil], .none, .lt⟩,
       ⟨[.ty (.iface .Expr) true ⟨true, some 0⟩ ⟨true, some 4⟩, .nil], .any, .lt⟩], 8⟩]
  | .parseSubExpr =>
    [⟨.any, [.nat (some 0), .nat (some 16)],
      [⟨[.top, .err true false], .any, .lt⟩,
       ⟨[.top, .err true false], .any, .eq⟩,
       ⟨[.top, .err true false], .none, .le⟩,
       ⟨[.top, .err true false], (.tok 1 .any), .le⟩,
       ⟨[.ty (.iface .Expr) true ⟨true, some 0⟩ ⟨true, some 0⟩, .nil], .none, .lt⟩,
       ⟨[.ty (.iface .Expr) true ⟨true, some 0⟩ ⟨true, some 4⟩, .nil], .any, .lt⟩], 7⟩]
  | .parseInfixLoop =>
    [⟨.any, [.ty (.iface .Expr) true ⟨true, some 0⟩ ⟨true, some 4⟩, .nat (some 16)],
      [⟨[.ty (.iface .Expr) true ⟨true, some 0⟩ ⟨true, some 0⟩, .nil], .none, .eq⟩,
       ⟨[.ty (.iface .Expr) true ⟨true, some 0⟩ ⟨true, some 4⟩, .nil], .any, .eq⟩,
       ⟨[.ty (.iface .Expr) true ⟨true, some 0⟩ ⟨true, some 4⟩, .nil], .none, .le⟩,
       ⟨[.ty (.iface .Expr) true ⟨true, some 0⟩ ⟨true, some 4⟩, .nil], .any, .lt⟩,
       ⟨[.top, .err true false], .any, .eq⟩,
       ⟨[.top, .err true false], .any, .lt⟩,
       ⟨[.top, .err true false], .none, .le⟩], 4⟩]
  | .parseTernaryExpr =>
    [⟨(.tok 1 (.kind b!"?")), [.ty (.iface .Expr) true ⟨true, some 0⟩ ⟨true, some 4⟩],
      [⟨[.top, .err true false], (.tok 1 .any), .lt⟩,
       ⟨[.top, .err true false], .none, .lt⟩,
       ⟨[.top, .err true false], .any, .lt⟩,
       ⟨[.ty (.ptr .TernaryOperation) true ⟨true, some 0⟩ ⟨true, some 0⟩, .nil], .none, .lt⟩,
       ⟨[.ty (.ptr .TernaryOperation) true ⟨true, some 0⟩ ⟨true, some 4⟩, .nil], .any, .lt⟩], 0⟩]
  | .parseExtractFrom =>
    [⟨(.tok 4 (.kw b!"FROM")), [.ty (.ptr .Ident) true ⟨true, some 0⟩ ⟨true, some 4⟩],
      [⟨[.top, .err true false], (.tok 1 .any), .lt⟩,
       ⟨[.top, .err true false], .none, .lt⟩,
       ⟨[.top, .err true false], .any, .lt⟩,
       ⟨[.ty (.ptr .IntervalFrom) true ⟨true, some 0⟩ ⟨true, some 0⟩, .nil], .none, .lt⟩,
       ⟨[.ty (.ptr .IntervalFrom) true ⟨true, some 0⟩ ⟨true, some 4⟩, .nil], .any, .lt⟩], 0⟩]
  | .parseColumnExtractExpr =>
    [⟨(.tok 7 (.kw b!"EXTRACT")), [.nat (some 0)],
      [⟨[.top, .err true false], .any, .lt⟩,
       ⟨[.ty (.ptr .ExtractExpr) true ⟨true, some 0⟩ ⟨true, some (-1)⟩, .nil], .any, .lt⟩], 0⟩]
  | .parseUnaryExpr =>
    [⟨.any, [.nat (some 0)],
      [⟨[.top, .err true false], (.tok 0 .any), .eq⟩,
       ⟨[.ty (.iface .Expr) true ⟨true, some 0⟩ ⟨true, some 4⟩, .nil], .any, .lt⟩,
       ⟨[.top, .err true false], .none, .le⟩,
       ⟨[.top, .err true false], .any, .eq⟩,
       ⟨[.top, .err true false], (.tok 0 .any), .lt⟩,
       ⟨[.top, .err true false], .any, .lt⟩,
       ⟨[.top, .err true false], (.tok 1 .any), .le⟩], 6⟩]
  | .peekTokenKind =>
    [⟨.any, [.str true],
      [⟨[.bool (some false)], (.tok 1 .any), .eq⟩,
       ⟨[.bool (some false)], .none, .le⟩,
       ⟨[.bool (some true)], (.tok 1 .any), .eq⟩,
       ⟨[.bool (some false)], .any, .eq⟩,
       ⟨[.bool (some true)], .any, .eq⟩], 0⟩]
  | .peekKeyword =>
    [⟨.any, [.str true],
      [⟨[.bool (some false)], .any, .eq⟩,
       ⟨[.bool (some false)], .none, .le⟩,
       ⟨[.bool (some true)], .any, .eq⟩], 0⟩]
  | .matchClauseStarterKeyword =>
    [⟨.any, [],
      [⟨[.bool (some true)], (.tok 4 .any), .eq⟩,
       ⟨[.bool (some false)], .any, .eq⟩], 0⟩]
  | .peekIsClauseStarterKeyword =>
    [⟨.any, [],
      [⟨[.bool (some true)], .any, .eq⟩,
       ⟨[.bool (some true)], .none, .le⟩,
       ⟨[.bool (some false)], .any, .eq⟩,
       ⟨[.bool (some false)], .none, .le⟩], 1⟩]
  | .peekIsEndOfStatement =>
    [⟨(.tok 1 .any), [],
      [⟨[.bool (some true)], .none, .le⟩,
       ⟨[.bool (some true)], (.tok 1 .any), .eq⟩,
       ⟨[.bool (some false)], (.tok 1 .any), .eq⟩], 0⟩]
  | .peekIsExpressionContinuation =>
    [⟨.any, [],
      [⟨[.bool (some true)], (.tok 1 .any), .eq⟩,
       ⟨[.bool (some true)], .none, .le⟩,
       ⟨[.bool (some true)], (.tok 1 .any), .le⟩,
       ⟨[.bool (some false)], (.tok 1 .any), .le⟩,
       ⟨[.bool (some false)], .none, .le⟩,
       ⟨[.bool (some true)], .any, .eq⟩,
       ⟨[.bool (some false)], .any, .eq⟩], 1⟩]
  | .keywordIsSelectItemIdentifier =>
    [⟨.any, [],
      [⟨[.bool (some false)], .any, .eq⟩,
       ⟨[.bool (some true)], (.tok 1 .any), .eq⟩,
       ⟨[.bool (some true)], .none, .le⟩,
       ⟨[.bool (some false)], .none, .le⟩,
       ⟨[.bool (some false)], (.tok 1 .any), .le⟩,
       ⟨[.bool (some true)], (.tok 1 .any), .le⟩], 2⟩]
  | .isSelectItemTerminatorKeyword =>
    [⟨.any, [],
      [⟨[.bool (some false)], (.tok 1 .any), .le⟩,
       ⟨[.bool (some false)], .none, .le⟩,
       ⟨[.bool (some true)], (.tok 4 .any), .eq⟩,
       ⟨[.bool (some false)], .any, .eq⟩,
       ⟨[.bool (some true)], (.tok 4 .any), .le⟩], 3⟩]
  | .parseColumnExpr =>
    [⟨.any, [.nat (some 0)],
      [⟨[.top, .err true false], (.tok 0 .any), .eq⟩,
       ⟨[.ty (.iface .Expr) true ⟨true, some 0⟩ ⟨true, some 4⟩, .nil], .any, .lt⟩,
       ⟨[.top, .err true false], .none, .le⟩,
       ⟨[.top, .err true false], .any, .eq⟩,
       ⟨[.top, .err true false], (.tok 0 .any), .lt⟩,
       ⟨[.top, .err true false], .any, .lt⟩,
       ⟨[.top, .err true false], (.tok 1 .any), .le⟩,
       ⟨[.ty (.ptr .SelectQuery) true ⟨true, some 0⟩ ⟨true, some 4⟩, .nil], .none, .lt⟩,
       ⟨[.ty (.ptr .SelectQuery) true ⟨true, some 0⟩ ⟨true, some 4⟩, .nil], (.tok 2 .any), .lt⟩], 5⟩]
  | .parseColumnCastExpr =>
    [⟨(.tok 4 (.kw b!"CAST")), [.nat (some 0)],
      [⟨[.top, .err true false], .any, .lt⟩,
       ⟨[.ty (.ptr .CastExpr) true ⟨true, some 0⟩ ⟨true, some 0⟩, .nil], .any, .lt⟩], 0⟩]
  | .parseColumnExprListWithLParen =>
    [⟨.any, [.curPos],
      [⟨[.ty (.ptr .ColumnExprList) true ⟨true, some 0⟩ ⟨true, some 0⟩, .nil], (.tok 0 .any), .eq⟩,
       ⟨[.ty (.ptr .ColumnExprList) true ⟨true, some 0⟩ ⟨true, some 0⟩, .nil], (.tok 0 .any), .lt⟩,
       ⟨[.ty (.ptr .ColumnExprList) true ⟨true, some 0⟩ ⟨true, some 0⟩, .nil], .none, .eq⟩,
       ⟨[.ty (.ptr .ColumnExprList) true ⟨true, some 0⟩ ⟨true, some 4⟩, .nil], .none, .lt⟩,
       ⟨[.top, .err true false], .any, .lt⟩,
       ⟨[.top, .err true false], .any, .eq⟩,
       ⟨[.top, .err true false], .none, .le⟩,
       ⟨[.top, .err true false], (.tok 1 .any), .le⟩,
       ⟨[.ty (.ptr .ColumnExprList) true ⟨true, some 0⟩ ⟨true, some 4⟩, .nil], .any, .lt⟩], 11⟩]
  | .parseColumnExprListWithSquareBracket =>
    [⟨.any, [.curPos],
      [⟨[.ty (.ptr .ColumnExprList) true ⟨true, some 0⟩ ⟨true, some 0⟩, .nil], (.tok 0 .any), .eq⟩,
       ⟨[.ty (.ptr .ColumnExprList) true ⟨true, some 0⟩ ⟨true, some 0⟩, .nil], (.tok 0 .any), .lt⟩,
       ⟨[.ty (.ptr .ColumnExprList) true ⟨true, some 0⟩ ⟨true, some 0⟩, .nil], .none, .eq⟩,
       ⟨[.ty (.ptr .ColumnExprList) true ⟨true, some 0⟩ ⟨true, some 4⟩, .nil], .none, .lt⟩,
       ⟨[.top, .err true false], .any, .lt⟩,
       ⟨[.top, .err true false], .any, .eq⟩,
       ⟨[.top, .err true false], .none, .le⟩,
       ⟨[.top, .err true false], (.tok 1 .any), .le⟩,
       ⟨[.ty (.ptr .ColumnExprList) true ⟨true, some 0⟩ ⟨true, some 4⟩, .nil], .any, .lt⟩], 11⟩]
  | .parseColumnExprList =>
    [⟨.any, [.curPos],
      [⟨[.ty (.ptr .ColumnExprList) true ⟨true, some 0⟩ ⟨true, some 0⟩, .nil], (.tok 0 .any), .eq⟩,
       ⟨[.ty (.ptr .ColumnExprList) true ⟨true, some 0⟩ ⟨true, some 0⟩, .nil], (.tok 0 .any), .lt⟩,
       ⟨[.ty (.ptr .ColumnExprList) true ⟨true, some 0⟩ ⟨true, some 0⟩, .nil], .none, .eq⟩,
       ⟨[.ty (.ptr .ColumnExprList) true ⟨true, some 0⟩ ⟨true, some 4⟩, .nil], .none, .lt⟩,
       ⟨[.top, .err true false], .any, .lt⟩,
       ⟨[.top, .err true false], .any, .eq⟩,
       ⟨[.top, .err true false], .none, .le⟩,
       ⟨[.top, .err true false], (.tok 1 .any), .le⟩,
       ⟨[.ty (.ptr .ColumnExprList) true ⟨true, some 0⟩ ⟨true, some 4⟩, .nil], .any, .lt⟩], 11⟩]
  | .parseColumnExprListWithTerm =>
    [⟨.any, [.str true, .curPos],
      [⟨[.ty (.ptr .ColumnExprList) true ⟨true, some 0⟩ ⟨true, some 0⟩, .nil], (.tok 0 .any), .eq⟩,
       ⟨[.ty (.ptr .ColumnExprList) true ⟨true, some 0⟩ ⟨true, some 0⟩, .nil], (.tok 0 .any), .lt⟩,
       ⟨[.ty (.ptr .ColumnExprList) true ⟨true, some 0⟩ ⟨true, some 0⟩, .nil], .none, .eq⟩,
       ⟨[.ty (.ptr .ColumnExprList) true ⟨true, some 0⟩ ⟨true, some 4⟩, .nil], .none, .lt⟩,
       ⟨[.top, .err true false], .any, .lt⟩,
       ⟨[.top, .err true false], .any, .eq⟩,
       ⟨[.top, .err true false], .none, .le⟩,
       ⟨[.top, .err true false], (.tok 1 .any), .le⟩,
       ⟨[.ty (.ptr .ColumnExprList) true ⟨true, some 0⟩ ⟨true, some 4⟩, .nil], .any, .lt⟩], 10⟩]
  | .parseSelectItems =>
    [⟨.any, [],
      [⟨[.empty, .nil], .none, .eq⟩,
       ⟨[.top, .err true false], .any, .lt⟩,
       ⟨[.top, .err true false], .any, .eq⟩,
       ⟨[.top, .err true false], .none, .le⟩,
       ⟨[.top, .err true false], (.tok 1 .any), .le⟩,
       ⟨[.ty (.slice (.ptr .SelectItem)) true ⟨true, some 0⟩ ⟨true, some 4⟩, .nil], .any, .lt⟩,
       ⟨[.ty (.slice (.ptr .SelectItem)) true ⟨true, some 0⟩ ⟨true, some 4⟩, .nil], (.tok 4 .any), .lt⟩], 10⟩]
  | .parseInterval =>
    [⟨(.tok 8 (.kw b!"INTERVAL")), [.bool (some true)],
      [⟨[.top, .err true false], .none, .lt⟩,
       ⟨[.top, .err true false], .any, .lt⟩,
       ⟨[.ty (.ptr .IntervalExpr) true ⟨true, some 0⟩ ⟨true, some 0⟩, .nil], .any, .lt⟩], 0⟩,
     ⟨.any, [.bool (some false)],
      [⟨[.top, .err true false], .none, .le⟩,
       ⟨[.top, .err true false], .any, .eq⟩,
       ⟨[.top, .err true false], .any, .lt⟩,
       ⟨[.top, .err true false], (.tok 1 .any), .le⟩,
       ⟨[.ty (.ptr .IntervalExpr) true ⟨true, some 0⟩ ⟨true, some 0⟩, .nil], .any, .lt⟩], 9⟩]
  | .parseFunctionExpr =>
    [⟨.any, [.curPos],
      [⟨[.top, .err true false], .any, .eq⟩,
       ⟨[.top, .err true false], .any, .lt⟩,
       ⟨[.ty (.ptr .FunctionExpr) true ⟨true, some 0⟩ ⟨true, some (-1)⟩, .nil], .any, .lt⟩], 1⟩]
  | .parseColumnArgList =>
    [⟨(.tok 1 (.kind b!"(")), [.curPos],
      [⟨[.top, .err true false], .any, .lt⟩,
       ⟨[.ty (.ptr .ColumnArgList) true ⟨true, some (-1)⟩ ⟨true, some (-1)⟩, .nil], .any, .lt⟩], 0⟩]
  | .parseKeywordArgItem =>
    [⟨.any, [.ty (.val .KeywordArgForm) true .top .top, .nat none, .bool none],
      [⟨[.top, .top, .err true false], .none, .lt⟩,
       ⟨[.top, .top, .err true false], (.tok 1 .any), .le⟩,
       ⟨[.top, .top, .err true false], .none, .le⟩,
       ⟨[.top, .top, .err true false], .any, .eq⟩,
       ⟨[.top, .top, .err true false], .any, .lt⟩,
       ⟨[.ty (.iface .Expr) true ⟨true, some 0⟩ ⟨true, some 0⟩, .zero, .nil], .none, .lt⟩,
       ⟨[.ty (.iface .Expr) true ⟨true, some 0⟩ ⟨true, some 4⟩, .nat none, .nil], .any, .lt⟩], 10⟩]
  | .parseKeywordArgModifier =>
    [⟨.any, [.ty (.val .KeywordArgForm) true .top .top, .nat none],
      [⟨[.top, .top, .err true false], .none, .lt⟩,
       ⟨[.top, .top, .err true false], .any, .lt⟩,
       ⟨[.top, .top, .err true false], .any, .eq⟩,
       ⟨[.top, .top, .err true false], .none, .le⟩,
       ⟨[.top, .top, .err true false], (.tok 1 .any), .le⟩,
       ⟨[.ty (.iface .Expr) true ⟨true, some 0⟩ ⟨true, some 0⟩, .bool (some false), .nil], .none, .lt⟩,
       ⟨[.ty (.iface .Expr) true ⟨true, some 0⟩ ⟨true, some 4⟩, .bool (some false), .nil], .any, .lt⟩,
       ⟨[.ty (.ptr .UnaryExpr) true ⟨true, some 0⟩ ⟨true, some 0⟩, .bool (some true), .nil], .none, .lt⟩,
       ⟨[.ty (.ptr .UnaryExpr) true ⟨true, some 0⟩ ⟨true, some 4⟩, .bool (some true), .nil], .any, .lt⟩], 9⟩]
  | .parseKeywordArgFunctionParams =>
    [⟨(.tok 1 (.kind b!"(")), [.curPos, .ty (.val .KeywordArgForm) true .top .top],
      [⟨[.top, .err true false], .any, .lt⟩,
       ⟨[.ty (.ptr .ParamExprList) true ⟨true, some (-1)⟩ ⟨true, some (-1)⟩, .nil], .any, .lt⟩], 0⟩]
  | .parseFunctionParams =>
    [⟨.any, [.curPos],
      [⟨[.top, .err true false], .any, .eq⟩,
       ⟨[.top, .err true false], .none, .lt⟩,
       ⟨[.top, .err true false], (.tok 0 .any), .lt⟩,
       ⟨[.top, .err true false], .any, .lt⟩,
       ⟨[.ty (.ptr .ParamExprList) true ⟨true, some (-1)⟩ ⟨true, some (-1)⟩, .nil], .any, .lt⟩], 0⟩]
  | .parseMapLiteral =>
    [⟨.any, [.curPos],
      [⟨[.top, .err true false], .any, .lt⟩,
       ⟨[.ty (.ptr .MapLiteral) true ⟨true, some (-1)⟩ ⟨true, some (-1)⟩, .nil], .any, .lt⟩,
       ⟨[.top, .err true false], .any, .eq⟩], 0⟩]
  | .parseQueryParam =>
    [⟨.any, [.curPos],
      [⟨[.top, .err true false], .any, .lt⟩,
       ⟨[.top, .err true false], .any, .eq⟩,
       ⟨[.ty (.ptr .QueryParam) true ⟨true, some (-1)⟩ ⟨true, some (-1)⟩, .nil], .any, .lt⟩], 0⟩]
  | .parseArrayParams =>
    [⟨(.tok 1 (.kind b!"[")), [.curPos],
      [⟨[.top, .err true false], .none, .lt⟩,
       ⟨[.top, .err true false], (.tok 0 .any), .lt⟩,
       ⟨[.ty (.ptr .ArrayParamList) true ⟨true, some (-1)⟩ ⟨true, some (-1)⟩, .nil], .any, .lt⟩,
       ⟨[.top, .err true false], .any, .lt⟩], 0⟩]
  | .parseColumnsExpr =>
    [⟨.any, [.curPos],
      [⟨[.top, .err true false], .none, .le⟩,
       ⟨[.top, .err true false], .any, .eq⟩,
       ⟨[.top, .err true false], .any, .lt⟩,
       ⟨[.top, .err true false], (.tok 1 .any), .le⟩,
       ⟨[.ty (.ptr .ColumnExpr) true ⟨true, some 0⟩ ⟨true, some 0⟩, .nil], .none, .lt⟩,
       ⟨[.ty (.ptr .ColumnExpr) true ⟨true, some 0⟩ ⟨true, some 4⟩, .nil], .any, .lt⟩], 9⟩]
  | .parseSelectItem =>
    [⟨.any, [],
      [⟨[.top, .err true false], .none, .le⟩,
       ⟨[.top, .err true false], .any, .eq⟩,
       ⟨[.top, .err true false], .any, .lt⟩,
       ⟨[.top, .err true false], (.tok 1 .any), .le⟩,
       ⟨[.ty (.ptr .SelectItem) true ⟨true, some 0⟩ ⟨true, some 4⟩, .nil], .any, .lt⟩,
       ⟨[.ty (.ptr .SelectItem) true ⟨true, some 0⟩ ⟨true, some 4⟩, .nil], (.tok 4 .any), .lt⟩], 9⟩]
  | .parseColumnCaseExpr =>
    [⟨(.tok 4 (.kw b!"CASE")), [.nat (some 0)],
      [⟨[.top, .err true false], .none, .lt⟩,
       ⟨[.top, .err true false], .any, .lt⟩,
       ⟨[.ty (.ptr .CaseExpr) true ⟨true, some 0⟩ ⟨true, some 0⟩, .nil], .any, .lt⟩], 0⟩]
  | .parseColumnType =>
    [⟨.any, [.curPos],
      [⟨[.top, .err true false], .any, .eq⟩,
       ⟨[.ty (.iface .ColumnType) true ⟨true, some 0⟩ ⟨true, some 0⟩, .nil], .any, .lt⟩,
       ⟨[.top, .err true false], .any, .lt⟩], 1⟩]
  | .parseColumnTypeArgs =>
    [⟨.any, [.ty (.ptr .Ident) true ⟨true, some 0⟩ ⟨true, some 0⟩],
      [⟨[.ty (.iface .ColumnType) true ⟨true, some 0⟩ ⟨true, some 0⟩, .nil], .any, .lt⟩,
       ⟨[.top, .err true false], .any, .lt⟩,
       ⟨[.ty (.ptr .ScalarType) true ⟨true, some 0⟩ ⟨true, some 0⟩, .nil], .any, .eq⟩,
       ⟨[.ty (.ptr .JSONType) true ⟨true, some 0⟩ ⟨true, some 0⟩, .nil], (.tok 1 (.kind b!"(")), .lt⟩], 0⟩]
  | .parseColumnPropertyType =>
    [⟨.any, [.curPos],
      [⟨[.top, .err true false], .any, .eq⟩,
       ⟨[.ty (.ptr .PropertyType) true ⟨true, some 0⟩ ⟨true, some 0⟩, .nil], .any, .lt⟩], 1⟩]
  | .parseComplexType =>
    [⟨(.tok 0 .any), [.ty (.ptr .Ident) true ⟨true, some 0⟩ ⟨true, some 0⟩, .curPos],
      [⟨[.top, .err true false], (.tok 0 .any), .eq⟩,
       ⟨[.ty (.ptr .ComplexType) true ⟨true, some 0⟩ ⟨true, some (-1)⟩, .nil], .any, .lt⟩,
       ⟨[.top, .err true false], .any, .lt⟩], 2⟩]
  | .parseEnumType =>
    [⟨(.tok 0 (.kind b!"<string>")), [.ty (.ptr .Ident) true ⟨true, some 0⟩ ⟨true, some 0⟩, .curPos],
      [⟨[.top, .err true false], (.tok 0 (.kind b!"<string>")), .eq⟩,
       ⟨[.top, .err true false], .any, .lt⟩,
       ⟨[.ty (.ptr .EnumType) true ⟨true, some 0⟩ ⟨true, some 0⟩, .nil], .any, .lt⟩], 2⟩]
  | .parseColumnTypeWithParams =>
    [⟨.any, [.ty (.ptr .Ident) true ⟨true, some 0⟩ ⟨true, some 0⟩, .curPos],
      [⟨[.top, .err true false], .any, .eq⟩,
       ⟨[.top, .err true false], .any, .lt⟩,
       ⟨[.ty (.ptr .TypeWithParams) true ⟨true, some 0⟩ ⟨true, some (-1)⟩, .nil], .any, .lt⟩], 2⟩]
  | .parseJSONPath =>
    [⟨.any, [],
      [⟨[.top, .err true false], .any, .eq⟩,
       ⟨[.top, .err true false], .any, .lt⟩,
       ⟨[.ty (.ptr .JSONPath) true ⟨true, some 0⟩ ⟨true, some 0⟩, .nil], .any, .lt⟩], 1⟩]
  | .parseJSONOption =>
    [⟨.any, [],
      [⟨[.top, .err true false], .any, .lt⟩,
       ⟨[.ty (.ptr .JSONOption) true ⟨true, some 0⟩ ⟨true, some 0⟩, .nil], .any, .lt⟩,
       ⟨[.top, .err true false], (.tok 0 .any), .eq⟩,
       ⟨[.top, .err true false], .any, .eq⟩], 2⟩]
  | .parseJSONType =>
    [⟨(.tok 0 .any), [.ty (.ptr .Ident) true ⟨true, some 0⟩ ⟨true, some 0⟩, .curPos],
      [⟨[.ty (.ptr .JSONType) true ⟨true, some 0⟩ ⟨true, some 0⟩, .nil], (.tok 1 (.kind b!"(")), .eq⟩,
       ⟨[.top, .err true false], (.tok 0 .any), .eq⟩,
       ⟨[.ty (.ptr .JSONType) true ⟨true, some 0⟩ ⟨true, some (-1)⟩, .nil], .any, .lt⟩,
       ⟨[.top, .err true false], .any, .lt⟩], 3⟩]
  | .parseNestedType =>
    [⟨.any, [.ty (.ptr .Ident) true ⟨true, some 0⟩ ⟨true, some 0⟩, .curPos],
      [⟨[.top, .err true false], (.tok 0 .any), .eq⟩,
       ⟨[.ty (.ptr .NestedType) true ⟨true, some 0⟩ ⟨true, some (-1)⟩, .nil], .any, .lt⟩,
       ⟨[.top, .err true false], .any, .lt⟩,
       ⟨[.top, .err true false], .any, .eq⟩], 2⟩]
  | .parseNestedTypeFields =>
    [⟨.any, [],
      [⟨[.empty, .nil], (.tok 0 .any), .eq⟩,
       ⟨[.top, .err true false], (.tok 0 .any), .eq⟩,
       ⟨[.top, .err true false], (.tok 0 .any), .lt⟩,
       ⟨[.top, .err true false], .any, .lt⟩,
       ⟨[.ty (.slice (.iface .Expr)) true ⟨true, some 0⟩ ⟨true, some 0⟩, .nil], .any, .lt⟩,
       ⟨[.empty, .nil], .any, .eq⟩,
       ⟨[.top, .err true false], .any, .eq⟩], 1⟩]
  | .parseNestedTypeFieldsWithNames =>
    [⟨(.tok 0 .any), [.ty (.ptr .Ident) true ⟨true, some 0⟩ ⟨true, some 0⟩],
      [⟨[.top, .err true false], (.tok 0 .any), .eq⟩,
       ⟨[.top, .err true false], .any, .lt⟩,
       ⟨[.ty (.slice (.ptr .ColumnDef)) true ⟨true, some 0⟩ ⟨true, some 0⟩, .nil], .any, .lt⟩], 2⟩]
  | .parseNestedTypeFieldsWithoutNames =>
    [⟨.any, [.ty (.ptr .Ident) true ⟨true, some 0⟩ ⟨true, some 0⟩],
      [⟨[.top, .err true false], .any, .lt⟩,
       ⟨[.ty (.slice (.ptr .ScalarType)) true ⟨true, some 0⟩ ⟨true, some 0⟩, .nil], .any, .eq⟩,
       ⟨[.ty (.slice (.iface .ColumnType)) true ⟨true, some 0⟩ ⟨true, some 0⟩, .nil], .any, .lt⟩], 1⟩]
  | .parseNestedTypeFieldWithName =>
    [⟨.any, [],
      [⟨[.top, .err true false], .any, .eq⟩,
       ⟨[.top, .err true false], .any, .lt⟩,
       ⟨[.ty (.ptr .ColumnDef) true ⟨true, some 0⟩ ⟨true, some 0⟩, .nil], .any, .lt⟩], 1⟩]
  | .tryParseCompressionCodecs =>
    [⟨(.tok 6 (.kw b!"REMOVE")), [.curPos],
      [⟨[.nil, .nil], (.tok 6 (.kw b!"REMOVE")), .eq⟩], 0⟩,
     ⟨.any, [.curPos],
      [⟨[.nil, .nil], .any, .eq⟩,
       ⟨[.top, .err true false], .any, .lt⟩,
       ⟨[.ty (.ptr .CompressionCodec) true ⟨true, some (-5)⟩ ⟨true, some 1⟩, .nil], .any, .lt⟩], 0⟩]
  | .parseEnumValueExpr =>
    [⟨.any, [.curPos],
      [⟨[.top, .err true false], (.tok 0 (.kind b!"<string>")), .eq⟩,
       ⟨[.top, .err true false], .any, .lt⟩,
       ⟨[.ty (.ptr .EnumValue) true ⟨true, some 0⟩ ⟨true, some 0⟩, .nil], .any, .lt⟩,
       ⟨[.top, .err true false], .any, .eq⟩], 1⟩]
  | .parseColumnStar =>
    [⟨(.tok 1 (.kind b!"*")), [.curPos],
      [⟨[.ty (.ptr .Ident) true ⟨true, some (-1)⟩ ⟨true, some (-1)⟩, .nil], .any, .lt⟩], 0⟩]
  | .tryParseCompressionLevel =>
    [⟨.any, [.curPos],
      [⟨[.nil, .nil], .any, .eq⟩,
       ⟨[.ty (.ptr .NumberLiteral) false ⟨true, some 0⟩ ⟨true, some 0⟩, .nil], .any, .lt⟩,
       ⟨[.top, .err true false], .any, .lt⟩], 0⟩]
  | .parseDDL =>
    [⟨(.tok 6 (.kw b!"RENAME")), [.curPos],
      [⟨[.top, .err true false], .any, .lt⟩,
       ⟨[.ty (.ptr .RenameStmt) true ⟨true, some (-6)⟩ ⟨true, some 0⟩, .nil], .any, .lt⟩], 1⟩,
     ⟨(.tok 8 (.kw b!"TRUNCATE")), [.curPos],
      [⟨[.top, .err true false], .any, .lt⟩,
       ⟨[.ty (.ptr .TruncateTable) true ⟨true, some (-8)⟩ ⟨true, some 0⟩, .nil], .any, .lt⟩], 1⟩,
     ⟨(.tok 6 (.kw b!"DETACH")), [.curPos],
      [⟨[.top, .err true false], .any, .lt⟩,
       ⟨[.ty (.iface .ColumnType) true ⟨true, some (-4)⟩ ⟨true, some 0⟩, .nil], .any, .lt⟩], 0⟩,
     ⟨(.tok 4 (.kw b!"DROP")), [.curPos],
      [⟨[.top, .err true false], .any, .lt⟩,
       ⟨[.ty (.iface .ColumnType) true ⟨true, some (-4)⟩ ⟨true, some 0⟩, .nil], .any, .lt⟩], 0⟩,
     ⟨(.tok 5 (.kw b!"ALTER")), [.curPos],
      [⟨[.top, .err true false], .any, .lt⟩,
       ⟨[.ty (.iface .ColumnType) true ⟨true, some (-5)⟩ ⟨true, some 4⟩, .nil], .any, .lt⟩], 0⟩,
     ⟨(.tok 6 (.kw b!"ATTACH")), [.curPos],
      [⟨[.top, .err true false], .any, .lt⟩,
       ⟨[.ty (.iface .ColumnType) true ⟨true, some (-6)⟩ ⟨true, some 4⟩, .nil], .any, .lt⟩], 0⟩,
     ⟨(.tok 6 (.kw b!"CREATE")), [.curPos],
      [⟨[.top, .err true false], .any, .lt⟩,
       ⟨[.ty (.iface .ColumnType) true ⟨true, some (-6)⟩ ⟨true, some 4⟩, .nil], .any, .lt⟩], 0⟩]
  | .parseCreateDatabase =>
    [⟨(.tok 8 (.kw b!"DATABASE")), [.nat (some (-6))],
      [⟨[.top, .err true false], .any, .lt⟩,
       ⟨[.ty (.ptr .CreateDatabase) true ⟨true, some (-6)⟩ ⟨true, some 4⟩, .nil], .any, .lt⟩], 0⟩]
  | .parseCreateDictionary =>
    [⟨(.tok 10 (.kw b!"DICTIONARY")), [.nat (some (-6)), .bool none],
      [⟨[.top, .err true false], .any, .lt⟩,
       ⟨[.ty (.ptr .CreateDictionary) true ⟨true, some (-6)⟩ ⟨true, some 0⟩, .nil], .any, .lt⟩], 0⟩]
  | .parseCreateNamedCollection =>
    [⟨(.tok 5 (.kw b!"NAMED")), [.nat (some (-6))],
      [⟨[.top, .err true false], .any, .lt⟩,
       ⟨[.ty (.ptr .CreateNamedCollection) true ⟨true, some (-6)⟩ ⟨true, some 0⟩, .nil], .any, .lt⟩], 0⟩]
  | .parseNamedCollectionParam =>
    [⟨.any, [.curPos],
      [⟨[.top, .err true false], .any, .eq⟩,
       ⟨[.top, .err true false], .any, .lt⟩,
       ⟨[.ty (.ptr .NamedCollectionParam) true ⟨true, some 0⟩ ⟨true, some 0⟩, .nil], .any, .lt⟩], 1⟩]
  | .parseCreateTable =>
    [⟨(.tok 5 .any), [.nat (some (-6)), .bool none],
      [⟨[.top, .err true false], (.tok 5 .any), .eq⟩,
       ⟨[.top, .err true false], .any, .lt⟩,
       ⟨[.ty (.ptr .CreateTable) true ⟨true, some (-6)⟩ ⟨true, some 0⟩, .nil], (.tok 1 .any), .lt⟩,
       ⟨[.ty (.ptr .CreateTable) true ⟨true, some (-6)⟩ ⟨true, some 0⟩, .nil], .none, .lt⟩,
       ⟨[.ty (.ptr .CreateTable) true ⟨true, some (-6)⟩ ⟨true, some 4⟩, .nil], .any, .lt⟩], 0⟩]
  | .parseIdentOrFunction =>
    [⟨(.tok 0 .any), [.nat (some 0)],
      [⟨[.top, .err true false], (.tok 0 .any), .eq⟩,
       ⟨[.top, .err true false], (.tok 0 .any), .lt⟩,
       ⟨[.top, .err true false], .any, .lt⟩,
       ⟨[.ty (.iface .Expr) true ⟨true, some 0⟩ ⟨true, some 0⟩, .nil], .any, .lt⟩,
       ⟨[.top, .err true false], .none, .le⟩], 1⟩]
  | .parseTableIdentifier =>
    [⟨.any, [.curPos],
      [⟨[.top, .err true false], .any, .eq⟩,
       ⟨[.top, .err true false], .any, .lt⟩,
       ⟨[.ty (.ptr .TableIdentifier) true ⟨true, some 0⟩ ⟨true, some 0⟩, .nil], .any, .lt⟩], 2⟩]
  | .parseTableSchemaClause =>
    [⟨.any, [.curPos],
      [⟨[.top, .err true false], .none, .le⟩,
       ⟨[.top, .err true false], (.tok 1 .any), .le⟩,
       ⟨[.top, .err true false], .any, .lt⟩,
       ⟨[.ty (.ptr .TableSchemaClause) true ⟨true, some (-1)⟩ ⟨true, some 1⟩, .nil], .any, .lt⟩,
       ⟨[.nil, .nil], (.tok 1 .any), .le⟩,
       ⟨[.nil, .nil], .none, .le⟩,
       ⟨[.nil, .nil], .any, .eq⟩], 1⟩]
  | .parseTableColumns =>
    [⟨.any, [],
      [⟨[.top, .err true false], .any, .lt⟩,
       ⟨[.empty, .nil], .any, .eq⟩,
       ⟨[.top, .err true false], (.tok 0 .any), .eq⟩,
       ⟨[.ty (.slice (.iface .Expr)) false ⟨true, some 0⟩ ⟨true, some 4⟩, .nil], .any, .lt⟩,
       ⟨[.ty (.slice (.iface .Expr)) true ⟨true, some 0⟩ ⟨true, some 1⟩, .nil], .none, .lt⟩], 4⟩]
  | .tryParseTableColumnExpr =>
    [⟨.any, [.curPos],
      [⟨[.nil, .nil], .any, .eq⟩,
       ⟨[.top, .err true false], (.tok 0 .any), .eq⟩,
       ⟨[.top, .err true false], .any, .lt⟩,
       ⟨[.ty (.ptr .ColumnDef) true ⟨true, some 0⟩ ⟨true, some 0⟩, .nil], (.tok 6 (.kw b!"REMOVE")), .lt⟩,
       ⟨[.ty (.ptr .ColumnDef) true ⟨true, some 0⟩ ⟨true, some 0⟩, .nil], .none, .lt⟩,
       ⟨[.ty (.ptr .ColumnDef) true ⟨true, some 0⟩ ⟨true, some 4⟩, .nil], .any, .lt⟩], 3⟩]
  | .parseTableColumnExpr =>
    [⟨.any, [.curPos],
      [⟨[.top, .err true false], .any, .eq⟩,
       ⟨[.top, .err true false], .any, .lt⟩,
       ⟨[.ty (.ptr .ColumnDef) true ⟨true, some 0⟩ ⟨true, some 0⟩, .nil], (.tok 6 (.kw b!"REMOVE")), .lt⟩,
       ⟨[.ty (.ptr .ColumnDef) true ⟨true, some 0⟩ ⟨true, some 0⟩, .nil], .none, .lt⟩,
       ⟨[.ty (.ptr .ColumnDef) true ⟨true, some 0⟩ ⟨true, some 4⟩, .nil], .any, .lt⟩], 2⟩]
  | .parseTableArgExpr =>
    [⟨.any, [.curPos],
      [⟨[.top, .err true false], .any, .eq⟩,
       ⟨[.top, .err true false], .none, .le⟩,
       ⟨[.top, .err true false], .any, .lt⟩,
       ⟨[.ty (.iface .Expr) true ⟨true, some 0⟩ ⟨true, some 0⟩, .nil], .none, .lt⟩,
       ⟨[.ty (.iface .Expr) true ⟨true, some 0⟩ ⟨true, some 4⟩, .nil], .any, .lt⟩,
       ⟨[.ty (.iface .Expr) true ⟨true, some 0⟩ ⟨true, some 0⟩, .nil], .none, .eq⟩,
       ⟨[.ty (.iface .Expr) true ⟨true, some 0⟩ ⟨true, some 4⟩, .nil], (.tok 4 (.kw b!"NULL")), .eq⟩,
       ⟨[.ty (.iface .Expr) true ⟨true, some 0⟩ ⟨true, some 4⟩, .nil], .none, .le⟩], 6⟩]
  | .parseTableArgPrimaryExpr =>
    [⟨.any, [.curPos],
      [⟨[.top, .err true false], .any, .lt⟩,
       ⟨[.top, .err true false], (.tok 0 .any), .eq⟩,
       ⟨[.ty (.iface .Expr) true ⟨true, some 0⟩ ⟨true, some 4⟩, .nil], .any, .lt⟩,
       ⟨[.top, .err true false], .none, .le⟩,
       ⟨[.ty (.ptr .NullLiteral) true ⟨true, some (-4)⟩ ⟨true, some 0⟩, .nil], (.tok 4 (.kw b!"NULL")), .eq⟩,
       ⟨[.top, .err true false], .any, .eq⟩,
       ⟨[.ty (.ptr .SubQuery) true ⟨true, some 0⟩ ⟨true, some 4⟩, .nil], .none, .lt⟩,
       ⟨[.ty (.ptr .SubQuery) true ⟨true, some 0⟩ ⟨true, some 4⟩, .nil], (.tok 2 .any), .lt⟩], 5⟩]
  | .parseTableArgList =>
    [⟨(.tok 1 (.kind b!"(")), [.nat (some 0)],
      [⟨[.top, .err true false], .none, .lt⟩,
       ⟨[.top, .err true false], (.tok 0 .any), .lt⟩,
       ⟨[.top, .err true false], .any, .lt⟩,
       ⟨[.ty (.ptr .TableArgListExpr) true ⟨true, some 0⟩ ⟨true, some (-1)⟩, .nil], .any, .lt⟩], 0⟩]
  | .tryParseClusterClause =>
    [⟨.any, [.curPos],
      [⟨[.nil, .nil], .any, .eq⟩,
       ⟨[.top, .err true false], .any, .lt⟩,
       ⟨[.ty (.ptr .ClusterClause) true ⟨true, some (-2)⟩ ⟨true, some 0⟩, .nil], .any, .lt⟩], 0⟩]
  | .tryParsePartitionByClause =>
    [⟨(.tok 9 (.kw b!"PARTITION")), [.curPos],
      [⟨[.top, .err true false], .any, .lt⟩,
       ⟨[.ty (.ptr .PartitionByClause) true ⟨true, some (-9)⟩ ⟨true, some 0⟩, .nil], (.tok 0 .any), .lt⟩,
       ⟨[.ty (.ptr .PartitionByClause) true ⟨true, some (-9)⟩ ⟨true, some 4⟩, .nil], .none, .lt⟩,
       ⟨[.ty (.ptr .PartitionByClause) true ⟨true, some (-9)⟩ ⟨true, some 4⟩, .nil], .any, .lt⟩], 0⟩,
     ⟨.any, [.nat (some (-1))],
      [⟨[.nil, .nil], .any, .eq⟩,
       ⟨[.top, .err true false], .any, .lt⟩,
       ⟨[.ty (.ptr .PartitionByClause) true ⟨true, some (-1)⟩ ⟨true, some 0⟩, .nil], (.tok 0 .any), .lt⟩,
       ⟨[.ty (.ptr .PartitionByClause) true ⟨true, some (-1)⟩ ⟨true, some 4⟩, .nil], .none, .lt⟩,
       ⟨[.ty (.ptr .PartitionByClause) true ⟨true, some (-1)⟩ ⟨true, some 4⟩, .nil], .any, .lt⟩], 0⟩]
  | .tryParsePrimaryKeyClause =>
    [⟨(.tok 7 (.kw b!"PRIMARY")), [.curPos],
      [⟨[.top, .err true false], .any, .lt⟩,
       ⟨[.ty (.ptr .PrimaryKeyClause) true ⟨true, some (-7)⟩ ⟨true, some 0⟩, .nil], .none, .lt⟩,
       ⟨[.ty (.ptr .PrimaryKeyClause) true ⟨true, some (-7)⟩ ⟨true, some 4⟩, .nil], .any, .lt⟩], 0⟩]
  | .tryParseOrderByClause =>
    [⟨.any, [.curPos],
      [⟨[.nil, .nil], .any, .eq⟩,
       ⟨[.top, .err true false], .any, .lt⟩,
       ⟨[.ty (.ptr .OrderByClause) true ⟨true, some (-5)⟩ ⟨true, some 4⟩, .nil], (.tok 2 .any), .lt⟩,
       ⟨[.ty (.ptr .OrderByClause) true ⟨true, some (-5)⟩ ⟨true, some 4⟩, .nil], .none, .lt⟩,
       ⟨[.ty (.ptr .OrderByClause) true ⟨true, some (-5)⟩ ⟨true, some 4⟩, .nil], .any, .lt⟩], 0⟩]
  | .tryParseTableOrderByClause =>
    [⟨(.tok 5 (.kw b!"ORDER")), [.curPos],
      [⟨[.top, .err true false], .any, .lt⟩,
       ⟨[.ty (.ptr .OrderByClause) true ⟨true, some (-5)⟩ ⟨true, some 1⟩, .nil], (.tok 2 .any), .lt⟩,
       ⟨[.ty (.ptr .OrderByClause) true ⟨true, some (-5)⟩ ⟨true, some 0⟩, .nil], .none, .lt⟩,
       ⟨[.ty (.ptr .OrderByClause) true ⟨true, some (-5)⟩ ⟨true, some 4⟩, .nil], .any, .lt⟩], 0⟩]
  | .parseOrderByClause =>
    [⟨.any, [.nat (some (-5))],
      [⟨[.top, .err true false], .any, .lt⟩,
       ⟨[.top, .err true false], .any, .eq⟩,
       ⟨[.top, .err true false], .none, .le⟩,
       ⟨[.top, .err true false], (.tok 1 .any), .le⟩,
       ⟨[.ty (.ptr .OrderByClause) true ⟨true, some (-5)⟩ ⟨true, some 4⟩, .nil], (.tok 2 .any), .lt⟩,
       ⟨[.ty (.ptr .OrderByClause) true ⟨true, some (-5)⟩ ⟨true, some 4⟩, .nil], .none, .lt⟩,
       ⟨[.ty (.ptr .OrderByClause) true ⟨true, some (-5)⟩ ⟨true, some 4⟩, .nil], .any, .lt⟩], 10⟩]
  | .parseOrderExpr =>
    [⟨.any, [.nat (some (-5))],
      [⟨[.top, .err true false], .none, .le⟩,
       ⟨[.top, .err true false], .any, .eq⟩,
       ⟨[.top, .err true false], .any, .lt⟩,
       ⟨[.top, .err true false], (.tok 1 .any), .le⟩,
       ⟨[.ty (.ptr .OrderExpr) true ⟨true, some (-5)⟩ ⟨true, some 1⟩, .nil], (.tok 2 .any), .lt⟩,
       ⟨[.ty (.ptr .OrderExpr) true ⟨true, some (-5)⟩ ⟨true, some 0⟩, .nil], .none, .lt⟩,
       ⟨[.ty (.ptr .OrderExpr) true ⟨true, some (-5)⟩ ⟨true, some 4⟩, .nil], .any, .lt⟩], 9⟩]
  | .parseFillClause =>
    [⟨.any, [.curPos],
      [⟨[.top, .err true false], (.tok 1 .any), .lt⟩,
       ⟨[.top, .err true false], .none, .lt⟩,
       ⟨[.top, .err true false], .any, .lt⟩,
       ⟨[.ty (.ptr .Fill) true ⟨true, some 0⟩ ⟨true, some 4⟩, .nil], .any, .eq⟩,
       ⟨[.ty (.ptr .Fill) true ⟨true, some 0⟩ ⟨true, some 4⟩, .nil], .any, .lt⟩], 0⟩]
  | .parseInterpolateClause =>
    [⟨.any, [.nat (some (-11))],
      [⟨[.ty (.ptr .InterpolateClause) true ⟨true, some (-11)⟩ ⟨true, some 0⟩, .nil], .any, .eq⟩,
       ⟨[.top, .err true false], .any, .lt⟩,
       ⟨[.ty (.ptr .InterpolateClause) true ⟨true, some (-11)⟩ ⟨true, some 0⟩, .nil], .any, .lt⟩], 0⟩]
  | .tryParseTTLClause =>
    [⟨(.tok 3 (.kw b!"TTL")), [.curPos, .bool (some true)],
      [⟨[.top, .err true false], .none, .lt⟩,
       ⟨[.top, .err true false], .any, .lt⟩,
       ⟨[.ty (.ptr .TTLClause) true ⟨true, some (-3)⟩ ⟨true, some 4⟩, .nil], .any, .lt⟩], 0⟩,
     ⟨(.tok 6 (.kw b!"REMOVE")), [.curPos, .bool (some false)],
      [⟨[.nil, .nil], (.tok 6 (.kw b!"REMOVE")), .eq⟩], 0⟩,
     ⟨.any, [.curPos, .bool (some false)],
      [⟨[.nil, .nil], .any, .eq⟩,
       ⟨[.top, .err true false], (.tok 1 .any), .lt⟩,
       ⟨[.top, .err true false], .none, .lt⟩,
       ⟨[.top, .err true false], .any, .lt⟩,
       ⟨[.ty (.ptr .TTLClause) true ⟨true, some (-3)⟩ ⟨true, some 4⟩, .nil], .any, .lt⟩], 0⟩]
  | .parseTTLClause =>
    [⟨.any, [.nat (some (-3)), .bool none],
      [⟨[.top, .err true false], .any, .lt⟩,
       ⟨[.top, .err true false], .any, .eq⟩,
       ⟨[.top, .err true false], .none, .le⟩,
       ⟨[.top, .err true false], (.tok 1 .any), .le⟩,
       ⟨[.ty (.slice (.ptr .TTLExpr)) true ⟨true, some (-3)⟩ ⟨true, some 4⟩, .nil], .any, .lt⟩], 10⟩]
  | .tryParseTTLPolicy =>
    [⟨.any, [.curPos],
      [⟨[.top, .err true false], .any, .lt⟩,
       ⟨[.nil, .nil], .any, .eq⟩,
       ⟨[.ty (.ptr .TTLPolicy) true ⟨true, some (-2)⟩ ⟨true, some 1⟩, .nil], .none, .lt⟩,
       ⟨[.ty (.ptr .TTLPolicy) true ⟨true, some (-2)⟩ ⟨true, some 4⟩, .nil], .any, .lt⟩], 0⟩]
  | .parseTTLExpr =>
    [⟨.any, [.nat (some (-3))],
      [⟨[.top, .err true false], .none, .le⟩,
       ⟨[.top, .err true false], .any, .eq⟩,
       ⟨[.top, .err true false], .any, .lt⟩,
       ⟨[.top, .err true false], (.tok 1 .any), .le⟩,
       ⟨[.ty (.ptr .TTLExpr) true ⟨true, some (-3)⟩ ⟨true, some 4⟩, .nil], .none, .lt⟩,
       ⟨[.ty (.ptr .TTLExpr) true ⟨true, some (-3)⟩ ⟨true, some 4⟩, .nil], .any, .lt⟩], 9⟩]
  | .tryParseSampleByClause =>
    [⟨(.tok 6 (.kw b!"SAMPLE")), [.curPos],
      [⟨[.top, .err true false], .any, .lt⟩,
       ⟨[.ty (.ptr .SampleByClause) true ⟨true, some (-6)⟩ ⟨true, some 0⟩, .nil], .none, .lt⟩,
       ⟨[.ty (.ptr .SampleByClause) true ⟨true, some (-6)⟩ ⟨true, some 4⟩, .nil], .any, .lt⟩], 0⟩]
  | .tryParseSettingsClause =>
    [⟨(.tok 8 (.kw b!"SETTINGS")), [.curPos],
      [⟨[.top, .err true false], .any, .lt⟩,
       ⟨[.ty (.ptr .SettingsClause) true ⟨true, some 0⟩ ⟨true, some 0⟩, .nil], .any, .lt⟩], 0⟩,
     ⟨(.tok 6 (.kw b!"REMOVE")), [.curPos],
      [⟨[.nil, .nil], (.tok 6 (.kw b!"REMOVE")), .eq⟩], 0⟩,
     ⟨.any, [.curPos],
      [⟨[.nil, .nil], .any, .eq⟩,
       ⟨[.top, .err true false], .any, .lt⟩,
       ⟨[.ty (.ptr .SettingsClause) true ⟨true, some 0⟩ ⟨true, some 0⟩, .nil], .any, .lt⟩], 0⟩]
  | .parseSettingsClause =>
    [⟨.any, [.nat (some 0)],
      [⟨[.top, .err true false], .any, .eq⟩,
       ⟨[.top, .err true false], .any, .lt⟩,
       ⟨[.ty (.ptr .SettingsClause) true ⟨true, some 0⟩ ⟨true, some 0⟩, .nil], .any, .lt⟩], 3⟩]
  | .parseSettingsList =>
    [⟨.any, [.curPos],
      [⟨[.top, .err true false], .any, .lt⟩,
       ⟨[.top, .err true false], .any, .eq⟩,
       ⟨[.ty (.slice (.ptr .SettingExpr)) true ⟨true, some 0⟩ ⟨true, some 0⟩, .nil], .any, .lt⟩], 2⟩]
  | .parseSettingsExpr =>
    [⟨.any, [.curPos],
      [⟨[.top, .err true false], .any, .eq⟩,
       ⟨[.top, .err true false], .any, .lt⟩,
       ⟨[.ty (.ptr .SettingExpr) true ⟨true, some 0⟩ ⟨true, some 0⟩, .nil], .any, .lt⟩], 1⟩]
  | .parseDestinationClause =>
    [⟨(.tok 2 (.kw b!"TO")), [.curPos],
      [⟨[.top, .err true false], .any, .lt⟩,
       ⟨[.ty (.ptr .DestinationClause) true ⟨true, some (-2)⟩ ⟨true, some 0⟩, .nil], .any, .lt⟩], 0⟩]
  | .tryParseEngineExpr =>
    [⟨.any, [.curPos],
      [⟨[.nil, .nil], .any, .eq⟩,
       ⟨[.top, .err true false], (.tok 0 .any), .lt⟩,
       ⟨[.top, .err true false], .any, .lt⟩,
       ⟨[.ty (.ptr .EngineExpr) true ⟨true, some (-6)⟩ ⟨true, some 4⟩, .nil], .any, .lt⟩], 1⟩]
  | .parseEngineExpr =>
    [⟨(.tok 6 (.kw b!"ENGINE")), [.curPos],
      [⟨[.top, .err true false], (.tok 0 .any), .lt⟩,
       ⟨[.top, .err true false], .any, .lt⟩,
       ⟨[.ty (.ptr .EngineExpr) true ⟨true, some (-6)⟩ ⟨true, some 4⟩, .nil], .any, .lt⟩], 0⟩]
  | .parseStmt =>
    [⟨(.tok 0 .any), [.curPos],
      [⟨[.top, .err true false], (.tok 0 .any), .eq⟩,
       ⟨[.top, .err true false], .any, .lt⟩,
       ⟨[.ty (.iface .Expr) true ⟨true, some 0⟩ ⟨false, some 4⟩, .nil], (.tok 1 (.kind b!";")), .lt⟩,
       ⟨[.ty (.iface .Expr) true ⟨true, some 0⟩ ⟨false, some 4⟩, .nil], .none, .lt⟩], 4⟩]
  | .ParseStmts =>
    [⟨.none, [],
      [⟨[.top, .err true true], .none, .le⟩,
       ⟨[.ty (.slice (.iface .Expr)) false ⟨true, some 0⟩ ⟨false, some 4⟩, .nil], .eof, .lt⟩,
       ⟨[.ty (.slice (.iface .Expr)) false ⟨true, some 0⟩ ⟨false, some 4⟩, .nil], (.tok 0 .any), .lt⟩,
       ⟨[.nil, .nil], .eof, .le⟩,
       ⟨[.top, .err true true], (.tok 0 .any), .lt⟩,
       ⟨[.top, .err true true], .any, .lt⟩], 0⟩]
  | .parseUseStmt =>
    [⟨(.tok 3 (.kw b!"USE")), [.curPos],
      [⟨[.top, .err true false], .any, .lt⟩,
       ⟨[.ty (.ptr .UseStmt) true ⟨true, some (-3)⟩ ⟨true, some 0⟩, .nil], .any, .lt⟩], 0⟩]
  | .parseShowStmt =>
    [⟨(.tok 4 (.kw b!"SHOW")), [.curPos],
      [⟨[.top, .err true false], .any, .lt⟩,
       ⟨[.ty (.ptr .ShowStmt) true ⟨true, some (-4)⟩ ⟨true, some 4⟩, .nil], .any, .lt⟩], 0⟩]
  | .parseDescribeStmt =>
    [⟨(.tok 4 .any), [.curPos],
      [⟨[.top, .err true false], (.tok 4 .any), .eq⟩,
       ⟨[.top, .err true false], .any, .lt⟩,
       ⟨[.ty (.ptr .DescribeStmt) true ⟨true, some (-4)⟩ ⟨true, some 0⟩, .nil], .any, .lt⟩], 0⟩]
  | .parseTruncateTable =>
    [⟨(.tok 8 (.kw b!"TRUNCATE")), [.curPos],
      [⟨[.top, .err true false], .any, .lt⟩,
       ⟨[.ty (.ptr .TruncateTable) true ⟨true, some (-8)⟩ ⟨true, some 0⟩, .nil], .any, .lt⟩], 0⟩]
  | .parseDeleteClause =>
    [⟨(.tok 6 (.kw b!"DELETE")), [.curPos],
      [⟨[.top, .err true false], .any, .lt⟩,
       ⟨[.ty (.ptr .DeleteClause) true ⟨true, some (-6)⟩ ⟨true, some 0⟩, .nil], .none, .lt⟩,
       ⟨[.ty (.ptr .DeleteClause) true ⟨true, some (-6)⟩ ⟨true, some 4⟩, .nil], .any, .lt⟩], 0⟩]
  | .parseColumnNamesExpr =>
    [⟨(.tok 1 (.kind b!"(")), [.curPos],
      [⟨[.top, .err true false], .any, .lt⟩,
       ⟨[.ty (.ptr .ColumnNamesExpr) true ⟨true, some (-1)⟩ ⟨true, some (-1)⟩, .nil], .any, .lt⟩], 0⟩]
  | .parseTypedPlaceholder =>
    [⟨(.tok 1 (.kind b!"{")), [.curPos],
      [⟨[.top, .err true false], .any, .lt⟩,
       ⟨[.ty (.ptr .TypedPlaceholder) true ⟨true, some (-1)⟩ ⟨true, some 0⟩, .nil], .any, .lt⟩], 0⟩]
  | .parseAssignmentValues =>
    [⟨.any, [.curPos],
      [⟨[.top, .err true false], .any, .eq⟩,
       ⟨[.top, .err true false], .any, .lt⟩,
       ⟨[.ty (.ptr .AssignmentValues) true ⟨true, some (-1)⟩ ⟨true, some (-1)⟩, .nil], .any, .lt⟩], 0⟩]
  | .parseInsertStmt =>
    [⟨(.tok 6 (.kw b!"INSERT")), [.curPos],
      [⟨[.top, .err true false], .any, .lt⟩,
       ⟨[.ty (.ptr .InsertStmt) true ⟨true, some (-6)⟩ ⟨true, some 4⟩, .nil], .any, .lt⟩], 0⟩]
  | .parseRenameStmt =>
    [⟨(.tok 6 (.kw b!"RENAME")), [.curPos],
      [⟨[.top, .err true false], .any, .lt⟩,
       ⟨[.ty (.ptr .RenameStmt) true ⟨true, some (-6)⟩ ⟨true, some 0⟩, .nil], .any, .lt⟩], 0⟩]
  | .parseTargetPair =>
    [⟨.any, [.curPos],
      [⟨[.top, .err true false], .any, .eq⟩,
       ⟨[.top, .err true false], .any, .lt⟩,
       ⟨[.ty (.ptr .TargetPair) true ⟨true, some 0⟩ ⟨true, some 0⟩, .nil], .any, .lt⟩], 3⟩]
  | .parseCreateFunction =>
    [⟨(.tok 8 (.kw b!"FUNCTION")), [.nat (some (-6)), .bool none],
      [⟨[.top, .err true false], .any, .lt⟩,
       ⟨[.ty (.ptr .CreateFunction) true ⟨true, some (-6)⟩ ⟨true, some 0⟩, .nil], .none, .lt⟩,
       ⟨[.ty (.ptr .CreateFunction) true ⟨true, some (-6)⟩ ⟨true, some 4⟩, .nil], .any, .lt⟩], 0⟩]
  | .parseDictionarySchemaClause =>
    [⟨.any, [.curPos],
      [⟨[.top, .err true false], .any, .eq⟩,
       ⟨[.top, .err true false], .any, .lt⟩,
       ⟨[.ty (.ptr .DictionarySchemaClause) true ⟨true, some (-1)⟩ ⟨true, some 0⟩, .nil], .any, .lt⟩], 0⟩]
  | .parseDictionaryAttribute =>
    [⟨.any, [.curPos],
      [⟨[.top, .err true false], .any, .eq⟩,
       ⟨[.top, .err true false], .any, .lt⟩,
       ⟨[.ty (.ptr .DictionaryAttribute) true ⟨true, some 0⟩ ⟨true, some 4⟩, .nil], .any, .lt⟩], 1⟩]
  | .parseDictionaryEngineClause =>
    [⟨.any, [.curPos],
      [⟨[.top, .err true false], .any, .eq⟩,
       ⟨[.top, .err true false], .any, .lt⟩,
       ⟨[.ty (.ptr .DictionaryEngineClause) true ⟨true, some 0⟩ ⟨true, some 0⟩, .nil], .any, .lt⟩], 1⟩]
  | .parseDictionaryPrimaryKeyClause =>
    [⟨(.tok 7 (.kw b!"PRIMARY")), [.curPos],
      [⟨[.top, .err true false], .any, .lt⟩,
       ⟨[.ty (.ptr .DictionaryPrimaryKeyClause) true ⟨true, some (-7)⟩ ⟨true, some 1⟩, .nil], (.tok 0 .any), .lt⟩,
       ⟨[.ty (.ptr .DictionaryPrimaryKeyClause) true ⟨true, some (-7)⟩ ⟨true, some 5⟩, .nil], .none, .lt⟩,
       ⟨[.ty (.ptr .DictionaryPrimaryKeyClause) true ⟨true, some (-7)⟩ ⟨true, some 5⟩, .nil], .any, .lt⟩], 0⟩]
  | .parseDictionarySourceClause =>
    [⟨(.tok 6 (.kw b!"SOURCE")), [.curPos],
      [⟨[.top, .err true false], .any, .lt⟩,
       ⟨[.ty (.ptr .DictionarySourceClause) true ⟨true, some (-6)⟩ ⟨true, some 0⟩, .nil], .any, .lt⟩], 0⟩]
  | .parseDictionaryArgExprs =>
    [⟨.any, [],
      [⟨[.nil, .nil], (.tok 1 (.kind b!")")), .eq⟩,
       ⟨[.top, .err true false], .any, .lt⟩,
       ⟨[.top, .err true false], .any, .eq⟩,
       ⟨[.ty (.slice (.ptr .DictionaryArgExpr)) true ⟨true, some 0⟩ ⟨false, some 0⟩, .nil], (.tok 1 (.kind b!")")), .lt⟩], 2⟩]
  | .parseDictionaryArgExpr =>
    [⟨.any, [.curPos],
      [⟨[.top, .err true false], .any, .eq⟩,
       ⟨[.ty (.ptr .DictionaryArgExpr) true ⟨true, some 0⟩ ⟨false, some 0⟩, .nil], .any, .lt⟩,
       ⟨[.top, .err true false], (.tok 0 (.kind b!"<string>")), .lt⟩,
       ⟨[.top, .err true false], .any, .lt⟩], 1⟩]
  | .parseDictionaryLifetimeClause =>
    [⟨(.tok 8 (.kw b!"LIFETIME")), [.curPos],
      [⟨[.top, .err true false], .any, .lt⟩,
       ⟨[.ty (.ptr .DictionaryLifetimeClause) true ⟨true, some (-8)⟩ ⟨true, some 0⟩, .nil], .any, .lt⟩], 0⟩]
  | .parseDictionaryLayoutClause =>
    [⟨(.tok 6 (.kw b!"LAYOUT")), [.curPos],
      [⟨[.top, .err true false], .any, .lt⟩,
       ⟨[.ty (.ptr .DictionaryLayoutClause) true ⟨true, some (-6)⟩ ⟨true, some 0⟩, .nil], .any, .lt⟩], 0⟩]
  | .parseDictionaryRangeClause =>
    [⟨(.tok 5 (.kw b!"RANGE")), [.curPos],
      [⟨[.top, .err true false], .any, .lt⟩,
       ⟨[.ty (.ptr .DictionaryRangeClause) true ⟨true, some (-5)⟩ ⟨true, some 0⟩, .nil], .any, .lt⟩], 0⟩]
  | .parseDictionarySettingsClause =>
    [⟨(.tok 8 (.kw b!"SETTINGS")), [.curPos],
      [⟨[.top, .err true false], .any, .lt⟩,
       ⟨[.ty (.ptr .SettingsClause) true ⟨true, some (-8)⟩ ⟨true, some 0⟩, .nil], .any, .lt⟩], 0⟩]
  | .parseSetStmt =>
    [⟨(.tok 3 (.kw b!"SET")), [.curPos],
      [⟨[.top, .err true false], .any, .lt⟩,
       ⟨[.ty (.ptr .SetStmt) true ⟨true, some (-3)⟩ ⟨true, some 0⟩, .nil], .any, .lt⟩], 0⟩]
  | .parseSettingsStmt =>
    [⟨(.tok 8 (.kw b!"SETTINGS")), [.curPos],
      [⟨[.top, .err true false], .any, .lt⟩,
       ⟨[.ty (.ptr .SetStmt) true ⟨true, some (-8)⟩ ⟨true, some 0⟩, .nil], .any, .lt⟩], 0⟩]
  | .parseSystemFlushExpr =>
    [⟨(.tok 5 (.kw b!"FLUSH")), [.curPos],
      [⟨[.ty (.ptr .SystemFlushExpr) true ⟨true, some (-5)⟩ ⟨true, some 0⟩, .nil], .any, .lt⟩,
       ⟨[.top, .err true false], .any, .lt⟩], 0⟩]
  | .parseSystemReloadExpr =>
    [⟨(.tok 6 (.kw b!"RELOAD")), [.curPos],
      [⟨[.top, .err true false], (.tok 0 .any), .lt⟩,
       ⟨[.top, .err true false], .any, .lt⟩,
       ⟨[.ty (.ptr .SystemReloadExpr) true ⟨true, some (-6)⟩ ⟨true, some 0⟩, .nil], .any, .lt⟩], 0⟩]
  | .parseSystemSyncExpr =>
    [⟨(.tok 4 (.kw b!"SYNC")), [.curPos],
      [⟨[.top, .err true false], .any, .lt⟩,
       ⟨[.ty (.ptr .SystemSyncExpr) true ⟨true, some (-4)⟩ ⟨true, some 0⟩, .nil], .any, .lt⟩], 0⟩]
  | .parseSystemCtrlExpr =>
    [⟨(.tok 4 .any), [.curPos],
      [⟨[.top, .err true false], (.tok 4 .any), .eq⟩,
       ⟨[.top, .err true false], (.tok 3 (.kw b!"TTL")), .lt⟩,
       ⟨[.top, .err true false], .any, .lt⟩,
       ⟨[.ty (.ptr .SystemCtrlExpr) true ⟨true, some (-4)⟩ ⟨true, some 0⟩, .nil], .any, .lt⟩], 0⟩]
  | .parseSystemDropExpr =>
    [⟨(.tok 4 (.kw b!"DROP")), [.curPos],
      [⟨[.top, .err true false], .any, .lt⟩,
       ⟨[.ty (.ptr .SystemDropExpr) true ⟨true, some (-4)⟩ ⟨true, some 0⟩, .nil], .any, .lt⟩], 0⟩]
  | .tryParseDeduplicateClause =>
    [⟨.any, [.curPos],
      [⟨[.nil, .nil], .any, .eq⟩,
       ⟨[.ty (.ptr .DeduplicateClause) true ⟨true, some (-11)⟩ ⟨true, some 4⟩, .nil], .any, .lt⟩,
       ⟨[.top, .err true false], .none, .lt⟩,
       ⟨[.top, .err true false], .any, .lt⟩], 1⟩]
  | .parseDeduplicateClause =>
    [⟨(.tok 11 (.kw b!"DEDUPLICATE")), [.curPos],
      [⟨[.ty (.ptr .DeduplicateClause) true ⟨true, some (-11)⟩ ⟨true, some 4⟩, .nil], .any, .lt⟩,
       ⟨[.top, .err true false], .none, .lt⟩,
       ⟨[.top, .err true false], .any, .lt⟩,
       ⟨[.ty (.ptr .DeduplicateClause) true ⟨true, some (-11)⟩ ⟨true, some 4⟩, .nil], (.tok 0 .any), .lt⟩,
       ⟨[.ty (.ptr .DeduplicateClause) true ⟨true, some (-11)⟩ ⟨true, some 4⟩, .nil], .none, .lt⟩], 0⟩]
  | .parseOptimizeStmt =>
    [⟨(.tok 8 (.kw b!"OPTIMIZE")), [.curPos],
      [⟨[.top, .err true false], .any, .lt⟩,
       ⟨[.ty (.ptr .OptimizeStmt) true ⟨true, some (-8)⟩ ⟨true, some 4⟩, .nil], .any, .lt⟩], 0⟩]
  | .parseSystemStmt =>
    [⟨(.tok 6 (.kw b!"SYSTEM")), [.curPos],
      [⟨[.top, .err true false], .any, .lt⟩,
       ⟨[.ty (.ptr .SystemStmt) true ⟨true, some (-6)⟩ ⟨true, some 0⟩, .nil], .any, .lt⟩], 0⟩]
  | .parseCheckStmt =>
    [⟨(.tok 5 (.kw b!"CHECK")), [.curPos],
      [⟨[.top, .err true false], .any, .lt⟩,
       ⟨[.ty (.ptr .CheckStmt) true ⟨true, some (-5)⟩ ⟨false, some 4⟩, .nil], .any, .lt⟩], 0⟩]
  | .parseRoleName =>
    [⟨.any, [.curPos],
      [⟨[.top, .err true false], (.tok 0 .any), .eq⟩,
       ⟨[.top, .err true false], .any, .lt⟩,
       ⟨[.ty (.ptr .RoleName) true ⟨true, some 0⟩ ⟨true, some 0⟩, .nil], .any, .lt⟩,
       ⟨[.top, .err true false], .any, .eq⟩], 1⟩]
  | .tryParseRoleSettings =>
    [⟨.any, [.curPos],
      [⟨[.nil, .nil], .any, .eq⟩,
       ⟨[.top, .err true false], .any, .lt⟩,
       ⟨[.ty (.slice (.ptr .RoleSetting)) true ⟨false, some 0⟩ ⟨false, some 0⟩, .nil], .any, .lt⟩], 0⟩]
  | .parseRoleSetting =>
    [⟨.any, [.curPos],
      [⟨[.top, .err true false], (.tok 0 .any), .eq⟩,
       ⟨[.top, .err true false], (.tok 0 .any), .lt⟩,
       ⟨[.ty (.ptr .RoleSetting) true ⟨true, some 0⟩ ⟨false, some 0⟩, .nil], .any, .lt⟩,
       ⟨[.top, .err true false], .any, .lt⟩,
       ⟨[.ty (.ptr .RoleSetting) true ⟨false, some 0⟩ ⟨false, some 0⟩, .nil], .any, .eq⟩], 1⟩]
  | .parseRoleSettings =>
    [⟨.any, [.nat (some 0)],
      [⟨[.top, .err true false], .any, .lt⟩,
       ⟨[.top, .err true false], (.tok 0 .any), .eq⟩,
       ⟨[.ty (.slice (.ptr .RoleSetting)) true ⟨false, some 0⟩ ⟨false, some 0⟩, .nil], .any, .lt⟩,
       ⟨[.ty (.slice (.ptr .RoleSetting)) true ⟨false, some 0⟩ ⟨false, some 0⟩, .nil], .any, .eq⟩], 2⟩]
  | .parseCreateRole =>
    [⟨(.tok 4 (.kw b!"ROLE")), [.nat (some (-6))],
      [⟨[.top, .err true false], .any, .lt⟩,
       ⟨[.ty (.ptr .CreateRole) true ⟨true, some (-6)⟩ ⟨true, some 0⟩, .nil], .any, .lt⟩], 0⟩]
  | .parseAuthenticationClause =>
    [⟨(.tok 3 .any), [.curPos],
      [⟨[.top, .err true false], .any, .lt⟩,
       ⟨[.ty (.ptr .AuthenticationClause) true ⟨true, some (-3)⟩ ⟨true, some 0⟩, .nil], (.tok 0 .any), .lt⟩,
       ⟨[.top, .err true false], (.tok 3 .any), .eq⟩,
       ⟨[.ty (.ptr .AuthenticationClause) true ⟨true, some (-3)⟩ ⟨true, some 0⟩, .nil], .any, .lt⟩], 0⟩]
  | .parseHostClause =>
    [⟨.any, [.curPos],
      [⟨[.top, .err true false], .any, .lt⟩,
       ⟨[.ty (.ptr .HostClause) true ⟨true, some (-4)⟩ ⟨true, some 0⟩, .nil], .any, .lt⟩,
       ⟨[.top, .err true false], .any, .eq⟩], 0⟩]
  | .parseDefaultRoleClause =>
    [⟨(.tok 7 (.kw b!"DEFAULT")), [.curPos],
      [⟨[.top, .err true false], .any, .lt⟩,
       ⟨[.ty (.ptr .DefaultRoleClause) true ⟨true, some (-7)⟩ ⟨true, some 0⟩, .nil], (.tok 0 .any), .lt⟩,
       ⟨[.ty (.ptr .DefaultRoleClause) true ⟨true, some (-7)⟩ ⟨true, some 0⟩, .nil], .any, .lt⟩], 0⟩]
  | .parseGranteesClause =>
    [⟨(.tok 8 (.kw b!"GRANTEES")), [.curPos],
      [⟨[.top, .err true false], .any, .lt⟩,
       ⟨[.ty (.ptr .GranteesClause) true ⟨true, some (-8)⟩ ⟨true, some 0⟩, .nil], (.tok 0 .any), .lt⟩,
       ⟨[.ty (.ptr .GranteesClause) true ⟨true, some (-8)⟩ ⟨true, some 0⟩, .nil], .any, .lt⟩], 0⟩]
  | .parseCreateUserModifiers =>
    [⟨.any, [.ty (.ptr .CreateUser) true ⟨true, some (-6)⟩ ⟨true, some 0⟩],
      [⟨[.err true false, .top], .any, .lt⟩,
       ⟨[.nil, .ty (.ptr .CreateUser) true ⟨true, some (-6)⟩ ⟨true, some 0⟩], .any, .lt⟩,
       ⟨[.nil, .ty (.ptr .CreateUser) true ⟨true, some (-6)⟩ ⟨true, some 0⟩], .any, .eq⟩], 0⟩]
  | .parseUserNames =>
    [⟨.any, [],
      [⟨[.top, .err true false], .any, .eq⟩,
       ⟨[.top, .err true false], .any, .lt⟩,
       ⟨[.ty (.slice (.ptr .RoleName)) true ⟨true, some 0⟩ ⟨true, some 0⟩, .nil], .any, .lt⟩], 2⟩]
  | .parseHostClauses =>
    [⟨(.tok 4 (.kw b!"HOST")), [],
      [⟨[.top, .err true false], .any, .lt⟩,
       ⟨[.ty (.slice (.ptr .HostClause)) true ⟨true, some (-4)⟩ ⟨true, some 0⟩, .nil], .any, .lt⟩,
       ⟨[.top, .err true false], (.tok 4 (.kw b!"HOST")), .eq⟩], 1⟩]
  | .parseDefaultClause =>
    [⟨(.tok 7 (.kw b!"DEFAULT")), [.ty (.ptr .CreateUser) true ⟨true, some (-6)⟩ ⟨true, some 0⟩],
      [⟨[.top, .err true false, .top], .none, .le⟩,
       ⟨[.top, .err true false, .top], (.tok 0 .any), .lt⟩,
       ⟨[.bool (some true), .nil, .ty (.ptr .CreateUser) true ⟨true, some (-6)⟩ ⟨true, some 0⟩], .any, .lt⟩,
       ⟨[.bool (some false), .nil, .ty (.ptr .CreateUser) true ⟨true, some (-6)⟩ ⟨true, some 0⟩], (.tok 7 (.kw b!"DEFAULT")), .eq⟩,
       ⟨[.top, .err true false, .top], .any, .lt⟩], 1⟩]
  | .parseOptionalClauses =>
    [⟨.any, [.ty (.ptr .CreateUser) true ⟨true, some (-6)⟩ ⟨true, some 0⟩],
      [⟨[.err true false, .top], .any, .lt⟩,
       ⟨[.nil, .ty (.ptr .CreateUser) true ⟨true, some (-6)⟩ ⟨true, some 0⟩], .any, .eq⟩,
       ⟨[.nil, .ty (.ptr .CreateUser) true ⟨true, some (-6)⟩ ⟨true, some 0⟩], .any, .lt⟩,
       ⟨[.err true false, .top], (.tok 3 .any), .eq⟩,
       ⟨[.err true false, .top], .none, .le⟩], 2⟩]
  | .parseCreateUser =>
    [⟨(.tok 4 (.kw b!"USER")), [.nat (some (-6))],
      [⟨[.top, .err true false], .any, .lt⟩,
       ⟨[.ty (.ptr .CreateUser) true ⟨true, some (-6)⟩ ⟨true, some 0⟩, .nil], .any, .lt⟩], 0⟩]
  | .parserDropUserOrRole =>
    [⟨(.tok 4 .any), [.nat (some (-4))],
      [⟨[.top, .err true false], (.tok 4 .any), .eq⟩,
       ⟨[.top, .err true false], .any, .lt⟩,
       ⟨[.ty (.ptr .DropUserOrRole) true ⟨true, some (-4)⟩ ⟨true, some 0⟩, .nil], .any, .lt⟩], 0⟩]
  | .parsePrivilegeSelectOrInsert =>
    [⟨(.tok 6 .any), [.curPos],
      [⟨[.top, .err true false], (.tok 1 (.kind b!"(")), .lt⟩,
       ⟨[.ty (.ptr .PrivilegeClause) true ⟨true, some (-6)⟩ ⟨true, some 0⟩, .nil], .any, .lt⟩,
       ⟨[.top, .err true false], .any, .lt⟩], 0⟩]
  | .parsePrivilegeAlter =>
    [⟨.any, [.nat (some (-5))],
      [⟨[.top, .err true false], .any, .lt⟩,
       ⟨[.top, .err true false], .any, .eq⟩,
       ⟨[.ty (.ptr .PrivilegeClause) true ⟨true, some (-5)⟩ ⟨true, some 0⟩, .nil], .any, .lt⟩], 0⟩]
  | .parsePrivilegeCreate =>
    [⟨.any, [.nat (some (-6))],
      [⟨[.top, .err true false], .any, .lt⟩,
       ⟨[.top, .err true false], .any, .eq⟩,
       ⟨[.ty (.ptr .PrivilegeClause) true ⟨true, some (-6)⟩ ⟨true, some 0⟩, .nil], .any, .lt⟩], 0⟩]
  | .parsePrivilegeDrop =>
    [⟨.any, [.nat (some (-4))],
      [⟨[.top, .err true false], .any, .eq⟩,
       ⟨[.ty (.ptr .PrivilegeClause) true ⟨true, some (-4)⟩ ⟨true, some 0⟩, .nil], .any, .lt⟩], 0⟩]
  | .parsePrivilegeShow =>
    [⟨.any, [.nat (some (-4))],
      [⟨[.top, .err true false], .any, .eq⟩,
       ⟨[.ty (.ptr .PrivilegeClause) true ⟨true, some (-4)⟩ ⟨true, some 0⟩, .nil], .any, .lt⟩], 0⟩]
  | .parsePrivilegeSystem =>
    [⟨.any, [.nat (some (-6))],
      [⟨[.top, .err true false], .any, .lt⟩,
       ⟨[.top, .err true false], .any, .eq⟩,
       ⟨[.ty (.ptr .PrivilegeClause) true ⟨true, some (-6)⟩ ⟨true, some 0⟩, .nil], .any, .lt⟩], 0⟩]
  | .parsePrivilegeClause =>
    [⟨.any, [.curPos],
      [⟨[.ty (.ptr .PrivilegeClause) true ⟨true, some 0⟩ ⟨true, some 0⟩, .nil], .any, .lt⟩,
       ⟨[.top, .err true false], .any, .lt⟩,
       ⟨[.top, .err true false], .any, .eq⟩], 1⟩]
  | .parsePrivilegeRoles =>
    [⟨.any, [.curPos],
      [⟨[.top, .err true false], .any, .eq⟩,
       ⟨[.top, .err true false], .any, .lt⟩,
       ⟨[.ty (.slice (.ptr .Ident)) true ⟨true, some 0⟩ ⟨true, some 0⟩, .nil], .any, .lt⟩], 1⟩]
  | .parseGrantOptions =>
    [⟨.any, [.curPos],
      [⟨[.empty, .nil], .any, .eq⟩,
       ⟨[.top, .err true false], .any, .lt⟩,
       ⟨[.ty (.slice .str) true .top .top, .nil], .any, .lt⟩], 1⟩]
  | .parseGrantOption =>
    [⟨(.tok 4 (.kw b!"WITH")), [.curPos],
      [⟨[.top, .err true false], .any, .lt⟩,
       ⟨[.str false, .nil], .any, .lt⟩], 0⟩]
  | .parseGrantSource =>
    [⟨.any, [.curPos],
      [⟨[.top, .err true false], .any, .eq⟩,
       ⟨[.ty (.ptr .TableIdentifier) true ⟨true, some 0⟩ ⟨true, some 0⟩, .nil], .any, .lt⟩,
       ⟨[.top, .err true false], (.tok 1 (.kind b!"*")), .lt⟩,
       ⟨[.top, .err true false], .any, .lt⟩], 2⟩]
  | .parseGrantPrivilegeStmt =>
    [⟨(.tok 5 (.kw b!"GRANT")), [.curPos],
      [⟨[.top, .err true false], .any, .lt⟩,
       ⟨[.ty (.ptr .GrantPrivilegeStmt) true ⟨true, some (-5)⟩ ⟨true, some 1⟩, .nil], .any, .lt⟩], 0⟩]
  | .parseAlterRole =>
    [⟨(.tok 4 (.kw b!"ROLE")), [.nat (some (-5))],
      [⟨[.top, .err true false], .any, .lt⟩,
       ⟨[.ty (.ptr .AlterRole) true ⟨true, some (-5)⟩ ⟨true, some 0⟩, .nil], .any, .lt⟩], 0⟩]
  | .parseRoleRenamePair =>
    [⟨.any, [.curPos],
      [⟨[.top, .err true false], .any, .eq⟩,
       ⟨[.top, .err true false], .any, .lt⟩,
       ⟨[.ty (.ptr .RoleRenamePair) true ⟨true, some 0⟩ ⟨true, some 0⟩, .nil], .any, .lt⟩], 2⟩]
  | .parseAlterTable =>
    [⟨(.tok 5 (.kw b!"TABLE")), [.nat (some (-5))],
      [⟨[.top, .err true false], .any, .lt⟩,
       ⟨[.ty (.ptr .AlterTable) true ⟨true, some (-5)⟩ ⟨true, some 4⟩, .nil], .any, .lt⟩,
       ⟨[.ty (.ptr .AlterTable) true ⟨true, some (-5)⟩ ⟨true, some 4⟩, .nil], .none, .lt⟩], 0⟩]
  | .parseAlterTableAdd =>
    [⟨(.tok 3 (.kw b!"ADD")), [.curPos],
      [⟨[.top, .err true false], .any, .lt⟩,
       ⟨[.ty (.iface .AlterTableClause) true ⟨true, some (-3)⟩ ⟨true, some 4⟩, .nil], .any, .lt⟩,
       ⟨[.ty (.ptr .AlterTableAddColumn) true ⟨true, some (-3)⟩ ⟨true, some 0⟩, .nil], (.tok 6 (.kw b!"REMOVE")), .lt⟩,
       ⟨[.ty (.ptr .AlterTableAddColumn) true ⟨true, some (-3)⟩ ⟨true, some 0⟩, .nil], .none, .lt⟩], 0⟩]
  | .parseAlterTableAddColumn =>
    [⟨(.tok 6 (.kw b!"COLUMN")), [.nat (some (-3))],
      [⟨[.top, .err true false], .any, .lt⟩,
       ⟨[.ty (.ptr .AlterTableAddColumn) true ⟨true, some (-3)⟩ ⟨true, some 0⟩, .nil], (.tok 6 (.kw b!"REMOVE")), .lt⟩,
       ⟨[.ty (.ptr .AlterTableAddColumn) true ⟨true, some (-3)⟩ ⟨true, some 0⟩, .nil], .none, .lt⟩,
       ⟨[.ty (.ptr .AlterTableAddColumn) true ⟨true, some (-3)⟩ ⟨true, some 4⟩, .nil], .any, .lt⟩], 0⟩]
  | .parseAlterTableAddIndex =>
    [⟨(.tok 5 (.kw b!"INDEX")), [.nat (some (-3))],
      [⟨[.top, .err true false], .any, .lt⟩,
       ⟨[.ty (.ptr .AlterTableAddIndex) true ⟨true, some (-3)⟩ ⟨true, some 0⟩, .nil], .any, .lt⟩], 0⟩]
  | .tryParseProjectionOrderBy =>
    [⟨.any, [.curPos],
      [⟨[.nil, .nil], .any, .eq⟩,
       ⟨[.top, .err true false], .any, .lt⟩,
       ⟨[.ty (.ptr .ProjectionOrderByClause) true ⟨true, some (-5)⟩ ⟨true, some 0⟩, .nil], (.tok 0 .any), .lt⟩,
       ⟨[.ty (.ptr .ProjectionOrderByClause) true ⟨true, some (-5)⟩ ⟨true, some 4⟩, .nil], .none, .lt⟩,
       ⟨[.ty (.ptr .ProjectionOrderByClause) true ⟨true, some (-5)⟩ ⟨true, some 4⟩, .nil], .any, .lt⟩], 0⟩]
  | .parseProjectionSelect =>
    [⟨.any, [.curPos],
      [⟨[.top, .err true false], .any, .eq⟩,
       ⟨[.top, .err true false], .any, .lt⟩,
       ⟨[.ty (.ptr .ProjectionSelectStmt) true ⟨true, some (-1)⟩ ⟨true, some (-1)⟩, .nil], .any, .lt⟩], 0⟩]
  | .parseTableProjection =>
    [⟨.any, [.curPos, .bool none],
      [⟨[.top, .err true false], .any, .eq⟩,
       ⟨[.top, .err true false], .any, .lt⟩,
       ⟨[.ty (.ptr .TableProjection) true ⟨true, some 0⟩ ⟨true, some (-1)⟩, .nil], .any, .lt⟩], 2⟩]
  | .parseAlterTableAddProjection =>
    [⟨(.tok 10 (.kw b!"PROJECTION")), [.nat (some (-3))],
      [⟨[.top, .err true false], .any, .lt⟩,
       ⟨[.ty (.ptr .AlterTableAddProjection) true ⟨true, some (-3)⟩ ⟨true, some 0⟩, .nil], .any, .lt⟩], 0⟩]
  | .parseTableIndex =>
    [⟨.any, [.nat (some (-5))],
      [⟨[.top, .err true false], .any, .eq⟩,
       ⟨[.top, .err true false], .any, .lt⟩,
       ⟨[.ty (.ptr .TableIndex) true ⟨true, some (-5)⟩ ⟨true, some 0⟩, .nil], .any, .lt⟩], 2⟩]
  | .parseAlterTableDrop =>
    [⟨(.tok 4 (.kw b!"DROP")), [.curPos],
      [⟨[.top, .err true false], .any, .lt⟩,
       ⟨[.ty (.iface .AlterTableClause) true ⟨true, some (-4)⟩ ⟨true, some 4⟩, .nil], .any, .lt⟩], 0⟩]
  | .parseAlterTableDetachPartition =>
    [⟨.any, [.nat (some (-6))],
      [⟨[.top, .err true false], .any, .eq⟩,
       ⟨[.top, .err true false], .none, .lt⟩,
       ⟨[.top, .err true false], .any, .lt⟩,
       ⟨[.ty (.ptr .AlterTableDetachPartition) true ⟨true, some (-6)⟩ ⟨true, some 0⟩, .nil], .none, .lt⟩,
       ⟨[.ty (.ptr .AlterTableDetachPartition) true ⟨true, some (-6)⟩ ⟨true, some 4⟩, .nil], .any, .lt⟩], 0⟩]
  | .tryParsePartitionClause =>
    [⟨.any, [.curPos],
      [⟨[.nil, .nil], .any, .eq⟩,
       ⟨[.top, .err true false], .any, .lt⟩,
       ⟨[.ty (.ptr .PartitionClause) true ⟨true, some (-9)⟩ ⟨false, some 4⟩, .nil], .any, .lt⟩,
       ⟨[.top, .err true false], (.tok 9 (.kw b!"PARTITION")), .eq⟩], 1⟩]
  | .parsePartitionClause =>
    [⟨.any, [.curPos],
      [⟨[.top, .err true false], .any, .lt⟩,
       ⟨[.ty (.ptr .PartitionClause) true ⟨true, some (-9)⟩ ⟨false, some 4⟩, .nil], .any, .lt⟩,
       ⟨[.top, .err true false], .any, .eq⟩], 0⟩]
  | .parseAlterTableAttachPartition =>
    [⟨(.tok 6 (.kw b!"ATTACH")), [.curPos],
      [⟨[.top, .err true false], .any, .lt⟩,
       ⟨[.ty (.ptr .AlterTableAttachPartition) true ⟨true, some (-6)⟩ ⟨false, some 4⟩, .nil], .any, .lt⟩], 0⟩]
  | .parseAlterTableDropClause =>
    [⟨(.tok 5 .any), [.nat (some (-4))],
      [⟨[.top, .err true false], (.tok 5 .any), .eq⟩,
       ⟨[.top, .err true false], .any, .lt⟩,
       ⟨[.ty (.iface .AlterTableClause) true ⟨true, some (-4)⟩ ⟨true, some 0⟩, .nil], .any, .lt⟩], 0⟩]
  | .tryParseAfterClause =>
    [⟨(.tok 6 (.kw b!"REMOVE")), [],
      [⟨[.nil, .nil], (.tok 6 (.kw b!"REMOVE")), .eq⟩], 0⟩,
     ⟨.any, [],
      [⟨[.nil, .nil], .any, .eq⟩,
       ⟨[.top, .err true false], .any, .lt⟩,
       ⟨[.ty (.ptr .NestedIdentifier) true ⟨true, some 0⟩ ⟨true, some 0⟩, .nil], .any, .lt⟩], 0⟩]
  | .parseAlterTableDropPartition =>
    [⟨(.tok 8 .any), [.nat (some (-4))],
      [⟨[.top, .err true false], .any, .lt⟩,
       ⟨[.top, .err true false], (.tok 8 .any), .eq⟩,
       ⟨[.ty (.ptr .AlterTableDropPartition) true ⟨true, some (-4)⟩ ⟨true, some 0⟩, .nil], .none, .lt⟩,
       ⟨[.ty (.ptr .AlterTableDropPartition) true ⟨true, some (-4)⟩ ⟨true, some 4⟩, .nil], .any, .lt⟩], 0⟩]
  | .parseAlterTableFreezePartition =>
    [⟨(.tok 6 (.kw b!"FREEZE")), [.curPos],
      [⟨[.top, .err true false], .any, .lt⟩,
       ⟨[.ty (.ptr .AlterTableFreezePartition) true ⟨true, some (-6)⟩ ⟨true, some 4⟩, .nil], .any, .lt⟩], 0⟩]
  | .parseAlterTableRemoveTTL =>
    [⟨(.tok 6 (.kw b!"REMOVE")), [.curPos],
      [⟨[.top, .err true false], .any, .lt⟩,
       ⟨[.ty (.ptr .AlterTableRemoveTTL) true ⟨true, some (-6)⟩ ⟨true, some 0⟩, .nil], .any, .lt⟩], 0⟩]
  | .parseAlterTableClear =>
    [⟨(.tok 5 (.kw b!"CLEAR")), [.curPos],
      [⟨[.top, .err true false], .any, .lt⟩,
       ⟨[.ty (.iface .AlterTableClause) true ⟨true, some (-5)⟩ ⟨true, some 4⟩, .nil], .any, .lt⟩], 0⟩]
  | .parseAlterTableClearClause =>
    [⟨.any, [.nat (some (-5))],
      [⟨[.top, .err true false], .any, .eq⟩,
       ⟨[.top, .err true false], .any, .lt⟩,
       ⟨[.ty (.iface .AlterTableClause) true ⟨true, some (-5)⟩ ⟨true, some 4⟩, .nil], .any, .lt⟩], 0⟩]
  | .parseAlterTableRenameColumn =>
    [⟨(.tok 6 (.kw b!"RENAME")), [.curPos],
      [⟨[.top, .err true false], .any, .lt⟩,
       ⟨[.ty (.ptr .AlterTableRenameColumn) true ⟨true, some (-6)⟩ ⟨true, some 0⟩, .nil], .any, .lt⟩], 0⟩]
  | .parseAlterTableModify =>
    [⟨(.tok 6 (.kw b!"MODIFY")), [.curPos],
      [⟨[.top, .err true false], .any, .lt⟩,
       ⟨[.ty (.iface .AlterTableClause) true ⟨true, some (-6)⟩ ⟨true, some 4⟩, .nil], .any, .lt⟩,
       ⟨[.ty (.iface .AlterTableClause) true ⟨true, some (-6)⟩ ⟨true, some 4⟩, .nil], .none, .lt⟩,
       ⟨[.ty (.ptr .AlterTableModifyQuery) true ⟨true, some (-6)⟩ ⟨true, some 4⟩, .nil], (.tok 2 .any), .lt⟩], 0⟩]
  | .parseAlterTableModifyColumn =>
    [⟨(.tok 6 (.kw b!"COLUMN")), [.nat (some (-6))],
      [⟨[.top, .err true false], .any, .lt⟩,
       ⟨[.ty (.ptr .AlterTableModifyColumn) true ⟨true, some (-6)⟩ ⟨true, some 0⟩, .nil], .none, .lt⟩,
       ⟨[.ty (.ptr .AlterTableModifyColumn) true ⟨true, some (-6)⟩ ⟨true, some 4⟩, .nil], .any, .lt⟩], 0⟩]
  | .tryParseRemovePropertyTypeExpr =>
    [⟨(.tok 6 (.kw b!"REMOVE")), [.curPos],
      [⟨[.top, .err true false], .any, .lt⟩,
       ⟨[.ty (.ptr .RemovePropertyType) true ⟨true, some (-6)⟩ ⟨true, some 0⟩, .nil], .any, .lt⟩], 0⟩,
     ⟨.any, [.curPos],
      [⟨[.nil, .nil], .any, .eq⟩,
       ⟨[.top, .err true false], .any, .lt⟩,
       ⟨[.ty (.ptr .RemovePropertyType) true ⟨true, some (-6)⟩ ⟨true, some 0⟩, .nil], .any, .lt⟩], 0⟩]
  | .parseAlterTableReplacePartition =>
    [⟨(.tok 7 (.kw b!"REPLACE")), [.curPos],
      [⟨[.top, .err true false], .any, .lt⟩,
       ⟨[.ty (.ptr .AlterTableReplacePartition) true ⟨true, some (-7)⟩ ⟨true, some 0⟩, .nil], .any, .lt⟩], 0⟩]
  | .parseAlterTableMaterialize =>
    [⟨(.tok 11 (.kw b!"MATERIALIZE")), [.curPos],
      [⟨[.top, .err true false], .any, .lt⟩,
       ⟨[.ty (.iface .AlterTableClause) true ⟨true, some (-11)⟩ ⟨true, some 4⟩, .nil], .any, .lt⟩], 0⟩]
  | .parseAlterTableReset =>
    [⟨(.tok 5 (.kw b!"RESET")), [.curPos],
      [⟨[.top, .err true false], .any, .lt⟩,
       ⟨[.ty (.ptr .AlterTableResetSetting) true ⟨true, some (-5)⟩ ⟨true, some 0⟩, .nil], .any, .lt⟩], 0⟩]
  | .parseAlterTableDelete =>
    [⟨(.tok 6 (.kw b!"DELETE")), [.curPos],
      [⟨[.top, .err true false], .any, .lt⟩,
       ⟨[.ty (.ptr .AlterTableDelete) true ⟨true, some (-6)⟩ ⟨true, some 0⟩, .nil], .none, .lt⟩,
       ⟨[.ty (.ptr .AlterTableDelete) true ⟨true, some (-6)⟩ ⟨true, some 4⟩, .nil], .any, .lt⟩], 0⟩]
  | .parseAlterTableUpdate =>
    [⟨(.tok 6 (.kw b!"UPDATE")), [.curPos],
      [⟨[.top, .err true false], .any, .lt⟩,
       ⟨[.ty (.ptr .AlterTableUpdate) true ⟨true, some (-6)⟩ ⟨true, some 0⟩, .nil], .none, .lt⟩,
       ⟨[.ty (.ptr .AlterTableUpdate) true ⟨true, some (-6)⟩ ⟨true, some 4⟩, .nil], .any, .lt⟩], 0⟩]
  | .parseUpdateAssignment =>
    [⟨.any, [.curPos],
      [⟨[.top, .err true false], .any, .eq⟩,
       ⟨[.top, .err true false], .any, .lt⟩,
       ⟨[.ty (.ptr .UpdateAssignment) true ⟨true, some 0⟩ ⟨true, some 0⟩, .nil], .none, .lt⟩,
       ⟨[.ty (.ptr .UpdateAssignment) true ⟨true, some 0⟩ ⟨true, some 4⟩, .nil], .any, .lt⟩], 2⟩]
  | .parseDropDatabase =>
    [⟨(.tok 8 (.kw b!"DATABASE")), [.nat (some (-4))],
      [⟨[.top, .err true false], .any, .lt⟩,
       ⟨[.ty (.ptr .DropDatabase) true ⟨true, some (-4)⟩ ⟨true, some 0⟩, .nil], .any, .lt⟩], 0⟩]
  | .parseDropStmt =>
    [⟨(.tok 4 .any), [.nat (some (-4))],
      [⟨[.top, .err true false], (.tok 4 .any), .eq⟩,
       ⟨[.top, .err true false], .any, .lt⟩,
       ⟨[.ty (.ptr .DropStmt) true ⟨true, some (-4)⟩ ⟨true, some 0⟩, .nil], .any, .lt⟩], 0⟩]
  | .tryParseModifier =>
    [⟨.any, [],
      [⟨[.str true, .nil], .any, .lt⟩,
       ⟨[.top, .err true false], .any, .lt⟩,
       ⟨[.str true, .nil], .any, .eq⟩], 0⟩]
  | .parseCreateMaterializedView =>
    [⟨(.tok 12 (.kw b!"MATERIALIZED")), [.nat (some (-6))],
      [⟨[.top, .err true false], .any, .lt⟩,
       ⟨[.ty (.ptr .CreateMaterializedView) true ⟨true, some (-6)⟩ ⟨true, some 4⟩, .nil], .any, .lt⟩], 0⟩]
  | .tryParseRefreshExpr =>
    [⟨.any, [.curPos],
      [⟨[.nil, .nil], .any, .eq⟩,
       ⟨[.top, .err true false], .any, .lt⟩,
       ⟨[.ty (.ptr .RefreshExpr) true ⟨true, some (-7)⟩ ⟨true, some 0⟩, .nil], .any, .lt⟩], 0⟩]
  | .parseCreateView =>
    [⟨(.tok 4 (.kw b!"VIEW")), [.nat (some (-6)), .bool none],
      [⟨[.top, .err true false], .any, .lt⟩,
       ⟨[.ty (.ptr .CreateView) true ⟨true, some (-6)⟩ ⟨true, some 4⟩, .nil], (.tok 1 .any), .lt⟩,
       ⟨[.ty (.ptr .CreateView) true ⟨true, some (-6)⟩ ⟨true, some 4⟩, .nil], .none, .lt⟩,
       ⟨[.ty (.ptr .CreateView) true ⟨true, some (-6)⟩ ⟨true, some 4⟩, .nil], .any, .lt⟩], 0⟩]
  | .parseCreateLiveView =>
    [⟨(.tok 4 (.kw b!"LIVE")), [.nat (some (-6))],
      [⟨[.top, .err true false], .any, .lt⟩,
       ⟨[.ty (.ptr .CreateLiveView) true ⟨true, some (-6)⟩ ⟨true, some 4⟩, .nil], .any, .lt⟩], 0⟩]
  | .tryParseWithTimeout =>
    [⟨.any, [.curPos],
      [⟨[.nil, .nil], .any, .eq⟩,
       ⟨[.top, .err true false], .any, .lt⟩,
       ⟨[.ty (.ptr .WithTimeoutClause) true ⟨true, some (-4)⟩ ⟨true, some 0⟩, .nil], .any, .lt⟩], 0⟩]
  | _ => []

/-- The source lines that may panic. -/
def bad : List Nat :=
  [30949, 31314, 41036, 50086, 50303, 50551, 50573, 50580, 50597, 50611, 50639, 50669, 50702, 50705, 50814, 50827, 50898, 51435, 60077, 60513, 60574, 60826]

def tables : Tables Fn := ⟨need, sig, bad⟩

end Verif.An.Cert
