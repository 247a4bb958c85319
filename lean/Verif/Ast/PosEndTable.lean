/-
Bodies of the `Pos` and `End` methods (parser/ast.go).
Written by tools/genast.py from the Go text.
-/
import Verif.Ast.Schema

set_option linter.unusedVariables false

namespace Verif

/-- The body of `Pos()` of every struct type (helper structs without the method: 0). -/
def posBody : Ty → PExp
  -- parser/ast.go:30-32
  | .SelectItem =>
      .pos (rf 0 /-Expr-/) .iface
  -- parser/ast.go:68-70
  | .OperationExpr =>
      .field (rf 0 /-OperationPos-/)
  -- parser/ast.go:88-90
  | .TernaryOperation =>
      .pos (rf 0 /-Condition-/) .iface
  -- parser/ast.go:119-121
  | .BinaryOperation =>
      .pos (rf 0 /-LeftExpr-/) .iface
  -- parser/ast.go:157-159
  | .IndexOperation =>
      .pos (rf 0 /-Object-/) .iface
  -- parser/ast.go:186-188
  | .JoinTableExpr =>
      .pos (rf 0 /-Table-/) (.ptr .TableExpr)
  -- parser/ast.go:207-209
  | .AlterTable =>
      .field (rf 0 /-AlterPos-/)
  -- parser/ast.go:246-248
  | .AlterTableAttachPartition =>
      .field (rf 0 /-AttachPos-/)
  -- parser/ast.go:281-283
  | .AlterTableDetachPartition =>
      .field (rf 0 /-DetachPos-/)
  -- parser/ast.go:314-316
  | .AlterTableDropPartition =>
      .field (rf 0 /-DropPos-/)
  -- parser/ast.go:351-353
  | .AlterTableMaterializeProjection =>
      .field (rf 0 /-MaterializedPos-/)
  -- parser/ast.go:385-387
  | .AlterTableMaterializeIndex =>
      .field (rf 0 /-MaterializedPos-/)
  -- parser/ast.go:417-419
  | .AlterTableFreezePartition =>
      .field (rf 0 /-FreezePos-/)
  -- parser/ast.go:450-452
  | .AlterTableAddColumn =>
      .field (rf 0 /-AddPos-/)
  -- parser/ast.go:493-495
  | .AlterTableAddIndex =>
      .field (rf 0 /-AddPos-/)
  -- parser/ast.go:524-526
  | .ProjectionOrderByClause =>
      .field (rf 0 /-OrderByPos-/)
  -- parser/ast.go:552-555
  | .ProjectionSelectStmt =>
      .field (rf 0 /-LeftParenPos-/)
  -- parser/ast.go:592-594
  | .TableProjection =>
      .field (rf 1 /-ProjectionPos-/)
  -- parser/ast.go:621-623
  | .AlterTableAddProjection =>
      .field (rf 0 /-AddPos-/)
  -- parser/ast.go:653-655
  | .AlterTableDropColumn =>
      .field (rf 0 /-DropPos-/)
  -- parser/ast.go:680-682
  | .AlterTableDropIndex =>
      .field (rf 0 /-DropPos-/)
  -- parser/ast.go:707-709
  | .AlterTableDropProjection =>
      .field (rf 0 /-DropPos-/)
  -- parser/ast.go:733-735
  | .AlterTableRemoveTTL =>
      .field (rf 0 /-RemovePos-/)
  -- parser/ast.go:760-762
  | .AlterTableClearColumn =>
      .field (rf 0 /-ClearPos-/)
  -- parser/ast.go:795-797
  | .AlterTableClearIndex =>
      .field (rf 0 /-ClearPos-/)
  -- parser/ast.go:830-832
  | .AlterTableClearProjection =>
      .field (rf 0 /-ClearPos-/)
  -- parser/ast.go:864-866
  | .AlterTableRenameColumn =>
      .field (rf 0 /-RenamePos-/)
  -- parser/ast.go:894-896
  | .AlterTableModifyQuery =>
      .field (rf 0 /-ModifyPos-/)
  -- parser/ast.go:921-923
  | .AlterTableModifyOrderBy =>
      .field (rf 0 /-ModifyPos-/)
  -- parser/ast.go:948-950
  | .AlterTableModifyTTL =>
      .field (rf 0 /-ModifyPos-/)
  -- parser/ast.go:978-980
  | .AlterTableModifyColumn =>
      .field (rf 0 /-ModifyPos-/)
  -- parser/ast.go:1010-1012
  | .AlterTableModifySetting =>
      .field (rf 0 /-ModifyPos-/)
  -- parser/ast.go:1039-1041
  | .AlterTableResetSetting =>
      .field (rf 0 /-ResetPos-/)
  -- parser/ast.go:1068-1070
  | .AlterTableReplacePartition =>
      .field (rf 0 /-ReplacePos-/)
  -- parser/ast.go:1098-1100
  | .AlterTableDelete =>
      .field (rf 0 /-DeletePos-/)
  -- parser/ast.go:1127-1129
  | .AlterTableUpdate =>
      .field (rf 0 /-UpdatePos-/)
  -- parser/ast.go:1164-1166
  | .UpdateAssignment =>
      .field (rf 0 /-AssignmentPos-/)
  -- parser/ast.go:1190-1192
  | .RemovePropertyType =>
      .field (rf 0 /-RemovePos-/)
  -- parser/ast.go:1216-1218
  | .TableIndex =>
      .field (rf 0 /-IndexPos-/)
  -- parser/ast.go:1249-1251
  | .Ident =>
      .field (rf 2 /-NamePos-/)
  -- parser/ast.go:1267-1269
  | .UUID =>
      .field ⟨0, [.f 0, .f 0] /-Value.LiteralPos-/⟩
  -- parser/ast.go:1296-1298
  | .CreateDatabase =>
      .field (rf 0 /-CreatePos-/)
  -- parser/ast.go:1350-1352
  | .CreateTable =>
      .field (rf 0 /-CreatePos-/)
  -- parser/ast.go:1428-1430
  | .CreateMaterializedView =>
      .field (rf 0 /-CreatePos-/)
  -- parser/ast.go:1520-1522
  | .CreateView =>
      .field (rf 0 /-CreatePos-/)
  -- parser/ast.go:1580-1582
  | .CreateFunction =>
      .field (rf 0 /-CreatePos-/)
  -- parser/ast.go:1614-1616
  | .RoleName =>
      .pos (rf 0 /-Name-/) .iface
  -- parser/ast.go:1653-1655
  | .SettingPair =>
      .field ⟨0, [.f 0, .f 2] /-Name.NamePos-/⟩
  -- parser/ast.go:1680-1685
  | .RoleSetting =>
      .ite (.lenPos (rf 0 /-SettingPairs-/))
      (.pos ⟨0, [.f 0, .first] /-SettingPairs[0]-/⟩ (.ptr .SettingPair))
      (.field ⟨0, [.f 1, .f 2] /-Modifier.NamePos-/⟩)
  -- parser/ast.go:1720-1722
  | .CreateRole =>
      .field (rf 0 /-CreatePos-/)
  -- parser/ast.go:1764-1766
  | .AuthenticationClause =>
      .field (rf 0 /-AuthPos-/)
  -- parser/ast.go:1800-1802
  | .HostClause =>
      .field (rf 0 /-HostPos-/)
  -- parser/ast.go:1826-1828
  | .DefaultRoleClause =>
      .field (rf 0 /-DefaultPos-/)
  -- parser/ast.go:1854-1856
  | .GranteesClause =>
      .field (rf 0 /-GranteesPos-/)
  -- parser/ast.go:1894-1896
  | .CreateUser =>
      .field (rf 0 /-CreatePos-/)
  -- parser/ast.go:1960-1962
  | .AlterRole =>
      .field (rf 0 /-AlterPos-/)
  -- parser/ast.go:1994-1996
  | .RoleRenamePair =>
      .pos (rf 0 /-RoleName-/) (.ptr .RoleName)
  -- parser/ast.go:2022-2024
  | .DestinationClause =>
      .field (rf 0 /-ToPos-/)
  -- parser/ast.go:2053-2055
  | .ConstraintClause =>
      .field (rf 0 /-ConstraintPos-/)
  -- parser/ast.go:2077-2079
  | .NullLiteral =>
      .field (rf 0 /-NullPos-/)
  -- parser/ast.go:2096-2098
  | .NotNullLiteral =>
      .field (rf 0 /-NotPos-/)
  -- parser/ast.go:2118-2120
  | .NestedIdentifier =>
      .pos (rf 0 /-Ident-/) (.ptr .Ident)
  -- parser/ast.go:2147-2152
  | .Path =>
      .ite (.lenPos (rf 0 /-Fields-/))
      (.pos ⟨0, [.f 0, .first] /-Fields[0]-/⟩ (.ptr .Ident))
      (.const 0)
  -- parser/ast.go:2177-2182
  | .TableIdentifier =>
      .ite (.nonNil (rf 0 /-Database-/))
      (.pos (rf 0 /-Database-/) (.ptr .Ident))
      (.pos (rf 1 /-Table-/) (.ptr .Ident))
  -- parser/ast.go:2210-2212
  | .TableSchemaClause =>
      .field (rf 0 /-SchemaPos-/)
  -- parser/ast.go:2245-2247
  | .TableArgListExpr =>
      .field (rf 0 /-LeftParenPos-/)
  -- parser/ast.go:2269-2271
  | .TableFunctionExpr =>
      .pos (rf 0 /-Name-/) .iface
  -- parser/ast.go:2294-2296
  | .ClusterClause =>
      .field (rf 0 /-OnPos-/)
  -- parser/ast.go:2318-2320
  | .PartitionClause =>
      .field (rf 0 /-PartitionPos-/)
  -- parser/ast.go:2350-2352
  | .PartitionByClause =>
      .field (rf 0 /-PartitionPos-/)
  -- parser/ast.go:2372-2374
  | .PrimaryKeyClause =>
      .field (rf 0 /-PrimaryPos-/)
  -- parser/ast.go:2394-2396
  | .SampleByClause =>
      .field (rf 0 /-SamplePos-/)
  -- parser/ast.go:2418-2420
  | .TTLPolicyRuleAction =>
      .field (rf 0 /-ActionPos-/)
  -- parser/ast.go:2447-2449
  | .RefreshExpr =>
      .field (rf 0 /-RefreshPos-/)
  -- parser/ast.go:2481-2483
  | .TTLPolicyRule =>
      .field (rf 0 /-RulePos-/)
  -- parser/ast.go:2522-2530
  | .TTLPolicy =>
      .ite (.nonNil (rf 0 /-Item-/))
      (.pos (rf 0 /-Item-/) (.ptr .TTLPolicyRule))
      (.ite (.nonNil (rf 1 /-Where-/))
      (.pos (rf 1 /-Where-/) (.ptr .WhereClause))
      (.pos (rf 2 /-GroupBy-/) (.ptr .GroupByClause)))
  -- parser/ast.go:2569-2571
  | .TTLExpr =>
      .field (rf 0 /-TTLPos-/)
  -- parser/ast.go:2597-2599
  | .TTLClause =>
      .field (rf 0 /-TTLPos-/)
  -- parser/ast.go:2624-2626
  | .Fill =>
      .field (rf 0 /-FillPos-/)
  -- parser/ast.go:2678-2680
  | .OrderExpr =>
      .field (rf 0 /-OrderPos-/)
  -- parser/ast.go:2716-2718
  | .InterpolateItem =>
      .pos (rf 0 /-Column-/) (.ptr .Ident)
  -- parser/ast.go:2747-2749
  | .InterpolateClause =>
      .field (rf 0 /-InterpolatePos-/)
  -- parser/ast.go:2773-2775
  | .OrderByClause =>
      .field (rf 0 /-OrderPos-/)
  -- parser/ast.go:2806-2808
  | .SettingExpr =>
      .field (rf 0 /-SettingsPos-/)
  -- parser/ast.go:2832-2834
  | .SettingsClause =>
      .field (rf 0 /-SettingsPos-/)
  -- parser/ast.go:2858-2860
  | .ParamExprList =>
      .field (rf 0 /-LeftParenPos-/)
  -- parser/ast.go:2891-2893
  | .MapLiteral =>
      .field (rf 0 /-LBracePos-/)
  -- parser/ast.go:2919-2921
  | .NamedParameterExpr =>
      .field (rf 0 /-NamePos-/)
  -- parser/ast.go:2946-2948
  | .QueryParam =>
      .field (rf 0 /-LBracePos-/)
  -- parser/ast.go:2972-2974
  | .ArrayParamList =>
      .field (rf 0 /-LeftBracketPos-/)
  -- parser/ast.go:2994-2996
  | .ObjectParams =>
      .pos (rf 0 /-Object-/) .iface
  -- parser/ast.go:3019-3021
  | .FunctionExpr =>
      .field ⟨0, [.f 0, .f 2] /-Name.NamePos-/⟩
  -- parser/ast.go:3045-3047
  | .WindowFunctionExpr =>
      .pos (rf 0 /-Function-/) (.ptr .FunctionExpr)
  -- parser/ast.go:3072-3074
  | .TypedPlaceholder =>
      .field (rf 0 /-LeftBracePos-/)
  -- parser/ast.go:3097-3099
  | .ColumnExpr =>
      .pos (rf 0 /-Expr-/) .iface
  -- parser/ast.go:3141-3143
  | .ColumnDef =>
      .pos (rf 2 /-Name-/) (.ptr .NestedIdentifier)
  -- parser/ast.go:3217-3219
  | .ScalarType =>
      .field ⟨0, [.f 0, .f 2] /-Name.NamePos-/⟩
  -- parser/ast.go:3320-3322
  | .JSONOptions =>
      .field (rf 0 /-LParen-/)
  -- parser/ast.go:3345-3347
  | .JSONType =>
      .field ⟨0, [.f 0, .f 2] /-Name.NamePos-/⟩
  -- parser/ast.go:3376-3378
  | .PropertyType =>
      .field ⟨0, [.f 0, .f 2] /-Name.NamePos-/⟩
  -- parser/ast.go:3404-3406
  | .TypeWithParams =>
      .field ⟨0, [.f 2, .f 2] /-Name.NamePos-/⟩
  -- parser/ast.go:3437-3439
  | .ComplexType =>
      .field ⟨0, [.f 2, .f 2] /-Name.NamePos-/⟩
  -- parser/ast.go:3470-3472
  | .NestedType =>
      .field ⟨0, [.f 2, .f 2] /-Name.NamePos-/⟩
  -- parser/ast.go:3505-3507
  | .CompressionCodec =>
      .field (rf 0 /-CodecPos-/)
  -- parser/ast.go:3550-3552
  | .NumberLiteral =>
      .field (rf 0 /-NumPos-/)
  -- parser/ast.go:3570-3572
  | .StringLiteral =>
      .field (rf 0 /-LiteralPos-/)
  -- parser/ast.go:3590-3592
  | .BoolLiteral =>
      .field (rf 0 /-LiteralPos-/)
  -- parser/ast.go:3610-3612
  | .PlaceHolder =>
      .field (rf 0 /-PlaceholderPos-/)
  -- parser/ast.go:3630-3632
  | .RatioExpr =>
      .field ⟨0, [.f 0, .f 0] /-Numerator.NumPos-/⟩
  -- parser/ast.go:3660-3662
  | .EnumValue =>
      .pos (rf 0 /-Name-/) (.ptr .StringLiteral)
  -- parser/ast.go:3687-3689
  | .EnumType =>
      .field (rf 1 /-ListPos-/)
  -- parser/ast.go:3721-3726
  | .IntervalExpr =>
      .ite (.not (.natEq (rf 0 /-IntervalPos-/) 0))
      (.field (rf 0 /-IntervalPos-/))
      (.pos (rf 1 /-Expr-/) .iface)
  -- parser/ast.go:3758-3760
  | .EngineExpr =>
      .field (rf 0 /-EnginePos-/)
  -- parser/ast.go:3811-3813
  | .ColumnTypeExpr =>
      .field ⟨0, [.f 0, .f 2] /-Name.NamePos-/⟩
  -- parser/ast.go:3835-3837
  | .ColumnArgList =>
      .field (rf 1 /-LeftParenPos-/)
  -- parser/ast.go:3861-3863
  | .ColumnExprList =>
      .field (rf 0 /-ListPos-/)
  -- parser/ast.go:3889-3891
  | .WhenClause =>
      .field (rf 0 /-WhenPos-/)
  -- parser/ast.go:3926-3928
  | .CaseExpr =>
      .field (rf 0 /-CasePos-/)
  -- parser/ast.go:3963-3965
  | .CastExpr =>
      .field (rf 0 /-CastPos-/)
  -- parser/ast.go:3989-3991
  | .WithClause =>
      .field (rf 0 /-WithPos-/)
  -- parser/ast.go:4015-4017
  | .TopClause =>
      .field (rf 0 /-TopPos-/)
  -- parser/ast.go:4049-4051
  | .CreateLiveView =>
      .field (rf 0 /-CreatePos-/)
  -- parser/ast.go:4113-4115
  | .CreateDictionary =>
      .field (rf 0 /-CreatePos-/)
  -- parser/ast.go:4164-4166
  | .CreateNamedCollection =>
      .field (rf 0 /-CreatePos-/)
  -- parser/ast.go:4203-4205
  | .NamedCollectionParam =>
      .field (rf 0 /-ParamPos-/)
  -- parser/ast.go:4229-4231
  | .DictionarySchemaClause =>
      .field (rf 0 /-SchemaPos-/)
  -- parser/ast.go:4260-4262
  | .DictionaryAttribute =>
      .field (rf 0 /-NamePos-/)
  -- parser/ast.go:4300-4302
  | .DictionaryEngineClause =>
      .field (rf 0 /-EnginePos-/)
  -- parser/ast.go:4368-4370
  | .DictionaryPrimaryKeyClause =>
      .field (rf 0 /-PrimaryKeyPos-/)
  -- parser/ast.go:4392-4394
  | .DictionarySourceClause =>
      .field (rf 0 /-SourcePos-/)
  -- parser/ast.go:4426-4428
  | .DictionaryArgExpr =>
      .field (rf 0 /-ArgPos-/)
  -- parser/ast.go:4468-4470
  | .DictionaryLifetimeClause =>
      .field (rf 0 /-LifetimePos-/)
  -- parser/ast.go:4504-4506
  | .DictionaryLayoutClause =>
      .field (rf 0 /-LayoutPos-/)
  -- parser/ast.go:4533-4535
  | .DictionaryRangeClause =>
      .field (rf 0 /-RangePos-/)
  -- parser/ast.go:4559-4561
  | .WithTimeoutClause =>
      .field (rf 0 /-WithTimeoutPos-/)
  -- parser/ast.go:4597-4599
  | .TableExpr =>
      .field (rf 0 /-TablePos-/)
  -- parser/ast.go:4624-4626
  | .OnClause =>
      .field (rf 0 /-OnPos-/)
  -- parser/ast.go:4646-4648
  | .UsingClause =>
      .field (rf 0 /-UsingPos-/)
  -- parser/ast.go:4671-4673
  | .JoinExpr =>
      .field (rf 0 /-JoinPos-/)
  -- parser/ast.go:4711-4713
  | .JoinConstraintClause =>
      .field (rf 0 /-ConstraintPos-/)
  -- parser/ast.go:4743-4745
  | .FromClause =>
      .field (rf 0 /-FromPos-/)
  -- parser/ast.go:4766-4768
  | .IsNullExpr =>
      .pos (rf 2 /-Expr-/) .iface
  -- parser/ast.go:4789-4791
  | .IsNotNullExpr =>
      .pos (rf 2 /-Expr-/) .iface
  -- parser/ast.go:4812-4814
  | .AliasExpr =>
      .field (rf 1 /-AliasPos-/)
  -- parser/ast.go:4837-4839
  | .WhereClause =>
      .field (rf 0 /-WherePos-/)
  -- parser/ast.go:4859-4861
  | .PrewhereClause =>
      .field (rf 0 /-PrewherePos-/)
  -- parser/ast.go:4886-4888
  | .GroupByClause =>
      .field (rf 0 /-GroupByPos-/)
  -- parser/ast.go:4910-4912
  | .HavingClause =>
      .field (rf 0 /-HavingPos-/)
  -- parser/ast.go:4933-4935
  | .LimitClause =>
      .field (rf 0 /-LimitPos-/)
  -- parser/ast.go:4965-4967
  | .LimitByClause =>
      .pos (rf 0 /-Limit-/) (.ptr .LimitClause)
  -- parser/ast.go:5004-5006
  | .WindowExpr =>
      .field (rf 0 /-LeftParenPos-/)
  -- parser/ast.go:5044-5049
  | .WindowDefinition =>
      .ite (.or (.not (.nonNil ⟨0, []⟩)) (.not (.nonNil (rf 0 /-Name-/))))
      (.const 0)
      (.pos (rf 0 /-Name-/) (.ptr .Ident))
  -- parser/ast.go:5064-5066
  | .WindowClause =>
      .field (rf 0 /-WindowPos-/)
  -- parser/ast.go:5105-5107
  | .WindowFrameClause =>
      .field (rf 0 /-FramePos-/)
  -- parser/ast.go:5128-5130
  | .WindowFrameExtendExpr =>
      .pos (rf 0 /-Expr-/) .iface
  -- parser/ast.go:5156-5161
  | .BetweenClause =>
      .ite (.nonNil (rf 0 /-Expr-/))
      (.pos (rf 0 /-Expr-/) .iface)
      (.pos (rf 2 /-Between-/) .iface)
  -- parser/ast.go:5189-5191
  | .WindowFrameCurrentRow =>
      .field (rf 0 /-CurrentPos-/)
  -- parser/ast.go:5209-5211
  | .WindowFrameUnbounded =>
      .field (rf 0 /-UnboundedPos-/)
  -- parser/ast.go:5229-5231
  | .WindowFrameNumber =>
      .pos (rf 0 /-Number-/) (.ptr .NumberLiteral)
  -- parser/ast.go:5252-5254
  | .WindowFrameParam =>
      .pos (rf 0 /-Param-/) (.ptr .QueryParam)
  -- parser/ast.go:5295-5297
  | .SelectQuery =>
      .field (rf 0 /-SelectPos-/)
  -- parser/ast.go:5412-5414
  | .DistinctOn =>
      .field (rf 1 /-DistinctOnPos-/)
  -- parser/ast.go:5436-5438
  | .SubQuery =>
      .pos (rf 1 /-Select-/) (.ptr .SelectQuery)
  -- parser/ast.go:5460-5462
  | .NotExpr =>
      .field (rf 0 /-NotPos-/)
  -- parser/ast.go:5482-5484
  | .NegateExpr =>
      .field (rf 0 /-NegatePos-/)
  -- parser/ast.go:5504-5506
  | .GlobalInOperation =>
      .field (rf 0 /-GlobalPos-/)
  -- parser/ast.go:5527-5529
  | .IntervalFrom =>
      .field ⟨0, [.f 0, .f 2] /-Interval.NamePos-/⟩
  -- parser/ast.go:5555-5557
  | .ExtractExpr =>
      .field (rf 0 /-ExtractPos-/)
  -- parser/ast.go:5583-5585
  | .DropDatabase =>
      .field (rf 0 /-DropPos-/)
  -- parser/ast.go:5621-5623
  | .DropStmt =>
      .field (rf 0 /-DropPos-/)
  -- parser/ast.go:5658-5660
  | .DropUserOrRole =>
      .field (rf 0 /-DropPos-/)
  -- parser/ast.go:5692-5694
  | .UseStmt =>
      .field (rf 0 /-UsePos-/)
  -- parser/ast.go:5715-5717
  | .CTEStmt =>
      .field (rf 0 /-CTEPos-/)
  -- parser/ast.go:5740-5742
  | .SetStmt =>
      .field (rf 0 /-SetPos-/)
  -- parser/ast.go:5762-5764
  | .FormatClause =>
      .field (rf 0 /-FormatPos-/)
  -- parser/ast.go:5789-5791
  | .OptimizeStmt =>
      .field (rf 0 /-OptimizePos-/)
  -- parser/ast.go:5827-5829
  | .DeduplicateClause =>
      .field (rf 0 /-DeduplicatePos-/)
  -- parser/ast.go:5861-5863
  | .SystemStmt =>
      .field (rf 0 /-SystemPos-/)
  -- parser/ast.go:5885-5887
  | .SystemFlushExpr =>
      .field (rf 0 /-FlushPos-/)
  -- parser/ast.go:5912-5914
  | .SystemReloadExpr =>
      .field (rf 0 /-ReloadPos-/)
  -- parser/ast.go:5941-5943
  | .SystemSyncExpr =>
      .field (rf 0 /-SyncPos-/)
  -- parser/ast.go:5966-5968
  | .SystemCtrlExpr =>
      .field (rf 0 /-CtrlPos-/)
  -- parser/ast.go:5991-5993
  | .SystemDropExpr =>
      .field (rf 0 /-DropPos-/)
  -- parser/ast.go:6014-6016
  | .TruncateTable =>
      .field (rf 0 /-TruncatePos-/)
  -- parser/ast.go:6046-6048
  | .SampleClause =>
      .field (rf 0 /-SamplePos-/)
  -- parser/ast.go:6078-6080
  | .DeleteClause =>
      .field (rf 0 /-DeletePos-/)
  -- parser/ast.go:6111-6113
  | .ColumnNamesExpr =>
      .field (rf 0 /-LeftParenPos-/)
  -- parser/ast.go:6136-6138
  | .AssignmentValues =>
      .field (rf 0 /-LeftParenPos-/)
  -- parser/ast.go:6165-6167
  | .InsertStmt =>
      .field (rf 0 /-InsertPos-/)
  -- parser/ast.go:6222-6224
  | .CheckStmt =>
      .field (rf 0 /-CheckPos-/)
  -- parser/ast.go:6250-6252
  | .UnaryExpr =>
      .field (rf 0 /-UnaryPos-/)
  -- parser/ast.go:6276-6278
  | .RenameStmt =>
      .field (rf 0 /-RenamePos-/)
  -- parser/ast.go:6312-6314
  | .TargetPair =>
      .pos (rf 0 /-Old-/) (.ptr .TableIdentifier)
  -- parser/ast.go:6338-6340
  | .ExplainStmt =>
      .field (rf 0 /-ExplainPos-/)
  -- parser/ast.go:6362-6364
  | .PrivilegeClause =>
      .field (rf 0 /-PrivilegePos-/)
  -- parser/ast.go:6391-6393
  | .GrantPrivilegeStmt =>
      .field (rf 0 /-GrantPos-/)
  -- parser/ast.go:6442-6444
  | .ShowStmt =>
      .field (rf 0 /-ShowPos-/)
  -- parser/ast.go:6504-6506
  | .DescribeStmt =>
      .field (rf 0 /-DescribePos-/)
  | _ => .const 0

/-- The body of `End()` of every struct type (helper structs without the method: 0). -/
def endBody : Ty → PExp
  -- parser/ast.go:34-42
  | .SelectItem =>
      .ite (.nonNil (rf 2 /-Alias-/))
      (.end_ (rf 2 /-Alias-/) (.ptr .Ident))
      (.ite (.lenPos (rf 1 /-Modifiers-/))
      (.end_ ⟨0, [.f 1, .last] /-Modifiers[len(s.Modifiers)-1]-/⟩ (.ptr .FunctionExpr))
      (.end_ (rf 0 /-Expr-/) .iface))
  -- parser/ast.go:72-74
  | .OperationExpr =>
      .plusLen (.field (rf 0 /-OperationPos-/)) (rf 1 /-Kind-/)
  -- parser/ast.go:92-94
  | .TernaryOperation =>
      .end_ (rf 2 /-FalseExpr-/) .iface
  -- parser/ast.go:123-125
  | .BinaryOperation =>
      .end_ (rf 2 /-RightExpr-/) .iface
  -- parser/ast.go:161-163
  | .IndexOperation =>
      .end_ (rf 2 /-Index-/) .iface
  -- parser/ast.go:190-192
  | .JoinTableExpr =>
      .field (rf 1 /-StatementEnd-/)
  -- parser/ast.go:211-213
  | .AlterTable =>
      .field (rf 1 /-StatementEnd-/)
  -- parser/ast.go:250-255
  | .AlterTableAttachPartition =>
      .ite (.nonNil (rf 2 /-From-/))
      (.end_ (rf 2 /-From-/) (.ptr .TableIdentifier))
      (.end_ (rf 1 /-Partition-/) (.ptr .PartitionClause))
  -- parser/ast.go:285-287
  | .AlterTableDetachPartition =>
      .end_ (rf 1 /-Partition-/) (.ptr .PartitionClause)
  -- parser/ast.go:318-323
  | .AlterTableDropPartition =>
      .ite (.nonNil (rf 3 /-Settings-/))
      (.end_ (rf 3 /-Settings-/) (.ptr .SettingsClause))
      (.end_ (rf 2 /-Partition-/) (.ptr .PartitionClause))
  -- parser/ast.go:355-357
  | .AlterTableMaterializeProjection =>
      .field (rf 1 /-StatementEnd-/)
  -- parser/ast.go:389-391
  | .AlterTableMaterializeIndex =>
      .field (rf 1 /-StatementEnd-/)
  -- parser/ast.go:421-423
  | .AlterTableFreezePartition =>
      .field (rf 1 /-StatementEnd-/)
  -- parser/ast.go:454-459
  | .AlterTableAddColumn =>
      .ite (.nonNil (rf 5 /-Settings-/))
      (.end_ (rf 5 /-Settings-/) (.ptr .SettingsClause))
      (.field (rf 1 /-StatementEnd-/))
  -- parser/ast.go:497-499
  | .AlterTableAddIndex =>
      .field (rf 1 /-StatementEnd-/)
  -- parser/ast.go:528-530
  | .ProjectionOrderByClause =>
      .end_ (rf 1 /-Columns-/) (.ptr .ColumnExprList)
  -- parser/ast.go:557-559
  | .ProjectionSelectStmt =>
      .field (rf 1 /-RightParenPos-/)
  -- parser/ast.go:596-598
  | .TableProjection =>
      .end_ (rf 3 /-Select-/) (.ptr .ProjectionSelectStmt)
  -- parser/ast.go:625-627
  | .AlterTableAddProjection =>
      .field (rf 1 /-StatementEnd-/)
  -- parser/ast.go:657-659
  | .AlterTableDropColumn =>
      .end_ (rf 1 /-ColumnName-/) (.ptr .NestedIdentifier)
  -- parser/ast.go:684-686
  | .AlterTableDropIndex =>
      .end_ (rf 1 /-IndexName-/) (.ptr .NestedIdentifier)
  -- parser/ast.go:711-713
  | .AlterTableDropProjection =>
      .end_ (rf 1 /-ProjectionName-/) (.ptr .NestedIdentifier)
  -- parser/ast.go:737-739
  | .AlterTableRemoveTTL =>
      .field (rf 1 /-StatementEnd-/)
  -- parser/ast.go:764-766
  | .AlterTableClearColumn =>
      .field (rf 1 /-StatementEnd-/)
  -- parser/ast.go:799-801
  | .AlterTableClearIndex =>
      .field (rf 1 /-StatementEnd-/)
  -- parser/ast.go:834-836
  | .AlterTableClearProjection =>
      .field (rf 1 /-StatementEnd-/)
  -- parser/ast.go:868-870
  | .AlterTableRenameColumn =>
      .end_ (rf 3 /-NewColumnName-/) (.ptr .NestedIdentifier)
  -- parser/ast.go:898-900
  | .AlterTableModifyQuery =>
      .field (rf 1 /-StatementEnd-/)
  -- parser/ast.go:925-927
  | .AlterTableModifyOrderBy =>
      .field (rf 1 /-StatementEnd-/)
  -- parser/ast.go:952-954
  | .AlterTableModifyTTL =>
      .field (rf 1 /-StatementEnd-/)
  -- parser/ast.go:982-984
  | .AlterTableModifyColumn =>
      .field (rf 1 /-StatementEnd-/)
  -- parser/ast.go:1014-1016
  | .AlterTableModifySetting =>
      .field (rf 1 /-StatementEnd-/)
  -- parser/ast.go:1043-1045
  | .AlterTableResetSetting =>
      .field (rf 1 /-StatementEnd-/)
  -- parser/ast.go:1072-1074
  | .AlterTableReplacePartition =>
      .end_ (rf 2 /-Table-/) (.ptr .TableIdentifier)
  -- parser/ast.go:1102-1104
  | .AlterTableDelete =>
      .field (rf 1 /-StatementEnd-/)
  -- parser/ast.go:1131-1133
  | .AlterTableUpdate =>
      .field (rf 1 /-StatementEnd-/)
  -- parser/ast.go:1168-1170
  | .UpdateAssignment =>
      .end_ (rf 2 /-Expr-/) .iface
  -- parser/ast.go:1194-1196
  | .RemovePropertyType =>
      .end_ (rf 1 /-PropertyType-/) .iface
  -- parser/ast.go:1220-1222
  | .TableIndex =>
      .end_ (rf 4 /-Granularity-/) (.ptr .NumberLiteral)
  -- parser/ast.go:1253-1255
  | .Ident =>
      .field (rf 3 /-NameEnd-/)
  -- parser/ast.go:1271-1273
  | .UUID =>
      .field ⟨0, [.f 0, .f 1] /-Value.LiteralEnd-/⟩
  -- parser/ast.go:1300-1302
  | .CreateDatabase =>
      .field (rf 1 /-StatementEnd-/)
  -- parser/ast.go:1354-1356
  | .CreateTable =>
      .field (rf 1 /-StatementEnd-/)
  -- parser/ast.go:1432-1434
  | .CreateMaterializedView =>
      .field (rf 1 /-StatementEnd-/)
  -- parser/ast.go:1524-1526
  | .CreateView =>
      .field (rf 1 /-StatementEnd-/)
  -- parser/ast.go:1584-1586
  | .CreateFunction =>
      .end_ (rf 6 /-Expr-/) .iface
  -- parser/ast.go:1618-1626
  | .RoleName =>
      .ite (.nonNil (rf 1 /-Scope-/))
      (.end_ (rf 1 /-Scope-/) (.ptr .StringLiteral))
      (.ite (.nonNil (rf 2 /-OnCluster-/))
      (.end_ (rf 2 /-OnCluster-/) (.ptr .ClusterClause))
      (.end_ (rf 0 /-Name-/) .iface))
  -- parser/ast.go:1657-1659
  | .SettingPair =>
      .end_ (rf 2 /-Value-/) .iface
  -- parser/ast.go:1687-1692
  | .RoleSetting =>
      .ite (.nonNil (rf 1 /-Modifier-/))
      (.field ⟨0, [.f 1, .f 3] /-Modifier.NameEnd-/⟩)
      (.end_ ⟨0, [.f 0, .last] /-SettingPairs[len(r.SettingPairs)-1]-/⟩ (.ptr .SettingPair))
  -- parser/ast.go:1724-1726
  | .CreateRole =>
      .field (rf 1 /-StatementEnd-/)
  -- parser/ast.go:1768-1770
  | .AuthenticationClause =>
      .field (rf 1 /-AuthEnd-/)
  -- parser/ast.go:1804-1806
  | .HostClause =>
      .field (rf 1 /-HostEnd-/)
  -- parser/ast.go:1830-1832
  | .DefaultRoleClause =>
      .field (rf 1 /-DefaultEnd-/)
  -- parser/ast.go:1858-1860
  | .GranteesClause =>
      .field (rf 1 /-GranteesEnd-/)
  -- parser/ast.go:1898-1900
  | .CreateUser =>
      .field (rf 1 /-StatementEnd-/)
  -- parser/ast.go:1964-1966
  | .AlterRole =>
      .field (rf 1 /-StatementEnd-/)
  -- parser/ast.go:1998-2000
  | .RoleRenamePair =>
      .field (rf 2 /-StatementEnd-/)
  -- parser/ast.go:2026-2031
  | .DestinationClause =>
      .ite (.nonNil (rf 2 /-TableSchema-/))
      (.end_ (rf 2 /-TableSchema-/) (.ptr .TableSchemaClause))
      (.end_ (rf 1 /-TableIdentifier-/) (.ptr .TableIdentifier))
  -- parser/ast.go:2057-2059
  | .ConstraintClause =>
      .end_ (rf 2 /-Expr-/) .iface
  -- parser/ast.go:2081-2083
  | .NullLiteral =>
      .plus (.field (rf 0 /-NullPos-/)) 4
  -- parser/ast.go:2100-2102
  | .NotNullLiteral =>
      .end_ (rf 1 /-NullLiteral-/) (.ptr .NullLiteral)
  -- parser/ast.go:2122-2127
  | .NestedIdentifier =>
      .ite (.nonNil (rf 1 /-DotIdent-/))
      (.end_ (rf 1 /-DotIdent-/) (.ptr .Ident))
      (.end_ (rf 0 /-Ident-/) (.ptr .Ident))
  -- parser/ast.go:2154-2159
  | .Path =>
      .ite (.lenPos (rf 0 /-Fields-/))
      (.end_ ⟨0, [.f 0, .last] /-Fields[len(p.Fields)-1]-/⟩ (.ptr .Ident))
      (.const 0)
  -- parser/ast.go:2184-2186
  | .TableIdentifier =>
      .end_ (rf 1 /-Table-/) (.ptr .Ident)
  -- parser/ast.go:2214-2216
  | .TableSchemaClause =>
      .field (rf 1 /-SchemaEnd-/)
  -- parser/ast.go:2249-2251
  | .TableArgListExpr =>
      .field (rf 1 /-RightParenPos-/)
  -- parser/ast.go:2273-2275
  | .TableFunctionExpr =>
      .end_ (rf 1 /-Args-/) (.ptr .TableArgListExpr)
  -- parser/ast.go:2298-2300
  | .ClusterClause =>
      .end_ (rf 1 /-Expr-/) .iface
  -- parser/ast.go:2322-2327
  | .PartitionClause =>
      .ite (.nonNil (rf 2 /-ID-/))
      (.field ⟨0, [.f 2, .f 1] /-ID.LiteralEnd-/⟩)
      (.end_ (rf 1 /-Expr-/) .iface)
  -- parser/ast.go:2354-2356
  | .PartitionByClause =>
      .end_ (rf 1 /-Expr-/) .iface
  -- parser/ast.go:2376-2378
  | .PrimaryKeyClause =>
      .end_ (rf 1 /-Expr-/) .iface
  -- parser/ast.go:2398-2400
  | .SampleByClause =>
      .end_ (rf 1 /-Expr-/) .iface
  -- parser/ast.go:2422-2427
  | .TTLPolicyRuleAction =>
      .ite (.nonNil (rf 3 /-Codec-/))
      (.end_ (rf 3 /-Codec-/) (.ptr .CompressionCodec))
      (.field (rf 1 /-ActionEnd-/))
  -- parser/ast.go:2451-2456
  | .RefreshExpr =>
      .ite (.nonNil (rf 3 /-Offset-/))
      (.end_ (rf 3 /-Offset-/) (.ptr .IntervalExpr))
      (.end_ (rf 2 /-Interval-/) (.ptr .IntervalExpr))
  -- parser/ast.go:2485-2493
  | .TTLPolicyRule =>
      .ite (.nonNil (rf 3 /-Action-/))
      (.end_ (rf 3 /-Action-/) (.ptr .TTLPolicyRuleAction))
      (.ite (.nonNil (rf 2 /-ToDisk-/))
      (.field ⟨0, [.f 2, .f 1] /-ToDisk.LiteralEnd-/⟩)
      (.field ⟨0, [.f 1, .f 1] /-ToVolume.LiteralEnd-/⟩))
  -- parser/ast.go:2532-2540
  | .TTLPolicy =>
      .ite (.nonNil (rf 2 /-GroupBy-/))
      (.end_ (rf 2 /-GroupBy-/) (.ptr .GroupByClause))
      (.ite (.nonNil (rf 1 /-Where-/))
      (.end_ (rf 1 /-Where-/) (.ptr .WhereClause))
      (.end_ (rf 0 /-Item-/) (.ptr .TTLPolicyRule)))
  -- parser/ast.go:2573-2575
  | .TTLExpr =>
      .end_ (rf 1 /-Expr-/) .iface
  -- parser/ast.go:2601-2603
  | .TTLClause =>
      .field (rf 1 /-ListEnd-/)
  -- parser/ast.go:2628-2642
  | .Fill =>
      .ite (.nonNil (rf 4 /-Staleness-/))
      (.end_ (rf 4 /-Staleness-/) .iface)
      (.ite (.nonNil (rf 3 /-Step-/))
      (.end_ (rf 3 /-Step-/) .iface)
      (.ite (.nonNil (rf 2 /-To-/))
      (.end_ (rf 2 /-To-/) .iface)
      (.ite (.nonNil (rf 1 /-From-/))
      (.end_ (rf 1 /-From-/) .iface)
      (.plus (.field (rf 0 /-FillPos-/)) 4))))
  -- parser/ast.go:2682-2690
  | .OrderExpr =>
      .ite (.nonNil (rf 4 /-Fill-/))
      (.end_ (rf 4 /-Fill-/) (.ptr .Fill))
      (.ite (.nonNil (rf 2 /-Alias-/))
      (.end_ (rf 2 /-Alias-/) (.ptr .Ident))
      (.end_ (rf 1 /-Expr-/) .iface))
  -- parser/ast.go:2720-2725
  | .InterpolateItem =>
      .ite (.nonNil (rf 1 /-Expr-/))
      (.end_ (rf 1 /-Expr-/) .iface)
      (.end_ (rf 0 /-Column-/) (.ptr .Ident))
  -- parser/ast.go:2751-2753
  | .InterpolateClause =>
      .field (rf 1 /-ListEnd-/)
  -- parser/ast.go:2777-2782
  | .OrderByClause =>
      .ite (.nonNil (rf 3 /-Interpolate-/))
      (.end_ (rf 3 /-Interpolate-/) (.ptr .InterpolateClause))
      (.field (rf 1 /-ListEnd-/))
  -- parser/ast.go:2810-2812
  | .SettingExpr =>
      .end_ (rf 2 /-Expr-/) .iface
  -- parser/ast.go:2836-2838
  | .SettingsClause =>
      .field (rf 1 /-ListEnd-/)
  -- parser/ast.go:2862-2864
  | .ParamExprList =>
      .field (rf 1 /-RightParenPos-/)
  -- parser/ast.go:2895-2897
  | .MapLiteral =>
      .field (rf 1 /-RBracePos-/)
  -- parser/ast.go:2923-2925
  | .NamedParameterExpr =>
      .end_ (rf 2 /-Value-/) .iface
  -- parser/ast.go:2950-2952
  | .QueryParam =>
      .field (rf 1 /-RBracePos-/)
  -- parser/ast.go:2976-2978
  | .ArrayParamList =>
      .field (rf 1 /-RightBracketPos-/)
  -- parser/ast.go:2998-3000
  | .ObjectParams =>
      .end_ (rf 1 /-Params-/) (.ptr .ArrayParamList)
  -- parser/ast.go:3023-3025
  | .FunctionExpr =>
      .field ⟨0, [.f 1, .f 1] /-Params.RightParenPos-/⟩
  -- parser/ast.go:3049-3051
  | .WindowFunctionExpr =>
      .end_ (rf 2 /-OverExpr-/) .iface
  -- parser/ast.go:3076-3078
  | .TypedPlaceholder =>
      .field (rf 1 /-RightBracePos-/)
  -- parser/ast.go:3101-3106
  | .ColumnExpr =>
      .ite (.nonNil (rf 1 /-Alias-/))
      (.field ⟨0, [.f 1, .f 3] /-Alias.NameEnd-/⟩)
      (.end_ (rf 0 /-Expr-/) .iface)
  -- parser/ast.go:3145-3147
  | .ColumnDef =>
      .field (rf 1 /-ColumnEnd-/)
  -- parser/ast.go:3221-3223
  | .ScalarType =>
      .field ⟨0, [.f 0, .f 3] /-Name.NameEnd-/⟩
  -- parser/ast.go:3324-3326
  | .JSONOptions =>
      .field (rf 1 /-RParen-/)
  -- parser/ast.go:3349-3354
  | .JSONType =>
      .ite (.nonNil (rf 1 /-Options-/))
      (.field ⟨0, [.f 1, .f 1] /-Options.RParen-/⟩)
      (.field ⟨0, [.f 0, .f 3] /-Name.NameEnd-/⟩)
  -- parser/ast.go:3380-3382
  | .PropertyType =>
      .field ⟨0, [.f 0, .f 3] /-Name.NameEnd-/⟩
  -- parser/ast.go:3408-3410
  | .TypeWithParams =>
      .field (rf 1 /-RightParenPos-/)
  -- parser/ast.go:3441-3443
  | .ComplexType =>
      .field (rf 1 /-RightParenPos-/)
  -- parser/ast.go:3474-3476
  | .NestedType =>
      .field (rf 1 /-RightParenPos-/)
  -- parser/ast.go:3509-3511
  | .CompressionCodec =>
      .field (rf 1 /-RightParenPos-/)
  -- parser/ast.go:3554-3556
  | .NumberLiteral =>
      .field (rf 1 /-NumEnd-/)
  -- parser/ast.go:3574-3576
  | .StringLiteral =>
      .field (rf 1 /-LiteralEnd-/)
  -- parser/ast.go:3594-3596
  | .BoolLiteral =>
      .field (rf 1 /-LiteralEnd-/)
  -- parser/ast.go:3614-3616
  | .PlaceHolder =>
      .field (rf 1 /-PlaceHolderEnd-/)
  -- parser/ast.go:3634-3639
  | .RatioExpr =>
      .ite (.nonNil (rf 1 /-Denominator-/))
      (.field ⟨0, [.f 1, .f 1] /-Denominator.NumEnd-/⟩)
      (.field ⟨0, [.f 0, .f 1] /-Numerator.NumEnd-/⟩)
  -- parser/ast.go:3664-3666
  | .EnumValue =>
      .end_ (rf 1 /-Value-/) (.ptr .NumberLiteral)
  -- parser/ast.go:3691-3693
  | .EnumType =>
      .field (rf 2 /-ListEnd-/)
  -- parser/ast.go:3728-3730
  | .IntervalExpr =>
      .end_ (rf 2 /-Unit-/) (.ptr .Ident)
  -- parser/ast.go:3762-3764
  | .EngineExpr =>
      .field (rf 1 /-EngineEnd-/)
  -- parser/ast.go:3815-3817
  | .ColumnTypeExpr =>
      .field ⟨0, [.f 0, .f 3] /-Name.NameEnd-/⟩
  -- parser/ast.go:3839-3841
  | .ColumnArgList =>
      .field (rf 2 /-RightParenPos-/)
  -- parser/ast.go:3865-3867
  | .ColumnExprList =>
      .field (rf 1 /-ListEnd-/)
  -- parser/ast.go:3893-3898
  | .WhenClause =>
      .ite (.nonNil (rf 5 /-Else-/))
      (.end_ (rf 5 /-Else-/) .iface)
      (.end_ (rf 3 /-Then-/) .iface)
  -- parser/ast.go:3930-3932
  | .CaseExpr =>
      .field (rf 1 /-EndPos-/)
  -- parser/ast.go:3967-3969
  | .CastExpr =>
      .end_ (rf 4 /-AsType-/) .iface
  -- parser/ast.go:3993-3995
  | .WithClause =>
      .field (rf 1 /-EndPos-/)
  -- parser/ast.go:4019-4021
  | .TopClause =>
      .field (rf 1 /-TopEnd-/)
  -- parser/ast.go:4053-4055
  | .CreateLiveView =>
      .field (rf 1 /-StatementEnd-/)
  -- parser/ast.go:4117-4119
  | .CreateDictionary =>
      .field (rf 1 /-StatementEnd-/)
  -- parser/ast.go:4168-4170
  | .CreateNamedCollection =>
      .field (rf 1 /-StatementEnd-/)
  -- parser/ast.go:4207-4209
  | .NamedCollectionParam =>
      .end_ (rf 2 /-Value-/) .iface
  -- parser/ast.go:4233-4235
  | .DictionarySchemaClause =>
      .plus (.field (rf 2 /-RParenPos-/)) 1
  -- parser/ast.go:4264-4266
  | .DictionaryAttribute =>
      .field (rf 1 /-AttrEnd-/)
  -- parser/ast.go:4304-4324
  | .DictionaryEngineClause =>
      .ite (.nonNil (rf 6 /-Settings-/))
      (.end_ (rf 6 /-Settings-/) (.ptr .SettingsClause))
      (.ite (.nonNil (rf 5 /-Range-/))
      (.end_ (rf 5 /-Range-/) (.ptr .DictionaryRangeClause))
      (.ite (.nonNil (rf 4 /-Layout-/))
      (.end_ (rf 4 /-Layout-/) (.ptr .DictionaryLayoutClause))
      (.ite (.nonNil (rf 3 /-Lifetime-/))
      (.end_ (rf 3 /-Lifetime-/) (.ptr .DictionaryLifetimeClause))
      (.ite (.nonNil (rf 2 /-Source-/))
      (.end_ (rf 2 /-Source-/) (.ptr .DictionarySourceClause))
      (.ite (.nonNil (rf 1 /-PrimaryKey-/))
      (.end_ (rf 1 /-PrimaryKey-/) (.ptr .DictionaryPrimaryKeyClause))
      (.field (rf 0 /-EnginePos-/)))))))
  -- parser/ast.go:4372-4374
  | .DictionaryPrimaryKeyClause =>
      .plus (.field (rf 2 /-RParenPos-/)) 1
  -- parser/ast.go:4396-4398
  | .DictionarySourceClause =>
      .plus (.field (rf 3 /-RParenPos-/)) 1
  -- parser/ast.go:4430-4435
  | .DictionaryArgExpr =>
      .ite (.nonNil (rf 2 /-Value-/))
      (.end_ (rf 2 /-Value-/) .iface)
      (.plus (.field (rf 5 /-RParenPos-/)) 1)
  -- parser/ast.go:4472-4474
  | .DictionaryLifetimeClause =>
      .plus (.field (rf 4 /-RParenPos-/)) 1
  -- parser/ast.go:4508-4510
  | .DictionaryLayoutClause =>
      .plus (.field (rf 3 /-RParenPos-/)) 1
  -- parser/ast.go:4537-4539
  | .DictionaryRangeClause =>
      .plus (.field (rf 3 /-RParenPos-/)) 1
  -- parser/ast.go:4563-4571
  | .WithTimeoutClause =>
      .ite (.nonNil (rf 2 /-Number-/))
      (.end_ (rf 2 /-Number-/) (.ptr .NumberLiteral))
      (.ite (.nonNil (rf 1 /-Expr-/))
      (.end_ (rf 1 /-Expr-/) .iface)
      (.field (rf 0 /-WithTimeoutPos-/)))
  -- parser/ast.go:4601-4603
  | .TableExpr =>
      .field (rf 1 /-TableEnd-/)
  -- parser/ast.go:4628-4630
  | .OnClause =>
      .end_ (rf 1 /-On-/) (.ptr .ColumnExprList)
  -- parser/ast.go:4650-4652
  | .UsingClause =>
      .end_ (rf 1 /-Using-/) (.ptr .ColumnExprList)
  -- parser/ast.go:4675-4684
  | .JoinExpr =>
      .ite (.nonNil (rf 2 /-Right-/))
      (.end_ (rf 2 /-Right-/) .iface)
      (.ite (.nonNil (rf 4 /-Constraints-/))
      (.end_ (rf 4 /-Constraints-/) .iface)
      (.end_ (rf 1 /-Left-/) .iface))
  -- parser/ast.go:4715-4720
  | .JoinConstraintClause =>
      .ite (.nonNil (rf 1 /-On-/))
      (.end_ (rf 1 /-On-/) (.ptr .ColumnExprList))
      (.end_ (rf 2 /-Using-/) (.ptr .ColumnExprList))
  -- parser/ast.go:4747-4749
  | .FromClause =>
      .end_ (rf 1 /-Expr-/) .iface
  -- parser/ast.go:4770-4772
  | .IsNullExpr =>
      .field (rf 1 /-NullEnd-/)
  -- parser/ast.go:4793-4795
  | .IsNotNullExpr =>
      .field (rf 1 /-NullEnd-/)
  -- parser/ast.go:4816-4818
  | .AliasExpr =>
      .end_ (rf 2 /-Alias-/) .iface
  -- parser/ast.go:4841-4843
  | .WhereClause =>
      .end_ (rf 1 /-Expr-/) .iface
  -- parser/ast.go:4863-4865
  | .PrewhereClause =>
      .end_ (rf 1 /-Expr-/) .iface
  -- parser/ast.go:4890-4892
  | .GroupByClause =>
      .field (rf 1 /-GroupByEnd-/)
  -- parser/ast.go:4914-4916
  | .HavingClause =>
      .end_ (rf 1 /-Expr-/) .iface
  -- parser/ast.go:4937-4942
  | .LimitClause =>
      .ite (.nonNil (rf 2 /-Offset-/))
      (.end_ (rf 2 /-Offset-/) .iface)
      (.end_ (rf 1 /-Limit-/) .iface)
  -- parser/ast.go:4969-4977
  | .LimitByClause =>
      .ite (.nonNil (rf 1 /-ByExpr-/))
      (.end_ (rf 1 /-ByExpr-/) (.ptr .ColumnExprList))
      (.ite (.nonNil (rf 0 /-Limit-/))
      (.end_ (rf 0 /-Limit-/) (.ptr .LimitClause))
      (.end_ (rf 0 /-Limit-/) (.ptr .LimitClause)))
  -- parser/ast.go:5008-5010
  | .WindowExpr =>
      .field (rf 1 /-RightParenPos-/)
  -- parser/ast.go:5051-5056
  | .WindowDefinition =>
      .ite (.or (.not (.nonNil ⟨0, []⟩)) (.not (.nonNil (rf 2 /-Expr-/))))
      (.const 0)
      (.end_ (rf 2 /-Expr-/) (.ptr .WindowExpr))
  -- parser/ast.go:5068-5076
  | .WindowClause =>
      .ite (.not (.natEq (rf 1 /-EndPos-/) 0))
      (.field (rf 1 /-EndPos-/))
      (.ite (.not (.lenPos (rf 2 /-Windows-/)))
      (.field (rf 0 /-WindowPos-/))
      (.end_ ⟨0, [.f 2, .last] /-Windows[len(w.Windows)-1]-/⟩ (.ptr .WindowDefinition)))
  -- parser/ast.go:5109-5111
  | .WindowFrameClause =>
      .end_ (rf 2 /-Extend-/) .iface
  -- parser/ast.go:5132-5137
  | .WindowFrameExtendExpr =>
      .ite (.not (.natEq (rf 2 /-EndPos-/) 0))
      (.field (rf 2 /-EndPos-/))
      (.end_ (rf 0 /-Expr-/) .iface)
  -- parser/ast.go:5163-5165
  | .BetweenClause =>
      .end_ (rf 4 /-And-/) .iface
  -- parser/ast.go:5193-5195
  | .WindowFrameCurrentRow =>
      .field (rf 1 /-RowEnd-/)
  -- parser/ast.go:5213-5215
  | .WindowFrameUnbounded =>
      .field (rf 1 /-UnboundedEnd-/)
  -- parser/ast.go:5233-5235
  | .WindowFrameNumber =>
      .field (rf 1 /-EndPos-/)
  -- parser/ast.go:5256-5258
  | .WindowFrameParam =>
      .field (rf 1 /-EndPos-/)
  -- parser/ast.go:5299-5301
  | .SelectQuery =>
      .field (rf 1 /-StatementEnd-/)
  -- parser/ast.go:5416-5418
  | .DistinctOn =>
      .field (rf 2 /-DistinctOnEnd-/)
  -- parser/ast.go:5440-5442
  | .SubQuery =>
      .end_ (rf 1 /-Select-/) (.ptr .SelectQuery)
  -- parser/ast.go:5464-5466
  | .NotExpr =>
      .end_ (rf 1 /-Expr-/) .iface
  -- parser/ast.go:5486-5488
  | .NegateExpr =>
      .end_ (rf 1 /-Expr-/) .iface
  -- parser/ast.go:5508-5510
  | .GlobalInOperation =>
      .end_ (rf 1 /-Expr-/) .iface
  -- parser/ast.go:5531-5533
  | .IntervalFrom =>
      .end_ (rf 2 /-FromExpr-/) .iface
  -- parser/ast.go:5559-5561
  | .ExtractExpr =>
      .field (rf 1 /-ExtractEnd-/)
  -- parser/ast.go:5587-5589
  | .DropDatabase =>
      .field (rf 1 /-StatementEnd-/)
  -- parser/ast.go:5625-5627
  | .DropStmt =>
      .field (rf 1 /-StatementEnd-/)
  -- parser/ast.go:5662-5664
  | .DropUserOrRole =>
      .field (rf 2 /-StatementEnd-/)
  -- parser/ast.go:5696-5698
  | .UseStmt =>
      .end_ (rf 2 /-Database-/) (.ptr .Ident)
  -- parser/ast.go:5719-5721
  | .CTEStmt =>
      .end_ (rf 1 /-Expr-/) .iface
  -- parser/ast.go:5744-5746
  | .SetStmt =>
      .end_ (rf 1 /-Settings-/) (.ptr .SettingsClause)
  -- parser/ast.go:5766-5768
  | .FormatClause =>
      .end_ (rf 1 /-Format-/) (.ptr .Ident)
  -- parser/ast.go:5793-5795
  | .OptimizeStmt =>
      .field (rf 1 /-StatementEnd-/)
  -- parser/ast.go:5831-5838
  | .DeduplicateClause =>
      .ite (.nonNil (rf 1 /-By-/))
      (.end_ (rf 1 /-By-/) (.ptr .ColumnExprList))
      (.ite (.nonNil (rf 2 /-Except-/))
      (.end_ (rf 2 /-Except-/) (.ptr .ColumnExprList))
      (.plus (.field (rf 0 /-DeduplicatePos-/)) 11))
  -- parser/ast.go:5865-5867
  | .SystemStmt =>
      .end_ (rf 1 /-Expr-/) .iface
  -- parser/ast.go:5889-5891
  | .SystemFlushExpr =>
      .field (rf 1 /-StatementEnd-/)
  -- parser/ast.go:5916-5918
  | .SystemReloadExpr =>
      .field (rf 1 /-StatementEnd-/)
  -- parser/ast.go:5945-5947
  | .SystemSyncExpr =>
      .end_ (rf 1 /-Cluster-/) (.ptr .TableIdentifier)
  -- parser/ast.go:5970-5972
  | .SystemCtrlExpr =>
      .field (rf 1 /-StatementEnd-/)
  -- parser/ast.go:5995-5997
  | .SystemDropExpr =>
      .field (rf 1 /-StatementEnd-/)
  -- parser/ast.go:6018-6020
  | .TruncateTable =>
      .field (rf 1 /-StatementEnd-/)
  -- parser/ast.go:6050-6055
  | .SampleClause =>
      .ite (.nonNil (rf 2 /-Offset-/))
      (.end_ (rf 2 /-Offset-/) (.ptr .RatioExpr))
      (.end_ (rf 1 /-Ratio-/) (.ptr .RatioExpr))
  -- parser/ast.go:6082-6084
  | .DeleteClause =>
      .end_ (rf 3 /-WhereExpr-/) .iface
  -- parser/ast.go:6115-6117
  | .ColumnNamesExpr =>
      .field (rf 1 /-RightParenPos-/)
  -- parser/ast.go:6140-6142
  | .AssignmentValues =>
      .field (rf 1 /-RightParenPos-/)
  -- parser/ast.go:6169-6185
  | .InsertStmt =>
      .ite (.nonNil (rf 6 /-SelectExpr-/))
      (.end_ (rf 6 /-SelectExpr-/) (.ptr .SelectQuery))
      (.ite (.lenPos (rf 5 /-Values-/))
      (.end_ ⟨0, [.f 5, .last] /-Values[len(i.Values)-1]-/⟩ (.ptr .AssignmentValues))
      (.ite (.nonNil (rf 1 /-Format-/))
      (.end_ (rf 1 /-Format-/) (.ptr .FormatClause))
      (.ite (.nonNil (rf 4 /-ColumnNames-/))
      (.end_ (rf 4 /-ColumnNames-/) (.ptr .ColumnNamesExpr))
      (.end_ (rf 3 /-Table-/) .iface))))
  -- parser/ast.go:6226-6228
  | .CheckStmt =>
      .end_ (rf 2 /-Partition-/) (.ptr .PartitionClause)
  -- parser/ast.go:6254-6256
  | .UnaryExpr =>
      .end_ (rf 2 /-Expr-/) .iface
  -- parser/ast.go:6280-6282
  | .RenameStmt =>
      .field (rf 1 /-StatementEnd-/)
  -- parser/ast.go:6316-6318
  | .TargetPair =>
      .end_ (rf 1 /-New-/) (.ptr .TableIdentifier)
  -- parser/ast.go:6342-6344
  | .ExplainStmt =>
      .end_ (rf 2 /-Statement-/) .iface
  -- parser/ast.go:6366-6368
  | .PrivilegeClause =>
      .field (rf 1 /-PrivilegeEnd-/)
  -- parser/ast.go:6395-6397
  | .GrantPrivilegeStmt =>
      .field (rf 1 /-StatementEnd-/)
  -- parser/ast.go:6446-6464
  | .ShowStmt =>
      .ite (.nonNil (rf 9 /-Format-/))
      (.end_ (rf 9 /-Format-/) (.ptr .StringLiteral))
      (.ite (.nonNil (rf 8 /-OutFile-/))
      (.end_ (rf 8 /-OutFile-/) (.ptr .StringLiteral))
      (.ite (.nonNil (rf 7 /-Limit-/))
      (.end_ (rf 7 /-Limit-/) .iface)
      (.ite (.nonNil (rf 6 /-LikePattern-/))
      (.end_ (rf 6 /-LikePattern-/) .iface)
      (.ite (.nonNil (rf 3 /-Target-/))
      (.end_ (rf 3 /-Target-/) (.ptr .TableIdentifier))
      (.field (rf 1 /-StatementEnd-/))))))
  -- parser/ast.go:6508-6510
  | .DescribeStmt =>
      .end_ (rf 3 /-Target-/) (.ptr .TableIdentifier)
  | _ => .const 0

end Verif
