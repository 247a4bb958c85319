/-
Texts of the core language are printed and read again.  No definition here is part of the model.
-/
import Verif.Again.Query

namespace Verif.Again
open Verif.Spec Verif.Echo

theorem claim {m : Bool} {c : Cat} {ts : List Token} {v : V} (h : Core c ts v) : Fit m ts → v.kept = true → Goal m c ts v := by
  induction h with
  | atom _ ih =>
    intro hf hk
    obtain ⟨us, e, pl, g, r⟩ := ih hf hk
    exact ⟨us, e, pl, g, fun p os fr l => ⟨.atom (r p os fr l).1, (r p os fr l).2⟩⟩
  | sign h _ ih => intro hf hk; kept hk; exact r_sign hf h (ih hf.tail hk)
  | not_ hp h _ ih => intro hf hk; kept hk; exact r_not hf hp h (ih hf.tail hk)
  | infix_ hp ho _ _ ih1 ih2 => intro hf hk; kept hk; exact r_infix hf hp ho (ih1 hf.left hk.1) (ih2 hf.right.tail hk.2)
  | notInfix hp hn ho hw _ _ ih1 ih2 => intro hf hk; kept hk; exact r_notInfix hf hp ho hw (ih1 hf.left hk.1) (ih2 hf.right.tail.tail hk.2)
  | between hp ho ha _ _ _ ih1 ih2 ih3 =>
    intro hf hk; kept hk
    exact r_between hf hp ho ha (ih1 hf.left hk.1) (ih2 hf.right.tail.left hk.2.1) (ih3 hf.right.tail.right.tail hk.2.2)
  | notBetween hp hn ho ha _ _ _ ih1 ih2 ih3 =>
    intro hf hk; kept hk
    exact r_notBetween hf hp ho ha (ih1 hf.left hk.1) (ih2 hf.right.tail.tail.left hk.2.1) (ih3 hf.right.tail.tail.right.tail hk.2.2)
  | isNull hp _ _ _ ih => intro hf hk; kept hk; exact r_isNull hp (ih hf.left hk)
  | isNotNull hp _ _ _ _ ih => intro hf hk; kept hk; exact r_isNotNull hp (ih hf.left hk)
  | global hp _ hi _ _ ih1 ih2 => intro hf hk; kept hk; exact r_global hf hp hi (ih1 hf.left hk.1) (ih2 hf.right.tail.tail hk.2)
  | globalNot hp _ _ hi _ _ ih1 ih2 => intro hf hk; kept hk; exact r_globalNot hf hp hi (ih1 hf.left hk.1) (ih2 hf.right.tail.tail.tail hk.2)
  | cast hp _ ht hs _ ih => intro hf hk; kept hk; exact r_cast hf hp ht hs (ih hf.left hk)
  | ternary ho ha _ _ _ ih1 ih2 ih3 =>
    intro hf hk; kept hk
    exact r_ternary hf ho ha (ih1 hf.left hk.1) (ih2 hf.right.tail.left hk.2.1) (ih3 hf.right.tail.right.tail hk.2.2)
  | lambda ho _ _ ih1 ih2 => intro hf hk; kept hk; exact r_lambda hf ho (ih1 hf.left hk.1) (ih2 hf.right.tail hk.2)
  | name h => intro hf _; exact r_name hf h
  | number h => intro hf _; exact r_number hf h
  | string h => intro hf _; exact r_string hf h
  | star h => intro hf _; exact r_star hf h
  | path h _ hc ih => intro hf hk; kept hk; exact r_path hf h hc (ih hf.tail.tail hk)
  | dotOne h => intro hf _; exact r_dotOne hf h
  | dotMore h _ hc ih => intro hf hk; kept hk; exact r_dotMore hf h hc (ih hf.tail.tail hk)
  | tableStar h _ _ => intro hf _; exact r_tableStar hf h
  | list ho hd _ _ _ ih => intro hf hk; kept hk; exact r_list hf ho hd (ih hf.tail.right.left hk)
  | array ho hd _ _ _ ih => intro hf hk; kept hk; exact r_array hf ho hd (ih hf.tail.right.left hk.2) hk.1
  | call h hn ho hd _ _ _ ih => intro hf hk; kept hk; exact r_call hf h hn ho hd (ih hf.tail.tail.right.left hk)
  | called _ ih => intro hf hk; exact r_called (ih hf hk)
  | overName _ _ ht ih => intro hf hk; kept hk; exact r_overName hf ht (ih hf.left hk)
  | overWindow _ _ _ hc1 hc2 _ ih ih1 ih2 =>
    intro hf hk; kept hk
    exact r_overWindow hc1 hc2 (ih hf.left hk.1) (ih1 hf.right.tail.tail.left hk.2.1) (ih2 hf.right.tail.tail.right.left hk.2.2)
  | partitionNo => intro _ _; exact r_nothing .partitionNo
  | partition _ h _ ih => intro hf hk; kept hk; exact r_partition hf h (ih hf.tail.tail hk)
  | subquery ho hc hw _ ih => intro hf hk; kept hk; exact r_subquery hf ho hc hw (ih hf.tail.left hk)
  | case_ h hc1 hc2 _ ih1 ih2 => intro hf hk; kept hk; exact r_case h hc1 hc2 (ih1 hf.tail.left hk.1) (ih2 hf.tail.right.left hk.2)
  | caseOf h hh _ hc1 hc2 _ ih0 ih1 ih2 =>
    intro hf hk; kept hk
    exact r_caseOf hf h hh (ih0 hf.tail.left hk.1) hc1 hc2 (ih1 hf.tail.right.left hk.2.1) (ih2 hf.tail.right.right.left hk.2.2)
  | whenOne h _ ht _ ih1 ih2 => intro hf hk; kept hk; exact r_whenOne hf h ht (ih1 hf.tail.left hk.1) (ih2 hf.tail.right.tail hk.2)
  | whenMore h _ ht _ hc ih1 ih2 ih3 =>
    intro hf hk; kept hk
    exact r_whenMore hf h ht (ih1 hf.tail.left hk.1.1) (ih2 hf.tail.right.tail.left hk.1.2) hc (ih3 hf.tail.right.tail.right hk.2)
  | elseNo => intro _ _; exact r_elseNo
  | elseYes h _ ih => intro hf hk; exact r_elseYes hf h (ih hf.tail hk)
  | arg _ ih => intro hf hk; kept hk; exact r_arg (ih hf hk)
  | argAs _ _ ht ih => intro hf hk; kept hk; exact r_argAs hf ht (ih hf.left hk)
  | argOne _ ih => intro hf hk; kept hk; exact r_argOne (ih hf hk)
  | argMore _ hc h ih1 ih2 => intro hf hk; kept hk; exact r_argMore hf hc (ih1 hf.left hk.1) h (ih2 hf.right.tail hk.2)
  | argsNo => intro _ _; exact r_argsNo
  | args _ ih => intro hf hk; exact r_args (ih hf hk)
  | distinctNo => intro _ _; exact True.intro
  | distinctYes _ => intro _ _; exact True.intro
  | item _ ih => intro hf hk; kept hk; exact r_item (ih hf hk)
  | itemAs _ _ ht ih => intro hf hk; kept hk; exact r_itemAs hf.right.tail.head ht (ih hf.left hk)
  | itemName _ ht ih => intro hf hk; kept hk; exact r_itemAs hf.right.head (.inl ht) (ih hf.left hk)
  | itemOne _ ih => intro hf hk; kept hk; exact r_itemOne (ih hf hk)
  | itemMore _ hc h ih1 ih2 => intro hf hk; kept hk; exact r_itemMore hf hc h (ih1 hf.left hk.1) (ih2 hf.right.tail hk.2)
  | tableName h => intro hf _; exact r_tableName hf h
  | tableOf h _ h' => intro hf _; exact r_tableOf hf h h'
  | tableQuery ho _ _ ih => intro hf hk; kept hk; exact r_tableQuery hf ho (ih hf.tail.left hk)
  | bare _ ih => intro hf hk; exact r_bare (ih hf hk)
  | aliasAs hc _ ht ih => intro hf hk; kept hk; exact r_aliasAs hf.right.tail.head ht hc (ih hf.left hk)
  | aliasName hc ht ih => intro hf hk; kept hk; exact r_aliasAs hf.right.head (.inl ht) hc (ih hf.left hk)
  | finalNo => intro _ _; exact True.intro
  | finalYes _ => intro _ _; exact True.intro
  | ref _ hb ih _ => intro hf hk; kept hk; exact r_ref (ih hf.left hk) hb
  | tablesOne hc ih => intro hf hk; exact r_tablesOne hc (ih hf hk)
  | tablesMore _ hc ih1 ih2 => intro hf hk; kept hk; exact r_tablesMore hc (ih1 hf.left hk.1) (ih2 hf.right hk.2)
  | tailComma _ hc ih => intro hf hk; exact r_tailComma hc (ih hf.tail hk)
  | tailJoin _ ih => intro hf hk; exact r_tailJoin (ih hf hk)
  | joinKind h hw _ => intro hf _; exact r_joinKind hf h hw
  | joinEnd h0 h1 h2 ih0 ih1 ih2 =>
    intro hf hk
    simp only [V.kept, V.keptL, N.JoinExpr, Bool.and_eq_true] at hk
    exact r_joinEnd h0 h1 h2 (ih0 hf.left hk.2.2.2.2.1) (ih1 hf.right.left hk.2.2.1) (ih2 hf.right.right hk.2.2.2.2.2.1)
  | joinMore h0 h1 h2 h3 ih0 ih1 ih2 ih3 =>
    intro hf hk
    simp only [V.kept, V.keptL, N.JoinExpr, Bool.and_eq_true] at hk
    exact r_joinMore h0 h1 h2 h3 (ih0 hf.left hk.2.2.2.2.1) (ih1 hf.right.left hk.2.2.1) (ih2 hf.right.right.left hk.2.2.2.2.2.1)
      (ih3 hf.right.right.right hk.2.2.2.1) hk.1
  | joinOn h0 h1 h2 ih0 ih1 ih2 =>
    intro hf hk
    simp only [V.kept, V.keptL, N.JoinExpr, Bool.and_eq_true] at hk
    exact r_joinOn h0 h1 h2 (ih0 hf.left hk.2.2.2.2.1) (ih1 hf.right.left hk.2.2.1) (ih2 hf.right.right hk.2.2.2.2.2.1)
  | joinOnMore h0 h1 h2 h3 ih0 ih1 ih2 ih3 =>
    intro hf hk
    simp only [V.kept, V.keptL, N.JoinExpr, Bool.and_eq_true] at hk
    exact r_joinOnMore h0 h1 h2 h3 (ih0 hf.left hk.2.2.2.2.1) (ih1 hf.right.left hk.2.2.1) (ih2 hf.right.right.left hk.2.2.2.2.2.1)
      (ih3 hf.right.right.right hk.2.2.2.1)
  | usingNo => intro _ _; exact r_usingNo
  | using_ h ho hc _ ih => intro hf hk; kept hk; exact r_using hf h ho hc (ih hf.tail.tail.left hk)
  | on h _ ih => intro hf hk; kept hk; exact r_on hf h (ih hf.tail hk)
  | usingBare h hh _ ih => intro hf hk; kept hk; exact r_usingBare hf h hh (ih hf.tail hk)
  | fromNo => intro _ _; exact r_nothing .fromNo
  | from_ h _ ih => intro hf hk; kept hk; exact r_from hf h (ih hf.tail hk)
  | prewhereNo => intro _ _; exact r_nothing .prewhereNo
  | prewhere h _ ih => intro hf hk; kept hk; exact r_prewhere hf h (ih hf.tail hk)
  | whereNo => intro _ _; exact r_nothing .whereNo
  | where_ h _ ih => intro hf hk; kept hk; exact r_where hf h (ih hf.tail hk)
  | groupByNo => intro _ _; exact r_nothing .groupByNo
  | groupBy _ h _ ih => intro hf hk; kept hk; exact r_groupBy hf h (ih hf.tail.tail hk)
  | havingNo => intro _ _; exact r_nothing .havingNo
  | having h _ ih => intro hf hk; kept hk; exact r_having hf h (ih hf.tail hk)
  | orderItem _ ih => intro hf hk; kept hk; exact r_orderItem (ih hf hk)
  | orderAsc _ _ ih => intro hf hk; kept hk; exact r_orderAsc (ih hf.left hk)
  | orderDesc _ _ ih => intro hf hk; kept hk; exact r_orderDesc (ih hf.left hk)
  | orderOne _ ih => intro hf hk; kept hk; exact r_orderOne (ih hf hk)
  | orderMore _ hc h ih1 ih2 => intro hf hk; kept hk; exact r_orderMore hf hc h (ih1 hf.left hk.1) (ih2 hf.right.tail hk.2)
  | orderByNo => intro _ _; exact r_nothing .orderByNo
  | orderBy _ h hc ih => intro hf hk; kept hk; exact r_orderBy hf h hc (ih hf.tail.tail hk)
  | limit h _ ih => intro hf hk; kept hk; exact r_limit hf h (ih hf.tail hk)
  | limitOffset h _ ho _ ih1 ih2 => intro hf hk; kept hk; exact r_limitOffset hf h ho (ih1 hf.tail.left hk.1) (ih2 hf.tail.right.tail hk.2)
  | limitsNo => intro _ _; exact r_limitsNo
  | limitsOne _ ih => intro hf hk; kept hk; exact r_limitsOne (ih hf hk)
  | limitsOffset h _ ih => intro hf hk; kept hk; exact r_limitsOffset hf h (ih hf.tail hk)
  | limitsBy _ h _ ih1 ih2 => intro hf hk; kept hk; exact r_limitsBy hf h (ih1 hf.left hk.1) (ih2 hf.right.tail hk.2)
  | limitsBoth _ h _ hc ih1 ih2 ih3 =>
    intro hf hk; kept hk
    exact r_limitsBoth hf h hc (ih1 hf.left hk.1.1) (ih2 hf.right.tail.left hk.1.2) (ih3 hf.right.tail.right hk.2)
  | cteQuery _ _ ho hc _ ih1 ih2 => intro hf hk; kept hk; exact r_cteQuery hf ho hc (ih1 hf.left hk.1) (ih2 hf.right.tail.tail.left hk.2)
  | cteName _ _ ht ih => intro hf hk; kept hk; exact r_cteName hf ht (ih hf.left hk)
  | cteOne _ ih => intro hf hk; kept hk; exact r_cteOne (ih hf hk)
  | cteMore _ hc h ih1 ih2 => intro hf hk; kept hk; exact r_cteMore hf hc h (ih1 hf.left hk.1) (ih2 hf.right.tail hk.2)
  | withNo => intro _ _; exact r_nothing .withNo
  | with_ h hc ih => intro hf hk; kept hk; exact r_with hf h hc (ih hf.tail hk)
  | settingNumber hn he ht => intro hf _; exact r_settingNumber hf hn he ht
  | settingString hn _ ht => intro hf _; exact r_settingString hf hn ht
  | settingBool hn _ ht => intro hf _; exact r_settingBool hf hn ht
  | settingOne _ ih => intro hf hk; kept hk; exact r_settingOne (ih hf hk)
  | settingMore _ hc h ih1 ih2 => intro hf hk; kept hk; exact r_settingMore hf hc h (ih1 hf.left hk.1) (ih2 hf.right.tail hk.2)
  | settingsNo => intro _ _; exact r_nothing .settingsNo
  | settings h hc ih => intro hf hk; kept hk; exact r_settings hf h hc (ih hf.tail hk)
  | formatNo => intro _ _; exact r_nothing .formatNo
  | format _ ht => intro hf _; exact r_format hf ht
  | alone => intro _ _; exact r_alone
  | unionAll _ _ hc ih => intro hf hk; kept hk; exact r_unionAll hc (ih hf.tail.tail hk)
  | unionDistinct _ _ hc ih => intro hf hk; kept hk; exact r_unionDistinct hc (ih hf.tail.tail hk)
  | except _ hc ih => intro hf hk; kept hk; exact r_except hc (ih hf.tail hk)
  | intersect _ hc ih => intro hf hk; kept hk; exact r_intersect hc (ih hf.tail hk)
  | query c0 h hd c1 c2 c3 c4 c5 c6 c7 c8 c9 c10 c11 hx i0 _ i1 i2 i3 i4 i5 i6 i7 i8 i9 i10 i11 =>
    intro hf hk
    kept hk
    have f1 := hf.right.tail.right
    have f2 := f1.right
    have f3 := f2.right
    have f4 := f3.right
    have f5 := f4.right
    have f6 := f5.right
    have f7 := f6.right
    have f8 := f7.right
    have f9 := f8.right
    have f10 := f9.right
    obtain ⟨k0, k1, k2, k3, k4, k5, k6, k7, k8, k8', k9, k10, k11, k12, k13, k14⟩ := hk
    exact r_query hf c0 h hd c1 c2 c3 c4 c5 c6 c7 c8 c9 c10 c11 hx (i0 hf.left k0) (i1 f1.left k1) (i2 f2.left k2) (i3 f3.left k3) (i4 f4.left k4) (i5 f5.left k5)
      (i6 f6.left k6) (i7 f7.left k7) (i8 f8.left (by simp [V.kept, V.keptL, k8, k8'])) (i9 f9.left k9) (i10 f10.left k10)
      (i11 f10.right (by simp [V.kept, V.keptL, k11, k12, k13, k14]))

end Verif.Again
