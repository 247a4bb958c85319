/-
Statements are printed and read again.  No definition here is part of the model.
-/
import Verif.Again.Create

namespace Verif.Again
open Verif.Spec Verif.Echo

variable {m : Bool} {ts : List Token} {v : V}

/-! ### All statements -/

theorem say_statement (h : Statement ts v) (hf : Fit m ts) (hk : v.kept = true)
    (ho : v.orderly = true) (hp : PlainEngine ts) : St m ts v := by
  cases h with
  | query h =>
    obtain ⟨us, e, i, n, g, r⟩ := say_of (claim h hf hk)
    exact ⟨us, e, i, n, g, fun p os fr l => .query (r p os fr l)⟩
  | use h1 h2 => exact s_use hf h2
  | set h1 h2 =>
    simp only [V.kept, V.keptL, keptNode, N.SetStmt, N.SettingsClause, Bool.and_true, Bool.true_and] at hk
    exact s_set hf h1 (claim h2 hf.tail hk)
  | @createDatabase k d t b bs cs es ms c e m h1 h2 h3 h4 h5 h6 h7 =>
    simp only [V.kept, V.keptL, keptNode, N.CreateDatabase, Bool.and_true, Bool.true_and, Bool.and_eq_true] at hk
    exact s_createDatabase hf (engine_infix hp ⟨k :: d :: (bs ++ t :: cs), ms, by simp⟩) h4 h5 h6 h7 hk.2.2.1
  | @createTable k t r p b rs ps bs is cs ss es ms i c s e m h1 h2 h3 h4 h5 h6 h7 h8 h9 h10 =>
    simp only [V.kept, V.keptL, keptNode, N.CreateTable, Bool.and_true, Bool.true_and, Bool.and_eq_true] at hk
    simp only [V.orderly, V.orderlyL, N.CreateTable, Bool.and_true, Bool.true_and, Bool.and_eq_true] at ho
    exact s_createTable hf (engine_infix hp ⟨k :: (rs ++ (ps ++ t :: (bs ++ (is ++ (cs ++ ss))))), ms, by simp⟩) h6 h7 h8 h9 h10 ⟨hk.2.2.1, hk.2.2.2.1⟩ ho.2.2.2.1
  | @createTableAs k t a r p b rs ps bs is cs ss es qs i c s e q' h1 h2 h3 h4 h5 h6 h7 h8 h9 h10 h11 h12 =>
    simp only [V.kept, V.keptL, keptNode, N.CreateTable, N.SubQuery, Bool.and_true, Bool.true_and, Bool.and_eq_true] at hk
    simp only [V.orderly, V.orderlyL, N.CreateTable, N.SubQuery, Bool.and_true, Bool.true_and, Bool.and_eq_true] at ho
    refine s_createTableAs hf (engine_infix hp ⟨k :: (rs ++ (ps ++ t :: (bs ++ (is ++ (cs ++ ss))))), a :: qs, by simp⟩) h6 h7 h8 h9 h11 h12
      ⟨hk.2.2.1, hk.2.2.2.1, hk.2.2.2.2⟩ ho.2.2.2.1 fun _ p q n a y x s t g o he hx => ?_
    subst he
    have h := ho.1
    have hq : (V.mk .SubQuery [.bool false, q']).nonNil = true := rfl
    simp only [orderlyNode, hq, hx, Bool.not_true, Bool.false_or, Bool.or_eq_true, or_assoc] at h
    exact h
  | createView h1 h2 h3 h4 h5 h6 h7 h8 h9 h10 =>
    simp only [V.kept, V.keptL, keptNode, N.CreateView, N.SubQuery, Bool.and_true, Bool.true_and, Bool.and_eq_true] at hk
    simp only [V.orderly, V.orderlyL, N.CreateView, N.SubQuery, Bool.and_true, Bool.true_and, Bool.and_eq_true] at ho
    exact s_createView hf h5 h6 h7 h8 h10 ⟨hk.2.2.1, hk.2.2.2.2⟩ ho.2.2.2.1
  | alterTable h1 h2 h3 h4 h5 =>
    simp only [V.kept, V.keptL, keptNode, N.AlterTable, Bool.and_true, Bool.true_and, Bool.and_eq_true] at hk
    simp only [V.orderly, V.orderlyL, orderlyNode, N.AlterTable, Bool.and_true, Bool.true_and, Bool.and_eq_true] at ho
    exact s_alterTable hf h3 h4 h5 hk.2.2 ho.2.2
  | dropDatabase h1 h2 h3 h4 h5 h6 => exact s_dropDatabase hf h4 h5 (mods_of h6)
  | dropTable h1 h2 h3 h4 h5 h6 h7 => exact s_drop (.inl rfl) hf h5 h6 (mods_of h7)
  | dropOther h1 h2 h3 h4 h5 h6 h7 => exact s_drop (ds := []) (.inr ⟨rfl, h2⟩) hf h5 h6 (mods_of h7)
  | truncate h1 h2 h3 h4 h5 h6 => exact s_truncate hf h5 h6
  | rename h1 h2 h3 h4 h5 => exact s_rename h2 hf h4 h5
  | insertValues h1 h2 h3 h4 h5 h6 h7 =>
    simp only [V.kept, V.keptL, keptNode, N.InsertStmt, Bool.and_true, Bool.true_and, Bool.and_eq_true] at hk
    exact s_insertValues hf h4 h5 hk.2.1 h7 hk.2.2
  | insertFormat h1 h2 h3 h4 h5 h6 h7 =>
    simp only [V.kept, V.keptL, keptNode, N.InsertStmt, N.FormatClause, Bool.and_true, Bool.true_and, Bool.and_eq_true] at hk
    exact s_insertFormat hf h4 h5 hk.2.2 h7
  | insertQuery h1 h2 h3 h4 h5 h6 h7 =>
    simp only [V.kept, V.keptL, keptNode, N.InsertStmt, Bool.and_true, Bool.true_and, Bool.and_eq_true] at hk
    exact s_insertQuery hf h4 h5 hk.2.1 h6 h7 (claim h6 hf.tail.tail.right.right.right hk.2.2)
  | delete h1 h2 h3 h4 h5 h6 =>
    simp only [V.kept, V.keptL, keptNode, N.DeleteClause, Bool.and_true, Bool.true_and, Bool.and_eq_true] at hk
    exact s_delete hf h5 h3 h4 (claim h6 hf.tail.tail.right.right.tail hk.2.2)
  | optimize h1 h2 h3 h4 h5 => exact s_optimize hf h3 h4
  | check h1 h2 h3 => exact s_check hf h3
  | explain h1 h2 h3 h4 =>
    simp only [V.kept, V.keptL, keptNode, N.ExplainStmt, Bool.and_true, Bool.true_and] at hk
    exact s_explain hf h2 h3 h4 (claim h4 hf.tail.tail hk)
  | showCreate h1 h2 h3 h4 => exact s_showCreate hf h4
  | showDatabases h1 h2 => exact s_showDatabases
  | showTables h1 h2 => exact s_showTables
  | describe h1 h2 => exact s_describe hf h2
  | describeTable h1 h2 h3 => exact s_describeTable hf h3

end Verif.Again
