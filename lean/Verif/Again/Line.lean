/-
Round trips of statements that are printed on lines of their own.  No definition here is part of the model.
-/
import Verif.Again.DdlWhole
import Verif.Cli

namespace Verif.Again
open Verif.Spec Verif.Echo

/-- The same as `again_ddl`, with a line end after the text. -/
theorem again_line {a : Str} {ts : List Token} {vs ws : List V} {m : Bool} {ind : Str} {f : Fmt} (hs : Scan (Lx.new a) ts true) (hq : Statements ts vs) (hp : Parses a ws) {w : V}
    (hw : w ∈ ws) (hk : (w.norm id).kept = true) (ho : (w.norm id).orderly = true) (hu : PlainUsing ts) (he : PlainEngine ts)
    (hn : m = true → ∀ t ∈ ts, 10 ∉ t.str) (hi : ind.all isBlank = true) (hf : (initial m ind).writeExpr w = some f) :
    ∃ w', Parses (f.out ++ [10]) [w'] ∧ w'.norm id = w.norm id ∧ ∀ g : Fmt, g.writeExpr w' = g.writeExpr w := by
  obtain ⟨os, h1, h2⟩ := statement_of hs hq hp hw
  obtain ⟨us, hpk, hpl, hnp, hg, hr⟩ := say_statement h2 ((fit_of hs hn hu).infix h1) hk ho (engine_infix he h1)
  have ht := An.parses_isTree_noReq hp hw
  rw [write_normed ht (readers_normed ht hnp)] at hf
  have hrend := (writes hi hpk (tree_normed ht).2 (fun h u hu' => (hg u hu').line h) hf).append (.sp (c := 10) rfl .nil)
  have i : Inv hd us := hpl _ (tree_normed ht).2
  have hinv : Inv hd (us ++ [.sp]) := by inv
  obtain ⟨ts', h3, h4⟩ := lexP hrend hinv.chain (fun u hu' hne => by
    rcases List.mem_append.1 hu' with h | h
    · exact (hg u h).fits hne
    · exact absurd (List.mem_singleton.1 h) hne) 0 none
  obtain ⟨x, y, _, rfl, l1, l2⟩ := lp_app h4
  cases lp_nil (lp_sp l2)
  rw [List.append_nil] at h3
  have h5 := hr _ _ (fun _ _ _ h => by obtain ⟨_, h, _⟩ := h; cases h) l1
  obtain ⟨ws', h6, h7⟩ := C47_statements_accepted (f.out ++ [10]) x [w.norm id] h3.scan (.last h5)
  obtain ⟨w', rfl, h8⟩ : ∃ w', ws' = [w'] ∧ w'.norm id = w.norm id := by
    obtain ⟨w', h, h8⟩ := List.map_eq_singleton_iff.1 h7
    exact ⟨w', h, h8⟩
  refine ⟨w', h6, h8, fun g => ?_⟩
  have ht' := An.parses_isTree_noReq h6 (v := w') (by simp)
  rw [write_normed ht (readers_normed ht hnp), write_normed ht' (readers_normed ht' (h8 ▸ hnp)), h8]

theorem cli_of {m : Bool} {a b : Str} {ws : List V} (hp : Parses a ws) (hl : cliLoop m ws = some b) : cli m a = some (.stdout b) := by
  obtain ⟨v, s, h, rfl⟩ := hp
  simp [cli, h, hl]
theorem of_cli {m : Bool} {a b : Str} (h : cli m a = some (.stdout b)) : ∃ ws, Parses a ws ∧ cliLoop m ws = some b := by
  unfold cli at h
  split at h
  · rename_i v s hs
    obtain ⟨c, h1, h2⟩ := Option.map_eq_some_iff.1 h
    cases h2
    exact ⟨_, ⟨v, s, hs, rfl⟩, h1⟩
  · cases h
  · cases h
theorem loop_write (m : Bool) (w : V) : (if m then formatBeautify b!"  " w else formatCompact w) = ((initial m b!"  ").writeExpr w).map Fmt.out := by
  cases m <;> rfl
theorem loop_one {m : Bool} {w : V} {b : Str} : cliLoop m [w] = some b ↔ ∃ f, (initial m b!"  ").writeExpr w = some f ∧ b = f.out ++ [10] := by
  simp only [cliLoop, loop_write]
  cases (initial m b!"  ").writeExpr w <;> simp [eq_comm]
theorem loop_some {m : Bool} : ∀ {ws : List V}, (∀ w ∈ ws, ∃ f, (initial m b!"  ").writeExpr w = some f) → ∃ b, cliLoop m ws = some b
  | [], _ => ⟨[], rfl⟩
  | w :: ws, h => by
    obtain ⟨f, hf⟩ := h w List.mem_cons_self
    obtain ⟨b, hb⟩ := loop_some fun x hx => h x (List.mem_cons_of_mem _ hx)
    exact ⟨f.out ++ [10] ++ b, by simp [cliLoop, loop_write, hf, hb]⟩

theorem loop_lines {m : Bool} : ∀ {ws : List V} {b : Str}, cliLoop m ws = some b →
    ∃ ls : List Str, b = ls.flatten ∧ List.Forall₂ (fun w l => ∃ f, (initial m b!"  ").writeExpr w = some f ∧ l = f.out ++ [10]) ws ls
  | [], b, h => by
    cases h
    exact ⟨[], rfl, .nil⟩
  | w :: ws, b, h => by
    simp only [cliLoop, loop_write] at h
    obtain ⟨a, h1, h2⟩ := Option.bind_eq_some_iff.1 h
    obtain ⟨f, hf, rfl⟩ := Option.map_eq_some_iff.1 h1
    obtain ⟨c, hc, rfl⟩ := Option.map_eq_some_iff.1 h2
    obtain ⟨ls, rfl, hl⟩ := loop_lines hc
    exact ⟨(f.out ++ [10]) :: ls, by simp, .cons ⟨f, hf, rfl⟩ hl⟩
theorem forall₂_mem {α β : Type} {R S : α → β → Prop} {l : List α} {r : List β} (h : List.Forall₂ R l r) (hi : ∀ a ∈ l, ∀ b, R a b → S a b) : List.Forall₂ S l r := by
  induction h with
  | nil => exact .nil
  | cons h _ ih => exact .cons (hi _ List.mem_cons_self _ h) (ih fun a ha => hi a (List.mem_cons_of_mem _ ha))

end Verif.Again
