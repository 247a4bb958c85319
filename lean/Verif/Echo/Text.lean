/-
The elements that are printed, as text, and what the statements of the formatter write.  No definition here is part of the model.
-/
import Verif.Echo.Grammar
import Verif.Lemmas.Format
import Verif.Spec.Tree

namespace Verif.Echo
open Verif.Spec

/-- How an element is written. -/
def E.text : E → Str
  | .sp => [32]
  | .kw s => s
  | .op k => k
  | .word n q => if q = 3 then 96 :: (n ++ [96]) else if q = 2 then 34 :: (n ++ [34]) else if q = 4 then 39 :: (n ++ [39]) else n
  | .num s => s
  | .str s => 39 :: (s ++ [39])
  | .as_ => b!"AS"
  | .raw s => s

/-- The text consists of these elements; with `m` there may be more white space. -/
inductive Rend (m : Bool) : List E → Str → Prop
  | nil : Rend m [] []
  | gap {c us s} : m = true → isBlank c = true → Rend m us s → Rend m us (c :: s)
  | sp {c us s} : isBlank c = true → Rend m us s → Rend m (.sp :: us) (c :: s)
  | tok {u us s} : u ≠ .sp → Rend m us s → Rend m (u :: us) (u.text ++ s)

theorem Rend.append {m : Bool} {us ws : List E} {s t : Str} (h : Rend m us s) (h' : Rend m ws t) : Rend m (us ++ ws) (s ++ t) := by
  induction h with
  | nil => exact h'
  | gap a b _ ih => exact .gap a b ih
  | sp a _ ih => exact .sp a ih
  | tok a _ ih => rw [List.cons_append, List.append_assoc]; exact .tok a ih

theorem Rend.one {m : Bool} {u : E} (h : u ≠ .sp) : Rend m [u] u.text := by simpa using Rend.tok (m := m) h .nil
theorem Rend.gaps {us : List E} {s : Str} (h : Rend true us s) : ∀ {g : Str}, g.all isBlank = true → Rend true us (g ++ s)
  | [], _ => h
  | c :: g, hg => by
    simp only [List.all_cons, Bool.and_eq_true] at hg
    exact .gap rfl hg.1 (h.gaps hg.2)

/-- No element has a line end. -/
def nl (us : List E) : Prop := ∀ u ∈ us, 10 ∉ u.text
theorem nl_append {us ws : List E} : nl (us ++ ws) ↔ nl us ∧ nl ws := by
  simp only [nl, List.mem_append]
  exact ⟨fun h => ⟨fun u hu => h u (.inl hu), fun u hu => h u (.inr hu)⟩, fun h u hu => hu.elim (h.1 u) (h.2 u)⟩

/-! ### Literals -/

/-- Letters. -/
def isLetter (c : Nat) : Bool := (65 ≤ c && c ≤ 90) || (97 ≤ c && c ≤ 122)
/-- A keyword, if not empty. -/
def flush : Str → List E
  | [] => []
  | w => [.kw w]
/-- The elements of a constant text: words, blanks and single characters. -/
def toks (w : Str) : Str → List E
  | [] => flush w
  | c :: s => if isBlank c then flush w ++ .sp :: toks [] s else if isLetter c then toks (w ++ [c]) s else flush w ++ .op [c] :: toks [] s

theorem rend_flush (m : Bool) : ∀ w, Rend m (flush w) w
  | [] => .nil
  | c :: w => Rend.one (u := .kw (c :: w)) (by simp)
theorem rend_toks (m : Bool) : ∀ (s w : Str), Rend m (toks w s) (w ++ s)
  | [], w => by simpa [toks] using rend_flush m w
  | c :: s, w => by
    unfold toks
    split
    · rename_i h
      exact (rend_flush m w).append (.sp h (rend_toks m s []))
    · split
      · have := rend_toks m s (w ++ [c])
        simpa using this
      · exact (rend_flush m w).append (Rend.tok (u := .op [c]) (by simp) (rend_toks m s []))

/-! ### What is written -/

/-- `f'` is `f` after these elements are written. -/
def Adds (m : Bool) (us : List E) (f f' : Fmt) : Prop := (∃ T, f'.out = f.out ++ T ∧ Rend m us T) ∧ SameSettings f f'

/-- The settings that are considered. -/
def Set (m : Bool) (f : Fmt) : Prop := f.beautify = m ∧ f.indent.all isBlank = true
theorem Set.keep {m : Bool} {f f' : Fmt} (h : Set m f) (hs : SameSettings f f') : Set m f' :=
  ⟨hs.beautify.trans h.1, by rw [hs.indent]; exact h.2⟩

theorem Adds.refl {m : Bool} {f : Fmt} : Adds m [] f f := ⟨⟨[], by simp, .nil⟩, .refl f⟩
theorem Adds.trans {m : Bool} {us ws : List E} {f g h : Fmt} (a : Adds m us f g) (b : Adds m ws g h) : Adds m (us ++ ws) f h := by
  obtain ⟨⟨s, h1, h2⟩, h3⟩ := a
  obtain ⟨⟨t, h4, h5⟩, h6⟩ := b
  exact ⟨⟨s ++ t, by rw [h4, h1, List.append_assoc], h2.append h5⟩, h3.trans h6⟩

theorem writeString_compact : ∀ (s : Str) (f : Fmt), f.beautify = false → (f.writeString s).out = f.out ++ s
  | [], f, _ => by simp [Fmt.writeString]
  | b :: s, f, h => by
    have h1 : f.writeString (b :: s) = (f.writeByte b).writeString s := rfl
    rw [h1, writeString_compact s _ ((writeByte_settings f b).1.beautify.trans h)]
    simp [Fmt.writeByte, h]

theorem writeString_start : ∀ (s : Str) (f : Fmt), f.beautify = true → f.lineStart = false → 10 ∉ s → (f.writeString s).out = f.out ++ s
  | [], f, _, _, _ => by simp [Fmt.writeString]
  | b :: s, f, h, hl, hn => by
    have h1 : f.writeString (b :: s) = (f.writeByte b).writeString s := rfl
    have hb : b ≠ 10 := by rintro rfl; simp at hn
    have h2 : f.writeByte b = { f with out := f.out ++ [b] } := by simp [Fmt.writeByte, h, hb, Fmt.writeIndentIfNeeded, hl]
    rw [h1, writeString_start s _ ((writeByte_settings f b).1.beautify.trans h) (by rw [h2]; exact hl) (by intro hm; exact hn (by simp [hm])), h2]
    simp

theorem blanks_replicate {g : Str} (h : g.all isBlank = true) : ∀ n, ((List.replicate n g).flatten).all isBlank = true
  | 0 => by simp
  | n + 1 => by rw [List.replicate_succ, List.flatten_cons, List.all_append, h, blanks_replicate h n]; rfl

theorem adds_string {m : Bool} {us : List E} {s : Str} {f : Fmt} (hf : Set m f) (hr : Rend m us s) (hn : m = true → 10 ∉ s) : Adds m us f (f.writeString s) := by
  refine ⟨?_, (writeString_settings s f).1⟩
  cases m with
  | false => exact ⟨s, writeString_compact s f hf.1, hr⟩
  | true =>
    cases hl : f.lineStart with
    | false => exact ⟨s, writeString_start s f hf.1 hl (hn rfl), hr⟩
    | true =>
      cases s with
      | nil => exact ⟨[], by simp [Fmt.writeString], hr⟩
      | cons b s =>
        have hb : b ≠ 10 := by rintro rfl; simpa using hn rfl
        have h1 : f.writeString (b :: s) = (f.writeByte b).writeString s := rfl
        have h2 : f.writeByte b = { f with out := f.out ++ (List.replicate f.level f.indent).flatten ++ [b], lineStart := false } := by
          simp [Fmt.writeByte, hf.1, hb, Fmt.writeIndentIfNeeded, hl]
        refine ⟨(List.replicate f.level f.indent).flatten ++ (b :: s), ?_, hr.gaps (blanks_replicate hf.2 _)⟩
        rw [h1, writeString_start s _ ((writeByte_settings f b).1.beautify.trans hf.1) (by rw [h2]) (fun h => hn rfl (by simp [h])), h2]
        simp

theorem adds_brk {m : Bool} {f : Fmt} (hf : Set m f) : Adds m [.sp] f f.brk := by
  refine ⟨?_, (brk_settings f).1⟩
  cases m with
  | false => exact ⟨[32], by simp [Fmt.brk, hf.1, Fmt.writeByte], .sp rfl .nil⟩
  | true => exact ⟨[10], by simp [Fmt.brk, Fmt.newLine, hf.1, Fmt.writeByte], .sp rfl .nil⟩
theorem adds_newline {f : Fmt} (hf : Set true f) : Adds true [.sp] f f.newLine :=
  ⟨⟨[10], by simp [Fmt.newLine, hf.1, Fmt.writeByte], .sp rfl .nil⟩, (newLine_settings f).1⟩
theorem adds_incr {m : Bool} {f : Fmt} : Adds m [] f f.incr := ⟨⟨[], by simp [Fmt.incr], .nil⟩, ⟨rfl, rfl⟩⟩
theorem adds_decr {m : Bool} {f : Fmt} : Adds m [] f f.decr := by
  refine ⟨⟨[], ?_, .nil⟩, ?_⟩
  · simp only [Fmt.decr]; split <;> simp
  · simp only [Fmt.decr]; split <;> exact ⟨rfl, rfl⟩

/-- The procedure writes these elements for this value. -/
def CallW (m : Bool) (call : Proc → V → Fmt → Option Fmt) (p : Proc) (v : V) (us : List E) : Prop :=
  ∀ f f', Set m f → (m = true → nl us) → call p v f = some f' → Adds m us f f'

/-- The statements write these elements. -/
def Wr (m : Bool) (call : Proc → V → Fmt → Option Fmt) (c : FCmd) (env : List V) (i n : Nat) (b : Bool) (us : List E) (b' : Bool) : Prop :=
  ∀ f s', Set m f → (m = true → nl us) → c.run call env i n (f, b) = some s' → s'.2 = b' ∧ Adds m us f s'.1

variable {m : Bool} {call : Proc → V → Fmt → Option Fmt} {env : List V} {i n : Nat} {b b' b'' : Bool} {us ws : List E}

theorem wr_skip : Wr m call .skip env i n b [] b := by
  intro f s' _ _ h
  simp only [FCmd.run, Option.some.injEq] at h
  subst h
  exact ⟨rfl, .refl⟩
theorem wr_flag : Wr m call .setFlag env i n b [] true := by
  intro f s' _ _ h
  simp only [FCmd.run, Option.some.injEq] at h
  subst h
  exact ⟨rfl, .refl⟩
theorem wr_indent : Wr m call .indent env i n b [] b := by
  intro f s' _ _ h
  simp only [FCmd.run, Option.some.injEq] at h
  subst h
  exact ⟨rfl, adds_incr⟩
theorem wr_dedent : Wr m call .dedent env i n b [] b := by
  intro f s' _ _ h
  simp only [FCmd.run, Option.some.injEq] at h
  subst h
  exact ⟨rfl, adds_decr⟩
theorem wr_brk : Wr m call .brk env i n b [.sp] b := by
  intro f s' hf _ h
  simp only [FCmd.run, Option.some.injEq] at h
  subst h
  exact ⟨rfl, adds_brk hf⟩
theorem wr_newline : Wr true call .newline env i n b [.sp] b := by
  intro f s' hf _ h
  simp only [FCmd.run, Option.some.injEq] at h
  subst h
  exact ⟨rfl, adds_newline hf⟩
theorem wr_lit {x : Str} (hx : x.contains 10 = false := by decide) : Wr m call (.lit x) env i n b (toks [] x) b := by
  intro f s' hf _ h
  simp only [FCmd.run, Option.some.injEq] at h
  subst h
  exact ⟨rfl, adds_string hf (rend_toks m x []) (fun _ => by simpa using hx)⟩
theorem wr_seq {x y : FCmd} (hx : Wr m call x env i n b us b') (hy : Wr m call y env i n b' ws b'') : Wr m call (.seq x y) env i n b (us ++ ws) b'' := by
  intro f s' hf hn h
  simp only [FCmd.run, Option.bind_eq_some_iff] at h
  obtain ⟨⟨g, c⟩, h1, h2⟩ := h
  obtain ⟨rfl, a⟩ := hx f _ hf (fun hm => (nl_append.1 (hn hm)).1) h1
  obtain ⟨rfl, a'⟩ := hy g _ (hf.keep a.2) (fun hm => (nl_append.1 (hn hm)).2) h2
  exact ⟨rfl, a.trans a'⟩
/-- A text that is written in one element or several. -/
theorem wr_str {r : Ref} {x : Str} (hr : (r.get env).bind V.toStr? = some x) (hx : Rend m us x) (hn : nl us → 10 ∉ x) : Wr m call (.strF r) env i n b us b := by
  intro f s' hf hn' h
  simp only [FCmd.run, hr, Option.map_some, Option.some.injEq] at h
  subst h
  exact ⟨rfl, adds_string hf hx (fun hm => hn (hn' hm))⟩
theorem nl_one {u : E} (h : nl [u]) : 10 ∉ u.text := h u (by simp)
theorem wr_str1 {r : Ref} {u : E} (hu : u ≠ .sp) (hr : (r.get env).bind V.toStr? = some u.text) : Wr m call (.strF r) env i n b [u] b :=
  wr_str hr (.one hu) nl_one
theorem writeString_append (f : Fmt) (s t : Str) : (f.writeString s).writeString t = f.writeString (s ++ t) := by
  simp [Fmt.writeString, List.foldl_append]
/-- A text between quotes. -/
theorem wr_quoted {r : Ref} {q x : Str} {u : E} (hu : u ≠ .sp) (hr : (r.get env).bind V.toStr? = some x) (ht : u.text = q ++ x ++ q) :
    Wr m call (.seq (.lit q) (.seq (.strF r) (.lit q))) env i n b [u] b := by
  intro f s' hf hn' h
  simp only [FCmd.run, hr, Option.map_some, Option.bind_some, Option.some.injEq] at h
  subst h
  refine ⟨rfl, ?_⟩
  simp only [writeString_append]
  rw [show q ++ x ++ q = u.text from ht.symm]
  exact adds_string hf (.one hu) (fun hm => nl_one (hn' hm))
theorem wr_join {r : Ref} {v : V} {sep : Str} {l : List Str} (hv : r.get env = some v) (hl : v.items.mapM V.toStr? = some l)
    (hx : Rend m us (joinStr sep l)) (hn : nl us → 10 ∉ joinStr sep l) :
    Wr m call (.joinF r sep) env i n b us b := by
  intro f s' hf hn' h
  simp only [FCmd.run, hv, hl, Option.map_some, Option.bind_some, Option.some.injEq] at h
  subst h
  exact ⟨rfl, adds_string hf hx (fun hm => hn (hn' hm))⟩
theorem wr_iteT {c : Cond} {x y : FCmd} (hc : c.eval { env := env, idx := i, len := n, beautify := m, flag := b } = some true)
    (hx : Wr m call x env i n b us b') : Wr m call (.ite c x y) env i n b us b' := by
  intro f s' hf hn h
  rw [FCmd.run, hf.1, hc] at h
  exact hx f s' hf hn h
theorem wr_iteF {c : Cond} {x y : FCmd} (hc : c.eval { env := env, idx := i, len := n, beautify := m, flag := b } = some false)
    (hy : Wr m call y env i n b us b') : Wr m call (.ite c x y) env i n b us b' := by
  intro f s' hf hn h
  rw [FCmd.run, hf.1, hc] at h
  exact hy f s' hf hn h
theorem wr_iteU {c : Cond} {x y : FCmd} (hx : Wr m call x env i n b us b') (hy : Wr m call y env i n b us b') : Wr m call (.ite c x y) env i n b us b' := by
  intro f s' hf hn h
  simp only [FCmd.run, Option.bind_eq_some_iff] at h
  obtain ⟨z, _, h⟩ := h
  cases z
  · exact hy f s' hf hn h
  · exact hx f s' hf hn h
theorem wr_exprI {r : Ref} {v : V} {t : Ty} (hv : r.get env = some v) (ht : v.ty? = some t) (hc : CallW m call (.fmt t) v us) :
    Wr m call (.expr r .iface) env i n b us b := by
  intro f s' hf hn h
  simp only [FCmd.run, hv, Option.bind_some] at h
  split at h
  · simp [V.ty?] at ht
  · simp only [Static.dispatch, ht, Option.bind_some, Option.map_eq_some_iff] at h
    obtain ⟨g, h, rfl⟩ := h
    exact ⟨rfl, hc f g hf hn h⟩
theorem wr_exprP {r : Ref} {v : V} {t : Ty} (hv : r.get env = some v) (hc : CallW m call (.fmt t) v us) :
    Wr m call (.expr r (.ptr t)) env i n b us b := by
  intro f s' hf hn h
  simp only [FCmd.run, hv, Option.bind_some, Static.dispatch, Option.map_eq_some_iff] at h
  obtain ⟨g, h, rfl⟩ := h
  exact ⟨rfl, hc f g hf hn h⟩
theorem wr_joinSQL {r : Ref} {v : V} (hv : r.get env = some v) (hc : CallW m call .join v us) : Wr m call (.joinSQL r) env i n b us b := by
  intro f s' hf hn h
  simp only [FCmd.run, hv, Option.bind_some, Option.map_eq_some_iff] at h
  obtain ⟨g, h, rfl⟩ := h
  exact ⟨rfl, hc f g hf hn h⟩

/-- A loop that writes for element `j` the elements `g j`. -/
theorem wr_loop {r : Ref} {v : V} {body : FCmd} {uss : List (List E)} (hv : r.get env = some v)
    (hb : List.Forall₂ (fun (x : Nat × V) us => Wr m call body (env ++ [x.2]) x.1 v.items.length b us b) (v.items.zipIdx.map fun x => (x.2, x.1)) uss) :
    Wr m call (.loop r body) env i n b uss.flatten b := by
  intro f s' hf hn h
  simp only [FCmd.run, hv, Option.bind_some] at h
  have key : ∀ (l : List V) (k : Nat) (uss : List (List E)) (f : Fmt) (s' : Fmt × Bool), Set m f → (m = true → nl uss.flatten) →
      List.Forall₂ (fun (x : Nat × V) us => Wr m call body (env ++ [x.2]) x.1 v.items.length b us b) ((l.zipIdx k).map fun x => (x.2, x.1)) uss →
      loopFmt (fun i item s => body.run call (env ++ [item]) i v.items.length s) k l (f, b) = some s' → s'.2 = b ∧ Adds m uss.flatten f s'.1 := by
    intro l
    induction l with
    | nil =>
      intro k uss f s' _ _ hb h
      simp only [List.zipIdx_nil, List.map_nil] at hb
      cases hb
      simp only [loopFmt, Option.some.injEq] at h
      subst h
      exact ⟨rfl, .refl⟩
    | cons x l ih =>
      intro k uss f s' hf hn hb h
      simp only [List.zipIdx_cons, List.map_cons] at hb
      cases hb with
      | @cons _ us _ uss h1 h2 =>
        simp only [loopFmt, Option.bind_eq_some_iff] at h
        obtain ⟨⟨g, c⟩, h3, h4⟩ := h
        rw [List.flatten_cons] at hn ⊢
        obtain ⟨hc, a⟩ := h1 f _ hf (fun hm => (nl_append.1 (hn hm)).1) h3
        cases hc
        obtain ⟨hc, a'⟩ := ih (k + 1) uss g s' (hf.keep a.2) (fun hm => (nl_append.1 (hn hm)).2) h2 h4
        exact ⟨hc, a.trans a'⟩
  exact key v.items 0 uss f s' hf hn hb h

theorem Wr.cast {c : FCmd} (h : Wr m call c env i n b us b') (e : us = ws) : Wr m call c env i n b ws b' := e ▸ h

/-- The body of a procedure. -/
theorem callW_succ {k : Nat} {p : Proc} {v : V} (h : Wr m (formatF k) p.body [v] 0 0 false us b') : CallW m (formatF (k + 1)) p v us := by
  intro f f' hf hn he
  rw [formatF, Option.map_eq_some_iff] at he
  obtain ⟨s, h1, rfl⟩ := he
  exact (h f s hf hn h1).2
theorem callW_zero {p : Proc} {v : V} : CallW m (formatF 0) p v us := by
  intro f f' hf hn he
  simp [formatF] at he

end Verif.Echo
