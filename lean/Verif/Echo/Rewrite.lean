/-
The tokens of the source and the tokens that are written.  No definition here is part of the model.
-/
import Verif.Echo.Lex
import Verif.Spec.Rewrite

namespace Verif.Echo
open Verif.Spec

/-! ### Operators -/

/-- Operators have one or two bytes. -/
def opOk : E → Bool
  | .op k => decide (k.length ≤ 2 ∧ k ≠ [])
  | _ => true
/-- The separators are of this kind. -/
def kOk : K → Bool
  | .l sep => sep.all opOk
  | .o pre => pre.all opOk
  | .p pre => pre.all opOk
  | _ => true

theorem bl_ok (b : Bool) : (bl b).all opOk = true := by cases b <;> rfl
theorem d_ok (b : Bool) : (if b then [E.sp, .kw b!"DISTINCT"] else []).all opOk = true := by cases b <;> rfl

theorem echo_ops {K : K} {v : V} {us : List E} (h : Echo K v us) : kOk K = true → us.all opOk = true := by
  induction h
  case binOp hs _ _ _ _ =>
    intro _
    simp only [opOps, List.mem_cons, List.not_mem_nil, or_false] at hs
    rcases hs with rfl | rfl | rfl | rfl | rfl | rfl | rfl | rfl | rfl | rfl | rfl | rfl | rfl | rfl | rfl <;> simp_all [opOk, kOk]
  case unaryOp hs _ _ =>
    intro _
    simp only [List.mem_cons, List.not_mem_nil, or_false] at hs
    rcases hs with rfl | rfl <;> simp_all [opOk, kOk]
  all_goals (intro _; simp_all [kOk, opOk, -List.all_eq_true, bl_ok, d_ok])

/-! ### Tokens of the source -/

/-- A token of the source: a lexeme in its place. -/
def Src (t : Token) : Prop := ∃ prev lex follow lead, Lexeme prev lex follow lead t

theorem src_of {a : Str} {l : Lx} (h : Reach a l) {t : Token} (ht : l.cur = some t) : Src t := by
  obtain ⟨p, x, d, hl⟩ := reach_lexeme h ht
  exact ⟨p, x, _, d, hl⟩

theorem src_kind {t : Token} (h : Src t) {k : Kind} (hk : k ≠ .eof ∧ ∀ s, k = .op s → s.length ≤ 2 ∧ s ≠ []) (hi : isKind t k) : t.kind = k := by
  obtain ⟨p, x, f, d, hl⟩ := h
  exact kind_toStr (lexeme_kind hl) hk hi

theorem upper_upper (s : Str) : upper (upper s) = upper s := by
  simp only [upper, List.map_map]
  apply List.map_congr_left
  intro c _
  simp only [Function.comp, upperByte, Bool.and_eq_true, decide_eq_true_eq]
  split
  · rw [if_neg (by omega)]
  · rfl

theorem number_unique {n : Str} {f f' : Bool} {b b' : Nat} (h : Number n f b) (h' : Number n f' b') : f = f' ∧ b = b' := by
  have key : ∀ {f b}, Number n f b → Spec.Step ⟨0, n, none⟩ ⟨0 + 0 + n.length, [], some { pos := 0, endp := n.length, kind := if f then .float else .int, str := n, base := b }⟩ := by
    intro f b h
    have := Spec.Step.token (off := 0) (prev := none) .nil (.number (follow := []) (p := 0) (e := n.length) h (not_starts_nil _)) (by simp) (by simp)
    simpa using this
  have e1 := (consume_ok_iff _ _).2 (key h)
  have e2 := (consume_ok_iff _ _).2 (key h')
  rw [e1] at e2
  simp only [LRes.ok.injEq, Lx.mk.injEq, Option.some.injEq, Token.mk.injEq, true_and, and_true] at e2
  obtain ⟨h1, h2⟩ := e2
  refine ⟨?_, h2⟩
  cases f <;> cases f' <;> simp at h1 <;> rfl

/-- Words, as tokens. -/
theorem src_word {t : Token} (h : Src t) (hk : t.kind = .keyword) :
    ∃ c w, t.str = c :: w ∧ (WordStart c ∨ c = 36) ∧ (∀ d ∈ w, WordPart d) ∧ t.base = 0 ∧ t.quote = 1 ∧ upper (c :: w) ∈ keywordList := by
  obtain ⟨p, x, f, d, hl⟩ := h
  cases hl with
  | @number _ _ flt => cases flt <;> simp at hk
  | @signed _ _ _ flt => cases flt <;> simp at hk
  | @word c w _ _ _ h1 h2 h3 =>
    refine ⟨c, w, rfl, h1, h2, rfl, rfl, ?_⟩
    by_contra hn
    simp [hn] at hk
  | backquoted => simp at hk
  | doublequoted => simp at hk
  | string => simp at hk
  | op2 => simp only [twoByteKind] at hk; split at hk <;> cases hk
  | op1 => simp at hk

theorem wordStart_upper {c : Nat} (h : WordStart c ∨ c = 36) : WordStart (upperByte c) ∨ upperByte c = 36 := by
  simp only [WordStart, upperByte, Bool.and_eq_true, decide_eq_true_eq] at *
  split <;> omega
theorem wordPart_upper {c : Nat} (h : WordPart c) : WordPart (upperByte c) := by
  simp only [WordPart, WordStart, Digit, upperByte, Bool.and_eq_true, decide_eq_true_eq] at *
  split <;> omega

theorem word_content {u : E} {t0 : Token} (h : Fits u t0) (hu : (∃ s, u = .kw s) ∨ (∃ s, u = .raw s) ∨ (∃ s, u = .word s 1) ∨ u = .as_) {x : Str} (hx : u.text = x) :
    t0.content = (if upper x ∈ keywordList then .keyword else .ident, x, 0, 1) := by
  subst hx
  cases h with
  | word _ _ ht _ _ hk => rw [ht]; exact hk
  | _ => simp at hu

/-- The token that is written for a token of the source. -/
theorem printed_of {t : Token} (h : Src t) (hr : ∀ k, t.kind = .op k → t.str = k) {u : E} (hu : u.ok t) (hop : opOk u = true) {t0 : Token} (hf : Fits u t0) : Printed t t0 := by
  cases u with
  | sp => exact absurd hu (by simp [E.ok])
  | kw s =>
    obtain ⟨h1, rfl⟩ := hu
    have hk := src_kind h (by simp) h1
    obtain ⟨c, w, e1, _, _, e2, e3, e4⟩ := src_word h hk
    have := word_content hf (.inl ⟨_, rfl⟩) (x := upper t.str) rfl
    rw [if_pos (by rw [upper_upper, e1]; exact e4)] at this
    exact .inr ⟨hk, by rw [this, hk, e2, e3]⟩
  | raw s =>
    obtain ⟨h1, rfl⟩ := hu
    have hk := src_kind h (by simp) h1
    obtain ⟨c, w, e1, _, _, e2, e3, e4⟩ := src_word h hk
    have := word_content hf (.inr (.inl ⟨_, rfl⟩)) e1
    rw [if_pos e4] at this
    exact .inl (by rw [this]; simp [Token.content, hk, e1, e2, e3])
  | as_ =>
    obtain ⟨h1, h2⟩ := hu
    have hk := src_kind h (by simp) h1
    obtain ⟨c, w, e1, _, _, e2, e3, e4⟩ := src_word h hk
    have := word_content hf (.inr (.inr (.inr rfl))) (x := b!"AS") rfl
    have e5 : upper b!"AS" ∈ keywordList := by decide +kernel
    rw [if_pos e5] at this
    exact .inr ⟨hk, by rw [this, hk, h2, e2, e3]⟩
  | op k =>
    simp only [opOk, decide_eq_true_eq] at hop
    have hk := src_kind h (k := .op k) ⟨by simp, fun s hs => by cases hs; exact hop⟩ hu
    have hs := hr k hk
    have hc : t0.content = (.op k, k, 0, 0) := by
      cases hf with
      | word _ _ _ _ hno => exact absurd rfl (hno k)
      | op2 _ _ hc => exact hc
      | op1 _ _ _ _ _ _ _ _ hc => exact hc
    have hbq : t.base = 0 ∧ t.quote = 0 := by
      obtain ⟨p, x, f, d, hl⟩ := h
      cases hl with
      | @number _ _ flt => cases flt <;> simp at hk
      | @signed _ _ _ flt => cases flt <;> simp at hk
      | word => simp only at hk; split at hk <;> cases hk
      | backquoted => simp at hk
      | doublequoted => simp at hk
      | string => simp at hk
      | op2 => exact ⟨rfl, rfl⟩
      | op1 => exact ⟨rfl, rfl⟩
    exact .inl (by rw [hc]; simp [Token.content, hk, hs, hbq])
  | word n q =>
    obtain ⟨h1, rfl, rfl⟩ := hu
    have hk : t.kind = .ident ∨ t.kind = .keyword := h1.imp (src_kind h (by simp)) (src_kind h (by simp))
    obtain ⟨p, x, f, d, hl⟩ := h
    refine .inl ?_
    cases hl with
    | @number _ _ flt => cases flt <;> simp at hk
    | @signed _ _ _ flt => cases flt <;> simp at hk
    | word => exact word_content hf (.inr (.inr (.inl ⟨_, rfl⟩))) rfl
    | backquoted =>
      cases hf with
      | word h1 _ h2 => simp only [E.text, if_true, List.cons.injEq] at h2; obtain ⟨rfl, _⟩ := h2; simp [WordStart] at h1
      | back _ h => exact h
    | doublequoted =>
      cases hf with
      | word h1 _ h2 => simp [E.text] at h2; obtain ⟨rfl, _⟩ := h2; simp [WordStart] at h1
      | dbl _ h => exact h
    | string => simp at hk
    | op2 => simp only [twoByteKind] at hk; split at hk <;> simp at hk
    | op1 => simp at hk
  | num s =>
    obtain ⟨h1, rfl⟩ := hu
    have hk : t.kind = .int ∨ t.kind = .float := h1.imp (src_kind h (by simp)) (src_kind h (by simp))
    obtain ⟨p, x, f, d, hl⟩ := h
    refine .inl ?_
    have digit : ∀ {s n n' flt base}, (s = 43 ∨ s = 45) → Number n' flt base → n' = s :: n → False := by
      intro s n n' flt base hs hn he
      obtain ⟨c, y, rfl, hc⟩ := number_starts hn
      cases he
      simp only [Digit] at hc
      omega
    cases hl with
    | number hn =>
      generalize hg : E.num _ = u at hf
      cases hf with
      | word h1 _ h2 =>
        subst hg
        obtain ⟨c, y, rfl, hc⟩ := number_starts hn
        simp only [E.text, List.cons.injEq] at h2
        obtain ⟨rfl, _⟩ := h2
        simp only [Digit] at hc
        simp only [WordStart] at h1
        omega
      | num hn' hc => cases hg; obtain ⟨rfl, rfl⟩ := number_unique hn hn'; exact hc
      | signed hs hn' hc => cases hg; exact (digit hs hn rfl).elim
      | _ => cases hg
    | signed hs _ hn =>
      generalize hg : E.num _ = u at hf
      cases hf with
      | word h1 _ h2 =>
        subst hg
        simp only [E.text, List.cons.injEq] at h2
        obtain ⟨rfl, _⟩ := h2
        simp only [WordStart] at h1
        omega
      | num hn' hc => cases hg; exact (digit hs hn' rfl).elim
      | signed _ hn' hc => cases hg; obtain ⟨rfl, rfl⟩ := number_unique hn hn'; exact hc
      | _ => cases hg
    | word => simp only at hk; split at hk <;> simp at hk
    | backquoted => simp at hk
    | doublequoted => simp at hk
    | string => simp at hk
    | op2 => simp only [twoByteKind] at hk; split at hk <;> simp at hk
    | op1 => simp at hk
  | str s =>
    obtain ⟨h1, rfl⟩ := hu
    have hk := src_kind h (k := .string) (by simp) h1
    obtain ⟨p, x, f, d, hl⟩ := h
    refine .inl ?_
    cases hl with
    | @number _ _ flt => cases flt <;> simp at hk
    | @signed _ _ _ flt => cases flt <;> simp at hk
    | word => simp only at hk; split at hk <;> cases hk
    | backquoted => simp at hk
    | doublequoted => simp at hk
    | string =>
      cases hf with
      | word h1 _ h2 => simp [E.text] at h2; obtain ⟨rfl, _⟩ := h2; simp [WordStart] at h1
      | str _ hc => exact hc
    | op2 => simp only [twoByteKind] at hk; split at hk <;> cases hk
    | op1 => simp at hk

/-- A number with a sign. -/
theorem signed_of {t : Token} (h : Src t) {s : Nat} {n : Str} (hs : s = 43 ∨ s = 45) (hu : (E.num (s :: n)).ok t) {flt : Bool} {base : Nat} (hn : Number n flt base) :
    (t.kind = .int ∨ t.kind = .float) ∧ t.str = s :: n ∧ t.kind = (if flt then .float else .int) ∧ t.base = base ∧ t.quote = 0 := by
  obtain ⟨h1, h2⟩ := hu
  have hk : t.kind = .int ∨ t.kind = .float := h1.imp (src_kind h (by simp)) (src_kind h (by simp))
  refine ⟨hk, h2, ?_⟩
  obtain ⟨p, x, f, d, hl⟩ := h
  cases hl with
  | number hn' =>
    simp only at h2
    subst h2
    obtain ⟨c, y, he, hc⟩ := number_starts hn'
    cases he
    simp only [Digit] at hc
    omega
  | signed _ _ hn' =>
    simp only [List.cons.injEq] at h2
    obtain ⟨rfl, rfl⟩ := h2
    obtain ⟨rfl, rfl⟩ := number_unique hn hn'
    exact ⟨rfl, rfl, rfl⟩
  | word => simp only at hk; split at hk <;> simp at hk
  | backquoted => simp at hk
  | doublequoted => simp at hk
  | string => simp at hk
  | op2 => simp only [twoByteKind] at hk; split at hk <;> simp at hk
  | op1 => simp at hk

/-- Every element that is read from a token can be written. -/
theorem fits_of {t : Token} (h : Src t) (hr : ∀ k, t.kind = .op k → t.str = k) {u : E} (hu : u.ok t) (hop : opOk u = true) : ∃ t0, Fits u t0 := by
  cases u with
  | sp => exact absurd hu (by simp [E.ok])
  | kw s =>
    obtain ⟨h1, rfl⟩ := hu
    obtain ⟨c, w, e1, e2, e3, _⟩ := src_word h (src_kind h (by simp) h1)
    rw [e1]
    refine ⟨{ pos := 0, endp := 0, str := upperByte c :: upper w, quote := 1, kind := if upper (upperByte c :: upper w) ∈ keywordList then .keyword else .ident }, ?_⟩
    refine .word (wordStart_upper e2) ?_ rfl (by simp) (by simp) rfl
    intro d hd
    simp only [upper, List.mem_map] at hd
    obtain ⟨x, hx, rfl⟩ := hd
    exact wordPart_upper (e3 x hx)
  | raw s =>
    obtain ⟨h1, rfl⟩ := hu
    obtain ⟨c, w, e1, e2, e3, _⟩ := src_word h (src_kind h (by simp) h1)
    rw [e1]
    exact ⟨{ pos := 0, endp := 0, str := c :: w, quote := 1, kind := if upper (c :: w) ∈ keywordList then .keyword else .ident }, .word e2 e3 rfl (by simp) (by simp) rfl⟩
  | as_ =>
    exact ⟨{ pos := 0, endp := 0, str := b!"AS", quote := 1, kind := if upper b!"AS" ∈ keywordList then .keyword else .ident },
      .word (c := 65) (w := [83]) (by simp [WordStart]) (by simp [WordPart, WordStart]) rfl (by simp) (by simp) rfl⟩
  | op k =>
    simp only [opOk, decide_eq_true_eq] at hop
    have hk := src_kind h (k := .op k) ⟨by simp, fun s hs => by cases hs; exact hop⟩ hu
    have hs := hr k hk
    obtain ⟨p, x, f, d, hl⟩ := h
    cases hl with
    | @number _ _ flt => cases flt <;> simp at hk
    | @signed _ _ _ flt => cases flt <;> simp at hk
    | word => simp only at hk; split at hk <;> cases hk
    | backquoted => simp at hk
    | doublequoted => simp at hk
    | string => simp at hk
    | op2 h2 =>
      simp only at hs
      subst hs
      refine ⟨{ pos := 0, endp := 0, str := _, kind := .op _ }, .op2 h2 ?_ rfl⟩
      rintro rfl
      simp [twoByteKind] at hk
    | op1 a1 a2 a3 a4 a5 a6 a7 a8 =>
      simp only at hs
      subst hs
      exact ⟨{ pos := 0, endp := 0, str := _, kind := .op _ }, .op1 a1 a2 a3 a4 a5 a6 a7 a8 rfl⟩
  | word n q =>
    obtain ⟨h1, rfl, rfl⟩ := hu
    have hk : t.kind = .ident ∨ t.kind = .keyword := h1.imp (src_kind h (by simp)) (src_kind h (by simp))
    obtain ⟨p, x, f, d, hl⟩ := h
    cases hl with
    | @number _ _ flt => cases flt <;> simp at hk
    | @signed _ _ _ flt => cases flt <;> simp at hk
    | word e1 e2 => exact ⟨{ pos := 0, endp := 0, str := _, quote := 1, kind := _ }, .word e1 e2 rfl (by simp) (by simp) rfl⟩
    | backquoted e => exact ⟨{ pos := 0, endp := 0, str := _, quote := 3, kind := .ident }, .back e rfl⟩
    | doublequoted e => exact ⟨{ pos := 0, endp := 0, str := _, quote := 2, kind := .ident }, .dbl e rfl⟩
    | string => simp at hk
    | op2 => simp only [twoByteKind] at hk; split at hk <;> simp at hk
    | op1 => simp at hk
  | num s =>
    obtain ⟨h1, rfl⟩ := hu
    have hk : t.kind = .int ∨ t.kind = .float := h1.imp (src_kind h (by simp)) (src_kind h (by simp))
    obtain ⟨p, x, f, d, hl⟩ := h
    cases hl with
    | number hn => exact ⟨{ pos := 0, endp := 0, str := _, base := _, kind := _ }, .num hn rfl⟩
    | signed hs _ hn => exact ⟨{ pos := 0, endp := 0, str := _, base := _, kind := _ }, .signed hs hn rfl⟩
    | word => simp only at hk; split at hk <;> simp at hk
    | backquoted => simp at hk
    | doublequoted => simp at hk
    | string => simp at hk
    | op2 => simp only [twoByteKind] at hk; split at hk <;> simp at hk
    | op1 => simp at hk
  | str s =>
    obtain ⟨h1, rfl⟩ := hu
    have hk := src_kind h (k := .string) (by simp) h1
    obtain ⟨p, x, f, d, hl⟩ := h
    cases hl with
    | @number _ _ flt => cases flt <;> simp at hk
    | @signed _ _ _ flt => cases flt <;> simp at hk
    | word => simp only at hk; split at hk <;> cases hk
    | backquoted => simp at hk
    | doublequoted => simp at hk
    | string e => exact ⟨{ pos := 0, endp := 0, str := _, kind := .string }, .str e rfl⟩
    | op2 => simp only [twoByteKind] at hk; split at hk <;> cases hk
    | op1 => simp at hk

/-! ### From the source to what is written -/

/-- The tokens from the current one to the end. -/
def Toks (l : Lx) (ts : List Token) : Prop :=
  (l.cur = none ∧ ts = []) ∨ ∃ t rest, l.cur = some t ∧ ts = t :: rest ∧ Scan l rest true

theorem Toks.adv {l : Lx} {t : Token} {ts : List Token} (h : Toks l ts) (ht : l.cur = some t) : ∃ rest, ts = t :: rest ∧ Toks l.advance rest := by
  rcases h with ⟨h, _⟩ | ⟨t', rest, h1, rfl, h2⟩
  · rw [h] at ht; cases ht
  · rw [ht] at h1
    cases h1
    refine ⟨rest, rfl, ?_⟩
    cases h2 with
    | eof a b => left; unfold Lx.advance; rw [a]; exact ⟨b, rfl⟩
    | tok a b c => right; unfold Lx.advance; rw [a]; exact ⟨_, _, b, rfl, c⟩

theorem Toks.head {l : Lx} {t : Token} {ts : List Token} (h : Toks l ts) (ht : ts.head? = some t) : l.cur = some t := by
  rcases h with ⟨_, rfl⟩ | ⟨t', rest, h1, rfl, _⟩
  · cases ht
  · cases ht; exact h1

theorem lexed_append {us ws : List E} : ∀ {ts : List Token}, Lexed (us ++ ws) ts → ∃ ts1 ts2, ts = ts1 ++ ts2 ∧ Lexed us ts1 ∧ Lexed ws ts2 := by
  induction us with
  | nil => exact fun h => ⟨[], _, rfl, .nil, h⟩
  | cons u us ih =>
    intro ts h
    rw [List.cons_append] at h
    cases h with
    | sp h => obtain ⟨a, b, rfl, h1, h2⟩ := ih h; exact ⟨a, b, rfl, .sp h1, h2⟩
    | tok hf h => obtain ⟨a, b, rfl, h1, h2⟩ := ih h; exact ⟨_ :: a, b, rfl, .tok hf h1, h2⟩
    | split c1 c2 c3 c4 h => obtain ⟨a, b, rfl, h1, h2⟩ := ih h; exact ⟨_ :: _ :: a, b, rfl, .split c1 c2 c3 c4 h1, h2⟩

theorem reads_reach {a : Str} {l l' : Lx} {us : List E} (h : Reads l us l') : Reach a l → Reach a l' := by
  have adv : ∀ {l}, Reach a l → Reach a l.advance := fun h => reach_next h (next_advance _)
  induction h with
  | nil => exact id
  | sp _ ih => exact ih
  | tok _ _ _ ih => exact fun h => ih (adv h)
  | noAs _ _ _ ih => exact ih
  | comma _ _ _ _ ih => exact fun h => ih (adv h)
  | paren _ _ _ _ _ _ _ ih1 ih2 => exact fun h => ih2 (adv (ih1 (adv h)))
  | using_ _ _ _ _ _ _ _ ih1 ih2 => exact fun h => ih2 (adv (ih1 (adv (adv h))))
  | limit _ _ _ _ _ _ ih1 ih2 ih3 => exact fun h => ih3 (ih2 (adv (ih1 (adv h))))

/-- Constant keywords can be written. -/
theorem fits_kw {s : Str} {c : Nat} {w : Str} (hs : s = c :: w) (hc : WordStart c) (hw : ∀ d ∈ w, WordStart d) : ∃ t, Fits (.kw s) t :=
  ⟨{ pos := 0, endp := 0, str := c :: w, quote := 1, kind := if upper (c :: w) ∈ keywordList then .keyword else .ident },
    .word (.inl hc) (fun d hd => .inl (hw d hd)) hs (by simp) (by simp) rfl⟩

theorem reads_fits {a : Str} {l l' : Lx} {us : List E} (h : Reads l us l') : Reach a l → Clean l → us.all opOk = true →
    Clean l' ∧ ∀ u ∈ us, u ≠ .sp → ∃ t, Fits u t := by
  have adv : ∀ {l}, Reach a l → Reach a l.advance := fun h => reach_next h (next_advance _)
  have kws : ∀ s ∈ [b!"USING", b!"LIMIT", b!"OFFSET", b!"AS"], ∃ t, Fits (.kw s) t := by
    intro s hs
    simp only [List.mem_cons, List.not_mem_nil, or_false] at hs
    rcases hs with rfl | rfl | rfl | rfl <;> exact fits_kw rfl (by simp [WordStart]) (by simp [WordStart])
  induction h with
  | nil => exact fun _ hc _ => ⟨hc, by simp⟩
  | sp _ ih =>
    intro hr hc ho
    simp only [List.all_cons, Bool.and_eq_true] at ho
    obtain ⟨h1, h2⟩ := ih hr hc ho.2
    refine ⟨h1, fun u hu hn => ?_⟩
    rcases List.mem_cons.1 hu with rfl | hu
    · exact absurd rfl hn
    · exact h2 u hu hn
  | tok ht hu _ ih =>
    intro hr hc ho
    simp only [List.all_cons, Bool.and_eq_true] at ho
    obtain ⟨h1, h2⟩ := ih (adv hr) hc.adv ho.2
    refine ⟨h1, fun u hu' hn => ?_⟩
    rcases List.mem_cons.1 hu' with rfl | hu'
    · exact fits_of (src_of hr ht) (hc.reg ht).op hu ho.1
    · exact h2 u hu' hn
  | noAs ht _ _ ih =>
    intro hr hc ho
    simp only [List.all_cons, Bool.and_eq_true] at ho
    obtain ⟨h1, h2⟩ := ih hr hc ho.2
    refine ⟨h1, fun u hu hn => ?_⟩
    rcases List.mem_cons.1 hu with rfl | hu
    · exact ⟨{ pos := 0, endp := 0, str := b!"AS", quote := 1, kind := if upper b!"AS" ∈ keywordList then .keyword else .ident },
        .word (c := 65) (w := [83]) (by simp [WordStart]) (by simp [WordPart, WordStart]) rfl (by simp) (by simp) rfl⟩
    · exact h2 u hu hn
  | comma _ _ _ _ ih => exact fun hr hc ho => ih (adv hr) hc.adv ho
  | paren _ _ _ hr1 _ _ _ ih1 ih2 =>
    intro hr hc ho
    simp only [List.all_append, Bool.and_eq_true] at ho
    obtain ⟨h1, h2⟩ := ih1 (adv hr) hc.adv ho.1
    obtain ⟨h3, h4⟩ := ih2 (adv (reads_reach hr1 (adv hr))) h1.adv ho.2
    refine ⟨h3, fun u hu hn => ?_⟩
    rcases List.mem_append.1 hu with hu | hu
    · exact h2 u hu hn
    · exact h4 u hu hn
  | using_ _ _ _ hr1 _ _ _ ih1 ih2 =>
    intro hr hc ho
    simp only [List.all_append, Bool.and_eq_true] at ho
    obtain ⟨h1, h2⟩ := ih1 (adv (adv hr)) hc.adv.adv ho.1.2
    obtain ⟨h3, h4⟩ := ih2 (adv (reads_reach hr1 (adv (adv hr)))) h1.adv ho.2
    refine ⟨h3, fun u hu hn => ?_⟩
    simp only [List.mem_append, List.mem_cons, List.not_mem_nil, or_false] at hu
    rcases hu with ((rfl | rfl) | hu) | hu
    · exact kws _ (by simp)
    · exact absurd rfl hn
    · exact h2 u hu hn
    · exact h4 u hu hn
  | limit _ hr1 _ _ hr2 _ ih1 ih2 ih3 =>
    intro hr hc ho
    simp only [List.all_append, Bool.and_eq_true] at ho
    obtain ⟨h1, h2⟩ := ih1 (adv hr) hc.adv ho.1.2
    obtain ⟨h3, h4⟩ := ih2 (adv (reads_reach hr1 (adv hr))) h1.adv ho.1.1.1.2
    obtain ⟨h5, h6⟩ := ih3 (reads_reach hr2 (adv (reads_reach hr1 (adv hr)))) h3 ho.2
    refine ⟨h5, fun u hu hn => ?_⟩
    simp only [List.mem_append, List.mem_cons, List.not_mem_nil, or_false] at hu
    rcases hu with ((((rfl | rfl) | hu) | rfl | rfl | rfl) | hu) | hu
    · exact kws _ (by simp)
    · exact absurd rfl hn
    · exact h4 u hu hn
    · exact absurd rfl hn
    · exact kws _ (by simp)
    · exact absurd rfl hn
    · exact h2 u hu hn
    · exact h6 u hu hn

theorem match_spells {a : Str} {l : Lx} (hr : Reach a l) {k : Str} (hk : upper k = k) (h : l.matchKw k = true) : ∃ t, l.cur = some t ∧ Spells t k := by
  obtain ⟨t, ht, h1, h2⟩ := An.matchKw_iff.1 h
  exact ⟨t, ht, src_kind (src_of hr ht) (by simp) h1, by rw [h2, hk]⟩

/-- A constant keyword, as it is read again. -/
theorem lexed_kw {s : Str} {us : List E} {ts : List Token} (hs : upper s = s) (hk : s ∈ keywordList) (h : Lexed (.kw s :: us) ts) :
    ∃ t ts', ts = t :: ts' ∧ t.content = (.keyword, s, 0, 1) ∧ Lexed us ts' := by
  cases h with
  | tok hf h =>
    have := word_content hf (.inl ⟨_, rfl⟩) (x := s) rfl
    rw [hs, if_pos hk] at this
    exact ⟨_, _, rfl, this, h⟩

theorem spells_printed {t u : Token} {k : Str} (h : Src t) (hs : Spells t k) (hu : u.content = (.keyword, k, 0, 1)) : Printed t u := by
  obtain ⟨c, w, e1, _, _, e2, e3, e4⟩ := src_word h hs.1
  exact .inr ⟨hs.1, by rw [hu, hs.1, hs.2, e2, e3]⟩

theorem lexed_sp {us : List E} {ts : List Token} (h : Lexed (.sp :: us) ts) : Lexed us ts := by
  cases h with
  | sp h => exact h
  | tok hf => exact absurd hf fits_sp

/-- What is read from the source, and what is read from the text that is written. -/
theorem reads_rewritten {a : Str} {l l' : Lx} {us : List E} (h : Reads l us l') : Reach a l → Clean l → us.all opOk = true →
    ∀ {ts os}, Toks l ts → Lexed us os → ∃ rest, Toks l' rest ∧ Rewritten ts os rest := by
  have adv : ∀ {l}, Reach a l → Reach a l.advance := fun h => reach_next h (next_advance _)
  induction h with
  | nil =>
    intro _ _ _ ts os ht hl
    cases hl
    exact ⟨ts, ht, .done⟩
  | sp _ ih =>
    intro hr hc ho ts os ht hl
    simp only [List.all_cons, Bool.and_eq_true] at ho
    exact ih hr hc ho.2 ht (lexed_sp hl)
  | tok hcur hu _ ih =>
    intro hr hc ho ts os ht hl
    simp only [List.all_cons, Bool.and_eq_true] at ho
    obtain ⟨ts, rfl, ht'⟩ := ht.adv hcur
    have ht := ht'
    cases hl with
    | sp => exact absurd hu (by simp [E.ok])
    | tok hf hl =>
      obtain ⟨rest, h1, h2⟩ := ih (adv hr) hc.adv ho.2 ht hl
      exact ⟨rest, h1, .keep (printed_of (src_of hr hcur) (hc.reg hcur).op hu ho.1 hf) h2⟩
    | split hs hn h3 h4 hl =>
      obtain ⟨rest, h1, h2⟩ := ih (adv hr) hc.adv ho.2 ht hl
      obtain ⟨e1, e2, e3, e4, e5⟩ := signed_of (src_of hr hcur) hs hu hn
      exact ⟨rest, h1, .sign hs e1 e2 h3 (by rw [h4, e3, e4, e5]) h2⟩
  | noAs hcur hk _ ih =>
    intro hr hc ho ts os ht hl
    simp only [List.all_cons, Bool.and_eq_true] at ho
    obtain ⟨ts', rfl, _⟩ := ht.adv hcur
    cases hl with
    | tok hf hl =>
      obtain ⟨rest, h1, h2⟩ := ih hr hc ho.2 ht hl
      have := word_content hf (.inr (.inr (.inr rfl))) (x := b!"AS") rfl
      have e5 : upper b!"AS" ∈ keywordList := by decide +kernel
      rw [if_pos e5] at this
      exact ⟨rest, h1, .addAs (hk.imp (src_kind (src_of hr hcur) (by simp)) (src_kind (src_of hr hcur) (by simp))) this h2⟩
  | comma hcur hk hcl _ ih =>
    intro hr hc ho ts os ht hl
    obtain ⟨ts, rfl, ht'⟩ := ht.adv hcur
    have ht := ht'
    obtain ⟨rest, h1, h2⟩ := ih (adv hr) hc.adv ho ht hl
    refine ⟨rest, h1, .dropComma (src_kind (src_of hr hcur) (by simp) hk) (fun t' ht' => ?_) h2⟩
    have hcur' := ht.head ht'
    have hsrc := src_of (adv hr) hcur'
    exact (hcl t' hcur').imp (src_kind hsrc (by simp)) (Or.imp (src_kind hsrc (by simp)) (src_kind hsrc (by simp)))
  | paren hcur hk hq hr1 hcur' hk' hr2 ih1 ih2 =>
    intro hr hc ho ts os ht hl
    simp only [List.all_append, Bool.and_eq_true] at ho
    obtain ⟨ts, rfl, ht'⟩ := ht.adv hcur
    have ht := ht'
    obtain ⟨os1, os2, rfl, hl1, hl2⟩ := lexed_append hl
    obtain ⟨ms, h1, h2⟩ := ih1 (adv hr) hc.adv ho.1 ht hl1
    have hcm := (reads_fits hr1 (adv hr) hc.adv ho.1).1
    have hrm := reads_reach hr1 (adv hr)
    obtain ⟨ms, rfl, h1'⟩ := h1.adv hcur'
    have h1 := h1'
    obtain ⟨rest, h3, h4⟩ := ih2 (adv hrm) hcm.adv ho.2 h1 hl2
    have hq' : ∃ q, (∃ r, ts = q :: r) ∧ (Spells q b!"SELECT" ∨ Spells q b!"WITH") := by
      rcases hq with hq | hq
      · obtain ⟨q, h5, h6⟩ := match_spells (adv hr) (by decide +kernel) hq
        obtain ⟨r, rfl, _⟩ := ht.adv h5
        exact ⟨q, ⟨r, rfl⟩, .inl h6⟩
      · obtain ⟨q, h5, h6⟩ := match_spells (adv hr) (by decide +kernel) hq
        obtain ⟨r, rfl, _⟩ := ht.adv h5
        exact ⟨q, ⟨r, rfl⟩, .inr h6⟩
    obtain ⟨q, ⟨r, rfl⟩, hq⟩ := hq'
    exact ⟨rest, h3, .dropParens (src_kind (src_of hr hcur) (by simp) hk) hq h2 (src_kind (src_of hrm hcur') (by simp) hk') h4⟩
  | using_ hq hcur hk hr1 hcur' hk' hr2 ih1 ih2 =>
    intro hr hc ho ts os ht hl
    simp only [List.all_append, Bool.and_eq_true] at ho
    obtain ⟨q, hqc, hqs⟩ := match_spells hr (by decide +kernel) hq
    obtain ⟨ts, rfl, ht'⟩ := ht.adv hqc
    clear ht
    obtain ⟨ts, rfl, ht⟩ := ht'.adv hcur
    simp only [List.append_assoc, List.cons_append, List.nil_append] at hl
    obtain ⟨u, os, rfl, hu, hl⟩ := lexed_kw (by decide +kernel) (by decide +kernel) hl
    obtain ⟨os1, os2, rfl, hl1, hl2⟩ := lexed_append (lexed_sp hl)
    obtain ⟨ms, h1, h2⟩ := ih1 (adv (adv hr)) hc.adv.adv ho.1.2 ht hl1
    have hcm := (reads_fits hr1 (adv (adv hr)) hc.adv.adv ho.1.2).1
    have hrm := reads_reach hr1 (adv (adv hr))
    obtain ⟨ms, rfl, h1'⟩ := h1.adv hcur'
    have h1 := h1'
    obtain ⟨rest, h3, h4⟩ := ih2 (adv hrm) hcm.adv ho.2 h1 hl2
    have := Rewritten.dropUsing hqs (spells_printed (src_of hr hqc) hqs hu) (src_kind (src_of (adv hr) hcur) (by simp) hk) h2
      (src_kind (src_of hrm hcur') (by simp) hk') h4
    exact ⟨rest, h3, this⟩
  | limit hq hr1 hcur hk hr2 hr3 ih1 ih2 ih3 =>
    intro hr hc ho ts os ht hl
    simp only [List.all_append, Bool.and_eq_true] at ho
    obtain ⟨q, hqc, hqs⟩ := match_spells hr (by decide +kernel) hq
    obtain ⟨ts, rfl, ht'⟩ := ht.adv hqc
    have ht := ht'
    simp only [List.append_assoc, List.cons_append, List.nil_append] at hl
    obtain ⟨u, os, rfl, hu, hl⟩ := lexed_kw (by decide +kernel) (by decide +kernel) hl
    obtain ⟨os1, os, rfl, hl1, hl⟩ := lexed_append (lexed_sp hl)
    obtain ⟨o, os, rfl, hoff, hl⟩ := lexed_kw (by decide +kernel) (by decide +kernel) (lexed_sp hl)
    obtain ⟨os2, os3, rfl, hl2, hl3⟩ := lexed_append (lexed_sp hl)
    obtain ⟨ms, h1, h2⟩ := ih1 (adv hr) hc.adv ho.1.2 ht hl2
    have hcm := (reads_fits hr1 (adv hr) hc.adv ho.1.2).1
    have hrm := reads_reach hr1 (adv hr)
    obtain ⟨ms, rfl, h1'⟩ := h1.adv hcur
    have h1 := h1'
    obtain ⟨ks, h3, h4⟩ := ih2 (adv hrm) hcm.adv ho.1.1.1.2 h1 hl1
    have hck := (reads_fits hr2 (adv hrm) hcm.adv ho.1.1.1.2).1
    obtain ⟨rest, h5, h6⟩ := ih3 (reads_reach hr2 (adv hrm)) hck ho.2 h3 hl3
    have := Rewritten.swapLimit hqs (spells_printed (src_of hr hqc) hqs hu) h2 (src_kind (src_of hrm hcur) (by simp) hk) h4 hoff h6
    refine ⟨rest, h5, ?_⟩
    simpa using this

end Verif.Echo
