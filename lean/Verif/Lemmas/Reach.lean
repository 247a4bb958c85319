/- Helper lemmas: invariants of reachable lexer states, shifting, scans. -/
import Verif.Lemmas.Scan
import Verif.Spec.Scan

namespace Verif
open Spec

/-- Offset and unread text belong together, and the current token is an exact slice. -/
def Lx.Inv (input : Str) (l : Lx) : Prop :=
  l.off ≤ input.length ∧ l.rest = input.drop l.off ∧
  ∀ t, l.cur = some t → t.pos ≤ t.endp ∧ t.endp ≤ l.off ∧ t.str = (input.take t.endp).drop t.pos

theorem slice_append (a b c : Str) : ((a ++ (b ++ c)).take (a.length + b.length)).drop a.length = b := by
  rw [← List.append_assoc, ← List.length_append, List.take_left, List.drop_left]

/-- The source text of a lexeme's token. -/
theorem lexeme_covers {prev : Option Token} {lex follow : Str} {lead : Nat} {t : Token}
    (h : Lexeme prev lex follow lead t) : Covers lex lead t := by
  have pl : ∀ (s : Str) (t : Token), t.str = s → Covers s 0 t := by rintro _ t rfl; exact .plain
  have qu : ∀ (q : Nat) (b : Str) (t : Token), (q = 96 ∨ q = 34 ∨ q = 39) → t.str = b →
      Covers (q :: (b ++ [q])) 1 t := by rintro q _ t hq rfl; exact .quoted hq
  cases h with
  | number => exact pl _ _ rfl
  | signed => exact pl _ _ rfl
  | word => exact pl _ _ rfl
  | backquoted => exact qu _ _ _ (Or.inl rfl) rfl
  | doublequoted => exact qu _ _ _ (Or.inr (Or.inl rfl)) rfl
  | string => exact qu _ _ _ (Or.inr (Or.inr rfl)) rfl
  | op2 => exact pl _ _ rfl
  | op1 => exact pl _ _ rfl

theorem lexeme_pos {prev : Option Token} {lex follow : Str} {lead : Nat} {t : Token}
    (h : Lexeme prev lex follow lead t) : 1 ≤ lex.length := by
  cases h with
  | number hn => obtain ⟨c, t, rfl, _⟩ := number_starts hn; simp
  | op2 h => obtain ⟨c, d, rfl⟩ := twoByteOps_len h; simp
  | _ => simp

theorem covers_len {lex : Str} {lead : Nat} {t : Token} (h : Covers lex lead t) :
    lead + t.str.length ≤ lex.length := by
  cases h <;> simp; omega

theorem inv_step {input : Str} {l l' : Lx} (hi : l.Inv input) (h : Step l l') : l'.Inv input := by
  cases h with
  | @eof off g prev he =>
    obtain ⟨h1, h2, _⟩ := hi
    simp only at h1 h2
    have : g.length = input.length - off := by rw [h2]; simp
    refine ⟨by simp only; omega, ?_, by simp⟩
    simp only; symm; rw [List.drop_eq_nil_iff]; omega
  | @token off g lex follow prev lead t hg hl hp he =>
    obtain ⟨h1, h2, _⟩ := hi
    simp only at h1 h2
    have hlen : g.length + (lex.length + follow.length) = input.length - off := by
      have := congrArg List.length h2; simpa using this
    have hin : input = input.take off ++ (g ++ (lex ++ follow)) := by
      rw [h2, List.take_append_drop]
    have hto : (input.take off).length = off := by simp; omega
    have hcov := lexeme_covers hl
    have hcl := covers_len hcov
    refine ⟨by simp only; omega, ?_, ?_⟩
    · simp only
      have : off + g.length + lex.length = (input.take off ++ (g ++ lex)).length := by
        simp only [List.length_append, hto]; omega
      rw [this]
      have hin' : input = (input.take off ++ (g ++ lex)) ++ follow := by
        conv => lhs; rw [hin]
        simp
      generalize input.take off ++ (g ++ lex) = a at hin'
      rw [hin', List.drop_left]
    · intro t' ht'
      simp at ht'; subst ht'
      simp only
      refine ⟨by omega, by omega, ?_⟩
      rw [he, hp]
      cases hcov with
      | plain =>
        have := slice_append (input.take off ++ g) t.str follow
        simp only [List.length_append, hto, Nat.add_zero] at this ⊢
        rw [show input.take off ++ g ++ (t.str ++ follow) = input by
          conv => rhs; rw [hin]
          simp] at this
        exact this.symm
      | @quoted q _ hq =>
        have := slice_append (input.take off ++ g ++ [q]) t.str ([q] ++ follow)
        simp only [List.length_append, hto, List.length_singleton] at this
        rw [show input.take off ++ g ++ [q] ++ (t.str ++ ([q] ++ follow)) = input by
          conv => rhs; rw [hin]
          simp] at this
        exact this.symm

theorem skipCommentsF_le (f : Nat) (r : Str) (h : r.length < f) : (skipCommentsF f r).1 ≤ r.length := by
  cases hs : skipCommentsF f r with
  | mk n e =>
    cases e with
    | false => exact (skipCommentsF_sound f r n h hs).1
    | true => exact Nat.le_of_eq (skipCommentsF_err f r n h hs).1

/-- After an error the offset and the unread text still belong together. -/
theorem scanToken_err {prev : Option Token} {l l' : Lx} {c : Nat} {t : Str}
    (hr : l.rest = c :: t) (h : scanToken prev l c t = .err l') :
    l' = l ∨ l' = l.skipN 1 := by
  have num : consumeNumber l = .err l' → l' = l := by
    intro h
    unfold consumeNumber at h
    simp only [] at h
    split at h
    · simp at h; exact h.symm
    · split at h
      · simp at h; exact h.symm
      · simp at h
  have idt : consumeIdent l = .err l' → l' = l.skipN 1 := by
    intro h
    unfold consumeIdent at h
    rw [hr] at h
    simp only [] at h
    split at h
    · split at h
      · simp at h; exact h.symm
      · simp at h
    · simp at h
  have str : consumeString l = .err l' → l' = l := by
    intro h
    unfold consumeString at h
    split at h
    · simp at h; exact h.symm
    · simp at h
  unfold scanToken at h
  repeat' split at h
  all_goals first
    | (simp [opToken] at h; done)
    | exact Or.inl (num h)
    | exact Or.inr (idt h)
    | exact Or.inl (str h)
    | (simp at h; exact Or.inl h.symm)

theorem drop_inv {input : Str} {l : Lx} (h1 : l.off ≤ input.length) (h2 : l.rest = input.drop l.off)
    {n : Nat} (hn : n ≤ l.rest.length) :
    (l.skipN n).off ≤ input.length ∧ (l.skipN n).rest = input.drop (l.skipN n).off := by
  have hlen := congrArg List.length h2
  simp at hlen
  refine ⟨by simp [Lx.skipN]; omega, ?_⟩
  simp [Lx.skipN, h2]

theorem consume_err_shape {l l' : Lx} (h : l.consume = .err l') :
    l'.cur = none ∧ ∃ n ≤ l.rest.length, l'.off = l.off + n ∧ l'.rest = l.rest.drop n := by
  unfold Lx.consume at h
  have hle := skipCommentsF_le (l.rest.length + 1) l.rest (by omega)
  cases hs : skipCommentsLen l.rest with
  | mk n e =>
    have hn : n ≤ l.rest.length := by
      have : skipCommentsF (l.rest.length + 1) l.rest = (n, e) := hs
      rw [this] at hle; exact hle
    rw [hs] at h
    simp only [] at h
    split at h
    · simp at h; subst h
      exact ⟨rfl, n, hn, rfl, rfl⟩
    · have hsp := spaceLen_le (l.rest.drop n)
      simp at hsp
      split at h
      · simp at h
      · next c t hct =>
        simp only [Lx.skipN, List.drop_drop] at hct
        have hlt := congrArg List.length hct
        simp at hlt
        rcases scanToken_err (by simpa [Lx.skipN] using hct) h with rfl | rfl
        · exact ⟨rfl, n + spaceLen (l.rest.drop n), by omega, by simp [Lx.skipN]; omega,
            by simp [Lx.skipN]⟩
        · exact ⟨rfl, n + spaceLen (l.rest.drop n) + 1, by omega, by simp [Lx.skipN]; omega,
            by simp [Lx.skipN]⟩

theorem inv_err {input : Str} {l l' : Lx} (hi : l.Inv input) (h : l.consume = .err l') :
    l'.Inv input := by
  obtain ⟨h1, h2, _⟩ := hi
  obtain ⟨hc, n, hn, ho, hr⟩ := consume_err_shape h
  have hlen := congrArg List.length h2
  simp at hlen
  refine ⟨by omega, ?_, by simp [hc]⟩
  rw [hr, h2, ho, List.drop_drop]

theorem reach_inv {input : Str} {l : Lx} (h : Reach input l) : l.Inv input := by
  induction h with
  | start => exact ⟨by simp [Lx.new], by simp [Lx.new], by simp [Lx.new]⟩
  | ok _ h ih => exact inv_step ih ((consume_ok_iff _ _).1 h)
  | err _ h ih => exact inv_err ih h

/-- What a successful scan does to offset and unread text. -/
theorem consume_ok_shape {l l' : Lx} (h : l.consume = .ok l') :
    (∃ n ≤ l.rest.length, l'.off = l.off + n ∧ l'.rest = l.rest.drop n) ∧
    (l'.cur = none → l'.rest = []) ∧
    (∀ t, l'.cur = some t → l.off < l'.off ∧ l.off ≤ t.pos ∧ t.pos ≤ t.endp ∧ t.endp ≤ l'.off ∧
      t.pos < l'.off) := by
  rw [consume_ok_iff] at h
  cases h with
  | eof => exact ⟨⟨_, Nat.le_refl _, rfl, by simp⟩, by simp, by simp⟩
  | @token off g lex follow prev lead t hg hl hp he =>
    refine ⟨⟨g.length + lex.length, by simp, by simp; omega, ?_⟩, by simp, ?_⟩
    · simp only
      rw [← List.length_append, ← List.append_assoc, List.drop_left]
    · intro t' ht; simp at ht; subst ht
      have h1 := lexeme_pos hl
      have h2 := covers_len (lexeme_covers hl)
      simp only
      refine ⟨by omega, by omega, by omega, by omega, ?_⟩
      cases lexeme_covers hl with
      | plain => omega
      | quoted => simp; omega

/-! shifting -/

/-- A lexer state moved `k` bytes to the right. -/
def Lx.shift (k : Nat) (l : Lx) : Lx := { l with off := l.off + k, cur := l.cur.map (shiftTok k) }

theorem consume_prev {o : Nat} {r : Str} {c c' : Option Token}
    (h : hasPrecedenceToken c = hasPrecedenceToken c') :
    Lx.consume ⟨o, r, c⟩ = Lx.consume ⟨o, r, c'⟩ := by
  simp only [Lx.consume, Lx.skipN]
  split
  · rfl
  · split
    · rfl
    · simp only [scanToken, h]

theorem consumeNumber_shift (k : Nat) (o : Nat) (r : Str) :
    consumeNumber ⟨o + k, r, none⟩ = (match consumeNumber ⟨o, r, none⟩ with
      | .ok l => LRes.ok (l.shift k)
      | .err l => .err (l.shift k)) := by
  unfold consumeNumber
  simp only []
  split
  · rfl
  · split
    · rfl
    · simp [Lx.skipN, Lx.shift, shiftTok]; omega

theorem consumeIdent_shift (k : Nat) (o : Nat) (r : Str) :
    consumeIdent ⟨o + k, r, none⟩ = (match consumeIdent ⟨o, r, none⟩ with
      | .ok l => LRes.ok (l.shift k)
      | .err l => .err (l.shift k)) := by
  unfold consumeIdent
  simp only []
  split
  · split
    · split
      · simp [Lx.skipN, Lx.shift]; omega
      · simp [Lx.skipN, Lx.shift, shiftTok]; omega
    · simp [Lx.skipN, Lx.shift, shiftTok]; omega
  · simp [Lx.shift, shiftTok]

theorem consumeString_shift (k : Nat) (o : Nat) (r : Str) :
    consumeString ⟨o + k, r, none⟩ = (match consumeString ⟨o, r, none⟩ with
      | .ok l => LRes.ok (l.shift k)
      | .err l => .err (l.shift k)) := by
  unfold consumeString
  simp only []
  split
  · rfl
  · simp [Lx.skipN, Lx.shift, shiftTok]; omega

/-- The outcome of a scan, moved. -/
def LRes.shift (k : Nat) : LRes → LRes
  | .ok l => .ok (l.shift k)
  | .err l => .err (l.shift k)

theorem scanToken_shift (prev : Option Token) (k o : Nat) (r : Str) (c : Nat) (t : Str) :
    scanToken prev ⟨o + k, r, none⟩ c t = (scanToken prev ⟨o, r, none⟩ c t).shift k := by
  have op : ∀ n kd, opToken ⟨o + k, r, none⟩ n kd = (opToken ⟨o, r, none⟩ n kd).shift k := by
    intro n kd; simp [opToken, LRes.shift, Lx.shift, Lx.skipN, shiftTok]; omega
  have e1 := consumeNumber_shift k o r
  have e2 := consumeIdent_shift k o r
  have e3 := consumeString_shift k o r
  unfold scanToken
  repeat' split
  all_goals first
    | exact op _ _
    | (rw [e1]; cases consumeNumber ⟨o, r, none⟩ <;> rfl)
    | (rw [e2]; cases consumeIdent ⟨o, r, none⟩ <;> rfl)
    | (rw [e3]; cases consumeString ⟨o, r, none⟩ <;> rfl)
    | rfl

theorem consume_shift (k o : Nat) (r : Str) (c : Option Token) :
    Lx.consume ⟨o + k, r, c⟩ = (Lx.consume ⟨o, r, c⟩).shift k := by
  simp only [Lx.consume, Lx.skipN]
  split
  · simp [LRes.shift, Lx.shift]; omega
  · have e : ∀ n m, o + k + n + m = (o + n + m) + k := by intros; omega
    simp only [e]
    split
    · rfl
    · exact scanToken_shift _ _ _ _ _ _

theorem consume_gap {g : Str} (hg : Gap g) (o : Nat) (r : Str) (c : Option Token) :
    Lx.consume ⟨o, g ++ r, c⟩ = Lx.consume ⟨o + g.length, r, c⟩ := by
  simp only [Lx.consume, Lx.skipN, skipCommentsLen_gap hg]
  have hd : ∀ n, (g ++ r).drop (g.length + n) = r.drop n := by
    intro n; rw [← List.drop_drop, List.drop_left]
  simp only [hd, Nat.add_assoc]

/-! complete scans -/

theorem scan_exists (n : Nat) : ∀ l : Lx, l.rest.length < n → ∃ ts fin, Scan l ts fin := by
  induction n with
  | zero => intro l h; omega
  | succ n ih =>
    intro l h
    cases hc : l.consume with
    | err l' => exact ⟨[], false, .err hc⟩
    | ok l' =>
      cases ht : l'.cur with
      | none => exact ⟨[], true, .eof hc ht⟩
      | some t =>
        obtain ⟨⟨m, hm, ho, hr⟩, _, hp⟩ := consume_ok_shape hc
        have := hp t ht
        obtain ⟨ts, fin, hs⟩ := ih l' (by rw [hr]; simp; omega)
        exact ⟨t :: ts, fin, .tok hc ht hs⟩

theorem scan_unique {l : Lx} {ts ts' : List Token} {fin fin' : Bool} (h : Scan l ts fin)
    (h' : Scan l ts' fin') : ts = ts' ∧ fin = fin' := by
  induction h generalizing ts' fin' with
  | eof h1 h2 =>
    cases h' with
    | eof => exact ⟨rfl, rfl⟩
    | err h3 => rw [h1] at h3; simp at h3
    | tok h3 h4 => rw [h1] at h3; simp at h3; subst h3; rw [h2] at h4; simp at h4
  | err h1 =>
    cases h' with
    | eof h3 => rw [h1] at h3; simp at h3
    | err h3 => exact ⟨rfl, rfl⟩
    | tok h3 h4 => rw [h1] at h3; simp at h3
  | tok h1 h2 _ ih =>
    cases h' with
    | eof h3 h4 => rw [h1] at h3; simp at h3; subst h3; rw [h2] at h4; simp at h4
    | err h3 => rw [h1] at h3; simp at h3
    | tok h3 h4 h5 =>
      rw [h1] at h3; simp at h3; subst h3; rw [h2] at h4; simp at h4; subst h4
      obtain ⟨rfl, rfl⟩ := ih h5
      exact ⟨rfl, rfl⟩

theorem scan_bounds {l : Lx} {ts : List Token} {fin : Bool} (h : Scan l ts fin) :
    ts.length ≤ l.rest.length ∧ (∀ t ∈ ts, l.off ≤ t.pos ∧ t.pos ≤ t.endp) ∧
    ts.Pairwise (fun a b => a.pos < b.pos ∧ a.endp ≤ b.pos) := by
  induction h with
  | eof => simp
  | err => simp
  | tok h1 h2 _ ih =>
    obtain ⟨i1, i2, i3⟩ := ih
    obtain ⟨⟨m, hm, ho, hr⟩, _, hp⟩ := consume_ok_shape h1
    have := hp _ h2
    rw [hr] at i1
    simp at i1
    refine ⟨by simp; omega, ?_, ?_⟩
    · intro t ht
      rcases List.mem_cons.1 ht with rfl | ht
      · omega
      · have := i2 t ht; omega
    · rw [List.pairwise_cons]
      refine ⟨fun b hb => ?_, i3⟩
      have := i2 b hb; omega

theorem scan_tiling {l : Lx} {ts : List Token} {fin : Bool} (h : Scan l ts fin) :
    Tiling (fun s => fin = true → EndGap s) l.off l.rest ts := by
  induction h with
  | eof h1 h2 =>
    rw [consume_ok_iff] at h1
    cases h1 with
    | eof he => exact .last (fun _ => he)
    | token => simp at h2
  | err => exact .last (by simp)
  | tok h1 h2 _ ih =>
    rw [consume_ok_iff] at h1
    cases h1 with
    | eof => simp at h2
    | token hg hl hp he =>
      simp at h2; subst h2
      exact .token hg (lexeme_covers hl) hp he ih

/-- The complete scan as a function (used to exhibit concrete scans; not part of the model). -/
def scanList : Nat → Lx → List Token × Bool
  | 0, _ => ([], false)
  | n + 1, l => match l.consume with
    | .err _ => ([], false)
    | .ok l' => match l'.cur with
      | none => ([], true)
      | some t => (t :: (scanList n l').1, (scanList n l').2)

theorem scanList_scan (n : Nat) : ∀ l : Lx, l.rest.length < n →
    Scan l (scanList n l).1 (scanList n l).2 := by
  induction n with
  | zero => intro l h; omega
  | succ n ih =>
    intro l h
    cases hc : l.consume with
    | err l' => simp only [scanList, hc]; exact .err hc
    | ok l' =>
      cases ht : l'.cur with
      | none => simp only [scanList, hc, ht]; exact .eof hc ht
      | some t =>
        obtain ⟨⟨m, hm, ho, hr⟩, _, hp⟩ := consume_ok_shape hc
        have := hp t ht
        simp only [scanList, hc, ht]
        exact .tok hc ht (ih l' (by rw [hr]; simp; omega))

/-- The complete scan of a text. -/
def scanText (s : Str) : List Token × Bool := scanList (s.length + 1) (Lx.new s)

theorem scanText_scan (s : Str) : Scan (Lx.new s) (scanText s).1 (scanText s).2 :=
  scanList_scan _ _ (by simp [Lx.new])

/-- To exhibit the texts of the tokens of a concrete input. -/
theorem scan_example {s : Str} {strs : List Str} {fin : Bool}
    (h : ((scanText s).1.map (·.str), (scanText s).2) = (strs, fin)) :
    ∃ ts, Scan (Lx.new s) ts fin ∧ ts.map (·.str) = strs := by
  simp only [Prod.mk.injEq] at h
  exact ⟨_, h.2 ▸ scanText_scan s, h.1⟩

/-! insertion of white space between tokens -/

theorem white_first {w : Str} (hw : White w) :
    ∃ d t, w = d :: t ∧ (d ≤ 32 ∨ 128 ≤ d) ∧ ¬ WordPart d ∧ ¬ Digit d ∧ d ≠ 46 ∧ d ≠ 39 := by
  obtain ⟨cp, hcp, rfl⟩ := hw
  simp only [spaceCodePoints, List.mem_cons, List.not_mem_nil, or_false] at hcp
  rcases hcp with rfl | rfl | rfl | rfl | rfl | rfl | rfl | rfl | rfl | rfl | rfl | rfl | rfl | rfl |
    rfl | rfl | rfl | rfl | rfl | rfl | rfl | rfl | rfl | rfl | rfl <;>
  exact ⟨_, _, rfl, by simp, by simp [WordPart, WordStart, Digit], by simp [Digit], by simp, by simp⟩

/-- A lexeme stays the same lexeme if what follows it keeps its first byte, or now begins with
white space. -/
theorem lexeme_follow {prev : Option Token} {lex f f' : Str} {lead : Nat} {t : Token}
    (h : Lexeme prev lex f lead t)
    (hf : f'.head? = f.head? ∨ ∃ w r, White w ∧ f' = w ++ r) : Lexeme prev lex f' lead t := by
  have hst : ∀ (P : Nat → Prop), (∀ w, White w → ¬ Starts P w) → ¬ Starts P f → ¬ Starts P f' := by
    intro P hP hPf
    rcases hf with hf | ⟨w, r, hw, rfl⟩
    · rintro ⟨c, t, rfl, hc⟩
      cases f with
      | nil => simp at hf
      | cons d f => simp at hf; subst hf; exact hPf ⟨c, f, rfl, hc⟩
    · rintro ⟨c, t, h, hc⟩
      obtain ⟨d, t', rfl, _⟩ := white_first hw
      simp at h
      exact hP _ hw ⟨d, t', rfl, by rw [h.1]; exact hc⟩
  have wp : ∀ w, White w → ¬ Starts WordPart w := by
    intro w hw; obtain ⟨d, t, rfl, _, h2, _⟩ := white_first hw
    rw [starts_cons]; exact h2
  have wn : ∀ w, White w → ¬ Starts (fun c => WordPart c ∨ c = 46) w := by
    intro w hw; obtain ⟨d, t, rfl, _, h2, _, h3, _⟩ := white_first hw
    rw [starts_cons]; exact fun h => h.elim h2 h3
  have ws : ∀ w, White w → ¬ Starts (· = 39) w := by
    intro w hw; obtain ⟨d, t, rfl, _, _, _, _, h3⟩ := white_first hw
    rw [starts_cons]; exact h3
  cases h with
  | number h1 h2 => exact .number h1 (hst _ wn h2)
  | signed h1 h2 h3 h4 => exact .signed h1 h2 h3 (hst _ wn h4)
  | word h1 h2 h3 => exact .word h1 h2 (hst _ wp h3)
  | backquoted h => exact .backquoted h
  | doublequoted h => exact .doublequoted h
  | string h1 h2 => exact .string h1 (hst _ ws h2)
  | op2 h => exact .op2 h
  | @op1 c _ p e h1 h2 h3 h4 h5 h6 h7 h8 h9 h10 =>
    refine .op1 h1 h2 h3 h4 h5 h6 h7 h8 ?_ ?_
    · rintro d t rfl
      rcases hf with hf | ⟨w, r, hw, hf⟩
      · cases f with
        | nil => simp at hf
        | cons d' f => simp at hf; subst hf; exact h9 _ _ rfl
      · obtain ⟨d', t', rfl, hd, _⟩ := white_first hw
        simp at hf
        obtain ⟨rfl, -⟩ := hf
        refine ⟨by rw [twoByteOps_iff]; omega, by simp; omega, by simp; omega⟩
    · rintro hc ⟨d, t, rfl, hd⟩
      rcases hf with hf | ⟨w, r, hw, hf⟩
      · cases f with
        | nil => simp at hf
        | cons d' f => simp at hf; subst hf; exact h10 hc ⟨_, _, rfl, hd⟩
      · obtain ⟨d', t', rfl, _, _, hd', _⟩ := white_first hw
        simp at hf
        obtain ⟨rfl, -⟩ := hf
        exact absurd hd hd'

theorem run_scan {l l' : Lx} {ts ts' : List Token} {fin : Bool} (h : Run l ts l')
    (h' : Scan l' ts' fin) : Scan l (ts ++ ts') fin := by
  induction h with
  | nil => exact h'
  | tok h1 h2 _ ih => exact .tok h1 h2 (ih h')

theorem run_shape {l l' : Lx} {ts : List Token} (h : Run l ts l') :
    ∃ a, l.rest = a ++ l'.rest ∧ l'.off = l.off + a.length := by
  induction h with
  | nil => exact ⟨[], rfl, rfl⟩
  | @tok l l1 t ts l' h1 _ _ ih =>
    obtain ⟨a, ha, hb⟩ := ih
    obtain ⟨⟨n, hn, ho, hr⟩, _, _⟩ := consume_ok_shape h1
    refine ⟨l.rest.take n ++ a, ?_, ?_⟩
    · rw [List.append_assoc, ← ha, hr, List.take_append_drop]
    · rw [hb, ho]; simp; omega

theorem scan_shift (k : Nat) {l : Lx} {ts : List Token} {fin : Bool} (h : Scan l ts fin) :
    Scan (l.shift k) (ts.map (shiftTok k)) fin := by
  have key : ∀ l : Lx, (l.shift k).consume = l.consume.shift k := by
    intro l
    have e : hasPrecedenceToken (l.cur.map (shiftTok k)) = hasPrecedenceToken l.cur := by
      cases l.cur <;> rfl
    show Lx.consume ⟨l.off + k, l.rest, _⟩ = _
    rw [consume_prev e, consume_shift]
  induction h with
  | eof h1 h2 =>
    refine .eof (l' := Lx.shift k _) (by rw [key, h1]; rfl) (by simp [Lx.shift, h2])
  | err h1 => exact .err (l' := Lx.shift k _) (by rw [key, h1]; rfl)
  | tok h1 h2 _ ih =>
    exact .tok (l' := Lx.shift k _) (by rw [key, h1]; rfl) (by simp [Lx.shift, h2]) ih

theorem scan_gap {g : Str} (hg : Gap g) {o : Nat} {r : Str} {c : Option Token} {ts : List Token}
    {fin : Bool} (h : Scan ⟨o, r, c⟩ ts fin) : Scan ⟨o, g ++ r, c⟩ (ts.map (shiftTok g.length)) fin := by
  have h' := scan_shift g.length h
  have e : hasPrecedenceToken (c.map (shiftTok g.length)) = hasPrecedenceToken c := by
    cases c <;> rfl
  have hc : Lx.consume ⟨o, g ++ r, c⟩ = (Lx.shift g.length ⟨o, r, c⟩).consume := by
    rw [consume_gap hg]
    exact (consume_prev e).symm
  generalize Lx.shift g.length ⟨o, r, c⟩ = m at h' hc
  generalize ts.map (shiftTok g.length) = ts' at h'
  cases h' with
  | eof h1 h2 => exact .eof (hc.trans h1) h2
  | err h1 => exact .err (hc.trans h1)
  | tok h1 h2 h3 => exact .tok (hc.trans h1) h2 h3

theorem run_insert {w : Str} (hw : White w) (g : Str) {l l' : Lx} {ts : List Token} (h : Run l ts l') :
    ∀ a, l.rest = a ++ l'.rest →
      Run { l with rest := a ++ ((w ++ g) ++ l'.rest) } ts { l' with rest := (w ++ g) ++ l'.rest } := by
  induction h with
  | @nil l =>
    intro a ha
    have : a = [] := by
      have := congrArg List.length ha; simp at this; exact this
    subst this; exact .nil
  | @tok l l1 t ts l' h1 h2 hrun ih =>
    intro a ha
    obtain ⟨b, hb, _⟩ := run_shape hrun
    rw [consume_ok_iff] at h1
    cases h1 with
    | eof => simp at h2
    | @token off gg lex follow prev lead t' hg hl hp he =>
      simp only [] at h2 ha ih hb hrun
      obtain rfl : t' = t := by simpa using h2
      have hab : a = gg ++ (lex ++ b) := by
        rw [hb] at ha
        have : a ++ l'.rest = (gg ++ (lex ++ b)) ++ l'.rest := by rw [← ha]; simp
        exact (List.append_cancel_right this)
      have ihb := ih b hb
      refine .tok (l1 := ⟨off + gg.length + lex.length, b ++ ((w ++ g) ++ l'.rest), some t'⟩) ?_ rfl ihb
      rw [consume_ok_iff, hab]
      have hl' : Lexeme prev lex (b ++ ((w ++ g) ++ l'.rest)) lead t' := by
        refine lexeme_follow hl ?_
        cases b with
        | nil => exact Or.inr ⟨w, g ++ l'.rest, hw, by simp⟩
        | cons d b => left; rw [hb]; rfl
      have := Step.token (off := off) hg hl' hp he
      simpa using this

end Verif
