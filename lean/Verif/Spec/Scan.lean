/-
Specifications about whole scans: reachable lexer states, the list of tokens of a text, tilings of
a text by gaps and lexemes, shifting of positions.
-/
import Verif.Spec.Lexical

namespace Verif.Spec

/-- The lexer states that can arise on `input`: scanning on, whether or not scans succeed.
Looking ahead and going back (`peekToken`, saving and restoring the state) only ever lead to
states of this kind. -/
inductive Reach (input : Str) : Lx → Prop
  | start : Reach input (Lx.new input)
  | ok {l l'} : Reach input l → l.consume = .ok l' → Reach input l'
  | err {l l'} : Reach input l → l.consume = .err l' → Reach input l'

/-- `Scan l ts fin`: scanning on from `l` yields the tokens `ts`, and then the end of the input
(`fin = true`) or an error (`fin = false`). -/
inductive Scan : Lx → List Token → Bool → Prop
  | eof {l l'} : l.consume = .ok l' → l'.cur = none → Scan l [] true
  | err {l l'} : l.consume = .err l' → Scan l [] false
  | tok {l l' t ts fin} : l.consume = .ok l' → l'.cur = some t → Scan l' ts fin →
      Scan l (t :: ts) fin

/-- Scanning from `l` reads the tokens `ts` one after the other and arrives at `l'`. -/
inductive Run : Lx → List Token → Lx → Prop
  | nil {l} : Run l [] l
  | tok {l l1 t ts l'} : l.consume = .ok l1 → l1.cur = some t → Run l1 ts l' → Run l (t :: ts) l'

/-- The source text of a token: the token's text itself, or the text between two equal quotes. -/
inductive Covers : Str → Nat → Token → Prop
  | plain {t} : Covers t.str 0 t
  | quoted {q t} : (q = 96 ∨ q = 34 ∨ q = 39) → Covers (q :: (t.str ++ [q])) 1 t

/-- `Tiling E off s ts`: the text `s` standing at offset `off` is an alternation of gaps and the
source texts of the tokens `ts` in order, and what follows the last token satisfies `E`. -/
inductive Tiling (E : Str → Prop) : Nat → Str → List Token → Prop
  | last {off s} : E s → Tiling E off s []
  | token {off g lex lead t rest ts} : Gap g → Covers lex lead t → t.pos = off + g.length + lead →
      t.endp = t.pos + t.str.length →
      Tiling E (off + g.length + lex.length) rest ts →
      Tiling E off (g ++ (lex ++ rest)) (t :: ts)

/-- A token moved `k` bytes to the right. -/
def shiftTok (k : Nat) (t : Token) : Token := { t with pos := t.pos + k, endp := t.endp + k }

/-- Two texts that differ at most in the case of ASCII letters. -/
def SameLetters : Str → Str → Prop
  | [], [] => True
  | a :: s, b :: t =>
      (a = b ∨ (65 ≤ a ∧ a ≤ 90 ∧ b = a + 32) ∨ (65 ≤ b ∧ b ≤ 90 ∧ a = b + 32)) ∧ SameLetters s t
  | _, _ => False

end Verif.Spec
