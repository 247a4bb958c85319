/-
Lexical grammar of the SQL dialect, written independently of the scanner:
white space by Unicode code points, comments, string bodies, numbers, words and operators.
Nothing here mentions the functions of `Verif.Lexer`.
-/
import Verif.Lexer

namespace Verif.Spec

/-- UTF-8 encoding of a code point below 0x10000. -/
def utf8 (cp : Nat) : Str :=
  if cp < 0x80 then [cp]
  else if cp < 0x800 then [0xC0 + cp / 64, 0x80 + cp % 64]
  else [0xE0 + cp / 4096, 0x80 + cp / 64 % 64, 0x80 + cp % 64]

/-- Unicode `White_Space` code points (what Go's `unicode.IsSpace` accepts). -/
def spaceCodePoints : List Nat :=
  [9, 10, 11, 12, 13, 32, 0x85, 0xA0, 0x1680,
   0x2000, 0x2001, 0x2002, 0x2003, 0x2004, 0x2005, 0x2006, 0x2007, 0x2008, 0x2009, 0x200A,
   0x2028, 0x2029, 0x202F, 0x205F, 0x3000]

/-- One white-space character. -/
def White (w : Str) : Prop := ∃ cp ∈ spaceCodePoints, w = utf8 cp

/-- Text without a line end. -/
def OneLine (b : Str) : Prop := ∀ c ∈ b, c ≠ 10 ∧ c ≠ 13

/-- White space and complete comments, in any order. -/
inductive Gap : Str → Prop
  | nil : Gap []
  | white {w g} : White w → Gap g → Gap (w ++ g)
  | line {b nl g} : OneLine b → (nl = 10 ∨ nl = 13) → Gap g → Gap (b!"--" ++ (b ++ nl :: g))
  | block {b g} : ¬ b!"*/" <:+: b → Gap g → Gap (b!"/*" ++ (b ++ (b!"*/" ++ g)))

/-- What may stand before the end of the input: a gap, or a gap and an unterminated `--` comment. -/
inductive EndGap : Str → Prop
  | gap {g} : Gap g → EndGap g
  | line {g b} : Gap g → OneLine b → EndGap (g ++ (b!"--" ++ b))

/-- A decimal digit. -/
def Digit (c : Nat) : Prop := 48 ≤ c ∧ c ≤ 57
/-- A hexadecimal digit. -/
def HexDigit (c : Nat) : Prop := Digit c ∨ (97 ≤ c ∧ c ≤ 102) ∨ (65 ≤ c ∧ c ≤ 70)
/-- A byte that may start a word: letter or underscore. -/
def WordStart (c : Nat) : Prop := (97 ≤ c ∧ c ≤ 122) ∨ (65 ≤ c ∧ c ≤ 90) ∨ c = 95
/-- A byte of a word: letter, digit, underscore or dollar. -/
def WordPart (c : Nat) : Prop := WordStart c ∨ Digit c ∨ c = 36

/-- A sign, or nothing. -/
def OptSign (s : Str) : Prop := s = [] ∨ s = [43] ∨ s = [45]

/-- Decimal number without sign: digits, optional fraction, optional exponent.
`flt` tells whether it denotes a floating-point value. -/
def Decimal (s : Str) (flt : Bool) : Prop :=
  ∃ d frac exp, s = d ++ frac ++ exp ∧ d ≠ [] ∧ (∀ c ∈ d, Digit c) ∧
    (frac = [] ∨ ∃ f, frac = 46 :: f ∧ ∀ c ∈ f, Digit c) ∧
    (exp = [] ∨ ∃ e sg x, exp = e :: (sg ++ x) ∧ (e = 101 ∨ e = 69) ∧ OptSign sg ∧ x ≠ [] ∧
      ∀ c ∈ x, Digit c) ∧
    (flt = true ↔ frac ≠ [] ∨ exp ≠ [])

/-- Hexadecimal number without sign. -/
def Hex (s : Str) : Prop := ∃ h, s = b!"0x" ++ h ∧ h ≠ [] ∧ ∀ c ∈ h, HexDigit c

/-- Number without sign, with its kind and base. -/
def Number (s : Str) (flt : Bool) (base : Nat) : Prop :=
  (Decimal s flt ∧ base = 10) ∨ (Hex s ∧ flt = false ∧ base = 16)

/-- Body of a string literal: ordinary bytes, backslash escapes and doubled quotes. -/
inductive StrBody : Str → Prop
  | nil : StrBody []
  | plain {c t} : c ≠ 39 → c ≠ 92 → StrBody t → StrBody (c :: t)
  | esc {c t} : StrBody t → StrBody (92 :: c :: t)
  | dbl {t} : StrBody t → StrBody (39 :: 39 :: t)

/-- The first byte of `s`, if any, satisfies `p`. -/
def Starts (p : Nat → Prop) (s : Str) : Prop := ∃ c t, s = c :: t ∧ p c

/-- Kinds of token that end an operand: after them a sign is a binary operator. -/
def EndsOperand (k : Kind) : Prop :=
  k = .ident ∨ k = .keyword ∨ k = .int ∨ k = .float ∨ k = .string ∨ k = .op b!")" ∨ k = .op b!"]"

/-- The previous token (if any) ends an operand. -/
def AfterOperand (prev : Option Token) : Prop := ∃ t, prev = some t ∧ EndsOperand t.kind

/-- Two-byte operators. -/
def twoByteOps : List Str :=
  [b!">=", b!"<=", b!"!=", b!"==", b!"||", b!"<>", b!"->", b!"+>", b!"::"]

/-- Kind of a two-byte operator: its spelling, except that `+>` counts as `->`. -/
def twoByteKind (s : Str) : Kind := if s = b!"+>" then .op b!"->" else .op s

/-- `Lexeme prev lex follow lead t`: the text `lex`, followed by `follow`, is one lexeme in the
context of the previous token `prev`; `t` gives the token's kind, text, base and quote, and
`lead` is the number of delimiter bytes before the token text. -/
inductive Lexeme (prev : Option Token) : Str → Str → Nat → Token → Prop
  | number {n follow flt base p e} :
      Number n flt base → ¬ Starts (fun c => WordPart c ∨ c = 46) follow →
      Lexeme prev n follow 0
        { pos := p, endp := e, kind := if flt then .float else .int, str := n, base := base }
  | signed {s n follow flt base p e} :
      (s = 43 ∨ s = 45) → ¬ AfterOperand prev →
      Number n flt base → ¬ Starts (fun c => WordPart c ∨ c = 46) follow →
      Lexeme prev (s :: n) follow 0
        { pos := p, endp := e, kind := if flt then .float else .int, str := s :: n, base := base }
  | word {c w follow p e} :
      (WordStart c ∨ c = 36) → (∀ d ∈ w, WordPart d) → ¬ Starts WordPart follow →
      Lexeme prev (c :: w) follow 0
        { pos := p, endp := e, str := c :: w, quote := 1,
          kind := if upper (c :: w) ∈ keywordList then .keyword else .ident }
  | backquoted {b follow p e} : 96 ∉ b →
      Lexeme prev (96 :: (b ++ [96])) follow 1
        { pos := p, endp := e, kind := .ident, str := b, quote := 3 }
  | doublequoted {b follow p e} : 34 ∉ b →
      Lexeme prev (34 :: (b ++ [34])) follow 1
        { pos := p, endp := e, kind := .ident, str := b, quote := 2 }
  | string {b follow p e} : StrBody b → ¬ Starts (· = 39) follow →
      Lexeme prev (39 :: (b ++ [39])) follow 1
        { pos := p, endp := e, kind := .string, str := b }
  | op2 {s follow p e} : s ∈ twoByteOps →
      Lexeme prev s follow 0 { pos := p, endp := e, kind := twoByteKind s, str := s }
  | op1 {c follow p e} :
      c < 128 → c ∉ spaceCodePoints → ¬ Digit c → ¬ WordStart c →
      c ≠ 36 → c ≠ 39 → c ≠ 34 → c ≠ 96 →
      (∀ d t, follow = d :: t → [c, d] ∉ twoByteOps ∧ [c, d] ≠ b!"--" ∧ [c, d] ≠ b!"/*") →
      (c = 43 ∨ c = 45 → Starts Digit follow → AfterOperand prev) →
      Lexeme prev [c] follow 0 { pos := p, endp := e, kind := .op [c], str := [c] }

/-- One scan step as the grammar prescribes it: skip a gap, then either the input is exhausted or
a lexeme follows whose token carries the exact span. -/
inductive Step : Lx → Lx → Prop
  | eof {off g prev} : EndGap g → Step ⟨off, g, prev⟩ ⟨off + g.length, [], none⟩
  | token {off g lex follow prev lead t} :
      Gap g → Lexeme prev lex follow lead t →
      t.pos = off + g.length + lead → t.endp = t.pos + t.str.length →
      Step ⟨off, g ++ (lex ++ follow), prev⟩
        ⟨off + g.length + lex.length, follow, some t⟩

end Verif.Spec
