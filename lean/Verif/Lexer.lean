/-
Model of `parser/lexer.go`.

Representation: the Go lexer keeps `input` and `offset` and reads `input[offset+i]`.  Here the
state keeps `offset` and the unread suffix `rest = input[offset:]`; `peekOk(i)`/`peekN(i)` become
inspection of `rest`.  That the two belong together is the invariant `Lx.Inv`, proved to hold in
every reachable state (`Verif.Props.Lexer`).
-/
import Verif.Keyword

namespace Verif

/-- `TokenKind`, parser/lexer.go:11-48, 58.  A Go `TokenKind` is a string; the named classes
`<eof>`, `<ident>`, ... are constructors here, every other kind is its own spelling. -/
inductive Kind where
  | eof | ident | keyword | int | float | string
  | op (s : Str)
deriving DecidableEq, Repr

namespace Kind
/-- parser/lexer.go:18 -/ def dot : Kind := .op b!"."
/-- parser/lexer.go:19 -/ def singleEQ : Kind := .op b!"="
/-- parser/lexer.go:20 -/ def doubleEQ : Kind := .op b!"=="
/-- parser/lexer.go:21 -/ def ne : Kind := .op b!"!="
/-- parser/lexer.go:22 -/ def lt : Kind := .op b!"<"
/-- parser/lexer.go:23 -/ def le : Kind := .op b!"<="
/-- parser/lexer.go:24 -/ def gt : Kind := .op b!">"
/-- parser/lexer.go:25 -/ def ge : Kind := .op b!">="
/-- the literal `"<>"`, parser/parser_column.go:65 -/ def ltgt : Kind := .op b!"<>"
/-- parser/lexer.go:26 -/ def question : Kind := .op b!"?"
/-- parser/lexer.go:28 -/ def plus : Kind := .op b!"+"
/-- parser/lexer.go:29 -/ def minus : Kind := .op b!"-"
/-- parser/lexer.go:30 -/ def mul : Kind := .op b!"*"
/-- parser/lexer.go:31 -/ def div : Kind := .op b!"/"
/-- parser/lexer.go:32 -/ def mod : Kind := .op b!"%"
/-- parser/lexer.go:33 -/ def concat : Kind := .op b!"||"
/-- parser/lexer.go:35 -/ def arrow : Kind := .op b!"->"
/-- parser/lexer.go:36 -/ def dash : Kind := .op b!"::"
/-- parser/lexer.go:38 -/ def lparen : Kind := .op b!"("
/-- parser/lexer.go:39 -/ def rparen : Kind := .op b!")"
/-- parser/lexer.go:40 -/ def lbrace : Kind := .op b!"{"
/-- parser/lexer.go:41 -/ def rbrace : Kind := .op b!"}"
/-- parser/lexer.go:42 -/ def lbracket : Kind := .op b!"["
/-- parser/lexer.go:43 -/ def rbracket : Kind := .op b!"]"
/-- parser/lexer.go:45 -/ def comma : Kind := .op b!","
/-- parser/lexer.go:46 -/ def colon : Kind := .op b!":"
/-- parser/lexer.go:47 -/ def atSign : Kind := .op b!"@"
/-- the literal `";"`, parser/parser_column.go:487 -/ def semicolon : Kind := .op b!";"

/-- The Go string behind a kind (parser/lexer.go:12-17 for the named classes). -/
def toStr : Kind → Str
  | eof => b!"<eof>"
  | ident => b!"<ident>"
  | keyword => b!"<keyword>"
  | int => b!"<int>"
  | float => b!"<float>"
  | string => b!"<string>"
  | op s => s
end Kind

/-- Quote types, parser/lexer.go:50-55 (`iota + 1`); 0 is Go's zero value. -/
def qUnquoted : Nat := 1
/-- parser/lexer.go:52 -/
def qDouble : Nat := 2
/-- parser/lexer.go:53 -/
def qBack : Nat := 3
/-- parser/lexer.go:54 -/
def qSingle : Nat := 4

/-- `Token`, parser/lexer.go:60-68. -/
structure Token where
  pos : Nat
  endp : Nat
  kind : Kind
  str : Str
  base : Nat := 0
  quote : Nat := 0
deriving DecidableEq, Repr

/-- `(*Token).ToString`, parser/lexer.go:70-75. -/
def Token.toStr (t : Token) : Str := if t.kind = .keyword then upper t.str else t.str

/-- `Lexer`, parser/lexer.go:77-86: `offset`, `currentToken`, and the unread suffix
`input[offset:]` in place of `input`. -/
structure Lx where
  off : Nat
  rest : Str
  cur : Option Token
deriving DecidableEq, Repr

/-- Result of `consumeToken`: the new state, and whether an error was returned.  The error text
is not modelled. -/
inductive LRes where
  | ok (l : Lx)
  | err (l : Lx)
deriving DecidableEq, Repr

namespace Lx

/-- `NewLexer`, parser/lexer.go:88-90. -/
def new (input : Str) : Lx := ⟨0, input, none⟩

/-- `skipN`, parser/lexer.go:100-102. -/
def skipN (l : Lx) (n : Nat) : Lx := { l with off := l.off + n, rest := l.rest.drop n }

/-- `isEOF`, parser/lexer.go:450-452. -/
def isEOF (l : Lx) : Bool := l.rest.isEmpty

end Lx

/-! ### White space and comments -/

/-- One-byte white space: `unicode.IsSpace` on ASCII (parser/lexer.go:457). -/
def isSpace1 (c : Nat) : Bool := (9 ≤ c && c ≤ 13) || c == 32

/-- Two-byte encodings of white space: U+0085, U+00A0 (parser/lexer.go:456-457). -/
def isSpace2 (c d : Nat) : Bool := c == 0xC2 && (d == 0x85 || d == 0xA0)

/-- Three-byte encodings of white space: U+1680, U+2000-U+200A, U+2028, U+2029, U+202F, U+205F,
U+3000 (parser/lexer.go:456-457). -/
def isSpace3 (c d e : Nat) : Bool :=
  (c == 0xE1 && d == 0x9A && e == 0x80) ||
  (c == 0xE2 && d == 0x80 && ((0x80 ≤ e && e ≤ 0x8A) || e == 0xA8 || e == 0xA9 || e == 0xAF)) ||
  (c == 0xE2 && d == 0x81 && e == 0x9F) ||
  (c == 0xE3 && d == 0x80 && e == 0x80)

/-- Number of bytes `skipSpace` skips, parser/lexer.go:454-462. -/
def spaceLen : Str → Nat
  | [] => 0
  | c :: t =>
    if isSpace1 c then 1 + spaceLen t
    else match t with
      | [] => 0
      | d :: t2 =>
        if isSpace2 c d then 2 + spaceLen t2
        else match t2 with
          | [] => 0
          | e :: t3 => if isSpace3 c d e then 3 + spaceLen t3 else 0

/-- Bytes skipped by `consumeSingleLineComment` after the leading `--`,
parser/lexer.go:241-252. -/
def lineCommentLen : Str → Nat
  | [] => 0
  | c :: t => if c == 13 || c == 10 then 1 else 1 + lineCommentLen t

/-- Bytes skipped by `consumeMultiLineComment` after the leading `/*`, `none` if the comment is
not closed; parser/lexer.go:254-266. -/
def blockCommentLen : Str → Option Nat
  | [] => none
  | c :: t =>
    if c == 42 && t.head? == some 47 then some 2
    else (blockCommentLen t).map (· + 1)

/-- Bytes skipped by `skipComments` and whether it returns an error (unclosed comment),
parser/lexer.go:305-334.  `fuel` bounds the number of loop iterations; the caller passes one more
than the number of bytes left. -/
def skipCommentsF : Nat → Str → Nat × Bool
  | 0, _ => (0, false)
  | f + 1, r =>
    let n := spaceLen r
    match r.drop n with
    | [] => (n, false)
    | c :: t =>
      if c == 45 then
        if t.head? == some 45 then
          let k := n + 2 + lineCommentLen (t.drop 1)
          let (m, e) := skipCommentsF f (r.drop k)
          (k + m, e)
        else (n, false)
      else if c == 47 then
        if t.head? == some 42 then
          match blockCommentLen (t.drop 1) with
          | some b =>
            let k := n + 2 + b
            let (m, e) := skipCommentsF f (r.drop k)
            (k + m, e)
          | none => (r.length, true)
        else (n, false)
      else if c == 13 || c == 10 then
        let k := n + 1
        let (m, e) := skipCommentsF f (r.drop k)
        (k + m, e)
      else (n, false)

/-- `skipComments`, parser/lexer.go:305-334. -/
def skipCommentsLen (r : Str) : Nat × Bool := skipCommentsF (r.length + 1) r

/-! ### Numbers -/

/-- The loop of `consumeNumber`, parser/lexer.go:139-177.  `i` counts the bytes taken so far.
Result: bytes taken, `tokenKind == float`, `hasNumberPart`, and the unread suffix; `none` for an
error inside the loop. -/
def numLoop (base16 : Bool) :
    (hasExp hasDot flt hasNum : Bool) → (i : Nat) → Str → Option (Nat × Bool × Bool × Str)
  | _, _, flt, hasNum, i, [] => some (i, flt, hasNum, [])
  | hasExp, hasDot, flt, hasNum, i, c :: t =>
    if (!base16 && isDigit c) || (base16 && isHexDigit c) then
      numLoop base16 hasExp hasDot flt true (i + 1) t
    else if c == 46 then
      if hasDot || hasExp || base16 then none
      else numLoop base16 hasExp true true hasNum (i + 1) t
    else if !base16 && (c == 101 || c == 69) then
      if hasExp then none
      else match t with
        | [] => none
        | d :: t' =>
          if d == 43 || d == 45 then
            if (t'.head?.map isDigit).getD false then
              numLoop base16 true hasDot true hasNum (i + 2) t'
            else none
          else if isDigit d then numLoop base16 true hasDot true hasNum (i + 1) (d :: t')
          else none
    else some (i, flt, hasNum, c :: t)

/-- Does the optional sign at parser/lexer.go:123-126 take a byte? -/
def signLen (r : Str) : Nat :=
  match r with
  | c :: _ => if c == 43 || c == 45 then 1 else 0
  | [] => 0

/-- The test for the `0x` prefix, parser/lexer.go:127. -/
def hexPrefix (r : Str) : Bool :=
  match r with
  | 48 :: 120 :: _ => true
  | _ => false

/-- `consumeNumber`, parser/lexer.go:120-190. -/
def consumeNumber (l : Lx) : LRes :=
  let s := signLen l.rest
  let b16 := hexPrefix (l.rest.drop s)
  let i0 := if b16 then s + 2 else s
  match numLoop b16 false false false false i0 (l.rest.drop i0) with
  | none => .err l
  | some (i, flt, hasNum, rem) =>
    if (rem.head?.map isIdentPart).getD false || !hasNum then .err l
    else .ok { (l.skipN i) with
      cur := some { kind := if flt then .float else .int, str := l.rest.take i, pos := l.off,
                    endp := l.off + i, base := if b16 then 16 else 10 } }

/-! ### Identifiers and strings -/

/-- Length of the leading run of identifier bytes, parser/lexer.go:209-211. -/
def identLen : Str → Nat
  | [] => 0
  | c :: t => if isIdentPart c then 1 + identLen t else 0

/-- Length of the content up to the closing quote `q`, `none` if there is none,
parser/lexer.go:213-220. -/
def quotedLen (q : Nat) : Str → Option Nat
  | [] => none
  | c :: t => if c == q then some 0 else (quotedLen q t).map (· + 1)

/-- `consumeIdent`, parser/lexer.go:192-239.  An unclosed quoted identifier leaves the offset
behind the opening quote (parser/lexer.go:201, 219). -/
def consumeIdent (l : Lx) : LRes :=
  match l.rest with
  | c :: t =>
    if c == 96 || c == 34 then
      let q := if c == 96 then qBack else qDouble
      let l1 := l.skipN 1
      match quotedLen c t with
      | none => .err l1
      | some i =>
        .ok { (l1.skipN (i + 1)) with
          cur := some { kind := .ident, str := l1.rest.take i, pos := l1.off, endp := l1.off + i,
                        quote := q } }
    else
      let i := if c == 36 then 1 + identLen t else identLen l.rest
      let s := l.rest.take i
      .ok { (l.skipN i) with
        cur := some { kind := if isKeyword (upper s) then .keyword else .ident, str := s,
                      pos := l.off, endp := l.off + i, quote := qUnquoted } }
  | [] =>
    -- unreachable: `consumeToken` only calls `consumeIdent` with input left
    .ok { l with cur := some { kind := .ident, str := [], pos := l.off, endp := l.off,
                               quote := qUnquoted } }

/-- The loop of `consumeString` after the opening quote, parser/lexer.go:271-294: length of the
content, `none` if there is no closing quote. -/
def stringLen : Str → Option Nat
  | [] => none
  | c :: t =>
    if c == 92 then
      match t with
      | [] => none
      | _ :: t' => (stringLen t').map (· + 2)
    else if c == 39 then
      match t with
      | [] => some 0
      | d :: t' => if d == 39 then (stringLen t').map (· + 2) else some 0
    else (stringLen t).map (· + 1)

/-- `consumeString`, parser/lexer.go:268-303. -/
def consumeString (l : Lx) : LRes :=
  match stringLen (l.rest.drop 1) with
  | none => .err l
  | some n =>
    .ok { (l.skipN (n + 2)) with
      cur := some { kind := .string, str := (l.rest.drop 1).take n, pos := l.off + 1,
                    endp := l.off + (n + 1) } }

/-! ### One token -/

/-- `hasPrecedenceToken`, parser/lexer.go:347-357. -/
def hasPrecedenceToken : Option Token → Bool
  | none => false
  | some t => t.kind == .ident || t.kind == .keyword || t.kind == .int || t.kind == .float ||
      t.kind == .string || t.kind == .rparen || t.kind == .rbracket

/-- The two-byte operator test of parser/lexer.go:371-375 (`c` is one of `> < ! = |`). -/
def isTwoByteOp (c : Nat) (d : Option Nat) : Bool :=
  (c == 124 && d == some 124) || (c == 60 && d == some 62) || (c == 61 && d == some 61) ||
  (c != 124 && d == some 61)

/-- A token of `n` bytes whose kind is given, parser/lexer.go:376-383, 391-398, 440-447. -/
def opToken (l : Lx) (n : Nat) (k : Kind) : LRes :=
  .ok { (l.skipN n) with
    cur := some { kind := k, str := l.rest.take n, pos := l.off, endp := l.off + n } }

/-- The `switch` of `consumeToken` and what follows it, parser/lexer.go:370-447: scan one token
that starts with byte `c` (followed by `t`). `prev` is the previous token. -/
def scanToken (prev : Option Token) (l : Lx) (c : Nat) (t : Str) : LRes :=
  if (c == 62 || c == 60 || c == 33 || c == 61 || c == 124) && isTwoByteOp c t.head? then
    opToken l 2 (.op (l.rest.take 2))
  else if (c == 43 || c == 45) && !hasPrecedenceToken prev && (t.head?.map isDigit).getD false then
    consumeNumber l
  else if (c == 43 || c == 45) && t.head? == some 62 then
    opToken l 2 .arrow
  else if isDigit c then consumeNumber l
  else if c == 96 || c == 36 || c == 34 then consumeIdent l
  else if c == 39 then consumeString l
  else if c == 58 && t.head? == some 58 then opToken l 2 .dash
  else if c == 46 then opToken l 1 .dot
  else if isIdentStart c then consumeIdent l
  else if 128 ≤ c then .err l
  else opToken l 1 (.op (l.rest.take 1))

/-- `consumeToken`, parser/lexer.go:359-448. -/
def Lx.consume (l : Lx) : LRes :=
  let prev := l.cur
  let (n, e) := skipCommentsLen l.rest
  let l1 : Lx := { (l.skipN n) with cur := none }
  if e then .err l1
  else
    let l2 := l1.skipN (spaceLen l1.rest)
    match l2.rest with
    | [] => .ok l2
    | c :: t => scanToken prev l2 c t

/-- Result of `peekToken`: the token seen, or an error; with the state afterwards. -/
inductive PeekRes where
  | ok (t : Option Token) (l : Lx)
  | err (l : Lx)
deriving DecidableEq, Repr

/-- `peekToken`, parser/lexer.go:336-345.  The state is restored only on success; on error the
changed state of the failed scan stays. -/
def Lx.peek (l : Lx) : PeekRes :=
  match l.consume with
  | .ok l' => .ok l'.cur l
  | .err l' => .err l'

end Verif
