#!/usr/bin/env python3
"""Writes lean/Verif/Ast/{Ty,Schema,PosEnd,Walk,Accept,Format}Table.lean from the Go text."""
import os, re, sys
sys.path.insert(0, os.path.dirname(os.path.abspath(__file__)))
from gosrc import *
OUT = os.path.dirname(os.path.dirname(os.path.abspath(__file__))) + '/lean/Verif/Ast/'
S = structs()
FMT = read('format.go'); WALK = read('walk.go'); KW = read('keyword.go'); LEX = read('lexer.go')
accept = methods(AST, 'Accept', r'\(visitor ASTVisitor\) error')
posend = methods(AST, 'Pos|End', r'\(\) Pos')
fmts = methods(FMT, 'FormatSQL', r'\(formatter \*Formatter\)')
types = methods(AST, 'Type', r'\(\) string')
alters = methods(AST, 'AlterType', r'\(\) string')
# structs of other files that occur as values in the parser: (fields, first line, last line, file)
EXTRA = {
  'Token': ([('Pos', 'Pos'), ('End', 'Pos'), ('Kind', 'TokenKind'), ('String', 'string'), ('Base', 'int'), ('QuoteType', 'int')], 60, 68, 'parser/lexer.go'),
  'KeywordArgForm': ([('Modifiers', '[]string'), ('RequireModifier', 'bool'), ('Separators', '[]string'), ('RequiredSeparators', 'int'), ('ClosedKeywordForm', 'bool'), ('MaxSlots', 'int')], 861, 868, 'parser/parser_column.go'),
  'ParseError': ([('Pos', 'Pos'), ('Line', 'int'), ('Column', 'int'), ('Got', '*Token'), ('Expected', '[]TokenKind'), ('Keyword', 'string'), ('Msg', 'string')], 13, 24, 'parser/error.go'),
  'PlainError': ([('Msg', 'string')], 0, 0, 'Go library, errors.New and fmt.Errorf'),
}
ALL = list(S)
NODES = [t for t in ALL if (t, 'Accept') in accept]
IFACES = {'Expr', 'DDL', 'AlterTableClause', 'ColumnType', 'Literal'}
LEANKW = {'end', 'from', 'where', 'with', 'if', 'then', 'else', 'by', 'in', 'at', 'prefix', 'using', 'type',
          'open', 'do', 'match', 'for', 'let', 'have', 'show', 'fun', 'at', 'is', 'export', 'import', 'format', 'extends'}

def lname(n):
    n = n[0].lower() + n[1:] if not n.isupper() else n.lower()
    return n + '_' if n in LEANKW else n

def ftype(t):
    if t == 'Pos': return '.pos'
    if t == 'int': return '.int'
    if t == 'bool': return '.bool'
    if t in ('string', 'TokenKind', 'OrderDirection'): return '.str'
    if t.startswith('[]'): return '(.slice %s)' % ftype(t[2:])
    if t.startswith('*'): return '(.ptr .%s)' % t[1:]
    if t in IFACES: return '(.iface .%s)' % t
    return '(.val .%s)' % t

def header(doc, imports):
    return '/-\n%s\nWritten by tools/genast.py from the Go text.\n-/\n%s\nset_option linter.unusedVariables false\n\nnamespace Verif\n\n' % (doc, ''.join('import %s\n' % i for i in imports))

def fidx(t, f):
    for i, (n, ty) in enumerate(S[t][0]):
        if n == f: return i, ty
    raise KeyError((t, f))

def strip_elem(ty):
    assert ty.startswith('[]'), ty
    return ty[2:]

def base(ty):
    return ty.lstrip('*')

class Env:
    """Static types of the variables: name -> (index, go type)."""
    def __init__(self, d): self.d = dict(d)
    def ref(self, e):
        """(lean Ref, go type) of an access path."""
        e = e.strip()
        if e.startswith('&'): e = e[1:]
        m = re.match(r'string\((.*)\)$', e)
        if m: e = m[1]
        # x.F[len(x.F)-1] and x.F[0]
        m = re.match(r'(\w+)((?:\.\w+|\[[^\]]*\])*)$', e)
        assert m, e
        var, ty = self.d[m[1]]
        sels, names = [], []
        for s in re.findall(r'\.\w+|\[[^\]]*\]', m[2]):
            if s[0] == '.':
                i, ty = fidx(base(ty), s[1:])
                sels.append('.f %d' % i); names.append(s[1:])
            else:
                ty = strip_elem(ty)
                if s == '[0]': sels.append('.first')
                else:
                    assert re.match(r'\[len\(.*\)-1\]$', s), s
                    sels.append('.last')
                names.append(s)
        nm = '.'.join(names).replace('.[', '[')
        if var == 0 and len(sels) == 1 and sels[0].startswith('.f '):
            return '(rf %s /-%s-/)' % (sels[0][3:], nm), ty
        return '⟨%d, [%s]%s⟩' % (var, ', '.join(sels), ' /-%s-/' % nm if nm else ''), ty
    def bind(self, name, idx, ty):
        e = Env(self.d); e.d[name] = (idx, ty); return e

def static(ty):
    if ty in IFACES: return '.iface'
    return '(.ptr .%s)' % base(ty)

def kwtext(name):
    for l in KW + LEX:
        m = re.match(r'\s*%s\s*(?:TokenKind)?\s*(?:[A-Za-z]*)\s*=\s*"([^"]*)"' % name, l)
        if m: return m[1]
    for l in AST:
        m = re.match(r'\s*%s\s+OrderDirection\s*=\s*"([^"]*)"' % name, l)
        if m: return m[1]
    raise KeyError(name)

def lean_str(s):
    return 'b!"%s"' % s.replace('\\', '\\\\').replace('"', '\\"')

def const_str(e):
    e = e.strip()
    m = re.match(r'"(.*)"$', e)
    if m: return m[1].replace('\\"', '"')
    m = re.match(r'TokenKind\((\w+)\)$', e)
    if m: return kwtext(m[1])
    if re.match(r'(TokenKind|Keyword|OrderDirection)\w+$', e): return kwtext(e)
    return None

def cond(e, env, loopvar=None, looplen=None, flags=()):
    e = e.strip()
    parts = split_top(e, '||')
    if len(parts) > 1:
        r = cond(parts[-1], env, loopvar, looplen, flags)
        for p in reversed(parts[:-1]): r = '(.or %s %s)' % (cond(p, env, loopvar, looplen, flags), r)
        return r
    parts = split_top(e, '&&')
    if len(parts) > 1:
        r = cond(parts[-1], env, loopvar, looplen, flags)
        for p in reversed(parts[:-1]): r = '(.and %s %s)' % (cond(p, env, loopvar, looplen, flags), r)
        return r
    if e.startswith('!'): return '(.not %s)' % cond(e[1:], env, loopvar, looplen, flags)
    if e in flags: return '.flag'
    m = re.match(r'isLogicalBinaryOp\((.*)\)$', e)
    if m: return logical(env.ref(m[1])[0])
    m = re.match(r'(\w+)\.hasArgList\(\)$', e)
    if m: return '(.not (.natEq %s 0))' % env.ref(m[1] + '.LParenPos')[0]
    m = re.match(r'(\w+)\.isLogicalOp\(\)$', e)
    if m:
        r = env.ref(m[1] + '.Operation')[0]
        return '(.or (.strEq %s b!"AND") (.strEq %s b!"OR"))' % (r, r)
    if e == 'formatter.mode == FormatModeBeautify': return '.beautify'
    m = re.match(r'_, isSelect := (.*)\.\(\*(\w+)\); isSelect$', e)
    if m: return '(.isTy %s .%s)' % (env.ref(m[1])[0], m[2])
    if loopvar:
        if e == loopvar + ' > 0': return '.idxPos'
        if e == loopvar + ' == 0': return '(.not .idxPos)'
        m = re.match(r'%s (!=|<) len\((.*)\)-1$' % loopvar, e)
        if m:
            assert m[2] == looplen, (e, looplen)
            return '(.not .idxLast)'
    m = re.match(r'len\((.*)\) (> 0|!= 0|== 0)$', e)
    if m:
        r = '(.lenPos %s)' % env.ref(m[1])[0]
        return r if m[2] != '== 0' else '(.not %s)' % r
    m = re.match(r'(\S+) (!=|==) (.*)$', e)
    if m:
        r, ty = env.ref(m[1])
        if m[3] == 'nil': c = '(.nonNil %s)' % r; neg = m[2] == '=='
        elif m[3] == '0': c = '(.natEq %s 0)' % r; neg = m[2] == '!='
        else:
            s = const_str(m[3]); assert s is not None, e
            c = '(.strEq %s %s)' % (r, lean_str(s)); neg = m[2] == '!='
        return '(.not %s)' % c if neg else c
    r, ty = env.ref(e)
    assert ty == 'bool', (e, ty)
    return '(.isTrue %s)' % r

def logical(r):
    m = re.match(r'\(rf (\d+) /-(.*)-/\)$', r)
    assert m, r
    op = '⟨0, [.f %s, .f %d] /-%s.Operation-/⟩' % (m[1], fidx('BinaryOperation', 'Operation')[0], m[2])
    return '(.and (.isTy %s .BinaryOperation) (.or (.strEq %s b!"AND") (.strEq %s b!"OR")))' % (r, op, op)

def split_top(e, op):
    out, depth, cur, i, q = [], 0, '', 0, False
    while i < len(e):
        c = e[i]
        if c == '"': q = not q
        if not q:
            if c == '(': depth += 1
            if c == ')': depth -= 1
            if depth == 0 and e.startswith(op, i):
                out.append(cur); cur = ''; i += len(op); continue
        cur += c; i += 1
    return out + [cur]

# ---------------------------------------------------------------- Ty
with open(OUT + 'Ty.lean', 'w') as o:
    o.write('/-\nThe struct types of parser/ast.go, with the line of their declaration.\nWritten by tools/genast.py from the Go text.\n-/\n\nnamespace Verif\n\n')
    o.write('/-- Struct types declared in parser/ast.go. -/\ninductive Ty where\n')
    for t in ALL:
        o.write('  /-- parser/ast.go:%d -/\n  | %s\n' % (S[t][1], t))
    for t, (f, a, b, file) in EXTRA.items():
        o.write('  /-- %s%s; no node of the tree, but a value of the parser -/\n  | %s\n' % (file, ':%d' % a if a else '', t))
    o.write('deriving DecidableEq, Repr\n\n')
    o.write('end Verif\n')

# ---------------------------------------------------------------- Schema
with open(OUT + 'Schema.lean', 'w') as o:
    o.write(header('Fields of the struct types of parser/ast.go, and constructors for them.', ['Verif.Ast.Lang']))
    o.write('/-- The interface types of parser/ast.go:11, 18, 194, 3208, 3539. -/\ninductive Iface where\n  | Expr | DDL | AlterTableClause | ColumnType | Literal\nderiving DecidableEq, Repr\n\n')
    o.write('/-- Go types of struct fields (parser/ast.go). -/\ninductive FTy where\n  | pos | int | bool | str\n  /-- a struct -/\n  | val (t : Ty)\n  /-- a pointer to a struct -/\n  | ptr (t : Ty)\n  /-- an interface -/\n  | iface (i : Iface)\n  /-- a slice -/\n  | slice (e : FTy)\nderiving DecidableEq, Repr\n\n')
    o.write('/-- Which struct types have the methods of the interface `Expr` (parser/ast.go:11-16): all but the\nhelper structs without an `Accept` method. -/\ndef Ty.isNode : Ty → Bool\n')
    for t in ALL:
        if t not in NODES: o.write('  | .%s => false\n' % t)
    for t in EXTRA: o.write('  | .%s => false\n' % t)
    o.write('  | _ => true\n\n')
    o.write('/-- Which struct types implement an interface, by their methods `Type` / `AlterType`\n(parser/ast.go). -/\ndef Ty.implements (i : Iface) (t : Ty) : Bool :=\n  match i with\n  | .Expr | .Literal => t.isNode\n  | .DDL | .ColumnType => t.isNode && match t with\n')
    for (t, _), (r, b, a, e) in types.items(): o.write('    | .%s -- parser/ast.go:%d\n' % (t, a))
    o.write('      => true\n    | _ => false\n  | .AlterTableClause => t.isNode && match t with\n')
    for (t, _), (r, b, a, e) in alters.items(): o.write('    | .%s -- parser/ast.go:%d\n' % (t, a))
    o.write('      => true\n    | _ => false\n\n')
    o.write('/-- The field types of every struct in declaration order. -/\ndef schema : Ty → List FTy\n')
    for t in ALL:
        f, a, b = S[t]
        o.write('  -- parser/ast.go:%d-%d: %s\n' % (a, b, ', '.join(n for n, _ in f)))
        o.write('  | .%s => [%s]\n' % (t, ', '.join(ftype(ty).strip('()') if not ftype(ty).startswith('(.slice (') else ftype(ty)[1:-1] for n, ty in f)))
    for t, (f, a, b, file) in EXTRA.items():
        o.write('  -- %s%s: %s\n' % (file, ':%d-%d' % (a, b) if a else '', ', '.join(n for n, _ in f)))
        o.write('  | .%s => [%s]\n' % (t, ', '.join(ftype(ty).strip('()') if not ftype(ty).startswith('(.slice (') else ftype(ty)[1:-1] for n, ty in f)))
    o.write('\nnamespace N\n\n')
    for t in ALL + list(EXTRA):
        f, a, b = S[t] if t in S else EXTRA[t][:3]
        file = 'parser/ast.go' if t in S else EXTRA[t][3]
        args, vals = [], []
        for n, ty in f:
            ln = lname(n)
            ft = ftype(ty)
            if ft in ('.pos', '.int'): args.append('(%s : Nat := 0)' % ln); vals.append('.nat %s' % ln)
            elif ft == '.bool': args.append('(%s : Bool := false)' % ln); vals.append('.bool %s' % ln)
            elif ft == '.str': args.append('(%s : Str := [])' % ln); vals.append('.str %s' % ln)
            else: args.append('(%s : V := .nil)' % ln); vals.append(ln)
        o.write('/-- Composite literal `&%s{...}` (%s%s); fields left out are zero. -/\n' % (t, file, ':%d-%d' % (a, b) if a else ''))
        o.write('def %s %s : V :=\n  .mk .%s [%s]\n\n' % (t, ' '.join(args), t, ', '.join(vals)))
    o.write('end N\nend Verif\n')

# ---------------------------------------------------------------- Pos / End
def pexp(e, env):
    e = e.strip()
    m = re.match(r'(.*) \+ Pos\(len\("(.*)"\)\)$', e)
    if m: return '(.plus %s %d)' % (pexp(m[1], env), len(m[2]))
    m = re.match(r'(.*) \+ Pos\(len\((Keyword\w+)\)\)$', e)
    if m: return '(.plus %s %d)' % (pexp(m[1], env), len(kwtext(m[2])))
    m = re.match(r'(.*) \+ Pos\(len\((.*)\)\)$', e)
    if m: return '(.plusLen %s %s)' % (pexp(m[1], env), env.ref(m[2])[0])
    m = re.match(r'(.*) \+ (\d+)$', e)
    if m: return '(.plus %s %s)' % (pexp(m[1], env), m[2])
    if re.match(r'\d+$', e): return '(.const %s)' % e
    m = re.match(r'(.*)\.(Pos|End)\(\)$', e)
    if m:
        r, ty = env.ref(m[1])
        return '(.%s %s %s)' % ({'Pos': 'pos', 'End': 'end_'}[m[2]], r, static(ty))
    r, ty = env.ref(e)
    assert ty == 'Pos', (e, ty)
    return '(.field %s)' % r

def pbody(st, env):
    assert st, 'no return'
    s = st[0]
    if s[0] == 'return': return pexp(s[1], env)
    assert s[0] == 'if', s
    a = pbody(s[2] + st[1:], env)
    b = pbody(s[3] + st[1:], env)
    return '(.ite %s\n      %s\n      %s)' % (cond(s[1], env), a, b)

with open(OUT + 'PosEndTable.lean', 'w') as o:
    o.write(header('Bodies of the `Pos` and `End` methods (parser/ast.go).', ['Verif.Ast.Schema']))
    for which, nm in (('Pos', 'posBody'), ('End', 'endBody')):
        o.write('/-- The body of `%s()` of every struct type (helper structs without the method: 0). -/\ndef %s : Ty → PExp\n' % (which, nm))
        for t in ALL:
            if (t, which) not in posend: continue
            r, b, a, e = posend[(t, which)]
            env = Env({r: (0, '*' + t)})
            try:
                x = pbody(parse(b), env)
            except Exception as ex:
                print('POSEND', t, which, repr(ex)); continue
            o.write('  -- parser/ast.go:%d-%d\n  | .%s =>\n      %s\n' % (a, e, t, x[1:-1]))
        o.write('  | _ => .const 0\n\n')
    o.write('end Verif\n')

# ---------------------------------------------------------------- Walk / Accept
def seqs(l, kind=''):
    l = [x for x in l if x != '.skip']
    if not l: return '.skip'
    if len(l) == 1: return l[0]
    return '(.seq %s\n      %s)' % (l[0], seqs(l[1:]))

def wbody(st, env, depth, mode):
    out = []
    i = 0
    while i < len(st):
        s = st[i]
        if s[0] == 'if':
            m = re.match(r'!Walk\((.*), fn\)$', s[1]) if mode == 'w' else re.match(r'err := (.*)\.Accept\(visitor\); err != nil$', s[1])
            if m:
                r, ty = env.ref(m[1])
                out.append('(.visit %s %s)' % (r, static(ty))); i += 1; continue
            m = re.match(r'!(walkJSON\w+)\((.*), fn\)$', s[1])
            if m:
                out.append(helper_walk(m[1], m[2], env, depth)); i += 1; continue
            m = re.match(r'err := (.*)\.accept\(visitor\); err != nil$', s[1])
            if m:
                out.append(helper_accept(m[1], env, depth)); i += 1; continue
            m = re.match(r'(\S+) == nil$', s[1])
            if m and s[2] in ([('stmt', 'continue')], [('return', 'true')], [('return', 'nil')]):
                rest = wbody(st[i + 1:], env, depth, mode)
                out.append('(.guard %s %s)' % (env.ref(m[1])[0], rest))
                return seqs(out)
            m = re.match(r'(\S+) != nil$', s[1])
            assert m and s[3] == [], s
            out.append('(.guard %s %s)' % (env.ref(m[1])[0], wbody(s[2], env, depth, mode)))
        elif s[0] == 'for':
            m = re.match(r'_, (\w+) := range (.*)$', s[1])
            if m:
                r, ty = env.ref(m[2])
                e2 = env.bind(m[1], depth, strip_elem(ty))
                out.append('(.loop %s %s)' % (r, wbody(s[2], e2, depth + 1, mode)))
            else:
                m = re.match(r'i := range (.*)$', s[1]); assert m, s
                r, ty = env.ref(m[1])
                e2 = env.bind('ELEM', depth, strip_elem(ty))
                body = [tuple(x.replace(m[1] + '[i]', 'ELEM') if isinstance(x, str) else x for x in y) for y in s[2]]
                out.append('(.loop %s %s)' % (r, wbody(body, e2, depth + 1, mode)))
        elif s[0] == 'return':
            if mode == 'w':
                if s[1] in ('true', 'false'): pass
                else:
                    m = re.match(r'Walk\((.*), fn\)$', s[1])
                    if m:
                        r, ty = env.ref(m[1]); out.append('(.visit %s %s)' % (r, static(ty)))
                    else:
                        m = re.match(r'(walkJSON\w+)\((.*), fn\)$', s[1]); assert m, s
                        out.append(helper_walk(m[1], m[2], env, depth))
            else:
                assert s[1] == 'nil' or s[1].startswith('visitor.Visit'), s
        elif s[0] == 'stmt':
            assert mode == 'a' and re.match(r'(defer )?visitor\.(Enter|Leave)\(\w+\)$', s[1]), s
        i += 1
    return seqs(out)

def helper_walk(fn, arg, env, depth):
    b, a, e = func(WALK, fn)
    m = re.match(r'func \w+\((\w+) ', WALK[a - 1])
    r, ty = env.ref(arg)
    # inline: the parameter is the access path itself
    return wbody(parse(b), Inl(env, m[1], arg), depth, 'w')

def helper_accept(arg, env, depth):
    r, ty = env.ref(arg)
    recv, b, a, e = methods(AST, 'accept', r'\(visitor ASTVisitor\) error')[(base(ty), 'accept')]
    return wbody(parse(b), Inl(env, recv, arg), depth, 'a')

class Inl(Env):
    def __init__(self, env, name, path):
        self.inner, self.name, self.path, self.d = env, name, path, env.d
    def ref(self, e):
        return self.inner.ref(re.sub(r'^%s\b' % self.name, self.path, e)) if re.match(r'%s\b' % self.name, e) else self.inner.ref(e)
    def bind(self, name, idx, ty):
        return Inl(self.inner.bind(name, idx, ty), self.name, self.path)

wb, wa, we = func(WALK, 'Walk')
cases, cur = {}, None
for k, l in enumerate(wb):
    m = re.match(r'\tcase (.*):$', l)
    if m:
        cur = [x.strip().lstrip('*') for x in m[1].split(',')]
        for c in cur: cases[c] = [[], wa + 1 + k, 0]
    elif l == '\t}' and cur: cur = None
    elif cur:
        for c in cur: cases[c][0].append(l); cases[c][2] = wa + 1 + k
with open(OUT + 'WalkTable.lean', 'w') as o:
    o.write(header('The cases of the type switch of `Walk` (parser/walk.go:%d-%d); the helpers\n`walkJSONOptions` ... `walkJSONPath` (parser/walk.go:1588-1641) are written out in place.' % (wa, we), ['Verif.Ast.Schema']))
    o.write('/-- What `Walk` does with the children of a node of each type. -/\ndef walkBody : Ty → WCmd\n')
    for t in ALL:
        if t not in cases: continue
        b, a, e = cases[t]
        env = Env({'n': (0, '*' + t)})
        x = wbody(parse(b), env, 1, 'w')
        o.write('  -- parser/walk.go:%d-%d\n  | .%s =>\n      %s\n' % (a, max(a, e), t, x[1:-1] if x.startswith('(') else x))
    if set(ALL) - set(cases): o.write('  | _ => .skip\n')
    o.write('\nend Verif\n')
with open(OUT + 'AcceptTable.lean', 'w') as o:
    o.write(header('The bodies of the `Accept` methods (parser/ast.go) without the calls of `Enter`, `Leave`\nand `Visit...` that every one of them has; the helpers `accept` (parser/ast.go:3242-3340) of the\nJSON option structs are written out in place.', ['Verif.Ast.Schema']))
    o.write('/-- What `Accept` does with the children of a node of each type. -/\ndef acceptBody : Ty → WCmd\n')
    for t in ALL:
        if t not in NODES: continue
        r, b, a, e = accept[(t, 'Accept')]
        p = parse(b)
        assert p[0] == ('stmt', 'visitor.Enter(%s)' % r) and p[1] == ('stmt', 'defer visitor.Leave(%s)' % r), t
        assert re.match(r'visitor\.Visit\w+\(%s\)$' % r, p[-1][1]), t
        env = Env({r: (0, '*' + t)})
        x = wbody(p, env, 1, 'a')
        o.write('  -- parser/ast.go:%d-%d\n  | .%s =>\n      %s\n' % (a, e, t, x[1:-1] if x.startswith('(') else x))
    o.write('  | _ => .skip\n\nend Verif\n')

# ---------------------------------------------------------------- FormatSQL
WS = {'whitespace': ' ', "'\\''": "'", 'newline': '\n'}
def fstmt(txt, env, ctx):
    m = re.match(r'formatter\.(Break|NewLine|Indent|Dedent)\(\)$', txt)
    if m: return '.' + {'Break': 'brk', 'NewLine': 'newline', 'Indent': 'indent', 'Dedent': 'dedent'}[m[1]]
    m = re.match(r'formatter\.WriteByte\((.*)\)$', txt)
    if m:
        a = m[1]
        c = WS[a] if a in WS else re.match(r"'(.)'$", a)[1]
        return '(.lit %s)' % lean_str(c)
    m = re.match(r'formatter\.WriteString\((.*)\)$', txt)
    if m:
        parts = split_top(m[1], ' + ')
        out = []
        for p in parts:
            p = p.strip()
            s = const_str(p)
            if s is not None: out.append('(.lit %s)' % lean_str(s)); continue
            u = re.match(r'strings\.ToUpper\((.*)\)$', p)
            if u: out.append('(.upperF %s)' % env.ref(u[1])[0]); continue
            u = re.match(r'strings\.Join\((.*), "(.*)"\)$', p)
            if u: out.append('(.joinF %s %s)' % (env.ref(u[1])[0], lean_str(u[2]))); continue
            r, ty = env.ref(p)
            assert ty in ('string', 'TokenKind', 'OrderDirection'), (p, ty)
            out.append('(.strF %s)' % r)
        return seqs(out)
    m = re.match(r'formatter\.WriteExpr\((.*)\)$', txt)
    if m:
        r, ty = env.ref(m[1])
        return '(.expr %s %s)' % (r, static(ty))
    m = re.match(r'writeJoinSQL\(formatter, (.*)\)$', txt)
    if m: return '(.joinSQL %s)' % env.ref(m[1])[0]
    m = re.match(r'(.*)\.FormatSQL\(formatter\)$', txt)
    if m:
        r, ty = env.ref(m[1])
        assert ty.startswith('*'), ty
        return '(.direct %s .%s)' % (r, ty[1:])
    m = re.match(r'(\w+) = true$', txt)
    if m and m[1] in ctx['flags']: return '.setFlag'
    if re.match(r'(\w+) := false$', txt): return '.skip'
    raise ValueError(txt)

def fbody(st, env, ctx):
    out, i = [], 0
    while i < len(st):
        s = st[i]
        if s[0] == 'stmt':
            t = s[1]
            m = re.match(r'(\w+) := (\w+(?:\.\w+)*)$', t)
            if m and m[2] not in ('false', 'true'):          # local copy of a variable: an alias
                env = AliasEnv(env, m[1], m[2]); i += 1; continue
            m = re.match(r'(\w+)\.(writeLogicalOperand)\(formatter, (.*)\)$', t)
            if m:
                r, ty = env.ref(m[3])
                out.append('(.ite %s (.expr %s .iface) (.seq .indent (.seq (.expr %s .iface) .dedent)))' % (logical(r), r, r)); i += 1; continue
            m = re.match(r'(\w+)\.writeOperatorPrefix\(formatter\)$', t)
            if m:
                rb, _, _, _ = None, None, None, None
                b = methods(FMT, 'writeOperatorPrefix', r'\(formatter \*Formatter\)')[('BinaryOperation', 'writeOperatorPrefix')]
                out.append(fbody(parse(b[1]), env, ctx)); i += 1; continue
            if t == 'defer formatter.Dedent()':
                rest = fbody(st[i + 1:], env, ctx)
                out += [rest, '.dedent']; return seqs(out)
            out.append(fstmt(t, env, ctx))
        elif s[0] == 'if':
            c = cond(s[1], env, ctx.get('lv'), ctx.get('ll'), ctx['flags'])
            if s[2] and s[2][-1][0] == 'return':
                a = fbody(s[2][:-1], env, ctx)
                b = fbody(s[3] + st[i + 1:], env, ctx)
                out.append('(.ite %s\n      %s\n      %s)' % (c, a, b)); return seqs(out)
            out.append('(.ite %s\n      %s\n      %s)' % (c, fbody(s[2], env, ctx), fbody(s[3], env, ctx)))
        elif s[0] == 'for':
            m = re.match(r'(\w+), (\w+) := range (.*)$', s[1])
            r, ty = env.ref(m[3])
            c2 = dict(ctx); c2['lv'] = m[1] if m[1] != '_' else None; c2['ll'] = m[3]; c2['depth'] = ctx['depth'] + 1
            e2 = env.bind(m[2], ctx['depth'], strip_elem(ty))
            out.append('(.loop %s\n      %s)' % (r, fbody(s[2], e2, c2)))
        elif s[0] == 'switch':
            assert s[1].endswith('.QuoteType')
            r, _ = env.ref(s[1])
            q = {'BackTicks': 3, 'DoubleQuote': 2, 'SingleQuote': 4}
            d = [b for c, b in s[2] if c is None][0]
            x = fbody(d, env, ctx)
            for c, b in reversed([p for p in s[2] if p[0]]):
                x = '(.ite (.natEq %s %d /-%s-/)\n      %s\n      %s)' % (r, q[c], c, fbody(b, env, ctx), x)
            out.append(x)
        else: raise ValueError(s)
        i += 1
    return seqs(out)

class AliasEnv(Env):
    def __init__(self, env, name, path): self.inner, self.name, self.path, self.d = env, name, path, env.d
    def ref(self, e):
        return self.inner.ref(re.sub(r'\b%s\b' % self.name, self.path, e))
    def bind(self, name, idx, ty): return AliasEnv(self.inner.bind(name, idx, ty), self.name, self.path)

HAND = {
 # `keyword` is a local string with two possible values
 'BetweenClause': lambda env: seqs([
    '(.ite (.nonNil %s) (.seq (.expr %s .iface) (.lit b!" ")) .skip)' % (env.ref('f.Expr')[0], env.ref('f.Expr')[0]),
    '(.ite (.isTrue %s) (.lit b!"NOT BETWEEN ") (.lit b!"BETWEEN "))' % env.ref('f.Not')[0],
    '(.expr %s .iface)' % env.ref('f.Between')[0], '(.lit b!" AND ")', '(.expr %s .iface)' % env.ref('f.And')[0]]),
}
def brkwrite(field, env):
    r, ty = env.ref('d.' + field)
    return '(.ite (.nonNil %s) (.seq (.ite .flag .brk .skip) (.seq (.expr %s %s) .setFlag)) .skip)' % (r, r, static(ty))
def dict_engine(env):
    r, ty = env.ref('d.Settings.Items')
    return seqs([brkwrite(f, env) for f in ('PrimaryKey', 'Source', 'Lifetime', 'Layout', 'Range')] +
      ['(.ite (.nonNil %s) %s .skip)' % (env.ref('d.Settings')[0], seqs(['(.ite .flag .brk .skip)', '(.lit b!"SETTINGS(")',
        '(.loop %s (.seq (.ite .idxPos (.lit b!", ") .skip) (.expr ⟨1, []⟩ (.ptr .SettingExpr))))' % r, '(.lit b!")")']))])
HAND['DictionaryEngineClause'] = dict_engine
def json_options(env):
    r, ty = env.ref('j.Items')
    e2 = env.bind('item', 1, '*JSONOption')
    num = '(.or (.nonNil %s) (.nonNil %s))' % (e2.ref('item.MaxDynamicPaths')[0], e2.ref('item.MaxDynamicTypes')[0])
    col = '(.nonNil %s)' % e2.ref('item.Column')[0]
    skp = '(.or (.nonNil %s) (.nonNil %s))' % (e2.ref('item.SkipPath')[0], e2.ref('item.SkipRegex')[0])
    w = '(.seq (.ite .flag (.lit b!", ") .skip) (.seq (.direct ⟨1, []⟩ .JSONOption) .setFlag))'
    return seqs(['(.lit b!"(")',
      '(.loop %s (.ite (.or %s (.not (.or %s %s))) %s .skip))' % (r, num, col, skp, w),
      '(.loop %s (.ite (.and (.not %s) %s) %s .skip))' % (r, num, col, w),
      '(.loop %s (.ite (.and (.not %s) (.and (.not %s) %s)) %s .skip))' % (r, num, col, skp, w),
      '(.lit b!")")'])
HAND['JSONOptions'] = json_options
def table_index(env):
    g = lambda f: '(.expr %s %s)' % (env.ref('a.' + f)[0], static(env.ref('a.' + f)[1]))
    b = '(.lit b!" ")'
    return seqs(['(.lit b!"INDEX")', b, g('Name'), '(.compactExpr %s %s)' % (env.ref('a.ColumnExpr')[0], static(env.ref('a.ColumnExpr')[1])), b, '(.lit b!"TYPE")', b,
      g('ColumnType'), b, '(.lit b!"GRANULARITY")', b, g('Granularity')])
HAND['TableIndex'] = table_index
HANDNOTE = {'BetweenClause': 'the local `keyword` is written out', 'DictionaryEngineClause': 'the closure `breakAndWrite` is written out',
  'JSONOptions': 'the three sorted lists are three passes over the items', 'TableIndex': 'see `FCmd.compactExpr`'}
with open(OUT + 'FormatTable.lean', 'w') as o:
    o.write(header('The bodies of the `FormatSQL` methods (parser/format.go).', ['Verif.Ast.Schema']))
    o.write('/-- What `FormatSQL` writes for a node of each type. -/\ndef formatBody : Ty → FCmd\n')
    for t in ALL:
        if (t, 'FormatSQL') not in fmts:
            print('no FormatSQL:', t); continue
        r, b, a, e = fmts[(t, 'FormatSQL')]
        env = Env({r: (0, '*' + t)})
        if t in HAND: x = HAND[t](env)
        else:
            flags = [m[1] for l in b for m in [re.match(r'\s*(\w+) := false$', l)] if m]
            try: x = fbody(parse(b), env, {'flags': flags, 'depth': 1})
            except Exception as ex:
                print('FORMAT', t, repr(ex)); continue
        o.write('  -- parser/format.go:%d-%d%s\n  | .%s =>\n      %s\n' % (a, e, '; ' + HANDNOTE[t] if t in HAND else '', t, x[1:-1] if x.startswith('(') else x))
    o.write('  | _ => .skip\n\n')
    b, a, e = func(FMT, 'writeJoinSQL')
    J = lambda f: env.ref('j.' + f)
    env = Env({'j': (0, '*JoinExpr')})
    o.write('/-- `writeJoinSQL(formatter, expr)`, parser/format.go:%d-%d; variable 0 is `expr`. -/\ndef joinBody : FCmd :=\n' % (a, e))
    x = '(.ite (.not (.isTy ⟨0, []⟩ .JoinExpr))\n      (.seq (.lit b!",") (.expr ⟨0, []⟩ .iface))\n      %s)' % seqs([
      '(.ite (.not (.lenPos %s))\n      (.seq (.lit b!",") (.expr %s .iface))\n      %s)' % (J('Modifiers')[0], J('Left')[0], seqs([
        '.brk', '(.joinF %s b!" ")' % J('Modifiers')[0], '.indent', '.brk', '(.expr %s .iface)' % J('Left')[0],
        '(.ite (.nonNil %s) (.seq (.lit b!" ") (.expr %s .iface)) .skip)' % (J('Constraints')[0], J('Constraints')[0]), '.dedent'])),
      '(.ite (.nonNil %s) (.joinSQL %s) .skip)' % (J('Right')[0], J('Right')[0])])
    o.write('  ' + x + '\n\nend Verif\n')
print(len(ALL), 'structs', len(NODES), 'nodes')
