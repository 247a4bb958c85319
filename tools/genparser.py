#!/usr/bin/env python3
"""Writes lean/Verif/Parser/{Fn,Table*}.lean: the methods of Parser, translated from the Go text.

Usage: genparser.py [repo parser directory] [output directory]"""
import os, re, sys
sys.path.insert(0, os.path.dirname(os.path.abspath(__file__)))
import goparse, gosrc
SRC = sys.argv[1] if len(sys.argv) > 1 else '/repo/parser/'
OUT = sys.argv[2] if len(sys.argv) > 2 else os.path.dirname(os.path.dirname(os.path.abspath(__file__))) + '/lean/Verif/Parser/'
STRUCTS = {t: f for t, (f, a, b) in gosrc.structs().items()}
STRUCTS['Token'] = [('Pos', 'Pos'), ('End', 'Pos'), ('Kind', 'TokenKind'), ('String', 'string'), ('Base', 'int'), ('QuoteType', 'int')]
STRUCTS['KeywordArgForm'] = [('Modifiers', '[]string'), ('RequireModifier', 'bool'), ('Separators', '[]string'), ('RequiredSeparators', 'int'), ('ClosedKeywordForm', 'bool'), ('MaxSlots', 'int')]
STRUCTS['ParseError'] = [('Pos', 'Pos'), ('Line', 'int'), ('Column', 'int'), ('Got', '*Token'), ('Expected', '[]TokenKind'), ('Keyword', 'string'), ('Msg', 'string')]
IFACES = {'Expr', 'DDL', 'AlterTableClause', 'ColumnType', 'Literal'}
STRTYPES = {'string', 'TokenKind', 'OrderDirection'}
NUMTYPES = {'Pos', 'int'}
FILES = ['parser_common', 'parser_query', 'parser_column', 'parser_table', 'parse_system', 'parser_alter', 'parser_drop', 'parser_view']
TABLES = {'parser_common': 'Common', 'parser_query': 'Query', 'parser_column': 'Column', 'parser_table': 'Table',
          'parse_system': 'System', 'parser_alter': 'Alter', 'parser_drop': 'Drop', 'parser_view': 'View'}
# methods given as Lean functions in Verif/Parser/Lang.lean
BUILTIN = {'lineStarts', 'currentTokenKind', 'currentTokenString', 'current', 'End', 'Pos', 'matchTokenKind', 'expectTokenKind',
           'tryConsumeTokenKind', 'matchKeyword', 'matchOneOfKeywords', 'expectKeyword', 'tryConsumeKeywords', 'wrapError'}
DISCARD = 9999
# methods that assign to fields of their first parameter (a pointer): the model passes it back as a last result
INOUT = {'parseCreateUserModifiers', 'parseDefaultClause', 'parseOptionalClauses'}

def consts():
    out = {}
    for f in ('keyword.go', 'lexer.go', 'ast.go'):
        for l in open(SRC + f):
            m = re.match(r'\s*((?:Keyword|TokenKind|OrderDirection)\w*)\s*(TokenKind|OrderDirection)?\s*=\s*"([^"]*)"', l)
            if m: out[m[1]] = ('str', m[3], m[2] or ('TokenKind' if m[1].startswith('TokenKind') else 'string'))
    it = None
    for l in open(SRC + 'parser_column.go'):
        m = re.match(r'\t(\w+)(?: = iota)?$', l.rstrip('\n'))
        if '= iota' in l: it = 0
        if l.startswith(')'): it = None
        if it is not None and m: out[m[1]] = ('nat', it, 'int'); it += 1
    for i, n in enumerate(['Unquoted', 'DoubleQuote', 'BackTicks', 'SingleQuote']): out[n] = ('nat', i + 1, 'int')
    return out
CONST = consts()

def go_list(name):
    """the elements of a package level []T{...} variable"""
    m = re.search(r'var %s = \[\]\w+\{(.*?)\n?\}' % name, open(SRC + 'parser_column.go').read(), re.S)
    return re.findall(r'\w+', m[1])

def forms():
    """the map keywordArgFunctions"""
    m = re.search(r'var keywordArgFunctions = map\[string\]keywordArgForm\{\n(.*?)\n\}', open(SRC + 'parser_column.go').read(), re.S)
    out = []
    for k, b in re.findall(r'\t(\w+): \{\n(.*?)\n\t\},', m[1], re.S):
        d = {'Modifiers': None, 'RequireModifier': 'false', 'Separators': None, 'RequiredSeparators': '0', 'ClosedKeywordForm': 'false', 'MaxSlots': '0'}
        for f, v in re.findall(r'\t\t(\w+):\s*(.*),', b):
            l = re.match(r'\[\]string\{(.*)\}', v)
            d[f] = [CONST[x.strip()][1] for x in l[1].split(',')] if l else v
        out.append((CONST[k][1], d))
    return out

def tstr(t):
    if t[0] == 'ptr': return '*' + tstr(t[1])
    if t[0] == 'arr': return '[]' + tstr(t[1])
    if t[0] == 'name': return 'KeywordArgForm' if t[1] == 'keywordArgForm' else t[1]
    raise Exception(t)

def lstr(s):
    r = ''
    for c in s:
        r += {'\\': '\\\\', '"': '\\"', '\n': '\\n', '\t': '\\t'}.get(c, c)
    return 'b!"%s"' % r

def strs(l): return '[%s]' % ', '.join(lstr(x) for x in l)

def zero(t):
    if t in STRTYPES: return '(.str [])'
    if t in NUMTYPES: return '(.nat 0)'
    if t == 'bool': return '(.bool false)'
    if t[0] == '*' or t.startswith('[]') or t in IFACES or t == 'error': return '.nil'
    if t in STRUCTS: return '(.mk .%s [%s])' % (t, ', '.join(zero(ty) for _, ty in STRUCTS[t]))
    raise Exception('zero ' + t)

FUNCS = {}      # name -> (params, results, resnames, body, first, last, file)
for f in FILES:
    for (name, recv, params, results, body, a, b) in goparse.load(SRC + f + '.go'):
        if recv is None: continue
        FUNCS[name] = (params, [tstr(r) if r[0] != 'map' else 'map' for r in results] if name != 'lineStarts' else [], body, a, b, f)
NAMED = {}
for f in FILES:
    for m in re.finditer(r'func \(p \*Parser\) (\w+)\([^)]*\) \((\w+) [\w*\[\]]+, (\w+) [\w*\[\]]+\)', open(SRC + f + '.go').read()):
        NAMED[m[1]] = [m[2], m[3]]

PROBLEMS, CONVS = [], []

class Tr:
    def __init__(s, name):
        s.name = name
        s.params, s.results, s.body, s.a, s.b, s.file = FUNCS[name]
        s.fi = FILES.index(s.file) + 1
        s.scopes = [{}]; s.n = 0; s.names = []
        s.out = []; s.line = s.a; s.deferred = False; s.breaks = []
    def ln(s): return '%d' % (s.fi * 10000 + s.line)
    def problem(s, m): PROBLEMS.append('%s:%d %s: %s' % (s.file, s.line, s.name, m))
    def slot(s, name):
        i = s.n; s.n += 1; s.names.append(name); return i
    def declare(s, name, ty):
        i = s.slot(name); s.scopes[-1][name] = (i, ty); return i
    def lookup(s, name):
        for sc in reversed(s.scopes):
            if name in sc: return sc[name]
        return None
    def var(s, i): return '(.var %d /-%s-/)' % (i, s.names[i])
    def emit(s, x): s.out.append(x)
    def sub(s, f):
        """statements emitted by f"""
        o, s.out = s.out, []
        s.scopes.append({}); f(); s.scopes.pop()
        r, s.out = s.out, o
        return r
    def conv(s, x, ty, to):
        if ty is not None and to in IFACES and ty.startswith('*'): CONVS.append((s.file, s.line, s.name, ty, to, x))
        return x
    # ---- expressions: (lean, go type); effects are emitted
    def pure(s, e):
        """no call with an effect inside"""
        k = e[0]
        if k in ('id', 'int', 'str', 'char'): return True
        if k == 'sel': return s.pure(e[1])
        if k == 'un': return s.pure(e[2])
        if k == 'bin': return s.pure(e[2]) and s.pure(e[3])
        if k in ('index',): return s.pure(e[1]) and s.pure(e[2])
        if k == 'lit': return all(s.pure(v) for _, v in e[2])
        if k == 'call':
            f = e[1]
            if f[0] == 'sel' and f[1] == ('id', 'p'):
                return f[2] in ('currentTokenKind', 'currentTokenString', 'current', 'End', 'Pos', 'matchTokenKind', 'matchKeyword', 'matchOneOfKeywords') and all(s.pure(a) for a in e[2])
            if f[0] == 'sel' and f[1] == ('sel', ('id', 'p'), 'lexer'): return f[2] == 'isEOF'
            return all(s.pure(a) for a in e[2] if a[0] not in ('type', 'func')) and (f[0] != 'sel' or s.pure(f[1]))
        if k == 'func': return True
        return False
    def ex(s, e, want=None):
        k = e[0]
        if k == 'int': return '(.nat %d)' % e[1], 'int'
        if k == 'str': return '(.str %s)' % lstr(e[1]), 'string'
        if k == 'id':
            n = e[1]
            if n == 'nil': return '.nil', None
            if n in ('true', 'false'): return '(.bool %s)' % n, 'bool'
            v = s.lookup(n)
            if v: return s.var(v[0]), v[1]
            if n in CONST:
                c = CONST[n]
                return ('(.str %s)' % lstr(c[1]) if c[0] == 'str' else '(.nat %d)' % c[1]), c[2]
            raise Exception('unknown ident ' + n)
        if k == 'sel':
            x, ty = s.ex(e[1])
            st = ty.lstrip('*')
            for i, (fn, ft) in enumerate(STRUCTS[st]):
                if fn == e[2]: return '(.fld %s %d /-%s-/)' % (x, i, fn), ft
            raise Exception('no field %s.%s' % (st, e[2]))
        if k == 'un':
            if e[1] == '!':
                x, _ = s.ex(e[2]); return '(.not %s)' % x, 'bool'
            if e[1] == '&':
                x, ty = s.ex(e[2]); return x, '*' + ty
            if e[1] == '*':
                x, ty = s.ex(e[2]); return '(.deref %s)' % x, ty[1:]
        if k == 'bin': return s.binary(e)
        if k == 'lit': return s.lit(e, want)
        if k == 'index':
            x, ty = s.ex(e[1])
            i = e[2]
            if i == ('bin', '-', ('call', ('id', 'len'), [e[1]], False), ('int', 1)): return '(.last %s)' % x, ty[2:]
            y, _ = s.ex(i)
            return '(.idx %s %s)' % (x, y), ty[2:]
        if k == 'call': return s.call(e)
        raise Exception('expr %s' % (e,))
    def cond(s, e):
        if e[0] == 'bin' and e[1] in ('&&', '||') and not s.pure(e[3]):
            t = s.slot('cond')
            a, _ = s.ex(e[2])
            s.emit('.set %s %d %s' % (s.ln(), t, a))
            body = []
            def f():
                b, _ = s.ex(e[3])
                s.emit('.set %s %d %s' % (s.ln(), t, b))
            body = s.sub(f)
            if e[1] == '&&': s.emit(('ite', s.ln(), s.var(t), body, []))
            else: s.emit(('ite', s.ln(), s.var(t), [], body))
            return s.var(t)
        return s.ex(e)[0]
    def binary(s, e):
        op, a, b = e[1], e[2], e[3]
        if op in ('&&', '||'):
            if not s.pure(b): return s.cond(e), 'bool'
            x, _ = s.ex(a); y, _ = s.ex(b)
            return '(.%s %s %s)' % ({'&&': 'and', '||': 'or'}[op], x, y), 'bool'
        if not s.pure(b) and not s.pure(a): s.problem('two effects in %s' % op)
        if not s.pure(b) and a[0] not in ('id', 'str', 'int'): s.problem('effect on the right')
        if op in ('==', '!='):
            if b == ('id', 'nil'):
                x, _ = s.ex(a); r = '(.isNil %s)' % x
            else:
                x, tx = s.ex(a); y, ty = s.ex(b)
                if tx in STRTYPES or ty in STRTYPES: r = '(.eqStr %s %s)' % (x, y)
                elif tx in NUMTYPES: r = '(.eqNat %s %s)' % (x, y)
                else: raise Exception('== on %s' % tx)
            return (r if op == '==' else '(.not %s)' % r), 'bool'
        x, tx = s.ex(a); y, ty = s.ex(b)
        if op in ('<', '>', '<=', '>='):
            assert tx in NUMTYPES or ty in NUMTYPES
            return {'<': '(.lt %s %s)' % (x, y), '>': '(.lt %s %s)' % (y, x), '<=': '(.not (.lt %s %s))' % (y, x), '>=': '(.not (.lt %s %s))' % (x, y)}[op], 'bool'
        if op == '+': return ('(.cat %s %s)' if tx in STRTYPES else '(.add %s %s)') % (x, y), tx
        if op == '-': return '(.sub %s %s)' % (x, y), tx
        raise Exception('op ' + op)
    def lit(s, e, want):
        t = tstr(e[1])
        if t.startswith('[]'):
            et = t[2:]
            if et in STRTYPES and all(v[0] in ('str', 'id') and (v[0] == 'str' or v[1] in CONST) for _, v in e[2]):
                return '(.strs %s)' % strs([v[1] if v[0] == 'str' else CONST[v[1]][1] for _, v in e[2]]), t
            r = '.empty'
            for _, v in e[2]:
                x, ty = s.ex(v); r = '(.append %s %s)' % (r, s.conv(x, ty, et))
            return r, t
        given = {}
        fields = STRUCTS[t]
        impure = [i for i, (kk, v) in enumerate(e[2]) if not s.pure(v)]
        for i, (kk, v) in enumerate(e[2]):
            assert kk and kk[0] == 'id', e
            ft = dict(fields)[kk[1]]
            x, ty = s.ex(v, ft)
            given[kk[1]] = s.conv(x, ty, ft)
            # keep Go's order of evaluation: what is read before a later effect is read now
            if any(j > i for j in impure) and not re.match(r'\(\.(var|str|nat|bool) ', x) and x not in ('.nil', '.empty'):
                t2 = s.slot('tmp'); s.emit('.set %s %d %s' % (s.ln(), t2, x)); given[kk[1]] = s.var(t2)
            elif any(j > i for j in impure) and x.startswith('(.var'):
                pass
        args = []
        for fn, ft in fields:
            args.append('%s' % (given.get(fn) or zero(ft)))
        return '(.mk .%s [%s])' % (t, ', '.join('%s /-%s-/' % (a, fn) if not a.startswith('(.var') or True else a for a, (fn, _) in zip(args, fields))), t
    def args(s, es, tys=None):
        out = []
        imp = [i for i, a in enumerate(es) if not s.pure(a)]
        for i, a in enumerate(es):
            if imp and i < imp[-1] and a[0] not in ('id', 'str', 'int'): s.problem('effect after argument')
            x, ty = s.ex(a)
            if tys: s.conv(x, ty, tys[i])
            out.append((x, ty))
        return out
    def prim(s, p, types, dst=None):
        """emits a primitive call; returns the expressions of its results"""
        ds = dst if dst is not None else [s.slot('tmp') for _ in types]
        s.emit('.prim %s %s [%s]' % (s.ln(), p, ', '.join(map(str, ds))))
        return ds
    def effect(s, e, dst=None):
        """an effectful call: emits it, returns (slots, types); None if the expression is no such call"""
        if e[0] != 'call': return None
        f, a = e[1], e[2]
        if f[0] != 'sel': return None
        L = f[1] == ('sel', ('id', 'p'), 'lexer')
        if f[1] != ('id', 'p') and not L: return None
        n = f[2]
        if L:
            if n == 'consumeToken': return s.prim('.consume', ['error'], dst), ['error']
            if n == 'peekToken': return s.prim('.peek', ['*Token', 'error'], dst), ['*Token', 'error']
            return None
        if n in ('tryConsumeTokenKind', 'expectTokenKind', 'expectKeyword'):
            x, _ = s.ex(a[0])
            c, ty = {'tryConsumeTokenKind': ('tryKind', '*Token'), 'expectTokenKind': ('expectKind', 'error'), 'expectKeyword': ('expectKw', 'error')}[n]
            return s.prim('(.%s %s)' % (c, x), [ty], dst), [ty]
        if n == 'tryConsumeKeywords':
            return s.prim('(.tryKws %s)' % strs([CONST[k[1]][1] for k in a]), ['bool'], dst), ['bool']
        if n == 'wrapError':
            return s.prim('(.wrap %s)' % s.ex(a[0])[0], ['error'], dst), ['error']
        if n in BUILTIN: return None
        ps, rs = FUNCS[n][0], FUNCS[n][1]
        assert len(ps) == len(a), (n, a)
        ar = s.args(a, [tstr(p[1]) for p in ps])
        ds = dst if dst is not None else [s.slot('tmp') for _ in rs]
        if n in INOUT:
            ds = list(ds)[:len(rs)] + [s.lookup(a[0][1])[0]]
        s.emit('.call %s .%s [%s] [%s]' % (s.ln(), n, ', '.join(x for x, _ in ar), ', '.join(map(str, ds))))
        return ds[:len(rs)], rs
    def call(s, e):
        f, a = e[1], e[2]
        r = s.effect(e)
        if r is not None:
            ds, tys = r
            assert len(ds) == 1, (e, tys)
            return s.var(ds[0]), tys[0]
        if f[0] == 'id':
            n = f[1]
            if n == 'len': x, _ = s.ex(a[0]); return '(.len %s)' % x, 'int'
            if n == 'append':
                x, ty = s.ex(a[0])
                if e[3]:
                    y, _ = s.ex(a[1]); return '(.appendAll %s %s)' % (x, y), ty
                for y in a[1:-1]: x = '(.append %s %s)' % (x, s.ex(y)[0])
                a = [a[0], a[-1]]
                if not s.pure(a[1]) and a[0][0] != 'id' and not (a[0][0] == 'sel' and a[0][1][0] == 'id'): s.problem('append order')
                y, ty2 = s.ex(a[1])
                return '(.append %s %s)' % (x, s.conv(y, ty2, ty[2:])), ty
            if n == 'make':
                assert a[0][0] == 'type' and a[0][1][0] == 'arr' and a[1] == ('int', 0), a
                return '.empty', tstr(a[0][1])
            if n in ('string', 'TokenKind', 'Pos', 'OrderDirection'):
                x, _ = s.ex(a[0]); return x, n
            raise Exception('call ' + n)
        assert f[0] == 'sel', e
        n = f[2]
        if f[1] == ('id', 'p'):
            if n == 'current': return '.cur', '*Token'
            if n == 'currentTokenKind': return '.curKind', 'TokenKind'
            if n == 'currentTokenString': return '.curString', 'string'
            if n == 'Pos': return '.pos', 'Pos'
            if n == 'End': return '.end_', 'Pos'
            if n == 'matchTokenKind': return '(.matchKinds [%s])' % ', '.join(x for x, _ in s.args(a)), 'bool'
            if n == 'matchKeyword': return '(.matchKw %s)' % s.ex(a[0])[0], 'bool'
            if n == 'matchOneOfKeywords':
                if e[3]: return '(.matchOneOf %s)' % s.ex(a[0])[0], 'bool'
                return '(.matchOneOf (.strs %s))' % strs([CONST[k[1]][1] for k in a]), 'bool'
            raise Exception('method ' + n)
        if f[1] == ('sel', ('id', 'p'), 'lexer') and n == 'isEOF': return '.isEOF', 'bool'
        if f[1] == ('id', 'strings'):
            if n == 'ToUpper': return '(.upper %s)' % s.ex(a[0])[0], 'string'
            if n == 'EqualFold': return '(.equalFold %s %s)' % (s.ex(a[0])[0], s.ex(a[1])[0]), 'bool'
            if n == 'Join': return '(.len %s)' % s.ex(a[0])[0], 'string'    # only used as an argument of an error
        if f[1] == ('id', 'errors') and n == 'New': return '(.error %s [])' % lstr(a[0][1]), 'error'
        if f[1] == ('id', 'fmt') and n == 'Errorf':
            return '(.error %s [%s])' % (lstr(a[0][1]), ', '.join(x for x, _ in s.args(a[1:]))), 'error'
        if f[1] == ('id', 'fmt') and n == 'Sprintf':
            parts = re.split(r'%[sv]', a[0][1]); assert '%' not in ''.join(parts)
            xs = [x for x, _ in s.args(a[1:])]
            r = '(.str %s)' % lstr(parts[-1])
            for p, x in reversed(list(zip(parts[:-1], xs))):
                r = x if r == '(.str b!"")' else '(.cat %s %s)' % (x, r)
                if p: r = '(.cat (.str %s) %s)' % (lstr(p), r)
            return r, 'string'
        if f[1] == ('id', 'intervalUnits'): return '(.isUnit %s)' % s.ex(a[0])[0], 'bool'
        if f[1] == ('id', 'slices') and n == 'Contains': return '(.contains %s %s)' % (s.ex(a[0])[0], s.ex(a[1])[0]), 'bool'
        if f[1] == ('id', 'slices') and n == 'ContainsFunc':
            fb = a[1][3]; pn = a[1][1][0][0]
            assert len(fb) == 1 and fb[0][0] == 'return' and fb[0][1][0][1] == ('sel', ('id', 'strings'), 'EqualFold') and fb[0][1][0][2][0] == ('id', pn), fb
            return '(.containsFold %s %s)' % (s.ex(a[0])[0], s.ex(fb[0][1][0][2][1])[0]), 'bool'
        x, ty = s.ex(f[1])
        if n == 'ToString' and ty == '*Token': return '(.tokText %s)' % x, 'string'
        if n in ('Pos', 'End'):
            st = '.iface' if ty in IFACES else '(.ptr .%s)' % ty.lstrip('*')
            return '(.%s %s %s)' % ('posOf' if n == 'Pos' else 'endOf', x, st), 'Pos'
        raise Exception('call %s' % (e,))
    # ---- statements
    def block(s, sts):
        def f():
            for st in sts: s.stmt(st)
        return s.sub(f)
    def target(s, l, ty, define):
        """slot of a simple target"""
        assert l[0] == 'id', l
        if l[1] == '_': return DISCARD
        if define and l[1] not in s.scopes[-1]: return s.declare(l[1], ty)
        return s.lookup(l[1])[0]
    def store(s, l, x, ty, define):
        if l[0] == 'id':
            if l[1] == '_': return
            if define and l[1] not in s.scopes[-1]: i = s.declare(l[1], ty or '?')
            else:
                i, t = s.lookup(l[1]); s.conv(x, ty, t)
            s.emit('.set %s %d %s /-%s-/' % (s.ln(), i, x, l[1])); return
        if l[0] == 'index' and l[1] == ('sel', ('id', 'p'), 'failedIntervalOffsets'): raise Exception
        path, base = [], l
        while base[0] == 'sel': path.insert(0, base[2]); base = base[1]
        assert base[0] == 'id', l
        i, t = s.lookup(base[1]); idx = []
        for n in path:
            fs = STRUCTS[t.lstrip('*')]
            j = [k for k, (fn, _) in enumerate(fs) if fn == n][0]
            idx.append(j); t = fs[j][1]
        s.conv(x, ty, t)
        s.emit('.setF %s %d [%s] %s /-%s.%s-/' % (s.ln(), i, ', '.join(map(str, idx)), x, base[1], '.'.join(path)))
    def assign(s, lhs, rhs, define):
        if len(lhs) == len(rhs) == 1 and rhs[0][0] == 'call' and rhs[0][1] == ('sel', ('sel', ('id', 'p'), 'lexer'), 'saveState'):
            s.scopes[-1][lhs[0][1]] = (None, 'lexerState'); s.emit('.save'); return
        if len(lhs) == 2 and len(rhs) == 1:
            r = rhs[0]
            if r[0] == 'assert':
                x, ty = s.ex(r[1]); t = tstr(r[2])
                ok = s.declare(lhs[1][1], 'bool'); s.emit('.set %s %d (.isTy %s .%s) /-%s-/' % (s.ln(), ok, x, t[1:], lhs[1][1]))
                i = s.declare(lhs[0][1], t)
                s.emit(('ite', s.ln(), s.var(ok), ['.set %s %d %s /-%s-/' % (s.ln(), i, x, lhs[0][1])], ['.set %s %d .nil /-%s-/' % (s.ln(), i, lhs[0][1])]))
                return
            if r[0] == 'index' and r[1] == ('sel', ('id', 'p'), 'failedIntervalOffsets'):
                assert lhs[0] == ('id', '_')
                x, _ = s.ex(r[2]); i = s.declare(lhs[1][1], 'bool')
                s.emit('.set %s %d (.memoHas %s) /-%s-/' % (s.ln(), i, x, lhs[1][1])); return
            if r[0] == 'index' and r[1] == ('id', 'keywordArgFunctions'):
                x, _ = s.ex(r[2])
                i = s.declare(lhs[0][1], 'KeywordArgForm'); ok = s.declare(lhs[1][1], 'bool')
                cur = ['.set %s %d %s /-%s-/' % (s.ln(), i, zero('KeywordArgForm'), lhs[0][1]), '.set %s %d (.bool false) /-%s-/' % (s.ln(), ok, lhs[1][1])]
                for k, d in reversed(forms()):
                    v = '(.mk .KeywordArgForm [%s])' % ', '.join(
                        ('.nil' if d[f] is None else '(.strs %s)' % strs(d[f])) if t == '[]string' else ('(.bool %s)' if t == 'bool' else '(.nat %s)') % d[f]
                        for f, t in STRUCTS['KeywordArgForm'])
                    cur = [('ite', s.ln(), '(.eqStr %s (.str %s))' % (x, lstr(k)), ['.set %s %d %s /-%s-/' % (s.ln(), i, v, lhs[0][1]), '.set %s %d (.bool true) /-%s-/' % (s.ln(), ok, lhs[1][1])], cur)]
                s.out += cur; return
        if len(rhs) == 1 and rhs[0][0] == 'call' and not s.pure(rhs[0]):
            f = rhs[0][1]
            if (f[0] == 'sel' and (f[1] == ('id', 'p') or f[1] == ('sel', ('id', 'p'), 'lexer'))):
                if all(l[0] == 'id' for l in lhs):
                    # the types are needed before the call is emitted
                    o, s.out = s.out, []; n, nm = s.n, list(s.names)
                    r = s.effect(rhs[0]); s.out = o; s.n, s.names = n, nm
                    tys = r[1]
                    # arguments are evaluated before the targets are declared
                    o, s.out = s.out, []
                    sc = s.scopes[-1]; s.scopes[-1] = dict(sc)
                    ds = [DISCARD if l[1] == '_' else None for l in lhs]
                    s.scopes[-1] = sc
                    s.out = o
                    olds = {l[1]: (l[1] in s.scopes[-1]) for l in lhs}
                    pre = s.out; s.out = []
                    # evaluate with the old scope
                    news = {}
                    for k, l in enumerate(lhs):
                        if ds[k] is not None: continue
                        if define and l[1] not in s.scopes[-1]: ds[k] = news[l[1]] = s.slot(l[1])
                        else:
                            ds[k], t = s.lookup(l[1]); s.conv('result of ' + str(f[2]), tys[k], t)
                    s.effect(rhs[0], ds)
                    for k, l in enumerate(lhs):
                        if l[1] in news: s.scopes[-1][l[1]] = (news[l[1]], tys[k])
                    s.out = pre + s.out
                    return
                r = s.effect(rhs[0])
                for l, d, t in zip(lhs, r[0], r[1]): s.store(l, s.var(d), t, define)
                return
        assert len(lhs) == len(rhs), (lhs, rhs)
        if len(lhs) > 1: assert all(r[0] in ('id', 'int') for r in rhs)
        for l, r in zip(lhs, rhs):
            x, ty = s.ex(r)
            s.store(l, x, ty, define)
    def ret(s, es):
        if len(es) == 1 and len(s.results) != 1 or (len(es) == 1 and s.effectful(es[0])):
            ds, tys = s.effect(es[0])
            for d, t, w in zip(ds, tys, s.results): s.conv('result of ' + es[0][1][2], t, w)
            xs = [s.var(d) for d in ds]
        else:
            xs = []
            for x, w in zip(es, s.results):
                if not s.pure(x) and len(es) > 1 and any(s.pure(y) and y[0] not in ('id', 'int', 'str') for y in es): s.problem('return order')
                v, ty = s.ex(x); xs.append(s.conv(v, ty, w))
        if s.name in INOUT: xs.append(s.var(0))
        if s.deferred:
            ts = []
            for x in xs:
                t = s.slot('tmp'); s.emit('.set %s %d %s' % (s.ln(), t, x)); ts.append(s.var(t))
            s.emit('.restore'); xs = ts
        s.emit('.ret %s [%s]' % (s.ln(), ', '.join(xs)))
    def effectful(s, e):
        return e[0] == 'call' and not s.pure(e) and e[1][0] == 'sel' and (e[1][1] == ('id', 'p'))
    def stmt(s, st):
        s.line = st[-1]; k = st[0]
        if k == 'define': s.assign(st[1], st[2], True)
        elif k == 'assign':
            op, lhs, rhs = st[1], st[2], st[3]
            if lhs[0][0] == 'index' and lhs[0][1] == ('sel', ('id', 'p'), 'failedIntervalOffsets'):
                s.emit('.memoAdd %s %s' % (s.ln(), s.ex(lhs[0][2])[0])); return
            if lhs[0] == ('sel', ('id', 'p'), 'failedIntervalOffsets'): return   # make(map): the empty map
            if op == '+=': rhs = [('bin', '+', lhs[0], rhs[0])]
            elif op != '=': raise Exception(op)
            s.assign(lhs, rhs, False)
        elif k == 'var':
            t = tstr(st[2])
            for n in st[1]: i = s.declare(n, t); s.emit('.set %s %d %s /-%s-/' % (s.ln(), i, zero(t), n))
        elif k == 'inc':
            assert st[2] == '++'; x, ty = s.ex(st[1]); s.store(st[1], '(.add %s (.nat 1))' % x, ty, False)
        elif k == 'expr':
            e = st[1]
            if e[0] == 'call' and e[1] == ('sel', ('sel', ('id', 'p'), 'lexer'), 'restoreState'): s.emit('.restore'); return
            r = s.effect(e, [DISCARD] * 3); assert r is not None, e
        elif k == 'defer':
            assert st[1][1] == ('sel', ('sel', ('id', 'p'), 'lexer'), 'restoreState'); s.deferred = True
        elif k == 'return': s.ret(st[1])
        elif k == 'break':
            if s.breaks[-1] == 'switch': s.problem('break of a switch')
            s.emit('.brk')
        elif k == 'continue': s.emit('.cont')
        elif k == 'if':
            l = st[-1]
            def f():
                if st[1]: s.stmt(st[1]); s.line = l
                if st[2] == ('bin', '==', ('sel', ('id', 'p'), 'failedIntervalOffsets'), ('id', 'nil')): return
                c = s.cond(st[2]); here = s.ln()
                s.emit(('ite', here, c, s.block(st[3]), s.block(st[4] or [])))
            s.scopes.append({}); f(); s.scopes.pop()
        elif k == 'for':
            assert not st[1] and not st[3]
            def body():
                if st[2]:
                    s.line = st[-1]; c = s.cond(st[2]); s.emit(('ite', s.ln(), c, [], ['.brk']))
                s.breaks.append('for')
                for x in st[4]: s.stmt(x)
                s.breaks.pop()
            s.emit(('loop', s.sub(body)))
        elif k == 'range':
            # over a package level list of constants: unrolled
            assert st[3][0] == 'id', st
            for c in go_list(st[3][1]):
                s.scopes.append({}); old = CONST.get(st[2][1]); CONST[st[2][1]] = CONST[c]
                for x in st[4]: s.stmt(x)
                s.scopes.pop()
                if old is None: del CONST[st[2][1]]
                else: CONST[st[2][1]] = old
        elif k == 'switch': s.switch(st)
        else: raise Exception('stmt ' + k)
    def nobreak(s, body):
        """`if c { break }; rest` in a case of a switch is `if !c { rest }`"""
        for i, st in enumerate(body):
            if st[0] == 'if' and not st[1] and not st[4] and len(st[3]) == 1 and st[3][0][0] == 'break':
                return body[:i] + [('if', None, ('un', '!', st[2]), s.nobreak(body[i + 1:]), None, st[-1])]
        return body
    def switch(s, st):
        init, tag, cases, l = st[1], st[2], st[3], st[4]
        cases = [(v, s.nobreak(b), cl) for v, b, cl in cases]
        assert not init
        s.scopes.append({})
        bind = ty = None
        if tag is not None:
            if tag[0] == 'define': bind, tag = tag[1][0][1], ('expr', tag[2][0], l)
            tag = tag[1]
            if tag[0] == 'assert' and tag[2] == 'type':
                x, ty = s.ex(tag[1])
                if bind: i = s.slot(bind); s.emit('.set %s %d %s /-%s-/' % (s.ln(), i, x, bind)); x = s.var(i)
                def test(v): return '(.isTy %s .%s)' % (x, tstr(v)[1:])
            else:
                x, ty0 = s.ex(tag)
                if not x.startswith('(.var'):
                    i = s.slot('tag'); s.emit('.set %s %d %s' % (s.ln(), i, x)); x = s.var(i)
                def test(v):
                    y, t2 = s.ex(v)
                    return ('(.eqStr %s %s)' if ty0 in STRTYPES else '(.eqNat %s %s)') % (x, y)
        def go(cs):
            if not cs: return
            vals, body, cl = cs[0]
            if vals is None:
                rest = [c for c in cs[1:]]
                assert not rest, 'default not last'
                s.breaks.append('switch'); s.out += s.block(body); s.breaks.pop(); return
            s.line = cl
            if tag is None:
                e = vals[0]
                for v in vals[1:]: e = ('bin', '||', e, v)
                c = s.cond(e)
            else:
                c = test(vals[0])
                for v in vals[1:]: c = '(.or %s %s)' % (c, test(v))
            here = s.ln()
            if bind: s.scopes.append({bind: (int(re.match(r'\(\.var (\d+)', x)[1]), tstr(vals[0]))})
            s.breaks.append('switch'); a = s.block(body); s.breaks.pop()
            if bind: s.scopes.pop()
            b = s.sub(lambda: go(cs[1:]))
            s.emit(('ite', here, c, a, b))
        cs = [c for c in cases if c[0] is not None] + [c for c in cases if c[0] is None]
        go(cs)
        s.scopes.pop()
    def run(s):
        for p in s.params: s.declare(p[0] if p[0] != '_' else '_', tstr(p[1])) if p[0] != '_' else s.slot('_')
        for n, t in zip(NAMED.get(s.name, []), s.results):
            i = s.declare(n, t); s.emit('.set %s %d %s /-%s-/' % (s.ln(), i, zero(t), n))
        for st in s.body: s.stmt(st)
        return s.out

def render(sts, ind):
    p = '  ' * ind
    if not sts: return p + '.skip'
    out = []
    for st in sts:
        if isinstance(st, str): out.append(p + st if not st.startswith('(') else p + st)
        elif st[0] == 'ite':
            out.append('%s.ite %s %s\n%s\n%s' % (p, st[1], st[2], paren(render(st[3], ind + 1)), paren(render(st[4], ind + 1))))
        elif st[0] == 'loop':
            out.append('%s.loop\n%s' % (p, paren(render(st[1], ind + 1))))
    return ' ;;\n'.join(out)
def paren(x):
    i = len(x) - len(x.lstrip(' '))
    t = x.lstrip(' ')
    return ' ' * i + (t if t in ('.skip', '.brk', '.cont', '.restore', '.save') else '(' + t + ')')

def lint_alias(name):
    """variables whose fields are assigned and that are also used as a value before: report"""
    params, results, body, a, b, file = FUNCS[name]
    assigned, uses = {}, {}
    def lhs(l, line):
        if l[0] == 'sel':
            x = l
            while x[0] == 'sel': x = x[1]
            if x[0] == 'id': assigned.setdefault(x[1], []).append(line)
    def exp(e, line, top=False):
        if not isinstance(e, tuple): return
        if e[0] == 'id':
            uses.setdefault(e[1], []).append(line); return
        if e[0] == 'sel':
            if e[1][0] != 'id': exp(e[1], line)
            return
        if e[0] == 'bin' and e[3] == ('id', 'nil'):
            if e[2][0] != 'id': exp(e[2], line)
            return
        if e[0] == 'call' and e[1][0] == 'sel': exp(e[1], line)
        elif e[0] == 'call': pass
        if e[0] == 'lit':
            for _, v in e[2]: exp(v, line)
            return
        for x in e[1:]:
            if isinstance(x, list):
                for y in x: exp(y, line)
            else: exp(x, line)
    def st(t):
        k, line = t[0], t[-1]
        if k == 'assign':
            for l in t[2]: lhs(l, line)
            for r in t[3]: exp(r, line)
        elif k == 'define':
            for r in t[2]: exp(r, line)
        elif k == 'if':
            if t[1]: st(t[1])
            exp(t[2], line)
            for x in t[3] + (t[4] or []): st(x)
        elif k == 'for':
            if t[2]: exp(t[2], line)
            for x in t[4]: st(x)
        elif k == 'switch':
            for v, b, l in t[3]:
                for x in v or []:
                    if isinstance(x, tuple) and x[0] in ('call', 'bin', 'un'): exp(x, l)
                for x in b: st(x)
        elif k == 'expr': exp(t[1], line)
    for t in body: st(t)
    for v, ls in assigned.items():
        if v in [p[0] for p in params]: print('  param mutated', file, name, v, ls)
        early = [u for u in uses.get(v, []) if u <= max(ls)]
        if early: print('  alias?', file, name, v, 'assigned', ls, 'used', early)

if __name__ == '__main__':
    names = [n for n in FUNCS if n not in BUILTIN]
    bodies = {}
    for n in names:
        t = Tr(n)
        try: bodies[n] = (t, t.run())
        except Exception as ex:
            print('FAILED %s:%d %s: %r' % (t.file, t.line, n, ex))
            if os.environ.get('TB'): raise
    for p in PROBLEMS: print('PROBLEM', p)
    if os.environ.get('LINT'):
        for n in names: lint_alias(n)
        for c in CONVS: print('conv', c)
    with open(OUT + 'Fn.lean', 'w') as o:
        o.write('/-\nThe names of the methods of `Parser` that are translated, with their place in the source.\nWritten by tools/genparser.py from the Go text.\n-/\n\nnamespace Verif\n\n')
        o.write('/-- The methods of `Parser` (parser/parser_*.go, parser/parse_system.go). -/\ninductive Fn where\n')
        for n in names: o.write('  /-- parser/%s.go:%d-%d -/\n  | %s\n' % (FUNCS[n][5], FUNCS[n][3], FUNCS[n][4], n))
        o.write('deriving DecidableEq, Repr\n\nend Verif\n')
    for f in FILES:
        with open(OUT + 'Table%s.lean' % TABLES[f], 'w') as o:
            o.write('/-\nThe methods of parser/%s.go.\nWritten by tools/genparser.py from the Go text.\n-/\nimport Verif.Parser.Lang\nimport Verif.Parser.Fn\n\nnamespace Verif.Body\n\n' % f)
            for n in names:
                if FUNCS[n][5] != f or n not in bodies: continue
                t, b = bodies[n]
                vs = ', '.join('%d %s' % (i, v) for i, v in enumerate(t.names))
                o.write('/-- `%s`, parser/%s.go:%d-%d. -/\ndef %s : Func Fn := ⟨%d,\n%s⟩\n\n' % (n, f, t.a, t.b, n, t.n, render(b, 1)))
            o.write('end Verif.Body\n')
    with open(OUT + 'Table.lean', 'w') as o:
        o.write('/-\nThe bodies of all methods of `Parser`.\nWritten by tools/genparser.py from the Go text.\n-/\n')
        for f in FILES: o.write('import Verif.Parser.Table%s\n' % TABLES[f])
        o.write('\nnamespace Verif\n\n/-- The body of every method (parser/parser_*.go, parser/parse_system.go). -/\ndef fnTable : Fn → Func Fn\n')
        for n in names: o.write('  | .%s => Body.%s\n' % (n, n))
        o.write('\nend Verif\n')
    print(len(names), 'methods')
