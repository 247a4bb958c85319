"""A parser for the subset of Go used by the parser sources: source text to nested tuples.

Expressions:  ('id', name) ('int', n) ('str', s) ('char', n) ('sel', e, name) ('call', e, args, dots)
              ('index', e, i) ('slice', e, lo, hi) ('assert', e, type) ('lit', type, [(key, e)])
              ('un', op, e) ('bin', op, a, b) ('conv', type, e) ('func', ...)
Types:        ('name', n) ('ptr', t) ('arr', t) ('map', k, v) ('struct',) ('func',) ('qual', p, n)
Statements:   ('define', lhs, rhs, line) ('assign', op, lhs, rhs, line) ('var', names, type, rhs, line)
              ('if', init, cond, then, else, line) ('for', init, cond, post, body, line)
              ('range', key, val, e, body, line) ('switch', init, tag, cases, line)
              ('typeswitch', bind, e, cases, line) ('return', es, line) ('break', label, line)
              ('continue', label, line) ('expr', e, line) ('inc', e, op, line) ('block', body, line)
              ('label', name, stmt, line) ('defer', e, line)
"""
import re

TOK = re.compile(r'''
  (?P<ws>[ \t\r]+) | (?P<nl>\n) | (?P<lc>//[^\n]*) | (?P<bc>/\*.*?\*/)
| (?P<id>[A-Za-z_]\w*) | (?P<int>0x[0-9a-fA-F]+|\d+)
| (?P<str>"(?:\\.|[^"\\])*") | (?P<raw>`[^`]*`) | (?P<char>'(?:\\.[^']*|[^'\\])')
| (?P<op><<=|>>=|&\^=|\.\.\.|&&|\|\||<-|\+\+|--|==|!=|<=|>=|:=|\+=|-=|\*=|/=|%=|&=|\|=|\^=|<<|>>|&\^|[-+*/%&|^<>=!()\[\]{},;.:])
''', re.X | re.S)
KW = {'func','return','if','else','for','range','switch','case','default','break','continue','var','const','type',
      'struct','map','interface','package','import','defer','go','goto','fallthrough','select','chan'}

def lex(src):
    out, i, line = [], 0, 1
    def last_ends():
        if not out: return False
        k, v, _ = out[-1]
        return k in ('id','int','str','char') or (k == 'kw' and v in ('return','break','continue','fallthrough')) \
            or (k == 'op' and v in (')',']','}','++','--'))
    while i < len(src):
        m = TOK.match(src, i)
        if not m: raise SyntaxError('line %d: %r' % (line, src[i:i+20]))
        k, t = m.lastgroup, m.group()
        if k == 'nl' or k == 'lc':
            if k == 'nl':
                if last_ends(): out.append(('op', ';', line))
        elif k == 'id': out.append(('kw' if t in KW else 'id', t, line))
        elif k == 'int': out.append(('int', int(t, 0), line))
        elif k == 'str': out.append(('str', eval(t), line))
        elif k == 'raw': out.append(('str', t[1:-1], line))
        elif k == 'char': out.append(('char', ord(eval(t)), line))
        elif k == 'op': out.append(('op', t, line))
        line += t.count('\n')
        i = m.end()
    if last_ends(): out.append(('op', ';', line))
    out.append(('eof', None, line))
    return out

PREC = {'||':1,'&&':2,'==':3,'!=':3,'<':3,'<=':3,'>':3,'>=':3,'+':4,'-':4,'|':4,'^':4,'*':5,'/':5,'%':5,'<<':5,'>>':5,'&':5}

class P:
    def __init__(s, src):
        s.t = lex(src); s.i = 0; s.nolit = 0
    def pk(s, n=0): return s.t[s.i+n]
    def line(s): return s.t[s.i][2]
    def isop(s, v): return s.t[s.i][0] == 'op' and s.t[s.i][1] == v
    def iskw(s, v): return s.t[s.i][0] == 'kw' and s.t[s.i][1] == v
    def eat(s, v):
        k, t, l = s.t[s.i]
        if k in ('op','kw') and t == v: s.i += 1; return l
        raise SyntaxError('line %d: expected %r got %r' % (l, v, t))
    def opt(s, v):
        k, t, l = s.t[s.i]
        if k in ('op','kw') and t == v: s.i += 1; return True
        return False
    def ident(s):
        k, t, l = s.t[s.i]
        if k != 'id': raise SyntaxError('line %d: expected ident got %r' % (l, t))
        s.i += 1; return t
    # types
    def type(s):
        if s.opt('*'): return ('ptr', s.type())
        if s.isop('['):
            s.eat('[')
            if not s.isop(']'): s.expr()
            s.eat(']'); return ('arr', s.type())
        if s.opt('map'):
            s.eat('['); k = s.type(); s.eat(']'); return ('map', k, s.type())
        if s.opt('struct'):
            s.eat('{'); d = 1
            while d:
                if s.isop('{'): d += 1
                if s.isop('}'): d -= 1
                s.i += 1
            return ('struct',)
        if s.opt('interface'):
            s.eat('{'); d = 1
            while d:
                if s.isop('{'): d += 1
                if s.isop('}'): d -= 1
                s.i += 1
            return ('interface',)
        if s.iskw('func'):
            s.i += 1; return ('func', s.params(), s.results())
        n = s.ident()
        if s.isop('.'):
            s.eat('.'); return ('qual', n, s.ident())
        if s.isop('[') and s.pk(1)[0] == 'id' and s.pk(2)[1] == ']':
            s.eat('['); a = s.type(); s.eat(']'); return ('gen', n, a)
        return ('name', n)
    def params(s):
        s.eat('('); items = []
        while not s.isop(')'):
            dots = s.opt('...')
            a = s.type()
            if not s.isop(',') and not s.isop(')'):
                dots = s.opt('...')
                b = s.type(); items.append((a, b, dots))
            else: items.append((a, None, dots))
            if not s.opt(','): break
        s.eat(')')
        # names: if any has both, single ones take the next type
        if any(b for _, b, _ in items):
            out, cur, cd = [], None, False
            for a, b, d in reversed(items):
                if b: cur, cd = b, d
                out.append((a[1], cur, cd))
            return out[::-1]
        return [(None, a, d) for a, _, d in items]
    def results(s):
        if s.isop('('): return [t for _, t, _ in s.params()]
        if s.isop('{') or s.isop(';') or s.isop(')') or s.isop(','): return []
        return [s.type()]
    # expressions
    def expr(s, p=1):
        a = s.unary()
        while s.t[s.i][0] == 'op' and PREC.get(s.t[s.i][1], 0) >= p:
            op = s.t[s.i][1]; s.i += 1
            b = s.expr(PREC[op] + 1)
            a = ('bin', op, a, b)
        return a
    def unary(s):
        k, t, l = s.pk()
        if k == 'op' and t in ('!','-','+','&','*','^'):
            s.i += 1; return ('un', t, s.unary())
        return s.postfix(s.operand())
    def operand(s):
        k, t, l = s.pk()
        if k == 'int': s.i += 1; return ('int', t)
        if k == 'str': s.i += 1; return ('str', t)
        if k == 'char': s.i += 1; return ('char', t)
        if k == 'op' and t == '(':
            s.i += 1; n, s.nolit = s.nolit, 0
            e = s.expr(); s.nolit = n; s.eat(')'); return e
        if k == 'op' and t == '[' or k == 'kw' and t in ('map','struct'):
            ty = s.type()
            if s.isop('('):
                s.eat('('); e = s.expr(); s.eat(')'); return ('conv', ty, e)
            return s.literal(ty)
        if k == 'kw' and t == 'func':
            s.i += 1; ps = s.params(); rs = s.results(); body = s.block()
            return ('func', ps, rs, body)
        if k == 'id':
            s.i += 1
            return ('id', t)
        raise SyntaxError('line %d: operand %r' % (l, t))
    def literal(s, ty):
        s.eat('{'); n, s.nolit = s.nolit, 0; items = []
        while not s.isop('}'):
            def el():
                return s.literal(None) if s.isop('{') else s.expr()
            a = el()
            if s.opt(':'): items.append((a, el()))
            else: items.append((None, a))
            if not s.opt(','): break
        s.opt(';')
        s.nolit = n; s.eat('}')
        return ('lit', ty, items)
    def postfix(s, e):
        while True:
            if s.isop('.'):
                s.eat('.')
                if s.opt('('):
                    if s.opt('type'): s.eat(')'); e = ('assert', e, 'type')
                    else: ty = s.type(); s.eat(')'); e = ('assert', e, ty)
                else: e = ('sel', e, s.ident())
            elif s.isop('('):
                s.eat('('); n, s.nolit = s.nolit, 0; args = []; dots = False
                while not s.isop(')'):
                    if s.isop('[') or s.iskw('map') or s.iskw('struct') :
                        k = s.i
                        ty = s.type()
                        if s.isop('{') or s.isop('('): s.i = k; args.append(s.expr())
                        else: args.append(('type', ty))
                    else: args.append(s.expr())
                    if s.opt('...'): dots = True
                    if not s.opt(','): break
                s.nolit = n; s.eat(')')
                e = ('call', e, args, dots)
            elif s.isop('['):
                s.eat('['); n, s.nolit = s.nolit, 0
                lo = None if s.isop(':') else s.expr()
                if s.opt(':'):
                    hi = None if s.isop(']') else s.expr()
                    e = ('slice', e, lo, hi)
                else: e = ('index', e, lo)
                s.nolit = n; s.eat(']')
            elif s.isop('{') and not s.nolit and e[0] in ('id','sel') and (e[0] == 'sel' or True) and s.islit(e):
                e = s.literal(('name', e[1]) if e[0] == 'id' else ('qual', e[1][1], e[2]))
            else: return e
    def islit(s, e):
        return e[0] == 'id' and (e[1][0].isupper() or e[1] in s.littypes)
    littypes = {'lexerState', 'stringState', 'byteSet', 'lineStarts'}
    # statements
    def block(s):
        s.eat('{'); n, s.nolit = s.nolit, 0; out = []
        while not s.isop('}'):
            if s.opt(';'): continue
            out.append(s.stmt())
            if not s.isop('}'): s.eat(';')
        s.nolit = n; s.eat('}'); return out
    def simple(s):
        l = s.line()
        if s.iskw('range'):
            s.eat('range'); return ('rangeonly', s.expr(), l)
        es = [s.expr()]
        while s.opt(','): es.append(s.expr())
        k, t, _ = s.pk()
        if k == 'op' and t == ':=':
            s.i += 1
            if s.opt('range'): return ('rangedef', es, s.expr(), l)
            rs = [s.expr()]
            while s.opt(','): rs.append(s.expr())
            return ('define', es, rs, l)
        if k == 'op' and t in ('=','+=','-=','*=','/=','|=','&='):
            s.i += 1
            rs = [s.expr()]
            while s.opt(','): rs.append(s.expr())
            return ('assign', t, es, rs, l)
        if k == 'op' and t in ('++','--'):
            s.i += 1; return ('inc', es[0], t, l)
        return ('expr', es[0], l)
    def stmt(s):
        l = s.line(); k, t, _ = s.pk()
        if k == 'kw':
            if t == 'return':
                s.i += 1; es = []
                if not s.isop(';') and not s.isop('}'):
                    es.append(s.expr())
                    while s.opt(','): es.append(s.expr())
                return ('return', es, l)
            if t == 'if': return s.ifstmt()
            if t == 'for': return s.forstmt()
            if t == 'switch': return s.switch()
            if t in ('break','continue'):
                s.i += 1; lab = s.ident() if s.pk()[0] == 'id' else None
                return (t, lab, l)
            if t == 'var':
                s.i += 1; names = [s.ident()]
                while s.opt(','): names.append(s.ident())
                ty = None if s.isop('=') else s.type()
                rhs = None
                if s.opt('='):
                    rhs = [s.expr()]
                    while s.opt(','): rhs.append(s.expr())
                return ('var', names, ty, rhs, l)
            if t == 'defer': s.i += 1; return ('defer', s.expr(), l)
            if t == 'func': return s.simple()
            if t == 'fallthrough': s.i += 1; return ('fallthrough', l)
            raise SyntaxError('line %d: stmt %r' % (l, t))
        if k == 'op' and t == '{': return ('block', s.block(), l)
        if k == 'id' and s.pk(1)[:2] == ('op', ':'):
            n = s.ident(); s.eat(':'); s.opt(';'); return ('label', n, s.stmt(), l)
        return s.simple()
    def header(s):
        """init; cond of an if or switch"""
        n, s.nolit = s.nolit, 1
        init = cond = None
        if not s.isop('{'):
            if not s.isop(';'): cond = s.simple()
            if s.opt(';'):
                init, cond = cond, None
                if not s.isop('{'): cond = s.simple()
        s.nolit = n
        return init, cond
    def ifstmt(s):
        l = s.eat('if'); init, cond = s.header(); then = s.block(); els = None
        if s.opt('else'):
            els = [s.ifstmt()] if s.iskw('if') else s.block()
        assert cond[0] == 'expr'
        return ('if', init, cond[1], then, els, l)
    def forstmt(s):
        l = s.eat('for'); n, s.nolit = s.nolit, 1
        init = cond = post = None
        if not s.isop('{'):
            if not s.isop(';'): init = s.simple()
            if init and init[0] == 'rangedef':
                s.nolit = n
                es = init[1] + [None] * (2 - len(init[1]))
                return ('range', es[0], es[1], init[2], s.block(), l)
            if init and init[0] == 'rangeonly':
                s.nolit = n; return ('range', None, None, init[1], s.block(), l)
            if s.opt(';'):
                if not s.isop(';'): cond = s.simple()
                s.eat(';')
                if not s.isop('{'): post = s.simple()
            else: init, cond = None, init
        s.nolit = n
        body = s.block()
        return ('for', init, cond[1] if cond else None, post, body, l)
    def switch(s):
        l = s.eat('switch'); init, tag = s.header()
        s.eat('{'); cases = []
        while not s.isop('}'):
            if s.opt(';'): continue
            cl = s.line()
            if s.opt('default'): vals = None
            else:
                s.eat('case')
                ists = tag is not None and 'assert' in str(tag) and "'type'" in str(tag)
                vals = [s.type() if ists else s.expr()]
                while s.opt(','): vals.append(s.type() if ists else s.expr())
            s.eat(':'); body = []
            while not (s.iskw('case') or s.iskw('default') or s.isop('}')):
                if s.opt(';'): continue
                body.append(s.stmt())
                if not s.isop('}'): s.eat(';')
            cases.append((vals, body, cl))
        s.eat('}')
        return ('switch', init, tag, cases, l)
    def file(s):
        """list of (name, receiver, params, results, body, first line, last line)"""
        out = []
        while s.pk()[0] != 'eof':
            if s.opt(';'): continue
            if s.iskw('func'):
                l = s.eat('func'); recv = None
                if s.isop('('): recv = s.params()[0]
                name = s.ident()
                if s.isop('['):
                    while not s.opt(']'): s.i += 1
                ps = s.params(); rs = s.results(); body = s.block()
                out.append((name, recv, ps, rs, body, l, s.t[s.i-1][2]))
            else:
                d = 0
                while True:
                    if s.isop('{') or s.isop('('): d += 1
                    if s.isop('}') or s.isop(')'): d -= 1
                    if s.isop(';') and d == 0: break
                    s.i += 1
        return out

def load(path):
    return P(open(path).read()).file()

if __name__ == '__main__':
    import sys
    for f in sys.argv[1:]:
        for fn in load(f): print(f.split('/')[-1], fn[0], fn[5], fn[6])
