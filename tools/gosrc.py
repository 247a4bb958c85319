"""Reads the subset of Go used by ast.go, walk.go and format.go: structs, methods, statements."""
import re
REPO = '/repo/parser/'

def read(f):
    return open(REPO + f).read().split('\n')

AST = read('ast.go')

def structs():
    out, i = {}, 0
    while i < len(AST):
        m = re.match(r'type (\w+) struct \{', AST[i])
        if m:
            fields, j = [], i + 1
            if AST[i].endswith('}'):
                out[m[1]] = (fields, i + 1, i + 1); i += 1; continue
            while AST[j] != '}':
                l = re.sub(r'//.*', '', AST[j]).strip()
                if l:
                    p = l.split()
                    if len(p) == 1:
                        fields.append((p[0].lstrip('*').split('.')[-1], p[0]))
                    else:
                        for n in ' '.join(p[:-1]).split(','):
                            fields.append((n.strip(), p[-1]))
                j += 1
            out[m[1]] = (fields, i + 1, j + 1); i = j
        i += 1
    return out

def methods(lines, name_re, sig):
    """{type: (receiver, body lines, first line, last line, method)} of methods with the given signature."""
    out, i = {}, 0
    while i < len(lines):
        m = re.match(r'func \((\w+) \*(\w+)\) (%s)%s \{' % (name_re, sig), lines[i])
        if m:
            if lines[i].endswith('{}'):
                out[(m[2], m[3])] = (m[1], [], i + 1, i + 1); i += 1; continue
            j = i + 1
            while lines[j] != '}': j += 1
            out[(m[2], m[3])] = (m[1], lines[i + 1:j], i + 1, j + 1)
            i = j
        i += 1
    return out

def func(lines, name):
    for i, l in enumerate(lines):
        if l.startswith('func %s(' % name):
            j = i + 1
            while lines[j] != '}': j += 1
            return lines[i + 1:j], i + 1, j + 1
    raise KeyError(name)

def parse(lines):
    """Statement tree of a gofmt'ed body."""
    ls = [(re.sub(r'\s*//.*$', '', l) if not re.search(r'"[^"]*//', l) else l).strip() for l in lines]
    ls = [l for l in ls if l]
    pos = 0
    def block():
        nonlocal pos
        out = []
        while pos < len(ls):
            l = ls[pos]
            if l.startswith('}') or re.match(r'(case .*|default):$', l):
                return out
            m = re.match(r'if (.*) \{$', l)
            if m:
                pos += 1
                a = block()
                out.append(('if', m[1], a, tail())); continue
            m = re.match(r'for (.*) \{$', l)
            if m:
                pos += 1
                a = block()
                assert ls[pos] == '}', ls[pos]
                pos += 1
                out.append(('for', m[1], a)); continue
            m = re.match(r'switch (.*) \{$', l)
            if m:
                pos += 1
                cases = []
                while ls[pos] != '}':
                    c = re.match(r'(?:case (.*)|default):$', ls[pos])
                    assert c, ls[pos]
                    pos += 1
                    cases.append((c[1], block()))
                pos += 1
                out.append(('switch', m[1], cases)); continue
            m = re.match(r'return\b\s*(.*)$', l)
            pos += 1
            if m: out.append(('return', m[1]))
            else: out.append(('stmt', l))
        return out
    def tail():
        nonlocal pos
        l = ls[pos]
        if l == '}':
            pos += 1; return []
        m = re.match(r'\} else if (.*) \{$', l)
        if m:
            pos += 1
            a = block()
            return [('if', m[1], a, tail())]
        assert l == '} else {', l
        pos += 1
        a = block()
        assert ls[pos] == '}'
        pos += 1
        return a
    r = block()
    assert pos == len(ls), ls[pos:]
    return r
