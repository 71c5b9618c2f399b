"""A parser for the subset of Rust used by /repo/src.

Produces a small syntax tree made of tuples; the first component is the kind of the node.
Used by rust2lean.py.
"""
import re

TOKEN = re.compile(r'''
    (?P<ws>\s+|//[^\n]*|/\*.*?\*/)
  | (?P<float>\d[\d_]*\.\d[\d_]*(?:f32)?|\d+e-\d+)
  | (?P<num>0x[0-9a-fA-F_]+|0b[01_]+|\d[\d_]*(?:i16)?)
  | (?P<bstr>b"[^"\\]*")
  | (?P<str>"(?:\\.|[^"\\])*")
  | (?P<char>'(?:\\.|[^'\\])')
  | (?P<life>'[a-z_]+)
  | (?P<id>[A-Za-z_][A-Za-z0-9_]*)
  | (?P<op>\.\.=|<<=|>>=|\.\.|::|->|=>|==|!=|<=|>=|&&|\|\||<<|>>|\+=|-=|\*=|/=|\|=|&=|[-+*/%&|^!=<>.,;:?@\#$(){}\[\]])
''', re.X | re.S)


def tokenize(src):
    toks, pos, line = [], 0, 1
    while pos < len(src):
        m = TOKEN.match(src, pos)
        if not m:
            raise SyntaxError('line %d: %r' % (line, src[pos:pos + 30]))
        kind = m.lastgroup
        text = m.group()
        if kind != 'ws':
            toks.append((kind, text, line))
        line += text.count('\n')
        pos = m.end()
    toks.append(('eof', '', line))
    return toks


BINPREC = {'||': 1, '&&': 2, '==': 3, '!=': 3, '<': 3, '>': 3, '<=': 3, '>=': 3,
           '|': 4, '^': 5, '&': 6, '<<': 7, '>>': 7, '+': 8, '-': 8, '*': 9, '/': 9, '%': 9}
ASSIGN = {'=', '+=', '-=', '*=', '/=', '|=', '&=', '<<=', '>>='}


class Parser:
    def __init__(self, src, tests=False):
        self.t = tokenize(src)
        self.p = 0
        self.tests = tests

    def peek(self, k=0):
        return self.t[self.p + k][1]

    def kind(self, k=0):
        return self.t[self.p + k][0]

    def line(self):
        return self.t[self.p][2]

    def lastline(self):
        return self.t[self.p - 1][2]

    def next(self):
        tok = self.t[self.p]
        self.p += 1
        return tok[1]

    def accept(self, s):
        if self.peek() == s and self.kind() in ('op', 'id'):
            self.p += 1
            return True
        return False

    def expect(self, s):
        if not self.accept(s):
            raise SyntaxError('line %d: expected %r, found %r' % (self.line(), s, self.peek()))

    def split(self):
        """Split a leading `>>`, `&&`, `||` token in two."""
        k, s, l = self.t[self.p]
        self.t[self.p:self.p + 1] = [('op', s[0], l), ('op', s[1:], l)]

    def ident(self):
        if self.kind() != 'id':
            raise SyntaxError('line %d: expected identifier, found %r' % (self.line(), self.peek()))
        return self.next()

    # ---- types -------------------------------------------------------------------------
    def generics(self):
        """`<T, U>`, already at `<`."""
        self.expect('<')
        args = []
        while True:
            if self.peek() == '>>':
                self.split()
            if self.accept('>'):
                return args
            args.append(self.type())
            if self.peek() == '>>':
                self.split()
            if not self.accept(','):
                self.expect('>')
                return args

    def type(self):
        if self.peek() == '&&':
            self.split()
        if self.accept('&'):
            if self.kind() == 'life':
                self.next()
            m = self.accept('mut')
            return ('refmut' if m else 'ref', self.type())
        if self.accept('dyn'):
            return ('dyn', self.type())
        if self.accept('('):
            ts = []
            while not self.accept(')'):
                ts.append(self.type())
                self.accept(',')
            return ('tuple', ts)
        if self.accept('['):
            t = self.type()
            n = None
            if self.accept(';'):
                n = self.expr()
            self.expect(']')
            return ('slice', t, n)
        if self.accept('_'):
            return ('infer',)
        self.accept('::')
        segs = [self.ident()]
        args = []
        while True:
            if self.peek() == '::' and self.kind(1) == 'id':
                self.next()
                segs.append(self.ident())
            elif self.peek() == '<':
                args = self.generics()
            else:
                break
        return ('path', segs, args)

    # ---- patterns ----------------------------------------------------------------------
    def pattern(self):
        self.accept('|')
        ps = [self.pattern1()]
        while self.accept('|'):
            ps.append(self.pattern1())
        return ps[0] if len(ps) == 1 else ('por', ps)

    def pattern1(self):
        if self.peek() == '&&':
            self.split()
        if self.accept('&'):
            return self.pattern1()
        if self.accept('('):
            ps = []
            while not self.accept(')'):
                ps.append(self.pattern())
                self.accept(',')
            return ('ptuple', ps)
        if self.accept('['):
            ps = []
            while not self.accept(']'):
                ps.append(self.pattern())
                self.accept(',')
            return ('pslice', ps)
        if self.kind() in ('num', 'str'):
            lit = self.literal()
            if self.accept('..='):
                return ('prange', lit, self.literal())
            return ('plit', lit)
        if self.accept('_'):
            return ('pwild',)
        if self.accept('ref'):
            return self.pattern1()
        if self.accept('mut'):
            return ('pvar', self.ident(), True)
        if self.peek() in ('true', 'false'):
            return ('plit', ('bool', self.next()))
        segs = [self.ident()]
        while self.accept('::'):
            segs.append(self.ident())
        if self.accept('('):
            ps = []
            while not self.accept(')'):
                ps.append(self.pattern())
                self.accept(',')
            return ('pctor', segs, ps)
        if len(segs) > 1:
            return ('pctor', segs, [])
        return ('pvar', segs[0], False)

    # ---- expressions -------------------------------------------------------------------
    def literal(self):
        k, s = self.kind(), self.next()
        if k == 'num':
            s = s.replace('_', '')
            if s.endswith('i16'):
                return ('int', int(s[:-3]), 'i16')
            return ('int', int(s, 0))
        if k == 'bstr':
            return ('array', [('int', ord(c)) for c in s[2:-1]])
        if k == 'float':
            return ('float', s.replace('_', ''))
        if k == 'str':
            return ('str', s)
        if k == 'char':
            return ('char', s)
        raise SyntaxError('literal %r' % s)

    def expr(self, nostruct=False):
        return self.assign(nostruct)

    def assign(self, ns):
        line = self.line()
        lhs = self.range(ns)
        if self.peek() in ASSIGN and self.kind() == 'op':
            op = self.next()
            return ('assign', op, lhs, self.assign(ns), line)
        return lhs

    def range(self, ns):
        a = self.binary(1, ns)
        if self.peek() in ('..', '..='):
            incl = self.next() == '..='
            b = None
            if self.peek() not in (')', ']', '}', ';', ',', '{'):
                b = self.binary(1, ns)
            return ('range', a, b, incl)
        return a

    def binary(self, prec, ns):
        lhs = self.cast(ns)
        while self.kind() == 'op' and BINPREC.get(self.peek(), 0) >= prec:
            op = self.next()
            rhs = self.binary(BINPREC[op] + 1, ns)
            lhs = ('bin', op, lhs, rhs)
        return lhs

    def cast(self, ns):
        e = self.unary(ns)
        while self.accept('as'):
            e = ('cast', e, self.type())
        return e

    def unary(self, ns):
        if self.peek() in ('&&',):
            self.split()
        if self.accept('&'):
            self.accept('mut')
            return ('ref', self.unary(ns))
        if self.accept('*'):
            return ('deref', self.unary(ns))
        if self.accept('!'):
            return ('not', self.unary(ns))
        if self.accept('-'):
            return ('neg', self.unary(ns))
        return self.postfix(self.primary(ns), ns)

    def args(self, close=')'):
        a = []
        while not self.accept(close):
            a.append(self.expr())
            self.accept(',')
        return a

    def postfix(self, e, ns):
        while True:
            if self.accept('?'):
                e = ('try', e)
            elif self.accept('('):
                e = ('call', e, self.args())
            elif self.accept('['):
                i = self.expr()
                self.expect(']')
                e = ('index', e, i)
            elif self.peek() == '.' and self.kind() == 'op':
                self.next()
                name = self.next()
                gen = []
                if self.peek() == '::':
                    self.next()
                    gen = self.generics()
                if self.accept('('):
                    e = ('method', e, name, gen, self.args())
                else:
                    e = ('field', e, name)
            else:
                return e

    def primary(self, ns):
        k, s = self.kind(), self.peek()
        if k in ('num', 'float', 'str', 'bstr', 'char'):
            return self.literal()
        if s in ('true', 'false'):
            self.next()
            return ('bool', s)
        if s == '(':
            self.next()
            if self.accept(')'):
                return ('tuple', [])
            e = self.expr()
            if self.accept(')'):
                return ('paren', e)
            es = [e]
            while self.accept(','):
                if self.peek() == ')':
                    break
                es.append(self.expr())
            self.expect(')')
            return ('tuple', es)
        if s == '[':
            self.next()
            if self.accept(']'):
                return ('array', [])
            e = self.expr()
            if self.accept(';'):
                n = self.expr()
                self.expect(']')
                return ('vecrep', e, n)
            self.accept(',')
            return ('array', [e] + self.args(']'))
        if s == '{':
            return self.block()
        if s == 'if':
            return self.if_()
        if s == 'match':
            self.next()
            e = self.expr(nostruct=True)
            self.expect('{')
            arms = []
            while not self.accept('}'):
                while self.peek() == '#':
                    self.attr()
                p = self.pattern()
                self.expect('=>')
                b = self.expr()
                self.accept(',')
                arms.append((p, b))
            return ('match', e, arms)
        if s == 'return':
            self.next()
            return ('return', None if self.peek() in (';', '}') else self.expr())
        if s == 'for':
            self.next()
            p = self.pattern()
            self.expect('in')
            e = self.expr(nostruct=True)
            return ('for', p, e, self.block())
        if s in ('|', '||'):
            self.next()
            ps = []
            if s == '|':
                while not self.accept('|'):
                    ps.append(self.pattern1())
                    if self.accept(':'):
                        self.type()
                    self.accept(',')
            return ('closure', ps, self.expr())
        if s == 'unsafe' or s in ('while', 'loop'):
            raise SyntaxError('line %d: unsupported %s' % (self.line(), s))
        if k == 'id':
            segs, gen = [self.ident()], []
            if self.peek() == '!' and self.peek(1) in ('(', '['):
                self.next()
                close = {'(': ')', '[': ']'}[self.next()]
                if segs[0] == 'vec':
                    if self.accept(close):
                        return ('vec', [])
                    e = self.expr()
                    if self.accept(';'):
                        n = self.expr()
                        self.expect(close)
                        return ('vecrep', e, n)
                    es = [e]
                    while self.accept(','):
                        if self.peek() == close:
                            break
                        while self.peek() == '#':
                            self.attr()
                        es.append(self.expr())
                    self.expect(close)
                    return ('vec', es)
                if segs[0] == 'matches':
                    e = self.expr()
                    self.expect(',')
                    p = self.pattern()
                    self.expect(close)
                    return ('match', e, [(p, ('bool', 'true')), (('pwild',), ('bool', 'false'))])
                return ('macro', segs[0], self.args(close))
            while self.peek() == '::':
                self.next()
                if self.peek() == '<':
                    gen = self.generics()
                else:
                    segs.append(self.ident())
            if self.peek() == '{' and not ns and segs[-1][0].isupper():
                return self.structlit(segs, gen)
            return ('path', segs, gen)
        raise SyntaxError('line %d: unexpected %r' % (self.line(), s))

    def structlit(self, segs, gen):
        self.expect('{')
        fs = []
        while not self.accept('}'):
            if self.accept('..'):
                e = self.expr()
                self.expect('}')
                return ('struct', segs, fs, e, gen)
            f = self.ident()
            v = self.expr() if self.accept(':') else ('path', [f], [])
            fs.append((f, v))
            self.accept(',')
        return ('struct', segs, fs)

    def if_(self):
        self.expect('if')
        if self.accept('let'):
            p = self.pattern()
            self.expect('=')
            e = self.expr(nostruct=True)
            c = ('let', p, e)
        else:
            c = self.expr(nostruct=True)
        th = self.block()
        el = None
        if self.accept('else'):
            el = self.if_() if self.peek() == 'if' else self.block()
        return ('if', c, th, el)

    def block(self):
        """('block', stmts, tail); a statement is ('let', pat, type, expr), ('use', path) or
        ('expr', e)."""
        self.expect('{')
        stmts, tail = [], None
        while not self.accept('}'):
            if self.accept(';'):
                continue
            while self.peek() == '#':
                self.attr()
            if self.peek() == 'use':
                stmts.append(('use', self.use()))
                continue
            if self.accept('let'):
                p = self.pattern()
                t = self.type() if self.accept(':') else None
                self.expect('=')
                e = self.expr()
                self.expect(';')
                stmts.append(('let', p, t, e))
                continue
            blocklike = self.peek() in ('if', 'match', 'for', '{')
            if blocklike:
                e = self.primary(False)
                if self.peek() in ('.', '?'):
                    e = self.postfix(e, False)
                    blocklike = False
            else:
                e = self.expr()
            if self.accept(';'):
                stmts.append(('expr', e))
            elif self.peek() == '}':
                tail = e
            elif blocklike:
                stmts.append(('expr', e))
            else:
                raise SyntaxError('line %d: expected ; found %r' % (self.line(), self.peek()))
        return ('block', stmts, tail)

    # ---- items -------------------------------------------------------------------------
    def attr(self):
        self.expect('#')
        self.accept('!')
        self.expect('[')
        depth, toks = 1, []
        while depth:
            s = self.next()
            depth += s == '['
            depth -= s == ']'
            toks.append(s)
        return toks[:-1]

    def use(self):
        self.expect('use')
        toks = []
        while not self.accept(';'):
            toks.append(self.next())
        return toks

    def skip_braces(self):
        self.expect('{')
        depth, toks = 1, []
        while depth:
            s = self.next()
            depth += s == '{'
            depth -= s == '}'
            toks.append(s)
        return toks[:-1]

    def fn(self):
        line = self.line()
        self.expect('fn')
        name = self.ident()
        gens = []
        if self.accept('<'):
            while not self.accept('>'):
                gens.append(self.ident())
                if self.accept(':'):
                    self.type()
                    while self.accept('+'):
                        self.type()
                self.accept(',')
        self.expect('(')
        params, selfkind = [], None
        while not self.accept(')'):
            if self.peek() == '&' and (self.peek(1) == 'self' or self.peek(2) == 'self'):
                self.next()
                selfkind = 'mut' if self.accept('mut') else 'ref'
                self.expect('self')
            elif self.accept('self'):
                selfkind = 'val'
            else:
                self.accept('mut')
                p = self.ident()
                self.expect(':')
                params.append((p, self.type()))
            self.accept(',')
        ret = self.type() if self.accept('->') else ('tuple', [])
        if self.accept('where'):
            while self.peek() not in ('{', ';'):
                self.next()
        body = None
        if not self.accept(';'):
            body = self.block()
        return dict(kind='fn', name=name, gens=gens, params=params, self=selfkind, ret=ret,
                    body=body, lines=(line, self.lastline()))

    def items(self, end=None):
        out = []
        attrs = []
        while True:
            if end and self.accept(end):
                return out
            if self.kind() == 'eof':
                return out
            line = self.line()
            if self.peek() == '#':
                attrs.append(self.attr())
                continue
            item = self.item(attrs, line)
            attrs = []
            if item:
                out.append(item)

    def item(self, attrs, line):
        if ['cfg', '(', 'test', ')'] in attrs:
            # test module: skipped unless the tests are asked for
            while self.peek() != '{':
                self.next()
            if self.tests:
                self.next()
                return dict(kind='tests', items=self.items('}'))
            self.skip_braces()
            return None
        if self.accept('pub'):
            if self.accept('('):
                while not self.accept(')'):
                    self.next()
        s = self.peek()
        if s == 'use':
            return dict(kind='use', path=self.use())
        if s == 'mod' or s == 'extern' or s == 'type':
            toks = []
            while not self.accept(';'):
                toks.append(self.next())
            return dict(kind=s, toks=toks)
        if s == 'const' and self.peek(1) == 'fn':
            self.next()
            s = 'fn'
        if s == 'const':
            self.next()
            name = self.ident()
            self.expect(':')
            t = self.type()
            e = None
            if self.accept('='):
                e = self.expr()
            self.expect(';')
            return dict(kind='const', name=name, type=t, value=e, lines=(line, self.lastline()))
        if s == 'fn':
            return dict(self.fn(), attrs=attrs)
        derives = [x for a in attrs if a[0] == 'derive' for x in a]
        if s == 'struct':
            self.next()
            name = self.ident()
            gens = []
            if self.peek() == '<':
                gens = self.generics()
            fields = []
            if not self.accept(';'):
                self.expect('{')
                while not self.accept('}'):
                    while self.peek() == '#':
                        self.attr()
                    self.accept('pub')
                    f = self.ident()
                    self.expect(':')
                    fields.append((f, self.type()))
                    self.accept(',')
            return dict(kind='struct', name=name, gens=gens, fields=fields, derives=derives,
                        lines=(line, self.lastline()))
        if s == 'enum':
            self.next()
            name = self.ident()
            self.expect('{')
            vs = []
            while not self.accept('}'):
                while self.peek() == '#':
                    self.attr()
                v = self.ident()
                args, disc = [], None
                if self.accept('('):
                    while not self.accept(')'):
                        args.append(self.type())
                        self.accept(',')
                if self.accept('='):
                    disc = self.literal()[1]
                self.accept(',')
                vs.append((v, args, disc))
            return dict(kind='enum', name=name, variants=vs, derives=derives,
                        lines=(line, self.lastline()))
        if s == 'trait':
            self.next()
            name = self.ident()
            while self.peek() != '{':
                self.next()
            self.expect('{')
            return dict(kind='trait', name=name, items=self.items('}'),
                        lines=(line, self.lastline()))
        if s == 'impl':
            self.next()
            if self.peek() == '<':
                self.next()
                while not self.accept('>'):
                    self.next()
            t = self.type()
            trait = None
            if self.accept('for'):
                trait, t = t, self.type()
            self.expect('{')
            return dict(kind='impl', trait=trait, type=t, items=self.items('}'),
                        lines=(line, self.lastline()))
        if s == 'macro_rules':
            self.next()
            self.expect('!')
            name = self.ident()
            return dict(kind='macro_rules', name=name, toks=self.skip_braces())
        if self.kind() == 'id' and self.peek(1) == '!':
            name = self.ident()
            self.expect('!')
            return dict(kind='macro', name=name, toks=self.skip_braces(),
                        lines=(line, self.lastline()))
        raise SyntaxError('line %d: item %r' % (line, s))


def parse(path, tests=False):
    with open(path) as f:
        return Parser(f.read(), tests).items()
