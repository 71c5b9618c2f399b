#!/usr/bin/env python3
"""Translates the unit tests of the crate to Lean, as programs that call the translated source.

usage: tests2lean.py SRC_DIR OUT_DIR     (writes one Lean module per source file with tests)

Every `#[test]` function becomes a Lean function of type `Res Unit`: a failed assertion and a failed
`unwrap` are panics. Each comes with a check by the kernel that it ends without a panic, with and
without overflow checks. The functions of `std` that only the tests use are defined in
lean/Verif/SourceTests/Prelude.lean.
"""
import os
import re
import sys

import rustparse
from rust2lean import (CRATE, FILES, SRC, OUT, SHARED, TRAITFNS, Gen, camel, close, is_generic,
                       is_result, kw, leanmod)

# Types of variables that rustc infers from later uses, and that the name alone tells.
VARS = {'data': 'List Word', 'byte_msg': 'List Byte', 'buf': 'List Byte', 'epsilon': 'F32',
        'bit': 'Nat', 'process_input_data': 'List Word', 'process_output_data': 'List Word',
        'vals': 'List ChannelValue', 'values': None}
# Parameters of closures.
CLOSURES = {'test': ['Nat', 'Nat', 'Nat', 'Bool']}
# Functions with a parameter that stands for the environment.
ENV = {'from_str': ['r_ascii_upper'], 'next': ['r_any_order', 'r_any_order']}


class TestGen(Gen):
    def __init__(self, file, fn, globs, helpers):
        super().__init__(file, fn)
        self.globs = list(globs)
        self.helpers = helpers
        self.types = {}            # variable -> (file, struct)
        self.files = [file]
        self.variant = {}          # variable -> argument of its type `Mod`
        self.exmode = False
        self.atfnlevel = False

    # ---- types of variables ------------------------------------------------------------
    def typeof(self, e):
        """(file, name of the struct) of an expression, if it is obvious."""
        k = e[0]
        if k in ('ref', 'paren'):
            return self.typeof(e[1])
        if k == 'path' and len(e[1]) == 1:
            if e[1][0] in self.types:
                return self.types[e[1][0]]
            if e[1][0] in self.file.structs:
                return (self.file, e[1][0])
        if k == 'struct':
            return self.structof(e[1])
        if k == 'call' and e[1][0] == 'path' and len(e[1][1]) > 1 \
                and e[1][1][-1] in ('default', 'new', 'from_modbus_parameter_data'):
            return self.structof(e[1][1][:-1])
        if k == 'method' and e[2] in ('clone', 'unwrap'):
            return self.typeof(e[1])
        return None

    def structof(self, segs):
        files = [CRATE[segs[-2]]] if len(segs) > 1 and segs[-2] in CRATE else \
            self.files + [CRATE['lib']]
        n = segs[-1]
        for f in files:
            m = f.aliases.get(n, n)
            if m in f.structs:
                return (f, m)
        return None

    def lookup(self, e):
        """(file, type, fn) of a method of the crate."""
        t = self.typeof(e[1])
        if t and (t[1], e[2]) in t[0].methods and e[2] not in TRAITFNS + ['module_type']:
            m = t[0].methods[(t[1], e[2])]
            m['file'] = t[0]
            return (t[0], t[1], m)
        r = self.root(e[1])
        if r in self.alias:
            f = CRATE['ur20_1com_232_485_422']
            if ('MessageProcessor', e[2]) in f.methods:
                return (f, 'MessageProcessor', f.methods[('MessageProcessor', e[2])])
        return None

    def method(self, e):
        return self.lookup(e)

    def mutates(self, e):
        if e[2] in self.MUTMETHODS:
            return True
        m = self.lookup(e)
        return m is not None and m[2]['self'] == 'mut'

    def lookup_enum(self, name):
        for f in self.files + [CRATE['lib'], CRATE['error']] + list(CRATE.values()):
            if name in f.enums:
                return f, f.enums[name]
        return None, None

    def function(self, path):
        segs = path[1]
        if len(segs) == 1 and segs[0] in self.helpers:
            f = dict(self.helpers[segs[0]], file=self.file)
            f['lean'] = 'rs_' + f['name']
            return f
        f = super().function(path)
        if f is None and len(segs) > 1 and segs[-2] == 'Mod' and segs[-1] == 'default':
            self.fail('default')
        return f

    def call(self, e):
        return ' '.join([super().call(e)] + ENV.get(e[1][1][-1], []))

    def store(self, root, path, val):
        n = len(self.buf)
        super().store(root, path, val)
        if root in self.variant:
            # the new value has the same type
            assert self.buf[-1].startswith('let %s :=' % kw(root)), self.buf[n:]
            self.buf[-1] = self.buf[-1].replace(' :=', ' : Mod %s :=' % self.variant[root], 1)

    # ---- assigned variables ------------------------------------------------------------
    def assigned(self, e, local=frozenset()):
        out = super().assigned(e, local)

        def walk(e):
            if isinstance(e, (tuple, list)):
                if e and e[0] == 'method' and self.root(e[1]) in self.types and self.mutates(e) \
                        and self.root(e[1]) not in out:
                    out.append(self.root(e[1]))
                for x in e:
                    walk(x)
        walk(e)
        return out

    # ---- expressions -------------------------------------------------------------------
    def isopt(self, e):
        if e[0] == 'method':
            if e[2] in ('hertz', 'to_u16'):
                return True
        return False

    def isresult(self, e):
        if e[0] == 'method' and e[2] == 'parse':
            return True
        if e[0] == 'method' and e[2] in ('read',) and self.lookup(e):
            return False
        if e[0] == 'path' and len(e[1]) == 1 and e[1][0] in self.resultvars:
            return True
        if e[0] == 'method' and self.typeof(e[1]) and e[2] in TRAITFNS:
            return e[2] not in ('process_input_byte_count', 'process_output_byte_count')
        return super().isresult(e)

    def action(self, e, want=None):
        if e[0] == 'method' and e[2] == 'parse':
            t = e[3][0][1][-1]
            return '%s.from_str oc %s r_ascii_upper' % ('lib.' * (self.file.name != 'lib') + t,
                                                        self.atom(e[1]))
        return super().action(e, want)

    def methodcall(self, e):
        t = self.typeof(e[1])
        if t and t[1] == 'Mod' and e[2] in TRAITFNS + ['module_type']:
            return ' '.join(['(ToDyn.toDyn oc %s).%s' % (self.atom(e[1]), e[2])]
                            + [self.atom(a) for a in e[4]])
        return ' '.join([super().methodcall(e)] + (ENV.get(e[2], []) if t and t[1] == 'Coupler'
                                                   else []))

    def const(self, e):
        if e[0] == 'int' and len(e) > 2:
            return None
        return super().const(e)

    def ex(self, e, want=None):
        k = e[0]
        if k == 'int' and len(e) > 2:
            return '(%d : I16)' % e[1]
        if k == 'neg' and e[1][0] == 'int' and len(e[1]) > 2:
            return '(-%d : I16)' % e[1][1]
        if k == 'neg' and e[1][0] == 'float':
            s = self.ex(e[1])
            return s.replace('F32.lit (', 'F32.lit (-').replace('F32.lit ', 'F32.lit ') \
                if 'lit (' in s else 'F32.lit (-%s)' % s.split()[-1]
        if k == 'float' and 'e' in e[1]:
            m, x = e[1].split('e-')
            return 'F32.lit (%s / %d)' % (m, 10 ** int(x))
        if k == 'field' and e[2].isdigit():
            return '%s.%d' % (self.atom(e[1]), int(e[2]) + 1)
        if k == 'struct' and len(e) > 3:
            f, n = self.structof(e[1])
            base = self.bind(' '.join(['%s.default oc' % n] + self.genericargs(e[4])))
            return '({ %s with %s } : %s)' % (
                base, ', '.join('%s := %s' % (camel(a), self.ex(b)) for a, b in e[2]),
                ' '.join([n] + self.genericargs(e[4])))
        if k == 'struct' and self.structof(e[1]) and self.structof(e[1])[0] is not self.file:
            f, n = self.structof(e[1])
            t = self.shared(f, n)
            return '({ %s } : %s)' % (', '.join('%s := %s' % (camel(a), self.ex(b))
                                                for a, b in e[2]), t)
        if k == 'macro' and e[1] in ('assert', 'assert_eq'):
            self.check(e)
            return '()'
        if k == 'closure':
            self.fail('closure')
        return super().ex(e, want)

    def path(self, e):
        if e[1] == ['u32', 'MAX']:
            return '(BitVec.ofNat 32 (2 ^ 32 - 1))'
        if e[1] in (['i16', 'MAX'], ['i16', 'MIN']):
            return '(%d : I16)' % {'MAX': 32767, 'MIN': -32768}[e[1][1]]
        return super().path(e)

    def excall(self, e, want):
        segs = e[1][1]
        if segs == ['Duration', 'from_micros']:
            return 'r_from_micros %s' % self.atom(e[2][0])
        if len(segs) == 1 and segs[0] in CLOSURES and segs[0] in self.types:
            return self.bind(' '.join([segs[0]] + [self.atom(a) for a in e[2]]))
        if len(segs) == 1:
            for g in self.globs:
                f, en = self.lookup_enum(g)
                if en and segs[0] in [v[0] for v in en['variants']]:
                    return '%s %s' % (self.ctor(g, segs[0]), ' '.join(self.atom(a) for a in e[2]))
        return super().excall(e, want)

    def exmethod(self, e, want):
        _, recv, n, gen, args = e
        if n == 'into_iter':
            return 'r_iter %s' % self.atom(recv)
        if n == 'abs':
            return 'r_abs %s' % self.atom(recv)
        if n == 'to_u16':
            return '(ToPrimitive.to_u16 %s)' % self.atom(recv)
        if n in ('is_ok', 'is_err'):
            a = self.exaction(recv)
            if a:
                root, path, term = a
                t = self.bind('r_ex_%s (%s)' % (n, term))
                self.store(root, path, '%s.1' % t)
                return '%s.2' % t
            if self.isresult(recv):
                return self.bind('r_%s (%s)' % (n, self.action(recv)))
            self.fail('%s of %r' % (n, recv))
        if n in ('is_none', 'is_some'):
            return '%s.%s' % (self.paren(self.optional(recv)),
                              {'is_none': 'isNone', 'is_some': 'isSome'}[n])
        if n == 'unwrap':
            if recv[0] == 'method' and recv[2] == 'err':
                return self.bind('r_unwrap_err (%s)' % self.action(recv[1]))
            a = self.exaction(recv)
            if a:
                root, path, term = a
                t = self.bind('r_ex_unwrap (%s)' % term)
                self.store(root, path, '%s.1' % t)
                return '%s.2' % t
            if recv[0] == 'method' and recv[2] == 'read':
                # `p.read(&mut buf)`
                root, path = self.place(recv[1])
                b = recv[4][0][1][1][0]
                t = self.bind('r_unwrap (ur20_1com_232_485_422.MessageProcessor.read oc %s %s)'
                              % (self.load(root, path), kw(b)))
                self.store(root, path, '%s.1' % t)
                self.emit('let %s := %s.2.1' % (kw(b), t))
                return '%s.2.2' % t
            if recv[0] == 'method' and recv[2] == 'write_all':
                self.action(recv)
                return '()'
            if self.isresult(recv):
                return self.bind('r_unwrap (%s)' % self.action(recv))
            return self.bind('r_unwrap_opt %s' % self.paren(self.optional(recv)))
        if n == 'into':
            t = self.typeof(recv)
            c = [m for (a, k), m in self.file.methods.items() if k == 'from' and a == 'ChannelValue']
            for i in self.file.items:
                if i['kind'] == 'impl' and i['trait'] and i['trait'][1][-1] == 'From' \
                        and i['trait'][2][0][1][-1] == t[1]:
                    m = i['items'][0]
                    m['file'] = self.file
                    return self.bind('%s oc %s' % (self.qual(m), self.atom(recv)))
            self.fail('into %r' % (c,))
        return super().exmethod(e, want)

    def optional(self, e):
        """An expression of type `Option`, with `reader` and `writer` as lookups."""
        if e[0] == 'method' and e[2] in ('reader', 'writer'):
            return 'r_get %s.processors %s' % (self.atom(e[1]), self.atom(e[4][0]))
        return self.ex(e)

    def exaction(self, e):
        """A call of a method with `&mut self` that returns a `Result`."""
        if e[0] == 'method':
            m = self.lookup(e)
            if m and m[2]['self'] == 'mut' and is_result(m[2]['ret']) \
                    and m[2]['ret'][1][0] != 'io':
                root, path = self.place(e[1])
                return root, path, self.methodcall(e)
        return None

    # ---- statements --------------------------------------------------------------------
    def check(self, e):
        if e[1] == 'assert':
            self.emit('let _ ← r_assert %s' % self.atom(e[2][0]))
        else:
            a = self.atom(e[2][0])
            b = self.atom(e[2][1])
            self.emit('let _ ← r_assert (decide (%s = %s))' % (a, b))

    def tail(self, e, want=None, vs=()):
        if e[0] == 'macro' and e[1] in ('assert', 'assert_eq'):
            self.check(e)
            e = ('tuple', [])
        return super().tail(e, want, vs)

    def stmts(self, ss):
        for s in ss:
            if s[0] == 'use':
                p = s[1]
                if p[-1] == '*' and p[-3] in CRATE:
                    self.files.append(CRATE[p[-3]])
                elif p[-1] == '*' and p[-3] != 'super':
                    self.globs.append(p[-3])
            elif s[0] == 'let':
                self.let(s)
            elif self.effect(s[1]) == 'stop':
                return 'stop'

    def let(self, s):
        _, p, t, e = s
        if p[0] == 'pvar':
            n = p[1]
            ty = self.typeof(e)
            if t is not None and t[0] == 'ref' and t[1][0] == 'dyn':
                self.emit('let %s := ToDyn.toDyn oc %s' % (kw(n), self.atom(e)))
                return
            if e[0] == 'closure':
                tys = CLOSURES[n]
                lines = self.closure(e)
                self.emit(['let %s : %s → Res Unit :=' % (n, ' → '.join(tys))]
                          + ['    ' + x for x in lines])
                self.types[n] = (self.file, 'closure')
                return
            if e[0] == 'method' and e[2] == 'unwrap' and e[1][0] == 'method' \
                    and e[1][2] in ('reader', 'writer'):
                self.emit('let %s ← r_unwrap_opt (%s)' % (kw(n), self.optional(e[1])))
                self.alias[n] = (('field', e[1][1], 'processors'), e[1][4][0])
                return
            if e[0] in ('call', 'method') and self.isresult(e):
                # a `Result` that is only inspected
                self.emit('let %s ← r_capture (%s)' % (kw(n), self.action(e)))
                self.resultvars.add(n)
                return
            if ty:
                v = self.ex(e)
                self.types[n] = ty
                self.variant.pop(n, None)
                if e[0] == 'call' and e[1][2]:
                    self.variant[n] = self.genericargs(e[1][2])[0]
                self.emit('let %s := %s' % (kw(n), v))
                return
            if e[0] in ('array', 'vec', 'vecrep', 'int', 'float') or \
                    e[0] == 'ref' and e[1][0] == 'array':
                self.types.pop(n, None)
                ann = VARS.get(n)
                assert ann or e[0] in ('vec', 'array'), n
                self.emit('let %s%s := %s' % (kw(n), ' : %s' % ann if ann else '', self.ex(e)))
                return
            self.types.pop(n, None)
            self.emit('let %s := %s' % (kw(n), self.ex(e)))
            return
        if e[0] == 'call' and self.isresult(e):
            self.fail('let of a Result')
        return super().let(s)

    # ---- functions ---------------------------------------------------------------------
    def translate(self):
        fn = self.fn
        params = ['(oc : Bool)'] + ['(%s : %s)' % (kw(p), self.ty(t)) for p, t in fn['params']]
        self.stmts(fn['body'][1])
        if fn['body'][2] is not None:
            self.effect(fn['body'][2])
        self.emit('pure ()')
        doc = '/-- `%s`, `src/%s.rs:%d-%d`. -/' % (fn['name'], self.file.name, *fn['lines'])
        name = 'rs_' + fn['name']
        out = [doc, 'def %s %s : Res Unit := do' % (name, ' '.join(params))] \
            + ['  ' + x for x in self.buf] + ['']
        if ['test'] in fn['attrs']:
            out += ['example : %s true = .ok () ∧ %s false = .ok () := by' % (name, name),
                    '  decide +kernel', '']
        return out


def translate_tests(name):
    file = CRATE[name]
    items = rustparse.parse(os.path.join(SRC, name + '.rs'), True)
    tests = [t for i in items if i['kind'] == 'tests' for t in i['items']]
    if not tests:
        return None
    globs = [t['path'][-3] for t in tests if t['kind'] == 'use' and t['path'][-1] == '*'
             and t['path'][-3] != 'super']
    fns = [t for t in tests if t['kind'] == 'fn']
    assert all(t['kind'] in ('fn', 'use') for t in tests), name
    helpers = {f['name']: f for f in fns if ['test'] not in f['attrs']}
    out = []
    for f in sorted(fns, key=lambda f: f['name'] not in helpers):
        out += TestGen(file, f, globs, helpers).translate()
    return out, sum(['test'] in f['attrs'] for f in fns)


def main():
    os.makedirs(OUT, exist_ok=True)
    total = 0
    for name in FILES:
        r = translate_tests(name)
        if r is None:
            continue
        body, n = r
        total += n
        head = ['import Verif.Source.%s' % leanmod(name), 'import Verif.SourceTests.Prelude', '',
                '/-!', '# The unit tests of `src/%s.rs`, translated' % name, '',
                'Generated by `tools/tests2lean.py` from the source. Do not edit.', '-/', '',
                'set_option linter.unusedVariables false', '', 'namespace Ur20.Src.' + name, '']
        for s, i in CRATE[name].structs.items():
            if (name, s) not in SHARED and 'PartialEq' in i['derives'] and s != 'Mod':
                head += ['deriving instance DecidableEq for %s' % s, '']
        with open(os.path.join(OUT, leanmod(name) + '.lean'), 'w') as f:
            f.write('\n'.join(head + body + ['end Ur20.Src.' + name]) + '\n')
    print('%d tests' % total)


main()
