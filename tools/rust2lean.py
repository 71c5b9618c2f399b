#!/usr/bin/env python3
"""Translates the Rust source of the crate to Lean, function by function.

usage: rust2lean.py SRC_DIR OUT_DIR     (writes one Lean module per source file)

The translation is syntax directed. Every function becomes a Lean function with result type
`Res T`, where `T` is the (success) type of its result: a panic is `Res.panic`, an `Err(e)` is
`Res.err e`, and `?` and `return Err(e)` are the bind and the failure of this monad. Evaluation
order is made explicit by binding every intermediate result (`t1`, `t2`, ...). Assignments become
rebindings of the variable, loops become `r_loop` over the items of the iterator with the assigned
variables as state, and a method with `&mut self` returns the new `self` with its result. A
function that returns `Result` and takes `&mut self` runs in the monad `Ex`, whose failures carry
the state reached so far. The meaning of the operators and of the functions of `std` is given in
lean/Verif/Source/Prelude.lean. Everything the translator does not know is an error.
"""
import os
import re
import sys

import rustparse

SRC, OUT = sys.argv[1], sys.argv[2]

FILES = ['error', 'lib', 'util', 'ur20_16do_p', 'ur20_do_generic', 'ur20_di_generic',
         'ur20_4ro_co_255', 'ur20_4ao_ui_16', 'ur20_4ao_ui_16_diag', 'ur20_ai_ui_generic',
         'ur20_4ai_ui_16_diag', 'ur20_8ai_i_16_diag_hd', 'ur20_4ai_rtd_diag', 'ur20_4ai_tc_diag',
         'ur20_2fcnt_100', 'ur20_1com_232_485_422', 'ur20_pf_o_1di_sil', 'ur20_fbc_mod_tcp']
IMPORTS = {'error': ['Prelude'], 'lib': ['Prelude'], 'util': ['Lib'], 'ur20_fbc_mod_tcp': None}

# Types of the source that are represented by types of the model (same constructors and fields).
SHARED = {
    ('lib', 'ChannelValue'): 'ChannelValue', ('lib', 'Address'): 'Address',
    ('lib', 'ModuleType'): 'ModuleType', ('lib', 'ModuleCategory'): 'ModuleCategory',
    ('lib', 'RsIn'): 'RsIn', ('lib', 'RsOut'): 'RsOut',
    ('lib', 'FcntIn'): 'FcntIn', ('lib', 'FcntOut'): 'FcntOut',
    ('error', 'Error'): 'Error',
    ('ur20_1com_232_485_422', 'ProcessInput'): 'RsIn',
    ('ur20_1com_232_485_422', 'ProcessOutput'): 'RsOut',
    ('ur20_1com_232_485_422', 'MessageProcessor'): 'Com.MessageProcessor',
    ('ur20_1com_232_485_422', 'InitState'): 'Com.InitState',
    ('ur20_2fcnt_100', 'ProcessInput'): 'FcntIn',
    ('ur20_2fcnt_100', 'ProcessOutput'): 'FcntOut',
    ('ur20_2fcnt_100', 'Command'): 'Command',
    ('ur20_pf_o_1di_sil', 'ProcessInput'): 'SilIn',
    ('ur20_4ai_tc_diag', 'MeasurementRange'): 'TcRange',
    ('ur20_fbc_mod_tcp', 'ModuleOffset'): 'ModuleOffset',
    ('ur20_fbc_mod_tcp', 'CouplerConfig'): 'CouplerConfig',
}
# Enumerations whose constructors start with a lower case letter in the model.
LOWER = {'ChannelValue', 'Error', 'Command', 'InitState'}

# Types that rustc infers from later uses: (file, function, variable) or (file, function, literal).
ANNOT = {
    ('util', 'u16_to_u8', 'bytes'): 'List Byte',
    ('util', 'u8_to_u16', 'src'): 'List Byte',
    ('util', 'u8_to_u16', 'words'): 'List Word',
    ('util', 'shift_data', 'shifted'): 'List Byte',
    ('*', 'process_output_values', 'res'): 'Word',
    ('*', 'process_output_values', 'out'): 'List Word',
    ('ur20_1com_232_485_422', 'try_into_byte_message', 'status'): 'Byte',
    ('ur20_1com_232_485_422', 'try_into_byte_message', 'msg'): 'List Byte',
    ('ur20_fbc_mod_tcp', 'offsets_of_process_data', 'offsets'): 'List ModuleOffset',
    ('ur20_fbc_mod_tcp', 'module_list_from_registers', 'list'): 'List ModuleType',
    ('ur20_fbc_mod_tcp', 'new', 'modules'): 'List Dyn',
    ('ur20_fbc_mod_tcp', 'new', 'processors'): 'HMap Nat Com.MessageProcessor',
    ('ur20_fbc_mod_tcp', 'next', 'in_bytes'): 'HMap Nat ChannelValue',
    ('ur20_fbc_mod_tcp', 'next', 'out_bytes'): 'HMap Nat ChannelValue',
}
# Functions that are not translated, with the reason.
SKIP = {
    ('error', 'from'): 'formats a std::io::Error',
    ('ur20_fbc_mod_tcp', 'reader'): 'returns a mutable reference; see Coupler.read below',
    ('ur20_fbc_mod_tcp', 'writer'): 'returns a mutable reference',
}
PRIM = {'u8': 'Byte', 'u16': 'Word', 'u32': 'BitVec 32', 'u64': 'BitVec 64', 'usize': 'Nat',
        'i16': 'I16', 'f32': 'F32', 'bool': 'Bool', 'char': 'Char', 'str': 'String',
        'String': 'String', 'Duration': 'Duration'}
LEANKW = {'end': 'end_', 'from': 'from_', 'at': 'at_', 'in': 'in_', 'open': 'open_',
          'match': 'match_', 'self': 'self', 'prefix': 'prefix_', 'mod': 'mod_'}
TRAITFNS = ['process_input_byte_count', 'process_output_byte_count', 'process_input_data',
            'process_output_data', 'process_output_values']


def camel(s):
    parts = s.split('_')
    return parts[0] + ''.join(p[:1].upper() + p[1:] for p in parts[1:])


def lower(s):
    return s[0].lower() + s[1:]


def kw(s):
    return LEANKW.get(s, s)


def leanmod(f):
    return f[0].upper() + f[1:]


class File:
    def __init__(self, name):
        self.name = name
        self.items = rustparse.parse(os.path.join(SRC, name + '.rs'))
        self.structs = {i['name']: i for i in self.items if i['kind'] == 'struct'}
        self.enums = {i['name']: i for i in self.items if i['kind'] == 'enum'}
        self.traits = {i['name']: i for i in self.items if i['kind'] == 'trait'}
        self.fns = {i['name']: i for i in self.items if i['kind'] == 'fn'}
        self.consts = {i['name']: i for i in self.items if i['kind'] == 'const'}
        self.aliases = {}
        self.variants = []
        self.methods = {}          # (type, name) -> fn
        for i in self.items:
            if i['kind'] == 'type':
                t = i['toks']      # type NAME = TARGET
                if len(t) == 4:
                    self.aliases[t[1]] = t[3]
            if i['kind'] == 'macro' and i['name'] == 'make_variants':
                self.variants = [a for a, b in zip(i['toks'][1:], i['toks']) if b == 'struct']
            if i['kind'] == 'macro' and i['name'] == 'lazy_static':
                p = rustparse.Parser('')
                p.t = [('id' if re.match(r'\w', s) and not s[0].isdigit() else
                        'num' if s[0].isdigit() else 'op', s, 0) for s in i['toks']] \
                    + [('eof', '', 0)]
                p.expect('static')
                p.expect('ref')
                n = p.ident()
                p.expect(':')
                t = p.type()
                p.expect('=')
                self.consts[n] = dict(kind='const', name=n, type=t, value=p.expr(),
                                      lines=i['lines'])
            if i['kind'] == 'impl':
                for f in i['items']:
                    if f['kind'] == 'fn':
                        f['impl'] = i
                        f['lean'] = self.methodname(i, f)
                        self.methods[(i['type'][1][-1], f['name'])] = f

    def methodname(self, impl, f):
        t = impl['type'][1][-1]
        n = f['name']
        if impl['trait'] and impl['trait'][1][-1] == 'From':
            n = 'from_' + impl['trait'][2][0][1][-1]
        return '%s.%s' % (t, kw(n) if n != 'from' else n)


CRATE = {f: File(f) for f in FILES}
MACRO_OK = 'const MODULE_TYPE : ModuleType = ModuleType :: $ name ;'
for _f in CRATE.values():
    for _i in _f.items:
        if _i['kind'] == 'macro_rules':
            assert MACRO_OK in ' '.join(_i['toks']), _f.name

# Methods by name, for calls on receivers whose type the translator does not know.
BYNAME = {}
for _f in CRATE.values():
    for (_t, _n), _m in _f.methods.items():
        BYNAME.setdefault(_n, []).append((_f.name, _t, _m))


def is_result(t):
    return t[0] == 'path' and t[1][-1] == 'Result'


def is_generic(file, impl):
    return bool(impl) and any(a[0] == 'path' and a[1] == ['Variant'] for a in impl['type'][2])


class Gen:
    """Translation of one function."""

    def __init__(self, file, fn, impl=None, trait=None):
        self.file, self.fn, self.impl, self.trait = file, fn, impl, trait
        self.n = 0
        self.buf = []
        self.globs = []            # glob-imported enumerations
        self.resultvars = set()
        self.alias = {}            # p -> (place, key)
        self.extra = []            # extra parameters
        self.mut = fn['self'] == 'mut'
        self.mutparams = [p for p, t in fn['params'] if t[0] == 'refmut']
        self.exmode = self.mut and is_result(fn['ret']) and fn['ret'][1][0] != 'io'
        self.inclosure = 0

    def fail(self, msg):
        raise NotImplementedError('%s.rs: %s: %s' % (self.file.name, self.fn['name'], msg))

    # ---- names and types ---------------------------------------------------------------
    def lookup_enum(self, name):
        for f in [self.file, CRATE['lib'], CRATE['error']] + list(CRATE.values()):
            if name in f.enums:
                return f, f.enums[name]
        return None, None

    def shared(self, file, name):
        if (file.name, name) in SHARED:
            return SHARED[(file.name, name)]
        return name

    def ctor(self, enum, variant):
        f, e = self.lookup_enum(enum)
        assert variant in [v[0] for v in e['variants']], (enum, variant)
        return '%s.%s' % (self.shared(f, enum), lower(variant) if enum in LOWER else variant)

    def ty(self, t):
        k = t[0]
        if k in ('ref', 'refmut', 'dyn'):
            return self.ty(t[1])
        if k == 'slice':
            return 'List ' + self.typ(t[1])
        if k == 'tuple':
            return ' × '.join(self.typ(x) for x in t[1]) if t[1] else 'Unit'
        if k == 'path':
            segs, args = t[1], t[2]
            n = segs[-1]
            n = self.file.aliases.get(n, n)
            if n == 'Self':
                if segs[0] == 'Self' and len(segs) > 1:
                    self.fail('Self type')
                return self.ty(self.impl['type'])
            if n in ('Vec',):
                return 'List ' + self.typ(args[0])
            if n == 'Box':
                return self.ty(args[0])
            if n == 'Option':
                return 'Option ' + self.typ(args[0])
            if n == 'HashMap':
                return 'HMap %s %s' % (self.typ(args[0]), self.typ(args[1]))
            if n == 'Result':
                if segs[0] == 'fmt':
                    return 'String'
                return self.ty(args[0])
            if n == 'ProcessModbusTcpData':
                return 'Dyn'
            if n in PRIM:
                return PRIM[n]
            file = CRATE[segs[-2]] if len(segs) > 1 and segs[-2] in CRATE else self.file
            for f in [file, CRATE['lib'], CRATE['error']]:
                if n in f.structs or n in f.enums or (f.name, n) in SHARED:
                    s = self.shared(f, n)
                    if args:
                        s += ' ' + ' '.join(self.typ(a) for a in args)
                    return s if f is self.file or (f.name, n) in SHARED or f.name == 'lib' \
                        else f.name + '.' + s
            if n == 'Variant':
                return 'Variant'
        self.fail('type %r' % (t,))

    def typ(self, t):
        s = self.ty(t)
        return '(%s)' % s if ' ' in s else s

    def fieldtype(self, field):
        for s in self.file.structs.values():
            for f, t in s['fields']:
                if f == field:
                    return self.ty(t)
        return None

    # ---- output ------------------------------------------------------------------------
    def emit(self, s):
        self.buf.extend(s if isinstance(s, list) else [s])

    def fresh(self):
        self.n += 1
        return 't%d' % self.n

    def collect(self, f):
        """Lines of the `do` block that `f` emits, as a parenthesised term."""
        old, self.buf = self.buf, []
        f()
        lines, self.buf = self.buf, old
        if len(lines) == 1:
            return ['(' + lines[0] + ')']
        return ['(do'] + ['  ' + x for x in lines[:-1]] + ['  ' + lines[-1] + ')']

    def act(self, term):
        """An action of the monad of the function from a term of type `Res _`."""
        return 'Ex.at self (%s)' % term if self.exmode and not self.inclosure else term

    def bind(self, term, ty=None):
        t = self.fresh()
        self.emit('let %s%s ← %s' % (t, ' : %s' % ty if ty else '', self.act(term)))
        return t

    def bindlines(self, lines, var=None):
        """Bind the result of a structured term (already in the monad of the function)."""
        t = var or self.fresh()
        self.emit(['let %s ← %s' % (t, lines[0])] + ['    ' + x for x in lines[1:]])
        return t

    # ---- assigned variables ------------------------------------------------------------
    MUTMETHODS = {'push', 'extend_from_slice', 'insert', 'remove', 'clear', 'write_all'}

    def root(self, e):
        while e[0] in ('field', 'index', 'deref', 'ref', 'paren'):
            e = e[1]
        return e[1][0] if e[0] == 'path' and len(e[1]) == 1 else None

    def mutates(self, e):
        """The method call `e` changes its receiver."""
        if e[2] in self.MUTMETHODS:
            return True
        r = self.root(e[1])
        if r in self.alias or r == 'self':
            m = self.method(e)
            return m is not None and m[2]['self'] == 'mut'
        return False

    def assigned(self, e, local=frozenset()):
        """Names of variables declared outside of `e` that `e` assigns to, in order."""
        out = []

        def add(n):
            if n is not None and n not in out:
                out.append(n)

        def names(p):
            if p[0] == 'pvar':
                return {p[1]}
            if p[0] in ('ptuple', 'pslice'):
                return set().union(*[names(x) for x in p[1]]) if p[1] else set()
            if p[0] == 'pctor':
                return set().union(*[names(x) for x in p[2]]) if p[2] else set()
            return set()

        def target(n, loc):
            if n in self.alias and n not in loc:
                add(n)
                n = self.root(self.alias[n][0])
            if n not in loc:
                add(n)

        def walk(e, loc):
            if e is None or not isinstance(e, tuple):
                return
            k = e[0]
            if k == 'block':
                loc = set(loc)
                for s in e[1]:
                    if s[0] == 'let':
                        walk(s[3], loc)
                        loc |= names(s[1])
                    elif s[0] == 'expr':
                        walk(s[1], loc)
                walk(e[2], loc)
            elif k == 'assign':
                walk(e[3], loc)
                target(self.root(e[2]), loc)
            elif k == 'method':
                walk(e[1], loc)
                for a in e[4]:
                    walk(a, loc)
                if e[2] in self.MUTMETHODS or (e[2] == 'next' and self.root(e[1]) in self.alias):
                    target(self.root(e[1]), loc)
            elif k == 'if':
                c = e[1]
                l2 = loc
                if c[0] == 'let':
                    walk(c[2], loc)
                    l2 = set(loc) | names(c[1])
                    a = self.getmut(c[2])
                    if a and c[1][0] == 'pctor':
                        self.alias[c[1][2][0][1]] = a
                        l2 = l2 - names(c[1])
                        inner = []
                        saved = list(out)
                        walk(e[2], l2)
                        pname = c[1][2][0][1]
                        if pname in out and pname not in saved:
                            out.remove(pname)
                        del inner
                        del self.alias[pname]
                        walk(e[3], loc)
                        return
                else:
                    walk(c, loc)
                walk(e[2], l2)
                walk(e[3], loc)
            elif k == 'match':
                walk(e[1], loc)
                for p, b in e[2]:
                    walk(b, set(loc) | names(p))
            elif k == 'for':
                walk(e[2], loc)
                walk(e[3], set(loc) | names(e[1]))
            elif k == 'closure':
                return
            elif k == 'call':
                for a in e[2]:
                    walk(a, loc)
                if e[1][0] == 'path' and e[1][1][-1] in ('write_u16_into', 'read_u16_into'):
                    target(self.root(e[2][1]), loc)
            elif k == 'struct':
                for f, v in e[2]:
                    walk(v, loc)
            else:
                for x in e[1:]:
                    if isinstance(x, tuple):
                        walk(x, loc)
                    elif isinstance(x, list):
                        for y in x:
                            walk(y, loc)
        walk(e, set(local))
        return out

    def getmut(self, e):
        """`place.get_mut(&key)`"""
        if e[0] == 'method' and e[2] == 'get_mut':
            return (e[1], e[4][0])
        return None

    # ---- places ------------------------------------------------------------------------
    def place(self, e):
        """(root variable, path)"""
        path = []
        while True:
            if e[0] in ('deref', 'ref', 'paren'):
                e = e[1]
            elif e[0] == 'field':
                path.append(('field', e[2]))
                e = e[1]
            elif e[0] == 'index':
                path.append(('index', self.ex(e[2])))
                e = e[1]
            elif e[0] == 'path' and len(e[1]) == 1:
                return e[1][0], path[::-1]
            else:
                self.fail('place %r' % (e,))

    def store(self, root, path, val):
        """Assign `val` to a place."""
        def rec(base, path):
            if not path:
                return val
            k, x = path[0]
            if k == 'field':
                return '{ %s with %s := %s }' % (base, camel(x), rec('%s.%s' % (base, camel(x)), path[1:]))
            if len(path) > 1:
                inner = self.bind('r_index %s %s' % (base, x))
                new = rec(inner, path[1:])
            else:
                new = self.paren(val)
            return self.bind('r_set %s %s %s' % (base, x, new))
        v = rec(kw(root), path)
        self.emit('let %s := %s' % (kw(root), v))
        if root in self.alias:
            pl, key = self.alias[root]
            r2, p2 = self.place(pl)
            self.store(r2, p2, 'r_insert %s %s %s' % (self.atom(pl), self.atom(key), kw(root)))

    def load(self, root, path):
        t = kw(root)
        for k, x in path:
            t = '%s.%s' % (t, camel(x)) if k == 'field' else self.bind('r_index %s %s' % (t, x))
        return t

    # ---- expressions -------------------------------------------------------------------
    def const(self, e):
        """Value of an integer expression made of literals."""
        if e[0] == 'int':
            return e[1]
        if e[0] == 'paren':
            return self.const(e[1])
        if e[0] == 'neg' and self.const(e[1]) is not None:
            return -self.const(e[1])
        if e[0] == 'bin' and e[1] in '+*-':
            a, b = self.const(e[2]), self.const(e[3])
            if a is not None and b is not None:
                return {'+': a + b, '*': a * b, '-': a - b}[e[1]]
        return None

    def atom(self, e, want=None):
        return self.paren(self.ex(e, want))

    def paren(self, s):
        if re.fullmatch(r"[\w.']+|\"[^\"]*\"|'.'", s) or (s[0] in '([{' and self.balanced(s)):
            return s
        return '(%s)' % s

    @staticmethod
    def balanced(s):
        d = 0
        for i, c in enumerate(s):
            d += c in '([{'
            d -= c in ')]}'
            if d == 0 and i < len(s) - 1:
                return False
        return True

    def isresult(self, e):
        """The expression has type `Result`: its translation is an action, not a value."""
        k = e[0]
        if k == 'paren':
            return self.isresult(e[1])
        if k == 'path':
            return len(e[1]) == 1 and e[1][0] in self.resultvars
        if k == 'call':
            if e[1][0] == 'path':
                if e[1][1][-1] in ('Ok', 'Err'):
                    return True
                f = self.function(e[1])
                return f is not None and is_result(f['ret'])
        if k == 'method':
            if e[2] == 'ok_or':
                return True
            if e[2] == 'collect':
                return bool(e[3]) and is_result(e[3][0])
            if e[2] == 'write_all':
                return True
            m = self.method(e)
            if m:
                return is_result(m[2]['ret'])
            if e[2] in TRAITFNS:
                return is_result(CRATE['ur20_fbc_mod_tcp'].traits['ProcessModbusTcpData']
                                 and next(i for i in CRATE['ur20_fbc_mod_tcp'].traits
                                          ['ProcessModbusTcpData']['items']
                                          if i['name'] == e[2])['ret'])
        return False

    def action(self, e, want=None):
        """Translation of an expression of type `Result` to a term of type `Res`."""
        k = e[0]
        if k == 'paren':
            return self.action(e[1], want)
        if k == 'path':
            return 'r_release %s' % kw(e[1][0])
        if k == 'call':
            n = e[1][1][-1]
            if n == 'Ok':
                return 'pure %s' % self.atom(e[2][0], want)
            if n == 'Err':
                return 'Res.err %s' % self.atom(e[2][0])
            return self.call(e)
        if k == 'method':
            if e[2] == 'ok_or':
                v = self.atom(e[1], want)
                return 'Res.ofOption %s %s' % (self.atom(e[4][0]), v)
            if e[2] == 'collect':
                return 'r_collect %s' % self.atom(e[1])
            if e[2] == 'write_all':
                root, path = self.place(e[1])
                d = self.atom(e[4][0])
                t = self.bind('r_write_all (ur20_1com_232_485_422.MessageProcessor.write oc) %s %s'
                              % (self.load(root, path), d))
                self.store(root, path, t)
                return 'pure ()'
            return self.methodcall(e)
        self.fail('action %r' % (e,))

    def function(self, path):
        """The function or method that a path names."""
        segs = path[1]
        n = segs[-1]
        if len(segs) == 1 or segs[-2] in ('util', 'self', 'super', 'crate'):
            for f in [self.file, CRATE['util']]:
                if n in f.fns and (len(segs) == 1 or f.name == 'util'):
                    f.fns[n]['file'] = f
                    return f.fns[n]
            return None
        file = CRATE[segs[-3]] if len(segs) > 2 and segs[-3] in CRATE else self.file
        t = self.impl['type'][1][-1] if segs[-2] == 'Self' else segs[-2]
        for f in [file, CRATE['lib']]:
            if (t, n) in f.methods:
                f.methods[(t, n)]['file'] = f
                return f.methods[(t, n)]
        if n == 'default' and t in file.structs and 'Default' in file.structs[t]['derives']:
            return dict(name='default', lean=t + '.default', ret=('path', ['Self'], []), self=None,
                        file=file, params=[], impl=None)
        return None

    def qual(self, f):
        n = f.get('lean') or f['name']
        return n if f['file'] is self.file else f['file'].name + '.' + n

    def genericargs(self, gen):
        out = []
        for g in gen:
            if g[0] == 'path' and g[1] == ['Variant']:
                out.append('Variant')
            elif g[0] == 'path' and g[1][-1] in sum((f.variants for f in CRATE.values()), []):
                out.append('ModuleType.' + g[1][-1])
            else:
                self.fail('generic %r' % (g,))
        return out

    def call(self, e):
        """Term (of type `Res`) of a call of a function of the crate."""
        f = self.function(e[1])
        args = ['oc'] + self.genericargs(e[1][2])
        if f.get('impl') and is_generic(f['file'], f['impl']) and not e[1][2]:
            args.append('Variant')
        args += [self.atom(a) for a in e[2]]
        return ' '.join([self.qual(f)] + args)

    def method(self, e):
        """(file, type, fn) of a call of a method of the crate with a known implementation."""
        n, recv = e[2], e[1]
        if recv == ('path', ['self'], []) and self.impl:
            t = self.impl['type'][1][-1]
            if (t, n) in self.file.methods:
                return (self.file, t, self.file.methods[(t, n)])
        if recv == ('path', ['self'], []) and self.trait:
            return None
        if self.root(recv) in self.alias and recv[0] == 'path':
            f = CRATE['ur20_1com_232_485_422']
            if ('MessageProcessor', n) in f.methods:
                return (f, 'MessageProcessor', f.methods[('MessageProcessor', n)])
        c = BYNAME.get(n, [])
        if len(c) == 1 and n not in ('read', 'write', 'from'):
            return (CRATE[c[0][0]], c[0][1], c[0][2])
        return None

    def methodcall(self, e):
        """Term (of type `Res`) of a call of a method of the crate."""
        m = self.method(e)
        args = [self.atom(a) for a in e[4]]
        if m:
            f, t, fn = m
            fn['file'] = f
            recv = self.atom(e[1])
            g = ['Variant'] if is_generic(f, fn['impl']) else []
            return ' '.join([self.qual(fn), 'oc'] + g + [recv] + args)
        if e[2] == 'module_type' and self.trait:
            return 'module_type'
        return ' '.join(['%s.%s' % (self.atom(e[1]), e[2])] + args)

    def ex(self, e, want=None):
        """Translation of an expression to a Lean term; effects are emitted before."""
        k = e[0]
        c = self.const(e)
        if c is not None:
            return '(%d)' % c if c < 0 else str(c)
        if k == 'float':
            q, d = e[1].split('.')
            d = d.rstrip('0')
            return 'F32.lit (%d / %d)' % (int(q + d), 10 ** len(d)) if d else 'F32.lit %d' % int(q)
        if k == 'bool':
            return e[1]
        if k == 'str':
            return e[1]
        if k == 'char':
            return e[1]
        if k in ('paren', 'ref', 'deref'):
            return self.ex(e[1], want)
        if k == 'path':
            return self.path(e)
        if k == 'tuple':
            return '(%s)' % ', '.join(self.ex(x) for x in e[1])
        if k == 'array' or k == 'vec':
            return '[%s]' % ', '.join(self.ex(x) for x in e[1])
        if k == 'vecrep':
            v = self.atom(e[1])
            return 'List.replicate %s %s' % (self.atom(e[2]), v)
        if k == 'field':
            return '%s.%s' % (self.atom(e[1]), camel(e[2]))
        if k == 'index':
            base = self.atom(e[1])
            if e[2][0] == 'range':
                a = self.atom(e[2][1])
                if e[2][2] is None:
                    return self.bind('r_slice_from %s %s' % (base, a))
                return self.bind('r_slice %s %s %s' % (base, a, self.atom(e[2][2])))
            return self.bind('r_index %s %s' % (base, self.atom(e[2])))
        if k == 'cast':
            t = self.ty(e[2])
            c = self.const(e[1])
            if c is not None and t == 'F32':
                return 'F32.lit %d' % c
            if c is not None and t == 'Char':
                return 'Char.ofNat %d' % c
            return '(r_as %s : %s)' % (self.atom(e[1]), t)
        if k == 'not':
            return '!%s' % self.atom(e[1])
        if k == 'bin':
            return self.binary(e)
        if k == 'try':
            if not self.isresult(e[1]):
                self.fail('? on %r' % (e[1],))
            if e[1][0] == 'method' and self.mutates(e[1]):
                a = self.action(e[1], want)
                return '()' if a == 'pure ()' else self.bind(a)
            return self.bind(self.action(e[1], want))
        if k == 'struct':
            file, name = self.file, e[1][-1]
            if name == 'Self':
                name = self.impl['type'][1][-1]
            for f in [self.file, CRATE['lib']]:
                if name in f.structs:
                    file = f
                    break
            t = self.shared(file, name)
            fs = [(f, v) for f, v in e[2] if f != '_phantom']
            if len(fs) < len(e[2]):
                t += ' Variant'
            vals = ['%s := %s' % (camel(f), self.ex(v, self.fieldtype(f))) for f, v in fs]
            return '({ %s } : %s)' % (', '.join(vals), t)
        if k == 'call':
            return self.excall(e, want)
        if k == 'method':
            return self.exmethod(e, want)
        if k in ('if', 'match', 'block'):
            return self.bindvalue(e, want)
        if k == 'macro' and e[1] in ('panic', 'unreachable'):
            return self.bind('Res.panic')
        if k == 'macro' and e[1] == 'write':
            s = e[2][1][1]
            if '{err}' in s:
                return '(%s ++ err)' % s.replace('{err}', '')
            return s
        if k == 'return':
            self.emit(self.act(self.action(e[1])))
            return '()'
        self.fail('expression %r' % (e,))

    def path(self, e):
        segs = e[1]
        n = segs[-1]
        if len(segs) == 1:
            if n == 'None':
                return 'none'
            if n == 'PhantomData':
                return '()'
            for f in [self.file, CRATE['lib']]:
                if n in f.consts:
                    return n if f is self.file else f.name + '.' + n
            for g in self.globs:
                f, en = self.lookup_enum(g)
                if en and n in [v[0] for v in en['variants']]:
                    return self.ctor(g, n)
            if n in self.file.structs and not self.file.structs[n]['fields']:
                return '({} : %s)' % n
            return kw(n)
        if segs == ['Variant', 'MODULE_TYPE']:
            return 'Variant'
        f, en = self.lookup_enum(segs[-2])
        if en and n in [v[0] for v in en['variants']]:
            return self.ctor(segs[-2], n)
        self.fail('path %r' % (segs,))

    def binary(self, e):
        op = e[1]
        if op in ('&&', '||'):
            assert not self.assigned(e[3]), e
            a = self.atom(e[2])
            old, self.buf = self.buf, []
            b = self.atom(e[3])
            inner, self.buf = self.buf, old
            if not inner:
                return '%s %s %s' % (a, op, b)
            lines = ['(do'] + ['  ' + x for x in inner] + ['  pure %s)' % b]
            if op == '&&':
                out = ['(if %s then' % a] + ['  ' + x for x in lines] + ['else (pure false))']
            else:
                out = ['(if %s then (pure true) else' % a] + ['  ' + x for x in lines]
                out[-1] += ')'
            return self.bindlines(out)
        a = self.atom(e[2])
        b = self.atom(e[3])
        if op in ('==', '!='):
            return '%s %s %s' % (a, op, b)
        if op in ('<', '>', '<=', '>='):
            lop = {'<=': '≤', '>=': '≥'}.get(op, op)
            return 'decide (%s %s %s)' % (a, lop, b)
        if op in ('&', '|', '^'):
            return '%s %s %s' % (a, op * 3, b)
        if op in ('<<', '>>'):
            return self.bind('%s oc %s %s' % ({'<<': 'r_shl', '>>': 'r_shr'}[op], a, b))
        names = {'+': 'r_add', '-': 'r_sub', '*': 'r_mul', '/': 'r_div', '%': 'r_rem'}
        return self.bind('%s oc %s %s' % (names[op], a, b))

    def excall(self, e, want):
        f = e[1]
        segs = f[1]
        n = segs[-1]
        if n == 'Some' and len(segs) == 1:
            return 'some %s' % self.atom(e[2][0])
        if segs == ['FromPrimitive', 'from_u16']:
            if not want:
                self.fail('from_u16 needs a type')
            a = self.atom(e[2][0])
            return '(FromPrimitive.from_u16 %s : Option %s)' % (a, want)
        if n == 'from' and segs[0] in PRIM:
            return '(r_from %s : %s)' % (self.atom(e[2][0]), PRIM[segs[0]])
        if segs == ['HashMap', 'new']:
            return 'HMap.new'
        if segs == ['Box', 'new']:
            return 'ToDyn.toDyn oc %s' % self.atom(e[2][0])
        if segs == ['Duration', 'new']:
            return 'r_duration %s %s' % (self.atom(e[2][0]), self.atom(e[2][1]))
        if segs == ['Duration', 'from_nanos']:
            return 'r_from_nanos %s' % self.atom(e[2][0])
        if segs == ['cmp', 'min']:
            return 'min %s %s' % (self.atom(e[2][0]), self.atom(e[2][1]))
        if segs[0] == 'LittleEndian':
            src = self.atom(e[2][0])
            root, path = self.place(e[2][1])
            t = self.bind('%s %s %s' % (n, src, self.load(root, path)))
            self.store(root, path, t)
            return '()'
        if len(segs) > 1:
            fl, en = self.lookup_enum(segs[-2])
            if en and n in [v[0] for v in en['variants']]:
                return '%s %s' % (self.ctor(segs[-2], n), ' '.join(self.atom(a) for a in e[2]))
        fn = self.function(f)
        if fn is None:
            self.fail('call of %r' % (segs,))
        return self.bind(self.call(e))

    PURE = {'len': 'length', 'is_empty': 'isEmpty', 'iter': 'r_iter', 'enumerate': 'r_enumerate',
            'to_vec': 'r_to_vec', 'as_secs': 'r_as_secs', 'subsec_nanos': 'r_subsec_nanos',
            'subsec_micros': 'r_subsec_micros', 'div_ceil': 'r_div_ceil', 'to_le_bytes': 'r_to_le_bytes',
            'take': 'r_take', 'zip': 'r_zip', 'chunks_exact': 'r_chunks_exact',
            'replace': 'r_replace'}

    def exmethod(self, e, want):
        _, recv, n, gen, args = e
        if n == 'clone' or n == 'try_into':
            return self.ex(recv, want)
        if n == 'expect':
            # `Vec<T>::try_into::<[T; N]>().expect(..)`
            if recv[0] == 'method' and recv[2] == 'try_into':
                return self.bind('r_to_array 4 %s' % self.atom(recv[1]))
            self.fail('expect')
        if n == 'into':
            if recv[0] == 'struct':
                c = [m for (t, k), m in self.file.methods.items() if k == 'from']
                assert len(c) == 1 and t_is(c[0], recv)
                c[0]['file'] = self.file
                return self.bind('%s oc %s' % (self.qual(c[0]), self.atom(recv)))
            return self.ex(recv)
        if n == 'to_uppercase':
            if 'up' not in self.extra:
                self.extra.append('up')
            return 'r_to_uppercase up %s' % self.atom(recv)
        if n == 'zip':
            a = self.atom(recv)
            return 'r_zip %s (r_iter %s)' % (a, self.atom(args[0])) if args[0][0] == 'ref' \
                else 'r_zip %s %s' % (a, self.atom(args[0]))
        if n in self.PURE:
            r = self.range_or_atom(recv)
            if n in ('len', 'is_empty'):
                return '%s.%s' % (r, self.PURE[n])
            return ' '.join([self.PURE[n], r] + [self.atom(a) for a in args])
        if n == 'map':
            return self.map(recv, args[0])
        if n == 'fold':
            a = self.atom(recv)
            init = self.atom(args[0])
            lines = self.closure(args[1])
            return self.bindlines(['r_fold %s %s' % (a, init)] + ['  ' + x for x in lines])
        if n == 'collect':
            if gen and is_result(gen[0]):
                self.fail('collect to Result in value position')
            return self.bind('r_collect %s' % self.atom(recv))
        if n == 'chunks':
            return self.bind('r_chunks %s %s' % (self.atom(recv), self.atom(args[0])))
        if n == 'push':
            v = self.atom(args[0])
            root, path = self.place(recv)
            self.store(root, path, '%s ++ [%s]' % (self.load(root, path), v))
            return '()'
        if n == 'extend_from_slice':
            v = self.atom(args[0])
            root, path = self.place(recv)
            self.store(root, path, '%s ++ %s' % (self.load(root, path), v))
            return '()'
        if n == 'clear':
            root, path = self.place(recv)
            self.store(root, path, '[]')
            return '()'
        if n == 'insert':
            ks, v = self.atom(args[0]), self.atom(args[1])
            root, path = self.place(recv)
            self.store(root, path, 'r_insert %s %s %s' % (self.load(root, path), ks, v))
            return '()'
        if n == 'remove':
            key = self.atom(args[0])
            root, path = self.place(recv)
            base = self.load(root, path)
            t = self.fresh()
            if args[0][0] == 'ref':
                self.emit('let %s := r_get %s %s' % (t, base, key))
                self.store(root, path, 'r_remove %s %s' % (base, key))
            else:
                self.emit('let %s ← %s' % (t, self.act('r_index %s %s' % (base, key))))
                self.store(root, path, '(%s).eraseIdx %s' % (base, key))
            return t
        if self.isresult(e):
            self.fail('Result in value position: %r' % (e,))
        m = self.method(e)
        if m and m[2]['self'] == 'mut':
            root, path = self.place(recv)
            t = self.bind(self.methodcall(e))
            self.store(root, path, '%s.1' % t)
            return '%s.2' % t
        if m or n in TRAITFNS or n == 'module_type':
            return self.bind(self.methodcall(e))
        self.fail('method %s' % n)

    def range_or_atom(self, e):
        while e[0] == 'paren':
            e = e[1]
        if e[0] == 'range':
            a, b = self.atom(e[1]), self.atom(e[2])
            return '(r_range %s %s)' % (a, b)
        return self.atom(e)

    def map(self, recv, f):
        r = self.range_or_atom(recv)
        if recv[0] == 'field' and recv[2] == 'duration':
            lines = self.closure(f)
            return self.bindlines(['r_opt_map %s' % r] + ['  ' + x for x in lines])
        if f[0] == 'path':
            enum = f[1][-2]
            lines = ['(fun x => pure (%s x))' % self.ctor(enum, f[1][-1])]
        else:
            lines = self.closure(f)
        t = self.fresh()
        self.emit(['let %s := r_map %s' % (t, r)] + ['    ' + x for x in lines])
        return t

    def closure(self, f):
        assert f[0] == 'closure', f
        own = {p[1] for p in f[1] if p[0] == 'pvar'}
        assert all(v in own for v in self.assigned(f[2])), f
        pats = ' '.join(self.pat(p, top=True) for p in f[1])
        self.inclosure += 1
        saved = self.resultvars
        self.resultvars = set(saved)
        body = self.collect(lambda: self.tail(f[2], None))
        self.resultvars = saved
        self.inclosure -= 1
        return ['(fun %s =>' % pats] + ['  ' + x for x in body[:-1]] + ['  ' + body[-1] + ')']

    # ---- patterns ----------------------------------------------------------------------
    def pat(self, p, top=False):
        k = p[0]
        if k == 'pwild':
            return '_'
        if k == 'pvar':
            n = p[1]
            if n == 'None':
                return 'none'
            for g in self.globs:
                f, en = self.lookup_enum(g)
                if n in [v[0] for v in en['variants']]:
                    return self.ctor(g, n)
            return kw(n)
        if k == 'ptuple':
            return '(%s)' % ', '.join(self.pat(x) for x in p[1])
        if k == 'pslice':
            return '[%s]' % ', '.join(self.pat(x) for x in p[1])
        if k == 'pctor':
            segs, ps = p[1], p[2]
            if segs == ['Some']:
                return ('some %s' if top else '(some %s)') % self.pat(ps[0])
            s = self.ctor(segs[-2], segs[-1])
            if not ps:
                return s
            s += ' ' + ' '.join(self.pat(x) for x in ps)
            return s if top else '(%s)' % s
        if k == 'por':
            return ' | '.join(self.pat(x, True) for x in p[1])
        self.fail('pattern %r' % (p,))

    def litcond(self, x, p):
        """Condition of a literal pattern."""
        if p[0] == 'por':
            return ' || '.join('(%s)' % self.litcond(x, q) for q in p[1])
        if p[0] == 'prange':
            return 'decide (%s ≤ %s) && decide (%s ≤ %s)' % (
                self.ex(p[1]), x, x, self.ex(p[2]))
        return '%s == %s' % (x, self.ex(p[1]))

    # ---- structured expressions --------------------------------------------------------
    def structured(self, e, leaf, want=None):
        """Lines of a term for an `if`, `match` or block; `leaf` translates the branches."""
        k = e[0]

        def branch(b):
            if b is None:
                return self.collect(lambda: leaf(('tuple', [])))
            return self.collect(lambda: leaf(b))

        def ind(ls):
            return ['  ' + x for x in ls]

        if k == 'block':
            return self.collect(lambda: leaf(e))
        if k == 'if':
            c = e[1]
            if c[0] == 'let':
                a = self.getmut(c[2])
                if a:
                    pl, key = a
                    x = 'r_get %s %s' % (self.atom(pl), self.atom(key))
                    p = c[1][2][0][1]
                    self.alias[p] = a
                    th = branch(e[2])
                    del self.alias[p]
                else:
                    x = self.ex(c[2])
                    th = branch(e[2])
                return ['(match %s with' % x, '| %s =>' % self.pat(c[1], True)] + ind(th) \
                    + ['| _ =>'] + ind(close(branch(e[3])))
            x = self.ex(c)
            return ['(if %s then' % x] + ind(branch(e[2])) + ['else'] + ind(close(branch(e[3])))
        if k == 'match':
            x = self.atom(e[1], want)
            arms = e[2]
            if any(self.isliteral(p) for p, _ in arms):
                if not re.fullmatch(r"[\w.']+", x):
                    t = self.fresh()
                    self.emit('let %s := %s' % (t, x))
                    x = t
                assert arms[-1][0][0] == 'pwild' and all(self.isliteral(p) for p, _ in arms[:-1])
                out = []
                for p, b in arms[:-1]:
                    out += ['%sif %s then' % ('(' if not out else 'else ', self.litcond(x, p))] \
                        + ind(branch(b))
                return out + ['else'] + ind(close(branch(arms[-1][1])))
            out = ['(match %s with' % x]
            for i, (p, b) in enumerate(arms):
                ls = branch(b)
                if i == len(arms) - 1:
                    ls = close(ls)
                out += ['| %s =>' % self.pat(p, True)] + ind(ls)
            return out
        self.fail('structured %r' % (e,))

    def isliteral(self, p):
        return p[0] in ('plit', 'prange') or p[0] == 'por' and all(self.isliteral(q) for q in p[1])

    def tail(self, e, want=None, vs=()):
        """Emit the last statement of a block: an action whose result is the value of `e`, after
        the values of the variables `vs`."""
        k = e[0]
        if k == 'paren':
            return self.tail(e[1], want, vs)
        if k == 'block':
            globs = list(self.globs)
            if self.stmts(e[1]) != 'stop':
                self.tail(e[2] if e[2] is not None else ('tuple', []), want, vs)
            self.globs = globs
            return
        if k in ('if', 'match'):
            self.emit(self.structured(e, lambda b: self.tail(b, want, vs), want))
            return
        if k == 'return':
            self.emit(self.act(self.action(e[1])))
            return
        if k == 'macro' and e[1] in ('panic', 'unreachable'):
            self.emit(self.act('Res.panic'))
            return
        if vs:
            v = self.atom(e, want)
            self.emit('pure (%s)' % ', '.join([kw(x) for x in vs] + [v]))
            return
        if k == 'method' and e[2] == 'collect' and self.atfnlevel and is_result(self.fn['ret']) \
                and not self.inclosure:
            self.emit(self.act('r_collect %s' % self.atom(e[1])))
            return
        if self.isresult(e):
            self.emit(self.act(self.action(e, want)))
            return
        self.emit('pure %s' % self.atom(e, want))

    def bindvalue(self, e, want, var=None):
        """Bind the value of an `if`, `match` or block together with the variables it assigns."""
        vs = self.assigned(e)
        if not vs:
            return self.bindlines(self.structured(e, lambda b: self.tail(b, want), want), var)
        var = var or self.fresh()
        self.bindlines(self.structured(e, lambda b: self.tail(b, want, vs), want),
                       self.vartuple(vs + [var]))
        return var

    def vartuple(self, vs):
        vs = [kw(v) for v in vs]
        return vs[0] if len(vs) == 1 else '(%s)' % ', '.join(vs) if vs else '()'

    def effect(self, e):
        """Emit an expression used as a statement."""
        k = e[0]
        if k == 'paren':
            return self.effect(e[1])
        if k in ('if', 'match', 'block'):
            vs = self.assigned(e)

            def leaf(b):
                if b[0] == 'block':
                    globs = list(self.globs)
                    if self.stmts(b[1]) == 'stop':
                        self.globs = globs
                        return
                    if b[2] is not None and self.effect(b[2]) == 'stop':
                        return
                    self.globs = globs
                elif self.effect(b) == 'stop':
                    return
                self.emit('pure %s' % self.vartuple(vs))
            self.bindlines(self.structured(e, leaf), self.vartuple(vs) if vs else '_')
            return
        if k == 'for':
            return self.for_(e)
        if k == 'assign':
            return self.assign(e)
        if k == 'return':
            self.emit(self.act(self.action(e[1])))
            return 'stop'
        if k == 'macro' and e[1] in ('panic', 'unreachable'):
            self.emit(self.act('Res.panic'))
            return 'stop'
        if k == 'tuple' and not e[1]:
            return
        if k == 'try' and self.isresult(e[1]) and not (e[1][0] == 'method' and self.mutates(e[1])):
            self.emit('let _ ← %s' % self.act(self.action(e[1])))
            return
        self.ex(e)

    def assign(self, e):
        _, op, lhs, rhs, _ = e
        want = None
        if lhs[0] == 'field':
            want = self.fieldtype(lhs[2])
        if op != '=':
            rhs = ('bin', op[:-1], lhs, rhs)
        if rhs[0] == 'method' and rhs[2] == 'remove':
            v = self.ex(rhs)
        else:
            v = self.ex(rhs, want)
        root, path = self.place(lhs)
        self.store(root, path, v)

    def for_(self, e):
        _, p, it, body = e
        # `for x in buf.iter_mut().take(n) { *x = ..; }`
        if it[0] == 'method' and it[2] == 'take' and it[1][0] == 'method' \
                and it[1][2] == 'iter_mut':
            buf = it[1][1][1][0]
            n = self.atom(it[4][0])
            vs = [v for v in self.assigned(body) if v != p[1]]
            items = self.bind('r_collect (r_range 0 %s)' % n)
            vs2 = vs + [buf]

            def run():
                self.emit('let %s ← r_index %s i' % (kw(p[1]), kw(buf)))
                self.stmts(body[1])
                self.emit('let %s ← r_set %s i %s' % (kw(buf), kw(buf), kw(p[1])))
                self.emit('pure %s' % self.vartuple(vs2))
            lines = self.collect(run)
            self.bindlines(['r_loop %s %s (fun %s i =>' % (items, self.vartuple(vs2), self.vartuple(vs2))]
                           + ['  ' + x for x in close(lines)], self.vartuple(vs2))
            return
        names = []

        def nomap(x):
            if x[0] == 'method':
                assert x[2] in ('iter', 'enumerate', 'zip', 'chunks'), x[2]
                nomap(x[1])
        nomap(it)
        del names
        if it[0] == 'path':
            # iteration over a hash map, in an unknown order
            o = 'order_' + it[1][0]
            self.extra.append(o)
            items = '(%s %s)' % (o, kw(it[1][0]))
        elif it[0] == 'method' and it[2] == 'chunks':
            items = self.ex(it)
        else:
            items = self.bind('r_collect %s' % self.range_or_atom(it))
        vs = self.assigned(body)

        def run():
            self.stmts(body[1])
            if body[2] is not None:
                self.effect(body[2])
            self.emit('pure %s' % self.vartuple(vs))
        lines = self.collect(run)
        self.bindlines(['r_loop %s %s (fun %s %s =>' % (items, self.vartuple(vs), self.vartuple(vs),
                                                      self.pat(p))]
                       + ['  ' + x for x in close(lines)], self.vartuple(vs))

    def annot(self, name):
        for f in (self.file.name, '*'):
            if (f, self.fn['name'], name) in ANNOT:
                return ANNOT[(f, self.fn['name'], name)]
        return None

    def stmts(self, ss):
        for s in ss:
            if s[0] == 'use':
                assert s[1][-1] == '*', s
                self.globs.append(s[1][-3])
            elif s[0] == 'let':
                self.let(s)
            else:
                if self.effect(s[1]) == 'stop':
                    return 'stop'

    def let(self, s):
        _, p, t, e = s
        if p[0] == 'pvar':
            n = p[1]
            self.resultvars.discard(n)
            if t is not None and is_result(t):
                # a `Result` that is not inspected yet
                if e[0] == 'method' and e[2] == 'collect':
                    term = 'r_collect %s' % self.atom(e[1])
                else:
                    term = self.action(e)
                self.resultvars.add(n)
                self.emit('let %s ← %s' % (kw(n), self.act('r_capture (%s)' % term)))
                return
            want = self.fieldtype(n)
            ann = self.annot(n)
            if e[0] in ('if', 'match', 'block'):
                self.bindvalue(e, want, kw(n))
                return
            v = self.ex(e, want)
            self.emit('let %s%s := %s' % (kw(n), ' : %s' % ann if ann else '', v))
            return
        if p[0] == 'ptuple':
            self.emit('let %s := %s' % (self.pat(p), self.ex(e)))
            return
        if p[0] == 'pslice' and e[0] == 'method' and e[2] == 'to_le_bytes':
            self.emit('let (%s) := %s' % (', '.join(self.pat(x) for x in p[1]), self.ex(e)))
            return
        self.fail('let %r' % (p,))

    # ---- functions ---------------------------------------------------------------------
    def translate(self):
        fn = self.fn
        self.atfnlevel = True
        name = fn.get('lean') or (('%s.%s' % (self.trait, fn['name'])) if self.trait else fn['name'])
        ret = self.ty(fn['ret'])
        params = ['(oc : Bool)']
        if is_generic(self.file, self.impl) or 'Variant' in fn['gens']:
            params.append('(Variant : ModuleType)')
        if fn['self']:
            if self.trait:
                params.append('(module_type : Res ModuleType)')
            else:
                params.append('(self : %s)' % self.ty(self.impl['type']))
        for p, t in fn['params']:
            if t[0] == 'refmut' and t[1][0] == 'path' and t[1][1][0] == 'fmt':
                continue
            params.append('(%s : %s)' % (kw(p), self.ty(t)))
        body = fn['body']
        outs = (['self'] if self.mut else []) + [p for p in self.mutparams if p != 'f']
        monad = 'Res'
        if self.mut:
            rty = [self.ty(self.impl['type'])] + [self.ty(t) for p, t in fn['params']
                                                  if p in outs] + [ret]
            rtype = ' × '.join('(%s)' % x if '×' in x else x for x in rty)
            if self.exmode:
                monad = 'Ex %s' % self.typ(self.impl['type'])
            self.mutbody(body, outs)
        else:
            rtype = ret
            globs = self.globs
            self.stmts(body[1])
            self.tail(body[2] if body[2] is not None else ('tuple', []),
                      None)
            self.globs = globs
        for x in self.extra:
            if x == 'up':
                params.append('(up : Char → List Char)')
            else:
                params.append('(%s : HMap Nat ChannelValue → List (Nat × ChannelValue))' % x)
        lines = self.buf
        f = self.file.name
        doc = '/-- `%s`, `src/%s.rs:%d-%d`. -/' % (fn['name'], f, fn['lines'][0], fn['lines'][1])
        head = 'def %s %s :\n    %s %s := do' % (name, ' '.join(params), monad,
                                                 '(%s)' % rtype if ' ' in rtype else rtype)
        return [doc] + head.split('\n') + ['  ' + x for x in lines]

    def mutbody(self, body, outs):
        """Body of a function with `&mut self`: the result is paired with the new state."""
        self.stmts(body[1])
        self.muttail(body[2], outs)

    def muttail(self, e, outs):
        if e[0] == 'if' and e[1][0] != 'let':
            def leaf(b):
                self.stmts(b[1])
                self.muttail(b[2], outs)
            self.emit(self.structured(e, leaf))
            return
        if e[0] == 'call' and e[1] == ('path', ['Ok'], []):
            v = self.atom(e[2][0])
        elif self.isresult(e):
            v = self.bind(self.action(e))
        else:
            v = self.atom(e)
        self.emit('pure (%s, %s)' % (', '.join(outs), v))


def close(lines):
    return lines[:-1] + [lines[-1] + ')']


def t_is(m, recv):
    return m['impl']['trait'][2][0][1][-1] == recv[1][-1]


def fn_of(file):
    return dict(name='', self=None, params=[], ret=('tuple', []), gens=[])


def translate_file(name):
    file = CRATE[name]
    out = []

    def gen():
        return Gen(file, fn_of(file))

    for i in file.items:
        k = i['kind']
        cite = '`src/%s.rs:%d-%d`' % (name, *i['lines']) if 'lines' in i else ''
        if k == 'macro' and i['name'] == 'lazy_static':
            i = next(c for c in file.consts.values() if c['lines'] == i['lines'])
            k = 'const'
        if k == 'const':
            g = gen()
            v = g.ex(i['value'])
            assert not g.buf, i
            out += ['/-- `%s`, %s. -/' % (i['name'], cite),
                    'def %s : %s := %s' % (i['name'], g.ty(i['type']), v), '']
        elif k == 'struct':
            g = gen()
            if (name, i['name']) in SHARED:
                # the model's type has exactly these fields
                t = SHARED[(name, i['name'])]
                fs = [(camel(f), g.ty(ft)) for f, ft in i['fields']]
                out += ['/-- The fields of `%s`, %s. -/' % (i['name'], cite),
                        'def %s.fields (x : %s) : %s :=' % (
                            i['name'], t, ' × '.join('(%s)' % ft if ' ' in ft else ft for _, ft in fs)),
                        '  (%s)' % ', '.join('x.%s' % f for f, _ in fs), '',
                        '/-- `%s` has no other fields. -/' % i['name'],
                        'theorem %s.fields_all (x : %s) : x = { %s } := rfl' % (
                            i['name'], t, ', '.join('%s := x.%s' % (f, f) for f, _ in fs)), '']
            else:
                gen_ = any(a[0] == 'path' and a[1] == ['Variant'] for a in i['gens'])
                g.fn['gens'] = ['Variant'] if gen_ else []
                out += ['/-- `%s`, %s. -/' % (i['name'], cite),
                        'structure %s%s where' % (i['name'], ' (Variant : ModuleType)' if gen_ else '')]
                for f, ft in i['fields']:
                    if f != '_phantom':
                        out.append('  %s : %s' % (camel(f), g.ty(ft)))
                out.append('')
            if 'Default' in i['derives']:
                t = g.shared(file, i['name'])
                out += ['/-- The derived `%s::default`, %s. -/' % (i['name'], cite),
                        'def %s.default (oc : Bool) : Res %s := do' % (i['name'], t)]
                vals = []
                for f, ft in i['fields']:
                    lt = g.ty(ft)
                    if ft[0] == 'slice':
                        out.append('  let %s ← %s.default oc' % (camel(f), g.ty(ft[1])))
                        v = 'List.replicate %s %s' % (g.ex(ft[2]), camel(f))
                    elif lt in file.structs:
                        out.append('  let %s ← %s.default oc' % (camel(f), lt))
                        v = camel(f)
                    else:
                        v = {'Bool': 'false', 'Nat': '0', 'List Byte': '[]'}[lt]
                    vals.append('%s := %s' % (camel(f), v))
                out += ['  pure { %s }' % ', '.join(vals), '']
        elif k == 'enum':
            g = gen()
            t = g.shared(file, i['name'])
            if any(v[1] for v in i['variants']):
                out += ['/-- `%s` has no other variants, %s. -/' % (i['name'], cite),
                        'theorem %s.variants (x : %s) :' % (i['name'], t),
                        '    %s := by' % ' ∨ '.join(
                            '(∃ a : %s, x = %s a)' % (g.ty(v[1][0]), g.ctor(i['name'], v[0]))
                            if v[1] else 'x = %s' % g.ctor(i['name'], v[0]) for v in i['variants']),
                        '  cases x <;> simp', '']
            else:
                out += ['/-- `%s` has no other variants, %s. -/' % (i['name'], cite),
                        'theorem %s.variants (x : %s) : x ∈ [' % (i['name'], t)]
                vs = ['%s' % g.ctor(i['name'], v[0]) for v in i['variants']]
                out += ['    ' + v + (',' if j < len(vs) - 1 else '] := by')
                        for j, v in enumerate(vs)]
                out += ['  cases x <;> simp', '']
            if 'FromPrimitive' in i['derives']:
                out += ['/-- The derived `FromPrimitive`, %s. -/' % cite,
                        'instance : FromPrimitive %s where' % t,
                        '  from_u16 n := lookup_code n [']
                vs = i['variants']
                out += ['    (%d, %s)%s' % (v[2], g.ctor(i['name'], v[0]),
                                            ',' if j < len(vs) - 1 else ']')
                        for j, v in enumerate(vs)] + ['']
            if 'ToPrimitive' in i['derives']:
                out += ['/-- The derived `ToPrimitive`, %s. -/' % cite,
                        'instance : ToPrimitive %s where' % t, '  to_u16 x := match x with']
                out += ['    | %s => some %d' % (g.ctor(i['name'], v[0]), v[2])
                        for v in i['variants']] + ['']
        elif k == 'trait':
            for f in i['items']:
                if f['kind'] == 'fn' and f['body'] is not None:
                    out += Gen(file, f, trait=i['name']).translate() + ['']
        elif k == 'fn':
            out += Gen(file, i).translate() + ['']
        elif k == 'impl':
            for f in i['items']:
                if f['kind'] != 'fn':
                    continue
                if (name, f['name']) in SKIP:
                    continue
                out += Gen(file, f, impl=i).translate() + ['']
            if i['trait'] and i['trait'][1][-1] == 'ProcessModbusTcpData':
                out += dyn(file, i)
    return out


def dyn(file, impl):
    """The trait object of a module: its own methods and the default ones."""
    g = is_generic(file, impl)
    v = 'Variant ' if g else ''
    own = {f['name'] for f in impl['items']}
    out = ['/-- The trait object of a module, `src/%s.rs:%d-%d`. -/' % (file.name, *impl['lines']),
           'instance %s: ToDyn %s where' % ('{Variant : ModuleType} ' if g else '',
                                            '(Mod Variant)' if g else 'Mod'),
           '  toDyn oc self := {']
    fs = ['module_type := Mod.module_type oc %sself' % v]
    for n in TRAITFNS:
        if n in own:
            fs.append('%s := Mod.%s oc %sself' % (n, n, v))
        else:
            fs.append('%s := ur20_fbc_mod_tcp.ProcessModbusTcpData.%s oc (Mod.module_type oc %sself)' % (n, n, v))
    return out + ['    ' + f for f in fs[:-1]] + ['    ' + fs[-1] + ' }', '']


def order(body):
    """Definitions before their uses, otherwise in the order of the source."""
    chunks, cur = [], []
    for l in body:
        cur.append(l)
        if l == '':
            chunks.append(cur)
            cur = []
    assert not cur
    decl = {}
    for j, c in enumerate(chunks):
        for l in c:
            m = re.match(r'(?:def|structure|theorem) (\S+)', l)
            if m:
                decl[m.group(1)] = j
    out, state = [], {}

    def visit(j):
        if state.get(j) == 'done':
            return
        assert state.get(j) is None, chunks[j]
        state[j] = 'open'
        text = '\n'.join(l for l in chunks[j] if not l.startswith('/--'))
        for n in re.findall(r"(?<![\w.])[A-Za-z_][\w.]*", text):
            if n in decl and decl[n] != j:
                visit(decl[n])
        state[j] = 'done'
        out.append(j)
    for j in range(len(chunks)):
        visit(j)
    return [l for j in out for l in chunks[j]]


def main():
    os.makedirs(OUT, exist_ok=True)
    for name in FILES:
        body = translate_file(name)
        if name == 'ur20_fbc_mod_tcp':
            # the trait's default methods are used by all modules: own Lean module
            cut = next(j for j, l in enumerate(body) if 'The fields of `ModuleOffset`' in l)
            write('FbcTrait', 'ur20_fbc_mod_tcp', ['Lib'], order(body[:cut]))
            body = body[cut:]
            imports = ['FbcTrait', 'Util'] + [leanmod(f) for f in FILES[3:-1]]
        elif name in ('error', 'lib'):
            imports = ['Prelude']
        elif name == 'util':
            imports = ['Lib']
        else:
            imports = ['FbcTrait', 'Util']
        write(leanmod(name), name, imports, order(body))


def write(mod, name, imports, body):
    ns = name
    head = ['import Verif.Source.%s' % i for i in imports]
    head += ['', '/-!', '# `src/%s.rs`, translated' % name, '',
             'Generated by `tools/rust2lean.py` from the source. Do not edit.', '-/', '',
             'set_option linter.unusedVariables false', '',
             'namespace Ur20.Src' + ('.' + ns), '']
    with open(os.path.join(OUT, mod + '.lean'), 'w') as f:
        f.write('\n'.join(head + body + ['end Ur20.Src.' + ns]) + '\n')


if __name__ == '__main__':
    main()
