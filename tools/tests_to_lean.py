#!/usr/bin/env python3
"""Translate the repository's own unit tests into Lean.

    tests_to_lean.py <rust test file> <Lean module stem> <out dir>

The Rust test functions are interpreted: control flow, tables, integers and strings are
executed here, and every call of a method of the library becomes a call of the function of the
model that stands for it.  Each test gives one or more Lean definitions of type `M Unit` and an
`example` that the kernel evaluates to `.ok ()`.
"""
import re, struct, sys, os
from fractions import Fraction

# ------------------------------------------------------------------ tokens
TOK = re.compile(r'''
  (?P<ws>\s+|//[^\n]*|/\*.*?\*/)
 |(?P<float>\d[\d_]*\.(?![.\w])|\d[\d_]*(?:\.\d[\d_]*(?:[eE][+-]?\d+)?|[eE][+-]?\d+)(?:_?f(?:32|64))?)
 |(?P<int>0x[0-9a-fA-F_]+(?:[ui](?:8|16|32|64|128|size))?|0b[01_]+|\d[\d_]*(?:[ui](?:8|16|32|64|128|size))?)
 |(?P<str>"(?:[^"\\]|\\.)*")
 |(?P<chr>'(?:[^'\\]|\\.)')
 |(?P<life>'\w+)
 |(?P<id>[A-Za-z_]\w*)
 |(?P<op>\.\.=|<<=|>>=|::|=>|->|==|!=|<=|>=|&&|\|\||<<|>>|\+=|-=|\*=|/=|%=|&=|\|=|\.\.|[-+*/%!&|^<>=.,;:()\[\]{}\#@?$])
''', re.X | re.S)

class Tk:
    __slots__ = ('k', 'v', 'line')
    def __init__(s, k, v, line): s.k, s.v, s.line = k, v, line
    def __repr__(s): return f'{s.v}@{s.line}'

def lex(src):
    i, out, line = 0, [], 1
    while i < len(src):
        m = TOK.match(src, i)
        if not m: raise SyntaxError(f'line {line}: {src[i:i+40]!r}')
        k = m.lastgroup
        if k != 'ws': out.append(Tk(k, m.group(), line))
        line += m.group().count('\n'); i = m.end()
    out.append(Tk('eof', '', line))
    return out

# ------------------------------------------------------------------ parser
class N:
    def __init__(s, k, line, **kw): s.k, s.line = k, line; s.__dict__.update(kw)

class P:
    def __init__(s, toks): s.t, s.i = toks, 0
    @property
    def c(s): return s.t[s.i]
    def at(s, v): return s.c.v == v and s.c.k in ('op', 'id')
    def eat(s, v):
        if s.at(v): s.i += 1; return True
        return False
    def need(s, v):
        if not s.eat(v): raise SyntaxError(f'expected {v}, got {s.c!r}')
    def ident(s):
        assert s.c.k == 'id', s.c
        s.i += 1; return s.t[s.i-1].v
    def skip_group(s):
        d = 0
        while True:
            v = s.c.v if s.c.k == 'op' else ''
            if v in ('(', '[', '{'): d += 1
            if v in (')', ']', '}'): d -= 1
            s.i += 1
            if d == 0: return
    # types
    def type(s):
        if s.eat('&'):
            s.eat('mut'); return s.type()
        if s.eat('('):
            a = []
            while not s.eat(')'):
                a.append(s.type()); s.eat(',')
            return ('tup', a)
        if s.eat('['):
            t = s.type()
            if s.eat(';'): s.expr()
            s.need(']'); return ('arr', t)
        n = s.ident()
        while s.eat('::'):
            if s.at('<'): break
            n = s.ident()
        args = []
        if s.eat('<'):
            while not s.eat('>'):
                args.append(s.type()); s.eat(',')
        return n if not args else (n, args)
    # patterns
    def pat(s):
        s.eat('&'); s.eat('mut')
        if s.eat('('):
            a = []
            while not s.eat(')'):
                a.append(s.pat()); s.eat(',')
            return ('tup', a)
        if s.c.k in ('int', 'str'):
            return ('lit', s.prim())
        n = s.ident()
        if s.eat('@'): return s.pat()
        return ('var', n)
    # items and statements
    def file(s):
        items = {}
        while s.c.k != 'eof':
            s.item(items)
        return items
    def item(s, items):
        test = False
        while s.at('#'):
            s.i += 1; s.eat('!')
            if s.t[s.i+1].v == 'test': test = True
            s.skip_group()
        s.eat('pub')
        if s.at('fn'):
            f = s.fn(); f.test = test; items[f.name] = f
        elif s.at('const'):
            line = s.c.line; s.i += 1; n = s.ident(); s.need(':'); s.type(); s.need('=')
            e = s.expr(); s.need(';'); items[n] = N('const', line, name=n, e=e)
        elif s.at('use') or s.at('extern'):
            while not s.eat(';'): s.i += 1
        elif s.at('trait') or s.at('impl'):
            while not s.at('{'): s.i += 1
            s.skip_group()
        elif s.c.k == 'id' and s.t[s.i+1].v == '!':
            s.i += 2
            if s.c.k == 'id': s.i += 1
            s.skip_group(); s.eat(';')
        else: raise SyntaxError(repr(s.c))
    def fn(s):
        line = s.c.line; s.need('fn'); n = s.ident(); gen = []
        if s.eat('<'):
            while not s.eat('>'):
                gen.append(s.ident())
                if s.eat(':'):
                    s.type()
                s.eat(',')
        s.need('('); ps = []
        while not s.eat(')'):
            p = s.pat(); s.need(':'); t = s.type(); ps.append((p, t)); s.eat(',')
        ret = None
        if s.eat('->'): ret = s.type()
        b = s.block()
        return N('fn', line, name=n, gen=gen, params=ps, ret=ret, body=b)
    def block(s):
        line = s.c.line; s.need('{'); st = []
        while not s.eat('}'):
            st.append(s.stmt())
        return N('block', line, st=st)
    def stmt(s):
        line = s.c.line
        while s.at('#'):
            s.i += 1; s.skip_group()
        if s.at('fn'): return s.fn()
        if s.eat('const'):
            n = s.ident(); s.need(':'); t = s.type(); s.need('='); e = s.expr(); s.need(';')
            return N('let', line, p=('var', n), ty=t, e=e)
        if s.eat('let'):
            p = s.pat(); ty = None; e = None
            if s.eat(':'): ty = s.type()
            if s.eat('='): e = s.expr()
            s.need(';')
            return N('let', line, p=p, ty=ty, e=e)
        if s.eat('for'):
            p = s.pat(); s.need('in'); e = s.expr(nostruct=True); b = s.block()
            return N('for', line, p=p, e=e, b=b)
        if s.eat('return'):
            e = None if s.at(';') else s.expr()
            s.need(';'); return N('ret', line, e=e)
        e = s.expr()
        for op in ('=', '+=', '-=', '*=', '/=', '%=', '&=', '|='):
            if s.eat(op):
                r = s.expr(); s.need(';')
                return N('assign', line, op=op, l=e, r=r)
        semi = s.eat(';')
        return N('expr', line, e=e, semi=semi)
    # expressions
    LV = [['..', '..='], ['||'], ['&&'], ['==', '!=', '<', '>', '<=', '>='], ['|'], ['^'], ['&'],
          ['<<', '>>'], ['+', '-'], ['*', '/', '%']]
    def expr(s, nostruct=False): return s.bin(0)
    def bin(s, lv):
        if lv == len(s.LV): return s.cast()
        if lv == 0:
            line = s.c.line
            if s.at('..'):
                s.i += 1
                return N('range', line, a=None, b=None if s.c.v in (']', ')') else s.bin(1), incl=False)
            a = s.bin(1)
            if s.c.k == 'op' and s.c.v in ('..', '..='):
                op = s.c.v; s.i += 1
                b = None if s.c.v in (']', ')') else s.bin(1)
                return N('range', line, a=a, b=b, incl=op == '..=')
            return a
        a = s.bin(lv+1)
        while s.c.k == 'op' and s.c.v in s.LV[lv]:
            op, line = s.c.v, s.c.line; s.i += 1
            b = s.bin(lv+1); a = N('bin', line, op=op, a=a, b=b)
        return a
    def cast(s):
        e = s.unary()
        while s.at('as'):
            line = s.c.line; s.i += 1; e = N('cast', line, e=e, ty=s.type())
        return e
    def unary(s):
        line = s.c.line
        if s.c.k == 'op' and s.c.v in ('-', '!', '*'):
            op = s.c.v; s.i += 1; return N('un', line, op=op, e=s.unary())
        if s.eat('&&'): return s.unary()
        if s.eat('&'):
            if s.eat('mut'): return N('mref', line, e=s.unary())
            return s.unary()
        return s.postfix()
    def args(s, close=')'):
        a = []
        while not s.eat(close):
            a.append(s.expr()); s.eat(',')
        return a
    def postfix(s):
        e = s.prim()
        while True:
            line = s.c.line
            if s.eat('.'):
                if s.c.k in ('int', 'float'):
                    for x in s.c.v.split('.'):
                        if x: e = N('field', line, e=e, n=int(x))
                    s.i += 1; continue
                n = s.ident(); tf = []
                if s.eat('::'):
                    s.need('<')
                    while not s.eat('>'):
                        tf.append(s.type()); s.eat(',')
                if s.eat('('): e = N('mcall', line, e=e, n=n, tf=tf, a=s.args())
                else: e = N('field', line, e=e, n=n)
            elif s.eat('('): e = N('call', line, f=e, a=s.args())
            elif s.eat('['): e = N('index', line, e=e, i=s.expr()); s.need(']')
            else: return e
    def prim(s):
        t = s.c; line = t.line
        if t.k == 'int':
            s.i += 1
            m = re.match(r'(0x[0-9a-fA-F_]+?|0b[01_]+|[\d_]+)([ui](?:8|16|32|64|128|size))?$', t.v)
            return N('int', line, v=int(m.group(1).replace('_', ''), 0) if m.group(1)[:2] in ('0x', '0b') else int(m.group(1).replace('_', '')), ty=m.group(2))
        if t.k == 'float':
            s.i += 1
            return N('float', line, v=Fraction(re.sub(r'_?f(32|64)$', '', t.v).replace('_', '')))
        if t.k == 'str':
            s.i += 1; return N('str', line, v=unesc(t.v[1:-1]))
        if t.k == 'chr':
            s.i += 1; return N('str', line, v=unesc(t.v[1:-1]))
        if s.eat('('):
            a, tup = [], False
            while not s.eat(')'):
                a.append(s.expr())
                if s.eat(','): tup = True
            return a[0] if len(a) == 1 and not tup else N('tup', line, a=a)
        if s.eat('['): return N('arr', line, a=s.args(']'))
        if s.at('{'): return s.block()
        if s.at('|') or s.at('||'):
            ps = []
            if not s.eat('||'):
                s.need('|')
                while not s.eat('|'):
                    p = s.pat()
                    if s.eat(':'): s.type()
                    ps.append(p); s.eat(',')
            return N('closure', line, ps=ps, b=s.expr())
        if s.eat('if'):
            c = s.expr(); a = s.block(); b = None
            if s.eat('else'): b = s.prim() if s.at('if') else s.block()
            return N('if', line, c=c, a=a, b=b)
        if s.eat('match'):
            e = s.expr(); s.need('{'); arms = []
            while not s.eat('}'):
                p = s.pat(); s.need('=>'); b = s.expr(); s.eat(','); arms.append((p, b))
            return N('match', line, e=e, arms=arms)
        if s.eat('true'): return N('bool', line, v=True)
        if s.eat('false'): return N('bool', line, v=False)
        n = [s.ident()]; tf = []
        if s.eat('!'):
            if n[0] == 'unpack':
                s.need('('); st = s.ident(); s.need('='); s.need(','); e = s.expr(); s.eat(','); s.need(')')
                return N('unpack', line, st=st, e=e)
            if n[0] == 'for_each_float_type':
                s.need('('); s.need('for'); s.need('<'); v = s.ident(); s.need(':'); s.type(); s.need('>')
                e = s.expr(); s.need(')'); return N('foreach', line, v=v, e=e)
            if n[0] == 'matches':
                s.need('('); e = s.expr(); s.need(','); ps = [s.pat()]
                while s.eat('|'): ps.append(s.pat())
                s.need(')'); return N('matches', line, e=e, ps=ps)
            s.need('('); return N('macro', line, n=n[0], a=s.args())
        while s.eat('::'):
            if s.eat('<'):
                while not s.eat('>'):
                    tf.append(s.type()); s.eat(',')
            else: n.append(s.ident())
        return N('path', line, n=n, tf=tf)

def unesc(x):
    return re.sub(r'\\(.)', lambda m: {'0': '\0', 'n': '\n', 't': '\t', '\\': '\\', '"': '"', "'": "'"}[m.group(1)], x)

# ------------------------------------------------------------------ host floats
FM = {'f32': (24, -149, 127, 32), 'f64': (53, -1074, 1023, 64)}
def to_bits(fmt, neg, q):
    """Nearest-even host float of the rational q >= 0, as bits."""
    p, emin, emax, w = FM[fmt]
    if q == 0: return neg << (w-1)
    e = q.numerator.bit_length() - q.denominator.bit_length()
    while Fraction(2)**e > q: e -= 1
    while Fraction(2)**(e+1) <= q: e += 1
    u = max(e-p+1, emin)
    m = q / Fraction(2)**u
    n = m.numerator // m.denominator; r = m - n
    if r > Fraction(1, 2) or (r == Fraction(1, 2) and n & 1): n += 1
    if n >= 1 << p: n >>= 1; u += 1
    if u + p - 1 > emax: b = ((1 << (w-p)) - 1) << (p-1)
    elif n < 1 << (p-1): b = n
    else: b = (u - emin + 1 << (p-1)) + (n - (1 << (p-1)))
    return b | neg << (w-1)
class HF:
    def __init__(s, fmt, bits): s.fmt, s.bits = fmt, bits
    def parts(s):
        p, emin, emax, w = FM[s.fmt]
        neg = s.bits >> (w-1); b = s.bits & ((1 << (w-1)) - 1)
        ex, f = b >> (p-1), b & ((1 << (p-1)) - 1)
        if ex == (1 << (w-p)) - 1: return neg, ('nan' if f else 'inf')
        return neg, (Fraction(f) if ex == 0 else Fraction(f | 1 << (p-1)) * Fraction(2)**(ex-1)) * Fraction(2)**emin
class FLit:
    def __init__(s, neg, q): s.neg, s.q = neg, q
    def host(s, fmt): return HF(fmt, to_bits(fmt, s.neg, s.q))

# ------------------------------------------------------------------ interpreter
FLOATS = {'Half': 'halfS', 'Single': 'singleS', 'Double': 'doubleS', 'Quad': 'quadS', 'BFloat': 'bfloatS',
          'Float8E5M2': 'float8E5M2S', 'Float8E4M3FN': 'float8E4M3FNS', 'X87DoubleExtended': 'x87S', 'DoubleDouble': None}
BITS = {'Half': 16, 'Single': 32, 'Double': 64, 'Quad': 128, 'BFloat': 16, 'Float8E5M2': 8, 'Float8E4M3FN': 8,
        'X87DoubleExtended': 80, 'DoubleDouble': 128}
HOST = {'f32': 'Single', 'f64': 'Double'}
class Sym:
    def __init__(s, t, ty, deps): s.t, s.ty, s.deps = t, ty, frozenset(deps)
class En:
    def __init__(s, ty, v): s.ty, s.v = ty, v
    def __eq__(s, o): return isinstance(o, En) and (s.ty, s.v) == (o.ty, o.v)
    def __hash__(s): return hash((s.ty, s.v))
class Some:
    def __init__(s, v): s.v = v
class Clo:
    def __init__(s, n, env, it): s.n, s.env, s.it = n, env, it
class Ret(Exception):
    def __init__(s, v): s.v = v
STAT = {'OK': 0, 'INVALID_OP': 1, 'DIV_BY_ZERO': 2, 'OVERFLOW': 4, 'UNDERFLOW': 8, 'INEXACT': 16}
ERRS = {"Invalid string length": 'invalidLength', "String has no digits": 'noDigits', "Invalid string": 'invalidString',
        "String contains multiple dots": 'multipleDots', "Significand has no digits": 'sigNoDigits',
        "Invalid character in exponent": 'badExpChar', "Exponent has no digits": 'expNoDigits',
        "Invalid character in significand": 'badSigChar', "Hex strings require an exponent": 'hexNeedsExp'}
IEK = {'IEK_INF': 2147483647, 'IEK_NAN': -2147483648, 'IEK_ZERO': -2147483647}

class Env:
    def __init__(s, up=None): s.up, s.v = up, {}
    def get(s, n):
        while s is not None:
            if n in s.v: return s.v[n]
            s = s.up
        raise KeyError(n)
    def has(s, n):
        try: s.get(n); return True
        except KeyError: return False
    def set(s, n, v):
        while s is not None:
            if n in s.v: s.v[n] = v; return
            s = s.up
        raise KeyError(n)

def enc_str(x):
    return '"' + ''.join({'\0': '\\x00', '"': '\\"', '\\': '\\\\'}.get(c, c) for c in x) + '".toList'
def status_term(n):
    if n == 0: return 'Status.OK'
    f = {1: 'invalidOp', 2: 'divByZero', 4: 'overflow', 8: 'underflow', 16: 'inexact'}
    return '({ ' + ', '.join(f'{f[b]} := true' for b in f if n & b) + ' } : Status)'

class I:
    def __init__(s, items):
        s.g = Env(); s.items = items; s.ev = []; s.nodes = {}; s.k = 0; s.hostcache = {}
        for n, f in items.items(): s.g.v[n] = f
    def node(s, action, ty, deps):
        s.k += 1; i = s.k
        s.nodes[i] = (action, frozenset(deps)); s.ev.append(('node', i))
        return Sym(f't{i}', ty, {i})
    def err(s, n, m): raise Exception(f'line {n.line}: {m}')
    def leanty(s, f): return f
    # values -> Lean
    def lean(s, v, ty):
        """A pair (Lean term, deps) for v at type ty."""
        if isinstance(v, Sym): return v.t, v.deps
        if ty == 'Bool': return ('true' if v else 'false'), ()
        if ty in ('Nat', 'Int'):
            assert isinstance(v, int) and not isinstance(v, bool), v
            return (f'({v} : {ty})' if v < 0 else f'{v}'), ()
        if ty == 'Status': return status_term(v.v), ()
        if ty == 'Category': return {'NaN': 'Category.nan', 'Zero': 'Category.zero', 'Normal': 'Category.normal', 'Infinity': 'Category.infinity'}[v.v], ()
        if ty == 'Round': return 'Round.' + v.v[0].lower() + v.v[1:], ()
        if ty == 'OptOrd':
            if v is None: return '(none : Option Ordering)', ()
            return '(some ' + {'Less': 'Ordering.lt', 'Equal': 'Ordering.eq', 'Greater': 'Ordering.gt'}[v.v.v] + ')', ()
        if ty == 'Str': return '(' + enc_str(v) + ')', ()
        if ty == 'OptNat':
            return ('none' if v is None else f'(some {v.v})'), ()
        if ty == 'Err': return 'ParseError.' + ERRS[v], ()
        raise Exception(f'lean {v} {ty}')
    def host(s, h):
        if isinstance(h, Sym): return h
        key = (h.fmt, h.bits)
        if key not in s.hostcache:
            s.hostcache[key] = s.node(f'({h.fmt}_lit {hex(h.bits)} : M {HOST[h.fmt]})', ('H', h.fmt), ())
        return s.hostcache[key]
    def act(s, fn, ty, *args):
        """args: (value, type) pairs"""
        ts, ds = [], set()
        for v, t in args:
            if isinstance(t, tuple) and t[0] == 'F':
                assert isinstance(v, Sym) and v.ty == t, (fn, v, getattr(v, 'ty', None), t)
            x, d = s.lean(v, t); ts.append(x); ds |= set(d)
        return s.node(' '.join([fn] + ts), ty, ds)
    def check(s, v):
        if v is True: return
        if v is False: s.ev.append(('check', 'false', frozenset())); return
        assert isinstance(v, Sym) and v.ty == 'Bool', v
        s.ev.append(('check', v.t, v.deps))
    def eq(s, a, b):
        if isinstance(a, FLit) and isinstance(b, FLit): return a.q == b.q and (a.neg == b.neg or a.q == 0)
        if isinstance(a, (FLit, HF)) or isinstance(b, (FLit, HF)) or (isinstance(a, Sym) and isinstance(a.ty, tuple) and a.ty[0] == 'H'):
            fmt = next(x.ty[1] if isinstance(x, Sym) else x.fmt for x in (a, b) if isinstance(x, (Sym, HF)))
            a = a.host(fmt) if isinstance(a, FLit) else a
            b = b.host(fmt) if isinstance(b, FLit) else b
            a, b = s.host(a), s.host(b)
            return s.node(f'IeeeFloat.eq {a.t} {b.t}', 'Bool', a.deps | b.deps)
        if not isinstance(a, Sym) and not isinstance(b, Sym):
            return a == b
        ty = a.ty if isinstance(a, Sym) else b.ty
        if isinstance(ty, tuple) and ty[0] == 'F':
            if ty[1] == 'DoubleDouble': return s.node(f'DoubleFloat.eq {a.t} {b.t}', 'Bool', a.deps | b.deps)
            return s.node(f'IeeeFloat.eq {a.t} {b.t}', 'Bool', a.deps | b.deps)
        if isinstance(ty, tuple) and ty[0] == 'SA':
            sa = lambda x: ((f'({x.t}).status', f'({x.t}).value', x.deps) if isinstance(x, Sym) else
                            (s.lean(En('Status', x[1]), 'Status')[0], s.lean(x[2], ty[1])[0], frozenset()))
            a, b = sa(a), sa(b)
            return Sym(f'(decide ({a[0]} = {b[0]}) && decide ({a[1]} = {b[1]}))', 'Bool', a[2] | b[2])
        x, d = s.lean(a, ty); y, e = s.lean(b, ty)
        return Sym(f'decide ({x} = {y})', 'Bool', frozenset(d) | frozenset(e))
    # evaluation
    def ftype(s, env, n):
        """Resolve a type name to a float type, if it is one."""
        if env.has('type ' + n): return env.get('type ' + n)
        return n if n in FLOATS else None
    def x(s, n, env, want=None):
        return getattr(s, 'x_' + n.k)(n, env, want)
    def x_int(s, n, env, want): return n.v
    def x_float(s, n, env, want): return FLit(0, n.v)
    def x_str(s, n, env, want): return n.v
    def x_bool(s, n, env, want): return n.v
    def x_tup(s, n, env, want): return tuple(s.x(a, env) for a in n.a)
    def x_arr(s, n, env, want): return [s.x(a, env) for a in n.a]
    def x_closure(s, n, env, want): return Clo(n, env, s)
    def x_mref(s, n, env, want): return n
    def x_range(s, n, env, want):
        a = 0 if n.a is None else s.x(n.a, env)
        return range(a, None if n.b is None else s.x(n.b, env) + (1 if n.incl else 0)) if n.b is not None else ('from', a)
    def x_block(s, n, env, want=None):
        env = Env(env); r = None
        for st in n.st:
            if st.k == 'fn': env.v[st.name] = st; st.env = env
        for st in n.st:
            r = s.stmt(st, env, want)
        return r
    def bindp(s, p, v, env):
        if p[0] == 'var': env.v[p[1]] = v
        elif p[0] == 'tup':
            assert len(p[1]) == len(v), (p, v)
            for q, w in zip(p[1], v): s.bindp(q, w, env)
        else: raise Exception(p)
    def stmt(s, st, env, want=None):
        if st.k == 'fn': return
        if st.k == 'let':
            v = En('Status', 0) if st.e is None else s.x(st.e, env, st.ty)
            s.bindp(st.p, v, env); return
        if st.k == 'expr':
            v = s.x(st.e, env, want); return None if st.semi else v
        if st.k == 'ret':
            raise Ret(None if st.e is None else s.x(st.e, env))
        if st.k == 'for' and st.e.k == 'mref':
            l = s.x(st.e.e, env)
            for i, v in enumerate(l):
                e = Env(env); s.bindp(st.p, v, e); s.x(st.b, e); l[i] = e.get(st.p[1])
            return
        if st.k == 'for':
            for v in list(s.x(st.e, env)):
                e = Env(env); s.bindp(st.p, v, e); s.x(st.b, e)
            return
        if st.k == 'assign':
            if st.op == '=': v = s.x(st.r, env)
            else:
                b = s.binop(st, st.op[:-1], s.x(st.l, env), s.x(st.r, env))
                v = b
                if isinstance(b, Sym) and isinstance(b.ty, tuple) and b.ty[0] == 'SA':
                    v = Sym(f'({b.t}).value', b.ty[1], b.deps)
            l = st.l
            while l.k == 'un' and l.op == '*': l = l.e
            assert l.k == 'path', l.k
            env.set(l.n[0], v); return
        s.err(st, st.k)
    def x_if(s, n, env, want):
        c = s.x(n.c, env)
        if isinstance(c, Sym):
            # A condition on a value of the model: both branches are translated, and the checks
            # of a branch count only when the condition selects it.
            base = len(s.ev)
            for guard, b in ((f'!{c.t}', n.a), (f'{c.t}', n.b)):
                if b is None: continue
                k = len(s.ev); s.x(b, env, want)
                for i in range(k, len(s.ev)):
                    e = s.ev[i]
                    if e[0] == 'check': s.ev[i] = ('check', f'({guard} || {e[1]})', e[2] | c.deps)
            return None
        if c: return s.x(n.a, env, want)
        return s.x(n.b, env, want) if n.b is not None else None
    def x_match(s, n, env, want):
        v = s.x(n.e, env)
        for p, b in n.arms:
            pv = env.get(p[1])
            c = s.eq(v, pv)
            k = len(s.ev); s.x(b, env)
            for i in range(k, len(s.ev)):
                e = s.ev[i]
                if e[0] == 'check': s.ev[i] = ('check', f'(!{c.t} || {e[1]})', e[2] | c.deps)
    def x_matches(s, n, env, want):
        v = s.x(n.e, env); return any(v == s.x(p[1], env) for p in n.ps)
    def x_foreach(s, n, env, want):
        for f in FLOATS:
            e = Env(env); e.v['type ' + n.v] = f; s.x(n.e, e)
    def x_unpack(s, n, env, want):
        v = s.x(n.e, env, want)
        assert isinstance(v, Sym) and v.ty[0] == 'SA', v
        env.set(n.st, Sym(f'({v.t}).status', 'Status', v.deps))
        return Sym(f'({v.t}).value', v.ty[1], v.deps)
    def x_macro(s, n, env, want):
        if n.n == 'assert': s.check(s.x(n.a[0], env)); return
        if n.n == 'assert_eq':
            s.check(s.eq(s.x(n.a[0], env), s.x(n.a[1], env))); return
        if n.n == 'format':
            f = s.x(n.a[0], env); rest = [s.x(a, env) for a in n.a[1:]]
            m = re.fullmatch(r'\{:(#?)(?:(\d)\$)?(?:\.(\d)\$)?\}', f)
            if m:
                w = Some(rest[int(m.group(2))]) if m.group(2) else None
                p = Some(rest[int(m.group(3))]) if m.group(3) else None
                return s.display(rest[0], w, p, bool(m.group(1)))
            def sub(m):
                v = env.get(m.group(1))
                return v if isinstance(v, str) else (hex(v) if m.group(2) else str(v))
            return re.sub(r'\{(\w+)(:#x)?\}', sub, f)
        s.err(n, 'macro ' + n.n)
    def display(s, x, w, p, alt):
        return s.act('ApiFloat.fmt', 'Str', (x, x.ty), (w, 'OptNat'), (p, 'OptNat'), (alt, 'Bool'))
    def x_cast(s, n, env, want):
        v = s.x(n.e, env); t = n.ty
        if isinstance(v, HF):
            neg, q = v.parts()
            if t in FM:
                if q == 'inf': return HF(t, to_bits(t, neg, Fraction(10)**400))
                assert q != 'nan'; return HF(t, to_bits(t, neg, q))
            if t == 'i128':
                if q == 'nan': return 0
                i = 1 << 200 if q == 'inf' else q.numerator // q.denominator
                i = -i if neg else i
                return max(-(1 << 127), min((1 << 127) - 1, i))
        if isinstance(v, int):
            if t in FM: return HF(t, to_bits(t, int(v < 0), Fraction(abs(v))))
            if t == 'u128': return v % (1 << 128)
            return v
        s.err(n, f'cast {v} {t}')
    def x_un(s, n, env, want):
        v = s.x(n.e, env)
        if n.op == '*': return v
        if n.op == '!':
            if isinstance(v, bool): return not v
            if isinstance(v, int): return v ^ ((1 << 128) - 1)
            return Sym(f'(!{v.t})', 'Bool', v.deps)
        if isinstance(v, FLit): return FLit(1 - v.neg, v.q)
        if isinstance(v, HF): return HF(v.fmt, v.bits ^ 1 << FM[v.fmt][3] - 1)
        if isinstance(v, int): return -v
        assert v.ty[0] == 'F', v.ty
        return s.act('ApiFloat.neg', v.ty, (v, v.ty))
    def x_bin(s, n, env, want):
        a = s.x(n.a, env)
        if n.op == '&&' and a is False: return False
        if n.op == '||' and a is True: return True
        return s.binop(n, n.op, a, s.x(n.b, env))
    def binop(s, n, op, a, b):
        if op == '==': return s.eq(a, b)
        if op == '!=':
            r = s.eq(a, b); return (not r) if isinstance(r, bool) else Sym(f'(!{r.t})', 'Bool', r.deps)
        if not isinstance(a, Sym) and not isinstance(b, Sym):
            if isinstance(a, En) and a.ty == 'Status': return En('Status', {'|': a.v | b.v}[op])
            return {'+': lambda: a+b, '-': lambda: a-b, '*': lambda: a*b, '&': lambda: a & b, '|': lambda: a | b,
                    '<<': lambda: a << b, '>>': lambda: a >> b, '<': lambda: a < b, '>': lambda: a > b,
                    '&&': lambda: a and b, '||': lambda: a or b, '%': lambda: a % b, '/': lambda: a // b}[op]()
        if op in ('&&', '||'):
            if isinstance(a, bool): return b
            x, d = s.lean(a, 'Bool'); y, e = s.lean(b, 'Bool')
            return Sym(f'({x} {op} {y})', 'Bool', frozenset(d) | frozenset(e))
        ty = a.ty if isinstance(a, Sym) else b.ty
        if ty == 'Nat':
            x, d = s.lean(a, 'Nat'); y, e = s.lean(b, 'Nat')
            return Sym(f'({x} {op*3} {y})', 'Nat', frozenset(d) | frozenset(e)) if op in '&|' else s.err(n, op)
        if ty[0] == 'H':
            fmt = ty[1]; a = a.host(fmt) if isinstance(a, FLit) else a; b = b.host(fmt) if isinstance(b, FLit) else b
            a, b = s.host(a), s.host(b)
        if op in ('<', '>', '<=', '>='):
            f = {'<': 'lt', '>': 'gt', '<=': 'le', '>=': 'ge'}[op]
            return s.node(('IeeeFloat_le' if f == 'le' else f'IeeeFloat.{f}') + f' {a.t} {b.t}', 'Bool', a.deps | b.deps)
        f = {'+': 'add', '-': 'sub', '*': 'mul', '/': 'div', '%': 'rem'}[op]
        assert ty[0] == 'F', ty
        return s.act('Api.' + f, ('SA', ty), (a, ty), (b, ty))
    def x_index(s, n, env, want):
        v = s.x(n.e, env); i = s.x(n.i, env)
        if isinstance(i, range): return v[i.start:i.stop]
        if isinstance(i, tuple): return v[i[1]:]
        return v[i]
    def x_field(s, n, env, want):
        v = s.x(n.e, env, want)
        if isinstance(v, Sym) and v.ty[0] == 'SA':
            if n.n == 'value': return Sym(f'({v.t}).value', v.ty[1], v.deps)
            if n.n == 'status': return Sym(f'({v.t}).status', 'Status', v.deps)
        if isinstance(v, Sym) and v.ty == 'Err' and n.n == 0: return v
        if isinstance(v, tuple) and isinstance(n.n, int): return v[n.n]
        s.err(n, f'field {n.n}')
    def x_path(s, n, env, want):
        p = n.n
        if len(p) == 1:
            if p[0] == 'None': return None
            if p[0] in IEK: return IEK[p[0]]
            v = env.get(p[0])
            if isinstance(v, N) and v.k == 'const': return s.x(v.e, s.g)
            return v
        if p[0] in ('Category', 'Round', 'Ordering'): return En(p[0], p[1])
        if p[0] == 'Status': return En('Status', STAT[p[1]])
        if p[0] in FM:
            pr, emin, emax, w = FM[p[0]]
            mx = (Fraction(2)**pr - 1) * Fraction(2)**(emax-pr+1)
            return {'MAX': lambda: HF(p[0], to_bits(p[0], 0, mx)), 'MIN_POSITIVE': lambda: HF(p[0], 1 << pr-1),
                    'INFINITY': lambda: HF(p[0], to_bits(p[0], 0, mx*4))}[p[1]]()
        if p[0] == 'ExpInt': return {'MAX': 2147483647, 'MIN': -2147483648}[p[1]]
        if p[0] == 'u8' and p[1] == 'MAX': return 255
        f = s.ftype(env, p[0])
        if f:
            if p[1] == 'BITS': return BITS[f]
            return s.node(f'(ApiFloat.{p[1]} : M {f})', ('F', f), ())
        s.err(n, '::'.join(p))
    def call(s, f, args, tf, n):
        if isinstance(f, Clo):
            e = Env(f.env)
            for p, v in zip(f.n.ps, args): s.bindp(p, v, e)
            return s.x(f.n.b, e)
        e = Env(getattr(f, 'env', s.g))
        for g, t in zip(f.gen, tf): e.v['type ' + g] = t
        for (p, t), v in zip(f.params, args): s.bindp(p, v, e)
        try: return s.x(f.body, e)
        except Ret as r: return r.v
    def x_call(s, n, env, want):
        assert n.f.k == 'path', n.f.k
        p = n.f.n
        if p == ['Some']: return Some(s.x(n.a[0], env))
        if len(p) == 1:
            return s.call(env.get(p[0]), [s.x(a, env) for a in n.a], [s.ftype(env, t) for t in n.f.tf], n)
        if p[0] in FM and p[1] == 'from_bits': return HF(p[0], s.x(n.a[0], env))
        if p[0] == 'ExpInt': return {'max_value': 2147483647, 'min_value': -2147483648}[p[1]]
        if p[0] == 'u128' and p[1] == 'from': return s.x(n.a[0], env)
        f = s.ftype(env, p[0])
        a = [s.x(x, env) for x in n.a]; m = p[1]; F = ('F', f)
        if m in ('from_f32', 'from_f64'):
            fmt = m[5:]; h = a[0].host(fmt) if isinstance(a[0], FLit) else a[0]
            h = s.host(h); assert HOST[fmt] == f
            return s.node(f'from_{fmt} {h.t}', F, h.deps)
        sig = {'largest': ((), F), 'smallest_normalized': ((), F), 'qnan': (('OptNat',), F), 'snan': (('OptNat',), F),
               'from_bits': (('Nat',), F), 'from_u128': (('Nat',), ('SA', F)), 'from_i128': (('Int',), ('SA', F)),
               'from_u128_r': (('Nat', 'Round'), ('SA', F)), 'from_i128_r': (('Int', 'Round'), ('SA', F))}
        if m in sig:
            ps, r = sig[m]; ts, ds = [], set()
            for v, t in zip(a, ps):
                x, d = s.lean(v, t); ts.append(x); ds |= set(d)
            ns = 'Api' if m in ('from_u128', 'from_i128') else 'ApiFloat'
            rt = f if r == F else f'(StatusAnd {f})'
            return s.node(f'({" ".join([ns + "." + m] + ts)} : M {rt})', r, ds)
        s.err(n, '::'.join(p))
    def setref(s, a, v, env):
        e = a.e; assert e.k == 'path'
        env.set(e.n[0], v)
    def x_mcall(s, n, env, want):
        v = s.x(n.e, env); m = n.n
        if m in ('iter', 'into_iter', 'into', 'clone', 'collect'): return v
        if m == 'len': return len(v)
        if isinstance(v, list):
            if m == 'enumerate': return list(enumerate(v))
            if m == 'map': return [s.call(s.x(n.a[0], env), [y], [], n) for y in v]
            if m == 'flatten': return [y.v for y in v if y is not None]
        if isinstance(v, bool) and m == 'then': return Some(s.call(s.x(n.a[0], env), [], [], n)) if v else None
        if isinstance(v, Sym) and v.ty == 'Bool' and m == 'then':
            # only for the payload of a default signaling NaN, which is not zero
            s.check(Sym(f'(!{v.t})', 'Bool', v.deps)); return None
        if isinstance(v, str) and m == 'starts_with': return v.startswith(s.x(n.a[0], env))
        if isinstance(v, (str,)) or (isinstance(v, Sym) and v.ty == 'Str'):
            if m == 'parse':
                f = s.ftype(env, n.tf[0]); t, d = s.lean(v, 'Str')
                return ('parse', t, f, frozenset(d))
        if isinstance(v, tuple) and v[0] == 'parse':
            if m == 'map_err': return v
            if m == 'unwrap': return s.node(f'(parse {v[1]} : M {v[2]})', ('F', v[2]), v[3])
            if m == 'unwrap_err': return s.node(f'parse_err {v[2]} {v[1]}', 'Err', v[3])
        if isinstance(v, En) and v.ty == 'Status' and m == 'and': return ('and', v.v, s.x(n.a[0], env))
        if isinstance(v, HF) and m == 'to_bits':
            # bit patterns of NaN are not used by the tests
            return v.bits
        assert isinstance(v, Sym), (n.line, v, m)
        if v.ty[0] == 'Opt':
            if m == 'unwrap': return s.node(f'unwrap {v.t}', v.ty[1], v.deps)
            if m == 'is_none': return Sym(f'({v.t}).isNone', 'Bool', v.deps)
        if v.ty[0] == 'H':
            if m in ('is_nan', 'is_infinite'): return s.node(f'{m} {v.t}', 'Bool', v.deps)
            s.err(n, m)
        F = v.ty; f = F[1]; assert F[0] == 'F', (n.line, F, m)
        if m in ('convert', 'convert_r'):
            a = n.a
            r = En('Round', 'NearestTiesToEven') if m == 'convert' else s.x(a[0], env)
            if want is None:     # the only calls without an annotation convert to Half's partner
                s.err(n, 'convert without a type')
            T = s.ftype(env, want)
            S_, T_ = FLOATS[f], FLOATS[T]
            c = s.node(f'IeeeFloat.convertR {S_} {T_} {v.t} {s.lean(r, "Round")[0]}', None, v.deps)
            s.setref(a[-1], Sym(f'({c.t}).losesInfo', 'Bool', c.deps), env)
            return Sym(f'(⟨({c.t}).status, ({c.t}).value⟩ : StatusAnd {T})', ('SA', ('F', T)), c.deps)
        if m in ('to_u128_r', 'to_i128_r'):
            ity = 'Nat' if m == 'to_u128_r' else 'Int'
            c = s.act('ApiFloat.' + m, None, (v, F), (s.x(n.a[0], env), 'Nat'), (s.x(n.a[1], env), 'Round'))
            s.setref(n.a[2], Sym(f'({c.t}).2', 'Bool', c.deps), env)
            return Sym(f'({c.t}).1', ('SA', ity), c.deps)
        if m == 'frexp':
            c = s.act('Api.frexp', None, (v, F))
            s.setref(n.a[0], Sym(f'({c.t}).2', 'Int', c.deps), env)
            return Sym(f'({c.t}).1', F, c.deps)
        a = [s.x(x, env) for x in n.a]
        if m == 'to_f32': return s.node(f'to_f32 {v.t}', ('H', 'f32'), v.deps)
        if m == 'to_f64': return s.node(f'to_f64 {v.t}', ('H', 'f64'), v.deps)
        if m == 'to_string': return s.display(v, None, None, False)
        SA = ('SA', F)
        sig = {'is_signaling': ((), 'Bool'), 'is_negative': ((), 'Bool'), 'is_denormal': ((), 'Bool'), 'is_integer': ((), 'Bool'),
               'is_smallest': ((), 'Bool'), 'is_largest': ((), 'Bool'), 'is_smallest_normalized': ((), 'Bool'),
               'bitwise_eq': ((F,), 'Bool'), 'category': ((), 'Category'), 'to_bits': ((), 'Nat'),
               'next_up': ((), SA), 'next_down': ((), SA), 'abs': ((), F), 'copy_sign': ((F,), F),
               'min': ((F,), F), 'max': ((F,), F), 'minimum': ((F,), F), 'maximum': ((F,), F),
               'add_r': ((F, 'Round'), SA), 'sub_r': ((F, 'Round'), SA), 'mul_r': ((F, 'Round'), SA), 'div_r': ((F, 'Round'), SA),
               'mul_add_r': ((F, F, 'Round'), SA), 'ieee_rem': ((F,), SA), 'c_fmod': ((F,), SA), 'round_to_integral': (('Round',), SA),
               'scalbn_r': (('Int', 'Round'), F), 'ilogb': ((), 'Int'), 'get_exact_inverse': ((), ('Opt', F)), 'partial_cmp': ((F,), 'OptOrd')}
        api = {'mul_add': ((F, F), SA), 'scalbn': (('Int',), F), 'to_u128': (('Nat',), ('SA', 'Nat')), 'to_i128': (('Nat',), ('SA', 'Int'))}
        if m in ('is_zero', 'is_infinite', 'is_nan', 'is_finite', 'is_normal', 'is_pos_zero', 'is_neg_zero', 'is_pos_infinity', 'is_neg_infinity', 'is_finite_non_zero', 'is_non_zero'):
            return s.node(f'{m} {v.t}', 'Bool', v.deps)
        if m in sig: ns, (ps, r) = 'ApiFloat', sig[m]
        elif m in api: ns, (ps, r) = 'Api', api[m]
        else: s.err(n, m)
        return s.act(f'{ns}.{m}', r, (v, F), *zip(a, ps))

# ------------------------------------------------------------------ output
def closure(it, want):
    out, todo = set(), list(want)
    while todo:
        i = todo.pop()
        if i in out: continue
        out.add(i); todo += it.nodes[i][1]
    return out

def emit(it, name, chunk):
    """Split the events of one test into chunks; every chunk repeats the definitions it needs."""
    parts, cur, n = [], [], 0
    for e in it.ev:
        cur.append(e); n += 1
        if n >= chunk and e[0] == 'check': parts.append(cur); cur, n = [], 0
    if cur: parts.append(cur)
    res = []
    for k, ev in enumerate(parts):
        nm = name if len(parts) == 1 else f'{name}_{k+1}'
        need = closure(it, [e[1] for e in ev if e[0] == 'node'] + [d for e in ev if e[0] == 'check' for d in e[2]])
        done, lines = set(), []
        own = {e[1] for e in ev if e[0] == 'node'}
        for i in sorted(need - own):
            lines.append(f'  let t{i} ← {it.nodes[i][0]}')
        for e in ev:
            if e[0] == 'node': lines.append(f'  let t{e[1]} ← {it.nodes[e[1]][0]}')
            else: lines.append(f'  check {e[1]}' if e[1][0] == '(' or ' ' not in e[1] else f'  check ({e[1]})')
        used = set(re.findall(r'\bt\d+\b', '\n'.join(re.sub(r'^  let t\d+', '', l) for l in lines)))
        lines = [re.sub(r'^  let (t\d+) ←', lambda m: f'  let {m.group(1) if m.group(1) in used else "_"} ←', l) for l in lines]
        res.append((nm, lines))
    return res

SKIP = set()
# Parsing these decimal literals takes the kernel 8 GB (limb by limb powers of five), so what depends on them is left out.
HEAVY = 'e-4932"'
def light(it):
    heavy = lambda ids: any(HEAVY in it.nodes[i][0] for i in closure(it, ids))
    return [e for e in it.ev if not heavy([e[1]] if e[0] == 'node' else list(e[2]))]
def main():
    src, stem, out = sys.argv[1:4]
    skip = set(sys.argv[4].split(',')) if len(sys.argv) > 4 else set()
    items = P(lex(open(src).read())).file()
    rel = src.replace('/repo/', '')
    tests = [f for f in items.values() if f.k == 'fn' and f.test]
    body, tot = [], 0
    files = []; 
    def flush():
        if body: files.append(list(body)); body.clear()
    nl = 0
    for f in tests:
        if f.name in skip: continue
        it = I(items)
        it.call(f, [], [], f)
        it.ev = light(it)
        nchk = sum(e[0] == 'check' for e in it.ev); tot += nchk
        for nm, lines in emit(it, f.name, 60):
            body.append(f'/-- {rel}:{f.line} `{f.name}`. -/\ndef t_{nm} : M Unit := do\n' + '\n'.join(lines) +
                        f'\n\nexample : passes t_{nm} = true := by decide +kernel\n')
            nl += len(lines)
        if nl > 3500: flush(); nl = 0
    flush()
    for k, b in enumerate(files):
        mod = stem if len(files) == 1 else f'{stem}{k+1}'
        with open(os.path.join(out, mod + '.lean'), 'w') as o:
            o.write(f'import Verif.Conformance.Support\n/-! Generated by tools/tests_to_lean.py from {rel}. -/\n\n'
                    f'namespace Apf.Conformance.{mod}\nset_option maxRecDepth 100000\nset_option linter.all false\n\n' + '\n'.join(b) + f'\nend Apf.Conformance.{mod}\n')
        print(mod, len(b))
    print(rel, 'tests', len(tests) - len(skip), 'checks', tot)
main()
