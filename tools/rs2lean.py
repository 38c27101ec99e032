#!/usr/bin/env python3
"""Translate a source file of /repo into a Lean term (the types of lean/Verif/Src/Syntax.lean).

Only parsing: the script knows nothing about what the code means.  Three things are not in the text of
the file and are supplied here:
  * HINTS: the types rustc infers for some `let`s without a type annotation;
  * OVERLOADS: names for functions of the same name in different impls for the same type;
  * CALLS: which of these a call refers to.

In the derive macro, the content of every `quote!` is parsed too, and becomes a template with holes
`#x`; the `quote!` itself becomes a call of `quote::tN`.  A path to a crate in front of a name
(`#core::ops::`) is dropped.

With `macro_rules` as the last argument, the `macro_rules!` of the file are parsed instead.  `$x` in their
bodies becomes a hole `#x`, and `m:` is put in front of the variables a body binds itself.

usage: rs2lean.py SOURCE.rs LeanNamespace [NAME-TO-SHOW [features|macro_rules]] > Out.lean
"""
import re, sys

# the features that are on, if `cfg` is to be looked at
FEATURES = None
# names of the free functions of the file
FREE = set()
# names of unit structs
UNITS = set()
# fields of a type that implements `Deref`
DEREF_FIELDS = set()
# when a file is parsed again with another feature: the templates that are known already, and their names
LETTER = 't'
OLD = {}
# holes that are paths to a crate
CRATES = {'#enumset', '#core', '#internal', '#serde'}


def cfg(text):
    m = re.fullmatch(r'\(not\(feature="([\w-]+)"\)\)', text)
    if m:
        return m.group(1) not in FEATURES
    m = re.fullmatch(r'\(feature="([\w-]+)"\)', text)
    return m.group(1) in FEATURES


def intlit(s):
    """value and suffix"""
    if s.startswith('0x'):
        return int(s.replace('_', ''), 16), None
    m = re.fullmatch(r'(\d[\d_]*?)_?(u8|u16|u32|u64|u128|usize)?', s)
    return int(m.group(1).replace('_', '')), m.group(2)

# (type, function, variable) -> type
HINTS = {
    ('ArrayRepr', 'leading_zeros', 'accum'): 'u32',
    ('ArrayRepr', 'trailing_zeros', 'accum'): 'u32',
    ('ArrayRepr', 'to_u64_array', 'array'): '[u64; O]',
    ('ArrayRepr', 'to_u128', 'hi'): 'u128',
    ('ArrayIter', 'new', 'new'): '[PrimitiveIter<u64>; N]',
    ('ArrayIter', 'size_hint', 'sum'): 'usize',
    ('$name', 'to_u64_array', 'array'): '[u64; O]',
    ('EnumSet', 'to_vec', 'vec'): 'Vec<u64>',
    ('EnumSetInfo', 'variant_map', 'vec'): 'Vec<u64>',
    ('Visitor', 'visit_seq', 'accum'): '[u64; N]',
    ('Visitor', 'visit_seq', 'i'): 'usize',
    ('__EnumSetConstHelper', 'const_union', 'i'): 'usize',
    ('__EnumSetConstHelper', 'const_intersection', 'i'): 'usize',
    ('__EnumSetConstHelper', 'const_symmetric_difference', 'i'): 'usize',
    ('__EnumSetConstHelper', 'const_complement', 'i'): 'usize',
}

TOK = re.compile(r'''
    (?P<ws>\s+|//[^\n]*|/\*.*?\*/)
  | (?P<str>"(?:\\.|[^"\\])*")
  | (?P<life>'[a-z_]\w*(?!'))
  | (?P<chr>'(?:\\.|[^'\\])')
  | (?P<int>0x[0-9A-Fa-f_]+|\d[\d_]*(?:u8|u16|u32|u64|u128|usize)?)
  | (?P<id>\$?[A-Za-z_]\w*)
  | (?P<p><<=|>>=|\.\.=|::|->|=>|==|!=|<=|>=|&&|\|\||\+=|-=|\*=|/=|%=|&=|\|=|\^=|<<|>>|\.\.|[-+*/%&|^!<>=.,;:#\[\](){}?@$])
''', re.X | re.S)


def tokenize(src):
    out, i = [], 0
    while i < len(src):
        m = TOK.match(src, i)
        if not m:
            raise SyntaxError(f'character {src[i]!r} at {i}')
        k = m.lastgroup
        if k != 'ws':
            out.append((k, m.group(), src.count('\n', 0, i) + 1))
        i = m.end()
    out.append(('eof', '', 0))
    return out


def lstr(s):
    return '"' + s.replace('\\', '\\\\').replace('"', '\\"') + '"'


def llist(xs):
    return '[' + ', '.join(xs) + ']'


BIN = [  # from the weakest to the strongest
    {'||': 'or'}, {'&&': 'and'},
    {'==': 'eq', '!=': 'ne', '<': 'lt', '>': 'gt', '<=': 'le', '>=': 'ge'},
    {'|': 'bor'}, {'^': 'bxor'}, {'&': 'band'}, {'<<': 'shl', '>>': 'shr'},
    {'+': 'add', '-': 'sub'}, {'*': 'mul', '/': 'div', '%': 'rem'},
]
ASSIGN = {'+=': 'add', '-=': 'sub', '*=': 'mul', '/=': 'div', '%=': 'rem', '&=': 'band',
          '|=': 'bor', '^=': 'bxor', '<<=': 'shl', '>>=': 'shr'}


class P:
    def __init__(self, toks):
        self.t, self.i = toks, 0
        self.self_ty = self.trait = self.fn = None
        self.impl_gens = []
        self.fns, self.structs, self.invocations, self.macros = [], [], [], {}
        self.enums = []
        self.tmpls = []           # the contents of the quote!s
        self.holes = None         # in a quote!: the variables used
        self.nested = []          # in a quote!: the items inside functions

    # --- tokens
    def peek(self, k=0):
        return self.t[self.i + k][1]

    def kind(self, k=0):
        return self.t[self.i + k][0]

    def next(self):
        self.i += 1
        return self.t[self.i - 1][1]

    def eat(self, s):
        if self.peek() == s and self.kind() != 'str':
            self.i += 1
            return True
        return False

    def want(self, s):
        if not self.eat(s):
            raise SyntaxError(f'line {self.t[self.i][2]}: expected {s!r}, found {self.peek()!r}')

    def ident(self):
        if self.kind() != 'id':
            raise SyntaxError(f'line {self.t[self.i][2]}: expected a name, found {self.peek()!r}')
        return self.next()

    def split(self):
        """split a leading >> or >= in a list of type arguments"""
        k, s, l = self.t[self.i]
        if k == 'p' and len(s) > 1 and s[0] in '><&|':
            self.t[self.i:self.i + 1] = [('p', s[0], l), ('p', s[1:], l)]

    def skip_balanced(self):
        op = self.next()
        cl = {'(': ')', '[': ']', '{': '}'}[op]
        d = 1
        while d:
            s = self.peek()
            if self.kind() != 'str':
                d += (s == op) - (s == cl)
            self.i += 1

    def attrs(self):
        """skip attributes; False if one of them is a `cfg` that is not satisfied"""
        self.derives = []
        on = True
        while self.peek() == '#' and self.peek(1) in ('[', '!'):
            self.next()
            self.eat('!')
            a = self.i
            self.skip_balanced()
            if self.t[a + 1][1] == 'derive':
                self.derives += [x[1] for x in self.t[a + 3:self.i - 2] if x[0] == 'id']
            if self.t[a + 1][1] == 'cfg' and FEATURES is not None:
                on = on and cfg(''.join(x[1] for x in self.t[a + 2:self.i - 1]))
        return on

    # --- types
    def ty(self):
        self.split()
        if self.eat('&'):
            if self.kind() == 'life':
                self.next()
            if self.eat('mut'):
                return f'.refMut ({self.ty()})'
            return f'.ref ({self.ty()})'
        if self.eat('*'):
            if not self.eat('const'):
                self.want('mut')
            return f'.ptr ({self.ty()})'
        if self.eat('{'):           # a const argument
            t = self.ty()
            self.want('}')
            return t
        if self.kind() == 'id' and self.peek() == 'impl':
            self.next()
            return self.bounds()[0]
        if self.eat('['):
            t = self.ty()
            if self.eat(';'):
                n = self.next()
                self.want(']')
                return f'.arr ({t}) {lstr(n)}'
            self.want(']')
            return f'.slice ({t})'
        if self.eat('('):
            ts = []
            while not self.eat(')'):
                ts.append(self.ty())
                self.eat(',')
            return f'.tuple {llist(ts)}'
        name, args = self.path_ty()
        return f'.name {lstr(name)} {llist(args)}'

    def path_ty(self):
        """a path in a type: its text and the type arguments of its last segment"""
        if self.eat('<'):           # <T as Trait>::X
            q, _ = self.path_ty()
            if self.eat('as'):
                self.path_ty()
            self.split()
            self.want('>')
            segs, args = [q], []
            if not self.eat('::'):
                return q, []
        else:
            segs, args = [], []
            self.eat('::')
        while True:
            segs.append(self.ident())
            if self.peek() in ('<', '<<'):
                self.split()
                self.want('<')
                args = []
                while True:
                    self.split()
                    if self.eat('>'):
                        break
                    if self.kind() == 'life':
                        self.next()
                    elif self.kind() == 'id' and self.peek(1) == '=':
                        self.next(), self.next()
                        self.ty()
                    else:
                        args.append(self.ty())
                    self.eat(',')
            if self.peek() == '::' and self.kind(1) == 'id':
                self.next()
            else:
                break
        return '::'.join(self.local(segs)), args

    def local(self, segs):
        """drop the path to a crate in front of a name"""
        if segs[0] in CRATES and self.holes is not None:
            segs = segs[1:]
            while len(segs) > 1 and segs[0][0].islower():
                segs = segs[1:]
        elif segs[0][0] == '#' and self.holes is not None:
            if segs[1:] == ['Repr']:        # an associated type of an interpolated type
                segs = ['::'.join(segs)]
            self.hole(segs[0])
        if segs and segs[-1][0] == '#' and self.holes is not None:
            self.hole(segs[-1])
        return segs

    def hole(self, x):
        if x not in self.holes:
            self.holes.append(x)

    def generics(self):
        """`<const N: usize, T: Bound>`: the names of the const parameters and of the type parameters
        that are storage types; the other type parameters have no influence on what the code does"""
        gens = []
        if self.peek() != '<':
            return gens
        self.want('<')
        while True:
            self.split()
            if self.eat('>'):
                return gens
            g, const = None, False
            if self.kind() == 'life':
                self.next()
            else:
                const = self.eat('const')
                g = self.ident()
            bs = self.bounds() if self.eat(':') else []
            if g and (const or '.name "EnumSetTypeRepr" []' in bs):
                gens.append(g)
            self.eat(',')

    def bounds(self):
        bs = []
        while True:
            if self.kind() == 'life':
                self.next()
            else:
                bs.append(self.ty())
            if not self.eat('+'):
                return bs

    # --- patterns
    def pat(self):
        self.eat('mut')
        if self.eat('('):
            ps = []
            while not self.eat(')'):
                ps.append(self.pat())
                self.eat(',')
            return f'.tup {llist(ps)}'
        if self.kind() == 'int':
            n, t = intlit(self.next())
            return f'.int .{t} {n}' if t else f'.lit {n}'
        if self.kind() == 'str':
            return f'.str {lstr(unescape(self.next()))}'
        x = self.ident()
        if x == '_':
            return '.wild'
        segs = [x]
        while self.eat('::'):
            segs.append(self.ident())
        segs = self.local(segs)
        x = '::'.join(segs)
        if x == 'Some':
            self.want('(')
            p = self.pat()
            self.want(')')
            return f'.some ({p})'
        if x == 'None':
            return '.none'
        if x in ('Ok', 'Err'):
            self.want('(')
            p = self.pat()
            self.want(')')
            return f'.{x.lower()} ({p})'
        if self.eat('('):
            ps = []
            while not self.eat(')'):
                ps.append(self.pat())
                self.eat(',')
            return f'.variant {lstr(segs[-2])} {lstr(segs[-1])} ' \
                f'{llist(lstr(str(i)) for i in range(len(ps)))} {llist(ps)}'
        if self.peek() == '{' and x[0].isupper():
            self.next()
            fs, ps = [], []
            while not self.eat('}'):
                if self.eat('..'):
                    continue
                f = self.ident()
                fs.append(lstr(f))
                ps.append(self.pat() if self.eat(':') else f'.var {lstr(f)}')
                self.eat(',')
            return f'.struct {lstr(x)} {llist(fs)} {llist(ps)}'
        if len(segs) > 1:
            return f'.variant {lstr(segs[-2])} {lstr(segs[-1])} [] []'
        return f'.var {lstr(x)}'

    def pat_or(self):
        self.eat('|')
        ps = [self.pat()]
        while self.eat('|'):
            ps.append(self.pat())
        return ps[0] if len(ps) == 1 else f'.or {llist(ps)}'

    # --- match
    def match_(self):
        self.want('match')
        s = self.expr(False)
        self.want('{')
        arms = []
        while not self.eat('}'):
            arms.append(self.arm())
        return f'.match ({s}) {llist(arms)}'

    def arm(self):
        if self.peek() == '#' and self.peek(1) == '(':
            xs, a = self.rep(self.arm)
            return f'.rep {xs} ({a})'
        p = self.pat_or()
        g = self.expr() if self.eat('if') else '.bool true'
        self.want('=>')
        b = self.primary(True) if self.peek() == '{' else self.expr()
        self.eat(',')
        return f'.mk ({p}) ({g}) ({b})'

    def rep(self, f):
        """`#( … )*`: the variables in it, and what it repeats"""
        self.want('#')
        a = self.i
        self.skip_balanced()
        b = self.i
        self.i = a + 1
        outer, self.holes = self.holes, []
        x = f()
        self.eat(',')
        assert self.i == b - 1, self.t[self.i]
        self.i = b
        self.want('*')
        xs, self.holes = self.holes, outer
        for y in xs:
            self.hole(y)
        return llist(lstr(y) for y in xs), x

    # --- quote!
    def quote(self, spanned=False):
        """the number of the template; `quote_spanned!` also has an expression for the span"""
        a = self.i
        self.skip_balanced()
        toks = self.t[a + 1:self.i - 1]
        if spanned:
            assert toks[1][1] == '=>'
            span, toks = toks[0][1], toks[2:]
        kind, code, holes = template(toks, spanned)
        if kind == 'hole':
            return f'.var {lstr(code[1:])}'
        if spanned:
            code = f'[.spanned (.var {lstr("#" + span)}) {code}]'
            holes = ['#' + span] + holes
        key = kind, code, holes, self.t[a][2], self.t[self.i - 1][2]
        name = OLD.get(str(key))
        if not name:
            name = f'{LETTER}{len(self.tmpls)}'
            self.tmpls.append((name, *key))

        def arg(x):
            y = re.search(r'#\w+', x)
            if y[0] != x:               # a name with an interpolation inside of it
                return f'.pcall "Ident" "paste" [] [.format {llist([lstr(x[:y.start()]), lstr(x[y.end():])])} ' \
                    f'[.var {lstr(y[0][1:])}], .pcall "Span" "call_site" [] []]'
            return f'.var {lstr(x[1:])}'
        return f'.pcall "quote" {lstr(name)} [] {llist(arg(x) for x in holes)}'

    # --- expressions
    def expr(self, st=True):
        """st: struct expressions are allowed"""
        a = self.expr_range(st)
        if self.eat('='):
            return f'.assign ({a}) ({self.expr(st)})'
        if self.peek() in ASSIGN:
            op = ASSIGN[self.next()]
            return f'.assignOp .{op} ({a}) ({self.expr(st)})'
        return a

    def expr_range(self, st):
        a = self.binary(0, st)
        if self.peek() == '..' and self.peek(1) not in (']', ')'):
            self.next()
            return f'.range ({a}) ({self.binary(0, st)})'
        return a

    def binary(self, lvl, st):
        if lvl == len(BIN):
            return self.cast(st)
        a = self.binary(lvl + 1, st)
        while self.kind() == 'p' and self.peek() in BIN[lvl]:
            op = BIN[lvl][self.next()]
            b = self.binary(lvl + 1, st)
            a = f'.{op} ({a}) ({b})' if op in ('and', 'or') else f'.bin .{op} ({a}) ({b})'
        return a

    def cast(self, st):
        a = self.unary(st)
        while self.eat('as'):
            a = f'.cast ({a}) ({self.ty()})'
        return a

    def unary(self, st):
        self.split_amp()
        if self.eat('!'):
            return f'.un .not ({self.unary(st)})'
        if self.eat('*'):
            a = self.unary(st)
            m = re.fullmatch(r'\.field \(.*\) "(\w+)"', a)
            if m and m.group(1) in DEREF_FIELDS:
                return f'.mcall ({a}) "deref" [] []'
            return f'.un .deref ({a})'
        if self.eat('&'):
            if self.eat('mut'):
                return f'.un .refMut ({self.unary(st)})'
            return f'.un .ref ({self.unary(st)})'
        return self.postfix(st)

    def split_amp(self):
        if self.kind() == 'p' and self.peek() == '&&':
            self.split()

    def args(self):
        self.want('(')
        es = []
        while not self.eat(')'):
            es.append(self.expr())
            self.eat(',')
        return es

    def turbofish(self):
        """`::<A, B>`: the names"""
        cs = []
        if self.peek() == '::' and self.peek(1) == '<':
            self.next()
            self.want('<')
            while True:
                self.split()
                if self.eat('>'):
                    break
                b = self.eat('{')
                cs.append(self.next())
                if b:
                    self.want('}')
                self.eat(',')
        return cs

    def closure(self):
        ps = []
        if self.eat('||'):
            return ps, self.expr()
        self.want('|')
        while not self.eat('|'):
            ps.append(self.pat())
            self.eat(',')
        return ps, self.expr()

    def postfix(self, st):
        a = self.primary(st)
        while True:
            if self.eat('?'):
                a = f'.try ({a})'
            elif self.eat('['):
                if self.eat('..'):
                    a = f'.sliceTo ({a}) ({self.expr()})'
                else:
                    a = f'.index ({a}) ({self.expr()})'
                self.want(']')
            elif self.eat('.'):
                if self.kind() == 'int':
                    a = f'.field ({a}) {lstr(self.next())}'
                    continue
                m = self.ident()
                cs = self.turbofish()
                if self.peek() != '(':
                    a = f'.field ({a}) {lstr(m)}'
                else:
                    a = self.method(a, m, cs)
            else:
                return a

    def method(self, a, m, cs):
        self.want('(')
        if self.peek() in ('|', '||'):
            ps, b = self.closure()
            self.eat(',')
            self.want(')')
            assert len(ps) == 1
            return f'.mclosure ({a}) {lstr(m)} ({ps[0]}) ({b})'
        es = []
        while not self.eat(')'):
            if self.peek() == '|' and m == 'map_or':
                (p,), b = self.closure()
                self.want(')')
                return f'.mapOr ({a}) ({es[0]}) ({p}) ({b})'
            if self.peek() == '|':
                assert m == 'fold' and len(es) == 1
                (p, q), b = self.closure()
                self.want(')')
                return f'.fold ({a}) ({es[0]}) ({p}) ({q}) ({b})'
            if m == 'map' and self.kind() == 'id' and self.peek()[0].isupper() and self.peek(1) == ')':
                n = self.next()
                self.want(')')
                return f'.mapCtor ({a}) {lstr(n)}'
            es.append(self.expr())
            self.eat(',')
        if m == 'sum' and not es:
            return f'.sum ({a})'
        if m == 'ok' and not es and a.startswith('.mcall (') and a.endswith(') "try_into" [] []'):
            return '.tryIntoOk (' + a[len('.mcall ('):-len('"try_into" [] []') - 2] + ')'
        m = CALLS.get((self.self_ty, self.trait, m), m)
        if m in TYPED:
            m, cs = f'{m}::<{", ".join(cs)}>', []
            if '#' in m:
                self.hole(m)
        if self.holes is not None and any(c[0] == '#' for c in cs):     # `a.m::<{ #c }>(…)`
            (c,) = cs
            self.hole(c)
            return f'.block [.let (.var "{{const}}") (some (.name "usize" [])) (.var {lstr(c)}), ' \
                f'.tail (.mcall ({a}) {lstr(m)} ["{{const}}"] {llist(es)})]'
        return f'.mcall ({a}) {lstr(m)} {llist(lstr(c) for c in cs)} {llist(es)}'

    def primary(self, st):
        k, s = self.kind(), self.peek()
        if k == 'int':
            n, t = intlit(self.next())
            return f'.int .{t} {n}' if t else f'.lit {n}'
        if k == 'str':
            return f'.str {lstr(unescape(self.next()))}'
        if s == '(':
            self.next()
            es, comma = [], False
            while not self.eat(')'):
                es.append(self.expr())
                comma = self.eat(',')
            if len(es) == 1 and not comma:
                return es[0]
            return f'.tuple {llist(es)}'
        if s == '[':
            self.next()
            return self.array(']')
        if s == 'match':
            return self.match_()
        if s == '{':
            return self.block()
        if s == 'unsafe':
            self.next()
            return self.block()
        if s == 'if':
            return self.if_()
        if s == 'while':
            self.next()
            if self.eat('let'):
                p = self.pat()
                self.want('=')
                c = self.expr(False)
                return f'.whileLet ({p}) ({c}) ({self.block()})'
            c = self.expr(False)
            return f'.while ({c}) ({self.block()})'
        if s == 'for':
            self.next()
            p = self.pat()
            self.want('in')
            e = self.expr(False)
            if self.holes is not None:
                e = f'.mcall ({e}) "into_iter" [] []'
            return f'.for ({p}) ({e}) ({self.block()})'
        if s == 'return':
            self.next()
            return f'.ret ({self.expr(st)})'
        if s == 'break':
            self.next()
            return '.brk'
        if s in ('true', 'false'):
            return f'.bool {self.next()}'
        return self.path_expr(st)

    def array(self, close):
        es = []
        while not self.eat(close):
            if self.peek() == '#' and self.peek(1) == '(':
                xs, e = self.rep(self.expr)
                es.append(f'.rep {xs} ({e})')
                continue
            es.append(self.expr())
            if self.eat(';'):
                n = self.expr()
                self.want(close)
                return f'.repeat ({es[0]}) ({n})'
            self.eat(',')
        return f'.array {llist(es)}'

    def path_expr(self, st):
        segs, cs = [], []
        if self.peek() == '<<':
            self.split()
        if self.eat('<'):           # <T as Trait>::f
            q, _ = self.path_ty()
            self.want('as')
            self.path_ty()
            self.split()
            self.want('>')
            self.want('::')
            segs = [q]
        segs.append(self.ident())
        if self.kind() == 'p' and self.peek() == '!' and self.peek(1) in ('(', '{', '['):
            return self.macro_expr(segs[0])
        if segs == ['size_of'] or self.holes is not None and segs[0] in CRATES and \
                self.peek(3) == 'size_of':
            while self.next() != '<':
                pass
            t = self.ty()
            self.want('>'), self.want('('), self.want(')')
            return f'.sizeOf ({t})'
        cs = self.turbofish()
        while self.eat('::'):
            segs.append(self.ident())
            cs = self.turbofish()
            if segs[-1] == 'vec' and self.eat('!'):
                self.want('[')
                return self.array(']')
        segs = self.local(segs)
        ty, f = '::'.join(segs[:-1]), segs[-1]
        if self.peek() == '(':
            if f == 'Some':
                return f'.some ({self.one()})'
            if f == 'Ok':
                return f'.ok ({self.one()})'
            if f == 'Err':
                return f'.err ({self.one()})'
            if not ty and f[0].isupper():
                return f'.ctor {lstr(f)} ({self.one()})'
            es = self.args()
            if not ty and f in FREE:
                return f'.pcall "crate" {lstr(f)} [] {llist(es)}'
            if not ty:
                return f'.call {lstr(f)} {llist(es)}'
            return f'.pcall {lstr(ty)} {lstr(f)} {llist(lstr(c) for c in cs)} {llist(es)}'
        if st and self.peek() == '{' and f[0].isupper():
            self.next()
            fs, es = [], []
            while not self.eat('}'):
                x = self.ident()
                fs.append(lstr(x))
                es.append(self.expr() if self.eat(':') else f'.var {lstr(x)}')
                self.eat(',')
            return f'.struct {lstr("::".join(segs))} {llist(fs)} {llist(es)}'
        if f == 'None' and not ty:
            return '.none'
        if f in UNITS and not ty:
            return f'.struct {lstr(f)} [] []'
        if ty:
            return f'.path {lstr(ty)} {lstr(f)}'
        return f'.var {lstr(f)}'

    def macro_expr(self, m):
        self.want('!')
        if m == 'vec':
            self.want('[')
            return self.array(']')
        if m == 'quote':
            return self.quote()
        if m == 'quote_spanned':
            return self.quote(True)
        if m == 'format':
            self.want('(')
            s = unescape(self.next())
            es = []
            while not self.eat(')'):
                self.want(',')
                if self.peek() != ')':
                    es.append(self.expr())
            parts = s.split('{}')
            assert len(parts) == len(es) + 1
            return f'.format {llist(lstr(x) for x in parts)} {llist(es)}'
        if m == 'concat':
            es = self.args()
            return f'.format {llist(lstr("") for _ in range(len(es) + 1))} {llist(es)}'
        if m == 'stringify':
            self.want('(')
            x = self.ident()
            self.hole(x)
            self.want(')')
            return f'.stringify {lstr(x)}'
        if m == 'write':
            self.want('(')
            f = self.expr()
            self.want(',')
            s = self.expr()
            if s.startswith('.var "#'):
                self.hole(s[6:-1])
            self.want(')')
            return f'.mcall ({f}) "write_fmt" [] [{s}]'
        if m == 'parse_macro_input':
            x = self.one()
            err = '.mcall (.var "err") "to_compile_error" [] []'
            return (f'.match (.pcall "syn" "parse" [] [{x}]) [.mk (.ok (.var "data")) (.bool true) (.var "data"), '
                    f'.mk (.err (.var "err")) (.bool true) (.ret ({err}))]')
        if m == 'panic':
            return f'.panic ({self.one()})'
        if m == 'unreachable':
            assert not self.args()
            return '.panic (.str "internal error: entered unreachable code")'
        raise SyntaxError(f'line {self.t[self.i][2]}: macro {m}')

    def one(self):
        es = self.args()
        assert len(es) == 1, es
        return es[0]

    def if_(self):
        self.want('if')
        if self.eat('let'):
            p = self.pat()
            self.want('=')
            s = self.expr(False)
            if not re.fullmatch(r'\.some \(\.var "\w+"\)', p):
                t = self.block()
                e = '.block []'
                if self.eat('else'):
                    e = self.if_() if self.peek() == 'if' else self.block()
                return f'.match ({s}) [.mk ({p}) (.bool true) ({t}), .mk .wild (.bool true) ({e})]'
            head = f'.ifLet ({p}) ({s})'
        else:
            head = f'.ite ({self.expr(False)})'
        t = self.block()
        if self.eat('else'):
            e = self.if_() if self.peek() == 'if' else self.block()
        else:
            e = '.block []'
        return f'{head} ({t}) ({e})'

    def block(self):
        return f'.block {llist(self.stmts())}'

    def stmts(self):
        self.want('{')
        ss = []
        bare = None, None
        while not self.eat('}'):
            if self.eat(';'):
                continue
            if self.peek() == '#' and self.peek(1) == '[':
                a = self.i
                if not self.attrs():
                    self.skip_stmt()
                    continue
                if self.holes is not None:
                    ss += self.hole_attrs(a)
            if self.peek() == '#' and self.peek(1) == '(':
                xs, x = self.rep(self.let_stmt)
                ss.append(f'.rep {xs} ({x})')
                continue
            if self.holes is not None and self.kind() == 'id' and self.peek()[0] == '#' and \
                    (self.peek(1) == '}' or self.kind(1) == 'id'):
                x = self.next()
                self.hole(x)
                ss.append(f'.hole {lstr(x)}')
                continue
            if self.eat('use'):
                while not self.eat(';'):
                    self.next()
                continue
            if self.holes is not None and self.peek() in ('struct', 'impl'):
                old = self.self_ty, self.fn
                self.nested += self.t_item()
                self.self_ty, self.fn = old
                continue
            if self.peek() == 'const':
                ss.append(self.const_stmt())
                continue
            if self.peek() == 'let':
                ss.append(self.let_stmt())
                continue
            blocklike = self.peek() in ('if', 'for', 'while', '{', 'unsafe', 'match')
            e = self.expr_stmt() if blocklike else self.expr()
            if self.eat(';'):
                ss.append(f'.semi ({e})')
            elif self.peek() == '}':
                ss.append(f'.tail ({e})')
            elif blocklike:
                ss.append(f'.semi ({e})')
                bare = len(ss), f'.tail ({e})'
            else:
                raise SyntaxError(f'line {self.t[self.i][2]}: {self.peek()!r}')
        if bare[0] == len(ss):          # what follows was left out
            ss[-1] = bare[1]
        return ss

    def let_stmt(self):
        """`let p: t = e;` or `const X: t = e;`, in a repetition also with attributes"""
        self.attrs()
        if self.peek() == 'const':
            return self.const_stmt()
        self.want('let')
        p = self.pat()
        t = None
        if self.eat(':'):
            t = self.ty()
        self.want('=')
        e = self.expr()
        self.want(';')
        m = re.fullmatch(r'\.var "(\w+)"', p)
        h = HINTS.get((self.self_ty, self.fn, m.group(1))) if m and not t else None
        if h and not (h[0] == '[' and e.startswith('.pcall')):
            t = P(tokenize(h)).ty()
        return f'.let ({p}) ' + (f'(some ({t}))' if t else 'none') + f' ({e})'

    def const_stmt(self):
        """`const X: t = e;` in a block"""
        self.want('const')
        x = self.ident()
        if x[0] == '#':
            self.hole(x)
        self.want(':')
        t = self.ty()
        self.want('=')
        e = self.expr()
        self.want(';')
        return f'.let (.var {lstr(x)}) (some ({t})) ({e})'

    def hole_attrs(self, a):
        """the attributes from token `a` on whose argument is a hole"""
        out = []
        for i in range(a, self.i):
            if self.t[i][0] == 'id' and self.t[i][1][0] == '#' and self.t[i - 1][1] == '=':
                self.hole(self.t[i][1])
                out.append(f'.attr {lstr(self.t[i - 4][1])} (.var {lstr(self.t[i][1])})')
        return out

    def skip_stmt(self):
        if self.peek() == '{':
            return self.skip_balanced()
        while not self.eat(';'):
            if self.peek() in ('(', '[', '{'):
                self.skip_balanced()
            else:
                self.next()

    def expr_stmt(self):
        return self.primary(True)

    # --- items
    def items(self, end):
        while not self.eat(end) if end else self.kind() != 'eof':
            on = self.attrs()
            if (end and self.peek() == end) or self.kind() == 'eof':
                continue
            n = len(self.fns), len(self.structs)
            self.item()
            if not on:
                del self.fns[n[0]:], self.structs[n[1]:]

    def item(self):
        self.line = self.t[self.i][2]
        if self.eat('pub') and self.peek() == '(':
            self.skip_balanced()
        if self.eat('use'):
            while not self.eat(';'):
                if self.peek() == '{':
                    self.skip_balanced()
                else:
                    self.next()
        elif self.peek() == 'const' and self.peek(1) == '_':
            for s in ('const', '_', ':', '(', ')', '=', '{'):
                self.want(s)
            self.items('}')
            self.want(';')
        elif self.peek() == 'const' and self.peek(1) not in ('fn', 'unsafe'):
            self.next()
            name = self.ident()
            self.want(':')
            t = self.ty()
            self.want('=')
            e = self.expr()
            self.want(';')
            self.emit(name, [], [], t, [f'.tail ({e})'])
        elif self.eat('type'):
            while not self.eat(';'):
                self.next()
        elif self.eat('extern'):
            while not self.eat(';'):
                self.next()
        elif self.eat('enum'):
            name = self.ident()
            self.want('{')
            vs = []
            while not self.eat('}'):
                self.attrs()
                vs.append(self.ident())
                if self.peek() == '(':
                    self.skip_balanced()
                self.eat(',')
            self.enums.append((name, vs))
        elif self.eat('struct'):
            name = self.ident()
            gens = self.generics()
            fs, ds = [], self.derives
            if self.eat('('):
                k = 0
                while not self.eat(')'):
                    self.eat('pub')
                    fs.append((str(k), self.ty()))
                    k += 1
                    self.eat(',')
                self.want(';')
            else:
                self.want('{')
                while not self.eat('}'):
                    self.attrs()
                    self.eat('pub')
                    f = self.ident()
                    self.want(':')
                    fs.append((f, self.ty()))
                    self.eat(',')
            self.structs.append((name, gens, fs, ds))
        elif self.eat('impl'):
            self.impl_gens = self.generics()
            if self.peek() == '<':
                raise SyntaxError('impl')
            a0 = self.i
            n, _ = self.path_ty()
            trait = None
            if self.peek() == 'for':
                trait = ''.join(x[1] for x in self.t[a0:self.i])
                self.next()
                n, _ = self.path_ty()
            self.self_ty, self.trait = n, trait
            self.want('{')
            self.items('}')
            self.self_ty = self.trait = None
            self.impl_gens = []
        elif self.peek() == 'macro_rules':
            self.next(), self.want('!')
            name = self.ident()
            self.want('{')
            a = self.i
            self.skip_balanced()
            pat = self.t[a + 1:self.i - 1]
            self.want('=>')
            a = self.i
            self.skip_balanced()
            self.macros[name] = (pat, self.t[a + 1:self.i - 1])
            self.eat(';')
            self.want('}')
        elif self.peek() in self.macros and self.peek(1) == '!':
            name = self.next()
            self.next()
            a = self.i
            self.skip_balanced()
            self.invoke(name, self.t[a + 1:self.i - 1])
            self.eat(';')
        else:
            while self.peek() in ('const', 'unsafe', 'pub'):
                self.next()
            self.want('fn')
            self.fn = self.ident()
            gens = self.generics()
            self.want('(')
            ps = []
            while not self.eat(')'):
                self.param(ps)
            ret = self.ty() if self.eat('->') else '.tuple []'
            body = self.stmts()
            self.emit(self.fn, gens, ps, ret, body)
            self.fn = None

    def param(self, ps):
        if self.peek() == '&' and ('self' in (self.peek(1), self.peek(2))):
            self.next()
            t = '.refMut (.name "Self" [])' if self.eat('mut') else '.ref (.name "Self" [])'
            self.want('self')
            ps.append(('self', t))
        else:
            self.eat('mut')
            x = self.ident()
            if x == 'self':
                ps.append((x, '.name "Self" []'))
            else:
                self.want(':')
                ps.append((x, self.ty()))
        self.eat(',')

    # --- items of a template
    def t_items(self, end):
        out = []
        while not self.eat(end) if end else self.kind() != 'eof':
            self.attrs()
            out += self.t_item()
        return out

    def t_item(self):
        if self.kind() == 'id' and self.peek()[0] == '#':
            x = self.next()
            if self.peek() == 'struct':     # the visibility
                return []
            self.hole(x)
            return [f'.hole {lstr(x)}']
        if self.peek() == 'const' and self.peek(1) == '_':
            for s in ('const', '_', ':', '(', ')', '=', '{'):
                self.want(s)
            out = self.t_items('}')
            self.want(';')
            return out
        if self.peek() == 'const' and self.peek(1) not in ('fn', 'unsafe'):
            self.next()
            name = self.ident()
            self.want(':')
            t = self.ty()
            self.want('=')
            e = self.expr()
            self.want(';')
            return [self.t_fn(name, [], [], t, [f'.tail ({e})'])]
        if self.eat('type'):
            name = self.ident()
            self.want('=')
            t = self.ty()
            self.want(';')
            return [f'.type {lstr(name)} ({t})']
        if self.eat('struct'):
            name = self.ident()
            self.want(';')
            UNITS.add(name)
            return [f'.struct {lstr(name)}']
        while self.peek() in ('const', 'unsafe', 'pub'):
            self.next()
        if self.eat('impl'):
            self.generics()
            n, args = self.path_ty()
            trait, targs = '', []
            if self.eat('for'):
                trait, targs = n, args
                n, args = self.path_ty()
            self.self_ty = n
            self.want('{')
            b = self.t_items('}')
            return [f'.impl {lstr(trait)} {llist(targs)} (.name {lstr(n)} {llist(args)}) {llist(b)}']
        self.want('fn')
        self.fn = self.ident()
        gens = self.generics()
        self.want('(')
        ps = []
        while not self.eat(')'):
            self.param(ps)
        ret = self.ty() if self.eat('->') else '.tuple []'
        if self.eat('where'):
            while self.peek() != '{':
                self.next()
        name, outer, self.nested = self.fn, self.nested, []
        f = self.t_fn(name, gens, ps, ret, self.stmts())
        out, self.nested = [f] + self.nested, outer
        return out

    def t_fn(self, name, gens, ps, ret, body):
        return f'.fn {lstr(name)} ⟨[], {llist(lstr(g) for g in gens)}, ' \
            f'{llist(f"({lstr(x)}, {t})" for x, t in ps)}, {ret}, {llist(body)}⟩'

    def emit(self, name, gens, ps, ret, body):
        ty = self.self_ty or ('$name' if FEATURES is None else 'crate')
        name = OVERLOADS.get((ty, self.trait, name), name)
        self.fns.append((ty, name, self.impl_gens, gens, ps, ret, body,
                         (self.line, self.t[self.i - 1][2])))

    # --- macros
    def invoke(self, name, toks):
        pat, body = self.macros[name]
        eof = [('eof', '', 0)]
        if any(x[1] == '(' for x in pat):     # $(for_num!( … );)*
            par = [x[1] for x in pat if x[0] == 'id' and x[1].startswith('$')]
            for inv in invocations(toks):
                args = [x for x in inv if x[1] != ',']
                assert len(args) == len(par), (len(args), len(par))
                sub = dict(zip(par, args))
                b = [(sub[x[1]][0], sub[x[1]][1], x[2]) if x[1] in sub and x[0] == 'id' else x
                     for x in unrepeat(body)]
                self.run(b + eof)
        else:
            par = [x[1] for x in pat if x[0] == 'id' and x[1].startswith('$')]
            args, cur = [], []
            for x in toks + [('p', ',', 0)]:
                if x[1] == ',':
                    args.append(P(cur + eof).expr())
                    cur = []
                else:
                    cur.append(x)
            assert len(par) == len(args)
            if not self.invocations:
                self.run(body + eof)
            self.invocations.append(list(zip(par, args)))

    def run(self, toks):
        q = P(list(toks))
        q.macros = self.macros
        q.items(None)
        self.fns += q.fns
        self.structs += q.structs


def template(toks, spanned):
    """the content of a quote!: its kind, the Lean term, the holes"""
    t, i = [], 0
    while i < len(toks):
        if toks[i][1] == '#' and toks[i][0] == 'p' and toks[i + 1][0] == 'id':
            t.append(('id', '#' + toks[i + 1][1], toks[i][2]))
            i += 2
        else:
            t.append(toks[i])
            i += 1
    if len(t) == 1 and t[0][1][0] == '#':
        return 'hole', t[0][1], []
    eof = [('eof', '', toks[-1][2] if toks else 0)]

    def items(p):
        return llist(p.t_items(None))

    def stmts(p):
        return llist(p.stmts())

    def statement(p):
        return llist([f'.semi ({p.expr()})'])
    errs = []
    for kind, f in (('stmts', stmts),) if spanned else \
            (('stmts', statement),) if t and t[0][1] == 'if' else \
            (('expr', P.expr),) if t and t[0][1] == '<<' else \
            (('items', items), ('ty', P.ty), ('expr', P.expr)):
        p = P(list(t) + eof)
        p.holes = []
        try:
            code = f(p)
            if p.kind() == 'eof':
                return kind, code, p.holes
            errs.append(f'{kind}: line {p.t[p.i][2]}: {p.peek()!r}')
        except (SyntaxError, IndexError) as e:
            errs.append(f'{kind}: {e}')
    raise SyntaxError(str(errs))


def invocations(toks):
    """the argument lists of `for_num!(…); …`"""
    out, i = [], 0
    while i < len(toks):
        assert toks[i + 1][1] == '!' and toks[i + 2][1] == '(', toks[i]
        j = i + 3
        while toks[j][1] != ')':
            j += 1
        out.append(toks[i + 3:j])
        assert toks[j + 1][1] == ';'
        i = j + 2
    return out


def unrepeat(toks):
    """drop the `$(` and `)*` around the repeated part"""
    out, i, depth = [], 0, []
    while i < len(toks):
        x = toks[i]
        if x[1] == '$' and toks[i + 1][1] == '(':
            depth.append('rep')
            i += 2
            continue
        if x[1] == '(' and x[0] == 'p':
            depth.append('par')
        if x[1] == ')' and x[0] == 'p' and depth.pop() == 'rep':
            assert toks[i + 1][1] == '*'
            i += 2
            continue
        out.append(x)
        i += 1
    return out


# --- macro_rules!
def group(toks, i):
    """the content of the brackets that open at `i`, and where they end"""
    d, j = 0, i
    while True:
        if toks[j][0] == 'p':
            d += toks[j][1] in '([{'
            d -= toks[j][1] in ')]}'
        j += 1
        if not d:
            return toks[i + 1:j - 1], j


def atoms(toks):
    """a part of a pattern without repetitions"""
    out, i = [], 0
    while i < len(toks):
        if toks[i][1][0] == '$':
            assert toks[i + 1][1] == ':' and toks[i + 2][1] == 'path', toks[i]
            out.append(f'.path {lstr(toks[i][1][1:])}')
            i += 3
        else:
            out.append(f'.tok {lstr(toks[i][1])}')
            i += 1
    return out


def macro_pattern(toks):
    out, cur, i = [], [], 0

    def flush():
        out.extend(f'.atom ({a})' for a in atoms(cur))
        cur.clear()
    while i < len(toks):
        if toks[i][1] == '$':
            flush()
            g, i = group(toks, i + 1)
            sep = 'none'
            if toks[i][1] not in '*?':
                sep = f'(some {lstr(toks[i][1])})'
                i += 1
            op = {'*': '.star', '?': '.opt'}[toks[i][1]]
            i += 1
            out.append(f'.rep {llist(atoms(g))} {sep} {op}')
        else:
            cur.append(toks[i])
            i += 1
    flush()
    return llist(out)


def macro_args(toks):
    out, i = [], 0

    def arg(x):
        return f'.var {lstr(x[1][1:])}' if x[1][0] == '$' else f'.tok {lstr(x[1])}'
    while i < len(toks):
        if toks[i][1] == '$':
            g, i = group(toks, i + 1)
            assert toks[i][1] == '*'
            out.append(f'.rep {llist(arg(x) for x in g)}')
        else:
            out.append(f'.one ({arg(toks[i])})')
        i += 1
    return llist(out)


def macro_body(toks):
    if toks[0][1] == '$crate' and toks[3][1] == '!':
        args, end = group(toks, 4)
        assert end == len(toks)
        return f'.call {lstr(toks[2][1])} {macro_args(args)}'
    # a variable bound by the macro is not one of the caller (hygiene)
    own = {toks[i + 1][1] for i in range(len(toks) - 1) if toks[i][1] == 'let'}
    t = []
    for i, (k, s, l) in enumerate(toks):
        if s == '$':
            t.append((k, '#', l))
        elif k == 'id' and s[0] == '$':
            t.append((k, '#' + s[1:], l))
        elif k == 'id' and s in own and toks[i - 1][1] != '.':
            t.append((k, 'm:' + s, l))
        else:
            t.append((k, s, l))
    p = P(t + [('eof', '', 0)])
    p.holes = []
    code = p.expr()
    assert p.kind() == 'eof', p.peek()
    return f'.code (.mk {llist(lstr(h) for h in p.holes)} (.expr ({code})))'


def macros_main(path, ns, shown):
    toks = tokenize(open(path).read())
    print('import Verif.Src.MacroRules')
    print(f'/-!\n# `{shown}`\n\nWritten by `tools/rs2lean.py`.\n-/')
    print('set_option autoImplicit false\n')
    print(f'namespace Enumset.Src.{ns}\n')
    names = []
    for i in range(len(toks)):
        if toks[i][1] != 'macro_rules':
            continue
        name = toks[i + 2][1]
        names.append(name)
        body, end = group(toks, i + 3)
        l0, l1 = toks[i][2], toks[end - 1][2]
        arms, j = [], 0
        while j < len(body):
            pat, j = group(body, j)
            assert body[j][1] == '=>'
            rhs, j = group(body, j + 1)
            arms.append(f'.mk {macro_pattern(pat)} ({macro_body(rhs)})')
            if j < len(body):
                assert body[j][1] == ';'
                j += 1
        print(f'/-- `{name}!`, {shown}:{l0}-{l1} -/')
        print(f'def {name} : List MArm :=')
        print(wrap(llist(arms), 2))
        print()
    print('/-- The macros of the file. -/')
    print('def macros : List (String × List MArm) :=')
    print('  [' + ',\n   '.join(f'({lstr(n)}, {n})' for n in names) + ']\n')
    print(f'end Enumset.Src.{ns}')


def unescape(s):
    return re.sub(r'\\\n\s*', '', s[1:-1]).replace('\\"', '"').replace('\\n', '\n').replace('\\\\', '\\')


# functions that are left out
# (type, trait, function) -> name
OVERLOADS = {
    ('EnumSet', 'PartialEq<T>', 'eq'): 'eq_variant',
    ('EnumSet', 'Debug', 'fmt'): 'fmt_debug',
    ('EnumSet', 'Display', 'fmt'): 'fmt_display',
    ('EnumSet', 'Extend<T>', 'extend'): 'extend_variants',
    ('EnumSet', 'Extend<EnumSet<T>>', 'extend'): 'extend_sets',
    ('EnumSet', 'FromIterator<T>', 'from_iter'): 'from_iter_variants',
    ('EnumSet', 'FromIterator<EnumSet<T>>', 'from_iter'): 'from_iter_sets',
    ('EnumSet', 'Sum', 'sum'): 'sum_sets',
    ('EnumSet', "Sum<&'aEnumSet<T>>", 'sum'): 'sum_set_refs',
    ('EnumSet', 'Sum<T>', 'sum'): 'sum_variants',
    ('EnumSet', "Sum<&'aT>", 'sum'): 'sum_variant_refs',
}
# methods whose type arguments are kept, as a part of the name
TYPED = {'next_element', 'next_entry'}
# (type, trait, method called) -> name
CALLS = {
    ('EnumSet', 'FromIterator<T>', 'extend'): 'extend_variants',
    ('EnumSet', 'FromIterator<EnumSet<T>>', 'extend'): 'extend_sets',
}


def wrap(s, ind, width=100):
    """break a long line at spaces outside of strings"""
    out, line, i, instr, last = [], '', 0, False, -1
    words, cur = [], ''
    for c in s:
        if c == '"':
            instr = not instr
        if c == ' ' and not instr:
            words.append(cur)
            cur = ''
        else:
            cur += c
    words.append(cur)
    line = ' ' * ind
    for w in words:
        if len(line) + 1 + len(w) > width and line.strip():
            out.append(line.rstrip())
            line = ' ' * (ind + 2)
        line += ('' if not line.strip() else ' ') + w
    out.append(line)
    return '\n'.join(out)


def lean_name(ty, name):
    return (ty.replace('$name', 'prim') + '_' + name)


def main():
    global FEATURES, LETTER, FREE, UNITS, DEREF_FIELDS
    path, ns = sys.argv[1:3]
    shown = sys.argv[3] if len(sys.argv) > 3 else path
    src = open(path).read()
    if sys.argv[4:] == ['macro_rules']:
        return macros_main(path, ns, shown)
    derive = len(sys.argv) > 4
    if derive:
        FEATURES = set()
        FREE = set(re.findall(r'^(?:pub )?fn (\w+)', src, re.M))
        DEREF_FIELDS = set(re.findall(r'(\w+): SpannedValue<', src))
    p = P(tokenize(src))
    p.items(None)
    if derive:                  # again, with features
        fns = p.fns
        other = {'std_deprecation_warning', 'proc-macro-crate'}
        for LETTER, FEATURES, suffix in [('s', {'serde'}, '_serde'), ('p', other, '_other'),
                                         ('q', other | {'serde'}, '_serde_other')]:
            OLD.update((str(tuple(x[1:])), x[0]) for x in p.tmpls)
            q = P(tokenize(src))
            q.items(None)
            assert (p.structs, p.enums) == (q.structs, q.enums)
            for f, g in zip(fns, q.fns):
                assert f[:-3] == g[:-3]
            p.tmpls += q.tmpls
            old = [x[2:] for x in p.fns]
            p.fns = p.fns + [(g[0], g[1] + suffix.replace('other', 'std' if g[1][:6] == 'derive' else 'path'), *g[2:])
                             for g in q.fns if g[2:] not in old]
    seen = set()
    print('import Verif.Src.Syntax')
    print(f'/-!\n# `{shown}`\n\nWritten by `tools/rs2lean.py`.\n-/')
    print('set_option autoImplicit false\n')
    print(f'namespace Enumset.Src.{ns}\n')
    for name, kind, code, holes, l0, l1 in p.tmpls:
        print(f'/-- the content of the `quote!`, {shown}:{l0}' + (f'-{l1}' if l1 != l0 else '') + ' -/')
        print(f'def {name} : Tmpl where')
        print(wrap(f'holes := {llist(lstr(h) for h in holes)}', 2))
        print(wrap(f'code := .{kind} ({code})', 2))
        print()
    if derive:
        print('/-- The `quote!`s of the file. -/')
        print('def tmpls : List (String × Tmpl) :=')
        print(wrap(llist(f'({lstr(x[0])}, {x[0]})' for x in p.tmpls), 2))
        print()
    for ty, name, ig, gens, ps, ret, body, (l0, l1) in p.fns:
        assert (ty, name) not in seen, (ty, name)
        seen.add((ty, name))
        print(f'/-- `{ty}::{name}`, {shown}:{l0}' + (f'-{l1}' if l1 != l0 else '') + ' -/')
        print(f'def {lean_name(ty, name)} : FnDecl where')
        print(f'  implGens := {llist(lstr(g) for g in ig)}')
        print(f'  gens := {llist(lstr(g) for g in gens)}')
        print(wrap(f'params := {llist(f"({lstr(x)}, {t})" for x, t in ps)}', 2))
        print(f'  ret := {ret}')
        print(wrap(f'body := {llist(body)}', 2))
        print()
    print('/-- The functions of the file' + (', without features' if derive else '') + '. -/')
    print('def fns : List ((String × String) × FnDecl) :=')
    print('  [' + ',\n   '.join(f'(({lstr(t)}, {lstr(n)}), {lean_name(t, n)})'
                              for t, n, *_ in (fns if derive else p.fns)) + ']\n')
    print('/-- The structs of the file. -/')
    print('def structs : List (String × StructDecl) :=')
    print('  [' + ',\n   '.join(
        f'({lstr(n)},\n    {{ gens := {llist(lstr(g) for g in gs)}\n      fields := '
        f'{llist(f"({lstr(f)}, {t})" for f, t in fs)}\n      derives := '
        f'{llist(lstr(d) for d in ds)} }})' for n, gs, fs, ds in p.structs) + ']\n')
    if derive:
        print('/-- The enums of the file, with their variants. -/')
        print('def enums : List (String × List String) :=')
        print('  [' + ',\n   '.join(f'({lstr(n)}, {llist(lstr(v) for v in vs)})'
                                  for n, vs in p.enums) + ']\n')
        print(f'end Enumset.Src.{ns}')
        return
    print('/-- The macro invocations of the file. -/')
    print('def invocations : List (List (String × Expr)) :=')
    print('  [' + ',\n   '.join(llist(f'({lstr(x)}, {e})' for x, e in inv)
                              for inv in p.invocations) + ']\n')
    print('/-- The file. -/')
    print('def file : File := { fns, structs, invocations }\n')
    print(f'end Enumset.Src.{ns}')


main()
