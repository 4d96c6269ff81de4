#!/usr/bin/env python3
"""Translate the decoding functions of /repo/src/decode/**/*.rs into Lean, statement by statement.

Reads the Rust text only; nothing of it is compiled or run.  Output: lean/Verif/Source/*.lean
(except Prelude.lean and the Agree*.lean files, which are written by hand).

Usage: rs2lean.py [REPO] [OUTDIR]        (defaults: /repo, <here>/../lean/Verif/Source)

The translation is syntax directed; see DESIGN.md, "The translated source".  In short:
  * a function `fn f<R: Read>(reader: &mut R, a: A) -> Result<T, E>` becomes
    `def f (a : A) : Dec R E T := do ...`: the reader is the state of the monad;
  * `let`, `let mut`, assignment, `if`, `match`, `for`, `loop`, `break`, `return` become those of
    Lean's `do` notation; a `match` on an integer becomes a chain of `if`s in source order;
  * `e?` becomes `q e`, which applies the `From` conversion of the enclosing error type;
    the `From` instances come from the `#[from]` attributes;
  * `let mut reader = Cursor::new([b]).chain(reader); rest` becomes `Dec.withChain b do rest`,
    and `reader.take(n)` becomes `onTake n do rest`;
  * arithmetic that can overflow, indexing, `unwrap` and `unreachable!` become operations that panic;
  * a closure that changes a captured variable, and a `&mut` parameter other than the reader, are
    passed as explicit state;
  * `loop` and `while` carry a step budget.
Anything the script does not know makes it stop with an error.
"""
import os, re, sys

REPO = sys.argv[1] if len(sys.argv) > 1 else '/repo'
HERE = os.path.dirname(os.path.abspath(__file__))
OUT = sys.argv[2] if len(sys.argv) > 2 else os.path.join(HERE, '../lean/Verif/Source')
OPS = os.path.join(HERE, '../lean/Verif/Core/Ops.lean')


class Bad(Exception):
    pass


# ---------------------------------------------------------------- tokens

PUNCT = ['<<=', '>>=', '..=', '...', '::', '->', '=>', '==', '!=', '<=', '>=', '&&', '||', '+=', '-=',
         '*=', '/=', '|=', '&=', '^=', '<<', '..', '(', ')', '[', ']', '{', '}', '<', '>', ',', ';', ':',
         '.', '=', '!', '?', '&', '|', '+', '-', '*', '/', '%', '^', '#', '@', '$', '~']


class Tok:
    __slots__ = ('k', 'v', 'line')

    def __init__(self, k, v, line):
        self.k, self.v, self.line = k, v, line

    def __repr__(self):
        return f'{self.v}@{self.line}'


def tokenize(text):
    toks, i, line, n = [], 0, 1, len(text)
    while i < n:
        c = text[i]
        if c == '\n':
            line += 1
            i += 1
        elif c.isspace():
            i += 1
        elif text.startswith('//', i):
            while i < n and text[i] != '\n':
                i += 1
        elif text.startswith('/*', i):
            j = text.index('*/', i) + 2
            line += text.count('\n', i, j)
            i = j
        elif c == '"':
            j = i + 1
            while text[j] != '"':
                j += 2 if text[j] == '\\' else 1
            toks.append(Tok('str', text[i:j + 1], line))
            line += text.count('\n', i, j)
            i = j + 1
        elif c == "'":
            m = re.match(r"'([A-Za-z_]\w*)(?!')", text[i:])
            if m:
                toks.append(Tok('life', m.group(0), line))
                i += m.end()
            else:
                j = text.index("'", i + 1 + (2 if text[i + 1] == '\\' else 1) - 0)
                toks.append(Tok('char', text[i:j + 1], line))
                i = j + 1
        elif c.isdigit():
            m = re.match(r'(0x[0-9a-fA-F_]+?|0b[01_]+|[0-9][0-9_]*)(u8|u32|u64|i32|i64|usize)?(?![0-9a-zA-Z_])',
                         text[i:])
            if not m:
                raise Bad(f'number at line {line}')
            toks.append(Tok('num', (m.group(1), m.group(2)), line))
            i += m.end()
        elif c.isalpha() or c == '_':
            m = re.match(r'(r#)?[A-Za-z_]\w*', text[i:])
            toks.append(Tok('id', m.group(0), line))
            i += m.end()
        else:
            for p in PUNCT:
                if text.startswith(p, i):
                    toks.append(Tok('p', p, line))
                    i += len(p)
                    break
            else:
                raise Bad(f'character {c!r} at line {line}')
    toks.append(Tok('eof', '', line))
    return toks


# ---------------------------------------------------------------- parser

class N:
    """An AST node: kind and named children."""

    def __init__(self, kind, line, **kw):
        self.kind, self.line = kind, line
        self.__dict__.update(kw)

    def __repr__(self):
        d = {k: v for k, v in self.__dict__.items() if k not in ('kind', 'line')}
        return f'{self.kind}{d}'


class Parser:
    def __init__(self, toks, fname):
        self.t, self.i, self.fname = toks, 0, fname

    # -- token helpers
    @property
    def cur(self):
        return self.t[self.i]

    def peek(self, k=1):
        return self.t[min(self.i + k, len(self.t) - 1)]

    def at(self, *vs):
        return self.cur.k in ('p', 'id') and self.cur.v in vs

    def next(self):
        t = self.cur
        self.i += 1
        return t

    def eat(self, v):
        if self.at(v):
            return self.next()
        raise Bad(f'{self.fname}:{self.cur.line}: expected {v!r}, found {self.cur.v!r}')

    def opt(self, v):
        if self.at(v):
            self.next()
            return True
        return False

    def ident(self):
        if self.cur.k != 'id':
            raise Bad(f'{self.fname}:{self.cur.line}: expected identifier, found {self.cur.v!r}')
        return self.next().v

    def bad(self, msg):
        raise Bad(f'{self.fname}:{self.cur.line}: {msg}, at {self.cur.v!r}')

    def skip_balanced(self):
        """skip one token, or a bracketed group"""
        pairs = {'(': ')', '[': ']', '{': '}'}
        if self.cur.k == 'p' and self.cur.v in pairs:
            close = pairs[self.next().v]
            while not self.at(close):
                self.skip_balanced()
            self.next()
        else:
            self.next()

    # -- items
    def attrs(self):
        out = []
        while self.at('#'):
            start = self.i
            self.next()
            self.opt('!')
            self.skip_balanced()
            out.append(''.join(str(t.v if not isinstance(t.v, tuple) else t.v[0]) + ' '
                               for t in self.t[start:self.i]))
        return out

    def vis(self):
        if self.opt('pub'):
            if self.at('('):
                self.skip_balanced()

    def items(self, end='eof'):
        out = []
        while not (self.cur.k == 'eof' if end == 'eof' else self.at(end)):
            it = self.item()
            if it is not None:
                out.append(it)
        return out

    def item(self):
        at = self.attrs()
        self.vis()
        line = self.cur.line
        if self.at('use'):
            while not self.at(';'):
                self.next()
            self.next()
            return None
        if self.at('mod'):
            self.next()
            name = self.ident()
            if self.opt(';'):
                return None
            if any('cfg ( test' in a for a in at):
                self.skip_balanced()
                return None
            self.bad('inline module ' + name)
        if self.at('const') or self.at('static'):
            kw = self.next().v
            name = self.ident()
            self.eat(':')
            ty = self.type()
            self.eat('=')
            e = self.expr()
            self.eat(';')
            return N('const', line, name=name, ty=ty, value=e, kw=kw)
        if self.at('enum'):
            self.next()
            name = self.ident()
            gen = self.generics()
            return N('enum', line, name=name, generics=gen, variants=self.variants(), attrs=at)
        if self.at('struct'):
            self.next()
            name = self.ident()
            self.generics()
            if self.at('('):
                fs = self.tuple_fields()
                self.eat(';')
                return N('struct', line, name=name, tuple=fs, attrs=at)
            fs = self.named_fields()
            return N('struct', line, name=name, named=fs, tuple=None, attrs=at)
        if self.at('trait'):
            self.next()
            name = self.ident()
            while not self.at('{'):
                self.next()
            self.next()
            body = []
            while not self.at('}'):
                self.attrs()
                if self.at('type'):
                    while not self.at(';'):
                        self.next()
                    self.next()
                    continue
                f = self.fn_sig()
                if self.at('{'):
                    f.body = self.fn_body(f)
                    f.end = self.t[self.i - 1].line
                else:
                    self.eat(';')
                    f.body = None
                body.append(f)
            self.next()
            return N('trait', line, name=name, items=body)
        if self.at('impl'):
            self.next()
            self.generics()
            ty = self.type()
            trait = None
            if self.opt('for'):
                trait, ty = ty, self.type()
            self.eat('{')
            body = []
            while not self.at('}'):
                self.attrs()
                self.vis()
                if self.at('type'):
                    self.next()
                    nm = self.ident()
                    self.eat('=')
                    t = self.type()
                    self.eat(';')
                    body.append(N('assoc', line, name=nm, ty=t))
                else:
                    body.append(self.item())
            self.next()
            return N('impl', line, ty=ty, trait=trait, items=body)
        if self.at('fn'):
            f = self.fn_sig()
            f.body = self.fn_body(f)
            f.end = self.t[self.i - 1].line
            return f
        if self.at('macro_rules'):
            self.next()
            self.eat('!')
            name = self.ident()
            start = self.i
            self.skip_balanced()
            return N('macro_rules', line, name=name, toks=self.t[start:self.i])
        if self.cur.k == 'id' and self.peek().v == '!':
            name = self.ident()
            self.next()
            start = self.i
            self.skip_balanced()
            toks = self.t[start + 1:self.i - 1]
            self.opt(';')
            return N('macro_use', line, name=name, toks=toks)
        self.bad('unknown item')

    def generics(self):
        out = []
        if self.at('<'):
            self.next()
            depth = 1
            while depth:
                if self.at('<'):
                    depth += 1
                elif self.at('>'):
                    depth -= 1
                elif depth == 1 and self.cur.k == 'id' and self.t[self.i - 1].v in ('<', ','):
                    out.append(self.cur.v)
                self.next()
        return out

    def variants(self):
        self.eat('{')
        out = []
        while not self.at('}'):
            at = self.attrs()
            line = self.cur.line
            name = self.ident()
            v = N('variant', line, name=name, attrs=at, tuple=None, named=None)
            if self.at('('):
                v.tuple = self.tuple_fields()
            elif self.at('{'):
                v.named = self.named_fields()
            out.append(v)
            self.opt(',')
        self.next()
        return out

    def tuple_fields(self):
        self.eat('(')
        out = []
        while not self.at(')'):
            at = self.attrs()
            self.vis()
            out.append((at, self.type()))
            self.opt(',')
        self.next()
        return out

    def named_fields(self):
        self.eat('{')
        out = []
        while not self.at('}'):
            at = self.attrs()
            self.vis()
            nm = self.ident()
            self.eat(':')
            out.append((at, nm, self.type()))
            self.opt(',')
        self.next()
        return out

    def fn_sig(self):
        line = self.eat('fn').line
        name = self.ident()
        gens = self.generics()
        self.eat('(')
        params = []
        while not self.at(')'):
            if self.at('&') and self.peek().v == 'self':
                self.next()
                self.next()
                params.append(('self', N('ty', line, path=['Self'], args=[]), False))
            else:
                self.opt('mut')
                nm = self.ident()
                self.eat(':')
                params.append((nm, self.type(), False))
            self.opt(',')
        self.next()
        ret = None
        if self.opt('->'):
            ret = self.type()
        where = {}
        if self.opt('where'):
            while not self.at('{'):
                v = self.ident()
                self.eat(':')
                bound = []
                depth = 0
                while not (depth == 0 and (self.at(',') or self.at('{'))):
                    if self.at('(', '<'):
                        depth += 1
                    if self.at(')', '>'):
                        depth -= 1
                    bound.append(self.cur.v)
                    self.next()
                where[v] = bound
                self.opt(',')
        return N('fn', line, name=name, generics=gens, params=params, ret=ret, where=where)

    def type(self):
        line = self.cur.line
        if self.opt('&'):
            if self.cur.k == 'life':
                self.next()
            mut = self.opt('mut')
            return N('ref', line, mut=mut, ty=self.type())
        if self.opt('('):
            parts = []
            while not self.at(')'):
                parts.append(self.type())
                self.opt(',')
            self.next()
            return N('tuple', line, parts=parts)
        if self.opt('['):
            el = self.type()
            n = None
            if self.opt(';'):
                n = self.expr()
            self.eat(']')
            return N('array', line, el=el, n=n)
        if self.opt('impl'):
            return N('impl_ty', line, ty=self.type())
        path, args = [self.ident()], []
        while True:
            if self.at('::'):
                self.next()
                path.append(self.ident())
            elif self.at('<'):
                self.next()
                while not self.at('>'):
                    if self.cur.k == 'life':
                        self.next()
                    else:
                        args.append(self.type())
                    self.opt(',')
                self.next()
            else:
                break
        return N('ty', line, path=path, args=args)

    def fn_body(self, f):
        if f.name in TEXT_FNS:
            start = self.i
            self.skip_balanced()
            text = ' '.join(t.v for t in self.t[start:self.i])
            if TEXT_FNS[f.name] is not None and text != TEXT_FNS[f.name]:
                self.bad(f.name + ' is not the function modelled in Model/Display.lean')
            return None
        return self.block()

    # -- patterns
    def pattern(self):
        line = self.cur.line
        self.opt('|')
        p = self.pattern1()
        if self.at('|'):
            alts = [p]
            while self.opt('|'):
                alts.append(self.pattern1())
            return N('por', line, alts=alts)
        return p

    def lit_pat(self):
        t = self.next()
        return t.v

    def pattern1(self):
        line = self.cur.line
        if self.cur.k == 'num':
            lo = self.lit_pat()
            if self.opt('..='):
                return N('prange', line, lo=lo, hi=self.lit_pat())
            return N('plit', line, lit=lo)
        if self.opt('&'):
            return self.pattern1()
        if self.opt('('):
            parts = []
            comma = False
            while not self.at(')'):
                parts.append(self.pattern())
                comma = self.opt(',') or comma
            self.next()
            if len(parts) == 1 and not comma:
                return parts[0]
            return N('ptuple', line, parts=parts)
        if self.at('_'):
            self.next()
            return N('pwild', line)
        if self.at('mut'):
            self.next()
            return N('pbind', line, name=self.ident(), mut=True, sub=None)
        if self.cur.k == 'id':
            path = [self.ident()]
            while self.opt('::'):
                path.append(self.ident())
            if self.at('('):
                self.next()
                parts = []
                while not self.at(')'):
                    parts.append(self.pattern())
                    self.opt(',')
                self.next()
                return N('pctor', line, path=path, parts=parts)
            if self.at('{'):
                self.bad('struct pattern')
            if self.opt('@'):
                return N('pbind', line, name=path[0], mut=False, sub=self.pattern1())
            if len(path) == 1 and (path[0][0].islower() or path[0].startswith('r#')):
                return N('pbind', line, name=path[0], mut=False, sub=None)
            return N('pctor', line, path=path, parts=[])
        self.bad('pattern')

    # -- statements
    def block(self):
        line = self.eat('{').line
        stmts, tail = [], None
        while not self.at('}'):
            l = self.cur.line
            at = self.attrs()
            if self.opt(';'):
                continue
            if self.at('let'):
                self.next()
                pat = self.pattern()
                ty = init = None
                if self.opt(':'):
                    ty = self.type()
                if self.opt('='):
                    init = self.expr()
                if self.at('else'):
                    self.bad('let-else')
                self.eat(';')
                stmts.append(N('let', l, pat=pat, ty=ty, init=init))
                continue
            if self.at('fn', 'const'):
                stmts.append(N('item', l, item=self.item()))
                continue
            e = self.expr(stmt=True)
            if self.opt(';'):
                stmts.append(N('expr', l, e=e, semi=True))
            elif self.at('}'):
                tail = e
            elif e.kind in ('if', 'match', 'loop', 'while', 'for', 'block'):
                stmts.append(N('expr', l, e=e, semi=False))
            else:
                self.bad('expected ;')
        self.next()
        return N('block', line, stmts=stmts, tail=tail)

    # -- expressions
    BIN = [('||',), ('&&',), ('==', '!=', '<', '>', '<=', '>='), ('|',), ('^',), ('&',), ('<<',),
           ('+', '-'), ('*', '/', '%')]

    def expr(self, stmt=False, nostruct=False):
        line = self.cur.line
        if self.at('return'):
            self.next()
            e = None if self.at(';', ',', '}') else self.expr(nostruct=nostruct)
            return N('return', line, e=e)
        if self.at('break'):
            self.next()
            if not self.at(';', ',', '}'):
                self.bad('break with value')
            return N('break', line)
        if self.at('|', '||'):
            return self.closure()
        if stmt and self.at('if', 'match', 'loop', 'while', 'for', '{'):
            e = self.primary(nostruct)
            if not self.at('.', '?'):
                return e
            e = self.postfix(e, nostruct)
        else:
            e = self.range(nostruct)
        if self.at('=', '+=', '-=', '|=', '&='):
            op = self.next().v
            return N('assign', line, lhs=e, op=op, rhs=self.expr(nostruct=nostruct))
        return e

    def closure(self):
        line = self.cur.line
        params = []
        if not self.opt('||'):
            self.eat('|')
            while not self.at('|'):
                params.append(self.pattern1())
                if self.opt(':'):
                    self.type()
                self.opt(',')
            self.next()
        body = self.block() if self.at('{') else self.expr()
        return N('closure', line, params=params, body=body)

    def range(self, nostruct):
        line = self.cur.line
        a = self.binary(0, nostruct)
        if self.at('..', '..='):
            op = self.next().v
            b = self.binary(0, nostruct)
            return N('range', line, lo=a, hi=b, incl=op == '..=')
        return a

    def binary(self, lvl, nostruct):
        if lvl == len(self.BIN):
            return self.cast(nostruct)
        a = self.binary(lvl + 1, nostruct)
        while self.cur.k == 'p' and self.cur.v in self.BIN[lvl]:
            line = self.cur.line
            op = self.next().v
            if op == '&&' and self.at('let'):
                b = self.let_cond()
            else:
                b = self.binary(lvl + 1, nostruct)
            a = N('binary', line, op=op, a=a, b=b)
        return a

    def cast(self, nostruct):
        e = self.unary(nostruct)
        while self.at('as'):
            line = self.next().line
            e = N('cast', line, e=e, ty=self.type())
        return e

    def unary(self, nostruct):
        line = self.cur.line
        if self.at('&'):
            self.next()
            mut = self.opt('mut')
            return N('refe', line, mut=mut, e=self.unary(nostruct))
        if self.at('!', '*', '-'):
            op = self.next().v
            return N('unary', line, op=op, e=self.unary(nostruct))
        return self.postfix(self.primary(nostruct), nostruct)

    def args(self):
        self.eat('(')
        out = []
        while not self.at(')'):
            out.append(self.expr())
            if not self.opt(','):
                break
        self.eat(')')
        return out

    def postfix(self, e, nostruct):
        while True:
            line = self.cur.line
            if self.at('?'):
                self.next()
                e = N('try', line, e=e)
            elif self.at('('):
                e = N('call', line, f=e, args=self.args())
            elif self.at('['):
                self.next()
                i = self.expr()
                self.eat(']')
                e = N('index', line, e=e, i=i)
            elif self.at('.'):
                self.next()
                if self.cur.k == 'num':
                    e = N('field', line, e=e, name=self.next().v[0])
                    continue
                name = self.ident()
                if self.at('::'):
                    self.next()
                    self.generics()
                if self.at('('):
                    e = N('method', line, e=e, name=name, args=self.args())
                else:
                    e = N('field', line, e=e, name=name)
            else:
                return e

    def let_cond(self):
        line = self.eat('let').line
        pat = self.pattern()
        self.eat('=')
        # the scrutinee of a let in a condition extends to the next `&&`
        e = self.binary(2, True)
        return N('letcond', line, pat=pat, e=e)

    def cond(self):
        line = self.cur.line
        if self.at('let'):
            a = self.let_cond()
            while self.at('&&'):
                self.next()
                b = self.let_cond() if self.at('let') else self.binary(2, True)
                a = N('binary', line, op='&&', a=a, b=b)
            return a
        return self.expr(nostruct=True)

    def primary(self, nostruct):
        line = self.cur.line
        t = self.cur
        if t.k == 'num':
            self.next()
            return N('num', line, lit=t.v)
        if t.k == 'str':
            self.next()
            return N('str', line, v=t.v)
        if self.at('('):
            self.next()
            parts, comma = [], False
            while not self.at(')'):
                parts.append(self.expr())
                comma = self.opt(',') or comma
            self.next()
            if len(parts) == 1 and not comma:
                return N('paren', line, e=parts[0])
            return N('tuplee', line, parts=parts)
        if self.at('['):
            self.next()
            if self.at(']'):
                self.next()
                return N('arraye', line, parts=[])
            first = self.expr()
            if self.opt(';'):
                n = self.expr()
                self.eat(']')
                return N('arrayrep', line, e=first, n=n)
            parts = [first]
            while self.opt(','):
                if self.at(']'):
                    break
                parts.append(self.expr())
            self.eat(']')
            return N('arraye', line, parts=parts)
        if self.at('{'):
            return self.block()
        if self.at('if'):
            self.next()
            c = self.cond()
            th = self.block()
            el = None
            if self.opt('else'):
                el = self.primary(False) if self.at('if') else self.block()
            return N('if', line, c=c, th=th, el=el)
        if self.at('match'):
            self.next()
            e = self.expr(nostruct=True)
            self.eat('{')
            arms = []
            while not self.at('}'):
                self.attrs()
                l = self.cur.line
                p = self.pattern()
                g = None
                if self.opt('if'):
                    g = self.expr()
                self.eat('=>')
                b = self.expr(stmt=True)
                if not self.opt(',') and not self.at('}') and b.kind not in ('block', 'match', 'if'):
                    self.bad('match arm')
                arms.append(N('arm', l, pat=p, guard=g, body=b))
            self.next()
            return N('match', line, e=e, arms=arms)
        if self.at('loop'):
            self.next()
            return N('loop', line, body=self.block())
        if self.at('while'):
            self.next()
            c = self.cond()
            return N('while', line, c=c, body=self.block())
        if self.at('for'):
            self.next()
            p = self.pattern()
            self.eat('in')
            e = self.expr(nostruct=True)
            return N('for', line, pat=p, e=e, body=self.block())
        if t.k == 'id':
            path = [self.ident()]
            if path == ['true'] or path == ['false']:
                return N('bool', line, v=path[0])
            if self.at('!') and self.peek().v in ('(', '[', '{'):
                self.next()
                start = self.i
                self.skip_balanced()
                toks = self.t[start + 1:self.i - 1]
                return N('macro', line, name=path[0], toks=toks)
            while self.at('::'):
                self.next()
                if self.at('<'):
                    self.generics()
                else:
                    path.append(self.ident())
            if self.at('{') and not nostruct and path[-1][0].isupper():
                self.next()
                fields, base = [], None
                while not self.at('}'):
                    if self.opt('..'):
                        base = self.expr()
                    else:
                        l = self.cur.line
                        nm = self.ident()
                        if self.opt(':'):
                            fields.append((nm, self.expr()))
                        else:
                            fields.append((nm, N('path', l, path=[nm])))
                    self.opt(',')
                self.next()
                return N('structe', line, path=path, fields=fields, base=base)
            return N('path', line, path=path)
        self.bad('expression')


# ---------------------------------------------------------------- emitter

KEYWORDS = {'mut', 'type', 'local', 'module', 'struct', 'end', 'at', 'from', 'in', 'for', 'if', 'then', 'else',
            'do', 'let', 'match', 'with', 'where', 'have', 'show', 'fun', 'def', 'open', 'init', 'section',
            'namespace', 'example', 'instance', 'class', 'prefix', 'e', 'q'}
FIELD_OK = {'type', 'init', 'module'}

INT = {'u8': 'UInt8', 'u32': 'UInt32', 'u64': 'UInt64', 'i32': 'Int32', 'i64': 'Int64', 'usize': 'Nat',
       'f32': 'UInt32', 'f64': 'UInt64'}


def var(v):
    if v.startswith('r#'):
        v = v[2:]
    return v + '_' if v in KEYWORDS else v


def field(f):
    return f[2:] if f.startswith('r#') else f


def num(lit):
    s = lit[0].replace('_', '')
    return s if lit[1] is None else f'({s} : {INT[lit[1]]})'


SIMPLE = re.compile(r"^[\w.«»']+$")


def paren(s):
    s = s.strip()
    if SIMPLE.match(s):
        return s
    if s[0] == '(' and matching(s) == len(s) - 1:
        return s
    if s[0] == '[' and s[-1] == ']' and matching(s) == len(s) - 1:
        return s
    return f'({s})'


def matching(s):
    d = 0
    for i, c in enumerate(s):
        if c in '([{⟨':
            d += 1
        elif c in ')]}⟩':
            d -= 1
            if d == 0:
                return i
    return -1


class Ctx:
    """Per-function state of the emitter."""

    def __init__(self, fn, self_ty, readers, inout, fuel, fuelrec, fnmut, localfns, pure):
        self.fn, self.self_ty, self.readers = fn, self_ty, set(readers)
        self.inout, self.fuel, self.fuelrec, self.fnmut = inout, fuel, fuelrec, fnmut
        self.localfns, self.pure = localfns, pure
        self.types = {}
        self.consts = set()
        self.tmp = 0

    def fresh(self, base):
        self.tmp += 1
        return f'{base}{self.tmp}'


class Emitter:
    def __init__(self, fname):
        self.fname = fname

    def bad(self, n, msg):
        raise Bad(f'{self.fname}:{n.line}: cannot translate: {msg} ({n.kind})')

    # -- types
    def type(self, t, selfty):
        if t.kind == 'ref':
            return self.type(t.ty, selfty)
        if t.kind == 'tuple':
            if not t.parts:
                return 'Unit'
            return '(' + ' × '.join(self.type(p, selfty) for p in t.parts) + ')'
        if t.kind == 'array':
            return f'(List {self.type(t.el, selfty)})'
        if t.kind != 'ty':
            self.bad(t, 'type')
        last = t.path[-1]
        if last in INT:
            return INT[last]
        if last == 'bool':
            return 'Bool'
        if last == 'Self':
            return selfty
        if last == 'String':
            return 'Str'
        if t.path[-2:] == ['io', 'Error']:
            return 'IoError'
        if last == 'Instruction':
            return 'Instr'
        if last == 'Vec':
            return f'(List {self.type(t.args[0], selfty)})'
        if last == 'Option':
            return f'(Option {self.type(t.args[0], selfty)})'
        if last == 'ResultType':
            return '(List ValType)'
        if t.args:
            return '(' + ' '.join([last] + [self.type(a, selfty) for a in t.args]) + ')'
        return last

    # -- paths
    def path(self, p, c):
        p = list(p)
        if p[0] == 'Self':
            p[0] = c.self_ty
        if p[0] in ('crate', 'io', 'instructions') and len(p) > 1:
            p = p[1:]
        if p == ['None']:
            return 'none'
        if len(p) == 1:
            return var(p[0]) if p[0][0].islower() or p[0].startswith('r#') or p[0].startswith('_') else p[0]
        if p[-2:] == ['u32', 'MAX']:
            return '(4294967295 : UInt32)'
        if p[-2:] == ['i32', 'MIN']:
            return '(-2147483648 : Int32)'
        if p[-2:] == ['i32', 'MAX']:
            return '(2147483647 : Int32)'
        if p[-2:] == ['ErrorKind', 'UnexpectedEof']:
            return 'IoError.unexpectedEof'
        if tuple(p[-2:]) in CONSTS:               # associated constant
            return 'Source.' + '.'.join(p)
        if p[-1][0].islower():                    # a function
            t = p[-2]
            if p[-1] == 'from_marker':
                return f'Source.from_marker {t}'
            return f'Source.{t}.{p[-1]}'
        if p[-2] == 'Instruction' or p[-2] == 'Instr':
            return f'Source.Instruction.{p[-1]}'
        return f'{p[-2]}.{p[-1]}'

    # -- is the expression (syntactically) a reader?
    def is_reader(self, e, c):
        while e.kind in ('refe', 'paren') or (e.kind == 'method' and e.name == 'by_ref'):
            e = e.e
        return e.kind == 'path' and len(e.path) == 1 and e.path[0] in c.readers

    # -- reader adapters: returns (combinator, argument) or None
    def adapter(self, e, c):
        while e.kind in ('refe', 'paren'):
            e = e.e
        if e.kind != 'method':
            return None
        if e.name == 'chain':
            if not self.is_reader(e.args[0], c):
                self.bad(e, 'chain of something else')
            cur = e.e
            if cur.kind == 'call' and cur.f.kind == 'path' and cur.f.path[-2:] == ['Cursor', 'new'] \
                    and cur.args[0].kind == 'arraye' and len(cur.args[0].parts) == 1:
                return 'Dec.withChain', paren(self.ex(cur.args[0].parts[0], c))
            self.bad(e, 'chain')
        if e.name == 'take' and self.is_reader(e.e, c):
            return 'onTake', paren(self.ex(e.args[0], c))
        return None

    # -- actions: a Lean term of type `Dec R ε α` for a Result-valued Rust expression, or None
    def act(self, e, c):
        if e.kind == 'paren':
            return self.act(e.e, c)
        if e.kind == 'call':
            f = e.f
            if f.kind != 'path':
                self.bad(e, 'call')
            if f.path == ['Ok']:
                return f'pure {paren(self.ex(e.args[0], c))}'
            if f.path == ['Err']:
                return f'Dec.err {paren(self.ex(e.args[0], c))}'
            last = f.path[-1]
            if last == 'try_from':
                ty = INT[f.path[-2]]
                return f'tryFrom (β := {ty}) {paren(self.ex(e.args[0], c))}'
            if f.path[0] in c.fnmut and len(f.path) == 1:
                if len(e.args) != 1 or not self.is_reader(e.args[0], c):
                    self.bad(e, 'argument of an element decoder')
                return f'{var(f.path[0])}.run'
            if not last[0].islower() or last in c.localfns or f.path[-2:] in (['LaneIdx', 'new'], ['Self', 'new']):
                return None
            if len(f.path) >= 2 and f.path[-2] in ('u32', 'u64', 'i64', 'f32', 'f64', 'Vec', 'Default', 'Cursor'):
                return None
            args = []
            for a in e.args:
                if self.is_reader(a, c):
                    continue
                args.append(self.arg(a, c))
            p = f.path
            if len(p) == 1 or p[-2][0].islower():
                head = 'Source.' + p[-1]
            else:
                head = self.path(p, c)
            if head == f'Source.{c.self_ty}.{c.fn.name}' and c.fuelrec:
                head = 'self_parse'
            elif head == 'Source.Instruction.parse':
                args.insert(0, 'fuel')
            return ' '.join([head] + args)
        if e.kind == 'method':
            if e.name == 'map_err':
                a = self.act(e.e, c)
                if a is None:
                    return None
                if e.args[0].kind == 'path' and e.args[0].path[-1] == 'DecodeDataCount':
                    # the model's variant drops the payload (a TryFromIntError, which has no public content)
                    return f'Dec.mapErr (fun _ => {self.fnarg(e.args[0], c)}) {paren(a)}'
                return f'Dec.mapErr {paren(self.fnarg(e.args[0], c))} {paren(a)}'
            if e.name == 'map':
                a = self.act(e.e, c)
                if a is None:
                    return None
                return f'{paren(self.fnarg(e.args[0], c))} <$> {paren(a)}'
            if e.name == 'try_into':
                return f'tryFrom {paren(self.ex(e.e, c))}'
            if e.name == 'validate_section_kind_expected':
                return f'Source.Module.{e.name} {paren(self.ex(e.e, c))} {paren(self.ex(e.args[0], c))}'
            return None
        return None

    # -- an argument that may be an element decoder (FnMut) or an inout variable
    def arg(self, a, c):
        if a.kind == 'refe':
            return paren(self.ex(a.e, c))
        if a.kind == 'closure':
            mutated = self.mutated_in_closure(a)
            p = a.params[0]
            c2r = set(c.readers)
            c.readers = {p.name}
            body = a.body
            if body.kind == 'block' and not body.stmts:
                body = body.tail
            s = self.act(body, c)
            c.readers = c2r
            if s is None:
                self.bad(a, 'closure')
            if mutated:
                (m,) = mutated
                return f'(FnMut.mk {var(m)} fun {var(m)} => {s})'
            return f'(FnMut.of {paren(s)})'
        if a.kind == 'path' and a.path[-1][0].islower() and (len(a.path) > 1 or a.path[0] in FUNCS):
            f = 'Source.' + a.path[-1] if len(a.path) == 1 else self.path(a.path, c)
            return f'(FnMut.of {f})'
        return paren(self.ex(a, c))

    def mutated_in_closure(self, cl):
        out = []

        def walk(n):
            if isinstance(n, N):
                if n.kind == 'refe' and n.mut:
                    out.append(n.e.path[0])
                if n.kind == 'assign':
                    self.bad(n, 'assignment in a closure')
                for v in n.__dict__.values():
                    walk(v)
            elif isinstance(n, (list, tuple)):
                for v in n:
                    walk(v)
        walk(cl.body)
        return out

    # -- a function or constructor passed as an argument
    def fnarg(self, f, c):
        if f.kind == 'path':
            if len(f.path) == 1:
                return var(f.path[0]) if f.path[0][0].islower() else f.path[0] + '.mk'
            return self.path(f.path, c)
        if f.kind == 'closure':
            ps = ' '.join(self.pat(p, c) for p in f.params)
            return f'fun {ps} => {self.ex(f.body, c)}'
        self.bad(f, 'function argument')

    # -- value expressions (may contain nested actions `(← ..)`)
    def ex(self, e, c):
        k = e.kind
        if k == 'paren':
            return paren(self.ex(e.e, c))
        if k == 'num':
            return num(e.lit)
        if k == 'bool':
            return e.v
        if k == 'path':
            return self.path(e.path, c)
        if k == 'refe':
            return self.ex(e.e, c)
        if k == 'unary':
            if e.op == '*':
                return self.ex(e.e, c)
            if e.op == '!':
                # on a Bool or comparison it is negation, on an integer the complement
                if e.e.kind == 'num':
                    return f'~~~{paren(self.ex(e.e, c))}'
                return f'¬ {paren(self.prop(e.e, c))}'
            self.bad(e, 'unary ' + e.op)
        if k == 'binary':
            return self.binary(e, c)
        if k == 'tuplee':
            return '(' + ', '.join(self.ex(p, c) for p in e.parts) + ')'
        if k == 'arraye':
            return '[' + ', '.join(self.ex(p, c) for p in e.parts) + ']'
        if k == 'arrayrep':
            assert e.e.kind == 'num' and e.e.lit[1] == 'u8'
            return f'List.replicate {paren(self.ex(e.n, c))} {num(e.e.lit)}'
        if k == 'cast':
            assert self.type(e.ty, c.self_ty) == 'Int64'
            return f'{paren(self.ex(e.e, c))}.toInt64'
        if k == 'field':
            return f'{paren(self.ex(e.e, c))}.{field(e.name)}'
        if k == 'index':
            if c.pure:
                return f'constIndex {paren(self.ex(e.e, c))} {paren(self.ex(e.i, c))}'
            return f'(← index {paren(self.ex(e.e, c))} {paren(self.ex(e.i, c))})'
        if k == 'try':
            if c.pure:
                self.bad(e, '? in a pure function')
            root = e
            while root.kind in ('try', 'method') and (root.kind == 'try' or root.name == 'map_err'):
                root = root.e
            if root.kind == 'call' and root.f.kind == 'path' and root.f.path[-1] in FNMUT_FUNCS:
                return f'(← {self.tryact(e, c)}).1'
            return f'(← {self.tryact(e, c)})'
        if k == 'structe':
            return self.structe(e, c)
        if k == 'call':
            return self.call(e, c)
        if k == 'method':
            return self.method(e, c)
        if k == 'macro':
            return self.macro(e, c)
        if k == 'closure':
            return '(' + self.fnarg(e, c) + ')'
        self.bad(e, 'expression')

    def tryact(self, e, c):
        a = self.act(e.e, c)
        if a is None:
            self.bad(e, '? of something that is not a Result')
        return f'q {paren(a)}'

    def structe(self, e, c):
        p = list(e.path)
        if p[0] == 'Self':
            p[0] = c.self_ty
        if e.base is not None:
            assert not e.fields and e.base.kind == 'call' and e.base.f.path == ['Default', 'default']
            return f'Source.{p[-1]}.default'
        if len(p) == 1:
            return '({ ' + ', '.join(f'{field(f)} := {self.ex(v, c)}' for f, v in e.fields) + f' }} : {p[0]})'
        return f'{p[-2]}.{p[-1]} ' + ' '.join(f'({field(f)} := {self.ex(v, c)})' for f, v in e.fields)

    def call(self, e, c):
        f = e.f
        if f.kind != 'path':
            self.bad(e, 'call')
        p = f.path
        if p == ['Some']:
            return f'some {paren(self.ex(e.args[0], c))}'
        if p in (['Ok'], ['Err']):
            self.bad(e, 'a Result as a value')
        if len(p) == 2 and p[1] == 'from' and p[0] in INT:
            return f'(From.from_ {paren(self.ex(e.args[0], c))} : {INT[p[0]]})'
        if p == ['f32', 'from_le_bytes']:
            return f'f32_from_le_bytes {paren(self.ex(e.args[0], c))}'
        if p == ['f64', 'from_le_bytes']:
            return f'f64_from_le_bytes {paren(self.ex(e.args[0], c))}'
        if p == ['Vec', 'new']:
            return '[]'
        if p == ['Vec', 'with_capacity']:
            return f'(← with_capacity {paren(self.ex(e.args[0], c))})'
        if p == ['Self', 'markers']:
            return 'FromMarkerByte.markers'
        args = [paren(self.ex(a, c)) for a in e.args]
        last = p[-1]
        if last in c.localfns:
            return ' '.join([last] + args)
        if len(p) == 1 and last[0].isupper():
            t = c.self_ty if last == 'Self' else last
            return ' '.join([f'{t}.mk'] + args)
        if len(p) >= 2 and last == 'new':
            t = c.self_ty if p[-2] == 'Self' else p[-2]
            return ' '.join([f'Source.{t}.new'] + args)
        if last[0].isupper():
            if p[-2] == 'Instruction' and last in ARRAY16:
                args = [f'(← pack16 {a})' for a in args]
            return ' '.join([self.path(p, c)] + args)
        if c.pure or last in PURE:
            return ' '.join(['Source.' + last] + args)
        self.bad(e, 'call')

    def method(self, e, c):
        m = e.name
        if m == 'into':
            return f'From.from_ {paren(self.ex(e.e, c))}'
        if m in ('iter', 'as_ref', 'into_iter', 'collect', 'entries', 'by_ref', 'kind'):
            return self.ex(e.e, c)
        if m == 'unwrap':
            a = self.act(e.e, c)
            if a is not None:
                return f'(← unwrap_ok {paren(a)})'
            return f'(← unwrap_some {paren(self.ex(e.e, c))})'
        if m == 'limit':
            if not self.is_reader(e.e, c):
                self.bad(e, 'limit')
            return '(← limit)'
        if m == 'contains':
            r = e.e
            while r.kind == 'paren':
                r = r.e
            assert r.kind == 'range' and r.incl
            lo, hi, y = self.ex(r.lo, c), self.ex(r.hi, c), self.ex(e.args[0], c)
            return f'({lo} ≤ {y} ∧ {y} ≤ {hi})'
        x = paren(self.ex(e.e, c))
        simple = {'len': 'length', 'is_empty': 'isEmpty', 'is_none': 'isNone', 'last': 'getLast?'}
        if m in simple and not e.args:
            return f'{x}.{simple[m]}'
        if m == 'enumerate':
            return f'enumerate {x}'
        if m == 'pow':
            return f'(← pow {x} {paren(self.ex(e.args[0], c))})'
        if m == 'get':
            return f'List.lookup {paren(self.ex(e.args[0], c))} {x}'
        if m == 'map':
            return f'List.map {paren(self.purefn(e.args[0], c))} {x}'
        if m == 'any':
            return f'List.any (List.map {paren(self.purefn(e.args[0], c))} {x}) id'
        if m == 'is_some_and':
            f = e.args[0]
            return f'(match {x} with | some {self.pat(f.params[0], c)} => {self.ex(f.body, c)} | none => false)'
        self.bad(e, 'method ' + m)

    def purefn(self, f, c):
        if f.kind == 'path':
            if len(f.path) == 1:
                return 'Source.' + f.path[0]
            return self.path(f.path, c)
        return self.fnarg(f, c)

    def macro(self, e, c):
        if e.name == 'vec':
            if not e.toks:
                return '[]'
            sub = Parser(e.toks + [Tok('eof', '', e.line)], self.fname)
            first = sub.expr()
            if sub.opt(';'):
                n = sub.expr()
                return f'(← vec_zeroed {paren(self.ex(n, c))})'
            parts = [first]
            while sub.opt(','):
                if sub.cur.k == 'eof':
                    break
                parts.append(sub.expr())
            return '[' + ', '.join(self.ex(p, c) for p in parts) + ']'
        self.bad(e, 'macro ' + e.name)

    CMP = {'==': '=', '!=': '≠', '<': '<', '>': '>', '<=': '≤', '>=': '≥'}

    def binary(self, e, c):
        a, b = paren(self.ex(e.a, c)), paren(self.ex(e.b, c))
        if e.op in self.CMP:
            return f'{a} {self.CMP[e.op]} {b}'
        if e.op == '&&':
            return f'{paren(self.prop(e.a, c))} ∧ {paren(self.prop(e.b, c))}'
        if e.op == '||':
            if c.pure:
                return f'{a} || {b}'
            return f'{paren(self.prop(e.a, c))} ∨ {paren(self.prop(e.b, c))}'
        if e.op == '&':
            return f'{a} &&& {b}'
        if e.op == '|':
            return f'{a} ||| {b}'
        fn = {'+': 'add', '-': 'sub', '<<': 'shl'}.get(e.op)
        if fn is None:
            self.bad(e, 'operator ' + e.op)
        return f'(← {fn} {a} {b})'

    def prop(self, e, c):
        s = self.ex(e, c)
        while e.kind == 'paren':
            e = e.e
        is_bool = e.kind in ('path', 'field') or (e.kind == 'method' and e.name in ('is_none', 'is_empty'))
        if e.kind == 'path' and c.types.get(e.path[-1]) == 'prop':
            is_bool = False
        return f'{s} = true' if is_bool else s

    # -- patterns
    def pat(self, p, c):
        if p.kind == 'pwild':
            return '_'
        if p.kind == 'pbind':
            assert p.sub is None
            return var(p.name)
        if p.kind == 'ptuple':
            return '(' + ', '.join(self.pat(x, c) for x in p.parts) + ')'
        if p.kind == 'por':
            return ' | '.join(self.pat(x, c) for x in p.alts)
        if p.kind == 'pctor':
            args = [paren(self.pat(x, c)) for x in p.parts]
            if p.path == ['Ok']:
                head = '.ok'
            elif p.path == ['Err']:
                head = '.error'
            elif p.path == ['Some']:
                head = 'some'
            elif p.path == ['None']:
                head = 'none'
            else:
                head = self.path(p.path, c)
            return ' '.join([head] + args)
        self.bad(p, 'pattern')

    def int_cond(self, p, x):
        """condition for an integer pattern; None if irrefutable"""
        if p.kind == 'plit':
            return f'{x} = {num(p.lit)}'
        if p.kind == 'prange':
            lo, hi = num(p.lo), num(p.hi)
            return f'{lo} ≤ {x} ∧ {x} ≤ {hi}'
        if p.kind == 'por':
            return ' ∨ '.join(paren(self.int_cond(a, x)) if a.kind == 'prange' else self.int_cond(a, x)
                              for a in p.alts)
        if p.kind == 'pwild':
            return None
        if p.kind == 'pbind':
            return self.int_cond(p.sub, x) if p.sub is not None else None
        self.bad(p, 'integer pattern')

    # -- statements.  Every function returns a list of lines (relative indentation).
    # mode: 'ret'  the tail is the Result returned by the function
    #       'ok'   the tail is the value v of a returned Ok(v)
    #       'val'  the tail is the value of an enclosing expression
    #       'unit' the block is a statement
    def block(self, b, c, mode, after=None):
        """`after`: lines to run at the end of a 'unit' block (used inside reader scopes)"""
        return self.stmts(b.stmts, b.tail, c, mode, after, b.line)

    def stmts(self, ss, tail, c, mode, after, line):
        out = []
        for i, s in enumerate(ss):
            if s.kind == 'let' and s.init is not None:
                ad = self.adapter(s.init, c)
                if ad is not None:
                    return out + self.scope(ad, s, ss[i + 1:], tail, c, mode, after)
            out += self.mark(self.stmt(s, c), s.line)
        if tail is not None:
            if mode == 'unit':
                out += self.mark(self.stmt(N('expr', tail.line, e=tail, semi=False), c), tail.line)
            else:
                out += self.mark(self.deliver(tail, c, mode), tail.line)
        elif mode in ('ret', 'ok', 'val'):
            if not self.diverges(ss):
                self.bad(N('block', line), 'no value')
        if after:
            out += after
        if not out:
            out = ['pure ()']
        return out

    def mark(self, lines, line):
        if lines and '--' not in lines[0] and len(lines[0]) < 90:
            lines = [f'{lines[0]}  -- {line}'] + lines[1:]
        return lines

    def diverges(self, ss):
        if not ss:
            return False
        s = ss[-1]
        e = s.e if s.kind == 'expr' else None
        return e is not None and e.kind in ('return', 'break')

    def scope(self, ad, s, rest, tail, c, mode, after):
        comb, arg = ad
        saved = set(c.readers)
        c.readers = {s.pat.name}
        if mode == 'unit':
            ms = self.assigned(rest, tail)
            declared = self.declared(rest)
            ms = [m for m in ms if m not in declared]
            tup = '(' + ', '.join(var(m) for m in ms) + ')'
            inner = [f'let mut {var(m)} := {var(m)}' for m in ms]
            inner += self.stmts(rest, tail, c, 'unit', [f'return {tup}'], s.line)
            lines = [f'{tup} ← {comb} {arg} do  -- {s.line}'] + ind(inner)
            if after:
                lines += after
        else:
            if mode == 'val':
                self.no_return(rest, tail)
            inner = self.stmts(rest, tail, c, mode, after, s.line)
            lines = [f'{comb} {arg} do  -- {s.line}'] + ind(inner)
        c.readers = saved
        return lines

    def walk(self, x, f):
        if isinstance(x, N):
            f(x)
            for v in x.__dict__.values():
                self.walk(v, f)
        elif isinstance(x, (list, tuple)):
            for v in x:
                self.walk(v, f)

    def no_return(self, rest, tail):
        def f(n):
            if n.kind == 'return':
                self.bad(n, 'return inside a reader scope used as a value')
        self.walk([rest, tail], f)

    def assigned(self, rest, tail):
        out = []

        def root(e):
            while e.kind in ('field', 'index', 'unary', 'paren'):
                e = e.e
            return e.path[0]

        def f(n):
            v = None
            if n.kind == 'assign':
                v = root(n.lhs)
            elif n.kind == 'method' and n.name == 'push':
                v = root(n.e)
            if v is not None and v not in out:
                out.append(v)
            if n.kind == 'return' and not (n.e.kind == 'call' and n.e.f.path == ['Err']):
                self.bad(n, 'return Ok inside a reader scope that is not a tail')
        self.walk([rest, tail], f)
        return out

    def declared(self, rest):
        out = set()

        def f(n):
            if n.kind == 'let' and n.pat.kind == 'pbind':
                out.add(n.pat.name)
        self.walk(rest, f)
        return out

    def bind_init(self, lhs, e, c, ty=None):
        """lines that bind or assign the value of `e`:  lhs ∈ 'let x', 'let mut x', 'x', 'let (a, b)'"""
        ann = f' : {ty}' if ty else ''
        if e.kind in ('if', 'match', 'block'):
            lines = self.complex(e, c, 'val')
            return [f'{lhs}{ann} ← {lines[0]}'] + ind(lines[1:])
        if e.kind == 'try':
            return [f'{lhs}{ann} ← {self.tryact(e, c)}']
        s = self.ex(e, c)
        if s.startswith('(← ') and matching(s) == len(s) - 1:
            return [f'{lhs}{ann} ← {s[3:-1]}']
        return [f'{lhs}{ann} := {s}']

    def stmt(self, s, c):
        if s.kind == 'item':
            it = s.item
            if it.kind == 'const':
                return [f'let {it.name} : {self.type(it.ty, c.self_ty)} := {self.ex(it.value, c)}']
            if it.kind == 'fn':
                ps = ' '.join(f'({var(n)} : {self.type(t, c.self_ty)})' for n, t, _ in it.params)
                c2 = Ctx(it, c.self_ty, [], [], False, False, [], set(), True)
                ret = self.type(it.ret, c.self_ty)
                c.localfns.add(it.name)
                assert not it.body.stmts
                return [f'let {it.name} {ps} : {ret} := {self.ex(it.body.tail, c2)}']
            self.bad(s, 'item')
        if s.kind == 'let':
            return self.let(s, c)
        return self.expr_stmt(s.e, c)

    def let(self, s, c):
        p = s.pat
        ty = self.type(s.ty, c.self_ty) if s.ty is not None else None
        if p.kind == 'pbind':
            kw = 'let mut' if p.mut else 'let'
            if s.init is None:
                # declared without a value: rustc checks that it is assigned before it is used
                t = f' : {ty}' if ty else ''
                return [f'let mut {var(p.name)}{t} := default']
            c.types[p.name] = ty
            # a call of an FnMut parameter: the captured state changes too
            root = s.init
            while root.kind in ('try', 'method') and (root.kind == 'try' or root.name == 'map_err'):
                root = root.e
            if root.kind == 'call' and root.f.kind == 'path' and root.f.path[0] in c.fnmut:
                fv = var(root.f.path[0])
                t = c.fresh('f')
                return [f'let ({var(p.name)}, {t}) ← {self.tryact(s.init, c)}', f'{fv} := {t}']
            # a call that gets a closure with a captured variable
            if root.kind == 'call':
                for a in root.args:
                    if a.kind == 'closure':
                        ms = self.mutated_in_closure(a)
                        if ms:
                            (m,) = ms
                            t = c.fresh(var(m))
                            return [f'let ({var(p.name)}, {t}) ← {self.tryact(s.init, c)}', f'{var(m)} := {t}']
                if root.f.kind == 'path' and root.f.path[-1] in FNMUT_FUNCS and s.init.kind == 'try':
                    return [f'let ({var(p.name)}, _) ← {self.tryact(s.init, c)}']
            if s.init.kind == 'binary' and s.init.op in self.CMP and ty is None:
                return [f'{kw} {var(p.name)} : Bool := decide ({self.ex(s.init, c)})']
            return self.bind_init(f'{kw} {var(p.name)}', s.init, c, ty)
        if p.kind == 'ptuple':
            return self.bind_init(f'let {self.pat(p, c)}', s.init, c, ty)
        self.bad(s, 'let')

    # places: lines that set a place to a new value
    def set_place(self, pl, new, c):
        if pl.kind == 'paren' or (pl.kind == 'unary' and pl.op == '*'):
            return self.set_place(pl.e, new, c)
        if pl.kind == 'path':
            v = var(pl.path[0])
            if new.startswith('(← ') and matching(new) == len(new) - 1:
                return [f'{v} ← {new[3:-1]}']
            return [f'{v} := {new}']
        if pl.kind == 'field':
            return self.set_place(pl.e, f'{{ {self.ex(pl.e, c)} with {field(pl.name)} := {new} }}', c)
        if pl.kind == 'index':
            return self.set_place(pl.e, f'(← set_index {paren(self.ex(pl.e, c))} {paren(self.ex(pl.i, c))} '
                                        f'{paren(new)})', c)
        self.bad(pl, 'place')

    def expr_stmt(self, e, c):
        k = e.kind
        if k == 'assign':
            if e.op == '=':
                if e.lhs.kind == 'tuplee':
                    return self.bind_init(self.ex(e.lhs, c), e.rhs, c)
                if e.lhs.kind == 'path':
                    return self.bind_init(var(e.lhs.path[0]), e.rhs, c)
                return self.set_place(e.lhs, self.ex(e.rhs, c), c)
            op = e.op[:-1]
            l = e.lhs
            while l.kind == 'unary':
                l = l.e
            ty = c.types.get(l.path[0]) if l.kind == 'path' else None
            rhs = e.rhs
            if ty and rhs.kind == 'binary' and rhs.op == '<<' and rhs.a.kind == 'unary':
                if op != '|' or rhs.a.op != '!':
                    self.bad(e, 'assignment')
                x = f'(← shl (~~~{num(rhs.a.e.lit)} : {ty}) {paren(self.ex(rhs.b, c))})'
                return self.set_place(e.lhs, f'{self.ex(e.lhs, c)} ||| {x}', c)
            return self.set_place(e.lhs, self.binary(N('binary', e.line, op=op, a=e.lhs, b=e.rhs), c), c)
        if k == 'method' and e.name == 'push':
            x = self.ex(e.e, c)
            return self.set_place(e.e, f'{x} ++ [{self.ex(e.args[0], c)}]', c)
        if k == 'try':
            inner = e.e
            f = None
            if inner.kind == 'method' and inner.name == 'map_err':
                f, inner = inner.args[0], inner.e
            if inner.kind == 'method' and inner.name in ('read_exact', 'read_to_end') and \
                    self.is_reader(inner.e, c):
                b = var(inner.args[0].e.path[0])
                a = f'readExact {b}.length' if inner.name == 'read_exact' else 'readToEnd'
                if f is not None:
                    a = f'Dec.mapErr {paren(self.fnarg(f, c))} ({a})'
                if inner.name == 'read_exact':
                    return [f'{b} ← q {paren(a)}']
                return [f'{b} := {b} ++ (← q {paren(a)})']
            return [self.tryact(e, c)]
        if k == 'return':
            return self.deliver(e.e, c, 'ret')
        if k == 'break':
            return ['break']
        if k in ('if', 'match', 'block', 'loop', 'while', 'for'):
            return self.complex(e, c, 'unit')
        if k == 'macro' and e.name == 'unreachable':
            return ['Dec.panic']
        if k == 'tuplee' and not e.parts:
            return ['pure ()']
        self.bad(e, 'statement')

    def ok(self, s, c):
        if c.inout:
            s = '(' + ', '.join([s] + [var(v) for v in c.inout]) + ')'
        return s

    def deliver(self, e, c, mode):
        """lines that produce the value of the tail expression `e`"""
        k = e.kind
        if k == 'paren':
            return self.deliver(e.e, c, mode)
        if k in ('if', 'match', 'block'):
            return self.complex(e, c, mode)
        if k == 'return':
            return self.deliver(e.e, c, 'ret')
        if k == 'break':
            return ['break']
        if k == 'macro' and e.name == 'unreachable':
            return ['Dec.panic']
        if mode == 'unit':
            return self.expr_stmt(e, c)
        if mode == 'ret':
            if k == 'call' and e.f.path == ['Ok']:
                return self.deliver(e.args[0], c, 'ok')
            if k == 'call' and e.f.path == ['Err']:
                return [f'Dec.err {paren(self.ex(e.args[0], c))}']
            a = self.act(e, c)
            if a is None:
                self.bad(e, 'tail')
            return [a]
        s = self.ex(e, c)
        if mode == 'ok':
            return [f'return {self.ok(s, c)}']
        if k == 'try' and s.startswith('(← ') and matching(s) == len(s) - 1:
            return [s[3:-1]]
        return [f'pure {paren(s)}']

    def complex(self, e, c, mode):
        k = e.kind
        if k == 'block':
            lines = self.block(e, c, mode)
            if mode == 'val' and not lines[0].startswith('Dec.withChain') :
                return ['do'] + ind(lines)
            return lines
        if k == 'if':
            return self.if_(e, c, mode)
        if k == 'match':
            return self.match(e, c, mode)
        if k == 'loop':
            return ['for _ in Fuel.mk fuel do'] + ind(self.block(e.body, c, 'unit'))
        if k == 'while':
            return self.while_(e, c)
        if k == 'for':
            return self.for_(e, c)

    def body(self, e, c, mode):
        return self.block(e, c, mode) if e.kind == 'block' else self.mark(self.deliver(e, c, mode), e.line)

    def if_(self, e, c, mode):
        conds = []

        def flat(x):
            if x.kind == 'binary' and x.op == '&&' and has_let(x):
                flat(x.a)
                flat(x.b)
            else:
                conds.append(x)

        def has_let(x):
            return x.kind == 'letcond' or (x.kind == 'binary' and (has_let(x.a) or has_let(x.b)))
        flat(e.c)
        if len(conds) > 1:
            if e.el is not None or mode != 'unit':
                self.bad(e, 'let chain with else')
            lines = self.block(e.th, c, 'unit')
            for x in reversed(conds):
                lines = [f'if {self.cond(x, c)} then  -- {x.line}'] + ind(lines)
            return lines
        lines = [f'if {self.cond(conds[0], c)} then'] + ind(self.block(e.th, c, mode))
        if e.el is None:
            return lines
        if e.el.kind == 'if':
            rest = self.if_(e.el, c, mode)
            return lines + ['else ' + rest[0]] + rest[1:]
        return lines + ['else'] + ind(self.block(e.el, c, mode))

    def cond(self, x, c):
        if x.kind == 'letcond':
            a = self.act(x.e, c)
            if a is not None:
                return f'let {self.pat(x.pat, c)} ← attempt {paren(a)}'
            return f'let {self.pat(x.pat, c)} := {self.ex(x.e, c)}'
        return self.prop(x, c)

    def while_(self, e, c):
        x = e.c
        if x.kind != 'letcond':
            self.bad(e, 'while')
        assert x.e.kind == 'try'
        return ['for _ in Fuel.mk fuel do',
                f'  match ← {self.tryact(x.e, c)} with',
                f'  | {self.pat(x.pat, c)} =>'] + ind(self.block(e.body, c, 'unit'), 2) + \
               ['  | _ => break']

    def for_(self, e, c):
        r = e.e
        if r.kind == 'range':
            lo, hi = self.ex(r.lo, c), self.ex(r.hi, c)
            if r.lo.kind == 'num' and r.hi.kind == 'num':
                # integer literals without a suffix are i32
                lo, hi = f'({lo} : Int32)', f'({hi} : Int32)'
            it = f'{"rangeIncl" if r.incl else "range"} {paren(lo)} {paren(hi)}'
        else:
            it = self.ex(r, c)
            if it.startswith('(← ') and matching(it) == len(it) - 1:
                v = c.fresh('xs')
                return [f'let {v} ← {it[3:-1]}', f'for {self.pat(e.pat, c)} in {v} do'] + \
                    ind(self.block(e.body, c, 'unit'))
        return [f'for {self.pat(e.pat, c)} in {it} do'] + ind(self.block(e.body, c, 'unit'))

    def match(self, e, c, mode):
        arms = e.arms

        def is_int(p):
            if p.kind in ('plit', 'prange'):
                return True
            if p.kind == 'por':
                return any(is_int(a) for a in p.alts)
            if p.kind == 'pbind':
                return p.sub is not None and is_int(p.sub)
            return False
        if any(is_int(a.pat) for a in arms):
            return self.int_match(e, c, mode)
        a = self.act(e.e, c)
        if a is not None:
            scrut = f'← attempt {paren(a)}'
        elif e.e.kind == 'try':
            scrut = f'← {self.tryact(e.e, c)}'
        else:
            scrut = self.ex(e.e, c)
        out = [f'match {scrut} with']
        i = 0
        while i < len(arms):
            arm = arms[i]
            if arm.guard is not None:
                nxt = arms[i + 1]
                if self.pat(arm.pat, c) != self.pat(nxt.pat, c) or nxt.guard is not None:
                    self.bad(arm, 'guard')
                out += [f'| {self.pat(arm.pat, c)} =>', f'  if {self.prop(arm.guard, c)} then']
                out += ind(self.body(arm.body, c, mode), 2)
                out += ['  else'] + ind(self.body(nxt.body, c, mode), 2)
                i += 2
                continue
            lines = self.body(arm.body, c, mode)
            if len(lines) == 1:
                out += [f'| {self.pat(arm.pat, c)} => {lines[0]}']
            else:
                out += [f'| {self.pat(arm.pat, c)} =>'] + ind(lines)
            i += 1
        return out

    def int_match(self, e, c, mode):
        pre = []
        s = e.e
        while s.kind == 'paren':
            s = s.e
        if s.kind == 'path':
            x = self.ex(s, c)
        else:
            x = c.fresh('x')
            pre = self.bind_init(f'let {x}', s, c)
        lines = []
        done = False
        for arm in e.arms:
            if arm.guard is not None or done:
                self.bad(arm, 'integer match arm')
            cond = self.int_cond(arm.pat, x)
            body = self.body(arm.body, c, mode)
            if arm.pat.kind == 'pbind':
                body = [f'let {var(arm.pat.name)} := {x}'] + body
            kw = 'else ' if lines else ''
            if cond is None:
                lines += ['else'] + ind(body)
                done = True
            else:
                lines += [f'{kw}if {cond} then'] + ind(body)
        if not done:
            self.bad(e, 'integer match without a default')
        if pre:
            if mode == 'val':
                return ['do'] + ind(pre + lines)
            return pre + lines
        return lines

    # -- pure functions
    def pure_match(self, e, c):
        out = [f'match {self.ex(e.e, c)} with']
        for arm in e.arms:
            assert arm.guard is None
            p = arm.pat
            b = arm.body
            if b.kind == 'block':
                assert not b.stmts
                b = b.tail
            out.append(f'| {self.pat(p, c)} => {self.ex(b, c)}')
        return out


def ind(lines, k=1):
    return ['  ' * k + l for l in lines]


# ---------------------------------------------------------------- driver

FUNCS, PURE, FNMUT_FUNCS, ARRAY16, CONSTS = set(), set(), set(), set(), set()

FILES = ['integer.rs', 'indices.rs', 'helpers.rs', 'mod.rs',
         'types/heaptype.rs', 'types/reftype.rs', 'types/valtype.rs', 'types/resulttype.rs',
         'types/globaltype.rs', 'types/comptype.rs', 'types/rectype.rs', 'types/limits.rs',
         'types/memtype.rs', 'types/tabletype.rs', 'types/tagtype.rs', 'types/externtype.rs', 'types/mod.rs',
         'instructions.rs',
         'sections/code.rs', 'sections/custom.rs', 'sections/data.rs', 'sections/data_count.rs',
         'sections/element.rs', 'sections/export.rs', 'sections/function.rs', 'sections/global.rs',
         'sections/import.rs', 'sections/memory.rs', 'sections/start.rs', 'sections/table.rs',
         'sections/tag.rs', 'sections/type.rs', 'sections/mod.rs', 'module.rs']

# Functions whose result is text (the error messages); not translated.  `markers_formatted` is modelled in
# Model/Display.lean, and here required to be exactly that; `fmt` is the Debug impl of DecodeListError.
TEXT_FNS = {'markers_formatted':
            '{ Self :: markers ( ) . entries ( ) . map ( | ( marker , variant ) | '
            'format ! ( "{marker:#04X} ({variant:?})" ) ) . collect :: < Vec < String > > ( ) . join ( ", " ) }',
            'fmt': None}


def expand_macros(items, fname):
    rules = {}
    out = []
    for it in items:
        if it.kind == 'macro_rules':
            rules[it.name] = it
        elif it.kind == 'macro_use':
            toks = rules[it.name].toks[1:-1]
            # one rule: ( pattern ) => { body } ;
            p = Parser(toks + [Tok('eof', '', it.line)], fname)
            s = p.i
            p.skip_balanced()
            params = [toks[j + 1].v for j in range(s, p.i) if toks[j].v == '$']
            p.eat('=>')
            s = p.i
            p.skip_balanced()
            body = toks[s + 1:p.i - 1]
            args = [t for t in it.toks if t.v != ',']
            sub = dict(zip(params, args))
            res, j = [], 0
            while j < len(body):
                if body[j].v == '$':
                    res.append(Tok('id', sub[body[j + 1].v].v, body[j + 1].line))
                    j += 2
                else:
                    res.append(body[j])
                    j += 1
            sp = Parser(res + [Tok('eof', '', it.line)], fname)
            for x in sp.items():
                x.macro_line = it.line
                if x.kind == 'impl':
                    for y in x.items:
                        y.macro_line = it.line
                out.append(x)
        else:
            out.append(it)
    return out


def from_instances(items, em):
    """(source type, target type, Lean constructor, line) for every #[from]"""
    out = []
    for it in items:
        if it.kind == 'enum':
            for v in it.variants:
                for at, ty in (v.tuple or []):
                    if any('from' in a for a in at):
                        out.append((em.type(ty, None), it, f'{it.name}.{v.name}', v.line))
        elif it.kind == 'struct' and it.tuple:
            for at, ty in it.tuple:
                if any('from' in a for a in at):
                    out.append((em.type(ty, None), it, f'{it.name}.mk', it.line))
        elif it.kind == 'impl' and it.trait is not None and it.trait.path == ['From']:
            f = it.items[0]
            assert f.name == 'from' and f.body.tail.kind == 'call' and f.body.tail.f.path == ['Self']
            out.append((em.type(it.trait.args[0], None), N('struct', it.line, name=it.ty.path[-1], generics=[]),
                        f'{it.ty.path[-1]}.mk', it.line))
    return out


def is_reader_ty(t, fn):
    if t.kind == 'impl_ty':
        return True
    return t.kind == 'ref' and t.mut and t.ty.kind == 'ty' and t.ty.path == ['R']


def contains(n, pred):
    found = []

    def walk(x):
        if isinstance(x, N):
            if pred(x):
                found.append(x)
            for v in x.__dict__.values():
                walk(v)
        elif isinstance(x, (list, tuple)):
            for v in x:
                walk(v)
    walk(n)
    return bool(found)


def emit_fn(fn, self_ty, em, fname):
    """Lean definition of one function"""
    name = f'{self_ty}.{fn.name}' if self_ty else fn.name
    readers, inout, params, fnmut = [], [], [], []
    for n, t, _ in fn.params:
        if is_reader_ty(t, fn):
            readers.append(n)
        elif t.kind == 'ty' and len(t.path) == 1 and t.path[0] in fn.where and 'FnMut' in fn.where[t.path[0]]:
            fnmut.append(n)
            params.append((n, 'FnMut R σ E T'))
        elif t.kind == 'ref' and t.mut:
            inout.append(n)
            params.append((n, em.type(t, self_ty)))
        else:
            params.append((n, em.type(t, self_ty)))
    lines_ref = f'{fname}:{fn.line}-{fn.end}' + (f', {fn.macro_line}' if hasattr(fn, 'macro_line') else '')
    doc = f'/-- src/decode/{lines_ref} -/'
    is_result = fn.ret is not None and fn.ret.kind == 'ty' and fn.ret.path == ['Result']
    if not is_result:
        # a pure function
        c = Ctx(fn, self_ty, [], [], False, False, [], set(), True)
        ps = ' '.join(f'({var(n)} : {t})' for n, t in params)
        ret = em.type(fn.ret, self_ty)
        b = fn.body
        assert not b.stmts
        if b.tail.kind == 'match':
            body = em.pure_match(b.tail, c)
        else:
            body = [em.ex(b.tail, c)]
        out = [doc, f'def {name} {ps} : {ret} :=' if ps else f'def {name} : {ret} :=']
        out += ind(body)
        if contains(fn.body, lambda n: n.kind == 'path' and n.path[-1] == fn.name):
            out += ['termination_by sizeOf ' + var(params[0][0])]
        return out
    T, E = em.type(fn.ret.args[0], self_ty), em.type(fn.ret.args[1], self_ty)
    if inout:
        T = '(' + ' × '.join([T] + [em.type(t, self_ty) for n, t, _ in fn.params if n in inout]) + ')'
    rec = contains(fn.body, lambda n: n.kind == 'path' and n.path == ['Self', fn.name])
    fuel = contains(fn.body, lambda n: n.kind in ('loop', 'while'))
    c = Ctx(fn, self_ty, readers, inout, fuel, rec, fnmut, set(), False)
    if fnmut:
        (f,) = fnmut
        c.inout = []
        T = f'({T} × σ)'
        c.inout = [f]
    for n, t, _ in fn.params:
        c.types[n] = em.type(t, self_ty) if n not in fnmut and n not in readers else None
    body = em.block(fn.body, c, 'ret')
    if fnmut:
        body = [l.replace(f', {var(f)})', f', {var(f)}.state)') if l.startswith('return') else l for l in body]
    pre = [f'let mut {var(n)} := {var(n)}' for n in inout + fnmut]
    if fuel and not rec:
        pre = ['let fuel ← budget'] + pre
    ps = ''.join(f' ({var(n)} : {t})' for n, t in params)
    if rec:
        assert fn.name == 'parse' and not ps
        out = ['set_option maxRecDepth 100000 in',
               doc[:-2] + f'the body; `self_parse` stands for the recursive call, `fuel` for the steps granted to a loop -/',
               f'def {name}_body (self_parse : Dec R {E} {T}) (fuel : Nat) : Dec R {E} {T} := do']
        out += ind(pre + body)
        out += ['', doc, f'def {name} : Nat → Dec R {E} {T}', '  | 0 => Dec.outOfFuel',
                f'  | fuel + 1 => {name}_body ({name} fuel) fuel']
    else:
        out = [doc, f'def {name}{ps} : Dec R {E} {T} := do']
        out += ind(pre + body)
    return out


def main():
    parsed = {}
    for f in FILES:
        text = open(f'{REPO}/src/decode/{f}').read()
        p = Parser(tokenize(text), f)
        parsed[f] = expand_macros(p.items(), f)
    on_disk = set()
    for root, _, fs in os.walk(f'{REPO}/src/decode'):
        for f in fs:
            on_disk.add(os.path.relpath(os.path.join(root, f), f'{REPO}/src/decode'))
    if on_disk != set(FILES):
        raise Bad(f'files of src/decode not listed: {on_disk ^ set(FILES)}')

    # names of functions
    for f, items in parsed.items():
        for it in items:
            if it.kind == 'impl':
                CONSTS.update((it.ty.path[-1], x.name) for x in it.items if x.kind == 'const')
            if it.kind == 'fn':
                FUNCS.add(it.name)
                if it.ret is None or it.ret.path != ['Result']:
                    PURE.add(it.name)
                if any('FnMut' in b for b in it.where.values()):
                    FNMUT_FUNCS.add(it.name)

    # src/core: Instruction, SectionKind
    ip = Parser(tokenize(open(f'{REPO}/src/core/instruction.rs').read()), 'instruction.rs').items()
    instr = next(i for i in ip if i.kind == 'enum' and i.name == 'Instruction')
    mp = Parser(tokenize(open(f'{REPO}/src/core/module.rs').read()), 'module.rs').items()
    kinds = next(i for i in mp if i.kind == 'enum' and i.name == 'SectionKind')
    ops = {}
    for m in re.finditer(r'inductive (\w+) where(.*?)deriving', open(OPS).read(), re.S):
        for v in re.findall(r'\|\s*(\w+)', m.group(2)):
            ops[v] = m.group(1)
    em = Emitter('instruction.rs')
    out = ['import Verif.Source.Prelude', '',
           '/-! Generated by tools/rs2lean.py from src/core/instruction.rs, src/core/module.rs and the `#[from]`',
           'attributes of src/decode/**/*.rs.  Do not edit. -/', '', 'namespace Wadec.Source', '',
           '/-! ### The variants of `Instruction` under their Rust names -/', '']
    fam = {'PlainOp': ('plain', ''), 'MemOp': ('mem', ' (m : Memarg)'),
           'MemLaneOp': ('memLane', ' (m : Memarg) (l : LaneIdx)'), 'LaneOp': ('lane', ' (l : LaneIdx)')}
    for v in instr.variants:
        tys = [em.type(t, None) for _, t in (v.tuple or [])]
        doc = f'/-- src/core/instruction.rs:{v.line} -/'
        if v.tuple and v.tuple[0][1].kind == 'array':
            ARRAY16.add(v.name)
            tys = ['Bytes16']
        ps = ''.join(f' (a{i} : {t})' for i, t in enumerate(tys))
        args = ''.join(f' a{i}' for i in range(len(tys)))
        if v.name in ops:
            con, want = fam[ops[v.name]]
            if [t for t in tys] != re.findall(r': (\w+)', want):
                raise Bad(f'family of {v.name}')
            rhs = f'.{con} .{v.name}{args}'
        else:
            rhs = f'.{v.name}{args}'
        out += [doc, f'@[match_pattern] abbrev Instruction.{v.name}{ps} : Instr := {rhs}']
    out += ['', '/-- src/core/module.rs:%d: the order of the variants, which `derive(PartialOrd)` compares. -/' % kinds.line,
            'def SectionKind.discr : SectionKind → Nat']
    for i, v in enumerate(kinds.variants):
        out.append(f'  | .{v.name} => {i}')
    out += ['', '/-- `derive(PartialOrd)` at src/core/module.rs:%d -/' % kinds.line,
            'instance : LT SectionKind := ⟨fun a b => SectionKind.discr a < SectionKind.discr b⟩',
            'instance (a b : SectionKind) : Decidable (a < b) :=',
            '  inferInstanceAs (Decidable (SectionKind.discr a < SectionKind.discr b))', '',
            '/-! ### `From` conversions -/', '']
    for f, items in parsed.items():
        em = Emitter(f)
        for src, it, con, line in from_instances(items, em):
            tgt, ps = it.name, ''
            for g in getattr(it, 'generics', []) or []:
                tgt += f' {g}'
                ps += f' {{{g} : Type}}'
            if tgt != it.name:
                tgt = f'({tgt})'
            out.append(f'/-- src/decode/{f}:{line} -/')
            out.append(f'instance{ps} : From {paren(src)} {tgt} := ⟨{con}⟩')
    out += ['', 'end Wadec.Source', '']
    write('Base.lean', out)

    # the functions
    groups = [('Leaf', ['integer.rs', 'indices.rs', 'helpers.rs', 'mod.rs'], 'Base'),
              ('Types', [f for f in FILES if f.startswith('types/')], 'Leaf'),
              ('Instructions', ['instructions.rs'], 'Types'),
              ('Sections', ['helpers.rs#2'] + [f for f in FILES if f.startswith('sections/')], 'Instructions'),
              ('Module', ['module.rs'], 'Sections')]
    late = {'decode_expr', 'instruction_contains_data_index'}
    count = 0
    for g, fs, imp in groups:
        out = [f'import Verif.Source.{imp}', '',
               '/-! Generated by tools/rs2lean.py from ' +
               ', '.join('src/decode/' + f.split('#')[0] for f in fs) + '.',
               'Do not edit.  The numbers in the comments are the source lines. -/', '',
               'namespace Wadec.Source', '', 'variable {R : Type} [Read R]', '']
        todo = []
        for f0 in fs:
            f = f0.split('#')[0]
            for it in parsed[f]:
                if (f == 'helpers.rs') and (getattr(it, 'name', None) in late) != ('#2' in f0):
                    continue
                it.file = f
                todo.append(it)
        for it in order(todo):
            f = it.file
            em = Emitter(f)
            if it.kind == 'fn':
                gens = [x for x in it.generics if x not in ('R', 'F')]
                lines = emit_fn(it, '', em, f)
                if gens:
                    gs = ' '.join(['{σ'] + gens) + ' : Type}'
                    lines[1] = lines[1].replace(f'def {it.name}', f'def {it.name} {gs}', 1)
                out += lines + ['']
                count += 1
            elif it.kind == 'const':
                out += const(it, em, f)
            elif it.kind == 'trait':
                out += trait(it, em, f)
                count += 1
            elif it.kind == 'impl':
                n, lines = impl(it, em, f)
                count += n
                out += lines
        out += ['end Wadec.Source', '']
        write(g + '.lean', out)
    print(f'{count} functions translated')


def order(items):
    """definitions before uses (by name occurrence)"""
    def names(it):
        if it.kind == 'fn' or it.kind == 'const':
            return {it.name}
        if it.kind == 'impl' and it.trait is None:
            return {f'{it.ty.path[-1]}::{x.name}' for x in it.items}
        if it.kind == 'impl':
            return {f'{it.ty.path[-1]}::impl'}
        return set()

    def uses(it):
        out = set()

        def walk(x):
            if isinstance(x, N):
                if x.kind == 'path':
                    p = x.path
                    out.add(p[-1])
                    if len(p) >= 2:
                        out.add('::'.join(p[-2:]))
                        if p[-1] == 'from_marker':
                            out.add(f'{p[-2]}::impl')
                if x.kind == 'structe' and x.base is not None:
                    out.add(f'{x.path[-1]}::impl')
                if x.kind == 'method' and x.name == 'validate_section_kind_expected':
                    out.add('Module::' + x.name)
                for v in x.__dict__.values():
                    walk(v)
            elif isinstance(x, (list, tuple)):
                for v in x:
                    walk(v)
        walk(it)
        return out
    items = [i for i in items if i.kind in ('fn', 'const', 'impl', 'trait')]
    items.sort(key=lambda i: i.kind != 'trait')
    defs = {}
    for i, it in enumerate(items):
        for n in names(it):
            defs[n] = i
    done, out = set(), []

    def visit(i, stack):
        if i in done or i in stack:
            return
        for u in sorted(uses(items[i])):
            if u in defs and defs[u] != i:
                visit(defs[u], stack | {i})
        done.add(i)
        out.append(items[i])
    for i in range(len(items)):
        visit(i, set())
    return out


def const(it, em, f):
    doc = f'/-- src/decode/{f}:{it.line} -/'
    if it.value.kind == 'macro' and it.value.name == 'phf_ordered_map':
        val_ty = em.type(it.ty.args[1], None)
        p = Parser(it.value.toks + [Tok('eof', '', it.line)], f)
        rows = []
        while p.cur.k != 'eof':
            k = p.primary(True)
            p.eat('=>')
            v = p.expr()
            p.opt(',')
            rows.append(f'({num(k.lit)}, {v.path[-2]}.{v.path[-1]})')
        return [doc, f'def {it.name} : List (UInt8 × {val_ty}) :=', '  [' + ',\n   '.join(rows) + ']', '']
    c = Ctx(it, None, [], [], False, False, [], set(), True)
    return [doc, f'def {it.name} : {em.type(it.ty, None)} :=', '  ' + em.ex(it.value, c), '']


def trait(it, em, f):
    if it.name != 'FromMarkerByte':
        raise Bad('trait ' + it.name)
    fm = next(x for x in it.items if x.name == 'from_marker')
    others = {x.name for x in it.items} - {'from_marker', 'markers', 'markers_formatted'}
    if others:
        raise Bad(f'trait methods {others}')
    # match Self::markers().get(&b) { Some(n) => Ok(*n), None => Err(b.into()) }
    c = Ctx(fm, 'Self_', [], [], False, False, [], set(), False)
    body = em.block(fm.body, c, 'ret')
    out = [f'/-- src/decode/{f}:{it.line}: the trait `FromMarkerByte`; `Err` is its associated type `Error` -/',
           'class FromMarkerByte (α : Type) (Err : outParam Type) where',
           '  markers : List (UInt8 × α)', '',
           f'/-- src/decode/{f}:{fm.line}-{fm.end} -/',
           'def from_marker (α : Type) {Err : Type} [FromMarkerByte α Err] [From UInt8 Err] (b : UInt8) :',
           '    Dec R Err α := do']
    out += ind(body) + ['']
    return [l.replace('FromMarkerByte.markers', '(FromMarkerByte.markers (α := α))') if 'match' in l else l
            for l in out]


def impl(it, em, f):
    ty = it.ty.path[-1]
    if it.trait is not None:
        t = it.trait.path[-1]
        if t == 'From':
            return 0, []
        if t == 'Default':
            fn = it.items[0]
            c = Ctx(fn, ty, [], [], False, False, [], set(), True)
            return 1, [f'/-- src/decode/{f}:{fn.line}-{fn.end} -/', f'def {ty}.default : {ty} :=',
                       '  ' + em.ex(fn.body.tail, c), '']
        if t == 'FromMarkerByte':
            err = next(x.ty for x in it.items if x.kind == 'assoc')
            m = next(x for x in it.items if x.kind == 'fn')
            assert m.name == 'markers'
            tbl = m.body.tail.e.path[-1]
            return 1, [f'/-- src/decode/{f}:{it.line}-{m.end} -/',
                       f'instance : FromMarkerByte {ty} {em.type(err, ty)} := ⟨{tbl}⟩', '']
        if t == 'Debug':
            return 0, []
        raise Bad(f'{f}: impl {t} for {ty}')
    out, n = [], 0
    for x in it.items:
        if x.kind == 'const':
            c = Ctx(x, ty, [], [], False, False, [], set(), True)
            out += [f'/-- src/decode/{f}:{x.line} -/',
                    f'def {ty}.{x.name} : {em.type(x.ty, ty)} := {em.ex(x.value, c)}', '']
        elif x.kind == 'fn':
            out += emit_fn(x, ty, em, f) + ['']
            n += 1
    return n, out


def write(name, lines):
    os.makedirs(OUT, exist_ok=True)
    with open(os.path.join(OUT, name), 'w') as fh:
        fh.write('\n'.join(lines))


if __name__ == '__main__':
    try:
        main()
    except Bad as b:
        sys.exit('rs2lean: ' + str(b))
