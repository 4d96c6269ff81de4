#!/usr/bin/env python3
"""Translate wadec-cli/src/main.rs into lean/Verif/Source/Cli.lean, statement by statement.

Uses the parser of rs2lean.py.  Usage: rs2lean_cli.py [REPO] [OUTDIR].
  * the process is a computation in `Proc` (lean/Verif/Source/CliPrelude.lean): the two output streams are its
    state, it returns, exits with a status, panics, or runs out of its step budget;
  * `Cli::parse()` is the parameter `cli`; `cli.input.open()` is the field `opened` of the input;
  * `impl Error` becomes `DynError`: the text, the debug text and the source;
  * `eprintln!("..{x}..{y:#?}..")` becomes `eprintln` of a concatenation of `display x`, `debug y`.
Anything else makes the script stop with an error.
"""
import os
import re
import sys

import rs2lean
from rs2lean import Bad, Parser, tokenize, N

HERE = os.path.dirname(os.path.abspath(__file__))
REPO = sys.argv[1] if len(sys.argv) > 1 else '/repo'
OUT = sys.argv[2] if len(sys.argv) > 2 else os.path.join(HERE, '../lean/Verif/Source')
FILE = 'wadec-cli/src/main.rs'


def bad(n, msg):
    raise Bad(f'{FILE}:{n.line}: cannot translate: {msg} ({n.kind})')


FNS = {}


def text(n):
    """The argument of println!/eprintln!: a format string with inline arguments only."""
    if len(n.toks) != 1 or n.toks[0].k != 'str':
        bad(n, 'format arguments')
    s = n.toks[0].v[1:-1]
    if '{{' in s or '}}' in s or re.search(r'\\[^n]', s):
        bad(n, 'escape in a format string')
    parts = []
    for lit, arg in re.findall(r'([^{}]+)|\{([^{}]*)\}', s):
        if lit:
            parts.append(f'"{lit}"')
        else:
            m = re.fullmatch(r'(\w+)(:#\?)?', arg)
            if not m:
                bad(n, f'format argument {arg}')
            parts.append(('pretty' if m.group(2) else 'display') + f' t {m.group(1)}')
    if ''.join(a or '{' + b + '}' for a, b in re.findall(r'([^{}]+)|\{([^{}]*)\}', s)) != s:
        bad(n, 'format string')
    return ' ++ '.join(parts) if parts else '""'


def ex(e):
    """A pure expression."""
    if e.kind == 'path' and len(e.path) == 1:
        return e.path[0]
    if e.kind == 'refe' and not e.mut:
        return ex(e.e)
    if e.kind == 'paren':
        return f'({ex(e.e)})'
    if e.kind == 'unary' and e.op == '!':
        return f'!({ex(e.e)})'
    if e.kind == 'field' and e.name == 'verbose':
        return f'{ex(e.e)}.verbose'
    if e.kind == 'call' and e.f.kind == 'path' and e.f.path == ['Vec', 'new'] and not e.args:
        return '[]'
    if e.kind == 'method':
        if e.name == 'source' and not e.args:
            return f'{ex(e.e)}.source'
        if e.name == 'is_empty' and not e.args:
            return f'{ex(e.e)}.isEmpty'
        if e.name == 'enumerate' and not e.args and e.e.kind == 'method' and e.e.name == 'iter' and not e.e.args:
            return f'enumerate {ex(e.e.e)}'
    bad(e, 'expression')


def result(e):
    """A call that returns a `Result`, as a `Proc (Except ε α)`."""
    if e.kind == 'method' and e.name == 'open' and not e.args and e.e.kind == 'field' and e.e.name == 'input':
        return f'pure {ex(e.e.e)}.input.opened'
    if e.kind == 'call' and e.f.kind == 'path' and e.f.path == ['wadec', 'decode_module'] and len(e.args) == 1:
        return f'decode {ex(e.args[0])}'
    bad(e, 'a Result')


def diverging(e):
    """A call of a function of this file, or of `exit`."""
    if e.kind == 'call' and e.f.kind == 'path' and len(e.f.path) == 1 and e.f.path[0] in FNS:
        f = FNS[e.f.path[0]]
        if len(f.params) != len(e.args):
            bad(e, 'number of arguments')
        args = []
        for (name, ty, _), a in zip(f.params, e.args):
            args.append(f'(dyn t {ex(a)})' if is_error(ty) else ex(a))
        return f'{e.f.path[0]} t fuel ' + ' '.join(args)
    if e.kind == 'call' and e.f.kind == 'path' and e.f.path == ['exit'] and len(e.args) == 1 \
            and e.args[0].kind == 'num':
        return f'exit {rs2lean.num(e.args[0].lit)}'
    bad(e, 'call')


def init(e):
    """The right-hand side of a `let`: (arrow, text)."""
    if e.kind == 'method' and e.name == 'unwrap_or_else' and len(e.args) == 1:
        c = e.args[0]
        if c.kind != 'closure' or len(c.params) != 1 or c.params[0].kind != 'pbind':
            bad(e, 'closure')
        return '←', f'unwrap_or_else ({result(e.e)}) (fun {c.params[0].name} => {diverging(c.body)})'
    return ':=', ex(e)


def block(b, unit=True):
    out = []
    for s in b.stmts:
        out += stmt(s)
    if b.tail is not None:
        if b.tail.kind in ('if', 'while', 'for'):
            out += stmt(N('expr', b.tail.line, e=b.tail, semi=False))
        elif unit:
            out += stmt(N('expr', b.tail.line, e=b.tail, semi=True))
        else:
            out += [f'-- {b.tail.line}', diverging(b.tail)]
    return out or ['pure ()']


def ind(ls, k=1):
    return ['  ' * k + l for l in ls]


def pat(p):
    if p.kind == 'pbind' and p.sub is None and not p.mut:
        return p.name
    if p.kind == 'pctor' and p.path == ['Some'] and len(p.parts) == 1:
        return f'some {pat(p.parts[0])}'
    if p.kind == 'ptuple':
        return '(' + ', '.join(pat(x) for x in p.parts) + ')'
    bad(p, 'pattern')


def stmt(s):
    out = [f'-- {s.line}']
    if s.kind == 'let':
        if s.pat.kind != 'pbind' or s.pat.sub is not None or s.ty is not None or s.init is None:
            bad(s, 'let')
        e = s.init
        if e.kind == 'call' and e.f.kind == 'path' and e.f.path == ['Cli', 'parse'] and not e.args:
            if s.pat.name != 'cli' or s.pat.mut:
                bad(s, 'Cli::parse')
            return out + ['let cli := cli']
        arrow, r = init(e)
        ty = ' : List DynError' if r == '[]' else ''
        return out + [f'let {"mut " if s.pat.mut else ""}{s.pat.name}{ty} {arrow} {r}']
    if s.kind != 'expr':
        bad(s, 'statement')
    e = s.e
    if e.kind == 'macro' and e.name in ('println', 'eprintln'):
        return out + [f'{e.name} ({text(e)})']
    if e.kind == 'method' and e.name == 'push' and len(e.args) == 1:
        x = ex(e.e)
        return out + [f'{x} := {x} ++ [{ex(e.args[0])}]']
    if e.kind == 'assign' and e.op == '=' and e.lhs.kind == 'path' and len(e.lhs.path) == 1:
        return out + [f'{e.lhs.path[0]} := {ex(e.rhs)}']
    if e.kind == 'if':
        if e.c.kind == 'letcond':
            bad(e, 'if let')
        out += [f'if {ex(e.c)} then'] + ind(block(e.th))
        if e.el is not None:
            bad(e, 'else')
        return out
    if e.kind == 'while' and e.c.kind == 'letcond':
        return out + ['for _ in Fuel.mk fuel do', f'  match {ex(e.c.e)} with', f'  | {pat(e.c.pat)} =>'] + \
            ind(block(e.body), 2) + ['  | _ => break']
    if e.kind == 'for':
        return out + [f'for {pat(e.pat)} in {ex(e.e)} do'] + ind(block(e.body))
    bad(s, 'statement')


def is_error(t):
    return t.kind == 'impl_ty' and t.ty.kind == 'ty' and t.ty.path == ['Error']


def main():
    toks = tokenize(open(f'{REPO}/{FILE}').read())
    items = Parser(toks, FILE).items()
    fns = [i for i in items if i.kind == 'fn']
    if sorted(f.name for f in fns) != ['abort', 'main']:
        raise Bad('functions of main.rs')
    for f in fns:
        FNS[f.name] = f
    cli = next(i for i in items if i.kind == 'struct')
    if cli.name != 'Cli' or [(x[1], x[2].path) for x in cli.named] != [('input', ['InputArg']), ('verbose', ['bool'])]:
        raise Bad('struct Cli')
    out = ['import Verif.Source.CliPrelude', '',
           f'/-! Generated by tools/rs2lean_cli.py from {FILE}.', 'Do not edit.  The numbers in the comments are the '
           'source lines. -/', '', 'namespace Wadec.Source', '', 'variable {R : Type} [Read R]', '']
    for name in ['abort', 'main']:
        f = FNS[name]
        doc = f'/-- {FILE}:{f.line} -/'
        if name == 'main':
            if f.params or f.ret is not None:
                raise Bad('signature of main')
            sig = 'def main (t : CliText) (fuel : Nat) (cli : Cli R) : Proc Unit := do'
            body = block(f.body)
        else:
            ps = []
            for n, ty, _ in f.params:
                if is_error(ty):
                    ps.append(f'({n} : DynError)')
                elif ty.kind == 'ref' and not ty.mut and ty.ty.path == ['Cli']:
                    ps.append(f'({n} : Cli R)')
                else:
                    raise Bad('signature of abort')
            if f.generics != ['T'] or f.ret.path != ['T']:
                raise Bad('signature of abort')
            sig = f'def abort (t : CliText) (fuel : Nat) {{T : Type}} {" ".join(ps)} : Proc T := do'
            body = block(f.body, unit=False)
        out += [doc, sig] + ind(body) + ['']
    out += ['end Wadec.Source', '']
    os.makedirs(OUT, exist_ok=True)
    with open(os.path.join(OUT, 'Cli.lean'), 'w') as fh:
        fh.write('\n'.join(out))
    print('2 functions translated')


if __name__ == '__main__':
    try:
        main()
    except Bad as b:
        sys.exit('rs2lean_cli: ' + str(b))
