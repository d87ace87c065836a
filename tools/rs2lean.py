#!/usr/bin/env python3
"""Rewrite the straight-line functions of matrix*.rs / vector*.rs to Lean definitions.

Usage: rs2lean.py <repo/src> <out dir>.  Output: GenVec.lean, GenM22.lean .. GenM66.lean
Only token-level rewriting is done (index syntax, array literals, `let`); the order and the
shape of every arithmetic expression is kept.
"""
import re, sys, os
SRC, OUT = sys.argv[1], sys.argv[2]

def body(fname, header, after=1):
    """lines of the fn whose header line contains `header`, first one at/after line `after`;
    returns (first, last, text of the body)"""
    lines = open(os.path.join(SRC, fname)).read().split('\n')
    for k in range(after - 1, len(lines)):
        if header in lines[k]:
            break
    else:
        raise SystemExit(f"{fname}: {header} not found")
    depth, txt, started = 0, [], False
    for m in range(k, len(lines)):
        line = re.sub(r'//.*', '', lines[m])
        for c in line:
            if c == '{':
                depth += 1
                if depth == 1:
                    started = True
                    continue
            if c == '}':
                depth -= 1
                if depth == 0:
                    return k + 1, m + 1, ''.join(txt)
            if started:
                txt.append(c)
        if started:
            txt.append('\n')
    raise SystemExit("unbalanced")

def impl_fn(fname, impl, fn):
    """fn inside the impl block whose header contains `impl`"""
    lines = open(os.path.join(SRC, fname)).read().split('\n')
    for k, l in enumerate(lines):
        if impl in l and l.startswith('impl'):
            a, b, t = body(fname, fn, k + 1)
            return k + 1, b, t
    raise SystemExit(f"{fname}: {impl} not found")

def expr(e):
    e = re.sub(r'\s+', ' ', e).strip()
    e = re.sub(r'(self|rhs)\[\((\d+), *(\d+)\)\]', r'\1 \2 \3', e)
    e = re.sub(r'(self|rhs)\[(\d+)\]', r'\1 \2', e)
    e = re.sub(r'T::sqrt\(', 'RFloat.sqrt (', e)
    e = e.replace('T::zero()', '0').replace('T::one()', '1')
    e = re.sub(r', *\)$', ')', e); e = e.replace('( ', '(').replace(' )', ')')
    m = re.fullmatch(r'(?:M\d\d|Self)::new\(\[\[0; *(\d)\]; *\d\]\)', e)
    if m:
        n = int(m.group(1))
        row = '![' + ', '.join(['0'] * n) + ']'
        return '⟨![' + ', '.join([row] * n) + ']⟩'
    m = re.fullmatch(r'(?:V\d|Self)::new\(\[0; *(\d)\]\)', e)
    if m:
        return '⟨![' + ', '.join(['0'] * int(m.group(1))) + ']⟩'
    m = re.fullmatch(r'(?:M\d\d|V\d|Self)::new\((.*)\)', e)
    if m:
        s = m.group(1)
        s = re.sub(r', *\]', ']', s)
        s = s.replace('[', '![')
        s = re.sub(r'!\[ +', '![', s); s = re.sub(r' +\]', ']', s)
        s = s.replace('],', '],\n     ')
        return '⟨' + s.strip() + '⟩'
    m = re.fullmatch(r'(?:V\d|Self)::new_from\((.*?),? *\)', e)
    if m:
        return '⟨![' + m.group(1).strip() + ']⟩'
    return e

def wrap(e, width=96):
    if e.startswith('⟨'):
        if len(e) > width and '],' not in e:
            e = e.replace(', ', ',\n     ')
        elif max(map(len, e.split('\n'))) > width:
            e = e.replace(', ', ',\n       ')
        return e
    out, line = [], ''
    for tok in e.split(' '):
        if len(line) + len(tok) + 1 > width and tok in ('+', '-'):
            out.append(line); line = tok
        else:
            line = (line + ' ' + tok) if line else tok
    out.append(line)
    return '\n      '.join(out)

def emit(name, sig, loc, note=''):
    fname, a, b, t = loc
    stmts = [s for s in re.split(r';(?![^\[]*\])', t)]
    # the split above keeps `[x; n]` together
    out = []
    for s in stmts[:-1]:
        s = s.strip()
        m = re.fullmatch(r'let (\w+)\s*=\s*(.*)', s, re.S)
        if not m:
            raise SystemExit(f"{name}: cannot translate statement: {s}")
        out.append(f"  let {m.group(1)} : T := {wrap(expr(m.group(2)))}")
    out.append("  " + wrap(expr(stmts[-1])))
    doc = f"/-- `src/{fname}:{a}-{b}`{note} -/"
    return doc + f"\ndef {name} {sig} :=\n" + '\n'.join(out) + "\n"

HEAD = """import Verif.Model.Num

/-! Generated by `tools/rs2lean.py` from the Rust text; every definition cites its source lines. -/

namespace StaticMath


variable {T : Type} [Add T] [Sub T] [Mul T] [Div T] [Neg T] [Zero T] [One T] [RFloat T]

"""
def L(fname, tup): return (fname,) + tup

def matrix(n):
    M = f"M{n}{n}"; V = f"V{n}"; f = f"matrix{n}x{n}.rs"; o = []
    mat = f"Mat {n} T"; vec = f"Vec {n} T"
    e = lambda nm, sig, loc: o.append(emit(f"{M}.{nm}", sig, (f,) + loc))
    e("zero", f": {mat}", impl_fn(f, f"Zero for {M}", "fn zero"))
    e("one", f": {mat}", impl_fn(f, f"One for {M}", "fn one"))
    e("transpose", f"(self : {mat}) : {mat}", body(f, "fn transpose"))
    e("trace", f"(self : {mat}) : T", body(f, "fn trace"))
    if n <= 4:
        e("norm2", f"(self : {mat}) : T", body(f, "fn norm2"))
    e("det", f"(self : {mat}) : T", body(f, "fn det"))
    e("add", f"(self rhs : {mat}) : {mat}", impl_fn(f, f"> Add for {M}", "fn add"))
    e("sub", f"(self rhs : {mat}) : {mat}", impl_fn(f, f"> Sub for {M}", "fn sub"))
    e("smul", f"(self : {mat}) (rhs : T) : {mat}", impl_fn(f, f"> Mul<T> for {M}", "fn mul"))
    e("sdiv", f"(self : {mat}) (rhs : T) : {mat}", impl_fn(f, f"> Div<T> for {M}", "fn div"))
    e("mulVec", f"(self : {mat}) (rhs : {vec}) : {vec}", impl_fn(f, f"> Mul<{V}<T>> for {M}", "fn mul"))
    e("mul", f"(self rhs : {mat}) : {mat}", impl_fn(f, f"> Mul for {M}", "fn mul"))
    e("neg", f"(self : {mat}) : {mat}", impl_fn(f, f"Neg for {M}", "fn neg"))
    if n == 2:
        e("f32mul", f"(self : T) (rhs : {mat}) : {mat}", impl_fn(f, f"Mul<M22<f32>> for f32", "fn mul"))
    if n == 3:
        e("f32mul", f"(self : T) (rhs : {mat}) : {mat}", impl_fn(f, f"Mul<M33<f32>> for f32", "fn mul"))
        e("f64mul", f"(self : T) (rhs : {mat}) : {mat}", impl_fn(f, f"Mul<M33<f64>> for f64", "fn mul"))
    open(os.path.join(OUT, f"Gen{M}.lean"), 'w').write(HEAD + '\n'.join(o) + "\nend StaticMath\n")

def vectors():
    o = []
    for n in range(2, 7):
        V = f"V{n}"; M = f"M{n}{n}"; f = f"vector{n}.rs"; mat = f"Mat {n} T"; vec = f"Vec {n} T"
        e = lambda nm, sig, loc: o.append(emit(f"{V}.{nm}", sig, (f,) + loc))
        e("zero", f": {vec}", impl_fn(f, f"Zero for {V}", "fn zero"))
        e("ones", f": {vec}", body(f, "fn ones"))
        e("neg", f"(self : {vec}) : {vec}", impl_fn(f, f"Neg for {V}", "fn neg"))
        e("norm2", f"(self : {vec}) : T", body(f, "fn norm2"))
        e("dot", f"(self rhs : {vec}) : T", impl_fn(f, f"> Mul for {V}", "fn mul"))
        e("smul", f"(self : {vec}) (rhs : T) : {vec}", impl_fn(f, f"> Mul<T> for {V}", "fn mul"))
        e("sdiv", f"(self : {vec}) (rhs : T) : {vec}", impl_fn(f, f"> Div<T> for {V}", "fn div"))
        e("f32mul", f"(self : T) (rhs : {vec}) : {vec}", impl_fn(f, f"Mul<{V}<f32>> for f32", "fn mul"))
        if n == 3:
            e("f64mul", f"(self : T) (rhs : {vec}) : {vec}", impl_fn(f, f"Mul<{V}<f64>> for f64", "fn mul"))
        e("mulMat", f"(self : {vec}) (rhs : {mat}) : {vec}", impl_fn(f, f"> Mul<{M}<T>> for {V}", "fn mul"))
        e("sub", f"(self rhs : {vec}) : {vec}", impl_fn(f, f"> Sub for {V}", "fn sub"))
        e("add", f"(self rhs : {vec}) : {vec}", impl_fn(f, f"> Add for {V}", "fn add"))
        if n == 3:
            e("cross", f"(self rhs : {vec}) : {vec}", body(f, "fn cross"))
            e("x_axis", f": {vec}", body(f, "fn x_axis"))
            e("y_axis", f": {vec}", body(f, "fn y_axis"))
            e("z_axis", f": {vec}", body(f, "fn z_axis"))
    open(os.path.join(OUT, "GenVec.lean"), 'w').write(HEAD + '\n'.join(o) + "\nend StaticMath\n")

vectors()
for n in range(2, 7):
    matrix(n)
