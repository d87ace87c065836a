"""Translates the matrix functions of the crate that contain loops, statement by statement, into Lean
definitions in the `MayPanic` monad.  Run: rs2lean_loops.py /repo/src OUTDIR

A `for v in a..b` loop becomes `forRange a b state (fun v state => ...)`, where the state is the tuple
of the variables assigned in the body; array reads/writes become `get`/`set`, which panic when out of
range; an `if` without `else` becomes an `if` returning the possibly updated variables."""
import re, sys

SRC, OUT = sys.argv[1], sys.argv[2]

def fn_text(src, name):
    """list of (lineno, text) of the first fn `name`"""
    lines = src.split('\n')
    for i, l in enumerate(lines):
        if re.search(rf'\bfn {name}\b', l) and not l.strip().startswith('//'):
            depth, out = 0, []
            for k in range(i, len(lines)):
                t = lines[k].split('//')[0]
                out.append(t)
                depth += t.count('{') - t.count('}')
                if depth == 0 and '{' in ''.join(out):
                    return i + 1, k + 1, '\n'.join(out)
    raise KeyError(name)

def tokenize_block(s, i):
    """parse statements from s[i:] (just after '{') up to the matching '}'"""
    stmts, buf = [], ''
    while True:
        c = s[i]
        if c == '}':
            if buf.strip():
                stmts.append(('tail', buf.strip()))
            return stmts, i + 1
        if c == ';' and buf.count('[') == buf.count(']') and buf.count('(') == buf.count(')'):
            stmts.append(('stmt', ' '.join(buf.split())))
            buf = ''; i += 1; continue
        if c == '{':
            head = ' '.join(buf.split())
            if head.startswith('for '):
                body, i = tokenize_block(s, i + 1)
                m = re.match(r'for (\w+) in (.+?)\s*\.\.\s*(.+)$', head)
                stmts.append(('for', m.group(1), m.group(2), m.group(3), body)); buf = ''; continue
            if head.startswith('if '):
                body, i = tokenize_block(s, i + 1)
                rest = s[i:].lstrip()
                els = None
                if rest.startswith('else'):
                    j = s.index('{', i)
                    els, i = tokenize_block(s, j + 1)
                stmts.append(('if', head[3:], body, els)); buf = ''; continue
            # inline block inside an expression: copy verbatim
            depth = 0
            while True:
                buf += s[i]
                depth += (s[i] == '{') - (s[i] == '}')
                i += 1
                if depth == 0: break
            continue
        buf += c; i += 1

def assigned(stmts):
    out = []
    for st in stmts:
        if st[0] in ('stmt', 'tail'):
            m = re.match(r'(\w+)\s*(\[.*?\])?\s*(\+=|=)(?!=)', st[1])
            if m and not st[1].startswith('let'):
                out.append(m.group(1))
        elif st[0] == 'for':
            out += assigned(st[4])
        elif st[0] == 'if':
            out += assigned(st[2]) + (assigned(st[3]) if st[3] else [])
    r = []
    for x in out:
        if x not in r: r.append(x)
    return r

def declared(stmts):
    return [m.group(1) for st in stmts if st[0] == 'stmt'
            for m in [re.match(r'let (?:mut )?(\w+)', st[1])] if m]

class Tr:
    def __init__(self, n): self.n = n; self.N = f'M{n}{n}'
    def nat(self, e):
        e = e.strip()
        if e.startswith('(') and e.endswith(')'): e = e[1:-1]
        e = e.replace('self.rows()', str(self.n)).replace('self.cols()', str(self.n))
        e = e.replace('result.rows()', str(self.rn)).replace('result.cols()', str(self.rn))
        e = e.replace('N', str(self.n)) if e == 'N' else e
        return e if re.match(r'^\w+$', e) else f'({e})'
    def expr(self, e):
        e = ' '.join(e.split())
        for a, b in [('T::zero()', '0'), ('T::one()', '1'), ('T::from(1e-40).unwrap()', 'RFloat.lit1em40')]:
            e = e.replace(a, b)
        e = re.sub(r'\bSelf::zeros\(\)', f'{self.N}.zero', e)
        e = re.sub(r'\b([MV]\d+)::zeros?\(\)', r'\1.zero', e)
        e = re.sub(r'\[(\w+); (\d+)\]', r'Vec.rep \2 \1', e)
        e = re.sub(r'\[(zero(?:, zero)*)\]', lambda m: f"Vec.rep {len(m.group(1).split(','))} zero", e)
        def sub(m):
            k = self.n - 1
            return f"M{k}{k}.det (← {self.N}.get_submatrix self ({m.group(1)}))"
        e = re.sub(r'self\.get_submatrix\(\((.*?)\)\)\.det\(\)', sub, e)
        e = e.replace('self.det()', f'{self.N}.det self')
        e = re.sub(r'(\w+)\[\((\w+), *(\w+(?: *- *\d)?)\)\]', lambda m: f"(← {m.group(1)}.get {m.group(2)} {self.nat(m.group(3))})", e)
        e = re.sub(r'(\w+)\[(\w+)\]\[(\w+)\]', r'(← (← \1.get \2).get \3)', e)
        e = re.sub(r'(\w+)\[(\w+)\]', r'(← \1.get \2)', e)
        e = re.sub(r'T::abs\((\(.*?\))\)', r'RAbs.abs \1', e)
        e = re.sub(r'\b(\w+)\.recip\(\)', r'RFloat.recip \1', e)
        e = re.sub(r'^f\((.*)\)$', r'f \1', e)
        e = e.replace('*self', 'self')
        e = re.sub(r'^if \(i \+ j\) % 2 == 0 \{one\} else \{-one\}$', 'if (i + j) % 2 = 0 then one else -one', e)
        return e
    def cond(self, e):
        e = e.strip()
        m = re.match(r'^(\w+) > big$', e)
        if m: return f'ROrd.lt big {m.group(1)}'
        if e == 'big == T::zero()': return 'ROrd.beq big 0'
        if e == 'lu[(k, k)] == T::zero()': return 'ROrd.beq (← lu.get k k) 0'
        if e == '!nearly_zero(det)': return '!nearly_zero det'
        if e == '!(i == selected.0 || j == selected.1)': return '¬(i = selected.1 ∨ j = selected.2)'
        m = re.match(r'^(\w+) (==|<|>|!=) (\w+)$', e)
        op = {'==': '=', '!=': '≠', '<': '<', '>': '>'}[m.group(2)]
        return f'{m.group(1)} {op} {m.group(3)}'
    def tup(self, vs): return vs[0] if len(vs) == 1 else '(' + ', '.join(vs) + ')'
    def block(self, stmts, ind, ret, tail=None):
        """ret: expression of the variables to return (None for the function body)"""
        o, p = [], '  ' * ind
        for st in stmts:
            if st[0] == 'stmt':
                s = st[1]
                if s.startswith('const N'): continue
                m = re.match(r'let (?:mut )?(\w+)(?:: ([^=]+?))? = (.*)$', s)
                if m:
                    ty = ''
                    t = (m.group(2) or '').strip()
                    e = self.expr(m.group(3))
                    if t == 'usize': ty = ' : ℕ'
                    elif re.match(r'V\d<usize>', t): ty = f' : Vec {t[1]} ℕ'
                    elif m.group(1) == 'vv': ty = f' : Vec {self.n} T'
                    elif re.match(r'V\d+\.zero', e): ty = f' : Vec {e[1]} T'
                    elif re.match(r'M\d+\.zero', e): ty = f' : Mat {e[1]} T'
                    elif t.startswith('['): ty = ' : Vec ' + re.search(r"; (\d+)", t).group(1) + ' T'
                    elif e in ('0', '1') : ty = ' : ℕ' if m.group(1) == 'index' else ' : T'
                    elif e == 'RFloat.lit1em40': ty = ' : T'
                    o.append(f'{p}let {m.group(1)}{ty} := {e}'); continue
                m = re.match(r'(\w+) \+= 1$', s)
                if m: o.append(f'{p}let {m.group(1)} := {m.group(1)} + 1'); continue
                m = re.match(r'(\w+)\[\((\w+), *(\w+)\)\] = (.*)$', s)
                if m: o.append(f'{p}let {m.group(1)} ← {m.group(1)}.set {m.group(2)} {m.group(3)} ({self.expr(m.group(4))})'); continue
                m = re.match(r'(\w+)\[(\w+)\] = (.*)$', s)
                if m: o.append(f'{p}let {m.group(1)} ← {m.group(1)}.set {m.group(2)} ({self.expr(m.group(3))})'); continue
                m = re.match(r'(\w+) = (.*)$', s)
                if m: o.append(f'{p}let {m.group(1)} := {self.expr(m.group(2))}'); continue
                raise ValueError(s)
            elif st[0] == 'tail':
                s = st[1]
                m = re.match(r'(\w+)\[(\w+)\] = (.*)$', s)
                if m: o.append(f'{p}let {m.group(1)} ← {m.group(1)}.set {m.group(2)} ({self.expr(m.group(3))})'); continue
                m = re.match(r'panic!\("(.*)"\)$', s)
                if m: o.append(f'{p}throw (Panic.explicit "{m.group(1)}")'); ret = ''; continue
                o.append(f'{p}pure ({self.tail(s)})'); ret = ''
            elif st[0] == 'for':
                _, v, a, b, body = st
                vs = [x for x in assigned(body) if x not in declared(body)]
                o.append(f'{p}let {self.tup(vs)} ← forRange {self.nat(a)} {self.nat(b)} {self.tup(vs)} fun {v} {self.tup(vs)} => do')
                o += self.block(body, ind + 1, self.tup(vs))
            elif st[0] == 'if':
                _, c, body, els = st
                if els is not None:
                    o.append(f'{p}if {self.cond(c)} then do'); o += self.block(body, ind + 1, '')
                    o.append(f'{p}else do'); o += self.block(els, ind + 1, ''); ret = ''
                    continue
                vs = [x for x in assigned(body) if x not in declared(body)]
                if not vs:   # panic
                    o.append(f'{p}if {self.cond(c)} then do'); o += self.block(body, ind + 1, '')
                    continue
                o.append(f'{p}let {self.tup(vs)} ← if {self.cond(c)} then do'); o += self.block(body, ind + 2, self.tup(vs))
                o.append(f'{p}  else pure {self.tup(vs)}')
        if ret: o.append(f'{p}pure {ret}')
        return o
    def tail(self, s):
        s = ' '.join(s.split())
        if s == 'None': return 'none'
        m = re.match(r'Some\((.*)\)$', s)
        if m:
            x = m.group(1)
            if x == 'cofactors / det': return f'some ({self.N}.sdiv cofactors det)'
            if x == 'cofactors * det.recip()': return f'some ({self.N}.smul cofactors (RFloat.recip det))'
            return f'some {self.tail(x)}' if re.match(r'^\w+$', x) else f'some ({self.tail(x)})'
        m = re.match(r'[MV]\d+::new\(\[(.*)\]\)$', s)
        if m:
            x = self.expr(m.group(1)).replace(' ,', ',').replace(' ,', ',')
            x = re.sub(r',\s*$', '', x.strip()); x = x.replace('[', '![')
            return f'⟨![{x}]⟩'
        return s

def emit(n, name, lean=None, sig=None, rn=None):
    src = open(f'{SRC}/matrix{n}x{n}.rs').read()
    a, b, txt = fn_text(src, name)
    tr = Tr(n); tr.rn = rn or n
    body, _ = tokenize_block(txt, txt.index('{') + 1)
    lean = lean or name
    out = [f'/-- `src/matrix{n}x{n}.rs:{a}-{b}` -/', f'def M{n}{n}.{lean} {sig} := do']
    out += tr.block(body, 1, None)
    return '\n'.join(out) + '\n'

tri = {3: 3, 4: 6, 5: 10, 6: 15}
o = ['''import Verif.Model.Utils
import Verif.Model.GenVec
import Verif.Model.GenM22
import Verif.Model.GenM33
import Verif.Model.GenM44
import Verif.Model.GenM55
import Verif.Model.GenM66

/-! Generated by `tools/rs2lean_loops.py` from the Rust text; every definition cites its source
lines. Array accesses and explicit panics are modelled; `rows()`/`cols()` are the size. -/

namespace StaticMath

set_option linter.unusedVariables false


variable {T : Type} [Add T] [Sub T] [Mul T] [Div T] [Neg T] [Zero T] [One T]
  [RAbs T] [ROrd T] [RFloat T]
''']
for n in range(2, 7):
    m = f'Mat {n} T'; s = f'(self : {m})'; vv = f'Vec {n} (Vec {n} T)'
    o.append(emit(n, 'new_from_vecs', sig=f'(cols : {vv}) : MayPanic ({m})'))
    o.append(emit(n, 'get_diagonal', sig=f'{s} : MayPanic (Vec {n} T)'))
    o.append(emit(n, 'get_rows', sig=f'{s} : MayPanic ({vv})'))
    o.append(emit(n, 'get_cols', sig=f'{s} : MayPanic ({vv})'))
    o.append(emit(n, 'for_each', sig=f'{s} (f : T → T) : MayPanic ({m})'))
    if n >= 3:
        up = 'get_upper_triangular' if n == 6 else 'get_upper_triagular'
        o.append(emit(n, up, sig=f'{s} : MayPanic (Vec {tri[n]} T)'))
        o.append(emit(n, 'get_lower_triangular', sig=f'{s} : MayPanic (Vec {tri[n]} T)'))
    if n >= 4:
        o.append(emit(n, 'get_submatrix', rn=n-1, sig=f'{s} (selected : ℕ × ℕ) : MayPanic (Mat {n-1} T)'))
    o.append(emit(n, 'inverse', sig=f'{s} : MayPanic (Option ({m}))'))
    o.append(emit(n, 'lu', sig=f'{s} : MayPanic ({m} × T × Vec {n} ℕ)'))
o.append('end StaticMath\n')
open(f'{OUT}/GenLoops.lean', 'w').write('\n'.join(o))
