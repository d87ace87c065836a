#!/usr/bin/env python3
"""Transcribe the unit tests of /repo/src (`#[cfg(test)]` modules) into Lean `#guard`s that run the
model on Float32 / Float / Int.  Usage: python3 tools/gen_conformance.py > lean/Verif/Conformance.lean

The element types follow Rust's inference: a test that mentions EPS or f32 is over f32, other float
literals are f64, literals without a decimal point are i32."""
import re, sys, os

REPO = os.environ.get('REPO', '/repo')
FILES = ['vector2', 'vector3', 'vector4', 'vector5', 'vector6', 'matrix2x2', 'matrix3x3',
         'matrix4x4', 'matrix5x5', 'matrix6x6', 'slices_methods', 'utils', 'quaternion',
         'transformations', 'dual_quaternion']

TOK = re.compile(r'''\s*(?:(?P<str>"(?:[^"\\]|\\.)*")
  |(?P<num>\d+(?:\.\d+)?(?:e-?\d+)?(?:f32|f64)?)
  |(?P<id>[A-Za-z_]\w*!?)|(?P<op>::|\.\.|\+=|-=|==|!=|&&|\|\||[-+*/&|()\[\]{};:,.<>=!]))''', re.X)

def tokenize(s):
    s = re.sub(r'//[^\n]*', '', s)
    out, i = [], 0
    while i < len(s):
        if s[i:].strip() == '': break
        m = TOK.match(s, i)
        if not m: raise Exception('tok: ' + s[i:i+40])
        k = m.lastgroup
        out.append((k, m.group(k)))
        i = m.end()
    return out

class NoSupport(Exception): pass

# result shapes.  'S' scalar, 'N' index, 'B' bool, ('V',n,shape), ('M',n), 'Q', 'D', 'L' list,
# ('O',s) option, ('R',s) result, ('T',[..]), ('Sl',shape) slice
MM = {'det': 'S', 'trace': 'S', 'norm2': 'S', 'transpose': 'self'}
FUN = {  # name: (result, panics)
 'rotx': (('M',3),0), 'roty': (('M',3),0), 'rotz': (('M',3),0),
 'euler_to_rotation': (('M',3),0), 'rotation_to_euler': (('T',['S','S','S']),0),
 'homogeneous_from_quaternion': (('M',4),0), 'homogeneous_inverse': (('M',4),0),
 'homogeneous_inverse_transform': (('V',3,'S'),0), 'matrix_log': (('M',3),0),
 'matrix_exponential': (('M',3),1), 'matrix_exponential6': (('M',4),1), 'matrix_log6': (('M',4),0),
 'twist_to_se3': (('M',4),0), 'se3_to_twist': (('V',6,'S'),0), 'adjoint': (('M',6),1),
 'screw_to_axis': (('V',6,'S'),0), 'axis_angle6': (('T',[('V',6,'S'),'S']),0),
 'distance_to_manifold': ('S',0), 'skew_from_vec': (('M',3),0),
 'is_rotation': ('B',0), 'is_rotation_h': ('B',0), 'nearly_equal': ('B',0), 'nearly_zero': ('B',0),
 'compare_vecs': ('B',0), 'compare_dual_quaternions': ('B',0),
 'find_max_min': ('MaxMin',1), 'dot': ('S',1)}
QST = {'new': ('Q',0), 'new_from': ('Q',0), 'rotation': ('Q',1), 'rotation_norm_encoded': ('Q',0),
       'one': ('Q',0), 'from_euler_angles': ('Q',0), 'slerp': ('Q',0), 'from_rotation': ('Q',0)}
DST = {'one': ('D',0), 'new_from_translation': ('D',0), 'new_from_vecs': ('D',0),
       'new_from_homogeneous': ('D',1), 'new_from_rot_trans': ('D',1), 'new_from_rotation': ('D',0),
       'new_from_rotation_matrix': ('D',0), 'new_from_screw_parameters': ('D',0),
       'screw_lerp': ('D',1)}
QM = {'conj': ('Q',0), 'dot': ('S',0), 'to_rotation': (('M',3),0), 'inverse': (('O','Q'),0),
      'to_euler_angles': (('T',['S','S','S']),0), 'real': ('S',0), 'imag': (('V',3,'S'),0),
      'get_angle': ('S',0)}
DM = {'conj': ('D',0), 'inverse': ('D',1), 'normalize': (('O','D'),0), 'is_normalized': ('B',0),
      'to_homogeneous': (('M',4),0), 'to_rotation_translation': (('T',[('M',3),('V',3,'S')]),0),
      'to_quaternion_translation': (('T',['Q',('V',3,'S')]),0),
      'transform_point': (('V',3,'S'),0), 'pow': ('D',0),
      'get_screw_parameters': (('T',[('V',3,'S'),('V',3,'S'),'S','S']),0)}
TRI = {3: 3, 4: 6, 5: 10, 6: 15}

class P:
    def __init__(self, toks, ft):
        self.t, self.i, self.ft, self.env = toks, 0, ft, {}
        self.out = []
    def peek(self, k=0): return self.t[self.i+k][1] if self.i+k < len(self.t) else None
    def kind(self): return self.t[self.i][0]
    def next(self): v = self.t[self.i][1]; self.i += 1; return v
    def eat(self, x):
        v = self.next()
        if v != x: raise NoSupport(f'expected {x} got {v}')
    def tryeat(self, x):
        if self.peek() == x: self.i += 1; return True
        return False
    # ---- types
    def typ(self):
        n = self.next()
        arg = None
        if self.tryeat('<'):
            arg = self.typ(); self.eat('>')
        el = {'f32': 'Float32', 'f64': 'Float', 'i32': 'Int'}
        if n in el: return el[n]
        if n[0] in 'VM' and n[1:].isdigit():
            return f"({'Vec' if n[0]=='V' else 'Mat'} {n[1]} {arg})"
        if n == 'DualQuaternion': return f'(DQuat {arg})'
        if n == 'Quaternion': return f'(Quat {arg})'
        raise NoSupport('type ' + n)
    # ---- statements
    def emit(self, ind, s): self.out.append('  ' * ind + s)
    def block(self, ind):
        while self.peek() not in (None, '}'):
            self.stmt(ind)
    def stmt(self, ind):
        p = self.peek()
        if p == 'use':
            while self.next() != ';': pass
        elif p == 'let':
            self.next(); self.tryeat('mut')
            mut = self.t[self.i-1][1] == 'mut'
            if self.tryeat('('):
                names = [self.next()]
                while self.tryeat(','): names.append(self.next())
                self.eat(')'); pat = None
            else: names, pat = None, self.next()
            ty = None
            if self.tryeat(':'): ty = self.typ()
            self.eat('=')
            if self.peek() == 'None':
                self.next(); self.eat(';'); self.env[pat] = ('none', ('O', None)); return
            e, s = self.expr(); self.eat(';')
            if s[0] == 'A':
                e, s = self.vec(s[1]); ty = f'Vec {s[1]} {self.ft}'
            if names:
                for n, x in zip(names, s[1]): self.env[n] = (n, x)
                self.emit(ind, f"let ({', '.join(names)}) := {e}")
            else:
                self.env[pat] = (pat, s)
                if ty is None and s in ('Q', 'D') : ty = f"({'Quat' if s=='Q' else 'DQuat'} _)"
                if ty is None and e.startswith('@nullary '):
                    raise NoSupport('nullary')
                m = 'mut ' if mut else ''
                self.emit(ind, f"let {m}{pat}{' : ' + ty if ty else ''} := {e}")
        elif p == 'assert!':
            self.next(); self.eat('('); e, s = self.expr()
            self.skip_args(); self.tryeat(';')
            self.emit(ind, f'check {e}')
        elif p == 'assert_eq!':
            self.next(); self.eat('('); a, s = self.expr(); self.eat(','); b, s2 = self.expr()
            self.skip_args(); self.tryeat(';')
            if a == 'none' or b == 'none':
                self.emit(ind, f'check ({a if b == "none" else b}).isNone')
            else: self.emit(ind, f'check (req {a} {b})')
        elif p == 'if':
            self.next(); self.eat('let'); self.eat('Some'); self.eat('(')
            if self.tryeat('('):
                names = [self.next()]
                while self.tryeat(','): names.append(self.next())
                self.eat(')')
            else: names = [self.next()]
            self.eat(')'); self.eat('=')
            e, s = self.expr(); self.eat('{')
            if s[0] != 'O': raise NoSupport('if let')
            shs = s[1][1] if len(names) > 1 else [s[1]]
            for n, x in zip(names, shs): self.env[n] = (n, x)
            pat = names[0] if len(names) == 1 else '(' + ', '.join(names) + ')'
            self.emit(ind, f'if let some {pat} := {e} then')
            self.block(ind + 1); self.eat('}')
        elif p == 'for':
            self.next(); v = self.next(); self.eat('in')
            e, s = self.expr(); self.eat('{')
            self.env[v] = (v, 'S')
            self.emit(ind, f'for {v} in {e}.toSlice do')
            self.block(ind + 1); self.eat('}')
        elif p == 'normalize':
            self.next(); self.eat('('); self.eat('&'); self.eat('mut'); self.eat('*')
            v = self.next(); self.eat(')'); self.eat(';')
            self.emit(ind, f'{v} ← Vec.normalizeSlice {v}')
        elif self.t[self.i][0] == 'id' and self.peek(1) in ('+=', '-='):
            v = self.next(); op = self.next(); e, s = self.expr(); self.eat(';')
            sh = self.env[v][1]
            nm = f'V{sh[1]}' if sh[0] == 'V' else f'M{sh[1]}{sh[1]}'
            self.emit(ind, f"{v} := {nm}.{'add' if op == '+=' else 'sub'}_assign {v} {e}")
        else: raise NoSupport('stmt ' + str(p))
    def skip_args(self):
        d = 0
        while True:
            v = self.next()
            if v in '([': d += 1
            if v in ')]':
                if d == 0: return
                d -= 1
    # ---- expressions
    def expr(self):
        l = self.term()
        while self.peek() in ('+', '-'):
            o = self.next(); l = self.bin(o, l, self.term())
        return l
    def term(self):
        l = self.unary()
        while self.peek() in ('*', '/'):
            o = self.next(); l = self.bin(o, l, self.unary())
        return l
    def bin(self, o, a, b):
        (x, s), (y, t) = a, b
        if s == 'S' and t == 'S': return f'({x} {o} {y})', 'S'
        def nm(s):
            if s in ('Q', 'D'): return 'Quat' if s == 'Q' else 'DQuat'
            return f'V{s[1]}' if s[0] == 'V' else f'M{s[1]}{s[1]}'
        if o in '+-' and s == t:
            return f"({nm(s)}.{'add' if o == '+' else 'sub'} {x} {y})", s
        if o == '*':
            if s == 'S':
                suf = 'f64mul' if self.ft == 'Float' and t[1] == 3 else 'f32mul'
                return f'({nm(t)}.{suf} {x} {y})', t
            if t == 'S': return f'({nm(s)}.smul {x} {y})', s
            if s in ('Q', 'D') and s == t: return f'({nm(s)}.mul {x} {y})', s
            if s == 'Q': return f'(Quat.mulVec {x} {y})', t
            if s[0] == 'M' and t[0] == 'M': return f'({nm(s)}.mul {x} {y})', s
            if s[0] == 'M' and t[0] == 'V': return f'({nm(s)}.mulVec {x} {y})', t
            if s[0] == 'V' and t[0] == 'M': return f'({nm(s)}.mulMat {x} {y})', s
            if s[0] == 'V' and t[0] == 'V': return f'({nm(s)}.dot {x} {y})', 'S'
        if o == '/' and s == 'Q' and t == 'Q': return f'(← Quat.div {x} {y})', 'Q'
        raise NoSupport(f'bin {o} {s} {t}')
    def unary(self):
        if self.tryeat('&'): return self.unary()
        if self.tryeat('*'): return self.unary()
        if self.tryeat('-'):
            e, s = self.unary()
            if s != 'S': raise NoSupport('neg')
            return f'(-{e})', 'S'
        return self.postfix(self.atom())
    def args(self, close=')'):
        r = []
        while self.peek() != close:
            r.append(self.expr())
            if not self.tryeat(','): break
        self.eat(close)
        return r
    def vec(self, elems):
        n = len(elems)
        return f"⟨![{', '.join(e for e, _ in elems)}]⟩", ('V', n, elems[0][1])
    def call(self, name, res, args):
        r, p = res
        def arg(e, s, name=name):
            return f'{e}.toSlice' if name in ('compare_vecs', 'find_max_min', 'slice_dot') and \
                isinstance(s, tuple) and s[0] == 'V' else e
        s = ' '.join([name] + [arg(*a) for a in args])
        return (f'(← {s})' if p else f'({s})' if args else s), r
    def atom(self):
        k, v = self.t[self.i]
        if k == 'num':
            self.next()
            m = re.fullmatch(r'([\d.e-]+?)(f32|f64)?', v)
            lit, suf = m.group(1), m.group(2)
            if suf and '.' not in lit and 'e' not in lit: lit += '.0'
            if '.' in lit or 'e' in lit: return f'({lit} : {self.ft})', 'S'
            return f'({lit} : Int)', 'S'
        if v == '(':
            self.next(); a = self.args()
            if len(a) == 1: return a[0]
            return '(' + ', '.join(e for e, _ in a) + ')', ('T', [s for _, s in a])
        if v == '[':
            self.next(); a = self.args(']')
            return '[' + ', '.join(e for e, _ in a) + ']', ('A', a)
        if v == '|':
            self.next(); x = self.next(); self.eat('|')
            old = self.env.get(x); self.env[x] = (x, 'S')
            e, s = self.expr(); self.env[x] = old
            return f'(fun {x} => {e})', 'F'
        if k != 'id': raise NoSupport('atom ' + v)
        self.next()
        if v == 'None': return 'none', ('O', None)
        if v == 'EPS': return f'({self.eps} : Float32)', 'S'
        if v in ('true', 'false'): return v, 'B'
        if v in ('core', 'f32'):
            path = [v]
            while self.tryeat('::'): path.append(self.next())
            if path[-1] == 'FRAC_PI_2': return '(RFloat.frac_pi_2 : Float32)', 'S'
            if path == ['f32', 'infinity']:
                self.eat('('); self.eat(')'); return '(RFloat.infinity : Float32)', 'S'
            raise NoSupport(str(path))
        m = re.fullmatch(r'm(\d)\d_new!', v)
        if m:
            n = int(m.group(1)); self.eat('(')
            rows, row = [], []
            while True:
                row.append(self.expr())
                d = self.next()
                if d == ',': continue
                rows.append(row); row = []
                if d == ')': break
            rows = [self.vec(r) for r in rows]
            return f'(M{n}{n}.new {self.vec(rows)[0]})', ('M', n)
        if self.peek() == '::':
            self.next(); f = self.next(); self.eat('(')
            a = self.args()
            if v == 'Quaternion': return self.call('Quat.' + f, QST[f], a)
            if v == 'DualQuaternion': return self.call('DQuat.' + f, DST[f], a)
            n = int(v[1])
            el = self.ft
            if v[0] == 'V':
                sh = ('V', n, 'S')
                if f == 'new':
                    e, s = self.vec(a[0][1][1])
                    return f'({v}.new {e})', s
                if f == 'new_from': return self.call(v + '.new_from', (sh, 0), a)
                if f in ('zeros', 'ones', 'x_axis', 'y_axis', 'z_axis'):
                    return f'{v}.{f}', sh
            else:
                sh = ('M', n)
                if f == 'new':
                    rows = [self.vec(s[1]) for e, s in a[0][1][1]]
                    return f'({v}.new {self.vec(rows)[0]})', sh
                if f in ('zeros', 'identity'): return f'{v}.{f}', sh
                if f == 'new_from_vecs': return self.call(v + '.new_from_vecs', (sh, 1), a)
            raise NoSupport(f'{v}::{f}')
        if v == 'MaxMin' and self.peek() == '{':
            self.next(); d = {}
            while self.peek() != '}':
                f = self.next(); self.eat(':'); self.eat('('); x = self.expr()[0]; self.eat(',')
                d[f] = f'({x}, {self.next()})'; self.eat(')'); self.tryeat(',')
            self.eat('}')
            return f"(MaxMin.mk {d['max']} {d['min']})", 'MaxMin'
        if self.peek() == '(':
            self.next(); a = self.args()
            if v not in FUN: raise NoSupport('fn ' + v)
            return self.call({'dot': 'slice_dot'}.get(v, v), FUN[v], a)
        return self.env[v]
    def postfix(self, x):
        while True:
            e, s = x
            if self.tryeat('['):
                if self.tryeat('..'):
                    self.eat(']'); continue
                if self.tryeat('('):
                    i = self.next(); self.eat(','); j = self.next(); self.eat(')'); self.eat(']')
                    x = f'(← {e}.get {i} {j})', 'S'; continue
                i = self.next(); self.eat(']')
                x = f'(← {e}.get {i})', s[2]; continue
            if self.peek() != '.': return x
            self.next(); f = self.next()
            if f.isdigit():
                k = len(s[1]); i = int(f)
                x = f"{e}{'.2' * i}{'.1' if i < k - 1 else ''}", s[1][i]; continue
            if re.fullmatch(r'\d+\.\d+', f): raise NoSupport('tuple')
            if self.peek() != '(':
                x = {'q0': (f'{e}.q0', 'S'), 'q': (f'{e}.q', ('V', 3, 'S'))}[f]; continue
            self.eat('('); 
            if f == 'get_submatrix':
                self.eat('('); i = self.next(); self.eat(','); j = self.next(); self.eat(')'); self.eat(')')
                x = f'(← M{s[1]}{s[1]}.get_submatrix {e} ({i}, {j}))', ('M', s[1]-1); continue
            a = self.args()
            x = self.method(e, s, f, a)
    def method(self, e, s, f, a):
        al = [(e, s)] + a
        if f == 'unwrap':
            if s[0] == 'R': return f'(← expectOk "unwrap" {e})', s[1]
            return f'(← unwrapSome {e})', s[1]
        if f == 'is_none': return f'{e}.isNone', 'B'
        if s == 'S':
            if f == 'to_radians': return f'({e}.to_radians)', 'S'
            if f == 'abs': return f'(RAbs.abs {e})', 'S'
            if f == 'is_finite': return f'({e}.isFinite)', 'B'
        if s == 'Q': return self.call('Quat.' + f, QM[f], al)
        if s == 'D': return self.call('DQuat.' + f, DM[f], al)
        if s[0] == 'M':
            n = s[1]; nm = f'M{n}{n}.{f}'
            if f in MM: return self.call(nm, (s if MM[f] == 'self' else 'S', 0), al)
            if f == 'as_vec': return self.call(nm, (('V', n*n, 'S'), 1), al)
            if f == 'inverse': return self.call(nm, (('O', s), 1), al)
            if f == 'qr': return self.call(nm, (('O', ('T', [s, s])), 1), al)
            if f in ('get_cols', 'get_rows'): return self.call(nm, (('V', n, ('V', n, 'S')), 1), al)
            if f == 'get_diagonal': return self.call(nm, (('V', n, 'S'), 1), al)
            if 'triang' in f or 'triag' in f: return self.call(nm, (('V', TRI[n], 'S'), 1), al)
            if f == 'for_each': return self.call(nm, (s, 1), al)
        if s[0] == 'V':
            n = s[1]; nm = f'V{n}.{f}'
            if f in ('norm2',): return self.call(nm, ('S', 0), al)
            if f == 'normalize': return self.call(nm, (('R', s), 1), al)
            if f == 'norm_inf': return self.call('Vec.norm_inf', ('S', 1), al)
            if f == 'norm_l': return self.call('Vec.norm_l', ('S', 0), al)
            if f == 'cross': return self.call(nm, (s, 0), al)
        raise NoSupport(f'method {s} {f}')

HEADER = open(os.path.join(os.path.dirname(__file__), 'conformance_header.txt')).read()

def main():
    print(HEADER, end='')
    total = 0; bad = []
    for fn in FILES:
        src = open(f'{REPO}/src/{fn}.rs').read()
        k = src.index('#[cfg(test)]')
        eps = re.search(r'const EPS: f32 = ([\de.-]+);', src[k:])
        print(f'\n/-! ## `src/{fn}.rs` -/')
        for m in re.finditer(r'#\[test\]\s*fn (\w+)\(\) \{', src[k:]):
            st = k + m.end(); d = 1; i = st
            while d:
                d += {'{': 1, '}': -1}.get(src[i], 0); i += 1
                if src[i-1] == '"':
                    i = src.index('"', i) + 1
            body = src[st:i-1]
            line = src[:k + m.start()].count('\n') + 2
            end = src[:i].count('\n') + 1
            code = re.sub(r'//[^\n]*', '', body)
            ft = 'Float32' if re.search(r'\bEPS\b|f32\b', code) else 'Float'
            name = f"{fn}_{m.group(1)}"
            p = P(tokenize(body), ft)
            if eps: p.eps = eps.group(1)
            try:
                p.block(1)
                print(f'\n/-- `src/{fn}.rs:{line}-{end}`, `{m.group(1)}` -/')
                print(f'def {name} : MayPanic Unit := do')
                print('\n'.join(p.out))
                print(f'#guard passes {name}')
                total += 1
            except (NoSupport, KeyError, IndexError, TypeError) as ex:
                bad.append((name, repr(ex)))
    print('\nend StaticMath.Conformance')
    print(total, 'tests;', 'skipped:', bad, file=sys.stderr)
main()
