#!/usr/bin/env python3
"""Writes lean/Verif/Model/Construct.lean (constructors, sizes, constants) and
lean/Verif/Model/Display.lean (the Display impls) from the Rust text in /repo/src."""
import re
R='/repo/src/'
def src(f): return open(R+f+'.rs').read()
def line(s,pos): return s.count('\n',0,pos)+1
def block(s,pat,start=0):
    """(first line, last line, text) of the brace block whose header matches pat."""
    m=re.compile(pat).search(s,start)
    i=s.index('{',m.end()-1) if s[m.end()-1]!='{' else m.end()-1
    d=0; k=i
    while True:
        if s[k]=='{': d+=1
        if s[k]=='}':
            d-=1
            if d==0: break
        k+=1
    return line(s,m.start()),line(s,k),s[i+1:k],m.start()
def cite(f,a,b): return f'`src/{f}.rs:{a}-{b}`' if a!=b else f'`src/{f}.rs:{a}`'
MN={2:'matrix2x2',3:'matrix3x3',4:'matrix4x4',5:'matrix5x5',6:'matrix6x6'}
out=['''import Verif.Model.Linear
import Verif.Model.DualQuaternion

/-!
# Constructors, sizes and constants

Generated by `tools/gen_construct.py` from the Rust text. An array `[T; n]` is a `Vec n T`, an array
of arrays `[[T; n]; n]` a `Vec n (Vec n T)`. The `f32` constants are stated for any element type;
`0.0` and `1.0` are its zero and one. The `mNN_new!` macros expand to `new` of the listed rows.
-/

namespace StaticMath

variable {T : Type}
''']
for n in range(2,7):
    f=f'vector{n}'; s=src(f); V=f'V{n}'
    a,b,t,_=block(s,r'pub const fn new\(input: \[T; %d\]\) -> Self \{'%n)
    assert t.strip() in ('Self(input)',f'{V}(input)')
    out.append(f'/-- {cite(f,a,b)} -/\ndef {V}.new (input : Vec {n} T) : Vec {n} T := input\n')
    m=re.search(r'pub const fn new_from\(([^)]*)\) -> Self \{',s)
    args=[x.split(':')[0].strip() for x in m.group(1).split(',')]
    a,b,t,_=block(s,r'pub const fn new_from\([^)]*\) -> Self \{')
    body=re.fullmatch(r'(?:Self|V\d)::new\(\[(.*)\]\)',t.strip()).group(1)
    out.append(f'/-- {cite(f,a,b)} -/\ndef {V}.new_from ({" ".join(args)} : T) : Vec {n} T := {V}.new ⟨![{body}]⟩\n')
    a,b,t,_=block(s,r'impl<T> From<\[T; %d\]> for V%d<T> \{'%(n,n))
    assert f'{V}(data)' in t
    out.append(f'/-- {cite(f,a,b)} -/\ndef {V}.from (data : Vec {n} T) : Vec {n} T := data\n')
    a,b,t,_=block(s,r'pub fn zeros\(\) -> \w+(<T>)? \{')
    assert 'Zero>::zero()' in t
    out.append(f'/-- {cite(f,a,b)} -/\ndef {V}.zeros [Zero T] : Vec {n} T := {V}.zero\n')
    for m in re.finditer(r'pub const (\w+): V%d<f32>\s*=\s*V%d::new_from\(([^)]*)\);'%(n,n),s):
        l=line(s,m.start()); vals=[{'0.0':'0','1.0':'1'}[x.strip()] for x in m.group(2).split(',')]
        nm=m.group(1); nm=nm if nm.startswith('V') else f'{V}.{nm}'
        one=' [One T]' if '1' in vals else ''
        out.append(f'/-- {cite(f,l,l)} -/\ndef {nm} [Zero T]{one} : Vec {n} T := {V}.new_from {" ".join(vals)}\n')
for n in range(2,7):
    f=MN[n]; s=src(f); M=f'M{n}{n}'
    a,b,t,_=block(s,r'pub (const )?fn new\(data_input: \[\[T; %d\]; %d\]\) -> \w+(<T>)? \{'%(n,n))
    assert t.strip() in ('Self(data_input)',f'{M}(data_input)')
    out.append(f'/-- {cite(f,a,b)} -/\ndef {M}.new (data_input : Vec {n} (Vec {n} T)) : Mat {n} T := ⟨fun i => (data_input i).val⟩\n')
    if n==2:
        a,b,t,_=block(s,r'pub const fn new_from\(a: T, b: T, c: T, d: T\) -> Self \{')
        assert t.strip()=='Self::new([[a, b], [c, d]])'
        out.append(f'/-- {cite(f,a,b)} -/\ndef {M}.new_from (a b c d : T) : Mat 2 T := {M}.new ⟨![⟨![a, b]⟩, ⟨![c, d]⟩]⟩\n')
    a,b,t,_=block(s,r'impl<T> From<\[\[T; %d\]; %d\]> for %s<T> \{'%(n,n,M))
    assert f'{M}(data)' in t
    out.append(f'/-- {cite(f,a,b)} -/\ndef {M}.from (data : Vec {n} (Vec {n} T)) : Mat {n} T := ⟨fun i => (data i).val⟩\n')
    a,b,t,p=block(s,r'pub (const )?fn rows\(&self\) -> usize \{'); assert t.strip()=='self.0.len()'
    a2,b2,t,_=block(s,r'\n    fn rows\(&self\) -> usize \{'); assert t.strip()=='self.0.len()'
    out.append(f'/-- {cite(f,a,b)}, {cite(f,a2+1,b2)}: the length of the outer array. -/\ndef {M}.rows (_self : Mat {n} T) : ℕ := {n}\n')
    a,b,t,p=block(s,r'pub (const )?fn cols\(&self\) -> usize \{'); assert t.strip()=='self.rows()'
    a2,b2,t,_=block(s,r'\n    fn cols\(&self\) -> usize \{'); assert t.strip()=='self.rows()'
    out.append(f'/-- {cite(f,a,b)}, {cite(f,a2+1,b2)} -/\ndef {M}.cols (self : Mat {n} T) : ℕ := {M}.rows self\n')
    out.append(f'/-- `src/traits.rs:40-42` -/\ndef {M}.shape (self : Mat {n} T) : ℕ × ℕ := ({M}.rows self, {M}.cols self)\n')
    a,b,t,_=block(s,r'pub fn identity\(\) -> %s<T> \{'%M); assert 'One>::one()' in t
    out.append(f'/-- {cite(f,a,b)} -/\ndef {M}.identity [Zero T] [One T] : Mat {n} T := {M}.one\n')
    a,b,t,_=block(s,r'pub fn zeros\(\) -> %s<T> \{'%M); assert 'Zero>::zero()' in t
    out.append(f'/-- {cite(f,a,b)} -/\ndef {M}.zeros [Zero T] : Mat {n} T := {M}.zero\n')
    a,b,t,_=block(s,r'macro_rules! m%d%d_new \{'%(n,n))
    rows=re.findall(r'\$\(\$(\w+):expr\),\*',t)
    use=re.findall(r'\[\$\(\$(\w+)\),\*\]',t)
    assert len(rows)==n==len(use) and set(rows)==set(use)
    out.append(f'/-- {cite(f,a,b)}: the `i`-th listed row is the `i`-th argument. -/\ndef m{n}{n}_new ({" ".join(rows)} : Vec {n} T) : Mat {n} T :=\n  {M}.new ⟨![{", ".join(use)}]⟩\n')
    for m in re.finditer(r'pub const (\w+): M%d%d<f32>\s*=\s*m%d%d_new!\(([^)]*)\);'%(n,n,n,n),s):
        l=line(s,m.start()); rr=[[{'0.0':'0','1.0':'1'}[x.strip()] for x in r.split(',')] for r in m.group(2).split(';')]
        one=' [One T]' if any('1' in r for r in rr) else ''
        out.append(f'/-- {cite(f,l,l)} -/\ndef {m.group(1)} [Zero T]{one} : Mat {n} T := m{n}{n}_new '+' '.join('⟨!['+', '.join(r)+']⟩' for r in rr)+'\n')
s=src('quaternion')
a,b,t,_=block(s,r'impl<T: Copy> From<\[T; 4\]> for Quaternion<T> \{')
assert 'Quaternion::new_from(data[0], data[1], data[2], data[3])' in t
out.append(f'/-- {cite("quaternion",a,b)} -/\ndef Quat.from (data : Vec 4 T) : Quat T := Quat.new_from (data 0) (data 1) (data 2) (data 3)\n')
out.append('end StaticMath\n')
txt='\n'.join(out)
open('/verif/lean/Verif/Model/Construct.lean','w').write(txt)

# ---------------------------------------------------------------- Display
out=['''import Verif.Model.DualQuaternion

/-!
# `Display` of vectors, matrices, quaternions and dual quaternions

Generated by `tools/gen_construct.py` from the Rust text. Formatting one number with a format
specification (fill/alignment, width, precision) is the parameter `sh`; it is code of core, not of
the crate. The destination is a growing string that never fails, so every `?` continues. What
`println!` sends to the standard output is recorded separately.
-/

namespace StaticMath

/-- A format specification `{:<7.2}`: alignment, width, precision. -/
structure FmtSpec where
  align : Char
  width : ℕ
  precision : ℕ
  deriving DecidableEq, Repr

/-- Effects of a `fmt` call: the characters printed on the standard output and those written to the
destination. -/
structure Printed where
  stdout : String
  dest : String
  deriving DecidableEq, Repr

/-- `println!()` of std. -/
def Printed.println (p : Printed) : Printed := { p with stdout := p.stdout ++ "\\n" }

/-- `write!(dest, …)` of core with the arguments already rendered. -/
def Printed.write (p : Printed) (parts : List String) : Printed :=
  { p with dest := p.dest ++ String.join parts }

/-- `writeln!(dest, …)` of core: `write!` with a final newline. -/
def Printed.writeln (p : Printed) (parts : List String) : Printed := p.write (parts ++ ["\\n"])

variable {T : Type}
''']
def pieces(fmt,args):
    """Lean list elements for a Rust format string; args: Lean terms."""
    res=[];pos=0
    for m in re.finditer(r'\{(\d*)(?::([<^>])(\d+)\.(\d+))?\}',fmt):
        if m.start()>pos: res.append('"'+fmt[pos:m.start()]+'"')
        k=int(m.group(1)) if m.group(1) else pieces.auto
        if not m.group(1): pieces.auto+=1
        res.append(f"sh ⟨'{m.group(2)}', {m.group(3)}, {m.group(4)}⟩ ({args[k]})")
        pos=m.end()
    if pos<len(fmt): res.append('"'+fmt[pos:]+'"')
    return res
def wrap(l,ind):
    o='';cur=''
    for k,x in enumerate(l):
        x=x+(', ' if k<len(l)-1 else '')
        if len(cur)+len(x)>84: o+=cur.rstrip()+'\n'+ind; cur=x
        else: cur+=x
    return o+cur
for n in range(2,7):
    f=f'vector{n}'; s=src(f)
    a,b,t,_=block(s,r'impl<T: Num \+ fmt::Display> fmt::Display for V%d<T> \{'%n)
    assert 'println' not in t
    ws=re.findall(r'writeln!\(\s*dest,\s*"([^"]*)",\s*([^;]*?)\s*\)\s*\}',t)
    assert len(ws)==1
    idx=re.findall(r'self\[(\d)\]',ws[0][1]); p=pieces(ws[0][0],[f'self {i}' for i in idx])
    out.append(f'/-- {cite(f,a,b)} -/\ndef V{n}.fmt (sh : FmtSpec → T → String) (self : Vec {n} T) (dest : Printed) : Printed :=\n  dest.writeln [{wrap(p,"    ")}]\n')
for n in range(2,7):
    f=MN[n]; s=src(f)
    a,b,t,_=block(s,r'impl<T: Num \+ fmt::Display> fmt::Display for M%d%d<T> \{'%(n,n))
    assert t.index('println!();')<t.index('writeln!') and t.count('println!')==1
    ws=re.findall(r'writeln!\(\s*dest,\s*"([^"]*)",\s*(.*?)\s*\)(?:\?;|\s*\})',t,re.S)
    assert len(ws)==n==t.count('writeln!')
    o=f'/-- {cite(f,a,b)} -/\ndef M{n}{n}.fmt (sh : FmtSpec → T → String) (self : Mat {n} T) (dest : Printed) : Printed :=\n  let dest := dest.println\n'
    for k,(fm,ar) in enumerate(ws):
        idx=re.findall(r'self\[\((\d), (\d)\)\]',ar); assert len(idx)==n
        p=pieces(fm,[f'self {i} {j}' for i,j in idx])
        o+=('  let dest := ' if k<n-1 else '  ')+f'dest.writeln [{wrap(p,"    ")}]\n'
    out.append(o)
s=src('quaternion')
a,b,t,_=block(s,r'impl<T: Num \+ fmt::Display> fmt::Display for Quaternion<T> \{')
assert 'write!(dest, "q0: {0:^3.2}, q:{1:^3.2}", self.q0, self.q)' in t
out.append(f'''/-- {cite("quaternion",a,b)}; formatting `self.q` calls the `fmt` of `V3`, which ignores the format
specification. -/
def Quat.fmt (sh : FmtSpec → T → String) (self : Quat T) (dest : Printed) : Printed :=
  let dest := dest.write ["q0: ", sh ⟨'^', 3, 2⟩ self.q0, ", q:"]
  V3.fmt sh self.q dest
''')
s=src('dual_quaternion')
a,b,t,_=block(s,r'impl<T: Num \+ fmt::Display> fmt::Display for DualQuaternion<T> \{')
assert r'write!(dest, "real: {}\ndual: {}", self.q_real, self.q_dual)' in t
out.append(f'''/-- {cite("dual_quaternion",a,b)} -/
def DQuat.fmt (sh : FmtSpec → T → String) (self : DQuat T) (dest : Printed) : Printed :=
  let dest := dest.write ["real: "]
  let dest := Quat.fmt sh self.q_real dest
  let dest := dest.write ["\\ndual: "]
  Quat.fmt sh self.q_dual dest
''')
out.append('end StaticMath\n')
open('/verif/lean/Verif/Model/Display.lean','w').write('\n'.join(out))
