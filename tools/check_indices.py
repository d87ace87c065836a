#!/usr/bin/env python3
"""Every constant index written in the Rust text is inside the array it indexes.

The model writes a constant access `m[(i, j)]` as `m i j` with `i j : Fin n`, and Lean reduces a
numeral of type `Fin n` modulo `n`. A constant outside the array would panic in Rust but silently
wrap in the model, so this script checks the Rust text: all constants are below the size.
Accesses with a variable index are modelled by `get`/`set`, which return the panic.
"""
import re, sys

bad = 0
def text(f):
    return open('/repo/src/' + f).read().split('#[cfg(test)]')[0]
def check(f, t, n):
    global bad
    pairs = [(int(a), int(b)) for a, b in re.findall(r'\[\((\d+),\s*(\d+)\)\]', t)]
    singles = [int(a) for a in re.findall(r'\w\[(\d+)\]', t)]
    for a, b in pairs:
        if a >= n or b >= n:
            bad += 1; print(f, 'index', (a, b))
    for a in singles:
        if a >= n:
            bad += 1; print(f, 'index', a)
    print(f'{f}: {len(pairs)} pairs, {len(singles)} single indices, size {n}')
for n in range(2, 7):
    check(f'matrix{n}x{n}.rs', text(f'matrix{n}x{n}.rs'), n)
    check(f'vector{n}.rs', text(f'vector{n}.rs'), n)

# Named operands of the remaining files: the size is given by the declared type of the operand.
SIZES = {
    'transformations.rs': {'r': 3, 'v': 3, 'p': 3, 'p_trans': 3, 'result': 4, 'twist': 6, 'se3': 4,
                           's': 3, 'm': 2, 'mat_exp': 3, 'v_t': 3, 'omega': 3},
    'quaternion.rs': {'q': 3, 'v': 4, 'm': 3, 'data': 4},
    'dual_quaternion.rs': {'array': 7, 't': 3, 'imag()': 3},
    'utils.rs': {'imag()': 3},
    # `slice[0]` of `find_max_min` is modelled with its panic on the empty slice
    'slices_methods.rs': {'slice': 1},
}
# operands whose size depends on the function they occur in
PER_FN = {('transformations.rs', 'r'): {'get_parts': 4, 'get_parts_raw': 4},
          ('transformations.rs', 'v'): {'skew_v6': 6}}
for f, sizes in SIZES.items():
    t = text(f)
    fn = None; cnt = 0
    for line in t.split('\n'):
        if line.strip().startswith('//'):
            continue
        m = re.search(r'\bfn (\w+)', line)
        if m: fn = m.group(1)
        for name, a, b in re.findall(r'(\w+(?:\(\))?)\[\(?(\d+)(?:,\s*(\d+)\))?\]', line):
            n = PER_FN.get((f, name), {}).get(fn, sizes.get(name))
            cnt += 1
            if n is None:
                print(f, fn, 'unknown operand', name); bad += 1; continue
            if int(a) >= n or (b and int(b) >= n):
                print(f, fn, name, a, b, 'size', n); bad += 1
    print(f'{f}: {cnt} indices')
sys.exit(1 if bad else 0)
