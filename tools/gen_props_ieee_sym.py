#!/usr/bin/env python3
"""lean/Verif/Props/IeeeSym.lean"""
out = []
w = out.append
w('''import Verif.Lemmas.Eval
import Verif.Props.Ieee
import Verif.Props.IeeeQuat
import Verif.Props.IeeeDet

/-!
# C107, C108: floating point identities that hold without any rounding error

Generated by `tools/gen_props_ieee_sym.py`. `Same`: every pair of components is equal for Rust's `==`, or
both are NaN. `AllFin`: every component is finite.
-/

namespace StaticMath
open Flt

/-! ## C107 sign symmetries -/
''')
for n in range(2, 7):
    V = f'V{n}'; M = f'M{n}{n}'; mt = f'Mat {n} (Flt f)'; vt = f'Vec {n} (Flt f)'
    sg = '' if n % 2 == 0 else '-'
    W = {2: 'V2', 3: 'V3', 4: 'V4', 5: 'V5', 6: 'V6'}[n]
    w(f'''/-- Negation moves through sums, products, matrix-vector products, dot products and the trace without any
rounding difference, and `det(-A) = {sg}det A`; NaN and infinities included. -/
theorem C107_signs_{M} {{f : Fmt}} (A B : {mt}) (v w : {vt}) :
    (({M}.mul ({M}.neg A) B).Same ({M}.neg ({M}.mul A B)) ∧ ({M}.mul A ({M}.neg B)).Same ({M}.neg ({M}.mul A B)) ∧
      ({M}.mul ({M}.neg A) ({M}.neg B)).Same ({M}.mul A B)) ∧
    (({M}.sub A B).Same ({M}.neg ({M}.sub B A)) ∧ ({M}.sub A B).Same ({M}.add A ({M}.neg B)) ∧
      ({M}.add ({M}.neg A) ({M}.neg B)).Same ({M}.neg ({M}.add A B)) ∧ {M}.neg ({M}.neg A) = A) ∧
    (({M}.mulVec ({M}.neg A) v).Same ({V}.neg ({M}.mulVec A v)) ∧ ({M}.mulVec A ({V}.neg v)).Same ({V}.neg ({M}.mulVec A v))) ∧
    (({V}.sub v w).Same ({V}.neg ({V}.sub w v)) ∧ ({V}.dot ({V}.neg v) w).Same (-{V}.dot v w) ∧
      ({V}.dot ({V}.neg v) ({V}.neg w)).Same ({V}.dot v w)) ∧
    ({M}.det ({M}.neg A)).Same ({sg}{M}.det A) ∧ ({M}.trace ({M}.neg A)).Same (-{M}.trace A) := by
  refine ⟨⟨?_, ?_, ?_⟩, ⟨?_, ?_, ?_, ?_⟩, ⟨?_, ?_⟩, ⟨?_, ?_, ?_⟩, ?_, ?_⟩''')
    def two(kind, X, Y, ax, ay, l, r):
        w(f'  · simpa only [ev] using {kind}.same_of (Sum.elim {ax}.fl {ay}.fl)\n      (show {kind}.simEq .none ({l.format(X, Y)}) ({r.format(X, Y)}) = true by decide +kernel)')
    x, y = '(Mat.vr Sum.inl)', '(Mat.vr Sum.inr)'
    MM = lambda l, r: two('Mat', x, y, 'A', 'B', l, r)
    MM(f'{M}.mul ({M}.neg {{0}}) {{1}}', f'{M}.neg ({M}.mul {{0}} {{1}})')
    MM(f'{M}.mul {{0}} ({M}.neg {{1}})', f'{M}.neg ({M}.mul {{0}} {{1}})')
    MM(f'{M}.mul ({M}.neg {{0}}) ({M}.neg {{1}})', f'{M}.mul {{0}} {{1}}')
    MM(f'{M}.sub {{0}} {{1}}', f'{M}.neg ({M}.sub {{1}} {{0}})')
    MM(f'{M}.sub {{0}} {{1}}', f'{M}.add {{0}} ({M}.neg {{1}})')
    MM(f'{M}.add ({M}.neg {{0}}) ({M}.neg {{1}})', f'{M}.neg ({M}.add {{0}} {{1}})')
    w('  · refine Mat.ext (funext fun i => funext fun j => ?_)\n    fin_cases i <;> fin_cases j <;> exact neg_neg\' _')
    x, y = '(Mat.vr Sum.inl)', '(Vec.vr Sum.inr)'
    MV = lambda l, r: two('Vec', x, y, 'A', 'v', l, r)
    MV(f'{M}.mulVec ({M}.neg {{0}}) {{1}}', f'{V}.neg ({M}.mulVec {{0}} {{1}})')
    MV(f'{M}.mulVec {{0}} ({V}.neg {{1}})', f'{V}.neg ({M}.mulVec {{0}} {{1}})')
    x, y = '(Vec.vr Sum.inl)', '(Vec.vr Sum.inr)'
    two('Vec', x, y, 'v', 'w', f'{V}.sub {{0}} {{1}}', f'{V}.neg ({V}.sub {{1}} {{0}})')
    two('Ex', x, y, 'v', 'w', f'{V}.dot ({V}.neg {{0}}) {{1}}', f'-{V}.dot {{0}} {{1}}')
    two('Ex', x, y, 'v', 'w', f'{V}.dot ({V}.neg {{0}}) ({V}.neg {{1}})', f'{V}.dot {{0}} {{1}}')
    def one(kind, X, ax, l, r):
        w(f'  · simpa only [ev] using {kind}.same_of {ax}.fl\n      (show {kind}.simEq .none ({l.format(X)}) ({r.format(X)}) = true by decide +kernel)')
    one('Ex', '(Mat.vr id)', 'A', f'{M}.det ({M}.neg {{0}})', f'{sg}{M}.det {{0}}')
    one('Ex', '(Mat.vr id)', 'A', f'{M}.trace ({M}.neg {{0}})', f'-{M}.trace {{0}}')
    w('')

def claims(stmts):
    """stmts: list of (statement, kind, valuation, lhs, rhs)"""
    return ' ∧\n    '.join(s[0] for s in stmts)

def emit(name, doc, binders, stmts, fin=False):
    w(f'/-- {doc} -/\ntheorem {name} {{f : Fmt}} {binders} :\n    {claims(stmts)} := by')
    w('  refine ⟨' + ', '.join('?_' for _ in stmts) + '⟩' if len(stmts) > 1 else '  refine ?_')
    for (st, kind, val, l, r, *rest) in stmts:
        if rest and rest[0] == 'fin':
            w(f'  · intro h\n    have hs := show {kind}.simEq .result ({l}) ({r}) = true by decide +kernel\n'
              f'    have := {kind}.same_of_fin ({val}) hs (by simpa only [ev] using {rest[1]}) (by simpa only [ev] using {rest[2]})\n'
              f'    simpa only [ev] using this')
        else:
            w(f'  · simpa only [ev] using {kind}.same_of ({val})\n      (show {kind}.simEq .none ({l}) ({r}) = true by decide +kernel)')
    w('')
ab = 'Sum.elim a.fl b.fl'; va, vb = '(Vec.vr Sum.inl)', '(Vec.vr Sum.inr)'
emit('C107_cross', 'The cross product is exactly antisymmetric and odd in each argument; the hat matrix is exactly skew.',
     '(a b : Vec 3 (Flt f))', [
  ('(V3.cross a b).Same (V3.neg (V3.cross b a))', 'Vec', ab, f'V3.cross {va} {vb}', f'V3.neg (V3.cross {vb} {va})'),
  ('(V3.cross (V3.neg a) b).Same (V3.neg (V3.cross a b))', 'Vec', ab, f'V3.cross (V3.neg {va}) {vb}', f'V3.neg (V3.cross {va} {vb})'),
  ('(V3.cross a (V3.neg b)).Same (V3.neg (V3.cross a b))', 'Vec', ab, f'V3.cross {va} (V3.neg {vb})', f'V3.neg (V3.cross {va} {vb})'),
  ('(M33.transpose (skew_from_vec a)).Same (M33.neg (skew_from_vec a))', 'Mat', ab, f'M33.transpose (skew_from_vec {va})', f'M33.neg (skew_from_vec {va})'),
])
pq = 'Sum.elim p.fl q.fl'; P, Q = '(Quat.vr Sum.inl)', '(Quat.vr Sum.inr)'
emit('C107_quaternion', 'Conjugation reverses products exactly and is an involution; signs move through products exactly.',
     '(p q : Quat (Flt f))', [
  ('(p.mul q).conj.Same (q.conj.mul p.conj)', 'Quat', pq, f'(Quat.mul {P} {Q}).conj', f'Quat.mul (Quat.conj {Q}) (Quat.conj {P})'),
  ('p.conj.conj.Same p', 'Quat', 'p.fl', '(Quat.conj (Quat.vr id)).conj', 'Quat.vr id'),
  ('(p.neg.mul q).Same (p.mul q).neg', 'Quat', pq, f'(Quat.neg {P}).mul {Q}', f'(Quat.mul {P} {Q}).neg'),
  ('(p.mul q.neg).Same (p.mul q).neg', 'Quat', pq, f'Quat.mul {P} (Quat.neg {Q})', f'(Quat.mul {P} {Q}).neg'),
  ('(p.neg.mul q.neg).Same (p.mul q)', 'Quat', pq, f'(Quat.neg {P}).mul (Quat.neg {Q})', f'Quat.mul {P} {Q}'),
  ('(p.sub q).Same (q.sub p).neg', 'Quat', pq, f'Quat.sub {P} {Q}', f'(Quat.sub {Q} {P}).neg'),
  ('(p.neg.dot q.neg).Same (p.dot q)', 'Ex', pq, f'(Quat.neg {P}).dot (Quat.neg {Q})', f'Quat.dot {P} {Q}'),
  ('(p.dot q).Same (q.dot p)', 'Ex', pq, f'Quat.dot {P} {Q}', f'Quat.dot {Q} {P}'),
])
qv = 'Sum.elim q.fl v.fl'; q1, v1 = '(Quat.vr Sum.inl)', '(Vec.vr Sum.inr)'
emit('C107_double_cover', '`q` and `-q` rotate every vector to exactly the same result and give exactly the same rotation matrix;\n'
     'rotating `-v` gives exactly the negated result; the conjugate gives exactly the transposed matrix.',
     '(q : Quat (Flt f)) (v : Vec 3 (Flt f))', [
  ('(q.neg.mulVec v).Same (q.mulVec v)', 'Vec', qv, f'(Quat.neg {q1}).mulVec {v1}', f'Quat.mulVec {q1} {v1}'),
  ('(q.mulVec (V3.neg v)).Same (V3.neg (q.mulVec v))', 'Vec', qv, f'Quat.mulVec {q1} (V3.neg {v1})', f'V3.neg (Quat.mulVec {q1} {v1})'),
  ('q.neg.to_rotation.Same q.to_rotation', 'Mat', 'q.fl', '(Quat.neg (Quat.vr id)).to_rotation', 'Quat.to_rotation (Quat.vr id)'),
  ('q.conj.to_rotation.Same (M33.transpose q.to_rotation)', 'Mat', 'q.fl', '(Quat.conj (Quat.vr id)).to_rotation', 'M33.transpose (Quat.to_rotation (Quat.vr id))'),
])
P, Q = '(DQuat.vr Sum.inl)', '(DQuat.vr Sum.inr)'
q1 = '(DQuat.vr Sum.inl)'
emit('C107_dual', 'Conjugation reverses dual quaternion products exactly; `dq` and `-dq` have exactly the same product signs.',
     '(p q : DQuat (Flt f))', [
  ('(p.mul q).conj.Same (q.conj.mul p.conj)', 'DQuat', pq, f'(DQuat.mul {P} {Q}).conj', f'DQuat.mul (DQuat.conj {Q}) (DQuat.conj {P})'),
  ('p.conj.conj.Same p', 'DQuat', 'p.fl', '(DQuat.conj (DQuat.vr id)).conj', 'DQuat.vr id'),
  ('p.conj_combined.conj_combined.Same p', 'DQuat', 'p.fl', '(DQuat.conj_combined (DQuat.vr id)).conj_combined', 'DQuat.vr id'),
  ('(p.mul q).conj_combined.Same (q.conj_combined.mul p.conj_combined)', 'DQuat', pq, f'(DQuat.mul {P} {Q}).conj_combined', f'DQuat.mul (DQuat.conj_combined {Q}) (DQuat.conj_combined {P})'),
  ('(p.neg.mul q).Same (p.mul q).neg', 'DQuat', pq, f'(DQuat.neg {P}).mul {Q}', f'(DQuat.mul {P} {Q}).neg'),
  ('(p.mul q.neg).Same (p.mul q).neg', 'DQuat', pq, f'DQuat.mul {P} (DQuat.neg {Q})', f'(DQuat.mul {P} {Q}).neg'),
  ('(p.sub q).Same (q.sub p).neg', 'DQuat', pq, f'DQuat.sub {P} {Q}', f'(DQuat.sub {Q} {P}).neg'),
])
emit('C107_dual_double_cover', '`dq` and `-dq` move every point to exactly the same place and have exactly the same translation and\nhomogeneous matrix.',
     '(q : DQuat (Flt f)) (v : Vec 3 (Flt f))', [
  ('(q.neg.transform_point v).Same (q.transform_point v)', 'Vec', qv, f'(DQuat.neg {q1}).transform_point {v1}', f'DQuat.transform_point {q1} {v1}'),
  ('q.neg.get_translation.Same q.get_translation', 'Vec', 'q.fl', '(DQuat.neg (DQuat.vr id)).get_translation', 'DQuat.get_translation (DQuat.vr id)'),
  ('q.neg.to_homogeneous.Same q.to_homogeneous', 'Mat', 'q.fl', '(DQuat.neg (DQuat.vr id)).to_homogeneous', 'DQuat.to_homogeneous (DQuat.vr id)'),
])
w('''/-- A case with NaN, an infinity and a signed zero. -/
example : (V3.cross ⟨![nan, -0, 1]⟩ (⟨![1, inf true, 1]⟩ : Vec 3 (Flt Fmt.f32))).Same
    (V3.neg (V3.cross ⟨![1, inf true, 1]⟩ ⟨![nan, -0, 1]⟩)) := (C107_cross _ _).1

/-- The comparison is not vacuous: `1` is not the `Same` as `-1` or NaN. -/
example : ¬(1 : Flt Fmt.f64).Same (-1) ∧ ¬(1 : Flt Fmt.f64).Same nan := by
  constructor
  · rw [same_iff, cls_neg, cls_fin isFin_one, toReal_one, FVal.neg]
    intro h
    injection h with h
    norm_num at h
  · rintro (⟨h, -⟩ | h)
    · exact absurd h (by intro h; have := isFin_one (f := Fmt.f64); rw [h] at this; exact this)
    · exact absurd h (by simp [ROrd.beq, beq])
''')

w('/-! ## C108 structural zeros and identities -/\n')
PROD = {2: 'A 0 0 * A 1 1', 3: 'A 0 0 * (A 1 1 * A 2 2)', 4: 'A 1 1 * (A 3 3 * (A 0 0 * A 2 2))',
        5: 'A 4 4 * (A 3 3 * (A 2 2 * (A 0 0 * A 1 1)))', 6: 'A 5 5 * (A 4 4 * (A 3 3 * (A 2 2 * (A 0 0 * A 1 1))))'}
w('''/-- Replace a row by zeros. -/
private def zrow {n : ℕ} {T : Type} [Zero T] (k : Fin n) (A : Mat n T) : Mat n T := ⟨fun i j => if i = k then 0 else A i j⟩
/-- Replace a column by zeros. -/
private def zcol {n : ℕ} {T : Type} [Zero T] (k : Fin n) (A : Mat n T) : Mat n T := ⟨fun i j => if j = k then 0 else A i j⟩
/-- Replace the entries below the diagonal by zeros. -/
private def upper {n : ℕ} {T : Type} [Zero T] (A : Mat n T) : Mat n T := ⟨fun i j => if j < i then 0 else A i j⟩
/-- Replace the entries above the diagonal by zeros. -/
private def lower {n : ℕ} {T : Type} [Zero T] (A : Mat n T) : Mat n T := ⟨fun i j => if i < j then 0 else A i j⟩

private theorem zrow_ev {ι : Type} {f : Fmt} {n : ℕ} (x : ι → Flt f) (k : Fin n) (A : Mat n (Ex ι)) :
    (zrow k A).ev x = zrow k (A.ev x) := by
  refine Mat.ext (funext fun i => funext fun j => ?_)
  show (if i = k then 0 else A i j).evalF x = if i = k then 0 else (A i j).evalF x
  split <;> rfl
private theorem zcol_ev {ι : Type} {f : Fmt} {n : ℕ} (x : ι → Flt f) (k : Fin n) (A : Mat n (Ex ι)) :
    (zcol k A).ev x = zcol k (A.ev x) := by
  refine Mat.ext (funext fun i => funext fun j => ?_)
  show (if j = k then 0 else A i j).evalF x = if j = k then 0 else (A i j).evalF x
  split <;> rfl
private theorem upper_ev {ι : Type} {f : Fmt} {n : ℕ} (x : ι → Flt f) (A : Mat n (Ex ι)) :
    (upper A).ev x = upper (A.ev x) := by
  refine Mat.ext (funext fun i => funext fun j => ?_)
  show (if j < i then 0 else A i j).evalF x = if j < i then 0 else (A i j).evalF x
  split <;> rfl
private theorem lower_ev {ι : Type} {f : Fmt} {n : ℕ} (x : ι → Flt f) (A : Mat n (Ex ι)) :
    (lower A).ev x = lower (A.ev x) := by
  refine Mat.ext (funext fun i => funext fun j => ?_)
  show (if i < j then 0 else A i j).evalF x = if i < j then 0 else (A i j).evalF x
  split <;> rfl
private theorem zrow_same {f : Fmt} {n : ℕ} {A : Mat n (Flt f)} {k : Fin n} (h : ∀ j, ROrd.beq (A k j) 0 = true) :
    A.Same (zrow k A) := fun i j => by
  show (A i j).Same (if i = k then 0 else A i j)
  split
  · rename_i e; rw [e]; exact .inr (h j)
  · exact .refl _
private theorem zcol_same {f : Fmt} {n : ℕ} {A : Mat n (Flt f)} {k : Fin n} (h : ∀ i, ROrd.beq (A i k) 0 = true) :
    A.Same (zcol k A) := fun i j => by
  show (A i j).Same (if j = k then 0 else A i j)
  split
  · rename_i e; rw [e]; exact .inr (h i)
  · exact .refl _
private theorem upper_same {f : Fmt} {n : ℕ} {A : Mat n (Flt f)} (h : ∀ i j, j < i → ROrd.beq (A i j) 0 = true) :
    A.Same (upper A) := fun i j => by
  show (A i j).Same (if j < i then 0 else A i j)
  split
  · rename_i e; exact .inr (h i j e)
  · exact .refl _
private theorem lower_same {f : Fmt} {n : ℕ} {A : Mat n (Flt f)} (h : ∀ i j, i < j → ROrd.beq (A i j) 0 = true) :
    A.Same (lower A) := fun i j => by
  show (A i j).Same (if i < j then 0 else A i j)
  split
  · rename_i e; exact .inr (h i j e)
  · exact .refl _
''')
for n in range(2, 7):
    M = f'M{n}{n}'; mt = f'Mat {n} (Flt f)'
    import re
    prE = re.sub(r'A (\d) (\d)', r'(Mat.vr id : Mat %d (Ex (Fin %d × Fin %d))) \1 \2' % (n, n, n), PROD[n])
    rec = 'set_option maxRecDepth 20000 in\n' if n >= 5 else ''
    w(f'''private theorem det_congr_{M} {{f : Fmt}} {{A B : {mt}}} (h : A.Same B) : ({M}.det A).Same ({M}.det B) := by
  have := Ex.evalF_congr (x := A.fl) (y := B.fl) (fun i => h i.1 i.2) ({M}.det (Mat.vr id))
  simpa only [ev] using this

{rec}/-- A matrix with a row or a column of zeros (of either sign): if the computed determinant is finite it is zero,
and `inverse` returns `None`. -/
theorem C108_zero_line_{M} {{f : Fmt}} [Libm f] (A : {mt}) (k : Fin {n})
    (hk : (∀ j, ROrd.beq (A k j) 0 = true) ∨ (∀ i, ROrd.beq (A i k) 0 = true)) (h : ({M}.det A).IsFin) :
    ROrd.beq ({M}.det A) 0 = true ∧ {M}.inverse A = .ok none := by
  have h0 : ({M}.det A).Same 0 := by
    rcases hk with hk | hk
    · have h1 := det_congr_{M} (zrow_same hk)
      have h2 : ∀ k : Fin {n}, Ex.simEq .result ({M}.det (zrow k (Mat.vr id))) 0 = true := by decide +kernel
      have h3 := Ex.same_of_fin A.fl (h2 k) (by simpa only [ev, zrow_ev] using (h1.isFin h).1)
      simp only [ev, zrow_ev] at h3
      exact h1.trans h3
    · have h1 := det_congr_{M} (zcol_same hk)
      have h2 : ∀ k : Fin {n}, Ex.simEq .result ({M}.det (zcol k (Mat.vr id))) 0 = true := by decide +kernel
      have h3 := Ex.same_of_fin A.fl (h2 k) (by simpa only [ev, zcol_ev] using (h1.isFin h).1)
      simp only [ev, zcol_ev] at h3
      exact h1.trans h3
  have h4 := h0.symm.isFin isFin_zero
  refine ⟨h0.resolve_left fun e => ?_, (C91_{M} A).2.1.2 ⟨h4.1, ?_⟩⟩
  · rw [e.1] at h; exact h
  · rw [h4.2, toReal_zero, abs_zero]; positivity

{rec}/-- The determinant of a triangular matrix is computed as the product of the diagonal, in the order shown, with
no other rounding. -/
theorem C108_triangular_{M} {{f : Fmt}} (A : {mt})
    (ht : (∀ i j, j < i → ROrd.beq (A i j) 0 = true) ∨ (∀ i j, i < j → ROrd.beq (A i j) 0 = true))
    (h : ({M}.det A).IsFin) : ({M}.det A).Same ({PROD[n]}) := by
  rcases ht with ht | ht
  · have h1 := det_congr_{M} (upper_same ht)
    have h2 : Ex.simEq .result ({M}.det (upper (Mat.vr id))) ({prE}) = true := by decide +kernel
    have h3 := Ex.same_of_fin A.fl h2 (by simpa only [ev, upper_ev] using (h1.isFin h).1)
    simp only [ev, upper_ev] at h3
    exact h1.trans h3
  · have h1 := det_congr_{M} (lower_same ht)
    have h2 : Ex.simEq .result ({M}.det (lower (Mat.vr id))) ({prE}) = true := by decide +kernel
    have h3 := Ex.same_of_fin A.fl h2 (by simpa only [ev, lower_ev] using (h1.isFin h).1)
    simp only [ev, lower_ev] at h3
    exact h1.trans h3
''')
def emit2(name, doc, binders, stmts, hx):
    w(f'/-- {doc} -/\ntheorem {name} {{f : Fmt}} {binders} :\n    {claims(stmts)} := by')
    w('  refine ⟨' + ', '.join('?_' for _ in stmts) + '⟩' if len(stmts) > 1 else '  refine ?_')
    for (st, kind, val, l, r, hx) in stmts:
        if hx == 'res':
            w(f'  · intro h\n    have := {kind}.same_of_fin ({val}) (show {kind}.simEq .result ({l}) ({r}) = true by decide +kernel)\n      (by simpa only [ev] using h)\n    simpa only [ev] using this')
        else:
            w(f'  · have := {kind}.same_of_inputs ({val}) (show {kind}.simEq .inputs ({l}) ({r}) = true by decide +kernel)\n      ({hx})\n    simp only [ev] at this\n    exact this')
    w('')
hab = 'isFin_elim ha.fl hb.fl'
emit2('C108_cross', 'Multiplying by the hat matrix is exactly the cross product, for finite inputs; `a × a` is exactly zero\nunless a product overflows.',
  '(a b : Vec 3 (Flt f)) (ha : a.AllFin) (hb : b.AllFin)', [
  ('(M33.mulVec (skew_from_vec a) b).Same (V3.cross a b)', 'Vec', ab, f'M33.mulVec (skew_from_vec {va}) {vb}', f'V3.cross {va} {vb}', hab),
  ('((V3.cross a a).AllFin → (V3.cross a a).Same V3.zero)', 'Vec', 'a.fl', 'V3.cross (Vec.vr id) (Vec.vr id)', 'V3.zero', 'res'),
  ], None)
I = '(Quat.vr id)'
emit2('C108_quaternion', '`q * conj q` and `conj q * q` have exactly zero imaginary part (unless a product overflows) and exactly\n`dot q q` as real part. The unit quaternion is an exact identity of products and rotations.',
  '(q : Quat (Flt f)) (v : Vec 3 (Flt f)) (hq : q.AllFin) (hv : v.AllFin)', [
  ('((q.mul q.conj).imag.AllFin → (q.mul q.conj).imag.Same V3.zero)', 'Vec', 'q.fl', f'(Quat.mul {I} (Quat.conj {I})).imag', 'V3.zero', 'res'),
  ('((q.conj.mul q).imag.AllFin → (q.conj.mul q).imag.Same V3.zero)', 'Vec', 'q.fl', f'(Quat.mul (Quat.conj {I}) {I}).imag', 'V3.zero', 'res'),
  ('(q.mul q.conj).real.Same (q.dot q)', 'Ex', 'q.fl', f'(Quat.mul {I} (Quat.conj {I})).real', f'Quat.dot {I} {I}', 'hq.fl'),
  ('(q.conj.mul q).real.Same (q.dot q)', 'Ex', 'q.fl', f'(Quat.mul (Quat.conj {I}) {I}).real', f'Quat.dot {I} {I}', 'hq.fl'),
  ('(Quat.one.mul q).Same q', 'Quat', 'q.fl', f'Quat.one.mul {I}', I, 'hq.fl'),
  ('(q.mul Quat.one).Same q', 'Quat', 'q.fl', f'Quat.mul {I} Quat.one', I, 'hq.fl'),
  ('(Quat.one.mulVec v).Same v', 'Vec', 'v.fl', 'Quat.one.mulVec (Vec.vr id)', 'Vec.vr id', 'hv.fl'),
  ('(Quat.one.to_rotation : Mat 3 (Flt f)).Same M33.one', 'Mat', 'v.fl', 'Quat.one.to_rotation', 'M33.one', 'hv.fl'),
  ], None)
I = '(DQuat.vr id)'
emit2('C108_dual', 'The unit dual quaternion is an exact identity of products and point transformations.',
  '(q : DQuat (Flt f)) (v : Vec 3 (Flt f)) (hq : q.AllFin) (hv : v.AllFin)', [
  ('(DQuat.one.mul q).Same q', 'DQuat', 'q.fl', f'DQuat.one.mul {I}', I, 'hq.fl'),
  ('(q.mul DQuat.one).Same q', 'DQuat', 'q.fl', f'DQuat.mul {I} DQuat.one', I, 'hq.fl'),
  ('(DQuat.one.transform_point v).Same v', 'Vec', 'v.fl', 'DQuat.one.transform_point (Vec.vr id)', 'Vec.vr id', 'hv.fl'),
  ], None)
P, Q = '(Quat.vr Sum.inl)', '(Quat.vr Sum.inr)'
emit2('C108_dual_compose', 'Pure rotations compose to exactly the pure rotation of the quaternion product; `new_from_point` values\ncompose to exactly that of the vector sum.',
  '(p q : Quat (Flt f)) (a b : Vec 3 (Flt f)) (hp : p.AllFin) (hq : q.AllFin) (ha : a.AllFin) (hb : b.AllFin)', [
  ('((DQuat.new_from_rotation p).mul (DQuat.new_from_rotation q)).Same (DQuat.new_from_rotation (p.mul q))', 'DQuat', pq,
   f'(DQuat.new_from_rotation {P}).mul (DQuat.new_from_rotation {Q})', f'DQuat.new_from_rotation (Quat.mul {P} {Q})', 'isFin_elim hp.fl hq.fl'),
  ('((DQuat.new_from_point a).mul (DQuat.new_from_point b)).Same (DQuat.new_from_point (V3.add a b))', 'DQuat', ab,
   f'(DQuat.new_from_point {va}).mul (DQuat.new_from_point {vb})', f'DQuat.new_from_point (V3.add {va} {vb})', hab),
  ], None)
val = 'Sum.elim (Sum.elim R.fl p.fl) (Sum.elim S.fl q.fl)'
hval = 'isFin_elim (isFin_elim hR.fl hp.fl) (isFin_elim hS.fl hq.fl)'
rR, rp, rS, rq = '(Mat.vr fun i => .inl (.inl i))', '(Vec.vr fun i => .inl (.inr i))', '(Mat.vr fun i => .inr (.inl i))', '(Vec.vr fun i => .inr (.inr i))'
w('''/-- The last row of a product of homogeneous transforms is exactly `[0, 0, 0, 1]`, and the first two rows are exactly
those of the `3x3` product and of `R q + p`. The third row has the same terms, summed in another order (the
code adds the first product last). -/''')
H = 'M44.mul (homogeneous_from_rotation R p) (homogeneous_from_rotation S q)'
HE = f'M44.mul (homogeneous_from_rotation {rR} {rp}) (homogeneous_from_rotation {rS} {rq})'
T = 'homogeneous_from_rotation (M33.mul R S) (V3.add (M33.mulVec R q) p)'
TE = f'homogeneous_from_rotation (M33.mul {rR} {rS}) (V3.add (M33.mulVec {rR} {rq}) {rp})'
w(f'''theorem C108_homogeneous {{f : Fmt}} (R S : Mat 3 (Flt f)) (p q : Vec 3 (Flt f)) (hR : R.AllFin) (hS : S.AllFin)
    (hp : p.AllFin) (hq : q.AllFin) :
    let H := {H}
    (∀ j, (H 3 j).Same (if j = 3 then 1 else 0)) ∧
    (∀ i j, i ≠ 2 → (H i j).Same (({T}) i j)) ∧
    (∀ j : Fin 3, (H 2 j.castSucc).Same (R 2 1 * S 1 j + R 2 2 * S 2 j + R 2 0 * S 0 j)) ∧
    (H 2 3).Same (R 2 1 * q 1 + R 2 2 * q 2 + p 2 + R 2 0 * q 0) := by
  intro H
  have hx := {hval}
  have hH : ({HE}).ev ({val}) = H := by simp only [ev]; rfl
  refine ⟨fun j => ?_, fun i j hi => ?_, fun j => ?_, ?_⟩
  · have h1 : ∀ j, Ex.simEq .inputs (({HE} :
        Mat 4 (Ex ((Fin 3 × Fin 3 ⊕ Fin 3) ⊕ (Fin 3 × Fin 3 ⊕ Fin 3)))) 3 j) (if j = 3 then 1 else 0) = true := by decide +kernel
    have h2 := Ex.same_of_inputs ({val}) (h1 j) hx
    rw [← hH]
    fin_cases j <;> exact h2
  · have h1 : ∀ i j, i ≠ 2 → Ex.simEq .inputs (({HE} :
        Mat 4 (Ex ((Fin 3 × Fin 3 ⊕ Fin 3) ⊕ (Fin 3 × Fin 3 ⊕ Fin 3)))) i j) (({TE}) i j) = true := by decide +kernel
    have h2 := Ex.same_of_inputs ({val}) (h1 i j hi) hx
    have h3 : ({TE}).ev ({val}) = {T} := by simp only [ev]
    rw [← hH, ← h3]
    exact h2
  · have h1 : ∀ j : Fin 3, Ex.simEq .inputs (({HE} :
        Mat 4 (Ex ((Fin 3 × Fin 3 ⊕ Fin 3) ⊕ (Fin 3 × Fin 3 ⊕ Fin 3)))) 2 j.castSucc)
        ({rR} 2 1 * {rS} 1 j + {rR} 2 2 * {rS} 2 j + {rR} 2 0 * {rS} 0 j) = true := by decide +kernel
    have h2 := Ex.same_of_inputs ({val}) (h1 j) hx
    rw [← hH]
    exact h2
  · have h1 : Ex.simEq .inputs (({HE} :
        Mat 4 (Ex ((Fin 3 × Fin 3 ⊕ Fin 3) ⊕ (Fin 3 × Fin 3 ⊕ Fin 3)))) 2 3)
        ({rR} 2 1 * {rq} 1 + {rR} 2 2 * {rq} 2 + {rp} 2 + {rR} 2 0 * {rq} 0) = true := by decide +kernel
    have h2 := Ex.same_of_inputs ({val}) h1 hx
    rw [← hH]
    exact h2
''')

val1 = 'Sum.elim R.fl (Sum.elim p.fl v.fl)'
h1 = 'isFin_elim hR.fl (isFin_elim hp.fl hv.fl)'
R1, p1, v1 = '(Mat.vr Sum.inl)', '(Vec.vr fun i => .inr (.inl i))', '(Vec.vr fun i => .inr (.inr i))'
emit2('C108_homogeneous_inverse', '`homogeneous_inverse` transposes the rotation exactly, its translation is the computed `-(Rᵀ p)`, and its last row\nis `[0, 0, 0, 1]`. A homogeneous transform maps a point `(v, 1)` to exactly `(R v + p, 1)`.',
  '(R : Mat 3 (Flt f)) (p v : Vec 3 (Flt f)) (hR : R.AllFin) (hp : p.AllFin) (hv : v.AllFin)', [
  ('(homogeneous_inverse (homogeneous_from_rotation R p)).Same\n      (homogeneous_from_rotation (M33.transpose R) (V3.neg (M33.mulVec (M33.transpose R) p)))', 'Mat', val1,
   f'homogeneous_inverse (homogeneous_from_rotation {R1} {p1})', f'homogeneous_from_rotation (M33.transpose {R1}) (V3.neg (M33.mulVec (M33.transpose {R1}) {p1}))', h1),
  ], None)
w('''/-- A homogeneous transform maps a point `(v, 1)` to exactly the computed `(R v + p, 1)`. -/
theorem C108_homogeneous_point {f : Fmt} (R : Mat 3 (Flt f)) (p v : Vec 3 (Flt f)) (hR : R.AllFin) (hp : p.AllFin)
    (hv : v.AllFin) :
    let w := M44.mulVec (homogeneous_from_rotation R p) ⟨![v 0, v 1, v 2, 1]⟩
    (∀ i : Fin 3, (w i.castSucc).Same (V3.add (M33.mulVec R v) p i)) ∧ (w 3).Same 1 := by
  intro w''')
for l, r in (('fun i : Fin 3 =>', ''),):
    w(f'''  have hx := {h1}
  refine ⟨fun i => ?_, ?_⟩
  · have h1 : ∀ i : Fin 3, Ex.simEq .inputs (M44.mulVec (homogeneous_from_rotation {R1} {p1})
        (⟨![{v1} 0, {v1} 1, {v1} 2, 1]⟩ : Vec 4 (Ex (Fin 3 × Fin 3 ⊕ (Fin 3 ⊕ Fin 3)))) i.castSucc)
        (V3.add (M33.mulVec {R1} {v1}) {p1} i) = true := by decide +kernel
    have h2 := Ex.same_of_inputs ({val1}) (h1 i) hx
    fin_cases i <;> exact h2
  · have h1 : Ex.simEq .inputs (M44.mulVec (homogeneous_from_rotation {R1} {p1})
        (⟨![{v1} 0, {v1} 1, {v1} 2, 1]⟩ : Vec 4 (Ex (Fin 3 × Fin 3 ⊕ (Fin 3 ⊕ Fin 3)))) 3) 1 = true := by decide +kernel
    exact Ex.same_of_inputs ({val1}) h1 hx
''')
va, vb = '(Vec.vr Sum.inl : Vec 3 (Ex (Fin 3 ⊕ Fin 3)))', '(Vec.vr Sum.inr : Vec 3 (Ex (Fin 3 ⊕ Fin 3)))'
w(f'''/-- Translations compose to exactly the translation by the computed sums, with every other entry exactly that of the
identity. -/
theorem C108_translation {{f : Fmt}} (a b : Vec 3 (Flt f)) (ha : a.AllFin) (hb : b.AllFin) :
    (M44.mul (translation_3d (a 0) (a 1) (a 2)) (translation_3d (b 0) (b 1) (b 2))).Same
      (translation_3d (a 0 + b 0) (a 1 + b 1) (a 2 + b 2)) ∧
    (M33.mul (translation_2d (a 0) (a 1)) (translation_2d (b 0) (b 1))).Same (translation_2d (a 0 + b 0) (a 1 + b 1)) := by
  constructor
  · have := Mat.same_of_inputs ({ab}) (show Mat.simEq .inputs
      (M44.mul (translation_3d ({va} 0) ({va} 1) ({va} 2)) (translation_3d ({vb} 0) ({vb} 1) ({vb} 2)))
      (translation_3d ({va} 0 + {vb} 0) ({va} 1 + {vb} 1) ({va} 2 + {vb} 2)) = true by decide +kernel) ({hab})
    simp only [ev] at this
    exact this
  · have := Mat.same_of_inputs ({ab}) (show Mat.simEq .inputs
      (M33.mul (translation_2d ({va} 0) ({va} 1)) (translation_2d ({vb} 0) ({vb} 1)))
      (translation_2d ({va} 0 + {vb} 0) ({va} 1 + {vb} 1)) = true by decide +kernel) ({hab})
    simp only [ev] at this
    exact this

/-- Concrete cases: integer-valued floats with finite results. -/
example : (V3.cross ⟨fun _ => 1⟩ (⟨fun _ => 1⟩ : Vec 3 (Flt Fmt.f32))).Same V3.zero := by
  have hi : (1 : Flt Fmt.f32).IntLe 1 := ⟨isFin_one, 1, by rw [toReal_one]; norm_num, by norm_num⟩
  refine (C108_cross (⟨fun _ => 1⟩ : Vec 3 (Flt Fmt.f32)) ⟨fun _ => 1⟩ (fun _ => isFin_one) (fun _ => isFin_one)).2 fun i => ?_
  exact ((C105_integers (f := Fmt.f32) ⟨1, ⟨fun _ => 1⟩, false⟩ ⟨1, ⟨fun _ => 1⟩, false⟩ ⟨fun _ => 1⟩ ⟨fun _ => 1⟩ 1 le_rfl
    (fun i => by fin_cases i <;> exact hi) (fun i => by fin_cases i <;> exact hi) (fun _ => hi) (fun _ => hi)).2
    (by norm_num [Fmt.f32])).1 i

/-- The all-ones matrix with its first row cleared, with a negative zero: the determinant is finite. -/
example [Libm Fmt.f32] : M33.inverse (⟨![![0, -0, 0], ![1, 1, 1], ![1, 1, 1]]⟩ : Mat 3 (Flt Fmt.f32)) = .ok none := by
  have h1 : (1 : Flt Fmt.f32).FinLe 1 := ⟨isFin_one, by rw [toReal_one]; norm_num⟩
  have h0 : (0 : Flt Fmt.f32).FinLe 1 := ⟨isFin_zero, by rw [toReal_zero]; norm_num⟩
  have hn : (-0 : Flt Fmt.f32).FinLe 1 := ⟨isFin_neg.2 isFin_zero, by rw [toReal_neg, toReal_zero]; norm_num⟩
  refine (C108_zero_line_M33 _ 0 (.inl fun j => ?_) ?_).2
  · fin_cases j
    · exact (beq_iff isFin_zero isFin_zero).2 rfl
    · exact (beq_iff (isFin_neg.2 isFin_zero) isFin_zero).2 (by rw [toReal_neg, toReal_zero, neg_zero])
    · exact (beq_iff isFin_zero isFin_zero).2 rfl
  · refine Ex.isFin_of le_rfl (x := Mat.fl (⟨![![0, -0, 0], ![1, 1, 1], ![1, 1, 1]]⟩ : Mat 3 (Flt Fmt.f32))) (fun q => ?_)
      (M33.det (Mat.vars 3)) (k := 5) (c := 15) (d := 3) (by decide +kernel) (by decide +kernel) (by decide +kernel) ?_
    · rcases q with ⟨i, j⟩
      fin_cases i <;> fin_cases j <;> first | exact h0 | exact h1 | exact hn
    · norm_num [Fmt.f32, Fmt.u]
''')
w('end StaticMath')
print('\n'.join(out))
