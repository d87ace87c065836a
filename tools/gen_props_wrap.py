#!/usr/bin/env python3
"""Write lean/Verif/Props/Wrap.lean (C142)."""
o = ['''import Verif.Checked.Wrap
import Verif.Lemmas.Quat
import Verif.Lemmas.DualQuat
import Verif.Lemmas.Transfer

/-!
# C142: wrapping integers

Generated by `tools/gen_props_wrap.py`. `wrap t z` is the value of the integer type `t` congruent to `z` modulo the number of
values of `t`.
-/

namespace StaticMath
open WInt Quaternion

/-- What `wrap` does: the result is congruent to the argument, and equal to it exactly when the argument fits. -/
theorem C142_wrap (t : IntTy) (z : ℤ) :
    (wrap t z).val ≡ z [ZMOD t.size] ∧ ((wrap t z).val = z ↔ t.lo ≤ z ∧ z ≤ t.hi) :=
  ⟨val_modEq z, fun h => by rw [← h]; exact ⟨(wrap t z).lo_le, (wrap t z).le_hi⟩, fun h => wrap_of_range h.1 h.2⟩

/-- The usual types have `2^8`, `2^32` and `2^64` values. -/
theorem C142_sizes : IntTy.i8.size = 2 ^ 8 ∧ IntTy.u8.size = 2 ^ 8 ∧ IntTy.i32.size = 2 ^ 32 ∧ IntTy.i64.size = 2 ^ 64 := by
  decide
''']
for n in range(2, 7):
    M = f'M{n}{n}'
    V = f'V{n}'
    for op, sym, name in (('add', '+', 'sum'), ('sub', '-', 'difference')):
        o.append(f'''
/-- An entry of the {name} of two matrices is the exact one, reduced. -/
theorem C142_{op}_{M} (t : IntTy) (A B : Mat {n} (WInt t)) (i j : Fin {n}) :
    {M}.{op} A B i j = wrap t ((A i j).val {sym} (B i j).val) := {M}.{op}_apply A B i j

/-- An entry of the {name} of two vectors is the exact one, reduced. -/
theorem C142_{op}_{V} (t : IntTy) (v w : Vec {n} (WInt t)) (i : Fin {n}) :
    {V}.{op} v w i = wrap t ((v i).val {sym} (w i).val) := {V}.{op}_apply v w i
''')
    o.append(f'''
theorem C142_neg_{M} (t : IntTy) (A : Mat {n} (WInt t)) (v : Vec {n} (WInt t)) (i j : Fin {n}) :
    {M}.neg A i j = wrap t (-(A i j).val) ∧ {V}.neg v i = wrap t (-(v i).val) := ⟨{M}.neg_apply A i j, {V}.neg_apply v i⟩

theorem C142_smul_{M} (t : IntTy) (A : Mat {n} (WInt t)) (v : Vec {n} (WInt t)) (c : WInt t) (i j : Fin {n}) :
    {M}.smul A c i j = wrap t ((A i j).val * c.val) ∧ {V}.smul v c i = wrap t ((v i).val * c.val) :=
  ⟨{M}.smul_apply A c i j, {V}.smul_apply v c i⟩

/-- A dot product is the exact one, reduced, however many of its terms and partial sums overflow. -/
theorem C142_dot_{V} (t : IntTy) (v w : Vec {n} (WInt t)) : {V}.dot v w = wrap t (∑ k, (v k).val * (w k).val) :=
  ({V}.dot_eq v w).trans (sum_wrap _ _)

/-- So is an entry of a matrix-vector product. -/
theorem C142_mulVec_{M} (t : IntTy) (A : Mat {n} (WInt t)) (v : Vec {n} (WInt t)) (i : Fin {n}) :
    {M}.mulVec A v i = wrap t (∑ k, (A i k).val * (v k).val) := ({M}.mulVec_apply A v i).trans (sum_wrap _ _)

/-- So is an entry of a matrix product. -/
theorem C142_mul_{M} (t : IntTy) (A B : Mat {n} (WInt t)) (i j : Fin {n}) :
    {M}.mul A B i j = wrap t (∑ k, (A i k).val * (B k j).val) := ({M}.mul_apply A B i j).trans (sum_wrap _ _)
''')
    if n in (2, 4, 5):
        o.append(f'''
/-- So is an entry of a vector-matrix product. -/
theorem C142_mulMat_{V} (t : IntTy) (v : Vec {n} (WInt t)) (A : Mat {n} (WInt t)) (j : Fin {n}) :
    {V}.mulMat v A j = wrap t (∑ k, (v k).val * (A k j).val) := ({V}.mulMat_apply v A j).trans (sum_wrap _ _)
''')
o.append('''
/-- Both products of this dot product and its partial sum overflow `i8`; the result is right. With overflow checks it panics
(example after `C94_mul_M22`). -/
example : (V2.dot ⟨fun _ => wrap IntTy.i8 100⟩ ⟨![wrap IntTy.i8 2, wrap IntTy.i8 (-2)]⟩).val = 0 ∧
    (V2.dot ⟨fun _ => wrap IntTy.i8 100⟩ ⟨![wrap IntTy.i8 2, wrap IntTy.i8 2]⟩).val = -112 := by decide

/-- The cross product. -/
theorem C142_cross (t : IntTy) (v w : Vec 3 (WInt t)) :
    V3.cross v w 0 = wrap t ((v 1).val * (w 2).val - (v 2).val * (w 1).val) ∧
    V3.cross v w 1 = wrap t ((v 2).val * (w 0).val - (v 0).val * (w 2).val) ∧
    V3.cross v w 2 = wrap t ((v 0).val * (w 1).val - (v 1).val * (w 0).val) := by
  simp only [wrap_sub, wrap_mul, wrap_val]
  exact ⟨rfl, rfl, rfl⟩

/-- The integer quaternion with the values of the components. -/
def Quat.vals {t : IntTy} (q : Quat (WInt t)) : ℍ[ℤ] := ⟨q.q0.val, (q.q 0).val, (q.q 1).val, (q.q 2).val⟩

/-- Every component reduced. -/
def wrapH (t : IntTy) (z : ℍ[ℤ]) : ℍ[WInt t] := ⟨wrap t z.re, wrap t z.imI, wrap t z.imJ, wrap t z.imK⟩

private theorem wrapH_re (t : IntTy) (z : ℍ[ℤ]) : (wrapH t z).re = wrap t z.re := rfl
private theorem wrapH_imI (t : IntTy) (z : ℍ[ℤ]) : (wrapH t z).imI = wrap t z.imI := rfl
private theorem wrapH_imJ (t : IntTy) (z : ℍ[ℤ]) : (wrapH t z).imJ = wrap t z.imJ := rfl
private theorem wrapH_imK (t : IntTy) (z : ℍ[ℤ]) : (wrapH t z).imK = wrap t z.imK := rfl

private theorem wrapH_vals {t : IntTy} (q : Quat (WInt t)) : wrapH t q.vals = q.toH := by
  refine Quaternion.ext _ _ ?_ ?_ ?_ ?_ <;> exact wrap_val _

private theorem wrapH_add (t : IntTy) (a b : ℍ[ℤ]) : wrapH t (a + b) = wrapH t a + wrapH t b := by
  refine Quaternion.ext _ _ ?_ ?_ ?_ ?_ <;> exact wrap_add _ _

private theorem wrapH_sub (t : IntTy) (a b : ℍ[ℤ]) : wrapH t (a - b) = wrapH t a - wrapH t b := by
  refine Quaternion.ext _ _ ?_ ?_ ?_ ?_ <;> exact wrap_sub _ _

private theorem wrapH_neg (t : IntTy) (a : ℍ[ℤ]) : wrapH t (-a) = -wrapH t a := by
  refine Quaternion.ext _ _ ?_ ?_ ?_ ?_ <;> exact wrap_neg _

private theorem wrapH_mul (t : IntTy) (a b : ℍ[ℤ]) : wrapH t (a * b) = wrapH t a * wrapH t b := by
  refine Quaternion.ext _ _ ?_ ?_ ?_ ?_
  · simp only [wrapH_re, wrapH_imI, wrapH_imJ, wrapH_imK, Quaternion.re_mul, wrap_sub, wrap_mul]
  · simp only [wrapH_re, wrapH_imI, wrapH_imJ, wrapH_imK, Quaternion.imI_mul, wrap_add, wrap_sub, wrap_mul]
  · simp only [wrapH_re, wrapH_imI, wrapH_imJ, wrapH_imK, Quaternion.imJ_mul, wrap_add, wrap_sub, wrap_mul]
  · simp only [wrapH_re, wrapH_imI, wrapH_imJ, wrapH_imK, Quaternion.imK_mul, wrap_add, wrap_sub, wrap_mul]

private theorem wrapH_smul (t : IntTy) (c : ℤ) (a : ℍ[ℤ]) : wrapH t (c • a) = wrap t c • wrapH t a := by
  refine Quaternion.ext _ _ ?_ ?_ ?_ ?_ <;> exact wrap_mul _ _

private theorem wrapH_star (t : IntTy) (a : ℍ[ℤ]) : wrapH t (star a) = star (wrapH t a) := by
  refine Quaternion.ext _ _ ?_ ?_ ?_ ?_
  · simp only [wrapH_re, Quaternion.re_star]
  · simp only [wrapH_imI, Quaternion.imI_star, wrap_neg]
  · simp only [wrapH_imJ, Quaternion.imJ_star, wrap_neg]
  · simp only [wrapH_imK, Quaternion.imK_star, wrap_neg]

/-- Quaternion arithmetic is Hamilton's, every component reduced. -/
theorem C142_quaternions (t : IntTy) (p q : Quat (WInt t)) (c : WInt t) :
    (p.add q).toH = wrapH t (p.vals + q.vals) ∧ (p.sub q).toH = wrapH t (p.vals - q.vals) ∧ p.neg.toH = wrapH t (-p.vals) ∧
    (p.mul q).toH = wrapH t (p.vals * q.vals) ∧ (p.smul c).toH = wrapH t (c.val • p.vals) ∧ p.conj.toH = wrapH t (star p.vals) ∧
    p.abs2 = wrap t (normSq p.vals) := by
  refine ⟨?_, ?_, ?_, ?_, ?_, ?_, ?_⟩
  · rw [wrapH_add, wrapH_vals, wrapH_vals, Quat.toH_add]
  · rw [wrapH_sub, wrapH_vals, wrapH_vals, Quat.toH_sub]
  · rw [wrapH_neg, wrapH_vals, Quat.toH_neg]
  · rw [wrapH_mul, wrapH_vals, wrapH_vals, Quat.toH_mul]
  · rw [wrapH_smul, wrap_val, wrapH_vals, Quat.toH_smul]
  · rw [wrapH_star, wrapH_vals, Quat.toH_conj]
  · rw [Quaternion.normSq_def', Quat.abs2_eq, Quaternion.normSq_def']
    simp only [Quat.vals, Quat.toH, sq, wrap_add, wrap_mul, wrap_val]

/-- So is the arithmetic of dual quaternions. -/
theorem C142_dual_quaternions (t : IntTy) (x y : DQuat (WInt t)) :
    (x.add y).q_real.toH = wrapH t (x.q_real.vals + y.q_real.vals) ∧ (x.add y).q_dual.toH = wrapH t (x.q_dual.vals + y.q_dual.vals) ∧
    (x.sub y).q_real.toH = wrapH t (x.q_real.vals - y.q_real.vals) ∧ (x.sub y).q_dual.toH = wrapH t (x.q_dual.vals - y.q_dual.vals) ∧
    (x.mul y).q_real.toH = wrapH t (x.q_real.vals * y.q_real.vals) ∧
    (x.mul y).q_dual.toH = wrapH t (x.q_real.vals * y.q_dual.vals + x.q_dual.vals * y.q_real.vals) := by
  refine ⟨(C142_quaternions t _ _ 0).1, (C142_quaternions t _ _ 0).1, (C142_quaternions t _ _ 0).2.1, (C142_quaternions t _ _ 0).2.1,
    (C142_quaternions t _ _ 0).2.2.2.1, ?_⟩
  rw [wrapH_add, wrapH_mul, wrapH_mul, wrapH_vals, wrapH_vals, wrapH_vals, wrapH_vals]
  change ((x.q_real.mul y.q_dual).add (x.q_dual.mul y.q_real)).toH = _
  rw [Quat.toH_add, Quat.toH_mul, Quat.toH_mul]

/-- The product of `10 + 10 i` and `10 - 10 i` in `i8`: 200 does not fit and becomes -56; the other components are right. -/
example : let p : Quat (WInt IntTy.i8) := Quat.new_from (wrap _ 10) (wrap _ 10) (wrap _ 0) (wrap _ 0)
    let q : Quat (WInt IntTy.i8) := Quat.new_from (wrap _ 10) (wrap _ (-10)) (wrap _ 0) (wrap _ 0)
    (p.mul q).q0.val = -56 ∧ ((p.mul q).q 0).val = 0 := by decide
''')
o.append('''
end StaticMath
''')
open('/verif/lean/Verif/Props/Wrap.lean', 'w').write(''.join(o))
