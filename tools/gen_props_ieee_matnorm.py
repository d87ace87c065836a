#!/usr/bin/env python3
"""Emit the part of lean/Verif/Props/IeeeMatNorm.lean that repeats per size (row vector products, traces, norms)."""
print('''import Verif.Ieee.SumNorm
import Verif.Props.IeeeHomog
import Verif.Props.IeeeDet

/-!
# C154: row vectors times matrices, traces and norms of matrices in floating point

Generated by `tools/gen_props_ieee_matnorm.py`.
-/

namespace StaticMath
open Flt
''')
print('''private theorem pow_le_two {f : Fmt} (hp : 8 ≤ f.p) {m : ℕ} (hm : m ≤ 16) : (1 + f.u) ^ m ≤ 2 := by
  have h := Fmt.u_le_of_p hp
  have h0 := f.u_pos
  calc (1 + f.u) ^ m ≤ (1 + f.u) ^ 16 := pow_le_pow_right₀ (by linarith) hm
    _ ≤ (1 + 1 / 256) ^ 16 := pow_le_pow_left₀ (by linarith) (by linarith) 16
    _ ≤ 2 := by norm_num
''')
for n in range(2, 7):
    l = ', '.join(map(str, range(1, n)))
    term = 'A j k * v k' if n == 3 else 'A k j * v k' if n > 4 else 'v k * A k j'
    rt = '(A j k).toReal * (v k).toReal' if n == 3 else '(A k j).toReal * (v k).toReal' if n > 4 else '(v k).toReal * (A k j).toReal'
    what = ' This one computes the product of the matrix with the column vector (see C04).' if n == 3 else ''
    print(f'''private theorem mulMat_order{n} {{T : Type}} [Add T] [Mul T] (v : Vec {n} T) (A : Mat {n} T) (j : Fin {n}) :
    IsOrderedSum (V{n}.mulMat v A j) (fun k => {term}) := by
  fin_cases j <;> exact ⟨0, [{l}], by decide, rfl⟩

/-- Each component of a computed product of a vector with a matrix.{what} -/
theorem C154_mulMat_V{n} {{f : Fmt}} (v : Vec {n} (Flt f)) (A : Mat {n} (Flt f)) (j : Fin {n}) (h : (V{n}.mulMat v A j).IsFin) :
    |(V{n}.mulMat v A j).toReal - ∑ k, {rt}| ≤
      ((1 + f.u) ^ {n} - 1) * ∑ k, |{rt}| + (1 + f.u) ^ {n} * ({n} * f.eta) := by
  simpa using orderedSum_err (mulMat_order{n} v A j) h

/-- The trace is that of a sum of the stored numbers. -/
theorem C154_trace_M{n}{n} {{f : Fmt}} (A : Mat {n} (Flt f)) (h : (M{n}{n}.trace A).IsFin) :
    |(M{n}{n}.trace A).toReal - ∑ k, (A k k).toReal| ≤ ((1 + f.u) ^ {n-1} - 1) * ∑ k, |(A k k).toReal| :=
  sum_err (a := fun k => A k k) ⟨0, [{l}], by decide, rfl⟩ h

/-- Norm of a vector in every range, so also where squares underflow. -/
theorem C154_norm2_V{n} {{f : Fmt}} [Libm f] (hp : 8 ≤ f.p) (v : Vec {n} (Flt f)) (h : (V{n}.norm2 v).IsFin) :
    0 ≤ (V{n}.norm2 v).toReal ∧ |(V{n}.norm2 v).toReal - √(∑ k, (v k).toReal ^ 2)| ≤
      ((1 + f.u) ^ {n+1} - 1) * √(∑ k, (v k).toReal ^ 2) + (1 + f.u) * √((1 + f.u) ^ {n} * ({n} * f.eta)) := by
  have e : V{n}.norm2 v = Flt.sqrt (V{n}.dot v v) := rfl
  rw [e] at h ⊢
  simpa using norm_err (V{n}.dot_order v v) h (pow_le_two hp (by norm_num))

/-- It is finite if the components are not too large. -/
theorem C154_norm2_no_overflow_V{n} {{f : Fmt}} [Libm f] (v : Vec {n} (Flt f)) (B : ℝ) (hv : ∀ k, (v k).IsFin ∧ |(v k).toReal| ≤ B)
    (h : (1 + f.u) ^ {n} * ({n} * ((1 + f.u) * B ^ 2 + f.eta)) < (2 : ℝ) ^ (f.emax + 1)) : (V{n}.norm2 v).IsFin :=
  norm_isFin (V{n}.dot_order v v) hv (by norm_num; exact h)
''')
for n in (2, 3, 4):
    m = n * n
    idx = '(A k.modNat k.divNat)' if n == 3 else '(A k.divNat k.modNat)'
    l = ', '.join(map(str, range(1, m)))
    print(f'''theorem M{n}{n}.norm2_order {{f : Fmt}} [Libm f] (A : Mat {n} (Flt f)) : ∃ r, M{n}{n}.norm2 A = Flt.sqrt r ∧
    IsOrderedSum r (fun k : Fin ({n} * {n}) => {idx} * {idx}) :=
  ⟨_, rfl, 0, [{l}], by decide, rfl⟩

/-- Frobenius norm of a matrix in every range. -/
theorem C154_norm2_M{n}{n} {{f : Fmt}} [Libm f] (hp : 8 ≤ f.p) (A : Mat {n} (Flt f)) (h : (M{n}{n}.norm2 A).IsFin) :
    0 ≤ (M{n}{n}.norm2 A).toReal ∧ |(M{n}{n}.norm2 A).toReal - √(∑ i, ∑ j, (A i j).toReal ^ 2)| ≤
      ((1 + f.u) ^ {m+1} - 1) * √(∑ i, ∑ j, (A i j).toReal ^ 2) + (1 + f.u) * √((1 + f.u) ^ {m} * ({m} * f.eta)) := by
  obtain ⟨r, hr, hs⟩ := M{n}{n}.norm2_order A
  rw [hr] at h ⊢
  have H := norm_err hs h (pow_le_two hp (by norm_num))
  have e : ∑ k : Fin ({n} * {n}), {idx}.toReal ^ 2 = ∑ i, ∑ j, (A i j).toReal ^ 2 := by
    rw [{'Finset.sum_comm, ' if n == 3 else ''}← Fintype.sum_prod_type', ← finProdFinEquiv.symm.sum_comp]
    rfl
  rw [e] at H
  norm_num [-Fin.sum_univ_two] at H
  exact H

/-- It is finite if the entries are not too large. -/
theorem C154_norm2_no_overflow_M{n}{n} {{f : Fmt}} [Libm f] (A : Mat {n} (Flt f)) (B : ℝ) (hA : ∀ i j, (A i j).IsFin ∧ |(A i j).toReal| ≤ B)
    (h : (1 + f.u) ^ {m} * ({m} * ((1 + f.u) * B ^ 2 + f.eta)) < (2 : ℝ) ^ (f.emax + 1)) : (M{n}{n}.norm2 A).IsFin := by
  obtain ⟨r, hr, hs⟩ := M{n}{n}.norm2_order A
  rw [hr]
  refine norm_isFin hs (B := B) (fun k => hA _ _) ?_
  norm_num
  exact h
''')
print('''/-- The bounds apply: the norm and the trace of a matrix of ones, and its product with a vector of ones, are finite in every format. -/
example {f : Fmt} [Libm f] (hp : 8 ≤ f.p) : (M22.norm2 (⟨fun _ _ => 1⟩ : Mat 2 (Flt f))).IsFin ∧
    (M22.trace (⟨fun _ _ => 1⟩ : Mat 2 (Flt f))).IsFin ∧
    ∀ j, (V2.mulMat (⟨fun _ => 1⟩ : Vec 2 (Flt f)) ⟨fun _ _ => 1⟩ j).IsFin := by
  have h0 := f.u_pos
  have h1 := Fmt.u_le_of_p hp
  have h8 : (2 : ℝ) ^ (3 : ℤ) ≤ 2 ^ (f.emax + 1) := by
    have := f.hmax
    have := f.hp
    exact zpow_le_zpow_right₀ (by norm_num) (by omega)
  norm_num at h8
  have hm : ((1 : Flt f) * 1).IsFin ∧ |((1 : Flt f) * 1).toReal - 1| ≤ f.u := by
    have hf : ((1 : Flt f) * 1).IsFin := mul_isFin isFin_one isFin_one (by rw [toReal_one]; norm_num; linarith)
    refine ⟨hf, ?_⟩
    have := mul_rel hf (by
      right
      rw [toReal_one]
      norm_num
      have := f.hmin
      omega)
    rw [toReal_one] at this
    simpa using this
  obtain ⟨hf, hm⟩ := hm
  obtain ⟨m1, m2⟩ := _root_.abs_le.1 hm
  have add {a b : Flt f} {c : ℝ} (ha : a.IsFin) (hb : b.IsFin) (h : |a.toReal + b.toReal| ≤ c) (hc : c ≤ 6) : (a + b).IsFin ∧
      |(a + b).toReal - (a.toReal + b.toReal)| ≤ f.u * c := by
    have hs : (a + b).IsFin := add_isFin ha hb (by nlinarith)
    exact ⟨hs, (add_rel hs).trans (mul_le_mul_of_nonneg_left h h0.le)⟩
  have s2 := add hf hf (c := 3) (by rw [_root_.abs_le]; constructor <;> linarith) (by norm_num)
  have q2 := _root_.abs_le.1 s2.2
  have s3 := add s2.1 hf (c := 4) (by rw [_root_.abs_le]; constructor <;> linarith) (by norm_num)
  have q3 := _root_.abs_le.1 s3.2
  have s4 := add s3.1 hf (c := 5) (by rw [_root_.abs_le]; constructor <;> linarith) (by norm_num)
  have q4 := _root_.abs_le.1 s4.2
  refine ⟨(sqrt_rel s4.1 (by linarith)).1, ?_, fun j => by fin_cases j <;> exact s2.1⟩
  exact (add isFin_one isFin_one (c := 2) (by rw [toReal_one]; norm_num) (by norm_num)).1

end StaticMath''')
