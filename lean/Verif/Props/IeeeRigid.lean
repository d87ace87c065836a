import Verif.Props.IeeeQuat
import Verif.Lemmas.InvFlt
import Verif.Model.DualQuaternion
import Mathlib.LinearAlgebra.CrossProduct

/-!
# C120: floating point rigid motions

`f.u = 2^-p` is the unit roundoff, `f.eta` half the smallest positive number.
-/

namespace StaticMath
open Flt Quaternion

/-! ## Doubling is exact -/

private def Fmt.wider (f : Fmt) : Fmt := { f with emax := f.emax + 1, hmax := by have := f.hmax; omega }

private theorem rnd_two {f : Fmt} {x : ℝ} (h : f.Rep x) : f.rnd (x * 2) = x * 2 := by
  have e : f.wider.Rep (x * 2) := by
    obtain ⟨m, e, rfl, hm, h1, h2⟩ := h
    refine ⟨m, e + 1, ?_, hm, ?_, ?_⟩
    · rw [zpow_add_one₀ (by norm_num)]; ring
    · change f.emin - f.p + 1 ≤ e + 1; omega
    · change e + 1 + f.p ≤ f.emax + 1 + 1; omega
  exact f.wider.rnd_rep e

private theorem two_val {f : Fmt} : ((1 : Flt f) + 1).IsFin ∧ ((1 : Flt f) + 1).toReal = 2 := by
  have h1 : (1 : Flt f).toReal = 1 := by simp [toReal, show (1 : Flt f) = fin false 1 rep_one f from rfl, sgn]
  have h := add_exact (a := (1 : Flt f)) (b := 1) trivial trivial (by
    rw [h1]
    have := f.rep_nat (k := 2) (by
      calc 2 = 2 ^ 1 := rfl
        _ ≤ 2 ^ f.p := Nat.pow_le_pow_right (by norm_num) (by have := f.hp; omega))
    norm_num at this ⊢
    exact this)
  rw [h1] at h
  norm_num at h
  exact h

/-- Multiplication by two is exact unless it overflows. -/
private theorem mul_two {f : Fmt} {a : Flt f} (h : (a * (1 + 1)).IsFin) : (a * (1 + 1)).toReal = a.toReal * 2 := by
  have ht := two_val (f := f)
  obtain ⟨ha, -⟩ := isFin_of_mul h
  obtain ⟨b, hb⟩ : ∃ b : Flt f, b = 1 + 1 := ⟨_, rfl⟩
  rw [← hb] at h ht ⊢
  rcases a with _ | s | ⟨s, x, hx⟩
  · exact absurd ha id
  · exact absurd ha id
  rcases b with _ | t | ⟨t, y, hy⟩
  · exact absurd ht.1 id
  · exact absurd ht.1 id
  have hy2 : t = false ∧ y = 2 := by
    have := ht.2
    simp only [toReal, sgn] at this
    have h0 := hy.nonneg
    cases t
    · exact ⟨rfl, by simpa using this⟩
    · simp at this; linarith
  obtain ⟨rfl, rfl⟩ := hy2
  change (pack f (s != false) (x * 2)).IsFin at h
  obtain ⟨hr, e⟩ := pack_fin h
  change (pack f (s != false) (x * 2)).toReal = sgn s x * 2
  rw [e]
  change sgn _ (f.rnd (x * 2)) = _
  rw [rnd_two hx]
  cases s <;> simp [sgn]

/-! ## dual quaternions -/

/-- The Hamilton quaternion of twice the components is twice that of the components. -/
private theorem reH_smul_two {f : Fmt} (q : Quat (Flt f)) (h : ∀ i, ((q.smul (1 + 1)).comp i).IsFin) :
    (q.smul (1 + 1)).reH = (2 : ℝ) • q.reH := by
  have h0 := mul_two (h 0)
  have h1 := mul_two (h 1)
  have h2 := mul_two (h 2)
  have h3 := mul_two (h 3)
  ext
  · simp only [Quaternion.re_smul, smul_eq_mul]; rw [mul_comm]; exact h0
  · simp only [Quaternion.imI_smul, smul_eq_mul]; rw [mul_comm]; exact h1
  · simp only [Quaternion.imJ_smul, smul_eq_mul]; rw [mul_comm]; exact h2
  · simp only [Quaternion.imK_smul, smul_eq_mul]; rw [mul_comm]; exact h3

theorem Quat.reH_conj {f : Fmt} (q : Quat (Flt f)) : q.conj.reH = star q.reH := by
  ext
  · simp only [Quaternion.re_star]; rfl
  · simp only [Quaternion.imI_star]; exact toReal_neg _
  · simp only [Quaternion.imJ_star]; exact toReal_neg _
  · simp only [Quaternion.imK_star]; exact toReal_neg _

/-- The computed translation of a dual quaternion `r + εd`: each component is within `(1+u)^4 - 1` times
`2‖d‖‖r‖` (plus underflow) of that of `2 d r⁻`. The doubling does not round. -/
theorem C120_get_translation {f : Fmt} (q : DQuat (Flt f)) (h : ∀ i, (((q.dual.smul (1 + 1)).mul q.real.conj).comp i).IsFin) :
    let E := ((1 + f.u) ^ 4 - 1) * (2 * ‖q.dual.reH‖ * ‖q.real.reH‖) + (1 + f.u) ^ 4 * (f.eta * 4)
    let t := (2 : ℝ) • (q.dual.reH * star q.real.reH)
    |(q.get_translation 0).toReal - t.imI| ≤ E ∧ |(q.get_translation 1).toReal - t.imJ| ≤ E ∧
      |(q.get_translation 2).toReal - t.imK| ≤ E := by
  intro E t
  have h1 := (C105_product (q.dual.smul (1 + 1)) q.real.conj h).1
  have hf : ∀ i, ((q.dual.smul (1 + 1)).comp i).IsFin := by
    have a0 := isFin_of_sub (h 0)
    have b1 := isFin_of_add a0.2
    have b2 := isFin_of_add b1.1
    intro i
    fin_cases i
    · exact (isFin_of_mul a0.1).1
    · exact (isFin_of_mul b2.1).1
    · exact (isFin_of_mul b2.2).1
    · exact (isFin_of_mul b1.2).1
  rw [reH_smul_two _ hf, Quat.reH_conj, norm_smul, norm_star, Real.norm_of_nonneg (by norm_num : (0 : ℝ) ≤ 2),
    smul_mul_assoc] at h1
  exact ⟨h1.2.1, h1.2.2.1, h1.2.2.2⟩

/-- The computed product of dual quaternions: the real part is a computed quaternion product (C105), and the
dual part is within twice `(1+u)^5 - 1` times `‖r₁‖‖d₂‖ + ‖d₁‖‖r₂‖` (plus underflow) of `r₁d₂ + d₁r₂`. -/
theorem C120_dual_product {f : Fmt} (p q : DQuat (Flt f)) (hr : ∀ i, ((p.mul q).real.comp i).IsFin)
    (hd : ∀ i, ((p.mul q).dual.comp i).IsFin) :
    ‖(p.mul q).real.reH - p.real.reH * q.real.reH‖ ≤
      2 * (((1 + f.u) ^ 4 - 1) * (‖p.real.reH‖ * ‖q.real.reH‖) + (1 + f.u) ^ 4 * (f.eta * 4)) ∧
    ‖(p.mul q).dual.reH - (p.real.reH * q.dual.reH + p.dual.reH * q.real.reH)‖ ≤
      2 * (((1 + f.u) ^ 5 - 1) * (‖p.real.reH‖ * ‖q.dual.reH‖ + ‖p.dual.reH‖ * ‖q.real.reH‖) +
        (1 + f.u) ^ 5 * (f.eta * 8)) := by
  have hu := f.u_pos
  have hη := f.eta_pos
  refine ⟨(C105_product p.real q.real hr).2.1, ?_⟩
  have hab : ∀ i, ((p.real.mul q.dual).comp i).IsFin ∧ ((p.dual.mul q.real).comp i).IsFin := by
    intro i
    fin_cases i
    · exact isFin_of_add (hd 0)
    · exact isFin_of_add (hd 1)
    · exact isFin_of_add (hd 2)
    · exact isFin_of_add (hd 3)
  obtain ⟨⟨a0, a1, a2, a3⟩, -, -⟩ := C105_product p.real q.dual fun i => (hab i).1
  obtain ⟨⟨b0, b1, b2, b3⟩, -, -⟩ := C105_product p.dual q.real fun i => (hab i).2
  set N1 := ‖p.real.reH‖ * ‖q.dual.reH‖ with hN1
  set N2 := ‖p.dual.reH‖ * ‖q.real.reH‖ with hN2
  have n1 : 0 ≤ N1 := by positivity
  have n2 : 0 ≤ N2 := by positivity
  set X := p.real.reH * q.dual.reH with hX
  set Y := p.dual.reH * q.real.reH with hY
  set A := (p.real.mul q.dual).reH with hA
  set B := (p.dual.mul q.real).reH with hB
  have nX : ‖X‖ = N1 := norm_mul _ _
  have nY : ‖Y‖ = N2 := norm_mul _ _
  set P := (1 + f.u) ^ 4 with hP
  have hP1 : 1 ≤ P := one_le_pow₀ (by linarith)
  have comp (s a b x y : ℝ) (hs : |s - (a + b)| ≤ f.u * |a + b|) (ha : |a - x| ≤ (P - 1) * N1 + P * (f.eta * 4))
      (hb : |b - y| ≤ (P - 1) * N2 + P * (f.eta * 4)) (hx : |x| ≤ N1) (hy : |y| ≤ N2) :
      |s - (x + y)| ≤ (P * (1 + f.u) - 1) * (N1 + N2) + P * (1 + f.u) * (f.eta * 8) := by
    have c1 : |a + b| ≤ P * (N1 + N2) + P * (f.eta * 8) := by
      have e : a + b = (a - x) + (b - y) + x + y := by ring
      rw [e]
      have := abs_add_le ((a - x) + (b - y) + x) y
      have := abs_add_le ((a - x) + (b - y)) x
      have := abs_add_le (a - x) (b - y)
      linarith
    have c2 := mul_le_mul_of_nonneg_left c1 hu.le
    have e : s - (x + y) = (s - (a + b)) + ((a - x) + (b - y)) := by ring
    rw [e]
    have := abs_add_le (s - (a + b)) ((a - x) + (b - y))
    have := abs_add_le (a - x) (b - y)
    nlinarith
  have sqn (Z : ℍ[ℝ]) : ‖Z‖ ^ 2 = Z.re ^ 2 + Z.imI ^ 2 + Z.imJ ^ 2 + Z.imK ^ 2 := by
    rw [sq ‖Z‖, ← Quaternion.normSq_eq_norm_mul_self, Quaternion.normSq_def']
  have le (Z : ℍ[ℝ]) (N : ℝ) (h : ‖Z‖ = N) : |Z.re| ≤ N ∧ |Z.imI| ≤ N ∧ |Z.imJ| ≤ N ∧ |Z.imK| ≤ N := by
    have h0 : 0 ≤ N := h ▸ norm_nonneg _
    have := sqn Z
    rw [h] at this
    have s0 := sq_nonneg Z.re
    have s1 := sq_nonneg Z.imI
    have s2 := sq_nonneg Z.imJ
    have s3 := sq_nonneg Z.imK
    exact ⟨abs_le_of_sq_le_sq (by linarith) h0, abs_le_of_sq_le_sq (by linarith) h0,
      abs_le_of_sq_le_sq (by linarith) h0, abs_le_of_sq_le_sq (by linarith) h0⟩
  obtain ⟨x0, x1, x2, x3⟩ := le X N1 nX
  obtain ⟨y0, y1, y2, y3⟩ := le Y N2 nY
  have e5 : (1 + f.u) ^ 5 = P * (1 + f.u) := by rw [hP]; ring
  rw [e5]
  set E := (P * (1 + f.u) - 1) * (N1 + N2) + P * (1 + f.u) * (f.eta * 8) with hE
  have hE0 : 0 ≤ E := by
    have : 1 ≤ P * (1 + f.u) := by nlinarith
    have := sub_nonneg.mpr this
    positivity
  have k0 : |((p.mul q).dual.reH - (X + Y)).re| ≤ E :=
    comp _ A.re B.re X.re Y.re (add_rel (hd 0)) (by simpa using a0) (by simpa using b0) x0 y0
  have k1 : |((p.mul q).dual.reH - (X + Y)).imI| ≤ E :=
    comp _ A.imI B.imI X.imI Y.imI (add_rel (hd 1)) (by simpa using a1) (by simpa using b1) x1 y1
  have k2 : |((p.mul q).dual.reH - (X + Y)).imJ| ≤ E :=
    comp _ A.imJ B.imJ X.imJ Y.imJ (add_rel (hd 2)) (by simpa using a2) (by simpa using b2) x2 y2
  have k3 : |((p.mul q).dual.reH - (X + Y)).imK| ≤ E :=
    comp _ A.imK B.imK X.imK Y.imK (add_rel (hd 3)) (by simpa using a3) (by simpa using b3) x3 y3
  refine abs_le_of_sq_le_sq' ?_ (by positivity) |>.2
  rw [sqn]
  have := sq_le_sq' (abs_le.mp k0).1 (abs_le.mp k0).2
  have := sq_le_sq' (abs_le.mp k1).1 (abs_le.mp k1).2
  have := sq_le_sq' (abs_le.mp k2).1 (abs_le.mp k2).2
  have := sq_le_sq' (abs_le.mp k3).1 (abs_le.mp k3).2
  linarith

/-! ## homogeneous transforms -/

private def hA : Mat 4 (Ex (Fin 4 × Fin 4)) := ⟨fun i j => .var (i, j)⟩

/-- The computed inverse of a homogeneous transform: the rotation block is the transpose and the last row
`0 0 0 1`, both without rounding; the translation is `-Rᵀp` up to `(1+u)^3 - 1` times `Σ|R||p|` (plus
underflow). -/
theorem C120_homogeneous_inverse {f : Fmt} (A : Mat 4 (Flt f)) :
    (∀ i j : Fin 3, homogeneous_inverse A i.castSucc j.castSucc = A j.castSucc i.castSucc) ∧
    homogeneous_inverse A 3 0 = 0 ∧ homogeneous_inverse A 3 1 = 0 ∧ homogeneous_inverse A 3 2 = 0 ∧
    homogeneous_inverse A 3 3 = 1 ∧
    ∀ i : Fin 3, (homogeneous_inverse A i.castSucc 3).IsFin →
      |(homogeneous_inverse A i.castSucc 3).toReal + ∑ k : Fin 3, (A k.castSucc i.castSucc).toReal * (A k.castSucc 3).toReal|
        ≤ ((1 + f.u) ^ 3 - 1) * ∑ k : Fin 3, |(A k.castSucc i.castSucc).toReal| * |(A k.castSucc 3).toReal| +
          (1 + f.u) ^ 3 * (f.eta * 3) := by
  refine ⟨fun i j => ?_, rfl, rfl, rfl, rfl, fun i h => ?_⟩
  · fin_cases i <;> fin_cases j <;> rfl
  · have hη := f.eta_pos
    have key (e : Ex (Fin 4 × Fin 4)) (S R : ℝ) (hk : e.depth = 3)
        (hS : Ex.absE 0 (Ex.vals fun x : Fin 4 × Fin 4 => A x.1 x.2) e = S)
        (hU : Ex.absE f.eta (Ex.vals fun x : Fin 4 × Fin 4 => A x.1 x.2) e = S + f.eta * 3)
        (hR : Ex.evalR (Ex.vals fun x : Fin 4 × Fin 4 => A x.1 x.2) e = -R)
        (hf : (e.evalF fun x => A x.1 x.2).IsFin) :
        |(e.evalF fun x => A x.1 x.2).toReal + R| ≤ ((1 + f.u) ^ 3 - 1) * S + (1 + f.u) ^ 3 * (f.eta * 3) := by
      have := Ex.err_of_le e hk hS.le (by rw [hU, hS]) hf
      rwa [hR, sub_neg_eq_add] at this
    have ae (i : Fin 3) (η : ℝ) : Ex.absE η (Ex.vals fun x : Fin 4 × Fin 4 => A x.1 x.2) (homogeneous_inverse hA i.castSucc 3) =
        (|(A 0 i.castSucc).toReal| * |(A 0 3).toReal| + η) + (|(A 1 i.castSucc).toReal| * |(A 1 3).toReal| + η) +
          (|(A 2 i.castSucc).toReal| * |(A 2 3).toReal| + η) := by fin_cases i <;> rfl
    have re (i : Fin 3) : Ex.evalR (Ex.vals fun x : Fin 4 × Fin 4 => A x.1 x.2) (homogeneous_inverse hA i.castSucc 3) =
        -(A 0 i.castSucc).toReal * (A 0 3).toReal + -(A 1 i.castSucc).toReal * (A 1 3).toReal +
          -(A 2 i.castSucc).toReal * (A 2 3).toReal := by fin_cases i <;> rfl
    have fe (i : Fin 3) : Ex.evalF (fun x : Fin 4 × Fin 4 => A x.1 x.2) (homogeneous_inverse hA i.castSucc 3) =
        homogeneous_inverse A i.castSucc 3 := by fin_cases i <;> rfl
    have dk : ∀ i : Fin 3, (homogeneous_inverse hA i.castSucc 3).depth = 3 := by decide +kernel
    have := key (homogeneous_inverse hA i.castSucc 3)
      (∑ k : Fin 3, |(A k.castSucc i.castSucc).toReal| * |(A k.castSucc 3).toReal|)
      (∑ k : Fin 3, (A k.castSucc i.castSucc).toReal * (A k.castSucc 3).toReal) (dk i)
      (by rw [ae]; simp only [Fin.sum_univ_three, add_zero]; rfl)
      (by rw [ae]; simp only [Fin.sum_univ_three]; change _ = (|(A 0 i.castSucc).toReal| * |(A 0 3).toReal| + |(A 1 i.castSucc).toReal| * |(A 1 3).toReal| + |(A 2 i.castSucc).toReal| * |(A 2 3).toReal|) + _; ring)
      (by rw [re]; simp only [Fin.sum_univ_three]; change _ = -((A 0 i.castSucc).toReal * (A 0 3).toReal + (A 1 i.castSucc).toReal * (A 1 3).toReal + (A 2 i.castSucc).toReal * (A 2 3).toReal); ring)
      (by rw [fe]; exact h)
    rwa [fe] at this

/-- If the columns of the rotation block are orthonormal up to `δ`, then the computed inverse is a left inverse
of the transform (multiplied in exact arithmetic) up to `δ` in the rotation block and the rounding error of
`C120_homogeneous_inverse` in the translation; the last row is exact. -/
theorem C120_inverse_round_trip {f : Fmt} (A : Mat 4 (Flt f)) (δ : ℝ)
    (hR : ∀ i j : Fin 3, |∑ k : Fin 3, (A k.castSucc i.castSucc).toReal * (A k.castSucc j.castSucc).toReal -
      if i = j then 1 else 0| ≤ δ)
    (hA : A.reM' 3 = ![0, 0, 0, 1]) (hf : ∀ i : Fin 3, (homogeneous_inverse A i.castSucc 3).IsFin) :
    let D := (homogeneous_inverse A).reM' * A.reM' - 1
    (∀ i j : Fin 3, |D i.castSucc j.castSucc| ≤ δ) ∧ D 3 = 0 ∧
    ∀ i : Fin 3, |D i.castSucc 3| ≤
      ((1 + f.u) ^ 3 - 1) * ∑ k : Fin 3, |(A k.castSucc i.castSucc).toReal| * |(A k.castSucc 3).toReal| +
        (1 + f.u) ^ 3 * (f.eta * 3) := by
  intro D
  obtain ⟨hr, h0, h1, h2, h3, ht⟩ := C120_homogeneous_inverse A
  have a0 : (A 3 0).toReal = 0 := congrFun hA 0
  have a1 : (A 3 1).toReal = 0 := congrFun hA 1
  have a2 : (A 3 2).toReal = 0 := congrFun hA 2
  have a3 : (A 3 3).toReal = 1 := congrFun hA 3
  have z0 : (0 : Flt f).toReal = 0 := by simp [toReal, sgn]
  have z1 : (1 : Flt f).toReal = 1 := by simp [toReal, sgn]
  have mulD (i j : Fin 4) : D i j = (homogeneous_inverse A i 0).toReal * (A 0 j).toReal +
      (homogeneous_inverse A i 1).toReal * (A 1 j).toReal + (homogeneous_inverse A i 2).toReal * (A 2 j).toReal +
      (homogeneous_inverse A i 3).toReal * (A 3 j).toReal - if i = j then 1 else 0 := by
    simp only [D, Matrix.sub_apply, Matrix.mul_apply, Fin.sum_univ_four, Matrix.one_apply]
    rfl
  have hri (i k : Fin 3) : homogeneous_inverse A i.castSucc k.castSucc = A k.castSucc i.castSucc := hr i k
  refine ⟨fun i j => ?_, ?_, fun i => ?_⟩
  · rw [mulD]
    have e0 := hri i 0
    have e1 := hri i 1
    have e2 := hri i 2
    simp only [Fin.castSucc_zero] at e0
    change homogeneous_inverse A i.castSucc 1 = A 1 _ at e1
    change homogeneous_inverse A i.castSucc 2 = A 2 _ at e2
    rw [e0, e1, e2]
    have e3 : (A 3 j.castSucc).toReal = 0 := by fin_cases j <;> assumption
    rw [e3, mul_zero, add_zero]
    have := hR i j
    rw [Fin.sum_univ_three] at this
    simp only [Fin.castSucc_inj]
    exact this
  · funext j
    rw [mulD, h0, h1, h2, h3, z0, z1]
    fin_cases j <;> simp [a0, a1, a2, a3]
  · rw [mulD]
    have e0 := hri i 0
    have e1 := hri i 1
    have e2 := hri i 2
    simp only [Fin.castSucc_zero] at e0
    change homogeneous_inverse A i.castSucc 1 = A 1 _ at e1
    change homogeneous_inverse A i.castSucc 2 = A 2 _ at e2
    rw [e0, e1, e2, a3, mul_one, if_neg (by fin_cases i <;> decide), sub_zero]
    have := ht i (hf i)
    rw [add_comm, Fin.sum_univ_three] at this
    exact this

/-! ## cross product, adjoint, screw axis -/

private def vA : Vec 3 (Ex (Fin 3 ⊕ Fin 3 ⊕ Unit)) := ⟨![.var (.inl 0), .var (.inl 1), .var (.inl 2)]⟩
private def vB : Vec 3 (Ex (Fin 3 ⊕ Fin 3 ⊕ Unit)) :=
  ⟨![.var (.inr (.inl 0)), .var (.inr (.inl 1)), .var (.inr (.inl 2))]⟩

private def env {f : Fmt} (a b : Vec 3 (Flt f)) (h : Flt f) : Fin 3 ⊕ Fin 3 ⊕ Unit → Flt f :=
  Sum.elim a.val (Sum.elim b.val fun _ => h)

/-- The computed cross product is within `(1+u)^2 - 1` times `2AB` (plus underflow) of the true one, `A` and
`B` bounding the components. -/
theorem C120_cross {f : Fmt} (a b : Vec 3 (Flt f)) (A B : ℝ) (ha : ∀ i, |(a i).toReal| ≤ A) (hb : ∀ i, |(b i).toReal| ≤ B)
    (h : ∀ i, (V3.cross a b i).IsFin) (i : Fin 3) :
    |(V3.cross a b i).toReal - crossProduct (fun k => (a k).toReal) (fun k => (b k).toReal) i| ≤
      ((1 + f.u) ^ 2 - 1) * (2 * A * B) + (1 + f.u) ^ 2 * (f.eta * 2) := by
  have hA : 0 ≤ A := (abs_nonneg _).trans (ha 0)
  have pm (i j : Fin 3) : |(a i).toReal| * |(b j).toReal| ≤ A * B := mul_le_mul (ha i) (hb j) (abs_nonneg _) hA
  have dk : ∀ i : Fin 3, (V3.cross vA vB i).depth = 2 := by decide +kernel
  have key (i j k : Fin 3) (hF : Ex.evalF (env a b 0) (V3.cross vA vB i) = V3.cross a b i)
      (hR : Ex.evalR (Ex.vals (env a b 0)) (V3.cross vA vB i) = crossProduct (fun k => (a k).toReal) (fun k => (b k).toReal) i)
      (hη : ∀ η, Ex.absE η (Ex.vals (env a b 0)) (V3.cross vA vB i) =
        (|(a j).toReal| * |(b k).toReal| + η) + (|(a k).toReal| * |(b j).toReal| + η)) :
      |(V3.cross a b i).toReal - crossProduct (fun k => (a k).toReal) (fun k => (b k).toReal) i| ≤
        ((1 + f.u) ^ 2 - 1) * (2 * A * B) + (1 + f.u) ^ 2 * (f.eta * 2) := by
    have := Ex.err_of_le (x := env a b 0) (V3.cross vA vB i) (dk i) (S := 2 * A * B) (U := 2)
      (by rw [hη]; linarith [pm j k, pm k j]) (by rw [hη, hη]; linarith) (by rw [hF]; exact h i)
    rwa [hF, hR] at this
  fin_cases i
  · exact key 0 1 2 rfl (by simp [crossProduct]; rfl) fun η => rfl
  · exact key 1 2 0 rfl (by simp [crossProduct]; rfl) fun η => rfl
  · exact key 2 0 1 rfl (by simp [crossProduct]; rfl) fun η => rfl

/-- `screw_to_axis`: the axis comes back unchanged; the linear part is within the stated bound of
`q × s + h s`. -/
theorem C120_screw_to_axis {f : Fmt} (q s : Vec 3 (Flt f)) (h : Flt f) (Q S : ℝ) (hq : ∀ i, |(q i).toReal| ≤ Q)
    (hs : ∀ i, |(s i).toReal| ≤ S) (hf : ∀ i, (screw_to_axis q s h i).IsFin) :
    (∀ i : Fin 3, screw_to_axis q s h (i.castAdd 3) = s i) ∧
    ∀ i : Fin 3, |(screw_to_axis q s h (i.natAdd 3)).toReal -
        (crossProduct (fun k => (q k).toReal) (fun k => (s k).toReal) i + h.toReal * (s i).toReal)| ≤
      ((1 + f.u) ^ 3 - 1) * (2 * Q * S + |h.toReal| * S) + (1 + f.u) ^ 3 * (f.eta * 3) := by
  have hQ : 0 ≤ Q := (abs_nonneg _).trans (hq 0)
  have pm (i j : Fin 3) : |(q i).toReal| * |(s j).toReal| ≤ Q * S := mul_le_mul (hq i) (hs j) (abs_nonneg _) hQ
  have ph (i : Fin 3) : |(s i).toReal| * |h.toReal| ≤ |h.toReal| * S := by
    rw [mul_comm]; exact mul_le_mul_of_nonneg_left (hs i) (abs_nonneg _)
  have dk : ∀ i : Fin 3, (screw_to_axis vA vB (.var (.inr (.inr ()))) (i.natAdd 3)).depth = 3 := by decide +kernel
  have key (i j k : Fin 3) (hF : Ex.evalF (env q s h) (screw_to_axis vA vB (.var (.inr (.inr ()))) (i.natAdd 3)) =
        screw_to_axis q s h (i.natAdd 3))
      (hR : Ex.evalR (Ex.vals (env q s h)) (screw_to_axis vA vB (.var (.inr (.inr ()))) (i.natAdd 3)) =
        crossProduct (fun k => (q k).toReal) (fun k => (s k).toReal) i + (s i).toReal * h.toReal)
      (hη : ∀ η, Ex.absE η (Ex.vals (env q s h)) (screw_to_axis vA vB (.var (.inr (.inr ()))) (i.natAdd 3)) =
        (|(q j).toReal| * |(s k).toReal| + η) + (|(q k).toReal| * |(s j).toReal| + η) + (|(s i).toReal| * |h.toReal| + η)) :
      |(screw_to_axis q s h (i.natAdd 3)).toReal -
          (crossProduct (fun k => (q k).toReal) (fun k => (s k).toReal) i + h.toReal * (s i).toReal)| ≤
        ((1 + f.u) ^ 3 - 1) * (2 * Q * S + |h.toReal| * S) + (1 + f.u) ^ 3 * (f.eta * 3) := by
    have := Ex.err_of_le (x := env q s h) _ (dk i) (S := 2 * Q * S + |h.toReal| * S) (U := 3)
      (by rw [hη]; linarith [pm j k, pm k j, ph i]) (by rw [hη, hη]; linarith) (by rw [hF]; exact hf _)
    rwa [hF, hR, mul_comm (s i).toReal] at this
  refine ⟨fun i => by fin_cases i <;> rfl, fun i => ?_⟩
  fin_cases i
  · exact key 0 1 2 rfl (by simp [crossProduct]; rfl) fun η => rfl
  · exact key 1 2 0 rfl (by simp [crossProduct]; rfl) fun η => rfl
  · exact key 2 0 1 rfl (by simp [crossProduct]; rfl) fun η => rfl

private def adjE (A : Mat 4 (Ex (Fin 4 × Fin 4))) : Mat 3 (Ex (Fin 4 × Fin 4)) :=
  M33.mul (skew_from_vec (get_parts_raw A).2) (get_parts_raw A).1

/-- `adjoint` returns: both diagonal blocks are the rotation block, the upper right block is zero (all without
rounding), and column `j` of the lower left block is within the stated bound of `p × R_j`. -/
theorem C120_adjoint {f : Fmt} (A : Mat 4 (Flt f)) (P R : ℝ) (hP : ∀ i : Fin 3, |(A i.castSucc 3).toReal| ≤ P)
    (hR' : ∀ i j : Fin 3, |(A i.castSucc j.castSucc).toReal| ≤ R) :
    ∃ M : Mat 6 (Flt f), adjoint A = .ok M ∧
      (∀ i j : Fin 3, M (i.castAdd 3) (j.castAdd 3) = A i.castSucc j.castSucc ∧
        M (i.natAdd 3) (j.natAdd 3) = A i.castSucc j.castSucc ∧ M (i.castAdd 3) (j.natAdd 3) = 0) ∧
      ∀ i j : Fin 3, (M (i.natAdd 3) (j.castAdd 3)).IsFin →
        |(M (i.natAdd 3) (j.castAdd 3)).toReal -
            crossProduct (fun k : Fin 3 => (A k.castSucc 3).toReal) (fun k : Fin 3 => (A k.castSucc j.castSucc).toReal) i| ≤
          ((1 + f.u) ^ 3 - 1) * (2 * P * R) + (1 + f.u) ^ 3 * (f.eta * 3) := by
  have hP0 : 0 ≤ P := (abs_nonneg _).trans (hP 0)
  have pm (i j k : Fin 3) : |(A i.castSucc 3).toReal| * |(A j.castSucc k.castSucc).toReal| ≤ P * R :=
    mul_le_mul (hP i) (hR' j k) (abs_nonneg _) hP0
  have low (M : Mat 6 (Flt f)) (hM : adjoint A = .ok M) (i j : Fin 3) : M (i.natAdd 3) (j.castAdd 3) =
      M33.mul (skew_from_vec (get_parts_raw A).2) (get_parts_raw A).1 i j := by
    injection hM with hM
    rw [← hM]
    fin_cases i <;> fin_cases j <;> rfl
  refine ⟨_, rfl, fun i j => ?_, fun i j => ?_⟩
  · fin_cases i <;> fin_cases j <;> exact ⟨rfl, rfl, rfl⟩
  rw [low _ rfl]
  intro h
  have dk : ∀ i j : Fin 3, (adjE hA i j).depth ≤ 3 := by decide +kernel
  have fe (i j : Fin 3) : Ex.evalF (fun x : Fin 4 × Fin 4 => A x.1 x.2) (adjE hA i j) =
      M33.mul (skew_from_vec (get_parts_raw A).2) (get_parts_raw A).1 i j := by
    fin_cases i <;> fin_cases j <;> rfl
  have key (i k l : Fin 3) (h : (M33.mul (skew_from_vec (get_parts_raw A).2) (get_parts_raw A).1 i j).IsFin)
      (hR : Ex.evalR (Ex.vals fun x : Fin 4 × Fin 4 => A x.1 x.2) (adjE hA i j) =
        crossProduct (fun k : Fin 3 => (A k.castSucc 3).toReal) (fun k : Fin 3 => (A k.castSucc j.castSucc).toReal) i)
      (hη : ∀ η, Ex.absE η (Ex.vals fun x : Fin 4 × Fin 4 => A x.1 x.2) (adjE hA i j) =
        |(A k.castSucc 3).toReal| * |(A l.castSucc j.castSucc).toReal| +
          |(A l.castSucc 3).toReal| * |(A k.castSucc j.castSucc).toReal| + 3 * η) :
      |(M33.mul (skew_from_vec (get_parts_raw A).2) (get_parts_raw A).1 i j).toReal -
          crossProduct (fun k : Fin 3 => (A k.castSucc 3).toReal) (fun k : Fin 3 => (A k.castSucc j.castSucc).toReal) i| ≤
        ((1 + f.u) ^ 3 - 1) * (2 * P * R) + (1 + f.u) ^ 3 * (f.eta * 3) := by
    have h1 := Ex.err_of_le (x := fun x : Fin 4 × Fin 4 => A x.1 x.2) (adjE hA i j) rfl (S := 2 * P * R) (U := 3)
      (by rw [hη]; linarith [pm k l j, pm l k j]) (by rw [hη, hη]; linarith) (by rw [fe]; exact h)
    rw [fe, hR] at h1
    have h2 : (1 + f.u) ^ (adjE hA i j).depth ≤ (1 + f.u) ^ 3 :=
      pow_le_pow_right₀ (by linarith [f.u_pos]) (dk i j)
    have hR0 : 0 ≤ R := (abs_nonneg _).trans (hR' 0 0)
    have := f.eta_pos
    refine h1.trans ?_
    gcongr
  have r0 : Ex.evalR (Ex.vals fun x : Fin 4 × Fin 4 => A x.1 x.2) (adjE hA 0 j) =
      (0 : ℝ) * (A 0 j.castSucc).toReal + -(A 2 3).toReal * (A 1 j.castSucc).toReal + (A 1 3).toReal * (A 2 j.castSucc).toReal := by
    fin_cases j <;> rfl
  have s0 (η : ℝ) : Ex.absE η (Ex.vals fun x : Fin 4 × Fin 4 => A x.1 x.2) (adjE hA 0 j) =
      ((0 : ℝ) * |(A 0 j.castSucc).toReal| + η) + (|(A 2 3).toReal| * |(A 1 j.castSucc).toReal| + η) + (|(A 1 3).toReal| * |(A 2 j.castSucc).toReal| + η) := by
    fin_cases j <;> rfl
  have r1 : Ex.evalR (Ex.vals fun x : Fin 4 × Fin 4 => A x.1 x.2) (adjE hA 1 j) =
      (A 2 3).toReal * (A 0 j.castSucc).toReal + (0 : ℝ) * (A 1 j.castSucc).toReal + -(A 0 3).toReal * (A 2 j.castSucc).toReal := by
    fin_cases j <;> rfl
  have s1 (η : ℝ) : Ex.absE η (Ex.vals fun x : Fin 4 × Fin 4 => A x.1 x.2) (adjE hA 1 j) =
      (|(A 2 3).toReal| * |(A 0 j.castSucc).toReal| + η) + ((0 : ℝ) * |(A 1 j.castSucc).toReal| + η) + (|(A 0 3).toReal| * |(A 2 j.castSucc).toReal| + η) := by
    fin_cases j <;> rfl
  have r2 : Ex.evalR (Ex.vals fun x : Fin 4 × Fin 4 => A x.1 x.2) (adjE hA 2 j) =
      -(A 1 3).toReal * (A 0 j.castSucc).toReal + (A 0 3).toReal * (A 1 j.castSucc).toReal + (0 : ℝ) * (A 2 j.castSucc).toReal := by
    fin_cases j <;> rfl
  have s2 (η : ℝ) : Ex.absE η (Ex.vals fun x : Fin 4 × Fin 4 => A x.1 x.2) (adjE hA 2 j) =
      (|(A 1 3).toReal| * |(A 0 j.castSucc).toReal| + η) + (|(A 0 3).toReal| * |(A 1 j.castSucc).toReal| + η) + ((0 : ℝ) * |(A 2 j.castSucc).toReal| + η) := by
    fin_cases j <;> rfl
  fin_cases i
  · refine key 0 1 2 h ?_ fun η => ?_
    · rw [r0, cross_apply]
      change _ = (A 1 3).toReal * (A 2 j.castSucc).toReal - (A 2 3).toReal * (A 1 j.castSucc).toReal
      ring
    · rw [s0]
      change _ = |(A 1 3).toReal| * |(A 2 j.castSucc).toReal| + |(A 2 3).toReal| * |(A 1 j.castSucc).toReal| + 3 * η
      ring
  · refine key 1 2 0 h ?_ fun η => ?_
    · rw [r1, cross_apply]
      change _ = (A 2 3).toReal * (A 0 j.castSucc).toReal - (A 0 3).toReal * (A 2 j.castSucc).toReal
      ring
    · rw [s1]
      change _ = |(A 2 3).toReal| * |(A 0 j.castSucc).toReal| + |(A 0 3).toReal| * |(A 2 j.castSucc).toReal| + 3 * η
      ring
  · refine key 2 0 1 h ?_ fun η => ?_
    · rw [r2, cross_apply]
      change _ = (A 0 3).toReal * (A 1 j.castSucc).toReal - (A 1 3).toReal * (A 0 j.castSucc).toReal
      ring
    · rw [s2]
      change _ = |(A 0 3).toReal| * |(A 1 j.castSucc).toReal| + |(A 1 3).toReal| * |(A 0 j.castSucc).toReal| + 3 * η
      ring

/-! ## no overflow -/

private def q4 (k : Fin 4) : Quat (Ex (Fin 4 × Fin 4)) :=
  ⟨.var (k, 0), ⟨![.var (k, 1), .var (k, 2), .var (k, 3)]⟩, false⟩
private def d1 : DQuat (Ex (Fin 4 × Fin 4)) := ⟨q4 0, q4 1, false⟩
private def d2 : DQuat (Ex (Fin 4 × Fin 4)) := ⟨q4 2, q4 3, false⟩

/-- If all components are finite and at most `B`, with `16 B² (1+u)^6` below the overflow threshold, then
nothing in this file overflows: products and translations of dual quaternions, inverses and adjoints of
transforms, cross products and screw axes are finite. -/
theorem C120_no_overflow {f : Fmt} (B : ℝ) (hB : 1 ≤ B) (hb : (1 + f.u) ^ 6 * (16 * B ^ 2) < (2 : ℝ) ^ (f.emax + 1))
    (p q : DQuat (Flt f)) (A : Mat 4 (Flt f)) (a b : Vec 3 (Flt f)) (s : Flt f)
    (hp : ∀ i, (p.real.comp i).FinLe B ∧ (p.dual.comp i).FinLe B)
    (hq : ∀ i, (q.real.comp i).FinLe B ∧ (q.dual.comp i).FinLe B) (hA' : ∀ i j, (A i j).FinLe B)
    (ha : ∀ i, (a i).FinLe B) (hb' : ∀ i, (b i).FinLe B) (hs : s.FinLe B) :
    (∀ i, ((p.mul q).real.comp i).IsFin ∧ ((p.mul q).dual.comp i).IsFin) ∧
    (∀ i, (((p.dual.smul (1 + 1)).mul p.real.conj).comp i).IsFin) ∧ (∀ i, (p.get_translation i).IsFin) ∧
    (∀ i j, (homogeneous_inverse A i j).IsFin) ∧ (∃ M, adjoint A = .ok M ∧ ∀ i j, (M i j).IsFin) ∧
    (∀ i, (V3.cross a b i).IsFin) ∧ ∀ i, (screw_to_axis a b s i).IsFin := by
  have hu := f.u_pos
  have key (x : Fin 4 × Fin 4 → Flt f) (hx : ∀ i, (x i).FinLe B) (e : Ex (Fin 4 × Fin 4))
      (hk : e.depth ≤ 6 ∧ e.cnt ≤ 16 ∧ e.deg ≤ 2) : (e.evalF x).IsFin := by
    refine Ex.isFin_of hB hx e rfl rfl rfl (lt_of_le_of_lt ?_ hb)
    have h1 : (e.cnt : ℝ) ≤ 16 := by exact_mod_cast hk.2.1
    have h2 : B ^ e.deg ≤ B ^ 2 := pow_le_pow_right₀ hB hk.2.2
    have h3 : (1 + f.u) ^ e.depth ≤ (1 + f.u) ^ 6 := pow_le_pow_right₀ (by linarith) hk.1
    gcongr
  let x : Fin 4 × Fin 4 → Flt f := fun k => ![p.real.comp, p.dual.comp, q.real.comp, q.dual.comp] k.1 k.2
  have hx : ∀ i, (x i).FinLe B := by
    rintro ⟨i, j⟩
    fin_cases i
    · exact (hp j).1
    · exact (hp j).2
    · exact (hq j).1
    · exact (hq j).2
  let y : Fin 4 × Fin 4 → Flt f := fun k => ![p.real.comp, ![s, a 0, a 1, a 2], ![s, b 0, b 1, b 2], q.dual.comp] k.1 k.2
  have hy : ∀ i, (y i).FinLe B := by
    rintro ⟨i, j⟩
    fin_cases i
    · exact (hp j).1
    · fin_cases j
      · exact hs
      · exact ha 0
      · exact ha 1
      · exact ha 2
    · fin_cases j
      · exact hs
      · exact hb' 0
      · exact hb' 1
      · exact hb' 2
    · exact (hq j).2
  let z : Fin 4 × Fin 4 → Flt f := fun k => A k.1 k.2
  have hz : ∀ i, (z i).FinLe B := fun i => hA' _ _
  have s1 : ∀ i, let e := (d1.mul d2).real.comp i; e.depth ≤ 6 ∧ e.cnt ≤ 16 ∧ e.deg ≤ 2 := by decide +kernel
  have s2 : ∀ i, let e := (d1.mul d2).dual.comp i; e.depth ≤ 6 ∧ e.cnt ≤ 16 ∧ e.deg ≤ 2 := by decide +kernel
  have s3 : ∀ i, let e := ((d1.dual.smul (1 + 1)).mul d1.real.conj).comp i; e.depth ≤ 6 ∧ e.cnt ≤ 16 ∧ e.deg ≤ 2 := by
    decide +kernel
  have s4 : ∀ i j, let e := homogeneous_inverse hA i j; e.depth ≤ 6 ∧ e.cnt ≤ 16 ∧ e.deg ≤ 2 := by decide +kernel
  have s5 : ∀ i j, let e := adjE hA i j; e.depth ≤ 6 ∧ e.cnt ≤ 16 ∧ e.deg ≤ 2 := by decide +kernel
  have s6 : ∀ i, let e := V3.cross (q4 1).q (q4 2).q i; e.depth ≤ 6 ∧ e.cnt ≤ 16 ∧ e.deg ≤ 2 := by decide +kernel
  have s7 : ∀ i, let e := screw_to_axis (q4 1).q (q4 2).q (q4 1).q0 i; e.depth ≤ 6 ∧ e.cnt ≤ 16 ∧ e.deg ≤ 2 := by
    decide +kernel
  have ht : ∀ i, (((p.dual.smul (1 + 1)).mul p.real.conj).comp i).IsFin := fun i => by
    have h := key x hx _ (s3 i)
    have e : (((d1.dual.smul (1 + 1)).mul d1.real.conj).comp i).evalF x =
        ((p.dual.smul (1 + 1)).mul p.real.conj).comp i := by fin_cases i <;> rfl
    rwa [e] at h
  refine ⟨fun i => ⟨?_, ?_⟩, ht, fun i => ?_, fun i j => ?_, ?_, fun i => ?_, fun i => ?_⟩
  · have h := key x hx _ (s1 i)
    have e : ((d1.mul d2).real.comp i).evalF x = (p.mul q).real.comp i := by fin_cases i <;> rfl
    rwa [e] at h
  · have h := key x hx _ (s2 i)
    have e : ((d1.mul d2).dual.comp i).evalF x = (p.mul q).dual.comp i := by fin_cases i <;> rfl
    rwa [e] at h
  · fin_cases i
    · exact ht 1
    · exact ht 2
    · exact ht 3
  · have h := key z hz _ (s4 i j)
    have e : (homogeneous_inverse hA i j).evalF z = homogeneous_inverse A i j := by
      fin_cases i <;> fin_cases j <;> rfl
    rwa [e] at h
  · obtain ⟨M, hM, h1, -⟩ := C120_adjoint A B B (fun i => (hA' _ _).2) fun i j => (hA' _ _).2
    refine ⟨M, hM, fun i j => ?_⟩
    have h2 (i j : Fin 3) : (M (i.natAdd 3) (j.castAdd 3)).IsFin := by
      have e : (adjE hA i j).evalF z = M (i.natAdd 3) (j.castAdd 3) := by
        injection hM with hM
        rw [← hM]
        fin_cases i <;> fin_cases j <;> rfl
      rw [← e]
      exact key z hz _ (s5 i j)
    refine Fin.addCases (m := 3) (n := 3) (motive := fun i => (M i j).IsFin) (fun i => ?_) (fun i => ?_) i
    · refine Fin.addCases (m := 3) (n := 3) (motive := fun j => (M _ j).IsFin) (fun j => ?_) (fun j => ?_) j
      · rw [(h1 i j).1]; exact (hA' _ _).1
      · rw [(h1 i j).2.2]; exact isFin_zero
    · refine Fin.addCases (m := 3) (n := 3) (motive := fun j => (M _ j).IsFin) (fun j => ?_) (fun j => ?_) j
      · exact h2 i j
      · rw [(h1 i j).2.1]; exact (hA' _ _).1
  · have h := key y hy _ (s6 i)
    have e : (V3.cross (q4 1).q (q4 2).q i).evalF y = V3.cross a b i := by fin_cases i <;> rfl
    rwa [e] at h
  · have h := key y hy _ (s7 i)
    have e : (screw_to_axis (q4 1).q (q4 2).q (q4 1).q0 i).evalF y = screw_to_axis a b s i := by fin_cases i <;> rfl
    rwa [e] at h

/-- Concrete case: in single precision all components equal to one satisfy the hypotheses of
`C120_no_overflow` (`B = 1`), so all the finiteness hypotheses of this file are met. -/
example : let o : Quat (Flt Fmt.f32) := ⟨1, ⟨fun _ => 1⟩, false⟩
    let p : DQuat (Flt Fmt.f32) := ⟨o, o, false⟩
    (∀ i, ((p.mul p).real.comp i).IsFin ∧ ((p.mul p).dual.comp i).IsFin) ∧ (∀ i, (p.get_translation i).IsFin) ∧
    ∀ i j, (homogeneous_inverse (⟨fun _ _ => 1⟩ : Mat 4 (Flt Fmt.f32)) i j).IsFin := by
  intro o p
  have h1 : (1 : Flt Fmt.f32).FinLe 1 := ⟨isFin_one, by rw [toReal_one]; norm_num⟩
  have hc : ∀ i, (o.comp i).FinLe 1 := by intro i; fin_cases i <;> exact h1
  have h := C120_no_overflow (f := Fmt.f32) 1 le_rfl (by
    have e : Fmt.f32.u = 2 ^ (-24 : ℤ) := rfl
    rw [e]; norm_num [Fmt.f32]) p p ⟨fun _ _ => 1⟩ ⟨fun _ => 1⟩ ⟨fun _ => 1⟩ 1
    (fun i => ⟨hc i, hc i⟩) (fun i => ⟨hc i, hc i⟩) (fun _ _ => h1) (fun _ => h1) (fun _ => h1) h1
  exact ⟨h.1, h.2.2.1, h.2.2.2.1⟩

/-- Concrete case for `C120_inverse_round_trip`: the translation by `(1, 1, 1)`, with `δ = 0`. -/
example : let A : Mat 4 (Flt Fmt.f32) := ⟨![![1, 0, 0, 1], ![0, 1, 0, 1], ![0, 0, 1, 1], ![0, 0, 0, 1]]⟩
    (∀ i j : Fin 3, |∑ k : Fin 3, (A k.castSucc i.castSucc).toReal * (A k.castSucc j.castSucc).toReal -
      if i = j then 1 else 0| ≤ 0) ∧ A.reM' 3 = ![0, 0, 0, 1] := by
  intro A
  have z0 : (0 : Flt Fmt.f32).toReal = 0 := by simp [toReal, sgn]
  have z1 : (1 : Flt Fmt.f32).toReal = 1 := toReal_one
  refine ⟨fun i j => ?_, ?_⟩
  · rw [Fin.sum_univ_three]
    fin_cases i <;> fin_cases j <;> simp [A, z0, z1]
  · funext j
    fin_cases j <;> simp [A, Mat.reM', z0, z1]

end StaticMath
