import Verif.Lemmas.IeeeExpr
import Verif.Spec.Quat
import Verif.Lemmas.Quat
import Verif.Props.QuatAlgebra

/-!
# C105: floating point quaternions

`f.u = 2^-p` is the unit roundoff, `f.eta` half the smallest positive number.
-/

namespace StaticMath
open Flt Quaternion

/-- The Hamilton quaternion of the real values of the components. -/
noncomputable def Quat.reH {f : Fmt} (q : Quat (Flt f)) : ℍ[ℝ] :=
  ⟨q.q0.toReal, (q.q 0).toReal, (q.q 1).toReal, (q.q 2).toReal⟩

/-- The four components of a quaternion. -/
def Quat.comp {T : Type} (q : Quat T) : Fin 4 → T := ![q.q0, q.q 0, q.q 1, q.q 2]

private def qA : Quat (Ex (Fin 4 ⊕ Fin 4)) :=
  ⟨.var (.inl 0), ⟨![.var (.inl 1), .var (.inl 2), .var (.inl 3)]⟩, false⟩
private def qB : Quat (Ex (Fin 4 ⊕ Fin 4)) :=
  ⟨.var (.inr 0), ⟨![.var (.inr 1), .var (.inr 2), .var (.inr 3)]⟩, false⟩

private theorem cs4 (a b : ℍ[ℝ]) (c d e g : ℝ) (h : c ^ 2 + d ^ 2 + e ^ 2 + g ^ 2 = ‖b‖ ^ 2) :
    |a.re| * |c| + |a.imI| * |d| + |a.imJ| * |e| + |a.imK| * |g| ≤ ‖a‖ * ‖b‖ := by
  have ha : a.re ^ 2 + a.imI ^ 2 + a.imJ ^ 2 + a.imK ^ 2 = ‖a‖ ^ 2 := by
    rw [sq ‖a‖, ← Quaternion.normSq_eq_norm_mul_self, Quaternion.normSq_def']
  apply abs_le_of_sq_le_sq' _ (by positivity) |>.2
  rw [mul_pow, ← ha, ← h, ← sq_abs a.re, ← sq_abs a.imI, ← sq_abs a.imJ, ← sq_abs a.imK,
    ← sq_abs c, ← sq_abs d, ← sq_abs e, ← sq_abs g]
  nlinarith [sq_nonneg (|a.re| * |d| - |a.imI| * |c|), sq_nonneg (|a.re| * |e| - |a.imJ| * |c|),
    sq_nonneg (|a.re| * |g| - |a.imK| * |c|), sq_nonneg (|a.imI| * |e| - |a.imJ| * |d|),
    sq_nonneg (|a.imI| * |g| - |a.imK| * |d|), sq_nonneg (|a.imJ| * |g| - |a.imK| * |e|)]

/-- The computed quaternion product: every component is within `(1+u)^4 - 1` times the product of the
norms (plus underflow) of that of the Hamilton product, so the norm of the product drifts by at most twice
that. -/
theorem C105_product {f : Fmt} (p q : Quat (Flt f)) (h : ∀ i, ((p.mul q).comp i).IsFin) :
    let E := ((1 + f.u) ^ 4 - 1) * (‖p.reH‖ * ‖q.reH‖) + (1 + f.u) ^ 4 * (f.eta * 4)
    (|((p.mul q).reH - p.reH * q.reH).re| ≤ E ∧ |((p.mul q).reH - p.reH * q.reH).imI| ≤ E ∧
      |((p.mul q).reH - p.reH * q.reH).imJ| ≤ E ∧ |((p.mul q).reH - p.reH * q.reH).imK| ≤ E) ∧
    ‖(p.mul q).reH - p.reH * q.reH‖ ≤ 2 * E ∧ |‖(p.mul q).reH‖ - ‖p.reH‖ * ‖q.reH‖| ≤ 2 * E := by
  intro E
  have hu := f.u_pos
  have hη := f.eta_pos
  have hq : q.reH.re ^ 2 + q.reH.imI ^ 2 + q.reH.imJ ^ 2 + q.reH.imK ^ 2 = ‖q.reH‖ ^ 2 := by
    rw [sq ‖q.reH‖, ← Quaternion.normSq_eq_norm_mul_self, Quaternion.normSq_def']
  have hE : 0 ≤ E := by
    have : (1 : ℝ) ≤ (1 + f.u) ^ 4 := one_le_pow₀ (by linarith)
    have := sub_nonneg.mpr this
    positivity
  have key (e : Ex (Fin 4 ⊕ Fin 4)) (hk : e.depth ≤ 4) (hf : (e.evalF (Sum.elim p.comp q.comp)).IsFin)
      (hS : Ex.absE 0 (Ex.vals (Sum.elim p.comp q.comp)) e ≤ ‖p.reH‖ * ‖q.reH‖)
      (hU : Ex.absE f.eta (Ex.vals (Sum.elim p.comp q.comp)) e ≤
        Ex.absE 0 (Ex.vals (Sum.elim p.comp q.comp)) e + f.eta * 4) :
      |(e.evalF (Sum.elim p.comp q.comp)).toReal - e.evalR (Ex.vals (Sum.elim p.comp q.comp))| ≤ E := by
    refine (Ex.err_of_le e rfl hS hU hf).trans ?_
    have h1 : (1 + f.u) ^ e.depth ≤ (1 + f.u) ^ 4 := pow_le_pow_right₀ (by linarith) hk
    have h2 : 0 ≤ ‖p.reH‖ * ‖q.reH‖ := by positivity
    simp only [E]
    gcongr
  have a0 (η : ℝ) : Ex.absE η (Ex.vals (Sum.elim p.comp q.comp)) (qA.mul qB).q0 =
      (|p.reH.re| * |q.reH.re| + η) + ((|p.reH.imI| * |q.reH.imI| + η) + (|p.reH.imJ| * |q.reH.imJ| + η) +
        (|p.reH.imK| * |q.reH.imK| + η)) := rfl
  have a1 (η : ℝ) : Ex.absE η (Ex.vals (Sum.elim p.comp q.comp)) ((qA.mul qB).q 0) =
      ((|q.reH.imI| * |p.reH.re| + η) + (|p.reH.imI| * |q.reH.re| + η)) + ((|p.reH.imJ| * |q.reH.imK| + η) +
        (|p.reH.imK| * |q.reH.imJ| + η)) := rfl
  have a2 (η : ℝ) : Ex.absE η (Ex.vals (Sum.elim p.comp q.comp)) ((qA.mul qB).q 1) =
      ((|q.reH.imJ| * |p.reH.re| + η) + (|p.reH.imJ| * |q.reH.re| + η)) + ((|p.reH.imK| * |q.reH.imI| + η) +
        (|p.reH.imI| * |q.reH.imK| + η)) := rfl
  have a3 (η : ℝ) : Ex.absE η (Ex.vals (Sum.elim p.comp q.comp)) ((qA.mul qB).q 2) =
      ((|q.reH.imK| * |p.reH.re| + η) + (|p.reH.imK| * |q.reH.re| + η)) + ((|p.reH.imI| * |q.reH.imJ| + η) +
        (|p.reH.imJ| * |q.reH.imI| + η)) := rfl
  have k0 := key (qA.mul qB).q0 (by decide +kernel) (h 0)
    (by rw [a0]; linarith [cs4 p.reH q.reH _ _ _ _ hq]) (by rw [a0, a0]; linarith)
  have k1 := key ((qA.mul qB).q 0) (by decide +kernel) (h 1)
    (by rw [a1]; linarith [cs4 p.reH q.reH q.reH.imI q.reH.re q.reH.imK q.reH.imJ (by linarith [hq])])
    (by rw [a1, a1]; linarith)
  have k2 := key ((qA.mul qB).q 1) (by decide +kernel) (h 2)
    (by rw [a2]; linarith [cs4 p.reH q.reH q.reH.imJ q.reH.imK q.reH.re q.reH.imI (by linarith [hq])])
    (by rw [a2, a2]; linarith)
  have k3 := key ((qA.mul qB).q 2) (by decide +kernel) (h 3)
    (by rw [a3]; linarith [cs4 p.reH q.reH q.reH.imK q.reH.imJ q.reH.imI q.reH.re (by linarith [hq])])
    (by rw [a3, a3]; linarith)
  have e0 : ((p.mul q).reH - p.reH * q.reH).re = ((qA.mul qB).q0.evalF (Sum.elim p.comp q.comp)).toReal -
      (qA.mul qB).q0.evalR (Ex.vals (Sum.elim p.comp q.comp)) := by
    rw [Quaternion.re_sub, Quaternion.re_mul]
    change _ = (p.mul q).reH.re - (p.reH.re * q.reH.re - (p.reH.imI * q.reH.imI + p.reH.imJ * q.reH.imJ +
      p.reH.imK * q.reH.imK))
    ring
  have e1 : ((p.mul q).reH - p.reH * q.reH).imI = (((qA.mul qB).q 0).evalF (Sum.elim p.comp q.comp)).toReal -
      ((qA.mul qB).q 0).evalR (Ex.vals (Sum.elim p.comp q.comp)) := by
    rw [Quaternion.imI_sub, Quaternion.imI_mul]
    change _ = (p.mul q).reH.imI - ((q.reH.imI * p.reH.re + p.reH.imI * q.reH.re) + (p.reH.imJ * q.reH.imK -
      p.reH.imK * q.reH.imJ))
    ring
  have e2 : ((p.mul q).reH - p.reH * q.reH).imJ = (((qA.mul qB).q 1).evalF (Sum.elim p.comp q.comp)).toReal -
      ((qA.mul qB).q 1).evalR (Ex.vals (Sum.elim p.comp q.comp)) := by
    rw [Quaternion.imJ_sub, Quaternion.imJ_mul]
    change _ = (p.mul q).reH.imJ - ((q.reH.imJ * p.reH.re + p.reH.imJ * q.reH.re) + (p.reH.imK * q.reH.imI -
      p.reH.imI * q.reH.imK))
    ring
  have e3 : ((p.mul q).reH - p.reH * q.reH).imK = (((qA.mul qB).q 2).evalF (Sum.elim p.comp q.comp)).toReal -
      ((qA.mul qB).q 2).evalR (Ex.vals (Sum.elim p.comp q.comp)) := by
    rw [Quaternion.imK_sub, Quaternion.imK_mul]
    change _ = (p.mul q).reH.imK - ((q.reH.imK * p.reH.re + p.reH.imK * q.reH.re) + (p.reH.imI * q.reH.imJ -
      p.reH.imJ * q.reH.imI))
    ring
  rw [← e0] at k0
  rw [← e1] at k1
  rw [← e2] at k2
  rw [← e3] at k3
  have hn : ‖(p.mul q).reH - p.reH * q.reH‖ ≤ 2 * E := by
    apply abs_le_of_sq_le_sq' _ (by positivity) |>.2
    rw [sq ‖_‖, ← Quaternion.normSq_eq_norm_mul_self, Quaternion.normSq_def']
    have := sq_le_sq' (abs_le.mp k0).1 (abs_le.mp k0).2
    have := sq_le_sq' (abs_le.mp k1).1 (abs_le.mp k1).2
    have := sq_le_sq' (abs_le.mp k2).1 (abs_le.mp k2).2
    have := sq_le_sq' (abs_le.mp k3).1 (abs_le.mp k3).2
    linarith
  refine ⟨⟨k0, k1, k2, k3⟩, hn, ?_⟩
  rw [← norm_mul]
  exact (abs_norm_sub_norm_le _ _).trans hn

/-! ## rotation of a vector -/

private def vB : Vec 3 (Ex (Fin 4 ⊕ Fin 3)) := ⟨![.var (.inr 0), .var (.inr 1), .var (.inr 2)]⟩
private def qC : Quat (Ex (Fin 4 ⊕ Fin 3)) :=
  ⟨.var (.inl 0), ⟨![.var (.inl 1), .var (.inl 2), .var (.inl 3)]⟩, false⟩

/-- The vector of the real values as a pure quaternion. -/
noncomputable def Vec.reH {f : Fmt} (v : Vec 3 (Flt f)) : ℍ[ℝ] := ⟨0, (v 0).toReal, (v 1).toReal, (v 2).toReal⟩

private theorem rot_bound {η B w a b c v1 v2 v3 : ℝ} (hη : 0 ≤ η) (hw : |w| ≤ 1) (ha : |a| ≤ 1) (hb : |b| ≤ 1)
    (hc : |c| ≤ 1) (h1 : |v1| ≤ B) (h2 : |v2| ≤ B) (h3 : |v3| ≤ B) :
    let t (η x y z y' : ℝ) := ((x * (1 + 1) + η) * y + η) + ((z * (1 + 1) + η) * y' + η)
    let g (η : ℝ) := (|v1| + (t η |b| |v3| |c| |v2| * |w| + η)) + ((|b| * t η |a| |v2| |b| |v1| + η) +
      (|c| * t η |c| |v1| |a| |v3| + η))
    g 0 ≤ 13 * B ∧ g η ≤ g 0 + η * (6 * B + 9) := by
  intro t g
  have n1 := abs_nonneg v1; have n2 := abs_nonneg v2; have n3 := abs_nonneg v3
  have nw := abs_nonneg w; have na := abs_nonneg a; have nb := abs_nonneg b; have nc := abs_nonneg c
  have hB : 0 ≤ B := n1.trans h1
  have tb (x y z y' : ℝ) (hx : 0 ≤ x) (hx1 : x ≤ 1) (hz : 0 ≤ z) (hz1 : z ≤ 1) (hy : 0 ≤ y) (hy1 : y ≤ B)
      (hy' : 0 ≤ y') (hy1' : y' ≤ B) : t 0 x y z y' ≤ 4 * B ∧ t η x y z y' ≤ t 0 x y z y' + η * (2 * B + 2) ∧
      0 ≤ t 0 x y z y' := by
    have e1 : x * y ≤ 1 * B := mul_le_mul hx1 hy1 hy zero_le_one
    have e2 : z * y' ≤ 1 * B := mul_le_mul hz1 hy1' hy' zero_le_one
    have e3 := mul_le_mul_of_nonneg_left hy1 hη
    have e4 := mul_le_mul_of_nonneg_left hy1' hη
    have e5 := mul_nonneg hx hy
    have e6 := mul_nonneg hz hy'
    simp only [t]
    refine ⟨by linarith, by linarith, by linarith⟩
  have pm (x r y : ℝ) (hx : 0 ≤ x) (hx1 : x ≤ 1) (hy : 0 ≤ y) (hr : r ≤ y) : x * r ≤ y := by
    nlinarith [mul_le_mul_of_nonneg_left hr hx, mul_le_mul_of_nonneg_right hx1 hy]
  obtain ⟨p1, p2, p3⟩ := tb |b| |v3| |c| |v2| nb hb nc hc n3 h3 n2 h2
  obtain ⟨q1, q2, q3⟩ := tb |a| |v2| |b| |v1| na ha nb hb n2 h2 n1 h1
  obtain ⟨r1, r2, r3⟩ := tb |c| |v1| |a| |v3| nc hc na ha n1 h1 n3 h3
  have hD : 0 ≤ η * (2 * B + 2) := by positivity
  have s1 := pm |w| _ _ nw hw (by positivity) p1
  have s2 := pm |b| _ _ nb hb (by positivity) q1
  have s3 := pm |c| _ _ nc hc (by positivity) r1
  have u1 := pm |w| _ _ nw hw hD (sub_le_iff_le_add'.mpr p2)
  have u2 := pm |b| _ _ nb hb hD (sub_le_iff_le_add'.mpr q2)
  have u3 := pm |c| _ _ nc hc hD (sub_le_iff_le_add'.mpr r2)
  rw [mul_sub] at u1 u2 u3
  simp only [g]
  constructor <;> linarith

/-- Rotating a vector with components bounded by `B` by a quaternion with components bounded by 1: the
result of `q * v` is within the stated bound of `q v q⁻`, where the last term accounts for `q` not being
exactly of norm 1. -/
theorem C105_rotate {f : Fmt} (q : Quat (Flt f)) (v : Vec 3 (Flt f)) (B : ℝ) (hq : ∀ i, |(q.comp i).toReal| ≤ 1)
    (hv : ∀ i, |(v i).toReal| ≤ B) (h : ∀ i, ((q.mulVec v) i).IsFin) :
    let E := ((1 + f.u) ^ 7 - 1) * (13 * B) + (1 + f.u) ^ 7 * (f.eta * (6 * B + 9)) + |1 - normSq q.reH| * B
    (q.reH * v.reH * star q.reH).re = 0 ∧
    |(q.mulVec v 0).toReal - (q.reH * v.reH * star q.reH).imI| ≤ E ∧
    |(q.mulVec v 1).toReal - (q.reH * v.reH * star q.reH).imJ| ≤ E ∧
    |(q.mulVec v 2).toReal - (q.reH * v.reH * star q.reH).imK| ≤ E := by
  intro E
  have hη := f.eta_pos.le
  have key (i : Fin 3) (e : ℝ)
      (h0 : Ex.absE 0 (Ex.vals (Sum.elim q.comp v.val)) ((qC.mulVec vB) i) ≤ 13 * B ∧
        Ex.absE f.eta (Ex.vals (Sum.elim q.comp v.val)) ((qC.mulVec vB) i) ≤
          Ex.absE 0 (Ex.vals (Sum.elim q.comp v.val)) ((qC.mulVec vB) i) + f.eta * (6 * B + 9))
      (he : ((qC.mulVec vB) i).evalR (Ex.vals (Sum.elim q.comp v.val)) = e + (1 - normSq q.reH) * (v i).toReal)
      (hF : ((qC.mulVec vB) i).evalF (Sum.elim q.comp v.val) = q.mulVec v i) :
      |(q.mulVec v i).toReal - e| ≤ E := by
    have hd : ∀ i, ((qC.mulVec vB) i).depth = 7 := by decide +kernel
    have h1 := Ex.err_of_le (x := Sum.elim q.comp v.val) ((qC.mulVec vB) i) (k := 7) (hd i) h0.1 h0.2
      (by rw [hF]; exact h i)
    rw [he, hF] at h1
    have h2 : |(1 - normSq q.reH) * (v i).toReal| ≤ |1 - normSq q.reH| * B := by
      rw [abs_mul]; exact mul_le_mul_of_nonneg_left (hv i) (abs_nonneg _)
    have h3 : (q.mulVec v i).toReal - e = ((q.mulVec v i).toReal - (e + (1 - normSq q.reH) * (v i).toReal)) +
        (1 - normSq q.reH) * (v i).toReal := by ring
    rw [h3]
    exact (abs_add_le _ _).trans (add_le_add h1 h2)
  have hw : |q.reH.re| ≤ 1 := hq 0
  have hi : |q.reH.imI| ≤ 1 := hq 1
  have hj : |q.reH.imJ| ≤ 1 := hq 2
  have hk : |q.reH.imK| ≤ 1 := hq 3
  refine ⟨?_, key 0 _ (rot_bound hη hw hi hj hk (hv 0) (hv 1) (hv 2)) ?_ rfl,
    key 1 _ (rot_bound hη hw hj hk hi (hv 1) (hv 2) (hv 0)) ?_ rfl,
    key 2 _ (rot_bound hη hw hk hi hj (hv 2) (hv 0) (hv 1)) ?_ rfl⟩
  · simp only [Quaternion.re_mul, Quaternion.imI_mul, Quaternion.imJ_mul, Quaternion.imK_mul, Quaternion.re_star,
      Quaternion.imI_star, Quaternion.imJ_star, Quaternion.imK_star]
    have : v.reH.re = 0 := rfl
    rw [this]
    ring
  · change (v.reH.imI + (q.reH.imJ * (1 + 1) * v.reH.imK - q.reH.imK * (1 + 1) * v.reH.imJ) * q.reH.re) +
      (q.reH.imJ * (q.reH.imI * (1 + 1) * v.reH.imJ - q.reH.imJ * (1 + 1) * v.reH.imI) -
        q.reH.imK * (q.reH.imK * (1 + 1) * v.reH.imI - q.reH.imI * (1 + 1) * v.reH.imK)) = _ + _ * v.reH.imI
    simp only [Quaternion.re_mul, Quaternion.imI_mul, Quaternion.imJ_mul, Quaternion.imK_mul, Quaternion.re_star,
      Quaternion.imI_star, Quaternion.imJ_star, Quaternion.imK_star, Quaternion.normSq_def']
    have : v.reH.re = 0 := rfl
    rw [this]
    ring
  · change (v.reH.imJ + (q.reH.imK * (1 + 1) * v.reH.imI - q.reH.imI * (1 + 1) * v.reH.imK) * q.reH.re) +
      (q.reH.imK * (q.reH.imJ * (1 + 1) * v.reH.imK - q.reH.imK * (1 + 1) * v.reH.imJ) -
        q.reH.imI * (q.reH.imI * (1 + 1) * v.reH.imJ - q.reH.imJ * (1 + 1) * v.reH.imI)) = _ + _ * v.reH.imJ
    simp only [Quaternion.re_mul, Quaternion.imI_mul, Quaternion.imJ_mul, Quaternion.imK_mul, Quaternion.re_star,
      Quaternion.imI_star, Quaternion.imJ_star, Quaternion.imK_star, Quaternion.normSq_def']
    have : v.reH.re = 0 := rfl
    rw [this]
    ring
  · change (v.reH.imK + (q.reH.imI * (1 + 1) * v.reH.imJ - q.reH.imJ * (1 + 1) * v.reH.imI) * q.reH.re) +
      (q.reH.imI * (q.reH.imK * (1 + 1) * v.reH.imI - q.reH.imI * (1 + 1) * v.reH.imK) -
        q.reH.imJ * (q.reH.imJ * (1 + 1) * v.reH.imK - q.reH.imK * (1 + 1) * v.reH.imJ)) = _ + _ * v.reH.imK
    simp only [Quaternion.re_mul, Quaternion.imI_mul, Quaternion.imJ_mul, Quaternion.imK_mul, Quaternion.re_star,
      Quaternion.imI_star, Quaternion.imJ_star, Quaternion.imK_star, Quaternion.normSq_def']
    have : v.reH.re = 0 := rfl
    rw [this]
    ring

/-! ## rotation matrix of a quaternion -/

private def qD : Quat (Ex (Fin 4)) := ⟨.var 0, ⟨![.var 1, .var 2, .var 3]⟩, false⟩

private theorem nsq (a : ℍ[ℝ]) : ‖a‖ ^ 2 = |a.re| ^ 2 + |a.imI| ^ 2 + |a.imJ| ^ 2 + |a.imK| ^ 2 := by
  rw [sq_abs, sq_abs, sq_abs, sq_abs, sq ‖a‖, ← Quaternion.normSq_eq_norm_mul_self, Quaternion.normSq_def']

/-- Every entry of the computed rotation matrix is within the stated bound of that of the matrix of
`v ↦ q v q⁻`. -/
theorem C105_to_rotation {f : Fmt} (q : Quat (Flt f)) (h : ∀ i j, (q.to_rotation i j).IsFin) :
    ∃ R : Matrix (Fin 3) (Fin 3) ℝ, (∀ v : Vec 3 ℝ, (⟨R.mulVec v.val⟩ : Vec 3 ℝ).toH = q.reH * v.toH * star q.reH) ∧
      ∀ i j, |(q.to_rotation i j).toReal - R i j| ≤
        ((1 + f.u) ^ 4 - 1) * ‖q.reH‖ ^ 2 + (1 + f.u) ^ 4 * (f.eta * (4 + 2 * ‖q.reH‖)) := by
  have hη := f.eta_pos.le
  have n0 := norm_nonneg q.reH
  have hn := nsq q.reH
  have a0 := abs_nonneg q.reH.re
  have a1 := abs_nonneg q.reH.imI
  have a2 := abs_nonneg q.reH.imJ
  have a3 := abs_nonneg q.reH.imK
  have b0 : |q.reH.re| ≤ ‖q.reH‖ := abs_le_of_sq_le_sq' (by nlinarith) n0 |>.2
  have b1 : |q.reH.imI| ≤ ‖q.reH‖ := abs_le_of_sq_le_sq' (by nlinarith) n0 |>.2
  have b2 : |q.reH.imJ| ≤ ‖q.reH‖ := abs_le_of_sq_le_sq' (by nlinarith) n0 |>.2
  have b3 : |q.reH.imK| ≤ ‖q.reH‖ := abs_le_of_sq_le_sq' (by nlinarith) n0 |>.2
  have hs (η a b c d : ℝ) (hη : 0 ≤ η) (ha : 0 ≤ a) (hb : 0 ≤ b) (hc : 0 ≤ c) (hd : 0 ≤ d)
      (hN : a ^ 2 + b ^ 2 + c ^ 2 + d ^ 2 = ‖q.reH‖ ^ 2) (hb' : b ≤ ‖q.reH‖) (hd' : d ≤ ‖q.reH‖) :
      (((1 + 1) * a + 0) * b + 0) + (((1 + 1) * c + 0) * d + 0) ≤ ‖q.reH‖ ^ 2 ∧
      (((1 + 1) * a + η) * b + η) + (((1 + 1) * c + η) * d + η) ≤
        (((1 + 1) * a + 0) * b + 0) + (((1 + 1) * c + 0) * d + 0) + η * (4 + 2 * ‖q.reH‖) := by
    have e1 := mul_le_mul_of_nonneg_left hb' hη
    have e2 := mul_le_mul_of_nonneg_left hd' hη
    exact ⟨by nlinarith [sq_nonneg (a - b), sq_nonneg (c - d)], by linarith⟩
  have hsd (a b c d : ℝ) (hN : a ^ 2 + b ^ 2 + c ^ 2 + d ^ 2 = ‖q.reH‖ ^ 2) :
      (a * a + 0) + (b * b + 0) + (c * c + 0) + (d * d + 0) ≤ ‖q.reH‖ ^ 2 ∧
      (a * a + f.eta) + (b * b + f.eta) + (c * c + f.eta) + (d * d + f.eta) ≤
        (a * a + 0) + (b * b + 0) + (c * c + 0) + (d * d + 0) + f.eta * (4 + 2 * ‖q.reH‖) := by
    have := mul_nonneg hη n0
    exact ⟨by linarith, by linarith⟩
  refine ⟨Matrix.of fun i j => Ex.evalR (Ex.vals q.comp) (qD.to_rotation i j), fun v => ?_, ?_⟩
  · have r (i j : Fin 3) (x : ℝ) (hx : Ex.evalR (Ex.vals q.comp) (qD.to_rotation i j) = x) :
        (Matrix.of fun i j => Ex.evalR (Ex.vals q.comp) (qD.to_rotation i j)) i j = x := hx
    have r00 := r 0 0 (q.reH.re * q.reH.re + q.reH.imI * q.reH.imI - q.reH.imJ * q.reH.imJ - q.reH.imK * q.reH.imK) rfl
    have r01 := r 0 1 ((1 + 1) * q.reH.imI * q.reH.imJ - (1 + 1) * q.reH.re * q.reH.imK) rfl
    have r02 := r 0 2 ((1 + 1) * q.reH.imI * q.reH.imK + (1 + 1) * q.reH.re * q.reH.imJ) rfl
    have r10 := r 1 0 ((1 + 1) * q.reH.imI * q.reH.imJ + (1 + 1) * q.reH.re * q.reH.imK) rfl
    have r11 := r 1 1 (q.reH.re * q.reH.re - q.reH.imI * q.reH.imI + q.reH.imJ * q.reH.imJ - q.reH.imK * q.reH.imK) rfl
    have r12 := r 1 2 ((1 + 1) * q.reH.imJ * q.reH.imK - (1 + 1) * q.reH.re * q.reH.imI) rfl
    have r20 := r 2 0 ((1 + 1) * q.reH.imI * q.reH.imK - (1 + 1) * q.reH.re * q.reH.imJ) rfl
    have r21 := r 2 1 ((1 + 1) * q.reH.imJ * q.reH.imK + (1 + 1) * q.reH.re * q.reH.imI) rfl
    have r22 := r 2 2 (q.reH.re * q.reH.re - q.reH.imI * q.reH.imI - q.reH.imJ * q.reH.imJ + q.reH.imK * q.reH.imK) rfl
    rw [H_ext_iff]
    simp only [Quaternion.re_mul, Quaternion.imI_mul, Quaternion.imJ_mul, Quaternion.imK_mul, Quaternion.re_star,
      Quaternion.imI_star, Quaternion.imJ_star, Quaternion.imK_star, Vec.toH_re, Vec.toH_imI, Vec.toH_imJ, Vec.toH_imK,
      Matrix.mulVec, dotProduct, Fin.sum_univ_three, r00, r01, r02, r10, r11, r12, r20, r21, r22]
    refine ⟨by ring, by ring, by ring, by ring⟩
  · have hd : ∀ i j, (qD.to_rotation i j).depth = 4 := by decide +kernel
    have key (i j : Fin 3) (h0 : Ex.absE 0 (Ex.vals q.comp) (qD.to_rotation i j) ≤ ‖q.reH‖ ^ 2 ∧
        Ex.absE f.eta (Ex.vals q.comp) (qD.to_rotation i j) ≤
          Ex.absE 0 (Ex.vals q.comp) (qD.to_rotation i j) + f.eta * (4 + 2 * ‖q.reH‖))
        (hF : (qD.to_rotation i j).evalF q.comp = q.to_rotation i j) :
        |(q.to_rotation i j).toReal - Ex.evalR (Ex.vals q.comp) (qD.to_rotation i j)| ≤
        ((1 + f.u) ^ 4 - 1) * ‖q.reH‖ ^ 2 + (1 + f.u) ^ 4 * (f.eta * (4 + 2 * ‖q.reH‖)) := by
      rw [← hF]
      exact Ex.err_of_le (x := q.comp) (qD.to_rotation i j) (hd i j) h0.1 h0.2 (by rw [hF]; exact h i j)
    intro i j
    fin_cases i <;> fin_cases j
    · exact key 0 0 (hsd |q.reH.re| |q.reH.imI| |q.reH.imJ| |q.reH.imK| hn.symm) rfl
    · exact key 0 1 (hs f.eta |q.reH.imI| |q.reH.imJ| |q.reH.re| |q.reH.imK| hη a1 a2 a0 a3 (by linarith) b2 b3) rfl
    · exact key 0 2 (hs f.eta |q.reH.imI| |q.reH.imK| |q.reH.re| |q.reH.imJ| hη a1 a3 a0 a2 (by linarith) b3 b2) rfl
    · exact key 1 0 (hs f.eta |q.reH.imI| |q.reH.imJ| |q.reH.re| |q.reH.imK| hη a1 a2 a0 a3 (by linarith) b2 b3) rfl
    · exact key 1 1 (hsd |q.reH.re| |q.reH.imI| |q.reH.imJ| |q.reH.imK| hn.symm) rfl
    · exact key 1 2 (hs f.eta |q.reH.imJ| |q.reH.imK| |q.reH.re| |q.reH.imI| hη a2 a3 a0 a1 (by linarith) b3 b1) rfl
    · exact key 2 0 (hs f.eta |q.reH.imI| |q.reH.imK| |q.reH.re| |q.reH.imJ| hη a1 a3 a0 a2 (by linarith) b3 b2) rfl
    · exact key 2 1 (hs f.eta |q.reH.imJ| |q.reH.imK| |q.reH.re| |q.reH.imI| hη a2 a3 a0 a1 (by linarith) b3 b1) rfl
    · exact key 2 2 (hsd |q.reH.re| |q.reH.imI| |q.reH.imJ| |q.reH.imK| hn.symm) rfl

/-! ## no overflow, exactness on integers -/

/-- Quaternion products and rotated vectors do not overflow if the components are not too large. -/
theorem C105_no_overflow {f : Fmt} (p q : Quat (Flt f)) (v : Vec 3 (Flt f)) (B : ℝ) (hB : 1 ≤ B)
    (hp : ∀ i, (p.comp i).FinLe B) (hq : ∀ i, (q.comp i).FinLe B) (hv : ∀ i, (v i).FinLe B) :
    ((1 + f.u) ^ 4 * (8 * B ^ 2) < (2 : ℝ) ^ (f.emax + 1) → ∀ i, ((p.mul q).comp i).IsFin) ∧
    ((1 + f.u) ^ 7 * (28 * B ^ 3) < (2 : ℝ) ^ (f.emax + 1) → ∀ i, (p.mulVec v i).IsFin) := by
  refine ⟨fun h i => ?_, fun h i => ?_⟩
  · have hk : ∀ i, ((qA.mul qB).comp i).depth ≤ 4 := by decide +kernel
    have hc : ∀ i, ((qA.mul qB).comp i).cnt = 8 := by decide +kernel
    have hd : ∀ i, ((qA.mul qB).comp i).deg = 2 := by decide +kernel
    have h1 := Ex.isFin_of hB (x := Sum.elim p.comp q.comp) (fun j => by rcases j with j | j <;> [exact hp j; exact hq j])
      ((qA.mul qB).comp i) rfl (hc i) (hd i) (lt_of_le_of_lt (mul_le_mul_of_nonneg_right
        (pow_le_pow_right₀ (by linarith [f.u_pos]) (hk i)) (by positivity)) (by exact_mod_cast h))
    have e : ((qA.mul qB).comp i).evalF (Sum.elim p.comp q.comp) = (p.mul q).comp i := by fin_cases i <;> rfl
    rwa [e] at h1
  · have hk : ∀ i, ((qC.mulVec vB) i).depth = 7 := by decide +kernel
    have hc : ∀ i, ((qC.mulVec vB) i).cnt = 28 := by decide +kernel
    have hd : ∀ i, ((qC.mulVec vB) i).deg = 3 := by decide +kernel
    have h1 := Ex.isFin_of hB (x := Sum.elim p.comp v.val) (fun j => by rcases j with j | j <;> [exact hp j; exact hv j])
      ((qC.mulVec vB) i) (hk i) (hc i) (hd i) (by exact_mod_cast h)
    have e : ((qC.mulVec vB) i).evalF (Sum.elim p.comp v.val) = p.mulVec v i := by fin_cases i <;> rfl
    rwa [e] at h1

/-- Products of quaternions with integer components, and cross products of integer vectors, are exact. -/
theorem C105_integers {f : Fmt} (p q : Quat (Flt f)) (a b : Vec 3 (Flt f)) (K : ℕ) (hK : 1 ≤ K)
    (hp : ∀ i, (p.comp i).IntLe K) (hq : ∀ i, (q.comp i).IntLe K) (ha : ∀ i, (a i).IntLe K) (hb : ∀ i, (b i).IntLe K) :
    (4 * K ^ 2 ≤ 2 ^ f.p → (∀ i, ((p.mul q).comp i).IsFin) ∧ (p.mul q).reH = p.reH * q.reH) ∧
    (2 * K ^ 2 ≤ 2 ^ f.p → (∀ i, (V3.cross a b i).IsFin) ∧
      (V3.cross a b).reH = (a.reH * b.reH).im) := by
  refine ⟨fun h => ?_, fun h => ?_⟩
  · have ht : ∀ i, ((qA.mul qB).comp i).terms = 4 := by decide +kernel
    have hd : ∀ i, ((qA.mul qB).comp i).deg = 2 := by decide +kernel
    have h1 (i : Fin 4) := Ex.exact_of hK (x := Sum.elim p.comp q.comp)
      (fun j => by rcases j with j | j <;> [exact hp j; exact hq j]) ((qA.mul qB).comp i) (ht i) (hd i) h
    refine ⟨fun i => ?_, ?_⟩
    · have e : ((qA.mul qB).comp i).evalF (Sum.elim p.comp q.comp) = (p.mul q).comp i := by fin_cases i <;> rfl
      rw [← e]; exact (h1 i).1
    · have e0 : (p.mul q).reH.re = p.reH.re * q.reH.re - (p.reH.imI * q.reH.imI + p.reH.imJ * q.reH.imJ +
        p.reH.imK * q.reH.imK) := (h1 0).2
      have e1 : (p.mul q).reH.imI = (q.reH.imI * p.reH.re + p.reH.imI * q.reH.re) + (p.reH.imJ * q.reH.imK -
        p.reH.imK * q.reH.imJ) := (h1 1).2
      have e2 : (p.mul q).reH.imJ = (q.reH.imJ * p.reH.re + p.reH.imJ * q.reH.re) + (p.reH.imK * q.reH.imI -
        p.reH.imI * q.reH.imK) := (h1 2).2
      have e3 : (p.mul q).reH.imK = (q.reH.imK * p.reH.re + p.reH.imK * q.reH.re) + (p.reH.imI * q.reH.imJ -
        p.reH.imJ * q.reH.imI) := (h1 3).2
      rw [H_ext_iff, e0, e1, e2, e3, Quaternion.re_mul, Quaternion.imI_mul, Quaternion.imJ_mul, Quaternion.imK_mul]
      refine ⟨by ring, by ring, by ring, by ring⟩
  · let A : Vec 3 (Ex (Fin 3 ⊕ Fin 3)) := ⟨fun i => .var (.inl i)⟩
    let B : Vec 3 (Ex (Fin 3 ⊕ Fin 3)) := ⟨fun i => .var (.inr i)⟩
    have ht : ∀ i, ((V3.cross A B) i).terms = 2 := by decide +kernel
    have hd : ∀ i, ((V3.cross A B) i).deg = 2 := by decide +kernel
    have h1 (i : Fin 3) := Ex.exact_of hK (x := Sum.elim a.val b.val)
      (fun j => by rcases j with j | j <;> [exact ha j; exact hb j]) ((V3.cross A B) i) (ht i) (hd i) h
    refine ⟨fun i => ?_, ?_⟩
    · have e : ((V3.cross A B) i).evalF (Sum.elim a.val b.val) = V3.cross a b i := by fin_cases i <;> rfl
      rw [← e]; exact (h1 i).1
    · have e1 : (V3.cross a b).reH.imI = a.reH.imJ * b.reH.imK - a.reH.imK * b.reH.imJ := (h1 0).2
      have e2 : (V3.cross a b).reH.imJ = a.reH.imK * b.reH.imI - a.reH.imI * b.reH.imK := (h1 1).2
      have e3 : (V3.cross a b).reH.imK = a.reH.imI * b.reH.imJ - a.reH.imJ * b.reH.imI := (h1 2).2
      have z1 : a.reH.re = 0 := rfl
      have z2 : b.reH.re = 0 := rfl
      rw [H_ext_iff, e1, e2, e3, Quaternion.re_im, Quaternion.imI_im, Quaternion.imJ_im, Quaternion.imK_im,
        Quaternion.imI_mul, Quaternion.imJ_mul, Quaternion.imK_mul, z1, z2]
      refine ⟨rfl, by ring, by ring, by ring⟩

/-! ## long chains of rotations -/

/-- Composing rotations from left to right: as long as nothing overflows, the norm of the product of `n`
quaternions with norms within `δ` of 1 drifts at most geometrically. -/
theorem C105_chain {f : Fmt} (l : List (Quat (Flt f))) (q₀ : Quat (Flt f)) (δ : ℝ) (hδ0 : 0 ≤ δ) (hδ : δ ≤ 1)
    (hl : ∀ q ∈ l, |‖q.reH‖ - 1| ≤ δ)
    (hfin : ∀ l' q, l' ++ [q] <+: l → ∀ i, (((l'.foldl Quat.mul q₀).mul q).comp i).IsFin) :
    let c := 2 * ((1 + f.u) ^ 4 - 1)
    let d := 8 * (1 + f.u) ^ 4 * f.eta
    ‖(l.foldl Quat.mul q₀).reH‖ ≤ (‖q₀.reH‖ + l.length * d) * ((1 + δ) * (1 + c)) ^ l.length ∧
    (c ≤ 1 → ((1 - δ) * (1 - c)) ^ l.length * ‖q₀.reH‖ - l.length * d ≤ ‖(l.foldl Quat.mul q₀).reH‖) := by
  intro c d
  have hu := f.u_pos
  have hη := f.eta_pos
  have hpow : (1 : ℝ) ≤ (1 + f.u) ^ 4 := one_le_pow₀ (by linarith)
  have hc0 : 0 ≤ c := by simp only [c]; linarith
  have hd0 : 0 ≤ d := by positivity
  induction l using List.reverseRecOn with
  | nil => simp
  | append_singleton l q ih =>
    obtain ⟨ih1, ih2⟩ := ih (fun x hx => hl x (by simp [hx])) (fun l' x hx => hfin l' x (hx.trans (List.prefix_append _ _)))
    have hq := abs_le.1 (hl q (by simp))
    have h := abs_le.1 (C105_product (l.foldl Quat.mul q₀) q (hfin l q (List.prefix_refl _))).2.2
    set P := l.foldl Quat.mul q₀
    have hq0 := norm_nonneg q.reH
    have hP0 := norm_nonneg P.reH
    have hNN := mul_nonneg hP0 hq0
    have e : (2 : ℝ) * (((1 + f.u) ^ 4 - 1) * (‖P.reH‖ * ‖q.reH‖) + (1 + f.u) ^ 4 * (f.eta * 4)) =
        c * (‖P.reH‖ * ‖q.reH‖) + d := by simp only [c, d]; ring
    rw [e] at h
    rw [List.foldl_append, List.foldl_cons, List.foldl_nil, List.length_append, List.length_singleton]
    push_cast
    set n := l.length
    have hg1 : 1 ≤ (1 + δ) * (1 + c) := by nlinarith
    constructor
    · have h1 : ‖P.reH‖ * ‖q.reH‖ ≤ ‖P.reH‖ * (1 + δ) := mul_le_mul_of_nonneg_left (by linarith [hq.2]) hP0
      have h2 : ‖(P.mul q).reH‖ ≤ ‖P.reH‖ * ((1 + δ) * (1 + c)) + d := by
        have h3 := mul_le_mul_of_nonneg_left h1 (by linarith : 0 ≤ 1 + c)
        linarith [h.2]
      have h4 := mul_le_mul_of_nonneg_right ih1 (zero_le_one.trans hg1)
      have h5 : d ≤ d * ((1 + δ) * (1 + c)) ^ (n + 1) := le_mul_of_one_le_right hd0 (one_le_pow₀ hg1)
      rw [mul_assoc, ← pow_succ] at h4
      calc ‖(P.mul q).reH‖ ≤ _ := h2
        _ ≤ (‖q₀.reH‖ + n * d) * ((1 + δ) * (1 + c)) ^ (n + 1) + d * ((1 + δ) * (1 + c)) ^ (n + 1) := by linarith
        _ = _ := by ring
    · intro hc1
      have ih3 := ih2 hc1
      have hg0 : 0 ≤ (1 - δ) * (1 - c) := mul_nonneg (by linarith) (by linarith)
      have hg2 : (1 - δ) * (1 - c) ≤ 1 := by nlinarith
      have h1 : ‖P.reH‖ * (1 - δ) ≤ ‖P.reH‖ * ‖q.reH‖ := mul_le_mul_of_nonneg_left (by linarith [hq.1]) hP0
      have h2 : ‖P.reH‖ * ((1 - δ) * (1 - c)) - d ≤ ‖(P.mul q).reH‖ := by
        have h3 := mul_le_mul_of_nonneg_left h1 (by linarith : 0 ≤ 1 - c)
        linarith [h.1]
      have h4 := mul_le_mul_of_nonneg_right ih3 hg0
      have h5 : n * d * ((1 - δ) * (1 - c)) ≤ n * d := mul_le_of_le_one_right (by positivity) hg2
      rw [sub_mul] at h4
      calc ((1 - δ) * (1 - c)) ^ (n + 1) * ‖q₀.reH‖ - (n + 1) * d
          = ((1 - δ) * (1 - c)) ^ n * ‖q₀.reH‖ * ((1 - δ) * (1 - c)) - n * d - d := by ring
        _ ≤ ‖P.reH‖ * ((1 - δ) * (1 - c)) - d := by linarith
        _ ≤ _ := h2

/-- Concrete case: in single precision `(1 + i + j + k)² = -2 + 2i + 2j + 2k` is computed exactly. -/
example : ((⟨1, ⟨fun _ => 1⟩, false⟩ : Quat (Flt Fmt.f32)).mul ⟨1, ⟨fun _ => 1⟩, false⟩).q0.toReal = -2 ∧
    (((⟨1, ⟨fun _ => 1⟩, false⟩ : Quat (Flt Fmt.f32)).mul ⟨1, ⟨fun _ => 1⟩, false⟩).q 0).toReal = 2 := by
  have hi : (1 : Flt Fmt.f32).IntLe 1 := ⟨isFin_one, 1, by rw [toReal_one]; norm_num, by norm_num⟩
  have hc : ∀ i, ((⟨1, ⟨fun _ => 1⟩, false⟩ : Quat (Flt Fmt.f32)).comp i).IntLe 1 := by
    intro i; fin_cases i <;> exact hi
  have h := ((C105_integers (⟨1, ⟨fun _ => 1⟩, false⟩ : Quat (Flt Fmt.f32)) ⟨1, ⟨fun _ => 1⟩, false⟩ ⟨fun _ => 1⟩ ⟨fun _ => 1⟩ 1
    le_rfl hc hc (fun _ => hi) (fun _ => hi)).1 (by norm_num [Fmt.f32])).2
  have e0 := congrArg (fun x : ℍ[ℝ] => x.re) h
  have e1 := congrArg (fun x : ℍ[ℝ] => x.imI) h
  simp only [Quaternion.re_mul, Quaternion.imI_mul] at e0 e1
  have z0 : (⟨1, ⟨fun _ => 1⟩, false⟩ : Quat (Flt Fmt.f32)).reH.re = 1 := toReal_one (f := Fmt.f32)
  have z1 : (⟨1, ⟨fun _ => 1⟩, false⟩ : Quat (Flt Fmt.f32)).reH.imI = 1 := toReal_one (f := Fmt.f32)
  have z2 : (⟨1, ⟨fun _ => 1⟩, false⟩ : Quat (Flt Fmt.f32)).reH.imJ = 1 := toReal_one (f := Fmt.f32)
  have z3 : (⟨1, ⟨fun _ => 1⟩, false⟩ : Quat (Flt Fmt.f32)).reH.imK = 1 := toReal_one (f := Fmt.f32)
  rw [z0, z1, z2, z3] at e0 e1
  exact ⟨e0.trans (by norm_num), e1.trans (by norm_num)⟩

/-- Concrete case: all components of the computed square of `1 + i + j + k` are finite, as `C105_product`
and `C105_chain` ask for. -/
example : ∀ i, (((⟨1, ⟨fun _ => 1⟩, false⟩ : Quat (Flt Fmt.f32)).mul ⟨1, ⟨fun _ => 1⟩, false⟩).comp i).IsFin := by
  have hi : (1 : Flt Fmt.f32).IntLe 1 := ⟨isFin_one, 1, by rw [toReal_one]; norm_num, by norm_num⟩
  have hc : ∀ i, ((⟨1, ⟨fun _ => 1⟩, false⟩ : Quat (Flt Fmt.f32)).comp i).IntLe 1 := by
    intro i; fin_cases i <;> exact hi
  exact ((C105_integers (⟨1, ⟨fun _ => 1⟩, false⟩ : Quat (Flt Fmt.f32)) ⟨1, ⟨fun _ => 1⟩, false⟩ ⟨fun _ => 1⟩ ⟨fun _ => 1⟩ 1
    le_rfl hc hc (fun _ => hi) (fun _ => hi)).1 (by norm_num [Fmt.f32])).1

end StaticMath
