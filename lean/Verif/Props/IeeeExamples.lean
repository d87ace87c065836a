import Verif.Model.Examples
import Verif.Ieee.NearBig
import Verif.Props.IeeeAxisAngle
import Verif.Props.IeeeQuatTrig

/-!
# C160: rotating vectors by computed quaternions, and the quaternion example program in floating point
-/

namespace StaticMath
open Flt Quaternion

variable {f : Fmt}

private theorem pair_le {a b c S : ℝ} (hS : 0 ≤ S) (h : a ^ 2 + b ^ 2 ≤ c ^ 2) (hcS : 2 * c ^ 2 ≤ S ^ 2) : |a| + |b| ≤ S := by
  have h1 := sq_abs a
  have h2 := sq_abs b
  have h3 := sq_nonneg (|a| - |b|)
  exact abs_le_of_sq_le_sq' (by nlinarith) hS |>.2

/-- One entry of a vector product of two vectors of which one is computed. -/
private theorem cross_near (hp : 8 ≤ f.p) {B : ℝ} (hB : 1 / 8 ≤ B) (hBig : f.Big (20 * B)) {x y a b : Flt f} {X Y : ℝ}
    (hx : Near x X (227 / 100 * f.u)) (hy : Near y Y (227 / 100 * f.u)) (hX : |X| ≤ 9 / 4) (hY : |Y| ≤ 9 / 4)
    (hXY : |X| + |Y| ≤ 319 / 100) (ha : a.IsFin) (hb : b.IsFin) (ha2 : |a.toReal| ≤ B) (hb2 : |b.toReal| ≤ B) :
    Near (x * a - y * b) (X * a.toReal - Y * b.toReal) (62 / 5 * f.u * B) ∧ |X * a.toReal - Y * b.toReal| ≤ 319 / 100 * B := by
  have hu0 := f.u_pos
  have hu := Fmt.u_le_of_p hp
  have uB : f.u * (1 / 8) ≤ f.u * B := mul_le_mul_of_nonneg_left hB hu0.le
  have uB2 : f.u * B ≤ 1 / 256 * B := mul_le_mul_of_nonneg_right hu (by linarith)
  have p {x a : Flt f} {X : ℝ} (hx : Near x X (227 / 100 * f.u)) (hX : |X| ≤ 9 / 4) (ha : a.IsFin) (ha2 : |a.toReal| ≤ B) :
      Near (x * a) (X * a.toReal) (457 / 100 * f.u * B) :=
    Near.mul' hp (A := 226 / 100) (C := B) (D := B) (B := 226 / 100 * B) (hBig.mono (by linarith)) hx (Near.of_fin ha) (by linarith) ha2
      (by linarith) le_rfl (by nlinarith)
  have v : |X * a.toReal - Y * b.toReal| ≤ 319 / 100 * B := by
    have h1 := abs_sub (X * a.toReal) (Y * b.toReal)
    rw [abs_mul, abs_mul] at h1
    have h2 := mul_le_mul_of_nonneg_left ha2 (abs_nonneg X)
    have h3 := mul_le_mul_of_nonneg_left hb2 (abs_nonneg Y)
    have h4 := mul_le_mul_of_nonneg_right hXY (by linarith : 0 ≤ B)
    linarith
  refine ⟨Near.sub' (B := 3228 / 1000 * B) (hBig.mono (by linarith)) (p hx hX ha ha2) (p hy hY hb hb2) ?_ ?_, v⟩
  · linarith
  · linarith

/-- The product of a component of the quaternion with a computed number of size `3.19 B`. -/
private theorem comp_near (hp : 8 ≤ f.p) {B : ℝ} (hB : 1 / 8 ≤ B) (hBig : f.Big (20 * B)) {t q : Flt f} {t' : ℝ}
    (ht : Near t t' (62 / 5 * f.u * B)) (ht' : |t'| ≤ 319 / 100 * B) (hq : q.IsFin) (hq2 : |q.toReal| ≤ 9 / 8) :
    Near (t * q) (t' * q.toReal) (177 / 10 * f.u * B) ∧ Near (q * t) (q.toReal * t') (177 / 10 * f.u * B) := by
  have hu0 := f.u_pos
  have hu := Fmt.u_le_of_p hp
  have uB : f.u * (1 / 8) ≤ f.u * B := mul_le_mul_of_nonneg_left hB hu0.le
  have uB2 : f.u * B ≤ 1 / 256 * B := mul_le_mul_of_nonneg_right hu (by linarith)
  constructor
  · exact Near.mul' hp (A := 324 / 100 * B) (C := 9 / 8) (D := 9 / 8) (B := 3646 / 1000 * B) (hBig.mono (by linarith)) ht (Near.of_fin hq)
      (by linarith) hq2 (by linarith) (by linarith) (by linarith)
  · exact Near.mul' hp (A := 9 / 8) (C := 319 / 100 * B) (D := 324 / 100 * B) (B := 3646 / 1000 * B) (hBig.mono (by linarith)) (Near.of_fin hq) ht
      (by linarith) ht' (by linarith) (by linarith) (by linarith)

/-- One entry of `v + t q₀ + q × t`. -/
private theorem entry_near (hp : 8 ≤ f.p) {B : ℝ} (hB : 1 / 8 ≤ B) (hBig : f.Big (20 * B)) {v w a b t0 t1 t2 : Flt f} {s0 s1 s2 : ℝ}
    (hv : v.IsFin) (hv2 : |v.toReal| ≤ B) (hw : w.IsFin) (ha : a.IsFin) (hb : b.IsFin) (hw2 : |w.toReal| ≤ 9 / 8)
    (ha2 : |a.toReal| ≤ 9 / 8) (hb2 : |b.toReal| ≤ 9 / 8) (hab : |a.toReal| + |b.toReal| ≤ 1595 / 1000)
    (h0 : Near t0 s0 (62 / 5 * f.u * B)) (h1 : Near t1 s1 (62 / 5 * f.u * B)) (h2 : Near t2 s2 (62 / 5 * f.u * B))
    (k0 : |s0| ≤ 319 / 100 * B) (k1 : |s1| ≤ 319 / 100 * B) (k2 : |s2| ≤ 319 / 100 * B) :
    Near (v + t0 * w + (a * t2 - b * t1)) (v.toReal + s0 * w.toReal + (a.toReal * s2 - b.toReal * s1)) (74 * f.u * B) := by
  have hu0 := f.u_pos
  have hu := Fmt.u_le_of_p hp
  have uB2 : f.u * B ≤ 1 / 256 * B := mul_le_mul_of_nonneg_right hu (by linarith)
  have uB0 : 0 ≤ f.u * B := mul_nonneg hu0.le (by linarith)
  have b1 : |s0 * w.toReal| ≤ 359 / 100 * B := by
    rw [abs_mul]
    have := mul_le_mul k0 hw2 (abs_nonneg _) (by linarith)
    linarith
  have b2 : |v.toReal + s0 * w.toReal| ≤ 459 / 100 * B := (abs_add_le _ _).trans (by linarith)
  have b3 : |a.toReal * s2 - b.toReal * s1| ≤ 509 / 100 * B := by
    have h1 := abs_sub (a.toReal * s2) (b.toReal * s1)
    rw [abs_mul, abs_mul] at h1
    have h2 := mul_le_mul_of_nonneg_left k2 (abs_nonneg a.toReal)
    have h3 := mul_le_mul_of_nonneg_left k1 (abs_nonneg b.toReal)
    have h4 := mul_le_mul_of_nonneg_right hab (by linarith : 0 ≤ B)
    linarith
  have c1 : Near (v + t0 * w) (v.toReal + s0 * w.toReal) (224 / 10 * f.u * B) :=
    Near.add' (B := 467 / 100 * B) (hBig.mono (by linarith)) (Near.of_fin hv) (comp_near hp hB hBig h0 k0 hw hw2).1 (by linarith) (by linarith)
  have c2 : Near (a * t2 - b * t1) (a.toReal * s2 - b.toReal * s1) (408 / 10 * f.u * B) :=
    Near.sub' (B := 525 / 100 * B) (hBig.mono (by linarith)) (comp_near hp hB hBig h2 k2 ha ha2).2 (comp_near hp hB hBig h1 k1 hb hb2).2
      (by linarith) (by linarith)
  exact Near.add' (B := 10 * B) (hBig.mono (by linarith)) c1 c2
    (by have := abs_add_le (v.toReal + s0 * w.toReal) (a.toReal * s2 - b.toReal * s1); linarith) (by linarith)

private theorem rot_round (hp : 8 ≤ f.p) {B : ℝ} (hB : 1 / 8 ≤ B) (hBig : f.Big (20 * B)) (q : Quat (Flt f)) (v : Vec 3 (Flt f))
    (hq : ∀ i, (q.comp i).IsFin) (hn : ‖q.reH‖ ≤ 9 / 8) (hv : ∀ i, (v i).IsFin) (hv2 : ∀ i, |(v i).toReal| ≤ B) :
    let R := q.reH * v.reH * star q.reH + (1 - normSq q.reH) • v.reH
    Near (q.mulVec v 0) R.imI (74 * f.u * B) ∧ Near (q.mulVec v 1) R.imJ (74 * f.u * B) ∧ Near (q.mulVec v 2) R.imK (74 * f.u * B) := by
  intro R
  have hu0 := f.u_pos
  have hu := Fmt.u_le_of_p hp
  have nn : q.q0.toReal ^ 2 + (q.q 0).toReal ^ 2 + (q.q 1).toReal ^ 2 + (q.q 2).toReal ^ 2 ≤ (9 / 8) ^ 2 := by
    have h1 : normSq q.reH = q.q0.toReal ^ 2 + (q.q 0).toReal ^ 2 + (q.q 1).toReal ^ 2 + (q.q 2).toReal ^ 2 := by
      rw [normSq_def']; rfl
    rw [← h1, normSq_eq_norm_mul_self, ← pow_two]
    exact pow_le_pow_left₀ (norm_nonneg _) hn 2
  have s (x : Flt f) (hx : x.IsFin) (hx2 : |x.toReal| ≤ 9 / 8) : Near (x * (1 + 1)) (x.toReal * 2) (227 / 100 * f.u) :=
    Near.mul' hp (A := 9 / 8) (C := 2) (D := 2) (B := 9 / 4) (hBig.mono (by linarith)) (Near.of_fin hx) Near.two (by linarith) (by norm_num)
      (by norm_num) (by norm_num) (by linarith)
  have c0 : |q.q0.toReal| ≤ 9 / 8 := (q.comp_le_reH 0).trans hn
  have c1 : |(q.q 0).toReal| ≤ 9 / 8 := (q.comp_le_reH 1).trans hn
  have c2 : |(q.q 1).toReal| ≤ 9 / 8 := (q.comp_le_reH 2).trans hn
  have c3 : |(q.q 2).toReal| ≤ 9 / 8 := (q.comp_le_reH 3).trans hn
  have f0 : q.q0.IsFin := hq 0
  have f1 : (q.q 0).IsFin := hq 1
  have f2 : (q.q 1).IsFin := hq 2
  have f3 : (q.q 2).IsFin := hq 3
  have p12 : |(q.q 0).toReal| + |(q.q 1).toReal| ≤ 1595 / 1000 := pair_le (c := 9 / 8) (by norm_num) (by nlinarith) (by norm_num)
  have p23 : |(q.q 1).toReal| + |(q.q 2).toReal| ≤ 1595 / 1000 := pair_le (c := 9 / 8) (by norm_num) (by nlinarith) (by norm_num)
  have p31 : |(q.q 2).toReal| + |(q.q 0).toReal| ≤ 1595 / 1000 := pair_le (c := 9 / 8) (by norm_num) (by nlinarith) (by norm_num)
  have d (x : ℝ) (hx : |x| ≤ 9 / 8) : |x * 2| ≤ 9 / 4 := by rw [abs_mul, abs_two]; linarith
  have d2 (x y : ℝ) (h : |x| + |y| ≤ 1595 / 1000) : |x * 2| + |y * 2| ≤ 319 / 100 := by rw [abs_mul, abs_mul, abs_two]; linarith
  obtain ⟨t0, k0⟩ := cross_near hp hB hBig (s _ f2 c2) (s _ f3 c3) (d _ c2) (d _ c3) (d2 _ _ p23) (hv 2) (hv 1) (hv2 2) (hv2 1)
  obtain ⟨t1, k1⟩ := cross_near hp hB hBig (s _ f3 c3) (s _ f1 c1) (d _ c3) (d _ c1) (d2 _ _ p31) (hv 0) (hv 2) (hv2 0) (hv2 2)
  obtain ⟨t2, k2⟩ := cross_near hp hB hBig (s _ f1 c1) (s _ f2 c2) (d _ c1) (d _ c2) (d2 _ _ p12) (hv 1) (hv 0) (hv2 1) (hv2 0)
  refine ⟨(entry_near hp hB hBig (hv 0) (hv2 0) f0 f2 f3 c0 c2 c3 p23 t0 t1 t2 k0 k1 k2).congr ?_,
    (entry_near hp hB hBig (hv 1) (hv2 1) f0 f3 f1 c0 c3 c1 p31 t1 t2 t0 k1 k2 k0).congr ?_,
    (entry_near hp hB hBig (hv 2) (hv2 2) f0 f1 f2 c0 c1 c2 p12 t2 t0 t1 k2 k0 k1).congr ?_⟩ <;>
  · simp only [R, normSq_def', imI_add, imJ_add, imK_add, imI_smul, imJ_smul, imK_smul, imI_mul, imJ_mul, imK_mul, re_mul,
      re_star, imI_star, imJ_star, imK_star, smul_eq_mul]
    simp only [Quat.reH, Vec.reH]
    ring

private theorem comp_le_norm' (x : ℍ[ℝ]) : |x.re| ≤ ‖x‖ ∧ |x.imI| ≤ ‖x‖ ∧ |x.imJ| ≤ ‖x‖ ∧ |x.imK| ≤ ‖x‖ := by
  have h : ‖x‖ ^ 2 = x.re ^ 2 + x.imI ^ 2 + x.imJ ^ 2 + x.imK ^ 2 := by
    rw [pow_two, ← normSq_eq_norm_mul_self, normSq_def']
  refine ⟨?_, ?_, ?_, ?_⟩ <;> refine abs_le_of_sq_le_sq ?_ (norm_nonneg _) <;> rw [h] <;> nlinarith [sq_nonneg x.re, sq_nonneg x.imI, sq_nonneg x.imJ, sq_nonneg x.imK]

/-- **C160.** Rotating a vector with components of size at most `B` by a computed quaternion within `δ ≤ 1/8` of a unit
quaternion `Q` (its components may exceed 1): no overflow, and every component is within `B (7.4 δ + 74 u)` of the exactly
rotated vector `Q v Q⁻`. -/
theorem C160_rotate (hp : 8 ≤ f.p) {B δ : ℝ} (hB : 1 / 8 ≤ B) (hBig : f.Big (20 * B)) (q : Quat (Flt f)) (v : Vec 3 (Flt f))
    (hq : ∀ i, (q.comp i).IsFin) (Q : ℍ[ℝ]) (hQ : ‖Q‖ = 1) (hqQ : ‖q.reH - Q‖ ≤ δ) (hδ : δ ≤ 1 / 8) (hv : ∀ i, (v i).IsFin)
    (hv2 : ∀ i, |(v i).toReal| ≤ B) :
    (∀ i, (q.mulVec v i).IsFin) ∧ (Q * v.reH * star Q).re = 0 ∧
    |(q.mulVec v 0).toReal - (Q * v.reH * star Q).imI| ≤ B * (37 / 5 * δ + 74 * f.u) ∧
    |(q.mulVec v 1).toReal - (Q * v.reH * star Q).imJ| ≤ B * (37 / 5 * δ + 74 * f.u) ∧
    |(q.mulVec v 2).toReal - (Q * v.reH * star Q).imK| ≤ B * (37 / 5 * δ + 74 * f.u) := by
  have hδ0 : 0 ≤ δ := (norm_nonneg _).trans hqQ
  have hn : ‖q.reH‖ ≤ 1 + δ := by
    have := norm_add_le (q.reH - Q) Q
    rw [sub_add_cancel] at this
    linarith
  have hn' : 1 - δ ≤ ‖q.reH‖ := by
    have := norm_sub_norm_le Q q.reH
    rw [norm_sub_rev] at this
    linarith
  obtain ⟨r0, r1, r2⟩ := rot_round hp hB hBig q v hq (by linarith) hv hv2
  generalize hR : q.reH * v.reH * star q.reH + (1 - normSq q.reH) • v.reH = R at r0 r1 r2
  have nv : ‖v.reH‖ ≤ 1733 / 1000 * B := by
    have h1 : ‖v.reH‖ ^ 2 = (v 0).toReal ^ 2 + (v 1).toReal ^ 2 + (v 2).toReal ^ 2 := by
      rw [pow_two, ← normSq_eq_norm_mul_self, normSq_def']
      simp [Vec.reH]
    have h2 (i) : (v i).toReal ^ 2 ≤ B ^ 2 := by
      rw [← sq_abs]; exact pow_le_pow_left₀ (abs_nonneg _) (hv2 i) 2
    refine abs_le_of_sq_le_sq' ?_ (by linarith) |>.2
    nlinarith [h2 0, h2 1, h2 2]
  have hv0 := norm_nonneg v.reH
  have c1 : |1 - normSq q.reH| ≤ 17 / 8 * δ := by
    rw [normSq_eq_norm_mul_self, _root_.abs_le]
    constructor <;> nlinarith [norm_nonneg q.reH]
  have c2 : ‖q.reH * v.reH * star q.reH - Q * v.reH * star Q‖ ≤ 17 / 8 * δ * ‖v.reH‖ := by
    have e : q.reH * v.reH * star q.reH - Q * v.reH * star Q
        = (q.reH - Q) * v.reH * star q.reH + Q * v.reH * star (q.reH - Q) := by
      rw [star_sub]; noncomm_ring
    rw [e]
    refine (norm_add_le _ _).trans ?_
    rw [norm_mul, norm_mul, norm_mul, norm_mul, Quaternion.norm_star, Quaternion.norm_star, hQ, one_mul]
    have h1 : ‖q.reH - Q‖ * ‖v.reH‖ * ‖q.reH‖ ≤ δ * ‖v.reH‖ * (9 / 8) := by gcongr; linarith
    have h2 : ‖v.reH‖ * ‖q.reH - Q‖ ≤ ‖v.reH‖ * δ := by gcongr
    linarith
  have c3 : ‖R - Q * v.reH * star Q‖ ≤ 37 / 5 * δ * B := by
    have e : R - Q * v.reH * star Q = (q.reH * v.reH * star q.reH - Q * v.reH * star Q) + (1 - normSq q.reH) • v.reH := by
      rw [← hR]; abel
    rw [e]
    refine (norm_add_le _ _).trans ?_
    rw [norm_smul, Real.norm_eq_abs]
    have h1 := mul_le_mul_of_nonneg_right c1 hv0
    have h2 := mul_le_mul_of_nonneg_left nv hδ0
    have h3 : 0 ≤ δ * B := mul_nonneg hδ0 (by linarith)
    linarith
  obtain ⟨-, i1, i2, i3⟩ := comp_le_norm' (R - Q * v.reH * star Q)
  rw [imI_sub] at i1
  rw [imJ_sub] at i2
  rw [imK_sub] at i3
  have fin (x y z : ℝ) (h1 : |x - y| ≤ 74 * f.u * B) (h2 : |y - z| ≤ ‖R - Q * v.reH * star Q‖) :
      |x - z| ≤ B * (37 / 5 * δ + 74 * f.u) := by
    have := abs_sub_le x y z
    linarith
  refine ⟨fun i => ?_, ?_, fin _ _ _ r0.err i1, fin _ _ _ r1.err i2, fin _ _ _ r2.err i3⟩
  · fin_cases i
    exacts [r0.fin, r1.fin, r2.fin]
  · simp only [imI_mul, imJ_mul, imK_mul, re_mul, re_star, imI_star, imJ_star, imK_star]
    simp only [Vec.reH]
    ring

private theorem step_err (hp : 16 ≤ f.p) (hw : f.Wide) (x q : Quat (Flt f)) (hx : ∀ i, (x.comp i).IsFin) (hq : ∀ i, (q.comp i).IsFin)
    (X Q : ℍ[ℝ]) (hX : ‖X‖ = 1) (hQ : ‖Q‖ = 1) {a d : ℝ} (ha : ‖x.reH - X‖ ≤ a) (hd : ‖q.reH - Q‖ ≤ d) (ha2 : a ≤ 1 / 8) (hd2 : d ≤ 1 / 40) :
    (∀ i, ((x.mul q).comp i).IsFin) ∧ ‖(x.mul q).reH - X * Q‖ ≤ 104 / 100 * a + d + 95 / 10 * f.u := by
  have hu0 := f.u_pos
  have nx : ‖x.reH‖ ≤ 9 / 8 := by
    have := norm_add_le (x.reH - X) X
    rw [sub_add_cancel] at this
    linarith
  have nq : ‖q.reH‖ ≤ 41 / 40 := by
    have := norm_add_le (q.reH - Q) Q
    rw [sub_add_cancel] at this
    linarith
  obtain ⟨k1, k2⟩ := quat_mul_close hp hw x q hx hq (by linarith) (by linarith)
  refine ⟨k1, ?_⟩
  have e : (x.mul q).reH - X * Q = ((x.mul q).reH - x.reH * q.reH) + ((x.reH - X) * q.reH + X * (q.reH - Q)) := by noncomm_ring
  rw [e]
  have h1 := norm_add_le ((x.mul q).reH - x.reH * q.reH) ((x.reH - X) * q.reH + X * (q.reH - Q))
  have h2 := norm_add_le ((x.reH - X) * q.reH) (X * (q.reH - Q))
  rw [norm_mul, norm_mul, hX, one_mul] at h2
  have h3 : ‖x.reH - X‖ * ‖q.reH‖ ≤ a * (41 / 40) := mul_le_mul ha nq (norm_nonneg _) ((norm_nonneg _).trans ha)
  have h4 : ‖x.reH‖ * ‖q.reH‖ ≤ 9 / 8 * (41 / 40) := mul_le_mul nx nq (norm_nonneg _) (by norm_num)
  have h5 := mul_le_mul_of_nonneg_left h4 (by linarith : 0 ≤ 81 / 10 * f.u)
  have a0 := (norm_nonneg _).trans ha
  linarith

private theorem fourth (hp : 16 ≤ f.p) (hw : f.Wide) (q : Quat (Flt f)) (hq : ∀ i, (q.comp i).IsFin)
    (Q : ℍ[ℝ]) (hQ : ‖Q‖ = 1) {d : ℝ} (hd : ‖q.reH - Q‖ ≤ d) (hd2 : d ≤ 1 / 40) :
    (∀ i, ((((q.mul q).mul q).mul q).comp i).IsFin) ∧ ‖(((q.mul q).mul q).mul q).reH - Q ^ 4‖ ≤ 425 / 100 * d + 30 * f.u := by
  have hu0 := f.u_pos
  have hu : f.u ≤ 1 / 65536 := by
    have : (2 : ℝ) ^ (-(f.p : ℤ)) ≤ (2 : ℝ) ^ (-(16 : ℤ)) := zpow_le_zpow_right₀ (by norm_num) (by omega)
    have e : (2 : ℝ) ^ (-(16 : ℤ)) = 1 / 65536 := by norm_num
    rw [← e]; exact this
  have d0 := (norm_nonneg _).trans hd
  have Q2 : ‖Q * Q‖ = 1 := by rw [norm_mul, hQ, one_mul]
  have Q3 : ‖Q * Q * Q‖ = 1 := by rw [norm_mul, Q2, hQ, one_mul]
  obtain ⟨a1, a2⟩ := step_err hp hw q q hq hq Q Q hQ hQ hd hd (by linarith) hd2
  obtain ⟨b1, b2⟩ := step_err hp hw _ q a1 hq (Q * Q) Q Q2 hQ a2 hd (by linarith) hd2
  obtain ⟨c1, c2⟩ := step_err hp hw _ q b1 hq (Q * Q * Q) Q Q3 hQ b2 hd (by linarith) hd2
  refine ⟨c1, ?_⟩
  rw [show Q ^ 4 = Q * Q * Q * Q by rw [pow_succ, pow_succ, pow_two]]
  linarith

private theorem norm_of_sq {x : ℍ[ℝ]} (h : x.re ^ 2 + x.imI ^ 2 + x.imJ ^ 2 + x.imK ^ 2 = 1) : ‖x‖ = 1 := by
  have h1 : ‖x‖ ^ 2 = 1 := by rw [pow_two, ← normSq_eq_norm_mul_self, normSq_def', h]
  nlinarith [norm_nonneg x]

private theorem norm_of_comps {x : ℍ[ℝ]} {E : ℝ} (hE : 0 ≤ E) (h0 : |x.re| ≤ E) (h1 : |x.imI| ≤ E) (h2 : |x.imJ| ≤ E) (h3 : |x.imK| ≤ E) :
    ‖x‖ ≤ 2 * E := by
  have h : ‖x‖ ^ 2 = x.re ^ 2 + x.imI ^ 2 + x.imJ ^ 2 + x.imK ^ 2 := by
    rw [pow_two, ← normSq_eq_norm_mul_self, normSq_def']
  have s (y : ℝ) (hy : |y| ≤ E) : y ^ 2 ≤ E ^ 2 := by rw [← sq_abs]; exact pow_le_pow_left₀ (abs_nonneg _) hy 2
  refine abs_le_of_sq_le_sq' ?_ (by linarith) |>.2
  rw [h]
  nlinarith [s _ h0, s _ h1, s _ h2, s _ h3]

/-- The fourth power of the unit quaternion of half the angle `N` is the one of twice the angle. -/
private theorem quarter_pow (N a b c : ℝ) (h : a ^ 2 + b ^ 2 + c ^ 2 = 1) :
    (⟨Real.cos (N / 2), a * Real.sin (N / 2), b * Real.sin (N / 2), c * Real.sin (N / 2)⟩ : ℍ[ℝ]) ^ 4
      = ⟨Real.cos (2 * N), a * Real.sin (2 * N), b * Real.sin (2 * N), c * Real.sin (2 * N)⟩ := by
  have m (s t : ℝ) : (⟨Real.cos s, a * Real.sin s, b * Real.sin s, c * Real.sin s⟩ : ℍ[ℝ])
      * ⟨Real.cos t, a * Real.sin t, b * Real.sin t, c * Real.sin t⟩
      = ⟨Real.cos (s + t), a * Real.sin (s + t), b * Real.sin (s + t), c * Real.sin (s + t)⟩ := by
    rw [Real.cos_add, Real.sin_add]
    have h' : Real.cos s * Real.cos t - Real.sin s * Real.sin t = Real.cos s * Real.cos t - (a ^ 2 + b ^ 2 + c ^ 2) * (Real.sin s * Real.sin t) := by
      rw [h, one_mul]
    rw [h']
    ext <;> simp only [QuaternionAlgebra.mk_mul_mk] <;> ring
  rw [show (4 : ℕ) = 2 + 2 from rfl, pow_add, pow_two, m, m]
  rw [show N / 2 + N / 2 + (N / 2 + N / 2) = 2 * N by ring]

private theorem four {P : Fin 4 → Prop} (h0 : P 0) (h1 : P 1) (h2 : P 2) (h3 : P 3) : ∀ i, P i := by
  intro i; fin_cases i
  exacts [h0, h1, h2, h3]

/-- The computed fourth power of the quaternion of the rotation vector `v ≠ 0`. -/
private theorem fourth_power [Libm f] (hp : 16 ≤ f.p) (hw : f.Wide) {ε : ℝ} (h : SinCosAcc f ε) (hε : ε ≤ 1 / 128)
    (v : Vec 3 (Flt f)) (hv : ∀ k, (v k).IsFin) (hf : (V3.norm2 v).IsFin)
    (hn : ∀ k, (v k).toReal = 0 ∨ (2 : ℝ) ^ f.emin ≤ (v k).toReal ^ 2) (N : ℝ) (hNe : N = √(∑ k, (v k).toReal ^ 2)) (hN0 : N ≠ 0)
    (hN2 : N ≤ 64) :
    let q := Quat.rotation_norm_encoded v
    let P : ℍ[ℝ] := ⟨Real.cos (2 * N), (v 0).toReal / N * Real.sin (2 * N), (v 1).toReal / N * Real.sin (2 * N), (v 2).toReal / N * Real.sin (2 * N)⟩
    (∀ i, ((((q.mul q).mul q).mul q).comp i).IsFin) ∧ ‖P‖ = 1 ∧
      ‖(((q.mul q).mul q).mul q).reH - P‖ ≤ 425 / 100 * (2 * (11 / 10 * ε + (3 * N + 10) * f.u)) + 30 * f.u := by
  intro q P
  have hu0 := f.u_pos
  have hu : f.u ≤ 1 / 65536 := by
    have : (2 : ℝ) ^ (-(f.p : ℤ)) ≤ (2 : ℝ) ^ (-(16 : ℤ)) := zpow_le_zpow_right₀ (by norm_num) (by omega)
    have e : (2 : ℝ) ^ (-(16 : ℤ)) = 1 / 65536 := by norm_num
    rw [← e]; exact this
  have ε0 : 0 ≤ ε := (abs_nonneg _).trans (h.cos 1 trivial).2
  have N0 : 0 ≤ N := by rw [hNe]; exact Real.sqrt_nonneg _
  obtain ⟨⟨g0, g1⟩, g2⟩ := C127_norm_encoded (by omega) h (by linarith) v hv hf hn N hNe (by linarith)
  have s1 : ((v 0).toReal / N) ^ 2 + ((v 1).toReal / N) ^ 2 + ((v 2).toReal / N) ^ 2 = 1 := by
    have e : N ^ 2 = (v 0).toReal ^ 2 + (v 1).toReal ^ 2 + (v 2).toReal ^ 2 := by
      rw [hNe, Real.sq_sqrt (by positivity), Fin.sum_univ_three]
    rw [div_pow, div_pow, div_pow, ← add_div, ← add_div, ← e, div_self (by positivity)]
  have E0 : 0 ≤ 11 / 10 * ε + (3 * N + 10) * f.u := by positivity
  have Es : 2 * (11 / 10 * ε + (3 * N + 10) * f.u) ≤ 1 / 40 := by
    have : (3 * N + 10) * f.u ≤ (3 * 64 + 10) * (1 / 65536) := by gcongr
    linarith
  obtain ⟨Q, hQ⟩ : ∃ Q : ℍ[ℝ], Q = ⟨Real.cos (N / 2), (v 0).toReal / N * Real.sin (N / 2), (v 1).toReal / N * Real.sin (N / 2),
    (v 2).toReal / N * Real.sin (N / 2)⟩ := ⟨_, rfl⟩
  have unit (t : ℝ) : Real.cos t ^ 2 + ((v 0).toReal / N * Real.sin t) ^ 2 + ((v 1).toReal / N * Real.sin t) ^ 2
      + ((v 2).toReal / N * Real.sin t) ^ 2 = 1 := by
    have := Real.cos_sq_add_sin_sq t
    linear_combination this + Real.sin t ^ 2 * s1
  have nQ : ‖Q‖ = 1 := norm_of_sq (by rw [hQ]; exact unit (N / 2))
  have nP : ‖P‖ = 1 := norm_of_sq (unit (2 * N))
  have hd : ‖q.reH - Q‖ ≤ 2 * (11 / 10 * ε + (3 * N + 10) * f.u) := by
    refine norm_of_comps E0 ?_ ?_ ?_ ?_
    · rw [re_sub, hQ]; exact g1
    · rw [imI_sub, hQ]; exact (g2 0).2
    · rw [imJ_sub, hQ]; exact (g2 1).2
    · rw [imK_sub, hQ]; exact (g2 2).2
  have fq : ∀ i, (q.comp i).IsFin := four g0 (g2 0).1 (g2 1).1 (g2 2).1
  obtain ⟨r1, r2⟩ := fourth hp hw q fq Q nQ hd Es
  refine ⟨r1, nP, ?_⟩
  have e4 : Q ^ 4 = P := by rw [hQ]; exact quarter_pow _ _ _ _ s1
  rw [← e4]
  exact r2

/-- **C160.** `examples/quaternions.rs`, for any axis, angle and vector: multiplying the quaternion of the rotation
`axis * angle` four times with itself and applying it rotates by four times the angle. With `v` the computed `axis * angle`
and `N` its length, the printed vector is within `B (70 ε + (189 N + 926) u)` of the vector `x` rotated by the
angle `4 N` about `v` (half angle `2 N`). -/
theorem C160_rotate_four [Libm f] (hp : 16 ≤ f.p) (hw : f.Wide) {ε : ℝ} (h : SinCosAcc f ε) (hε : ε ≤ 1 / 128)
    (axis : Vec 3 (Flt f)) (angle : Flt f) (x : Vec 3 (Flt f)) (v : Vec 3 (Flt f)) (hv : v = V3.smul axis angle)
    (fv : ∀ k, (v k).IsFin) (hf : (V3.norm2 v).IsFin)
    (hn : ∀ k, (v k).toReal = 0 ∨ (2 : ℝ) ^ f.emin ≤ (v k).toReal ^ 2) (N : ℝ) (hNe : N = √(∑ k, (v k).toReal ^ 2)) (hN0 : N ≠ 0)
    (hN2 : N ≤ 64) {B : ℝ} (hB : 1 / 8 ≤ B) (hBig : f.Big (20 * B)) (hx : ∀ i, (x i).IsFin) (hx2 : ∀ i, |(x i).toReal| ≤ B) :
    let y := Examples.rotate_four axis angle x
    let P : ℍ[ℝ] := ⟨Real.cos (2 * N), (v 0).toReal / N * Real.sin (2 * N), (v 1).toReal / N * Real.sin (2 * N), (v 2).toReal / N * Real.sin (2 * N)⟩
    let E := B * (70 * ε + (189 * N + 926) * f.u)
    ‖P‖ = 1 ∧ (∀ i, (y i).IsFin) ∧
    |(y 0).toReal - (P * x.reH * star P).imI| ≤ E ∧ |(y 1).toReal - (P * x.reH * star P).imJ| ≤ E ∧
    |(y 2).toReal - (P * x.reH * star P).imK| ≤ E := by
  intro y P E
  have hu0 := f.u_pos
  have hu : f.u ≤ 1 / 65536 := by
    have : (2 : ℝ) ^ (-(f.p : ℤ)) ≤ (2 : ℝ) ^ (-(16 : ℤ)) := zpow_le_zpow_right₀ (by norm_num) (by omega)
    have e : (2 : ℝ) ^ (-(16 : ℤ)) = 1 / 65536 := by norm_num
    rw [← e]; exact this
  have ε0 : 0 ≤ ε := (abs_nonneg _).trans (h.cos 1 trivial).2
  have N0 : 0 ≤ N := by rw [hNe]; exact Real.sqrt_nonneg _
  obtain ⟨k1, k2, k3⟩ := fourth_power hp hw h hε v fv hf hn N hNe hN0 hN2
  have Nu : (3 * N + 10) * f.u ≤ (3 * 64 + 10) * (1 / 65536) := by gcongr
  obtain ⟨r1, -, r2, r3, r4⟩ := C160_rotate (by omega) hB hBig _ x k1 P k2 k3 (by linarith) hx hx2
  have y0 : y = (((((Quat.rotation_norm_encoded v).mul (Quat.rotation_norm_encoded v)).mul (Quat.rotation_norm_encoded v)).mul
    (Quat.rotation_norm_encoded v)).mulVec x) := by rw [hv]; rfl
  have Ele : B * (37 / 5 * (425 / 100 * (2 * (11 / 10 * ε + (3 * N + 10) * f.u)) + 30 * f.u) + 74 * f.u) ≤ E := by
    refine mul_le_mul_of_nonneg_left ?_ (by linarith)
    have : 0 ≤ N * f.u := by positivity
    linarith
  rw [y0]
  exact ⟨k2, r1, r2.trans Ele, r3.trans Ele, r4.trans Ele⟩

/-- **C160.** Four quarter turns: when the length of `axis * angle` is within `5 u` of `π/2`, the printed vector is `x` itself up to
`B (70 ε + 1310 u)`. -/
theorem C160_full_turn [Libm f] (hp : 16 ≤ f.p) (hw : f.Wide) {ε : ℝ} (h : SinCosAcc f ε) (hε : ε ≤ 1 / 128)
    (axis : Vec 3 (Flt f)) (angle : Flt f) (x : Vec 3 (Flt f)) (v : Vec 3 (Flt f)) (hv : v = V3.smul axis angle)
    (fv : ∀ k, (v k).IsFin) (hf : (V3.norm2 v).IsFin)
    (hn : ∀ k, (v k).toReal = 0 ∨ (2 : ℝ) ^ f.emin ≤ (v k).toReal ^ 2)
    (hN : |√(∑ k, (v k).toReal ^ 2) - Real.pi / 2| ≤ 5 * f.u)
    {B : ℝ} (hB : 1 / 8 ≤ B) (hBig : f.Big (20 * B)) (hx : ∀ i, (x i).IsFin) (hx2 : ∀ i, |(x i).toReal| ≤ B) :
    ∀ i, (Examples.rotate_four axis angle x i).IsFin ∧
      |(Examples.rotate_four axis angle x i).toReal - (x i).toReal| ≤ B * (70 * ε + 1310 * f.u) := by
  obtain ⟨N, hNe⟩ : ∃ N, N = √(∑ k, (v k).toReal ^ 2) := ⟨_, rfl⟩
  rw [← hNe] at hN
  have hu0 := f.u_pos
  have hu : f.u ≤ 1 / 65536 := by
    have : (2 : ℝ) ^ (-(f.p : ℤ)) ≤ (2 : ℝ) ^ (-(16 : ℤ)) := zpow_le_zpow_right₀ (by norm_num) (by omega)
    have e : (2 : ℝ) ^ (-(16 : ℤ)) = 1 / 65536 := by norm_num
    rw [← e]; exact this
  have ε0 : 0 ≤ ε := (abs_nonneg _).trans (h.cos 1 trivial).2
  have hπ := Real.pi_gt_three
  have hπ' := Real.pi_lt_d2
  obtain ⟨n1, n2⟩ := _root_.abs_le.mp hN
  have N1 : N ≤ 1576 / 1000 := by linarith
  obtain ⟨k1, k2, k3⟩ := fourth_power hp hw h hε v fv hf hn N hNe (by linarith) (by linarith)
  set P : ℍ[ℝ] := ⟨Real.cos (2 * N), (v 0).toReal / N * Real.sin (2 * N), (v 1).toReal / N * Real.sin (2 * N), (v 2).toReal / N * Real.sin (2 * N)⟩
    with hP
  have near : ‖P - (-1)‖ ≤ 10 * f.u := by
    have e1 : normSq P = 1 := by rw [normSq_eq_norm_mul_self, k2, one_mul]
    have e2 : normSq (P - (-1)) = normSq P + 1 + 2 * Real.cos (2 * N) := by
      rw [normSq_def', normSq_def']
      simp only [re_sub, imI_sub, imJ_sub, imK_sub, re_neg, imI_neg, imJ_neg, imK_neg, re_one, imI_one, imJ_one, imK_one]
      rw [hP]
      ring
    have e3 : Real.cos (2 * N) = - Real.cos (2 * N - Real.pi) := by rw [Real.cos_sub_pi, neg_neg]
    have e4 := Real.one_sub_sq_div_two_le_cos (x := 2 * N - Real.pi)
    have e5 : (2 * N - Real.pi) ^ 2 ≤ (10 * f.u) ^ 2 := by
      rw [← sq_abs]
      refine pow_le_pow_left₀ (abs_nonneg _) ?_ 2
      rw [_root_.abs_le]
      constructor <;> linarith
    refine abs_le_of_sq_le_sq' ?_ (by linarith) |>.2
    rw [pow_two, ← normSq_eq_norm_mul_self, e2, e1]
    linarith
  have Nu : (3 * N + 10) * f.u ≤ (3 * (1576 / 1000) + 10) * f.u := mul_le_mul_of_nonneg_right (by linarith) hu0.le
  have close := norm_sub_le_norm_sub_add_norm_sub ((((Quat.rotation_norm_encoded v).mul (Quat.rotation_norm_encoded v)).mul
    (Quat.rotation_norm_encoded v)).mul (Quat.rotation_norm_encoded v)).reH P (-1)
  obtain ⟨r1, -, r2, r3, r4⟩ := C160_rotate (δ := 425 / 100 * (2 * (11 / 10 * ε + (3 * (1576 / 1000) + 10) * f.u)) + 40 * f.u)
    (by omega) hB hBig _ x k1 (-1) (by rw [norm_neg, norm_one]) (by linarith) (by linarith) hx hx2
  have e : (-1 : ℍ[ℝ]) * x.reH * star (-1) = x.reH := by simp
  rw [e] at r2 r3 r4
  have Ele : B * (37 / 5 * (425 / 100 * (2 * (11 / 10 * ε + (3 * (1576 / 1000) + 10) * f.u)) + 40 * f.u) + 74 * f.u)
      ≤ B * (70 * ε + 1310 * f.u) := mul_le_mul_of_nonneg_left (by linarith) (by linarith)
  have y0 : Examples.rotate_four axis angle x = (((((Quat.rotation_norm_encoded v).mul (Quat.rotation_norm_encoded v)).mul (Quat.rotation_norm_encoded v)).mul
    (Quat.rotation_norm_encoded v)).mulVec x) := by rw [hv]; rfl
  rw [y0]
  intro i
  refine ⟨r1 i, ?_⟩
  fin_cases i
  exacts [r2.trans Ele, r3.trans Ele, r4.trans Ele]

/-- **C160.** The program as it is: about the z axis, with an angle within `5 u` of `π/2` (such as `90f32.to_radians()`), and
any vector with components of size at most `B`. -/
theorem C160_example [Libm f] (hp : 16 ≤ f.p) (hw : f.Wide) {ε : ℝ} (h : SinCosAcc f ε) (hε : ε ≤ 1 / 128)
    (angle : Flt f) (ha : angle.IsFin) (ha2 : |angle.toReal - Real.pi / 2| ≤ 5 * f.u) (x : Vec 3 (Flt f))
    {B : ℝ} (hB : 1 / 8 ≤ B) (hBig : f.Big (20 * B)) (hx : ∀ i, (x i).IsFin) (hx2 : ∀ i, |(x i).toReal| ≤ B) :
    ∀ i, (Examples.rotate_four V3.z_axis angle x i).IsFin ∧
      |(Examples.rotate_four V3.z_axis angle x i).toReal - (x i).toReal| ≤ B * (70 * ε + 1310 * f.u) := by
  have hu0 := f.u_pos
  have hu := Fmt.u_le_of_p (f := f) (by omega)
  have hπ := Real.pi_gt_three
  have hπ' := Real.pi_lt_d2
  obtain ⟨n1, n2⟩ := _root_.abs_le.mp ha2
  have a1 : 1 ≤ angle.toReal := by linarith
  have a2 : angle.toReal ≤ 2 := by linarith
  have z : Near ((0 : Flt f) * angle) 0 0 := ⟨(zero_mul_fin ha).1, by rw [(zero_mul_fin ha).2]; simp⟩
  have o : (1 : Flt f) * angle = angle := one_mul'
  have v0 : (V3.smul (V3.z_axis : Vec 3 (Flt f)) angle) 0 = 0 * angle := rfl
  have v1 : (V3.smul (V3.z_axis : Vec 3 (Flt f)) angle) 1 = 0 * angle := rfl
  have v2 : (V3.smul (V3.z_axis : Vec 3 (Flt f)) angle) 2 = angle := o
  have fv : ∀ k, ((V3.smul (V3.z_axis : Vec 3 (Flt f)) angle) k).IsFin := by
    intro k; fin_cases k
    exacts [z.fin, z.fin, (v2 ▸ ha :)]
  refine C160_full_turn hp hw h hε V3.z_axis angle x _ rfl fv ?_ ?_ ?_ hB hBig hx hx2
  · have hp8 : 8 ≤ f.p := by omega
    have zz : Near ((0 * angle) * (0 * angle) : Flt f) (0 * 0) f.u :=
      Near.mul hp8 (A := 0) (C := 0) (D := 0) (B := 0) z z (by simp) (by simp) (by simp) (by norm_num) (by norm_num) (by linarith)
    have aa : Near (angle * angle) (angle.toReal * angle.toReal) (5 * f.u) :=
      Near.mul hp8 (A := 2) (C := 2) (D := 2) (B := 4) (Near.of_fin ha) (Near.of_fin ha) (by rw [abs_of_nonneg] <;> linarith)
        (by rw [abs_of_nonneg] <;> linarith) (by rw [abs_of_nonneg] <;> linarith) (by norm_num) (by norm_num) (by linarith)
    have s1 := Near.add hp8 (B := 1) (e := 3 * f.u) zz zz (by norm_num; linarith) (by norm_num) (by linarith)
    have s2 := Near.add hp8 (B := 5) (e := 13 * f.u) s1 aa (by
      rw [mul_zero, add_zero, zero_add, abs_of_nonneg (by positivity)]
      nlinarith) (by norm_num) (by linarith)
    have pos : 0 ≤ ((0 * angle) * (0 * angle) + (0 * angle) * (0 * angle) + angle * angle : Flt f).toReal := by
      have h1 := (_root_.abs_le.mp s2.err).1
      nlinarith
    have fin := (sqrt_rel s2.fin pos).1
    change (sqrt _).IsFin
    rw [v0, v1, v2]
    exact fin
  · intro k
    fin_cases k
    · left; change ((0 : Flt f) * angle).toReal = 0; exact (zero_mul_fin ha).2
    · left; change ((0 : Flt f) * angle).toReal = 0; exact (zero_mul_fin ha).2
    · right
      change _ ≤ ((V3.smul (V3.z_axis : Vec 3 (Flt f)) angle) 2).toReal ^ 2
      rw [v2]
      have : (2 : ℝ) ^ f.emin ≤ (2 : ℝ) ^ (0 : ℤ) := zpow_le_zpow_right₀ (by norm_num) (by have := hw.low; omega)
      rw [zpow_zero] at this
      nlinarith
  · rw [Fin.sum_univ_three, v0, v1, v2, (zero_mul_fin ha).2]
    rw [show (0 : ℝ) ^ 2 + 0 ^ 2 + angle.toReal ^ 2 = angle.toReal ^ 2 by ring, Real.sqrt_sq (by linarith)]
    exact ha2

/-- In single precision, with correctly rounded functions and `π/2` rounded, four quarter turns give the x axis back up to `2⁻¹³`. -/
example (i : Fin 3) :
    letI := correctLibm Fmt.f32
    |(Examples.rotate_four V3.z_axis (ofReal Fmt.f32 false (Real.pi / 2)) V3.x_axis i).toReal
      - ((V3.x_axis : Vec 3 (Flt Fmt.f32)) i).toReal| ≤ 2 ^ (-13 : ℤ) := by
  let _ := correctLibm Fmt.f32
  have hu : Fmt.f32.u = (2 : ℝ) ^ (-24 : ℤ) := rfl
  have hπ := Real.pi_gt_three
  have hπ' := Real.pi_lt_d2
  have hu0 := Fmt.f32.u_pos
  have n : Near (ofReal Fmt.f32 false (Real.pi / 2)) (Real.pi / 2) _ :=
    Near.of_real (B := 2) (by decide) (by rw [abs_of_nonneg] <;> linarith) (by norm_num)
  have c : ∀ k, ((V3.x_axis : Vec 3 (Flt Fmt.f32)) k).IsFin ∧ |((V3.x_axis : Vec 3 (Flt Fmt.f32)) k).toReal| ≤ 1 := by
    have h0 : (0 : Flt Fmt.f32).IsFin ∧ |(0 : Flt Fmt.f32).toReal| ≤ 1 := ⟨isFin_zero, by rw [toReal_zero]; norm_num⟩
    have h1 : (1 : Flt Fmt.f32).IsFin ∧ |(1 : Flt Fmt.f32).toReal| ≤ 1 := ⟨isFin_one, by rw [toReal_one]; norm_num⟩
    intro k; fin_cases k
    exacts [h1, h0, h0]
  have big : Fmt.f32.Big (20 * 1) := Fmt.range_of_p (by decide) (by norm_num)
  have := (C160_example (f := Fmt.f32) (by decide) Fmt.f32_wide (correctLibm_sin_cos (by decide)) (by rw [hu]; norm_num) _ n.fin
    (n.err.trans (by linarith)) V3.x_axis (B := 1) (by norm_num) big (fun k => (c k).1) (fun k => (c k).2) i).2
  refine this.trans ?_
  rw [hu]
  norm_num

/-- The unit quaternion 1 itself, in every format: `1 * v` is `v` up to `74 u`. -/
example (hp : 8 ≤ f.p) (hBig : f.Big 20) :
    |((Quat.one : Quat (Flt f)).mulVec ⟨fun _ => 1⟩ 0).toReal - 1| ≤ 74 * f.u := by
  have e : (Quat.one : Quat (Flt f)).reH = 1 := by
    ext <;> simp [Quat.reH, Quat.one, V3.zero]
  have := (C160_rotate hp (B := 1) (δ := 0) (by norm_num) (by rwa [mul_one]) Quat.one ⟨fun _ => 1⟩
    (by intro i; fin_cases i; exacts [isFin_one, isFin_zero, isFin_zero, isFin_zero]) 1 (by simp) (by rw [e]; simp) (by norm_num)
    (fun _ => isFin_one) (fun _ => by change |(1 : Flt f).toReal| ≤ 1; rw [toReal_one, abs_one])).2.2.1
  rw [one_mul, star_one, mul_one] at this
  simpa [Vec.reH] using this

end StaticMath
