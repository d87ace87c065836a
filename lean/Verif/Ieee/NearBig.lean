import Verif.Ieee.Near

/-!
# The rules of `Near` for values of any size

As `Near.add`, `Near.mul`, `Near.div`, with the absence of overflow as a hypothesis instead of the bound 256.
-/

namespace StaticMath

/-- A result of size at most `B` does not overflow. -/
def Fmt.Big (f : Fmt) (B : ℝ) : Prop := (1 + f.u) * B < (2 : ℝ) ^ (f.emax + 1)

theorem Fmt.Big.mono {f : Fmt} {A B : ℝ} (h : f.Big B) (hA : A ≤ B) : f.Big A :=
  (mul_le_mul_of_nonneg_left hA (by linarith [f.u_pos])).trans_lt h

namespace Flt.Near
variable {f : Fmt} {a b : Flt f} {v w e e1 e2 : ℝ}

theorem add' {B : ℝ} (hB2 : f.Big B) (ha : Near a v e1) (hb : Near b w e2) (hB : |v + w| + (e1 + e2) ≤ B)
    (he : e1 + e2 + f.u * B ≤ e) : Near (a + b) (v + w) e := by
  have h1 : |a.toReal + b.toReal - (v + w)| ≤ e1 + e2 := by
    have := abs_add_le (a.toReal - v) (b.toReal - w)
    rw [show a.toReal - v + (b.toReal - w) = a.toReal + b.toReal - (v + w) by ring] at this
    linarith [ha.err, hb.err]
  have h2 : |a.toReal + b.toReal| ≤ B := by
    have := abs_sub_abs_le_abs_sub (a.toReal + b.toReal) (v + w)
    linarith
  have h3 : (a + b).IsFin := add_isFin ha.fin hb.fin (hB2.mono h2)
  refine ⟨h3, ?_⟩
  have h4 := add_rel h3
  have h5 := mul_le_mul_of_nonneg_left h2 f.u_pos.le
  have h6 := abs_sub_le (a + b).toReal (a.toReal + b.toReal) (v + w)
  linarith

theorem sub' {B : ℝ} (hB2 : f.Big B) (ha : Near a v e1) (hb : Near b w e2) (hB : |v - w| + (e1 + e2) ≤ B)
    (he : e1 + e2 + f.u * B ≤ e) : Near (a - b) (v - w) e := by
  have h := add' hB2 ha hb.neg (by rwa [← sub_eq_add_neg]) he
  rw [← sub_eq_add_neg] at h
  exact h

theorem mul' (hp : 8 ≤ f.p) {A C D B : ℝ} (hB2 : f.Big B) (ha : Near a v e1) (hb : Near b w e2) (hA : |v| + e1 ≤ A) (hC : |w| ≤ C)
    (hD : |w| + e2 ≤ D) (hB : A * D ≤ B) (he : A * e2 + C * e1 + f.u * (B + 1 / 256) ≤ e) :
    Near (a * b) (v * w) e := by
  have ha1 := ha.abs_le.trans hA
  have hb1 := hb.abs_le.trans hD
  have hA0 : 0 ≤ A := (abs_nonneg _).trans ha1
  have hC0 : 0 ≤ C := (abs_nonneg _).trans hC
  have h1 : |a.toReal * b.toReal - v * w| ≤ A * e2 + C * e1 := by
    have := abs_add_le (a.toReal * (b.toReal - w)) ((a.toReal - v) * w)
    rw [show a.toReal * (b.toReal - w) + (a.toReal - v) * w = a.toReal * b.toReal - v * w by ring, abs_mul, abs_mul]
      at this
    have m1 := mul_le_mul ha1 hb.err (abs_nonneg _) hA0
    have m2 := mul_le_mul ha.err hC (abs_nonneg _) ha.nonneg
    linarith
  have h2 : |a.toReal * b.toReal| ≤ B := by
    rw [abs_mul]
    exact (mul_le_mul ha1 hb1 (abs_nonneg _) hA0).trans hB
  have h3 : (a * b).IsFin := mul_isFin ha.fin hb.fin (hB2.mono h2)
  refine ⟨h3, ?_⟩
  have h4 := mul_err h3
  have h5 := mul_le_mul_of_nonneg_left h2 f.u_pos.le
  have h6 := abs_sub_le (a * b).toReal (a.toReal * b.toReal) (v * w)
  have h7 := f.eta_le_sq
  have h8 := mul_le_mul_of_nonneg_left (Fmt.u_le_of_p hp) f.u_pos.le
  linarith

theorem div' (hp : 8 ≤ f.p) {c Q B : ℝ} (hB2 : f.Big B) (ha : Near a v e1) (hb : Near b w e2) (hc : 0 < c) (hcw : c + e2 ≤ |w|)
    (hQ : |v / w| ≤ Q) (hB : Q + (e1 + Q * e2) / c ≤ B)
    (he : (e1 + Q * e2) / c + f.u * (B + 1 / 256) ≤ e) : Near (a / b) (v / w) e := by
  have hbc : c ≤ |b.toReal| := by linarith [hb.le_abs]
  have hb0 : b.toReal ≠ 0 := by
    intro h
    rw [h, abs_zero] at hbc
    linarith
  have hw0 : w ≠ 0 := by
    rintro rfl
    rw [abs_zero] at hcw
    linarith [hb.nonneg]
  have h1 : |a.toReal / b.toReal - v / w| ≤ (e1 + Q * e2) / c := by
    have e : a.toReal / b.toReal - v / w = ((a.toReal - v) + (v / w) * (w - b.toReal)) / b.toReal := by
      field_simp
      ring
    rw [e, abs_div]
    have m1 := abs_add_le (a.toReal - v) (v / w * (w - b.toReal))
    rw [abs_mul, abs_sub_comm w] at m1
    have m2 := mul_le_mul hQ hb.err (abs_nonneg _) ((abs_nonneg _).trans hQ)
    have m3 : 0 ≤ e1 + Q * e2 := add_nonneg ha.nonneg (mul_nonneg ((abs_nonneg _).trans hQ) hb.nonneg)
    exact div_le_div₀ m3 (by linarith [ha.err]) hc hbc
  have h2 : |a.toReal / b.toReal| ≤ B := by
    have := abs_sub_abs_le_abs_sub (a.toReal / b.toReal) (v / w)
    linarith
  have h3 : (a / b).IsFin := div_isFin ha.fin hb.fin hb0 (hB2.mono h2)
  refine ⟨h3, ?_⟩
  have h4 := (div_err hb.fin h3).2
  have h5 := mul_le_mul_of_nonneg_left h2 f.u_pos.le
  have h6 := abs_sub_le (a / b).toReal (a.toReal / b.toReal) (v / w)
  have h7 := f.eta_le_sq
  have h8 := mul_le_mul_of_nonneg_left (Fmt.u_le_of_p hp) f.u_pos.le
  linarith

end Flt.Near
end StaticMath
