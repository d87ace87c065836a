import Verif.Lemmas.Resid
import Verif.Props.Ieee
import Verif.Props.IeeeInvInt

/-!
# C152: residuals of computed inverses and linear systems in floating point

Generated by `tools/gen_props_ieee_resid.py`. `A.reM'` is the real matrix of the entries of `A`.
-/

namespace StaticMath
open Flt

/-- The computed inverse of a `2x2` matrix with entries of size at most `b`: multiplied with the matrix, from either side, it gives the
identity up to `5 u 2! b^2 / |det|` in every entry; so does the computed product; and the computed solution of a linear system satisfies it
up to the stated residual. -/
theorem C152_M22 {f : Fmt} [Libm f] (hp : 16 ≤ f.p) (A B : Mat 2 (Flt f)) (h : M22.inverse A = .ok (some B)) (b : ℝ) (hb1 : 1 ≤ b)
    (hb : ∀ i j, |(A i j).toReal| ≤ b) (hD : (M22.det A).IsFin) (hB : ∀ i j, (B i j).IsFin) (hs : 64 * (2 * b ^ 2) * f.eta ≤ f.u) :
    let D := (M22.det A).toReal
    (∀ i j, |(A.reM' * B.reM') i j - (1 : Matrix (Fin 2) (Fin 2) ℝ) i j| ≤ 5 * f.u * (2 * b ^ 2) / |D| ∧
      |(B.reM' * A.reM') i j - (1 : Matrix (Fin 2) (Fin 2) ℝ) i j| ≤ 5 * f.u * (2 * b ^ 2) / |D| ∧
      ((M22.mul A B i j).IsFin → |(M22.mul A B i j).toReal - (1 : Matrix (Fin 2) (Fin 2) ℝ) i j| ≤ 8 * f.u * (2 * b ^ 2) / |D|)) ∧
    ∀ (v : Vec 2 (Flt f)) (V : ℝ), (∀ j, |(v j).toReal| ≤ V) → (∀ k, (M22.mulVec B v k).IsFin) →
      ∀ i, |∑ k, (A i k).toReal * (M22.mulVec B v k).toReal - (v i).toReal| ≤
        16 * f.u * (2 * b ^ 2) / |D| * V + 8 * b * f.eta := by
  intro D
  have hu0 := f.u_pos
  have hu := Fmt.u_le_16 hp
  have hη0 := f.eta_pos
  have hDu : 0 < |D| := lt_of_lt_of_le (by positivity) (C113_M22 A B h b hb hD hB 0 0).1
  have hent (i j) : |(B i j).toReal - A.reM'.adjugate i j / D| ≤
      (((1 + f.u) ^ 2 - 1) * A.minorPer j i + (1 + f.u) ^ 2 * (f.eta * (0))) / |D| +
      f.eta * (1 + (1 + f.u) ^ 1 * (A.minorPer j i + f.eta * (0))) := (C113_M22 A B h b hb hD hB i j).2.1
  have hdet : |D - A.reM'.det| ≤ ((1 + f.u) ^ 2 - 1) * (Matrix.of fun i j => |(A i j).toReal|).permanent +
      (1 + f.u) ^ 2 * (f.eta * (2)) := C102_det_M22 A b hb hD
  obtain ⟨p1, p2⟩ := Fmt.pow_u_le hp (m := 2) (by norm_num)
  obtain ⟨-, p3⟩ := Fmt.pow_u_le hp (m := 1) (by norm_num)
  obtain ⟨p4, p5⟩ := Fmt.pow_u_le hp (m := 2) (by norm_num)
  have g1 : 1 ≤ (1 + f.u) ^ 2 := one_le_pow₀ (by linarith)
  have g2 : 1 ≤ (1 + f.u) ^ 2 := one_le_pow₀ (by linarith)
  rw [Nat.cast_ofNat] at p1 p4
  generalize (1 + f.u) ^ 2 = gD at *
  have b2 : b ^ 1 ≤ b ^ 2 := pow_le_pow_right₀ hb1 (by norm_num)
  rw [pow_one] at b2
  have hF : (1 : ℝ) ≤ 1 * b ^ 1 := by linarith
  have hFN : 1 * b ^ 1 ≤ (2 * b ^ 2) := by linarith
  have mp (i j) : A.minorPer j i ≤ 1 * b ^ 1 := by
    have : A.minorPer j i ≤ (Nat.factorial 1 : ℝ) * b ^ 1 :=
      minorPer_le (fun r c => (A (j.succAbove r) (i.succAbove c)).toReal) b fun r c => hb _ _
    norm_num [Nat.factorial] at this ⊢
    exact this
  have mp0 (i j) : 0 ≤ A.minorPer j i := (abs_nonneg _).trans (A.adj_le i j)
  have per : (Matrix.of fun i j => |(A i j).toReal|).permanent ≤ (2 * b ^ 2) := by
    have : (Matrix.of fun i j => |(A i j).toReal|).permanent ≤ (Nat.factorial 2 : ℝ) * b ^ 2 := minorPer_le (fun i j => (A i j).toReal) b hb
    norm_num [Nat.factorial] at this ⊢
    exact this
  have num (i j) := resid_num (η := f.eta) (F := 1 * b ^ 1) (N := (2 * b ^ 2)) (D := D) (mp := A.minorPer j i) (U := 0) (UE := 2)
    (κ := 1012 / 1000 * (2 * f.u)) (κE := 1012 / 1000 * (2 * f.u)) hu0 hu hη0 hF hFN (mp0 i j) (mp i j) per
    (by linarith) (by linarith) (by linarith) g1 g2 p1 p2 p3 p4 p5 hs
    _ (abs_det_le_permanent fun i j => (A i j).toReal) hdet hDu
  obtain ⟨r1, r2⟩ := resid_full hp (n := 2) (by norm_num) (by norm_num) A B (M22.mul A B) (F := 1 * b ^ 1) (C := 5)
    (κ := 1012 / 1000 * (2 * f.u)) (κE := 1012 / 1000 * (2 * f.u)) hb1 hb
    (show (2 * b ^ 2) = ((2 : ℕ) : ℝ) * (b * (1 * b ^ 1)) by push_cast; ring) hF hs hDu (num 0 0).2.1
    (fun i j => (A.adj_le i j).trans (mp i j)) (by linarith) (by linarith)
    (fun i j => (hent i j).trans (num i j).2.2) hdet (num 0 0).1
    (fun i j hf => by exact_mod_cast (C93_mul_M22 A B i j hf).1)
  refine ⟨fun i j => ⟨(r1 i j).1, (r1 i j).2.1, fun hf => ?_⟩, fun v V hv hf i => ?_⟩
  · have := (r1 i j).2.2 hf
    norm_num at this ⊢
    exact this
  · have := r2 v (M22.mulVec B v) V hv (fun k => by exact_mod_cast (C93_mulVec_M22 B v k (hf k)).1) i
    norm_num at this ⊢
    exact this

/-- The computed inverse of a `3x3` matrix with entries of size at most `b`: multiplied with the matrix, from either side, it gives the
identity up to `10 u 3! b^3 / |det|` in every entry; so does the computed product; and the computed solution of a linear system satisfies it
up to the stated residual. -/
theorem C152_M33 {f : Fmt} [Libm f] (hp : 16 ≤ f.p) (A B : Mat 3 (Flt f)) (h : M33.inverse A = .ok (some B)) (b : ℝ) (hb1 : 1 ≤ b)
    (hb : ∀ i j, |(A i j).toReal| ≤ b) (hD : (M33.det A).IsFin) (hB : ∀ i j, (B i j).IsFin) (hs : 64 * (6 * b ^ 3) * f.eta ≤ f.u) :
    let D := (M33.det A).toReal
    (∀ i j, |(A.reM' * B.reM') i j - (1 : Matrix (Fin 3) (Fin 3) ℝ) i j| ≤ 10 * f.u * (6 * b ^ 3) / |D| ∧
      |(B.reM' * A.reM') i j - (1 : Matrix (Fin 3) (Fin 3) ℝ) i j| ≤ 10 * f.u * (6 * b ^ 3) / |D| ∧
      ((M33.mul A B i j).IsFin → |(M33.mul A B i j).toReal - (1 : Matrix (Fin 3) (Fin 3) ℝ) i j| ≤ 14 * f.u * (6 * b ^ 3) / |D|)) ∧
    ∀ (v : Vec 3 (Flt f)) (V : ℝ), (∀ j, |(v j).toReal| ≤ V) → (∀ k, (M33.mulVec B v k).IsFin) →
      ∀ i, |∑ k, (A i k).toReal * (M33.mulVec B v k).toReal - (v i).toReal| ≤
        42 * f.u * (6 * b ^ 3) / |D| * V + 18 * b * f.eta := by
  intro D
  have hu0 := f.u_pos
  have hu := Fmt.u_le_16 hp
  have hη0 := f.eta_pos
  have hDu : 0 < |D| := lt_of_lt_of_le (by positivity) (C113_M33 A B h b hb hD hB 0 0).1
  have hent (i j) : |(B i j).toReal - A.reM'.adjugate i j / D| ≤
      (((1 + f.u) ^ 4 - 1) * A.minorPer j i + (1 + f.u) ^ 4 * (f.eta * (2))) / |D| +
      f.eta * (1 + (1 + f.u) ^ 3 * (A.minorPer j i + f.eta * (2))) := (C113_M33 A B h b hb hD hB i j).2.1
  have hdet : |D - A.reM'.det| ≤ ((1 + f.u) ^ 5 - 1) * (Matrix.of fun i j => |(A i j).toReal|).permanent +
      (1 + f.u) ^ 5 * (f.eta * (3 + 6 * b)) := C102_det_M33 A b hb hD
  obtain ⟨p1, p2⟩ := Fmt.pow_u_le hp (m := 4) (by norm_num)
  obtain ⟨-, p3⟩ := Fmt.pow_u_le hp (m := 3) (by norm_num)
  obtain ⟨p4, p5⟩ := Fmt.pow_u_le hp (m := 5) (by norm_num)
  have g1 : 1 ≤ (1 + f.u) ^ 4 := one_le_pow₀ (by linarith)
  have g2 : 1 ≤ (1 + f.u) ^ 5 := one_le_pow₀ (by linarith)
  rw [Nat.cast_ofNat] at p1 p4
  generalize (1 + f.u) ^ 5 = gD at *
  generalize (1 + f.u) ^ 4 = gE at *
  generalize (1 + f.u) ^ 3 = gF at *
  have b2 : b ^ 1 ≤ b ^ 2 := pow_le_pow_right₀ hb1 (by norm_num)
  have b3 : b ^ 2 ≤ b ^ 3 := pow_le_pow_right₀ hb1 (by norm_num)
  rw [pow_one] at b2
  have hF : (1 : ℝ) ≤ 2 * b ^ 2 := by linarith
  have hFN : 2 * b ^ 2 ≤ (6 * b ^ 3) := by linarith
  have mp (i j) : A.minorPer j i ≤ 2 * b ^ 2 := by
    have : A.minorPer j i ≤ (Nat.factorial 2 : ℝ) * b ^ 2 :=
      minorPer_le (fun r c => (A (j.succAbove r) (i.succAbove c)).toReal) b fun r c => hb _ _
    norm_num [Nat.factorial] at this ⊢
    exact this
  have mp0 (i j) : 0 ≤ A.minorPer j i := (abs_nonneg _).trans (A.adj_le i j)
  have per : (Matrix.of fun i j => |(A i j).toReal|).permanent ≤ (6 * b ^ 3) := by
    have : (Matrix.of fun i j => |(A i j).toReal|).permanent ≤ (Nat.factorial 3 : ℝ) * b ^ 3 := minorPer_le (fun i j => (A i j).toReal) b hb
    norm_num [Nat.factorial] at this ⊢
    exact this
  have num (i j) := resid_num (η := f.eta) (F := 2 * b ^ 2) (N := (6 * b ^ 3)) (D := D) (mp := A.minorPer j i) (U := 2) (UE := 3 + 6 * b)
    (κ := 1012 / 1000 * (4 * f.u)) (κE := 1012 / 1000 * (5 * f.u)) hu0 hu hη0 hF hFN (mp0 i j) (mp i j) per
    (by linarith) (by linarith) (by linarith) g1 g2 p1 p2 p3 p4 p5 hs
    _ (abs_det_le_permanent fun i j => (A i j).toReal) hdet hDu
  obtain ⟨r1, r2⟩ := resid_full hp (n := 3) (by norm_num) (by norm_num) A B (M33.mul A B) (F := 2 * b ^ 2) (C := 10)
    (κ := 1012 / 1000 * (4 * f.u)) (κE := 1012 / 1000 * (5 * f.u)) hb1 hb
    (show (6 * b ^ 3) = ((3 : ℕ) : ℝ) * (b * (2 * b ^ 2)) by push_cast; ring) hF hs hDu (num 0 0).2.1
    (fun i j => (A.adj_le i j).trans (mp i j)) (by linarith) (by linarith)
    (fun i j => (hent i j).trans (num i j).2.2) hdet (num 0 0).1
    (fun i j hf => by exact_mod_cast (C93_mul_M33 A B i j hf).1)
  refine ⟨fun i j => ⟨(r1 i j).1, (r1 i j).2.1, fun hf => ?_⟩, fun v V hv hf i => ?_⟩
  · have := (r1 i j).2.2 hf
    norm_num at this ⊢
    exact this
  · have := r2 v (M33.mulVec B v) V hv (fun k => by exact_mod_cast (C93_mulVec_M33 B v k (hf k)).1) i
    norm_num at this ⊢
    exact this

/-- The computed inverse of a `4x4` matrix with entries of size at most `b`: multiplied with the matrix, from either side, it gives the
identity up to `34 u 4! b^4 / |det|` in every entry; so does the computed product; and the computed solution of a linear system satisfies it
up to the stated residual. -/
theorem C152_M44 {f : Fmt} [Libm f] (hp : 16 ≤ f.p) (A B : Mat 4 (Flt f)) (h : M44.inverse A = .ok (some B)) (b : ℝ) (hb1 : 1 ≤ b)
    (hb : ∀ i j, |(A i j).toReal| ≤ b) (hD : (M44.det A).IsFin) (hB : ∀ i j, (B i j).IsFin) (hs : 64 * (24 * b ^ 4) * f.eta ≤ f.u) :
    let D := (M44.det A).toReal
    (∀ i j, |(A.reM' * B.reM') i j - (1 : Matrix (Fin 4) (Fin 4) ℝ) i j| ≤ 34 * f.u * (24 * b ^ 4) / |D| ∧
      |(B.reM' * A.reM') i j - (1 : Matrix (Fin 4) (Fin 4) ℝ) i j| ≤ 34 * f.u * (24 * b ^ 4) / |D| ∧
      ((M44.mul A B i j).IsFin → |(M44.mul A B i j).toReal - (1 : Matrix (Fin 4) (Fin 4) ℝ) i j| ≤ 39 * f.u * (24 * b ^ 4) / |D|)) ∧
    ∀ (v : Vec 4 (Flt f)) (V : ℝ), (∀ j, |(v j).toReal| ≤ V) → (∀ k, (M44.mulVec B v k).IsFin) →
      ∀ i, |∑ k, (A i k).toReal * (M44.mulVec B v k).toReal - (v i).toReal| ≤
        156 * f.u * (24 * b ^ 4) / |D| * V + 32 * b * f.eta := by
  intro D
  have hu0 := f.u_pos
  have hu := Fmt.u_le_16 hp
  have hη0 := f.eta_pos
  have hDu : 0 < |D| := lt_of_lt_of_le (by positivity) (C113_M44 A B h b hb hD hB 0 0).1
  have hent (i j) : |(B i j).toReal - A.reM'.adjugate i j / D| ≤
      (((1 + f.u) ^ 7 - 1) * A.minorPer j i + (1 + f.u) ^ 7 * (f.eta * (3 + 6 * b))) / |D| +
      f.eta * (1 + (1 + f.u) ^ 6 * (A.minorPer j i + f.eta * (3 + 6 * b))) := (C113_M44 A B h b hb hD hB i j).2.1
  have hdet : |D - A.reM'.det| ≤ ((1 + f.u) ^ 26 - 1) * (Matrix.of fun i j => |(A i j).toReal|).permanent +
      (1 + f.u) ^ 26 * (f.eta * (24 * (1 + b + b ^ 2))) := C102_det_M44 A b hb hD
  obtain ⟨p1, p2⟩ := Fmt.pow_u_le hp (m := 7) (by norm_num)
  obtain ⟨-, p3⟩ := Fmt.pow_u_le hp (m := 6) (by norm_num)
  obtain ⟨p4, p5⟩ := Fmt.pow_u_le hp (m := 26) (by norm_num)
  have g1 : 1 ≤ (1 + f.u) ^ 7 := one_le_pow₀ (by linarith)
  have g2 : 1 ≤ (1 + f.u) ^ 26 := one_le_pow₀ (by linarith)
  rw [Nat.cast_ofNat] at p1 p4
  generalize (1 + f.u) ^ 26 = gD at *
  generalize (1 + f.u) ^ 7 = gE at *
  generalize (1 + f.u) ^ 6 = gF at *
  have b2 : b ^ 1 ≤ b ^ 2 := pow_le_pow_right₀ hb1 (by norm_num)
  have b3 : b ^ 2 ≤ b ^ 3 := pow_le_pow_right₀ hb1 (by norm_num)
  have b4 : b ^ 3 ≤ b ^ 4 := pow_le_pow_right₀ hb1 (by norm_num)
  rw [pow_one] at b2
  have hF : (1 : ℝ) ≤ 6 * b ^ 3 := by linarith
  have hFN : 6 * b ^ 3 ≤ (24 * b ^ 4) := by linarith
  have mp (i j) : A.minorPer j i ≤ 6 * b ^ 3 := by
    have : A.minorPer j i ≤ (Nat.factorial 3 : ℝ) * b ^ 3 :=
      minorPer_le (fun r c => (A (j.succAbove r) (i.succAbove c)).toReal) b fun r c => hb _ _
    norm_num [Nat.factorial] at this ⊢
    exact this
  have mp0 (i j) : 0 ≤ A.minorPer j i := (abs_nonneg _).trans (A.adj_le i j)
  have per : (Matrix.of fun i j => |(A i j).toReal|).permanent ≤ (24 * b ^ 4) := by
    have : (Matrix.of fun i j => |(A i j).toReal|).permanent ≤ (Nat.factorial 4 : ℝ) * b ^ 4 := minorPer_le (fun i j => (A i j).toReal) b hb
    norm_num [Nat.factorial] at this ⊢
    exact this
  have num (i j) := resid_num (η := f.eta) (F := 6 * b ^ 3) (N := (24 * b ^ 4)) (D := D) (mp := A.minorPer j i) (U := 3 + 6 * b) (UE := 24 * (1 + b + b ^ 2))
    (κ := 1012 / 1000 * (7 * f.u)) (κE := 1012 / 1000 * (26 * f.u)) hu0 hu hη0 hF hFN (mp0 i j) (mp i j) per
    (by linarith) (by linarith) (by linarith) g1 g2 p1 p2 p3 p4 p5 hs
    _ (abs_det_le_permanent fun i j => (A i j).toReal) hdet hDu
  obtain ⟨r1, r2⟩ := resid_full hp (n := 4) (by norm_num) (by norm_num) A B (M44.mul A B) (F := 6 * b ^ 3) (C := 34)
    (κ := 1012 / 1000 * (7 * f.u)) (κE := 1012 / 1000 * (26 * f.u)) hb1 hb
    (show (24 * b ^ 4) = ((4 : ℕ) : ℝ) * (b * (6 * b ^ 3)) by push_cast; ring) hF hs hDu (num 0 0).2.1
    (fun i j => (A.adj_le i j).trans (mp i j)) (by linarith) (by linarith)
    (fun i j => (hent i j).trans (num i j).2.2) hdet (num 0 0).1
    (fun i j hf => by exact_mod_cast (C93_mul_M44 A B i j hf).1)
  refine ⟨fun i j => ⟨(r1 i j).1, (r1 i j).2.1, fun hf => ?_⟩, fun v V hv hf i => ?_⟩
  · have := (r1 i j).2.2 hf
    norm_num at this ⊢
    exact this
  · have := r2 v (M44.mulVec B v) V hv (fun k => by exact_mod_cast (C93_mulVec_M44 B v k (hf k)).1) i
    norm_num at this ⊢
    exact this

set_option maxRecDepth 20000 in
/-- The computed inverse of a `5x5` matrix with entries of size at most `b`: multiplied with the matrix, from either side, it gives the
identity up to `154 u 5! b^5 / |det|` in every entry; so does the computed product; and the computed solution of a linear system satisfies it
up to the stated residual. -/
theorem C152_M55 {f : Fmt} [Libm f] (hp : 16 ≤ f.p) (A B : Mat 5 (Flt f)) (h : M55.inverse A = .ok (some B)) (b : ℝ) (hb1 : 1 ≤ b)
    (hb : ∀ i j, |(A i j).toReal| ≤ b) (hD : (M55.det A).IsFin) (hB : ∀ i j, (B i j).IsFin) (hs : 64 * (120 * b ^ 5) * f.eta ≤ f.u) :
    let D := (M55.det A).toReal
    (∀ i j, |(A.reM' * B.reM') i j - (1 : Matrix (Fin 5) (Fin 5) ℝ) i j| ≤ 154 * f.u * (120 * b ^ 5) / |D| ∧
      |(B.reM' * A.reM') i j - (1 : Matrix (Fin 5) (Fin 5) ℝ) i j| ≤ 154 * f.u * (120 * b ^ 5) / |D| ∧
      ((M55.mul A B i j).IsFin → |(M55.mul A B i j).toReal - (1 : Matrix (Fin 5) (Fin 5) ℝ) i j| ≤ 160 * f.u * (120 * b ^ 5) / |D|)) ∧
    ∀ (v : Vec 5 (Flt f)) (V : ℝ), (∀ j, |(v j).toReal| ≤ V) → (∀ k, (M55.mulVec B v k).IsFin) →
      ∀ i, |∑ k, (A i k).toReal * (M55.mulVec B v k).toReal - (v i).toReal| ≤
        800 * f.u * (120 * b ^ 5) / |D| * V + 50 * b * f.eta := by
  intro D
  have hu0 := f.u_pos
  have hu := Fmt.u_le_16 hp
  have hη0 := f.eta_pos
  have hDu : 0 < |D| := lt_of_lt_of_le (by positivity) (C113_M55 A B h b hb hD hB 0 0).1
  have hent (i j) : |(B i j).toReal - A.reM'.adjugate i j / D| ≤
      (((1 + f.u) ^ 28 - 1) * A.minorPer j i + (1 + f.u) ^ 28 * (f.eta * (24 * (1 + b + b ^ 2)))) / |D| +
      f.eta * (1 + (1 + f.u) ^ 27 * (A.minorPer j i + f.eta * (24 * (1 + b + b ^ 2)))) := (C113_M55 A B h b hb hD hB i j).2.1
  have hdet : |D - A.reM'.det| ≤ ((1 + f.u) ^ 123 - 1) * (Matrix.of fun i j => |(A i j).toReal|).permanent +
      (1 + f.u) ^ 123 * (f.eta * (120 * (1 + b + b ^ 2 + b ^ 3))) := C102_det_M55 A b hb hD
  obtain ⟨p1, p2⟩ := Fmt.pow_u_le hp (m := 28) (by norm_num)
  obtain ⟨-, p3⟩ := Fmt.pow_u_le hp (m := 27) (by norm_num)
  obtain ⟨p4, p5⟩ := Fmt.pow_u_le hp (m := 123) (by norm_num)
  have g1 : 1 ≤ (1 + f.u) ^ 28 := one_le_pow₀ (by linarith)
  have g2 : 1 ≤ (1 + f.u) ^ 123 := one_le_pow₀ (by linarith)
  rw [Nat.cast_ofNat] at p1 p4
  generalize (1 + f.u) ^ 123 = gD at *
  generalize (1 + f.u) ^ 28 = gE at *
  generalize (1 + f.u) ^ 27 = gF at *
  have b2 : b ^ 1 ≤ b ^ 2 := pow_le_pow_right₀ hb1 (by norm_num)
  have b3 : b ^ 2 ≤ b ^ 3 := pow_le_pow_right₀ hb1 (by norm_num)
  have b4 : b ^ 3 ≤ b ^ 4 := pow_le_pow_right₀ hb1 (by norm_num)
  have b5 : b ^ 4 ≤ b ^ 5 := pow_le_pow_right₀ hb1 (by norm_num)
  rw [pow_one] at b2
  have hF : (1 : ℝ) ≤ 24 * b ^ 4 := by linarith
  have hFN : 24 * b ^ 4 ≤ (120 * b ^ 5) := by linarith
  have mp (i j) : A.minorPer j i ≤ 24 * b ^ 4 := by
    have : A.minorPer j i ≤ (Nat.factorial 4 : ℝ) * b ^ 4 :=
      minorPer_le (fun r c => (A (j.succAbove r) (i.succAbove c)).toReal) b fun r c => hb _ _
    norm_num [Nat.factorial] at this ⊢
    exact this
  have mp0 (i j) : 0 ≤ A.minorPer j i := (abs_nonneg _).trans (A.adj_le i j)
  have per : (Matrix.of fun i j => |(A i j).toReal|).permanent ≤ (120 * b ^ 5) := by
    have : (Matrix.of fun i j => |(A i j).toReal|).permanent ≤ (Nat.factorial 5 : ℝ) * b ^ 5 := minorPer_le (fun i j => (A i j).toReal) b hb
    norm_num [Nat.factorial] at this ⊢
    exact this
  have num (i j) := resid_num (η := f.eta) (F := 24 * b ^ 4) (N := (120 * b ^ 5)) (D := D) (mp := A.minorPer j i) (U := 24 * (1 + b + b ^ 2)) (UE := 120 * (1 + b + b ^ 2 + b ^ 3))
    (κ := 1012 / 1000 * (28 * f.u)) (κE := 1012 / 1000 * (123 * f.u)) hu0 hu hη0 hF hFN (mp0 i j) (mp i j) per
    (by linarith) (by linarith) (by linarith) g1 g2 p1 p2 p3 p4 p5 hs
    _ (abs_det_le_permanent fun i j => (A i j).toReal) hdet hDu
  obtain ⟨r1, r2⟩ := resid_full hp (n := 5) (by norm_num) (by norm_num) A B (M55.mul A B) (F := 24 * b ^ 4) (C := 154)
    (κ := 1012 / 1000 * (28 * f.u)) (κE := 1012 / 1000 * (123 * f.u)) hb1 hb
    (show (120 * b ^ 5) = ((5 : ℕ) : ℝ) * (b * (24 * b ^ 4)) by push_cast; ring) hF hs hDu (num 0 0).2.1
    (fun i j => (A.adj_le i j).trans (mp i j)) (by linarith) (by linarith)
    (fun i j => (hent i j).trans (num i j).2.2) hdet (num 0 0).1
    (fun i j hf => by exact_mod_cast (C93_mul_M55 A B i j hf).1)
  refine ⟨fun i j => ⟨(r1 i j).1, (r1 i j).2.1, fun hf => ?_⟩, fun v V hv hf i => ?_⟩
  · have := (r1 i j).2.2 hf
    norm_num at this ⊢
    exact this
  · have := r2 v (M55.mulVec B v) V hv (fun k => by exact_mod_cast (C93_mulVec_M55 B v k (hf k)).1) i
    norm_num at this ⊢
    exact this

set_option maxRecDepth 20000 in
/-- The computed inverse of a `6x6` matrix with entries of size at most `b`: multiplied with the matrix, from either side, it gives the
identity up to `860 u 6! b^6 / |det|` in every entry; so does the computed product; and the computed solution of a linear system satisfies it
up to the stated residual. -/
theorem C152_M66 {f : Fmt} [Libm f] (hp : 16 ≤ f.p) (A B : Mat 6 (Flt f)) (h : M66.inverse A = .ok (some B)) (b : ℝ) (hb1 : 1 ≤ b)
    (hb : ∀ i j, |(A i j).toReal| ≤ b) (hD : (M66.det A).IsFin) (hB : ∀ i j, (B i j).IsFin) (hs : 64 * (720 * b ^ 6) * f.eta ≤ f.u) :
    let D := (M66.det A).toReal
    (∀ i j, |(A.reM' * B.reM') i j - (1 : Matrix (Fin 6) (Fin 6) ℝ) i j| ≤ 860 * f.u * (720 * b ^ 6) / |D| ∧
      |(B.reM' * A.reM') i j - (1 : Matrix (Fin 6) (Fin 6) ℝ) i j| ≤ 860 * f.u * (720 * b ^ 6) / |D| ∧
      ((M66.mul A B i j).IsFin → |(M66.mul A B i j).toReal - (1 : Matrix (Fin 6) (Fin 6) ℝ) i j| ≤ 867 * f.u * (720 * b ^ 6) / |D|)) ∧
    ∀ (v : Vec 6 (Flt f)) (V : ℝ), (∀ j, |(v j).toReal| ≤ V) → (∀ k, (M66.mulVec B v k).IsFin) →
      ∀ i, |∑ k, (A i k).toReal * (M66.mulVec B v k).toReal - (v i).toReal| ≤
        5202 * f.u * (720 * b ^ 6) / |D| * V + 72 * b * f.eta := by
  intro D
  have hu0 := f.u_pos
  have hu := Fmt.u_le_16 hp
  have hη0 := f.eta_pos
  have hDu : 0 < |D| := lt_of_lt_of_le (by positivity) (C113_M66 A B h b hb hD hB 0 0).1
  have hent (i j) : |(B i j).toReal - A.reM'.adjugate i j / D| ≤
      (((1 + f.u) ^ 125 - 1) * A.minorPer j i + (1 + f.u) ^ 125 * (f.eta * (120 * (1 + b + b ^ 2 + b ^ 3)))) / |D| +
      f.eta * (1 + (1 + f.u) ^ 124 * (A.minorPer j i + f.eta * (120 * (1 + b + b ^ 2 + b ^ 3)))) := (C113_M66 A B h b hb hD hB i j).2.1
  have hdet : |D - A.reM'.det| ≤ ((1 + f.u) ^ 724 - 1) * (Matrix.of fun i j => |(A i j).toReal|).permanent +
      (1 + f.u) ^ 724 * (f.eta * (720 * (1 + b + b ^ 2 + b ^ 3 + b ^ 4))) := C102_det_M66 A b hb hD
  obtain ⟨p1, p2⟩ := Fmt.pow_u_le hp (m := 125) (by norm_num)
  obtain ⟨-, p3⟩ := Fmt.pow_u_le hp (m := 124) (by norm_num)
  obtain ⟨p4, p5⟩ := Fmt.pow_u_le hp (m := 724) (by norm_num)
  have g1 : 1 ≤ (1 + f.u) ^ 125 := one_le_pow₀ (by linarith)
  have g2 : 1 ≤ (1 + f.u) ^ 724 := one_le_pow₀ (by linarith)
  rw [Nat.cast_ofNat] at p1 p4
  generalize (1 + f.u) ^ 724 = gD at *
  generalize (1 + f.u) ^ 125 = gE at *
  generalize (1 + f.u) ^ 124 = gF at *
  have b2 : b ^ 1 ≤ b ^ 2 := pow_le_pow_right₀ hb1 (by norm_num)
  have b3 : b ^ 2 ≤ b ^ 3 := pow_le_pow_right₀ hb1 (by norm_num)
  have b4 : b ^ 3 ≤ b ^ 4 := pow_le_pow_right₀ hb1 (by norm_num)
  have b5 : b ^ 4 ≤ b ^ 5 := pow_le_pow_right₀ hb1 (by norm_num)
  have b6 : b ^ 5 ≤ b ^ 6 := pow_le_pow_right₀ hb1 (by norm_num)
  rw [pow_one] at b2
  have hF : (1 : ℝ) ≤ 120 * b ^ 5 := by linarith
  have hFN : 120 * b ^ 5 ≤ (720 * b ^ 6) := by linarith
  have mp (i j) : A.minorPer j i ≤ 120 * b ^ 5 := by
    have : A.minorPer j i ≤ (Nat.factorial 5 : ℝ) * b ^ 5 :=
      minorPer_le (fun r c => (A (j.succAbove r) (i.succAbove c)).toReal) b fun r c => hb _ _
    norm_num [Nat.factorial] at this ⊢
    exact this
  have mp0 (i j) : 0 ≤ A.minorPer j i := (abs_nonneg _).trans (A.adj_le i j)
  have per : (Matrix.of fun i j => |(A i j).toReal|).permanent ≤ (720 * b ^ 6) := by
    have : (Matrix.of fun i j => |(A i j).toReal|).permanent ≤ (Nat.factorial 6 : ℝ) * b ^ 6 := minorPer_le (fun i j => (A i j).toReal) b hb
    norm_num [Nat.factorial] at this ⊢
    exact this
  have num (i j) := resid_num (η := f.eta) (F := 120 * b ^ 5) (N := (720 * b ^ 6)) (D := D) (mp := A.minorPer j i) (U := 120 * (1 + b + b ^ 2 + b ^ 3)) (UE := 720 * (1 + b + b ^ 2 + b ^ 3 + b ^ 4))
    (κ := 1012 / 1000 * (125 * f.u)) (κE := 1012 / 1000 * (724 * f.u)) hu0 hu hη0 hF hFN (mp0 i j) (mp i j) per
    (by linarith) (by linarith) (by linarith) g1 g2 p1 p2 p3 p4 p5 hs
    _ (abs_det_le_permanent fun i j => (A i j).toReal) hdet hDu
  obtain ⟨r1, r2⟩ := resid_full hp (n := 6) (by norm_num) (by norm_num) A B (M66.mul A B) (F := 120 * b ^ 5) (C := 860)
    (κ := 1012 / 1000 * (125 * f.u)) (κE := 1012 / 1000 * (724 * f.u)) hb1 hb
    (show (720 * b ^ 6) = ((6 : ℕ) : ℝ) * (b * (120 * b ^ 5)) by push_cast; ring) hF hs hDu (num 0 0).2.1
    (fun i j => (A.adj_le i j).trans (mp i j)) (by linarith) (by linarith)
    (fun i j => (hent i j).trans (num i j).2.2) hdet (num 0 0).1
    (fun i j hf => by exact_mod_cast (C93_mul_M66 A B i j hf).1)
  refine ⟨fun i j => ⟨(r1 i j).1, (r1 i j).2.1, fun hf => ?_⟩, fun v V hv hf i => ?_⟩
  · have := (r1 i j).2.2 hf
    norm_num at this ⊢
    exact this
  · have := r2 v (M66.mulVec B v) V hv (fun k => by exact_mod_cast (C93_mulVec_M66 B v k (hf k)).1) i
    norm_num at this ⊢
    exact this

/-- In `f64` the hypothesis on the range is no restriction: entries up to `2^100`, say. -/
example : 64 * (720 * ((2 : ℝ) ^ 100) ^ 6) * Fmt.f64.eta ≤ Fmt.f64.u := by
  have e1 : Fmt.f64.eta = (2 : ℝ) ^ (-1075 : ℤ) := by
    norm_num [Fmt.eta, Fmt.f64]
  have e2 : Fmt.f64.u = (2 : ℝ) ^ (-53 : ℤ) := by
    norm_num [Fmt.u, Fmt.f64]
  rw [e1, e2]
  have h : (64 * (720 * ((2 : ℝ) ^ 100) ^ 6)) ≤ (2 : ℝ) ^ (616 : ℤ) := by
    have e3 : (2 : ℝ) ^ (616 : ℤ) = 65536 * ((2 : ℝ) ^ 100) ^ 6 := by
      rw [← pow_mul, show (65536 : ℝ) = 2 ^ 16 by norm_num, ← pow_add]; rfl
    rw [e3]
    have : (0 : ℝ) < ((2 : ℝ) ^ 100) ^ 6 := by positivity
    linarith
  calc _ ≤ (2 : ℝ) ^ (616 : ℤ) * (2 : ℝ) ^ (-1075 : ℤ) := mul_le_mul_of_nonneg_right h (by positivity)
    _ = (2 : ℝ) ^ (-459 : ℤ) := by rw [← zpow_add₀ (by norm_num)]; norm_num
    _ ≤ _ := zpow_le_zpow_right₀ (by norm_num) (by norm_num)

/-- A matrix meeting the hypotheses: 2 on and 1 off the diagonal, in `f32`; its determinant is 4 and the residual at most `120 u`. -/
example [Libm Fmt.f32] : ∃ A B : Mat 3 (Flt Fmt.f32), M33.inverse A = .ok (some B) ∧ (∀ i j, |(A i j).toReal| ≤ 2) ∧ (M33.det A).IsFin ∧
    (∀ i j, (B i j).IsFin) ∧ ∀ i j, |(A.reM' * B.reM') i j - (1 : Matrix (Fin 3) (Fin 3) ℝ) i j| ≤ 120 * Fmt.f32.u := by
  have h1 : ∀ i j : Fin 3, (if i = j then 2 else 1 : ℕ) ≤ 2 ^ Fmt.f32.p := by intro i j; split <;> decide
  obtain ⟨A, hAd⟩ : ∃ A : Mat 3 (Flt Fmt.f32), A = ⟨fun i j => Flt.fin false ((if i = j then 2 else 1 : ℕ) : ℝ) (Fmt.f32.rep_nat (h1 i j))⟩ := ⟨_, rfl⟩
  have hv (i j) : (A i j).IsFin ∧ (A i j).toReal = ((if i = j then 2 else 1 : ℕ) : ℝ) := by rw [hAd]; exact ⟨trivial, rfl⟩
  have hA (i j) : (A i j).IntLe 2 := ⟨(hv i j).1, ((if i = j then 2 else 1 : ℕ) : ℤ), by rw [(hv i j).2]; norm_cast, by split <;> norm_num⟩
  have hd : A.reM'.det = 4 := by
    have e (i j) : A.reM' i j = ((if i = j then 2 else 1 : ℕ) : ℝ) := (hv i j).2
    rw [Matrix.det_fin_three]
    simp only [e]
    norm_num [Fin.ext_iff]
  obtain ⟨B, hB, hf, -⟩ := (C146_M33 Fmt.f32_deep A 2 (by norm_num) hA (by decide)).2 (by rw [hd]; norm_num)
  have hdet := (C104_integers_M33 A A ⟨fun i => A i 0⟩ ⟨fun i => A i 0⟩ 2 (by norm_num) hA hA (fun i => hA i 0) (fun i => hA i 0)).1 (by decide)
  have hb (i j) : |(A i j).toReal| ≤ 2 := by rw [(hv i j).2]; split <;> norm_num
  refine ⟨A, B, hB, hb, hdet.1, fun i j => (hf i j).1, fun i j => ?_⟩
  have hs : 64 * (6 * (2 : ℝ) ^ 3) * Fmt.f32.eta ≤ Fmt.f32.u := by
    have e1 : Fmt.f32.eta = (2 : ℝ) ^ (-150 : ℤ) := by norm_num [Fmt.eta, Fmt.f32]
    have e2 : Fmt.f32.u = (2 : ℝ) ^ (-24 : ℤ) := by norm_num [Fmt.u, Fmt.f32]
    rw [e1, e2]; norm_num
  have r := ((C152_M33 (by decide) A B hB 2 (by norm_num) hb hdet.1 (fun i j => (hf i j).1) hs).1 i j).1
  have e : (M33.det A).toReal = 4 := hdet.2.trans hd
  rw [e] at r
  norm_num at r
  linarith

end StaticMath
