import Verif.Props.IeeeChain
import Verif.Ieee.Comp
import Verif.Model.Linear

/-!
# C129: the eigenvalues of 2x2 matrices in floating point
-/

namespace StaticMath
open Flt

variable {f : Fmt}

/-! ## The discriminant -/

private def discrE : Ex (Fin 2 × Fin 2) :=
  let t : Ex (Fin 2 × Fin 2) := .var (0, 0) + .var (1, 1)
  t * t - ((1 + 1) + (1 + 1)) * (.var (0, 0) * .var (1, 1) - .var (1, 0) * .var (0, 1))

/-- What the code computes. -/
private noncomputable def discrF (A : Mat 2 (Flt f)) : Flt f :=
  M22.trace A * M22.trace A - ((1 + 1) + (1 + 1)) * M22.det A

private theorem discrF_eq (A : Mat 2 (Flt f)) : discrF A = discrE.evalF (fun q : Fin 2 × Fin 2 => A q.1 q.2) := rfl

/-- The discriminant of the characteristic polynomial. -/
noncomputable def discr2 (A : Matrix (Fin 2) (Fin 2) ℝ) : ℝ := A.trace ^ 2 - 4 * A.det

private theorem kappa6 (hp : 8 ≤ f.p) : (1 + f.u) ^ 6 - 1 ≤ 607 / 100 * f.u := by
  have hu0 := f.u_pos
  have h2 := mul_le_mul_of_nonneg_right (Fmt.u_le_of_p hp) hu0.le
  have s (k : ℕ) {c d : ℝ} (h : (1 + f.u) ^ k - 1 ≤ c * f.u) (hd : c + 1 + c / 256 ≤ d) (hc : 0 ≤ c) :
      (1 + f.u) ^ (k + 1) - 1 ≤ d * f.u := by
    have h3 := mul_le_mul_of_nonneg_left h2 hc
    have h4 := mul_le_mul_of_nonneg_right h (by linarith : 0 ≤ 1 + f.u)
    have h5 := mul_le_mul_of_nonneg_right hd hu0.le
    rw [pow_succ]
    linarith
  have k1 : (1 + f.u) ^ 1 - 1 ≤ 1 * f.u := by linarith
  have k2 := s 1 k1 (d := 2004 / 1000) (by norm_num) (by norm_num)
  have k3 := s 2 k2 (d := 3012 / 1000) (by norm_num) (by norm_num)
  have k4 := s 3 k3 (d := 4024 / 1000) (by norm_num) (by norm_num)
  have k5 := s 4 k4 (d := 5040 / 1000) (by norm_num) (by norm_num)
  exact s 5 k5 (by norm_num) (by norm_num)

private theorem discr_err (hp : 8 ≤ f.p) (A : Mat 2 (Flt f)) {M : ℝ} (hA : ∀ i j, (A i j).FinLe M)
    (hov : (1 + f.u) ^ 6 * (22 * max M 1 ^ 2) < (2 : ℝ) ^ (f.emax + 1)) :
    (discrF A).IsFin ∧ |(discrF A).toReal - discr2 A.reM| ≤ 73 * f.u * M ^ 2 + 11 * f.eta := by
  have hu := Fmt.u_le_of_p hp
  have hu0 := f.u_pos
  have hη0 := f.eta_pos
  have hκ := kappa6 hp
  have hM : 0 ≤ M := (abs_nonneg _).trans (hA 0 0).2
  have hfin : (discrF A).IsFin := by
    rw [discrF_eq]
    exact Ex.isFin_of (B := max M 1) (le_max_right _ _) (fun q => ⟨(hA q.1 q.2).1, (hA q.1 q.2).2.trans (le_max_left _ _)⟩)
      discrE (k := 6) (c := 22) (d := 2) (by decide +kernel) (by decide +kernel) (by decide +kernel) (by exact_mod_cast hov)
  refine ⟨hfin, ?_⟩
  obtain ⟨a, ha⟩ : ∃ a, a = (A 0 0).toReal := ⟨_, rfl⟩
  obtain ⟨b, hb⟩ : ∃ b, b = (A 0 1).toReal := ⟨_, rfl⟩
  obtain ⟨c, hc⟩ : ∃ c, c = (A 1 0).toReal := ⟨_, rfl⟩
  obtain ⟨d, hd⟩ : ∃ d, d = (A 1 1).toReal := ⟨_, rfl⟩
  have ha1 : |a| ≤ M := ha ▸ (hA 0 0).2
  have hb1 : |b| ≤ M := hb ▸ (hA 0 1).2
  have hc1 : |c| ≤ M := hc ▸ (hA 1 0).2
  have hd1 : |d| ≤ M := hd ▸ (hA 1 1).2
  have abs0 (η : ℝ) : Ex.absE η (Ex.vals (fun q : Fin 2 × Fin 2 => A q.1 q.2)) discrE =
      ((|a| + |d|) * (|a| + |d|) + η) + (((1 + 1) + (1 + 1)) * ((|a| * |d| + η) + (|c| * |b| + η)) + η) := by
    rw [ha, hb, hc, hd]; rfl
  have had : |a| * |d| ≤ M * M := mul_le_mul ha1 hd1 (abs_nonneg _) hM
  have hcb : |c| * |b| ≤ M * M := mul_le_mul hc1 hb1 (abs_nonneg _) hM
  have htt : (|a| + |d|) * (|a| + |d|) ≤ (M + M) * (M + M) := by
    have := abs_nonneg a
    have := abs_nonneg d
    exact mul_le_mul (by linarith) (by linarith) (by positivity) (by positivity)
  have h := Ex.err_of_le (S := 12 * M ^ 2) (U := 10) (k := 6) discrE (by decide +kernel) (by rw [abs0]; linarith)
    (by rw [abs0, abs0]; linarith) (discrF_eq A ▸ hfin)
  have hval : discrE.evalR (Ex.vals (fun q : Fin 2 × Fin 2 => A q.1 q.2)) = discr2 A.reM := by
    unfold discr2
    rw [Matrix.trace_fin_two, Matrix.det_fin_two]
    change ((A 0 0).toReal + (A 1 1).toReal) * ((A 0 0).toReal + (A 1 1).toReal) - ((1 + 1) + (1 + 1)) *
      ((A 0 0).toReal * (A 1 1).toReal - (A 1 0).toReal * (A 0 1).toReal) = ((A 0 0).toReal + (A 1 1).toReal) ^ 2 -
      4 * ((A 0 0).toReal * (A 1 1).toReal - (A 0 1).toReal * (A 1 0).toReal)
    ring
  rw [hval, ← discrF_eq] at h
  refine h.trans ?_
  have h1 := mul_le_mul_of_nonneg_right hκ (by positivity : 0 ≤ 12 * M ^ 2)
  have h2 : (1 + f.u) ^ 6 * (f.eta * 10) ≤ 11 / 10 * (f.eta * 10) := mul_le_mul_of_nonneg_right (by linarith) (by positivity)
  have h3 : 0 ≤ f.u * M ^ 2 := by positivity
  linarith

/-! ## The eigenvalues -/

/-- One eigenvalue, given how far the computed root is from the exact one. -/
private theorem eig_err (hp : 8 ≤ f.p) {x s : Flt f} {t r M W C : ℝ} (hM : 0 ≤ M) (hx : x.IsFin) (hs : s.IsFin)
    (hxt : |x.toReal - t| ≤ 2 * f.u * M) (ht : |t| ≤ 2 * M) (hr : |r| ≤ 3 * M) (hW : 0 ≤ W)
    (hsr : |s.toReal - r| ≤ W + f.u * (3 * M + W)) (hC : 8 * M + 2 * W ≤ C) (hC2 : (1 + f.u) * C < (2 : ℝ) ^ (f.emax + 1)) :
    ((x + s) / (1 + 1)).IsFin ∧
      |((x + s) / (1 + 1)).toReal - (t + r) / 2| ≤ 51 / 100 * W + 9 * f.u * M + f.eta := by
  have hu := Fmt.u_le_of_p hp
  have hu0 := f.u_pos
  have hη0 := f.eta_pos
  have huM := mul_nonneg hu0.le hM
  have huW := mul_nonneg hu0.le hW
  have huM1 := mul_le_mul_of_nonneg_right hu hM
  have huW1 := mul_le_mul_of_nonneg_right hu hW
  have e1 : |(x.toReal + s.toReal) - (t + r)| ≤ 2 * f.u * M + (W + f.u * (3 * M + W)) := by
    have := abs_add_le (x.toReal - t) (s.toReal - r)
    rw [show x.toReal - t + (s.toReal - r) = (x.toReal + s.toReal) - (t + r) by ring] at this
    linarith
  have b0 := abs_add_le t r
  have b1 : |x.toReal + s.toReal| ≤ 5 * M + (W + 5 * (f.u * M) + f.u * W) := by
    have := abs_sub_abs_le_abs_sub (x.toReal + s.toReal) (t + r)
    linarith
  have b1' : |x.toReal + s.toReal| ≤ C := by linarith
  have hsum : (x + s).IsFin :=
    add_isFin hx hs (lt_of_le_of_lt (mul_le_mul_of_nonneg_left b1' (by linarith)) hC2)
  have r1 := add_rel hsum
  have r2 := mul_le_mul_of_nonneg_left b1 hu0.le
  have m1 := mul_le_mul_of_nonneg_right hu huM
  have m2 := mul_le_mul_of_nonneg_right hu huW
  have m3 : f.u * |x.toReal + s.toReal| ≤ 1 / 256 * |x.toReal + s.toReal| :=
    mul_le_mul_of_nonneg_right hu (abs_nonneg _)
  have e2 : |(x + s).toReal - (t + r)| ≤ 101 / 100 * W + 11 * (f.u * M) := by
    have := abs_sub_le (x + s).toReal (x.toReal + s.toReal) (t + r)
    linarith
  have b2 : |(x + s).toReal| ≤ 6 * M + 2 * W := by
    have := abs_sub_abs_le_abs_sub (x + s).toReal (t + r)
    linarith
  have two := Near.two (f := f)
  have hv : ((1 : Flt f) + 1).toReal = 2 := by
    have := abs_nonpos_iff.1 two.err
    linarith
  have e3 : |(x + s).toReal / ((1 : Flt f) + 1).toReal| = |(x + s).toReal| / 2 := by
    rw [hv, abs_div, abs_two]
  have hdiv : ((x + s) / (1 + 1)).IsFin := by
    refine div_isFin hsum two.fin (by rw [hv]; norm_num) (lt_of_le_of_lt (mul_le_mul_of_nonneg_left ?_ (by linarith)) hC2)
    rw [e3]
    linarith
  refine ⟨hdiv, ?_⟩
  have r3 := (div_err two.fin hdiv).2
  rw [e3, hv] at r3
  have e4 : |(x + s).toReal / 2 - (t + r) / 2| ≤ (101 / 100 * W + 11 * (f.u * M)) / 2 := by
    rw [← sub_div, abs_div, abs_two]
    linarith
  have b3 : |(x + s).toReal| ≤ 5 * M + (101 / 100 * W + 11 * (f.u * M)) := by
    have := abs_sub_abs_le_abs_sub (x + s).toReal (t + r)
    linarith
  have r4 := mul_le_mul_of_nonneg_left b3 hu0.le
  have := abs_sub_le ((x + s) / (1 + 1)).toReal ((x + s).toReal / 2) ((t + r) / 2)
  linarith

private theorem eigenvals_eq [Libm f] (A : Mat 2 (Flt f)) : M22.real_eigenvals A =
    if ROrd.lt (discrF A) 0 then none
    else some ⟨![(M22.trace A + Flt.sqrt (discrF A)) / (1 + 1), (M22.trace A + -Flt.sqrt (discrF A)) / (1 + 1)]⟩ := rfl

private theorem sqrt_le_add {x y E : ℝ} (hE : 0 ≤ E) (h : x ≤ y + E) : √x ≤ √y + √E := by
  refine Real.sqrt_le_iff.2 ⟨by positivity, ?_⟩
  have h1 : y ≤ √y * √y := by
    rcases le_total 0 y with hy | hy
    · exact (Real.mul_self_sqrt hy).ge
    · exact hy.trans (mul_self_nonneg _)
  have h2 := Real.mul_self_sqrt hE
  have h3 := mul_nonneg (Real.sqrt_nonneg y) (Real.sqrt_nonneg E)
  linarith

private theorem sqrt_near {x y E : ℝ} (hE : 0 ≤ E) (h : |x - y| ≤ E) : |√x - √y| ≤ √E := by
  have h1 := abs_le.1 h
  have a := sqrt_le_add (x := x) (y := y) hE (by linarith)
  have b := sqrt_le_add (x := y) (y := x) hE (by linarith)
  exact abs_le.2 ⟨by linarith, by linarith⟩

private theorem sqrt_near' {x y E : ℝ} (hx : 0 ≤ x) (hy : 0 < y) (h : |x - y| ≤ E) : |√x - √y| ≤ E / √y := by
  have hy' := Real.sqrt_pos.2 hy
  have hx' := Real.sqrt_nonneg x
  have e : (√x - √y) * (√x + √y) = x - y := by
    have h1 := Real.mul_self_sqrt hx
    have h2 := Real.mul_self_sqrt hy.le
    linear_combination h1 - h2
  rw [le_div_iff₀ hy']
  calc |√x - √y| * √y ≤ |√x - √y| * (√x + √y) := mul_le_mul_of_nonneg_left (by linarith) (abs_nonneg _)
    _ = |x - y| := by rw [← e, abs_mul, abs_of_nonneg (by linarith : 0 ≤ √x + √y)]
    _ ≤ E := h

/-- C129, what holds: for entries of magnitude at most `M` and `E = 73 u M² + 11 η`, a discriminant below `-E` gives
`None`, one of at least `E` gives both eigenvalues up to `0.51 E / √D + 9 u M + η`, and whenever values come back they
are that far from the real parts of the eigenvalues, with `√E` instead of `E / √D`. -/
theorem C129_eigenvalues_partial [Libm f] (hp : 8 ≤ f.p) (A : Mat 2 (Flt f)) {M : ℝ} (hA : ∀ i j, (A i j).FinLe M)
    (hov : (1 + f.u) ^ 6 * (22 * max M 1 ^ 2) < (2 : ℝ) ^ (f.emax + 1)) :
    let t := A.reM.trace
    let D := A.reM.trace ^ 2 - 4 * A.reM.det
    let E := 73 * f.u * M ^ 2 + 11 * f.eta
    (D < -E → M22.real_eigenvals A = none) ∧
    (E ≤ D → ∃ l, M22.real_eigenvals A = some l ∧ (l 0).IsFin ∧ (l 1).IsFin ∧
      |(l 0).toReal - (t + √D) / 2| ≤ 51 / 100 * (E / √D) + 9 * f.u * M + f.eta ∧
      |(l 1).toReal - (t - √D) / 2| ≤ 51 / 100 * (E / √D) + 9 * f.u * M + f.eta) ∧
    ∀ l, M22.real_eigenvals A = some l → (l 0).IsFin ∧ (l 1).IsFin ∧
      |(l 0).toReal - (t + √D) / 2| ≤ 51 / 100 * √E + 9 * f.u * M + f.eta ∧
      |(l 1).toReal - (t - √D) / 2| ≤ 51 / 100 * √E + 9 * f.u * M + f.eta := by
  intro t D E
  obtain ⟨hfin, herr⟩ := discr_err hp A hA hov
  have hu := Fmt.u_le_of_p hp
  have hu0 := f.u_pos
  have hη0 := f.eta_pos
  have hη := f.eta_le_sq
  have huu := mul_le_mul hu hu hu0.le (by norm_num)
  have hM : 0 ≤ M := (abs_nonneg _).trans (hA 0 0).2
  have hE : 0 < E := by positivity
  have hherr : |(discrF A).toReal - D| ≤ E := herr
  have hlt : ROrd.lt (discrF A) 0 = true ↔ (discrF A).toReal < 0 := by
    rw [lt_iff hfin isFin_zero, toReal_zero]
  have hM1 : (1 : ℝ) ≤ max M 1 := le_max_right _ _
  have hMM : M ≤ max M 1 := le_max_left _ _
  have hEM : E ≤ max M 1 ^ 2 := by
    have h1 : M ^ 2 ≤ max M 1 ^ 2 := pow_le_pow_left₀ hM hMM 2
    have h2 : 1 ≤ max M 1 ^ 2 := one_le_pow₀ hM1
    have h3 : f.u * M ^ 2 ≤ 1 / 256 * M ^ 2 := mul_le_mul_of_nonneg_right hu (by positivity)
    simp only [E]
    linarith
  have hEs : √E ≤ max M 1 := Real.sqrt_le_iff.2 ⟨by linarith, hEM⟩
  obtain ⟨a, ha⟩ : ∃ a, a = (A 0 0).toReal := ⟨_, rfl⟩
  obtain ⟨d, hd⟩ : ∃ d, d = (A 1 1).toReal := ⟨_, rfl⟩
  have ha1 : |a| ≤ M := ha ▸ (hA 0 0).2
  have hd1 : |d| ≤ M := hd ▸ (hA 1 1).2
  have htv : t = a + d := by
    rw [ha, hd]; exact Matrix.trace_fin_two _
  have ht : |t| ≤ 2 * M := by
    rw [htv]; linarith [abs_add_le a d]
  have hD : D ≤ (3 * M) ^ 2 := by
    have e : D = (a - d) ^ 2 + 4 * ((A 0 1).toReal * (A 1 0).toReal) := by
      simp only [D]
      rw [Matrix.trace_fin_two, Matrix.det_fin_two, ha, hd]
      change ((A 0 0).toReal + (A 1 1).toReal) ^ 2 - 4 * ((A 0 0).toReal * (A 1 1).toReal - (A 0 1).toReal * (A 1 0).toReal) = _
      ring
    have h1 : (A 0 1).toReal * (A 1 0).toReal ≤ M * M := by
      refine (le_abs_self _).trans ?_
      rw [abs_mul]
      exact mul_le_mul (hA 0 1).2 (hA 1 0).2 (abs_nonneg _) hM
    have h2 : (a - d) ^ 2 ≤ (2 * M) ^ 2 := by
      have h3 : |a - d| ≤ 2 * M := by linarith [abs_sub a d]
      exact sq_le_sq' (abs_le.1 h3).1 (abs_le.1 h3).2
    rw [e]
    nlinarith
  have hr : |√D| ≤ 3 * M := by
    rw [abs_of_nonneg (Real.sqrt_nonneg _)]
    exact Real.sqrt_le_iff.2 ⟨by linarith, hD⟩
  have htr : (M22.trace A).IsFin ∧ |(M22.trace A).toReal - t| ≤ 2 * f.u * M := by
    have hf : (M22.trace A).IsFin := by
      refine add_isFin (hA 0 0).1 (hA 1 1).1 (lt_of_le_of_lt ?_ hov)
      have h1 : |(A 0 0).toReal + (A 1 1).toReal| ≤ 22 * max M 1 ^ 2 := by
        have := abs_add_le (A 0 0).toReal (A 1 1).toReal
        have := (hA 0 0).2
        have := (hA 1 1).2
        nlinarith
      have h2 : 1 + f.u ≤ (1 + f.u) ^ 6 := le_self_pow₀ (by linarith) (by norm_num)
      exact mul_le_mul h2 h1 (abs_nonneg _) (by positivity)
    refine ⟨hf, ?_⟩
    have := add_rel (a := A 0 0) (b := A 1 1) hf
    rw [← ha, ← hd, ← htv] at this
    refine this.trans ?_
    have := mul_le_mul_of_nonneg_left ht hu0.le
    linarith
  have hC2 : (1 + f.u) * (10 * max M 1) < (2 : ℝ) ^ (f.emax + 1) := by
    refine lt_of_le_of_lt ?_ hov
    have h2 : 1 + f.u ≤ (1 + f.u) ^ 6 := le_self_pow₀ (by linarith) (by norm_num)
    exact mul_le_mul h2 (by nlinarith) (by positivity) (by positivity)
  have main (W : ℝ) (hW : 0 ≤ W) (hWM : W ≤ max M 1) (h0 : 0 ≤ (discrF A).toReal)
      (hWs : |√(discrF A).toReal - √D| ≤ W) :
      (((M22.trace A + Flt.sqrt (discrF A)) / (1 + 1)).IsFin ∧
        |((M22.trace A + Flt.sqrt (discrF A)) / (1 + 1)).toReal - (t + √D) / 2| ≤ 51 / 100 * W + 9 * f.u * M + f.eta) ∧
      (((M22.trace A + -Flt.sqrt (discrF A)) / (1 + 1)).IsFin ∧
        |((M22.trace A + -Flt.sqrt (discrF A)) / (1 + 1)).toReal - (t - √D) / 2| ≤ 51 / 100 * W + 9 * f.u * M + f.eta) := by
    obtain ⟨s1, s2, s3⟩ := sqrt_rel hfin h0
    have hb : √(discrF A).toReal ≤ 3 * M + W := by
      have := (abs_le.1 hWs).2
      rw [abs_of_nonneg (Real.sqrt_nonneg _)] at hr
      linarith
    have hsr : |(Flt.sqrt (discrF A)).toReal - √D| ≤ W + f.u * (3 * M + W) := by
      have h1 := abs_sub_le (Flt.sqrt (discrF A)).toReal √(discrF A).toReal √D
      have h2 := mul_le_mul_of_nonneg_left hb hu0.le
      linarith
    refine ⟨eig_err hp hM htr.1 s1 htr.2 ht hr hW hsr (by linarith) hC2, ?_⟩
    have hsr' : |(-Flt.sqrt (discrF A)).toReal - -√D| ≤ W + f.u * (3 * M + W) := by
      rw [toReal_neg, neg_sub_neg, abs_sub_comm]
      exact hsr
    exact eig_err hp hM htr.1 (isFin_neg.2 s1) htr.2 ht (by rwa [abs_neg]) hW hsr' (by linarith) hC2
  refine ⟨fun h => ?_, fun h => ?_, fun l hl => ?_⟩
  · rw [eigenvals_eq, if_pos]
    rw [hlt]
    linarith [(abs_le.1 hherr).2]
  · have hD0 : 0 < D := hE.trans_le h
    have h0 : 0 ≤ (discrF A).toReal := by linarith [(abs_le.1 hherr).1]
    have hW : E / √D ≤ √E := by
      rw [div_le_iff₀ (Real.sqrt_pos.2 hD0)]
      calc E = √E * √E := (Real.mul_self_sqrt hE.le).symm
        _ ≤ √E * √D := mul_le_mul_of_nonneg_left (Real.sqrt_le_sqrt h) (Real.sqrt_nonneg _)
    obtain ⟨m1, m2⟩ := main (E / √D) (by positivity) (hW.trans hEs) h0 (sqrt_near' h0 hD0 hherr)
    refine ⟨⟨![_, _]⟩, ?_, m1.1, m2.1, m1.2, m2.2⟩
    rw [eigenvals_eq, if_neg]
    rw [hlt]
    linarith
  · rw [eigenvals_eq] at hl
    split_ifs at hl with hc
    rw [hlt, not_lt] at hc
    obtain ⟨m1, m2⟩ := main √E (Real.sqrt_nonneg _) hEs hc (sqrt_near hE.le hherr)
    rw [Option.some.injEq] at hl
    subst hl
    exact ⟨m1.1, m2.1, m1.2, m2.2⟩

/-- Concrete case: `[[1, 1], [1, 0]]` in double precision gets the golden ratio up to `2^-44`. -/
example [Libm Fmt.f64] :
    ∃ l, M22.real_eigenvals (⟨![![1, 1], ![1, 0]]⟩ : Mat 2 (Flt Fmt.f64)) = some l ∧
      |(l 0).toReal - (1 + √5) / 2| ≤ 2 ^ (-44 : ℤ) ∧ |(l 1).toReal - (1 - √5) / 2| ≤ 2 ^ (-44 : ℤ) := by
  have hu : Fmt.f64.u = (2 : ℝ) ^ (-53 : ℤ) := rfl
  have hη : Fmt.f64.eta ≤ (2 : ℝ) ^ (-106 : ℤ) := by
    refine Fmt.f64.eta_le_sq.trans (le_of_eq ?_)
    rw [hu]; norm_num
  have hη0 := Fmt.f64.eta_pos
  have hA (i j : Fin 2) : ((⟨![![1, 1], ![1, 0]]⟩ : Mat 2 (Flt Fmt.f64)) i j).FinLe 1 := by
    have h1 : (1 : Flt Fmt.f64).FinLe 1 := ⟨isFin_one, by rw [toReal_one]; norm_num⟩
    have h0 : (0 : Flt Fmt.f64).FinLe 1 := ⟨isFin_zero, by rw [toReal_zero]; norm_num⟩
    fin_cases i <;> fin_cases j <;> first | exact h1 | exact h0
  have hre : (⟨![![1, 1], ![1, 0]]⟩ : Mat 2 (Flt Fmt.f64)).reM = !![1, 1; 1, 0] := by
    ext i j
    fin_cases i <;> fin_cases j <;> first | exact toReal_one (f := Fmt.f64) | exact toReal_zero (f := Fmt.f64)
  have ht : (!![1, 1; 1, 0] : Matrix (Fin 2) (Fin 2) ℝ).trace = 1 := by simp [Matrix.trace_fin_two]
  have hd : (!![1, 1; 1, 0] : Matrix (Fin 2) (Fin 2) ℝ).det = -1 := by simp [Matrix.det_fin_two]
  have h := (C129_eigenvalues_partial (by decide) _ hA (by
    have h1 : (2 : ℝ) ^ (9 : ℤ) ≤ (2 : ℝ) ^ (Fmt.f64.emax + 1) := zpow_le_zpow_right₀ (by norm_num) (by decide)
    have h2 := kappa6 (f := Fmt.f64) (by decide)
    have h3 := Fmt.u_le_of_p (f := Fmt.f64) (by decide)
    rw [max_self, one_pow]
    norm_num at h1 ⊢
    linarith)).2.1
  rw [hre, ht, hd] at h
  have e5 : (1 : ℝ) ^ 2 - 4 * -1 = 5 := by norm_num
  simp only [e5] at h
  have hE : 73 * Fmt.f64.u * 1 ^ 2 + 11 * Fmt.f64.eta ≤ 74 * (2 : ℝ) ^ (-53 : ℤ) := by
    rw [hu]; norm_num at hη ⊢; linarith
  obtain ⟨l, h1, -, -, h2, h3⟩ := h (hE.trans (by norm_num))
  have h5 : (1 : ℝ) ≤ √5 := Real.one_le_sqrt.2 (by norm_num)
  have hq : (73 * Fmt.f64.u * 1 ^ 2 + 11 * Fmt.f64.eta) / √5 ≤ 74 * (2 : ℝ) ^ (-53 : ℤ) :=
    (div_le_self (by have := Fmt.f64.u_pos; linarith) h5).trans hE
  have hb : 51 / 100 * ((73 * Fmt.f64.u * 1 ^ 2 + 11 * Fmt.f64.eta) / √5) + 9 * Fmt.f64.u * 1 + Fmt.f64.eta ≤
      (2 : ℝ) ^ (-44 : ℤ) := by
    rw [hu] at hq ⊢
    norm_num at hη hq ⊢
    linarith
  exact ⟨l, h1, h2.trans hb, h3.trans hb⟩

/-! ## Counterexamples -/

private noncomputable def flt64 (m : ℕ) (e : ℤ) (h : m < 2 ^ 53 ∧ -1074 ≤ e ∧ e + 53 ≤ 1024) : Flt Fmt.f64 :=
  .fin false (m * (2 : ℝ) ^ e) ⟨m, e, rfl, h.1, h.2.1, h.2.2⟩

private theorem den64 (m : ℕ) (e : ℤ) (h) : BF.Den (BF.fin false m e : BF Fmt.f64) (flt64 m e h) := ⟨rfl, rfl⟩

private theorem val64 (m : ℕ) (e : ℤ) (h) : (flt64 m e h).toReal = m * (2 : ℝ) ^ e := by
  simp [flt64, toReal, sgn]

private theorem den_val {b : BF Fmt.f64} {x : Flt Fmt.f64} (h : BF.Den b x) {s : Bool} {m : ℕ} {e : ℤ}
    (hb : b = .fin s m e) : x.toReal = sgn s (m * (2 : ℝ) ^ e) := by
  subst hb
  rcases x with _ | t | ⟨t, y, hy⟩
  · exact absurd h id
  · exact absurd h id
  · obtain ⟨rfl, rfl⟩ := h
    rfl

attribute [local irreducible] BF.Den

private def discrB (a d : BF Fmt.f64) : BF Fmt.f64 :=
  (a + d) * (a + d) - ((1 + 1) + (1 + 1)) * (a * d - 0 * 0)

private theorem den_discr {a d : BF Fmt.f64} {x y : Flt Fmt.f64} (ha : BF.Den a x) (hd : BF.Den d y) :
    BF.Den (discrB a d) (discrF ⟨![![x, 0], ![0, y]]⟩) := by
  have h1 := BF.den_one (f := Fmt.f64)
  have h0 := BF.den_zero (f := Fmt.f64)
  exact BF.den_sub (BF.den_mul (BF.den_add ha hd) (BF.den_add ha hd))
    (BF.den_mul (BF.den_add (BF.den_add h1 h1) (BF.den_add h1 h1)) (BF.den_sub (BF.den_mul ha hd) (BF.den_mul h0 h0)))

/-- C129 is false of the code: the diagonal matrix of `1 + 2^-52` and `1 + 2^-50` has these two real eigenvalues, but in
double precision `real_eigenvals` returns `None`. -/
theorem C129_diagonal_false [Libm Fmt.f64] :
    ∃ a d : Flt Fmt.f64, a.toReal = 1 + 2 ^ (-52 : ℤ) ∧ d.toReal = 1 + 2 ^ (-50 : ℤ) ∧
      M22.real_eigenvals (⟨![![a, 0], ![0, d]]⟩ : Mat 2 (Flt Fmt.f64)) = none := by
  refine ⟨flt64 (2 ^ 52 + 1) (-52) (by decide +kernel), flt64 (2 ^ 52 + 4) (-52) (by decide +kernel), ?_, ?_, ?_⟩
  · rw [val64]; push_cast; norm_num
  · rw [val64]; push_cast; norm_num
  · rw [eigenvals_eq, if_pos]
    rw [← BF.lt_eq (den_discr (den64 _ _ _) (den64 _ _ _)) BF.den_zero]
    decide +kernel

/-- C129 is false of the code: the diagonal matrix of `1` and `2^-60` is invertible, but in double precision
`real_eigenvals` reports the eigenvalue zero instead of `2^-60`. -/
theorem C129_small_eigenvalue_false [Libm Fmt.f64] :
    ∃ a d : Flt Fmt.f64, a.toReal = 1 ∧ d.toReal = 2 ^ (-60 : ℤ) ∧
      ∃ l, M22.real_eigenvals (⟨![![a, 0], ![0, d]]⟩ : Mat 2 (Flt Fmt.f64)) = some l ∧ (l 0).toReal = 1 ∧ (l 1).toReal = 0 := by
  refine ⟨flt64 1 0 (by decide +kernel), flt64 1 (-60) (by decide +kernel), ?_, ?_, ?_⟩
  · rw [val64]; norm_num
  · rw [val64]; norm_num
  · have hd := den_discr (den64 1 0 (by decide +kernel)) (den64 1 (-60) (by decide +kernel))
    have ht := BF.den_add (den64 1 0 (by decide +kernel)) (den64 1 (-60) (by decide +kernel))
    have h2 := BF.den_add (BF.den_one (f := Fmt.f64)) BF.den_one
    rw [eigenvals_eq, if_neg]
    · refine ⟨_, rfl, ?_, ?_⟩
      · refine (den_val (BF.den_div (BF.den_add ht (BF.den_sqrt hd)) h2) (s := false) (m := 2 ^ 52) (e := -52) ?_).trans ?_
        · decide +kernel
        · norm_num [sgn]
      · refine (den_val (BF.den_div (BF.den_add ht (BF.den_neg (BF.den_sqrt hd))) h2) (s := false) (m := 0) (e := 0) ?_).trans ?_
        · decide +kernel
        · simp [sgn]
    · rw [← BF.lt_eq hd BF.den_zero]
      decide +kernel

end StaticMath
