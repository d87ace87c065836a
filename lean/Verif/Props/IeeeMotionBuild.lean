import Verif.Props.IeeeMotion

/-!
# C136, continued: building dual quaternions, and matrices in, matrices out
-/

namespace StaticMath
open Flt Quaternion

variable {f : Fmt}

/-- The exact motions and their matrices. -/
private theorem fold_motion (l : List (DQuat ℝ)) (h : ∀ y ∈ l, y.IsMotion) :
    (l.foldl DQuat.mul DQuat.one).IsMotion ∧
      (l.foldl DQuat.mul DQuat.one).to_homogeneous.toM = (l.map fun y => y.to_homogeneous.toM).prod := by
  induction l using List.reverseRecOn with
  | nil =>
    refine ⟨⟨?_, ?_⟩, ?_⟩
    · have : (DQuat.one : DQuat ℝ).q_real.toH = 1 := by ext <;> rfl
      rw [List.foldl_nil, this, map_one]
    · have : (DQuat.one : DQuat ℝ).q_dual.toH = 0 := by ext <;> rfl
      rw [List.foldl_nil, this, star_zero, mul_zero]
      rfl
    · rw [List.map_nil, List.prod_nil, List.foldl_nil]
      have ht := (C61_translation_rotation_partial (Quat.one : Quat ℝ) V3.zero V3.zero).2.2.1
      have hr : (Quat.one : Quat ℝ).to_rotation = M33.one := by
        refine Mat.ext3 ?_ ?_ ?_ ?_ ?_ ?_ ?_ ?_ ?_ <;>
          simp [Quat.to_rotation, Quat.one, M33.one, V3.zero, Quat.real, Quat.imag, entries]
      have e : (DQuat.one : DQuat ℝ).to_homogeneous = homogeneous_from_rotation M33.one V3.zero := by
        rw [← hr, ← ht]
        rfl
      rw [e]
      ext i j
      fin_cases i <;> fin_cases j <;> simp [Mat.toM, homogeneous_from_rotation, M33.one, V3.zero, entries]
  | append_singleton l x ih =>
    obtain ⟨h1, h2⟩ := ih fun y hy => h y (by simp [hy])
    have h3 := C62_product_partial _ x h1 (h x (by simp)) ⟨![0, 0, 0]⟩
    rw [List.foldl_append, List.foldl_cons, List.foldl_nil, List.map_append, List.prod_append]
    refine ⟨h3.1, ?_⟩
    rw [h3.2.2.1, M44.toM_mul, h2]
    simp

/-- The matrix of a product of float dual quaternions, each within `δ` of a rigid motion: close to the product of the matrices
of these motions. -/
theorem C136_chain_matrix (hp : 8 ≤ f.p) (l : List (DQuat (Flt f) × DQuat ℝ)) (hne : l ≠ []) {P δ : ℝ} (hδ : 0 ≤ δ)
    (hP : 1 / 8 ≤ P) (hl : ∀ x ∈ l, x.1.Close x.2 P δ) (hn : ((1 + δ) * (1 + 11 * f.u)) ^ l.length ≤ 122 / 100)
    (hov : 16 * (2 + 2 * l.length * P) ^ 2 ≤ (2 : ℝ) ^ f.emax) (i j : Fin 3) :
    let A := ((l.map Prod.fst).foldl DQuat.mul DQuat.one).to_homogeneous
    let M := (l.map fun x => x.2.to_homogeneous.toM).prod
    let E := 5 * (((1 + δ) * (1 + 11 * f.u)) ^ l.length - 1) + 17 * f.u
    ((A i.castSucc j.castSucc).IsFin ∧ |(A i.castSucc j.castSucc).toReal - M i.castSucc j.castSucc| ≤ E) ∧
    ((A i.castSucc 3).IsFin ∧ |(A i.castSucc 3).toReal - M i.castSucc 3| ≤ l.length * P * E) ∧
    A 3 j.castSucc = 0 ∧ A 3 3 = 1 := by
  have h1 := C136_chain hp l hδ hP hl (hn.trans (by norm_num)) hov
  have h2 := (fold_motion (l.map Prod.snd) (by
    intro y hy
    obtain ⟨x, hx, rfl⟩ := List.mem_map.1 hy
    exact (hl x hx).motion)).2
  rw [List.map_map] at h2
  have hlen : (1 : ℝ) ≤ l.length := by exact_mod_cast List.length_pos_iff.2 hne
  have h3 := C136_to_homogeneous hp h1 (by nlinarith) (by linarith) (by rwa [← mul_assoc]) i j
  intro A M E
  have e (i j) : M i j = ((l.map Prod.snd).foldl DQuat.mul DQuat.one).to_homogeneous i j := by
    change (l.map fun x => x.2.to_homogeneous.toM).prod i j = _
    rw [show (l.map fun x => x.2.to_homogeneous.toM) = l.map ((fun y => y.to_homogeneous.toM) ∘ Prod.snd) from rfl, ← h2]
    rfl
  rw [e, e]
  exact h3

/-! ## Building -/

/-- `normalize` of a quaternion near a unit quaternion. -/
theorem Quat.normalize_near [Libm f] (hp : 8 ≤ f.p) {q : Quat (Flt f)} {r : Quat ℝ} {e : ℝ} (he : e ≤ 1 / 50)
    (hr : normSq r.toH = 1) (hq : ∀ i, (q.comp i).IsFin ∧ |(q.comp i).toReal - r.comp i| ≤ e) :
    ∃ w, q.normalize = some w ∧ w.normalized = true ∧
      ∀ i, (w.comp i).IsFin ∧ |(w.comp i).toReal - r.comp i| ≤ 3 * e + 12 * f.u := by
  have hu0 := f.u_pos
  have hu := Fmt.u_le_of_p hp
  have he0 : 0 ≤ e := (abs_nonneg _).trans (hq 0).2
  by_cases hf : q.normalized = true
  · refine ⟨q, ?_, hf, fun i => ⟨(hq i).1, (hq i).2.trans (by linarith)⟩⟩
    unfold Quat.normalize
    rw [if_pos hf]
  have hN := Quat.reH_sub_le q r fun i => (hq i).2
  have hr1 := Quat.unit_norm hr
  have n1 := abs_norm_sub_norm_le q.reH r.toH
  rw [hr1] at n1
  have n2 := _root_.abs_le.1 (n1.trans hN)
  obtain ⟨N, hNd⟩ : ∃ N, N = ‖q.reH‖ := ⟨_, rfl⟩
  rw [← hNd] at n2
  have hN2 : N ^ 2 = (q.comp 0).toReal ^ 2 + (q.comp 1).toReal ^ 2 + (q.comp 2).toReal ^ 2 + (q.comp 3).toReal ^ 2 := by
    rw [hNd, sq ‖q.reH‖, ← Quaternion.normSq_eq_norm_mul_self, Quaternion.normSq_def']
    rfl
  have hcN (i : Fin 4) : |(q.comp i).toReal| ≤ N := by rw [hNd]; exact q.comp_le_reH i
  have hN0 : 0 < N := by linarith
  have hN3 : N ^ 2 ≤ 10816 / 10000 := by nlinarith
  have c (i : Fin 4) : |(q.comp i).toReal| ≤ 104 / 100 := (hcN i).trans (by linarith)
  have nq (i : Fin 4) := Near.of_fin (hq i).1
  have hsq (i : Fin 4) : Near (q.comp i * q.comp i) ((q.comp i).toReal * (q.comp i).toReal) (109 / 100 * f.u) :=
    Near.mul hp (nq i) (nq i) (A := 104 / 100) (C := 104 / 100) (D := 104 / 100) (B := 10816 / 10000) (by linarith [c i]) (c i)
      (by linarith [c i]) (by norm_num) (by norm_num) (by linarith)
  have s0 := mul_self_nonneg (q.comp 0).toReal
  have s1 := mul_self_nonneg (q.comp 1).toReal
  have s2 := mul_self_nonneg (q.comp 2).toReal
  have s3 := mul_self_nonneg (q.comp 3).toReal
  have a1 := Near.add hp (hsq 1) (hsq 2) (B := 11 / 10) (e := 33 / 10 * f.u)
    (by rw [abs_of_nonneg (by linarith)]; linarith) (by norm_num) (by linarith)
  have a2 := Near.add hp a1 (hsq 3) (B := 112 / 100) (e := 56 / 10 * f.u)
    (by rw [abs_of_nonneg (by linarith)]; linarith) (by norm_num) (by linarith)
  have a3 := Near.add hp (hsq 0) a2 (B := 112 / 100) (e := 79 / 10 * f.u)
    (by rw [abs_of_nonneg (by linarith)]; linarith) (by norm_num) (by linarith)
  have a4 : Near (q.dot q) (N ^ 2) (79 / 10 * f.u) := a3.congr (by rw [hN2]; ring)
  have a5 : Near (Flt.sqrt (q.dot q)) (√(N ^ 2)) (94 / 10 * f.u) :=
    Near.sqrt a4 (c := N) (B := 106 / 100) hN0 le_rfl (by nlinarith) (by norm_num) (by linarith) (by
      have : 79 / 10 * f.u / N ≤ 83 / 10 * f.u := by
        rw [div_le_iff₀ hN0]
        nlinarith
      linarith)
  rw [Real.sqrt_sq hN0.le] at a5
  have hd (i : Fin 4) : Near (q.comp i / Flt.sqrt (q.dot q)) ((q.comp i).toReal / N) (11 * f.u + 3 / 10 * f.u) := by
    refine Near.div hp (nq i) a5 (c := 92 / 100) (Q := 1) (B := 1045 / 1000) (by norm_num) ?_ ?_ ?_ (by norm_num) ?_
    · rw [abs_of_pos hN0]
      linarith
    · rw [abs_div, abs_of_pos hN0, div_le_one hN0]
      exact hcN i
    · linarith
    · linarith
  have hz : nearly_zero q.norm2 = false := by
    rw [← Bool.not_eq_true, nearly_zero_flt]
    rintro ⟨-, h⟩
    have h1 := a5.le_abs
    rw [abs_of_pos hN0] at h1
    have h2 : (2 : ℝ) ^ (1 - (f.p : ℤ)) = 2 * f.u := by
      rw [sub_eq_add_neg, zpow_add₀ (by norm_num), zpow_one]
      rfl
    rw [h2] at h
    change |(Flt.sqrt (q.dot q)).toReal| < _ at h
    linarith
  refine ⟨{ q.sdiv q.norm2 with normalized := true }, ?_, rfl, fun i => ?_⟩
  · unfold Quat.normalize
    rw [if_neg hf]
    dsimp only
    rw [hz]
    rfl
  · have e1 : (({ q.sdiv q.norm2 with normalized := true } : Quat (Flt f)).comp i) = q.comp i / Flt.sqrt (q.dot q) := by
      fin_cases i <;> rfl
    rw [e1]
    refine ⟨(hd i).fin, ?_⟩
    have h1 := (hd i).err
    have h2 : |(q.comp i).toReal / N - r.comp i| ≤ 3 * e := by
      have e2 : (q.comp i).toReal / N - r.comp i = ((q.comp i).toReal - r.comp i) + (q.comp i).toReal / N * (1 - N) := by
        field_simp
        ring
      have h3 : |(q.comp i).toReal / N| ≤ 1 := by
        rw [abs_div, abs_of_pos hN0, div_le_one hN0]
        exact hcN i
      have h4 : |1 - N| ≤ 2 * e := by
        rw [abs_sub_comm]
        exact _root_.abs_le.2 n2
      rw [e2]
      have h5 := abs_add_le ((q.comp i).toReal - r.comp i) ((q.comp i).toReal / N * (1 - N))
      rw [abs_mul] at h5
      have h6 := mul_le_mul h3 h4 (abs_nonneg _) (by norm_num)
      linarith [(hq i).2]
    have h7 := abs_sub_le (q.comp i / Flt.sqrt (q.dot q)).toReal ((q.comp i).toReal / N) (r.comp i)
    linarith

/-- The exact motion with rotation `r` and translation `t`. -/
theorem DQuat.exact_motion (r : Quat ℝ) (t : Vec 3 ℝ) (hr : normSq r.toH = 1) :
    ∃ y : DQuat ℝ, y.IsMotion ∧ y.q_real.toH = r.toH ∧ y.q_dual.toH = ((1 : ℝ) / (1 + 1)) • t.toH * r.toH ∧
      y.to_homogeneous = homogeneous_from_rotation r.to_rotation t := by
  let _ : RealParams := f64Params
  obtain ⟨x, h1, -, -, h2, h3, -, -, -, -, h4, -⟩ := C61_rot_trans_partial r hr t V3.zero
  refine ⟨x, h3, h2, ?_, h4⟩
  have hn := Quat.normalize_unit r hr
  have e : DQuat.new_from_rot_trans r t = .ok ⟨⟨r.q0, r.q, true⟩, ((Quat.new_imag t).smul (1 / (1 + 1))).mul ⟨r.q0, r.q, true⟩, true⟩ := by
    unfold DQuat.new_from_rot_trans
    rw [hn]
    rfl
  rw [e] at h1
  injection h1 with h1
  rw [← h1]
  change (((Quat.new_imag t).smul (1 / (1 + 1))).mul ⟨r.q0, r.q, true⟩).toH = _
  rw [Quat.toH_mul, Quat.toH_smul]
  rfl

private theorem norm_half (t : ℍ[ℝ]) {P : ℝ} (h : ‖t‖ ≤ 2 * P) : ‖((1 : ℝ) / (1 + 1)) • t‖ ≤ P := by
  rw [norm_smul, Real.norm_of_nonneg (by norm_num)]
  linarith

private theorem norm_of_sq {t : Vec 3 ℝ} {P : ℝ} (h : t 0 ^ 2 + t 1 ^ 2 + t 2 ^ 2 ≤ (2 * P) ^ 2) (hP : 1 / 8 ≤ P) : ‖t.toH‖ ≤ 2 * P := by
  refine abs_le_of_sq_le_sq' ?_ (by linarith) |>.2
  rw [sq ‖_‖, ← normSq_eq_norm_mul_self, normSq_def']
  change (0 : ℝ) ^ 2 + t 0 ^ 2 + t 1 ^ 2 + t 2 ^ 2 ≤ _
  linarith

private theorem DQuat.Close.mono {x : DQuat (Flt f)} {y : DQuat ℝ} {P ε ε' : ℝ} (h : x.Close y P ε) (hP : 0 ≤ P) (he : ε ≤ ε') :
    x.Close y P ε' :=
  ⟨h.fin, h.motion, h.size, h.real.trans he, h.dual.trans (mul_le_mul_of_nonneg_left he hP)⟩

/-- Half a component of the translation. -/
private theorem half_near {t : Flt f} {t' P e : ℝ} (hp : 8 ≤ f.p) (hP : 1 / 8 ≤ P) (he : e ≤ 1 / 2) (ht : t.IsFin) (h1 : |t'| ≤ 2 * P)
    (h2 : |t.toReal - t'| ≤ P * e) (hov : 16 * (2 + 2 * P) ^ 2 ≤ (2 : ℝ) ^ f.emax) :
    (t * ((1 : Flt f) / (1 + 1))).FinLe (2 + 2 * P) ∧
    |(t * ((1 : Flt f) / (1 + 1))).toReal - 1 / (1 + 1) * t'| ≤ P * (1 / 2 * e + 13 / 10 * f.u) := by
  have hu0 := f.u_pos
  have hu := Fmt.u_le_of_p hp
  have hη := Fmt.eta_small hp
  have hh := Near.half (f := f)
  have eh : ((1 : Flt f) / (1 + 1)).toReal = 1 / 2 := sub_eq_zero.1 (abs_eq_zero.1 (le_antisymm hh.err (abs_nonneg _)))
  have hPe : P * e ≤ P * (1 / 2) := mul_le_mul_of_nonneg_left he (by linarith)
  have h3 : |t.toReal| ≤ 5 / 2 * P := by
    have := abs_sub_abs_le_abs_sub t.toReal t'
    linarith
  have h4 : |t.toReal * ((1 : Flt f) / (1 + 1)).toReal| ≤ 5 / 4 * P := by
    rw [eh, abs_mul, abs_of_pos (by norm_num : (0 : ℝ) < 1 / 2)]
    linarith
  have hfin : (t * ((1 : Flt f) / (1 + 1))).IsFin := by
    refine mul_isFin ht hh.fin ?_
    rw [zpow_add₀ (by norm_num), zpow_one]
    nlinarith
  have h5 := mul_err hfin
  have h6 := mul_le_mul_of_nonneg_left h4 hu0.le
  have h7 := mul_le_mul_of_nonneg_right hP hu0.le
  have h8 := abs_sub_le (t * ((1 : Flt f) / (1 + 1))).toReal (t.toReal * ((1 : Flt f) / (1 + 1)).toReal) (1 / (1 + 1) * t')
  have h9 : |t.toReal * ((1 : Flt f) / (1 + 1)).toReal - 1 / (1 + 1) * t'| ≤ 1 / 2 * (P * e) := by
    rw [eh, show t.toReal * (1 / 2) - 1 / (1 + 1) * t' = 1 / 2 * (t.toReal - t') by ring, abs_mul,
      abs_of_pos (by norm_num : (0 : ℝ) < 1 / 2)]
    linarith
  have h10 : |(t * ((1 : Flt f) / (1 + 1))).toReal - 1 / (1 + 1) * t'| ≤ P * (1 / 2 * e + 13 / 10 * f.u) := by linarith
  refine ⟨⟨hfin, ?_⟩, h10⟩
  have := abs_sub_abs_le_abs_sub (t * ((1 : Flt f) / (1 + 1))).toReal (t.toReal * ((1 : Flt f) / (1 + 1)).toReal)
  nlinarith

private theorem dual_err {m S S' w r : ℍ[ℝ]} {P e d u η : ℝ} (hP : 1 / 8 ≤ P) (hu0 : 0 < u) (hu : u ≤ 1 / 256) (hη : η ≤ u / 256)
    (hη0 : 0 < η) (he : e ≤ 1 / 9) (hd0 : 0 ≤ d) (hd : d ≤ 1 / 10) (k4 : (1 + u) ^ 4 - 1 ≤ 404 / 100 * u)
    (nS' : ‖S'‖ ≤ P) (errS : ‖S - S'‖ ≤ P * (d + 26 / 10 * u)) (nS : ‖S‖ ≤ P * (1 + d + 26 / 10 * u)) (hw : ‖w‖ ≤ 1 + 2 * e)
    (hwr : ‖w - r‖ ≤ 2 * e) (hm : ‖m - S * w‖ ≤ 2 * (((1 + u) ^ 4 - 1) * (‖S‖ * ‖w‖) + (1 + u) ^ 4 * (η * 4))) :
    ‖m - S' * r‖ ≤ P * (2 * e + 2 * d + 15 * u) := by
  have p4 : 1 ≤ (1 + u) ^ 4 := one_le_pow₀ (by linarith)
  have e1 : m - S' * r = (m - S * w) + ((S - S') * w + S' * (w - r)) := by
    simp only [sub_mul, mul_sub]
    abel
  have hPu : 1 / 8 * u ≤ P * u := mul_le_mul_of_nonneg_right hP hu0.le
  have h1 : ‖S‖ * ‖w‖ ≤ P * (1112 / 1000) * (1223 / 1000) :=
    mul_le_mul (nS.trans (mul_le_mul_of_nonneg_left (by linarith) (by linarith))) (by linarith) (norm_nonneg _) (by linarith)
  have h2 := mul_le_mul k4 h1 (by positivity) (by positivity)
  have h3 : (1 + u) ^ 4 * (η * 4) ≤ 103 / 100 * (u / 256 * 4) := mul_le_mul (by linarith) (by linarith) (by positivity) (by norm_num)
  have h4 : ‖S - S'‖ * ‖w‖ ≤ P * (d + 26 / 10 * u) * (1223 / 1000) :=
    mul_le_mul errS (by linarith) (norm_nonneg _) ((norm_nonneg _).trans errS)
  have h5 : ‖S'‖ * ‖w - r‖ ≤ P * (2 * e) := mul_le_mul nS' hwr (norm_nonneg _) (by linarith)
  have h6 := norm_add_le (m - S * w) ((S - S') * w + S' * (w - r))
  have h7 := norm_add_le ((S - S') * w) (S' * (w - r))
  rw [norm_mul, norm_mul] at h7
  have h8 : 0 ≤ P * d := by positivity
  rw [e1]
  linarith

/-- The dual part. -/
theorem DQuat.build_close (hp : 8 ≤ f.p) {w : Quat (Flt f)} {r : Quat ℝ} {t : Vec 3 (Flt f)} {t' : Vec 3 ℝ} {P e d : ℝ} (hP : 1 / 8 ≤ P)
    (he : e ≤ 1 / 9) (hd : d ≤ 1 / 10) (hr : normSq r.toH = 1) (hw : ∀ i, (w.comp i).IsFin ∧ |(w.comp i).toReal - r.comp i| ≤ e)
    (ht' : ‖t'.toH‖ ≤ 2 * P) (ht : ∀ i, (t i).IsFin ∧ |(t i).toReal - t' i| ≤ P * d)
    (hov : 16 * (2 + 2 * P) ^ 2 ≤ (2 : ℝ) ^ f.emax) (b : Bool) :
    ∃ y : DQuat ℝ, (y.q_real.toH = r.toH ∧ y.q_dual.toH = ((1 : ℝ) / (1 + 1)) • t'.toH * r.toH) ∧
      y.to_homogeneous = homogeneous_from_rotation r.to_rotation t' ∧
      (⟨w, ((Quat.new_imag t).smul (1 / (1 + 1))).mul w, b⟩ : DQuat (Flt f)).Close y P (2 * e + 2 * d + 15 * f.u) := by
  have hu0 := f.u_pos
  have hu := Fmt.u_le_of_p hp
  have hη := Fmt.eta_small hp
  have hη0 := f.eta_pos
  have he0 : 0 ≤ e := (abs_nonneg _).trans (hw 0).2
  have hPd : 0 ≤ P * d := (abs_nonneg _).trans (ht 0).2
  have hd0 : 0 ≤ d := by
    by_contra hc
    nlinarith
  obtain ⟨k4, -, k6⟩ := Fmt.kappa456 hp
  obtain ⟨y, y1, y2, y3, y4⟩ := DQuat.exact_motion r t' hr
  refine ⟨y, ⟨y2, y3⟩, y4, ?_⟩
  have hr1 := Quat.unit_norm hr
  have hwr := Quat.reH_sub_le w r fun i => (hw i).2
  have hwn : ‖w.reH‖ ≤ 1 + 2 * e := by
    have := norm_le_norm_add_norm_sub' w.reH r.toH
    linarith
  obtain ⟨-, p1, p2, p3⟩ := Quat.part_le_norm t'.toH
  have q1 := half_near hp hP (hd.trans (by norm_num)) (ht 0).1 (p1.trans ht') (ht 0).2 hov
  have q2 := half_near hp hP (hd.trans (by norm_num)) (ht 1).1 (p2.trans ht') (ht 1).2 hov
  have q3 := half_near hp hP (hd.trans (by norm_num)) (ht 2).1 (p3.trans ht') (ht 2).2 hov
  obtain ⟨S, hS⟩ : ∃ S, S = (Quat.new_imag t).smul (1 / (1 + 1)) := ⟨_, rfl⟩
  obtain ⟨S', hS'⟩ : ∃ S', S' = ((1 : ℝ) / (1 + 1)) • t'.toH := ⟨_, rfl⟩
  have hh := Near.half (f := f)
  have z0 := Near.mul hp (Near.zero (f := f)) hh (A := 0) (C := 1) (D := 1) (B := 0) (e := f.u * (0 + 1 / 256)) (by simp) (by norm_num)
    (by norm_num) (by norm_num) (by norm_num) (by linarith)
  have z1 : |(0 * ((1 : Flt f) / (1 + 1))).toReal| ≤ f.u / 256 := by
    have := z0.err
    rw [zero_mul, sub_zero] at this
    linarith
  have nS' : ‖S'‖ ≤ P := by
    rw [hS']
    exact norm_half _ ht'
  have finS : ∀ i, (S.comp i).FinLe (2 + 2 * P) := by
    rw [hS]
    intro i
    fin_cases i
    · exact ⟨z0.fin, by change |(0 * ((1 : Flt f) / (1 + 1))).toReal| ≤ _; linarith⟩
    exacts [q1.1, q2.1, q3.1]
  have errS : ‖S.reH - S'‖ ≤ P * (d + 26 / 10 * f.u) := by
    have : ‖S.reH - S'‖ ≤ 2 * (P * (1 / 2 * d + 13 / 10 * f.u)) := by
      have hPu := mul_le_mul_of_nonneg_right hP hu0.le
      rw [hS, hS']
      refine Quat.norm_le_two ?_ q1.2 q2.2 q3.2
      change |(0 * ((1 : Flt f) / (1 + 1))).toReal - (1 : ℝ) / (1 + 1) * 0| ≤ _
      rw [mul_zero, sub_zero]
      linarith
    linarith
  have nS : ‖S.reH‖ ≤ P * (1 + d + 26 / 10 * f.u) := by
    have := norm_le_norm_add_norm_sub' S.reH S'
    linarith
  have hB : ∀ i, (w.comp i).FinLe (2 + 2 * P) := fun i => ⟨(hw i).1, (w.comp_le_reH i).trans (by linarith)⟩
  have hfin : ∀ i, ((S.mul w).comp i).IsFin := by
    refine (C105_no_overflow S w ⟨fun _ => 0⟩ (2 + 2 * P) (by linarith) finS hB fun i => ⟨?_, ?_⟩).1 ?_
    · exact isFin_zero
    · change |(0 : Flt f).toReal| ≤ _
      rw [toReal_zero, abs_zero]
      linarith
    · rw [zpow_add₀ (by norm_num), zpow_one]
      have : (1 + f.u) ^ 4 ≤ 2 := by linarith
      have := mul_le_mul_of_nonneg_right this (by positivity : 0 ≤ 8 * (2 + 2 * P) ^ 2)
      nlinarith [sq_nonneg (2 + 2 * P)]
  have hE := (C105_product S w hfin).2.1
  rw [← hS] 
  refine ⟨fun i => ⟨(hw i).1, hfin i⟩, y1, ?_, ?_, ?_⟩
  · rw [y3, ← hS', norm_mul, hr1, mul_one]
    exact nS'
  · rw [y2]
    change ‖w.reH - r.toH‖ ≤ _
    linarith
  · rw [y3, ← hS']
    exact dual_err hP hu0 hu hη hη0 he hd0 hd k4 nS' errS nS hwn hwr hE

/-- `new_from_rot_trans` of a float quaternion within `e` of a unit quaternion and a float translation of length at most `2 P`,
within `P d`: the result is close to the exact motion. -/
theorem C136_rot_trans [Libm f] (hp : 8 ≤ f.p) (q : Quat (Flt f)) (r : Quat ℝ) (t : Vec 3 (Flt f)) (t' : Vec 3 ℝ) {P e d : ℝ}
    (hP : 1 / 8 ≤ P) (he : e ≤ 1 / 50) (hd : d ≤ 1 / 10) (hr : normSq r.toH = 1)
    (hq : ∀ i, (q.comp i).IsFin ∧ |(q.comp i).toReal - r.comp i| ≤ e) (ht' : t' 0 ^ 2 + t' 1 ^ 2 + t' 2 ^ 2 ≤ (2 * P) ^ 2)
    (ht : ∀ i, (t i).IsFin ∧ |(t i).toReal - t' i| ≤ P * d) (hov : 16 * (2 + 2 * P) ^ 2 ≤ (2 : ℝ) ^ f.emax) :
    ∃ x y, DQuat.new_from_rot_trans q t = .ok x ∧ x.normalized = true ∧
      y.to_homogeneous = homogeneous_from_rotation r.to_rotation t' ∧ x.Close y P (6 * e + 2 * d + 39 * f.u) := by
  have hu := Fmt.u_le_of_p hp
  obtain ⟨w, w1, w2, w3⟩ := Quat.normalize_near hp he hr hq
  obtain ⟨y, -, y1, y2⟩ := DQuat.build_close hp hP (by linarith) hd hr w3 (norm_of_sq ht' hP) ht hov true
  refine ⟨⟨w, ((Quat.new_imag t).smul (1 / (1 + 1))).mul w, true⟩, y, ?_, rfl, y1, ?_⟩
  · unfold DQuat.new_from_rot_trans
    rw [w1]
    rfl
  · refine y2.mono (by linarith) (by linarith)

/-- `new_from_homogeneous` of a float matrix within `δ` of a rigid motion (translation: of length at most `2 P`, within `P δ`). -/
theorem C136_from_homogeneous [Libm f] (hp : 11 ≤ f.p) (H : Mat 4 (Flt f)) (G : Mat 4 ℝ) {P δ : ℝ} (hP : 1 / 8 ≤ P)
    (hδ : δ ≤ 1 / 1000) (hG : IsRigid G) (hG' : G 0 3 ^ 2 + G 1 3 ^ 2 + G 2 3 ^ 2 ≤ (2 * P) ^ 2)
    (hH : ∀ i j : Fin 3, (H i.castSucc j.castSucc).IsFin ∧ |(H i.castSucc j.castSucc).toReal - G i.castSucc j.castSucc| ≤ δ)
    (hT : ∀ i : Fin 3, (H i.castSucc 3).IsFin ∧ |(H i.castSucc 3).toReal - G i.castSucc 3| ≤ P * δ)
    (hov : 16 * (2 + 2 * P) ^ 2 ≤ (2 : ℝ) ^ f.emax) :
    ∃ x y, DQuat.new_from_homogeneous H = .ok x ∧ x.normalized = true ∧ y.to_homogeneous = G ∧
      x.Close y P (38 * δ + 189 * f.u) := by
  have hp8 : 8 ≤ f.p := by omega
  have hu0 := f.u_pos
  have hu : f.u ≤ 1 / 2048 := by
    unfold Fmt.u
    calc (2 : ℝ) ^ (-(f.p : ℤ)) ≤ 2 ^ (-11 : ℤ) := zpow_le_zpow_right₀ (by norm_num) (by omega)
      _ = _ := by norm_num
  obtain ⟨hR, e⟩ := hG.parts
  obtain ⟨r, r1, r2, r3⟩ := C126_from_rotation hp8 (get_parts_raw H).1 (get_parts_raw G).1 δ (by linarith) hR (by
    intro i j
    have := hH i j
    fin_cases i <;> fin_cases j <;> exact this)
  obtain ⟨w, w1, w2, w3⟩ := Quat.normalize_near hp8 (by linarith) r1 r3
  obtain ⟨y, -, y1, y2⟩ := DQuat.build_close hp8 (t := (get_parts_raw H).2) (t' := (get_parts_raw G).2) (d := δ) hP (by linarith) (by linarith) r1 w3
    (norm_of_sq hG' hP) (by
    intro i
    have := hT i
    fin_cases i <;> exact this) hov true
  refine ⟨⟨w, ((Quat.new_imag (get_parts_raw H).2).smul (1 / (1 + 1))).mul w, true⟩, y, ?_, rfl, by rw [y1, r2, ← e], y2.mono (by linarith) (by linarith)⟩
  unfold DQuat.new_from_homogeneous
  dsimp only
  rw [w1]
  change DQuat.new_from_rot_trans w (get_parts_raw H).2 = _
  unfold DQuat.new_from_rot_trans Quat.normalize
  rw [if_pos w2]
  rfl

/-- From a matrix to a dual quaternion and back. -/
theorem C136_round_trip [Libm f] (hp : 11 ≤ f.p) (H : Mat 4 (Flt f)) (G : Mat 4 ℝ) {P δ : ℝ} (hP : 1 / 8 ≤ P)
    (hδ : δ ≤ 1 / 1000) (hG : IsRigid G) (hG' : G 0 3 ^ 2 + G 1 3 ^ 2 + G 2 3 ^ 2 ≤ (2 * P) ^ 2)
    (hH : ∀ i j : Fin 3, (H i.castSucc j.castSucc).IsFin ∧ |(H i.castSucc j.castSucc).toReal - G i.castSucc j.castSucc| ≤ δ)
    (hT : ∀ i : Fin 3, (H i.castSucc 3).IsFin ∧ |(H i.castSucc 3).toReal - G i.castSucc 3| ≤ P * δ)
    (hov : 16 * (2 + 2 * P) ^ 2 ≤ (2 : ℝ) ^ f.emax) :
    ∃ x, DQuat.new_from_homogeneous H = .ok x ∧ ∀ i j : Fin 3,
      ((x.to_homogeneous i.castSucc j.castSucc).IsFin ∧
        |(x.to_homogeneous i.castSucc j.castSucc).toReal - G i.castSucc j.castSucc| ≤ 190 * δ + 962 * f.u) ∧
      ((x.to_homogeneous i.castSucc 3).IsFin ∧
        |(x.to_homogeneous i.castSucc 3).toReal - G i.castSucc 3| ≤ P * (190 * δ + 962 * f.u)) ∧
      x.to_homogeneous 3 j.castSucc = 0 ∧ x.to_homogeneous 3 3 = 1 := by
  have hu : f.u ≤ 1 / 2048 := by
    unfold Fmt.u
    calc (2 : ℝ) ^ (-(f.p : ℤ)) ≤ 2 ^ (-11 : ℤ) := zpow_le_zpow_right₀ (by norm_num) (by omega)
      _ = _ := by norm_num
  obtain ⟨x, y, h1, -, h2, h3⟩ := C136_from_homogeneous hp H G hP hδ hG hG' hH hT hov
  refine ⟨x, h1, fun i j => ?_⟩
  have h4 := C136_to_homogeneous (by omega) h3 hP (by linarith) hov i j
  rw [h2, show 5 * (38 * δ + 189 * f.u) + 17 * f.u = 190 * δ + 962 * f.u by ring] at h4
  exact h4

/-- Matrices in, matrix out: convert every matrix of a chain to a dual quaternion, multiply, convert back. -/
theorem C136_matrix_chain [Libm f] (hp : 11 ≤ f.p) (l : List (Mat 4 (Flt f) × Mat 4 ℝ)) (hne : l ≠ []) {P δ : ℝ} (hP : 1 / 8 ≤ P)
    (hδ0 : 0 ≤ δ) (hδ : δ ≤ 1 / 1000)
    (hl : ∀ z ∈ l, IsRigid z.2 ∧ z.2 0 3 ^ 2 + z.2 1 3 ^ 2 + z.2 2 3 ^ 2 ≤ (2 * P) ^ 2 ∧
      (∀ i j : Fin 3, (z.1 i.castSucc j.castSucc).IsFin ∧ |(z.1 i.castSucc j.castSucc).toReal - z.2 i.castSucc j.castSucc| ≤ δ) ∧
      ∀ i : Fin 3, (z.1 i.castSucc 3).IsFin ∧ |(z.1 i.castSucc 3).toReal - z.2 i.castSucc 3| ≤ P * δ)
    (hn : ((1 + (38 * δ + 189 * f.u)) * (1 + 11 * f.u)) ^ l.length ≤ 122 / 100)
    (hov : 16 * (2 + 2 * l.length * P) ^ 2 ≤ (2 : ℝ) ^ f.emax) :
    ∃ xs, l.mapM (fun z => DQuat.new_from_homogeneous z.1) = .ok xs ∧ ∀ i j : Fin 3,
      let A := (xs.foldl DQuat.mul DQuat.one).to_homogeneous
      let M := (l.map fun z => z.2.toM).prod
      let E := 5 * (((1 + (38 * δ + 189 * f.u)) * (1 + 11 * f.u)) ^ l.length - 1) + 17 * f.u
      ((A i.castSucc j.castSucc).IsFin ∧ |(A i.castSucc j.castSucc).toReal - M i.castSucc j.castSucc| ≤ E) ∧
      ((A i.castSucc 3).IsFin ∧ |(A i.castSucc 3).toReal - M i.castSucc 3| ≤ l.length * P * E) ∧
      A 3 j.castSucc = 0 ∧ A 3 3 = 1 := by
  have hu0 := f.u_pos
  have hlen : (1 : ℝ) ≤ l.length := by exact_mod_cast List.length_pos_iff.2 hne
  have hov1 : 16 * (2 + 2 * P) ^ 2 ≤ (2 : ℝ) ^ f.emax := by
    refine le_trans ?_ hov
    have : 2 * P ≤ 2 * l.length * P := by nlinarith
    gcongr
  have key : ∀ l : List (Mat 4 (Flt f) × Mat 4 ℝ),
      (∀ z ∈ l, ∃ x y, DQuat.new_from_homogeneous z.1 = .ok x ∧ y.to_homogeneous = z.2 ∧ x.Close y P (38 * δ + 189 * f.u)) →
      ∃ k : List (DQuat (Flt f) × DQuat ℝ), l.mapM (fun z => DQuat.new_from_homogeneous z.1) = .ok (k.map Prod.fst) ∧
        k.length = l.length ∧ (k.map fun x => x.2.to_homogeneous.toM) = l.map (fun z => z.2.toM) ∧
        ∀ x ∈ k, x.1.Close x.2 P (38 * δ + 189 * f.u) := by
    intro l
    induction l with
    | nil => exact fun _ => ⟨[], rfl, rfl, rfl, by simp⟩
    | cons z l ih =>
      intro h
      obtain ⟨k, k1, k2, k3, k4⟩ := ih fun y hy => h y (by simp [hy])
      obtain ⟨x, y, x1, x2, x3⟩ := h z (by simp)
      refine ⟨(x, y) :: k, ?_, by simp [k2], by simp [k3, x2], ?_⟩
      · rw [List.mapM_cons, x1, k1]
        rfl
      · intro a ha
        rcases List.mem_cons.1 ha with rfl | ha
        · exact x3
        · exact k4 a ha
  obtain ⟨k, k1, k2, k3, k4⟩ := key l fun z hz => by
    obtain ⟨h1, h2, h3, h4⟩ := hl z hz
    obtain ⟨x, y, x1, -, x2, x3⟩ := C136_from_homogeneous hp z.1 z.2 hP hδ h1 h2 h3 h4 hov1
    exact ⟨x, y, x1, x2, x3⟩
  refine ⟨_, k1, fun i j => ?_⟩
  have hk : k ≠ [] := by
    rintro rfl
    exact hne (List.length_eq_zero_iff.1 k2.symm)
  have h := C136_chain_matrix (by omega) k hk (by positivity) hP k4 (by rwa [k2]) (by rwa [k2]) i j
  rw [k2, k3] at h
  exact h

/-! ## Concrete cases -/

private def qT {T : Type} [Zero T] [One T] [Neg T] : Mat 4 T := ⟨![![0, -1, 0, 1], ![1, 0, 0, 0], ![0, 0, 1, 1], ![0, 0, 0, 1]]⟩

/-- Quarter turn about the third axis and translation by `(1, 0, 1)`, exactly represented in `f64`, twice: the hypotheses of
`C136_matrix_chain` (and so of the theorems before it) are met with `P = 1` and `δ = 0`. -/
example [Libm Fmt.f64] : ∃ xs, [(qT : Mat 4 (Flt Fmt.f64)), qT].mapM DQuat.new_from_homogeneous = .ok xs ∧
    |((xs.foldl DQuat.mul DQuat.one).to_homogeneous 0 3).toReal - 1| ≤ 1 / 10 ^ 10 := by
  have hp : 11 ≤ Fmt.f64.p := by decide
  have hu : Fmt.f64.u = 1 / 2 ^ 53 := by
    change (2 : ℝ) ^ (-53 : ℤ) = _
    norm_num
  have z : ((0 : Flt Fmt.f64)).IsFin ∧ |(0 : Flt Fmt.f64).toReal - 0| ≤ 0 := ⟨trivial, by rw [toReal_zero, sub_self, abs_zero]⟩
  have o : ((1 : Flt Fmt.f64)).IsFin ∧ |(1 : Flt Fmt.f64).toReal - 1| ≤ 0 := ⟨trivial, by rw [toReal_one, sub_self, abs_zero]⟩
  have m : ((-1 : Flt Fmt.f64)).IsFin ∧ |(-1 : Flt Fmt.f64).toReal - -1| ≤ 0 :=
    ⟨trivial, by rw [toReal_neg, toReal_one, sub_self, abs_zero]⟩
  have hR : IsRigid (qT : Mat 4 ℝ) := by
    refine ⟨?_, fun j => by fin_cases j <;> rfl⟩
    unfold IsRot
    rw [Matrix.mem_specialOrthogonalGroup_iff, Matrix.mem_orthogonalGroup_iff]
    constructor
    · ext i j
      fin_cases i <;> fin_cases j <;> simp [Mat.toM, Matrix.mul_apply, Fin.sum_univ_three, Mat.block3, qT]
    · simp [Mat.toM, Matrix.det_fin_three, Mat.block3, qT]
  have hov : (16 : ℝ) * (2 + 2 * (2 : ℕ) * 1) ^ 2 ≤ (2 : ℝ) ^ Fmt.f64.emax := by
    calc (16 : ℝ) * (2 + 2 * (2 : ℕ) * 1) ^ 2 ≤ (2 : ℝ) ^ (10 : ℤ) := by norm_num
      _ ≤ _ := zpow_le_zpow_right₀ (by norm_num) (by decide)
  obtain ⟨xs, h1, h2⟩ := C136_matrix_chain hp [((qT : Mat 4 (Flt Fmt.f64)), (qT : Mat 4 ℝ)), (qT, qT)] (by simp) (P := 1) (δ := 0)
    (by norm_num) le_rfl (by norm_num) (by
      intro w hw
      obtain rfl : w = (qT, qT) := by simpa using hw
      refine ⟨hR, ?_, ?_, ?_⟩
      · change (1 : ℝ) ^ 2 + 0 ^ 2 + 1 ^ 2 ≤ _
        norm_num
      · intro i j
        fin_cases i <;> fin_cases j
        exacts [z, m, z, o, z, z, z, z, o]
      · intro i
        rw [mul_zero]
        fin_cases i
        exacts [o, z, o])
    (by rw [hu]; norm_num) hov
  refine ⟨xs, ?_, ?_⟩
  · exact h1
  · have h3 := (h2 0 0).2.1.2
    have e : ([((qT : Mat 4 (Flt Fmt.f64)), (qT : Mat 4 ℝ)), (qT, qT)].map fun z => z.2.toM).prod 0 3 = 1 := by
      simp [Mat.toM, Matrix.mul_apply, Fin.sum_univ_four, qT]
    change |((xs.foldl DQuat.mul DQuat.one).to_homogeneous 0 3).toReal - _| ≤ _ at h3
    rw [show (Fin.castSucc (0 : Fin 3)) = (0 : Fin 4) from rfl, e] at h3
    refine h3.trans ?_
    rw [hu]
    norm_num

/-- A third of a turn and the translation `(1, 0, 1)` in `f32`: the hypotheses of `C136_rot_trans`. -/
example [Libm Fmt.f32] : ∃ x, DQuat.new_from_rot_trans (Quat.new_from (1 / (1 + 1)) (1 / (1 + 1)) (1 / (1 + 1)) (1 / (1 + 1)))
    (⟨![1, 0, 1]⟩ : Vec 3 (Flt Fmt.f32)) = .ok x ∧ x.normalized = true := by
  have hh := Near.half (f := Fmt.f32)
  have z : ((0 : Flt Fmt.f32)).IsFin ∧ |(0 : Flt Fmt.f32).toReal - 0| ≤ 1 * 0 := ⟨trivial, by rw [toReal_zero, sub_self, abs_zero, mul_zero]⟩
  have o : ((1 : Flt Fmt.f32)).IsFin ∧ |(1 : Flt Fmt.f32).toReal - 1| ≤ 1 * 0 := ⟨trivial, by rw [toReal_one, sub_self, abs_zero, mul_zero]⟩
  have hr : normSq (Quat.new_from (1 / 2) (1 / 2) (1 / 2) (1 / 2) : Quat ℝ).toH = 1 := by
    rw [Quat.unit_iff]
    change (1 / 2 : ℝ) ^ 2 + (1 / 2) ^ 2 + (1 / 2) ^ 2 + (1 / 2) ^ 2 = 1
    norm_num
  have hov : (16 : ℝ) * (2 + 2 * 1) ^ 2 ≤ (2 : ℝ) ^ Fmt.f32.emax := by
    calc (16 : ℝ) * (2 + 2 * 1) ^ 2 ≤ (2 : ℝ) ^ (10 : ℤ) := by norm_num
      _ ≤ _ := zpow_le_zpow_right₀ (by norm_num) (by decide)
  obtain ⟨x, y, h1, h2, -⟩ := C136_rot_trans (f := Fmt.f32) (by decide)
    (Quat.new_from (1 / (1 + 1)) (1 / (1 + 1)) (1 / (1 + 1)) (1 / (1 + 1))) (Quat.new_from (1 / 2) (1 / 2) (1 / 2) (1 / 2))
    ⟨![1, 0, 1]⟩ ⟨![1, 0, 1]⟩ (P := 1) (e := 0) (d := 0) (by norm_num) (by norm_num) (by norm_num) hr
    (fun i => by fin_cases i <;> exact ⟨hh.fin, hh.err⟩) (by change (1 : ℝ) ^ 2 + 0 ^ 2 + 1 ^ 2 ≤ _; norm_num)
    (fun i => by
      fin_cases i
      exacts [o, z, o]) hov
  exact ⟨x, h1, h2⟩

end StaticMath
