import Verif.Props.IeeeChain
import Verif.Props.IeeeRigid
import Verif.Props.IeeeFromRot
import Verif.Props.DualAlgebra

/-!
# C136: dual quaternions as rigid motions in floating point
-/

namespace StaticMath
open Flt Quaternion

variable {f : Fmt}

private theorem sqn (Z : ℍ[ℝ]) : ‖Z‖ ^ 2 = Z.re ^ 2 + Z.imI ^ 2 + Z.imJ ^ 2 + Z.imK ^ 2 := by
  rw [sq ‖Z‖, ← Quaternion.normSq_eq_norm_mul_self, Quaternion.normSq_def']

theorem Quat.part_le_norm (Z : ℍ[ℝ]) : |Z.re| ≤ ‖Z‖ ∧ |Z.imI| ≤ ‖Z‖ ∧ |Z.imJ| ≤ ‖Z‖ ∧ |Z.imK| ≤ ‖Z‖ := by
  have := sqn Z
  have s0 := sq_nonneg Z.re
  have s1 := sq_nonneg Z.imI
  have s2 := sq_nonneg Z.imJ
  have s3 := sq_nonneg Z.imK
  have h0 := norm_nonneg Z
  exact ⟨abs_le_of_sq_le_sq (by linarith) h0, abs_le_of_sq_le_sq (by linarith) h0,
    abs_le_of_sq_le_sq (by linarith) h0, abs_le_of_sq_le_sq (by linarith) h0⟩

theorem Quat.norm_le_two {Z : ℍ[ℝ]} {e : ℝ} (h0 : |Z.re| ≤ e) (h1 : |Z.imI| ≤ e) (h2 : |Z.imJ| ≤ e) (h3 : |Z.imK| ≤ e) :
    ‖Z‖ ≤ 2 * e := by
  have he : 0 ≤ e := (abs_nonneg _).trans h0
  refine abs_le_of_sq_le_sq' ?_ (by linarith) |>.2
  rw [sqn]
  have := sq_le_sq' (_root_.abs_le.1 h0).1 (_root_.abs_le.1 h0).2
  have := sq_le_sq' (_root_.abs_le.1 h1).1 (_root_.abs_le.1 h1).2
  have := sq_le_sq' (_root_.abs_le.1 h2).1 (_root_.abs_le.1 h2).2
  have := sq_le_sq' (_root_.abs_le.1 h3).1 (_root_.abs_le.1 h3).2
  linarith

theorem Quat.comp_le_reH (q : Quat (Flt f)) (i : Fin 4) : |(q.comp i).toReal| ≤ ‖q.reH‖ := by
  obtain ⟨h0, h1, h2, h3⟩ := Quat.part_le_norm q.reH
  fin_cases i
  exacts [h0, h1, h2, h3]

theorem Quat.comp_sub_le (q : Quat (Flt f)) (r : Quat ℝ) (i : Fin 4) : |(q.comp i).toReal - r.comp i| ≤ ‖q.reH - r.toH‖ := by
  obtain ⟨h0, h1, h2, h3⟩ := Quat.part_le_norm (q.reH - r.toH)
  fin_cases i
  exacts [h0, h1, h2, h3]

theorem Quat.reH_sub_le (q : Quat (Flt f)) (r : Quat ℝ) {e : ℝ} (h : ∀ i, |(q.comp i).toReal - r.comp i| ≤ e) :
    ‖q.reH - r.toH‖ ≤ 2 * e :=
  Quat.norm_le_two (h 0) (h 1) (h 2) (h 3)

theorem Quat.unit_norm {q : Quat ℝ} (h : normSq q.toH = 1) : ‖q.toH‖ = 1 := by
  rw [normSq_eq_norm_mul_self] at h
  nlinarith [norm_nonneg q.toH]

theorem Fmt.eta_small (hp : 8 ≤ f.p) : f.eta ≤ f.u / 256 := by
  have h1 := f.eta_le_sq
  have h2 := mul_le_mul_of_nonneg_right (Fmt.u_le_of_p hp) f.u_pos.le
  linarith

theorem Fmt.kappa456 (hp : 8 ≤ f.p) : (1 + f.u) ^ 4 - 1 ≤ 404 / 100 * f.u ∧ (1 + f.u) ^ 5 - 1 ≤ 506 / 100 * f.u ∧
    (1 + f.u) ^ 6 ≤ 103 / 100 := by
  have hu0 := f.u_pos
  have hu := Fmt.u_le_of_p hp
  have h2 := mul_le_mul_of_nonneg_right hu hu0.le
  obtain ⟨u, rfl⟩ : ∃ u, u = f.u := ⟨_, rfl⟩
  have h3 : f.u ^ 2 ≤ f.u / 256 := by linarith
  have h4 : f.u ^ 3 ≤ f.u / 256 / 256 := by nlinarith
  have h5 : f.u ^ 4 ≤ f.u / 256 / 256 := by nlinarith [pow_pos hu0 3]
  have h6 : f.u ^ 5 ≤ f.u / 256 / 256 := by nlinarith [pow_pos hu0 4]
  have h7 : f.u ^ 6 ≤ f.u / 256 / 256 := by nlinarith [pow_pos hu0 5]
  refine ⟨?_, ?_, ?_⟩
  · linarith
  · linarith
  · linarith

/-- A float dual quaternion `x` is close to the motion `y`: real part within `ε`, dual part within `P ε`, where `P` bounds
the dual part of `y` (half the length of the translation). -/
structure DQuat.Close (x : DQuat (Flt f)) (y : DQuat ℝ) (P ε : ℝ) : Prop where
  fin : ∀ i, (x.real.comp i).IsFin ∧ (x.dual.comp i).IsFin
  motion : y.IsMotion
  size : ‖y.q_dual.toH‖ ≤ P
  real : ‖x.real.reH - y.q_real.toH‖ ≤ ε
  dual : ‖x.dual.reH - y.q_dual.toH‖ ≤ P * ε

theorem DQuat.Close.norms {x : DQuat (Flt f)} {y : DQuat ℝ} {P ε : ℝ} (h : x.Close y P ε) :
    ‖x.real.reH‖ ≤ 1 + ε ∧ ‖x.dual.reH‖ ≤ P * (1 + ε) ∧ 0 ≤ ε ∧ 0 ≤ P := by
  have h1 := norm_le_norm_add_norm_sub' x.real.reH y.q_real.toH
  have h2 := norm_le_norm_add_norm_sub' x.dual.reH y.q_dual.toH
  rw [Quat.unit_norm h.motion.norm] at h1
  have h3 := h.real
  have h4 := h.dual
  have h5 := h.size
  refine ⟨by linarith, by linarith, (norm_nonneg _).trans h3, (norm_nonneg _).trans h5⟩

/-- Nothing overflows. -/
theorem DQuat.no_overflow (hp : 8 ≤ f.p) {x y : DQuat (Flt f)} {B : ℝ} (hB : 1 ≤ B) (hov : 16 * B ^ 2 ≤ (2 : ℝ) ^ f.emax)
    (hx : ∀ i, (x.real.comp i).FinLe B ∧ (x.dual.comp i).FinLe B) (hy : ∀ i, (y.real.comp i).FinLe B ∧ (y.dual.comp i).FinLe B) :
    (∀ i, ((x.mul y).real.comp i).IsFin ∧ ((x.mul y).dual.comp i).IsFin) ∧
    (∀ i, (((x.dual.smul (1 + 1)).mul x.real.conj).comp i).IsFin) ∧ (∀ i, (x.get_translation i).IsFin) := by
  have hz : (0 : Flt f).FinLe B := ⟨isFin_zero, by rw [toReal_zero, abs_zero]; linarith⟩
  have hov' : (1 + f.u) ^ 6 * (16 * B ^ 2) < (2 : ℝ) ^ (f.emax + 1) := by
    rw [zpow_add₀ (by norm_num), zpow_one]
    have h6 := (Fmt.kappa456 hp).2.2
    have hB2 : 1 ≤ B ^ 2 := one_le_pow₀ hB
    have := mul_le_mul_of_nonneg_right h6 (by positivity : 0 ≤ 16 * B ^ 2)
    linarith
  obtain ⟨h1, h2, h3, -⟩ := C120_no_overflow B hB hov' x y ⟨fun _ _ => 0⟩ ⟨fun _ => 0⟩ ⟨fun _ => 0⟩ 0 hx hy (fun _ _ => hz)
    (fun _ => hz) (fun _ => hz) hz
  exact ⟨h1, h2, h3⟩

private theorem split1 (m x y a b : ℍ[ℝ]) : m - y * b = (m - x * a) + ((x - y) * a + y * (a - b)) := by
  noncomm_ring

private theorem split2 (m x y a b x' y' a' b' : ℍ[ℝ]) : m - (y * b' + y' * b) = (m - (x * a' + x' * a)) +
    (((x - y) * a' + y * (a' - b')) + ((x' - y') * a + y' * (a - b))) := by
  simp only [sub_mul, mul_sub]
  abel

private theorem fin1 {m x y a b : ℍ[ℝ]} {G δ c : ℝ} (hy : ‖y‖ = 1) (hm : ‖m - x * a‖ ≤ c * (G * (1 + δ))) (hx : ‖x - y‖ ≤ G - 1)
    (ha : ‖a‖ ≤ 1 + δ) (hb : ‖a - b‖ ≤ δ) : ‖m - y * b‖ ≤ G * ((1 + δ) * (1 + c)) - 1 := by
  rw [split1 _ x _ a]
  have h1 : ‖(x - y) * a + y * (a - b)‖ ≤ (G - 1) * (1 + δ) + δ := by
    refine (norm_add_le _ _).trans ?_
    rw [norm_mul, norm_mul, hy, one_mul]
    exact add_le_add (mul_le_mul hx ha (norm_nonneg _) ((norm_nonneg _).trans hx)) hb
  refine (norm_add_le _ _).trans ((add_le_add hm h1).trans (le_of_eq ?_))
  ring

private theorem fin2 {m x y a b x' y' a' b' : ℍ[ℝ]} {G δ c k P : ℝ} (hy : ‖y‖ = 1)
    (hm : ‖m - (x * a' + x' * a)‖ ≤ c * ((k + 1) * P * (G * (1 + δ)))) (hx : ‖x - y‖ ≤ G - 1) (ha : ‖a‖ ≤ 1 + δ)
    (hb : ‖a - b‖ ≤ δ) (hx' : ‖x' - y'‖ ≤ k * P * (G - 1)) (hy' : ‖y'‖ ≤ k * P) (ha' : ‖a'‖ ≤ P * (1 + δ)) (hb' : ‖a' - b'‖ ≤ P * δ) :
    ‖m - (y * b' + y' * b)‖ ≤ (k + 1) * P * (G * ((1 + δ) * (1 + c)) - 1) := by
  rw [split2 _ x _ a _ x' _ a']
  have h1 : ‖(x - y) * a' + y * (a' - b')‖ ≤ (G - 1) * (P * (1 + δ)) + P * δ := by
    refine (norm_add_le _ _).trans ?_
    rw [norm_mul, norm_mul, hy, one_mul]
    exact add_le_add (mul_le_mul hx ha' (norm_nonneg _) ((norm_nonneg _).trans hx)) hb'
  have h2 : ‖(x' - y') * a + y' * (a - b)‖ ≤ k * P * (G - 1) * (1 + δ) + k * P * δ := by
    refine (norm_add_le _ _).trans ?_
    rw [norm_mul, norm_mul]
    exact add_le_add (mul_le_mul hx' ha (norm_nonneg _) ((norm_nonneg _).trans hx'))
      (mul_le_mul hy' hb (norm_nonneg _) ((norm_nonneg _).trans hy'))
  refine (norm_add_le _ _).trans ((add_le_add hm ((norm_add_le _ _).trans (add_le_add h1 h2))).trans (le_of_eq ?_))
  ring

/-- One product. -/
theorem DQuat.Close.mul (hp : 8 ≤ f.p) {x a : DQuat (Flt f)} {y b : DQuat ℝ} {k P G δ : ℝ} (hk : 0 ≤ k) (hP : 1 / 8 ≤ P)
    (hx : x.Close y (k * P) (G - 1)) (ha : a.Close b P δ) (hG : G * ((1 + δ) * (1 + 11 * f.u)) ≤ 2)
    (hov : 16 * (2 + 2 * (k + 1) * P) ^ 2 ≤ (2 : ℝ) ^ f.emax) :
    (x.mul a).Close (y.mul b) ((k + 1) * P) (G * ((1 + δ) * (1 + 11 * f.u)) - 1) := by
  have hu0 := f.u_pos
  have hη := Fmt.eta_small hp
  have hη0 := f.eta_pos
  have hu := Fmt.u_le_of_p hp
  obtain ⟨k4, k5, -⟩ := Fmt.kappa456 hp
  obtain ⟨x1, x2, x3, x4⟩ := hx.norms
  obtain ⟨a1, a2, a3, a4⟩ := ha.norms
  rw [show 1 + (G - 1) = G by ring] at x1 x2
  have hG1 : 1 ≤ G := by linarith
  have hGδ1 : 1 ≤ G * (1 + δ) := by nlinarith
  have hGδ : G * (1 + δ) ≤ 2 := by nlinarith
  have hG2 : G ≤ 2 := by nlinarith
  have hδ2 : 1 + δ ≤ 2 := by nlinarith
  have hPk : 0 ≤ k * P := by positivity
  have hfin := (DQuat.no_overflow hp (x := x) (y := a) (B := 2 + 2 * (k + 1) * P) (by nlinarith) hov
    (fun i => ⟨⟨(hx.fin i).1, (Quat.comp_le_reH _ i).trans (by nlinarith)⟩, ⟨(hx.fin i).2, (Quat.comp_le_reH _ i).trans (by nlinarith)⟩⟩)
    (fun i => ⟨⟨(ha.fin i).1, (Quat.comp_le_reH _ i).trans (by nlinarith)⟩, ⟨(ha.fin i).2, (Quat.comp_le_reH _ i).trans (by nlinarith)⟩⟩)).1
  obtain ⟨e1, e2⟩ := C120_dual_product x a (fun i => (hfin i).1) fun i => (hfin i).2
  have hr : (y.mul b).q_real.toH = y.q_real.toH * b.q_real.toH := Quat.toH_mul _ _
  have hd : (y.mul b).q_dual.toH = y.q_real.toH * b.q_dual.toH + y.q_dual.toH * b.q_real.toH := by
    change ((y.q_real.mul b.q_dual).add (y.q_dual.mul b.q_real)).toH = _
    rw [Quat.toH_add, Quat.toH_mul, Quat.toH_mul]
  have y1 := Quat.unit_norm hx.motion.norm
  have b1 := Quat.unit_norm ha.motion.norm
  have n1 : ‖x.real.reH‖ * ‖a.real.reH‖ ≤ G * (1 + δ) := mul_le_mul x1 a1 (norm_nonneg _) (by linarith)
  have n2 : ‖x.real.reH‖ * ‖a.dual.reH‖ ≤ G * (P * (1 + δ)) := mul_le_mul x1 a2 (norm_nonneg _) (by linarith)
  have n3 : ‖x.dual.reH‖ * ‖a.real.reH‖ ≤ k * P * G * (1 + δ) := mul_le_mul x2 a1 (norm_nonneg _) (by positivity)
  have p4 : 1 ≤ (1 + f.u) ^ 4 := one_le_pow₀ (by linarith)
  have p5 : 1 ≤ (1 + f.u) ^ 5 := one_le_pow₀ (by linarith)
  have r1 : ‖(x.mul a).real.reH - x.real.reH * a.real.reH‖ ≤ 11 * f.u * (G * (1 + δ)) := by
    refine e1.trans ?_
    have c1 := mul_le_mul k4 n1 (by positivity) (by positivity)
    have c2 : (1 + f.u) ^ 4 * (f.eta * 4) ≤ 2 * (f.u / 256 * 4) :=
      mul_le_mul (by linarith) (by linarith) (by positivity) (by norm_num)
    have c3 := mul_le_mul_of_nonneg_left hGδ1 hu0.le
    linarith
  have r2 : ‖(x.mul a).dual.reH - (x.real.reH * a.dual.reH + x.dual.reH * a.real.reH)‖ ≤
      11 * f.u * ((k + 1) * P * (G * (1 + δ))) := by
    refine e2.trans ?_
    have c1 := mul_le_mul k5 (add_le_add n2 n3) (by positivity) (by positivity)
    have c2 : (1 + f.u) ^ 5 * (f.eta * 8) ≤ 103 / 100 * (f.u / 256 * 8) :=
      mul_le_mul (by linarith) (by linarith) (by positivity) (by norm_num)
    have c3 : 1 / 8 ≤ (k + 1) * P * (G * (1 + δ)) := by
      have : 1 / 8 ≤ (k + 1) * P := by linarith
      nlinarith
    have c4 := mul_le_mul_of_nonneg_left c3 hu0.le
    have c5 : G * (P * (1 + δ)) + k * P * G * (1 + δ) = (k + 1) * P * (G * (1 + δ)) := by ring
    rw [c5] at c1
    linarith
  refine ⟨hfin, hx.motion.mul ha.motion, ?_, ?_, ?_⟩
  · rw [hd]
    refine (norm_add_le _ _).trans ?_
    rw [norm_mul, norm_mul, y1, b1]
    linarith [hx.size, ha.size]
  · rw [hr]
    exact fin1 y1 r1 hx.real a1 ha.real
  · rw [hd]
    exact fin2 y1 r2 hx.real a1 ha.real hx.dual hx.size a2 ha.dual

theorem DQuat.close_one : (DQuat.one : DQuat (Flt f)).Close DQuat.one 0 0 := by
  have e1 : (Quat.one : Quat (Flt f)).reH = 1 := by
    ext
    exacts [toReal_one (f := f), toReal_zero (f := f), toReal_zero (f := f), toReal_zero (f := f)]
  have e0 : (Quat.zero : Quat (Flt f)).reH = 0 := by
    ext
    exacts [toReal_zero (f := f), toReal_zero (f := f), toReal_zero (f := f), toReal_zero (f := f)]
  have g1 : (Quat.one : Quat ℝ).toH = 1 := by ext <;> rfl
  have g0 : (Quat.zero : Quat ℝ).toH = 0 := by ext <;> rfl
  refine ⟨fun i => ⟨?_, ?_⟩, ⟨?_, ?_⟩, ?_, ?_, ?_⟩
  · fin_cases i
    exacts [isFin_one, isFin_zero, isFin_zero, isFin_zero]
  · fin_cases i
    exacts [isFin_zero, isFin_zero, isFin_zero, isFin_zero]
  · change normSq (Quat.one : Quat ℝ).toH = 1
    rw [g1, map_one]
  · change ((Quat.one : Quat ℝ).toH * star (Quat.zero : Quat ℝ).toH).re = 0
    rw [g0, star_zero, mul_zero]
    rfl
  · change ‖(Quat.zero : Quat ℝ).toH‖ ≤ 0
    rw [g0, norm_zero]
  · change ‖(Quat.one : Quat (Flt f)).reH - (Quat.one : Quat ℝ).toH‖ ≤ 0
    rw [e1, g1, sub_self, norm_zero]
  · change ‖(Quat.zero : Quat (Flt f)).reH - (Quat.zero : Quat ℝ).toH‖ ≤ 0 * 0
    rw [e0, g0, sub_self, norm_zero, mul_zero]

/-- The product of `n` float dual quaternions, each within `δ` of a rigid motion with a translation of length at most `2 P`,
is within `((1 + δ) (1 + 11 u)) ^ n - 1` of the product of these motions (dual part: times `n P`). -/
theorem C136_chain (hp : 8 ≤ f.p) (l : List (DQuat (Flt f) × DQuat ℝ)) {P δ : ℝ} (hδ : 0 ≤ δ) (hP : 1 / 8 ≤ P)
    (hl : ∀ x ∈ l, x.1.Close x.2 P δ) (hn : ((1 + δ) * (1 + 11 * f.u)) ^ l.length ≤ 2)
    (hov : 16 * (2 + 2 * l.length * P) ^ 2 ≤ (2 : ℝ) ^ f.emax) :
    ((l.map Prod.fst).foldl DQuat.mul DQuat.one).Close ((l.map Prod.snd).foldl DQuat.mul DQuat.one) (l.length * P)
      (((1 + δ) * (1 + 11 * f.u)) ^ l.length - 1) := by
  have hu0 := f.u_pos
  have hg : 1 ≤ (1 + δ) * (1 + 11 * f.u) := by nlinarith
  induction l using List.reverseRecOn with
  | nil => simpa using DQuat.close_one
  | append_singleton l x ih =>
    rw [List.length_append, List.length_singleton] at hov ⊢
    rw [List.length_append, List.length_singleton, pow_succ] at hn
    push_cast at hov ⊢
    have hgn : ((1 + δ) * (1 + 11 * f.u)) ^ l.length ≤ 2 := (le_mul_of_one_le_right (by positivity) hg).trans hn
    have h1 : (l.length : ℝ) * P ≤ (l.length + 1) * P := by linarith
    have h2 := ih (fun y hy => hl y (by simp [hy])) hgn (le_trans (by gcongr; linarith) hov)
    have h3 := DQuat.Close.mul hp (Nat.cast_nonneg _) hP h2 (hl x (by simp)) hn hov
    simp only [List.map_append, List.map_cons, List.map_nil, List.foldl_append, List.foldl_cons, List.foldl_nil]
    rw [pow_succ]
    exact h3

/-- The matrix of a float dual quaternion close to a motion. -/
theorem C136_to_homogeneous (hp : 8 ≤ f.p) {x : DQuat (Flt f)} {y : DQuat ℝ} {P ε : ℝ} (h : x.Close y P ε) (hP : 1 / 8 ≤ P)
    (hε : ε ≤ 22 / 100) (hov : 16 * (2 + 2 * P) ^ 2 ≤ (2 : ℝ) ^ f.emax) (i j : Fin 3) :
    ((x.to_homogeneous i.castSucc j.castSucc).IsFin ∧
      |(x.to_homogeneous i.castSucc j.castSucc).toReal - y.to_homogeneous i.castSucc j.castSucc| ≤ 5 * ε + 17 * f.u) ∧
    ((x.to_homogeneous i.castSucc 3).IsFin ∧
      |(x.to_homogeneous i.castSucc 3).toReal - y.to_homogeneous i.castSucc 3| ≤ P * (5 * ε + 17 * f.u)) ∧
    x.to_homogeneous 3 j.castSucc = 0 ∧ x.to_homogeneous 3 3 = 1 := by
  have hu0 := f.u_pos
  have hη := Fmt.eta_small hp
  have hη0 := f.eta_pos
  have hu := Fmt.u_le_of_p hp
  obtain ⟨k4, -, -⟩ := Fmt.kappa456 hp
  obtain ⟨x1, x2, x3, x4⟩ := h.norms
  have h1 := C126_to_rotation hp x.real y.q_real ε hε h.motion.norm
    (fun i => ⟨(h.fin i).1, (Quat.comp_sub_le _ _ i).trans h.real⟩) i j
  have hB : ∀ i, (x.real.comp i).FinLe (2 + 2 * P) ∧ (x.dual.comp i).FinLe (2 + 2 * P) :=
    fun i => ⟨⟨(h.fin i).1, (Quat.comp_le_reH _ i).trans (by nlinarith)⟩, ⟨(h.fin i).2, (Quat.comp_le_reH _ i).trans (by nlinarith)⟩⟩
  obtain ⟨-, f1, f2⟩ := DQuat.no_overflow hp (x := x) (y := x) (by linarith) hov hB hB
  have h2 := C120_get_translation x f1
  have h3 := DQuat.translation_toH y
  have y1 := Quat.unit_norm h.motion.norm
  -- the exact translation
  have h4 : ‖(2 : ℝ) • (x.dual.reH * star x.real.reH) - 2 * y.q_dual.toH * star y.q_real.toH‖ ≤ 2 * (P * ε * (122 / 100) + P * ε) := by
    have e : (2 : ℝ) • (x.dual.reH * star x.real.reH) - 2 * y.q_dual.toH * star y.q_real.toH =
        (2 : ℝ) • ((x.dual.reH - y.q_dual.toH) * star x.real.reH + y.q_dual.toH * star (x.real.reH - y.q_real.toH)) := by
      rw [star_sub, two_smul, two_smul]
      noncomm_ring
    rw [e, norm_smul, Real.norm_of_nonneg (by norm_num)]
    refine mul_le_mul_of_nonneg_left ((norm_add_le _ _).trans ?_) (by norm_num)
    rw [norm_mul, norm_mul, norm_star, norm_star]
    exact add_le_add (mul_le_mul h.dual (by linarith) (norm_nonneg _) (by positivity))
      (mul_le_mul h.size h.real (norm_nonneg _) x4)
  have hE : ((1 + f.u) ^ 4 - 1) * (2 * ‖x.dual.reH‖ * ‖x.real.reH‖) + (1 + f.u) ^ 4 * (f.eta * 4) ≤ 13 * (P * f.u) := by
    have p4 : 1 ≤ (1 + f.u) ^ 4 := one_le_pow₀ (by linarith)
    have n1 : ‖x.dual.reH‖ * ‖x.real.reH‖ ≤ P * (122 / 100) * (122 / 100) :=
      mul_le_mul (x2.trans (mul_le_mul_of_nonneg_left (by linarith) x4)) (by linarith) (norm_nonneg _) (by positivity)
    have c1 := mul_le_mul k4 n1 (by positivity) (by positivity)
    have c2 : (1 + f.u) ^ 4 * (f.eta * 4) ≤ 103 / 100 * (f.u / 256 * 4) :=
      mul_le_mul (by linarith) (by linarith) (by positivity) (by norm_num)
    have c3 := mul_le_mul_of_nonneg_right hP hu0.le
    linarith
  have hPε : 0 ≤ P * ε := by positivity
  have fin (t : Flt f) (a b r : ℝ) (ht : t.IsFin) (e1 : |t.toReal - a| ≤ 13 * (P * f.u)) (e2 : |a - b| ≤ 2 * (P * ε * (122 / 100) + P * ε))
      (e3 : b = r) : t.IsFin ∧ |t.toReal - r| ≤ P * (5 * ε + 17 * f.u) := by
    subst e3
    have := abs_sub_le t.toReal a b
    have : 0 ≤ P * f.u := by positivity
    exact ⟨ht, by linarith⟩
  obtain ⟨g0, g1, g2, g3⟩ := Quat.part_le_norm ((2 : ℝ) • (x.dual.reH * star x.real.reH) - 2 * y.q_dual.toH * star y.q_real.toH)
  refine ⟨?_, ?_, ?_, rfl⟩
  · fin_cases i <;> fin_cases j <;> exact h1
  · fin_cases i
    · exact fin _ _ _ _ (f2 0) (h2.1.trans hE) (g1.trans h4) (congrArg QuaternionAlgebra.imI h3).symm
    · exact fin _ _ _ _ (f2 1) (h2.2.1.trans hE) (g2.trans h4) (congrArg QuaternionAlgebra.imJ h3).symm
    · exact fin _ _ _ _ (f2 2) (h2.2.2.trans hE) (g3.trans h4) (congrArg QuaternionAlgebra.imK h3).symm
  · fin_cases j <;> rfl

end StaticMath
