import Verif.Props.DualScrew

/-!
# C121: building quaternions and dual quaternions; what the `normalized` flag and `is_normalized` say
-/

namespace StaticMath

open Quaternion

/-! ## C121 constructors -/

/-- The components every quaternion constructor stores, as a Hamilton quaternion. -/
theorem C121_quat_components {R : Type} [CommRing R] (a b c d : R) (v : Vec 3 R) (w : Vec 4 R) :
    (Quat.new a v).toH = ⟨a, v 0, v 1, v 2⟩ ∧ (Quat.new_from a b c d).toH = ⟨a, b, c, d⟩ ∧
    (Quat.new_real a).toH = (a : ℍ[R]) ∧ (Quat.new_imag v).toH = ⟨0, v 0, v 1, v 2⟩ ∧
    (Quat.new_from_vec w).toH = ⟨w 0, w 1, w 2, w 3⟩ ∧
    (Quat.new_from a b c d).real = a ∧ (Quat.new_from a b c d).imag 0 = b ∧
    (Quat.new_from a b c d).imag 1 = c ∧ (Quat.new_from a b c d).imag 2 = d :=
  ⟨rfl, rfl, rfl, rfl, rfl, rfl, rfl, rfl, rfl⟩

/-- The components every dual quaternion constructor and accessor stores or returns. -/
theorem C121_dual_components {R : Type} [CommRing R] (p q : Quat R) (v : Vec 3 R) (w z : Vec 4 R) :
    (DQuat.new p q).real = p ∧ (DQuat.new p q).dual = q ∧
    (DQuat.new_from_vecs w z).real.toH = ⟨w 0, w 1, w 2, w 3⟩ ∧ (DQuat.new_from_vecs w z).dual.toH = ⟨z 0, z 1, z 2, z 3⟩ ∧
    (DQuat.one : DQuat R).real.toH = 1 ∧ (DQuat.one : DQuat R).dual.toH = 0 ∧
    (DQuat.zero : DQuat R).real.toH = 0 ∧ (DQuat.zero : DQuat R).dual.toH = 0 ∧
    (DQuat.new_from_rotation p).real = p ∧ (DQuat.new_from_rotation p).dual.toH = 0 ∧
    (DQuat.new_from_point v).real.toH = 1 ∧ (DQuat.new_from_point v).dual.toH = ⟨0, v 0, v 1, v 2⟩ :=
  ⟨rfl, rfl, rfl, rfl, rfl, rfl, rfl, rfl, rfl, rfl, rfl, rfl⟩

/-- Constructors and arithmetic never flag their result as normalized, whatever the flags of their
operands and for every element type (floats included): a later `normalize` or `inverse` always looks at
the components. The exception is `one`. -/
theorem C121_quat_flags {T : Type} [Add T] [Sub T] [Mul T] [Div T] [Neg T] [Zero T] [One T]
    [RAbs T] [ROrd T] [RFloat T] (p q : Quat T) (a b c d : T) (v : Vec 3 T) (w : Vec 4 T) (R : Mat 3 T) :
    (Quat.new a v).normalized = false ∧ (Quat.new_from a b c d).normalized = false ∧
    (Quat.new_real a).normalized = false ∧ (Quat.new_imag v).normalized = false ∧
    (Quat.new_from_vec w).normalized = false ∧ (Quat.zero : Quat T).normalized = false ∧
    (Quat.one : Quat T).normalized = true ∧
    (p.add q).normalized = false ∧ (p.sub q).normalized = false ∧ (p.mul q).normalized = false ∧
    (p.sdiv a).normalized = false ∧ (p.smul a).normalized = false ∧ p.neg.normalized = false ∧
    p.conj.normalized = false ∧ p.ln.normalized = false ∧ p.cos.normalized = false ∧
    (p.derivative v).normalized = false ∧ (Quat.from_rotation R).normalized = false ∧
    (∀ r, p.inverse = some r → r.normalized = false) ∧
    (∀ r, p.div q = .ok r → r.normalized = false) := by
  refine ⟨rfl, rfl, rfl, rfl, rfl, rfl, rfl, rfl, rfl, rfl, rfl, rfl, rfl, rfl, ?_, rfl, rfl, ?_, ?_, ?_⟩
  · unfold Quat.ln
    simp only
    split <;> rfl
  · unfold Quat.from_rotation
    simp only
    split
    · split <;> rfl
    · split <;> rfl
  · intro r h
    unfold Quat.inverse at h
    simp only at h
    split at h
    · split at h
      · injection h with h; rw [← h]; rfl
      · cases h
    · injection h with h; rw [← h]; rfl
  · intro r h
    unfold Quat.div at h
    cases hi : q.inverse with
    | none => rw [hi] at h; cases h
    | some x => rw [hi] at h; injection h with h; rw [← h]; rfl

/-- `slerp` never flags a value it computed: a flagged result is the unchanged first argument. -/
theorem C121_slerp_flag {T : Type} [Add T] [Sub T] [Mul T] [Div T] [Neg T] [Zero T] [One T]
    [RAbs T] [ROrd T] [RFloat T] (a b : Quat T) (t : T) (h : (Quat.slerp a b t).normalized = true) :
    Quat.slerp a b t = a ∧ a.normalized = true := by
  revert h
  unfold Quat.slerp
  simp only
  split
  · exact fun h => ⟨rfl, h⟩
  · split <;> split <;> split <;> exact fun h => absurd h Bool.false_ne_true

/-- `slerp` from a flagged quaternion to itself returns it with its flag. -/
example [RealParams] : (Quat.slerp (Quat.one : Quat ℝ) Quat.one 0).normalized = true := by
  unfold Quat.slerp
  norm_num [Quat.dot, Quat.one, V3.dot, entries]

/-! ## C44 whole programs

The quaternions a program can build with the public functions and operators, in any order. -/

/-- The flag is truthful after every step; `exp` (and with it `sqrt` and `pow`) only where its argument is zero or
has norm at least `EPSILON`. -/
inductive Quat.Built [P : RealParams] : Quat ℝ → Prop
  | new (a v) : Built (Quat.new a v)
  | new_from (a b c d) : Built (Quat.new_from a b c d)
  | new_real (a) : Built (Quat.new_real a)
  | new_imag (v) : Built (Quat.new_imag v)
  | new_from_vec (v) : Built (Quat.new_from_vec v)
  | one : Built Quat.one
  | zero : Built Quat.zero
  | add {p q} : Built p → Built q → Built (p.add q)
  | sub {p q} : Built p → Built q → Built (p.sub q)
  | mul {p q} : Built p → Built q → Built (p.mul q)
  | div {p q r} : Built p → Built q → p.div q = .ok r → Built r
  | smul {p} (a) : Built p → Built (p.smul a)
  | sdiv {p} (a) : Built p → Built (p.sdiv a)
  | neg {p} : Built p → Built p.neg
  | conj {p} : Built p → Built p.conj
  | inverse {p r} : Built p → p.inverse = some r → Built r
  | from_rotation (R) : Built (Quat.from_rotation R)
  | normalize {p r} : Built p → p.normalize = some r → Built r
  | normalize_q {p} : Built p → Built p.normalize_q
  | argq {p} : Built p → Built p.argq
  | rotation {r} (theta v) : Quat.rotation theta v = .ok r → Built r
  | rotation_norm_encoded (v) : Built (Quat.rotation_norm_encoded v)
  | from_euler_angles (y p r) : Built (Quat.from_euler_angles y p r)
  | exp {p} : Built p → p.toH = 0 ∨ P.eps ≤ ‖p.toH‖ → Built p.exp
  | ln {p} : Built p → Built p.ln
  | sqrt {p} : Built p → (p.ln.smul (1 / 2)).toH = 0 ∨ P.eps ≤ ‖(p.ln.smul (1 / 2)).toH‖ → Built p.sqrt
  | pow {p q} : Built p → Built q → (q.mul p.ln).toH = 0 ∨ P.eps ≤ ‖(q.mul p.ln).toH‖ → Built (p.pow q)
  | sin {p r} : Built p → p.sin = .ok r → Built r
  | cos {p} : Built p → Built p.cos
  | slerp {p q} (t) : Built p → Built q → Built (Quat.slerp p q t)
  | derivative {p} (v) : Built p → Built (p.derivative v)
  | get_parts (H) : Built (get_parts H).1

private theorem exp_truthful [P : RealParams] (p : Quat ℝ) (h : p.toH = 0 ∨ P.eps ≤ ‖p.toH‖) : p.exp.Truthful := by
  intro hf
  rcases h with h | h
  · have hr : p.q0 = 0 := congrArg (fun x : ℍ[ℝ] => x.re) h
    have h0 : p.q 0 = 0 := congrArg (fun x : ℍ[ℝ] => x.imI) h
    have h1 : p.q 1 = 0 := congrArg (fun x : ℍ[ℝ] => x.imJ) h
    have h2 : p.q 2 = 0 := congrArg (fun x : ℍ[ℝ] => x.imK) h
    have ha : p.abs_imag = 0 := (V3.norm2_zero _).2 (Vec.ext3 h0 h1 h2)
    have e0 : p.exp.q0 = 1 := by
      change Real.exp p.q0 * Real.cos p.abs_imag = 1
      rw [hr, ha, Real.exp_zero, Real.cos_zero, mul_one]
    have ek (k : Fin 3) : p.exp.q k = 0 := by
      change (V3.smul p.q _) k = 0
      rw [V3.smul_apply]
      have : p.q k = 0 := by fin_cases k <;> assumption
      rw [this, zero_mul]
    rw [Quaternion.normSq_def']
    change p.exp.q0 ^ 2 + p.exp.q 0 ^ 2 + p.exp.q 1 ^ 2 + p.exp.q 2 ^ 2 = 1
    rw [e0, ek, ek, ek]
    norm_num
  · have : p.norm2 < P.eps := by
      have hf' : ROrd.lt p.norm2 (RFloat.epsilon : ℝ) = true := hf
      rw [rord_lt] at hf'
      exact of_decide_eq_true hf'
    rw [Quat.norm2_eq, Quaternion.normSq_eq_norm_mul_self, Real.sqrt_mul_self (norm_nonneg _)] at this
    linarith

/-- Every quaternion a program builds has a truthful flag. Missing: `exp`, `sqrt` and `pow` of arguments shorter than
`EPSILON` but not zero, where it is false (`C44_flag_exp_false`). -/
theorem C44_built_partial [P : RealParams] (q : Quat ℝ) (h : q.Built) : q.Truthful := by
  have no {x : Quat ℝ} (hx : x.normalized = false) : x.Truthful := fun h => by rw [hx] at h; cases h
  have fl (p q : Quat ℝ) (R : Mat 3 ℝ) (v : Vec 3 ℝ) := C121_quat_flags p q 0 0 0 0 v ⟨fun _ => 0⟩ R
  have tr (q : Quat ℝ) (t y p r : ℝ) (v : Vec 3 ℝ) := C44_flag_partial q t y p r v
  induction h with
  | one => exact (tr Quat.zero 0 0 0 0 V3.zero).1
  | div _ _ h => exact no ((fl _ _ M33.one V3.zero).2.2.2.2.2.2.2.2.2.2.2.2.2.2.2.2.2.2.2 _ h)
  | inverse _ h => exact no ((fl _ Quat.one M33.one V3.zero).2.2.2.2.2.2.2.2.2.2.2.2.2.2.2.2.2.2.1 _ h)
  | from_rotation R => exact no (fl Quat.one Quat.one R V3.zero).2.2.2.2.2.2.2.2.2.2.2.2.2.2.2.2.2.1
  | normalize _ h ih => exact fun _ => ((tr _ 0 0 0 0 V3.zero).2.1 ih _ h).2
  | normalize_q _ => exact fun _ => (tr _ 0 0 0 0 V3.zero).2.2.2.2.2.2.1.2
  | argq _ => exact fun _ => (tr _ 0 0 0 0 V3.zero).2.2.2.2.2.2.2.2
  | rotation θ v h => exact fun _ => ((tr Quat.one θ 0 0 0 v).2.2.1 _ h).2
  | rotation_norm_encoded v => exact (tr Quat.one 0 0 0 0 v).2.2.2.1
  | from_euler_angles y p r => exact fun _ => (tr Quat.one 0 y p r V3.zero).2.2.2.2.2.1.2
  | get_parts H => exact fun _ => (tr Quat.one 0 _ _ _ V3.zero).2.2.2.2.2.1.2
  | exp _ h => exact exp_truthful _ h
  | sqrt _ h =>
    refine exp_truthful _ ?_
    have : (1 : ℝ) + 1 = 2 := by norm_num
    rw [this]
    exact h
  | pow _ _ h => exact exp_truthful _ h
  | @sin p r _ h =>
    unfold Quat.sin at h
    exact no ((fl _ _ M33.one V3.zero).2.2.2.2.2.2.2.2.2.2.2.2.2.2.2.2.2.2.2 _ h)
  | ln _ => exact no (fl _ Quat.one M33.one V3.zero).2.2.2.2.2.2.2.2.2.2.2.2.2.2.1
  | slerp t _ _ ih _ =>
    intro h
    obtain ⟨e1, e2⟩ := C121_slerp_flag _ _ _ h
    rw [e1]
    exact ih e2
  | _ => exact no rfl

/-- A program: the rotation of two angles, scaled, then normalized again. -/
example [RealParams] (a b t : ℝ) (r : Quat ℝ)
    (h : (((Quat.from_euler_angles a b t).mul (Quat.from_euler_angles b a t)).smul 3).normalize = some r) :
    normSq r.toH = 1 :=
  ((C44_flag_partial _ 0 0 0 0 V3.zero).2.1
    (C44_built_partial _ (.smul 3 (.mul (.from_euler_angles _ _ _) (.from_euler_angles _ _ _)))) r h).2

/-- The same for dual quaternions; the flagged ones are `one` and the four constructors of motions. -/
theorem C121_dual_flags {T : Type} [Add T] [Sub T] [Mul T] [Div T] [Neg T] [Zero T] [One T]
    [RAbs T] [ROrd T] [RFloat T] (x y : DQuat T) (p q : Quat T) (a b : T) (v u : Vec 3 T) (w z : Vec 4 T)
    (s : Vec 7 T) (R : Mat 3 T) :
    (DQuat.new p q).normalized = false ∧ (DQuat.new_from_vecs w z).normalized = false ∧
    (DQuat.zero : DQuat T).normalized = false ∧ (DQuat.new_from_array s).normalized = false ∧
    (DQuat.new_from_screw_parameters u v a b).normalized = false ∧
    (x.add y).normalized = false ∧ (x.sub y).normalized = false ∧ (x.mul y).normalized = false ∧
    x.neg.normalized = false ∧ (x.smul a).normalized = false ∧ x.conj.normalized = false ∧
    x.conj_as_dual.normalized = false ∧ x.conj_combined.normalized = false ∧ x.norm.normalized = false ∧
    (∀ r, x.inverse = .ok r → r.normalized = false) ∧ (∀ r, x.div y = .ok r → r.normalized = false) ∧
    (DQuat.one : DQuat T).normalized = true ∧ (DQuat.new_from_rotation p).normalized = true ∧
    (DQuat.new_from_rotation_matrix R).normalized = true ∧ (DQuat.new_from_point v).normalized = true ∧
    (DQuat.new_from_translation v).normalized = true ∧
    (∀ r, DQuat.new_from_rot_trans p v = .ok r → r.normalized = true) := by
  refine ⟨rfl, rfl, rfl, rfl, rfl, rfl, rfl, rfl, rfl, rfl, rfl, rfl, rfl, rfl, ?_, ?_, rfl, rfl, rfl, rfl,
    rfl, ?_⟩
  · intro r h
    unfold DQuat.inverse at h
    split at h
    · injection h with h; rw [← h]; rfl
    · cases hi : x.q_real.inverse with
      | none => rw [hi] at h; cases h
      | some i => rw [hi] at h; injection h with h; rw [← h]; rfl
  · intro r h
    unfold DQuat.div at h
    simp only [bind, Except.bind] at h
    split at h
    · cases h
    · split at h
      · cases h
      · injection h with h; rw [← h]; rfl
  · intro r h
    unfold DQuat.new_from_rot_trans at h
    cases hi : p.normalize with
    | none => rw [hi] at h; cases h
    | some i => rw [hi] at h; injection h with h; rw [← h]

section
variable [P : RealParams]

/-- `new_from_array`: the first four numbers are the rotation quaternion, the last three the
translation; the motion is the one `new_from_rot_trans` builds from them. -/
theorem C121_array (a : Vec 7 ℝ) (h : a 0 ^ 2 + a 1 ^ 2 + a 2 ^ 2 + a 3 ^ 2 = 1) :
    (DQuat.new_from_array a).q_real.toH = ⟨a 0, a 1, a 2, a 3⟩ ∧
    (∀ i : Fin 3, (DQuat.new_from_array a).get_translation i = a ⟨4 + i, by omega⟩) ∧
    (DQuat.new_from_array a).IsMotion ∧
    ∃ x, DQuat.new_from_rot_trans (Quat.new_from (a 0) (a 1) (a 2) (a 3)) ⟨![a 4, a 5, a 6]⟩ = .ok x ∧
      x.toD = (DQuat.new_from_array a).toD := by
  have hq : normSq (Quat.new_from (a 0) (a 1) (a 2) (a 3)).toH = 1 := by
    rw [Quaternion.normSq_def']; exact h
  obtain ⟨x, hx, -, -, -, hm, ht, -⟩ := C61_rot_trans_partial _ hq ⟨![a 4, a 5, a 6]⟩ V3.zero
  have e : x = ⟨⟨a 0, ⟨![a 1, a 2, a 3]⟩, true⟩, (DQuat.new_from_array a).q_dual, true⟩ := by
    unfold DQuat.new_from_rot_trans at hx
    rw [Quat.normalize_unit _ hq] at hx
    exact (Except.ok.inj hx).symm
  refine ⟨rfl, fun i => ?_, ?_, x, hx, ?_⟩
  · have e1 : (DQuat.new_from_array a).get_translation = x.get_translation := by rw [e]; rfl
    rw [e1, ht]
    fin_cases i <;> rfl
  · rw [e] at hm
    exact ⟨hm.norm, hm.orth⟩
  · rw [e]; rfl

omit P in
/-- `new_from_point v` is `1 + ε v`, a unit dual quaternion; read as a motion it is the translation by
`2 v`, not by `v`. -/
theorem C121_point (v : Vec 3 ℝ) :
    (DQuat.new_from_point v).IsMotion ∧ (DQuat.new_from_point v).q_real.toH = 1 ∧
    (DQuat.new_from_point v).q_dual.toH = ⟨0, v 0, v 1, v 2⟩ ∧
    ∀ i, (DQuat.new_from_point v).get_translation i = 2 * v i := by
  have e : (DQuat.new_from_point v).q_real.toH = 1 := Quat.toH_one
  refine ⟨⟨?_, ?_⟩, e, rfl, ?_⟩
  · rw [e, map_one]
  · rw [e, one_mul]
    change (star (⟨0, v 0, v 1, v 2⟩ : ℍ[ℝ])).re = 0
    simp
  · have h : (DQuat.new_from_point v).get_translation = V3.smul v 2 := by
      rw [← Vec.toH_inj, DQuat.translation_toH, e, star_one, mul_one, two_mul, H_ext_iff]
      refine ⟨rfl, ?_, ?_, ?_⟩
      · change v 0 + v 0 = v 0 * 2; ring
      · change v 1 + v 1 = v 1 * 2; ring
      · change v 2 + v 2 = v 2 * 2; ring
    intro i
    rw [h, V3.smul_apply, mul_comm]

/-! ## `get_axis` and `get_angle` of quaternions of any norm -/

/-- The axis of an unflagged quaternion of any norm is its imaginary part scaled to length one; there
is none if the quaternion is nearly zero or the sine of the half angle is at most EPSILON. -/
theorem C121_get_axis (q : Quat ℝ) (hf : q.normalized = false) :
    (‖q.toH‖ < P.eps → q.get_axis = none) ∧
    (P.eps ≤ ‖q.toH‖ → V3.norm2 q.imag ≤ P.eps * ‖q.toH‖ → q.get_axis = none) ∧
    (P.eps ≤ ‖q.toH‖ → P.eps * ‖q.toH‖ < V3.norm2 q.imag →
      ∃ u, q.get_axis = some u ∧ V3.norm2 u = 1 ∧ ∀ i, u i = q.imag i / V3.norm2 q.imag) := by
  have he := P.eps_pos
  have hn : q.norm2 = ‖q.toH‖ := by
    rw [Quat.norm2_eq, Quaternion.normSq_eq_norm_mul_self, Real.sqrt_mul_self (norm_nonneg _)]
  have hn0 := norm_nonneg q.toH
  have hnorm : q.normalize = if ‖q.toH‖ < P.eps then none else
      some ⟨q.q0 / ‖q.toH‖, V3.sdiv q.q ‖q.toH‖, true⟩ := by
    unfold Quat.normalize
    simp only [hf, Bool.false_eq_true, if_false, hn, nearly_zero_eq, abs_norm]
    by_cases h : ‖q.toH‖ < P.eps
    · simp [h]
    · simp only [h, decide_false, Bool.not_false, if_true, if_false]
      rfl
  have hsq : q.q0 ^ 2 + V3.norm2 q.q ^ 2 = ‖q.toH‖ ^ 2 := by
    rw [V3.norm2_sq, sq ‖q.toH‖, ← Quaternion.normSq_eq_norm_mul_self, Quaternion.normSq_def']
    change _ = q.q0 ^ 2 + q.q 0 ^ 2 + q.q 1 ^ 2 + q.q 2 ^ 2
    ring
  refine ⟨fun h => ?_, ?_⟩
  · unfold Quat.get_axis
    rw [hnorm, if_pos h]
  have key (h : P.eps ≤ ‖q.toH‖) : q.get_axis = if P.eps * ‖q.toH‖ < V3.norm2 q.q then
      some (V3.sdiv (V3.sdiv q.q ‖q.toH‖) (V3.norm2 q.q / ‖q.toH‖)) else none := by
    have hp : 0 < ‖q.toH‖ := he.trans_le h
    have hm : V3.norm2 (V3.sdiv q.q ‖q.toH‖) = V3.norm2 q.q / ‖q.toH‖ := by
      have h1 : V3.norm2 (V3.sdiv q.q ‖q.toH‖) ^ 2 = (V3.norm2 q.q / ‖q.toH‖) ^ 2 := by
        rw [V3.norm2_sq, div_pow, V3.norm2_sq, V3.sdiv_apply, V3.sdiv_apply, V3.sdiv_apply]
        field_simp
      exact (pow_left_inj₀ (V3.norm2_nonneg _) (div_nonneg (V3.norm2_nonneg _) hn0) two_ne_zero).1 h1
    have hs : Real.sin (Quat.get_angle ⟨q.q0 / ‖q.toH‖, V3.sdiv q.q ‖q.toH‖, true⟩ / 2)
        = V3.norm2 q.q / ‖q.toH‖ := by
      have e : Quat.get_angle (⟨q.q0 / ‖q.toH‖, V3.sdiv q.q ‖q.toH‖, true⟩ : Quat ℝ) / 2
          = Complex.arg ⟨q.q0 / ‖q.toH‖, V3.norm2 q.q / ‖q.toH‖⟩ := by
        rw [← hm]
        change (1 + 1) * Complex.arg _ / 2 = _
        ring
      rw [e]
      refine (arg_sin_cos _ _ ?_).1
      rw [div_pow, div_pow, ← add_div, hsq, div_self (pow_ne_zero _ hp.ne')]
    unfold Quat.get_axis
    rw [hnorm, if_neg (not_lt.2 h)]
    simp only [rfloat_lit2, rfloat_sin, hs, rord_lt, rfloat_epsilon, rabs_abs,
      abs_of_nonneg (div_nonneg (V3.norm2_nonneg q.q) hn0), lt_div_iff₀ hp, decide_eq_true_eq]
  refine ⟨fun h h1 => ?_, fun h h1 => ?_⟩
  · rw [Quat.imag] at h1
    rw [key h, if_neg (not_lt.2 h1)]
  · rw [Quat.imag] at h1
    have hp : 0 < ‖q.toH‖ := he.trans_le h
    have h0 : 0 < V3.norm2 q.q := lt_of_le_of_lt (by positivity) h1
    have hu (i : Fin 3) : V3.sdiv (V3.sdiv q.q ‖q.toH‖) (V3.norm2 q.q / ‖q.toH‖) i
        = q.q i / V3.norm2 q.q := by
      rw [V3.sdiv_apply, V3.sdiv_apply]
      field_simp
    refine ⟨_, by rw [key h, if_pos h1], ?_, hu⟩
    have h2 := V3.norm2_sq (V3.sdiv (V3.sdiv q.q ‖q.toH‖) (V3.norm2 q.q / ‖q.toH‖))
    rw [hu, hu, hu, div_pow, div_pow, div_pow, ← add_div, ← add_div, ← V3.norm2_sq,
      div_self (pow_ne_zero _ h0.ne')] at h2
    exact (pow_left_inj₀ (V3.norm2_nonneg _) zero_le_one two_ne_zero).1 (by rw [h2, one_pow])

/-- The angle does not depend on the length of the quaternion. -/
theorem C121_angle_scale (q : Quat ℝ) (c : ℝ) (hc : 0 < c) : (q.smul c).get_angle = q.get_angle := by
  have hm : V3.norm2 (V3.smul q.q c) = c * V3.norm2 q.q := by
    have h1 : V3.norm2 (V3.smul q.q c) ^ 2 = (c * V3.norm2 q.q) ^ 2 := by
      rw [V3.norm2_sq, mul_pow, V3.norm2_sq, V3.smul_apply, V3.smul_apply, V3.smul_apply]
      ring
    exact (pow_left_inj₀ (V3.norm2_nonneg _) (mul_nonneg hc.le (V3.norm2_nonneg _)) two_ne_zero).1 h1
  change (1 + 1) * Complex.arg ⟨q.q0 * c, V3.norm2 (V3.smul q.q c)⟩
    = (1 + 1) * Complex.arg ⟨q.q0, V3.norm2 q.q⟩
  rw [hm, ← Complex.arg_real_mul ⟨q.q0, V3.norm2 q.q⟩ hc]
  congr 2
  apply Complex.ext <;> simp [mul_comm]

/-- an unflagged quaternion of norm five with an axis -/
example : (Quat.new_from 3 0 4 0 : Quat ℝ).normalized = false ∧ ‖(Quat.new_from 3 0 4 0 : Quat ℝ).toH‖ = 5 ∧
    V3.norm2 (Quat.new_from 3 0 4 0 : Quat ℝ).imag = 4 := by
  refine ⟨rfl, ?_, ?_⟩
  · have h : ‖(Quat.new_from 3 0 4 0 : Quat ℝ).toH‖ ^ 2 = 5 ^ 2 := by
      rw [sq, ← Quaternion.normSq_eq_norm_mul_self, Quaternion.normSq_def']
      change (3 : ℝ) ^ 2 + 0 ^ 2 + 4 ^ 2 + 0 ^ 2 = 5 ^ 2
      norm_num
    exact (pow_left_inj₀ (norm_nonneg _) (by norm_num) two_ne_zero).1 h
  · have h : V3.norm2 (Quat.new_from 3 0 4 0 : Quat ℝ).imag ^ 2 = 4 ^ 2 := by
      rw [V3.norm2_sq]
      change (0 : ℝ) ^ 2 + 4 ^ 2 + 0 ^ 2 = 4 ^ 2
      norm_num
    exact (pow_left_inj₀ (V3.norm2_nonneg _) (by norm_num) two_ne_zero).1 h

/-! ## `is_normalized` -/

/-- Exactly when `is_normalized` answers `true`: the dual part matters only for components so large
that their change by the normalization exceeds EPSILON times the largest float. -/
theorem C121_is_normalized (x : DQuat ℝ) :
    x.is_normalized = true ↔ x.normalized = true ∨ ‖x.q_real.toH‖ < P.eps ∨
      (|‖x.q_real.toH‖ - 1| < P.eps * (‖x.q_real.toH‖ + 1) ∧
        |x.q_dual.q0 / ‖x.q_real.toH‖ - x.q_dual.q0| < P.eps * P.maxVal ∧
        ∀ i, |x.q_dual.q i / ‖x.q_real.toH‖ - x.q_dual.q i| < P.eps * P.maxVal) := by
  have he := P.eps_pos
  have he1 := P.eps_le
  norm_num at he1
  have hM : (3 : ℝ) ≤ P.maxVal := le_trans (by norm_num) P.maxVal_ge
  have hn : x.q_real.norm2 = ‖x.q_real.toH‖ := by
    rw [Quat.norm2_eq, Quaternion.normSq_eq_norm_mul_self, Real.sqrt_mul_self (norm_nonneg _)]
  have hn0 := norm_nonneg x.q_real.toH
  unfold DQuat.is_normalized
  by_cases hf : x.normalized = true
  · simp [hf]
  simp only [hf, Bool.false_eq_true, if_false, false_or, DQuat.real, DQuat.dual, hn, nearly_zero_eq,
    abs_of_nonneg hn0, rfloat_epsilon]
  by_cases hz : ‖x.q_real.toH‖ < P.eps
  · simp [hz]
  simp only [hz, decide_false, Bool.false_eq_true, if_false, false_or, Bool.and_eq_true]
  have hpos : 0 < ‖x.q_real.toH‖ := he.trans_le (not_lt.1 hz)
  change nearly_equal ‖x.q_real.toH‖ 1 P.eps = true ∧
    ((nearly_equal (x.q_dual.q0 / ‖x.q_real.toH‖) x.q_dual.q0 P.eps = true ∧
      nearly_equal (V3.sdiv x.q_dual.q ‖x.q_real.toH‖ 0) (x.q_dual.q 0) P.eps = true) ∧
      nearly_equal (V3.sdiv x.q_dual.q ‖x.q_real.toH‖ 1) (x.q_dual.q 1) P.eps = true) ∧
      nearly_equal (V3.sdiv x.q_dual.q ‖x.q_real.toH‖ 2) (x.q_dual.q 2) P.eps = true ↔ _
  rw [V3.sdiv_apply, V3.sdiv_apply, V3.sdiv_apply]
  generalize ‖x.q_real.toH‖ = n at *
  have h1 : nearly_equal n 1 P.eps = true ↔ |n - 1| < P.eps * (n + 1) := by
    rw [C35_nearly_equal]
    constructor
    · rintro (h | ⟨h | h, -⟩ | ⟨-, -, h⟩)
      · rw [h, sub_self, abs_zero]; positivity
      · exact absurd h hpos.ne'
      · norm_num at h
      · rw [abs_of_pos hpos, abs_one] at h
        exact lt_of_lt_of_le h (mul_le_mul_of_nonneg_left (min_le_left _ _) he.le)
    · intro h
      refine Or.inr (Or.inr ⟨hpos.ne', one_ne_zero, ?_⟩)
      have h4 : n - 1 ≤ |n - 1| := le_abs_self _
      have h5 : n + 1 ≤ 3 := by nlinarith
      rw [abs_of_pos hpos, abs_one, min_eq_left (h5.trans hM)]
      exact h
  rw [h1]
  have h2 (h : |n - 1| < P.eps * (n + 1)) (d : ℝ) :
      nearly_equal (d / n) d P.eps = true ↔ |d / n - d| < P.eps * P.maxVal := by
    rw [C35_nearly_equal]
    have hMp : 0 < P.eps * P.maxVal := by positivity
    by_cases h0 : d = 0
    · subst h0; simp [hMp]
    have hdn : d / n ≠ 0 := div_ne_zero h0 hpos.ne'
    have habs : |d / n - d| < P.eps * (|d / n| + |d|) := by
      have e1 : d / n - d = d / n * (1 - n) := by field_simp
      have e2 : |d| = |d / n| * n := by rw [abs_div, abs_of_pos hpos, div_mul_cancel₀ _ hpos.ne']
      have hp : 0 < |d / n| := abs_pos.2 hdn
      rw [e1, abs_mul, abs_sub_comm 1 n, e2]
      nlinarith
    constructor
    · rintro (h | ⟨h | h, -⟩ | ⟨-, -, h⟩)
      · rw [h, sub_self, abs_zero]; exact hMp
      · exact absurd h hdn
      · exact absurd h h0
      · exact lt_of_lt_of_le h (mul_le_mul_of_nonneg_left (min_le_right _ _) he.le)
    · intro h
      refine Or.inr (Or.inr ⟨hdn, h0, ?_⟩)
      rw [mul_min_of_nonneg _ _ he.le]
      exact lt_min habs h
  constructor
  · rintro ⟨h, ⟨⟨ha, hb⟩, hc⟩, hd⟩
    rw [h2 h] at ha hb hc hd
    refine ⟨h, ha, fun i => ?_⟩
    fin_cases i
    · exact hb
    · exact hc
    · exact hd
  · rintro ⟨h, ha, hb⟩
    rw [h2 h, h2 h, h2 h, h2 h]
    exact ⟨h, ⟨⟨ha, hb 0⟩, hb 1⟩, hb 2⟩

/-- In particular `is_normalized` does not tell whether the value is a unit dual quaternion: the two
parts need not be orthogonal. -/
theorem C121_is_normalized_not_motion :
    ∃ x : DQuat ℝ, x.normalized = false ∧ x.is_normalized = true ∧ ¬ x.IsMotion := by
  refine ⟨DQuat.new Quat.one Quat.one, rfl, ?_, fun h => ?_⟩
  · have e : ‖(DQuat.new Quat.one Quat.one : DQuat ℝ).q_real.toH‖ = 1 := by
      change ‖(Quat.one : Quat ℝ).toH‖ = 1
      rw [Quat.toH_one, norm_one]
    exact (C70_is_normalized_partial _).2.2 e
  · have := h.orth
    change ((Quat.one : Quat ℝ).toH * star (Quat.one : Quat ℝ).toH).re = 0 at this
    rw [Quat.toH_one, star_one, mul_one] at this
    exact one_ne_zero this

end

/-- the hypothesis of `C121_array` is met by a rotation about a skew axis -/
example : let a : Vec 7 ℝ := ⟨![1/2, 1/2, -1/2, 1/2, 4, 5, 6]⟩
    a 0 ^ 2 + a 1 ^ 2 + a 2 ^ 2 + a 3 ^ 2 = 1 := by
  change (1/2 : ℝ) ^ 2 + (1/2) ^ 2 + (-1/2) ^ 2 + (1/2) ^ 2 = 1
  norm_num

end StaticMath
