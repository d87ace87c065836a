import Verif.Lemmas.QrFree
import Verif.Lemmas.Slices
import Verif.Lemmas.LuFlt
import Verif.Props.Ieee

/-!
# Panics in floating point, NaN and infinities included: C111 (continued; `lu` is in `IeeeLu`), C112

No hypothesis about the entries is made: `Flt f` contains NaN, both infinities and both zeros.
-/

namespace StaticMath
open Flt

/-- Some libm, to instantiate the examples. -/
@[reducible] private noncomputable def anyLibm (f : Fmt) : Libm f := ⟨id, id, id, id, id, id, fun a _ => a, 1, 1, 1, 1, 1⟩

/-! ## QR -/

/-- C111: in floating point `qr` never panics; it returns `None` exactly when the computed determinant is
finite and of magnitude below `EPSILON` (so a NaN or infinite determinant gives `Some`), and otherwise the
second factor is the computed product of the transposed first factor with the input. -/
theorem C111_qr_M22 {f : Fmt} [Libm f] (A : Mat 2 (Flt f)) :
    (M22.qr A = .ok none ↔ (M22.det A).IsFin ∧ |(M22.det A).toReal| < (2 : ℝ) ^ (1 - (f.p : ℤ))) ∧
    (M22.qr A ≠ .ok none → ∃ Q, M22.qr A = .ok (some (Q, M22.mul (M22.transpose Q) A))) := by
  rw [← nearly_zero_flt]
  unfold M22.qr
  rcases qrGen_free (⟨M22.det, M22.zero, M22.get_cols, M22.new_from_vecs, M22.transpose, M22.mul, V2.sub,
    V2.smul⟩ : QrOps 2 (Flt f)) (fun A => ⟨_, M22.get_cols_eq A⟩) (fun c => ⟨_, M22.new_from_vecs_eq c⟩) A
    with ⟨h, e⟩ | ⟨h, Q, e⟩
  · exact ⟨by simp only [e, true_iff]; exact h, fun hn => absurd e hn⟩
  · exact ⟨by rw [e]; exact ⟨fun h' => by simp at h', fun h' => by rw [h] at h'; cases h'⟩, fun _ => ⟨Q, e⟩⟩

/-- C111: in floating point `qr` never panics; it returns `None` exactly when the computed determinant is
finite and of magnitude below `EPSILON` (so a NaN or infinite determinant gives `Some`), and otherwise the
second factor is the computed product of the transposed first factor with the input. -/
theorem C111_qr_M33 {f : Fmt} [Libm f] (A : Mat 3 (Flt f)) :
    (M33.qr A = .ok none ↔ (M33.det A).IsFin ∧ |(M33.det A).toReal| < (2 : ℝ) ^ (1 - (f.p : ℤ))) ∧
    (M33.qr A ≠ .ok none → ∃ Q, M33.qr A = .ok (some (Q, M33.mul (M33.transpose Q) A))) := by
  rw [← nearly_zero_flt]
  unfold M33.qr
  rcases qrGen_free (⟨M33.det, M33.zero, M33.get_cols, M33.new_from_vecs, M33.transpose, M33.mul, V3.sub,
    V3.smul⟩ : QrOps 3 (Flt f)) (fun A => ⟨_, M33.get_cols_eq A⟩) (fun c => ⟨_, M33.new_from_vecs_eq c⟩) A
    with ⟨h, e⟩ | ⟨h, Q, e⟩
  · exact ⟨by simp only [e, true_iff]; exact h, fun hn => absurd e hn⟩
  · exact ⟨by rw [e]; exact ⟨fun h' => by simp at h', fun h' => by rw [h] at h'; cases h'⟩, fun _ => ⟨Q, e⟩⟩

/-- C111: in floating point `qr` never panics; it returns `None` exactly when the computed determinant is
finite and of magnitude below `EPSILON` (so a NaN or infinite determinant gives `Some`), and otherwise the
second factor is the computed product of the transposed first factor with the input. -/
theorem C111_qr_M44 {f : Fmt} [Libm f] (A : Mat 4 (Flt f)) :
    (M44.qr A = .ok none ↔ (M44.det A).IsFin ∧ |(M44.det A).toReal| < (2 : ℝ) ^ (1 - (f.p : ℤ))) ∧
    (M44.qr A ≠ .ok none → ∃ Q, M44.qr A = .ok (some (Q, M44.mul (M44.transpose Q) A))) := by
  rw [← nearly_zero_flt]
  unfold M44.qr
  rcases qrGen_free (⟨M44.det, M44.zero, M44.get_cols, M44.new_from_vecs, M44.transpose, M44.mul, V4.sub,
    V4.smul⟩ : QrOps 4 (Flt f)) (fun A => ⟨_, M44.get_cols_eq A⟩) (fun c => ⟨_, M44.new_from_vecs_eq c⟩) A
    with ⟨h, e⟩ | ⟨h, Q, e⟩
  · exact ⟨by simp only [e, true_iff]; exact h, fun hn => absurd e hn⟩
  · exact ⟨by rw [e]; exact ⟨fun h' => by simp at h', fun h' => by rw [h] at h'; cases h'⟩, fun _ => ⟨Q, e⟩⟩

/-- C111: in floating point `qr` never panics; it returns `None` exactly when the computed determinant is
finite and of magnitude below `EPSILON` (so a NaN or infinite determinant gives `Some`), and otherwise the
second factor is the computed product of the transposed first factor with the input. -/
theorem C111_qr_M55 {f : Fmt} [Libm f] (A : Mat 5 (Flt f)) :
    (M55.qr A = .ok none ↔ (M55.det A).IsFin ∧ |(M55.det A).toReal| < (2 : ℝ) ^ (1 - (f.p : ℤ))) ∧
    (M55.qr A ≠ .ok none → ∃ Q, M55.qr A = .ok (some (Q, M55.mul (M55.transpose Q) A))) := by
  rw [← nearly_zero_flt]
  unfold M55.qr
  rcases qrGen_free (⟨M55.det, M55.zero, M55.get_cols, M55.new_from_vecs, M55.transpose, M55.mul, V5.sub,
    V5.smul⟩ : QrOps 5 (Flt f)) (fun A => ⟨_, M55.get_cols_eq A⟩) (fun c => ⟨_, M55.new_from_vecs_eq c⟩) A
    with ⟨h, e⟩ | ⟨h, Q, e⟩
  · exact ⟨by simp only [e, true_iff]; exact h, fun hn => absurd e hn⟩
  · exact ⟨by rw [e]; exact ⟨fun h' => by simp at h', fun h' => by rw [h] at h'; cases h'⟩, fun _ => ⟨Q, e⟩⟩

/-- C111: in floating point `qr` never panics; it returns `None` exactly when the computed determinant is
finite and of magnitude below `EPSILON` (so a NaN or infinite determinant gives `Some`), and otherwise the
second factor is the computed product of the transposed first factor with the input. -/
theorem C111_qr_M66 {f : Fmt} [Libm f] (A : Mat 6 (Flt f)) :
    (M66.qr A = .ok none ↔ (M66.det A).IsFin ∧ |(M66.det A).toReal| < (2 : ℝ) ^ (1 - (f.p : ℤ))) ∧
    (M66.qr A ≠ .ok none → ∃ Q, M66.qr A = .ok (some (Q, M66.mul (M66.transpose Q) A))) := by
  rw [← nearly_zero_flt]
  unfold M66.qr
  rcases qrGen_free (⟨M66.det, M66.zero, M66.get_cols, M66.new_from_vecs, M66.transpose, M66.mul, V6.sub,
    V6.smul⟩ : QrOps 6 (Flt f)) (fun A => ⟨_, M66.get_cols_eq A⟩) (fun c => ⟨_, M66.new_from_vecs_eq c⟩) A
    with ⟨h, e⟩ | ⟨h, Q, e⟩
  · exact ⟨by simp only [e, true_iff]; exact h, fun hn => absurd e hn⟩
  · exact ⟨by rw [e]; exact ⟨fun h' => by simp at h', fun h' => by rw [h] at h'; cases h'⟩, fun _ => ⟨Q, e⟩⟩

/-- A NaN entry: the determinant is NaN, so `qr` returns a pair. -/
example {f : Fmt} [Libm f] : M22.qr (⟨fun _ _ => .nan⟩ : Mat 2 (Flt f)) ≠ .ok none := by
  rw [Ne, (C111_qr_M22 _).1]
  exact fun h => h.1

/-! ## Axis and angle -/

private theorem axis_cases {f : Fmt} [Libm f] (v : Vec 3 (Flt f)) :
    (ROrd.beq (V3.norm2 v) 0 = true ∧ V3.normalize v = .ok (.error .Norm2IsZero)) ∨
    (ROrd.beq (V3.norm2 v) 0 = false ∧ V3.normalize v = .ok (.ok ⟨fun i => v i / V3.norm2 v⟩)) := by
  rw [V3.normalize, normalizeGen_eq]
  by_cases h : ROrd.beq (V3.norm2 v) 0 = true
  · exact Or.inl ⟨h, if_pos h⟩
  · exact Or.inr ⟨by simpa using h, if_neg h⟩

/-- C111: `axis_angle` panics exactly when the computed norm is zero, with its own message. -/
theorem C111_axis_angle {f : Fmt} [Libm f] (v : Vec 3 (Flt f)) :
    ((V3.norm2 v).IsFin ∧ (V3.norm2 v).toReal = 0 → axis_angle v = .error (.expect "empty vector")) ∧
    (¬ ((V3.norm2 v).IsFin ∧ (V3.norm2 v).toReal = 0) →
      axis_angle v = .ok (⟨fun i => v i / V3.norm2 v⟩, V3.norm2 v)) := by
  rw [← Flt.beq_zero_iff]
  unfold axis_angle
  rcases axis_cases v with ⟨h, e⟩ | ⟨h, e⟩
  · rw [e]
    exact ⟨fun _ => rfl, fun hn => absurd h hn⟩
  · rw [e]
    exact ⟨(fun h' => by rw [h] at h'; cases h'), fun _ => rfl⟩

/-- C111: `Quaternion::rotation` panics exactly when the computed norm of the axis is zero, with its own
message. -/
theorem C111_rotation {f : Fmt} [Libm f] (θ : Flt f) (v : Vec 3 (Flt f)) :
    ((V3.norm2 v).IsFin ∧ (V3.norm2 v).toReal = 0 →
      Quat.rotation θ v = .error (.expect "the input has to be a non zero vector")) ∧
    (¬ ((V3.norm2 v).IsFin ∧ (V3.norm2 v).toReal = 0) → ∃ q, Quat.rotation θ v = .ok q ∧ q.normalized = true) := by
  rw [← Flt.beq_zero_iff]
  unfold Quat.rotation
  rcases axis_cases v with ⟨h, e⟩ | ⟨h, e⟩
  · rw [e]
    exact ⟨fun _ => rfl, fun hn => absurd h hn⟩
  · rw [e]
    exact ⟨(fun h' => by rw [h] at h'; cases h'), fun _ => ⟨_, rfl, rfl⟩⟩

/-- C111: a vector with a nonzero component, the smallest positive number, on which both panic: its
square underflows to zero. -/
theorem C111_axis_underflow {f : Fmt} [Libm f] (θ : Flt f) : ∃ v : Vec 3 (Flt f),
    (∀ k, (v k).IsFin) ∧ (v 0).toReal ≠ 0 ∧ axis_angle v = .error (.expect "empty vector") ∧
    Quat.rotation θ v = .error (.expect "the input has to be a non zero vector") := by
  obtain ⟨v, hf, h0, hn⟩ := (C92_witness_V3 f).1
  have hz := (C92_V3 v).1.1 hn
  exact ⟨v, hf, h0, (C111_axis_angle v).1 hz, (C111_rotation θ v).1 hz⟩

/-! ## Exponentials -/

/-- C111: `matrix_exponential` never panics, also on matrices with NaN or infinite entries. -/
theorem C111_matrix_exponential {f : Fmt} [Libm f] (A : Mat 3 (Flt f)) : ∃ B, matrix_exponential A = .ok B := by
  unfold matrix_exponential
  by_cases h : nearly_zero (V3.norm2 (skew_to_vec A)) = true
  · exact ⟨M33.one, if_pos h⟩
  · simp only [if_neg h]
    rw [(C111_axis_angle _).2 fun hz => h ((nearly_zero_flt _).2 ⟨hz.1, by rw [hz.2, abs_zero]; positivity⟩)]
    exact ⟨_, rfl⟩

/-- C111: `matrix_exponential6` never panics, also on matrices with NaN or infinite entries. -/
theorem C111_matrix_exponential6 {f : Fmt} [Libm f] (A : Mat 4 (Flt f)) : ∃ B, matrix_exponential6 A = .ok B := by
  unfold matrix_exponential6
  by_cases h : nearly_zero (V3.norm2 (skew_to_vec (se3_get_parts A).1)) = true
  · exact ⟨_, if_pos h⟩
  · simp only [if_neg h]
    rw [(C111_axis_angle _).2 fun hz => h ((nearly_zero_flt _).2 ⟨hz.1, by rw [hz.2, abs_zero]; positivity⟩)]
    obtain ⟨B, hB⟩ := C111_matrix_exponential (se3_get_parts A).1
    simp only [bind, Except.bind, hB]
    exact ⟨_, rfl⟩

/-! ## Quaternion and dual quaternion division -/

/-- The squared norm that `inverse()` tests: in floating point it is below `EPSILON`. -/
def Quat.TooSmall {f : Fmt} (q : Quat (Flt f)) : Prop :=
  q.abs2.IsFin ∧ |q.abs2.toReal| < (2 : ℝ) ^ (1 - (f.p : ℤ))

private theorem inv_cases {f : Fmt} [Libm f] (q : Quat (Flt f)) :
    (q.normalized = false ∧ q.TooSmall ∧ q.inverse = none) ∨
    (¬ (q.normalized = false ∧ q.TooSmall) ∧ ∃ r, q.inverse = some r) := by
  rw [Quat.TooSmall, ← nearly_zero_flt]
  unfold Quat.inverse
  cases hq : q.normalized with
  | true => exact Or.inr ⟨fun h => by simp at h, _, rfl⟩
  | false =>
    by_cases h : nearly_zero q.abs2 = true
    · refine Or.inl ⟨rfl, h, ?_⟩
      simp [h]
    · refine Or.inr ⟨fun h' => h h'.2, ?_⟩
      simp [h]

/-- C111: dividing quaternions panics exactly when the divisor is not flagged as normalized and its computed
squared norm is finite and below `EPSILON`. -/
theorem C111_quat_div {f : Fmt} [Libm f] (p q : Quat (Flt f)) :
    (q.normalized = false ∧ q.TooSmall → p.div q = .error .unwrapNone) ∧
    (¬ (q.normalized = false ∧ q.TooSmall) → ∃ r, p.div q = .ok r) := by
  unfold Quat.div
  rcases inv_cases q with ⟨h1, h2, e⟩ | ⟨h, r, e⟩
  · rw [e]
    exact ⟨fun _ => rfl, fun h => absurd ⟨h1, h2⟩ h⟩
  · rw [e]
    exact ⟨fun h' => absurd h' h, fun _ => ⟨_, rfl⟩⟩

/-- C111: the inverse of a dual quaternion panics exactly when neither it nor its real part is flagged as
normalized and the computed squared norm of the real part is finite and below `EPSILON`. -/
theorem C111_dual_inverse {f : Fmt} [Libm f] (d : DQuat (Flt f)) :
    (d.normalized = false ∧ d.q_real.normalized = false ∧ d.q_real.TooSmall →
      d.inverse = .error (.expect "the zero Quaternion cannot be inverted")) ∧
    (¬ (d.normalized = false ∧ d.q_real.normalized = false ∧ d.q_real.TooSmall) → ∃ r, d.inverse = .ok r) := by
  unfold DQuat.inverse
  cases hd : d.normalized with
  | true => exact ⟨fun h => by simp at h, fun _ => ⟨_, rfl⟩⟩
  | false =>
    rcases inv_cases d.q_real with ⟨h1, h2, e⟩ | ⟨h, r, e⟩
    · rw [e]
      exact ⟨fun _ => rfl, fun h => absurd ⟨rfl, h1, h2⟩ h⟩
    · rw [e]
      exact ⟨fun h' => absurd h'.2 h, fun _ => ⟨_, rfl⟩⟩

/-- C111: dividing dual quaternions panics exactly when the computed square of the divisor's real part has a
computed squared norm that is finite and below `EPSILON` (the flags of the divisor do not matter: the
square is not flagged). -/
theorem C111_dual_div {f : Fmt} [Libm f] (d e : DQuat (Flt f)) :
    ((e.q_real.mul e.q_real).TooSmall → d.div e = .error .unwrapNone) ∧
    (¬ (e.q_real.mul e.q_real).TooSmall → ∃ r, d.div e = .ok r) := by
  unfold DQuat.div
  constructor
  · intro h
    have e := (C111_quat_div (d.q_real.mul e.q_real) (e.q_real.mul e.q_real)).1 ⟨rfl, h⟩
    simp only [bind, Except.bind, e]
  · intro h
    obtain ⟨r, hr⟩ := (C111_quat_div (d.q_real.mul e.q_real) (e.q_real.mul e.q_real)).2 fun h' => h h'.2
    obtain ⟨r', hr'⟩ := (C111_quat_div ((e.q_real.mul d.q_dual).sub (d.q_real.mul e.q_dual))
      (e.q_real.mul e.q_real)).2 fun h' => h h'.2
    simp only [bind, Except.bind, hr, hr']
    exact ⟨_, rfl⟩

/-- C111: `new_from_rot_trans` panics exactly when the quaternion is not flagged as normalized and its computed
norm is finite and below `EPSILON`. -/
theorem C111_new_from_rot_trans {f : Fmt} [Libm f] (q : Quat (Flt f)) (t : Vec 3 (Flt f)) :
    (q.normalized = false ∧ q.norm2.IsFin ∧ |q.norm2.toReal| < (2 : ℝ) ^ (1 - (f.p : ℤ)) →
      DQuat.new_from_rot_trans q t = .error (.expect "the quaternion it can't be zero!!!")) ∧
    (¬ (q.normalized = false ∧ q.norm2.IsFin ∧ |q.norm2.toReal| < (2 : ℝ) ^ (1 - (f.p : ℤ))) →
      ∃ r, DQuat.new_from_rot_trans q t = .ok r) := by
  rw [← nearly_zero_flt]
  unfold DQuat.new_from_rot_trans Quat.normalize
  cases hq : q.normalized with
  | true => exact ⟨fun h => by simp at h, fun _ => ⟨_, rfl⟩⟩
  | false =>
    by_cases h : nearly_zero q.norm2 = true
    · refine ⟨fun _ => ?_, fun h' => absurd ⟨rfl, h⟩ h'⟩
      simp [h, expectSome, bind, Except.bind]
    · refine ⟨fun h' => absurd h'.2 h, fun _ => ?_⟩
      simp [h, expectSome, bind, Except.bind, pure, Except.pure]

/-- C111: `screw_lerp` from a start flagged as normalized never panics, whatever the values. -/
theorem C111_screw_lerp {f : Fmt} [Libm f] (a b : DQuat (Flt f)) (t : Flt f) (ha : a.normalized = true) :
    ∃ r, DQuat.screw_lerp a b t = .ok r := by
  unfold DQuat.screw_lerp
  have h : ∀ q : Quat (Flt f), ∃ r, ({ a with q_real := q } : DQuat (Flt f)).inverse = .ok r := fun q =>
    (C111_dual_inverse _).2 fun h => by rw [show ({ a with q_real := q } : DQuat (Flt f)).normalized = a.normalized from rfl, ha] at h; cases h.1
  obtain ⟨r1, h1⟩ := h a.q_real
  obtain ⟨r2, h2⟩ := h (a.real.smul (-1))
  by_cases hc : ROrd.lt (a.real.mul b.real).real 0 = true
  · simp only [hc, if_true]
    rw [h2]
    exact ⟨_, rfl⟩
  · simp only [hc, if_false, Bool.false_eq_true]
    have h1' : a.inverse = .ok r1 := h1
    rw [h1']
    exact ⟨_, rfl⟩

example {f : Fmt} [Libm f] : ∃ r, DQuat.screw_lerp (DQuat.one : DQuat (Flt f))
    ⟨⟨.nan, ⟨![.nan, .inf true, 0]⟩, false⟩, Quat.zero, false⟩ .nan = .ok r := C111_screw_lerp _ _ _ rfl

/-! ## `norm_inf`, `adjoint` -/

private noncomputable def key {f : Fmt} : Flt f → EReal
  | .nan => 0
  | .inf s => if s then ⊥ else ⊤
  | .fin s x h => (((Flt.fin s x h).toReal : ℝ) : EReal)

private theorem lt_key {f : Fmt} (a b : Flt f) : ROrd.lt a b = true ↔ a ≠ .nan ∧ b ≠ .nan ∧ key a < key b := by
  cases a with
  | nan => exact ⟨(fun h => by cases h), fun h => absurd rfl h.1⟩
  | inf s =>
    cases b with
    | nan => exact ⟨(fun h => by cases h), fun h => absurd rfl h.2.1⟩
    | inf t =>
      refine Iff.trans (b := (s && !t) = true) Iff.rfl ?_
      cases s <;> cases t <;> simp [key]
    | fin t y hy =>
      refine Iff.trans (b := s = true) Iff.rfl ?_
      cases s <;> simp [key, EReal.bot_lt_coe]
  | fin s x hx =>
    cases b with
    | nan => exact ⟨(fun h => by cases h), fun h => absurd rfl h.2.1⟩
    | inf t =>
      refine Iff.trans (b := (!t) = true) Iff.rfl ?_
      cases t <;> simp [key, EReal.coe_lt_top]
    | fin t y hy =>
      rw [lt_iff (a := fin s x hx) (b := fin t y hy) trivial trivial]
      simp [key]

private theorem max_fold {f : Fmt} (l : List (Flt f × ℕ)) (s : MaxMin (Flt f)) :
    (s.max.1 = .nan → (l.foldl find_max_min_step s).max.1 = .nan) ∧
    (s.max.1 ≠ .nan → (l.foldl find_max_min_step s).max.1 ≠ .nan ∧
      key s.max.1 ≤ key (l.foldl find_max_min_step s).max.1 ∧
      (∀ p ∈ l, p.1 ≠ .nan → key p.1 ≤ key (l.foldl find_max_min_step s).max.1)) ∧
    ((l.foldl find_max_min_step s).max.1 = s.max.1 ∨ ∃ p ∈ l, (l.foldl find_max_min_step s).max.1 = p.1) := by
  induction l generalizing s with
  | nil => exact ⟨id, fun h => ⟨h, le_rfl, fun p hp => absurd hp (List.not_mem_nil)⟩, Or.inl rfl⟩
  | cons p l ih =>
    rw [List.foldl_cons]
    have hm : (find_max_min_step s p).max = if ROrd.lt s.max.1 p.1 then p else s.max := by
      unfold find_max_min_step
      by_cases h1 : ROrd.lt p.1 s.min.1 = true <;> by_cases h2 : ROrd.lt s.max.1 p.1 = true <;> simp [h1, h2]
    obtain ⟨i1, i2, i3⟩ := ih (find_max_min_step s p)
    by_cases hl : ROrd.lt s.max.1 p.1 = true
    · rw [hm, if_pos hl] at i1 i2 i3
      rw [lt_key] at hl
      obtain ⟨h1, h2, h3⟩ := hl
      obtain ⟨j1, j2, j3⟩ := i2 h2
      refine ⟨fun h => absurd h h1, fun _ => ⟨j1, h3.le.trans j2, fun r hr hn => ?_⟩, ?_⟩
      · rcases List.mem_cons.1 hr with rfl | hr
        · exact j2
        · exact j3 r hr hn
      · rcases i3 with h | ⟨r, hr, h⟩
        · exact Or.inr ⟨p, List.mem_cons_self, h⟩
        · exact Or.inr ⟨r, List.mem_cons_of_mem _ hr, h⟩
    · rw [hm, if_neg hl] at i1 i2 i3
      refine ⟨i1, fun hn => ?_, ?_⟩
      · obtain ⟨j1, j2, j3⟩ := i2 hn
        refine ⟨j1, j2, fun r hr hrn => ?_⟩
        rcases List.mem_cons.1 hr with rfl | hr
        · refine le_trans (not_lt.1 fun h => hl ?_) j2
          rw [lt_key]
          exact ⟨hn, hrn, h⟩
        · exact j3 r hr hrn
      · rcases i3 with h | ⟨r, hr, h⟩
        · exact Or.inl h
        · exact Or.inr ⟨r, List.mem_cons_of_mem _ hr, h⟩

/-- C111: `norm_inf` never panics, whatever the entries: a NaN in first place is returned as it is, and
otherwise the result is an entry that is not NaN and that no entry exceeds (NaN entries are skipped). -/
theorem C111_norm_inf {f : Fmt} {n : ℕ} (v : Vec (n + 1) (Flt f)) : ∃ k, v.norm_inf = .ok (v k) ∧
    (v 0 = .nan → v k = .nan) ∧ (v 0 ≠ .nan → v k ≠ .nan ∧ ∀ j, ROrd.lt (v k) (v j) = false) := by
  have hs : v.toSlice = v 0 :: (List.ofFn fun j : Fin n => v j.succ) := by
    rw [Vec.toSlice, List.ofFn_succ]
  obtain ⟨h1, h2, h3⟩ := max_fold ((v.toSlice.zipIdx).drop 1) ⟨(v 0, 0), (v 0, 0)⟩
  have hr : v.norm_inf = .ok (((v.toSlice.zipIdx).drop 1).foldl find_max_min_step ⟨(v 0, 0), (v 0, 0)⟩).max.1 := by
    unfold Vec.norm_inf StaticMath.norm_inf find_max_min
    rw [hs]
    rfl
  have hmem : ∀ p, p ∈ (v.toSlice.zipIdx).drop 1 → ∃ j : Fin (n + 1), p.1 = v j := by
    intro p hp
    have := List.mem_of_mem_drop hp
    obtain ⟨i, hi, e⟩ := List.mem_iff_getElem.1 this
    have hi' : i < n + 1 := by simpa [Vec.toSlice] using hi
    refine ⟨⟨i, hi'⟩, ?_⟩
    rw [← e, List.getElem_zipIdx]
    exact List.getElem_ofFn _
  obtain ⟨k, hk⟩ : ∃ k, (((v.toSlice.zipIdx).drop 1).foldl find_max_min_step ⟨(v 0, 0), (v 0, 0)⟩).max.1 = v k := by
    rcases h3 with h | ⟨p, hp, h⟩
    · exact ⟨0, h⟩
    · obtain ⟨j, hj⟩ := hmem p hp
      exact ⟨j, h.trans hj⟩
  refine ⟨k, hr.trans (congrArg _ hk), fun h => hk ▸ h1 h, fun h => ?_⟩
  obtain ⟨j1, j2, j3⟩ := h2 h
  rw [hk] at j1 j2 j3
  refine ⟨j1, fun j => ?_⟩
  rw [← Bool.not_eq_true, lt_key]
  rintro ⟨-, hj, hlt⟩
  refine absurd hlt (not_lt.2 ?_)
  obtain rfl | ⟨i, rfl⟩ := Fin.eq_zero_or_eq_succ j
  · exact j2
  · refine j3 (v i.succ, i.val + 1) ?_ hj
    rw [hs, List.zipIdx_cons, List.drop_one, List.tail_cons, List.mem_iff_getElem]
    exact ⟨i, by simp, by simp [Nat.add_comm]⟩

example {f : Fmt} : ∃ k, (⟨![0, .nan, .inf false]⟩ : Vec 3 (Flt f)).norm_inf = .ok ((⟨![0, .nan, .inf false]⟩ : Vec 3 (Flt f)) k) :=
  (C111_norm_inf _).imp fun _ h => h.1

/-- C111: `adjoint` never panics, whatever the entries. -/
theorem C111_adjoint {f : Fmt} (A : Mat 4 (Flt f)) : ∃ B, adjoint A = .ok B := ⟨_, rfl⟩

/-! ## C112: sine of a quaternion -/

private theorem small {f : Fmt} (hp : 8 ≤ f.p) : f.u ≤ 1 / 256 ∧ f.eta ≤ f.u / 256 := by
  have hu : f.u ≤ 1 / 256 := by
    unfold Fmt.u
    calc (2 : ℝ) ^ (-(f.p : ℤ)) ≤ (2 : ℝ) ^ (-8 : ℤ) := zpow_le_zpow_right₀ (by norm_num) (by omega)
      _ = 1 / 256 := by norm_num
  refine ⟨hu, ?_⟩
  have h := f.hmin
  calc f.eta ≤ (2 : ℝ) ^ (-(f.p : ℤ) + (-8)) := zpow_le_zpow_right₀ (by norm_num) (by omega)
    _ = f.u / 256 := by rw [zpow_add₀ (by norm_num)]; unfold Fmt.u; norm_num; ring

private theorem sq_low {f : Fmt} (hp : 8 ≤ f.p) {a : Flt f} (h : (a * a).IsFin) :
    a.toReal ^ 2 * (255 / 256) - 1 / 65536 ≤ (a * a).toReal ∧ (a * a).toReal ≤ a.toReal ^ 2 * (257 / 256) + f.eta := by
  obtain ⟨hu, he⟩ := small hp
  have hu0 := f.u_pos
  have h1 := abs_le.1 (mul_err h)
  have h2 : |a.toReal * a.toReal| = a.toReal ^ 2 := by rw [← sq, abs_sq]
  rw [h2] at h1
  have h3 : f.u * a.toReal ^ 2 ≤ 1 / 256 * a.toReal ^ 2 := mul_le_mul_of_nonneg_right hu (sq_nonneg _)
  have h4 : f.eta ≤ 1 / 65536 := by linarith
  constructor <;> nlinarith [h1.1, h1.2]

private theorem add_low {f : Fmt} (hp : 8 ≤ f.p) {a b : Flt f} (h : (a + b).IsFin) :
    (a.toReal + b.toReal) - |a.toReal + b.toReal| / 256 ≤ (a + b).toReal ∧
    (a + b).toReal ≤ (a.toReal + b.toReal) + |a.toReal + b.toReal| / 256 := by
  obtain ⟨hu, he⟩ := small hp
  have h1 := abs_le.1 (add_rel h)
  have h3 : f.u * |a.toReal + b.toReal| ≤ 1 / 256 * |a.toReal + b.toReal| :=
    mul_le_mul_of_nonneg_right hu (abs_nonneg _)
  constructor <;> linarith [h1.1, h1.2]

private theorem abs2_low {f : Fmt} (hp : 8 ≤ f.p) (q : Quat (Flt f)) (h : q.abs2.IsFin) (k : Fin 3)
    (hk : 9 / 10 ≤ |(q.q k).toReal|) : 1 / 2 ≤ q.abs2.toReal := by
  unfold Quat.abs2 at h ⊢
  obtain ⟨h3, h3'⟩ := isFin_of_add h
  obtain ⟨h2, h2'⟩ := isFin_of_add h3
  obtain ⟨h1, h1'⟩ := isFin_of_add h2
  have a0 := (sq_low hp h1).1
  have a1 := (sq_low hp h1').1
  have a2 := (sq_low hp h2').1
  have a3 := (sq_low hp h3').1
  have b1 := (add_low hp h2).1
  have b2 := (add_low hp h3).1
  have b3 := (add_low hp h).1
  have hk2 : 81 / 100 ≤ (q.q k).toReal ^ 2 := by
    rw [← sq_abs]
    nlinarith
  have s0 := sq_nonneg q.q0.toReal
  have s1 := sq_nonneg (q.q 0).toReal
  have s2 := sq_nonneg (q.q 1).toReal
  have s3 := sq_nonneg (q.q 2).toReal
  rcases abs_cases ((q.q0 * q.q0).toReal + (q.q 0 * q.q 0).toReal) with ⟨e1, -⟩ | ⟨e1, -⟩ <;>
  rcases abs_cases ((q.q0 * q.q0 + q.q 0 * q.q 0).toReal + (q.q 1 * q.q 1).toReal) with ⟨e2, -⟩ | ⟨e2, -⟩ <;>
  rcases abs_cases ((q.q0 * q.q0 + q.q 0 * q.q 0 + q.q 1 * q.q 1).toReal + (q.q 2 * q.q 2).toReal) with
    ⟨e3, -⟩ | ⟨e3, -⟩ <;>
  rw [e1] at b1 <;> rw [e2] at b2 <;> rw [e3] at b3 <;>
  fin_cases k <;> simp only [Fin.zero_eta, Fin.mk_one, Fin.reduceFinMk] at hk2 <;> linarith

private theorem two_val {f : Fmt} : ((1 : Flt f) + 1).IsFin ∧ ((1 : Flt f) + 1).toReal = 2 := by
  have h1 := f.hp
  have h2 := f.hmin
  have h3 := f.hmax
  have hr : f.Rep |(1 : Flt f).toReal + (1 : Flt f).toReal| := by
    rw [toReal_one, one_add_one_eq_two, abs_two]
    have := f.rep_two_zpow 1 (by omega) (by omega)
    rwa [zpow_one] at this
  have := add_exact (isFin_one (f := f)) isFin_one hr
  rw [toReal_one, one_add_one_eq_two] at this
  exact this

private theorem l_smul {f : Fmt} (l : Quat (Flt f)) (c : Flt f) : (l.smul c).normalized = false := rfl

private theorem not_small {f : Fmt} (hp : 8 ≤ f.p) (q : Quat (Flt f))
    (h : q.abs2.IsFin → ∃ k, 9 / 10 ≤ |(q.q k).toReal|) : ¬ q.TooSmall := by
  rintro ⟨h1, h2⟩
  obtain ⟨k, hk⟩ := h h1
  have h3 := abs2_low hp q h1 k hk
  have h4 : (2 : ℝ) ^ (1 - (f.p : ℤ)) ≤ 1 / 2 := by
    calc (2 : ℝ) ^ (1 - (f.p : ℤ)) ≤ (2 : ℝ) ^ (-1 : ℤ) := zpow_le_zpow_right₀ (by norm_num) (by omega)
      _ = 1 / 2 := by norm_num
  linarith [le_abs_self q.abs2.toReal]

private theorem abs2_comp {f : Fmt} {q : Quat (Flt f)} (h : q.abs2.IsFin) (k : Fin 3) : (q.q k).IsFin := by
  unfold Quat.abs2 at h
  obtain ⟨h3, h3'⟩ := isFin_of_add h
  obtain ⟨h2, h2'⟩ := isFin_of_add h3
  obtain ⟨h1, h1'⟩ := isFin_of_add h2
  fin_cases k
  · exact (isFin_of_mul h1').1
  · exact (isFin_of_mul h2').1
  · exact (isFin_of_mul h3').1

private theorem smul_q {f : Fmt} (l : Quat (Flt f)) (c : Flt f) (k : Fin 3) : (l.smul c).q k = l.q k * c := by
  fin_cases k <;> rfl
private theorem sdiv_q {f : Fmt} (l : Quat (Flt f)) (c : Flt f) (k : Fin 3) : (l.sdiv c).q k = l.q k / c := by
  fin_cases k <;> rfl

private theorem axis_ok {f : Fmt} (hp : 8 ≤ f.p) :
    ¬ ((⟨0, V3.x_axis, true⟩ : Quat (Flt f)).smul (1 + 1)).TooSmall := by
  refine not_small hp _ fun _ => ⟨0, ?_⟩
  rw [smul_q]
  change 9 / 10 ≤ |((1 : Flt f) * (1 + 1)).toReal|
  rw [one_mul', two_val.2]
  norm_num

private theorem fin_ok {f : Fmt} (hp : 8 ≤ f.p) (v : Vec 3 (Flt f)) (a : Flt f) (ha : a.IsFin)
    (hd : (V3.dot v v).IsFin) (he : a.toReal = (V3.dot v v).toReal) (hlt : 2 * f.u < a.toReal) (b : Bool) (z : Flt f) :
    ¬ ((⟨z, V3.sdiv v (Flt.sqrt a), b⟩ : Quat (Flt f)).smul (1 + 1)).TooSmall := by
  obtain ⟨hu, heta⟩ := small hp
  have hu0 := f.u_pos
  obtain ⟨hs, hs1, hs2⟩ := sqrt_rel ha (by linarith)
  refine not_small hp _ fun h => ?_
  -- the largest component
  obtain ⟨k, hk⟩ : ∃ k : Fin 3, a.toReal * (3 / 10) ≤ (v k).toReal ^ 2 := by
    by_contra hc
    push Not at hc
    rw [he] at hc hlt
    unfold V3.dot at hd hc hlt
    obtain ⟨h2, h2'⟩ := isFin_of_add hd
    obtain ⟨h1, h1'⟩ := isFin_of_add h2
    have a0 := (sq_low hp h1).2
    have a1 := (sq_low hp h1').2
    have a2 := (sq_low hp h2').2
    have b1 := (add_low hp h2).2
    have b2 := (add_low hp hd).2
    have c0 := hc 0
    have c1 := hc 1
    have c2 := hc 2
    rcases abs_cases ((v 0 * v 0).toReal + (v 1 * v 1).toReal) with ⟨e1, -⟩ | ⟨e1, -⟩ <;>
    rcases abs_cases ((v 0 * v 0 + v 1 * v 1).toReal + (v 2 * v 2).toReal) with ⟨e2, -⟩ | ⟨e2, -⟩ <;>
    rw [e1] at b1 <;> rw [e2] at b2 <;> linarith
  have hl : ∀ k, ((⟨z, V3.sdiv v (Flt.sqrt a), b⟩ : Quat (Flt f)).smul (1 + 1)).q k = v k / Flt.sqrt a * (1 + 1) := by
    intro k
    fin_cases k <;> rfl
  refine ⟨k, ?_⟩
  have hf := abs2_comp h k
  rw [hl] at hf ⊢
  obtain ⟨hd1, hd2⟩ := div_err hs (isFin_of_mul hf).1
  have hm := mul_err hf
  rw [two_val.2] at hm
  have hspos : 0 < (Flt.sqrt a).toReal := lt_of_le_of_ne hs2 (Ne.symm hd1)
  have ha0 : 0 < a.toReal := by linarith
  have hsle : (Flt.sqrt a).toReal ^ 2 ≤ a.toReal * (257 / 256) ^ 2 := by
    have h1 := (abs_le.1 hs1).2
    have h2 : f.u * √a.toReal ≤ 1 / 256 * √a.toReal := mul_le_mul_of_nonneg_right hu (Real.sqrt_nonneg _)
    calc (Flt.sqrt a).toReal ^ 2 ≤ (√a.toReal * (257 / 256)) ^ 2 := pow_le_pow_left₀ hs2 (by linarith) 2
      _ = a.toReal * (257 / 256) ^ 2 := by rw [mul_pow, Real.sq_sqrt ha0.le]
  have hr : 54 / 100 ≤ |(v k).toReal / (Flt.sqrt a).toReal| := by
    refine (pow_le_pow_iff_left₀ (by norm_num) (abs_nonneg _) two_ne_zero).1 ?_
    rw [sq_abs, div_pow (v k).toReal, le_div_iff₀ (by positivity)]
    nlinarith
  have hum : f.u * |(v k).toReal / (Flt.sqrt a).toReal| ≤ 1 / 256 * |(v k).toReal / (Flt.sqrt a).toReal| :=
    mul_le_mul_of_nonneg_right hu (abs_nonneg _)
  have he4 : f.eta ≤ 1 / 65536 := by linarith
  have hl1 : 53 / 100 ≤ |(v k / Flt.sqrt a).toReal| := by
    have := abs_sub_abs_le_abs_sub ((v k).toReal / (Flt.sqrt a).toReal) (v k / Flt.sqrt a).toReal
    rw [abs_sub_comm] at this
    linarith
  rw [abs_mul, abs_two] at hm
  have hm2 := abs_sub_abs_le_abs_sub ((v k / Flt.sqrt a).toReal * 2) (v k / Flt.sqrt a * (1 + 1)).toReal
  rw [abs_sub_comm, abs_mul, abs_two] at hm2
  have hum2 : f.u * (|(v k / Flt.sqrt a).toReal| * 2) ≤ 1 / 256 * (|(v k / Flt.sqrt a).toReal| * 2) :=
    mul_le_mul_of_nonneg_right hu (by positivity)
  linarith

private theorem lt_eps {f : Fmt} [Libm f] (a : Flt f) (ha : a.IsFin) :
    ROrd.lt RFloat.epsilon a = true ↔ 2 * f.u < a.toReal := by
  have e : (Flt.epsilon f).toReal = 2 * f.u := by
    change (2 : ℝ) ^ (1 - (f.p : ℤ)) = _
    rw [sub_eq_add_neg, zpow_add₀ (by norm_num), zpow_one]
    rfl
  rw [← e]
  exact lt_iff (a := Flt.epsilon f) trivial ha

private theorem zero_mul_val {f : Fmt} {a b : Flt f} (ha : a.IsFin ∧ a.toReal = 0) (hb : b.IsFin) :
    (a * b).IsFin ∧ (a * b).toReal = 0 := by
  obtain ⟨ha, h0⟩ := ha
  rcases a with _ | s | ⟨s, x, hx⟩
  · exact absurd ha id
  · exact absurd ha id
  rcases b with _ | t | ⟨t, y, hy⟩
  · exact absurd hb id
  · exact absurd hb id
  have hx0 : x = 0 := sgn_eq_zero.1 h0
  have e : (fin s x hx * fin t y hy : Flt f) = fin (s != t) 0 f.rep_zero := by
    change pack f (s != t) (x * y) = _
    rw [hx0, zero_mul]
    exact pack_rep f.rep_zero
  rw [e]
  exact ⟨trivial, sgn_eq_zero.2 rfl⟩

private theorem zeros_small {f : Fmt} {v : Vec 3 (Flt f)} (hf : ∀ k, (v k).IsFin) :
    ((⟨0 / .inf false, V3.sdiv v (.inf false), true⟩ : Quat (Flt f)).smul (1 + 1)).TooSmall := by
  have h2 := (two_val (f := f)).1
  have c : ∀ a : Flt f, a.IsFin → (a / .inf false * (1 + 1) * (a / .inf false * (1 + 1))).IsFin ∧
      (a / .inf false * (1 + 1) * (a / .inf false * (1 + 1))).toReal = 0 := fun a ha => by
    have h := zero_mul_val (div_inf ha false) h2
    exact zero_mul_val h h.1
  have c0 := c 0 isFin_zero
  have c1 := c _ (hf 0)
  have c2 := c _ (hf 1)
  have c3 := c _ (hf 2)
  have s1 := add_zero_val c0.1 c1.1 c1.2
  have s2 := add_zero_val s1.1 c2.1 c2.2
  have s3 := add_zero_val s2.1 c3.1 c3.2
  refine ⟨s3.1, ?_⟩
  have e : ((⟨0 / .inf false, V3.sdiv v (.inf false), true⟩ : Quat (Flt f)).smul (1 + 1)).abs2.toReal = 0 :=
    s3.2.trans (s2.2.trans (s1.2.trans c0.2))
  rw [e, abs_zero]
  positivity

/-- C112, what holds: in floating point `Quaternion::sin` panics exactly on quaternions with finite
imaginary part whose squared length overflows to infinity (with 8 or more significant bits). In
particular NaN or infinite components do not make it panic. -/
theorem C112_sin_partial {f : Fmt} [Libm f] (hp : 8 ≤ f.p) (q : Quat (Flt f)) :
    ((∀ k, (q.q k).IsFin) ∧ V3.dot q.q q.q = .inf false → q.sin = .error .unwrapNone) ∧
    (¬ ((∀ k, (q.q k).IsFin) ∧ V3.dot q.q q.q = .inf false) → ∃ r, q.sin = .ok r) := by
  have h00 : ((0 : Flt f) * 0).IsFin ∧ ((0 : Flt f) * 0).toReal = 0 := mul_zero_fin isFin_zero
  have hsin : q.sin = ((q.mul q.argq).exp.sub (q.mul q.argq.neg).exp).div (q.argq.smul (1 + 1)) := rfl
  have hpan : (q.argq.smul (1 + 1)).TooSmall → q.sin = .error .unwrapNone := fun h => by
    rw [hsin]
    exact (C111_quat_div _ _).1 ⟨rfl, h⟩
  have hok : ¬ (q.argq.smul (1 + 1)).TooSmall → ∃ r, q.sin = .ok r := fun h => by
    rw [hsin]
    exact (C111_quat_div _ _).2 fun h' => h h'.2
  have harg : q.argq = if ROrd.lt RFloat.epsilon ((0 : Flt f) * 0 + V3.dot q.q q.q) then
      ⟨0 / Flt.sqrt ((0 : Flt f) * 0 + V3.dot q.q q.q), V3.sdiv q.q (Flt.sqrt ((0 : Flt f) * 0 + V3.dot q.q q.q)), true⟩
      else ⟨0, V3.x_axis, true⟩ := rfl
  by_cases hd : (V3.dot q.q q.q).IsFin
  · have hz := zero_add_val h00.1 hd h00.2
    refine ⟨fun h => ?_, fun _ => hok ?_⟩
    · rw [h.2] at hd
      exact hd.elim
    · rw [harg]
      split
      · rename_i h
        rw [lt_eps _ hz.1] at h
        exact fin_ok hp q.q _ hz.1 hd hz.2 h _ _
      · exact axis_ok hp
  · rcases notFin_cases hd with hd | ⟨s, hd⟩
    · have e : q.argq = ⟨0, V3.x_axis, true⟩ := by
        rw [harg, if_neg]
        rw [hd]
        have : (0 : Flt f) * 0 + .nan = .nan := by rw [add_comm']; rfl
        rw [this]
        intro h
        rw [lt_key] at h
        exact h.2.1 rfl
      refine ⟨fun h => ?_, fun _ => hok (by rw [e]; exact axis_ok hp)⟩
      rw [hd] at h
      cases h.2
    · have e1 : (0 : Flt f) * 0 + V3.dot q.q q.q = .inf s := by rw [hd]; exact fin_add_inf h00.1 s
      cases s with
      | true =>
        have e : q.argq = ⟨0, V3.x_axis, true⟩ := by
          rw [harg, e1, if_neg]
          intro h
          cases h
        refine ⟨fun h => ?_, fun _ => hok (by rw [e]; exact axis_ok hp)⟩
        rw [hd] at h
        cases h.2
      | false =>
        have e : q.argq = ⟨0 / .inf false, V3.sdiv q.q (.inf false), true⟩ := by
          rw [harg, e1, if_pos]
          · rfl
          · rfl
        by_cases hf : ∀ k, (q.q k).IsFin
        · refine ⟨fun _ => hpan ?_, fun h => absurd ⟨hf, hd⟩ h⟩
          rw [e]
          exact zeros_small hf
        · refine ⟨fun h => absurd h.1 hf, fun _ => hok ?_⟩
          push Not at hf
          obtain ⟨k, hk⟩ := hf
          rw [e]
          intro h
          have := abs2_comp h.1 k
          rw [smul_q] at this
          have h2 := (isFin_of_mul this).1
          have h3 : ((⟨0 / .inf false, V3.sdiv q.q (.inf false), true⟩ : Quat (Flt f))).q k = q.q k / .inf false := by
            fin_cases k <;> rfl
          rw [h3] at h2
          rcases notFin_cases hk with hk | ⟨s, hk⟩ <;> (rw [hk] at h2; exact h2)

example : let _ := anyLibm Fmt.f32
    ∃ r, (⟨0, ⟨![.nan, .inf true, 0]⟩, false⟩ : Quat (Flt Fmt.f32)).sin = .ok r := by
  let _ := anyLibm Fmt.f32
  exact (C112_sin_partial (by decide) _).2 fun h => h.1 0

/-- C112, the negation: `Quaternion::sin` panics on a quaternion all of whose components are finite. -/
theorem C112_sin_false {f : Fmt} [Libm f] (hp : 8 ≤ f.p) : ∃ q : Quat (Flt f), q.q0.IsFin ∧ (∀ k, (q.q k).IsFin) ∧
    q.sin = .error .unwrapNone := by
  have hz := mul_zero_fin (isFin_zero (f := f))
  have hf : ∀ k, ((⟨fun i => if i = 0 then maxValue f else 0⟩ : Vec 3 (Flt f)) k).IsFin := by
    intro k
    by_cases h : k = 0
    · simp only [h, if_true]; trivial
    · simp only [h, if_false]; trivial
  refine ⟨⟨0, ⟨fun i => if i = 0 then maxValue f else 0⟩, false⟩, trivial, hf, (C112_sin_partial hp _).1 ⟨hf, ?_⟩⟩
  exact orderedSum_inf (V3.dot_order (⟨fun i => if i = 0 then maxValue f else 0⟩ : Vec 3 (Flt f))
      ⟨fun i => if i = 0 then maxValue f else 0⟩) 0 false (max_mul_max f)
      (fun j hj => by simp only [hj, if_false]; exact hz)

end StaticMath
