#!/usr/bin/env python3
"""Writes lean/Verif/Props/IeeeNorm.lean (C106)."""
out=['''import Verif.Ieee.Sqrt
import Verif.Lemmas.Quat
import Verif.Props.Ieee
import Verif.Props.IeeeDet

/-!
# C106: accuracy of norms and of normalisation in floating point

Generated by `tools/gen_props_ieee_norm.py`. The hypothesis on the components says that no square
underflows; `(1 + u)^(n+1) ≤ 3/2` holds for `f32` and `f64`.
-/

namespace StaticMath
open Flt
''']
for n in range(2,7):
    V=f'V{n}'
    out.append(f'''/-- `norm2()` is accurate to a few units in the last place, and `normalize()` succeeds and returns nearly
the unit vector in the same direction. -/
theorem C106_{V} {{f : Fmt}} [Libm f] (v : Vec {n} (Flt f)) (hv : ∀ k, (v k).IsFin) (h : ({V}.norm2 v).IsFin)
    (hn : ∀ k, (v k).toReal = 0 ∨ (2 : ℝ) ^ f.emin ≤ (v k).toReal ^ 2) (hκ : (1 + f.u) ^ {n+1} ≤ 3 / 2) :
    let N := √(∑ k, (v k).toReal ^ 2)
    let κ := (1 + f.u) ^ {n+1} - 1
    let c := (κ + f.u) / (1 - κ)
    |({V}.norm2 v).toReal - N| ≤ κ * N ∧
    (0 < N → ∃ w, {V}.normalize v = .ok (.ok w) ∧
      (∀ k, (w k).IsFin ∧ |(w k).toReal - (v k).toReal / N| ≤ c * (|(v k).toReal| / N) + f.eta) ∧
      |√(∑ k, (w k).toReal ^ 2) - 1| ≤ c + √{n} * f.eta) := by
  have hu := f.u_pos
  have hle : (1 + f.u) ^ {n} ≤ (1 + f.u) ^ {n+1} := pow_le_pow_right₀ (by linarith) (by omega)
  have hs : IsOrderedSum ({V}.dot v v) (fun k => v k * v k) := {V}.dot_order v v
  have he : {V}.norm2 v = Flt.sqrt ({V}.dot v v) := rfl
  have h1 := norm_rel hs (isFin_of_sqrt h) hn (by linarith)
  refine ⟨h1.2.2, fun hN => ?_⟩
  obtain ⟨h2, h3, h4⟩ := normalize_core hs hv h hn hκ (Real.sqrt_pos.mp hN)
  have hb : ¬ROrd.beq ({V}.norm2 v) 0 = true := by
    rw [beq_iff h isFin_zero, toReal_zero, he]
    exact ((half_pos hN).trans_le h2).ne'
  refine ⟨⟨fun k => v k / {V}.norm2 v⟩, ?_, h3, by exact_mod_cast h4⟩
  unfold {V}.normalize
  rw [normalizeGen_eq, if_neg hb]
''')
out.append('''
/-- The four components. -/
private def qc {T : Type} (q : Quat T) : Fin 4 → T := ![q.q0, q.q 0, q.q 1, q.q 2]

private theorem qdot_order {f : Fmt} (q : Quat (Flt f)) : IsOrderedSum (q.dot q) (fun k => qc q k * qc q k) :=
  ⟨1, [2, 3, 0], by decide, by
    change q.q0 * q.q0 + V3.dot q.q q.q = q.q 0 * q.q 0 + q.q 1 * q.q 1 + q.q 2 * q.q 2 + q.q0 * q.q0
    rw [add_comm']
    rfl⟩

/-- Quaternions: `norm2()` is accurate, and `normalize()` of a quaternion not flagged as normalized and
of norm at least twice the machine epsilon returns nearly the unit quaternion. -/
theorem C106_quaternion {f : Fmt} [Libm f] (q : Quat (Flt f)) (hf : q.normalized = false) (hq0 : q.q0.IsFin)
    (hq : ∀ k, (q.q k).IsFin) (h : q.norm2.IsFin)
    (hn0 : q.q0.toReal = 0 ∨ (2 : ℝ) ^ f.emin ≤ q.q0.toReal ^ 2)
    (hn : ∀ k, (q.q k).toReal = 0 ∨ (2 : ℝ) ^ f.emin ≤ (q.q k).toReal ^ 2) (hκ : (1 + f.u) ^ 5 ≤ 3 / 2) :
    let N := √(q.q0.toReal ^ 2 + ∑ k, (q.q k).toReal ^ 2)
    let κ := (1 + f.u) ^ 5 - 1
    let c := (κ + f.u) / (1 - κ)
    |q.norm2.toReal - N| ≤ κ * N ∧
    (2 * (2 : ℝ) ^ (1 - (f.p : ℤ)) ≤ N → ∃ w, q.normalize = some w ∧ w.normalized = true ∧
      (w.q0.IsFin ∧ |w.q0.toReal - q.q0.toReal / N| ≤ c * (|q.q0.toReal| / N) + f.eta) ∧
      (∀ k, (w.q k).IsFin ∧ |(w.q k).toReal - (q.q k).toReal / N| ≤ c * (|(q.q k).toReal| / N) + f.eta) ∧
      |√(w.q0.toReal ^ 2 + ∑ k, (w.q k).toReal ^ 2) - 1| ≤ c + 2 * f.eta) := by
  have hu := f.u_pos
  have hle : (1 + f.u) ^ 4 ≤ (1 + f.u) ^ 5 := pow_le_pow_right₀ (by linarith) (by omega)
  have he : q.norm2 = Flt.sqrt (q.dot q) := rfl
  have hfin : ∀ k, (qc q k).IsFin := by
    intro k; fin_cases k
    exacts [hq0, hq 0, hq 1, hq 2]
  have hnn : ∀ k, (qc q k).toReal = 0 ∨ (2 : ℝ) ^ f.emin ≤ (qc q k).toReal ^ 2 := by
    intro k; fin_cases k
    exacts [hn0, hn 0, hn 1, hn 2]
  have hsum (g : Flt f → ℝ) (x : Quat (Flt f)) : ∑ k, g (qc x k) = g x.q0 + ∑ k, g (x.q k) := by
    rw [Fin.sum_univ_four, Fin.sum_univ_three, ← add_assoc, ← add_assoc]
    rfl
  have h1 := norm_rel (qdot_order q) (isFin_of_sqrt h) hnn (by linarith)
  rw [hsum (fun x => x.toReal ^ 2)] at h1
  refine ⟨h1.2.2, fun hN => ?_⟩
  have hN0 : 0 < √(q.q0.toReal ^ 2 + ∑ k, (q.q k).toReal ^ 2) := lt_of_lt_of_le (by positivity) hN
  obtain ⟨h2, h3, h4⟩ := normalize_core (qdot_order q) hfin h hnn hκ (by
    rw [hsum (fun x => x.toReal ^ 2)]; exact Real.sqrt_pos.mp hN0)
  rw [hsum (fun x => x.toReal ^ 2)] at h2
  simp only [hsum (fun x => x.toReal ^ 2)] at h3
  have hz : nearly_zero q.norm2 = false := by
    rw [← Bool.not_eq_true, nearly_zero_flt]
    rintro ⟨-, hlt⟩
    rw [he, abs_of_pos ((half_pos hN0).trans_le h2)] at hlt
    linarith
  refine ⟨⟨q.q0 / q.norm2, ⟨fun k => q.q k / q.norm2⟩, true⟩, ?_, rfl, h3 0, fun k => ?_, ?_⟩
  · unfold Quat.normalize
    rw [hf]
    simp only [hz, Bool.false_eq_true, if_false, Bool.not_false, if_true]
    congr 2
    ext k
    fin_cases k <;> rfl
  · fin_cases k
    exacts [h3 1, h3 2, h3 3]
  · have e4 : √((4 : ℕ) : ℝ) = 2 := by
      rw [show ((4 : ℕ) : ℝ) = 2 ^ 2 by norm_num]; exact Real.sqrt_sq (by norm_num)
    rw [e4] at h4
    have e5 := hsum (fun x => x.toReal ^ 2) ⟨q.q0 / q.norm2, ⟨fun k => q.q k / q.norm2⟩, true⟩
    rw [← e5]
    have e6 : ∀ k, qc (⟨q.q0 / q.norm2, ⟨fun k => q.q k / q.norm2⟩, true⟩ : Quat (Flt f)) k =
        qc q k / Flt.sqrt (q.dot q) := by
      intro k; fin_cases k <;> rfl
    simp only [e6]
    exact h4

/-- When the norm overflows, `normalize()` of a quaternion returns the zero quaternion, flagged as
normalized; such finite quaternions exist in every format. -/
theorem C106_quaternion_overflow {f : Fmt} [Libm f] :
    (∀ q : Quat (Flt f), q.normalized = false → q.q0.IsFin → (∀ k, (q.q k).IsFin) → q.norm2 = inf false →
      ∃ w, q.normalize = some w ∧ w.normalized = true ∧ w.q0.IsFin ∧ w.q0.toReal = 0 ∧
        ∀ k, (w.q k).IsFin ∧ (w.q k).toReal = 0) ∧
    ∃ q : Quat (Flt f), q.normalized = false ∧ q.q0.IsFin ∧ (∀ k, (q.q k).IsFin) ∧ q.norm2 = inf false := by
  refine ⟨fun q hf h0 hq hi => ?_, ?_⟩
  · have hz : nearly_zero q.norm2 = false := by
      rw [← Bool.not_eq_true, nearly_zero_flt, hi]
      exact fun h => h.1
    have d0 := div_inf h0 false
    have dk (k : Fin 3) := div_inf (hq k) false
    refine ⟨⟨q.q0 / q.norm2, ⟨fun k => q.q k / q.norm2⟩, true⟩, ?_, rfl, ?_, ?_, fun k => ?_⟩
    · unfold Quat.normalize
      rw [hf]
      simp only [hz, Bool.false_eq_true, if_false, Bool.not_false, if_true]
      congr 2
      ext k
      fin_cases k <;> rfl
    · rw [hi]; exact d0.1
    · rw [hi]; exact d0.2
    · rw [hi]; exact dk k
  · refine ⟨⟨maxValue f, ⟨fun _ => 0⟩, false⟩, rfl, trivial, fun _ => trivial, ?_⟩
    change Flt.sqrt _ = _
    rw [orderedSum_inf (qdot_order (⟨maxValue f, ⟨fun _ => 0⟩, false⟩ : Quat (Flt f))) 0 false (max_mul_max f)
      (fun j hj => by
        fin_cases j
        · exact absurd rfl hj
        all_goals exact mul_zero_fin isFin_zero)]
    rfl

/-- Concrete case: the vector `(1, 1)` in single precision; its norm is accurate to `3 u` or so. -/
example [Libm Fmt.f32] :
    |(V2.norm2 (⟨fun _ => 1⟩ : Vec 2 (Flt Fmt.f32))).toReal - √2| ≤ ((1 + Fmt.f32.u) ^ 3 - 1) * √2 := by
  have hu : Fmt.f32.u = 1 / 16777216 := by norm_num [Fmt.u, Fmt.f32]
  have hi : (1 : Flt Fmt.f32).IntLe 1 := ⟨isFin_one, 1, by rw [toReal_one]; norm_num, by norm_num⟩
  have hd := ((C104_integers_M22 (⟨fun _ _ => 1⟩ : Mat 2 (Flt Fmt.f32)) ⟨fun _ _ => 1⟩ ⟨fun _ => 1⟩ ⟨fun _ => 1⟩ 1 le_rfl
    (fun _ _ => hi) (fun _ _ => hi) (fun _ => hi) (fun _ => hi)).2.1 (by norm_num [Fmt.f32])).2.2
  have h := (C106_V2 (⟨fun _ => 1⟩ : Vec 2 (Flt Fmt.f32)) (fun _ => isFin_one)
    (sqrt_rel hd.1 (by rw [hd.2]; simp)).1
    (fun _ => Or.inr (by rw [toReal_one]; norm_num [Fmt.f32])) (by rw [hu]; norm_num)).1
  have e : (∑ _k : Fin 2, (1 : Flt Fmt.f32).toReal ^ 2) = 2 := by simp
  rw [e] at h
  exact h

/-- Concrete case: the quaternion `1 + i + j + k`. -/
example [Libm Fmt.f32] : ∃ w, (⟨1, ⟨fun _ => 1⟩, false⟩ : Quat (Flt Fmt.f32)).normalize = some w ∧ w.normalized = true := by
  have hu : Fmt.f32.u = 1 / 16777216 := by norm_num [Fmt.u, Fmt.f32]
  have hi : (1 : Flt Fmt.f32).IntLe 1 := ⟨isFin_one, 1, by rw [toReal_one]; norm_num, by norm_num⟩
  have hd := Ex.exact_of (x := fun _ : Unit => (1 : Flt Fmt.f32)) le_rfl (fun _ => hi)
    (Quat.dot ⟨.var (), ⟨fun _ => .var ()⟩, false⟩ ⟨.var (), ⟨fun _ => .var ()⟩, false⟩) (t := 4) (d := 2) rfl rfl
    (by norm_num [Fmt.f32])
  have h0 : 0 ≤ ((⟨1, ⟨fun _ => 1⟩, false⟩ : Quat (Flt Fmt.f32)).dot ⟨1, ⟨fun _ => 1⟩, false⟩).toReal := by
    refine le_of_le_of_eq ?_ hd.2.symm
    change (0 : ℝ) ≤ _ * _ + (_ * _ + _ * _ + _ * _)
    exact add_nonneg (mul_self_nonneg _) (add_nonneg (add_nonneg (mul_self_nonneg _) (mul_self_nonneg _)) (mul_self_nonneg _))
  have hs : (1 : Flt Fmt.f32).toReal = 0 ∨ (2 : ℝ) ^ Fmt.f32.emin ≤ (1 : Flt Fmt.f32).toReal ^ 2 :=
    Or.inr (by rw [toReal_one]; norm_num [Fmt.f32])
  obtain ⟨w, h1, h2, -⟩ := (C106_quaternion (⟨1, ⟨fun _ => 1⟩, false⟩ : Quat (Flt Fmt.f32)) rfl isFin_one
    (fun _ => isFin_one) (sqrt_rel hd.1 h0).1 hs (fun _ => hs) (by rw [hu]; norm_num)).2 (by
      apply Real.le_sqrt_of_sq_le
      simp only [toReal_one]
      norm_num [Fmt.f32])
  exact ⟨w, h1, h2⟩

end StaticMath
''')
open('/verif/lean/Verif/Props/IeeeNorm.lean','w').write('\n'.join(out))
