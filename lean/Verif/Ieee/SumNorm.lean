import Verif.Ieee.Sqrt

/-!
# Norms in every range and sums of stored numbers, in floating point
-/

namespace StaticMath
namespace Flt
variable {f : Fmt} {n : ℕ}

theorem nonneg_of_sqrt {a : Flt f} (h : (sqrt a).IsFin) : 0 ≤ a.toReal := by
  rcases a with _ | s | ⟨s, x, hx⟩
  · exact absurd h id
  · cases s <;> exact absurd h id
  · cases s
    · exact hx.nonneg
    · by_cases hx0 : x = 0
      · simp [toReal, sgn, hx0]
      · have e : sqrt (fin true x hx) = nan := (if_neg hx0).trans rfl
        rw [e] at h
        exact absurd h id

/-- Square root of a sum of squares some of which may underflow. -/
theorem norm_err {r : Flt f} {a : Fin n → Flt f} (hs : IsOrderedSum r (fun k => a k * a k)) (h : (sqrt r).IsFin)
    (hκ : (1 + f.u) ^ n ≤ 2) :
    0 ≤ (sqrt r).toReal ∧ |(sqrt r).toReal - √(∑ k, (a k).toReal ^ 2)| ≤
      ((1 + f.u) ^ (n + 1) - 1) * √(∑ k, (a k).toReal ^ 2) + (1 + f.u) * √((1 + f.u) ^ n * (n * f.eta)) := by
  have hu := f.u_pos
  have hr := isFin_of_sqrt h
  have hr0 := nonneg_of_sqrt h
  have h1 := orderedSum_err hs hr
  have e1 : ∀ k, (a k).toReal * (a k).toReal = (a k).toReal ^ 2 := fun k => (sq _).symm
  have e2 : ∀ k, |(a k).toReal ^ 2| = (a k).toReal ^ 2 := fun k => abs_of_nonneg (sq_nonneg _)
  simp only [e1, e2] at h1
  obtain ⟨-, g2, g3⟩ := sqrt_rel hr hr0
  refine ⟨g3, ?_⟩
  have hs0 : 0 ≤ ∑ k, (a k).toReal ^ 2 := Finset.sum_nonneg fun k _ => sq_nonneg _
  have hp1 : (1 : ℝ) ≤ (1 + f.u) ^ n := one_le_pow₀ (by linarith)
  have hc0 : 0 ≤ (1 + f.u) ^ n * (n * f.eta) := by have := f.eta_pos; positivity
  rw [pow_succ]
  generalize ∑ k, (a k).toReal ^ 2 = s at *
  generalize (1 + f.u) ^ n * (n * f.eta) = c at *
  generalize (1 + f.u) ^ n = p at *
  obtain ⟨l1, l2⟩ := abs_le.1 h1
  have sub (x y : ℝ) (hx : 0 ≤ x) (hy : 0 ≤ y) : √(x + y) ≤ √x + √y := by
    rw [Real.sqrt_le_left (by positivity), add_sq, Real.sq_sqrt hx, Real.sq_sqrt hy]
    have := mul_nonneg (Real.sqrt_nonneg x) (Real.sqrt_nonneg y)
    linarith
  have hS := Real.sqrt_nonneg s
  have hup : √r.toReal ≤ p * √s + √c := by
    calc √r.toReal ≤ √(p * s + c) := Real.sqrt_le_sqrt (by linarith)
      _ ≤ √(p * s) + √c := sub _ _ (by positivity) hc0
      _ ≤ √(p ^ 2 * s) + √c := by
          gcongr
          nlinarith
      _ = p * √s + √c := by rw [Real.sqrt_mul (by positivity), Real.sqrt_sq (by linarith)]
  have hlo : (2 - p) * √s ≤ √r.toReal + √c := by
    calc (2 - p) * √s = √((2 - p) ^ 2 * s) := by rw [Real.sqrt_mul (by positivity), Real.sqrt_sq (by linarith)]
      _ ≤ √(r.toReal + c) := Real.sqrt_le_sqrt (by
          have : (2 - p) ^ 2 * s ≤ (2 - p) * s := mul_le_mul_of_nonneg_right (by nlinarith) hs0
          linarith)
      _ ≤ _ := sub _ _ hr0 hc0
  obtain ⟨m1, m2⟩ := abs_le.1 g2
  have hR := Real.sqrt_nonneg r.toReal
  have hC := Real.sqrt_nonneg c
  generalize √r.toReal = R at *
  generalize √s = S at *
  generalize √c = C at *
  rw [abs_le]
  have k1 : f.u * R ≤ f.u * (p * S + C) := mul_le_mul_of_nonneg_left hup hu.le
  have k2 := mul_nonneg hu.le hC
  constructor <;> nlinarith

/-- Left-to-right sum of stored numbers. -/
theorem sum_err {r : Flt f} {a : Fin (n + 1) → Flt f} (hs : IsOrderedSum r a) (h : r.IsFin) :
    |r.toReal - ∑ k, (a k).toReal| ≤ ((1 + f.u) ^ n - 1) * ∑ k, |(a k).toReal| := by
  have hu := f.u_pos
  obtain ⟨k, l, hp, rfl⟩ := hs
  have ex (b : Flt f) : Approx 1 b b.toReal |b.toReal| 0 :=
    ⟨by rw [sub_self, abs_zero, pow_one]; have := abs_nonneg b.toReal; nlinarith, le_rfl, le_rfl⟩
  rw [← perm_sum hp (fun k => (a k).toReal), ← perm_sum hp (fun k => |(a k).toReal|)]
  have hl := perm_length hp
  rcases l with _ | ⟨j, l⟩
  · have h0 : n = 0 := by simpa using hl.symm
    subst h0
    simp
  · have h1 := (isFin_of_foldl a l _ h).1
    have h2 : Approx 1 (a k + a j) ((a k).toReal + (a j).toReal) (|(a k).toReal| + |(a j).toReal|) 0 := by
      refine ⟨?_, abs_add_le _ _, le_rfl⟩
      rw [pow_one]
      have := add_rel h1
      have := mul_le_mul_of_nonneg_left (abs_add_le (a k).toReal (a j).toReal) hu.le
      linarith
    have H := (approx_foldl a (fun k => (a k).toReal) (fun k => |(a k).toReal|) (fun _ => 0) l 1 le_rfl _ _ _ _ h2
      (fun j _ => ex (a j)) h).err
    have e : 1 + l.length = n := by simp at hl; omega
    rw [e] at H
    simpa [add_assoc] using H

theorem mul_self_nonneg' {a : Flt f} (h : (a * a).IsFin) : 0 ≤ (a * a).toReal := by
  rcases a with _ | s | ⟨s, x, hx⟩
  · exact absurd h id
  · exact absurd (isFin_of_mul h).1 id
  · have e : (fin s x hx : Flt f) * fin s x hx = pack f (s != s) (x * x) := rfl
    rw [e, bne_self_eq_false] at h ⊢
    obtain ⟨hr, e2⟩ := pack_fin h
    rw [e2]
    exact hr.nonneg

/-- A sum of nonnegative terms that does not overflow. -/
theorem foldl_isFin {ι : Type} (g : ι → Flt f) (l : List ι) (a : Flt f) {s c : ℝ} (ha : a.IsFin) (h0 : 0 ≤ a.toReal)
    (hs : a.toReal ≤ s) (hc : 0 ≤ c) (hg : ∀ j ∈ l, (g j).IsFin ∧ 0 ≤ (g j).toReal ∧ (g j).toReal ≤ c)
    (h : (1 + f.u) ^ l.length * (s + l.length * c) < (2 : ℝ) ^ (f.emax + 1)) :
    (l.foldl (fun s j => s + g j) a).IsFin ∧ 0 ≤ (l.foldl (fun s j => s + g j) a).toReal := by
  have hu := f.u_pos
  have hu2 := f.u_le
  induction l generalizing a s with
  | nil => exact ⟨ha, h0⟩
  | cons j l ih =>
    obtain ⟨j1, j2, j3⟩ := hg j (by simp)
    have hlen : ((j :: l).length : ℝ) = l.length + 1 := by simp
    rw [List.length_cons, pow_succ] at h
    push_cast at h
    have hp1 : (1 : ℝ) ≤ (1 + f.u) ^ l.length := one_le_pow₀ (by linarith)
    have hlc : 0 ≤ (l.length : ℝ) * c := by positivity
    have hsum : |a.toReal + (g j).toReal| ≤ s + c := by rw [abs_of_nonneg (by linarith)]; linarith
    have hstep : (1 + f.u) ^ l.length * ((1 + f.u) * (s + c) + l.length * c) < (2 : ℝ) ^ (f.emax + 1) := by
      refine lt_of_le_of_lt ?_ h
      have : (1 + f.u) * (s + c) + l.length * c ≤ (1 + f.u) * (s + (l.length + 1) * c) := by nlinarith
      calc _ ≤ (1 + f.u) ^ l.length * ((1 + f.u) * (s + (l.length + 1) * c)) := by gcongr
        _ = _ := by ring
    have hsc : 0 ≤ s + c := by linarith
    have hfin : (a + g j).IsFin := by
      refine add_isFin ha j1 ?_
      have h1 : (1 + f.u) * |a.toReal + (g j).toReal| ≤ (1 + f.u) * (s + c) := mul_le_mul_of_nonneg_left hsum (by linarith)
      have h2 : (1 + f.u) * (s + c) ≤ (1 + f.u) ^ l.length * ((1 + f.u) * (s + c) + l.length * c) := by
        have : 0 ≤ (1 + f.u) * (s + c) := by positivity
        nlinarith
      linarith
    have hr := abs_le.1 (add_rel hfin)
    rw [abs_of_nonneg (by linarith)] at hr
    refine ih (a + g j) (s := (1 + f.u) * (s + c)) hfin (by nlinarith) (by nlinarith) (fun i hi => hg i (by simp [hi])) hstep

/-- A norm that does not overflow. -/
theorem norm_isFin {r : Flt f} {a : Fin n → Flt f} {B : ℝ} (hs : IsOrderedSum r (fun k => a k * a k))
    (ha : ∀ k, (a k).IsFin ∧ |(a k).toReal| ≤ B)
    (h : (1 + f.u) ^ n * (n * ((1 + f.u) * B ^ 2 + f.eta)) < (2 : ℝ) ^ (f.emax + 1)) : (sqrt r).IsFin := by
  have hu := f.u_pos
  have hη := f.eta_pos
  obtain ⟨k, l, hp, rfl⟩ := hs
  have hl := perm_length hp
  have hlr : (n : ℝ) = 1 + l.length := by
    have := congrArg (Nat.cast (R := ℝ)) hl
    push_cast at this
    exact this.symm
  have hC0 : 0 ≤ (1 + f.u) * B ^ 2 + f.eta := by positivity
  have hp1 : (1 : ℝ) ≤ (1 + f.u) ^ n := one_le_pow₀ (by linarith)
  have hn1 : (1 : ℝ) ≤ n := by
    have : (0 : ℝ) ≤ l.length := by positivity
    linarith
  have sq (k : Fin n) : (a k * a k).IsFin ∧ 0 ≤ (a k * a k).toReal ∧ (a k * a k).toReal ≤ (1 + f.u) * B ^ 2 + f.eta := by
    obtain ⟨h1, h2⟩ := ha k
    have h3 : |(a k).toReal * (a k).toReal| ≤ B ^ 2 := by
      rw [abs_mul, ← _root_.sq]
      exact pow_le_pow_left₀ (abs_nonneg _) h2 2
    have h4 : (a k * a k).IsFin := by
      refine mul_isFin h1 h1 (lt_of_le_of_lt (mul_le_mul_of_nonneg_left h3 (by linarith)) (lt_of_le_of_lt ?_ h))
      have : (1 + f.u) * B ^ 2 + f.eta ≤ n * ((1 + f.u) * B ^ 2 + f.eta) := by nlinarith
      nlinarith
    have h5 := abs_le.1 (mul_err h4)
    have h6 := mul_le_mul_of_nonneg_left h3 hu.le
    have h7 := le_abs_self ((a k).toReal * (a k).toReal)
    exact ⟨h4, mul_self_nonneg' h4, by linarith⟩
  obtain ⟨q1, q2⟩ := foldl_isFin (fun k => a k * a k) l (a k * a k) (sq k).1 (sq k).2.1 (sq k).2.2 hC0 (fun j _ => sq j) (by
    refine lt_of_le_of_lt ?_ h
    have e : (1 + f.u) * B ^ 2 + f.eta + l.length * ((1 + f.u) * B ^ 2 + f.eta) = n * ((1 + f.u) * B ^ 2 + f.eta) := by rw [hlr]; ring
    rw [e]
    gcongr
    · linarith
    · omega)
  exact (sqrt_rel q1 q2).1

end Flt
end StaticMath
