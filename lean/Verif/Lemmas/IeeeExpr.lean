import Verif.Ieee.ExprBounds

/-!
# Interface between expressions and the model functions
-/

namespace StaticMath
variable {f : Fmt}

namespace Flt

/-- A finite float whose value is an integer of magnitude at most `K`. -/
def IntLe (K : ℕ) (a : Flt f) : Prop := a.IsFin ∧ ∃ z : ℤ, a.toReal = z ∧ |z| ≤ K

/-- A finite float of magnitude at most `B`. -/
def FinLe (B : ℝ) (a : Flt f) : Prop := a.IsFin ∧ |a.toReal| ≤ B

end Flt

namespace Ex
variable {ι : Type} {x : ι → Flt f}

theorem exact_of {K t d : ℕ} (hK : 1 ≤ K) (hx : ∀ i, (x i).IntLe K) (e : Ex ι) (ht : terms e = t) (hd : deg e = d)
    (h : t * K ^ d ≤ 2 ^ f.p) : (evalF x e).IsFin ∧ (evalF x e).toReal = evalR (vals x) e := by
  have hz : ∀ i, (x i).toReal = (hx i).2.choose := fun i => (hx i).2.choose_spec.1
  have h1 := evalF_exact hK (fun i => (hx i).2.choose) (fun i => (hx i).1) hz (fun i => by
    rw [hz i]
    have := (hx i).2.choose_spec.2
    exact_mod_cast this) e (by rw [ht, hd]; exact h)
  exact ⟨h1.1, h1.2.1⟩

theorem isFin_of {B : ℝ} {k c d : ℕ} (hB : 1 ≤ B) (hx : ∀ i, (x i).FinLe B) (e : Ex ι) (hk : depth e = k)
    (hc : cnt e = c) (hd : deg e = d) (h : (1 + f.u) ^ k * (c * B ^ d) < (2 : ℝ) ^ (f.emax + 1)) :
    (evalF x e).IsFin :=
  evalF_isFin hB (fun i => (hx i).1) (fun i => (hx i).2) e (by rw [hk, hc, hd]; exact h)

theorem err_of {B : ℝ} {k : ℕ} {l : List ℕ} (hx : ∀ i, |(x i).toReal| ≤ B) (e : Ex ι) (hl : linear e = true)
    (hk : depth e = k) (hu : und e = l) (h : (evalF x e).IsFin) :
    |(evalF x e).toReal - evalR (vals x) e| ≤
      ((1 + f.u) ^ k - 1) * absE 0 (vals x) e + (1 + f.u) ^ k * (f.eta * polyL B l) := by
  have h1 := evalF_err x e h
  have h2 := absE_linear f.eta_pos.le (vals x) hx e hl
  unfold Bd at h1
  rw [hk] at h1
  rw [hu] at h2
  have h3 : (0 : ℝ) ≤ (1 + f.u) ^ k := by have := f.u_pos; positivity
  have h4 := mul_le_mul_of_nonneg_left h2 h3
  rw [mul_add] at h4
  linarith

theorem err_of_le {S U : ℝ} {k : ℕ} (e : Ex ι) (hk : depth e = k) (hS : absE 0 (vals x) e ≤ S)
    (hU : absE f.eta (vals x) e ≤ absE 0 (vals x) e + f.eta * U) (h : (evalF x e).IsFin) :
    |(evalF x e).toReal - evalR (vals x) e| ≤ ((1 + f.u) ^ k - 1) * S + (1 + f.u) ^ k * (f.eta * U) := by
  have h1 := evalF_err x e h
  unfold Bd at h1
  rw [hk] at h1
  have h3 : (1 : ℝ) ≤ (1 + f.u) ^ k := one_le_pow₀ (by have := f.u_pos; linarith)
  have h4 := mul_le_mul_of_nonneg_left hU (zero_le_one.trans h3)
  rw [mul_add] at h4
  have h5 := mul_le_mul_of_nonneg_left hS (sub_nonneg.mpr h3)
  linarith

end Ex
end StaticMath
