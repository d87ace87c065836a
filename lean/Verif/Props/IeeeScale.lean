import Verif.Ieee.Scale
import Verif.Ieee.Mono
import Verif.Ieee.Near
import Verif.Props.IeeeNorm

/-!
# C130: a change of units by a power of two changes no bit of the result but the exponent

Generated by `tools/gen_props_ieee_scale.py`. `Scaled k a b`: the finite float `b` is exactly `2^k` times `a`, with the same
sign (also of zero). `a.OnGrid G`: a finite float that is an integer multiple of `2^(-G)`; by `C130_grid` every float that
is zero or of magnitude at least `2^(-L)` is one for `G = L + p - 1`. The hypotheses `f.emin ≤ …` exclude underflow of
products, the hypotheses `IsFin` overflow.
-/

namespace StaticMath
open Flt

/-- Two matrices of variables. -/
private def varsL (n : ℕ) : Mat n (Ex (Fin n × Fin n ⊕ Fin n × Fin n)) := ⟨fun i j => .var (.inl (i, j))⟩
private def varsR (n : ℕ) : Mat n (Ex (Fin n × Fin n ⊕ Fin n × Fin n)) := ⟨fun i j => .var (.inr (i, j))⟩
/-- A matrix and a vector of variables. -/
private def varsM (n : ℕ) : Mat n (Ex (Fin n × Fin n ⊕ Fin n)) := ⟨fun i j => .var (.inl (i, j))⟩
private def varsV (n : ℕ) : Vec n (Ex (Fin n × Fin n ⊕ Fin n)) := ⟨fun i => .var (.inr i)⟩
/-- Two vectors of variables. -/
private def varsA (n : ℕ) : Vec n (Ex (Fin n ⊕ Fin n)) := ⟨fun i => .var (.inl i)⟩
private def varsB (n : ℕ) : Vec n (Ex (Fin n ⊕ Fin n)) := ⟨fun i => .var (.inr i)⟩
/-- The first operand has weight `(1, 0)`, the second `(0, 1)`. -/
private def wt {α β : Type} : α ⊕ β → ℤ × ℤ := Sum.elim (fun _ => (1, 0)) fun _ => (0, 1)

private theorem wt_scaled {f : Fmt} {α β : Type} {j k : ℤ} {x x' : α → Flt f} {y y' : β → Flt f}
    (hx : ∀ i, Scaled j (x i) (x' i)) (hy : ∀ i, Scaled k (y i) (y' i)) (i : α ⊕ β) :
    Scaled (Ex.ex j k (wt i)) (Sum.elim x y i) (Sum.elim x' y' i) := by
  rcases i with i | i
  · simpa [Ex.ex, wt] using hx i
  · simpa [Ex.ex, wt] using hy i

private theorem elim_grid {f : Fmt} {α β : Type} {G : ℕ} {x : α → Flt f} {y : β → Flt f} (hx : ∀ i, (x i).OnGrid G)
    (hy : ∀ i, (y i).OnGrid G) (i : α ⊕ β) : (Sum.elim x y i).OnGrid G := by
  rcases i with i | i
  · exact hx i
  · exact hy i

/-- Floats that are zero or of magnitude at least `2^(-L)` are multiples of `2^(-(L + p - 1))`. -/
theorem C130_grid {f : Fmt} {L : ℕ} {a : Flt f} (ha : a.IsFin) (h : a.toReal = 0 ∨ (2 : ℝ) ^ (-(L : ℤ)) ≤ |a.toReal|) :
    a.OnGrid (L + f.p - 1) := OnGrid.of_le ha h

/-- Sums and differences scale in every range, subnormal numbers included. -/
theorem C130_sum {f : Fmt} {a a' b b' : Flt f} {k : ℤ} (ha : Scaled k a a') (hb : Scaled k b b') :
    ((a + b).IsFin → (a' + b').IsFin → Scaled k (a + b) (a' + b')) ∧
    ((a - b).IsFin → (a' - b').IsFin → Scaled k (a - b) (a' - b')) :=
  ⟨ha.add hb, ha.sub hb⟩

private theorem norm_sqrt {f : Fmt} {G : ℕ} {r : ℝ} (hG : f.emin ≤ -((G * 2 : ℕ) : ℤ))
    (h : ∃ z : ℤ, r = z * (2 : ℝ) ^ (-((G * 2 : ℕ) : ℤ))) : f.Norm (Real.sqrt r) := by
  obtain ⟨z, rfl⟩ := h
  have hp : (0 : ℝ) < (2 : ℝ) ^ (-((G * 2 : ℕ) : ℤ)) := by positivity
  rcases le_or_gt z 0 with hz | hz
  · left
    refine Real.sqrt_eq_zero_of_nonpos (mul_nonpos_of_nonpos_of_nonneg ?_ hp.le)
    exact_mod_cast hz
  · right
    rw [abs_of_nonneg (Real.sqrt_nonneg _)]
    refine Real.le_sqrt_of_sq_le ?_
    have hz1 : (1 : ℝ) ≤ z := by exact_mod_cast hz
    have h2 : ((2 : ℝ) ^ f.emin) ^ 2 ≤ (2 : ℝ) ^ (-((G * 2 : ℕ) : ℤ)) := by
      rw [← zpow_natCast, ← zpow_mul]
      refine zpow_le_zpow_right₀ (by norm_num) ?_
      have := f.hmin
      push_cast
      push_cast at hG
      omega
    exact h2.trans (le_mul_of_one_le_left hp.le hz1)

private theorem grid_ge {f : Fmt} {G : ℕ} {a : Flt f} (h : a.OnGrid G) (h0 : a.toReal ≠ 0) :
    (2 : ℝ) ^ (-(G : ℤ)) ≤ |a.toReal| := by
  obtain ⟨z, hz⟩ := h.2
  have hp : (0 : ℝ) < (2 : ℝ) ^ (-(G : ℤ)) := by positivity
  have hz0 : z ≠ 0 := by
    rintro rfl
    exact h0 (by rw [hz]; simp)
  have h1 : (1 : ℝ) ≤ |(z : ℝ)| := by
    have := Int.one_le_abs hz0
    exact_mod_cast this
  rw [hz, abs_mul, abs_of_pos hp]
  exact le_mul_of_one_le_left hp.le h1

private theorem sq_grid {f : Fmt} {G : ℕ} {a : Flt f} (hG : f.emin ≤ -((G * 2 : ℕ) : ℤ)) (h : a.OnGrid G) :
    a.toReal = 0 ∨ (2 : ℝ) ^ f.emin ≤ a.toReal ^ 2 := by
  by_cases h0 : a.toReal = 0
  · exact Or.inl h0
  · right
    have h1 := grid_ge h h0
    have hp : (0 : ℝ) < (2 : ℝ) ^ (-(G : ℤ)) := by positivity
    have h2 : ((2 : ℝ) ^ (-(G : ℤ))) ^ 2 ≤ |a.toReal| ^ 2 := pow_le_pow_left₀ hp.le h1 2
    rw [sq_abs] at h2
    refine le_trans ?_ h2
    rw [← zpow_natCast, ← zpow_mul]
    refine zpow_le_zpow_right₀ (by norm_num) ?_
    push_cast at hG ⊢
    omega

private theorem norm_div {f : Fmt} {G L : ℕ} {a b : Flt f} (hG : f.emin ≤ -((G + L : ℕ) : ℤ)) (h : a.OnGrid G)
    (hb : b.toReal ≠ 0) (hL : |b.toReal| ≤ 2 ^ L) : f.Norm (a.toReal / b.toReal) := by
  by_cases h0 : a.toReal = 0
  · left; simp [h0]
  · right
    have h1 := grid_ge h h0
    rw [abs_div, le_div_iff₀ (abs_pos.2 hb)]
    have hp : (0 : ℝ) < (2 : ℝ) ^ f.emin := by positivity
    calc (2 : ℝ) ^ f.emin * |b.toReal| ≤ (2 : ℝ) ^ f.emin * 2 ^ L := mul_le_mul_of_nonneg_left hL hp.le
      _ = (2 : ℝ) ^ (f.emin + L) := by rw [zpow_add₀ (by norm_num), zpow_natCast]
      _ ≤ (2 : ℝ) ^ (-(G : ℤ)) := by
        refine zpow_le_zpow_right₀ (by norm_num) ?_
        push_cast at hG
        omega
      _ ≤ _ := h1

/-- Scaling a `2x2` matrix by `2^k` scales its determinant by `2^(2 k)`. -/
theorem C130_det_M22 {f : Fmt} {A A' : Mat 2 (Flt f)} {k : ℤ} {G : ℕ} (hA : ∀ i j, Scaled k (A i j) (A' i j))
    (gA : ∀ i j, (A i j).OnGrid G) (gA' : ∀ i j, (A' i j).OnGrid G) (hG : f.emin ≤ -((G * 2 : ℕ) : ℤ))
    (h : (M22.det A).IsFin) (h' : (M22.det A').IsFin) : Scaled (2 * k) (M22.det A) (M22.det A') := by
  have h1 := (Ex.scaled (w := fun _ => (1, 0)) (l := k) (k := 0) (x := fun q : Fin 2 × Fin 2 => A q.1 q.2)
    (y := fun q : Fin 2 × Fin 2 => A' q.1 q.2) (fun q => by simpa [Ex.ex] using hA q.1 q.2) (fun q => gA q.1 q.2)
    (fun q => gA' q.1 q.2) (M22.det (Mat.vars 2))
    (by rw [show Ex.deg (M22.det (Mat.vars 2)) = 2 by decide +kernel]; exact hG) h h').1 (2, 0) (by decide +kernel)
  rw [show Ex.ex k 0 (2, 0) = 2 * k by simp [Ex.ex]] at h1
  exact h1

/-- Scaling the factors of a product of `2x2` matrices by `2^j` and `2^k` scales the product by `2^(j + k)`. -/
theorem C130_mul_M22 {f : Fmt} {A A' B B' : Mat 2 (Flt f)} {k l : ℤ} {G : ℕ} (hA : ∀ i j, Scaled k (A i j) (A' i j))
    (hB : ∀ i j, Scaled l (B i j) (B' i j)) (gA : ∀ i j, (A i j).OnGrid G) (gA' : ∀ i j, (A' i j).OnGrid G)
    (gB : ∀ i j, (B i j).OnGrid G) (gB' : ∀ i j, (B' i j).OnGrid G) (hG : f.emin ≤ -((G * 2 : ℕ) : ℤ)) (i j : Fin 2)
    (h : (M22.mul A B i j).IsFin) (h' : (M22.mul A' B' i j).IsFin) :
    Scaled (k + l) (M22.mul A B i j) (M22.mul A' B' i j) := by
  have e : ∀ A B : Mat 2 (Flt f), (M22.mul (varsL 2) (varsR 2) i j).evalF
      (Sum.elim (fun q : Fin 2 × Fin 2 => A q.1 q.2) fun q => B q.1 q.2) = M22.mul A B i j := by
    intro A B
    fin_cases i <;> fin_cases j <;> rfl
  have hdg : ∀ i j, Ex.deg (M22.mul (varsL 2) (varsR 2) i j) = 2 := by decide +kernel
  have hhom : ∀ i j, Ex.hom wt (M22.mul (varsL 2) (varsR 2) i j) = .deg (1, 1) := by decide +kernel
  have h1 := (Ex.scaled (w := wt) (wt_scaled (fun q : Fin 2 × Fin 2 => hA q.1 q.2) fun q : Fin 2 × Fin 2 => hB q.1 q.2)
    (elim_grid (fun q => gA q.1 q.2) fun q => gB q.1 q.2) (elim_grid (fun q => gA' q.1 q.2) fun q => gB' q.1 q.2)
    (M22.mul (varsL 2) (varsR 2) i j)
    (by rw [hdg i j]; exact hG)
    (by rw [e]; exact h) (by rw [e]; exact h')).1 (1, 1) (hhom i j)
  rw [e, e, show Ex.ex k l (1, 1) = k + l by simp [Ex.ex]] at h1
  exact h1

/-- The same for a matrix and a vector. -/
theorem C130_mulVec_M22 {f : Fmt} {A A' : Mat 2 (Flt f)} {v v' : Vec 2 (Flt f)} {k l : ℤ} {G : ℕ}
    (hA : ∀ i j, Scaled k (A i j) (A' i j)) (hv : ∀ i, Scaled l (v i) (v' i)) (gA : ∀ i j, (A i j).OnGrid G)
    (gA' : ∀ i j, (A' i j).OnGrid G) (gv : ∀ i, (v i).OnGrid G) (gv' : ∀ i, (v' i).OnGrid G)
    (hG : f.emin ≤ -((G * 2 : ℕ) : ℤ)) (i : Fin 2) (h : (M22.mulVec A v i).IsFin) (h' : (M22.mulVec A' v' i).IsFin) :
    Scaled (k + l) (M22.mulVec A v i) (M22.mulVec A' v' i) := by
  have e : ∀ (A : Mat 2 (Flt f)) (v : Vec 2 (Flt f)), (M22.mulVec (varsM 2) (varsV 2) i).evalF
      (Sum.elim (fun q : Fin 2 × Fin 2 => A q.1 q.2) fun q => v q) = M22.mulVec A v i := by
    intro A v
    fin_cases i <;> rfl
  have hdg : ∀ i, Ex.deg (M22.mulVec (varsM 2) (varsV 2) i) = 2 := by decide +kernel
  have hhom : ∀ i, Ex.hom wt (M22.mulVec (varsM 2) (varsV 2) i) = .deg (1, 1) := by decide +kernel
  have h1 := (Ex.scaled (w := wt) (wt_scaled (fun q : Fin 2 × Fin 2 => hA q.1 q.2) hv)
    (elim_grid (fun q => gA q.1 q.2) gv) (elim_grid (fun q => gA' q.1 q.2) gv') (M22.mulVec (varsM 2) (varsV 2) i)
    (by rw [hdg i]; exact hG)
    (by rw [e]; exact h) (by rw [e]; exact h')).1 (1, 1) (hhom i)
  rw [e, e, show Ex.ex k l (1, 1) = k + l by simp [Ex.ex]] at h1
  exact h1

/-- Scaling vectors by `2^k` and `2^l` scales their dot product by `2^(k + l)`. -/
theorem C130_dot_V2 {f : Fmt} {v v' w w' : Vec 2 (Flt f)} {k l : ℤ} {G : ℕ} (hv : ∀ i, Scaled k (v i) (v' i))
    (hw : ∀ i, Scaled l (w i) (w' i)) (gv : ∀ i, (v i).OnGrid G) (gv' : ∀ i, (v' i).OnGrid G)
    (gw : ∀ i, (w i).OnGrid G) (gw' : ∀ i, (w' i).OnGrid G) (hG : f.emin ≤ -((G * 2 : ℕ) : ℤ))
    (h : (V2.dot v w).IsFin) (h' : (V2.dot v' w').IsFin) : Scaled (k + l) (V2.dot v w) (V2.dot v' w') := by
  have h1 := (Ex.scaled (w := wt) (wt_scaled hv hw) (elim_grid gv gw) (elim_grid gv' gw') (V2.dot (varsA 2) (varsB 2))
    (by rw [show Ex.deg (V2.dot (varsA 2) (varsB 2)) = 2 by decide +kernel]; exact hG) h h').1 (1, 1) (by decide +kernel)
  rw [show Ex.ex k l (1, 1) = k + l by simp [Ex.ex]] at h1
  exact h1

private theorem dot_grid_V2 {f : Fmt} {v : Vec 2 (Flt f)} {G : ℕ} (gv : ∀ i, (v i).OnGrid G) (h : (V2.dot v v).IsFin) :
    ∃ z : ℤ, (V2.dot v v).toReal = z * (2 : ℝ) ^ (-((G * 2 : ℕ) : ℤ)) := by
  have h1 := Ex.grid (elim_grid gv gv) (V2.dot (varsA 2) (varsB 2)) h
  rw [show Ex.deg (V2.dot (varsA 2) (varsB 2)) = 2 by decide +kernel] at h1
  exact h1

/-- Scaling a vector by `2^k` scales its norm by `2^k`. -/
theorem C130_norm2_V2 {f : Fmt} [Libm f] {v v' : Vec 2 (Flt f)} {k : ℤ} {G : ℕ} (hv : ∀ i, Scaled k (v i) (v' i))
    (gv : ∀ i, (v i).OnGrid G) (gv' : ∀ i, (v' i).OnGrid G) (hG : f.emin ≤ -((G * 2 : ℕ) : ℤ))
    (h : (V2.norm2 v).IsFin) (h' : (V2.norm2 v').IsFin) : Scaled k (V2.norm2 v) (V2.norm2 v') := by
  have d := isFin_of_sqrt h
  have d' := isFin_of_sqrt h'
  have h1 := C130_dot_V2 hv hv gv gv' gv gv' hG d d'
  rw [← two_mul] at h1
  exact h1.sqrt h h' (norm_sqrt hG (dot_grid_V2 gv d)) (norm_sqrt hG (dot_grid_V2 gv' d'))

/-- Scaling a vector by a power of two leaves its `normalize()` unchanged, bit for bit. -/
theorem C130_normalize_V2 {f : Fmt} [Libm f] {v v' : Vec 2 (Flt f)} {k : ℤ} {G L : ℕ} (hv : ∀ i, Scaled k (v i) (v' i))
    (gv : ∀ i, (v i).OnGrid G) (gv' : ∀ i, (v' i).OnGrid G) (hG : f.emin ≤ -((G * 2 : ℕ) : ℤ))
    (hL : f.emin ≤ -((G + L : ℕ) : ℤ)) (hκ : (1 + f.u) ^ 3 ≤ 3 / 2)
    (h : (V2.norm2 v).FinLe (2 ^ L)) (h' : (V2.norm2 v').FinLe (2 ^ L)) :
    V2.normalize v' = V2.normalize v := by
  have hN := C130_norm2_V2 hv gv gv' hG h.1 h'.1
  have key : ∀ v : Vec 2 (Flt f), (∀ i, (v i).OnGrid G) → (V2.norm2 v).IsFin → (V2.norm2 v).toReal ≠ 0 →
      ∀ i, (v i / V2.norm2 v).IsFin := by
    intro v gv h h0 i
    obtain ⟨k1, k2⟩ := C106_V2 v (fun k => (gv k).1) h (fun k => sq_grid hG (gv k)) hκ
    have hNp : 0 < √(∑ k, (v k).toReal ^ 2) := by
      rcases (Real.sqrt_nonneg (∑ k, (v k).toReal ^ 2)).eq_or_lt with e | e
      · exfalso
        rw [← e, sub_zero, mul_zero] at k1
        exact h0 (abs_eq_zero.1 (le_antisymm k1 (abs_nonneg _)))
      · exact e
    obtain ⟨w, hw, hf, -⟩ := k2 hNp
    unfold V2.normalize at hw
    rw [normalizeGen_eq, if_neg (by rw [beq_iff h isFin_zero, toReal_zero]; exact h0)] at hw
    have e : (⟨fun i => v i / V2.norm2 v⟩ : Vec 2 (Flt f)) = w := by simpa using hw
    have := (hf i).1
    rw [← e] at this
    exact this
  unfold V2.normalize
  rw [normalizeGen_eq, normalizeGen_eq]
  by_cases h0 : (V2.norm2 v).toReal = 0
  · have h0' : (V2.norm2 v').toReal = 0 := by rw [hN.val, h0, mul_zero]
    rw [if_pos ((beq_iff h'.1 isFin_zero).2 (by rw [h0', toReal_zero])),
      if_pos ((beq_iff h.1 isFin_zero).2 (by rw [h0, toReal_zero]))]
  · have h0' : (V2.norm2 v').toReal ≠ 0 := by rw [hN.val]; exact mul_ne_zero (by positivity) h0
    rw [if_neg (by rw [beq_iff h'.1 isFin_zero, toReal_zero]; exact h0'),
      if_neg (by rw [beq_iff h.1 isFin_zero, toReal_zero]; exact h0)]
    have e : ∀ i, v' i / V2.norm2 v' = v i / V2.norm2 v := by
      intro i
      have h2 := (hv i).div hN h0 (key v gv h.1 h0 i) (key v' gv' h'.1 h0' i) (norm_div hL (gv i) h0 h.2)
        (norm_div hL (gv' i) h0' h'.2)
      rw [sub_self] at h2
      exact ((h2.eq_zero_iff).2 (Or.inl rfl)).symm
    simp only [e]

/-- Scaling a `3x3` matrix by `2^k` scales its determinant by `2^(3 k)`. -/
theorem C130_det_M33 {f : Fmt} {A A' : Mat 3 (Flt f)} {k : ℤ} {G : ℕ} (hA : ∀ i j, Scaled k (A i j) (A' i j))
    (gA : ∀ i j, (A i j).OnGrid G) (gA' : ∀ i j, (A' i j).OnGrid G) (hG : f.emin ≤ -((G * 3 : ℕ) : ℤ))
    (h : (M33.det A).IsFin) (h' : (M33.det A').IsFin) : Scaled (3 * k) (M33.det A) (M33.det A') := by
  have h1 := (Ex.scaled (w := fun _ => (1, 0)) (l := k) (k := 0) (x := fun q : Fin 3 × Fin 3 => A q.1 q.2)
    (y := fun q : Fin 3 × Fin 3 => A' q.1 q.2) (fun q => by simpa [Ex.ex] using hA q.1 q.2) (fun q => gA q.1 q.2)
    (fun q => gA' q.1 q.2) (M33.det (Mat.vars 3))
    (by rw [show Ex.deg (M33.det (Mat.vars 3)) = 3 by decide +kernel]; exact hG) h h').1 (3, 0) (by decide +kernel)
  rw [show Ex.ex k 0 (3, 0) = 3 * k by simp [Ex.ex]] at h1
  exact h1

/-- Scaling the factors of a product of `3x3` matrices by `2^j` and `2^k` scales the product by `2^(j + k)`. -/
theorem C130_mul_M33 {f : Fmt} {A A' B B' : Mat 3 (Flt f)} {k l : ℤ} {G : ℕ} (hA : ∀ i j, Scaled k (A i j) (A' i j))
    (hB : ∀ i j, Scaled l (B i j) (B' i j)) (gA : ∀ i j, (A i j).OnGrid G) (gA' : ∀ i j, (A' i j).OnGrid G)
    (gB : ∀ i j, (B i j).OnGrid G) (gB' : ∀ i j, (B' i j).OnGrid G) (hG : f.emin ≤ -((G * 2 : ℕ) : ℤ)) (i j : Fin 3)
    (h : (M33.mul A B i j).IsFin) (h' : (M33.mul A' B' i j).IsFin) :
    Scaled (k + l) (M33.mul A B i j) (M33.mul A' B' i j) := by
  have e : ∀ A B : Mat 3 (Flt f), (M33.mul (varsL 3) (varsR 3) i j).evalF
      (Sum.elim (fun q : Fin 3 × Fin 3 => A q.1 q.2) fun q => B q.1 q.2) = M33.mul A B i j := by
    intro A B
    fin_cases i <;> fin_cases j <;> rfl
  have hdg : ∀ i j, Ex.deg (M33.mul (varsL 3) (varsR 3) i j) = 2 := by decide +kernel
  have hhom : ∀ i j, Ex.hom wt (M33.mul (varsL 3) (varsR 3) i j) = .deg (1, 1) := by decide +kernel
  have h1 := (Ex.scaled (w := wt) (wt_scaled (fun q : Fin 3 × Fin 3 => hA q.1 q.2) fun q : Fin 3 × Fin 3 => hB q.1 q.2)
    (elim_grid (fun q => gA q.1 q.2) fun q => gB q.1 q.2) (elim_grid (fun q => gA' q.1 q.2) fun q => gB' q.1 q.2)
    (M33.mul (varsL 3) (varsR 3) i j)
    (by rw [hdg i j]; exact hG)
    (by rw [e]; exact h) (by rw [e]; exact h')).1 (1, 1) (hhom i j)
  rw [e, e, show Ex.ex k l (1, 1) = k + l by simp [Ex.ex]] at h1
  exact h1

/-- The same for a matrix and a vector. -/
theorem C130_mulVec_M33 {f : Fmt} {A A' : Mat 3 (Flt f)} {v v' : Vec 3 (Flt f)} {k l : ℤ} {G : ℕ}
    (hA : ∀ i j, Scaled k (A i j) (A' i j)) (hv : ∀ i, Scaled l (v i) (v' i)) (gA : ∀ i j, (A i j).OnGrid G)
    (gA' : ∀ i j, (A' i j).OnGrid G) (gv : ∀ i, (v i).OnGrid G) (gv' : ∀ i, (v' i).OnGrid G)
    (hG : f.emin ≤ -((G * 2 : ℕ) : ℤ)) (i : Fin 3) (h : (M33.mulVec A v i).IsFin) (h' : (M33.mulVec A' v' i).IsFin) :
    Scaled (k + l) (M33.mulVec A v i) (M33.mulVec A' v' i) := by
  have e : ∀ (A : Mat 3 (Flt f)) (v : Vec 3 (Flt f)), (M33.mulVec (varsM 3) (varsV 3) i).evalF
      (Sum.elim (fun q : Fin 3 × Fin 3 => A q.1 q.2) fun q => v q) = M33.mulVec A v i := by
    intro A v
    fin_cases i <;> rfl
  have hdg : ∀ i, Ex.deg (M33.mulVec (varsM 3) (varsV 3) i) = 2 := by decide +kernel
  have hhom : ∀ i, Ex.hom wt (M33.mulVec (varsM 3) (varsV 3) i) = .deg (1, 1) := by decide +kernel
  have h1 := (Ex.scaled (w := wt) (wt_scaled (fun q : Fin 3 × Fin 3 => hA q.1 q.2) hv)
    (elim_grid (fun q => gA q.1 q.2) gv) (elim_grid (fun q => gA' q.1 q.2) gv') (M33.mulVec (varsM 3) (varsV 3) i)
    (by rw [hdg i]; exact hG)
    (by rw [e]; exact h) (by rw [e]; exact h')).1 (1, 1) (hhom i)
  rw [e, e, show Ex.ex k l (1, 1) = k + l by simp [Ex.ex]] at h1
  exact h1

/-- Scaling vectors by `2^k` and `2^l` scales their dot product by `2^(k + l)`. -/
theorem C130_dot_V3 {f : Fmt} {v v' w w' : Vec 3 (Flt f)} {k l : ℤ} {G : ℕ} (hv : ∀ i, Scaled k (v i) (v' i))
    (hw : ∀ i, Scaled l (w i) (w' i)) (gv : ∀ i, (v i).OnGrid G) (gv' : ∀ i, (v' i).OnGrid G)
    (gw : ∀ i, (w i).OnGrid G) (gw' : ∀ i, (w' i).OnGrid G) (hG : f.emin ≤ -((G * 2 : ℕ) : ℤ))
    (h : (V3.dot v w).IsFin) (h' : (V3.dot v' w').IsFin) : Scaled (k + l) (V3.dot v w) (V3.dot v' w') := by
  have h1 := (Ex.scaled (w := wt) (wt_scaled hv hw) (elim_grid gv gw) (elim_grid gv' gw') (V3.dot (varsA 3) (varsB 3))
    (by rw [show Ex.deg (V3.dot (varsA 3) (varsB 3)) = 2 by decide +kernel]; exact hG) h h').1 (1, 1) (by decide +kernel)
  rw [show Ex.ex k l (1, 1) = k + l by simp [Ex.ex]] at h1
  exact h1

private theorem dot_grid_V3 {f : Fmt} {v : Vec 3 (Flt f)} {G : ℕ} (gv : ∀ i, (v i).OnGrid G) (h : (V3.dot v v).IsFin) :
    ∃ z : ℤ, (V3.dot v v).toReal = z * (2 : ℝ) ^ (-((G * 2 : ℕ) : ℤ)) := by
  have h1 := Ex.grid (elim_grid gv gv) (V3.dot (varsA 3) (varsB 3)) h
  rw [show Ex.deg (V3.dot (varsA 3) (varsB 3)) = 2 by decide +kernel] at h1
  exact h1

/-- Scaling a vector by `2^k` scales its norm by `2^k`. -/
theorem C130_norm2_V3 {f : Fmt} [Libm f] {v v' : Vec 3 (Flt f)} {k : ℤ} {G : ℕ} (hv : ∀ i, Scaled k (v i) (v' i))
    (gv : ∀ i, (v i).OnGrid G) (gv' : ∀ i, (v' i).OnGrid G) (hG : f.emin ≤ -((G * 2 : ℕ) : ℤ))
    (h : (V3.norm2 v).IsFin) (h' : (V3.norm2 v').IsFin) : Scaled k (V3.norm2 v) (V3.norm2 v') := by
  have d := isFin_of_sqrt h
  have d' := isFin_of_sqrt h'
  have h1 := C130_dot_V3 hv hv gv gv' gv gv' hG d d'
  rw [← two_mul] at h1
  exact h1.sqrt h h' (norm_sqrt hG (dot_grid_V3 gv d)) (norm_sqrt hG (dot_grid_V3 gv' d'))

/-- Scaling a vector by a power of two leaves its `normalize()` unchanged, bit for bit. -/
theorem C130_normalize_V3 {f : Fmt} [Libm f] {v v' : Vec 3 (Flt f)} {k : ℤ} {G L : ℕ} (hv : ∀ i, Scaled k (v i) (v' i))
    (gv : ∀ i, (v i).OnGrid G) (gv' : ∀ i, (v' i).OnGrid G) (hG : f.emin ≤ -((G * 2 : ℕ) : ℤ))
    (hL : f.emin ≤ -((G + L : ℕ) : ℤ)) (hκ : (1 + f.u) ^ 4 ≤ 3 / 2)
    (h : (V3.norm2 v).FinLe (2 ^ L)) (h' : (V3.norm2 v').FinLe (2 ^ L)) :
    V3.normalize v' = V3.normalize v := by
  have hN := C130_norm2_V3 hv gv gv' hG h.1 h'.1
  have key : ∀ v : Vec 3 (Flt f), (∀ i, (v i).OnGrid G) → (V3.norm2 v).IsFin → (V3.norm2 v).toReal ≠ 0 →
      ∀ i, (v i / V3.norm2 v).IsFin := by
    intro v gv h h0 i
    obtain ⟨k1, k2⟩ := C106_V3 v (fun k => (gv k).1) h (fun k => sq_grid hG (gv k)) hκ
    have hNp : 0 < √(∑ k, (v k).toReal ^ 2) := by
      rcases (Real.sqrt_nonneg (∑ k, (v k).toReal ^ 2)).eq_or_lt with e | e
      · exfalso
        rw [← e, sub_zero, mul_zero] at k1
        exact h0 (abs_eq_zero.1 (le_antisymm k1 (abs_nonneg _)))
      · exact e
    obtain ⟨w, hw, hf, -⟩ := k2 hNp
    unfold V3.normalize at hw
    rw [normalizeGen_eq, if_neg (by rw [beq_iff h isFin_zero, toReal_zero]; exact h0)] at hw
    have e : (⟨fun i => v i / V3.norm2 v⟩ : Vec 3 (Flt f)) = w := by simpa using hw
    have := (hf i).1
    rw [← e] at this
    exact this
  unfold V3.normalize
  rw [normalizeGen_eq, normalizeGen_eq]
  by_cases h0 : (V3.norm2 v).toReal = 0
  · have h0' : (V3.norm2 v').toReal = 0 := by rw [hN.val, h0, mul_zero]
    rw [if_pos ((beq_iff h'.1 isFin_zero).2 (by rw [h0', toReal_zero])),
      if_pos ((beq_iff h.1 isFin_zero).2 (by rw [h0, toReal_zero]))]
  · have h0' : (V3.norm2 v').toReal ≠ 0 := by rw [hN.val]; exact mul_ne_zero (by positivity) h0
    rw [if_neg (by rw [beq_iff h'.1 isFin_zero, toReal_zero]; exact h0'),
      if_neg (by rw [beq_iff h.1 isFin_zero, toReal_zero]; exact h0)]
    have e : ∀ i, v' i / V3.norm2 v' = v i / V3.norm2 v := by
      intro i
      have h2 := (hv i).div hN h0 (key v gv h.1 h0 i) (key v' gv' h'.1 h0' i) (norm_div hL (gv i) h0 h.2)
        (norm_div hL (gv' i) h0' h'.2)
      rw [sub_self] at h2
      exact ((h2.eq_zero_iff).2 (Or.inl rfl)).symm
    simp only [e]

/-- Scaling a `4x4` matrix by `2^k` scales its determinant by `2^(4 k)`. -/
theorem C130_det_M44 {f : Fmt} {A A' : Mat 4 (Flt f)} {k : ℤ} {G : ℕ} (hA : ∀ i j, Scaled k (A i j) (A' i j))
    (gA : ∀ i j, (A i j).OnGrid G) (gA' : ∀ i j, (A' i j).OnGrid G) (hG : f.emin ≤ -((G * 4 : ℕ) : ℤ))
    (h : (M44.det A).IsFin) (h' : (M44.det A').IsFin) : Scaled (4 * k) (M44.det A) (M44.det A') := by
  have h1 := (Ex.scaled (w := fun _ => (1, 0)) (l := k) (k := 0) (x := fun q : Fin 4 × Fin 4 => A q.1 q.2)
    (y := fun q : Fin 4 × Fin 4 => A' q.1 q.2) (fun q => by simpa [Ex.ex] using hA q.1 q.2) (fun q => gA q.1 q.2)
    (fun q => gA' q.1 q.2) (M44.det (Mat.vars 4))
    (by rw [show Ex.deg (M44.det (Mat.vars 4)) = 4 by decide +kernel]; exact hG) h h').1 (4, 0) (by decide +kernel)
  rw [show Ex.ex k 0 (4, 0) = 4 * k by simp [Ex.ex]] at h1
  exact h1

/-- Scaling the factors of a product of `4x4` matrices by `2^j` and `2^k` scales the product by `2^(j + k)`. -/
theorem C130_mul_M44 {f : Fmt} {A A' B B' : Mat 4 (Flt f)} {k l : ℤ} {G : ℕ} (hA : ∀ i j, Scaled k (A i j) (A' i j))
    (hB : ∀ i j, Scaled l (B i j) (B' i j)) (gA : ∀ i j, (A i j).OnGrid G) (gA' : ∀ i j, (A' i j).OnGrid G)
    (gB : ∀ i j, (B i j).OnGrid G) (gB' : ∀ i j, (B' i j).OnGrid G) (hG : f.emin ≤ -((G * 2 : ℕ) : ℤ)) (i j : Fin 4)
    (h : (M44.mul A B i j).IsFin) (h' : (M44.mul A' B' i j).IsFin) :
    Scaled (k + l) (M44.mul A B i j) (M44.mul A' B' i j) := by
  have e : ∀ A B : Mat 4 (Flt f), (M44.mul (varsL 4) (varsR 4) i j).evalF
      (Sum.elim (fun q : Fin 4 × Fin 4 => A q.1 q.2) fun q => B q.1 q.2) = M44.mul A B i j := by
    intro A B
    fin_cases i <;> fin_cases j <;> rfl
  have hdg : ∀ i j, Ex.deg (M44.mul (varsL 4) (varsR 4) i j) = 2 := by decide +kernel
  have hhom : ∀ i j, Ex.hom wt (M44.mul (varsL 4) (varsR 4) i j) = .deg (1, 1) := by decide +kernel
  have h1 := (Ex.scaled (w := wt) (wt_scaled (fun q : Fin 4 × Fin 4 => hA q.1 q.2) fun q : Fin 4 × Fin 4 => hB q.1 q.2)
    (elim_grid (fun q => gA q.1 q.2) fun q => gB q.1 q.2) (elim_grid (fun q => gA' q.1 q.2) fun q => gB' q.1 q.2)
    (M44.mul (varsL 4) (varsR 4) i j)
    (by rw [hdg i j]; exact hG)
    (by rw [e]; exact h) (by rw [e]; exact h')).1 (1, 1) (hhom i j)
  rw [e, e, show Ex.ex k l (1, 1) = k + l by simp [Ex.ex]] at h1
  exact h1

/-- The same for a matrix and a vector. -/
theorem C130_mulVec_M44 {f : Fmt} {A A' : Mat 4 (Flt f)} {v v' : Vec 4 (Flt f)} {k l : ℤ} {G : ℕ}
    (hA : ∀ i j, Scaled k (A i j) (A' i j)) (hv : ∀ i, Scaled l (v i) (v' i)) (gA : ∀ i j, (A i j).OnGrid G)
    (gA' : ∀ i j, (A' i j).OnGrid G) (gv : ∀ i, (v i).OnGrid G) (gv' : ∀ i, (v' i).OnGrid G)
    (hG : f.emin ≤ -((G * 2 : ℕ) : ℤ)) (i : Fin 4) (h : (M44.mulVec A v i).IsFin) (h' : (M44.mulVec A' v' i).IsFin) :
    Scaled (k + l) (M44.mulVec A v i) (M44.mulVec A' v' i) := by
  have e : ∀ (A : Mat 4 (Flt f)) (v : Vec 4 (Flt f)), (M44.mulVec (varsM 4) (varsV 4) i).evalF
      (Sum.elim (fun q : Fin 4 × Fin 4 => A q.1 q.2) fun q => v q) = M44.mulVec A v i := by
    intro A v
    fin_cases i <;> rfl
  have hdg : ∀ i, Ex.deg (M44.mulVec (varsM 4) (varsV 4) i) = 2 := by decide +kernel
  have hhom : ∀ i, Ex.hom wt (M44.mulVec (varsM 4) (varsV 4) i) = .deg (1, 1) := by decide +kernel
  have h1 := (Ex.scaled (w := wt) (wt_scaled (fun q : Fin 4 × Fin 4 => hA q.1 q.2) hv)
    (elim_grid (fun q => gA q.1 q.2) gv) (elim_grid (fun q => gA' q.1 q.2) gv') (M44.mulVec (varsM 4) (varsV 4) i)
    (by rw [hdg i]; exact hG)
    (by rw [e]; exact h) (by rw [e]; exact h')).1 (1, 1) (hhom i)
  rw [e, e, show Ex.ex k l (1, 1) = k + l by simp [Ex.ex]] at h1
  exact h1

/-- Scaling vectors by `2^k` and `2^l` scales their dot product by `2^(k + l)`. -/
theorem C130_dot_V4 {f : Fmt} {v v' w w' : Vec 4 (Flt f)} {k l : ℤ} {G : ℕ} (hv : ∀ i, Scaled k (v i) (v' i))
    (hw : ∀ i, Scaled l (w i) (w' i)) (gv : ∀ i, (v i).OnGrid G) (gv' : ∀ i, (v' i).OnGrid G)
    (gw : ∀ i, (w i).OnGrid G) (gw' : ∀ i, (w' i).OnGrid G) (hG : f.emin ≤ -((G * 2 : ℕ) : ℤ))
    (h : (V4.dot v w).IsFin) (h' : (V4.dot v' w').IsFin) : Scaled (k + l) (V4.dot v w) (V4.dot v' w') := by
  have h1 := (Ex.scaled (w := wt) (wt_scaled hv hw) (elim_grid gv gw) (elim_grid gv' gw') (V4.dot (varsA 4) (varsB 4))
    (by rw [show Ex.deg (V4.dot (varsA 4) (varsB 4)) = 2 by decide +kernel]; exact hG) h h').1 (1, 1) (by decide +kernel)
  rw [show Ex.ex k l (1, 1) = k + l by simp [Ex.ex]] at h1
  exact h1

private theorem dot_grid_V4 {f : Fmt} {v : Vec 4 (Flt f)} {G : ℕ} (gv : ∀ i, (v i).OnGrid G) (h : (V4.dot v v).IsFin) :
    ∃ z : ℤ, (V4.dot v v).toReal = z * (2 : ℝ) ^ (-((G * 2 : ℕ) : ℤ)) := by
  have h1 := Ex.grid (elim_grid gv gv) (V4.dot (varsA 4) (varsB 4)) h
  rw [show Ex.deg (V4.dot (varsA 4) (varsB 4)) = 2 by decide +kernel] at h1
  exact h1

/-- Scaling a vector by `2^k` scales its norm by `2^k`. -/
theorem C130_norm2_V4 {f : Fmt} [Libm f] {v v' : Vec 4 (Flt f)} {k : ℤ} {G : ℕ} (hv : ∀ i, Scaled k (v i) (v' i))
    (gv : ∀ i, (v i).OnGrid G) (gv' : ∀ i, (v' i).OnGrid G) (hG : f.emin ≤ -((G * 2 : ℕ) : ℤ))
    (h : (V4.norm2 v).IsFin) (h' : (V4.norm2 v').IsFin) : Scaled k (V4.norm2 v) (V4.norm2 v') := by
  have d := isFin_of_sqrt h
  have d' := isFin_of_sqrt h'
  have h1 := C130_dot_V4 hv hv gv gv' gv gv' hG d d'
  rw [← two_mul] at h1
  exact h1.sqrt h h' (norm_sqrt hG (dot_grid_V4 gv d)) (norm_sqrt hG (dot_grid_V4 gv' d'))

/-- Scaling a vector by a power of two leaves its `normalize()` unchanged, bit for bit. -/
theorem C130_normalize_V4 {f : Fmt} [Libm f] {v v' : Vec 4 (Flt f)} {k : ℤ} {G L : ℕ} (hv : ∀ i, Scaled k (v i) (v' i))
    (gv : ∀ i, (v i).OnGrid G) (gv' : ∀ i, (v' i).OnGrid G) (hG : f.emin ≤ -((G * 2 : ℕ) : ℤ))
    (hL : f.emin ≤ -((G + L : ℕ) : ℤ)) (hκ : (1 + f.u) ^ 5 ≤ 3 / 2)
    (h : (V4.norm2 v).FinLe (2 ^ L)) (h' : (V4.norm2 v').FinLe (2 ^ L)) :
    V4.normalize v' = V4.normalize v := by
  have hN := C130_norm2_V4 hv gv gv' hG h.1 h'.1
  have key : ∀ v : Vec 4 (Flt f), (∀ i, (v i).OnGrid G) → (V4.norm2 v).IsFin → (V4.norm2 v).toReal ≠ 0 →
      ∀ i, (v i / V4.norm2 v).IsFin := by
    intro v gv h h0 i
    obtain ⟨k1, k2⟩ := C106_V4 v (fun k => (gv k).1) h (fun k => sq_grid hG (gv k)) hκ
    have hNp : 0 < √(∑ k, (v k).toReal ^ 2) := by
      rcases (Real.sqrt_nonneg (∑ k, (v k).toReal ^ 2)).eq_or_lt with e | e
      · exfalso
        rw [← e, sub_zero, mul_zero] at k1
        exact h0 (abs_eq_zero.1 (le_antisymm k1 (abs_nonneg _)))
      · exact e
    obtain ⟨w, hw, hf, -⟩ := k2 hNp
    unfold V4.normalize at hw
    rw [normalizeGen_eq, if_neg (by rw [beq_iff h isFin_zero, toReal_zero]; exact h0)] at hw
    have e : (⟨fun i => v i / V4.norm2 v⟩ : Vec 4 (Flt f)) = w := by simpa using hw
    have := (hf i).1
    rw [← e] at this
    exact this
  unfold V4.normalize
  rw [normalizeGen_eq, normalizeGen_eq]
  by_cases h0 : (V4.norm2 v).toReal = 0
  · have h0' : (V4.norm2 v').toReal = 0 := by rw [hN.val, h0, mul_zero]
    rw [if_pos ((beq_iff h'.1 isFin_zero).2 (by rw [h0', toReal_zero])),
      if_pos ((beq_iff h.1 isFin_zero).2 (by rw [h0, toReal_zero]))]
  · have h0' : (V4.norm2 v').toReal ≠ 0 := by rw [hN.val]; exact mul_ne_zero (by positivity) h0
    rw [if_neg (by rw [beq_iff h'.1 isFin_zero, toReal_zero]; exact h0'),
      if_neg (by rw [beq_iff h.1 isFin_zero, toReal_zero]; exact h0)]
    have e : ∀ i, v' i / V4.norm2 v' = v i / V4.norm2 v := by
      intro i
      have h2 := (hv i).div hN h0 (key v gv h.1 h0 i) (key v' gv' h'.1 h0' i) (norm_div hL (gv i) h0 h.2)
        (norm_div hL (gv' i) h0' h'.2)
      rw [sub_self] at h2
      exact ((h2.eq_zero_iff).2 (Or.inl rfl)).symm
    simp only [e]

set_option maxRecDepth 20000 in
/-- Scaling a `5x5` matrix by `2^k` scales its determinant by `2^(5 k)`. -/
theorem C130_det_M55 {f : Fmt} {A A' : Mat 5 (Flt f)} {k : ℤ} {G : ℕ} (hA : ∀ i j, Scaled k (A i j) (A' i j))
    (gA : ∀ i j, (A i j).OnGrid G) (gA' : ∀ i j, (A' i j).OnGrid G) (hG : f.emin ≤ -((G * 5 : ℕ) : ℤ))
    (h : (M55.det A).IsFin) (h' : (M55.det A').IsFin) : Scaled (5 * k) (M55.det A) (M55.det A') := by
  have h1 := (Ex.scaled (w := fun _ => (1, 0)) (l := k) (k := 0) (x := fun q : Fin 5 × Fin 5 => A q.1 q.2)
    (y := fun q : Fin 5 × Fin 5 => A' q.1 q.2) (fun q => by simpa [Ex.ex] using hA q.1 q.2) (fun q => gA q.1 q.2)
    (fun q => gA' q.1 q.2) (M55.det (Mat.vars 5))
    (by rw [show Ex.deg (M55.det (Mat.vars 5)) = 5 by decide +kernel]; exact hG) h h').1 (5, 0) (by decide +kernel)
  rw [show Ex.ex k 0 (5, 0) = 5 * k by simp [Ex.ex]] at h1
  exact h1

set_option maxRecDepth 20000 in
/-- Scaling the factors of a product of `5x5` matrices by `2^j` and `2^k` scales the product by `2^(j + k)`. -/
theorem C130_mul_M55 {f : Fmt} {A A' B B' : Mat 5 (Flt f)} {k l : ℤ} {G : ℕ} (hA : ∀ i j, Scaled k (A i j) (A' i j))
    (hB : ∀ i j, Scaled l (B i j) (B' i j)) (gA : ∀ i j, (A i j).OnGrid G) (gA' : ∀ i j, (A' i j).OnGrid G)
    (gB : ∀ i j, (B i j).OnGrid G) (gB' : ∀ i j, (B' i j).OnGrid G) (hG : f.emin ≤ -((G * 2 : ℕ) : ℤ)) (i j : Fin 5)
    (h : (M55.mul A B i j).IsFin) (h' : (M55.mul A' B' i j).IsFin) :
    Scaled (k + l) (M55.mul A B i j) (M55.mul A' B' i j) := by
  have e : ∀ A B : Mat 5 (Flt f), (M55.mul (varsL 5) (varsR 5) i j).evalF
      (Sum.elim (fun q : Fin 5 × Fin 5 => A q.1 q.2) fun q => B q.1 q.2) = M55.mul A B i j := by
    intro A B
    fin_cases i <;> fin_cases j <;> rfl
  have hdg : ∀ i j, Ex.deg (M55.mul (varsL 5) (varsR 5) i j) = 2 := by decide +kernel
  have hhom : ∀ i j, Ex.hom wt (M55.mul (varsL 5) (varsR 5) i j) = .deg (1, 1) := by decide +kernel
  have h1 := (Ex.scaled (w := wt) (wt_scaled (fun q : Fin 5 × Fin 5 => hA q.1 q.2) fun q : Fin 5 × Fin 5 => hB q.1 q.2)
    (elim_grid (fun q => gA q.1 q.2) fun q => gB q.1 q.2) (elim_grid (fun q => gA' q.1 q.2) fun q => gB' q.1 q.2)
    (M55.mul (varsL 5) (varsR 5) i j)
    (by rw [hdg i j]; exact hG)
    (by rw [e]; exact h) (by rw [e]; exact h')).1 (1, 1) (hhom i j)
  rw [e, e, show Ex.ex k l (1, 1) = k + l by simp [Ex.ex]] at h1
  exact h1

set_option maxRecDepth 20000 in
/-- The same for a matrix and a vector. -/
theorem C130_mulVec_M55 {f : Fmt} {A A' : Mat 5 (Flt f)} {v v' : Vec 5 (Flt f)} {k l : ℤ} {G : ℕ}
    (hA : ∀ i j, Scaled k (A i j) (A' i j)) (hv : ∀ i, Scaled l (v i) (v' i)) (gA : ∀ i j, (A i j).OnGrid G)
    (gA' : ∀ i j, (A' i j).OnGrid G) (gv : ∀ i, (v i).OnGrid G) (gv' : ∀ i, (v' i).OnGrid G)
    (hG : f.emin ≤ -((G * 2 : ℕ) : ℤ)) (i : Fin 5) (h : (M55.mulVec A v i).IsFin) (h' : (M55.mulVec A' v' i).IsFin) :
    Scaled (k + l) (M55.mulVec A v i) (M55.mulVec A' v' i) := by
  have e : ∀ (A : Mat 5 (Flt f)) (v : Vec 5 (Flt f)), (M55.mulVec (varsM 5) (varsV 5) i).evalF
      (Sum.elim (fun q : Fin 5 × Fin 5 => A q.1 q.2) fun q => v q) = M55.mulVec A v i := by
    intro A v
    fin_cases i <;> rfl
  have hdg : ∀ i, Ex.deg (M55.mulVec (varsM 5) (varsV 5) i) = 2 := by decide +kernel
  have hhom : ∀ i, Ex.hom wt (M55.mulVec (varsM 5) (varsV 5) i) = .deg (1, 1) := by decide +kernel
  have h1 := (Ex.scaled (w := wt) (wt_scaled (fun q : Fin 5 × Fin 5 => hA q.1 q.2) hv)
    (elim_grid (fun q => gA q.1 q.2) gv) (elim_grid (fun q => gA' q.1 q.2) gv') (M55.mulVec (varsM 5) (varsV 5) i)
    (by rw [hdg i]; exact hG)
    (by rw [e]; exact h) (by rw [e]; exact h')).1 (1, 1) (hhom i)
  rw [e, e, show Ex.ex k l (1, 1) = k + l by simp [Ex.ex]] at h1
  exact h1

/-- Scaling vectors by `2^k` and `2^l` scales their dot product by `2^(k + l)`. -/
theorem C130_dot_V5 {f : Fmt} {v v' w w' : Vec 5 (Flt f)} {k l : ℤ} {G : ℕ} (hv : ∀ i, Scaled k (v i) (v' i))
    (hw : ∀ i, Scaled l (w i) (w' i)) (gv : ∀ i, (v i).OnGrid G) (gv' : ∀ i, (v' i).OnGrid G)
    (gw : ∀ i, (w i).OnGrid G) (gw' : ∀ i, (w' i).OnGrid G) (hG : f.emin ≤ -((G * 2 : ℕ) : ℤ))
    (h : (V5.dot v w).IsFin) (h' : (V5.dot v' w').IsFin) : Scaled (k + l) (V5.dot v w) (V5.dot v' w') := by
  have h1 := (Ex.scaled (w := wt) (wt_scaled hv hw) (elim_grid gv gw) (elim_grid gv' gw') (V5.dot (varsA 5) (varsB 5))
    (by rw [show Ex.deg (V5.dot (varsA 5) (varsB 5)) = 2 by decide +kernel]; exact hG) h h').1 (1, 1) (by decide +kernel)
  rw [show Ex.ex k l (1, 1) = k + l by simp [Ex.ex]] at h1
  exact h1

private theorem dot_grid_V5 {f : Fmt} {v : Vec 5 (Flt f)} {G : ℕ} (gv : ∀ i, (v i).OnGrid G) (h : (V5.dot v v).IsFin) :
    ∃ z : ℤ, (V5.dot v v).toReal = z * (2 : ℝ) ^ (-((G * 2 : ℕ) : ℤ)) := by
  have h1 := Ex.grid (elim_grid gv gv) (V5.dot (varsA 5) (varsB 5)) h
  rw [show Ex.deg (V5.dot (varsA 5) (varsB 5)) = 2 by decide +kernel] at h1
  exact h1

/-- Scaling a vector by `2^k` scales its norm by `2^k`. -/
theorem C130_norm2_V5 {f : Fmt} [Libm f] {v v' : Vec 5 (Flt f)} {k : ℤ} {G : ℕ} (hv : ∀ i, Scaled k (v i) (v' i))
    (gv : ∀ i, (v i).OnGrid G) (gv' : ∀ i, (v' i).OnGrid G) (hG : f.emin ≤ -((G * 2 : ℕ) : ℤ))
    (h : (V5.norm2 v).IsFin) (h' : (V5.norm2 v').IsFin) : Scaled k (V5.norm2 v) (V5.norm2 v') := by
  have d := isFin_of_sqrt h
  have d' := isFin_of_sqrt h'
  have h1 := C130_dot_V5 hv hv gv gv' gv gv' hG d d'
  rw [← two_mul] at h1
  exact h1.sqrt h h' (norm_sqrt hG (dot_grid_V5 gv d)) (norm_sqrt hG (dot_grid_V5 gv' d'))

/-- Scaling a vector by a power of two leaves its `normalize()` unchanged, bit for bit. -/
theorem C130_normalize_V5 {f : Fmt} [Libm f] {v v' : Vec 5 (Flt f)} {k : ℤ} {G L : ℕ} (hv : ∀ i, Scaled k (v i) (v' i))
    (gv : ∀ i, (v i).OnGrid G) (gv' : ∀ i, (v' i).OnGrid G) (hG : f.emin ≤ -((G * 2 : ℕ) : ℤ))
    (hL : f.emin ≤ -((G + L : ℕ) : ℤ)) (hκ : (1 + f.u) ^ 6 ≤ 3 / 2)
    (h : (V5.norm2 v).FinLe (2 ^ L)) (h' : (V5.norm2 v').FinLe (2 ^ L)) :
    V5.normalize v' = V5.normalize v := by
  have hN := C130_norm2_V5 hv gv gv' hG h.1 h'.1
  have key : ∀ v : Vec 5 (Flt f), (∀ i, (v i).OnGrid G) → (V5.norm2 v).IsFin → (V5.norm2 v).toReal ≠ 0 →
      ∀ i, (v i / V5.norm2 v).IsFin := by
    intro v gv h h0 i
    obtain ⟨k1, k2⟩ := C106_V5 v (fun k => (gv k).1) h (fun k => sq_grid hG (gv k)) hκ
    have hNp : 0 < √(∑ k, (v k).toReal ^ 2) := by
      rcases (Real.sqrt_nonneg (∑ k, (v k).toReal ^ 2)).eq_or_lt with e | e
      · exfalso
        rw [← e, sub_zero, mul_zero] at k1
        exact h0 (abs_eq_zero.1 (le_antisymm k1 (abs_nonneg _)))
      · exact e
    obtain ⟨w, hw, hf, -⟩ := k2 hNp
    unfold V5.normalize at hw
    rw [normalizeGen_eq, if_neg (by rw [beq_iff h isFin_zero, toReal_zero]; exact h0)] at hw
    have e : (⟨fun i => v i / V5.norm2 v⟩ : Vec 5 (Flt f)) = w := by simpa using hw
    have := (hf i).1
    rw [← e] at this
    exact this
  unfold V5.normalize
  rw [normalizeGen_eq, normalizeGen_eq]
  by_cases h0 : (V5.norm2 v).toReal = 0
  · have h0' : (V5.norm2 v').toReal = 0 := by rw [hN.val, h0, mul_zero]
    rw [if_pos ((beq_iff h'.1 isFin_zero).2 (by rw [h0', toReal_zero])),
      if_pos ((beq_iff h.1 isFin_zero).2 (by rw [h0, toReal_zero]))]
  · have h0' : (V5.norm2 v').toReal ≠ 0 := by rw [hN.val]; exact mul_ne_zero (by positivity) h0
    rw [if_neg (by rw [beq_iff h'.1 isFin_zero, toReal_zero]; exact h0'),
      if_neg (by rw [beq_iff h.1 isFin_zero, toReal_zero]; exact h0)]
    have e : ∀ i, v' i / V5.norm2 v' = v i / V5.norm2 v := by
      intro i
      have h2 := (hv i).div hN h0 (key v gv h.1 h0 i) (key v' gv' h'.1 h0' i) (norm_div hL (gv i) h0 h.2)
        (norm_div hL (gv' i) h0' h'.2)
      rw [sub_self] at h2
      exact ((h2.eq_zero_iff).2 (Or.inl rfl)).symm
    simp only [e]

set_option maxRecDepth 20000 in
/-- Scaling a `6x6` matrix by `2^k` scales its determinant by `2^(6 k)`. -/
theorem C130_det_M66 {f : Fmt} {A A' : Mat 6 (Flt f)} {k : ℤ} {G : ℕ} (hA : ∀ i j, Scaled k (A i j) (A' i j))
    (gA : ∀ i j, (A i j).OnGrid G) (gA' : ∀ i j, (A' i j).OnGrid G) (hG : f.emin ≤ -((G * 6 : ℕ) : ℤ))
    (h : (M66.det A).IsFin) (h' : (M66.det A').IsFin) : Scaled (6 * k) (M66.det A) (M66.det A') := by
  have h1 := (Ex.scaled (w := fun _ => (1, 0)) (l := k) (k := 0) (x := fun q : Fin 6 × Fin 6 => A q.1 q.2)
    (y := fun q : Fin 6 × Fin 6 => A' q.1 q.2) (fun q => by simpa [Ex.ex] using hA q.1 q.2) (fun q => gA q.1 q.2)
    (fun q => gA' q.1 q.2) (M66.det (Mat.vars 6))
    (by rw [show Ex.deg (M66.det (Mat.vars 6)) = 6 by decide +kernel]; exact hG) h h').1 (6, 0) (by decide +kernel)
  rw [show Ex.ex k 0 (6, 0) = 6 * k by simp [Ex.ex]] at h1
  exact h1

set_option maxRecDepth 20000 in
/-- Scaling the factors of a product of `6x6` matrices by `2^j` and `2^k` scales the product by `2^(j + k)`. -/
theorem C130_mul_M66 {f : Fmt} {A A' B B' : Mat 6 (Flt f)} {k l : ℤ} {G : ℕ} (hA : ∀ i j, Scaled k (A i j) (A' i j))
    (hB : ∀ i j, Scaled l (B i j) (B' i j)) (gA : ∀ i j, (A i j).OnGrid G) (gA' : ∀ i j, (A' i j).OnGrid G)
    (gB : ∀ i j, (B i j).OnGrid G) (gB' : ∀ i j, (B' i j).OnGrid G) (hG : f.emin ≤ -((G * 2 : ℕ) : ℤ)) (i j : Fin 6)
    (h : (M66.mul A B i j).IsFin) (h' : (M66.mul A' B' i j).IsFin) :
    Scaled (k + l) (M66.mul A B i j) (M66.mul A' B' i j) := by
  have e : ∀ A B : Mat 6 (Flt f), (M66.mul (varsL 6) (varsR 6) i j).evalF
      (Sum.elim (fun q : Fin 6 × Fin 6 => A q.1 q.2) fun q => B q.1 q.2) = M66.mul A B i j := by
    intro A B
    fin_cases i <;> fin_cases j <;> rfl
  have hdg : ∀ i j, Ex.deg (M66.mul (varsL 6) (varsR 6) i j) = 2 := by decide +kernel
  have hhom : ∀ i j, Ex.hom wt (M66.mul (varsL 6) (varsR 6) i j) = .deg (1, 1) := by decide +kernel
  have h1 := (Ex.scaled (w := wt) (wt_scaled (fun q : Fin 6 × Fin 6 => hA q.1 q.2) fun q : Fin 6 × Fin 6 => hB q.1 q.2)
    (elim_grid (fun q => gA q.1 q.2) fun q => gB q.1 q.2) (elim_grid (fun q => gA' q.1 q.2) fun q => gB' q.1 q.2)
    (M66.mul (varsL 6) (varsR 6) i j)
    (by rw [hdg i j]; exact hG)
    (by rw [e]; exact h) (by rw [e]; exact h')).1 (1, 1) (hhom i j)
  rw [e, e, show Ex.ex k l (1, 1) = k + l by simp [Ex.ex]] at h1
  exact h1

set_option maxRecDepth 20000 in
/-- The same for a matrix and a vector. -/
theorem C130_mulVec_M66 {f : Fmt} {A A' : Mat 6 (Flt f)} {v v' : Vec 6 (Flt f)} {k l : ℤ} {G : ℕ}
    (hA : ∀ i j, Scaled k (A i j) (A' i j)) (hv : ∀ i, Scaled l (v i) (v' i)) (gA : ∀ i j, (A i j).OnGrid G)
    (gA' : ∀ i j, (A' i j).OnGrid G) (gv : ∀ i, (v i).OnGrid G) (gv' : ∀ i, (v' i).OnGrid G)
    (hG : f.emin ≤ -((G * 2 : ℕ) : ℤ)) (i : Fin 6) (h : (M66.mulVec A v i).IsFin) (h' : (M66.mulVec A' v' i).IsFin) :
    Scaled (k + l) (M66.mulVec A v i) (M66.mulVec A' v' i) := by
  have e : ∀ (A : Mat 6 (Flt f)) (v : Vec 6 (Flt f)), (M66.mulVec (varsM 6) (varsV 6) i).evalF
      (Sum.elim (fun q : Fin 6 × Fin 6 => A q.1 q.2) fun q => v q) = M66.mulVec A v i := by
    intro A v
    fin_cases i <;> rfl
  have hdg : ∀ i, Ex.deg (M66.mulVec (varsM 6) (varsV 6) i) = 2 := by decide +kernel
  have hhom : ∀ i, Ex.hom wt (M66.mulVec (varsM 6) (varsV 6) i) = .deg (1, 1) := by decide +kernel
  have h1 := (Ex.scaled (w := wt) (wt_scaled (fun q : Fin 6 × Fin 6 => hA q.1 q.2) hv)
    (elim_grid (fun q => gA q.1 q.2) gv) (elim_grid (fun q => gA' q.1 q.2) gv') (M66.mulVec (varsM 6) (varsV 6) i)
    (by rw [hdg i]; exact hG)
    (by rw [e]; exact h) (by rw [e]; exact h')).1 (1, 1) (hhom i)
  rw [e, e, show Ex.ex k l (1, 1) = k + l by simp [Ex.ex]] at h1
  exact h1

/-- Scaling vectors by `2^k` and `2^l` scales their dot product by `2^(k + l)`. -/
theorem C130_dot_V6 {f : Fmt} {v v' w w' : Vec 6 (Flt f)} {k l : ℤ} {G : ℕ} (hv : ∀ i, Scaled k (v i) (v' i))
    (hw : ∀ i, Scaled l (w i) (w' i)) (gv : ∀ i, (v i).OnGrid G) (gv' : ∀ i, (v' i).OnGrid G)
    (gw : ∀ i, (w i).OnGrid G) (gw' : ∀ i, (w' i).OnGrid G) (hG : f.emin ≤ -((G * 2 : ℕ) : ℤ))
    (h : (V6.dot v w).IsFin) (h' : (V6.dot v' w').IsFin) : Scaled (k + l) (V6.dot v w) (V6.dot v' w') := by
  have h1 := (Ex.scaled (w := wt) (wt_scaled hv hw) (elim_grid gv gw) (elim_grid gv' gw') (V6.dot (varsA 6) (varsB 6))
    (by rw [show Ex.deg (V6.dot (varsA 6) (varsB 6)) = 2 by decide +kernel]; exact hG) h h').1 (1, 1) (by decide +kernel)
  rw [show Ex.ex k l (1, 1) = k + l by simp [Ex.ex]] at h1
  exact h1

private theorem dot_grid_V6 {f : Fmt} {v : Vec 6 (Flt f)} {G : ℕ} (gv : ∀ i, (v i).OnGrid G) (h : (V6.dot v v).IsFin) :
    ∃ z : ℤ, (V6.dot v v).toReal = z * (2 : ℝ) ^ (-((G * 2 : ℕ) : ℤ)) := by
  have h1 := Ex.grid (elim_grid gv gv) (V6.dot (varsA 6) (varsB 6)) h
  rw [show Ex.deg (V6.dot (varsA 6) (varsB 6)) = 2 by decide +kernel] at h1
  exact h1

/-- Scaling a vector by `2^k` scales its norm by `2^k`. -/
theorem C130_norm2_V6 {f : Fmt} [Libm f] {v v' : Vec 6 (Flt f)} {k : ℤ} {G : ℕ} (hv : ∀ i, Scaled k (v i) (v' i))
    (gv : ∀ i, (v i).OnGrid G) (gv' : ∀ i, (v' i).OnGrid G) (hG : f.emin ≤ -((G * 2 : ℕ) : ℤ))
    (h : (V6.norm2 v).IsFin) (h' : (V6.norm2 v').IsFin) : Scaled k (V6.norm2 v) (V6.norm2 v') := by
  have d := isFin_of_sqrt h
  have d' := isFin_of_sqrt h'
  have h1 := C130_dot_V6 hv hv gv gv' gv gv' hG d d'
  rw [← two_mul] at h1
  exact h1.sqrt h h' (norm_sqrt hG (dot_grid_V6 gv d)) (norm_sqrt hG (dot_grid_V6 gv' d'))

/-- Scaling a vector by a power of two leaves its `normalize()` unchanged, bit for bit. -/
theorem C130_normalize_V6 {f : Fmt} [Libm f] {v v' : Vec 6 (Flt f)} {k : ℤ} {G L : ℕ} (hv : ∀ i, Scaled k (v i) (v' i))
    (gv : ∀ i, (v i).OnGrid G) (gv' : ∀ i, (v' i).OnGrid G) (hG : f.emin ≤ -((G * 2 : ℕ) : ℤ))
    (hL : f.emin ≤ -((G + L : ℕ) : ℤ)) (hκ : (1 + f.u) ^ 7 ≤ 3 / 2)
    (h : (V6.norm2 v).FinLe (2 ^ L)) (h' : (V6.norm2 v').FinLe (2 ^ L)) :
    V6.normalize v' = V6.normalize v := by
  have hN := C130_norm2_V6 hv gv gv' hG h.1 h'.1
  have key : ∀ v : Vec 6 (Flt f), (∀ i, (v i).OnGrid G) → (V6.norm2 v).IsFin → (V6.norm2 v).toReal ≠ 0 →
      ∀ i, (v i / V6.norm2 v).IsFin := by
    intro v gv h h0 i
    obtain ⟨k1, k2⟩ := C106_V6 v (fun k => (gv k).1) h (fun k => sq_grid hG (gv k)) hκ
    have hNp : 0 < √(∑ k, (v k).toReal ^ 2) := by
      rcases (Real.sqrt_nonneg (∑ k, (v k).toReal ^ 2)).eq_or_lt with e | e
      · exfalso
        rw [← e, sub_zero, mul_zero] at k1
        exact h0 (abs_eq_zero.1 (le_antisymm k1 (abs_nonneg _)))
      · exact e
    obtain ⟨w, hw, hf, -⟩ := k2 hNp
    unfold V6.normalize at hw
    rw [normalizeGen_eq, if_neg (by rw [beq_iff h isFin_zero, toReal_zero]; exact h0)] at hw
    have e : (⟨fun i => v i / V6.norm2 v⟩ : Vec 6 (Flt f)) = w := by simpa using hw
    have := (hf i).1
    rw [← e] at this
    exact this
  unfold V6.normalize
  rw [normalizeGen_eq, normalizeGen_eq]
  by_cases h0 : (V6.norm2 v).toReal = 0
  · have h0' : (V6.norm2 v').toReal = 0 := by rw [hN.val, h0, mul_zero]
    rw [if_pos ((beq_iff h'.1 isFin_zero).2 (by rw [h0', toReal_zero])),
      if_pos ((beq_iff h.1 isFin_zero).2 (by rw [h0, toReal_zero]))]
  · have h0' : (V6.norm2 v').toReal ≠ 0 := by rw [hN.val]; exact mul_ne_zero (by positivity) h0
    rw [if_neg (by rw [beq_iff h'.1 isFin_zero, toReal_zero]; exact h0'),
      if_neg (by rw [beq_iff h.1 isFin_zero, toReal_zero]; exact h0)]
    have e : ∀ i, v' i / V6.norm2 v' = v i / V6.norm2 v := by
      intro i
      have h2 := (hv i).div hN h0 (key v gv h.1 h0 i) (key v' gv' h'.1 h0' i) (norm_div hL (gv i) h0 h.2)
        (norm_div hL (gv' i) h0' h'.2)
      rw [sub_self] at h2
      exact ((h2.eq_zero_iff).2 (Or.inl rfl)).symm
    simp only [e]

/-- Scaling vectors by `2^k` and `2^l` scales their cross product by `2^(k + l)`. -/
theorem C130_cross {f : Fmt} {v v' w w' : Vec 3 (Flt f)} {k l : ℤ} {G : ℕ} (hv : ∀ i, Scaled k (v i) (v' i))
    (hw : ∀ i, Scaled l (w i) (w' i)) (gv : ∀ i, (v i).OnGrid G) (gv' : ∀ i, (v' i).OnGrid G)
    (gw : ∀ i, (w i).OnGrid G) (gw' : ∀ i, (w' i).OnGrid G) (hG : f.emin ≤ -((G * 2 : ℕ) : ℤ)) (i : Fin 3)
    (h : (V3.cross v w i).IsFin) (h' : (V3.cross v' w' i).IsFin) : Scaled (k + l) (V3.cross v w i) (V3.cross v' w' i) := by
  have e : ∀ v w : Vec 3 (Flt f), (V3.cross (varsA 3) (varsB 3) i).evalF (Sum.elim (fun q => v q) fun q => w q) =
      V3.cross v w i := by
    intro v w
    fin_cases i <;> rfl
  have hdg : ∀ i, Ex.deg (V3.cross (varsA 3) (varsB 3) i) = 2 := by decide +kernel
  have hhom : ∀ i, Ex.hom wt (V3.cross (varsA 3) (varsB 3) i) = .deg (1, 1) := by decide +kernel
  have h1 := (Ex.scaled (w := wt) (wt_scaled hv hw) (elim_grid gv gw) (elim_grid gv' gw') (V3.cross (varsA 3) (varsB 3) i)
    (by rw [hdg i]; exact hG)
    (by rw [e]; exact h) (by rw [e]; exact h')).1 (1, 1) (hhom i)
  rw [e, e, show Ex.ex k l (1, 1) = k + l by simp [Ex.ex]] at h1
  exact h1

private theorem inv_scaled {f : Fmt} {C C' D D' : Flt f} {j k : ℤ} {m L : ℕ} (hC : Scaled j C C') (hD : Scaled k D D')
    (gC : ∃ z : ℤ, C.toReal = z * (2 : ℝ) ^ (-(m : ℤ))) (gC' : ∃ z : ℤ, C'.toReal = z * (2 : ℝ) ^ (-(m : ℤ)))
    (hL : f.emin ≤ -((m + L : ℕ) : ℤ)) (d0 : D.toReal ≠ 0) (dL : |D.toReal| ≤ 2 ^ L) (dL' : |D'.toReal| ≤ 2 ^ L)
    (h : (C * (1 / D)).IsFin) (h' : (C' * (1 / D')).IsFin) : Scaled (j - k) (C * (1 / D)) (C' * (1 / D')) := by
  have hmin := f.hmin
  have hmax := f.hmax
  have hp := f.hp
  have d0' : D'.toReal ≠ 0 := by rw [hD.val]; exact mul_ne_zero (by positivity) d0
  have inv_ge : ∀ {D : Flt f}, D.toReal ≠ 0 → |D.toReal| ≤ 2 ^ L → (2 : ℝ) ^ (-(L : ℤ)) ≤ 1 / |D.toReal| := by
    intro D h0 h1
    rw [le_div_iff₀ (abs_pos.2 h0), zpow_neg, zpow_natCast, inv_mul_le_iff₀ (by positivity), mul_one]
    exact h1
  have nrm : ∀ {D : Flt f}, D.toReal ≠ 0 → |D.toReal| ≤ 2 ^ L → f.Norm ((1 : Flt f).toReal / D.toReal) := by
    intro D h0 h1
    right
    rw [toReal_one, abs_div, abs_one]
    refine le_trans (zpow_le_zpow_right₀ (by norm_num) ?_) (inv_ge h0 h1)
    push_cast at hL
    omega
  have prod : ∀ {C D : Flt f}, (∃ z : ℤ, C.toReal = z * (2 : ℝ) ^ (-(m : ℤ))) → D.IsFin → D.toReal ≠ 0 → |D.toReal| ≤ 2 ^ L →
      (1 / D).IsFin → f.Norm (C.toReal * (1 / D).toReal) := by
    rintro C D ⟨z, hz⟩ hD h0 h1 hf
    by_cases hz0 : z = 0
    · left; rw [hz, hz0]; simp
    right
    have hz1 : (1 : ℝ) ≤ |(z : ℝ)| := by
      have := Int.one_le_abs hz0
      exact_mod_cast this
    have hm : (0 : ℝ) < (2 : ℝ) ^ (-(m : ℤ)) := by positivity
    have hv := (abs_div_val hD hf).2
    have hge := f.rnd_mono (by positivity) (inv_ge h0 h1)
    rw [f.rnd_rep (f.rep_two_zpow (-(L : ℤ)) (by push_cast at hL; omega) (by omega))] at hge
    rw [toReal_one, abs_div, abs_one] at hv
    rw [← hv] at hge
    rw [abs_mul, hz, abs_mul, abs_of_pos hm]
    calc (2 : ℝ) ^ f.emin ≤ (2 : ℝ) ^ (-(m : ℤ) + -(L : ℤ)) :=
          zpow_le_zpow_right₀ (by norm_num) (by push_cast at hL; omega)
      _ = (2 : ℝ) ^ (-(m : ℤ)) * (2 : ℝ) ^ (-(L : ℤ)) := zpow_add₀ (by norm_num) _ _
      _ ≤ |(z : ℝ)| * (2 : ℝ) ^ (-(m : ℤ)) * |(1 / D).toReal| :=
          mul_le_mul (le_mul_of_one_le_left hm.le hz1) hge (by positivity) (by positivity)
  have f1 := (isFin_of_mul h).2
  have f2 := (isFin_of_mul h').2
  have h1 := (Scaled.refl (f := f) (a := 1) trivial).div hD d0 f1 f2 (nrm d0 dL) (nrm d0' dL')
  have h2 := hC.mul h1 h h' (prod gC hD.fin_left d0 dL f1) (prod gC' hD.fin_right d0' dL' f2)
  rw [show j + (0 - k) = j - k by ring] at h2
  exact h2

private theorem nz_ne {f : Fmt} [Libm f] {D : Flt f} (h : nearly_zero D = false) (hf : D.IsFin) : D.toReal ≠ 0 := by
  intro h0
  have : nearly_zero D = true := (nearly_zero_flt D).2 ⟨hf, by rw [h0, abs_zero]; positivity⟩
  rw [h] at this
  cases this

/-- Scaling a `2x2` matrix by `2^k` scales its inverse by `2^(-k)`, whenever both are reported invertible. -/
theorem C130_inverse_M22 {f : Fmt} [Libm f] {A A' B B' : Mat 2 (Flt f)} {k : ℤ} {G L : ℕ}
    (hA : ∀ i j, Scaled k (A i j) (A' i j)) (gA : ∀ i j, (A i j).OnGrid G) (gA' : ∀ i j, (A' i j).OnGrid G)
    (hG : f.emin ≤ -((G * 2 : ℕ) : ℤ)) (hL : f.emin ≤ -((G + L : ℕ) : ℤ)) (h : M22.inverse A = .ok (some B))
    (h' : M22.inverse A' = .ok (some B')) (d : (M22.det A).FinLe (2 ^ L)) (d' : (M22.det A').FinLe (2 ^ L)) (i j : Fin 2)
    (hB : (B i j).IsFin) (hB' : (B' i j).IsFin) : Scaled (-k) (B i j) (B' i j) := by
  have hD := C130_det_M22 hA gA gA' hG d.1 d'.1
  have un : ∀ A B : Mat 2 (Flt f), M22.inverse A = .ok (some B) → nearly_zero (M22.det A) = false ∧
      B = ⟨![![A 1 1 * (1 / M22.det A), -A 0 1 * (1 / M22.det A)], ![-A 1 0 * (1 / M22.det A), A 0 0 * (1 / M22.det A)]]⟩ := by
    intro A B h
    unfold M22.inverse at h
    by_cases h0 : nearly_zero (M22.det A) = true
    · simp only [h0] at h
      cases h
    have h' : nearly_zero (M22.det A) = false := by simpa using h0
    refine ⟨h', ?_⟩
    simp only [h', Bool.not_false, if_true] at h
    exact (Option.some.inj (Except.ok.inj h)).symm
  obtain ⟨n, rfl⟩ := un A B h
  obtain ⟨-, rfl⟩ := un A' B' h'
  have d0 := nz_ne n d.1
  have ng : ∀ {a : Flt f}, a.OnGrid G → ∃ z : ℤ, (-a).toReal = z * (2 : ℝ) ^ (-(G : ℤ)) := by
    rintro a ⟨-, z, hz⟩
    exact ⟨-z, by rw [toReal_neg, hz]; push_cast; ring⟩
  rw [show -k = k - 2 * k by ring]
  fin_cases i <;> fin_cases j
  · exact inv_scaled (hA 1 1) hD (gA 1 1).2 (gA' 1 1).2 hL d0 d.2 d'.2 hB hB'
  · exact inv_scaled (hA 0 1).neg hD (ng (gA 0 1)) (ng (gA' 0 1)) hL d0 d.2 d'.2 hB hB'
  · exact inv_scaled (hA 1 0).neg hD (ng (gA 1 0)) (ng (gA' 1 0)) hL d0 d.2 d'.2 hB hB'
  · exact inv_scaled (hA 0 0) hD (gA 0 0).2 (gA' 0 0).2 hL d0 d.2 d'.2 hB hB'

private def ex2 : Ex (Fin 4) := .sub (.mul (.var 0) (.var 1)) (.mul (.var 2) (.var 3))

private theorem minor2 {f : Fmt} {a b c d a' b' c' d' : Flt f} {k : ℤ} {G : ℕ} (ha : Scaled k a a') (hb : Scaled k b b')
    (hc : Scaled k c c') (hd : Scaled k d d') (ga : a.OnGrid G) (gb : b.OnGrid G) (gc : c.OnGrid G) (gd : d.OnGrid G)
    (ga' : a'.OnGrid G) (gb' : b'.OnGrid G) (gc' : c'.OnGrid G) (gd' : d'.OnGrid G) (hG : f.emin ≤ -((G * 2 : ℕ) : ℤ))
    (h : (a * b - c * d).IsFin) (h' : (a' * b' - c' * d').IsFin) : Scaled (2 * k) (a * b - c * d) (a' * b' - c' * d') ∧
    (∃ z : ℤ, (a * b - c * d).toReal = z * (2 : ℝ) ^ (-((G * 2 : ℕ) : ℤ))) ∧
    (∃ z : ℤ, (a' * b' - c' * d').toReal = z * (2 : ℝ) ^ (-((G * 2 : ℕ) : ℤ))) := by
  have hd2 : Ex.deg ex2 = 2 := by decide +kernel
  have g1 : ∀ i, ((![a, b, c, d] : Fin 4 → Flt f) i).OnGrid G := by intro i; fin_cases i <;> assumption
  have g2 : ∀ i, ((![a', b', c', d'] : Fin 4 → Flt f) i).OnGrid G := by intro i; fin_cases i <;> assumption
  have h1 := (Ex.scaled (w := fun _ => (1, 0)) (l := k) (k := 0) (x := ![a, b, c, d]) (y := ![a', b', c', d'])
    (fun q => by fin_cases q <;> simpa [Ex.ex]) g1 g2 ex2 (by rw [hd2]; exact hG) h h').1 (2, 0) (by decide +kernel)
  rw [show Ex.ex k 0 (2, 0) = 2 * k by simp [Ex.ex]] at h1
  have k1 := Ex.grid g1 ex2 h
  have k2 := Ex.grid g2 ex2 h'
  rw [hd2] at k1 k2
  exact ⟨h1, k1, k2⟩

/-- Scaling a `3x3` matrix by `2^k` scales its inverse by `2^(-k)`, whenever both are reported invertible. -/
theorem C130_inverse_M33 {f : Fmt} [Libm f] {A A' B B' : Mat 3 (Flt f)} {k : ℤ} {G L : ℕ}
    (hA : ∀ i j, Scaled k (A i j) (A' i j)) (gA : ∀ i j, (A i j).OnGrid G) (gA' : ∀ i j, (A' i j).OnGrid G)
    (hG : f.emin ≤ -((G * 3 : ℕ) : ℤ)) (hL : f.emin ≤ -((G * 2 + L : ℕ) : ℤ)) (h : M33.inverse A = .ok (some B))
    (h' : M33.inverse A' = .ok (some B')) (d : (M33.det A).FinLe (2 ^ L)) (d' : (M33.det A').FinLe (2 ^ L)) (i j : Fin 3)
    (hB : (B i j).IsFin) (hB' : (B' i j).IsFin) : Scaled (-k) (B i j) (B' i j) := by
  have hD := C130_det_M33 hA gA gA' hG d.1 d'.1
  have un : ∀ A B : Mat 3 (Flt f), M33.inverse A = .ok (some B) → nearly_zero (M33.det A) = false ∧
      B = ⟨![![(A 1 1 * A 2 2 - A 2 1 * A 1 2) * (1 / M33.det A), (A 0 2 * A 2 1 - A 0 1 * A 2 2) * (1 / M33.det A),
          (A 0 1 * A 1 2 - A 0 2 * A 1 1) * (1 / M33.det A)],
        ![(A 1 2 * A 2 0 - A 1 0 * A 2 2) * (1 / M33.det A), (A 0 0 * A 2 2 - A 0 2 * A 2 0) * (1 / M33.det A),
          (A 1 0 * A 0 2 - A 0 0 * A 1 2) * (1 / M33.det A)],
        ![(A 1 0 * A 2 1 - A 2 0 * A 1 1) * (1 / M33.det A), (A 2 0 * A 0 1 - A 0 0 * A 2 1) * (1 / M33.det A),
          (A 0 0 * A 1 1 - A 1 0 * A 0 1) * (1 / M33.det A)]]⟩ := by
    intro A B h
    unfold M33.inverse at h
    by_cases h0 : nearly_zero (M33.det A) = true
    · simp only [h0] at h
      cases h
    have h' : nearly_zero (M33.det A) = false := by simpa using h0
    refine ⟨h', ?_⟩
    simp only [h', Bool.not_false, if_true] at h
    have e : B = _ := (Option.some.inj (Except.ok.inj h)).symm
    rw [e]
    refine Mat.ext (funext fun i => funext fun j => ?_)
    fin_cases i <;> fin_cases j <;> rfl
  obtain ⟨n, rfl⟩ := un A B h
  obtain ⟨-, rfl⟩ := un A' B' h'
  have d0 := nz_ne n d.1
  have hG2 : f.emin ≤ -((G * 2 : ℕ) : ℤ) := by push_cast at hG ⊢; omega
  have key : ∀ a b c d a' b' c' d' : Fin 3, ((A a a' * A b b' - A c c' * A d d') * (1 / M33.det A)).IsFin →
      ((A' a a' * A' b b' - A' c c' * A' d d') * (1 / M33.det A')).IsFin →
      Scaled (-k) ((A a a' * A b b' - A c c' * A d d') * (1 / M33.det A))
        ((A' a a' * A' b b' - A' c c' * A' d d') * (1 / M33.det A')) := by
    intro a b c e a' b' c' e' k1 k2
    obtain ⟨m1, m2, m3⟩ := minor2 (hA a a') (hA b b') (hA c c') (hA e e') (gA _ _) (gA _ _) (gA _ _) (gA _ _) (gA' _ _)
      (gA' _ _) (gA' _ _) (gA' _ _) hG2 (isFin_of_mul k1).1 (isFin_of_mul k2).1
    rw [show -k = 2 * k - 3 * k by ring]
    exact inv_scaled m1 hD m2 m3 hL d0 d.2 d'.2 k1 k2
  fin_cases i <;> fin_cases j <;> exact key _ _ _ _ _ _ _ _ hB hB'

/-! ### the hypotheses can be met -/

/-- Any two floats `1` and `2^k` in range. -/
private theorem scaled_two {f : Fmt} (k : ℤ) (h1 : f.emin ≤ k) (h2 : k ≤ f.emax) :
    ∃ b : Flt f, Scaled k (1 : Flt f) b ∧ b.toReal = (2 : ℝ) ^ k := by
  have hp := f.hp
  have hr := f.rep_two_zpow k (by omega) h2
  exact ⟨fin false _ hr, ⟨false, 1, _, _, hr, rfl, rfl, (mul_one _).symm⟩, rfl⟩

private theorem one_grid {a : Flt Fmt.f64} (h1 : a.IsFin) (h2 : 1 ≤ |a.toReal|) : a.OnGrid 52 :=
  C130_grid (L := 0) h1 (Or.inr (by simpa using h2))

private theorem dot_fin (v : Vec 2 (Flt Fmt.f64)) (hv : ∀ i, (v i).FinLe 1024) : (V2.dot v v).IsFin := by
  refine ((C103_no_overflow_M22 M22.zero M22.zero v v 1024 (by norm_num) (fun i j => ?_) (fun i j => ?_) hv hv).2 ?_).2.2
  · fin_cases i <;> fin_cases j <;> exact ⟨trivial, by simp [M22.zero]⟩
  · fin_cases i <;> fin_cases j <;> exact ⟨trivial, by simp [M22.zero]⟩
  · have hu := Fmt.f64.u_le
    have hu0 := Fmt.f64.u_pos
    have h3 : (2 : ℝ) ^ (24 : ℤ) ≤ (2 : ℝ) ^ (Fmt.f64.emax + 1) := zpow_le_zpow_right₀ (by norm_num) (by decide)
    norm_num at h3 ⊢
    nlinarith

/-- `(1, 1)` in metres and in units of `2^-10` metres: the squared length is `2^20` times as large, the direction is the
same to the last bit. -/
example [Libm Fmt.f64] : ∃ b : Flt Fmt.f64, b.toReal = 1024 ∧
    Scaled 20 (V2.dot (⟨![1, 1]⟩ : Vec 2 (Flt Fmt.f64)) ⟨![1, 1]⟩) (V2.dot ⟨![b, b]⟩ ⟨![b, b]⟩) ∧
    V2.normalize (⟨![b, b]⟩ : Vec 2 (Flt Fmt.f64)) = V2.normalize ⟨![1, 1]⟩ := by
  obtain ⟨b, hb, e⟩ := scaled_two (f := Fmt.f64) 10 (by decide) (by decide)
  have e' : b.toReal = 1024 := by rw [e]; norm_num
  have g1 : (1 : Flt Fmt.f64).OnGrid 52 := one_grid trivial (by simp)
  have g2 : b.OnGrid 52 := one_grid hb.fin_right (by rw [e']; norm_num)
  have d1 : (V2.dot (⟨![1, 1]⟩ : Vec 2 (Flt Fmt.f64)) ⟨![1, 1]⟩).IsFin :=
    dot_fin _ fun i => by fin_cases i <;> exact ⟨trivial, by simp⟩
  have d2 : (V2.dot (⟨![b, b]⟩ : Vec 2 (Flt Fmt.f64)) ⟨![b, b]⟩).IsFin :=
    dot_fin _ fun i => by fin_cases i <;> exact ⟨hb.fin_right, by simp [e']⟩
  have h := C130_dot_V2 (v := ⟨![1, 1]⟩) (v' := ⟨![b, b]⟩) (w := ⟨![1, 1]⟩) (w' := ⟨![b, b]⟩) (k := 10) (l := 10) (G := 52)
    (fun i => by fin_cases i <;> exact hb) (fun i => by fin_cases i <;> exact hb) (fun i => by fin_cases i <;> exact g1)
    (fun i => by fin_cases i <;> exact g2) (fun i => by fin_cases i <;> exact g1) (fun i => by fin_cases i <;> exact g2)
    (by decide) d1 d2
  refine ⟨b, e', h, ?_⟩
  have hu : Fmt.f64.u ≤ 1 / 256 := Fmt.u_le_of_p (by decide)
  have hu0 := Fmt.f64.u_pos
  have hκ : (1 + Fmt.f64.u) ^ 3 ≤ 3 / 2 := by nlinarith [sq_nonneg Fmt.f64.u]
  have nf : ∀ v : Vec 2 (Flt Fmt.f64), (∀ i, (v i).OnGrid 52) → (V2.dot v v).IsFin →
      √(∑ k, (v k).toReal ^ 2) ≤ 2048 → (V2.norm2 v).FinLe (2 ^ 12) := by
    intro v hg hd hN
    obtain ⟨hf, -, k1⟩ := norm_rel (V2.dot_order v v) hd (fun k => sq_grid (by decide) (hg k)) (by nlinarith)
    refine ⟨hf, ?_⟩
    have k2 := abs_sub_abs_le_abs_sub (Flt.sqrt (V2.dot v v)).toReal (√(∑ k, (v k).toReal ^ 2))
    have k3 := Real.sqrt_nonneg (∑ k, (v k).toReal ^ 2)
    rw [abs_of_nonneg k3] at k2
    have k4 : ((1 + Fmt.f64.u) ^ (2 + 1) - 1) * √(∑ k, (v k).toReal ^ 2) ≤ 1 / 2 * 2048 :=
      mul_le_mul (by linarith) hN k3 (by norm_num)
    change |(Flt.sqrt (V2.dot v v)).toReal| ≤ _
    have k5 : (2 : ℝ) ^ 12 = 4096 := by norm_num
    have k6 : _ := k1.trans k4
    have k7 := k2.trans k6
    rw [k5]
    linarith
  refine C130_normalize_V2 (k := 10) (G := 52) (L := 12) (fun i => by fin_cases i <;> exact hb)
    (fun i => by fin_cases i <;> exact g1) (fun i => by fin_cases i <;> exact g2) (by decide) (by decide) hκ
    (nf _ (fun i => by fin_cases i <;> exact g1) d1 ?_) (nf _ (fun i => by fin_cases i <;> exact g2) d2 ?_)
  · rw [Real.sqrt_le_left (by norm_num)]
    simp [Fin.sum_univ_two]
    norm_num
  · rw [Real.sqrt_le_left (by norm_num)]
    simp [Fin.sum_univ_two, e']
    norm_num

end StaticMath
