# Writes lean/Verif/Props/IeeeResid.lean (C152): residuals of computed inverses, sizes 2 to 6.
FAC={1:1,2:2,3:6,4:24,5:120,6:720}
DE={2:2,3:4,4:7,5:28,6:125}
UE={2:'0',3:'2',4:'3 + 6 * b',5:'24 * (1 + b + b ^ 2)',6:'120 * (1 + b + b ^ 2 + b ^ 3)'}
DD={2:2,3:5,4:26,5:123,6:724}
UD={2:'2',3:'3 + 6 * b',4:'24 * (1 + b + b ^ 2)',5:'120 * (1 + b + b ^ 2 + b ^ 3)',6:'720 * (1 + b + b ^ 2 + b ^ 3 + b ^ 4)'}
C={2:5,3:10,4:34,5:154,6:860}
o='''import Verif.Lemmas.Resid
import Verif.Props.Ieee
import Verif.Props.IeeeInvInt

/-!
# C152: residuals of computed inverses and linear systems in floating point

Generated by `tools/gen_props_ieee_resid.py`. `A.reM'` is the real matrix of the entries of `A`.
-/

namespace StaticMath
open Flt

'''
for n in range(2,7):
    M=f'M{n}{n}'; m=n-1; F=f'{FAC[m]} * b ^ {m}'; N=f'({FAC[n]} * b ^ {n})'
    o+=('set_option maxRecDepth 20000 in\n' if n>4 else '')+f'''/-- The computed inverse of a `{n}x{n}` matrix with entries of size at most `b`: multiplied with the matrix, from either side, it gives the
identity up to `{C[n]} u {n}! b^{n} / |det|` in every entry; so does the computed product; and the computed solution of a linear system satisfies it
up to the stated residual. -/
theorem C152_{M} {{f : Fmt}} [Libm f] (hp : 16 ≤ f.p) (A B : Mat {n} (Flt f)) (h : {M}.inverse A = .ok (some B)) (b : ℝ) (hb1 : 1 ≤ b)
    (hb : ∀ i j, |(A i j).toReal| ≤ b) (hD : ({M}.det A).IsFin) (hB : ∀ i j, (B i j).IsFin) (hs : 64 * {N} * f.eta ≤ f.u) :
    let D := ({M}.det A).toReal
    (∀ i j, |(A.reM' * B.reM') i j - (1 : Matrix (Fin {n}) (Fin {n}) ℝ) i j| ≤ {C[n]} * f.u * {N} / |D| ∧
      |(B.reM' * A.reM') i j - (1 : Matrix (Fin {n}) (Fin {n}) ℝ) i j| ≤ {C[n]} * f.u * {N} / |D| ∧
      (({M}.mul A B i j).IsFin → |({M}.mul A B i j).toReal - (1 : Matrix (Fin {n}) (Fin {n}) ℝ) i j| ≤ {C[n]+n+1} * f.u * {N} / |D|)) ∧
    ∀ (v : Vec {n} (Flt f)) (V : ℝ), (∀ j, |(v j).toReal| ≤ V) → (∀ k, ({M}.mulVec B v k).IsFin) →
      ∀ i, |∑ k, (A i k).toReal * ({M}.mulVec B v k).toReal - (v i).toReal| ≤
        {n*(C[n]+n+1)} * f.u * {N} / |D| * V + {2*n*n} * b * f.eta := by
  intro D
  have hu0 := f.u_pos
  have hu := Fmt.u_le_16 hp
  have hη0 := f.eta_pos
  have hDu : 0 < |D| := lt_of_lt_of_le (by positivity) (C113_{M} A B h b hb hD hB 0 0).1
  have hent (i j) : |(B i j).toReal - A.reM'.adjugate i j / D| ≤
      (((1 + f.u) ^ {DE[n]} - 1) * A.minorPer j i + (1 + f.u) ^ {DE[n]} * (f.eta * ({UE[n]}))) / |D| +
      f.eta * (1 + (1 + f.u) ^ {DE[n]-1} * (A.minorPer j i + f.eta * ({UE[n]}))) := (C113_{M} A B h b hb hD hB i j).2.1
  have hdet : |D - A.reM'.det| ≤ ((1 + f.u) ^ {DD[n]} - 1) * (Matrix.of fun i j => |(A i j).toReal|).permanent +
      (1 + f.u) ^ {DD[n]} * (f.eta * ({UD[n]})) := C102_det_{M} A b hb hD
  obtain ⟨p1, p2⟩ := Fmt.pow_u_le hp (m := {DE[n]}) (by norm_num)
  obtain ⟨-, p3⟩ := Fmt.pow_u_le hp (m := {DE[n]-1}) (by norm_num)
  obtain ⟨p4, p5⟩ := Fmt.pow_u_le hp (m := {DD[n]}) (by norm_num)
  have g1 : 1 ≤ (1 + f.u) ^ {DE[n]} := one_le_pow₀ (by linarith)
  have g2 : 1 ≤ (1 + f.u) ^ {DD[n]} := one_le_pow₀ (by linarith)
  rw [Nat.cast_ofNat] at p1 p4
  generalize (1 + f.u) ^ {DD[n]} = gD at *
'''
    if n>2: o+=f'''  generalize (1 + f.u) ^ {DE[n]} = gE at *
  generalize (1 + f.u) ^ {DE[n]-1} = gF at *
'''
    for k in range(2,n+1):
        o+=f'  have b{k} : b ^ {k-1} ≤ b ^ {k} := pow_le_pow_right₀ hb1 (by norm_num)\n'
    if n>2: o+='  rw [pow_one] at b2\n'
    else: o+='  rw [pow_one] at b2\n'
    o+=f'''  have hF : (1 : ℝ) ≤ {F} := by linarith
  have hFN : {F} ≤ {N} := by linarith
  have mp (i j) : A.minorPer j i ≤ {F} := by
    have : A.minorPer j i ≤ (Nat.factorial {m} : ℝ) * b ^ {m} :=
      minorPer_le (fun r c => (A (j.succAbove r) (i.succAbove c)).toReal) b fun r c => hb _ _
    norm_num [Nat.factorial] at this ⊢
    exact this
  have mp0 (i j) : 0 ≤ A.minorPer j i := (abs_nonneg _).trans (A.adj_le i j)
  have per : (Matrix.of fun i j => |(A i j).toReal|).permanent ≤ {N} := by
    have : (Matrix.of fun i j => |(A i j).toReal|).permanent ≤ (Nat.factorial {n} : ℝ) * b ^ {n} := minorPer_le (fun i j => (A i j).toReal) b hb
    norm_num [Nat.factorial] at this ⊢
    exact this
  have num (i j) := resid_num (η := f.eta) (F := {F}) (N := {N}) (D := D) (mp := A.minorPer j i) (U := {UE[n]}) (UE := {UD[n]})
    (κ := 1012 / 1000 * ({DE[n]} * f.u)) (κE := 1012 / 1000 * ({DD[n]} * f.u)) hu0 hu hη0 hF hFN (mp0 i j) (mp i j) per
    (by linarith) (by linarith) (by linarith) g1 g2 p1 p2 p3 p4 p5 hs
    _ (abs_det_le_permanent fun i j => (A i j).toReal) hdet hDu
  obtain ⟨r1, r2⟩ := resid_full hp (n := {n}) (by norm_num) (by norm_num) A B ({M}.mul A B) (F := {F}) (C := {C[n]})
    (κ := 1012 / 1000 * ({DE[n]} * f.u)) (κE := 1012 / 1000 * ({DD[n]} * f.u)) hb1 hb
    (show {N} = (({n} : ℕ) : ℝ) * (b * ({F})) by push_cast; ring) hF hs hDu (num 0 0).2.1
    (fun i j => (A.adj_le i j).trans (mp i j)) (by linarith) (by linarith)
    (fun i j => (hent i j).trans (num i j).2.2) hdet (num 0 0).1
    (fun i j hf => by exact_mod_cast (C93_mul_{M} A B i j hf).1)
  refine ⟨fun i j => ⟨(r1 i j).1, (r1 i j).2.1, fun hf => ?_⟩, fun v V hv hf i => ?_⟩
  · have := (r1 i j).2.2 hf
    norm_num at this ⊢
    exact this
  · have := r2 v ({M}.mulVec B v) V hv (fun k => by exact_mod_cast (C93_mulVec_{M} B v k (hf k)).1) i
    norm_num at this ⊢
    exact this

'''
o+='''/-- In `f64` the hypothesis on the range is no restriction: entries up to `2^100`, say. -/
example : 64 * (720 * ((2 : ℝ) ^ 100) ^ 6) * Fmt.f64.eta ≤ Fmt.f64.u := by
  have e1 : Fmt.f64.eta = (2 : ℝ) ^ (-1075 : ℤ) := by
    norm_num [Fmt.eta, Fmt.f64]
  have e2 : Fmt.f64.u = (2 : ℝ) ^ (-53 : ℤ) := by
    norm_num [Fmt.u, Fmt.f64]
  rw [e1, e2]
  have h : (64 * (720 * ((2 : ℝ) ^ 100) ^ 6)) ≤ (2 : ℝ) ^ (616 : ℤ) := by
    have e3 : (2 : ℝ) ^ (616 : ℤ) = 65536 * ((2 : ℝ) ^ 100) ^ 6 := by
      rw [← pow_mul, show (65536 : ℝ) = 2 ^ 16 by norm_num, ← pow_add]; rfl
    rw [e3]
    have : (0 : ℝ) < ((2 : ℝ) ^ 100) ^ 6 := by positivity
    linarith
  calc _ ≤ (2 : ℝ) ^ (616 : ℤ) * (2 : ℝ) ^ (-1075 : ℤ) := mul_le_mul_of_nonneg_right h (by positivity)
    _ = (2 : ℝ) ^ (-459 : ℤ) := by rw [← zpow_add₀ (by norm_num)]; norm_num
    _ ≤ _ := zpow_le_zpow_right₀ (by norm_num) (by norm_num)

/-- A matrix meeting the hypotheses: 2 on and 1 off the diagonal, in `f32`; its determinant is 4 and the residual at most `120 u`. -/
example [Libm Fmt.f32] : ∃ A B : Mat 3 (Flt Fmt.f32), M33.inverse A = .ok (some B) ∧ (∀ i j, |(A i j).toReal| ≤ 2) ∧ (M33.det A).IsFin ∧
    (∀ i j, (B i j).IsFin) ∧ ∀ i j, |(A.reM' * B.reM') i j - (1 : Matrix (Fin 3) (Fin 3) ℝ) i j| ≤ 120 * Fmt.f32.u := by
  have h1 : ∀ i j : Fin 3, (if i = j then 2 else 1 : ℕ) ≤ 2 ^ Fmt.f32.p := by intro i j; split <;> decide
  obtain ⟨A, hAd⟩ : ∃ A : Mat 3 (Flt Fmt.f32), A = ⟨fun i j => Flt.fin false ((if i = j then 2 else 1 : ℕ) : ℝ) (Fmt.f32.rep_nat (h1 i j))⟩ := ⟨_, rfl⟩
  have hv (i j) : (A i j).IsFin ∧ (A i j).toReal = ((if i = j then 2 else 1 : ℕ) : ℝ) := by rw [hAd]; exact ⟨trivial, rfl⟩
  have hA (i j) : (A i j).IntLe 2 := ⟨(hv i j).1, ((if i = j then 2 else 1 : ℕ) : ℤ), by rw [(hv i j).2]; norm_cast, by split <;> norm_num⟩
  have hd : A.reM'.det = 4 := by
    have e (i j) : A.reM' i j = ((if i = j then 2 else 1 : ℕ) : ℝ) := (hv i j).2
    rw [Matrix.det_fin_three]
    simp only [e]
    norm_num [Fin.ext_iff]
  obtain ⟨B, hB, hf, -⟩ := (C146_M33 Fmt.f32_deep A 2 (by norm_num) hA (by decide)).2 (by rw [hd]; norm_num)
  have hdet := (C104_integers_M33 A A ⟨fun i => A i 0⟩ ⟨fun i => A i 0⟩ 2 (by norm_num) hA hA (fun i => hA i 0) (fun i => hA i 0)).1 (by decide)
  have hb (i j) : |(A i j).toReal| ≤ 2 := by rw [(hv i j).2]; split <;> norm_num
  refine ⟨A, B, hB, hb, hdet.1, fun i j => (hf i j).1, fun i j => ?_⟩
  have hs : 64 * (6 * (2 : ℝ) ^ 3) * Fmt.f32.eta ≤ Fmt.f32.u := by
    have e1 : Fmt.f32.eta = (2 : ℝ) ^ (-150 : ℤ) := by norm_num [Fmt.eta, Fmt.f32]
    have e2 : Fmt.f32.u = (2 : ℝ) ^ (-24 : ℤ) := by norm_num [Fmt.u, Fmt.f32]
    rw [e1, e2]; norm_num
  have r := ((C152_M33 (by decide) A B hB 2 (by norm_num) hb hdet.1 (fun i j => (hf i j).1) hs).1 i j).1
  have e : (M33.det A).toReal = 4 := hdet.2.trans hd
  rw [e] at r
  norm_num at r
  linarith

end StaticMath
'''
open('/verif/lean/Verif/Props/IeeeResid.lean','w').write(o)
