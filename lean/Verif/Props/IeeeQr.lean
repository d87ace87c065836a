import Verif.Ieee.QrRel
import Verif.Ieee.QrCol
import Verif.Lemmas.FrobCert
import Verif.Lemmas.InvFlt
import Verif.Props.Ieee

/-!
# C124: the QR factorization in floating point

In exact arithmetic `qr` returns an orthogonal factor (C32). In floating point it does not, whatever the size of the
matrix: the classical Gram-Schmidt process loses orthogonality, or produces NaN. The witnesses are evaluated by the
kernel on computable floats (`Verif/Ieee/Comp.lean`), which are proved to compute what the IEEE model computes.
-/

namespace StaticMath
open Flt

/-! ## Concrete runs -/

/-- The matrix with `[[a, b], [c, d]]` in the upper left corner and otherwise `o` on the diagonal and `z` off it. -/
private def blk {n : ℕ} {α : Type} (a b c d z o : α) : Mat n α :=
  ⟨fun i j => if i.val < 2 ∧ j.val < 2 then (if i.val = 0 then (if j.val = 0 then a else b) else (if j.val = 0 then c else d))
    else if i = j then o else z⟩

/-- Are these the factors returned? -/
private def qrIs {n : ℕ} {f : Fmt} (r : MayPanic (Option (Mat n (BF f) × Mat n (BF f)))) (Q R : Mat n (BF f)) : Bool :=
  match r with
  | .ok (some (Q', R')) => decide (∀ i j, Q'.val i j = Q.val i j ∧ R'.val i j = R.val i j)
  | _ => false

private theorem qr_run {n : ℕ} {f : Fmt} {r : MayPanic (Option (Mat n (BF f) × Mat n (BF f)))}
    {r' : MayPanic (Option (Mat n (Flt f) × Mat n (Flt f)))} (H : ExRel (ORel BF.Den) r r') {Q R : Mat n (BF f)}
    (h : qrIs r Q R = true) : ∃ Q' R', r' = .ok (some (Q', R')) ∧ MRel BF.Den Q Q' ∧ MRel BF.Den R R' := by
  unfold qrIs at h
  split at h
  · rename_i Q1 R1
    rw [decide_eq_true_eq] at h
    have hQ : Q1 = Q := Mat.ext (funext fun i => funext fun j => (h i j).1)
    have hR : R1 = R := Mat.ext (funext fun i => funext fun j => (h i j).2)
    rw [hQ, hR] at H
    match r', H with
    | .ok (some (Q', R')), H => exact ⟨Q', R', rfl, H.1, H.2⟩
  · exact absurd h Bool.false_ne_true

/-- The value of a finite computable float. -/
private noncomputable def bval {f : Fmt} : BF f → ℝ
  | .fin s m e => sgn s (m * (2 : ℝ) ^ e)
  | _ => 0

private def isFinB {f : Fmt} : BF f → Bool
  | .fin _ _ _ => true
  | _ => false

private theorem den_fin {f : Fmt} {b : BF f} {x : Flt f} (h : BF.Den b x) (hb : isFinB b = true) :
    x.IsFin ∧ x.toReal = bval b := by
  rcases b with _ | _ | ⟨s, m, e⟩
  · cases hb
  · cases hb
  · rcases x with _ | t | ⟨t, y, hy⟩
    · exact h.elim
    · exact h.elim
    · obtain ⟨rfl, rfl⟩ := h
      exact ⟨trivial, rfl⟩

private theorem den_nan {f : Fmt} {x : Flt f} (h : BF.Den .nan x) : x = nan := by
  rcases x with _ | t | ⟨t, y, hy⟩
  · rfl
  · exact h.elim
  · exact h.elim

/-- A natural number of at most `2^p` as a float. -/
private noncomputable def ofN (f : Fmt) (k : ℕ) (h : k ≤ 2 ^ f.p) : Flt f := .fin false k (f.rep_nat h)

private theorem den_ofN (f : Fmt) (k : ℕ) (h : k ≤ 2 ^ f.p) : BF.Den (.fin false k 0) (ofN f k h) :=
  ⟨rfl, by simp⟩

/-- A matrix of natural numbers, as data. -/
private def natMat (f : Fmt) {n : ℕ} (a b c d : ℕ) : Mat n (BF f) :=
  ⟨fun i j => .fin false ((blk a b c d 0 1 : Mat n ℕ) i j) 0⟩

private theorem natMat_den (f : Fmt) {n : ℕ} (a b c d : ℕ) (h : ∀ i j, (blk a b c d 0 1 : Mat n ℕ) i j ≤ 2 ^ f.p) :
    MRel BF.Den (natMat f a b c d : Mat n (BF f)) ⟨fun i j => ofN f ((blk a b c d 0 1 : Mat n ℕ) i j) (h i j)⟩ :=
  fun i j => den_ofN _ _ (h i j)

/-- Does this factorization have NaN in the second column? -/
private def nanCol {n : ℕ} {f : Fmt} (i0 i1 : Fin n) (r : MayPanic (Option (Mat n (BF f) × Mat n (BF f)))) : Bool :=
  match r with
  | .ok (some (Q, _)) => decide (Q i0 i1 = .nan) && decide (Q i1 i1 = .nan)
  | _ => false

private theorem nan_run {n : ℕ} {f : Fmt} {i0 i1 : Fin n} {r : MayPanic (Option (Mat n (BF f) × Mat n (BF f)))}
    {r' : MayPanic (Option (Mat n (Flt f) × Mat n (Flt f)))} (H : ExRel (ORel BF.Den) r r')
    (h : nanCol i0 i1 r = true) : ∃ s : Mat n (Flt f) × Mat n (Flt f), r' = .ok (some s) ∧ s.1 i0 i1 = nan ∧ s.1 i1 i1 = nan := by
  unfold nanCol at h
  split at h
  · rename_i Q R
    rw [Bool.and_eq_true, decide_eq_true_eq, decide_eq_true_eq] at h
    match r', H with
    | .ok (some (Q', R')), H => exact ⟨(Q', R'), rfl, den_nan (h.1 ▸ H.1 i0 i1), den_nan (h.2 ▸ H.1 i1 i1)⟩
  · exact absurd h Bool.false_ne_true

private theorem nan_witness {n : ℕ} {f : Fmt} {A : Mat n (BF f)} {A' : Mat n (Flt f)}
    (i0 i1 : Fin n) (det : Mat n (BF f) → BF f) (det' : Mat n (Flt f) → Flt f)
    (qr : Mat n (BF f) → MayPanic (Option (Mat n (BF f) × Mat n (BF f))))
    (qr' : Mat n (Flt f) → MayPanic (Option (Mat n (Flt f) × Mat n (Flt f))))
    (hA : MRel BF.Den A A') (hfin : ∀ i j, isFinB (A i j) = true) (hd : BF.Den (det A) (det' A')) (hd1 : det A = .fin false 1 0)
    (hq : ExRel (ORel BF.Den) (qr A) (qr' A')) (h : nanCol i0 i1 (qr A) = true) :
    ∃ A Q R : Mat n (Flt f), (∀ i j, (A i j).IsFin) ∧ (det' A).IsFin ∧ (det' A).toReal = 1 ∧ qr' A = .ok (some (Q, R)) ∧
      Q i0 i1 = nan ∧ Q i1 i1 = nan := by
  rw [hd1] at hd
  obtain ⟨s, hs, h1, h2⟩ := nan_run hq h
  exact ⟨A', s.1, s.2, fun i j => (den_fin (hA i j) (hfin i j)).1, (den_fin hd rfl).1,
    (den_fin hd rfl).2.trans (by simp [bval, sgn]), hs, h1, h2⟩

/-- What is shown of each witness that is not orthogonal: finite entries, determinant exactly 1, finite factors. -/
private theorem witness {n : ℕ} {f : Fmt} {A Q R : Mat n (BF f)} {A' : Mat n (Flt f)}
    (i0 i1 : Fin n) (det : Mat n (BF f) → BF f) (det' : Mat n (Flt f) → Flt f)
    (qr : Mat n (BF f) → MayPanic (Option (Mat n (BF f) × Mat n (BF f))))
    (qr' : Mat n (Flt f) → MayPanic (Option (Mat n (Flt f) × Mat n (Flt f))))
    (hA : MRel BF.Den A A') (hfin : ∀ i j, isFinB (A i j) = true) (hd : BF.Den (det A) (det' A')) (hd1 : det A = .fin false 1 0)
    (hq : ExRel (ORel BF.Den) (qr A) (qr' A')) (h : qrIs (qr A) Q R = true)
    (hf : ∀ i j, isFinB (Q i j) = true ∧ isFinB (R i j) = true) {c d : ℝ}
    (hc : c < |∑ k, bval (Q k i0) * bval (Q k i1)|) (hd2 : d < |∑ k, bval (Q i0 k) * bval (R k i0) - bval (A i0 i0)|) :
    ∃ A Q R : Mat n (Flt f), (∀ i j, (A i j).IsFin) ∧ (det' A).IsFin ∧ (det' A).toReal = 1 ∧ qr' A = .ok (some (Q, R)) ∧
      (∀ i j, (Q i j).IsFin ∧ (R i j).IsFin) ∧ c < |∑ k, (Q k i0).toReal * (Q k i1).toReal| ∧
      d < |∑ k, (Q i0 k).toReal * (R k i0).toReal - (A i0 i0).toReal| := by
  rw [hd1] at hd
  obtain ⟨Q', R', e, hQ, hR⟩ := qr_run hq h
  refine ⟨A', Q', R', fun i j => (den_fin (hA i j) (hfin i j)).1, (den_fin hd rfl).1, (den_fin hd rfl).2.trans (by simp [bval, sgn]),
    e, fun i j => ⟨(den_fin (hQ i j) (hf i j).1).1, (den_fin (hR i j) (hf i j).2).1⟩, ?_, ?_⟩
  · simpa only [(den_fin (hQ _ _) (hf _ _).1).2] using hc
  · simpa only [(den_fin (hQ _ _) (hf _ _).1).2, (den_fin (hR _ _) (hf _ _).2).2, (den_fin (hA _ _) (hfin _ _)).2] using hd2

attribute [local irreducible] BF.Den ExRel MRel qrIs nanCol

/-- C124 is false of `M22`: in `f32` the matrix with `[[2309, 2066], [2290, 2049]]`,
whose determinant is computed exactly and is 1, has a computed factorization without NaN or infinity in which the
first two columns of `Q` have an inner product of magnitude above 0.9, and `Q * R` misses an entry of the matrix by
more than 1000. -/
theorem C124_orthogonal_M22_f32_false [Libm Fmt.f32] : ∃ A Q R : Mat 2 (Flt Fmt.f32),
    (∀ i j, (A i j).IsFin) ∧ (M22.det A).IsFin ∧ (M22.det A).toReal = 1 ∧ M22.qr A = .ok (some (Q, R)) ∧
    (∀ i j, (Q i j).IsFin ∧ (R i j).IsFin) ∧
    9 / 10 < |∑ k, (Q k 0).toReal * (Q k 1).toReal| ∧
    1000 < |∑ k, (Q 0 k).toReal * (R k 0).toReal - (A 0 0).toReal| := by
  have hA := natMat_den Fmt.f32 (n := 2) 2309 2066 2290 2049 (by decide +kernel)
  refine witness 0 1 M22.det M22.det M22.qr M22.qr hA (fun i j => rfl) (M22.det_related (BF.related _) hA) (by decide +kernel) (M22.qr_related (BF.related _) hA)
    (Q := blk (.fin false 11912193 (-24)) (.fin true 15005998 (-24)) (.fin false 11814172 (-24)) (.fin true 15005998 (-25)) (.fin false 0 0) (.fin false 8388608 (-23)))
    (R := blk (.fin false 13320242 (-12)) (.fin false 11918416 (-12)) (.fin true 12653984 (-12)) (.fin true 11322275 (-12)) (.fin false 0 0) (.fin false 8388608 (-23))) (by decide +kernel) (by decide +kernel) ?_ ?_
  · simp only [Fin.sum_univ_succ, blk, bval, sgn]
    rw [lt_abs]
    norm_num [Fin.ext_iff]
  · simp only [Fin.sum_univ_succ, natMat, blk, bval, sgn]
    rw [lt_abs]
    norm_num [Fin.ext_iff]

/-- C124 is false of `M22`: for the `f32` matrix with `[[2780, 2321], [2459, 2053]]`,
whose determinant is computed exactly and is 1, `qr` returns a `Q` with NaN in its second column. -/
theorem C124_nan_M22_f32_false [Libm Fmt.f32] : ∃ A Q R : Mat 2 (Flt Fmt.f32),
    (∀ i j, (A i j).IsFin) ∧ (M22.det A).IsFin ∧ (M22.det A).toReal = 1 ∧ M22.qr A = .ok (some (Q, R)) ∧
    Q 0 1 = nan ∧ Q 1 1 = nan := by
  have hA := natMat_den Fmt.f32 (n := 2) 2780 2321 2459 2053 (by decide +kernel)
  exact nan_witness 0 1 M22.det M22.det M22.qr M22.qr hA (fun i j => rfl) (M22.det_related (BF.related _) hA) (by decide +kernel)
    (M22.qr_related (BF.related _) hA) (by decide +kernel)

/-- C124 is false of `M22`: in `f64` the matrix with `[[49244936, 45829893], [45352299, 42207203]]`,
whose determinant is computed exactly and is 1, has a computed factorization without NaN or infinity in which the
first two columns of `Q` have an inner product of magnitude above 0.9, and `Q * R` misses an entry of the matrix by
more than 1000000. -/
theorem C124_orthogonal_M22_f64_false [Libm Fmt.f64] : ∃ A Q R : Mat 2 (Flt Fmt.f64),
    (∀ i j, (A i j).IsFin) ∧ (M22.det A).IsFin ∧ (M22.det A).toReal = 1 ∧ M22.qr A = .ok (some (Q, R)) ∧
    (∀ i j, (Q i j).IsFin ∧ (R i j).IsFin) ∧
    9 / 10 < |∑ k, (Q k 0).toReal * (Q k 1).toReal| ∧
    1000000 < |∑ k, (Q 0 k).toReal * (R k 0).toReal - (A 0 0).toReal| := by
  have hA := natMat_den Fmt.f64 (n := 2) 49244936 45829893 45352299 42207203 (by decide +kernel)
  refine witness 0 1 M22.det M22.det M22.qr M22.qr hA (fun i j => rfl) (M22.det_related (BF.related _) hA) (by decide +kernel) (M22.qr_related (BF.related _) hA)
    (Q := blk (.fin false 6625528415694193 (-53)) (.fin false 8056283928194521 (-54)) (.fin false 6101803965011943 (-53)) (.fin false 8056283928194521 (-53)) (.fin false 0 0) (.fin false 4503599627370496 (-52)))
    (R := blk (.fin false 8985468158984916 (-27)) (.fin false 8362342968243186 (-27)) (.fin false 8400329809803610 (-27)) (.fin false 7817782854830189 (-27)) (.fin false 0 0) (.fin false 4503599627370496 (-52))) (by decide +kernel) (by decide +kernel) ?_ ?_
  · simp only [Fin.sum_univ_succ, blk, bval, sgn]
    rw [lt_abs]
    norm_num [Fin.ext_iff]
  · simp only [Fin.sum_univ_succ, natMat, blk, bval, sgn]
    rw [lt_abs]
    norm_num [Fin.ext_iff]

/-- C124 is false of `M22`: for the `f64` matrix with `[[64530713, 59578972], [62187964, 57415993]]`,
whose determinant is computed exactly and is 1, `qr` returns a `Q` with NaN in its second column. -/
theorem C124_nan_M22_f64_false [Libm Fmt.f64] : ∃ A Q R : Mat 2 (Flt Fmt.f64),
    (∀ i j, (A i j).IsFin) ∧ (M22.det A).IsFin ∧ (M22.det A).toReal = 1 ∧ M22.qr A = .ok (some (Q, R)) ∧
    Q 0 1 = nan ∧ Q 1 1 = nan := by
  have hA := natMat_den Fmt.f64 (n := 2) 64530713 59578972 62187964 57415993 (by decide +kernel)
  exact nan_witness 0 1 M22.det M22.det M22.qr M22.qr hA (fun i j => rfl) (M22.det_related (BF.related _) hA) (by decide +kernel)
    (M22.qr_related (BF.related _) hA) (by decide +kernel)

/-- C124 is false of `M33`: in `f32` the matrix with `[[2309, 2066], [2290, 2049]]` in the upper left corner and the identity in the rest,
whose determinant is computed exactly and is 1, has a computed factorization without NaN or infinity in which the
first two columns of `Q` have an inner product of magnitude above 0.9, and `Q * R` misses an entry of the matrix by
more than 1000. -/
theorem C124_orthogonal_M33_f32_false [Libm Fmt.f32] : ∃ A Q R : Mat 3 (Flt Fmt.f32),
    (∀ i j, (A i j).IsFin) ∧ (M33.det A).IsFin ∧ (M33.det A).toReal = 1 ∧ M33.qr A = .ok (some (Q, R)) ∧
    (∀ i j, (Q i j).IsFin ∧ (R i j).IsFin) ∧
    9 / 10 < |∑ k, (Q k 0).toReal * (Q k 1).toReal| ∧
    1000 < |∑ k, (Q 0 k).toReal * (R k 0).toReal - (A 0 0).toReal| := by
  have hA := natMat_den Fmt.f32 (n := 3) 2309 2066 2290 2049 (by decide +kernel)
  refine witness 0 1 M33.det M33.det M33.qr M33.qr hA (fun i j => rfl) (M33.det_related (BF.related _) hA) (by decide +kernel) (M33.qr_related (BF.related _) hA)
    (Q := blk (.fin false 11912193 (-24)) (.fin true 15005998 (-24)) (.fin false 11814172 (-24)) (.fin true 15005998 (-25)) (.fin false 0 0) (.fin false 8388608 (-23)))
    (R := blk (.fin false 13320242 (-12)) (.fin false 11918416 (-12)) (.fin true 12653984 (-12)) (.fin true 11322275 (-12)) (.fin false 0 0) (.fin false 8388608 (-23))) (by decide +kernel) (by decide +kernel) ?_ ?_
  · simp only [Fin.sum_univ_succ, blk, bval, sgn]
    rw [lt_abs]
    norm_num [Fin.ext_iff]
  · simp only [Fin.sum_univ_succ, natMat, blk, bval, sgn]
    rw [lt_abs]
    norm_num [Fin.ext_iff]

/-- C124 is false of `M33`: for the `f32` matrix with `[[2780, 2321], [2459, 2053]]` in the upper left corner and the identity in the rest,
whose determinant is computed exactly and is 1, `qr` returns a `Q` with NaN in its second column. -/
theorem C124_nan_M33_f32_false [Libm Fmt.f32] : ∃ A Q R : Mat 3 (Flt Fmt.f32),
    (∀ i j, (A i j).IsFin) ∧ (M33.det A).IsFin ∧ (M33.det A).toReal = 1 ∧ M33.qr A = .ok (some (Q, R)) ∧
    Q 0 1 = nan ∧ Q 1 1 = nan := by
  have hA := natMat_den Fmt.f32 (n := 3) 2780 2321 2459 2053 (by decide +kernel)
  exact nan_witness 0 1 M33.det M33.det M33.qr M33.qr hA (fun i j => rfl) (M33.det_related (BF.related _) hA) (by decide +kernel)
    (M33.qr_related (BF.related _) hA) (by decide +kernel)

/-- C124 is false of `M33`: in `f64` the matrix with `[[49244936, 45829893], [45352299, 42207203]]` in the upper left corner and the identity in the rest,
whose determinant is computed exactly and is 1, has a computed factorization without NaN or infinity in which the
first two columns of `Q` have an inner product of magnitude above 0.9, and `Q * R` misses an entry of the matrix by
more than 1000000. -/
theorem C124_orthogonal_M33_f64_false [Libm Fmt.f64] : ∃ A Q R : Mat 3 (Flt Fmt.f64),
    (∀ i j, (A i j).IsFin) ∧ (M33.det A).IsFin ∧ (M33.det A).toReal = 1 ∧ M33.qr A = .ok (some (Q, R)) ∧
    (∀ i j, (Q i j).IsFin ∧ (R i j).IsFin) ∧
    9 / 10 < |∑ k, (Q k 0).toReal * (Q k 1).toReal| ∧
    1000000 < |∑ k, (Q 0 k).toReal * (R k 0).toReal - (A 0 0).toReal| := by
  have hA := natMat_den Fmt.f64 (n := 3) 49244936 45829893 45352299 42207203 (by decide +kernel)
  refine witness 0 1 M33.det M33.det M33.qr M33.qr hA (fun i j => rfl) (M33.det_related (BF.related _) hA) (by decide +kernel) (M33.qr_related (BF.related _) hA)
    (Q := blk (.fin false 6625528415694193 (-53)) (.fin false 8056283928194521 (-54)) (.fin false 6101803965011943 (-53)) (.fin false 8056283928194521 (-53)) (.fin false 0 0) (.fin false 4503599627370496 (-52)))
    (R := blk (.fin false 8985468158984916 (-27)) (.fin false 8362342968243186 (-27)) (.fin false 8400329809803610 (-27)) (.fin false 7817782854830189 (-27)) (.fin false 0 0) (.fin false 4503599627370496 (-52))) (by decide +kernel) (by decide +kernel) ?_ ?_
  · simp only [Fin.sum_univ_succ, blk, bval, sgn]
    rw [lt_abs]
    norm_num [Fin.ext_iff]
  · simp only [Fin.sum_univ_succ, natMat, blk, bval, sgn]
    rw [lt_abs]
    norm_num [Fin.ext_iff]

/-- C124 is false of `M33`: for the `f64` matrix with `[[64530713, 59578972], [62187964, 57415993]]` in the upper left corner and the identity in the rest,
whose determinant is computed exactly and is 1, `qr` returns a `Q` with NaN in its second column. -/
theorem C124_nan_M33_f64_false [Libm Fmt.f64] : ∃ A Q R : Mat 3 (Flt Fmt.f64),
    (∀ i j, (A i j).IsFin) ∧ (M33.det A).IsFin ∧ (M33.det A).toReal = 1 ∧ M33.qr A = .ok (some (Q, R)) ∧
    Q 0 1 = nan ∧ Q 1 1 = nan := by
  have hA := natMat_den Fmt.f64 (n := 3) 64530713 59578972 62187964 57415993 (by decide +kernel)
  exact nan_witness 0 1 M33.det M33.det M33.qr M33.qr hA (fun i j => rfl) (M33.det_related (BF.related _) hA) (by decide +kernel)
    (M33.qr_related (BF.related _) hA) (by decide +kernel)

/-- C124 is false of `M44`: in `f32` the matrix with `[[2309, 2066], [2290, 2049]]` in the upper left corner and the identity in the rest,
whose determinant is computed exactly and is 1, has a computed factorization without NaN or infinity in which the
first two columns of `Q` have an inner product of magnitude above 0.9, and `Q * R` misses an entry of the matrix by
more than 1000. -/
theorem C124_orthogonal_M44_f32_false [Libm Fmt.f32] : ∃ A Q R : Mat 4 (Flt Fmt.f32),
    (∀ i j, (A i j).IsFin) ∧ (M44.det A).IsFin ∧ (M44.det A).toReal = 1 ∧ M44.qr A = .ok (some (Q, R)) ∧
    (∀ i j, (Q i j).IsFin ∧ (R i j).IsFin) ∧
    9 / 10 < |∑ k, (Q k 0).toReal * (Q k 1).toReal| ∧
    1000 < |∑ k, (Q 0 k).toReal * (R k 0).toReal - (A 0 0).toReal| := by
  have hA := natMat_den Fmt.f32 (n := 4) 2309 2066 2290 2049 (by decide +kernel)
  refine witness 0 1 M44.det M44.det M44.qr M44.qr hA (fun i j => rfl) (M44.det_related (BF.related _) hA) (by decide +kernel) (M44.qr_related (BF.related _) hA)
    (Q := blk (.fin false 11912193 (-24)) (.fin true 15005998 (-24)) (.fin false 11814172 (-24)) (.fin true 15005998 (-25)) (.fin false 0 0) (.fin false 8388608 (-23)))
    (R := blk (.fin false 13320242 (-12)) (.fin false 11918416 (-12)) (.fin true 12653984 (-12)) (.fin true 11322275 (-12)) (.fin false 0 0) (.fin false 8388608 (-23))) (by decide +kernel) (by decide +kernel) ?_ ?_
  · simp only [Fin.sum_univ_succ, blk, bval, sgn]
    rw [lt_abs]
    norm_num [Fin.ext_iff]
  · simp only [Fin.sum_univ_succ, natMat, blk, bval, sgn]
    rw [lt_abs]
    norm_num [Fin.ext_iff]

/-- C124 is false of `M44`: for the `f32` matrix with `[[2780, 2321], [2459, 2053]]` in the upper left corner and the identity in the rest,
whose determinant is computed exactly and is 1, `qr` returns a `Q` with NaN in its second column. -/
theorem C124_nan_M44_f32_false [Libm Fmt.f32] : ∃ A Q R : Mat 4 (Flt Fmt.f32),
    (∀ i j, (A i j).IsFin) ∧ (M44.det A).IsFin ∧ (M44.det A).toReal = 1 ∧ M44.qr A = .ok (some (Q, R)) ∧
    Q 0 1 = nan ∧ Q 1 1 = nan := by
  have hA := natMat_den Fmt.f32 (n := 4) 2780 2321 2459 2053 (by decide +kernel)
  exact nan_witness 0 1 M44.det M44.det M44.qr M44.qr hA (fun i j => rfl) (M44.det_related (BF.related _) hA) (by decide +kernel)
    (M44.qr_related (BF.related _) hA) (by decide +kernel)

/-- C124 is false of `M44`: in `f64` the matrix with `[[49244936, 45829893], [45352299, 42207203]]` in the upper left corner and the identity in the rest,
whose determinant is computed exactly and is 1, has a computed factorization without NaN or infinity in which the
first two columns of `Q` have an inner product of magnitude above 0.9, and `Q * R` misses an entry of the matrix by
more than 1000000. -/
theorem C124_orthogonal_M44_f64_false [Libm Fmt.f64] : ∃ A Q R : Mat 4 (Flt Fmt.f64),
    (∀ i j, (A i j).IsFin) ∧ (M44.det A).IsFin ∧ (M44.det A).toReal = 1 ∧ M44.qr A = .ok (some (Q, R)) ∧
    (∀ i j, (Q i j).IsFin ∧ (R i j).IsFin) ∧
    9 / 10 < |∑ k, (Q k 0).toReal * (Q k 1).toReal| ∧
    1000000 < |∑ k, (Q 0 k).toReal * (R k 0).toReal - (A 0 0).toReal| := by
  have hA := natMat_den Fmt.f64 (n := 4) 49244936 45829893 45352299 42207203 (by decide +kernel)
  refine witness 0 1 M44.det M44.det M44.qr M44.qr hA (fun i j => rfl) (M44.det_related (BF.related _) hA) (by decide +kernel) (M44.qr_related (BF.related _) hA)
    (Q := blk (.fin false 6625528415694193 (-53)) (.fin false 8056283928194521 (-54)) (.fin false 6101803965011943 (-53)) (.fin false 8056283928194521 (-53)) (.fin false 0 0) (.fin false 4503599627370496 (-52)))
    (R := blk (.fin false 8985468158984916 (-27)) (.fin false 8362342968243186 (-27)) (.fin false 8400329809803610 (-27)) (.fin false 7817782854830189 (-27)) (.fin false 0 0) (.fin false 4503599627370496 (-52))) (by decide +kernel) (by decide +kernel) ?_ ?_
  · simp only [Fin.sum_univ_succ, blk, bval, sgn]
    rw [lt_abs]
    norm_num [Fin.ext_iff]
  · simp only [Fin.sum_univ_succ, natMat, blk, bval, sgn]
    rw [lt_abs]
    norm_num [Fin.ext_iff]

/-- C124 is false of `M44`: for the `f64` matrix with `[[64530713, 59578972], [62187964, 57415993]]` in the upper left corner and the identity in the rest,
whose determinant is computed exactly and is 1, `qr` returns a `Q` with NaN in its second column. -/
theorem C124_nan_M44_f64_false [Libm Fmt.f64] : ∃ A Q R : Mat 4 (Flt Fmt.f64),
    (∀ i j, (A i j).IsFin) ∧ (M44.det A).IsFin ∧ (M44.det A).toReal = 1 ∧ M44.qr A = .ok (some (Q, R)) ∧
    Q 0 1 = nan ∧ Q 1 1 = nan := by
  have hA := natMat_den Fmt.f64 (n := 4) 64530713 59578972 62187964 57415993 (by decide +kernel)
  exact nan_witness 0 1 M44.det M44.det M44.qr M44.qr hA (fun i j => rfl) (M44.det_related (BF.related _) hA) (by decide +kernel)
    (M44.qr_related (BF.related _) hA) (by decide +kernel)

/-- C124 is false of `M55`: in `f32` the matrix with `[[2309, 2066], [2290, 2049]]` in the upper left corner and the identity in the rest,
whose determinant is computed exactly and is 1, has a computed factorization without NaN or infinity in which the
first two columns of `Q` have an inner product of magnitude above 0.9, and `Q * R` misses an entry of the matrix by
more than 1000. -/
theorem C124_orthogonal_M55_f32_false [Libm Fmt.f32] : ∃ A Q R : Mat 5 (Flt Fmt.f32),
    (∀ i j, (A i j).IsFin) ∧ (M55.det A).IsFin ∧ (M55.det A).toReal = 1 ∧ M55.qr A = .ok (some (Q, R)) ∧
    (∀ i j, (Q i j).IsFin ∧ (R i j).IsFin) ∧
    9 / 10 < |∑ k, (Q k 0).toReal * (Q k 1).toReal| ∧
    1000 < |∑ k, (Q 0 k).toReal * (R k 0).toReal - (A 0 0).toReal| := by
  have hA := natMat_den Fmt.f32 (n := 5) 2309 2066 2290 2049 (by decide +kernel)
  refine witness 0 1 M55.det M55.det M55.qr M55.qr hA (fun i j => rfl) (M55.det_related (BF.related _) hA) (by decide +kernel) (M55.qr_related (BF.related _) hA)
    (Q := blk (.fin false 11912193 (-24)) (.fin true 15005998 (-24)) (.fin false 11814172 (-24)) (.fin true 15005998 (-25)) (.fin false 0 0) (.fin false 8388608 (-23)))
    (R := blk (.fin false 13320242 (-12)) (.fin false 11918416 (-12)) (.fin true 12653984 (-12)) (.fin true 11322275 (-12)) (.fin false 0 0) (.fin false 8388608 (-23))) (by decide +kernel) (by decide +kernel) ?_ ?_
  · simp only [Fin.sum_univ_succ, blk, bval, sgn]
    rw [lt_abs]
    norm_num [Fin.ext_iff]
  · simp only [Fin.sum_univ_succ, natMat, blk, bval, sgn]
    rw [lt_abs]
    norm_num [Fin.ext_iff]

/-- C124 is false of `M55`: for the `f32` matrix with `[[2780, 2321], [2459, 2053]]` in the upper left corner and the identity in the rest,
whose determinant is computed exactly and is 1, `qr` returns a `Q` with NaN in its second column. -/
theorem C124_nan_M55_f32_false [Libm Fmt.f32] : ∃ A Q R : Mat 5 (Flt Fmt.f32),
    (∀ i j, (A i j).IsFin) ∧ (M55.det A).IsFin ∧ (M55.det A).toReal = 1 ∧ M55.qr A = .ok (some (Q, R)) ∧
    Q 0 1 = nan ∧ Q 1 1 = nan := by
  have hA := natMat_den Fmt.f32 (n := 5) 2780 2321 2459 2053 (by decide +kernel)
  exact nan_witness 0 1 M55.det M55.det M55.qr M55.qr hA (fun i j => rfl) (M55.det_related (BF.related _) hA) (by decide +kernel)
    (M55.qr_related (BF.related _) hA) (by decide +kernel)

/-- C124 is false of `M55`: in `f64` the matrix with `[[49244936, 45829893], [45352299, 42207203]]` in the upper left corner and the identity in the rest,
whose determinant is computed exactly and is 1, has a computed factorization without NaN or infinity in which the
first two columns of `Q` have an inner product of magnitude above 0.9, and `Q * R` misses an entry of the matrix by
more than 1000000. -/
theorem C124_orthogonal_M55_f64_false [Libm Fmt.f64] : ∃ A Q R : Mat 5 (Flt Fmt.f64),
    (∀ i j, (A i j).IsFin) ∧ (M55.det A).IsFin ∧ (M55.det A).toReal = 1 ∧ M55.qr A = .ok (some (Q, R)) ∧
    (∀ i j, (Q i j).IsFin ∧ (R i j).IsFin) ∧
    9 / 10 < |∑ k, (Q k 0).toReal * (Q k 1).toReal| ∧
    1000000 < |∑ k, (Q 0 k).toReal * (R k 0).toReal - (A 0 0).toReal| := by
  have hA := natMat_den Fmt.f64 (n := 5) 49244936 45829893 45352299 42207203 (by decide +kernel)
  refine witness 0 1 M55.det M55.det M55.qr M55.qr hA (fun i j => rfl) (M55.det_related (BF.related _) hA) (by decide +kernel) (M55.qr_related (BF.related _) hA)
    (Q := blk (.fin false 6625528415694193 (-53)) (.fin false 8056283928194521 (-54)) (.fin false 6101803965011943 (-53)) (.fin false 8056283928194521 (-53)) (.fin false 0 0) (.fin false 4503599627370496 (-52)))
    (R := blk (.fin false 8985468158984916 (-27)) (.fin false 8362342968243186 (-27)) (.fin false 8400329809803610 (-27)) (.fin false 7817782854830189 (-27)) (.fin false 0 0) (.fin false 4503599627370496 (-52))) (by decide +kernel) (by decide +kernel) ?_ ?_
  · simp only [Fin.sum_univ_succ, blk, bval, sgn]
    rw [lt_abs]
    norm_num [Fin.ext_iff]
  · simp only [Fin.sum_univ_succ, natMat, blk, bval, sgn]
    rw [lt_abs]
    norm_num [Fin.ext_iff]

/-- C124 is false of `M55`: for the `f64` matrix with `[[64530713, 59578972], [62187964, 57415993]]` in the upper left corner and the identity in the rest,
whose determinant is computed exactly and is 1, `qr` returns a `Q` with NaN in its second column. -/
theorem C124_nan_M55_f64_false [Libm Fmt.f64] : ∃ A Q R : Mat 5 (Flt Fmt.f64),
    (∀ i j, (A i j).IsFin) ∧ (M55.det A).IsFin ∧ (M55.det A).toReal = 1 ∧ M55.qr A = .ok (some (Q, R)) ∧
    Q 0 1 = nan ∧ Q 1 1 = nan := by
  have hA := natMat_den Fmt.f64 (n := 5) 64530713 59578972 62187964 57415993 (by decide +kernel)
  exact nan_witness 0 1 M55.det M55.det M55.qr M55.qr hA (fun i j => rfl) (M55.det_related (BF.related _) hA) (by decide +kernel)
    (M55.qr_related (BF.related _) hA) (by decide +kernel)

/-- C124 is false of `M66`: in `f32` the matrix with `[[2309, 2066], [2290, 2049]]` in the upper left corner and the identity in the rest,
whose determinant is computed exactly and is 1, has a computed factorization without NaN or infinity in which the
first two columns of `Q` have an inner product of magnitude above 0.9, and `Q * R` misses an entry of the matrix by
more than 1000. -/
theorem C124_orthogonal_M66_f32_false [Libm Fmt.f32] : ∃ A Q R : Mat 6 (Flt Fmt.f32),
    (∀ i j, (A i j).IsFin) ∧ (M66.det A).IsFin ∧ (M66.det A).toReal = 1 ∧ M66.qr A = .ok (some (Q, R)) ∧
    (∀ i j, (Q i j).IsFin ∧ (R i j).IsFin) ∧
    9 / 10 < |∑ k, (Q k 0).toReal * (Q k 1).toReal| ∧
    1000 < |∑ k, (Q 0 k).toReal * (R k 0).toReal - (A 0 0).toReal| := by
  have hA := natMat_den Fmt.f32 (n := 6) 2309 2066 2290 2049 (by decide +kernel)
  refine witness 0 1 M66.det M66.det M66.qr M66.qr hA (fun i j => rfl) (M66.det_related (BF.related _) hA) (by decide +kernel) (M66.qr_related (BF.related _) hA)
    (Q := blk (.fin false 11912193 (-24)) (.fin true 15005998 (-24)) (.fin false 11814172 (-24)) (.fin true 15005998 (-25)) (.fin false 0 0) (.fin false 8388608 (-23)))
    (R := blk (.fin false 13320242 (-12)) (.fin false 11918416 (-12)) (.fin true 12653984 (-12)) (.fin true 11322275 (-12)) (.fin false 0 0) (.fin false 8388608 (-23))) (by decide +kernel) (by decide +kernel) ?_ ?_
  · simp only [Fin.sum_univ_succ, blk, bval, sgn]
    rw [lt_abs]
    norm_num [Fin.ext_iff]
  · simp only [Fin.sum_univ_succ, natMat, blk, bval, sgn]
    rw [lt_abs]
    norm_num [Fin.ext_iff]

/-- C124 is false of `M66`: for the `f32` matrix with `[[2780, 2321], [2459, 2053]]` in the upper left corner and the identity in the rest,
whose determinant is computed exactly and is 1, `qr` returns a `Q` with NaN in its second column. -/
theorem C124_nan_M66_f32_false [Libm Fmt.f32] : ∃ A Q R : Mat 6 (Flt Fmt.f32),
    (∀ i j, (A i j).IsFin) ∧ (M66.det A).IsFin ∧ (M66.det A).toReal = 1 ∧ M66.qr A = .ok (some (Q, R)) ∧
    Q 0 1 = nan ∧ Q 1 1 = nan := by
  have hA := natMat_den Fmt.f32 (n := 6) 2780 2321 2459 2053 (by decide +kernel)
  exact nan_witness 0 1 M66.det M66.det M66.qr M66.qr hA (fun i j => rfl) (M66.det_related (BF.related _) hA) (by decide +kernel)
    (M66.qr_related (BF.related _) hA) (by decide +kernel)

/-- C124 is false of `M66`: in `f64` the matrix with `[[49244936, 45829893], [45352299, 42207203]]` in the upper left corner and the identity in the rest,
whose determinant is computed exactly and is 1, has a computed factorization without NaN or infinity in which the
first two columns of `Q` have an inner product of magnitude above 0.9, and `Q * R` misses an entry of the matrix by
more than 1000000. -/
theorem C124_orthogonal_M66_f64_false [Libm Fmt.f64] : ∃ A Q R : Mat 6 (Flt Fmt.f64),
    (∀ i j, (A i j).IsFin) ∧ (M66.det A).IsFin ∧ (M66.det A).toReal = 1 ∧ M66.qr A = .ok (some (Q, R)) ∧
    (∀ i j, (Q i j).IsFin ∧ (R i j).IsFin) ∧
    9 / 10 < |∑ k, (Q k 0).toReal * (Q k 1).toReal| ∧
    1000000 < |∑ k, (Q 0 k).toReal * (R k 0).toReal - (A 0 0).toReal| := by
  have hA := natMat_den Fmt.f64 (n := 6) 49244936 45829893 45352299 42207203 (by decide +kernel)
  refine witness 0 1 M66.det M66.det M66.qr M66.qr hA (fun i j => rfl) (M66.det_related (BF.related _) hA) (by decide +kernel) (M66.qr_related (BF.related _) hA)
    (Q := blk (.fin false 6625528415694193 (-53)) (.fin false 8056283928194521 (-54)) (.fin false 6101803965011943 (-53)) (.fin false 8056283928194521 (-53)) (.fin false 0 0) (.fin false 4503599627370496 (-52)))
    (R := blk (.fin false 8985468158984916 (-27)) (.fin false 8362342968243186 (-27)) (.fin false 8400329809803610 (-27)) (.fin false 7817782854830189 (-27)) (.fin false 0 0) (.fin false 4503599627370496 (-52))) (by decide +kernel) (by decide +kernel) ?_ ?_
  · simp only [Fin.sum_univ_succ, blk, bval, sgn]
    rw [lt_abs]
    norm_num [Fin.ext_iff]
  · simp only [Fin.sum_univ_succ, natMat, blk, bval, sgn]
    rw [lt_abs]
    norm_num [Fin.ext_iff]

/-- C124 is false of `M66`: for the `f64` matrix with `[[64530713, 59578972], [62187964, 57415993]]` in the upper left corner and the identity in the rest,
whose determinant is computed exactly and is 1, `qr` returns a `Q` with NaN in its second column. -/
theorem C124_nan_M66_f64_false [Libm Fmt.f64] : ∃ A Q R : Mat 6 (Flt Fmt.f64),
    (∀ i j, (A i j).IsFin) ∧ (M66.det A).IsFin ∧ (M66.det A).toReal = 1 ∧ M66.qr A = .ok (some (Q, R)) ∧
    Q 0 1 = nan ∧ Q 1 1 = nan := by
  have hA := natMat_den Fmt.f64 (n := 6) 64530713 59578972 62187964 57415993 (by decide +kernel)
  exact nan_witness 0 1 M66.det M66.det M66.qr M66.qr hA (fun i j => rfl) (M66.det_related (BF.related _) hA) (by decide +kernel)
    (M66.qr_related (BF.related _) hA) (by decide +kernel)

/-! ## The columns of `Q` -/

/-- The methods `M22::qr` calls. -/
private abbrev ops2 {T : Type} [Add T] [Sub T] [Mul T] [Div T] [Neg T] [Zero T] [One T] : QrOps 2 T :=
  ⟨M22.det, M22.zero, M22.get_cols, M22.new_from_vecs, M22.transpose, M22.mul, V2.sub, V2.smul⟩

private theorem qr_both_2 {f : Fmt} [Libm f] (A Q R : Mat 2 (Flt f)) (h : M22.qr A = .ok (some (Q, R))) :
    ∃ q : Vec 2 (Vec 2 (Flt f)), (∀ j, q j = gsUnit (gsTilde ops2 ⟨fun i => A i j⟩ (q.toSlice.take j))) ∧
      (∀ i j, Q i j = q j i) ∧ R = M22.mul (M22.transpose Q) A := by
  cases hz : nearly_zero (M22.det A)
  · obtain ⟨q, hq, e⟩ := qrGen_cols (ops2 : QrOps 2 (Flt f)) M22.get_cols_eq M22.new_from_vecs_eq A hz
    have e2 := e.symm.trans h
    injection e2 with e2
    injection e2 with e2
    obtain ⟨e3, e4⟩ := Prod.mk.inj e2
    refine ⟨q, hq, fun i j => by rw [← e3], ?_⟩
    rw [← e4, ← e3]
  · unfold M22.qr qrGen at h
    simp only [hz] at h
    injection h with h
    cases h

/-- The methods `M33::qr` calls. -/
private abbrev ops3 {T : Type} [Add T] [Sub T] [Mul T] [Div T] [Neg T] [Zero T] [One T] : QrOps 3 T :=
  ⟨M33.det, M33.zero, M33.get_cols, M33.new_from_vecs, M33.transpose, M33.mul, V3.sub, V3.smul⟩

private theorem qr_both_3 {f : Fmt} [Libm f] (A Q R : Mat 3 (Flt f)) (h : M33.qr A = .ok (some (Q, R))) :
    ∃ q : Vec 3 (Vec 3 (Flt f)), (∀ j, q j = gsUnit (gsTilde ops3 ⟨fun i => A i j⟩ (q.toSlice.take j))) ∧
      (∀ i j, Q i j = q j i) ∧ R = M33.mul (M33.transpose Q) A := by
  cases hz : nearly_zero (M33.det A)
  · obtain ⟨q, hq, e⟩ := qrGen_cols (ops3 : QrOps 3 (Flt f)) M33.get_cols_eq M33.new_from_vecs_eq A hz
    have e2 := e.symm.trans h
    injection e2 with e2
    injection e2 with e2
    obtain ⟨e3, e4⟩ := Prod.mk.inj e2
    refine ⟨q, hq, fun i j => by rw [← e3], ?_⟩
    rw [← e4, ← e3]
  · unfold M33.qr qrGen at h
    simp only [hz] at h
    injection h with h
    cases h

/-- The methods `M44::qr` calls. -/
private abbrev ops4 {T : Type} [Add T] [Sub T] [Mul T] [Div T] [Neg T] [Zero T] [One T] : QrOps 4 T :=
  ⟨M44.det, M44.zero, M44.get_cols, M44.new_from_vecs, M44.transpose, M44.mul, V4.sub, V4.smul⟩

private theorem qr_both_4 {f : Fmt} [Libm f] (A Q R : Mat 4 (Flt f)) (h : M44.qr A = .ok (some (Q, R))) :
    ∃ q : Vec 4 (Vec 4 (Flt f)), (∀ j, q j = gsUnit (gsTilde ops4 ⟨fun i => A i j⟩ (q.toSlice.take j))) ∧
      (∀ i j, Q i j = q j i) ∧ R = M44.mul (M44.transpose Q) A := by
  cases hz : nearly_zero (M44.det A)
  · obtain ⟨q, hq, e⟩ := qrGen_cols (ops4 : QrOps 4 (Flt f)) M44.get_cols_eq M44.new_from_vecs_eq A hz
    have e2 := e.symm.trans h
    injection e2 with e2
    injection e2 with e2
    obtain ⟨e3, e4⟩ := Prod.mk.inj e2
    refine ⟨q, hq, fun i j => by rw [← e3], ?_⟩
    rw [← e4, ← e3]
  · unfold M44.qr qrGen at h
    simp only [hz] at h
    injection h with h
    cases h

/-- The methods `M55::qr` calls. -/
private abbrev ops5 {T : Type} [Add T] [Sub T] [Mul T] [Div T] [Neg T] [Zero T] [One T] : QrOps 5 T :=
  ⟨M55.det, M55.zero, M55.get_cols, M55.new_from_vecs, M55.transpose, M55.mul, V5.sub, V5.smul⟩

private theorem qr_both_5 {f : Fmt} [Libm f] (A Q R : Mat 5 (Flt f)) (h : M55.qr A = .ok (some (Q, R))) :
    ∃ q : Vec 5 (Vec 5 (Flt f)), (∀ j, q j = gsUnit (gsTilde ops5 ⟨fun i => A i j⟩ (q.toSlice.take j))) ∧
      (∀ i j, Q i j = q j i) ∧ R = M55.mul (M55.transpose Q) A := by
  cases hz : nearly_zero (M55.det A)
  · obtain ⟨q, hq, e⟩ := qrGen_cols (ops5 : QrOps 5 (Flt f)) M55.get_cols_eq M55.new_from_vecs_eq A hz
    have e2 := e.symm.trans h
    injection e2 with e2
    injection e2 with e2
    obtain ⟨e3, e4⟩ := Prod.mk.inj e2
    refine ⟨q, hq, fun i j => by rw [← e3], ?_⟩
    rw [← e4, ← e3]
  · unfold M55.qr qrGen at h
    simp only [hz] at h
    injection h with h
    cases h

/-- The methods `M66::qr` calls. -/
private abbrev ops6 {T : Type} [Add T] [Sub T] [Mul T] [Div T] [Neg T] [Zero T] [One T] : QrOps 6 T :=
  ⟨M66.det, M66.zero, M66.get_cols, M66.new_from_vecs, M66.transpose, M66.mul, V6.sub, V6.smul⟩

private theorem qr_both_6 {f : Fmt} [Libm f] (A Q R : Mat 6 (Flt f)) (h : M66.qr A = .ok (some (Q, R))) :
    ∃ q : Vec 6 (Vec 6 (Flt f)), (∀ j, q j = gsUnit (gsTilde ops6 ⟨fun i => A i j⟩ (q.toSlice.take j))) ∧
      (∀ i j, Q i j = q j i) ∧ R = M66.mul (M66.transpose Q) A := by
  cases hz : nearly_zero (M66.det A)
  · obtain ⟨q, hq, e⟩ := qrGen_cols (ops6 : QrOps 6 (Flt f)) M66.get_cols_eq M66.new_from_vecs_eq A hz
    have e2 := e.symm.trans h
    injection e2 with e2
    injection e2 with e2
    obtain ⟨e3, e4⟩ := Prod.mk.inj e2
    refine ⟨q, hq, fun i j => by rw [← e3], ?_⟩
    rw [← e4, ← e3]
  · unfold M66.qr qrGen at h
    simp only [hz] at h
    injection h with h
    cases h

/-! ## What does hold, for every size -/

/-- C124, what holds without any assumption on the entries (NaN, infinities, overflow and underflow included): a
finite entry of `Q` has magnitude at most 1.25, and a column of `Q` without NaN and infinities is zero (the norm
overflowed) or has norm between 0.7 and 2.1. Missing: orthogonality, see the negations. -/
theorem C124_columns_M22_partial {f : Fmt} [Libm f] (hp : 11 ≤ f.p) (A Q R : Mat 2 (Flt f))
    (h : M22.qr A = .ok (some (Q, R))) (j : Fin 2) :
    (∀ i, (Q i j).IsFin → |(Q i j).toReal| ≤ 5 / 4) ∧
    ((∀ i, (Q i j).IsFin) → (∀ i, (Q i j).toReal = 0) ∨
      (7 / 10 ≤ √(∑ i, (Q i j).toReal ^ 2) ∧ √(∑ i, (Q i j).toReal ^ 2) ≤ 21 / 10)) := by
  obtain ⟨q, hq, hQ, -⟩ := qr_both_2 A Q R h
  have := unit_col hp (by norm_num) (gsTilde ops2 ⟨fun i => A i j⟩ (q.toSlice.take j))
  rw [← hq j] at this
  simp only [hQ]
  exact this

/-- C124, what a finite result guarantees: `Q * R` differs from the input (in Frobenius norm) by at most the
distance of `Qᵀ * Q` from the identity times the norm of the input, plus rounding. So a caller who checks that `Q`
is orthogonal knows that the factors multiply back to the matrix. Missing: that `Q` is orthogonal, see the
negations. -/
theorem C124_certificate_M22_partial {f : Fmt} [Libm f] (A Q R : Mat 2 (Flt f))
    (h : M22.qr A = .ok (some (Q, R))) (hR : ∀ i j, (R i j).IsFin) :
    frob (Q.reM' * R.reM' - A.reM') ≤
      frob (Q.reM'.transpose * Q.reM' - 1) * frob A.reM' +
      frob Q.reM' * (((1 + f.u) ^ 2 - 1) * (frob Q.reM' * frob A.reM') + 2 * ((1 + f.u) ^ 2 * (2 * f.eta))) := by
  obtain ⟨-, -, -, hRQ⟩ := qr_both_2 A Q R h
  have hu := f.u_pos
  refine mod_cast qr_certificate A.reM' Q.reM' R.reM' (γ := (1 + f.u) ^ 2 - 1) (ε := (1 + f.u) ^ 2 * (2 * f.eta))
    (by have := one_le_pow₀ (n := 2) (by linarith : 1 ≤ 1 + f.u); linarith) (by have := f.eta_pos; positivity) fun i j => ?_
  have h1 := hR i j
  rw [hRQ] at h1
  have h2 := (C93_mul_M22 (M22.transpose Q) A i j h1).1
  rw [← hRQ] at h2
  have ht (k : Fin 2) : (M22.transpose Q) i k = Q k i := by
    fin_cases i <;> fin_cases k <;> rfl
  simp only [ht] at h2
  exact h2

/-- Finite factors of a matrix with finite entries and determinant 1 (for which the bound is large, since the columns
of `Q` are not orthogonal). -/
example [Libm Fmt.f32] : 11 ≤ Fmt.f32.p ∧ ∃ A Q R : Mat 2 (Flt Fmt.f32), (∀ i j, (A i j).IsFin) ∧ (M22.det A).toReal = 1 ∧
    M22.qr A = .ok (some (Q, R)) ∧ ∀ i j, (R i j).IsFin := by
  obtain ⟨A, Q, R, h, -, hd, hq, hf, -⟩ := C124_orthogonal_M22_f32_false
  exact ⟨by decide, A, Q, R, h, hd, hq, fun i j => (hf i j).2⟩

/-- C124, what holds without any assumption on the entries (NaN, infinities, overflow and underflow included): a
finite entry of `Q` has magnitude at most 1.25, and a column of `Q` without NaN and infinities is zero (the norm
overflowed) or has norm between 0.7 and 2.1. Missing: orthogonality, see the negations. -/
theorem C124_columns_M33_partial {f : Fmt} [Libm f] (hp : 11 ≤ f.p) (A Q R : Mat 3 (Flt f))
    (h : M33.qr A = .ok (some (Q, R))) (j : Fin 3) :
    (∀ i, (Q i j).IsFin → |(Q i j).toReal| ≤ 5 / 4) ∧
    ((∀ i, (Q i j).IsFin) → (∀ i, (Q i j).toReal = 0) ∨
      (7 / 10 ≤ √(∑ i, (Q i j).toReal ^ 2) ∧ √(∑ i, (Q i j).toReal ^ 2) ≤ 21 / 10)) := by
  obtain ⟨q, hq, hQ, -⟩ := qr_both_3 A Q R h
  have := unit_col hp (by norm_num) (gsTilde ops3 ⟨fun i => A i j⟩ (q.toSlice.take j))
  rw [← hq j] at this
  simp only [hQ]
  exact this

/-- C124, what a finite result guarantees: `Q * R` differs from the input (in Frobenius norm) by at most the
distance of `Qᵀ * Q` from the identity times the norm of the input, plus rounding. So a caller who checks that `Q`
is orthogonal knows that the factors multiply back to the matrix. Missing: that `Q` is orthogonal, see the
negations. -/
theorem C124_certificate_M33_partial {f : Fmt} [Libm f] (A Q R : Mat 3 (Flt f))
    (h : M33.qr A = .ok (some (Q, R))) (hR : ∀ i j, (R i j).IsFin) :
    frob (Q.reM' * R.reM' - A.reM') ≤
      frob (Q.reM'.transpose * Q.reM' - 1) * frob A.reM' +
      frob Q.reM' * (((1 + f.u) ^ 3 - 1) * (frob Q.reM' * frob A.reM') + 3 * ((1 + f.u) ^ 3 * (3 * f.eta))) := by
  obtain ⟨-, -, -, hRQ⟩ := qr_both_3 A Q R h
  have hu := f.u_pos
  refine mod_cast qr_certificate A.reM' Q.reM' R.reM' (γ := (1 + f.u) ^ 3 - 1) (ε := (1 + f.u) ^ 3 * (3 * f.eta))
    (by have := one_le_pow₀ (n := 3) (by linarith : 1 ≤ 1 + f.u); linarith) (by have := f.eta_pos; positivity) fun i j => ?_
  have h1 := hR i j
  rw [hRQ] at h1
  have h2 := (C93_mul_M33 (M33.transpose Q) A i j h1).1
  rw [← hRQ] at h2
  have ht (k : Fin 3) : (M33.transpose Q) i k = Q k i := by
    fin_cases i <;> fin_cases k <;> rfl
  simp only [ht] at h2
  exact h2

/-- Finite factors of a matrix with finite entries and determinant 1 (for which the bound is large, since the columns
of `Q` are not orthogonal). -/
example [Libm Fmt.f32] : 11 ≤ Fmt.f32.p ∧ ∃ A Q R : Mat 3 (Flt Fmt.f32), (∀ i j, (A i j).IsFin) ∧ (M33.det A).toReal = 1 ∧
    M33.qr A = .ok (some (Q, R)) ∧ ∀ i j, (R i j).IsFin := by
  obtain ⟨A, Q, R, h, -, hd, hq, hf, -⟩ := C124_orthogonal_M33_f32_false
  exact ⟨by decide, A, Q, R, h, hd, hq, fun i j => (hf i j).2⟩

/-- C124, what holds without any assumption on the entries (NaN, infinities, overflow and underflow included): a
finite entry of `Q` has magnitude at most 1.25, and a column of `Q` without NaN and infinities is zero (the norm
overflowed) or has norm between 0.7 and 2.1. Missing: orthogonality, see the negations. -/
theorem C124_columns_M44_partial {f : Fmt} [Libm f] (hp : 11 ≤ f.p) (A Q R : Mat 4 (Flt f))
    (h : M44.qr A = .ok (some (Q, R))) (j : Fin 4) :
    (∀ i, (Q i j).IsFin → |(Q i j).toReal| ≤ 5 / 4) ∧
    ((∀ i, (Q i j).IsFin) → (∀ i, (Q i j).toReal = 0) ∨
      (7 / 10 ≤ √(∑ i, (Q i j).toReal ^ 2) ∧ √(∑ i, (Q i j).toReal ^ 2) ≤ 21 / 10)) := by
  obtain ⟨q, hq, hQ, -⟩ := qr_both_4 A Q R h
  have := unit_col hp (by norm_num) (gsTilde ops4 ⟨fun i => A i j⟩ (q.toSlice.take j))
  rw [← hq j] at this
  simp only [hQ]
  exact this

/-- C124, what a finite result guarantees: `Q * R` differs from the input (in Frobenius norm) by at most the
distance of `Qᵀ * Q` from the identity times the norm of the input, plus rounding. So a caller who checks that `Q`
is orthogonal knows that the factors multiply back to the matrix. Missing: that `Q` is orthogonal, see the
negations. -/
theorem C124_certificate_M44_partial {f : Fmt} [Libm f] (A Q R : Mat 4 (Flt f))
    (h : M44.qr A = .ok (some (Q, R))) (hR : ∀ i j, (R i j).IsFin) :
    frob (Q.reM' * R.reM' - A.reM') ≤
      frob (Q.reM'.transpose * Q.reM' - 1) * frob A.reM' +
      frob Q.reM' * (((1 + f.u) ^ 4 - 1) * (frob Q.reM' * frob A.reM') + 4 * ((1 + f.u) ^ 4 * (4 * f.eta))) := by
  obtain ⟨-, -, -, hRQ⟩ := qr_both_4 A Q R h
  have hu := f.u_pos
  refine mod_cast qr_certificate A.reM' Q.reM' R.reM' (γ := (1 + f.u) ^ 4 - 1) (ε := (1 + f.u) ^ 4 * (4 * f.eta))
    (by have := one_le_pow₀ (n := 4) (by linarith : 1 ≤ 1 + f.u); linarith) (by have := f.eta_pos; positivity) fun i j => ?_
  have h1 := hR i j
  rw [hRQ] at h1
  have h2 := (C93_mul_M44 (M44.transpose Q) A i j h1).1
  rw [← hRQ] at h2
  have ht (k : Fin 4) : (M44.transpose Q) i k = Q k i := by
    fin_cases i <;> fin_cases k <;> rfl
  simp only [ht] at h2
  exact h2

/-- Finite factors of a matrix with finite entries and determinant 1 (for which the bound is large, since the columns
of `Q` are not orthogonal). -/
example [Libm Fmt.f32] : 11 ≤ Fmt.f32.p ∧ ∃ A Q R : Mat 4 (Flt Fmt.f32), (∀ i j, (A i j).IsFin) ∧ (M44.det A).toReal = 1 ∧
    M44.qr A = .ok (some (Q, R)) ∧ ∀ i j, (R i j).IsFin := by
  obtain ⟨A, Q, R, h, -, hd, hq, hf, -⟩ := C124_orthogonal_M44_f32_false
  exact ⟨by decide, A, Q, R, h, hd, hq, fun i j => (hf i j).2⟩

/-- C124, what holds without any assumption on the entries (NaN, infinities, overflow and underflow included): a
finite entry of `Q` has magnitude at most 1.25, and a column of `Q` without NaN and infinities is zero (the norm
overflowed) or has norm between 0.7 and 2.1. Missing: orthogonality, see the negations. -/
theorem C124_columns_M55_partial {f : Fmt} [Libm f] (hp : 11 ≤ f.p) (A Q R : Mat 5 (Flt f))
    (h : M55.qr A = .ok (some (Q, R))) (j : Fin 5) :
    (∀ i, (Q i j).IsFin → |(Q i j).toReal| ≤ 5 / 4) ∧
    ((∀ i, (Q i j).IsFin) → (∀ i, (Q i j).toReal = 0) ∨
      (7 / 10 ≤ √(∑ i, (Q i j).toReal ^ 2) ∧ √(∑ i, (Q i j).toReal ^ 2) ≤ 21 / 10)) := by
  obtain ⟨q, hq, hQ, -⟩ := qr_both_5 A Q R h
  have := unit_col hp (by norm_num) (gsTilde ops5 ⟨fun i => A i j⟩ (q.toSlice.take j))
  rw [← hq j] at this
  simp only [hQ]
  exact this

/-- C124, what a finite result guarantees: `Q * R` differs from the input (in Frobenius norm) by at most the
distance of `Qᵀ * Q` from the identity times the norm of the input, plus rounding. So a caller who checks that `Q`
is orthogonal knows that the factors multiply back to the matrix. Missing: that `Q` is orthogonal, see the
negations. -/
theorem C124_certificate_M55_partial {f : Fmt} [Libm f] (A Q R : Mat 5 (Flt f))
    (h : M55.qr A = .ok (some (Q, R))) (hR : ∀ i j, (R i j).IsFin) :
    frob (Q.reM' * R.reM' - A.reM') ≤
      frob (Q.reM'.transpose * Q.reM' - 1) * frob A.reM' +
      frob Q.reM' * (((1 + f.u) ^ 5 - 1) * (frob Q.reM' * frob A.reM') + 5 * ((1 + f.u) ^ 5 * (5 * f.eta))) := by
  obtain ⟨-, -, -, hRQ⟩ := qr_both_5 A Q R h
  have hu := f.u_pos
  refine mod_cast qr_certificate A.reM' Q.reM' R.reM' (γ := (1 + f.u) ^ 5 - 1) (ε := (1 + f.u) ^ 5 * (5 * f.eta))
    (by have := one_le_pow₀ (n := 5) (by linarith : 1 ≤ 1 + f.u); linarith) (by have := f.eta_pos; positivity) fun i j => ?_
  have h1 := hR i j
  rw [hRQ] at h1
  have h2 := (C93_mul_M55 (M55.transpose Q) A i j h1).1
  rw [← hRQ] at h2
  have ht (k : Fin 5) : (M55.transpose Q) i k = Q k i := by
    fin_cases i <;> fin_cases k <;> rfl
  simp only [ht] at h2
  exact h2

/-- Finite factors of a matrix with finite entries and determinant 1 (for which the bound is large, since the columns
of `Q` are not orthogonal). -/
example [Libm Fmt.f32] : 11 ≤ Fmt.f32.p ∧ ∃ A Q R : Mat 5 (Flt Fmt.f32), (∀ i j, (A i j).IsFin) ∧ (M55.det A).toReal = 1 ∧
    M55.qr A = .ok (some (Q, R)) ∧ ∀ i j, (R i j).IsFin := by
  obtain ⟨A, Q, R, h, -, hd, hq, hf, -⟩ := C124_orthogonal_M55_f32_false
  exact ⟨by decide, A, Q, R, h, hd, hq, fun i j => (hf i j).2⟩

/-- C124, what holds without any assumption on the entries (NaN, infinities, overflow and underflow included): a
finite entry of `Q` has magnitude at most 1.25, and a column of `Q` without NaN and infinities is zero (the norm
overflowed) or has norm between 0.7 and 2.1. Missing: orthogonality, see the negations. -/
theorem C124_columns_M66_partial {f : Fmt} [Libm f] (hp : 11 ≤ f.p) (A Q R : Mat 6 (Flt f))
    (h : M66.qr A = .ok (some (Q, R))) (j : Fin 6) :
    (∀ i, (Q i j).IsFin → |(Q i j).toReal| ≤ 5 / 4) ∧
    ((∀ i, (Q i j).IsFin) → (∀ i, (Q i j).toReal = 0) ∨
      (7 / 10 ≤ √(∑ i, (Q i j).toReal ^ 2) ∧ √(∑ i, (Q i j).toReal ^ 2) ≤ 21 / 10)) := by
  obtain ⟨q, hq, hQ, -⟩ := qr_both_6 A Q R h
  have := unit_col hp (by norm_num) (gsTilde ops6 ⟨fun i => A i j⟩ (q.toSlice.take j))
  rw [← hq j] at this
  simp only [hQ]
  exact this

/-- C124, what a finite result guarantees: `Q * R` differs from the input (in Frobenius norm) by at most the
distance of `Qᵀ * Q` from the identity times the norm of the input, plus rounding. So a caller who checks that `Q`
is orthogonal knows that the factors multiply back to the matrix. Missing: that `Q` is orthogonal, see the
negations. -/
theorem C124_certificate_M66_partial {f : Fmt} [Libm f] (A Q R : Mat 6 (Flt f))
    (h : M66.qr A = .ok (some (Q, R))) (hR : ∀ i j, (R i j).IsFin) :
    frob (Q.reM' * R.reM' - A.reM') ≤
      frob (Q.reM'.transpose * Q.reM' - 1) * frob A.reM' +
      frob Q.reM' * (((1 + f.u) ^ 6 - 1) * (frob Q.reM' * frob A.reM') + 6 * ((1 + f.u) ^ 6 * (6 * f.eta))) := by
  obtain ⟨-, -, -, hRQ⟩ := qr_both_6 A Q R h
  have hu := f.u_pos
  refine mod_cast qr_certificate A.reM' Q.reM' R.reM' (γ := (1 + f.u) ^ 6 - 1) (ε := (1 + f.u) ^ 6 * (6 * f.eta))
    (by have := one_le_pow₀ (n := 6) (by linarith : 1 ≤ 1 + f.u); linarith) (by have := f.eta_pos; positivity) fun i j => ?_
  have h1 := hR i j
  rw [hRQ] at h1
  have h2 := (C93_mul_M66 (M66.transpose Q) A i j h1).1
  rw [← hRQ] at h2
  have ht (k : Fin 6) : (M66.transpose Q) i k = Q k i := by
    fin_cases i <;> fin_cases k <;> rfl
  simp only [ht] at h2
  exact h2

/-- Finite factors of a matrix with finite entries and determinant 1 (for which the bound is large, since the columns
of `Q` are not orthogonal). -/
example [Libm Fmt.f32] : 11 ≤ Fmt.f32.p ∧ ∃ A Q R : Mat 6 (Flt Fmt.f32), (∀ i j, (A i j).IsFin) ∧ (M66.det A).toReal = 1 ∧
    M66.qr A = .ok (some (Q, R)) ∧ ∀ i j, (R i j).IsFin := by
  obtain ⟨A, Q, R, h, -, hd, hq, hf, -⟩ := C124_orthogonal_M66_f32_false
  exact ⟨by decide, A, Q, R, h, hd, hq, fun i j => (hf i j).2⟩

end StaticMath
