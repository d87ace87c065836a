import Verif.Checked.Trace
import Verif.Lemmas.Quat
import Verif.Lemmas.QuatRot
import Verif.Lemmas.DualQuat
import Verif.Lemmas.Transfer

/-!
# C145: overflow-checked integers in cross products, norms, quaternions and dual quaternions

`of t z` is the value `z` of the integer type `t`; every operation that overflows yields the mark of a
panic, which is different from all `of t z`. `t.lim` is the largest integer that fits together with
its negative (127 for `i8`).
-/

namespace StaticMath
open CInt Quaternion

/-- Every component that is computed without a panic is the one of `h`. -/
def Quat.Shows {t : IntTy} (x : Quat (CInt t)) (h : ℍ[ℤ]) : Prop :=
  (∀ w, x.q0 = of t w → w = h.re) ∧ (∀ w, x.q 0 = of t w → w = h.imI) ∧
  (∀ w, x.q 1 = of t w → w = h.imJ) ∧ ∀ w, x.q 2 = of t w → w = h.imK

/-- Every component is computed without a panic, and is the one of `h`. -/
def Quat.Is {t : IntTy} (x : Quat (CInt t)) (h : ℍ[ℤ]) : Prop :=
  x.q0 = of t h.re ∧ x.q 0 = of t h.imI ∧ x.q 1 = of t h.imJ ∧ x.q 2 = of t h.imK

/-- No component is larger in absolute value than `B`. -/
def Quat.Within (q : Quat ℤ) (B : ℤ) : Prop := |q.q0| ≤ B ∧ ∀ i, |q.q i| ≤ B

/-! ## Triples -/

private def trv {n : ℕ} (t : IntTy) (v : Vec n ℤ) (B : ℤ) (h : ∀ i, |v i| ≤ B) : Vec n (Tr t) :=
  ⟨fun i => Tr.mk' t (v i) B (h i)⟩
private def trq (t : IntTy) (q : Quat ℤ) (B : ℤ) (h : q.Within B) : Quat (Tr t) :=
  ⟨Tr.mk' t q.q0 B h.1, trv t q.q B h.2, q.normalized⟩
private def trd (t : IntTy) (x : DQuat ℤ) (B C : ℤ) (h : x.q_real.Within B) (k : x.q_dual.Within C) : DQuat (Tr t) :=
  ⟨trq t x.q_real B h, trq t x.q_dual C k, x.normalized⟩

private theorem within (q : Quat ℤ) : ∃ B, 1 ≤ B ∧ q.Within B := by
  refine ⟨1 + |q.q0| + |q.q 0| + |q.q 1| + |q.q 2|, ?_, ?_, fun i => ?_⟩
  · linarith [abs_nonneg q.q0, abs_nonneg (q.q 0), abs_nonneg (q.q 1), abs_nonneg (q.q 2)]
  · linarith [abs_nonneg q.q0, abs_nonneg (q.q 0), abs_nonneg (q.q 1), abs_nonneg (q.q 2)]
  · have := abs_nonneg q.q0
    have := abs_nonneg (q.q 0)
    have := abs_nonneg (q.q 1)
    have := abs_nonneg (q.q 2)
    fin_cases i <;> simp only [Fin.zero_eta, Fin.mk_one, Fin.reduceFinMk] <;> linarith

private theorem vwithin {n : ℕ} (v : Vec n ℤ) : ∃ B, 1 ≤ B ∧ ∀ i, |v i| ≤ B := by
  refine ⟨1 + ∑ i, |v i|, ?_, fun i => ?_⟩
  · linarith [Finset.sum_nonneg fun i (_ : i ∈ Finset.univ) => abs_nonneg (v i)]
  · linarith [Finset.single_le_sum (f := fun i => |v i|) (fun i _ => abs_nonneg _) (Finset.mem_univ i)]

private theorem mx {B : ℤ} (h : 1 ≤ B) : max B 1 = B := max_eq_left h

/-! ## Vectors -/

/-- The cross product: a component that is returned is exact, and all are returned when twice the
product of bounds for the components fits. -/
theorem C145_cross (t : IntTy) (v w : Vec 3 ℤ) :
    (∀ z, V3.cross (v.on t) (w.on t) 0 = of t z → z = v 1 * w 2 - v 2 * w 1) ∧
    (∀ z, V3.cross (v.on t) (w.on t) 1 = of t z → z = v 2 * w 0 - v 0 * w 2) ∧
    (∀ z, V3.cross (v.on t) (w.on t) 2 = of t z → z = v 0 * w 1 - v 1 * w 0) ∧
    ∀ B C, 1 ≤ B → 1 ≤ C → (∀ i, |v i| ≤ B) → (∀ i, |w i| ≤ C) → 2 * (B * C) ≤ t.lim →
      V3.cross (v.on t) (w.on t) = Vec.on t ⟨![v 1 * w 2 - v 2 * w 1, v 2 * w 0 - v 0 * w 2,
        v 0 * w 1 - v 1 * w 0]⟩ := by
  obtain ⟨B, -, hB⟩ := vwithin v
  obtain ⟨C, -, hC⟩ := vwithin w
  refine ⟨fun z h => (V3.cross (trv t v B hB) (trv t w C hC) 0).exact z h,
    fun z h => (V3.cross (trv t v B hB) (trv t w C hC) 1).exact z h,
    fun z h => (V3.cross (trv t v B hB) (trv t w C hC) 2).exact z h, fun B C h1 h2 hB hC hl => ?_⟩
  have hb : (max B 1 * max C 1) + (max B 1 * max C 1) ≤ t.lim := by rw [mx h1, mx h2]; linarith
  refine Vec.ext3 ?_ ?_ ?_
  · exact (V3.cross (trv t v B hB) (trv t w C hC) 0).fits hb
  · exact (V3.cross (trv t v B hB) (trv t w C hC) 1).fits hb
  · exact (V3.cross (trv t v B hB) (trv t w C hC) 2).fits hb

/-- In `i8`: a cross product that fits, and one whose exact value is zero but that panics. -/
example : V3.cross (Vec.on IntTy.i8 ⟨![7, -7, 7]⟩) (Vec.on IntTy.i8 ⟨![9, 9, 9]⟩)
      = Vec.on IntTy.i8 ⟨![-126, 0, 126]⟩ ∧ IntTy.i8.lim = 127 ∧
    (V3.cross (Vec.on IntTy.i8 ⟨![20, 20, 20]⟩) (Vec.on IntTy.i8 ⟨![20, 20, 20]⟩) 0).val = none := by
  refine ⟨?_, by decide, by decide⟩
  exact (C145_cross IntTy.i8 ⟨![7, -7, 7]⟩ ⟨![9, 9, 9]⟩).2.2.2 7 9 (by decide) (by decide) (by decide)
    (by decide) (by decide)

private theorem sum_list {t : IntTy} (l : List ℤ) (a : Tr t) :
    let r := (l.map fun z => Tr.mk' t z |z| le_rfl).foldl (fun s x => s + RAbs.abs x) a
    r.a = (l.map (of t)).foldl (fun s x => s + RAbs.abs x) a.a ∧
      r.z = a.z + (l.map fun z => |z|).sum ∧ r.b = a.b + (l.map fun z => |z|).sum := by
  induction l generalizing a with
  | nil => simp
  | cons x l ih =>
    obtain ⟨h1, h2, h3⟩ := ih (a + RAbs.abs (Tr.mk' t x |x| le_rfl))
    refine ⟨h1, ?_, ?_⟩
    · refine h2.trans ?_
      rw [List.map_cons, List.sum_cons, ← add_assoc]; rfl
    · refine h3.trans ?_
      rw [List.map_cons, List.sum_cons, ← add_assoc]; rfl

/-- The l1 norm of a vector of any size: exact if it is returned, and returned when it fits together
with its negative. -/
theorem C145_norm_l {n : ℕ} (t : IntTy) (v : Vec n ℤ) :
    (∀ z, Vec.norm_l (v.on t) = of t z → z = ∑ i, |v i|) ∧
    (∑ i, |v i| ≤ t.lim → Vec.norm_l (v.on t) = of t (∑ i, |v i|)) := by
  obtain ⟨h1, h2, h3⟩ := sum_list (t := t) ((List.finRange n).map fun i => v i) 0
  have e : ((List.finRange n).map fun i => v i).map (fun z => |z|) = List.ofFn fun i => |v i| := by
    rw [List.map_map, List.ofFn_eq_map]; rfl
  rw [e, List.sum_ofFn] at h2 h3
  have hn : Vec.norm_l (v.on t)
      = (((List.finRange n).map fun i => v i).map (of t)).foldl (fun s x => s + RAbs.abs x) 0 := by
    unfold Vec.norm_l norm_l iterSum Vec.toSlice
    rw [List.ofFn_eq_map, List.map_map, List.foldl_map, List.map_map, List.foldl_map]
    rfl
  have h1' := hn.trans h1.symm
  refine ⟨fun z h => ?_, fun h => ?_⟩
  · rw [h1'] at h
    rw [Tr.exact _ z h, h2]
    exact zero_add _
  · rw [h1', Tr.fits _ (h3.trans_le ((zero_add _).trans_le h)), h2]
    exact congrArg (of t) (zero_add _)

/-- 127 is the largest l1 norm in `i8`; the absolute value of -128 alone panics. -/
example : Vec.norm_l (Vec.on IntTy.i8 ⟨![-100, 27]⟩) = of IntTy.i8 127 ∧
    (Vec.norm_l (Vec.on IntTy.i8 ⟨![-128, 0]⟩)).val = none := by decide

/-! ## Quaternions -/

private theorem shows {t : IntTy} {x : Quat (CInt t)} (y : Quat (Tr t)) {h : ℍ[ℤ]}
    (h0 : x.q0 = y.q0.a) (h1 : ∀ i, x.q i = (y.q i).a)
    (e0 : y.q0.z = h.re) (e1 : (y.q 0).z = h.imI) (e2 : (y.q 1).z = h.imJ) (e3 : (y.q 2).z = h.imK) :
    x.Shows h := by
  refine ⟨fun w hw => ?_, fun w hw => ?_, fun w hw => ?_, fun w hw => ?_⟩
  · rw [h0] at hw; rw [y.q0.exact w hw, e0]
  · rw [h1] at hw; rw [(y.q 0).exact w hw, e1]
  · rw [h1] at hw; rw [(y.q 1).exact w hw, e2]
  · rw [h1] at hw; rw [(y.q 2).exact w hw, e3]

private theorem isq {t : IntTy} {x : Quat (CInt t)} (y : Quat (Tr t)) {h : ℍ[ℤ]}
    (h0 : x.q0 = y.q0.a) (h1 : ∀ i, x.q i = (y.q i).a)
    (e0 : y.q0.z = h.re) (e1 : (y.q 0).z = h.imI) (e2 : (y.q 1).z = h.imJ) (e3 : (y.q 2).z = h.imK)
    (b0 : y.q0.b ≤ t.lim) (b1 : ∀ i, (y.q i).b ≤ t.lim) : x.Is h := by
  refine ⟨?_, ?_, ?_, ?_⟩
  · rw [h0, y.q0.fits b0, e0]
  · rw [h1, (y.q 0).fits (b1 0), e1]
  · rw [h1, (y.q 1).fits (b1 1), e2]
  · rw [h1, (y.q 2).fits (b1 2), e3]

private theorem hcomp {p q : ℍ[ℤ]} (h : p = q) : p.re = q.re ∧ p.imI = q.imI ∧ p.imJ = q.imJ ∧ p.imK = q.imK :=
  h ▸ ⟨rfl, rfl, rfl, rfl⟩

/-- Sum, difference, product, multiple, negative and conjugate: every component that is returned is
exact. So are `abs2` and `dot`. -/
theorem C145_quaternions (t : IntTy) (p q : Quat ℤ) (c : ℤ) :
    ((p.on t).add (q.on t)).Shows (p.toH + q.toH) ∧ ((p.on t).sub (q.on t)).Shows (p.toH - q.toH) ∧
    ((p.on t).mul (q.on t)).Shows (p.toH * q.toH) ∧ ((p.on t).smul (of t c)).Shows (c • p.toH) ∧
    (p.on t).neg.Shows (-p.toH) ∧ (p.on t).conj.Shows (star p.toH) ∧
    (∀ z, (p.on t).abs2 = of t z → z = normSq p.toH) ∧
    ∀ z, (p.on t).dot (q.on t) = of t z → z = (p.toH * star q.toH).re := by
  obtain ⟨B, -, hB⟩ := within p
  obtain ⟨C, -, hC⟩ := within q
  refine ⟨?_, ?_, ?_, ?_, ?_, ?_, fun z h => ?_, fun z h => ?_⟩
  · exact shows ((trq t p B hB).add (trq t q C hC)) rfl (fun i => by fin_cases i <;> rfl) rfl rfl rfl rfl
  · exact shows ((trq t p B hB).sub (trq t q C hC)) rfl (fun i => by fin_cases i <;> rfl) rfl rfl rfl rfl
  · obtain ⟨e0, e1, e2, e3⟩ := hcomp (Quat.toH_mul p q)
    exact shows ((trq t p B hB).mul (trq t q C hC)) rfl (fun i => by fin_cases i <;> rfl) e0 e1 e2 e3
  · obtain ⟨e0, e1, e2, e3⟩ := hcomp (Quat.toH_smul p c)
    exact shows ((trq t p B hB).smul (Tr.mk' t c |c| le_rfl)) rfl (fun i => by fin_cases i <;> rfl) e0 e1 e2 e3
  · exact shows ((trq t p B hB).neg) rfl (fun i => by fin_cases i <;> rfl) rfl rfl rfl rfl
  · obtain ⟨e0, e1, e2, e3⟩ := hcomp (Quat.toH_conj p)
    exact shows ((trq t p B hB).conj) rfl (fun i => by fin_cases i <;> rfl) e0 e1 e2 e3
  · exact ((trq t p B hB).abs2.exact z h).trans (Quat.abs2_eq p)
  · refine ((trq t p B hB).dot (trq t q C hC)).exact z h |>.trans ?_
    rw [Quaternion.re_mul]
    simp only [Quaternion.re_star, Quaternion.imI_star, Quaternion.imJ_star, Quaternion.imK_star]
    change p.dot q = _
    rw [Quat.dot_eq]
    simp only [Quat.toH]
    ring

/-- All of the product is returned when four times the product of bounds for the components fits; all
of a sum or difference when the sum of the bounds does. -/
theorem C145_quaternions_fit (t : IntTy) (p q : Quat ℤ) (c B C : ℤ) (h1 : 1 ≤ B) (h2 : 1 ≤ C)
    (hp : p.Within B) (hq : q.Within C) :
    (4 * (B * C) ≤ t.lim → ((p.on t).mul (q.on t)).Is (p.toH * q.toH)) ∧
    (B + C ≤ t.lim → ((p.on t).add (q.on t)).Is (p.toH + q.toH) ∧
      ((p.on t).sub (q.on t)).Is (p.toH - q.toH)) ∧
    (|c| ≤ C → B * C ≤ t.lim → ((p.on t).smul (of t c)).Is (c • p.toH)) ∧
    (B ≤ t.lim → (p.on t).neg.Is (-p.toH) ∧ (p.on t).conj.Is (star p.toH)) ∧
    (4 * (B * B) ≤ t.lim → (p.on t).abs2 = of t (normSq p.toH)) := by
  refine ⟨fun h => ?_, fun h => ⟨?_, ?_⟩, fun hc h => ?_, fun h => ⟨?_, ?_⟩, fun h => ?_⟩
  · obtain ⟨e0, e1, e2, e3⟩ := hcomp (Quat.toH_mul p q)
    refine isq ((trq t p B hp).mul (trq t q C hq)) rfl (fun i => by fin_cases i <;> rfl) e0 e1 e2 e3 ?_
      fun i => ?_
    · change max B 1 * max C 1 + (max B 1 * max C 1 + max B 1 * max C 1 + max B 1 * max C 1) ≤ t.lim
      rw [mx h1, mx h2]; linarith
    · have : max C 1 * max B 1 + max B 1 * max C 1 + (max B 1 * max C 1 + max B 1 * max C 1) ≤ t.lim := by
        rw [mx h1, mx h2]; linarith
      fin_cases i <;> exact this
  · exact isq ((trq t p B hp).add (trq t q C hq)) rfl (fun i => by fin_cases i <;> rfl) rfl rfl rfl rfl h
      (fun i => by fin_cases i <;> exact h)
  · exact isq ((trq t p B hp).sub (trq t q C hq)) rfl (fun i => by fin_cases i <;> rfl) rfl rfl rfl rfl h
      (fun i => by fin_cases i <;> exact h)
  · obtain ⟨e0, e1, e2, e3⟩ := hcomp (Quat.toH_smul p c)
    have : max B 1 * max C 1 ≤ t.lim := by rw [mx h1, mx h2]; exact h
    exact isq ((trq t p B hp).smul (Tr.mk' t c C hc)) rfl (fun i => by fin_cases i <;> rfl) e0 e1 e2 e3 this
      (fun i => by fin_cases i <;> exact this)
  · exact isq ((trq t p B hp).neg) rfl (fun i => by fin_cases i <;> rfl) rfl rfl rfl rfl h
      (fun i => by fin_cases i <;> exact h)
  · obtain ⟨e0, e1, e2, e3⟩ := hcomp (Quat.toH_conj p)
    exact isq ((trq t p B hp).conj) rfl (fun i => by fin_cases i <;> rfl) e0 e1 e2 e3 h
      (fun i => by fin_cases i <;> exact h)
  · have : max B 1 * max B 1 + max B 1 * max B 1 + max B 1 * max B 1 + max B 1 * max B 1 ≤ t.lim := by
      rw [mx h1]; linarith
    exact ((trq t p B hp).abs2.fits this).trans (congrArg (of t) (Quat.abs2_eq p))

/-- The product of `i8` quaternions with components 5 fits (4·5·5 = 100), with components 6 it panics. -/
example : ((Quat.on IntTy.i8 ⟨5, ⟨![5, 5, 5]⟩, false⟩).mul (Quat.on IntTy.i8 ⟨5, ⟨![-5, -5, -5]⟩, false⟩)).Is ⟨100, 0, 0, 0⟩ ∧
    ((Quat.on IntTy.i8 ⟨6, ⟨![6, 6, 6]⟩, false⟩).mul (Quat.on IntTy.i8 ⟨6, ⟨![-6, -6, -6]⟩, false⟩)).q0.val = none := by
  refine ⟨⟨?_, ?_, ?_, ?_⟩, ?_⟩ <;> decide

/-- The matrix of a quaternion is the one of `v ↦ q v q*`. -/
theorem C145_rotation (t : IntTy) (q : Quat ℤ) : ∃ R : Mat 3 ℤ,
    (∀ v : Vec 3 ℤ, (⟨R.toM.mulVec v.val⟩ : Vec 3 ℤ).toH = q.toH * v.toH * star q.toH) ∧
    (∀ i j z, (q.on t).to_rotation i j = of t z → z = R i j) ∧
    ∀ B, 1 ≤ B → q.Within B → 4 * (B * B) ≤ t.lim → (q.on t).to_rotation = R.on t := by
  refine ⟨q.to_rotation, fun v => ?_, fun i j z h => ?_, fun B h1 hB h => ?_⟩
  · rw [← Quat.rot_toH]
    exact congrArg Vec.toH (Vec.ext (M33.val_mulVec q.to_rotation v).symm)
  · obtain ⟨B, -, hB⟩ := within q
    have ha : ∀ i j, (q.on t).to_rotation i j = ((trq t q B hB).to_rotation i j).a := fun i j => by
      fin_cases i <;> fin_cases j <;> rfl
    have hz : ∀ i j, ((trq t q B hB).to_rotation i j).z = q.to_rotation i j := fun i j => by
      fin_cases i <;> fin_cases j <;> rfl
    rw [ha] at h
    rw [← hz]
    exact Tr.exact _ z h
  · have b1 : max B 1 * max B 1 + max B 1 * max B 1 + max B 1 * max B 1 + max B 1 * max B 1 ≤ t.lim := by
      rw [mx h1]; linarith
    have b2 : max (max (1 + 1) 1 * max B 1) 1 * max B 1 + max (max (1 + 1) 1 * max B 1) 1 * max B 1 ≤ t.lim := by
      rw [mx h1, mx (show (1 : ℤ) ≤ 1 + 1 by norm_num), mx (by linarith : (1 : ℤ) ≤ (1 + 1) * B)]; linarith
    have ha : ∀ i j, (q.on t).to_rotation i j = ((trq t q B hB).to_rotation i j).a := fun i j => by
      fin_cases i <;> fin_cases j <;> rfl
    have hz : ∀ i j, ((trq t q B hB).to_rotation i j).z = q.to_rotation i j := fun i j => by
      fin_cases i <;> fin_cases j <;> rfl
    have hb : ∀ i j, ((trq t q B hB).to_rotation i j).b ≤ t.lim := fun i j => by
      fin_cases i <;> fin_cases j <;> first | exact b1 | exact b2
    refine Mat.ext (funext fun i => funext fun j => ?_)
    rw [ha, Tr.fits _ (hb i j), hz]
    rfl

/-- The vector product `q * v` is `q v q*` with `(1 - |q|²) v` added. -/
theorem C145_rotate (t : IntTy) (q : Quat ℤ) (v : Vec 3 ℤ) : ∃ r : Vec 3 ℤ,
    r.toH = q.toH * v.toH * star q.toH + (1 - normSq q.toH) • v.toH ∧
    (∀ i z, (q.on t).mulVec (v.on t) i = of t z → z = r i) ∧
    ∀ B C, 1 ≤ B → 1 ≤ C → q.Within B → (∀ i, |v i| ≤ C) → C + 12 * (B * B * C) ≤ t.lim →
      (q.on t).mulVec (v.on t) = r.on t := by
  refine ⟨q.mulVec v, ?_, fun i z h => ?_, fun B C h1 h2 hB hC h => ?_⟩
  · rw [H_ext_iff, Quaternion.normSq_def']
    simp only [Quaternion.re_mul, Quaternion.imI_mul, Quaternion.imJ_mul, Quaternion.imK_mul,
      Quaternion.re_add, Quaternion.imI_add, Quaternion.imJ_add, Quaternion.imK_add,
      Quaternion.re_smul, Quaternion.imI_smul, Quaternion.imJ_smul, Quaternion.imK_smul,
      Quaternion.re_star, Quaternion.imI_star, Quaternion.imJ_star, Quaternion.imK_star,
      Vec.toH_re, Vec.toH_imI, Vec.toH_imJ, Vec.toH_imK, Quat.toH_re, Quat.toH_imI, Quat.toH_imJ, Quat.toH_imK,
      Quat.mulVec0, Quat.mulVec1, Quat.mulVec2, smul_eq_mul]
    refine ⟨?_, ?_, ?_, ?_⟩ <;> ring
  · obtain ⟨B, -, hB⟩ := within q
    obtain ⟨C, -, hC⟩ := vwithin v
    have ha : ∀ i, (q.on t).mulVec (v.on t) i = ((trq t q B hB).mulVec (trv t v C hC) i).a := fun i => by
      fin_cases i <;> rfl
    have hz : ∀ i, ((trq t q B hB).mulVec (trv t v C hC) i).z = q.mulVec v i := fun i => by fin_cases i <;> rfl
    rw [ha] at h
    rw [← hz]
    exact Tr.exact _ z h
  · have hBC : 1 ≤ B * C := by nlinarith
    have b : C + max (max (max B 1 * max (1 + 1) 1) 1 * max C 1 + max (max B 1 * max (1 + 1) 1) 1 * max C 1) 1 * max B 1 +
        (max B 1 * max (max (max B 1 * max (1 + 1) 1) 1 * max C 1 + max (max B 1 * max (1 + 1) 1) 1 * max C 1) 1 +
         max B 1 * max (max (max B 1 * max (1 + 1) 1) 1 * max C 1 + max (max B 1 * max (1 + 1) 1) 1 * max C 1) 1) ≤ t.lim := by
      rw [mx h1, mx h2, mx (show (1 : ℤ) ≤ 1 + 1 by norm_num), mx (by linarith : (1 : ℤ) ≤ B * (1 + 1)),
        mx (by linarith : (1 : ℤ) ≤ B * (1 + 1) * C + B * (1 + 1) * C)]
      linarith
    have ha : ∀ i, (q.on t).mulVec (v.on t) i = ((trq t q B hB).mulVec (trv t v C hC) i).a := fun i => by
      fin_cases i <;> rfl
    have hz : ∀ i, ((trq t q B hB).mulVec (trv t v C hC) i).z = q.mulVec v i := fun i => by fin_cases i <;> rfl
    have hb : ∀ i, ((trq t q B hB).mulVec (trv t v C hC) i).b ≤ t.lim := fun i => by fin_cases i <;> exact b
    refine Vec.ext (funext fun i => ?_)
    rw [ha, Tr.fits _ (hb i), hz]
    rfl

/-- In `i8` the quaternion `11 i` turns `(1, 0, 0)` without overflow, the matrix of `12 i` overflows,
and that of `5 - 5 i + 5 j + 5 k` reaches -100. -/
example : (∀ i, (Quat.on IntTy.i8 ⟨0, ⟨![11, 0, 0]⟩, false⟩).mulVec (Vec.on IntTy.i8 ⟨![1, 0, 0]⟩) i =
      of IntTy.i8 (![1, 0, 0] i)) ∧
    ((Quat.on IntTy.i8 ⟨0, ⟨![12, 0, 0]⟩, false⟩).to_rotation 0 0).val = none ∧
    (Quat.on IntTy.i8 ⟨5, ⟨![-5, 5, 5]⟩, false⟩).to_rotation 0 1 = of IntTy.i8 (-100) := by decide

/-! ## Dual quaternions -/

private def TB {t : IntTy} (x : Quat (Tr t)) (B : ℤ) : Prop := x.q0.b ≤ B ∧ ∀ i, (x.q i).b ≤ B

private theorem tb_trq {t : IntTy} {q : Quat ℤ} {B : ℤ} (h : q.Within B) : TB (trq t q B h) B :=
  ⟨le_rfl, fun _ => le_rfl⟩

private theorem mb {t : IntTy} {x y : Tr t} {B C : ℤ} (h1 : 1 ≤ B) (h2 : 1 ≤ C) (hx : x.b ≤ B) (hy : y.b ≤ C) :
    (x * y).b ≤ B * C :=
  mul_le_mul (max_le hx h1) (max_le hy h2) (zero_le_one.trans (le_max_right _ _)) (zero_le_one.trans h1)

private theorem tb_mul {t : IntTy} {x y : Quat (Tr t)} {B C : ℤ} (h1 : 1 ≤ B) (h2 : 1 ≤ C) (hx : TB x B) (hy : TB y C) :
    TB (x.mul y) (4 * (B * C)) := by
  have e : 4 * (B * C) = B * C + (B * C + B * C + B * C) := by ring
  have e' : 4 * (B * C) = C * B + B * C + (B * C + B * C) := by ring
  refine ⟨?_, fun i => ?_⟩
  · rw [e]
    exact add_le_add (mb h1 h2 hx.1 hy.1) (add_le_add (add_le_add (mb h1 h2 (hx.2 0) (hy.2 0))
      (mb h1 h2 (hx.2 1) (hy.2 1))) (mb h1 h2 (hx.2 2) (hy.2 2)))
  · rw [e']
    fin_cases i
    · exact add_le_add (add_le_add (mb h2 h1 (hy.2 0) hx.1) (mb h1 h2 (hx.2 0) hy.1))
        (add_le_add (mb h1 h2 (hx.2 1) (hy.2 2)) (mb h1 h2 (hx.2 2) (hy.2 1)))
    · exact add_le_add (add_le_add (mb h2 h1 (hy.2 1) hx.1) (mb h1 h2 (hx.2 1) hy.1))
        (add_le_add (mb h1 h2 (hx.2 2) (hy.2 0)) (mb h1 h2 (hx.2 0) (hy.2 2)))
    · exact add_le_add (add_le_add (mb h2 h1 (hy.2 2) hx.1) (mb h1 h2 (hx.2 2) hy.1))
        (add_le_add (mb h1 h2 (hx.2 0) (hy.2 1)) (mb h1 h2 (hx.2 1) (hy.2 0)))

private theorem tb_add {t : IntTy} {x y : Quat (Tr t)} {B C : ℤ} (hx : TB x B) (hy : TB y C) :
    TB (x.add y) (B + C) :=
  ⟨add_le_add hx.1 hy.1, fun i => by
    fin_cases i <;> [exact add_le_add (hx.2 0) (hy.2 0); exact add_le_add (hx.2 1) (hy.2 1);
      exact add_le_add (hx.2 2) (hy.2 2)]⟩

private theorem tb_conj {t : IntTy} {x : Quat (Tr t)} {B : ℤ} (hx : TB x B) : TB x.conj B :=
  ⟨hx.1, fun i => by fin_cases i <;> [exact hx.2 0; exact hx.2 1; exact hx.2 2]⟩

private theorem tb_two {t : IntTy} {x : Quat (Tr t)} {B : ℤ} (h1 : 1 ≤ B) (hx : TB x B) :
    TB (x.smul (1 + 1)) (2 * B) := by
  rw [mul_comm]
  refine ⟨mb h1 (by norm_num) hx.1 le_rfl, fun i => ?_⟩
  fin_cases i <;> [exact mb h1 (by norm_num) (hx.2 0) le_rfl; exact mb h1 (by norm_num) (hx.2 1) le_rfl;
      exact mb h1 (by norm_num) (hx.2 2) le_rfl]

/-- Sum, difference, product and conjugates of dual quaternions are those of pairs `r + d ε` of
Hamilton quaternions with `ε² = 0`, in every component that is returned. -/
theorem C145_dual_quaternions (t : IntTy) (x y : DQuat ℤ) (c : ℤ) :
    (((x.on t).add (y.on t)).q_real.Shows (x.q_real.toH + y.q_real.toH) ∧
      ((x.on t).add (y.on t)).q_dual.Shows (x.q_dual.toH + y.q_dual.toH)) ∧
    (((x.on t).sub (y.on t)).q_real.Shows (x.q_real.toH - y.q_real.toH) ∧
      ((x.on t).sub (y.on t)).q_dual.Shows (x.q_dual.toH - y.q_dual.toH)) ∧
    (((x.on t).mul (y.on t)).q_real.Shows (x.q_real.toH * y.q_real.toH) ∧
      ((x.on t).mul (y.on t)).q_dual.Shows (x.q_real.toH * y.q_dual.toH + x.q_dual.toH * y.q_real.toH)) ∧
    (((x.on t).smul (of t c)).q_real.Shows (c • x.q_real.toH) ∧
      ((x.on t).smul (of t c)).q_dual.Shows (c • x.q_dual.toH)) ∧
    ((x.on t).neg.q_real.Shows (-x.q_real.toH) ∧ (x.on t).neg.q_dual.Shows (-x.q_dual.toH)) ∧
    ((x.on t).conj.q_real.Shows (star x.q_real.toH) ∧ (x.on t).conj.q_dual.Shows (star x.q_dual.toH)) := by
  obtain ⟨a1, s1, m1, c1, n1, j1, -⟩ := C145_quaternions t x.q_real y.q_real c
  obtain ⟨a2, s2, -, c2, n2, j2, -⟩ := C145_quaternions t x.q_dual y.q_dual c
  refine ⟨⟨a1, a2⟩, ⟨s1, s2⟩, ⟨m1, ?_⟩, ⟨c1, c2⟩, ⟨n1, n2⟩, j1, j2⟩
  obtain ⟨B, -, hB⟩ := within x.q_real
  obtain ⟨C, -, hC⟩ := within y.q_real
  obtain ⟨B', -, hB'⟩ := within x.q_dual
  obtain ⟨C', -, hC'⟩ := within y.q_dual
  have e : ((x.q_real.mul y.q_dual).add (x.q_dual.mul y.q_real)).toH =
      x.q_real.toH * y.q_dual.toH + x.q_dual.toH * y.q_real.toH := by
    rw [Quat.toH_add, Quat.toH_mul, Quat.toH_mul]
  obtain ⟨e0, e1, e2, e3⟩ := hcomp e
  exact shows (((trq t x.q_real B hB).mul (trq t y.q_dual C' hC')).add ((trq t x.q_dual B' hB').mul (trq t y.q_real C hC)))
    rfl (fun i => by fin_cases i <;> rfl) e0 e1 e2 e3

/-- All of the product is returned when the bounds for the components are small enough. -/
theorem C145_dual_quaternions_fit (t : IntTy) (x y : DQuat ℤ) (R D R' D' : ℤ) (h1 : 1 ≤ R) (h2 : 1 ≤ D)
    (h3 : 1 ≤ R') (h4 : 1 ≤ D') (hr : x.q_real.Within R) (hd : x.q_dual.Within D) (hr' : y.q_real.Within R')
    (hd' : y.q_dual.Within D') (h : 4 * (R * R') ≤ t.lim) (h' : 4 * (R * D') + 4 * (D * R') ≤ t.lim) :
    ((x.on t).mul (y.on t)).q_real.Is (x.q_real.toH * y.q_real.toH) ∧
    ((x.on t).mul (y.on t)).q_dual.Is (x.q_real.toH * y.q_dual.toH + x.q_dual.toH * y.q_real.toH) := by
  refine ⟨(C145_quaternions_fit t x.q_real y.q_real 0 R R' h1 h3 hr hr').1 h, ?_⟩
  have e : ((x.q_real.mul y.q_dual).add (x.q_dual.mul y.q_real)).toH =
      x.q_real.toH * y.q_dual.toH + x.q_dual.toH * y.q_real.toH := by
    rw [Quat.toH_add, Quat.toH_mul, Quat.toH_mul]
  obtain ⟨e0, e1, e2, e3⟩ := hcomp e
  have hb := tb_add (tb_mul h1 h4 (tb_trq (t := t) hr) (tb_trq hd')) (tb_mul h2 h3 (tb_trq hd) (tb_trq hr'))
  exact isq (((trq t x.q_real R hr).mul (trq t y.q_dual D' hd')).add ((trq t x.q_dual D hd).mul (trq t y.q_real R' hr')))
    rfl (fun i => by fin_cases i <;> rfl) e0 e1 e2 e3 (hb.1.trans h') (fun i => (hb.2 i).trans h')

/-- The translation of a dual quaternion `r + d ε` is the vector part of `2 d r*`. When the bound fits
no part of the computation overflows, also not the real part of `2 d r*`, which is thrown away. -/
theorem C145_translation (t : IntTy) (x : DQuat ℤ) : ∃ v : Vec 3 ℤ,
    v.toH = (2 * x.q_dual.toH * star x.q_real.toH).im ∧
    (∀ i z, (x.on t).get_translation i = of t z → z = v i) ∧
    ∀ R D, 1 ≤ R → 1 ≤ D → x.q_real.Within R → x.q_dual.Within D → 8 * (D * R) ≤ t.lim →
      (x.on t).get_translation = v.on t ∧
      (((x.on t).q_dual.smul (1 + 1)).mul (x.on t).q_real.conj).Is (2 * x.q_dual.toH * star x.q_real.toH) := by
  have e : ((x.q_dual.smul (1 + 1)).mul x.q_real.conj).toH = 2 * x.q_dual.toH * star x.q_real.toH := by
    rw [Quat.toH_mul, Quat.toH_smul, Quat.toH_conj, one_add_one_eq_two, two_smul, two_mul]
  obtain ⟨e0, e1, e2, e3⟩ := hcomp e
  refine ⟨x.get_translation, DQuat.translation_toH x, fun i z h => ?_, fun R D h1 h2 hr hd h => ?_⟩
  · obtain ⟨B, -, hB⟩ := within x.q_real
    obtain ⟨B', -, hB'⟩ := within x.q_dual
    have ha : ∀ i, (x.on t).get_translation i = ((trd t x B B' hB hB').get_translation i).a := fun i => by
      fin_cases i <;> rfl
    have hz : ∀ i, ((trd t x B B' hB hB').get_translation i).z = x.get_translation i := fun i => by fin_cases i <;> rfl
    rw [ha] at h
    rw [← hz]
    exact Tr.exact _ z h
  · have hb := tb_mul (by linarith : 1 ≤ 2 * D) h1 (tb_two h2 (tb_trq (t := t) hd)) (tb_conj (tb_trq hr))
    have hi := isq (x := (((x.on t).q_dual.smul (1 + 1)).mul (x.on t).q_real.conj))
      (((trq t x.q_dual D hd).smul (1 + 1)).mul (trq t x.q_real R hr).conj) rfl
      (fun i => by fin_cases i <;> rfl) e0 e1 e2 e3 (hb.1.trans (by linarith)) fun i => (hb.2 i).trans (by linarith)
    refine ⟨?_, hi⟩
    rw [← e] at hi
    exact Vec.ext3 hi.2.1 hi.2.2.1 hi.2.2.2

/-- A point `p` is sent to the vector part of `r d* + (r p + d) r*`. -/
theorem C145_transform_point (t : IntTy) (x : DQuat ℤ) (p : Vec 3 ℤ) : ∃ v : Vec 3 ℤ,
    v.toH = (x.q_real.toH * star x.q_dual.toH + (x.q_real.toH * p.toH + x.q_dual.toH) * star x.q_real.toH).im ∧
    (∀ i z, (x.on t).transform_point (p.on t) i = of t z → z = v i) ∧
    ∀ R D P, 1 ≤ R → 1 ≤ D → 1 ≤ P → x.q_real.Within R → x.q_dual.Within D → (∀ i, |p i| ≤ P) →
      16 * (R * (2 * D + R * P)) ≤ t.lim → (x.on t).transform_point (p.on t) = v.on t := by
  have e : ((x.mul (DQuat.new_from_point p)).mul x.conj).q_dual.toH =
      x.q_real.toH * star x.q_dual.toH + (x.q_real.toH * p.toH + x.q_dual.toH) * star x.q_real.toH := by
    have : ((x.mul (DQuat.new_from_point p)).mul x.conj).q_dual.toH =
      (((x.q_real.mul Quat.one).mul x.q_dual.conj).add
        (((x.q_real.mul (Quat.new_imag p)).add (x.q_dual.mul Quat.one)).mul x.q_real.conj)).toH := rfl
    rw [this]
    simp only [Quat.toH_mul, Quat.toH_add, Quat.toH_conj, Quat.toH_one, Quat.toH_new_imag, mul_one]
  refine ⟨x.transform_point p, congrArg Quaternion.im e, fun i z h => ?_, fun R D P h1 h2 h3 hr hd hp h => ?_⟩
  · obtain ⟨B, -, hB⟩ := within x.q_real
    obtain ⟨B', -, hB'⟩ := within x.q_dual
    obtain ⟨C, -, hC⟩ := vwithin p
    have ha : ∀ i, (x.on t).transform_point (p.on t) i = ((trd t x B B' hB hB').transform_point (trv t p C hC) i).a :=
      fun i => by fin_cases i <;> rfl
    have hz : ∀ i, ((trd t x B B' hB hB').transform_point (trv t p C hC) i).z = x.transform_point p i :=
      fun i => by fin_cases i <;> rfl
    rw [ha] at h
    rw [← hz]
    exact Tr.exact _ z h
  · have ha : ∀ i, (x.on t).transform_point (p.on t) i = ((trd t x R D hr hd).transform_point (trv t p P hp) i).a :=
      fun i => by fin_cases i <;> rfl
    have hz : ∀ i, ((trd t x R D hr hd).transform_point (trv t p P hp) i).z = x.transform_point p i :=
      fun i => by fin_cases i <;> rfl
    have h1' : TB (Quat.one : Quat (Tr t)) 1 := ⟨le_rfl, fun i => by fin_cases i <;> exact zero_le_one⟩
    have hp' : TB (Quat.new_imag (trv t p P hp)) P :=
      ⟨zero_le_one.trans h3, fun i => by fin_cases i <;> exact le_rfl⟩
    have k := tb_add
      (tb_mul (by linarith) h2 (tb_mul h1 le_rfl (tb_trq (t := t) hr) h1') (tb_conj (tb_trq hd)))
      (tb_mul (by nlinarith) h1 (tb_add (tb_mul h1 h3 (tb_trq hr) hp') (tb_mul h2 le_rfl (tb_trq hd) h1')) (tb_conj (tb_trq hr)))
    have ht : (trd t x R D hr hd).transform_point (trv t p P hp) =
      ((((trq t x.q_real R hr).mul Quat.one).mul (trq t x.q_dual D hd).conj).add
        ((((trq t x.q_real R hr).mul (Quat.new_imag (trv t p P hp))).add ((trq t x.q_dual D hd).mul Quat.one)).mul
          (trq t x.q_real R hr).conj)).q := rfl
    have hb : ∀ i, ((trd t x R D hr hd).transform_point (trv t p P hp) i).b ≤ t.lim := fun i => by
      rw [ht]
      exact (k.2 i).trans (le_of_eq_of_le (by ring) h)
    refine Vec.ext (funext fun i => ?_)
    rw [ha, Tr.fits _ (hb i), hz]
    rfl

/-- In `i8`, a half turn about the first axis and a translation by (6, -4, 14): the point (10, 20, 30)
is turned (and not moved, C61); for (127, 0, 0), which would be its own image, `-127 - 3` overflows on
the way. -/
example : (∀ i, (DQuat.on IntTy.i8 ⟨⟨0, ⟨![1, 0, 0]⟩, true⟩, ⟨-3, ⟨![0, 7, 2]⟩, true⟩, true⟩).transform_point
      (Vec.on IntTy.i8 ⟨![10, 20, 30]⟩) i = of IntTy.i8 (![10, -20, -30] i)) ∧
    ((DQuat.on IntTy.i8 ⟨⟨0, ⟨![1, 0, 0]⟩, true⟩, ⟨-3, ⟨![0, 7, 2]⟩, true⟩, true⟩).transform_point
      (Vec.on IntTy.i8 ⟨![127, 0, 0]⟩) 0).val = none := by
  decide

/-! ## Negatives, multiples and quotients of vectors and matrices -/

private theorem chk_iff {t : IntTy} {z w : ℤ} : chk t w = of t z ↔ z = w ∧ t.lo ≤ w ∧ w ≤ t.hi := by
  constructor
  · intro h
    obtain ⟨h1, h2⟩ := chk_some h
    exact ⟨h1.symm, h1 ▸ h2⟩
  · rintro ⟨rfl, h1, h2⟩
    exact chk_ok h1 h2

private theorem div_iff {t : IntTy} {x c z : ℤ} :
    of t x / of t c = of t z ↔ c ≠ 0 ∧ z = x.tdiv c ∧ t.lo ≤ x.tdiv c ∧ x.tdiv c ≤ t.hi := by
  change (if c = 0 then (⟨none⟩ : CInt t) else chk t (x.tdiv c)) = of t z ↔ _
  by_cases h : c = 0
  · rw [if_pos h]
    exact ⟨fun h => (by cases congrArg val h), fun h' => absurd h h'.1⟩
  · rw [if_neg h, chk_iff]
    exact ⟨fun h' => ⟨h, h'⟩, fun h' => h'.2⟩

/-- An entry of the negative, a multiple or a quotient is computed exactly when it fits (and the
divisor is not zero), and is then exact; quotients are rounded towards zero. -/
theorem C145_scale_V2 (t : IntTy) (v : Vec 2 ℤ) (c : ℤ) (i : Fin 2) (z : ℤ) :
    (V2.neg (v.on t) i = of t z ↔ z = -v i ∧ t.lo ≤ -v i ∧ -v i ≤ t.hi) ∧
    (V2.smul (v.on t) (of t c) i = of t z ↔ z = v i * c ∧ t.lo ≤ v i * c ∧ v i * c ≤ t.hi) ∧
    (V2.sdiv (v.on t) (of t c) i = of t z ↔
      c ≠ 0 ∧ z = (v i).tdiv c ∧ t.lo ≤ (v i).tdiv c ∧ (v i).tdiv c ≤ t.hi) := by
  fin_cases i <;> exact ⟨chk_iff, chk_iff, div_iff⟩

/-- The same for matrices. -/
theorem C145_scale_M22 (t : IntTy) (A : Mat 2 ℤ) (c : ℤ) (i j : Fin 2) (z : ℤ) :
    (M22.neg (A.on t) i j = of t z ↔ z = -A i j ∧ t.lo ≤ -A i j ∧ -A i j ≤ t.hi) ∧
    (M22.smul (A.on t) (of t c) i j = of t z ↔ z = A i j * c ∧ t.lo ≤ A i j * c ∧ A i j * c ≤ t.hi) ∧
    (M22.sdiv (A.on t) (of t c) i j = of t z ↔
      c ≠ 0 ∧ z = (A i j).tdiv c ∧ t.lo ≤ (A i j).tdiv c ∧ (A i j).tdiv c ≤ t.hi) := by
  fin_cases i <;> fin_cases j <;> exact ⟨chk_iff, chk_iff, div_iff⟩

/-- An entry of the negative, a multiple or a quotient is computed exactly when it fits (and the
divisor is not zero), and is then exact; quotients are rounded towards zero. -/
theorem C145_scale_V3 (t : IntTy) (v : Vec 3 ℤ) (c : ℤ) (i : Fin 3) (z : ℤ) :
    (V3.neg (v.on t) i = of t z ↔ z = -v i ∧ t.lo ≤ -v i ∧ -v i ≤ t.hi) ∧
    (V3.smul (v.on t) (of t c) i = of t z ↔ z = v i * c ∧ t.lo ≤ v i * c ∧ v i * c ≤ t.hi) ∧
    (V3.sdiv (v.on t) (of t c) i = of t z ↔
      c ≠ 0 ∧ z = (v i).tdiv c ∧ t.lo ≤ (v i).tdiv c ∧ (v i).tdiv c ≤ t.hi) := by
  fin_cases i <;> exact ⟨chk_iff, chk_iff, div_iff⟩

/-- The same for matrices. -/
theorem C145_scale_M33 (t : IntTy) (A : Mat 3 ℤ) (c : ℤ) (i j : Fin 3) (z : ℤ) :
    (M33.neg (A.on t) i j = of t z ↔ z = -A i j ∧ t.lo ≤ -A i j ∧ -A i j ≤ t.hi) ∧
    (M33.smul (A.on t) (of t c) i j = of t z ↔ z = A i j * c ∧ t.lo ≤ A i j * c ∧ A i j * c ≤ t.hi) ∧
    (M33.sdiv (A.on t) (of t c) i j = of t z ↔
      c ≠ 0 ∧ z = (A i j).tdiv c ∧ t.lo ≤ (A i j).tdiv c ∧ (A i j).tdiv c ≤ t.hi) := by
  fin_cases i <;> fin_cases j <;> exact ⟨chk_iff, chk_iff, div_iff⟩

/-- An entry of the negative, a multiple or a quotient is computed exactly when it fits (and the
divisor is not zero), and is then exact; quotients are rounded towards zero. -/
theorem C145_scale_V4 (t : IntTy) (v : Vec 4 ℤ) (c : ℤ) (i : Fin 4) (z : ℤ) :
    (V4.neg (v.on t) i = of t z ↔ z = -v i ∧ t.lo ≤ -v i ∧ -v i ≤ t.hi) ∧
    (V4.smul (v.on t) (of t c) i = of t z ↔ z = v i * c ∧ t.lo ≤ v i * c ∧ v i * c ≤ t.hi) ∧
    (V4.sdiv (v.on t) (of t c) i = of t z ↔
      c ≠ 0 ∧ z = (v i).tdiv c ∧ t.lo ≤ (v i).tdiv c ∧ (v i).tdiv c ≤ t.hi) := by
  fin_cases i <;> exact ⟨chk_iff, chk_iff, div_iff⟩

/-- The same for matrices. -/
theorem C145_scale_M44 (t : IntTy) (A : Mat 4 ℤ) (c : ℤ) (i j : Fin 4) (z : ℤ) :
    (M44.neg (A.on t) i j = of t z ↔ z = -A i j ∧ t.lo ≤ -A i j ∧ -A i j ≤ t.hi) ∧
    (M44.smul (A.on t) (of t c) i j = of t z ↔ z = A i j * c ∧ t.lo ≤ A i j * c ∧ A i j * c ≤ t.hi) ∧
    (M44.sdiv (A.on t) (of t c) i j = of t z ↔
      c ≠ 0 ∧ z = (A i j).tdiv c ∧ t.lo ≤ (A i j).tdiv c ∧ (A i j).tdiv c ≤ t.hi) := by
  fin_cases i <;> fin_cases j <;> exact ⟨chk_iff, chk_iff, div_iff⟩

set_option maxRecDepth 20000 in
/-- An entry of the negative, a multiple or a quotient is computed exactly when it fits (and the
divisor is not zero), and is then exact; quotients are rounded towards zero. -/
theorem C145_scale_V5 (t : IntTy) (v : Vec 5 ℤ) (c : ℤ) (i : Fin 5) (z : ℤ) :
    (V5.neg (v.on t) i = of t z ↔ z = -v i ∧ t.lo ≤ -v i ∧ -v i ≤ t.hi) ∧
    (V5.smul (v.on t) (of t c) i = of t z ↔ z = v i * c ∧ t.lo ≤ v i * c ∧ v i * c ≤ t.hi) ∧
    (V5.sdiv (v.on t) (of t c) i = of t z ↔
      c ≠ 0 ∧ z = (v i).tdiv c ∧ t.lo ≤ (v i).tdiv c ∧ (v i).tdiv c ≤ t.hi) := by
  fin_cases i <;> exact ⟨chk_iff, chk_iff, div_iff⟩

set_option maxRecDepth 20000 in
/-- The same for matrices. -/
theorem C145_scale_M55 (t : IntTy) (A : Mat 5 ℤ) (c : ℤ) (i j : Fin 5) (z : ℤ) :
    (M55.neg (A.on t) i j = of t z ↔ z = -A i j ∧ t.lo ≤ -A i j ∧ -A i j ≤ t.hi) ∧
    (M55.smul (A.on t) (of t c) i j = of t z ↔ z = A i j * c ∧ t.lo ≤ A i j * c ∧ A i j * c ≤ t.hi) ∧
    (M55.sdiv (A.on t) (of t c) i j = of t z ↔
      c ≠ 0 ∧ z = (A i j).tdiv c ∧ t.lo ≤ (A i j).tdiv c ∧ (A i j).tdiv c ≤ t.hi) := by
  fin_cases i <;> fin_cases j <;> exact ⟨chk_iff, chk_iff, div_iff⟩

set_option maxRecDepth 20000 in
/-- An entry of the negative, a multiple or a quotient is computed exactly when it fits (and the
divisor is not zero), and is then exact; quotients are rounded towards zero. -/
theorem C145_scale_V6 (t : IntTy) (v : Vec 6 ℤ) (c : ℤ) (i : Fin 6) (z : ℤ) :
    (V6.neg (v.on t) i = of t z ↔ z = -v i ∧ t.lo ≤ -v i ∧ -v i ≤ t.hi) ∧
    (V6.smul (v.on t) (of t c) i = of t z ↔ z = v i * c ∧ t.lo ≤ v i * c ∧ v i * c ≤ t.hi) ∧
    (V6.sdiv (v.on t) (of t c) i = of t z ↔
      c ≠ 0 ∧ z = (v i).tdiv c ∧ t.lo ≤ (v i).tdiv c ∧ (v i).tdiv c ≤ t.hi) := by
  fin_cases i <;> exact ⟨chk_iff, chk_iff, div_iff⟩

set_option maxRecDepth 20000 in
/-- The same for matrices. -/
theorem C145_scale_M66 (t : IntTy) (A : Mat 6 ℤ) (c : ℤ) (i j : Fin 6) (z : ℤ) :
    (M66.neg (A.on t) i j = of t z ↔ z = -A i j ∧ t.lo ≤ -A i j ∧ -A i j ≤ t.hi) ∧
    (M66.smul (A.on t) (of t c) i j = of t z ↔ z = A i j * c ∧ t.lo ≤ A i j * c ∧ A i j * c ≤ t.hi) ∧
    (M66.sdiv (A.on t) (of t c) i j = of t z ↔
      c ≠ 0 ∧ z = (A i j).tdiv c ∧ t.lo ≤ (A i j).tdiv c ∧ (A i j).tdiv c ≤ t.hi) := by
  fin_cases i <;> fin_cases j <;> exact ⟨chk_iff, chk_iff, div_iff⟩

/-- The quotient of -7 and 2 is -3; those of -128 and -1 and of 1 and 0 panic. -/
example : V2.sdiv (Vec.on IntTy.i8 ⟨![-7, 7]⟩) (of IntTy.i8 2) 0 = of IntTy.i8 (-3) ∧
    (V2.sdiv (Vec.on IntTy.i8 ⟨![-128, 7]⟩) (of IntTy.i8 (-1)) 0).val = none ∧
    (V2.sdiv (Vec.on IntTy.i8 ⟨![1, 7]⟩) (of IntTy.i8 0) 0).val = none ∧
    (V2.neg (Vec.on IntTy.i8 ⟨![-128, 7]⟩) 0).val = none := by decide

/-- Dividing a multiple that did not overflow by the factor gives the vector back. Multiplying the
quotient by the divisor gives something nearer to zero by less than the divisor. -/
theorem C145_scale_back (t : IntTy) (v : Vec 3 ℤ) (c : ℤ) (hc : c ≠ 0) (ht : ∀ i, t.lo ≤ v i ∧ v i ≤ t.hi) :
    ((∀ i, t.lo ≤ v i * c ∧ v i * c ≤ t.hi) → V3.sdiv (V3.smul (v.on t) (of t c)) (of t c) = v.on t) ∧
    ∀ i z, V3.smul (V3.sdiv (v.on t) (of t c)) (of t c) i = of t z → |z| ≤ |v i| ∧ |v i - z| < |c| := by
  refine ⟨fun h => ?_, fun i z h => ?_⟩
  · have e : V3.smul (v.on t) (of t c) = Vec.on t ⟨fun i => v i * c⟩ :=
      Vec.ext (funext fun i => ((C145_scale_V3 t v c i (v i * c)).2.1.2 ⟨rfl, h i⟩))
    rw [e]
    refine Vec.ext (funext fun i => (C145_scale_V3 t ⟨fun i => v i * c⟩ c i (v i)).2.2.2 ⟨hc, ?_⟩)
    change v i = (v i * c).tdiv c ∧ _ ≤ (v i * c).tdiv c ∧ (v i * c).tdiv c ≤ _
    rw [Int.mul_tdiv_cancel _ hc]
    exact ⟨rfl, ht i⟩
  · have e : V3.smul (V3.sdiv (v.on t) (of t c)) (of t c) i = V3.sdiv (v.on t) (of t c) i * of t c := by
      fin_cases i <;> rfl
    rw [e] at h
    obtain ⟨x, y, hx, hy, rfl⟩ := mul_some' h
    obtain rfl := of_inj hy
    obtain ⟨-, rfl, -⟩ := (C145_scale_V3 t v c i x).2.2.1 hx
    have h1 : v i - (v i).tdiv c * c = (v i).tmod c := by
      have := Int.tmod_add_mul_tdiv (v i) c
      rw [mul_comm]; linarith
    rw [h1, Int.abs_eq_natAbs, Int.abs_eq_natAbs, Int.abs_eq_natAbs, Int.abs_eq_natAbs, Int.natAbs_mul,
      Int.natAbs_tdiv, Int.natAbs_tmod]
    exact ⟨by exact_mod_cast Nat.div_mul_le_self _ _,
      by exact_mod_cast Nat.mod_lt _ (Int.natAbs_pos.2 hc)⟩

end StaticMath
