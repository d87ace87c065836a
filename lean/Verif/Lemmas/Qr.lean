import Verif.Lemmas.Views
import Verif.Lemmas.Transfer
import Verif.Lemmas.Inverse
import Verif.Exact
import Mathlib.LinearAlgebra.Matrix.NonsingularInverse
import Mathlib.Tactic.Linarith

/-! # Gram–Schmidt as `qr` runs it, for every size -/

namespace StaticMath

variable [P : RealParams] {n : ℕ}

omit P in
theorem slice_dot_toSlice (x y : Vec n ℝ) : slice_dot x.toSlice y.toSlice = .ok (x.val ⬝ᵥ y.val) := by
  unfold slice_dot Vec.toSlice
  rw [if_pos (by simp)]
  congr 1
  rw [iterSum_eq_sum, dotProduct, ← List.sum_ofFn]
  congr 1
  refine List.ext_getElem (by simp) fun k h1 h2 => ?_
  simp

omit P in
theorem project_toSlice (x y : Vec n ℝ) :
    project_x_over_y x.toSlice y.toSlice = .ok ((x.val ⬝ᵥ y.val) / (y.val ⬝ᵥ y.val)) := by
  rw [project_x_over_y, slice_dot_toSlice, slice_dot_toSlice]
  rfl

theorem slice_norm2_toSlice (v : Vec n ℝ) : slice_norm2 v.toSlice = √(v.val ⬝ᵥ v.val) := by
  unfold slice_norm2
  rw [rfloat_sqrt]
  congr 1
  have h : ∀ (l : List ℝ) (a : ℝ), l.foldl (fun n i => i * i + n) a = (l.map fun x => x * x).sum + a := by
    intro l
    induction l with
    | nil => intro a; simp
    | cons x l ih => intro a; rw [List.foldl_cons, ih, List.map_cons, List.sum_cons]; ring
  rw [h, add_zero, Vec.toSlice, List.map_ofFn, List.sum_ofFn]
  rfl

theorem normalizeSlice_ok (v : Vec n ℝ) :
    v.normalizeSlice = .ok ⟨fun k => v k / √(v.val ⬝ᵥ v.val)⟩ := by
  unfold Vec.normalizeSlice
  rw [foldlM_set_eq _ (by simp [slice_normalize, Vec.toSlice])]
  congr 2
  funext k
  simp only [slice_normalize, List.getElem_map, slice_norm2_toSlice]
  simp [Vec.toSlice]

/-- The facts about one size's methods that the proof uses. -/
structure QrOk (o : QrOps n ℝ) : Prop where
  det : ∀ A, o.det A = A.toM.det
  cols : ∀ A : Mat n ℝ, o.get_cols A = .ok ⟨fun j => ⟨fun i => A i j⟩⟩
  vecs : ∀ c : Vec n (Vec n ℝ), o.new_from_vecs c = .ok ⟨fun i j => (c j) i⟩
  tr : ∀ A, (o.transpose A).toM = A.toM.transpose
  mul : ∀ A B, (o.mul A B).toM = A.toM * B.toM
  sub : ∀ (u v : Vec n ℝ) k, o.vsub u v k = u k - v k
  smul : ∀ (u : Vec n ℝ) c k, o.vsmul u c k = u k * c

omit P in
private theorem inner_fold {o : QrOps n ℝ} (ho : QrOk o) (c : Vec n ℝ) (l : List (Vec n ℝ)) (qt : Vec n ℝ) :
    l.foldlM (fun q_tilde elem => do
        let p ← project_x_over_y c.toSlice elem.toSlice
        pure (o.vsub q_tilde (o.vsmul elem p))) qt =
      (.ok ⟨qt.val - (l.map fun e => ((c.val ⬝ᵥ e.val) / (e.val ⬝ᵥ e.val)) • e.val).sum⟩ :
        MayPanic (Vec n ℝ)) := by
  induction l generalizing qt with
  | nil =>
    refine congrArg Except.ok (Vec.ext ?_)
    simp
  | cons e l ih =>
    rw [List.foldlM_cons, project_toSlice]
    refine (ih _).trans (congrArg Except.ok (Vec.ext ?_))
    rw [List.map_cons, List.sum_cons, ← sub_sub]
    dsimp only
    congr 1
    funext k
    rw [ho.sub, ho.smul, Pi.sub_apply, Pi.smul_apply, smul_eq_mul, mul_comm]

/-- The state after `i` columns. -/
private def Ortho (c : Fin n → Fin n → ℝ) (i : ℕ) (q : Vec n (Vec n ℝ)) : Prop :=
  (∀ a b : Fin n, a.val < i → b.val < i → (q a).val ⬝ᵥ (q b).val = if a = b then 1 else 0) ∧
  (∀ a : Fin n, a.val < i → (q a).val ∈ Submodule.span ℝ (c '' {m | m.val < i})) ∧
  (∀ a : Fin n, a.val < i → ∃ r : ℝ, 0 < r ∧
    c a = r • (q a).val + ∑ m with m.val < a.val, (c a ⬝ᵥ (q m).val) • (q m).val)

omit P in
private theorem dot_sum (x : Fin n → ℝ) (s : Finset (Fin n)) (f : Fin n → Fin n → ℝ) :
    x ⬝ᵥ (∑ m ∈ s, f m) = ∑ m ∈ s, x ⬝ᵥ f m := dotProduct_sum x s f

private theorem step (o : QrOps n ℝ) (ho : QrOk o) (A : Mat n ℝ) (hA : A.toM.det ≠ 0) (i : ℕ) (hi : i < n)
    (q : Vec n (Vec n ℝ)) (h : Ortho (fun j k => A k j) i q) :
    ∃ q', (do
      let q_tilde ← (⟨fun j => ⟨fun i => A i j⟩⟩ : Vec n (Vec n ℝ)).get i
      let q_tilde ← (q.toSlice.take i).foldlM (fun q_tilde (elem : Vec n ℝ) => do
        let p ← project_x_over_y
          (← (⟨fun j => ⟨fun i => A i j⟩⟩ : Vec n (Vec n ℝ)).get i).toSlice elem.toSlice
        pure (o.vsub q_tilde (o.vsmul elem p))) q_tilde
      let q_tilde ← q_tilde.normalizeSlice
      q.set i q_tilde) = .ok q' ∧ Ortho (fun j k => A k j) (i + 1) q' := by
  obtain ⟨h1, h2, h3⟩ := h
  obtain ⟨c, hc⟩ : ∃ c : Fin n → Fin n → ℝ, c = fun j k => A k j := ⟨_, rfl⟩
  rw [← hc] at h2 h3 ⊢
  obtain ⟨ii, hii⟩ : ∃ ii : Fin n, ii = ⟨i, hi⟩ := ⟨_, rfl⟩
  have hiv : ii.val = i := by rw [hii]
  have hlin : LinearIndependent ℝ c := by
    have := Matrix.linearIndependent_cols_of_det_ne_zero hA
    rw [hc]
    exact this
  -- the reduced column
  obtain ⟨t, ht⟩ : ∃ t : Fin n → ℝ,
      t = c ii - ∑ m with m.val < i, (c ii ⬝ᵥ (q m).val) • (q m).val := ⟨_, rfl⟩
  have hqspan : ∑ m with m.val < i, (c ii ⬝ᵥ (q m).val) • (q m).val ∈
      Submodule.span ℝ (c '' {m | m.val < i}) := by
    refine Submodule.sum_mem _ fun m hm => Submodule.smul_mem _ _ (h2 m ?_)
    exact (Finset.mem_filter.1 hm).2
  have ht0 : t ≠ 0 := by
    intro h0
    rw [h0] at ht
    have hce : c ii = ∑ m with m.val < i, (c ii ⬝ᵥ (q m).val) • (q m).val := (sub_eq_zero.1 ht.symm)
    refine hlin.notMem_span_image (s := {m | m.val < i}) (x := ii) ?_ ?_
    · change ¬ ii.val < i
      rw [hiv]; exact lt_irrefl _
    · rw [hce]; exact hqspan
  have htt : 0 < t ⬝ᵥ t := by
    obtain ⟨k, hk⟩ : ∃ k, t k ≠ 0 := by
      by_contra hne
      push Not at hne
      exact ht0 (funext hne)
    exact Finset.sum_pos' (fun j _ => mul_self_nonneg (t j)) ⟨k, Finset.mem_univ _, mul_self_pos.2 hk⟩
  have htq (b : Fin n) (hb : b.val < i) : (q b).val ⬝ᵥ t = 0 := by
    rw [ht, dotProduct_sub, dot_sum]
    rw [Finset.sum_congr rfl (g := fun m => if b = m then c ii ⬝ᵥ (q m).val else 0) (fun m hm => by
      rw [dotProduct_smul, h1 b m hb (Finset.mem_filter.1 hm).2, smul_eq_mul, mul_ite, mul_one, mul_zero]),
      Finset.sum_ite_eq, if_pos (by simp [hb]), dotProduct_comm, sub_self]
  obtain ⟨s, hs⟩ : ∃ s : ℝ, s = √(t ⬝ᵥ t) := ⟨_, rfl⟩
  have hs0 : 0 < s := by rw [hs]; exact Real.sqrt_pos.2 htt
  have hss : s * s = t ⬝ᵥ t := by rw [hs]; exact Real.mul_self_sqrt htt.le
  obtain ⟨u, hu⟩ : ∃ u : Vec n ℝ, u = ⟨s⁻¹ • t⟩ := ⟨_, rfl⟩
  have huv : u.val = s⁻¹ • t := by rw [hu]
  refine ⟨⟨fun k => if k = ii then u else q.val k⟩, ?_, ?_⟩
  · have hf := inner_fold ho ⟨c ii⟩ (q.toSlice.take i) ⟨c ii⟩
    have hsum : ((q.toSlice.take i).map fun e => (((⟨c ii⟩ : Vec n ℝ).val ⬝ᵥ e.val) / (e.val ⬝ᵥ e.val)) • e.val).sum
        = ∑ m with m.val < i, (c ii ⬝ᵥ (q m).val) • (q m).val := by
      rw [Vec.toSlice, List.map_take, List.map_ofFn, List.sum_take_ofFn]
      refine Finset.sum_congr rfl fun m hm => ?_
      have hm' := (Finset.mem_filter.1 hm).2
      simp only [Function.comp]
      rw [h1 m m hm' hm', if_pos rfl, div_one]
    rw [hsum, ← ht] at hf
    simp only [Vec.get_ok _ _ hi, bind, Except.bind] at hf ⊢
    have hcc : (⟨fun k => A.val k ⟨i, hi⟩⟩ : Vec n ℝ) = ⟨c ii⟩ := by rw [hc, hii]
    rw [hcc, hf]
    dsimp only
    rw [normalizeSlice_ok]
    dsimp only
    rw [Vec.set_ok _ _ hi, ← hii]
    have huu : u = ⟨fun k => t k / √(t ⬝ᵥ t)⟩ := by
      rw [hu, ← hs]
      congr 1
      funext k
      rw [Pi.smul_apply, smul_eq_mul, div_eq_inv_mul]
    rw [← huu]
  · have hlt (a : Fin n) (ha : a.val < i + 1) : a = ii ∨ (a ≠ ii ∧ a.val < i) := by
      rcases Nat.lt_succ_iff_lt_or_eq.1 ha with h | h
      · right
        exact ⟨fun e => by rw [e, hiv] at h; exact lt_irrefl _ h, h⟩
      · left; exact Fin.ext (h.trans hiv.symm)
    have hval (a : Fin n) : ((⟨fun k => if k = ii then u else q.val k⟩ : Vec n (Vec n ℝ)) a) =
        if a = ii then u else q a := rfl
    have huq (b : Fin n) (hb : b.val < i) : (q b).val ⬝ᵥ u.val = 0 := by
      rw [huv, dotProduct_smul, htq b hb, smul_zero]
    have hspan_mono : Submodule.span ℝ (c '' {m | m.val < i}) ≤ Submodule.span ℝ (c '' {m | m.val < i + 1}) :=
      Submodule.span_mono (Set.image_mono fun m (hm : m.val < i) => (Nat.lt_succ_of_lt hm : m.val < i + 1))
    refine ⟨fun a b ha hb => ?_, fun a ha => ?_, fun a ha => ?_⟩
    · rw [hval, hval]
      rcases hlt a ha with rfl | ⟨ha1, ha2⟩
      · rcases hlt b hb with rfl | ⟨hb1, hb2⟩
        · rw [if_pos rfl, if_pos rfl, huv, dotProduct_smul, smul_dotProduct, ← hss, smul_eq_mul, smul_eq_mul]
          field_simp
        · rw [if_pos rfl, if_neg hb1, if_neg (Ne.symm hb1), dotProduct_comm, huq b hb2]
      · rcases hlt b hb with rfl | ⟨hb1, hb2⟩
        · rw [if_pos rfl, if_neg ha1, if_neg ha1, huq a ha2]
        · rw [if_neg ha1, if_neg hb1, h1 a b ha2 hb2]
    · rw [hval]
      rcases hlt a ha with rfl | ⟨ha1, ha2⟩
      · rw [if_pos rfl, huv, ht]
        refine Submodule.smul_mem _ _ (Submodule.sub_mem _ (Submodule.subset_span ⟨a, ?_, rfl⟩)
          (hspan_mono hqspan))
        exact ha
      · rw [if_neg ha1]
        exact hspan_mono (h2 a ha2)
    · have hsame (a : Fin n) (ha : a.val ≤ i) :
          ∑ m with m.val < a.val, (c a ⬝ᵥ ((⟨fun k => if k = ii then u else q.val k⟩ : Vec n (Vec n ℝ)) m).val) •
            ((⟨fun k => if k = ii then u else q.val k⟩ : Vec n (Vec n ℝ)) m).val =
          ∑ m with m.val < a.val, (c a ⬝ᵥ (q m).val) • (q m).val := by
        refine Finset.sum_congr rfl fun m hm => ?_
        have hm' := (Finset.mem_filter.1 hm).2
        rw [hval, if_neg (fun e => by rw [e, hiv] at hm'; omega)]
      rw [hsame a (by omega), hval]
      rcases hlt a ha with rfl | ⟨ha1, ha2⟩
      · refine ⟨s, hs0, ?_⟩
        rw [if_pos rfl, huv, smul_smul, mul_inv_cancel₀ hs0.ne', one_smul, hiv, ht, sub_add_cancel]
      · rw [if_neg ha1]
        exact h3 a ha2

/-- What `qr` computes when the determinant passes the threshold. -/
theorem qrGen_ok {o : QrOps n ℝ} (ho : QrOk o) (A : Mat n ℝ) (hA : P.eps ≤ |A.toM.det|) :
    ∃ Q R, qrGen o A = .ok (some (Q, R)) ∧ Q.toM.transpose * Q.toM = 1 ∧ Q.toM * R.toM = A.toM ∧
      (∀ i j, j < i → R i j = 0) ∧ ∀ i, 0 < R i i := by
  have hdet : A.toM.det ≠ 0 := fun h0 => by
    rw [h0, abs_zero] at hA; exact absurd P.eps_pos (not_lt.2 hA)
  obtain ⟨q, hq, h1, -, h3⟩ := forRange_invariant (Ortho (fun j k => A k j)) 0 n (Nat.zero_le _)
    (⟨fun j => ⟨fun i => o.zeros i j⟩⟩ : Vec n (Vec n ℝ)) _
    ⟨fun a b ha _ => absurd ha (Nat.not_lt_zero _), fun a ha => absurd ha (Nat.not_lt_zero _),
      fun a ha => absurd ha (Nat.not_lt_zero _)⟩
    (fun i q _ hi h => step o ho A hdet i hi q h)
  obtain ⟨Q, hQ⟩ : ∃ Q : Mat n ℝ, Q = ⟨fun i j => (q j) i⟩ := ⟨_, rfl⟩
  have hQQ : Q.toM.transpose * Q.toM = 1 := by
    refine Matrix.ext fun i j => ?_
    rw [Matrix.mul_apply, Matrix.one_apply, ← h1 i j i.isLt j.isLt, hQ]
    rfl
  have hR (i j : Fin n) : (o.mul (o.transpose Q) A) i j = (q i).val ⬝ᵥ (fun k => A k j) := by
    have : (o.mul (o.transpose Q) A) i j = (o.mul (o.transpose Q) A).toM i j := rfl
    rw [this, ho.mul, ho.tr, Matrix.mul_apply, hQ]
    rfl
  have hkey (i j : Fin n) (hij : j ≤ i) : ∃ r : ℝ, 0 < r ∧
      (q i).val ⬝ᵥ (fun k => A k j) = if i = j then r else 0 := by
    obtain ⟨r, hr, hc⟩ := h3 j j.isLt
    refine ⟨r, hr, ?_⟩
    dsimp only at hc
    rw [hc, dotProduct_add, dotProduct_smul, h1 i j i.isLt j.isLt, dot_sum, Finset.sum_eq_zero, add_zero,
      smul_eq_mul, mul_ite, mul_one, mul_zero]
    intro m hm
    have hm' := (Finset.mem_filter.1 hm).2
    rw [dotProduct_smul, h1 i m i.isLt m.isLt, if_neg, smul_zero]
    intro e
    rw [e] at hij
    exact absurd hm' (not_lt.2 hij)
  refine ⟨Q, o.mul (o.transpose Q) A, ?_, hQQ, ?_, fun i j hij => ?_, fun i => ?_⟩
  · unfold qrGen
    rw [ho.det, nearly_zero_eq, ho.cols, ho.cols]
    simp only [not_lt.2 hA, decide_false, Bool.not_false, if_true]
    simp only [bind, Except.bind] at hq ⊢
    rw [hq]
    dsimp only
    rw [ho.vecs, ← hQ]
    rfl
  · rw [ho.mul, ho.tr, ← Matrix.mul_assoc, mul_eq_one_comm.1 hQQ, Matrix.one_mul]
  · obtain ⟨r, -, h⟩ := hkey i j hij.le
    rw [hR, h, if_neg hij.ne']
  · obtain ⟨r, hr, h⟩ := hkey i i le_rfl
    rw [hR, h, if_pos rfl]
    exact hr

theorem qrGen_none {o : QrOps n ℝ} (ho : QrOk o) (A : Mat n ℝ) (hA : |A.toM.det| < P.eps) :
    qrGen o A = .ok none := by
  unfold qrGen
  rw [ho.det, nearly_zero_eq]
  simp only [hA, decide_true, Bool.not_true, Bool.false_eq_true, if_false]
  rfl

end StaticMath
