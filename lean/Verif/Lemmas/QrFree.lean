import Verif.Lemmas.Loop
import Verif.Lemmas.Views

/-!
# `qr()` for any element type

No law about the operations is used: the loops stay in range and return, whatever the arithmetic does.
-/

namespace StaticMath

variable {T : Type} {n : ℕ}

theorem project_free [Add T] [Mul T] [Div T] [Zero T] (x y : Vec n T) :
    ∃ p, project_x_over_y x.toSlice y.toSlice = .ok p := by
  unfold project_x_over_y slice_dot Vec.toSlice
  rw [if_pos (by simp), if_pos (by simp)]
  exact ⟨_, rfl⟩

theorem normalizeSlice_free [Add T] [Mul T] [Div T] [Zero T] [RFloat T] (v : Vec n T) :
    ∃ w, v.normalizeSlice = .ok w := by
  unfold Vec.normalizeSlice
  exact ⟨_, foldlM_set_eq _ (by simp [slice_normalize, Vec.toSlice]) _⟩

theorem qrGen_free [Add T] [Sub T] [Neg T] [Mul T] [Div T] [Zero T] [One T] [RAbs T] [ROrd T] [RFloat T]
    (o : QrOps n T) (hc : ∀ A, ∃ c, o.get_cols A = .ok c) (hv : ∀ c, ∃ q, o.new_from_vecs c = .ok q)
    (A : Mat n T) :
    (nearly_zero (o.det A) = true ∧ qrGen o A = .ok none) ∨
    (nearly_zero (o.det A) = false ∧ ∃ q, qrGen o A = .ok (some (q, o.mul (o.transpose q) A))) := by
  unfold qrGen
  by_cases h : nearly_zero (o.det A) = true
  · refine Or.inl ⟨h, ?_⟩
    simp only [h]
    rfl
  · have h' : nearly_zero (o.det A) = false := by simpa using h
    refine Or.inr ⟨h', ?_⟩
    simp only [h', Bool.not_false, if_true]
    obtain ⟨c, hc1⟩ := hc A
    obtain ⟨z, hz⟩ := hc o.zeros
    have hfold : ∀ (i : Fin n) (l : List (Vec n T)) (q : Vec n T), ∃ q', l.foldlM
        (fun q_tilde (elem : Vec n T) => (do
          let p ← project_x_over_y (c i).toSlice elem.toSlice
          pure (o.vsub q_tilde (o.vsmul elem p)) : MayPanic (Vec n T))) q = .ok q' := by
      intro i l
      induction l with
      | nil => exact fun q => ⟨q, rfl⟩
      | cons e l ih =>
        intro q
        obtain ⟨p, hp⟩ := project_free (c i) e
        rw [List.foldlM_cons, hp]
        exact ih _
    obtain ⟨q, hq⟩ : ∃ q, forRange 0 n z (fun i (q : Vec n (Vec n T)) => do
        let q_tilde ← c.get i
        let q_tilde ← (q.toSlice.take i).foldlM (fun q_tilde (elem : Vec n T) => do
          let p ← project_x_over_y (← c.get i).toSlice elem.toSlice
          pure (o.vsub q_tilde (o.vsmul elem p))) q_tilde
        let q_tilde ← q_tilde.normalizeSlice
        q.set i q_tilde) = .ok q := by
      obtain ⟨q, hq, -⟩ := forRange_invariant (fun _ (_ : Vec n (Vec n T)) => True) 0 n (Nat.zero_le _) z
        (fun i (q : Vec n (Vec n T)) => do
          let q_tilde ← c.get i
          let q_tilde ← (q.toSlice.take i).foldlM (fun q_tilde (elem : Vec n T) => do
            let p ← project_x_over_y (← c.get i).toSlice elem.toSlice
            pure (o.vsub q_tilde (o.vsmul elem p))) q_tilde
          let q_tilde ← q_tilde.normalizeSlice
          q.set i q_tilde) trivial fun i q _ h2 _ => by
        obtain ⟨q', hq'⟩ := hfold ⟨i, h2⟩ (q.toSlice.take i) (c ⟨i, h2⟩)
        obtain ⟨w, hw⟩ := normalizeSlice_free q'
        refine ⟨⟨fun k => if k = ⟨i, h2⟩ then w else q.val k⟩, ?_, trivial⟩
        rw [Vec.get_ok c i h2]
        refine Eq.trans (b := (.ok q' : MayPanic _) >>= fun q_tilde => do
          let q_tilde ← q_tilde.normalizeSlice
          q.set i q_tilde) (by rw [← hq']; rfl) ?_
        change (do
          let q_tilde ← q'.normalizeSlice
          q.set i q_tilde) = _
        rw [hw]
        exact Vec.set_ok q i h2 w
      exact ⟨q, hq⟩
    obtain ⟨m, hm⟩ := hv q
    refine ⟨m, ?_⟩
    rw [hc1]
    change (do
      let q ← o.get_cols o.zeros
      let q ← forRange 0 n q fun i q => do
        let q_tilde ← c.get i
        let q_tilde ← (q.toSlice.take i).foldlM (fun q_tilde (elem : Vec n T) => do
          let p ← project_x_over_y (← c.get i).toSlice elem.toSlice
          pure (o.vsub q_tilde (o.vsmul elem p))) q_tilde
        let q_tilde ← q_tilde.normalizeSlice
        q.set i q_tilde
      let q ← o.new_from_vecs q
      let r := o.mul (o.transpose q) A
      pure (some (q, r))) = _
    rw [hz]
    refine Eq.trans (b := (.ok q : MayPanic _) >>= fun q => do
      let q ← o.new_from_vecs q
      let r := o.mul (o.transpose q) A
      pure (some (q, r))) (by rw [← hq]; rfl) ?_
    change (do
      let q ← o.new_from_vecs q
      let r := o.mul (o.transpose q) A
      pure (some (q, r))) = _
    rw [hm]
    rfl

/-! ## The columns `qr` computes -/

section
variable [Add T] [Sub T] [Neg T] [Mul T] [Div T] [Zero T] [One T] [RAbs T] [ROrd T] [RFloat T]

/-- The value of `slice_dot` on arrays of the same length. -/
def pdot (x y : Vec n T) : T := iterSum ((x.toSlice.zip y.toSlice).map fun p => p.1 * p.2)

/-- The column after subtracting its projections on the elements of `l`, one after the other. -/
def gsTilde (o : QrOps n T) (c : Vec n T) (l : List (Vec n T)) : Vec n T :=
  l.foldl (fun t e => o.vsub t (o.vsmul e (pdot c e / pdot e e))) c

/-- The column divided by its computed norm. -/
def gsUnit (t : Vec n T) : Vec n T := ⟨fun k => t k / slice_norm2 t.toSlice⟩

omit [Sub T] [Neg T] [One T] [RAbs T] [ROrd T] [RFloat T] in
theorem project_eq (x y : Vec n T) : project_x_over_y x.toSlice y.toSlice = .ok (pdot x y / pdot y y) := by
  unfold project_x_over_y slice_dot pdot Vec.toSlice
  rw [if_pos (by simp), if_pos (by simp)]
  rfl

omit [Sub T] [Neg T] [One T] [RAbs T] [ROrd T] in
theorem normalizeSlice_eq (v : Vec n T) : v.normalizeSlice = .ok (gsUnit v) := by
  unfold Vec.normalizeSlice
  rw [foldlM_set_eq _ (by simp [slice_normalize, Vec.toSlice])]
  congr 2
  funext k
  simp [slice_normalize, Vec.toSlice]

omit [Sub T] [Neg T] [One T] [RAbs T] [ROrd T] [RFloat T] in
theorem gsTilde_eq (o : QrOps n T) (c : Vec n T) (l : List (Vec n T)) (t : Vec n T) : l.foldlM
    (fun q_tilde (elem : Vec n T) => (do
      let p ← project_x_over_y c.toSlice elem.toSlice
      pure (o.vsub q_tilde (o.vsmul elem p)) : MayPanic (Vec n T))) t =
    .ok (l.foldl (fun t e => o.vsub t (o.vsmul e (pdot c e / pdot e e))) t) := by
  induction l generalizing t with
  | nil => rfl
  | cons e l ih =>
    rw [List.foldlM_cons, project_eq]
    exact ih _

omit [Add T] [Sub T] [Neg T] [Mul T] [Div T] [Zero T] [One T] [RAbs T] [ROrd T] [RFloat T] in
theorem take_set (q : Vec n (Vec n T)) (i : ℕ) (hi : i < n) (w : Vec n T) (a : ℕ) (ha : a ≤ i) :
    (⟨fun k => if k = ⟨i, hi⟩ then w else q.val k⟩ : Vec n (Vec n T)).toSlice.take a = q.toSlice.take a := by
  refine List.ext_getElem (by simp [Vec.toSlice]) fun k h1 h2 => ?_
  have hk : k < a := by simp [Vec.toSlice] at h1; omega
  simp only [Vec.toSlice, List.getElem_take, List.getElem_ofFn]
  rw [if_neg]
  intro h
  have := congrArg Fin.val h
  simp at this
  omega

omit [Neg T] [One T] in
/-- Every column of the first factor is the corresponding column of the input, reduced by the columns
before it and divided by its computed norm. -/
theorem qrGen_cols (o : QrOps n T) (hc : ∀ A : Mat n T, o.get_cols A = .ok ⟨fun j => ⟨fun i => A i j⟩⟩)
    (hv : ∀ c : Vec n (Vec n T), o.new_from_vecs c = .ok ⟨fun i j => (c j) i⟩) (A : Mat n T)
    (h : nearly_zero (o.det A) = false) :
    ∃ q : Vec n (Vec n T), (∀ j : Fin n, q j = gsUnit (gsTilde o ⟨fun i => A i j⟩ (q.toSlice.take j))) ∧
      qrGen o A = .ok (some (⟨fun i j => (q j) i⟩, o.mul (o.transpose ⟨fun i j => (q j) i⟩) A)) := by
  unfold qrGen
  simp only [h, Bool.not_false, if_true]
  obtain ⟨c, hcdef⟩ : ∃ c : Vec n (Vec n T), c = ⟨fun j => ⟨fun i => A i j⟩⟩ := ⟨_, rfl⟩
  obtain ⟨z, hz⟩ : ∃ z, o.get_cols o.zeros = .ok z := ⟨_, hc _⟩
  have hcj (j : Fin n) : (⟨fun i => A i j⟩ : Vec n T) = c j := by rw [hcdef]
  obtain ⟨q, hq, hP⟩ := forRange_invariant
    (fun i (q : Vec n (Vec n T)) => ∀ j : Fin n, j.val < i → q j = gsUnit (gsTilde o (c j) (q.toSlice.take j)))
    0 n (Nat.zero_le _) z
    (fun i (q : Vec n (Vec n T)) => do
      let q_tilde ← c.get i
      let q_tilde ← (q.toSlice.take i).foldlM (fun q_tilde (elem : Vec n T) => do
        let p ← project_x_over_y (← c.get i).toSlice elem.toSlice
        pure (o.vsub q_tilde (o.vsmul elem p))) q_tilde
      let q_tilde ← q_tilde.normalizeSlice
      q.set i q_tilde) (fun j hj => absurd hj (by omega)) fun i q _ h2 hP => by
    have hf := gsTilde_eq o (c ⟨i, h2⟩) (q.toSlice.take i) (c ⟨i, h2⟩)
    have hn := normalizeSlice_eq (gsTilde o (c ⟨i, h2⟩) (q.toSlice.take i))
    refine ⟨⟨fun k => if k = ⟨i, h2⟩ then gsUnit (gsTilde o (c ⟨i, h2⟩) (q.toSlice.take i)) else q.val k⟩, ?_, ?_⟩
    · rw [Vec.get_ok c i h2]
      refine Eq.trans (b := (.ok (gsTilde o (c ⟨i, h2⟩) (q.toSlice.take i)) : MayPanic _) >>= fun q_tilde => do
        let q_tilde ← q_tilde.normalizeSlice
        q.set i q_tilde) (by rw [gsTilde, ← hf]; rfl) ?_
      change (do
        let q_tilde ← (gsTilde o (c ⟨i, h2⟩) (q.toSlice.take i)).normalizeSlice
        q.set i q_tilde) = _
      rw [hn]
      exact Vec.set_ok q i h2 _
    · intro j hj
      rw [take_set q i h2 _ j.val (by omega)]
      change (if j = ⟨i, h2⟩ then _ else q.val j) = _
      by_cases hji : j = ⟨i, h2⟩
      · rw [if_pos hji, hji]
      · rw [if_neg hji]
        refine hP j ?_
        have : j.val ≠ i := fun e => hji (Fin.ext e)
        omega
  refine ⟨q, fun j => by rw [hcj]; exact hP j j.isLt, ?_⟩
  rw [hc A, ← hcdef]
  change (do
    let q ← o.get_cols o.zeros
    let q ← forRange 0 n q fun i q => do
      let q_tilde ← c.get i
      let q_tilde ← (q.toSlice.take i).foldlM (fun q_tilde (elem : Vec n T) => do
        let p ← project_x_over_y (← c.get i).toSlice elem.toSlice
        pure (o.vsub q_tilde (o.vsmul elem p))) q_tilde
      let q_tilde ← q_tilde.normalizeSlice
      q.set i q_tilde
    let q ← o.new_from_vecs q
    let r := o.mul (o.transpose q) A
    pure (some (q, r))) = _
  rw [hz]
  refine Eq.trans (b := (.ok q : MayPanic _) >>= fun q => do
    let q ← o.new_from_vecs q
    let r := o.mul (o.transpose q) A
    pure (some (q, r))) (by rw [← hq]; rfl) ?_
  change (do
    let q ← o.new_from_vecs q
    let r := o.mul (o.transpose q) A
    pure (some (q, r))) = _
  rw [hv q]
  rfl

end

end StaticMath
