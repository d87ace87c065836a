import Verif.Model.Linear
import Verif.Exact

/-! # Loop invariants for `forRange`, and panic-free array access -/

namespace StaticMath

theorem forRange_self {σ : Type} (lo hi : ℕ) (h : hi ≤ lo) (s : σ) (body : ℕ → σ → MayPanic σ) :
    forRange lo hi s body = .ok s := by
  simp [forRange, Nat.sub_eq_zero_of_le h]
  rfl

theorem forRange_step {σ : Type} (lo hi : ℕ) (h : lo < hi) (s : σ) (body : ℕ → σ → MayPanic σ) :
    forRange lo hi s body = (body lo s).bind fun s' => forRange (lo + 1) hi s' body := by
  have : hi - lo = (hi - (lo + 1)) + 1 := by omega
  rw [forRange, this, List.range'_succ, List.foldlM_cons]
  rfl

/-- A loop whose body succeeds and preserves an invariant succeeds and establishes it. -/
theorem forRange_invariant {σ : Type} (P : ℕ → σ → Prop) (lo hi : ℕ) (hle : lo ≤ hi) (s : σ)
    (body : ℕ → σ → MayPanic σ) (h0 : P lo s)
    (step : ∀ i s, lo ≤ i → i < hi → P i s → ∃ s', body i s = .ok s' ∧ P (i + 1) s') :
    ∃ s', forRange lo hi s body = .ok s' ∧ P hi s' := by
  obtain ⟨d, rfl⟩ := Nat.exists_eq_add_of_le hle
  clear hle
  induction d generalizing lo s with
  | zero => exact ⟨s, forRange_self _ _ (by omega) _ _, h0⟩
  | succ d ih =>
    obtain ⟨s', hs, hP⟩ := step lo s le_rfl (by omega) h0
    obtain ⟨s'', hs', hP'⟩ := ih (lo + 1) s' hP
      (fun i s h1 h2 h3 => step i s (by omega) (by omega) h3)
    refine ⟨s'', ?_, ?_⟩
    · rw [forRange_step _ _ (by omega), hs]
      change forRange (lo + 1) (lo + (d + 1)) s' body = _
      rw [← hs']
      congr 1
      omega
    · have : lo + (d + 1) = lo + 1 + d := by omega
      rw [this]; exact hP'

/-- A deterministic invariant: if step `i` maps `f i` to `f (i+1)`, the loop maps `f lo` to
`f hi`. -/
theorem forRange_eq {σ : Type} (f : ℕ → σ) (lo hi : ℕ) (hle : lo ≤ hi) (body : ℕ → σ → MayPanic σ)
    (step : ∀ i, lo ≤ i → i < hi → body i (f i) = .ok (f (i + 1))) :
    forRange lo hi (f lo) body = .ok (f hi) := by
  obtain ⟨s', hs, hP⟩ := forRange_invariant (fun i s => s = f i) lo hi hle (f lo) body rfl
    (fun i s h1 h2 h3 => ⟨f (i + 1), by rw [h3]; exact step i h1 h2, rfl⟩)
  rw [hs, hP]

variable {T : Type} {n : ℕ}

theorem Vec.get_ok (v : Vec n T) (i : ℕ) (h : i < n) : v.get i = .ok (v.val ⟨i, h⟩) := by
  rw [Vec.get, dif_pos h]

theorem Vec.set_ok (v : Vec n T) (i : ℕ) (h : i < n) (x : T) :
    v.set i x = .ok ⟨fun k => if k = ⟨i, h⟩ then x else v.val k⟩ := by
  rw [Vec.set, dif_pos h]

theorem Mat.get_ok (m : Mat n T) (i j : ℕ) (hi : i < n) (hj : j < n) :
    m.get i j = .ok (m.val ⟨i, hi⟩ ⟨j, hj⟩) := by
  rw [Mat.get, dif_pos ⟨hi, hj⟩]

theorem Mat.set_ok (m : Mat n T) (i j : ℕ) (hi : i < n) (hj : j < n) (x : T) :
    m.set i j x = .ok ⟨fun r c => if r = ⟨i, hi⟩ ∧ c = ⟨j, hj⟩ then x else m.val r c⟩ := by
  rw [Mat.set, dif_pos ⟨hi, hj⟩]

/-- A loop writing every component. -/
theorem forRange_set (v : Vec n T) (g : Fin n → T) (body : ℕ → Vec n T → MayPanic (Vec n T))
    (hb : ∀ i (h : i < n) r, body i r = r.set i (g ⟨i, h⟩)) :
    forRange 0 n v body = .ok ⟨g⟩ := by
  obtain ⟨s', hs, hP⟩ := forRange_invariant
    (fun k (r : Vec n T) => ∀ i : Fin n, i.val < k → r.val i = g i) 0 n (Nat.zero_le _) v body
    (fun i h => absurd h (Nat.not_lt_zero _))
    (fun i s _ h2 h3 => by
      refine ⟨_, by rw [hb i h2, Vec.set_ok _ _ h2], fun k hk => ?_⟩
      by_cases hki : k = ⟨i, h2⟩
      · simp [hki]
      · have hne : k.val ≠ i := fun h => hki (Fin.ext h)
        simp only [hki, if_false]
        exact h3 k (by omega))
  rw [hs]
  congr 1
  exact Vec.ext (funext fun i => hP i i.isLt)

theorem normalizeGen_eq [Mul T] [Div T] [Add T] [Zero T] [ROrd T] [RFloat T]
    (zeros : Vec n T) (norm2 : Vec n T → T) (v : Vec n T) :
    normalizeGen zeros norm2 v =
      if ROrd.beq (norm2 v) 0 then .ok (.error .Norm2IsZero)
      else .ok (.ok ⟨fun i => v i / norm2 v⟩) := by
  unfold normalizeGen
  by_cases h : ROrd.beq (norm2 v) 0 = true
  · simp [h]; rfl
  · have h' : ROrd.beq (norm2 v) 0 = false := by simpa using h
    simp only [h', Bool.not_false, if_true]
    rw [forRange_set zeros (fun i => v i / norm2 v)]
    · rfl
    · intro i hi r
      rw [Vec.get_ok _ _ hi]
      rfl

end StaticMath
