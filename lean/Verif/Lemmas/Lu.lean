import Verif.Lemmas.Loop
import Verif.Spec.Lu
import Mathlib.LinearAlgebra.Matrix.Rank
import Mathlib.LinearAlgebra.Matrix.Block
import Mathlib.Tactic.Linarith
import Mathlib.Tactic.FieldSimp
import Mathlib.Tactic.LinearCombination

/-! # The loops of `lu`, for every size -/

namespace StaticMath

section defs
variable {T : Type} [Sub T] [Mul T] [Div T] [Neg T] [Zero T] [One T]
  [RAbs T] [ROrd T] [RFloat T] {n : ℕ}

/-- First loop of `lu` (`src/matrix2x2.rs:293-304`, same text in all sizes). -/
def luScale (lu : Mat n T) (big : T) (vv : Vec n T) : MayPanic (T × Vec n T) :=
  forRange 0 n (big, vv) fun i (big, vv) => do
    let big ← forRange 0 n big fun j big => do
      let temp := RAbs.abs (← lu.get i j)
      let big ← if ROrd.lt big temp then do
          let big := temp
          pure big
        else pure big
      pure big
    if ROrd.beq big 0 then do
      throw (Panic.explicit "the matrix should be non zero")
    let vv ← vv.set i (RFloat.recip big)
    pure (big, vv)

/-- Choice of the pivot row (`src/matrix2x2.rs:306-314`). -/
def luPivot (k : ℕ) (lu : Mat n T) (vv : Vec n T) : MayPanic (T × ℕ) :=
  forRange k n ((0 : T), k) fun i (big, i_max) => do
    let temp := (← vv.get i) * RAbs.abs (← lu.get i k)
    let (big, i_max) ← if ROrd.lt big temp then do
        let big := temp
        let i_max := i
        pure (big, i_max)
      else pure (big, i_max)
    pure (big, i_max)

/-- Row exchange (`src/matrix2x2.rs:317-322`). -/
def luSwap (k i_max : ℕ) (lu : Mat n T) : MayPanic (Mat n T) :=
  forRange 0 n lu fun j lu => do
    let temp := (← lu.get i_max j)
    let lu ← lu.set i_max j ((← lu.get k j))
    let lu ← lu.set k j (temp)
    pure lu

/-- Elimination (`src/matrix2x2.rs:330-335`). -/
def luElim (k : ℕ) (lu : Mat n T) : MayPanic (Mat n T) :=
  forRange (k + 1) n lu fun i lu => do
    let lu ← lu.set i k ((← lu.get i k) / (← lu.get k k))
    let lu ← forRange (k + 1) n lu fun j lu => do
      let lu ← lu.set i j ((← lu.get i j) - (← lu.get i k) * (← lu.get k j))
      pure lu
    pure lu

/-- One iteration of the main loop (`src/matrix2x2.rs:305-336`). -/
def luStep (tiny : T) (k : ℕ) (s : T × Mat n T × T × Vec n T × Vec n ℕ) :
    MayPanic (T × Mat n T × T × Vec n T × Vec n ℕ) :=
  match s with
  | (_, lu, d, vv, indx) => do
    let (big, i_max) ← luPivot k lu vv
    let (lu, d, vv) ← if k ≠ i_max then do
        let lu ← luSwap k i_max lu
        let d := -d
        let vv ← vv.set i_max ((← vv.get k))
        pure (lu, d, vv)
      else pure (lu, d, vv)
    let indx ← indx.set k (i_max)
    let lu ← if ROrd.beq (← lu.get k k) 0 then do
        let lu ← lu.set k k (tiny)
        pure lu
      else pure lu
    let lu ← luElim k lu
    pure (big, lu, d, vv, indx)

theorem M22.lu_gen (A : Mat 2 T) : M22.lu A = (do
    let (big, vv) ← luScale A 0 V2.zero
    let (_, lu, d, _, indx) ← forRange 0 2 (big, A, 1, vv, V2.zero) (luStep RFloat.lit1em40)
    let det := d * (← lu.get 0 0) * (← lu.get 1 1)
    pure (lu, det, indx)) := rfl

theorem M33.lu_gen (A : Mat 3 T) : M33.lu A = (do
    let (big, vv) ← luScale A 0 V3.zero
    let (_, lu, d, _, indx) ← forRange 0 3 (big, A, 1, vv, V3.zero) (luStep RFloat.lit1em40)
    let det := d * (← lu.get 0 0) * (← lu.get 1 1) * (← lu.get 2 2)
    pure (lu, det, indx)) := rfl

theorem M44.lu_gen (A : Mat 4 T) : M44.lu A = (do
    let (big, vv) ← luScale A 0 V4.zero
    let (_, lu, d, _, indx) ← forRange 0 4 (big, A, 1, vv, V4.zero) (luStep RFloat.lit1em40)
    let det := d * (← lu.get 0 0) * (← lu.get 1 1) * (← lu.get 2 2) * (← lu.get 3 3)
    pure (lu, det, indx)) := rfl

theorem M55.lu_gen (A : Mat 5 T) : M55.lu A = (do
    let (big, vv) ← luScale A 0 V5.zero
    let (_, lu, d, _, indx) ← forRange 0 5 (big, A, 1, vv, V5.zero) (luStep RFloat.lit1em40)
    let det := d * (← lu.get 0 0) * (← lu.get 1 1) * (← lu.get 2 2) * (← lu.get 3 3) * (← lu.get 4 4)
    pure (lu, det, indx)) := rfl

theorem M66.lu_gen (A : Mat 6 T) : M66.lu A = (do
    let (big, vv) ← luScale A 0 V6.zero
    let (_, lu, d, _, indx) ← forRange 0 6 (big, A, 1, vv, V6.zero) (luStep RFloat.lit1em40)
    let det := d * (← lu.get 0 0) * (← lu.get 1 1) * (← lu.get 2 2) * (← lu.get 3 3) * (← lu.get 4 4)
      * (← lu.get 5 5)
    pure (lu, det, indx)) := rfl

end defs

section generic
variable {T : Type} {n : ℕ}

theorem luSwap_ok (k m : ℕ) (hk : k < n) (hm : m < n) (hkm : k ≠ m) (lu : Mat n T) :
    luSwap k m lu = .ok ⟨fun i j => lu (Equiv.swap ⟨k, hk⟩ ⟨m, hm⟩ i) j⟩ := by
  have hne : (⟨k, hk⟩ : Fin n) ≠ ⟨m, hm⟩ := fun h => hkm (congrArg Fin.val h)
  unfold luSwap
  obtain ⟨s, hs, hP⟩ := forRange_invariant
    (fun j (s : Mat n T) => ∀ r c : Fin n, s r c =
      if c.val < j then lu (Equiv.swap ⟨k, hk⟩ ⟨m, hm⟩ r) c else lu r c) 0 n (Nat.zero_le _) lu
    (fun j lu => do
      let temp := (← lu.get m j)
      let lu ← lu.set m j ((← lu.get k j))
      let lu ← lu.set k j (temp)
      pure lu)
    (fun r c => by rw [if_neg (Nat.not_lt_zero _)])
    (fun j s _ hj hinv => by
      refine ⟨⟨fun r c => if r = ⟨k, hk⟩ ∧ c = ⟨j, hj⟩ then s ⟨m, hm⟩ ⟨j, hj⟩
        else if r = ⟨m, hm⟩ ∧ c = ⟨j, hj⟩ then s ⟨k, hk⟩ ⟨j, hj⟩ else s r c⟩, ?_, fun r c => ?_⟩
      · simp only [Mat.get_ok _ _ _ hm hj, Mat.get_ok _ _ _ hk hj, Mat.set_ok _ _ _ hm hj,
          Mat.set_ok _ _ _ hk hj, bind, Except.bind]
      · change (if r = ⟨k, hk⟩ ∧ c = ⟨j, hj⟩ then s ⟨m, hm⟩ ⟨j, hj⟩
          else if r = ⟨m, hm⟩ ∧ c = ⟨j, hj⟩ then s ⟨k, hk⟩ ⟨j, hj⟩ else s r c) = _
        by_cases hc : c = ⟨j, hj⟩
        · subst hc
          simp only [and_true, Nat.lt_succ_self, if_true, hinv, lt_irrefl, if_false]
          by_cases h1 : r = ⟨k, hk⟩
          · rw [if_pos h1, h1, Equiv.swap_apply_left]
          · rw [if_neg h1]
            by_cases h2 : r = ⟨m, hm⟩
            · rw [if_pos h2, h2, Equiv.swap_apply_right]
            · rw [if_neg h2, Equiv.swap_apply_of_ne_of_ne h1 h2]
        · simp only [hc, and_false, if_false, hinv]
          have hcv : c.val ≠ j := fun h => hc (Fin.ext h)
          have : (c.val < j + 1) ↔ c.val < j := by omega
          simp only [this])
  rw [hs]
  congr 1
  refine Mat.ext (funext fun r => funext fun c => ?_)
  exact (hP r c).trans (if_pos c.isLt)

theorem luElim_ok [Sub T] [Mul T] [Div T] (k : ℕ) (hk : k < n) (lu : Mat n T) :
    luElim k lu = .ok ⟨fun i j => if k < i.val then
      (if j.val < k then lu i j else if j.val = k then lu i j / lu ⟨k, hk⟩ ⟨k, hk⟩
        else lu i j - lu i ⟨k, hk⟩ / lu ⟨k, hk⟩ ⟨k, hk⟩ * lu ⟨k, hk⟩ j)
      else lu i j⟩ := by
  unfold luElim
  obtain ⟨s, hs, hP⟩ := forRange_invariant
    (fun i (s : Mat n T) => ∀ r c : Fin n, s r c = if k < r.val ∧ r.val < i then
      (if c.val < k then lu r c else if c.val = k then lu r c / lu ⟨k, hk⟩ ⟨k, hk⟩
        else lu r c - lu r ⟨k, hk⟩ / lu ⟨k, hk⟩ ⟨k, hk⟩ * lu ⟨k, hk⟩ c)
      else lu r c) (k + 1) n hk lu
    (fun i lu => do
      let lu ← lu.set i k ((← lu.get i k) / (← lu.get k k))
      let lu ← forRange (k + 1) n lu fun j lu => do
        let lu ← lu.set i j ((← lu.get i j) - (← lu.get i k) * (← lu.get k j))
        pure lu
      pure lu)
    (fun r c => by rw [if_neg (by omega)])
    (fun i s hki hi hinv => by
      obtain ⟨p, hp⟩ : ∃ p, p = lu ⟨k, hk⟩ ⟨k, hk⟩ := ⟨_, rfl⟩
      have hik : ((⟨i, hi⟩ : Fin n)) ≠ ⟨k, hk⟩ := fun h => by have := congrArg Fin.val h; simp at this; omega
      have hrow (c : Fin n) : s ⟨i, hi⟩ c = lu ⟨i, hi⟩ c := by
        rw [hinv, if_neg (by simp)]
      have hrowk (c : Fin n) : s ⟨k, hk⟩ c = lu ⟨k, hk⟩ c := by
        rw [hinv, if_neg (by simp)]
      obtain ⟨s1, hs1⟩ : ∃ s1 : Mat n T, s1 = ⟨fun r c => if r = ⟨i, hi⟩ ∧ c = ⟨k, hk⟩ then
        lu ⟨i, hi⟩ ⟨k, hk⟩ / p else s r c⟩ := ⟨_, rfl⟩
      have hs1v (r c : Fin n) : s1 r c = if r = ⟨i, hi⟩ ∧ c = ⟨k, hk⟩ then
        lu ⟨i, hi⟩ ⟨k, hk⟩ / p else s r c := by rw [hs1]
      obtain ⟨s2, hs2, hP2⟩ := forRange_invariant
        (fun j (t : Mat n T) => ∀ r c : Fin n, t r c = if r = ⟨i, hi⟩ ∧ k < c.val ∧ c.val < j then
          lu ⟨i, hi⟩ c - lu ⟨i, hi⟩ ⟨k, hk⟩ / p * lu ⟨k, hk⟩ c else s1 r c) (k + 1) n hk s1
        (fun j lu => do
          let lu ← lu.set i j ((← lu.get i j) - (← lu.get i k) * (← lu.get k j))
          pure lu)
        (fun r c => by rw [if_neg (by omega)])
        (fun j t hkj hj hinvt => by
          have e1 : t ⟨i, hi⟩ ⟨j, hj⟩ = lu ⟨i, hi⟩ ⟨j, hj⟩ := by
            rw [hinvt, if_neg (by simp), hs1v, if_neg (fun h => by
              have := congrArg Fin.val h.2; simp at this; omega), hrow]
          have e2 : t ⟨i, hi⟩ ⟨k, hk⟩ = lu ⟨i, hi⟩ ⟨k, hk⟩ / p := by
            rw [hinvt, if_neg (by simp), hs1v, if_pos ⟨rfl, rfl⟩]
          have e3 : t ⟨k, hk⟩ ⟨j, hj⟩ = lu ⟨k, hk⟩ ⟨j, hj⟩ := by
            rw [hinvt, if_neg (fun h => hik h.1.symm), hs1v, if_neg (fun h => hik h.1.symm), hrowk]
          refine ⟨⟨fun r c => if r = ⟨i, hi⟩ ∧ c = ⟨j, hj⟩ then
            t ⟨i, hi⟩ ⟨j, hj⟩ - t ⟨i, hi⟩ ⟨k, hk⟩ * t ⟨k, hk⟩ ⟨j, hj⟩ else t r c⟩, ?_, fun r c => ?_⟩
          · simp only [Mat.get_ok _ _ _ hi hj, Mat.get_ok _ _ _ hi hk, Mat.get_ok _ _ _ hk hj,
              Mat.set_ok _ _ _ hi hj, bind, Except.bind]
          · change (if r = ⟨i, hi⟩ ∧ c = ⟨j, hj⟩ then
              t ⟨i, hi⟩ ⟨j, hj⟩ - t ⟨i, hi⟩ ⟨k, hk⟩ * t ⟨k, hk⟩ ⟨j, hj⟩ else t r c) = _
            by_cases hc : r = ⟨i, hi⟩ ∧ c = ⟨j, hj⟩
            · rw [if_pos hc, if_pos ⟨hc.1, by rw [hc.2]; exact hkj, by rw [hc.2]; exact Nat.lt_succ_self _⟩,
                e1, e2, e3, hc.2]
            · rw [if_neg hc, hinvt]
              have : (r = ⟨i, hi⟩ ∧ k < c.val ∧ c.val < j + 1) ↔ (r = ⟨i, hi⟩ ∧ k < c.val ∧ c.val < j) := by
                constructor
                · rintro ⟨h1, h2, h3⟩
                  refine ⟨h1, h2, ?_⟩
                  have : c.val ≠ j := fun h => hc ⟨h1, Fin.ext h⟩
                  omega
                · rintro ⟨h1, h2, h3⟩
                  exact ⟨h1, h2, by omega⟩
              simp only [this])
      refine ⟨s2, ?_, fun r c => ?_⟩
      · simp only [Mat.get_ok _ _ _ hi hk, Mat.get_ok _ _ _ hk hk, Mat.set_ok _ _ _ hi hk, bind,
          Except.bind] at hs2 ⊢
        have : s1 = ⟨fun r c => if r = ⟨i, hi⟩ ∧ c = ⟨k, hk⟩ then
            s.val ⟨i, hi⟩ ⟨k, hk⟩ / s.val ⟨k, hk⟩ ⟨k, hk⟩ else s.val r c⟩ := by
          rw [hs1, hrow, hrowk, hp]
        rw [← this, hs2]
      · rw [hP2, hs1v]
        by_cases hr : r = ⟨i, hi⟩
        · subst hr
          have h1 : k < i ∧ i < i + 1 := ⟨by omega, by omega⟩
          simp only [true_and, h1, and_self, if_true, c.isLt, and_true, hrow, ← hp]
          by_cases hc : c = ⟨k, hk⟩
          · subst hc
            simp
          · have hcv : c.val ≠ k := fun h => hc (Fin.ext h)
            by_cases hlt : k < c.val
            · have : ¬ c.val < k := by omega
              simp only [hlt, this, hcv, if_true, if_false]
            · have : c.val < k := by omega
              simp only [hlt, this, hc, if_true, if_false]
        · have hrv : r.val ≠ i := fun h => hr (Fin.ext h)
          simp only [hr, false_and, if_false, hinv]
          have : (k < r.val ∧ r.val < i + 1) ↔ (k < r.val ∧ r.val < i) := by omega
          simp only [this])
  rw [hs]
  congr 1
  refine Mat.ext (funext fun r => funext fun c => ?_)
  refine (hP r c).trans ?_
  simp only [r.isLt, and_true]

theorem rowSwap_eq (k m : ℕ) (hk : k < n) (hm : m < n) :
    rowSwap n k m = Equiv.swap ⟨k, hk⟩ ⟨m, hm⟩ := dif_pos ⟨hk, hm⟩

theorem rowSwap_low (k m : ℕ) (hk : k < n) (hm : m < n) (hkm : k ≤ m) (r : Fin n) (hr : r.val < k) :
    rowSwap n k m r = r := by
  rw [rowSwap_eq k m hk hm]
  refine Equiv.swap_apply_of_ne_of_ne (fun e => ?_) (fun e => ?_)
  · rw [e] at hr; exact lt_irrefl _ hr
  · rw [e] at hr; exact absurd hkm (not_le.2 hr)

theorem rowSwap_high (k m : ℕ) (hk : k < n) (hm : m < n) (hkm : k ≤ m) (r : Fin n) (hr : k ≤ r.val) :
    k ≤ (rowSwap n k m r).val := by
  by_contra hc
  have e1 := rowSwap_low k m hk hm hkm _ (not_le.1 hc)
  have e2 := (rowSwap n k m).injective e1
  rw [e2] at hc
  exact hc hr

/-- Whatever the element type, the first loop returns or panics with its own message. -/
theorem luScale_gen [Zero T] [RAbs T] [ROrd T] [RFloat T] (lu : Mat n T) (big : T) (vv : Vec n T) :
    (∃ r, luScale lu big vv = .ok r) ∨
      luScale lu big vv = .error (Panic.explicit "the matrix should be non zero") := by
  have hrow (i : ℕ) (hi : i < n) (big : T) : ∃ b, forRange 0 n big (fun j big => do
        let temp := RAbs.abs (← lu.get i j)
        let big ← if ROrd.lt big temp then do
            let big := temp
            pure big
          else pure big
        pure big) = .ok b := by
    obtain ⟨b, hb, -⟩ := forRange_invariant (fun _ _ => True) 0 n (Nat.zero_le _) big (fun j big => do
        let temp := RAbs.abs (← lu.get i j)
        let big ← if ROrd.lt big temp then do
            let big := temp
            pure big
          else pure big
        pure big) trivial (fun j b _ hj _ => by
      rw [Mat.get_ok _ _ _ hi hj]
      by_cases hlt : ROrd.lt b (RAbs.abs (lu.val ⟨i, hi⟩ ⟨j, hj⟩)) = true
      · refine ⟨RAbs.abs (lu.val ⟨i, hi⟩ ⟨j, hj⟩), ?_, trivial⟩
        simp only [hlt, if_true, bind, Except.bind, pure, Except.pure]
      · refine ⟨b, ?_, trivial⟩
        simp only [hlt, Bool.false_eq_true, if_false, bind, Except.bind, pure, Except.pure])
    exact ⟨b, hb⟩
  have key : ∀ d lo, lo + d = n → ∀ (s : T × Vec n T),
      (∃ r, forRange lo n s (fun i (big, vv) => do
        let big ← forRange 0 n big fun j big => do
          let temp := RAbs.abs (← lu.get i j)
          let big ← if ROrd.lt big temp then do
              let big := temp
              pure big
            else pure big
          pure big
        if ROrd.beq big 0 then do
          throw (Panic.explicit "the matrix should be non zero")
        let vv ← vv.set i (RFloat.recip big)
        pure (big, vv)) = .ok r) ∨ forRange lo n s (fun i (big, vv) => do
        let big ← forRange 0 n big fun j big => do
          let temp := RAbs.abs (← lu.get i j)
          let big ← if ROrd.lt big temp then do
              let big := temp
              pure big
            else pure big
          pure big
        if ROrd.beq big 0 then do
          throw (Panic.explicit "the matrix should be non zero")
        let vv ← vv.set i (RFloat.recip big)
        pure (big, vv)) = .error (Panic.explicit "the matrix should be non zero") := by
    intro d
    induction d with
    | zero => exact fun lo h s => Or.inl ⟨s, forRange_self _ _ (by omega) _ _⟩
    | succ d ih =>
      intro lo h s
      obtain ⟨big, vv⟩ := s
      have hlo : lo < n := by omega
      rw [forRange_step _ _ hlo]
      dsimp only
      obtain ⟨b, hb⟩ := hrow lo hlo big
      rw [hb]
      by_cases hz : ROrd.beq b 0 = true
      · right
        simp only [bind, Except.bind, hz, if_true]
        rfl
      · simp only [bind, Except.bind, hz, Bool.false_eq_true, if_false, pure, Except.pure,
          Vec.set_ok _ _ hlo]
        exact ih (lo + 1) (by omega) _
  exact key n 0 (by omega) (big, vv)

/-- Whatever the element type, the pivot row is in range. -/
theorem luPivot_gen [Zero T] [Mul T] [RAbs T] [ROrd T] (k : ℕ) (hk : k < n) (lu : Mat n T)
    (vv : Vec n T) : ∃ big m, luPivot k lu vv = .ok (big, m) ∧ k ≤ m ∧ m < n := by
  obtain ⟨⟨big, m⟩, hs, hP⟩ := forRange_invariant
    (fun _ (s : T × ℕ) => k ≤ s.2 ∧ s.2 < n) k n hk.le ((0 : T), k)
    (fun i (big, i_max) => do
      let temp := (← vv.get i) * RAbs.abs (← lu.get i k)
      let (big, i_max) ← if ROrd.lt big temp then do
          let big := temp
          let i_max := i
          pure (big, i_max)
        else pure (big, i_max)
      pure (big, i_max))
    ⟨le_rfl, hk⟩
    (fun i s hki hi hinv => by
      obtain ⟨b, m⟩ := s
      rw [Vec.get_ok _ _ hi, Mat.get_ok _ _ _ hi hk]
      by_cases hlt : ROrd.lt b (vv.val ⟨i, hi⟩ * RAbs.abs (lu.val ⟨i, hi⟩ ⟨k, hk⟩)) = true
      · refine ⟨(vv.val ⟨i, hi⟩ * RAbs.abs (lu.val ⟨i, hi⟩ ⟨k, hk⟩), i), ?_, hki, hi⟩
        simp only [hlt, if_true, bind, Except.bind, pure, Except.pure]
      · refine ⟨(b, m), ?_, hinv⟩
        simp only [hlt, Bool.false_eq_true, if_false, bind, Except.bind, pure, Except.pure])
  exact ⟨big, m, hs, hP⟩

/-- One step, whatever the element type: swap, replace a pivot that compares equal to 0, eliminate. -/
theorem luStep_gen [Sub T] [Mul T] [Div T] [Neg T] [Zero T] [RAbs T] [ROrd T]
    (tiny : T) (k : ℕ) (hk : k < n) (b d : T) (M : Mat n T) (vv : Vec n T) (indx : Vec n ℕ) :
    ∃ m b' vv', m < n ∧ k ≤ m ∧
      (∃ M1 M2 M3 : Mat n T, (∀ i j, M1 i j = M (rowSwap n k m i) j) ∧
        (∀ i j, M2 i j = if i = ⟨k, hk⟩ ∧ j = ⟨k, hk⟩ then
          (if ROrd.beq (M1 ⟨k, hk⟩ ⟨k, hk⟩) 0 then tiny else M1 ⟨k, hk⟩ ⟨k, hk⟩) else M1 i j) ∧
        (∀ i j, M3 i j = if k < i.val then
          (if j.val < k then M2 i j else if j.val = k then M2 i j / M2 ⟨k, hk⟩ ⟨k, hk⟩
            else M2 i j - M2 i ⟨k, hk⟩ / M2 ⟨k, hk⟩ ⟨k, hk⟩ * M2 ⟨k, hk⟩ j) else M2 i j) ∧
        luStep tiny k (b, M, d, vv, indx) = .ok (b', M3, (if k = m then d else -d), vv',
          ⟨fun i => if i = ⟨k, hk⟩ then m else indx.val i⟩)) := by
  obtain ⟨b', m, hpiv, hkm, hm⟩ := luPivot_gen k hk M vv
  obtain ⟨M1, hM1⟩ : ∃ M1 : Mat n T, M1 = ⟨fun i j => M (rowSwap n k m i) j⟩ := ⟨_, rfl⟩
  have hM1v (i j) : M1 i j = M (rowSwap n k m i) j := by rw [hM1]
  obtain ⟨p, hp⟩ : ∃ p : T, p = if ROrd.beq (M1 ⟨k, hk⟩ ⟨k, hk⟩) 0 then tiny else
    M1 ⟨k, hk⟩ ⟨k, hk⟩ := ⟨_, rfl⟩
  obtain ⟨M2, hM2⟩ : ∃ M2 : Mat n T, M2 = ⟨fun i j => if i = ⟨k, hk⟩ ∧ j = ⟨k, hk⟩ then p else
    M1.val i j⟩ := ⟨_, rfl⟩
  have hidx : indx.set k m = .ok ⟨fun i => if i = ⟨k, hk⟩ then m else indx.val i⟩ :=
    Vec.set_ok _ _ hk _
  have hM2z (hz : ROrd.beq (M1 ⟨k, hk⟩ ⟨k, hk⟩) 0 = true) : M1.set k k tiny = .ok M2 := by
    rw [Mat.set_ok _ _ _ hk hk, hM2, hp, if_pos hz]
  have hM2n (hz : ¬ ROrd.beq (M1 ⟨k, hk⟩ ⟨k, hk⟩) 0 = true) : M2 = M1 := by
    rw [hM2]
    refine Mat.ext (funext fun r => funext fun c => ?_)
    change (if r = ⟨k, hk⟩ ∧ c = ⟨k, hk⟩ then p else M1.val r c) = _
    split
    · rename_i h
      rw [hp, if_neg hz, h.1, h.2]
    · rfl
  obtain ⟨M3, hM3⟩ : ∃ M3 : Mat n T, M3 = ⟨fun i j => if k < i.val then
      (if j.val < k then M2 i j else if j.val = k then M2 i j / M2 ⟨k, hk⟩ ⟨k, hk⟩
        else M2 i j - M2 i ⟨k, hk⟩ / M2 ⟨k, hk⟩ ⟨k, hk⟩ * M2 ⟨k, hk⟩ j)
      else M2 i j⟩ := ⟨_, rfl⟩
  have hel : luElim k M2 = .ok M3 := by rw [luElim_ok k hk, hM3]
  have hM2v (i j) : M2 i j = if i = ⟨k, hk⟩ ∧ j = ⟨k, hk⟩ then
      (if ROrd.beq (M1 ⟨k, hk⟩ ⟨k, hk⟩) 0 then tiny else M1 ⟨k, hk⟩ ⟨k, hk⟩) else M1 i j := by
    rw [hM2, hp]
  refine ⟨m, b', ?_⟩
  by_cases heq : k = m
  · subst heq
    have h1 : rowSwap n k k = 1 := by rw [rowSwap_eq k k hk hk, Equiv.swap_self]; rfl
    have hMM : M1 = M := by rw [hM1, h1]; rfl
    refine ⟨vv, hk, le_rfl, M1, M2, M3, hM1v, hM2v, fun i j => by rw [hM3], ?_⟩
    rw [if_pos rfl]
    unfold luStep
    dsimp only
    rw [hpiv, ← hMM]
    simp only [bind, Except.bind, ne_eq, not_true_eq_false, if_false, pure, Except.pure, hidx,
      Mat.get_ok _ _ _ hk hk]
    by_cases hz : ROrd.beq (M1 ⟨k, hk⟩ ⟨k, hk⟩) 0 = true
    · simp only [hz, if_true, hM2z hz, hel]
    · rw [hM2n hz] at hel
      simp only [hz, Bool.false_eq_true, if_false, hel]
  · have hsw : luSwap k m M = .ok M1 := by rw [luSwap_ok k m hk hm heq, hM1, rowSwap_eq k m hk hm]
    refine ⟨⟨fun i => if i = ⟨m, hm⟩ then vv ⟨k, hk⟩ else vv.val i⟩, hm, hkm, M1, M2, M3,
      hM1v, hM2v, fun i j => by rw [hM3], ?_⟩
    rw [if_neg heq]
    unfold luStep
    dsimp only
    rw [hpiv]
    simp only [bind, Except.bind, ne_eq, heq, not_false_eq_true, if_true, hsw, Vec.get_ok _ _ hk,
      Vec.set_ok _ _ hm, pure, Except.pure, hidx, Mat.get_ok _ _ _ hk hk]
    by_cases hz : ROrd.beq (M1 ⟨k, hk⟩ ⟨k, hk⟩) 0 = true
    · simp only [hz, if_true, hM2z hz, hel]
    · rw [hM2n hz] at hel
      simp only [hz, Bool.false_eq_true, if_false, hel]

end generic

section exact
variable [P : RealParams] {n : ℕ}

omit P in
private theorem row_max (lu : Mat n ℝ) (i : ℕ) (hi : i < n) (big : ℝ) (h0 : 0 ≤ big) :
    ∃ b, forRange 0 n big (fun j big => do
        let temp := RAbs.abs (← lu.get i j)
        let big ← if ROrd.lt big temp then do
            let big := temp
            pure big
          else pure big
        pure big) = .ok b ∧ 0 ≤ b ∧ (b = 0 ↔ big = 0 ∧ ∀ c, lu ⟨i, hi⟩ c = 0) := by
  obtain ⟨b, hb, hb0, hP⟩ := forRange_invariant
    (fun j (b : ℝ) => 0 ≤ b ∧ (b = 0 ↔ big = 0 ∧ ∀ c : Fin n, c.val < j → lu ⟨i, hi⟩ c = 0)) 0 n
    (Nat.zero_le _) big (fun j big => do
        let temp := RAbs.abs (← lu.get i j)
        let big ← if ROrd.lt big temp then do
            let big := temp
            pure big
          else pure big
        pure big)
    ⟨h0, fun h => ⟨h, fun c hc => absurd hc (Nat.not_lt_zero _)⟩, fun h => h.1⟩
    (fun j b _ hj hinv => by
      rw [Mat.get_ok _ _ _ hi hj]
      by_cases hlt : b < |lu ⟨i, hi⟩ ⟨j, hj⟩|
      · refine ⟨|lu ⟨i, hi⟩ ⟨j, hj⟩|, ?_, abs_nonneg _, ?_⟩
        · simp only [rabs_abs, rord_lt, hlt, decide_true, if_true, bind, Except.bind, pure, Except.pure]
        · constructor
          · intro h
            rw [h] at hlt
            exact absurd hinv.1 (not_le.2 hlt)
          · intro h
            exact abs_eq_zero.2 (h.2 ⟨j, hj⟩ (Nat.lt_succ_self _))
      · refine ⟨b, ?_, hinv.1, ?_⟩
        · simp only [rabs_abs, rord_lt, hlt, decide_false, Bool.false_eq_true, if_false, bind,
            Except.bind, pure, Except.pure]
        · rw [hinv.2]
          constructor
          · rintro ⟨h1, h2⟩
            refine ⟨h1, fun c hc => ?_⟩
            rcases Nat.lt_succ_iff_lt_or_eq.1 hc with h | h
            · exact h2 c h
            · have : c = ⟨j, hj⟩ := Fin.ext h
              rw [this]
              have hb0 : b = 0 := hinv.2.2 ⟨h1, h2⟩
              rw [hb0] at hlt
              exact abs_eq_zero.1 (le_antisymm (not_lt.1 hlt) (abs_nonneg _))
          · rintro ⟨h1, h2⟩
            exact ⟨h1, fun c hc => h2 c (Nat.lt_succ_of_lt hc)⟩)
  refine ⟨b, hb, hb0, hP.trans ?_⟩
  exact ⟨fun h => ⟨h.1, fun c => h.2 c c.isLt⟩, fun h => ⟨h.1, fun c _ => h.2 c⟩⟩

/-- The first loop succeeds iff the first row is not zero; then all scale factors are positive. -/
theorem luScale_ok (lu : Mat n ℝ) (vv : Vec n ℝ) (hn : 0 < n) (h : ∃ c, lu ⟨0, hn⟩ c ≠ 0) :
    ∃ big vv', luScale lu 0 vv = .ok (big, vv') ∧ ∀ i, 0 < vv' i := by
  obtain ⟨⟨big, vv'⟩, hs, -, -, hP⟩ := forRange_invariant
    (fun i (s : ℝ × Vec n ℝ) => 0 ≤ s.1 ∧ (0 < i → s.1 ≠ 0) ∧ ∀ r : Fin n, r.val < i → 0 < s.2 r) 0 n
    (Nat.zero_le _) ((0 : ℝ), vv)
    (fun i (big, vv) => do
      let big ← forRange 0 n big fun j big => do
        let temp := RAbs.abs (← lu.get i j)
        let big ← if ROrd.lt big temp then do
            let big := temp
            pure big
          else pure big
        pure big
      if ROrd.beq big 0 then do
        throw (Panic.explicit "the matrix should be non zero")
      let vv ← vv.set i (RFloat.recip big)
      pure (big, vv))
    ⟨le_rfl, fun h => absurd h (lt_irrefl _), fun r hr => absurd hr (Nat.not_lt_zero _)⟩
    (fun i s _ hi hinv => by
      obtain ⟨big, vv⟩ := s
      obtain ⟨b, hb, hb0, hbz⟩ := row_max lu i hi big hinv.1
      have hne : b ≠ 0 := by
        intro hz
        obtain ⟨h1, h2⟩ := hbz.1 hz
        rcases Nat.eq_zero_or_pos i with h0 | h0
        · subst h0
          obtain ⟨c, hc⟩ := h
          exact hc (h2 c)
        · exact hinv.2.1 h0 h1
      refine ⟨(b, ⟨fun k => if k = ⟨i, hi⟩ then b⁻¹ else vv.val k⟩), ?_, hb0, fun _ => hne,
        fun r hr => ?_⟩
      · dsimp only
        rw [hb]
        simp only [bind, Except.bind, pure, Except.pure, rord_beq, hne, decide_false,
          Bool.false_eq_true, if_false, Vec.set_ok _ _ hi, rfloat_recip]
      · change 0 < if r = ⟨i, hi⟩ then b⁻¹ else vv.val r
        split
        · exact inv_pos.2 (lt_of_le_of_ne hb0 (Ne.symm hne))
        · rename_i hri
          refine hinv.2.2 r ?_
          have : r.val ≠ i := fun h => hri (Fin.ext h)
          omega)
  exact ⟨big, vv', hs, fun i => hP i i.isLt⟩

theorem luScale_panic (lu : Mat n ℝ) (vv : Vec n ℝ) (hn : 0 < n) (h : ∀ c, lu ⟨0, hn⟩ c = 0) :
    luScale lu 0 vv = .error (Panic.explicit "the matrix should be non zero") := by
  obtain ⟨b, hb, -, hbz⟩ := row_max lu 0 hn 0 le_rfl
  unfold luScale
  rw [forRange_step _ _ hn]
  dsimp only
  rw [hb, hbz.2 ⟨rfl, h⟩]
  simp only [bind, Except.bind, rord_beq, decide_true, if_true]
  rfl

omit P in
/-- The pivot row: in range, and its entry in column `k` is zero only if all candidates are. -/
theorem luPivot_ok (k : ℕ) (hk : k < n) (lu : Mat n ℝ) (vv : Vec n ℝ) (hv : ∀ i, 0 < vv i) :
    ∃ big m, ∃ hm : m < n, luPivot k lu vv = .ok (big, m) ∧ k ≤ m ∧
      ((∀ r : Fin n, k ≤ r.val → lu r ⟨k, hk⟩ = 0) ∨ lu ⟨m, hm⟩ ⟨k, hk⟩ ≠ 0) := by
  obtain ⟨⟨big, m⟩, hs, hP⟩ := forRange_invariant
    (fun i (s : ℝ × ℕ) => 0 ≤ s.1 ∧ k ≤ s.2 ∧ ∃ hm : s.2 < n,
      ((s.1 = 0 ∧ ∀ r : Fin n, k ≤ r.val → r.val < i → lu r ⟨k, hk⟩ = 0) ∨
        lu ⟨s.2, hm⟩ ⟨k, hk⟩ ≠ 0)) k n hk.le ((0 : ℝ), k)
    (fun i (big, i_max) => do
      let temp := (← vv.get i) * RAbs.abs (← lu.get i k)
      let (big, i_max) ← if ROrd.lt big temp then do
          let big := temp
          let i_max := i
          pure (big, i_max)
        else pure (big, i_max)
      pure (big, i_max))
    ⟨le_rfl, le_rfl, hk, Or.inl ⟨rfl, fun r h1 h2 => absurd h1 (not_le.2 h2)⟩⟩
    (fun i s hki hi hinv => by
      obtain ⟨b, m⟩ := s
      obtain ⟨hb0, hkm, hm, hor⟩ := hinv
      rw [Vec.get_ok _ _ hi, Mat.get_ok _ _ _ hi hk]
      by_cases hlt : b < vv ⟨i, hi⟩ * |lu ⟨i, hi⟩ ⟨k, hk⟩|
      · refine ⟨(vv ⟨i, hi⟩ * |lu ⟨i, hi⟩ ⟨k, hk⟩|, i), ?_, ?_, hki, hi, Or.inr ?_⟩
        · simp only [rabs_abs, rord_lt, hlt, decide_true, if_true, bind, Except.bind, pure, Except.pure]
        · exact mul_nonneg (hv _).le (abs_nonneg _)
        · intro h
          rw [h, abs_zero, mul_zero] at hlt
          exact absurd hb0 (not_le.2 hlt)
      · refine ⟨(b, m), ?_, hb0, hkm, hm, ?_⟩
        · simp only [rabs_abs, rord_lt, hlt, decide_false, Bool.false_eq_true, if_false, bind,
            Except.bind, pure, Except.pure]
        · rcases hor with ⟨h1, h2⟩ | h
          · refine Or.inl ⟨h1, fun r hr1 hr2 => ?_⟩
            rcases Nat.lt_succ_iff_lt_or_eq.1 hr2 with h | h
            · exact h2 r hr1 h
            · have : r = ⟨i, hi⟩ := Fin.ext h
              rw [this]
              change b = 0 at h1
              rw [h1] at hlt
              have h3 : vv ⟨i, hi⟩ * |lu ⟨i, hi⟩ ⟨k, hk⟩| = 0 :=
                le_antisymm (not_lt.1 hlt) (mul_nonneg (hv _).le (abs_nonneg _))
              rcases mul_eq_zero.1 h3 with h4 | h4
              · exact absurd h4 (hv _).ne'
              · exact abs_eq_zero.1 h4
          · exact Or.inr h)
  obtain ⟨-, hkm, hm, hor⟩ := hP
  refine ⟨big, m, hm, hs, hkm, ?_⟩
  rcases hor with ⟨-, h⟩ | h
  · exact Or.inl fun r hr => h r hr r.isLt
  · exact Or.inr h

/-- One step: swap, replace a zero pivot, eliminate. -/
theorem luStep_ok (k : ℕ) (hk : k < n) (b d : ℝ) (M : Mat n ℝ) (vv : Vec n ℝ) (indx : Vec n ℕ)
    (hv : ∀ i, 0 < vv i) :
    ∃ m b' vv' p, m < n ∧ k ≤ m ∧ (∀ i, 0 < vv' i) ∧
      (∃ M1 M2 M3 : Mat n ℝ, (∀ i j, M1 i j = M (rowSwap n k m i) j) ∧
        ((M1 ⟨k, hk⟩ ⟨k, hk⟩ ≠ 0 ∧ p = M1 ⟨k, hk⟩ ⟨k, hk⟩) ∨
          (p = P.tiny ∧ ∀ r : Fin n, k ≤ r.val → M1 r ⟨k, hk⟩ = 0)) ∧
        (∀ i j, M2 i j = if i = ⟨k, hk⟩ ∧ j = ⟨k, hk⟩ then p else M1 i j) ∧
        (∀ i j, M3 i j = if k < i.val then
          (if j.val < k then M2 i j else if j.val = k then M2 i j / p
            else M2 i j - M2 i ⟨k, hk⟩ / p * M2 ⟨k, hk⟩ j) else M2 i j) ∧
        luStep RFloat.lit1em40 k (b, M, d, vv, indx) = .ok (b', M3,
          d * ((Equiv.Perm.sign (rowSwap n k m) : ℤ) : ℝ), vv',
          ⟨fun i => if i = ⟨k, hk⟩ then m else indx.val i⟩)) := by
  obtain ⟨b', m, hm, hpiv, hkm, hor⟩ := luPivot_ok k hk M vv hv
  obtain ⟨M1, hM1⟩ : ∃ M1 : Mat n ℝ, M1 = ⟨fun i j => M (rowSwap n k m i) j⟩ := ⟨_, rfl⟩
  have hM1v (i j) : M1 i j = M (rowSwap n k m i) j := by rw [hM1]
  have h11 : M1 ⟨k, hk⟩ ⟨k, hk⟩ = M ⟨m, hm⟩ ⟨k, hk⟩ := by
    rw [hM1v, rowSwap_eq k m hk hm, Equiv.swap_apply_left]
  obtain ⟨p, hp⟩ : ∃ p : ℝ, p = if M1 ⟨k, hk⟩ ⟨k, hk⟩ = 0 then P.tiny else M1 ⟨k, hk⟩ ⟨k, hk⟩ :=
    ⟨_, rfl⟩
  obtain ⟨M2, hM2⟩ : ∃ M2 : Mat n ℝ, M2 = ⟨fun i j => if i = ⟨k, hk⟩ ∧ j = ⟨k, hk⟩ then p else
    M1.val i j⟩ := ⟨_, rfl⟩
  have hM2k : M2 ⟨k, hk⟩ ⟨k, hk⟩ = p := by rw [hM2]; exact if_pos ⟨rfl, rfl⟩
  have hidx : indx.set k m = .ok ⟨fun i => if i = ⟨k, hk⟩ then m else indx.val i⟩ :=
    Vec.set_ok _ _ hk _
  have hM2z (hz : M1 ⟨k, hk⟩ ⟨k, hk⟩ = 0) : M1.set k k (RFloat.lit1em40 : ℝ) = .ok M2 := by
    rw [Mat.set_ok _ _ _ hk hk, hM2, hp, if_pos hz]
    rfl
  have hM2n (hz : M1 ⟨k, hk⟩ ⟨k, hk⟩ ≠ 0) : M2 = M1 := by
    rw [hM2]
    refine Mat.ext (funext fun r => funext fun c => ?_)
    change (if r = ⟨k, hk⟩ ∧ c = ⟨k, hk⟩ then p else M1.val r c) = _
    split
    · rename_i h
      rw [hp, if_neg hz, h.1, h.2]
    · rfl
  obtain ⟨M3, hM3⟩ : ∃ M3 : Mat n ℝ, M3 = ⟨fun i j => if k < i.val then
      (if j.val < k then M2 i j else if j.val = k then M2 i j / M2 ⟨k, hk⟩ ⟨k, hk⟩
        else M2 i j - M2 i ⟨k, hk⟩ / M2 ⟨k, hk⟩ ⟨k, hk⟩ * M2 ⟨k, hk⟩ j)
      else M2 i j⟩ := ⟨_, rfl⟩
  have hel : luElim k M2 = .ok M3 := by rw [luElim_ok k hk, hM3]
  have hM3v (i j) : M3 i j = if k < i.val then
          (if j.val < k then M2 i j else if j.val = k then M2 i j / p
            else M2 i j - M2 i ⟨k, hk⟩ / p * M2 ⟨k, hk⟩ j) else M2 i j := by
    rw [hM3, ← hM2k]
  refine ⟨m, b', ?_⟩
  have hrest : (M1 ⟨k, hk⟩ ⟨k, hk⟩ ≠ 0 ∧ p = M1 ⟨k, hk⟩ ⟨k, hk⟩) ∨
          (p = P.tiny ∧ ∀ r : Fin n, k ≤ r.val → M1 r ⟨k, hk⟩ = 0) := by
    by_cases hz : M1 ⟨k, hk⟩ ⟨k, hk⟩ = 0
    · refine Or.inr ⟨by rw [hp, if_pos hz], fun r hr => ?_⟩
      rcases hor with h | h
      · rw [hM1v]
        refine h _ ?_
        rw [rowSwap_eq k m hk hm]
        by_cases h1 : r = ⟨k, hk⟩
        · rw [h1, Equiv.swap_apply_left]; exact hkm
        · by_cases h2 : r = ⟨m, hm⟩
          · rw [h2, Equiv.swap_apply_right]
          · rw [Equiv.swap_apply_of_ne_of_ne h1 h2]; exact hr
      · exact absurd (h11 ▸ hz) h
    · exact Or.inl ⟨hz, by rw [hp, if_neg hz]⟩
  by_cases heq : k = m
  · subst heq
    have h1 : rowSwap n k k = 1 := by rw [rowSwap_eq k k hk hk, Equiv.swap_self]; rfl
    have hMM : M1 = M := by rw [hM1, h1]; rfl
    refine ⟨vv, p, hk, le_rfl, hv, M1, M2, M3, hM1v, hrest, fun i j => by rw [hM2], hM3v, ?_⟩
    rw [h1, Equiv.Perm.sign_one]
    simp only [Units.val_one, Int.cast_one, mul_one]
    unfold luStep
    dsimp only
    rw [hpiv, ← hMM]
    simp only [bind, Except.bind, ne_eq, not_true_eq_false, if_false, pure, Except.pure, hidx,
      Mat.get_ok _ _ _ hk hk, rord_beq]
    by_cases hz : M1 ⟨k, hk⟩ ⟨k, hk⟩ = 0
    · simp only [hz, decide_true, if_true, hM2z hz, hel]
    · rw [hM2n hz] at hel
      simp only [hz, decide_false, Bool.false_eq_true, if_false, hel]
  · have hne : (⟨k, hk⟩ : Fin n) ≠ ⟨m, hm⟩ := fun h => heq (congrArg Fin.val h)
    have hsw : luSwap k m M = .ok M1 := by rw [luSwap_ok k m hk hm heq, hM1, rowSwap_eq k m hk hm]
    refine ⟨⟨fun i => if i = ⟨m, hm⟩ then vv ⟨k, hk⟩ else vv.val i⟩, p, hm, hkm, fun i => ?_, M1, M2, M3,
      hM1v, hrest, fun i j => by rw [hM2], hM3v, ?_⟩
    · change 0 < if i = ⟨m, hm⟩ then vv ⟨k, hk⟩ else vv.val i
      split
      · exact hv _
      · exact hv _
    rw [rowSwap_eq k m hk hm, Equiv.Perm.sign_swap hne]
    simp only [Units.val_neg, Units.val_one, Int.cast_neg, Int.cast_one, mul_neg, mul_one]
    unfold luStep
    dsimp only
    rw [hpiv]
    simp only [bind, Except.bind, ne_eq, heq, not_false_eq_true, if_true, hsw, Vec.get_ok _ _ hk,
      Vec.set_ok _ _ hm, pure, Except.pure, hidx, Mat.get_ok _ _ _ hk hk, rord_beq]
    by_cases hz : M1 ⟨k, hk⟩ ⟨k, hk⟩ = 0
    · simp only [hz, decide_true, if_true, hM2z hz, hel]
    · rw [hM2n hz] at hel
      simp only [hz, decide_false, Bool.false_eq_true, if_false, hel]

/-- Unit lower factor after `k` steps. -/
noncomputable def Lk (k : ℕ) (M : Mat n ℝ) : Matrix (Fin n) (Fin n) ℝ :=
  fun i m => if i = m then 1 else if m.val < k ∧ m < i then M i m else 0

/-- Partly eliminated factor after `k` steps. -/
noncomputable def Wk (k : ℕ) (M : Mat n ℝ) : Matrix (Fin n) (Fin n) ℝ :=
  fun i j => if j.val < k ∧ j < i then 0 else M i j

/-- The product of the two, entrywise. -/
noncomputable def Fk (k : ℕ) (M : Mat n ℝ) (i j : Fin n) : ℝ :=
  (∑ m : Fin n, if m.val < k ∧ m < i ∧ m ≤ j then M i m * M m j else 0) +
    if j.val < k ∧ j < i then 0 else M i j

omit P in
theorem Lk_mul_Wk (k : ℕ) (M : Mat n ℝ) (i j : Fin n) : (Lk k M * Wk k M) i j = Fk k M i j := by
  rw [Matrix.mul_apply, Fk]
  have hterm (m : Fin n) : Lk k M i m * Wk k M m j =
      (if m.val < k ∧ m < i ∧ m ≤ j then M i m * M m j else 0) +
        (if m = i then (if j.val < k ∧ j < i then 0 else M i j) else 0) := by
    unfold Lk Wk
    by_cases h : m = i
    · subst h
      simp
    · rw [if_neg (Ne.symm h), if_neg h, add_zero]
      by_cases h1 : m.val < k ∧ m < i
      · rw [if_pos h1]
        by_cases h2 : m ≤ j
        · have e1 : m.val < k ∧ m < i ∧ m ≤ j := ⟨h1.1, h1.2, h2⟩
          have e2 : ¬ (j.val < k ∧ j < m) := fun h => absurd h2 (not_le.2 h.2)
          rw [if_pos e1, if_neg e2]
        · have e1 : ¬ (m.val < k ∧ m < i ∧ m ≤ j) := fun h => h2 h.2.2
          have e2 : j.val < k ∧ j < m := ⟨lt_trans (Fin.lt_def.1 (not_le.1 h2)) h1.1, not_le.1 h2⟩
          rw [if_neg e1, if_pos e2, mul_zero]
      · rw [if_neg h1, zero_mul, if_neg (fun h => h1 ⟨h.1, h.2.1⟩)]
  rw [Finset.sum_congr rfl (fun m _ => hterm m), Finset.sum_add_distrib]
  congr 1
  rw [Finset.sum_ite_eq' Finset.univ i]
  simp

omit P in
theorem Fk_swap (k m : ℕ) (hk : k < n) (hm : m < n) (hkm : k ≤ m) (M M1 : Mat n ℝ)
    (h : ∀ i j, M1 i j = M (rowSwap n k m i) j) (i j : Fin n) :
    Fk k M1 i j = Fk k M (rowSwap n k m i) j := by
  have hlow (r : Fin n) (hr : r.val < k) : rowSwap n k m r = r := by
    rw [rowSwap_eq k m hk hm]
    refine Equiv.swap_apply_of_ne_of_ne (fun e => ?_) (fun e => ?_)
    · rw [e] at hr; exact lt_irrefl _ hr
    · rw [e] at hr; exact absurd hkm (not_le.2 hr)
  have hhigh (r : Fin n) (hr : k ≤ r.val) : k ≤ (rowSwap n k m r).val := by
    by_contra hc
    have h1 := hlow _ (not_le.1 hc)
    have h2 := (rowSwap n k m).injective h1
    rw [h2] at hc
    exact hc hr
  have hlt (c : Fin n) (hc : c.val < k) : c < i ↔ c < rowSwap n k m i := by
    by_cases hi : i.val < k
    · rw [hlow i hi]
    · have h1 := hhigh i (not_lt.1 hi)
      rw [Fin.lt_def, Fin.lt_def]
      omega
  unfold Fk
  congr 1
  · refine Finset.sum_congr rfl fun c _ => ?_
    by_cases hc : c.val < k
    · simp only [h, hlow c hc, hlt c hc]
    · rw [if_neg (fun e => hc e.1), if_neg (fun e => hc e.1)]
  · by_cases hc : j.val < k
    · simp only [h, hlt j hc]
    · rw [if_neg (fun e => hc e.1), if_neg (fun e => hc e.1), h]

omit P in
theorem Fk_set (k : ℕ) (hk : k < n) (p : ℝ) (M1 M2 : Mat n ℝ)
    (h : ∀ i j, M2 i j = if i = ⟨k, hk⟩ ∧ j = ⟨k, hk⟩ then p else M1 i j) (i j : Fin n) :
    Fk k M2 i j = Fk k M1 i j +
      if i = j then (if i = ⟨k, hk⟩ then p - M1 ⟨k, hk⟩ ⟨k, hk⟩ else 0) else 0 := by
  have hne (c : Fin n) (hc : c.val < k) : c ≠ ⟨k, hk⟩ := fun e => by rw [e] at hc; exact lt_irrefl _ hc
  unfold Fk
  rw [add_assoc]
  congr 1
  · refine Finset.sum_congr rfl fun c _ => ?_
    by_cases hc : c.val < k
    · have e1 : ¬ (i = ⟨k, hk⟩ ∧ c = ⟨k, hk⟩) := fun e => hne c hc e.2
      have e2 : ¬ (c = ⟨k, hk⟩ ∧ j = ⟨k, hk⟩) := fun e => hne c hc e.1
      rw [h i c, h c j, if_neg e1, if_neg e2]
    · rw [if_neg (fun e => hc e.1), if_neg (fun e => hc e.1)]
  · rw [h i j]
    by_cases h1 : i = ⟨k, hk⟩ ∧ j = ⟨k, hk⟩
    · rw [h1.1, h1.2]
      simp
    · rw [if_neg h1]
      by_cases h2 : i = j
      · subst h2
        have h3 : i ≠ ⟨k, hk⟩ := fun e => h1 ⟨e, e⟩
        rw [if_neg h3]
        simp
      · rw [if_neg h2, add_zero]

omit P in
private theorem Fk_elim (k : ℕ) (hk : k < n) (p : ℝ) (hp : p ≠ 0) (M2 M3 : Mat n ℝ)
    (hkk : M2 ⟨k, hk⟩ ⟨k, hk⟩ = p)
    (h : ∀ i j, M3 i j = if k < i.val then
          (if j.val < k then M2 i j else if j.val = k then M2 i j / p
            else M2 i j - M2 i ⟨k, hk⟩ / p * M2 ⟨k, hk⟩ j) else M2 i j) (i j : Fin n) :
    Fk (k + 1) M3 i j = Fk k M2 i j := by
  have hsplit : (∑ m : Fin n, if m.val < k + 1 ∧ m < i ∧ m ≤ j then M3 i m * M3 m j else 0) =
      (∑ m : Fin n, if m.val < k ∧ m < i ∧ m ≤ j then M2 i m * M2 m j else 0) +
        if k < i.val ∧ k ≤ j.val then M2 i ⟨k, hk⟩ / p * M2 ⟨k, hk⟩ j else 0 := by
    have hterm (m : Fin n) : (if m.val < k + 1 ∧ m < i ∧ m ≤ j then M3 i m * M3 m j else 0) =
        (if m.val < k ∧ m < i ∧ m ≤ j then M2 i m * M2 m j else 0) +
        (if m = ⟨k, hk⟩ then
          (if k < i.val ∧ k ≤ j.val then M2 i ⟨k, hk⟩ / p * M2 ⟨k, hk⟩ j else 0) else 0) := by
      by_cases hm : m = ⟨k, hk⟩
      · subst hm
        have e0 : ¬ (k < k ∧ (⟨k, hk⟩ : Fin n) < i ∧ ⟨k, hk⟩ ≤ j) := fun e => absurd e.1 (lt_irrefl _)
        rw [if_pos rfl, if_neg e0, zero_add]
        by_cases hc : k < i.val ∧ k ≤ j.val
        · rw [if_pos hc, if_pos ⟨Nat.lt_succ_self _, hc.1, hc.2⟩, h i, if_pos hc.1,
            if_neg (lt_irrefl _), if_pos rfl, h ⟨k, hk⟩ j, if_neg (lt_irrefl _)]
        · rw [if_neg hc, if_neg (fun e => hc ⟨e.2.1, e.2.2⟩)]
      · rw [if_neg hm, add_zero]
        have hmv : m.val ≠ k := fun e => hm (Fin.ext e)
        by_cases hlt : m.val < k
        · have e1 : M3 i m = M2 i m := by
            rw [h i m, if_pos hlt]
            split <;> rfl
          have e2 : M3 m j = M2 m j := by
            rw [h m j, if_neg (by omega)]
          simp only [hlt, Nat.lt_succ_of_lt hlt, e1, e2]
        · have : ¬ m.val < k + 1 := by omega
          rw [if_neg (fun e => this e.1), if_neg (fun e => hlt e.1)]
    rw [Finset.sum_congr rfl (fun m _ => hterm m), Finset.sum_add_distrib, Finset.sum_ite_eq']
    simp
  unfold Fk
  rw [hsplit, add_assoc]
  congr 1
  rw [h i j]
  simp only [Fin.lt_def]
  by_cases hi : k < i.val
  · rcases lt_trichotomy j.val k with hj | hj | hj
    · have h1 : j.val < k + 1 ∧ j.val < i.val := by omega
      have h2 : j.val < k ∧ j.val < i.val := by omega
      rw [if_pos h1, if_pos h2, if_neg (by omega), add_zero]
    · have hj' : j = ⟨k, hk⟩ := Fin.ext hj
      subst hj'
      have h1 : k < k + 1 ∧ k < i.val := by omega
      have h2 : ¬ (k < k ∧ k < i.val) := by omega
      rw [if_pos h1, if_neg h2, if_pos ⟨hi, le_rfl⟩, hkk, add_zero, div_mul_cancel₀ _ hp]
    · have h1 : ¬ (j.val < k + 1 ∧ j.val < i.val) := by omega
      have h2 : ¬ (j.val < k ∧ j.val < i.val) := by omega
      rw [if_neg h1, if_neg h2, if_pos ⟨hi, hj.le⟩, if_pos hi, if_neg (by omega), if_neg (by omega)]
      ring
  · have h1 : (j.val < k + 1 ∧ j.val < i.val) ↔ (j.val < k ∧ j.val < i.val) := by omega
    rw [if_neg (fun e => hi e.1), if_neg hi, zero_add]
    simp only [h1]

omit P in
private theorem det_Lk (k : ℕ) (M : Mat n ℝ) : (Lk k M).det = 1 := by
  rw [Matrix.det_of_isLowerTriangular]
  · refine Finset.prod_eq_one fun i _ => ?_
    unfold Lk
    rw [if_pos rfl]
  · intro i j hij
    have hij' : i < j := hij
    unfold Lk
    rw [if_neg hij'.ne, if_neg (fun e => absurd e.2 (not_lt.2 hij'.le))]

omit P in
/-- A partly eliminated factor whose next column is zero from the diagonal down is singular. -/
private theorem det_Wk_zero (k : ℕ) (hk : k < n) (M : Mat n ℝ)
    (h : ∀ r : Fin n, k ≤ r.val → M r ⟨k, hk⟩ = 0) : (Wk k M).det = 0 := by
  have hbt : (Wk k M).BlockTriangular (fun i : Fin n => min i.val (k + 1)) := by
    intro i j hij
    have hij' : min j.val (k + 1) < min i.val (k + 1) := hij
    unfold Wk
    rcases lt_trichotomy j.val k with hj | hj | hj
    · rw [if_pos ⟨hj, by rw [Fin.lt_def]; omega⟩]
    · have : j = ⟨k, hk⟩ := Fin.ext hj
      subst this
      rw [h i (by simp at hij'; omega)]
      split <;> rfl
    · omega
  rw [hbt.det]
  refine Finset.prod_eq_zero (i := k) ?_ ?_
  · rw [Finset.mem_image]
    exact ⟨⟨k, hk⟩, Finset.mem_univ _, by simp⟩
  · refine Matrix.det_eq_zero_of_row_eq_zero ⟨⟨k, hk⟩, by simp⟩ fun j => ?_
    have hj : min j.val.val (k + 1) = k := j.2
    have : j.val = ⟨k, hk⟩ := Fin.ext (by change j.val.val = k; omega)
    change Wk k M ⟨k, hk⟩ j.val = 0
    rw [this]
    unfold Wk
    rw [h _ le_rfl]
    split <;> rfl

omit P in
theorem pivotPerm_congr (a b : ℕ → ℕ) (k : ℕ) (h : ∀ j, j < k → a j = b j) :
    pivotPerm n a k = pivotPerm n b k := by
  induction k with
  | zero => rfl
  | succ k ih =>
    rw [pivotPerm, pivotPerm, ih (fun j hj => h j (Nat.lt_succ_of_lt hj)), h k (Nat.lt_succ_self k)]

private def Inv (A : Mat n ℝ) (k : ℕ) (s : ℝ × Mat n ℝ × ℝ × Vec n ℝ × Vec n ℕ) : Prop :=
  (∀ i, 0 < s.2.2.2.1 i) ∧
  (∀ j : Fin n, j.val < k → j.val ≤ s.2.2.2.2 j ∧ s.2.2.2.2 j < n) ∧
  s.2.2.1 = ((Equiv.Perm.sign (pivotPerm n s.2.2.2.2.at k) : ℤ) : ℝ) ∧
  (∀ m : Fin n, m.val < k → s.2.1 m m ≠ 0) ∧
  ∃ δ : Fin n → ℝ, (∀ i, δ i = 0 ∨ δ i = P.tiny) ∧ (∀ i : Fin n, k ≤ i.val → δ i = 0) ∧
    (A.toM.det ≠ 0 → δ = 0) ∧
    ∀ i j, A (pivotPerm n s.2.2.2.2.at k i) j + (if i = j then δ i else 0) = Fk k s.2.1 i j

private theorem inv_step (A : Mat n ℝ) (k : ℕ) (hk : k < n)
    (s : ℝ × Mat n ℝ × ℝ × Vec n ℝ × Vec n ℕ) (h : Inv A k s) :
    ∃ s', luStep RFloat.lit1em40 k s = .ok s' ∧ Inv A (k + 1) s' := by
  obtain ⟨b, M, d, vv, indx⟩ := s
  obtain ⟨hv, hidx, hd, hpiv, δ, hδ, hδk, hδ0, hF⟩ := h
  dsimp only at hv hidx hd hpiv hF
  obtain ⟨m, b', vv', p, hm, hkm, hv', M1, M2, M3, h1, hp, h2, h3, hstep⟩ :=
    luStep_ok k hk b d M vv indx hv
  refine ⟨_, hstep, ?_⟩
  obtain ⟨indx', hindx'⟩ : ∃ indx' : Vec n ℕ, indx' = ⟨fun i => if i = ⟨k, hk⟩ then m else indx.val i⟩ :=
    ⟨_, rfl⟩
  rw [← hindx']
  have hi' (j : Fin n) : indx' j = if j = ⟨k, hk⟩ then m else indx j := by rw [hindx']
  have hat (j : ℕ) (hj : j < k) : indx'.at j = indx.at j := by
    unfold Vec.at
    have hjn : j < n := hj.trans hk
    rw [dif_pos hjn, dif_pos hjn, hi', if_neg (fun e => by have := congrArg Fin.val e; simp at this; omega)]
  have hatk : indx'.at k = m := by
    unfold Vec.at
    rw [dif_pos hk, hi', if_pos rfl]
  have hperm : pivotPerm n indx'.at (k + 1) = pivotPerm n indx.at k * rowSwap n k m := by
    rw [pivotPerm, hatk, pivotPerm_congr _ _ k hat]
  have hp0 : p ≠ 0 := by
    rcases hp with ⟨ha, hb⟩ | ⟨ha, -⟩
    · rw [hb]; exact ha
    · rw [ha]; exact P.tiny_pos.ne'
  have hlow (r : Fin n) (hr : r.val < k) : rowSwap n k m r = r := by
    rw [rowSwap_eq k m hk hm]
    refine Equiv.swap_apply_of_ne_of_ne (fun e => ?_) (fun e => ?_)
    · rw [e] at hr; exact lt_irrefl _ hr
    · rw [e] at hr; exact absurd hkm (not_le.2 hr)
  have hhigh (r : Fin n) (hr : k ≤ r.val) : k ≤ (rowSwap n k m r).val := by
    by_contra hc
    have e1 := hlow _ (not_le.1 hc)
    have e2 := (rowSwap n k m).injective e1
    rw [e2] at hc
    exact hc hr
  have hkk : M2 ⟨k, hk⟩ ⟨k, hk⟩ = p := by rw [h2, if_pos ⟨rfl, rfl⟩]
  -- the permuted factorisation after the swap
  have hF1 (i j : Fin n) : A ((pivotPerm n indx.at k * rowSwap n k m) i) j +
      (if i = j then δ i else 0) = Fk k M1 i j := by
    rw [Fk_swap k m hk hm hkm M M1 h1, ← hF, Equiv.Perm.mul_apply]
    congr 1
    by_cases hi : i.val < k
    · rw [hlow i hi]
    · rw [hδk i (not_lt.1 hi), hδk _ (hhigh i (not_lt.1 hi))]
      simp
  refine ⟨hv', fun j hj => ?_, ?_, fun r hr => ?_, fun i => δ i + if i = ⟨k, hk⟩ then
    p - M1 ⟨k, hk⟩ ⟨k, hk⟩ else 0, fun i => ?_, fun i hi => ?_, fun hdet => ?_, fun i j => ?_⟩
  · change j.val ≤ indx' j ∧ indx' j < n
    rw [hi']
    by_cases hjk : j = ⟨k, hk⟩
    · rw [if_pos hjk, hjk]
      exact ⟨hkm, hm⟩
    · rw [if_neg hjk]
      have : j.val ≠ k := fun e => hjk (Fin.ext e)
      exact hidx j (by omega)
  · change d * _ = ((Equiv.Perm.sign (pivotPerm n indx'.at (k + 1)) : ℤ) : ℝ)
    rw [hperm, Equiv.Perm.sign_mul, hd]
    push_cast
    rfl
  · change M3 r r ≠ 0
    rw [h3, if_neg (by omega)]
    by_cases hrk : r = ⟨k, hk⟩
    · rw [hrk, hkk]; exact hp0
    · have : r.val ≠ k := fun e => hrk (Fin.ext e)
      rw [h2, if_neg (fun e => hrk e.1), h1, hlow r (by omega)]
      exact hpiv r (by omega)
  · dsimp only
    by_cases hi : i = ⟨k, hk⟩
    · rw [if_pos hi, hδk i (by rw [hi]), zero_add]
      rcases hp with ⟨ha, hb⟩ | ⟨ha, hb⟩
      · left; rw [hb, sub_self]
      · right; rw [ha, hb _ le_rfl, sub_zero]
    · rw [if_neg hi, add_zero]; exact hδ i
  · have hi2 : k + 1 ≤ i.val := hi
    dsimp only
    rw [hδk i (by omega), if_neg (fun e => by rw [e] at hi2; simp at hi2), add_zero]
  · have hz := hδ0 hdet
    funext i
    rw [hz]
    change 0 + _ = (0 : ℝ)
    rw [zero_add]
    rcases hp with ⟨ha, hb⟩ | ⟨ha, hb⟩
    · rw [hb, sub_self, ite_self]
    · exfalso
      have hprod : A.toM.submatrix (pivotPerm n indx.at k * rowSwap n k m) id = Lk k M1 * Wk k M1 := by
        refine Matrix.ext fun i j => ?_
        rw [Lk_mul_Wk, ← hF1, hz]
        simp [Mat.toM]
      have hd' := congrArg Matrix.det hprod
      rw [Matrix.det_permute, Matrix.det_mul, det_Wk_zero k hk M1 hb, mul_zero] at hd'
      rcases mul_eq_zero.1 hd' with h | h
      · rcases Int.units_eq_one_or (Equiv.Perm.sign (pivotPerm n indx.at k * rowSwap n k m)) with e | e <;>
          rw [e] at h <;> norm_num at h
      · exact hdet h
  · change A (pivotPerm n indx'.at (k + 1) i) j + _ = Fk (k + 1) M3 i j
    rw [hperm, Fk_elim k hk p hp0 M2 M3 hkk h3, Fk_set k hk p M1 M2 h2, ← hF1]
    by_cases hij : i = j
    · rw [if_pos hij, if_pos hij, if_pos hij, add_assoc]
    · rw [if_neg hij, if_neg hij, if_neg hij, add_zero, add_zero]

omit P in
theorem Lk_full (M : Mat n ℝ) : Lk n M = M.lowerUnit := by
  refine Matrix.ext fun i j => ?_
  unfold Lk Mat.lowerUnit
  by_cases h : i = j
  · subst h; simp
  · simp [h, j.isLt]

omit P in
theorem Wk_full (M : Mat n ℝ) : Wk n M = M.upper := by
  refine Matrix.ext fun i j => ?_
  unfold Wk Mat.upper
  by_cases h : j < i
  · rw [if_pos ⟨j.isLt, h⟩, if_neg (not_le.2 h)]
  · rw [if_neg (fun e => h e.2), if_pos (not_lt.1 h)]

/-- What the main loop of `lu` computes, for every size. -/
theorem luLoop_ok (A : Mat n ℝ) (b : ℝ) (vv : Vec n ℝ) (indx : Vec n ℕ) (hv : ∀ i, 0 < vv i) :
    ∃ b' M d vv' indx', forRange 0 n (b, A, 1, vv, indx) (luStep RFloat.lit1em40) =
        .ok (b', M, d, vv', indx') ∧
      (∀ j : Fin n, j.val ≤ indx' j ∧ indx' j < n) ∧
      d = ((Equiv.Perm.sign (pivotPerm n indx'.at n) : ℤ) : ℝ) ∧ (∀ i, M i i ≠ 0) ∧
      ∃ δ : Fin n → ℝ, (∀ i, δ i = 0 ∨ δ i = P.tiny) ∧ (A.toM.det ≠ 0 ↔ δ = 0) ∧
        M.lowerUnit * M.upper =
          A.toM.submatrix (pivotPerm n indx'.at n) id + Matrix.diagonal δ := by
  obtain ⟨⟨b', M, d, vv', indx'⟩, hs, -, hidx, hd, hpiv, δ, hδ, -, hδ0, hF⟩ :=
    forRange_invariant (Inv A) 0 n (Nat.zero_le _) (b, A, 1, vv, indx) (luStep RFloat.lit1em40)
      ⟨hv, fun j hj => absurd hj (Nat.not_lt_zero _), by simp [pivotPerm],
        fun j hj => absurd hj (Nat.not_lt_zero _), 0, fun _ => Or.inl rfl, fun _ _ => rfl, fun _ => rfl,
        fun i j => by simp [Fk, pivotPerm]⟩
      (fun k s _ hk h => inv_step A k hk s h)
  dsimp only at hidx hd hpiv hF
  have hL := Lk_full M
  have hU := Wk_full M
  have hLU : M.lowerUnit * M.upper = A.toM.submatrix (pivotPerm n indx'.at n) id + Matrix.diagonal δ := by
    refine Matrix.ext fun i j => ?_
    rw [← hL, ← hU, Lk_mul_Wk, ← hF, Matrix.add_apply, Matrix.diagonal_apply]
    rfl
  refine ⟨b', M, d, vv', indx', hs, fun j => hidx j j.isLt, hd, fun i => hpiv i i.isLt, δ, hδ,
    ⟨hδ0, fun h0 hdet => ?_⟩, hLU⟩
  have hdd := congrArg Matrix.det hLU
  rw [h0, show Matrix.diagonal (0 : Fin n → ℝ) = 0 from Matrix.diagonal_zero, add_zero, Matrix.det_permute, hdet, mul_zero, Matrix.det_mul, ← hL, det_Lk,
    one_mul, Matrix.det_of_isUpperTriangular] at hdd
  · rw [Finset.prod_eq_zero_iff] at hdd
    obtain ⟨i, -, hi⟩ := hdd
    unfold Mat.upper at hi
    rw [if_pos le_rfl] at hi
    exact hpiv i i.isLt hi
  · intro i j hij
    have hij' : j < i := hij
    unfold Mat.upper
    rw [if_neg (not_le.2 hij')]

omit P in
theorem det_lowerUnit (M : Mat n ℝ) : M.lowerUnit.det = 1 := by
  rw [Matrix.det_of_isLowerTriangular]
  · refine Finset.prod_eq_one fun i _ => ?_
    unfold Mat.lowerUnit
    rw [if_neg (lt_irrefl _), if_pos rfl]
  · intro i j hij
    have hij' : i < j := hij
    unfold Mat.lowerUnit
    rw [if_neg (not_lt.2 hij'.le), if_neg hij'.ne]

omit P in
theorem det_upper (M : Mat n ℝ) : M.upper.det = ∏ i, M i i := by
  rw [Matrix.det_of_isUpperTriangular]
  · refine Finset.prod_congr rfl fun i _ => ?_
    unfold Mat.upper
    rw [if_pos le_rfl]
  · intro i j hij
    have hij' : j < i := hij
    unfold Mat.upper
    rw [if_neg (not_le.2 hij')]

/-- `lu` of any size, put together: `f` is the function, `fin` its last lines. -/
theorem lu_main (hn : 0 < n) (A : Mat n ℝ) (vv0 : Vec n ℝ) (indx0 : Vec n ℕ)
    (fin : ℝ → Mat n ℝ → Vec n ℕ → MayPanic (Mat n ℝ × ℝ × Vec n ℕ))
    (hfin : ∀ d M indx, fin d M indx = .ok (M, d * ∏ i, M i i, indx)) (h : ∃ c, A ⟨0, hn⟩ c ≠ 0) :
    ∃ M det indx, (do
        let (big, vv) ← luScale A 0 vv0
        let (_, lu, d, _, indx) ← forRange 0 n (big, A, 1, vv, indx0) (luStep RFloat.lit1em40)
        fin d lu indx) = .ok (M, det, indx) ∧
      (∀ j : Fin n, j.val ≤ indx j ∧ indx j < n) ∧ det ≠ 0 ∧
      ∃ δ : Fin n → ℝ, (∀ i, δ i = 0 ∨ δ i = P.tiny) ∧ (A.toM.det ≠ 0 ↔ δ = 0) ∧
        M.lowerUnit * M.upper =
          A.toM.submatrix (pivotPerm n indx.at n) id + Matrix.diagonal δ ∧
        det = ((Equiv.Perm.sign (pivotPerm n indx.at n) : ℤ) : ℝ) *
          (A.toM.submatrix (pivotPerm n indx.at n) id + Matrix.diagonal δ).det := by
  obtain ⟨big, vv, hs, hv⟩ := luScale_ok A vv0 hn h
  obtain ⟨b', M, d, vv', indx, hl, hi, hd, hM, δ, hδ, hδ0, hLU⟩ := luLoop_ok A big vv indx0 hv
  refine ⟨M, d * ∏ i, M i i, indx, ?_, hi, ?_, δ, hδ, hδ0, hLU, ?_⟩
  · rw [hs]
    simp only [bind, Except.bind]
    rw [hl]
    exact hfin _ _ _
  · refine mul_ne_zero ?_ (Finset.prod_ne_zero_iff.2 fun i _ => hM i)
    rw [hd]
    rcases Int.units_eq_one_or (Equiv.Perm.sign (pivotPerm n indx.at n)) with e | e <;>
      rw [e] <;> norm_num
  · rw [← hLU, Matrix.det_mul, det_lowerUnit, det_upper, one_mul, hd]

omit P in
/-- With an invertible matrix the reported determinant is the determinant. -/
theorem lu_det_eq (A : Mat n ℝ) (σ : Equiv.Perm (Fin n)) :
    ((Equiv.Perm.sign σ : ℤ) : ℝ) * (A.toM.submatrix σ id + Matrix.diagonal 0).det = A.toM.det := by
  rw [show Matrix.diagonal (0 : Fin n → ℝ) = 0 from Matrix.diagonal_zero, add_zero, Matrix.det_permute]
  rcases Int.units_eq_one_or (Equiv.Perm.sign σ) with e | e <;> rw [e] <;> norm_num

omit P in
theorem first_row_ne_zero (hn : 0 < n) (A : Mat n ℝ) (h : A.toM.det ≠ 0) : ∃ c, A ⟨0, hn⟩ c ≠ 0 := by
  by_contra hc
  push Not at hc
  exact h (Matrix.det_eq_zero_of_row_eq_zero ⟨0, hn⟩ hc)

theorem singular_iff {A : Mat n ℝ} {δ : Fin n → ℝ} (h1 : ∀ i, δ i = 0 ∨ δ i = P.tiny)
    (h2 : A.toM.det ≠ 0 ↔ δ = 0) : A.toM.det = 0 ↔ ∃ i, δ i = P.tiny := by
  constructor
  · intro h
    by_contra hc
    push Not at hc
    exact h2.2 (funext fun i => (h1 i).resolve_right (hc i)) h
  · rintro ⟨i, hi⟩
    by_contra h
    have h0 := congrFun (h2.1 h) i
    rw [hi] at h0
    exact P.tiny_pos.ne' h0

end exact

end StaticMath
