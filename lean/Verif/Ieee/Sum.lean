import Verif.Ieee.Lemmas
import Verif.Lemmas.SumOrder
import Mathlib.Algebra.BigOperators.Fin
import Mathlib.Algebra.Order.BigOperators.Group.List

/-!
# Sums of products in floating point
-/

namespace StaticMath
namespace Flt
variable {f : Fmt} {n : ℕ}

/-- `a` is finite and approximates `x` after at most `k` rounded operations on terms whose
magnitudes add up to `s` and whose products lost at most `c` to underflow. -/
structure Approx (k : ℕ) (a : Flt f) (x s c : ℝ) : Prop where
  err : |a.toReal - x| ≤ ((1 + f.u) ^ k - 1) * s + (1 + f.u) ^ k * c
  mag : |x| ≤ s
  cnn : 0 ≤ c

theorem Approx.mul_normal {a b : Flt f} (h : (a * b).IsFin)
    (hn : a.toReal * b.toReal = 0 ∨ (2 : ℝ) ^ f.emin ≤ |a.toReal * b.toReal|) :
    Approx 1 (a * b) (a.toReal * b.toReal) |a.toReal * b.toReal| 0 :=
  ⟨by simpa using mul_rel h hn, le_rfl, le_rfl⟩

theorem Approx.mul_any {a b : Flt f} (h : (a * b).IsFin) :
    Approx 1 (a * b) (a.toReal * b.toReal) |a.toReal * b.toReal| f.eta := by
  refine ⟨?_, le_rfl, f.eta_pos.le⟩
  have := mul_err h
  have h1 := f.u_pos
  have h2 := f.eta_pos
  nlinarith

theorem Approx.add {k : ℕ} {a b : Flt f} {x y s t c d : ℝ} (hk : 1 ≤ k) (h : (a + b).IsFin)
    (ha : Approx k a x s c) (hb : Approx 1 b y t d) : Approx (k + 1) (a + b) (x + y) (s + t) (c + d) := by
  have hu := f.u_pos
  have hs : 0 ≤ s := (abs_nonneg _).trans ha.mag
  have ht : 0 ≤ t := (abs_nonneg _).trans hb.mag
  have hc := ha.cnn
  have hd := hb.cnn
  refine ⟨?_, (abs_add_le _ _).trans (add_le_add ha.mag hb.mag), by linarith⟩
  have h1 := add_rel h
  have hP1 : (1 + f.u) ^ 1 ≤ (1 + f.u) ^ k := pow_le_pow_right₀ (by linarith) hk
  rw [pow_one] at hP1
  have e1 := ha.err
  have e2 := hb.err
  rw [pow_one] at e2
  set p := (1 + f.u) ^ k
  have e2' : |b.toReal - y| ≤ (p - 1) * t + p * d := by nlinarith
  have hm : |a.toReal + b.toReal| ≤ |x + y| + |a.toReal - x| + |b.toReal - y| := by
    calc |a.toReal + b.toReal| = |(x + y) + (a.toReal - x) + (b.toReal - y)| := by ring_nf
      _ ≤ _ := abs_add_three _ _ _
  have hxy : |x + y| ≤ s + t := (abs_add_le _ _).trans (add_le_add ha.mag hb.mag)
  have ht3 : |(a + b).toReal - (x + y)| ≤
      |(a + b).toReal - (a.toReal + b.toReal)| + |a.toReal - x| + |b.toReal - y| := by
    calc |(a + b).toReal - (x + y)|
        = |((a + b).toReal - (a.toReal + b.toReal)) + (a.toReal - x) + (b.toReal - y)| := by ring_nf
      _ ≤ _ := abs_add_three _ _ _
  rw [pow_succ]
  have hE : |a.toReal - x| + |b.toReal - y| ≤ (p - 1) * (s + t) + p * (c + d) := by linarith
  have : f.u * |a.toReal + b.toReal| ≤ f.u * ((s + t) + ((p - 1) * (s + t) + p * (c + d))) :=
    mul_le_mul_of_nonneg_left (by linarith) hu.le
  have e : ((1 + f.u) ^ k * (1 + f.u) - 1) * (s + t) + (1 + f.u) ^ k * (1 + f.u) * (c + d)
      = f.u * ((s + t) + ((p - 1) * (s + t) + p * (c + d))) + ((p - 1) * (s + t) + p * (c + d)) := by
    simp only [p]
    ring
  rw [e]
  linarith

/-- The terms of a finite left-to-right sum are finite. -/
theorem isFin_of_foldl {ι : Type} (g : ι → Flt f) (l : List ι) (a : Flt f)
    (h : (l.foldl (fun s j => s + g j) a).IsFin) : a.IsFin ∧ ∀ j ∈ l, (g j).IsFin := by
  induction l generalizing a with
  | nil => exact ⟨h, by simp⟩
  | cons j l ih =>
    obtain ⟨h1, h2⟩ := ih _ h
    obtain ⟨h3, h4⟩ := isFin_of_add h1
    exact ⟨h3, fun i hi => by
      rcases List.mem_cons.1 hi with rfl | hi
      · exact h4
      · exact h2 i hi⟩

theorem approx_foldl {ι : Type} (g : ι → Flt f) (x s c : ι → ℝ) (l : List ι) (k : ℕ) (hk : 1 ≤ k)
    (a : Flt f) (x0 s0 c0 : ℝ) (ha : Approx k a x0 s0 c0)
    (hg : ∀ j ∈ l, Approx 1 (g j) (x j) (s j) (c j))
    (h : (l.foldl (fun s j => s + g j) a).IsFin) :
    Approx (k + l.length) (l.foldl (fun s j => s + g j) a) (x0 + (l.map x).sum)
      (s0 + (l.map s).sum) (c0 + (l.map c).sum) := by
  induction l generalizing a k x0 s0 c0 with
  | nil => simpa using ha
  | cons j l ih =>
    have h1 := (isFin_of_foldl g l _ h).1
    have h2 := ih (k + 1) (by omega) (a + g j) (x0 + x j) (s0 + s j) (c0 + c j)
      (Approx.add hk h1 ha (hg j (by simp))) (fun i hi => hg i (by simp [hi])) h
    have e : k + (j :: l).length = k + 1 + l.length := by simp; omega
    rw [e]
    simpa [add_assoc] using h2

theorem perm_sum {k : Fin n} {l : List (Fin n)} (hp : (k :: l).Perm (List.finRange n)) (x : Fin n → ℝ) :
    x k + (l.map x).sum = ∑ i, x i := by
  rw [← List.sum_cons, ← List.map_cons, (hp.map x).sum_eq, ← List.ofFn_eq_map, List.sum_ofFn]

theorem perm_length {k : Fin n} {l : List (Fin n)} (hp : (k :: l).Perm (List.finRange n)) :
    1 + l.length = n := by
  have := hp.length_eq
  simp at this
  omega

/-- Forward error of an ordered sum of products. -/
theorem orderedSum_err {r : Flt f} {a b : Fin n → Flt f}
    (hs : IsOrderedSum r (fun k => a k * b k)) (h : r.IsFin) :
    |r.toReal - ∑ k, (a k).toReal * (b k).toReal| ≤
      ((1 + f.u) ^ n - 1) * ∑ k, |(a k).toReal * (b k).toReal| + (1 + f.u) ^ n * (n * f.eta) := by
  obtain ⟨k, l, hp, rfl⟩ := hs
  obtain ⟨h1, h2⟩ := isFin_of_foldl _ _ _ h
  have H := (approx_foldl (fun k => a k * b k) (fun k => (a k).toReal * (b k).toReal)
    (fun k => |(a k).toReal * (b k).toReal|) (fun _ => f.eta) l 1 le_rfl _ _ _ _
    (Approx.mul_any h1) (fun j hj => Approx.mul_any (h2 j hj)) h).err
  rw [perm_length hp, perm_sum hp (fun k => (a k).toReal * (b k).toReal), perm_sum hp (fun k => |(a k).toReal * (b k).toReal|),
    perm_sum hp (fun _ => f.eta)] at H
  simpa using H

/-- Forward error of an ordered sum of products none of which underflows. -/
theorem orderedSum_rel {r : Flt f} {a b : Fin n → Flt f}
    (hs : IsOrderedSum r (fun k => a k * b k)) (h : r.IsFin)
    (hn : ∀ k, (a k).toReal * (b k).toReal = 0 ∨ (2 : ℝ) ^ f.emin ≤ |(a k).toReal * (b k).toReal|) :
    |r.toReal - ∑ k, (a k).toReal * (b k).toReal| ≤
      ((1 + f.u) ^ n - 1) * ∑ k, |(a k).toReal * (b k).toReal| := by
  obtain ⟨k, l, hp, rfl⟩ := hs
  obtain ⟨h1, h2⟩ := isFin_of_foldl _ _ _ h
  have H := (approx_foldl (fun k => a k * b k) (fun k => (a k).toReal * (b k).toReal)
    (fun k => |(a k).toReal * (b k).toReal|) (fun _ => (0 : ℝ)) l 1 le_rfl _ _ _ _
    (Approx.mul_normal h1 (hn k)) (fun j hj => Approx.mul_normal (h2 j hj) (hn j)) h).err
  rw [perm_length hp, perm_sum hp (fun k => (a k).toReal * (b k).toReal), perm_sum hp (fun k => |(a k).toReal * (b k).toReal|),
    perm_sum hp (fun _ => (0 : ℝ))] at H
  simpa using H

/-- Adding zeros does not change the value. -/
theorem foldl_zeros {ι : Type} (g : ι → Flt f) (l : List ι) (a : Flt f) (ha : a.IsFin)
    (h : ∀ j ∈ l, (g j).IsFin ∧ (g j).toReal = 0) :
    (l.foldl (fun s j => s + g j) a).IsFin ∧ (l.foldl (fun s j => s + g j) a).toReal = a.toReal := by
  induction l generalizing a with
  | nil => exact ⟨ha, rfl⟩
  | cons j l ih =>
    have hj := h j (by simp)
    obtain ⟨h1, h2⟩ := add_zero_val ha hj.1 hj.2
    obtain ⟨h3, h4⟩ := ih (a + g j) h1 (fun i hi => h i (by simp [hi]))
    exact ⟨h3, h4.trans h2⟩

/-- A left-to-right sum in which all terms but one are zero has the value of that term. -/
theorem foldl_single {ι : Type} (g : ι → Flt f) (l : List ι) (a : Flt f) (i : ι)
    (ha : a.IsFin) (ha0 : a.toReal = 0) (hl : l.Nodup) (hi : i ∈ l) (hgi : (g i).IsFin)
    (h : ∀ j ∈ l, j ≠ i → (g j).IsFin ∧ (g j).toReal = 0) :
    (l.foldl (fun s j => s + g j) a).IsFin ∧
      (l.foldl (fun s j => s + g j) a).toReal = (g i).toReal := by
  induction l generalizing a with
  | nil => simp at hi
  | cons j l ih =>
    rw [List.nodup_cons] at hl
    by_cases e : j = i
    · subst e
      obtain ⟨h1, h2⟩ := zero_add_val ha hgi ha0
      obtain ⟨h3, h4⟩ := foldl_zeros g l (a + g j) h1
        (fun k hk => h k (by simp [hk]) (fun e => hl.1 (e ▸ hk)))
      exact ⟨h3, h4.trans h2⟩
    · have hj := h j (by simp) e
      obtain ⟨h1, h2⟩ := add_zero_val ha hj.1 hj.2
      exact ih (a + g j) h1 (h2.trans ha0) hl.2
        ((List.mem_cons.1 hi).resolve_left (fun e' => e e'.symm))
        (fun k hk => h k (by simp [hk]))

theorem orderedSum_single {r : Flt f} {g : Fin n → Flt f} (hs : IsOrderedSum r g) (i : Fin n)
    (hgi : (g i).IsFin) (h : ∀ j, j ≠ i → (g j).IsFin ∧ (g j).toReal = 0) :
    r.IsFin ∧ r.toReal = (g i).toReal := by
  obtain ⟨k, l, hp, rfl⟩ := hs
  have hnd : (k :: l).Nodup := hp.nodup_iff.2 (List.nodup_finRange n)
  have hmem : i ∈ k :: l := hp.mem_iff.2 (List.mem_finRange i)
  rw [List.nodup_cons] at hnd
  by_cases e : k = i
  · subst e
    exact foldl_zeros g l (g k) hgi (fun j hj => h j (fun e => hnd.1 (e ▸ hj)))
  · exact foldl_single g l (g k) i (h k e).1 (h k e).2 hnd.2
      ((List.mem_cons.1 hmem).resolve_left (fun e' => e e'.symm)) hgi (fun j _ => h j)

theorem nan_add (a : Flt f) : nan + a = nan := rfl
theorem add_nan (a : Flt f) : a + nan = nan := by cases a <;> rfl
theorem nan_mul (a : Flt f) : nan * a = nan := rfl
theorem mul_nan (a : Flt f) : a * nan = nan := by cases a <;> rfl

theorem foldl_nan {ι : Type} (g : ι → Flt f) (l : List ι) : l.foldl (fun s j => s + g j) nan = nan := by
  induction l with
  | nil => rfl
  | cons j l ih => exact ih

theorem orderedSum_nan {r : Flt f} {g : Fin n → Flt f} (hs : IsOrderedSum r g) (i : Fin n)
    (h : g i = nan) : r = nan := by
  obtain ⟨k, l, hp, rfl⟩ := hs
  have hmem : i ∈ k :: l := hp.mem_iff.2 (List.mem_finRange i)
  rcases List.mem_cons.1 hmem with rfl | hm
  · rw [h, foldl_nan]
  · clear hp hmem
    generalize g k = a
    induction l generalizing a with
    | nil => simp at hm
    | cons j l ih =>
      rcases List.mem_cons.1 hm with rfl | hm
      · rw [List.foldl_cons, h, add_nan, foldl_nan]
      · exact ih hm _

/-- Products with a finite zero or one. -/
theorem mul_zero_notFin {a : Flt f} (ha : ¬a.IsFin) : a * 0 = nan := by
  cases a with
  | nan => rfl
  | inf s => exact if_pos rfl
  | fin s x h => exact absurd trivial ha

theorem zero_mul_notFin {a : Flt f} (ha : ¬a.IsFin) : 0 * a = nan := by
  rw [mul_comm', mul_zero_notFin ha]

end Flt
end StaticMath
