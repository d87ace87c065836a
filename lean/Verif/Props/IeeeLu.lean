import Verif.Lemmas.LuFlt

/-!
# LU factorisation in floating point: C110, C111

`M.vals`/`M.mags` are the real values and the magnitudes of the entries; `lowerUnit`/`upper` unpack
the two triangles of the packed result and `pivotPerm n indx.at n` replays the recorded row swaps.
-/

namespace StaticMath

/-- The real values of the entries. -/
noncomputable def Mat.vals {f : Fmt} {n : ℕ} (M : Mat n (Flt f)) : Mat n ℝ := ⟨fun i j => (M i j).toReal⟩
/-- The magnitudes of the entries. -/
noncomputable def Mat.mags {f : Fmt} {n : ℕ} (M : Mat n (Flt f)) : Mat n ℝ := ⟨fun i j => |(M i j).toReal|⟩

private theorem panic_flt {n : ℕ} {f : Fmt} [L : Libm f] (hn : 0 < n) (A : Mat n (Flt f)) (vv0 : Vec n (Flt f))
    (indx0 : Vec n ℕ) (fin : Flt f → Mat n (Flt f) → Vec n ℕ → MayPanic (Mat n (Flt f) × Flt f × Vec n ℕ))
    (hfin : ∀ d M indx, fin d M indx =
      .ok (M, ((List.finRange n).map fun i => M i i).foldl (· * ·) d, indx)) :
    ((∀ c, A ⟨0, hn⟩ c = .nan ∨ ROrd.beq (A ⟨0, hn⟩ c) 0 = true) → (do
        let (big, vv) ← luScale A 0 vv0
        let (_, lu, d, _, indx) ← forRange 0 n (big, A, 1, vv, indx0) (luStep RFloat.lit1em40)
        fin d lu indx) = .error (Panic.explicit "the matrix should be non zero")) ∧
    ((∃ c, A ⟨0, hn⟩ c ≠ .nan ∧ ¬ ROrd.beq (A ⟨0, hn⟩ c) 0 = true) → ∃ M det indx, (do
        let (big, vv) ← luScale A 0 vv0
        let (_, lu, d, _, indx) ← forRange 0 n (big, A, 1, vv, indx0) (luStep RFloat.lit1em40)
        fin d lu indx) = .ok (M, det, indx) ∧ ∀ j : Fin n, j.val ≤ indx j ∧ indx j < n) := by
  constructor
  · intro h
    rw [(luScale_flt A vv0 hn).1 h]
    rfl
  · rintro ⟨c, hc⟩
    obtain ⟨⟨big, vv⟩, hs⟩ := (luScale_flt A vv0 hn).2 fun h => by
      rcases h c with h | h
      · exact hc.1 h
      · exact hc.2 h
    obtain ⟨b', M', d, vv', indx', hloop, h1, -⟩ := luLoop_flt A big vv indx0
    refine ⟨M', ((List.finRange n).map fun i => M' i i).foldl (· * ·) d, indx', ?_, h1⟩
    rw [hs]
    simp only [bind, Except.bind]
    rw [hloop]
    simp only [hfin]

private theorem ones_flt {n : ℕ} {f : Fmt} [L : Libm f] (hn : 0 < n) (vv0 : Vec n (Flt f))
    (indx0 : Vec n ℕ) (fin : Flt f → Mat n (Flt f) → Vec n ℕ → MayPanic (Mat n (Flt f) × Flt f × Vec n ℕ))
    (hfin : ∀ d M indx, fin d M indx =
      .ok (M, ((List.finRange n).map fun i => M i i).foldl (· * ·) d, indx))
    (ht : (L.lit1em40 : Flt f).IsFin) (h0 : (L.lit1em40 : Flt f).toReal ≠ 0) : ∃ M det indx, (do
        let (big, vv) ← luScale (onesM f n) 0 vv0
        let (_, lu, d, _, indx) ← forRange 0 n (big, onesM f n, 1, vv, indx0) (luStep RFloat.lit1em40)
        fin d lu indx) = .ok (M, det, indx) ∧ M.AllFin := by
  obtain ⟨⟨big, vv⟩, hs⟩ := (luScale_flt (onesM f n) vv0 hn).2 fun h => by
    rcases h ⟨0, hn⟩ with h | h
    · cases h
    · rw [Flt.beq_zero_iff] at h
      exact one_ne_zero h.2
  obtain ⟨b', M', d, vv', indx', hloop, h1⟩ := luLoop_ones (n := n) ht h0 big vv indx0
  refine ⟨M', ((List.finRange n).map fun i => M' i i).foldl (· * ·) d, indx', ?_, h1⟩
  rw [hs]
  simp only [bind, Except.bind]
  rw [hloop]
  simp only [hfin]

private theorem main_flt {n : ℕ} {f : Fmt} [L : Libm f] (A : Mat n (Flt f)) (vv0 : Vec n (Flt f))
    (indx0 : Vec n ℕ) (fin : Flt f → Mat n (Flt f) → Vec n ℕ → MayPanic (Mat n (Flt f) × Flt f × Vec n ℕ))
    (hfin : ∀ d M indx, fin d M indx =
      .ok (M, ((List.finRange n).map fun i => M i i).foldl (· * ·) d, indx))
    (M : Mat n (Flt f)) (det : Flt f) (indx : Vec n ℕ)
    (hl : (do
        let (big, vv) ← luScale A 0 vv0
        let (_, lu, d, _, indx) ← forRange 0 n (big, A, 1, vv, indx0) (luStep RFloat.lit1em40)
        fin d lu indx) = .ok (M, det, indx)) :
    (∀ j : Fin n, j.val ≤ indx j ∧ indx j < n) ∧
    (M.AllFin → A.AllFin ∧ ∃ δ : Fin n → ℝ,
      (∀ i, δ i = 0 ∨ (δ i = (L.lit1em40 : Flt f).toReal ∧ M i i = L.lit1em40)) ∧
      ∀ i j, |(M.vals.lowerUnit * M.vals.upper) i j -
          ((A (pivotPerm n indx.at n i) j).toReal + (if i = j then δ i else 0))| ≤
        ((1 + f.u) ^ min i.val (j.val + 1) - 1) * (M.mags.lowerUnit * M.mags.upper) i j +
        (1 + f.u) ^ min i.val (j.val + 1) * (f.eta *
          ((min i.val (j.val + 1) : ℕ) + if j < i then |(M j j).toReal| else 0))) ∧
    (∀ B, (∀ i, |(M i i).toReal| ≤ B) → det.IsFin →
      |det.toReal - ((Equiv.Perm.sign (pivotPerm n indx.at n) : ℤ) : ℝ) * ∏ i, (M i i).toReal| ≤
        ((1 + f.u) ^ n - 1) * ∏ i, |(M i i).toReal| +
        (1 + f.u) ^ n * (f.eta * ∑ t ∈ Finset.range n, B ^ t)) := by
  rcases luScale_gen A 0 vv0 with ⟨⟨big, vv⟩, hs⟩ | hs
  swap
  · rw [hs] at hl
    cases hl
  obtain ⟨b', M', d, vv', indx', hloop, h1, h2, h3⟩ := luLoop_flt A big vv indx0
  rw [hs] at hl
  simp only [bind, Except.bind] at hl
  rw [hloop] at hl
  simp only [hfin] at hl
  injection hl with hl
  injection hl with e1 hl
  injection hl with e2 e3
  subst e1 e2 e3
  refine ⟨h1, h3, fun B hB hd => ?_⟩
  have h4 := prod_flt_err d B ((List.finRange n).map fun i => M' i i) (by
    intro x hx
    obtain ⟨i, -, rfl⟩ := List.mem_map.1 hx
    exact hB i) hd
  rw [List.length_map, List.length_finRange, List.map_map, h2.2] at h4
  have e : ((List.finRange n).map (Flt.toReal ∘ fun i => M' i i)).prod = ∏ i, (M' i i).toReal := by
    rw [Fin.prod_univ_def]; rfl
  rw [e, abs_mul, Finset.abs_prod] at h4
  have e5 : |((Equiv.Perm.sign (pivotPerm n indx'.at n) : ℤ) : ℝ)| = 1 := by
    rcases Int.units_eq_one_or (Equiv.Perm.sign (pivotPerm n indx'.at n)) with e | e <;>
      rw [e] <;> norm_num
  rwa [e5, one_mul] at h4

/-! ## M22 -/

private noncomputable def last_M22 {f : Fmt} (d : Flt f) (lu : Mat 2 (Flt f)) (indx : Vec 2 ℕ) :
    MayPanic (Mat 2 (Flt f) × Flt f × Vec 2 ℕ) := do
  let det := d * (← lu.get 0 0) * (← lu.get 1 1)
  pure (lu, det, indx)

private theorem last_eq_M22 {f : Fmt} (d : Flt f) (M : Mat 2 (Flt f)) (indx : Vec 2 ℕ) :
    last_M22 d M indx = .ok (M, ((List.finRange 2).map fun i => M i i).foldl (· * ·) d, indx) := by
  simp only [List.finRange_succ, List.finRange_zero, List.map_cons, List.map_nil, List.foldl_cons,
    List.foldl_nil]
  rfl

/-- C110: if the packed factors come out finite, `L*U` is the row-permuted input, with the literal
`1e-40` added where a pivot was zero, up to an error relative to `|L|*|U|`; and the recorded swaps are
in range. -/
theorem C110_lu_M22 {f : Fmt} [L : Libm f] (A M : Mat 2 (Flt f)) (det : Flt f) (indx : Vec 2 ℕ)
    (hl : M22.lu A = .ok (M, det, indx)) (hM : M.AllFin) :
    A.AllFin ∧ (∀ j : Fin 2, j.val ≤ indx j ∧ indx j < 2) ∧ ∃ δ : Fin 2 → ℝ,
      (∀ i, δ i = 0 ∨ (δ i = (L.lit1em40 : Flt f).toReal ∧ M i i = L.lit1em40)) ∧
      ∀ i j, |(M.vals.lowerUnit * M.vals.upper) i j -
          ((A (pivotPerm 2 indx.at 2 i) j).toReal + (if i = j then δ i else 0))| ≤
        ((1 + f.u) ^ min i.val (j.val + 1) - 1) * (M.mags.lowerUnit * M.mags.upper) i j +
        (1 + f.u) ^ min i.val (j.val + 1) * (f.eta *
          ((min i.val (j.val + 1) : ℕ) + if j < i then |(M j j).toReal| else 0)) := by
  rw [M22.lu_gen] at hl
  obtain ⟨h1, h2, -⟩ := main_flt A V2.zero V2.zero last_M22 last_eq_M22 M det indx hl
  obtain ⟨hA, h3⟩ := h2 hM
  exact ⟨hA, h1, h3⟩

/-- C110: the reported determinant is the signed product of the pivots up to rounding. -/
theorem C110_det_M22 {f : Fmt} [Libm f] (A M : Mat 2 (Flt f)) (det : Flt f) (indx : Vec 2 ℕ)
    (hl : M22.lu A = .ok (M, det, indx)) (hd : det.IsFin) (B : ℝ) (hB : ∀ i, |(M i i).toReal| ≤ B) :
    |det.toReal - ((Equiv.Perm.sign (pivotPerm 2 indx.at 2) : ℤ) : ℝ) * ∏ i, (M i i).toReal| ≤
      ((1 + f.u) ^ 2 - 1) * ∏ i, |(M i i).toReal| +
      (1 + f.u) ^ 2 * (f.eta * ∑ t ∈ Finset.range 2, B ^ t) := by
  rw [M22.lu_gen] at hl
  exact (main_flt A V2.zero V2.zero last_M22 last_eq_M22 M det indx hl).2.2 B hB hd

example {f : Fmt} [L : Libm f] (ht : (L.lit1em40 : Flt f).IsFin) (h0 : (L.lit1em40 : Flt f).toReal ≠ 0) :
    ∃ M det indx, M22.lu (onesM f 2) = .ok (M, det, indx) ∧ M.AllFin := by
  rw [M22.lu_gen]
  exact ones_flt (by norm_num) V2.zero V2.zero last_M22 last_eq_M22 ht h0

/-- C111: in floating point, whatever the entries (NaN and infinities included), `lu` panics exactly
when every entry of the first row is zero or NaN, always with its own message; otherwise it returns
row numbers that are in range. -/
theorem C111_lu_M22 {f : Fmt} [Libm f] (A : Mat 2 (Flt f)) :
    ((∀ c, A 0 c = .nan ∨ ROrd.beq (A 0 c) 0 = true) →
      M22.lu A = .error (Panic.explicit "the matrix should be non zero")) ∧
    ((∃ c, A 0 c ≠ .nan ∧ ¬ ROrd.beq (A 0 c) 0 = true) →
      ∃ M det indx, M22.lu A = .ok (M, det, indx) ∧ ∀ j : Fin 2, j.val ≤ indx j ∧ indx j < 2) := by
  rw [M22.lu_gen]
  exact panic_flt (by norm_num) A V2.zero V2.zero last_M22 last_eq_M22

example (f : Fmt) : ∃ c, (⟨fun _ j => if j = 0 then .nan else .inf true⟩ : Mat 2 (Flt f)) 0 c ≠ .nan ∧
    ¬ ROrd.beq ((⟨fun _ j => if j = 0 then .nan else .inf true⟩ : Mat 2 (Flt f)) 0 c) 0 = true := by
  refine ⟨1, ?_⟩
  rw [Flt.beq_zero_iff]
  exact ⟨(fun h => by cases h), fun h => h.1⟩

/-! ## M33 -/

private noncomputable def last_M33 {f : Fmt} (d : Flt f) (lu : Mat 3 (Flt f)) (indx : Vec 3 ℕ) :
    MayPanic (Mat 3 (Flt f) × Flt f × Vec 3 ℕ) := do
  let det := d * (← lu.get 0 0) * (← lu.get 1 1) * (← lu.get 2 2)
  pure (lu, det, indx)

private theorem last_eq_M33 {f : Fmt} (d : Flt f) (M : Mat 3 (Flt f)) (indx : Vec 3 ℕ) :
    last_M33 d M indx = .ok (M, ((List.finRange 3).map fun i => M i i).foldl (· * ·) d, indx) := by
  simp only [List.finRange_succ, List.finRange_zero, List.map_cons, List.map_nil, List.foldl_cons,
    List.foldl_nil]
  rfl

/-- C110: if the packed factors come out finite, `L*U` is the row-permuted input, with the literal
`1e-40` added where a pivot was zero, up to an error relative to `|L|*|U|`; and the recorded swaps are
in range. -/
theorem C110_lu_M33 {f : Fmt} [L : Libm f] (A M : Mat 3 (Flt f)) (det : Flt f) (indx : Vec 3 ℕ)
    (hl : M33.lu A = .ok (M, det, indx)) (hM : M.AllFin) :
    A.AllFin ∧ (∀ j : Fin 3, j.val ≤ indx j ∧ indx j < 3) ∧ ∃ δ : Fin 3 → ℝ,
      (∀ i, δ i = 0 ∨ (δ i = (L.lit1em40 : Flt f).toReal ∧ M i i = L.lit1em40)) ∧
      ∀ i j, |(M.vals.lowerUnit * M.vals.upper) i j -
          ((A (pivotPerm 3 indx.at 3 i) j).toReal + (if i = j then δ i else 0))| ≤
        ((1 + f.u) ^ min i.val (j.val + 1) - 1) * (M.mags.lowerUnit * M.mags.upper) i j +
        (1 + f.u) ^ min i.val (j.val + 1) * (f.eta *
          ((min i.val (j.val + 1) : ℕ) + if j < i then |(M j j).toReal| else 0)) := by
  rw [M33.lu_gen] at hl
  obtain ⟨h1, h2, -⟩ := main_flt A V3.zero V3.zero last_M33 last_eq_M33 M det indx hl
  obtain ⟨hA, h3⟩ := h2 hM
  exact ⟨hA, h1, h3⟩

/-- C110: the reported determinant is the signed product of the pivots up to rounding. -/
theorem C110_det_M33 {f : Fmt} [Libm f] (A M : Mat 3 (Flt f)) (det : Flt f) (indx : Vec 3 ℕ)
    (hl : M33.lu A = .ok (M, det, indx)) (hd : det.IsFin) (B : ℝ) (hB : ∀ i, |(M i i).toReal| ≤ B) :
    |det.toReal - ((Equiv.Perm.sign (pivotPerm 3 indx.at 3) : ℤ) : ℝ) * ∏ i, (M i i).toReal| ≤
      ((1 + f.u) ^ 3 - 1) * ∏ i, |(M i i).toReal| +
      (1 + f.u) ^ 3 * (f.eta * ∑ t ∈ Finset.range 3, B ^ t) := by
  rw [M33.lu_gen] at hl
  exact (main_flt A V3.zero V3.zero last_M33 last_eq_M33 M det indx hl).2.2 B hB hd

example {f : Fmt} [L : Libm f] (ht : (L.lit1em40 : Flt f).IsFin) (h0 : (L.lit1em40 : Flt f).toReal ≠ 0) :
    ∃ M det indx, M33.lu (onesM f 3) = .ok (M, det, indx) ∧ M.AllFin := by
  rw [M33.lu_gen]
  exact ones_flt (by norm_num) V3.zero V3.zero last_M33 last_eq_M33 ht h0

/-- C111: in floating point, whatever the entries (NaN and infinities included), `lu` panics exactly
when every entry of the first row is zero or NaN, always with its own message; otherwise it returns
row numbers that are in range. -/
theorem C111_lu_M33 {f : Fmt} [Libm f] (A : Mat 3 (Flt f)) :
    ((∀ c, A 0 c = .nan ∨ ROrd.beq (A 0 c) 0 = true) →
      M33.lu A = .error (Panic.explicit "the matrix should be non zero")) ∧
    ((∃ c, A 0 c ≠ .nan ∧ ¬ ROrd.beq (A 0 c) 0 = true) →
      ∃ M det indx, M33.lu A = .ok (M, det, indx) ∧ ∀ j : Fin 3, j.val ≤ indx j ∧ indx j < 3) := by
  rw [M33.lu_gen]
  exact panic_flt (by norm_num) A V3.zero V3.zero last_M33 last_eq_M33

example (f : Fmt) : ∃ c, (⟨fun _ j => if j = 0 then .nan else .inf true⟩ : Mat 3 (Flt f)) 0 c ≠ .nan ∧
    ¬ ROrd.beq ((⟨fun _ j => if j = 0 then .nan else .inf true⟩ : Mat 3 (Flt f)) 0 c) 0 = true := by
  refine ⟨1, ?_⟩
  rw [Flt.beq_zero_iff]
  exact ⟨(fun h => by cases h), fun h => h.1⟩

/-! ## M44 -/

private noncomputable def last_M44 {f : Fmt} (d : Flt f) (lu : Mat 4 (Flt f)) (indx : Vec 4 ℕ) :
    MayPanic (Mat 4 (Flt f) × Flt f × Vec 4 ℕ) := do
  let det := d * (← lu.get 0 0) * (← lu.get 1 1) * (← lu.get 2 2) * (← lu.get 3 3)
  pure (lu, det, indx)

private theorem last_eq_M44 {f : Fmt} (d : Flt f) (M : Mat 4 (Flt f)) (indx : Vec 4 ℕ) :
    last_M44 d M indx = .ok (M, ((List.finRange 4).map fun i => M i i).foldl (· * ·) d, indx) := by
  simp only [List.finRange_succ, List.finRange_zero, List.map_cons, List.map_nil, List.foldl_cons,
    List.foldl_nil]
  rfl

/-- C110: if the packed factors come out finite, `L*U` is the row-permuted input, with the literal
`1e-40` added where a pivot was zero, up to an error relative to `|L|*|U|`; and the recorded swaps are
in range. -/
theorem C110_lu_M44 {f : Fmt} [L : Libm f] (A M : Mat 4 (Flt f)) (det : Flt f) (indx : Vec 4 ℕ)
    (hl : M44.lu A = .ok (M, det, indx)) (hM : M.AllFin) :
    A.AllFin ∧ (∀ j : Fin 4, j.val ≤ indx j ∧ indx j < 4) ∧ ∃ δ : Fin 4 → ℝ,
      (∀ i, δ i = 0 ∨ (δ i = (L.lit1em40 : Flt f).toReal ∧ M i i = L.lit1em40)) ∧
      ∀ i j, |(M.vals.lowerUnit * M.vals.upper) i j -
          ((A (pivotPerm 4 indx.at 4 i) j).toReal + (if i = j then δ i else 0))| ≤
        ((1 + f.u) ^ min i.val (j.val + 1) - 1) * (M.mags.lowerUnit * M.mags.upper) i j +
        (1 + f.u) ^ min i.val (j.val + 1) * (f.eta *
          ((min i.val (j.val + 1) : ℕ) + if j < i then |(M j j).toReal| else 0)) := by
  rw [M44.lu_gen] at hl
  obtain ⟨h1, h2, -⟩ := main_flt A V4.zero V4.zero last_M44 last_eq_M44 M det indx hl
  obtain ⟨hA, h3⟩ := h2 hM
  exact ⟨hA, h1, h3⟩

/-- C110: the reported determinant is the signed product of the pivots up to rounding. -/
theorem C110_det_M44 {f : Fmt} [Libm f] (A M : Mat 4 (Flt f)) (det : Flt f) (indx : Vec 4 ℕ)
    (hl : M44.lu A = .ok (M, det, indx)) (hd : det.IsFin) (B : ℝ) (hB : ∀ i, |(M i i).toReal| ≤ B) :
    |det.toReal - ((Equiv.Perm.sign (pivotPerm 4 indx.at 4) : ℤ) : ℝ) * ∏ i, (M i i).toReal| ≤
      ((1 + f.u) ^ 4 - 1) * ∏ i, |(M i i).toReal| +
      (1 + f.u) ^ 4 * (f.eta * ∑ t ∈ Finset.range 4, B ^ t) := by
  rw [M44.lu_gen] at hl
  exact (main_flt A V4.zero V4.zero last_M44 last_eq_M44 M det indx hl).2.2 B hB hd

example {f : Fmt} [L : Libm f] (ht : (L.lit1em40 : Flt f).IsFin) (h0 : (L.lit1em40 : Flt f).toReal ≠ 0) :
    ∃ M det indx, M44.lu (onesM f 4) = .ok (M, det, indx) ∧ M.AllFin := by
  rw [M44.lu_gen]
  exact ones_flt (by norm_num) V4.zero V4.zero last_M44 last_eq_M44 ht h0

/-- C111: in floating point, whatever the entries (NaN and infinities included), `lu` panics exactly
when every entry of the first row is zero or NaN, always with its own message; otherwise it returns
row numbers that are in range. -/
theorem C111_lu_M44 {f : Fmt} [Libm f] (A : Mat 4 (Flt f)) :
    ((∀ c, A 0 c = .nan ∨ ROrd.beq (A 0 c) 0 = true) →
      M44.lu A = .error (Panic.explicit "the matrix should be non zero")) ∧
    ((∃ c, A 0 c ≠ .nan ∧ ¬ ROrd.beq (A 0 c) 0 = true) →
      ∃ M det indx, M44.lu A = .ok (M, det, indx) ∧ ∀ j : Fin 4, j.val ≤ indx j ∧ indx j < 4) := by
  rw [M44.lu_gen]
  exact panic_flt (by norm_num) A V4.zero V4.zero last_M44 last_eq_M44

example (f : Fmt) : ∃ c, (⟨fun _ j => if j = 0 then .nan else .inf true⟩ : Mat 4 (Flt f)) 0 c ≠ .nan ∧
    ¬ ROrd.beq ((⟨fun _ j => if j = 0 then .nan else .inf true⟩ : Mat 4 (Flt f)) 0 c) 0 = true := by
  refine ⟨1, ?_⟩
  rw [Flt.beq_zero_iff]
  exact ⟨(fun h => by cases h), fun h => h.1⟩

/-! ## M55 -/

private noncomputable def last_M55 {f : Fmt} (d : Flt f) (lu : Mat 5 (Flt f)) (indx : Vec 5 ℕ) :
    MayPanic (Mat 5 (Flt f) × Flt f × Vec 5 ℕ) := do
  let det := d * (← lu.get 0 0) * (← lu.get 1 1) * (← lu.get 2 2) * (← lu.get 3 3) * (← lu.get 4 4)
  pure (lu, det, indx)

private theorem last_eq_M55 {f : Fmt} (d : Flt f) (M : Mat 5 (Flt f)) (indx : Vec 5 ℕ) :
    last_M55 d M indx = .ok (M, ((List.finRange 5).map fun i => M i i).foldl (· * ·) d, indx) := by
  simp only [List.finRange_succ, List.finRange_zero, List.map_cons, List.map_nil, List.foldl_cons,
    List.foldl_nil]
  rfl

/-- C110: if the packed factors come out finite, `L*U` is the row-permuted input, with the literal
`1e-40` added where a pivot was zero, up to an error relative to `|L|*|U|`; and the recorded swaps are
in range. -/
theorem C110_lu_M55 {f : Fmt} [L : Libm f] (A M : Mat 5 (Flt f)) (det : Flt f) (indx : Vec 5 ℕ)
    (hl : M55.lu A = .ok (M, det, indx)) (hM : M.AllFin) :
    A.AllFin ∧ (∀ j : Fin 5, j.val ≤ indx j ∧ indx j < 5) ∧ ∃ δ : Fin 5 → ℝ,
      (∀ i, δ i = 0 ∨ (δ i = (L.lit1em40 : Flt f).toReal ∧ M i i = L.lit1em40)) ∧
      ∀ i j, |(M.vals.lowerUnit * M.vals.upper) i j -
          ((A (pivotPerm 5 indx.at 5 i) j).toReal + (if i = j then δ i else 0))| ≤
        ((1 + f.u) ^ min i.val (j.val + 1) - 1) * (M.mags.lowerUnit * M.mags.upper) i j +
        (1 + f.u) ^ min i.val (j.val + 1) * (f.eta *
          ((min i.val (j.val + 1) : ℕ) + if j < i then |(M j j).toReal| else 0)) := by
  rw [M55.lu_gen] at hl
  obtain ⟨h1, h2, -⟩ := main_flt A V5.zero V5.zero last_M55 last_eq_M55 M det indx hl
  obtain ⟨hA, h3⟩ := h2 hM
  exact ⟨hA, h1, h3⟩

/-- C110: the reported determinant is the signed product of the pivots up to rounding. -/
theorem C110_det_M55 {f : Fmt} [Libm f] (A M : Mat 5 (Flt f)) (det : Flt f) (indx : Vec 5 ℕ)
    (hl : M55.lu A = .ok (M, det, indx)) (hd : det.IsFin) (B : ℝ) (hB : ∀ i, |(M i i).toReal| ≤ B) :
    |det.toReal - ((Equiv.Perm.sign (pivotPerm 5 indx.at 5) : ℤ) : ℝ) * ∏ i, (M i i).toReal| ≤
      ((1 + f.u) ^ 5 - 1) * ∏ i, |(M i i).toReal| +
      (1 + f.u) ^ 5 * (f.eta * ∑ t ∈ Finset.range 5, B ^ t) := by
  rw [M55.lu_gen] at hl
  exact (main_flt A V5.zero V5.zero last_M55 last_eq_M55 M det indx hl).2.2 B hB hd

example {f : Fmt} [L : Libm f] (ht : (L.lit1em40 : Flt f).IsFin) (h0 : (L.lit1em40 : Flt f).toReal ≠ 0) :
    ∃ M det indx, M55.lu (onesM f 5) = .ok (M, det, indx) ∧ M.AllFin := by
  rw [M55.lu_gen]
  exact ones_flt (by norm_num) V5.zero V5.zero last_M55 last_eq_M55 ht h0

/-- C111: in floating point, whatever the entries (NaN and infinities included), `lu` panics exactly
when every entry of the first row is zero or NaN, always with its own message; otherwise it returns
row numbers that are in range. -/
theorem C111_lu_M55 {f : Fmt} [Libm f] (A : Mat 5 (Flt f)) :
    ((∀ c, A 0 c = .nan ∨ ROrd.beq (A 0 c) 0 = true) →
      M55.lu A = .error (Panic.explicit "the matrix should be non zero")) ∧
    ((∃ c, A 0 c ≠ .nan ∧ ¬ ROrd.beq (A 0 c) 0 = true) →
      ∃ M det indx, M55.lu A = .ok (M, det, indx) ∧ ∀ j : Fin 5, j.val ≤ indx j ∧ indx j < 5) := by
  rw [M55.lu_gen]
  exact panic_flt (by norm_num) A V5.zero V5.zero last_M55 last_eq_M55

example (f : Fmt) : ∃ c, (⟨fun _ j => if j = 0 then .nan else .inf true⟩ : Mat 5 (Flt f)) 0 c ≠ .nan ∧
    ¬ ROrd.beq ((⟨fun _ j => if j = 0 then .nan else .inf true⟩ : Mat 5 (Flt f)) 0 c) 0 = true := by
  refine ⟨1, ?_⟩
  rw [Flt.beq_zero_iff]
  exact ⟨(fun h => by cases h), fun h => h.1⟩

/-! ## M66 -/

private noncomputable def last_M66 {f : Fmt} (d : Flt f) (lu : Mat 6 (Flt f)) (indx : Vec 6 ℕ) :
    MayPanic (Mat 6 (Flt f) × Flt f × Vec 6 ℕ) := do
  let det := d * (← lu.get 0 0) * (← lu.get 1 1) * (← lu.get 2 2) * (← lu.get 3 3) * (← lu.get 4 4) * (← lu.get 5 5)
  pure (lu, det, indx)

private theorem last_eq_M66 {f : Fmt} (d : Flt f) (M : Mat 6 (Flt f)) (indx : Vec 6 ℕ) :
    last_M66 d M indx = .ok (M, ((List.finRange 6).map fun i => M i i).foldl (· * ·) d, indx) := by
  simp only [List.finRange_succ, List.finRange_zero, List.map_cons, List.map_nil, List.foldl_cons,
    List.foldl_nil]
  rfl

/-- C110: if the packed factors come out finite, `L*U` is the row-permuted input, with the literal
`1e-40` added where a pivot was zero, up to an error relative to `|L|*|U|`; and the recorded swaps are
in range. -/
theorem C110_lu_M66 {f : Fmt} [L : Libm f] (A M : Mat 6 (Flt f)) (det : Flt f) (indx : Vec 6 ℕ)
    (hl : M66.lu A = .ok (M, det, indx)) (hM : M.AllFin) :
    A.AllFin ∧ (∀ j : Fin 6, j.val ≤ indx j ∧ indx j < 6) ∧ ∃ δ : Fin 6 → ℝ,
      (∀ i, δ i = 0 ∨ (δ i = (L.lit1em40 : Flt f).toReal ∧ M i i = L.lit1em40)) ∧
      ∀ i j, |(M.vals.lowerUnit * M.vals.upper) i j -
          ((A (pivotPerm 6 indx.at 6 i) j).toReal + (if i = j then δ i else 0))| ≤
        ((1 + f.u) ^ min i.val (j.val + 1) - 1) * (M.mags.lowerUnit * M.mags.upper) i j +
        (1 + f.u) ^ min i.val (j.val + 1) * (f.eta *
          ((min i.val (j.val + 1) : ℕ) + if j < i then |(M j j).toReal| else 0)) := by
  rw [M66.lu_gen] at hl
  obtain ⟨h1, h2, -⟩ := main_flt A V6.zero V6.zero last_M66 last_eq_M66 M det indx hl
  obtain ⟨hA, h3⟩ := h2 hM
  exact ⟨hA, h1, h3⟩

/-- C110: the reported determinant is the signed product of the pivots up to rounding. -/
theorem C110_det_M66 {f : Fmt} [Libm f] (A M : Mat 6 (Flt f)) (det : Flt f) (indx : Vec 6 ℕ)
    (hl : M66.lu A = .ok (M, det, indx)) (hd : det.IsFin) (B : ℝ) (hB : ∀ i, |(M i i).toReal| ≤ B) :
    |det.toReal - ((Equiv.Perm.sign (pivotPerm 6 indx.at 6) : ℤ) : ℝ) * ∏ i, (M i i).toReal| ≤
      ((1 + f.u) ^ 6 - 1) * ∏ i, |(M i i).toReal| +
      (1 + f.u) ^ 6 * (f.eta * ∑ t ∈ Finset.range 6, B ^ t) := by
  rw [M66.lu_gen] at hl
  exact (main_flt A V6.zero V6.zero last_M66 last_eq_M66 M det indx hl).2.2 B hB hd

example {f : Fmt} [L : Libm f] (ht : (L.lit1em40 : Flt f).IsFin) (h0 : (L.lit1em40 : Flt f).toReal ≠ 0) :
    ∃ M det indx, M66.lu (onesM f 6) = .ok (M, det, indx) ∧ M.AllFin := by
  rw [M66.lu_gen]
  exact ones_flt (by norm_num) V6.zero V6.zero last_M66 last_eq_M66 ht h0

/-- C111: in floating point, whatever the entries (NaN and infinities included), `lu` panics exactly
when every entry of the first row is zero or NaN, always with its own message; otherwise it returns
row numbers that are in range. -/
theorem C111_lu_M66 {f : Fmt} [Libm f] (A : Mat 6 (Flt f)) :
    ((∀ c, A 0 c = .nan ∨ ROrd.beq (A 0 c) 0 = true) →
      M66.lu A = .error (Panic.explicit "the matrix should be non zero")) ∧
    ((∃ c, A 0 c ≠ .nan ∧ ¬ ROrd.beq (A 0 c) 0 = true) →
      ∃ M det indx, M66.lu A = .ok (M, det, indx) ∧ ∀ j : Fin 6, j.val ≤ indx j ∧ indx j < 6) := by
  rw [M66.lu_gen]
  exact panic_flt (by norm_num) A V6.zero V6.zero last_M66 last_eq_M66

example (f : Fmt) : ∃ c, (⟨fun _ j => if j = 0 then .nan else .inf true⟩ : Mat 6 (Flt f)) 0 c ≠ .nan ∧
    ¬ ROrd.beq ((⟨fun _ j => if j = 0 then .nan else .inf true⟩ : Mat 6 (Flt f)) 0 c) 0 = true := by
  refine ⟨1, ?_⟩
  rw [Flt.beq_zero_iff]
  exact ⟨(fun h => by cases h), fun h => h.1⟩

end StaticMath
