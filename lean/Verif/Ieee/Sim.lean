import Verif.Lemmas.IeeeExpr
import Mathlib.Data.Nat.Pairing

/-!
# Symmetries of floating point expressions

Rounding to nearest is symmetric in the sign, so negation can be moved through sums and products
without changing more than the sign of a zero. `nf` is a normal form of an expression under
commutativity, these sign rules and (if no operation overflows) the rules for zero; expressions
with the same normal form have the same value.
-/

namespace StaticMath
namespace Flt
variable {f : Fmt}

/-- The same number: `==`, or both NaN. -/
def Same (a b : Flt f) : Prop := (a = nan ∧ b = nan) ∨ ROrd.beq a b = true

/-- A float without the sign of its zero. -/
inductive FVal where
  | nan
  | inf (neg : Bool)
  | real (r : ℝ)

noncomputable def cls : Flt f → FVal
  | nan => .nan
  | inf s => .inf s
  | fin s x _ => .real (sgn s x)

theorem same_iff {a b : Flt f} : Same a b ↔ cls a = cls b := by
  unfold Same
  rcases a with _ | s | ⟨s, x, hx⟩ <;> rcases b with _ | t | ⟨t, y, hy⟩ <;>
    simp [cls, ROrd.beq, beq]

namespace FVal

def neg : FVal → FVal
  | nan => nan
  | inf s => inf (!s)
  | real r => real (-r)

theorem neg_neg (a : FVal) : neg (neg a) = a := by cases a <;> simp [neg]

/-- A real number rounded to the format. -/
noncomputable def round (f : Fmt) (r : ℝ) : FVal :=
  open Classical in
  if f.rnd |r| < (2 : ℝ) ^ (f.emax + 1) then real (sgn (decide (r < 0)) (f.rnd |r|)) else inf (decide (r < 0))

noncomputable def add (f : Fmt) : FVal → FVal → FVal
  | nan, _ => nan
  | _, nan => nan
  | inf s, inf t => if s = t then inf s else nan
  | inf s, real _ => inf s
  | real _, inf t => inf t
  | real x, real y => round f (x + y)

noncomputable def mul (f : Fmt) : FVal → FVal → FVal
  | nan, _ => nan
  | _, nan => nan
  | inf s, inf t => inf (s != t)
  | inf s, real y => open Classical in if y = 0 then nan else inf (s != decide (y < 0))
  | real x, inf t => open Classical in if x = 0 then nan else inf (decide (x < 0) != t)
  | real x, real y => round f (x * y)

theorem round_zero (f : Fmt) : round f 0 = real 0 := by
  have : (0 : ℝ) < (2 : ℝ) ^ (f.emax + 1) := by positivity
  simp [round, f.rnd_zero, this, sgn]

theorem round_neg (f : Fmt) (r : ℝ) : round f (-r) = neg (round f r) := by
  rcases eq_or_ne r 0 with rfl | h
  · rw [neg_zero, round_zero]; simp [neg]
  · have h1 : decide (-r < 0) = !decide (r < 0) := by
      rcases lt_or_gt_of_ne h with h | h
      · simp [h, h.le]
      · simp [h, h.le]
    unfold round
    rw [abs_neg, h1]
    split
    · simp only [neg]; rw [sgn_not]
    · simp only [neg]

theorem add_neg (f : Fmt) (a b : FVal) : add f (neg a) (neg b) = neg (add f a b) := by
  rcases a with _ | s | x <;> rcases b with _ | t | y <;> try rfl
  · cases s <;> cases t <;> rfl
  · show round f (-x + -y) = neg (round f (x + y))
    rw [← round_neg, neg_add]

theorem mul_neg (f : Fmt) (a b : FVal) : mul f (neg a) b = neg (mul f a b) := by
  rcases a with _ | s | x <;> rcases b with _ | t | y <;> try rfl
  · cases s <;> cases t <;> rfl
  · simp only [neg, mul]
    split
    · rfl
    · cases s <;> simp
  · simp only [neg, mul, neg_eq_zero]
    split
    · rfl
    · rename_i h
      have h1 : decide (-x < 0) = !decide (x < 0) := by
        rcases lt_or_gt_of_ne h with h | h
        · simp [h, h.le]
        · simp [h, h.le]
      rw [h1]; cases decide (x < 0) <;> cases t <;> rfl
  · show round f (-x * y) = neg (round f (x * y))
    rw [← round_neg, neg_mul]

end FVal

theorem cls_neg (a : Flt f) : cls (-a) = (cls a).neg := by
  rcases a with _ | s | ⟨s, x, hx⟩
  · rfl
  · rfl
  · show FVal.real (sgn (!s) x) = FVal.real (-sgn s x)
    rw [sgn_not]

theorem cls_ofReal (z : Bool) (r : ℝ) : cls (ofReal f z r) = FVal.round f r := by
  rcases eq_or_ne r 0 with rfl | h
  · have : (0 : ℝ) < (2 : ℝ) ^ (f.emax + 1) := by positivity
    simp [ofReal, pack, FVal.round, f.rnd_zero, this, cls, sgn]
  · unfold ofReal pack FVal.round
    rw [if_neg h]
    by_cases h2 : f.rnd |r| < (2 : ℝ) ^ (f.emax + 1)
    · rw [dif_pos ⟨abs_nonneg r, h2⟩, if_pos h2]
      rfl
    · rw [dif_neg (fun h => h2 h.2), if_neg h2]
      rfl

theorem cls_add (a b : Flt f) : cls (a + b) = FVal.add f (cls a) (cls b) := by
  rcases a with _ | s | ⟨s, x, hx⟩ <;> rcases b with _ | t | ⟨t, y, hy⟩ <;> try rfl
  · show cls (if s = t then inf s else nan) = if s = t then FVal.inf s else FVal.nan
    split <;> rfl
  · exact cls_ofReal _ _

theorem cls_sub (a b : Flt f) : cls (a - b) = FVal.add f (cls a) (cls b).neg := by
  rw [← cls_neg]; exact cls_add a (-b)

theorem cls_pack (s t : Bool) {x y : ℝ} (hx : 0 ≤ x) (hy : 0 ≤ y) :
    cls (pack f (s != t) (x * y)) = FVal.round f (sgn s x * sgn t y) := by
  rw [← sgn_xor]
  have hxy := mul_nonneg hx hy
  generalize x * y = z at *
  generalize (s != t) = b
  rcases hxy.eq_or_lt with rfl | h
  · have : (0 : ℝ) < (2 : ℝ) ^ (f.emax + 1) := by positivity
    simp [pack, FVal.round, f.rnd_zero, this, cls, sgn]
  · have h1 : decide (sgn b z < 0) = b := by
      cases b
      · simp [sgn, h.le]
      · simp [sgn, h]
    unfold pack FVal.round
    rw [sgn_abs b hxy, h1]
    by_cases h2 : f.rnd z < (2 : ℝ) ^ (f.emax + 1)
    · rw [dif_pos ⟨hxy, h2⟩, if_pos h2]; rfl
    · rw [dif_neg (fun h => h2 h.2), if_neg h2]; rfl

theorem decide_sgn (s : Bool) {x : ℝ} (hx : 0 ≤ x) (h : x ≠ 0) : decide (sgn s x < 0) = s := by
  have := lt_of_le_of_ne hx h.symm
  cases s
  · simp [sgn, hx]
  · simp [sgn, this]

theorem cls_mul (a b : Flt f) : cls (a * b) = FVal.mul f (cls a) (cls b) := by
  rcases a with _ | s | ⟨s, x, hx⟩ <;> rcases b with _ | t | ⟨t, y, hy⟩ <;> try rfl
  · show cls (if y = 0 then nan else inf (s != t)) =
      if sgn t y = 0 then FVal.nan else FVal.inf (s != decide (sgn t y < 0))
    simp only [sgn_eq_zero]
    split
    · rfl
    · rename_i h
      rw [decide_sgn t hy.nonneg h]; rfl
  · show cls (if x = 0 then nan else inf (s != t)) =
      if sgn s x = 0 then FVal.nan else FVal.inf (decide (sgn s x < 0) != t)
    simp only [sgn_eq_zero]
    split
    · rfl
    · rename_i h
      rw [decide_sgn s hx.nonneg h]; rfl
  · exact cls_pack s t hx.nonneg hy.nonneg

theorem cls_fin {a : Flt f} (h : a.IsFin) : cls a = .real a.toReal := by
  rcases a with _ | s | ⟨s, x, hx⟩
  · exact absurd h (by simp [IsFin])
  · exact absurd h (by simp [IsFin])
  · rfl

theorem isFin_of_cls {a : Flt f} {r : ℝ} (h : cls a = .real r) : a.IsFin ∧ a.toReal = r := by
  rcases a with _ | s | ⟨s, x, hx⟩
  · simp [cls] at h
  · simp [cls] at h
  · simp only [cls, FVal.real.injEq] at h; exact ⟨trivial, h⟩

theorem neg_neg' (a : Flt f) : - -a = a := by
  cases a <;> simp [Neg.neg, neg]
theorem Same.isFin {a b : Flt f} (h : Same a b) (ha : a.IsFin) : b.IsFin ∧ b.toReal = a.toReal := by
  rw [same_iff, cls_fin ha] at h
  exact isFin_of_cls h.symm
theorem Same.refl (a : Flt f) : Same a a := same_iff.2 rfl
theorem Same.symm {a b : Flt f} (h : Same a b) : Same b a := same_iff.2 (same_iff.1 h).symm
theorem Same.trans {a b c : Flt f} (h : Same a b) (h' : Same b c) : Same a c :=
  same_iff.2 ((same_iff.1 h).trans (same_iff.1 h'))

end Flt

/-- Numbers for the variables, to order commutative operands. -/
class Coded (ι : Type) where
  code : ι → ℕ
  inj : ∀ i j, code i = code j → i = j

instance (n : ℕ) : Coded (Fin n) := ⟨fun i => i.val, fun _ _ h => Fin.ext h⟩
instance {ι κ : Type} [Coded ι] [Coded κ] : Coded (ι × κ) :=
  ⟨fun p => Nat.pair (Coded.code p.1) (Coded.code p.2), fun i j h => by
    have := Nat.pair_eq_pair.1 h
    exact Prod.ext (Coded.inj _ _ this.1) (Coded.inj _ _ this.2)⟩
instance {ι κ : Type} [Coded ι] [Coded κ] : Coded (ι ⊕ κ) :=
  ⟨fun s => match s with
    | .inl i => 2 * Coded.code i
    | .inr k => 2 * Coded.code k + 1, fun i j h => by
    rcases i with i | i <;> rcases j with j | j <;> simp only at h
    · exact congrArg Sum.inl (Coded.inj _ _ (by omega))
    · omega
    · omega
    · exact congrArg Sum.inr (Coded.inj _ _ (by omega))⟩
instance : Coded Unit := ⟨fun _ => 0, fun _ _ _ => rfl⟩

namespace Ex
variable {ι : Type} [Coded ι] {f : Fmt}

def cmpN (a b : ℕ) : Ordering := if a < b then .lt else if a = b then .eq else .gt

/-- An arbitrary order of expressions. -/
def cmp : Ex ι → Ex ι → Ordering
  | var i, var j => cmpN (Coded.code i) (Coded.code j)
  | var _, _ => .lt
  | zero, var _ => .gt
  | zero, zero => .eq
  | zero, _ => .lt
  | one, var _ => .gt
  | one, zero => .gt
  | one, one => .eq
  | one, _ => .lt
  | neg a, neg b => cmp a b
  | neg _, add _ _ => .lt
  | neg _, sub _ _ => .lt
  | neg _, mul _ _ => .lt
  | neg _, _ => .gt
  | add a b, add c d => (match cmp a c with | .eq => cmp b d | o => o)
  | add _ _, sub _ _ => .lt
  | add _ _, mul _ _ => .lt
  | add _ _, _ => .gt
  | sub a b, sub c d => (match cmp a c with | .eq => cmp b d | o => o)
  | sub _ _, mul _ _ => .lt
  | sub _ _, _ => .gt
  | mul a b, mul c d => (match cmp a c with | .eq => cmp b d | o => o)
  | mul _ _, _ => .gt

def eqb (a b : Ex ι) : Bool := match cmp a b with | .eq => true | _ => false
def gtb (a b : Ex ι) : Bool := match cmp a b with | .gt => true | _ => false

theorem cmp_eq (a : Ex ι) : ∀ b : Ex ι, cmp a b = .eq → a = b := by
  induction a with
  | var i =>
    intro b h
    cases b <;> simp only [cmp, reduceCtorEq] at h
    rename_i j
    have : Coded.code i = Coded.code j := by
      unfold cmpN at h
      split at h
      · simp at h
      · split at h
        · assumption
        · simp at h
    rw [Coded.inj _ _ this]
  | zero => intro b h; cases b <;> simp only [cmp, reduceCtorEq] at h; rfl
  | one => intro b h; cases b <;> simp only [cmp, reduceCtorEq] at h; rfl
  | neg a ih =>
    intro b h; cases b <;> simp only [cmp, reduceCtorEq] at h
    rw [ih _ h]
  | add a b iha ihb =>
    intro c h; cases c <;> simp only [cmp, reduceCtorEq] at h
    split at h
    · rename_i h1; rw [iha _ h1, ihb _ h]
    · exact absurd h (by assumption)
  | sub a b iha ihb =>
    intro c h; cases c <;> simp only [cmp, reduceCtorEq] at h
    split at h
    · rename_i h1; rw [iha _ h1, ihb _ h]
    · exact absurd h (by assumption)
  | mul a b iha ihb =>
    intro c h; cases c <;> simp only [cmp, reduceCtorEq] at h
    split at h
    · rename_i h1; rw [iha _ h1, ihb _ h]
    · exact absurd h (by assumption)

theorem eqb_eq {a b : Ex ι} (h : eqb a b = true) : a = b := by
  refine cmp_eq a b ?_
  unfold eqb at h
  split at h
  · assumption
  · simp at h

/-! ## Commutativity: the same bits -/

/-- The operands of sums and products in a fixed order. -/
def cnf : Ex ι → Ex ι
  | var i => var i
  | zero => zero
  | one => one
  | neg a => neg (cnf a)
  | add a b => bif gtb (cnf a) (cnf b) then add (cnf b) (cnf a) else add (cnf a) (cnf b)
  | sub a b => sub (cnf a) (cnf b)
  | mul a b => bif gtb (cnf a) (cnf b) then mul (cnf b) (cnf a) else mul (cnf a) (cnf b)

theorem evalF_cnf (x : ι → Flt f) (e : Ex ι) : evalF x (cnf e) = evalF x e := by
  induction e with
  | var i => rfl
  | zero => rfl
  | one => rfl
  | neg a ih => simp only [cnf, evalF, ih]
  | add a b iha ihb =>
    unfold cnf
    cases gtb (cnf a) (cnf b)
    · simp only [cond_false, evalF, iha, ihb]
    · simp only [cond_true, evalF, iha, ihb]; exact Flt.add_comm' _ _
  | sub a b iha ihb => simp only [cnf, evalF, iha, ihb]
  | mul a b iha ihb =>
    unfold cnf
    cases gtb (cnf a) (cnf b)
    · simp only [cond_false, evalF, iha, ihb]
    · simp only [cond_true, evalF, iha, ihb]; exact Flt.mul_comm' _ _

/-- The two expressions differ by the order of the operands of sums and products. -/
def commEq (a b : Ex ι) : Bool := eqb (cnf a) (cnf b)

theorem eq_of_commEq (x : ι → Flt f) {a b : Ex ι} (h : commEq a b = true) : evalF x a = evalF x b := by
  rw [← evalF_cnf x a, ← evalF_cnf x b, eqb_eq h]

/-! ## Signs and zeros: the same number -/

/-- An expression with a sign in front. -/
structure SEx (ι : Type) where
  s : Bool
  e : Ex ι

def isZero : Ex ι → Bool
  | zero => true
  | _ => false

def isOne : Ex ι → Bool
  | one => true
  | _ => false

def isAtom : Ex ι → Bool
  | var _ => true
  | zero => true
  | one => true
  | add a b => isOne a && isOne b
  | _ => false

/-- What may be assumed finite: nothing, the inputs, or all intermediate results. -/
inductive Mode | none | inputs | result

def Mode.ok : Mode → Ex ι → Bool
  | none, _ => false
  | inputs, e => isAtom e
  | result, _ => true

def snMul (z : Mode) (a b : SEx ι) : SEx ι :=
  bif (isZero a.e && z.ok b.e) || (isZero b.e && z.ok a.e) then ⟨false, zero⟩
  else bif isOne a.e then ⟨a.s != b.s, b.e⟩
  else bif isOne b.e then ⟨a.s != b.s, a.e⟩
  else bif gtb a.e b.e then ⟨a.s != b.s, mul b.e a.e⟩ else ⟨a.s != b.s, mul a.e b.e⟩

def snAdd' (a b : SEx ι) : SEx ι :=
  bif a.s == b.s then ⟨a.s, add a.e b.e⟩ else ⟨a.s, sub a.e b.e⟩

def snAdd (z : Mode) (a b : SEx ι) : SEx ι :=
  bif isZero a.e then b
  else bif isZero b.e then a
  else bif z.ok a.e && ((a.s != b.s) && eqb a.e b.e) then ⟨false, zero⟩
  else bif gtb a.e b.e then snAdd' b a else snAdd' a b

def snNeg (a : SEx ι) : SEx ι := bif isZero a.e then a else ⟨!a.s, a.e⟩

/-- Normal form; `z` says which values the rules `0 * e = 0` and `e - e = 0` may assume finite. -/
def nf (z : Mode) : Ex ι → SEx ι
  | var i => ⟨false, var i⟩
  | zero => ⟨false, zero⟩
  | one => ⟨false, one⟩
  | neg a => snNeg (nf z a)
  | add a b => snAdd z (nf z a) (nf z b)
  | sub a b => snAdd z (nf z a) (snNeg (nf z b))
  | mul a b => snMul z (nf z a) (nf z b)

/-- The value of a signed expression. -/
noncomputable def sv (x : ι → Flt f) (a : SEx ι) : Flt f := bif a.s then -evalF x a.e else evalF x a.e

open Flt

omit [Coded ι] in
theorem cls_sv (x : ι → Flt f) (a : SEx ι) :
    cls (sv x a) = bif a.s then (cls (evalF x a.e)).neg else cls (evalF x a.e) := by
  unfold sv
  cases a.s
  · rfl
  · exact cls_neg _

omit [Coded ι] in
theorem isZero_eq {e : Ex ι} (h : isZero e = true) : e = zero := by cases e <;> simp [isZero] at h; rfl
omit [Coded ι] in
theorem isOne_eq {e : Ex ι} (h : isOne e = true) : e = one := by cases e <;> simp [isOne] at h; rfl

theorem cls_zero : cls (0 : Flt f) = .real 0 := by
  show FVal.real (sgn false 0) = _
  simp [sgn]

omit [Coded ι] in
theorem sv_isZero (x : ι → Flt f) {a : SEx ι} (h : isZero a.e = true) : cls (sv x a) = .real 0 := by
  rw [cls_sv, isZero_eq h]
  show (bif a.s then (cls (0 : Flt f)).neg else cls (0 : Flt f)) = _
  rw [cls_zero]
  cases a.s <;> simp [FVal.neg]

omit [Coded ι] in
theorem sv_snNeg (x : ι → Flt f) (a : SEx ι) : cls (sv x (snNeg a)) = (cls (sv x a)).neg := by
  unfold snNeg
  cases h : isZero a.e
  · rw [cond_false, cls_sv, cls_sv]
    cases a.s
    · rfl
    · simp [FVal.neg_neg]
  · rw [cond_true, sv_isZero x h]; simp [FVal.neg]

theorem fadd_comm (a b : FVal) : FVal.add f a b = FVal.add f b a := by
  rcases a with _ | s | r <;> rcases b with _ | t | q <;> try rfl
  · cases s <;> cases t <;> rfl
  · show FVal.round f (r + q) = FVal.round f (q + r); rw [add_comm]

theorem fmul_comm (a b : FVal) : FVal.mul f a b = FVal.mul f b a := by
  rcases a with _ | s | r <;> rcases b with _ | t | q <;> try rfl
  · cases s <;> cases t <;> rfl
  · simp only [FVal.mul]; split
    · rfl
    · cases s <;> cases decide (q < 0) <;> rfl
  · simp only [FVal.mul]; split
    · rfl
    · cases t <;> cases decide (r < 0) <;> rfl
  · show FVal.round f (r * q) = FVal.round f (q * r); rw [mul_comm]

omit [Coded ι] in
theorem sv_snAdd' (x : ι → Flt f) (a b : SEx ι) :
    cls (sv x (snAdd' a b)) = FVal.add f (cls (sv x a)) (cls (sv x b)) := by
  unfold snAdd'
  rw [cls_sv x a, cls_sv x b]
  cases ha : a.s <;> cases hb : b.s
  · rw [cls_sv]; exact cls_add _ _
  · rw [cls_sv]; exact cls_sub _ _
  · rw [cls_sv]
    show (cls (evalF x a.e - evalF x b.e)).neg = FVal.add f (cls (evalF x a.e)).neg (cls (evalF x b.e))
    rw [cls_sub, ← FVal.add_neg, FVal.neg_neg]
  · rw [cls_sv]
    show (cls (evalF x a.e + evalF x b.e)).neg = FVal.add f (cls (evalF x a.e)).neg (cls (evalF x b.e)).neg
    rw [cls_add, FVal.add_neg]

omit [Coded ι] in
theorem sv_add_zero (x : ι → Flt f) {a b : SEx ι} (h : isZero b.e = true) :
    cls (sv x a) = FVal.add f (cls (sv x a)) (cls (sv x b)) := by
  have h8 := isFin_of_cls (sv_isZero x h)
  by_cases hf : (sv x a).IsFin
  · have h9 := add_zero_val hf h8.1 h8.2
    rw [← cls_add, cls_fin h9.1, h9.2, cls_fin hf]
  · rw [sv_isZero x h]
    cases h : sv x a with
    | nan => rfl
    | inf s => rfl
    | fin s m hm => rw [h] at hf; exact absurd trivial hf

theorem sv_snAdd (z : Mode) (x : ι → Flt f) (a b : SEx ι) (ha : z.ok a.e = true → (sv x a).IsFin) :
    cls (sv x (snAdd z a b)) = FVal.add f (cls (sv x a)) (cls (sv x b)) := by
  unfold snAdd
  cases h1 : isZero a.e
  · cases h2 : isZero b.e
    · cases h3 : z.ok a.e && ((a.s != b.s) && eqb a.e b.e)
      · rw [cond_false, cond_false, cond_false]
        cases gtb a.e b.e
        · exact sv_snAdd' x a b
        · rw [cond_true, sv_snAdd', fadd_comm]
      · rw [cond_false, cond_false, cond_true]
        rw [Bool.and_eq_true, Bool.and_eq_true] at h3
        obtain ⟨hz, h4, h5⟩ := h3
        have h6 := eqb_eq h5
        have h7 : cls (sv x b) = (cls (sv x a)).neg := by
          rw [cls_sv, cls_sv, ← h6]
          revert h4
          cases a.s <;> cases b.s <;> simp [FVal.neg_neg]
        rw [h7, cls_fin (ha hz), sv_isZero x rfl]
        simp [FVal.neg, FVal.add, FVal.round_zero]
    · rw [cond_false, cond_true]
      exact sv_add_zero x h2
  · rw [cond_true, fadd_comm]
    exact sv_add_zero x h1

theorem fmul_signs (s t : Bool) (A B : FVal) :
    FVal.mul f (bif s then A.neg else A) (bif t then B.neg else B) =
      bif (s != t) then (FVal.mul f A B).neg else FVal.mul f A B := by
  have h (A B : FVal) : FVal.mul f A B.neg = (FVal.mul f A B).neg := by
    rw [fmul_comm, FVal.mul_neg, fmul_comm]
  cases s <;> cases t <;> simp [FVal.mul_neg, h, FVal.neg_neg]

theorem sv_snMul (z : Mode) (x : ι → Flt f) (a b : SEx ι)
    (ha : z.ok a.e = true → (sv x a).IsFin) (hb : z.ok b.e = true → (sv x b).IsFin) :
    cls (sv x (snMul z a b)) = FVal.mul f (cls (sv x a)) (cls (sv x b)) := by
  unfold snMul
  cases h1 : (isZero a.e && z.ok b.e) || (isZero b.e && z.ok a.e)
  · rw [cond_false, cls_sv x a, cls_sv x b, fmul_signs]
    cases h2 : isOne a.e
    · cases h3 : isOne b.e
      · rw [cond_false, cond_false]
        cases gtb a.e b.e
        · rw [cond_false, cls_sv]
          show (bif a.s != b.s then (cls (evalF x a.e * evalF x b.e)).neg else cls (evalF x a.e * evalF x b.e)) = _
          rw [cls_mul]
        · rw [cond_true, cls_sv]
          show (bif a.s != b.s then (cls (evalF x b.e * evalF x a.e)).neg else cls (evalF x b.e * evalF x a.e)) = _
          rw [cls_mul, fmul_comm]
      · rw [cond_false, cond_true, cls_sv]
        have : cls (evalF x b.e) = cls (1 : Flt f) := by rw [isOne_eq h3]; rfl
        rw [this, ← cls_mul, mul_one']
    · rw [cond_true, cls_sv]
      have : cls (evalF x a.e) = cls (1 : Flt f) := by rw [isOne_eq h2]; rfl
      rw [this, ← cls_mul, one_mul']
  · rw [cond_true, sv_isZero x rfl]
    rw [Bool.or_eq_true, Bool.and_eq_true, Bool.and_eq_true] at h1
    obtain ⟨h2, hz⟩ | ⟨h2, hz⟩ := h1
    · rw [sv_isZero x h2, cls_fin (hb hz)]; simp [FVal.mul, FVal.round_zero]
    · rw [sv_isZero x h2, cls_fin (ha hz)]; simp [FVal.mul, FVal.round_zero]

omit [Coded ι] in
theorem isFin_two (x : ι → Flt f) : (evalF x (add one one)).IsFin := by
  have h : (evalF (fun i : Empty => (i.elim : Flt f)) (add one one)).IsFin :=
    (exact_of (K := 1) le_rfl (fun i => i.elim) (add one one) rfl rfl (by
      have := f.hp
      calc _ = 2 ^ 1 := by decide
        _ ≤ 2 ^ f.p := Nat.pow_le_pow_right (by norm_num) (by omega))).1
  exact h

omit [Coded ι] in
/-- What `Mode.ok` promises. -/
theorem ok_isFin (z : Mode) (x : ι → Flt f) (hi : z = .inputs → ∀ i, (x i).IsFin) {a : SEx ι}
    (hr : z = .result → (sv x a).IsFin) (h : z.ok a.e = true) : (sv x a).IsFin := by
  cases z with
  | none => exact absurd h (by simp [Mode.ok])
  | result => exact hr rfl
  | inputs =>
    have : (evalF x a.e).IsFin := by
      revert h
      cases a.e with
      | var i => exact fun _ => hi rfl i
      | zero => exact fun _ => (trivial : (0 : Flt f).IsFin)
      | one => exact fun _ => (trivial : (1 : Flt f).IsFin)
      | neg a => exact fun h => absurd h (by simp [Mode.ok, isAtom])
      | add a b =>
        intro h
        rw [Mode.ok, isAtom, Bool.and_eq_true] at h
        rw [isOne_eq h.1, isOne_eq h.2]
        exact isFin_two x
      | sub a b => exact fun h => absurd h (by simp [Mode.ok, isAtom])
      | mul a b => exact fun h => absurd h (by simp [Mode.ok, isAtom])
    unfold sv
    cases a.s
    · exact this
    · exact isFin_neg.2 this

theorem nf_sound (z : Mode) (x : ι → Flt f) (e : Ex ι) (hi : z = .inputs → ∀ i, (x i).IsFin)
    (h : z = .result → (evalF x e).IsFin) : cls (evalF x e) = cls (sv x (nf z e)) := by
  have fin {e : Ex ι} (h1 : z = .result → (evalF x e).IsFin) (h2 : cls (evalF x e) = cls (sv x (nf z e))) :
      z.ok (nf z e).e = true → (sv x (nf z e)).IsFin :=
    ok_isFin z x hi fun hz => (isFin_of_cls (h2.symm.trans (cls_fin (h1 hz)))).1
  induction e with
  | var i => rfl
  | zero => rfl
  | one => rfl
  | neg a ih =>
    have h1 : z = .result → (evalF x a).IsFin := fun hz => isFin_neg.1 (h hz)
    show cls (-evalF x a) = cls (sv x (snNeg (nf z a)))
    rw [cls_neg, sv_snNeg, ih h1]
  | add a b iha ihb =>
    have h1 : z = .result → (evalF x a).IsFin := fun hz => (isFin_of_add (h hz)).1
    have h2 : z = .result → (evalF x b).IsFin := fun hz => (isFin_of_add (h hz)).2
    show cls (evalF x a + evalF x b) = cls (sv x (snAdd z (nf z a) (nf z b)))
    rw [sv_snAdd z x _ _ (fin h1 (iha h1)), cls_add, iha h1, ihb h2]
  | sub a b iha ihb =>
    have h1 : z = .result → (evalF x a).IsFin := fun hz => (isFin_of_sub (h hz)).1
    have h2 : z = .result → (evalF x b).IsFin := fun hz => (isFin_of_sub (h hz)).2
    show cls (evalF x a - evalF x b) = cls (sv x (snAdd z (nf z a) (snNeg (nf z b))))
    rw [sv_snAdd z x _ _ (fin h1 (iha h1)), cls_sub, sv_snNeg, iha h1, ihb h2]
  | mul a b iha ihb =>
    have h1 : z = .result → (evalF x a).IsFin := fun hz => (isFin_of_mul (h hz)).1
    have h2 : z = .result → (evalF x b).IsFin := fun hz => (isFin_of_mul (h hz)).2
    show cls (evalF x a * evalF x b) = cls (sv x (snMul z (nf z a) (nf z b)))
    rw [sv_snMul z x _ _ (fin h1 (iha h1)) (fin h2 (ihb h2)), cls_mul, iha h1, ihb h2]

/-- The two expressions have the same normal form; `z` enables the finiteness rules on the left. -/
def simEq (z : Mode) (a b : Ex ι) : Bool :=
  ((nf z a).s == (nf .none b).s) && eqb (nf z a).e (nf .none b).e

theorem same_of_nf {z : Mode} (x : ι → Flt f) {a b : Ex ι} (h : simEq z a b = true)
    (hi : z = .inputs → ∀ i, (x i).IsFin) (ha : z = .result → (evalF x a).IsFin) :
    Same (evalF x a) (evalF x b) := by
  rw [same_iff, nf_sound z x a hi ha, nf_sound .none x b (fun h => by simp at h) (fun h => by simp at h)]
  unfold simEq at h
  rw [Bool.and_eq_true, beq_iff_eq] at h
  rw [cls_sv, cls_sv, h.1, eqb_eq h.2]

/-- Equal up to commutativity and signs: the same number, for all inputs. -/
theorem same_of (x : ι → Flt f) {a b : Ex ι} (h : simEq .none a b = true) : Same (evalF x a) (evalF x b) :=
  same_of_nf x h (fun h => by simp at h) (fun h => by simp at h)

/-- Equal up to commutativity, signs and zeros: the same number if the first result is finite. -/
theorem same_of_fin (x : ι → Flt f) {a b : Ex ι} (h : simEq .result a b = true)
    (ha : (evalF x a).IsFin) : Same (evalF x a) (evalF x b) :=
  same_of_nf x h (fun h => by simp at h) (fun _ => ha)

/-- Equal up to commutativity, signs and zeros: the same number if the inputs are finite. -/
theorem same_of_inputs (x : ι → Flt f) {a b : Ex ι} (h : simEq .inputs a b = true)
    (hx : ∀ i, (x i).IsFin) : Same (evalF x a) (evalF x b) :=
  same_of_nf x h (fun _ => hx) (fun h => by simp at h)

omit [Coded ι] in
/-- The value of the result depends on the values of the inputs only. -/
theorem evalF_congr {x y : ι → Flt f} (h : ∀ i, Same (x i) (y i)) (e : Ex ι) : Same (evalF x e) (evalF y e) := by
  rw [same_iff]
  induction e with
  | var i => exact same_iff.1 (h i)
  | zero => rfl
  | one => rfl
  | neg a ih => exact (cls_neg _).trans ((congrArg _ ih).trans (cls_neg _).symm)
  | add a b iha ihb => exact (cls_add _ _).trans ((congrArg₂ _ iha ihb).trans (cls_add _ _).symm)
  | sub a b iha ihb =>
    exact (cls_sub _ _).trans ((congrArg₂ (fun u v => FVal.add f u v.neg) iha ihb).trans (cls_sub _ _).symm)
  | mul a b iha ihb => exact (cls_mul _ _).trans ((congrArg₂ _ iha ihb).trans (cls_mul _ _).symm)

end Ex
end StaticMath
