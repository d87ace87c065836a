#!/usr/bin/env python3
"""lean/Verif/Lemmas/Eval.lean: the model functions commute with evaluating expressions."""
out = []
w = out.append
w('''import Verif.Ieee.Sim
import Verif.Lemmas.Attr
import Verif.Spec.Same
import Verif.Lemmas.IeeeExpr

/-!
# Model functions commute with evaluating expressions

Generated by `tools/gen_eval.py`. Every equation holds by unfolding: the model functions are generic
in the element type.
-/

namespace StaticMath
open Flt
variable {ι : Type} {f : Fmt}

/-- Evaluate every entry. -/
noncomputable def Mat.ev {n : ℕ} (x : ι → Flt f) (M : Mat n (Ex ι)) : Mat n (Flt f) :=
  ⟨fun i j => (M i j).evalF x⟩
/-- Evaluate every component. -/
noncomputable def Vec.ev {n : ℕ} (x : ι → Flt f) (v : Vec n (Ex ι)) : Vec n (Flt f) :=
  ⟨fun i => (v i).evalF x⟩
/-- Evaluate every component. -/
noncomputable def Quat.ev (x : ι → Flt f) (q : Quat (Ex ι)) : Quat (Flt f) :=
  ⟨q.q0.evalF x, q.q.ev x, q.normalized⟩
/-- Evaluate every component. -/
noncomputable def DQuat.ev (x : ι → Flt f) (q : DQuat (Ex ι)) : DQuat (Flt f) :=
  ⟨q.q_real.ev x, q.q_dual.ev x, q.normalized⟩

variable (x : ι → Flt f)
''')
MX = '  refine Mat.ext (funext fun i => funext fun j => ?_)\n  fin_cases i <;> fin_cases j <;> rfl'
VX = '  refine Vec.ext (funext fun i => ?_)\n  fin_cases i <;> rfl'
def thm(name, binders, lhs, rhs, proof='rfl'):
    pr = 'rfl' if proof == 'rfl' else 'by\n' + proof
    w(f'@[ev] theorem {name} {binders} :\n    {lhs} = {rhs} := {pr}\n')
w('@[ev] theorem Ex.ev_zero : (0 : Ex ι).evalF x = 0 := rfl\n@[ev] theorem Ex.ev_one : (1 : Ex ι).evalF x = 1 := rfl\n'
  '@[ev] theorem Ex.ev_neg (a : Ex ι) : (-a).evalF x = -a.evalF x := rfl\n'
  '@[ev] theorem Ex.ev_add (a b : Ex ι) : (a + b).evalF x = a.evalF x + b.evalF x := rfl\n'
  '@[ev] theorem Ex.ev_sub (a b : Ex ι) : (a - b).evalF x = a.evalF x - b.evalF x := rfl\n'
  '@[ev] theorem Ex.ev_mul (a b : Ex ι) : (a * b).evalF x = a.evalF x * b.evalF x := rfl\n'
  '@[ev] theorem Ex.ev_var (i : ι) : (Ex.var i).evalF x = x i := rfl\n')
for n in range(2, 7):
    V = f'V{n}'; M = f'M{n}{n}'; mt = f'Mat {n} (Ex ι)'; vt = f'Vec {n} (Ex ι)'
    for op in ('zero',):
        thm(f'{V}.{op}_ev', '', f'({V}.{op} : {vt}).ev x', f'{V}.{op}', VX)
    for op in ('add', 'sub'):
        thm(f'{V}.{op}_ev', f'(a b : {vt})', f'({V}.{op} a b).ev x', f'{V}.{op} (a.ev x) (b.ev x)', VX)
    thm(f'{V}.neg_ev', f'(a : {vt})', f'({V}.neg a).ev x', f'{V}.neg (a.ev x)', VX)
    thm(f'{V}.smul_ev', f'(a : {vt}) (c : Ex ι)', f'({V}.smul a c).ev x', f'{V}.smul (a.ev x) (c.evalF x)', VX)
    thm(f'{V}.dot_ev', f'(a b : {vt})', f'({V}.dot a b).evalF x', f'{V}.dot (a.ev x) (b.ev x)')
    thm(f'{V}.mulMat_ev', f'(a : {vt}) (B : {mt})', f'({V}.mulMat a B).ev x', f'{V}.mulMat (a.ev x) (B.ev x)', VX)
    for op in ('zero', 'one'):
        thm(f'{M}.{op}_ev', '', f'({M}.{op} : {mt}).ev x', f'{M}.{op}', MX)
    for op in ('add', 'sub', 'mul'):
        thm(f'{M}.{op}_ev', f'(A B : {mt})', f'({M}.{op} A B).ev x', f'{M}.{op} (A.ev x) (B.ev x)', MX)
    for op in ('neg', 'transpose'):
        thm(f'{M}.{op}_ev', f'(A : {mt})', f'({M}.{op} A).ev x', f'{M}.{op} (A.ev x)', MX)
    thm(f'{M}.smul_ev', f'(A : {mt}) (c : Ex ι)', f'({M}.smul A c).ev x', f'{M}.smul (A.ev x) (c.evalF x)', MX)
    thm(f'{M}.mulVec_ev', f'(A : {mt}) (v : {vt})', f'({M}.mulVec A v).ev x', f'{M}.mulVec (A.ev x) (v.ev x)', VX)
    thm(f'{M}.trace_ev', f'(A : {mt})', f'({M}.trace A).evalF x', f'{M}.trace (A.ev x)')
    if n >= 5: w('set_option maxRecDepth 20000 in')
    thm(f'{M}.det_ev', f'(A : {mt})', f'({M}.det A).evalF x', f'{M}.det (A.ev x)')
w('/-! ## vectors in space, quaternions -/\n')
thm('V3.cross_ev', '(a b : Vec 3 (Ex ι))', '(V3.cross a b).ev x', 'V3.cross (a.ev x) (b.ev x)', VX)
Q = 'Quat (Ex ι)'
def q(name, binders, lhs, rhs):
    thm(name, binders, lhs, rhs, '  refine Quat.ext rfl (Vec.ext (funext fun i => ?_)) rfl\n  fin_cases i <;> rfl')
q('Quat.one_ev', '', '(Quat.one : Quat (Ex ι)).ev x', 'Quat.one')
q('Quat.zero_ev', '', '(Quat.zero : Quat (Ex ι)).ev x', 'Quat.zero')
for op in ('add', 'sub', 'mul'):
    q(f'Quat.{op}_ev', f'(p q : {Q})', f'(p.{op} q).ev x', f'(p.ev x).{op} (q.ev x)')
for op in ('neg', 'conj'):
    q(f'Quat.{op}_ev', f'(q : {Q})', f'(q.{op}).ev x', f'(q.ev x).{op}')
q('Quat.smul_ev', f'(q : {Q}) (c : Ex ι)', '(q.smul c).ev x', '(q.ev x).smul (c.evalF x)')
thm('Quat.new_imag_ev', '(v : Vec 3 (Ex ι))', '(Quat.new_imag v).ev x', 'Quat.new_imag (v.ev x)')
thm('Quat.real_ev', f'(q : {Q})', 'q.real.evalF x', '(q.ev x).real')
thm('Quat.imag_ev', f'(q : {Q})', 'q.imag.ev x', '(q.ev x).imag')
thm('Quat.dot_ev', f'(p q : {Q})', '(p.dot q).evalF x', '(p.ev x).dot (q.ev x)')
thm('Quat.abs2_ev', f'(q : {Q})', 'q.abs2.evalF x', '(q.ev x).abs2')
thm('Quat.mulVec_ev', f'(q : {Q}) (v : Vec 3 (Ex ι))', '(q.mulVec v).ev x', '(q.ev x).mulVec (v.ev x)', VX)
thm('Quat.to_rotation_ev', f'(q : {Q})', 'q.to_rotation.ev x', '(q.ev x).to_rotation', MX)
w('/-! ## dual quaternions -/\n')
D = 'DQuat (Ex ι)'
def d(name, binders, lhs, rhs, defs):
    thm(name, binders, lhs, rhs, f'  refine DQuat.ext ?_ ?_ rfl\n  · exact Quat.ext rfl (Vec.ext (funext fun i => by fin_cases i <;> rfl)) rfl\n  · exact Quat.ext rfl (Vec.ext (funext fun i => by fin_cases i <;> rfl)) rfl')
d('DQuat.one_ev', '', '(DQuat.one : DQuat (Ex ι)).ev x', 'DQuat.one', '')
for op in ('add', 'sub', 'mul'):
    d(f'DQuat.{op}_ev', f'(p q : {D})', f'(p.{op} q).ev x', f'(p.ev x).{op} (q.ev x)', '')
for op in ('neg', 'conj', 'conj_as_dual', 'conj_combined'):
    d(f'DQuat.{op}_ev', f'(q : {D})', f'(q.{op}).ev x', f'(q.ev x).{op}', '')
d('DQuat.new_from_point_ev', '(v : Vec 3 (Ex ι))', '(DQuat.new_from_point v).ev x', 'DQuat.new_from_point (v.ev x)', '')
d('DQuat.new_from_rotation_ev', '(q : Quat (Ex ι))', '(DQuat.new_from_rotation q).ev x', 'DQuat.new_from_rotation (q.ev x)', '')
thm('DQuat.real_ev', f'(q : {D})', 'q.real.ev x', '(q.ev x).real')
thm('DQuat.dual_ev', f'(q : {D})', 'q.dual.ev x', '(q.ev x).dual')
thm('DQuat.get_translation_ev', f'(q : {D})', 'q.get_translation.ev x', '(q.ev x).get_translation', VX)
thm('DQuat.transform_point_ev', f'(q : {D}) (v : Vec 3 (Ex ι))', '(q.transform_point v).ev x', '(q.ev x).transform_point (v.ev x)', VX)
w('/-! ## transformations -/\n')
thm('DQuat.to_homogeneous_ev', f'(q : {D})', 'q.to_homogeneous.ev x', '(q.ev x).to_homogeneous', MX)
thm('homogeneous_from_rotation_ev', '(R : Mat 3 (Ex ι)) (p : Vec 3 (Ex ι))', '(homogeneous_from_rotation R p).ev x',
    'homogeneous_from_rotation (R.ev x) (p.ev x)', MX)
thm('homogeneous_inverse_ev', '(H : Mat 4 (Ex ι))', '(homogeneous_inverse H).ev x', 'homogeneous_inverse (H.ev x)', MX)
thm('skew_from_vec_ev', '(v : Vec 3 (Ex ι))', '(skew_from_vec v).ev x', 'skew_from_vec (v.ev x)', MX)
thm('screw_to_axis_ev', '(q s : Vec 3 (Ex ι)) (h : Ex ι)', '(screw_to_axis q s h).ev x', 'screw_to_axis (q.ev x) (s.ev x) (h.evalF x)', VX)
thm('translation_2d_ev', '(a b : Ex ι)', '(translation_2d a b).ev x', 'translation_2d (a.evalF x) (b.evalF x)', MX)
thm('translation_3d_ev', '(a b c : Ex ι)', '(translation_3d a b c).ev x', 'translation_3d (a.evalF x) (b.evalF x) (c.evalF x)', MX)
w('''/-! ## variables -/

/-- A matrix of variables. -/
def Mat.vr {n : ℕ} (g : Fin n × Fin n → ι) : Mat n (Ex ι) := ⟨fun i j => .var (g (i, j))⟩
/-- A vector of variables. -/
def Vec.vr {n : ℕ} (g : Fin n → ι) : Vec n (Ex ι) := ⟨fun i => .var (g i)⟩
/-- A quaternion of variables. -/
def Quat.vr (g : Fin 4 → ι) : Quat (Ex ι) := ⟨.var (g 0), ⟨fun i => .var (g i.succ)⟩, false⟩
/-- A dual quaternion of variables. -/
def DQuat.vr (g : Fin 2 × Fin 4 → ι) : DQuat (Ex ι) :=
  ⟨Quat.vr fun i => g (0, i), Quat.vr fun i => g (1, i), false⟩

/-- The entries of a matrix. -/
def Mat.fl {n : ℕ} {T : Type} (A : Mat n T) : Fin n × Fin n → T := fun q => A q.1 q.2
/-- The components of a vector. -/
def Vec.fl {n : ℕ} {T : Type} (v : Vec n T) : Fin n → T := fun i => v i
/-- The components of a quaternion. -/
def Quat.fl {T : Type} (q : Quat T) : Fin 4 → T := Fin.cons q.q0 q.q.val
/-- The components of a dual quaternion. -/
def DQuat.fl {T : Type} (q : DQuat T) : Fin 2 × Fin 4 → T :=
  fun i => if i.1 = 0 then q.q_real.fl i.2 else q.q_dual.fl i.2

/-- The components without the flag. -/
def Quat.unflag {T : Type} (q : Quat T) : Quat T := ⟨q.q0, q.q, false⟩
/-- The components without the flags. -/
def DQuat.unflag {T : Type} (q : DQuat T) : DQuat T := ⟨q.q_real.unflag, q.q_dual.unflag, false⟩
''')
for K, bind, X, un in (('Mat', '{n : ℕ} (A : Mat n (Flt f))', 'A', ''), ('Vec', '{n : ℕ} (A : Vec n (Flt f))', 'A', ''),
                   ('Quat', '(A : Quat (Flt f))', 'A', '.unflag'), ('DQuat', '(A : DQuat (Flt f))', 'A', '.unflag')):
    w(f'omit x in\n@[ev] theorem {K}.vr_id {bind} : ({K}.vr id).ev A.fl = A{un} := rfl')
    w(f'omit x in\n@[ev] theorem {K}.vr_inl {{κ : Type}} {bind} (y : κ → Flt f) :\n    ({K}.vr Sum.inl).ev (Sum.elim A.fl y) = A{un} := rfl')
    w(f'omit x in\n@[ev] theorem {K}.vr_inr {{κ : Type}} {bind} (y : κ → Flt f) :\n    ({K}.vr Sum.inr).ev (Sum.elim y A.fl) = A{un} := rfl')
for K in ('Mat', 'Vec'):
    bind = f'{{n : ℕ}} (A : {K} n (Flt f))'
    for nm, g, v in (('ll', '.inl (.inl i)', 'Sum.elim (Sum.elim A.fl y) z'), ('lr', '.inl (.inr i)', 'Sum.elim (Sum.elim y A.fl) z'),
                     ('rl', '.inr (.inl i)', 'Sum.elim y (Sum.elim A.fl z)'), ('rr', '.inr (.inr i)', 'Sum.elim y (Sum.elim z A.fl)')):
        w(f'omit x in\n@[ev] theorem {K}.vr_{nm} {{κ ν : Type}} {bind} (y : κ → Flt f) (z : ν → Flt f) :\n    ({K}.vr fun i => {g}).ev ({v}) = A := rfl')
w('''
/-! ## finite inputs -/

omit x in
theorem isFin_elim {κ ν : Type} {y : κ → Flt f} {z : ν → Flt f} (hy : ∀ i, (y i).IsFin) (hz : ∀ i, (z i).IsFin) :
    ∀ i, (Sum.elim y z i).IsFin := fun i => by rcases i with i | i <;> [exact hy i; exact hz i]
omit x in
theorem Mat.AllFin.fl {n : ℕ} {A : Mat n (Flt f)} (h : A.AllFin) : ∀ i, (A.fl i).IsFin := fun i => h i.1 i.2
omit x in
theorem Vec.AllFin.fl {n : ℕ} {v : Vec n (Flt f)} (h : v.AllFin) : ∀ i, (v.fl i).IsFin := fun i => h i
omit x in
theorem Quat.AllFin.fl {q : Quat (Flt f)} (h : q.AllFin) : ∀ i, (q.fl i).IsFin :=
  fun i => Fin.cases h.1 (fun j => h.2 j) i
omit x in
theorem DQuat.AllFin.fl {q : DQuat (Flt f)} (h : q.AllFin) : ∀ i, (q.fl i).IsFin := fun i => by
  unfold DQuat.fl
  split
  · exact h.1.fl i.2
  · exact h.2.fl i.2

/-! ## flags do not matter -/

''')
def u(name, b, l, r):
    w(f'omit x in\n@[ev] theorem {name} {b} : {l} = {r} := rfl')
for op in ('add', 'sub', 'mul', 'dot'):
    u(f'Quat.{op}_unflag_left', '(p q : Quat (Flt f))', f'p.unflag.{op} q', f'p.{op} q')
    u(f'Quat.{op}_unflag_right', '(p q : Quat (Flt f))', f'p.{op} q.unflag', f'p.{op} q')
for op in ('neg', 'conj', 'abs2', 'to_rotation', 'q0', 'q', 'real', 'imag'):
    u(f'Quat.{op}_unflag', '(p : Quat (Flt f))', f'p.unflag.{op}', f'p.{op}')
u('Quat.mulVec_unflag', '(p : Quat (Flt f)) (v : Vec 3 (Flt f))', 'p.unflag.mulVec v', 'p.mulVec v')
for op in ('add', 'sub', 'mul'):
    u(f'DQuat.{op}_unflag_left', '(p q : DQuat (Flt f))', f'p.unflag.{op} q', f'p.{op} q')
    u(f'DQuat.{op}_unflag_right', '(p q : DQuat (Flt f))', f'p.{op} q.unflag', f'p.{op} q')
for op in ('neg', 'conj', 'conj_as_dual', 'conj_combined', 'get_translation', 'to_homogeneous'):
    if op == 'conj_as_dual': continue
    u(f'DQuat.{op}_unflag', '(p : DQuat (Flt f))', f'p.unflag.{op}', f'p.{op}')
u('DQuat.real_unflag', '(p : DQuat (Flt f))', 'p.unflag.q_real', 'p.q_real.unflag')
u('DQuat.dual_unflag', '(p : DQuat (Flt f))', 'p.unflag.q_dual', 'p.q_dual.unflag')
u('DQuat.transform_point_unflag', '(p : DQuat (Flt f)) (v : Vec 3 (Flt f))', 'p.unflag.transform_point v', 'p.transform_point v')
w('''


omit x in
@[ev] theorem Quat.same_unflag_left (p q : Quat (Flt f)) : p.unflag.Same q ↔ p.Same q := Iff.rfl
omit x in
@[ev] theorem Quat.same_unflag_right (p q : Quat (Flt f)) : p.Same q.unflag ↔ p.Same q := Iff.rfl
omit x in
@[ev] theorem DQuat.same_unflag_left (p q : DQuat (Flt f)) : p.unflag.Same q ↔ p.Same q := Iff.rfl
omit x in
@[ev] theorem DQuat.same_unflag_right (p q : DQuat (Flt f)) : p.Same q.unflag ↔ p.Same q := Iff.rfl

/-! ## comparing results -/

variable [Coded ι]

/-- Equal up to commutativity and signs, entry by entry. -/
def Mat.simEq {n : ℕ} (z : Ex.Mode) (A B : Mat n (Ex ι)) : Bool :=
  (List.finRange n).all fun i => (List.finRange n).all fun j => Ex.simEq z (A i j) (B i j)
/-- Equal up to commutativity and signs, component by component. -/
def Vec.simEq {n : ℕ} (z : Ex.Mode) (v w : Vec n (Ex ι)) : Bool :=
  (List.finRange n).all fun i => Ex.simEq z (v i) (w i)
/-- Equal up to commutativity and signs, component by component. -/
def Quat.simEq (z : Ex.Mode) (p q : Quat (Ex ι)) : Bool := Ex.simEq z p.q0 q.q0 && p.q.simEq z q.q
/-- Equal up to commutativity and signs, component by component. -/
def DQuat.simEq (z : Ex.Mode) (p q : DQuat (Ex ι)) : Bool := p.q_real.simEq z q.q_real && p.q_dual.simEq z q.q_dual

theorem Mat.same_of {n : ℕ} {A B : Mat n (Ex ι)} (h : A.simEq .none B = true) : (A.ev x).Same (B.ev x) := by
  intro i j
  simp only [Mat.simEq, List.all_eq_true, List.mem_finRange, forall_const] at h
  exact Ex.same_of x (h i j)

theorem Vec.same_of {n : ℕ} {v w : Vec n (Ex ι)} (h : v.simEq .none w = true) : (v.ev x).Same (w.ev x) := by
  intro i
  simp only [Vec.simEq, List.all_eq_true, List.mem_finRange, forall_const] at h
  exact Ex.same_of x (h i)

theorem Quat.same_of {p q : Quat (Ex ι)} (h : p.simEq .none q = true) : (p.ev x).Same (q.ev x) := by
  rw [Quat.simEq, Bool.and_eq_true] at h
  exact ⟨Ex.same_of x h.1, Vec.same_of x h.2⟩

theorem DQuat.same_of {p q : DQuat (Ex ι)} (h : p.simEq .none q = true) : (p.ev x).Same (q.ev x) := by
  rw [DQuat.simEq, Bool.and_eq_true] at h
  exact ⟨Quat.same_of x h.1, Quat.same_of x h.2⟩

theorem Mat.same_of_fin {n : ℕ} {A B : Mat n (Ex ι)} (h : A.simEq .result B = true) (ha : (A.ev x).AllFin) :
    (A.ev x).Same (B.ev x) := by
  intro i j
  simp only [Mat.simEq, List.all_eq_true, List.mem_finRange, forall_const] at h
  exact Ex.same_of_fin x (h i j) (ha i j)

theorem Vec.same_of_fin {n : ℕ} {v w : Vec n (Ex ι)} (h : v.simEq .result w = true) (ha : (v.ev x).AllFin) :
    (v.ev x).Same (w.ev x) := by
  intro i
  simp only [Vec.simEq, List.all_eq_true, List.mem_finRange, forall_const] at h
  exact Ex.same_of_fin x (h i) (ha i)

theorem Quat.same_of_fin {p q : Quat (Ex ι)} (h : p.simEq .result q = true) (ha : (p.ev x).AllFin) :
    (p.ev x).Same (q.ev x) := by
  rw [Quat.simEq, Bool.and_eq_true] at h
  exact ⟨Ex.same_of_fin x h.1 ha.1, Vec.same_of_fin x h.2 ha.2⟩

theorem DQuat.same_of_fin {p q : DQuat (Ex ι)} (h : p.simEq .result q = true) (ha : (p.ev x).AllFin) :
    (p.ev x).Same (q.ev x) := by
  rw [DQuat.simEq, Bool.and_eq_true] at h
  exact ⟨Quat.same_of_fin x h.1 ha.1, Quat.same_of_fin x h.2 ha.2⟩

theorem Mat.same_of_inputs {n : ℕ} {A B : Mat n (Ex ι)} (h : A.simEq .inputs B = true) (hx : ∀ i, (x i).IsFin) :
    (A.ev x).Same (B.ev x) := by
  intro i j
  simp only [Mat.simEq, List.all_eq_true, List.mem_finRange, forall_const] at h
  exact Ex.same_of_inputs x (h i j) hx

theorem Vec.same_of_inputs {n : ℕ} {v w : Vec n (Ex ι)} (h : v.simEq .inputs w = true) (hx : ∀ i, (x i).IsFin) :
    (v.ev x).Same (w.ev x) := by
  intro i
  simp only [Vec.simEq, List.all_eq_true, List.mem_finRange, forall_const] at h
  exact Ex.same_of_inputs x (h i) hx

theorem Quat.same_of_inputs {p q : Quat (Ex ι)} (h : p.simEq .inputs q = true) (hx : ∀ i, (x i).IsFin) :
    (p.ev x).Same (q.ev x) := by
  rw [Quat.simEq, Bool.and_eq_true] at h
  exact ⟨Ex.same_of_inputs x h.1 hx, Vec.same_of_inputs x h.2 hx⟩

theorem DQuat.same_of_inputs {p q : DQuat (Ex ι)} (h : p.simEq .inputs q = true) (hx : ∀ i, (x i).IsFin) :
    (p.ev x).Same (q.ev x) := by
  rw [DQuat.simEq, Bool.and_eq_true] at h
  exact ⟨Quat.same_of_inputs x h.1 hx, Quat.same_of_inputs x h.2 hx⟩

''')
w('end StaticMath')
print('\n'.join(out))
