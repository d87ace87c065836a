import Verif.Ieee.Comp
import Verif.Lemmas.Loop
import Verif.Lemmas.Views

/-!
# Running the model on computable floats

If two element types are related and the relation is kept by the arithmetic, then `qr` and `det` on related
inputs give related results. Applied to `BF.Den` this turns the evaluation of the model on `BF f` into a
theorem about the model on `Flt f`.
-/

namespace StaticMath

/-- `num::Float` for computable floats. The functions IEEE 754 does not fix are not available: they return
NaN here and nothing is proved about them. -/
instance BF.rfloat {f : Fmt} : RFloat (BF f) where
  sqrt := BF.sqrt
  recip x := 1 / x
  sin _ := .nan
  cos _ := .nan
  tan _ := .nan
  acos _ := .nan
  exp _ := .nan
  ln _ := .nan
  atan2 _ _ := .nan
  min a b := match a, b with
    | .nan, b => b
    | a, .nan => a
    | a, b => if ROrd.lt b a then b else a
  epsilon := .fin false 1 (1 - f.p)
  min_value := .fin true (2 ^ f.p - 1) (f.emax - f.p + 1)
  max_value := .fin false (2 ^ f.p - 1) (f.emax - f.p + 1)
  infinity := .inf false
  pi := .nan
  frac_pi_2 := .nan
  lit2 := 1 + 1
  lit4 := (1 + 1) + (1 + 1)
  lit1em40 := .nan
  lit0001 := .nan
  lit1em6 := .nan

/-- A relation between two element types which the arithmetic keeps. -/
structure Related (T S : Type) [Add T] [Sub T] [Mul T] [Div T] [Neg T] [Zero T] [One T] [RAbs T] [ROrd T] [RFloat T]
    [Add S] [Sub S] [Mul S] [Div S] [Neg S] [Zero S] [One S] [RAbs S] [ROrd S] [RFloat S] (R : T → S → Prop) : Prop where
  add : ∀ {a b x y}, R a x → R b y → R (a + b) (x + y)
  sub : ∀ {a b x y}, R a x → R b y → R (a - b) (x - y)
  mul : ∀ {a b x y}, R a x → R b y → R (a * b) (x * y)
  div : ∀ {a b x y}, R a x → R b y → R (a / b) (x / y)
  neg : ∀ {a x}, R a x → R (-a) (-x)
  abs : ∀ {a x}, R a x → R (RAbs.abs a) (RAbs.abs x)
  sqrt : ∀ {a x}, R a x → R (RFloat.sqrt a) (RFloat.sqrt x)
  zero : R 0 0
  one : R 1 1
  eps : R RFloat.epsilon RFloat.epsilon
  maxv : R RFloat.max_value RFloat.max_value
  minv : R RFloat.min_value RFloat.min_value
  min : ∀ {a b x y}, R a x → R b y → R (RFloat.min a b) (RFloat.min x y)
  lt : ∀ {a b x y}, R a x → R b y → ROrd.lt a b = ROrd.lt x y
  le : ∀ {a b x y}, R a x → R b y → ROrd.le a b = ROrd.le x y
  beq : ∀ {a b x y}, R a x → R b y → ROrd.beq a b = ROrd.beq x y

theorem BF.related (f : Fmt) [Libm f] : Related (BF f) (Flt f) BF.Den where
  add := BF.den_add
  sub := BF.den_sub
  mul := BF.den_mul
  div := BF.den_div
  neg := BF.den_neg
  abs := BF.den_abs
  sqrt := BF.den_sqrt
  zero := BF.den_zero
  one := BF.den_one
  eps := by
    refine ⟨rfl, ?_⟩
    simp
  maxv := ⟨rfl, rfl⟩
  minv := ⟨rfl, rfl⟩
  min {a b x y} ha hb := by
    have hl := BF.lt_eq hb ha
    rcases a with _ | s | ⟨s, m, e⟩ <;> rcases x with _ | s' | ⟨s', x, hx⟩ <;> first | exact ha.elim | skip
    all_goals
      rcases b with _ | t | ⟨t, n, g⟩ <;> rcases y with _ | t' | ⟨t', y, hy⟩ <;> first | exact hb.elim | skip
    all_goals first | exact hb | exact ha | skip
    all_goals
      simp only [RFloat.min]
      rw [hl]
      split_ifs
      · exact hb
      · exact ha
  lt := BF.lt_eq
  le := BF.le_eq
  beq := BF.beq_eq

/-- Results: both panic alike or both return related values. -/
def ExRel {α β : Type} (R : α → β → Prop) : MayPanic α → MayPanic β → Prop
  | .ok a, .ok b => R a b
  | .error e, .error e' => e = e'
  | _, _ => False

theorem ExRel.bind {α β γ δ : Type} {R : α → β → Prop} {R' : γ → δ → Prop} {x : MayPanic α} {y : MayPanic β}
    {g : α → MayPanic γ} {h : β → MayPanic δ} (hx : ExRel R x y) (hg : ∀ a b, R a b → ExRel R' (g a) (h b)) :
    ExRel R' (x >>= g) (y >>= h) := by
  rcases x with e | a <;> rcases y with e' | b
  · exact hx
  · exact hx.elim
  · exact hx.elim
  · exact hg a b hx

theorem ExRel.foldlM {α β σ τ : Type} {R : α → β → Prop} {R' : σ → τ → Prop} {g : σ → α → MayPanic σ}
    {h : τ → β → MayPanic τ} (hg : ∀ s t a b, R' s t → R a b → ExRel R' (g s a) (h t b)) {l : List α} {m : List β}
    (hl : List.Forall₂ R l m) {s : σ} {t : τ} (hs : R' s t) : ExRel R' (l.foldlM g s) (m.foldlM h t) := by
  induction hl generalizing s t with
  | nil => exact hs
  | cons hab _ ih =>
    rw [List.foldlM_cons, List.foldlM_cons]
    exact ExRel.bind (hg _ _ _ _ hs hab) fun _ _ h' => ih h'

theorem ExRel.forRange {σ τ : Type} {R : σ → τ → Prop} (lo hi : ℕ) {s : σ} {t : τ} {g : ℕ → σ → MayPanic σ}
    {h : ℕ → τ → MayPanic τ} (hs : R s t) (hg : ∀ i s t, R s t → ExRel R (g i s) (h i t)) :
    ExRel R (StaticMath.forRange lo hi s g) (StaticMath.forRange lo hi t h) := by
  unfold StaticMath.forRange
  refine ExRel.foldlM (R := Eq) (fun s t a b h1 h2 => by subst h2; exact hg _ _ _ h1) ?_ hs
  exact List.forall₂_eq_eq_eq ▸ rfl

variable {T S : Type} {n : ℕ}

/-- Vectors with related elements. -/
def VRel (R : T → S → Prop) (v : Vec n T) (w : Vec n S) : Prop := ∀ i, R (v i) (w i)
/-- Matrices with related elements. -/
def MRel (R : T → S → Prop) (A : Mat n T) (B : Mat n S) : Prop := ∀ i j, R (A i j) (B i j)

theorem VRel.get {R : T → S → Prop} {v : Vec n T} {w : Vec n S} (h : VRel R v w) (i : ℕ) :
    ExRel R (v.get i) (w.get i) := by
  unfold Vec.get
  split_ifs with hi
  · exact h _
  · rfl

theorem VRel.set {R : T → S → Prop} {v : Vec n T} {w : Vec n S} (h : VRel R v w) (i : ℕ) {x : T} {y : S}
    (hx : R x y) : ExRel (VRel R) (v.set i x) (w.set i y) := by
  unfold Vec.set
  split_ifs with hi
  · intro k
    change R (if k = ⟨i, hi⟩ then x else v.val k) (if k = ⟨i, hi⟩ then y else w.val k)
    split_ifs
    · exact hx
    · exact h k
  · rfl

theorem VRel.toSlice {R : T → S → Prop} {v : Vec n T} {w : Vec n S} (h : VRel R v w) :
    List.Forall₂ R v.toSlice w.toSlice := by
  unfold Vec.toSlice
  rw [List.forall₂_iff_get]
  exact ⟨by simp, fun i h1 h2 => by simpa using h _⟩

section
variable [Add T] [Sub T] [Mul T] [Div T] [Neg T] [Zero T] [One T] [RAbs T] [ROrd T] [RFloat T]
  [Add S] [Sub S] [Mul S] [Div S] [Neg S] [Zero S] [One S] [RAbs S] [ROrd S] [RFloat S] {R : T → S → Prop}

theorem Related.foldl {α β : Type} {R : α → β → Prop} {σ τ : Type} {R' : σ → τ → Prop} {g : σ → α → σ} {h : τ → β → τ}
    (hg : ∀ s t a b, R' s t → R a b → R' (g s a) (h t b)) {l : List α} {m : List β} (hl : List.Forall₂ R l m)
    {s : σ} {t : τ} (hs : R' s t) : R' (l.foldl g s) (m.foldl h t) := by
  induction hl generalizing s t with
  | nil => exact hs
  | cons hab _ ih => exact ih (hg _ _ _ _ hs hab)

theorem Related.nearly_zero (H : Related T S R) {a : T} {x : S} (h : R a x) : nearly_zero a = nearly_zero x := by
  have h0 := H.zero
  have e1 := H.abs h
  have e2 := H.abs h0
  have e3 := H.abs (H.sub h h0)
  unfold StaticMath.nearly_zero nearly_equal
  simp only [H.beq h h0, H.beq h0 h0, H.lt (H.add e1 e2) H.minv, H.lt e3 H.eps,
    H.lt (H.div e3 (H.min (H.add e1 e2) H.maxv)) H.eps]

theorem Related.dot (H : Related T S R) {l l' : List T} {m m' : List S} (h : List.Forall₂ R l m)
    (h' : List.Forall₂ R l' m') : ExRel R (slice_dot l l') (slice_dot m m') := by
  unfold slice_dot
  rw [h.length_eq, h'.length_eq]
  split_ifs
  · unfold iterSum
    refine Related.foldl (R := R) (R' := R) (fun s t a b h1 h2 => H.add h1 h2) ?_ H.zero
    rw [List.forall₂_map_left_iff, List.forall₂_map_right_iff]
    clear * - h h' H
    induction h generalizing l' m' with
    | nil => simp
    | cons hab _ ih =>
      cases h' with
      | nil => simp
      | cons hcd h' => exact .cons (H.mul hab hcd) (ih h')
  · rfl

theorem Related.project (H : Related T S R) {l l' : List T} {m m' : List S} (h : List.Forall₂ R l m)
    (h' : List.Forall₂ R l' m') : ExRel R (project_x_over_y l l') (project_x_over_y m m') := by
  unfold project_x_over_y
  refine ExRel.bind (H.dot h h') fun a x ha => ?_
  refine ExRel.bind (H.dot h' h') fun b y hb => ?_
  exact H.div ha hb

theorem Related.slice_norm2 (H : Related T S R) {l : List T} {m : List S} (h : List.Forall₂ R l m) :
    R (slice_norm2 l) (slice_norm2 m) :=
  H.sqrt (Related.foldl (R := R) (R' := R) (fun _ _ _ _ h1 h2 => H.add (H.mul h2 h2) h1) h H.zero)

theorem Related.normalizeSlice (H : Related T S R) {v : Vec n T} {w : Vec n S} (h : VRel R v w) :
    ExRel (VRel R) v.normalizeSlice w.normalizeSlice := by
  unfold Vec.normalizeSlice
  have hl := h.toSlice
  have hd := H.slice_norm2 hl
  rw [foldlM_set_eq _ (by simp [slice_normalize, Vec.toSlice]), foldlM_set_eq _ (by simp [slice_normalize, Vec.toSlice])]
  intro k
  simp only [slice_normalize, List.getElem_map]
  refine H.div ?_ hd
  simpa [Vec.toSlice] using h k

/-- The methods of one size keep the relation. -/
structure QrRel (R : T → S → Prop) (o : QrOps n T) (o' : QrOps n S) : Prop where
  det : ∀ {A B}, MRel R A B → R (o.det A) (o'.det B)
  zeros : MRel R o.zeros o'.zeros
  get_cols : ∀ {A B}, MRel R A B → ExRel (VRel (VRel R)) (o.get_cols A) (o'.get_cols B)
  vecs : ∀ {A B}, VRel (VRel R) A B → ExRel (MRel R) (o.new_from_vecs A) (o'.new_from_vecs B)
  tr : ∀ {A B}, MRel R A B → MRel R (o.transpose A) (o'.transpose B)
  mul : ∀ {A B C D}, MRel R A B → MRel R C D → MRel R (o.mul A C) (o'.mul B D)
  vsub : ∀ {a b x y}, VRel R a x → VRel R b y → VRel R (o.vsub a b) (o'.vsub x y)
  vsmul : ∀ {a b x y}, VRel R a x → R b y → VRel R (o.vsmul a b) (o'.vsmul x y)

/-- Related optional pairs of matrices. -/
def ORel (R : T → S → Prop) : Option (Mat n T × Mat n T) → Option (Mat n S × Mat n S) → Prop
  | some (a, b), some (c, d) => MRel R a c ∧ MRel R b d
  | none, none => True
  | _, _ => False

theorem Related.qrGen (H : Related T S R) {o : QrOps n T} {o' : QrOps n S} (ho : QrRel R o o') {A : Mat n T}
    {B : Mat n S} (h : MRel R A B) : ExRel (ORel R) (qrGen o A) (qrGen o' B) := by
  unfold StaticMath.qrGen
  rw [H.nearly_zero (ho.det h)]
  cases hz : StaticMath.nearly_zero (o'.det B)
  · simp only [Bool.not_false, if_true]
    refine ExRel.bind (ho.get_cols h) fun cols cols' hc => ?_
    refine ExRel.bind (ho.get_cols ho.zeros) fun q q' hq => ?_
    refine ExRel.bind (R := VRel (VRel R)) (ExRel.forRange 0 n hq fun i q q' hq => ?_) fun q q' hq => ?_
    · refine ExRel.bind (hc.get i) fun t t' ht => ?_
      refine ExRel.bind (R := VRel R) ?_ fun t t' ht => ?_
      · refine ExRel.foldlM (R := VRel R) (R' := VRel R) (fun s t a b hs ha => ?_) ?_ ht
        · refine ExRel.bind (hc.get i) fun c c' hci => ?_
          refine ExRel.bind (H.project hci.toSlice ha.toSlice) fun p p' hp => ?_
          exact ho.vsub hs (ho.vsmul ha hp)
        · exact List.forall₂_take i (VRel.toSlice hq)
      · exact ExRel.bind (H.normalizeSlice ht) fun u u' hu => hq.set i hu
    · refine ExRel.bind (ho.vecs hq) fun m m' hm => ?_
      exact ⟨hm, ho.mul (ho.tr hm) h⟩
  · simp only [Bool.not_true]
    exact trivial

end

end StaticMath
