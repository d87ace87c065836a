import Verif.Ieee.Param
import Verif.Lemmas.Views

/-!
# `qr` on computable floats agrees with `qr` on IEEE floats

Related inputs give related results, for every size.
-/

namespace StaticMath
variable {T S : Type} [Add T] [Sub T] [Mul T] [Div T] [Neg T] [Zero T] [One T] [RAbs T] [ROrd T] [RFloat T]
  [Add S] [Sub S] [Mul S] [Div S] [Neg S] [Zero S] [One S] [RAbs S] [ROrd S] [RFloat S] {R : T → S → Prop}

set_option linter.unusedSectionVars false in
theorem M22.det_related (H : Related T S R) {A : Mat 2 T} {B : Mat 2 S} (h : MRel R A B) : R (M22.det A) (M22.det B) := by
  unfold M22.det
  
  repeat' first | exact h _ _ | apply H.add | apply H.sub | apply H.mul

theorem M22.mul_related (H : Related T S R) {A C : Mat 2 T} {B D : Mat 2 S} (h : MRel R A B) (h' : MRel R C D) :
    MRel R (M22.mul A C) (M22.mul B D) := by
  intro i j
  fin_cases i <;> fin_cases j <;>
    exact H.add (H.mul (h _ _) (h' _ _)) (H.mul (h _ _) (h' _ _))

theorem M22.qr_related (H : Related T S R) {A : Mat 2 T} {B : Mat 2 S} (h : MRel R A B) :
    ExRel (ORel R) (M22.qr A) (M22.qr B) := by
  refine H.qrGen ⟨M22.det_related H, ?_, fun h => ?_, fun h => ?_, fun h => ?_, M22.mul_related H, fun h h' => ?_, fun h h' => ?_⟩ h
  · intro i j
    fin_cases i <;> fin_cases j <;> exact H.zero
  · change ExRel _ (M22.get_cols _) (M22.get_cols _)
    rw [M22.get_cols_eq, M22.get_cols_eq]
    exact fun i j => h j i
  · change ExRel _ (M22.new_from_vecs _) (M22.new_from_vecs _)
    rw [M22.new_from_vecs_eq, M22.new_from_vecs_eq]
    exact fun i j => h j i
  · intro i j
    fin_cases i <;> fin_cases j <;> exact h _ _
  · intro i
    fin_cases i <;> exact H.sub (h _) (h' _)
  · intro i
    fin_cases i <;> exact H.mul (h _) h'

set_option linter.unusedSectionVars false in
theorem M33.det_related (H : Related T S R) {A : Mat 3 T} {B : Mat 3 S} (h : MRel R A B) : R (M33.det A) (M33.det B) := by
  unfold M33.det
  
  repeat' first | exact h _ _ | apply H.add | apply H.sub | apply H.mul

theorem M33.mul_related (H : Related T S R) {A C : Mat 3 T} {B D : Mat 3 S} (h : MRel R A B) (h' : MRel R C D) :
    MRel R (M33.mul A C) (M33.mul B D) := by
  intro i j
  fin_cases i <;> fin_cases j <;>
    exact H.add (H.add (H.mul (h _ _) (h' _ _)) (H.mul (h _ _) (h' _ _))) (H.mul (h _ _) (h' _ _))

theorem M33.qr_related (H : Related T S R) {A : Mat 3 T} {B : Mat 3 S} (h : MRel R A B) :
    ExRel (ORel R) (M33.qr A) (M33.qr B) := by
  refine H.qrGen ⟨M33.det_related H, ?_, fun h => ?_, fun h => ?_, fun h => ?_, M33.mul_related H, fun h h' => ?_, fun h h' => ?_⟩ h
  · intro i j
    fin_cases i <;> fin_cases j <;> exact H.zero
  · change ExRel _ (M33.get_cols _) (M33.get_cols _)
    rw [M33.get_cols_eq, M33.get_cols_eq]
    exact fun i j => h j i
  · change ExRel _ (M33.new_from_vecs _) (M33.new_from_vecs _)
    rw [M33.new_from_vecs_eq, M33.new_from_vecs_eq]
    exact fun i j => h j i
  · intro i j
    fin_cases i <;> fin_cases j <;> exact h _ _
  · intro i
    fin_cases i <;> exact H.sub (h _) (h' _)
  · intro i
    fin_cases i <;> exact H.mul (h _) h'

set_option linter.unusedSectionVars false in
theorem M44.det_related (H : Related T S R) {A : Mat 4 T} {B : Mat 4 S} (h : MRel R A B) : R (M44.det A) (M44.det B) := by
  unfold M44.det
  
  repeat' first | exact h _ _ | apply H.add | apply H.sub | apply H.mul

theorem M44.mul_related (H : Related T S R) {A C : Mat 4 T} {B D : Mat 4 S} (h : MRel R A B) (h' : MRel R C D) :
    MRel R (M44.mul A C) (M44.mul B D) := by
  intro i j
  fin_cases i <;> fin_cases j <;>
    exact H.add (H.add (H.add (H.mul (h _ _) (h' _ _)) (H.mul (h _ _) (h' _ _))) (H.mul (h _ _) (h' _ _))) (H.mul (h _ _) (h' _ _))

theorem M44.qr_related (H : Related T S R) {A : Mat 4 T} {B : Mat 4 S} (h : MRel R A B) :
    ExRel (ORel R) (M44.qr A) (M44.qr B) := by
  refine H.qrGen ⟨M44.det_related H, ?_, fun h => ?_, fun h => ?_, fun h => ?_, M44.mul_related H, fun h h' => ?_, fun h h' => ?_⟩ h
  · intro i j
    fin_cases i <;> fin_cases j <;> exact H.zero
  · change ExRel _ (M44.get_cols _) (M44.get_cols _)
    rw [M44.get_cols_eq, M44.get_cols_eq]
    exact fun i j => h j i
  · change ExRel _ (M44.new_from_vecs _) (M44.new_from_vecs _)
    rw [M44.new_from_vecs_eq, M44.new_from_vecs_eq]
    exact fun i j => h j i
  · intro i j
    fin_cases i <;> fin_cases j <;> exact h _ _
  · intro i
    fin_cases i <;> exact H.sub (h _) (h' _)
  · intro i
    fin_cases i <;> exact H.mul (h _) h'

set_option maxRecDepth 20000 in
set_option linter.unusedSectionVars false in
theorem M55.det_related (H : Related T S R) {A : Mat 5 T} {B : Mat 5 S} (h : MRel R A B) : R (M55.det A) (M55.det B) := by
  unfold M55.det
  dsimp only
  repeat' first | exact h _ _ | apply H.add | apply H.sub | apply H.mul

set_option maxRecDepth 20000 in
theorem M55.mul_related (H : Related T S R) {A C : Mat 5 T} {B D : Mat 5 S} (h : MRel R A B) (h' : MRel R C D) :
    MRel R (M55.mul A C) (M55.mul B D) := by
  intro i j
  fin_cases i <;> fin_cases j <;>
    exact H.add (H.add (H.add (H.add (H.mul (h _ _) (h' _ _)) (H.mul (h _ _) (h' _ _))) (H.mul (h _ _) (h' _ _))) (H.mul (h _ _) (h' _ _))) (H.mul (h _ _) (h' _ _))

set_option maxRecDepth 20000 in
theorem M55.qr_related (H : Related T S R) {A : Mat 5 T} {B : Mat 5 S} (h : MRel R A B) :
    ExRel (ORel R) (M55.qr A) (M55.qr B) := by
  refine H.qrGen ⟨M55.det_related H, ?_, fun h => ?_, fun h => ?_, fun h => ?_, M55.mul_related H, fun h h' => ?_, fun h h' => ?_⟩ h
  · intro i j
    fin_cases i <;> fin_cases j <;> exact H.zero
  · change ExRel _ (M55.get_cols _) (M55.get_cols _)
    rw [M55.get_cols_eq, M55.get_cols_eq]
    exact fun i j => h j i
  · change ExRel _ (M55.new_from_vecs _) (M55.new_from_vecs _)
    rw [M55.new_from_vecs_eq, M55.new_from_vecs_eq]
    exact fun i j => h j i
  · intro i j
    fin_cases i <;> fin_cases j <;> exact h _ _
  · intro i
    fin_cases i <;> exact H.sub (h _) (h' _)
  · intro i
    fin_cases i <;> exact H.mul (h _) h'

set_option maxRecDepth 20000 in
set_option linter.unusedSectionVars false in
theorem M66.det_related (H : Related T S R) {A : Mat 6 T} {B : Mat 6 S} (h : MRel R A B) : R (M66.det A) (M66.det B) := by
  unfold M66.det
  dsimp only
  repeat' first | exact h _ _ | apply H.add | apply H.sub | apply H.mul

set_option maxRecDepth 20000 in
theorem M66.mul_related (H : Related T S R) {A C : Mat 6 T} {B D : Mat 6 S} (h : MRel R A B) (h' : MRel R C D) :
    MRel R (M66.mul A C) (M66.mul B D) := by
  intro i j
  fin_cases i <;> fin_cases j <;>
    exact H.add (H.add (H.add (H.add (H.add (H.mul (h _ _) (h' _ _)) (H.mul (h _ _) (h' _ _))) (H.mul (h _ _) (h' _ _))) (H.mul (h _ _) (h' _ _))) (H.mul (h _ _) (h' _ _))) (H.mul (h _ _) (h' _ _))

set_option maxRecDepth 20000 in
theorem M66.qr_related (H : Related T S R) {A : Mat 6 T} {B : Mat 6 S} (h : MRel R A B) :
    ExRel (ORel R) (M66.qr A) (M66.qr B) := by
  refine H.qrGen ⟨M66.det_related H, ?_, fun h => ?_, fun h => ?_, fun h => ?_, M66.mul_related H, fun h h' => ?_, fun h h' => ?_⟩ h
  · intro i j
    fin_cases i <;> fin_cases j <;> exact H.zero
  · change ExRel _ (M66.get_cols _) (M66.get_cols _)
    rw [M66.get_cols_eq, M66.get_cols_eq]
    exact fun i j => h j i
  · change ExRel _ (M66.new_from_vecs _) (M66.new_from_vecs _)
    rw [M66.new_from_vecs_eq, M66.new_from_vecs_eq]
    exact fun i j => h j i
  · intro i j
    fin_cases i <;> fin_cases j <;> exact h _ _
  · intro i
    fin_cases i <;> exact H.sub (h _) (h' _)
  · intro i
    fin_cases i <;> exact H.mul (h _) h'

end StaticMath
