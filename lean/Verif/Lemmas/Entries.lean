import Verif.Lemmas.Attr
import Verif.Lemmas.Dim3

/-! Generated by `tools/gen_entries.py`: the entries of the literal matrices and vectors. -/

namespace StaticMath

variable {T : Type}

@[entries] theorem rot2_00 [Neg T] [RFloat T] (a : T) : rot2 a 0 0 = RFloat.cos a := rfl
@[entries] theorem rot2_01 [Neg T] [RFloat T] (a : T) : rot2 a 0 1 = -RFloat.sin a := rfl
@[entries] theorem rot2_10 [Neg T] [RFloat T] (a : T) : rot2 a 1 0 = RFloat.sin a := rfl
@[entries] theorem rot2_11 [Neg T] [RFloat T] (a : T) : rot2 a 1 1 = RFloat.cos a := rfl

@[entries] theorem rotx_00 [Neg T] [Zero T] [One T] [RFloat T] (a : T) : rotx a 0 0 = 1 := rfl
@[entries] theorem rotx_01 [Neg T] [Zero T] [One T] [RFloat T] (a : T) : rotx a 0 1 = 0 := rfl
@[entries] theorem rotx_02 [Neg T] [Zero T] [One T] [RFloat T] (a : T) : rotx a 0 2 = 0 := rfl
@[entries] theorem rotx_10 [Neg T] [Zero T] [One T] [RFloat T] (a : T) : rotx a 1 0 = 0 := rfl
@[entries] theorem rotx_11 [Neg T] [Zero T] [One T] [RFloat T] (a : T) : rotx a 1 1 = RFloat.cos a := rfl
@[entries] theorem rotx_12 [Neg T] [Zero T] [One T] [RFloat T] (a : T) : rotx a 1 2 = -RFloat.sin a := rfl
@[entries] theorem rotx_20 [Neg T] [Zero T] [One T] [RFloat T] (a : T) : rotx a 2 0 = 0 := rfl
@[entries] theorem rotx_21 [Neg T] [Zero T] [One T] [RFloat T] (a : T) : rotx a 2 1 = RFloat.sin a := rfl
@[entries] theorem rotx_22 [Neg T] [Zero T] [One T] [RFloat T] (a : T) : rotx a 2 2 = RFloat.cos a := rfl

@[entries] theorem roty_00 [Neg T] [Zero T] [One T] [RFloat T] (a : T) : roty a 0 0 = RFloat.cos a := rfl
@[entries] theorem roty_01 [Neg T] [Zero T] [One T] [RFloat T] (a : T) : roty a 0 1 = 0 := rfl
@[entries] theorem roty_02 [Neg T] [Zero T] [One T] [RFloat T] (a : T) : roty a 0 2 = RFloat.sin a := rfl
@[entries] theorem roty_10 [Neg T] [Zero T] [One T] [RFloat T] (a : T) : roty a 1 0 = 0 := rfl
@[entries] theorem roty_11 [Neg T] [Zero T] [One T] [RFloat T] (a : T) : roty a 1 1 = 1 := rfl
@[entries] theorem roty_12 [Neg T] [Zero T] [One T] [RFloat T] (a : T) : roty a 1 2 = 0 := rfl
@[entries] theorem roty_20 [Neg T] [Zero T] [One T] [RFloat T] (a : T) : roty a 2 0 = -RFloat.sin a := rfl
@[entries] theorem roty_21 [Neg T] [Zero T] [One T] [RFloat T] (a : T) : roty a 2 1 = 0 := rfl
@[entries] theorem roty_22 [Neg T] [Zero T] [One T] [RFloat T] (a : T) : roty a 2 2 = RFloat.cos a := rfl

@[entries] theorem rotz_00 [Neg T] [Zero T] [One T] [RFloat T] (a : T) : rotz a 0 0 = RFloat.cos a := rfl
@[entries] theorem rotz_01 [Neg T] [Zero T] [One T] [RFloat T] (a : T) : rotz a 0 1 = -RFloat.sin a := rfl
@[entries] theorem rotz_02 [Neg T] [Zero T] [One T] [RFloat T] (a : T) : rotz a 0 2 = 0 := rfl
@[entries] theorem rotz_10 [Neg T] [Zero T] [One T] [RFloat T] (a : T) : rotz a 1 0 = RFloat.sin a := rfl
@[entries] theorem rotz_11 [Neg T] [Zero T] [One T] [RFloat T] (a : T) : rotz a 1 1 = RFloat.cos a := rfl
@[entries] theorem rotz_12 [Neg T] [Zero T] [One T] [RFloat T] (a : T) : rotz a 1 2 = 0 := rfl
@[entries] theorem rotz_20 [Neg T] [Zero T] [One T] [RFloat T] (a : T) : rotz a 2 0 = 0 := rfl
@[entries] theorem rotz_21 [Neg T] [Zero T] [One T] [RFloat T] (a : T) : rotz a 2 1 = 0 := rfl
@[entries] theorem rotz_22 [Neg T] [Zero T] [One T] [RFloat T] (a : T) : rotz a 2 2 = 1 := rfl

@[entries] theorem homogeneous_from_rotation_00 [Zero T] [One T] (r : Mat 3 T) (p : Vec 3 T) : homogeneous_from_rotation r p 0 0 = r 0 0 := rfl
@[entries] theorem homogeneous_from_rotation_01 [Zero T] [One T] (r : Mat 3 T) (p : Vec 3 T) : homogeneous_from_rotation r p 0 1 = r 0 1 := rfl
@[entries] theorem homogeneous_from_rotation_02 [Zero T] [One T] (r : Mat 3 T) (p : Vec 3 T) : homogeneous_from_rotation r p 0 2 = r 0 2 := rfl
@[entries] theorem homogeneous_from_rotation_03 [Zero T] [One T] (r : Mat 3 T) (p : Vec 3 T) : homogeneous_from_rotation r p 0 3 = p 0 := rfl
@[entries] theorem homogeneous_from_rotation_10 [Zero T] [One T] (r : Mat 3 T) (p : Vec 3 T) : homogeneous_from_rotation r p 1 0 = r 1 0 := rfl
@[entries] theorem homogeneous_from_rotation_11 [Zero T] [One T] (r : Mat 3 T) (p : Vec 3 T) : homogeneous_from_rotation r p 1 1 = r 1 1 := rfl
@[entries] theorem homogeneous_from_rotation_12 [Zero T] [One T] (r : Mat 3 T) (p : Vec 3 T) : homogeneous_from_rotation r p 1 2 = r 1 2 := rfl
@[entries] theorem homogeneous_from_rotation_13 [Zero T] [One T] (r : Mat 3 T) (p : Vec 3 T) : homogeneous_from_rotation r p 1 3 = p 1 := rfl
@[entries] theorem homogeneous_from_rotation_20 [Zero T] [One T] (r : Mat 3 T) (p : Vec 3 T) : homogeneous_from_rotation r p 2 0 = r 2 0 := rfl
@[entries] theorem homogeneous_from_rotation_21 [Zero T] [One T] (r : Mat 3 T) (p : Vec 3 T) : homogeneous_from_rotation r p 2 1 = r 2 1 := rfl
@[entries] theorem homogeneous_from_rotation_22 [Zero T] [One T] (r : Mat 3 T) (p : Vec 3 T) : homogeneous_from_rotation r p 2 2 = r 2 2 := rfl
@[entries] theorem homogeneous_from_rotation_23 [Zero T] [One T] (r : Mat 3 T) (p : Vec 3 T) : homogeneous_from_rotation r p 2 3 = p 2 := rfl
@[entries] theorem homogeneous_from_rotation_30 [Zero T] [One T] (r : Mat 3 T) (p : Vec 3 T) : homogeneous_from_rotation r p 3 0 = 0 := rfl
@[entries] theorem homogeneous_from_rotation_31 [Zero T] [One T] (r : Mat 3 T) (p : Vec 3 T) : homogeneous_from_rotation r p 3 1 = 0 := rfl
@[entries] theorem homogeneous_from_rotation_32 [Zero T] [One T] (r : Mat 3 T) (p : Vec 3 T) : homogeneous_from_rotation r p 3 2 = 0 := rfl
@[entries] theorem homogeneous_from_rotation_33 [Zero T] [One T] (r : Mat 3 T) (p : Vec 3 T) : homogeneous_from_rotation r p 3 3 = 1 := rfl

@[entries] theorem se3_from_parts_00 [Zero T] (r : Mat 3 T) (p : Vec 3 T) : se3_from_parts r p 0 0 = r 0 0 := rfl
@[entries] theorem se3_from_parts_01 [Zero T] (r : Mat 3 T) (p : Vec 3 T) : se3_from_parts r p 0 1 = r 0 1 := rfl
@[entries] theorem se3_from_parts_02 [Zero T] (r : Mat 3 T) (p : Vec 3 T) : se3_from_parts r p 0 2 = r 0 2 := rfl
@[entries] theorem se3_from_parts_03 [Zero T] (r : Mat 3 T) (p : Vec 3 T) : se3_from_parts r p 0 3 = p 0 := rfl
@[entries] theorem se3_from_parts_10 [Zero T] (r : Mat 3 T) (p : Vec 3 T) : se3_from_parts r p 1 0 = r 1 0 := rfl
@[entries] theorem se3_from_parts_11 [Zero T] (r : Mat 3 T) (p : Vec 3 T) : se3_from_parts r p 1 1 = r 1 1 := rfl
@[entries] theorem se3_from_parts_12 [Zero T] (r : Mat 3 T) (p : Vec 3 T) : se3_from_parts r p 1 2 = r 1 2 := rfl
@[entries] theorem se3_from_parts_13 [Zero T] (r : Mat 3 T) (p : Vec 3 T) : se3_from_parts r p 1 3 = p 1 := rfl
@[entries] theorem se3_from_parts_20 [Zero T] (r : Mat 3 T) (p : Vec 3 T) : se3_from_parts r p 2 0 = r 2 0 := rfl
@[entries] theorem se3_from_parts_21 [Zero T] (r : Mat 3 T) (p : Vec 3 T) : se3_from_parts r p 2 1 = r 2 1 := rfl
@[entries] theorem se3_from_parts_22 [Zero T] (r : Mat 3 T) (p : Vec 3 T) : se3_from_parts r p 2 2 = r 2 2 := rfl
@[entries] theorem se3_from_parts_23 [Zero T] (r : Mat 3 T) (p : Vec 3 T) : se3_from_parts r p 2 3 = p 2 := rfl
@[entries] theorem se3_from_parts_30 [Zero T] (r : Mat 3 T) (p : Vec 3 T) : se3_from_parts r p 3 0 = 0 := rfl
@[entries] theorem se3_from_parts_31 [Zero T] (r : Mat 3 T) (p : Vec 3 T) : se3_from_parts r p 3 1 = 0 := rfl
@[entries] theorem se3_from_parts_32 [Zero T] (r : Mat 3 T) (p : Vec 3 T) : se3_from_parts r p 3 2 = 0 := rfl
@[entries] theorem se3_from_parts_33 [Zero T] (r : Mat 3 T) (p : Vec 3 T) : se3_from_parts r p 3 3 = 0 := rfl

@[entries] theorem se3_get_parts_fst_00  (h : Mat 4 T) : (se3_get_parts h).1 0 0 = h 0 0 := rfl
@[entries] theorem se3_get_parts_fst_01  (h : Mat 4 T) : (se3_get_parts h).1 0 1 = h 0 1 := rfl
@[entries] theorem se3_get_parts_fst_02  (h : Mat 4 T) : (se3_get_parts h).1 0 2 = h 0 2 := rfl
@[entries] theorem se3_get_parts_fst_10  (h : Mat 4 T) : (se3_get_parts h).1 1 0 = h 1 0 := rfl
@[entries] theorem se3_get_parts_fst_11  (h : Mat 4 T) : (se3_get_parts h).1 1 1 = h 1 1 := rfl
@[entries] theorem se3_get_parts_fst_12  (h : Mat 4 T) : (se3_get_parts h).1 1 2 = h 1 2 := rfl
@[entries] theorem se3_get_parts_fst_20  (h : Mat 4 T) : (se3_get_parts h).1 2 0 = h 2 0 := rfl
@[entries] theorem se3_get_parts_fst_21  (h : Mat 4 T) : (se3_get_parts h).1 2 1 = h 2 1 := rfl
@[entries] theorem se3_get_parts_fst_22  (h : Mat 4 T) : (se3_get_parts h).1 2 2 = h 2 2 := rfl

@[entries] theorem se3_get_parts_snd_0  (h : Mat 4 T) : (se3_get_parts h).2 0 = h 0 3 := rfl
@[entries] theorem se3_get_parts_snd_1  (h : Mat 4 T) : (se3_get_parts h).2 1 = h 1 3 := rfl
@[entries] theorem se3_get_parts_snd_2  (h : Mat 4 T) : (se3_get_parts h).2 2 = h 2 3 := rfl

@[entries] theorem get_parts_raw_fst_00  (h : Mat 4 T) : (get_parts_raw h).1 0 0 = h 0 0 := rfl
@[entries] theorem get_parts_raw_fst_01  (h : Mat 4 T) : (get_parts_raw h).1 0 1 = h 0 1 := rfl
@[entries] theorem get_parts_raw_fst_02  (h : Mat 4 T) : (get_parts_raw h).1 0 2 = h 0 2 := rfl
@[entries] theorem get_parts_raw_fst_10  (h : Mat 4 T) : (get_parts_raw h).1 1 0 = h 1 0 := rfl
@[entries] theorem get_parts_raw_fst_11  (h : Mat 4 T) : (get_parts_raw h).1 1 1 = h 1 1 := rfl
@[entries] theorem get_parts_raw_fst_12  (h : Mat 4 T) : (get_parts_raw h).1 1 2 = h 1 2 := rfl
@[entries] theorem get_parts_raw_fst_20  (h : Mat 4 T) : (get_parts_raw h).1 2 0 = h 2 0 := rfl
@[entries] theorem get_parts_raw_fst_21  (h : Mat 4 T) : (get_parts_raw h).1 2 1 = h 2 1 := rfl
@[entries] theorem get_parts_raw_fst_22  (h : Mat 4 T) : (get_parts_raw h).1 2 2 = h 2 2 := rfl

@[entries] theorem get_parts_raw_snd_0  (h : Mat 4 T) : (get_parts_raw h).2 0 = h 0 3 := rfl
@[entries] theorem get_parts_raw_snd_1  (h : Mat 4 T) : (get_parts_raw h).2 1 = h 1 3 := rfl
@[entries] theorem get_parts_raw_snd_2  (h : Mat 4 T) : (get_parts_raw h).2 2 = h 2 3 := rfl

@[entries] theorem skew_from_vec_00 [Neg T] [Zero T] (v : Vec 3 T) : skew_from_vec v 0 0 = 0 := rfl
@[entries] theorem skew_from_vec_01 [Neg T] [Zero T] (v : Vec 3 T) : skew_from_vec v 0 1 = -v 2 := rfl
@[entries] theorem skew_from_vec_02 [Neg T] [Zero T] (v : Vec 3 T) : skew_from_vec v 0 2 = v 1 := rfl
@[entries] theorem skew_from_vec_10 [Neg T] [Zero T] (v : Vec 3 T) : skew_from_vec v 1 0 = v 2 := rfl
@[entries] theorem skew_from_vec_11 [Neg T] [Zero T] (v : Vec 3 T) : skew_from_vec v 1 1 = 0 := rfl
@[entries] theorem skew_from_vec_12 [Neg T] [Zero T] (v : Vec 3 T) : skew_from_vec v 1 2 = -v 0 := rfl
@[entries] theorem skew_from_vec_20 [Neg T] [Zero T] (v : Vec 3 T) : skew_from_vec v 2 0 = -v 1 := rfl
@[entries] theorem skew_from_vec_21 [Neg T] [Zero T] (v : Vec 3 T) : skew_from_vec v 2 1 = v 0 := rfl
@[entries] theorem skew_from_vec_22 [Neg T] [Zero T] (v : Vec 3 T) : skew_from_vec v 2 2 = 0 := rfl

@[entries] theorem skew_to_vec_0  (r : Mat 3 T) : skew_to_vec r 0 = r 2 1 := rfl
@[entries] theorem skew_to_vec_1  (r : Mat 3 T) : skew_to_vec r 1 = r 0 2 := rfl
@[entries] theorem skew_to_vec_2  (r : Mat 3 T) : skew_to_vec r 2 = r 1 0 := rfl

@[entries] theorem skew_scalar_00 [Neg T] [Zero T] (x : T) : skew_scalar x 0 0 = 0 := rfl
@[entries] theorem skew_scalar_01 [Neg T] [Zero T] (x : T) : skew_scalar x 0 1 = -x := rfl
@[entries] theorem skew_scalar_10 [Neg T] [Zero T] (x : T) : skew_scalar x 1 0 = x := rfl
@[entries] theorem skew_scalar_11 [Neg T] [Zero T] (x : T) : skew_scalar x 1 1 = 0 := rfl

@[entries] theorem ksi_00 [Neg T] [Zero T] [One T] [RFloat T] (a x y : T) : ksi a x y 0 0 = RFloat.cos a := rfl
@[entries] theorem ksi_01 [Neg T] [Zero T] [One T] [RFloat T] (a x y : T) : ksi a x y 0 1 = -RFloat.sin a := rfl
@[entries] theorem ksi_02 [Neg T] [Zero T] [One T] [RFloat T] (a x y : T) : ksi a x y 0 2 = x := rfl
@[entries] theorem ksi_10 [Neg T] [Zero T] [One T] [RFloat T] (a x y : T) : ksi a x y 1 0 = RFloat.sin a := rfl
@[entries] theorem ksi_11 [Neg T] [Zero T] [One T] [RFloat T] (a x y : T) : ksi a x y 1 1 = RFloat.cos a := rfl
@[entries] theorem ksi_12 [Neg T] [Zero T] [One T] [RFloat T] (a x y : T) : ksi a x y 1 2 = y := rfl
@[entries] theorem ksi_20 [Neg T] [Zero T] [One T] [RFloat T] (a x y : T) : ksi a x y 2 0 = 0 := rfl
@[entries] theorem ksi_21 [Neg T] [Zero T] [One T] [RFloat T] (a x y : T) : ksi a x y 2 1 = 0 := rfl
@[entries] theorem ksi_22 [Neg T] [Zero T] [One T] [RFloat T] (a x y : T) : ksi a x y 2 2 = 1 := rfl

@[entries] theorem skew_from_vec_aug_00 [Neg T] [Zero T] (v : Vec 3 T) : skew_from_vec_aug v 0 0 = 0 := rfl
@[entries] theorem skew_from_vec_aug_01 [Neg T] [Zero T] (v : Vec 3 T) : skew_from_vec_aug v 0 1 = -v 2 := rfl
@[entries] theorem skew_from_vec_aug_02 [Neg T] [Zero T] (v : Vec 3 T) : skew_from_vec_aug v 0 2 = v 0 := rfl
@[entries] theorem skew_from_vec_aug_10 [Neg T] [Zero T] (v : Vec 3 T) : skew_from_vec_aug v 1 0 = v 2 := rfl
@[entries] theorem skew_from_vec_aug_11 [Neg T] [Zero T] (v : Vec 3 T) : skew_from_vec_aug v 1 1 = 0 := rfl
@[entries] theorem skew_from_vec_aug_12 [Neg T] [Zero T] (v : Vec 3 T) : skew_from_vec_aug v 1 2 = v 1 := rfl
@[entries] theorem skew_from_vec_aug_20 [Neg T] [Zero T] (v : Vec 3 T) : skew_from_vec_aug v 2 0 = 0 := rfl
@[entries] theorem skew_from_vec_aug_21 [Neg T] [Zero T] (v : Vec 3 T) : skew_from_vec_aug v 2 1 = 0 := rfl
@[entries] theorem skew_from_vec_aug_22 [Neg T] [Zero T] (v : Vec 3 T) : skew_from_vec_aug v 2 2 = 0 := rfl

@[entries] theorem skew_v6_00 [Neg T] [Zero T] (v : Vec 6 T) : skew_v6 v 0 0 = 0 := rfl
@[entries] theorem skew_v6_01 [Neg T] [Zero T] (v : Vec 6 T) : skew_v6 v 0 1 = -v 5 := rfl
@[entries] theorem skew_v6_02 [Neg T] [Zero T] (v : Vec 6 T) : skew_v6 v 0 2 = v 4 := rfl
@[entries] theorem skew_v6_03 [Neg T] [Zero T] (v : Vec 6 T) : skew_v6 v 0 3 = v 0 := rfl
@[entries] theorem skew_v6_10 [Neg T] [Zero T] (v : Vec 6 T) : skew_v6 v 1 0 = v 5 := rfl
@[entries] theorem skew_v6_11 [Neg T] [Zero T] (v : Vec 6 T) : skew_v6 v 1 1 = 0 := rfl
@[entries] theorem skew_v6_12 [Neg T] [Zero T] (v : Vec 6 T) : skew_v6 v 1 2 = -v 3 := rfl
@[entries] theorem skew_v6_13 [Neg T] [Zero T] (v : Vec 6 T) : skew_v6 v 1 3 = v 1 := rfl
@[entries] theorem skew_v6_20 [Neg T] [Zero T] (v : Vec 6 T) : skew_v6 v 2 0 = -v 4 := rfl
@[entries] theorem skew_v6_21 [Neg T] [Zero T] (v : Vec 6 T) : skew_v6 v 2 1 = v 3 := rfl
@[entries] theorem skew_v6_22 [Neg T] [Zero T] (v : Vec 6 T) : skew_v6 v 2 2 = 0 := rfl
@[entries] theorem skew_v6_23 [Neg T] [Zero T] (v : Vec 6 T) : skew_v6 v 2 3 = v 2 := rfl
@[entries] theorem skew_v6_30 [Neg T] [Zero T] (v : Vec 6 T) : skew_v6 v 3 0 = 0 := rfl
@[entries] theorem skew_v6_31 [Neg T] [Zero T] (v : Vec 6 T) : skew_v6 v 3 1 = 0 := rfl
@[entries] theorem skew_v6_32 [Neg T] [Zero T] (v : Vec 6 T) : skew_v6 v 3 2 = 0 := rfl
@[entries] theorem skew_v6_33 [Neg T] [Zero T] (v : Vec 6 T) : skew_v6 v 3 3 = 0 := rfl

@[entries] theorem translation_2d_00 [Zero T] [One T] (x y : T) : translation_2d x y 0 0 = 1 := rfl
@[entries] theorem translation_2d_01 [Zero T] [One T] (x y : T) : translation_2d x y 0 1 = 0 := rfl
@[entries] theorem translation_2d_02 [Zero T] [One T] (x y : T) : translation_2d x y 0 2 = x := rfl
@[entries] theorem translation_2d_10 [Zero T] [One T] (x y : T) : translation_2d x y 1 0 = 0 := rfl
@[entries] theorem translation_2d_11 [Zero T] [One T] (x y : T) : translation_2d x y 1 1 = 1 := rfl
@[entries] theorem translation_2d_12 [Zero T] [One T] (x y : T) : translation_2d x y 1 2 = y := rfl
@[entries] theorem translation_2d_20 [Zero T] [One T] (x y : T) : translation_2d x y 2 0 = 0 := rfl
@[entries] theorem translation_2d_21 [Zero T] [One T] (x y : T) : translation_2d x y 2 1 = 0 := rfl
@[entries] theorem translation_2d_22 [Zero T] [One T] (x y : T) : translation_2d x y 2 2 = 1 := rfl

@[entries] theorem translation_3d_00 [Zero T] [One T] (x y z : T) : translation_3d x y z 0 0 = 1 := rfl
@[entries] theorem translation_3d_01 [Zero T] [One T] (x y z : T) : translation_3d x y z 0 1 = 0 := rfl
@[entries] theorem translation_3d_02 [Zero T] [One T] (x y z : T) : translation_3d x y z 0 2 = 0 := rfl
@[entries] theorem translation_3d_03 [Zero T] [One T] (x y z : T) : translation_3d x y z 0 3 = x := rfl
@[entries] theorem translation_3d_10 [Zero T] [One T] (x y z : T) : translation_3d x y z 1 0 = 0 := rfl
@[entries] theorem translation_3d_11 [Zero T] [One T] (x y z : T) : translation_3d x y z 1 1 = 1 := rfl
@[entries] theorem translation_3d_12 [Zero T] [One T] (x y z : T) : translation_3d x y z 1 2 = 0 := rfl
@[entries] theorem translation_3d_13 [Zero T] [One T] (x y z : T) : translation_3d x y z 1 3 = y := rfl
@[entries] theorem translation_3d_20 [Zero T] [One T] (x y z : T) : translation_3d x y z 2 0 = 0 := rfl
@[entries] theorem translation_3d_21 [Zero T] [One T] (x y z : T) : translation_3d x y z 2 1 = 0 := rfl
@[entries] theorem translation_3d_22 [Zero T] [One T] (x y z : T) : translation_3d x y z 2 2 = 1 := rfl
@[entries] theorem translation_3d_23 [Zero T] [One T] (x y z : T) : translation_3d x y z 2 3 = z := rfl
@[entries] theorem translation_3d_30 [Zero T] [One T] (x y z : T) : translation_3d x y z 3 0 = 0 := rfl
@[entries] theorem translation_3d_31 [Zero T] [One T] (x y z : T) : translation_3d x y z 3 1 = 0 := rfl
@[entries] theorem translation_3d_32 [Zero T] [One T] (x y z : T) : translation_3d x y z 3 2 = 0 := rfl
@[entries] theorem translation_3d_33 [Zero T] [One T] (x y z : T) : translation_3d x y z 3 3 = 1 := rfl

@[entries] theorem twist_to_se3_00 [Neg T] [Zero T] (v : Vec 6 T) : twist_to_se3 v 0 0 = 0 := rfl
@[entries] theorem twist_to_se3_01 [Neg T] [Zero T] (v : Vec 6 T) : twist_to_se3 v 0 1 = -v 2 := rfl
@[entries] theorem twist_to_se3_02 [Neg T] [Zero T] (v : Vec 6 T) : twist_to_se3 v 0 2 = v 1 := rfl
@[entries] theorem twist_to_se3_03 [Neg T] [Zero T] (v : Vec 6 T) : twist_to_se3 v 0 3 = v 3 := rfl
@[entries] theorem twist_to_se3_10 [Neg T] [Zero T] (v : Vec 6 T) : twist_to_se3 v 1 0 = v 2 := rfl
@[entries] theorem twist_to_se3_11 [Neg T] [Zero T] (v : Vec 6 T) : twist_to_se3 v 1 1 = 0 := rfl
@[entries] theorem twist_to_se3_12 [Neg T] [Zero T] (v : Vec 6 T) : twist_to_se3 v 1 2 = -v 0 := rfl
@[entries] theorem twist_to_se3_13 [Neg T] [Zero T] (v : Vec 6 T) : twist_to_se3 v 1 3 = v 4 := rfl
@[entries] theorem twist_to_se3_20 [Neg T] [Zero T] (v : Vec 6 T) : twist_to_se3 v 2 0 = -v 1 := rfl
@[entries] theorem twist_to_se3_21 [Neg T] [Zero T] (v : Vec 6 T) : twist_to_se3 v 2 1 = v 0 := rfl
@[entries] theorem twist_to_se3_22 [Neg T] [Zero T] (v : Vec 6 T) : twist_to_se3 v 2 2 = 0 := rfl
@[entries] theorem twist_to_se3_23 [Neg T] [Zero T] (v : Vec 6 T) : twist_to_se3 v 2 3 = v 5 := rfl
@[entries] theorem twist_to_se3_30 [Neg T] [Zero T] (v : Vec 6 T) : twist_to_se3 v 3 0 = 0 := rfl
@[entries] theorem twist_to_se3_31 [Neg T] [Zero T] (v : Vec 6 T) : twist_to_se3 v 3 1 = 0 := rfl
@[entries] theorem twist_to_se3_32 [Neg T] [Zero T] (v : Vec 6 T) : twist_to_se3 v 3 2 = 0 := rfl
@[entries] theorem twist_to_se3_33 [Neg T] [Zero T] (v : Vec 6 T) : twist_to_se3 v 3 3 = 0 := rfl

@[entries] theorem se3_to_twist_0  (x : Mat 4 T) : se3_to_twist x 0 = x 2 1 := rfl
@[entries] theorem se3_to_twist_1  (x : Mat 4 T) : se3_to_twist x 1 = x 0 2 := rfl
@[entries] theorem se3_to_twist_2  (x : Mat 4 T) : se3_to_twist x 2 = x 1 0 := rfl
@[entries] theorem se3_to_twist_3  (x : Mat 4 T) : se3_to_twist x 3 = x 0 3 := rfl
@[entries] theorem se3_to_twist_4  (x : Mat 4 T) : se3_to_twist x 4 = x 1 3 := rfl
@[entries] theorem se3_to_twist_5  (x : Mat 4 T) : se3_to_twist x 5 = x 2 3 := rfl

@[entries] theorem V3.cross_0 [Mul T] [Sub T] (a b : Vec 3 T) : V3.cross a b 0 = a 1 * b 2 - a 2 * b 1 := rfl
@[entries] theorem V3.cross_1 [Mul T] [Sub T] (a b : Vec 3 T) : V3.cross a b 1 = a 2 * b 0 - a 0 * b 2 := rfl
@[entries] theorem V3.cross_2 [Mul T] [Sub T] (a b : Vec 3 T) : V3.cross a b 2 = a 0 * b 1 - a 1 * b 0 := rfl

@[entries] theorem M22.one_00 [Zero T] [One T]  : (M22.one : Mat 2 T) 0 0 = 1 := rfl
@[entries] theorem M22.one_01 [Zero T] [One T]  : (M22.one : Mat 2 T) 0 1 = 0 := rfl
@[entries] theorem M22.one_10 [Zero T] [One T]  : (M22.one : Mat 2 T) 1 0 = 0 := rfl
@[entries] theorem M22.one_11 [Zero T] [One T]  : (M22.one : Mat 2 T) 1 1 = 1 := rfl

@[entries] theorem M33.one_00 [Zero T] [One T]  : (M33.one : Mat 3 T) 0 0 = 1 := rfl
@[entries] theorem M33.one_01 [Zero T] [One T]  : (M33.one : Mat 3 T) 0 1 = 0 := rfl
@[entries] theorem M33.one_02 [Zero T] [One T]  : (M33.one : Mat 3 T) 0 2 = 0 := rfl
@[entries] theorem M33.one_10 [Zero T] [One T]  : (M33.one : Mat 3 T) 1 0 = 0 := rfl
@[entries] theorem M33.one_11 [Zero T] [One T]  : (M33.one : Mat 3 T) 1 1 = 1 := rfl
@[entries] theorem M33.one_12 [Zero T] [One T]  : (M33.one : Mat 3 T) 1 2 = 0 := rfl
@[entries] theorem M33.one_20 [Zero T] [One T]  : (M33.one : Mat 3 T) 2 0 = 0 := rfl
@[entries] theorem M33.one_21 [Zero T] [One T]  : (M33.one : Mat 3 T) 2 1 = 0 := rfl
@[entries] theorem M33.one_22 [Zero T] [One T]  : (M33.one : Mat 3 T) 2 2 = 1 := rfl

@[entries] theorem M44.one_00 [Zero T] [One T]  : (M44.one : Mat 4 T) 0 0 = 1 := rfl
@[entries] theorem M44.one_01 [Zero T] [One T]  : (M44.one : Mat 4 T) 0 1 = 0 := rfl
@[entries] theorem M44.one_02 [Zero T] [One T]  : (M44.one : Mat 4 T) 0 2 = 0 := rfl
@[entries] theorem M44.one_03 [Zero T] [One T]  : (M44.one : Mat 4 T) 0 3 = 0 := rfl
@[entries] theorem M44.one_10 [Zero T] [One T]  : (M44.one : Mat 4 T) 1 0 = 0 := rfl
@[entries] theorem M44.one_11 [Zero T] [One T]  : (M44.one : Mat 4 T) 1 1 = 1 := rfl
@[entries] theorem M44.one_12 [Zero T] [One T]  : (M44.one : Mat 4 T) 1 2 = 0 := rfl
@[entries] theorem M44.one_13 [Zero T] [One T]  : (M44.one : Mat 4 T) 1 3 = 0 := rfl
@[entries] theorem M44.one_20 [Zero T] [One T]  : (M44.one : Mat 4 T) 2 0 = 0 := rfl
@[entries] theorem M44.one_21 [Zero T] [One T]  : (M44.one : Mat 4 T) 2 1 = 0 := rfl
@[entries] theorem M44.one_22 [Zero T] [One T]  : (M44.one : Mat 4 T) 2 2 = 1 := rfl
@[entries] theorem M44.one_23 [Zero T] [One T]  : (M44.one : Mat 4 T) 2 3 = 0 := rfl
@[entries] theorem M44.one_30 [Zero T] [One T]  : (M44.one : Mat 4 T) 3 0 = 0 := rfl
@[entries] theorem M44.one_31 [Zero T] [One T]  : (M44.one : Mat 4 T) 3 1 = 0 := rfl
@[entries] theorem M44.one_32 [Zero T] [One T]  : (M44.one : Mat 4 T) 3 2 = 0 := rfl
@[entries] theorem M44.one_33 [Zero T] [One T]  : (M44.one : Mat 4 T) 3 3 = 1 := rfl

@[entries] theorem Vec.lit3_0 (a b c : T) : (![a, b, c] : Fin 3 → T) 0 = a := rfl
@[entries] theorem Vec.lit3_1 (a b c : T) : (![a, b, c] : Fin 3 → T) 1 = b := rfl
@[entries] theorem Vec.lit3_2 (a b c : T) : (![a, b, c] : Fin 3 → T) 2 = c := rfl
@[entries] theorem Vec.lit4_0 (a b c d : T) : (![a, b, c, d] : Fin 4 → T) 0 = a := rfl
@[entries] theorem Vec.lit4_1 (a b c d : T) : (![a, b, c, d] : Fin 4 → T) 1 = b := rfl
@[entries] theorem Vec.lit4_2 (a b c d : T) : (![a, b, c, d] : Fin 4 → T) 2 = c := rfl
@[entries] theorem Vec.lit4_3 (a b c d : T) : (![a, b, c, d] : Fin 4 → T) 3 = d := rfl
@[entries] theorem Vec.lit6_0 (a b c d e f : T) : (![a, b, c, d, e, f] : Fin 6 → T) 0 = a := rfl
@[entries] theorem Vec.lit6_1 (a b c d e f : T) : (![a, b, c, d, e, f] : Fin 6 → T) 1 = b := rfl
@[entries] theorem Vec.lit6_2 (a b c d e f : T) : (![a, b, c, d, e, f] : Fin 6 → T) 2 = c := rfl
@[entries] theorem Vec.lit6_3 (a b c d e f : T) : (![a, b, c, d, e, f] : Fin 6 → T) 3 = d := rfl
@[entries] theorem Vec.lit6_4 (a b c d e f : T) : (![a, b, c, d, e, f] : Fin 6 → T) 4 = e := rfl
@[entries] theorem Vec.lit6_5 (a b c d e f : T) : (![a, b, c, d, e, f] : Fin 6 → T) 5 = f := rfl

attribute [entries] M33.mul_apply3 M33.mulVec_apply3 M22.mul_apply2 M44.mul_apply4 M44.mulVec_apply4
  M44.smul_apply M44.neg_apply M44.add_apply M44.zero_apply
  M22.add_apply M33.add_apply M44.add_apply M33.sub_apply M33.neg_apply M33.smul_apply
  M33.transpose_apply M33.sdiv_apply V3.add_apply V3.sub_apply V3.smul_apply V3.sdiv_apply
  V3.neg_apply M33.zero_apply M44.zero_apply V3.zero_apply M22.transpose_apply
  V6.sdiv_apply V6.smul_apply

end StaticMath
