#!/usr/bin/env python3
"""Writes lean/Verif/Lemmas/Entries.lean: one rfl lemma per entry of every matrix literal."""
import sys
out = []
w = out.append
w('''import Verif.Lemmas.Attr
import Verif.Lemmas.Dim3

/-! Generated by `tools/gen_entries.py`: the entries of the literal matrices and vectors. -/

namespace StaticMath

variable {T : Type}
''')
FL = "[Neg T] [Zero T] [One T] [RFloat T]"
def mat(name, binders, app, rows, inst):
    for i, r in enumerate(rows):
        for j, e in enumerate(r):
            w(f"@[entries] theorem {name}_{i}{j} {inst} {binders} : {app} {i} {j} = {e} := rfl")
    w("")
def vec(name, binders, app, es, inst):
    for i, e in enumerate(es):
        w(f"@[entries] theorem {name}_{i} {inst} {binders} : {app} {i} = {e} := rfl")
    w("")
s, c = "RFloat.sin a", "RFloat.cos a"
mat("rot2", "(a : T)", "rot2 a", [[c, "-"+s], [s, c]], "[Neg T] [RFloat T]")
mat("rotx", "(a : T)", "rotx a", [["1","0","0"],["0",c,"-"+s],["0",s,c]], FL)
mat("roty", "(a : T)", "roty a", [[c,"0",s],["0","1","0"],["-"+s,"0",c]], FL)
mat("rotz", "(a : T)", "rotz a", [[c,"-"+s,"0"],[s,c,"0"],["0","0","1"]], FL)
for nm, last in (("homogeneous_from_rotation","1"),("se3_from_parts","0")):
    mat(nm, "(r : Mat 3 T) (p : Vec 3 T)", nm+" r p",
        [[f"r {i} {j}" for j in range(3)]+[f"p {i}"] for i in range(3)]+[["0","0","0",last]], "[Zero T]"+(" [One T]" if last=="1" else ""))
for nm in ("se3_get_parts","get_parts_raw"):
    mat(nm+"_fst", "(h : Mat 4 T)", f"({nm} h).1", [[f"h {i} {j}" for j in range(3)] for i in range(3)], "")
    vec(nm+"_snd", "(h : Mat 4 T)", f"({nm} h).2", [f"h {i} 3" for i in range(3)], "")
Z = "[Zero T]"; NZ = "[Neg T] [Zero T]"
mat("skew_from_vec", "(v : Vec 3 T)", "skew_from_vec v", [["0","-v 2","v 1"],["v 2","0","-v 0"],["-v 1","v 0","0"]], NZ)
vec("skew_to_vec", "(r : Mat 3 T)", "skew_to_vec r", ["r 2 1","r 0 2","r 1 0"], "")
mat("skew_scalar", "(x : T)", "skew_scalar x", [["0","-x"],["x","0"]], NZ)
mat("ksi", "(a x y : T)", "ksi a x y", [[c,"-"+s,"x"],[s,c,"y"],["0","0","1"]], FL)
mat("skew_from_vec_aug", "(v : Vec 3 T)", "skew_from_vec_aug v", [["0","-v 2","v 0"],["v 2","0","v 1"],["0","0","0"]], NZ)
mat("skew_v6", "(v : Vec 6 T)", "skew_v6 v", [["0","-v 5","v 4","v 0"],["v 5","0","-v 3","v 1"],["-v 4","v 3","0","v 2"],["0"]*4], NZ)
mat("translation_2d", "(x y : T)", "translation_2d x y", [["1","0","x"],["0","1","y"],["0","0","1"]], "[Zero T] [One T]")
mat("translation_3d", "(x y z : T)", "translation_3d x y z", [["1","0","0","x"],["0","1","0","y"],["0","0","1","z"],["0","0","0","1"]], "[Zero T] [One T]")
mat("twist_to_se3", "(v : Vec 6 T)", "twist_to_se3 v", [["0","-v 2","v 1","v 3"],["v 2","0","-v 0","v 4"],["-v 1","v 0","0","v 5"],["0"]*4], NZ)
vec("se3_to_twist", "(x : Mat 4 T)", "se3_to_twist x", ["x 2 1","x 0 2","x 1 0","x 0 3","x 1 3","x 2 3"], "")
vec("V3.cross", "(a b : Vec 3 T)", "V3.cross a b", ["a 1 * b 2 - a 2 * b 1","a 2 * b 0 - a 0 * b 2","a 0 * b 1 - a 1 * b 0"], "[Mul T] [Sub T]")
for n in (2,3,4):
    mat(f"M{n}{n}.one", "", f"(M{n}{n}.one : Mat {n} T)", [["1" if i==j else "0" for j in range(n)] for i in range(n)], "[Zero T] [One T]")
for n in (3,4,6):
    xs = "abcdef"[:n]
    for i in range(n):
        w(f"@[entries] theorem Vec.lit{n}_{i} ({' '.join(xs)} : T) : (![{', '.join(xs)}] : Fin {n} → T) {i} = {xs[i]} := rfl")
w('''
attribute [entries] M33.mul_apply3 M33.mulVec_apply3 M22.mul_apply2 M44.mul_apply4 M44.mulVec_apply4
  M44.smul_apply M44.neg_apply M44.add_apply M44.zero_apply
  M22.add_apply M33.add_apply M44.add_apply M33.sub_apply M33.neg_apply M33.smul_apply
  M33.transpose_apply M33.sdiv_apply V3.add_apply V3.sub_apply V3.smul_apply V3.sdiv_apply
  V3.neg_apply M33.zero_apply M44.zero_apply V3.zero_apply M22.transpose_apply
  V6.sdiv_apply V6.smul_apply

end StaticMath''')
open(sys.argv[1], "w").write("\n".join(out) + "\n")
