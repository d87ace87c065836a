import Verif.Model.GenVec
import Verif.Model.GenM22
import Verif.Model.GenM33
import Verif.Model.GenM44
import Verif.Model.GenM55
import Verif.Model.GenM66

/-! # `+=` and `-=` of vectors and matrices; the `&mut self` is returned -/

namespace StaticMath

variable {T : Type}

/-- `src/vector2.rs:205-209` -/
def V2.add_assign [Add T] (self other : Vec 2 T) : Vec 2 T := V2.add self other

/-- `src/vector2.rs:188-193` -/
def V2.sub_assign [Sub T] (self other : Vec 2 T) : Vec 2 T := V2.sub self other

/-- `src/matrix2x2.rs:216-221` -/
def M22.add_assign [Add T] (self other : Mat 2 T) : Mat 2 T := M22.add self other

/-- `src/matrix2x2.rs:237-242` -/
def M22.sub_assign [Sub T] (self other : Mat 2 T) : Mat 2 T := M22.sub self other

/-- `src/vector3.rs:243-248` -/
def V3.add_assign [Add T] (self other : Vec 3 T) : Vec 3 T := V3.add self other

/-- `src/vector3.rs:225-230` -/
def V3.sub_assign [Sub T] (self other : Vec 3 T) : Vec 3 T := V3.sub self other

/-- `src/matrix3x3.rs:358-362` -/
def M33.add_assign [Add T] (self other : Mat 3 T) : Mat 3 T := M33.add self other

/-- `src/matrix3x3.rs:390-394` -/
def M33.sub_assign [Sub T] (self other : Mat 3 T) : Mat 3 T := M33.sub self other

/-- `src/vector4.rs:211-216` -/
def V4.add_assign [Add T] (self other : Vec 4 T) : Vec 4 T := V4.add self other

/-- `src/vector4.rs:194-198` -/
def V4.sub_assign [Sub T] (self other : Vec 4 T) : Vec 4 T := V4.sub self other

/-- `src/matrix4x4.rs:479-483` -/
def M44.add_assign [Add T] (self other : Mat 4 T) : Mat 4 T := M44.add self other

/-- `src/matrix4x4.rs:533-537` -/
def M44.sub_assign [Sub T] (self other : Mat 4 T) : Mat 4 T := M44.sub self other

/-- `src/vector5.rs:197-202` -/
def V5.add_assign [Add T] (self other : Vec 5 T) : Vec 5 T := V5.add self other

/-- `src/vector5.rs:180-185` -/
def V5.sub_assign [Sub T] (self other : Vec 5 T) : Vec 5 T := V5.sub self other

/-- `src/matrix5x5.rs:473-477` -/
def M55.add_assign [Add T] (self other : Mat 5 T) : Mat 5 T := M55.add self other

/-- `src/matrix5x5.rs:577-581` -/
def M55.sub_assign [Sub T] (self other : Mat 5 T) : Mat 5 T := M55.sub self other

/-- `src/vector6.rs:252-257` -/
def V6.add_assign [Add T] (self other : Vec 6 T) : Vec 6 T := V6.add self other

/-- `src/vector6.rs:233-238` -/
def V6.sub_assign [Sub T] (self other : Vec 6 T) : Vec 6 T := V6.sub self other

/-- `src/matrix6x6.rs:1159-1163` -/
def M66.add_assign [Add T] (self other : Mat 6 T) : Mat 6 T := M66.add self other

/-- `src/matrix6x6.rs:1298-1302` -/
def M66.sub_assign [Sub T] (self other : Mat 6 T) : Mat 6 T := M66.sub self other

end StaticMath
