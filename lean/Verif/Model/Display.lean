import Verif.Model.DualQuaternion

/-!
# `Display` of vectors, matrices, quaternions and dual quaternions

Generated by `tools/gen_construct.py` from the Rust text. Formatting one number with a format
specification (fill/alignment, width, precision) is the parameter `sh`; it is code of core, not of
the crate. The destination is a growing string that never fails, so every `?` continues. What
`println!` sends to the standard output is recorded separately.
-/

namespace StaticMath

/-- A format specification `{:<7.2}`: alignment, width, precision. -/
structure FmtSpec where
  align : Char
  width : ℕ
  precision : ℕ
  deriving DecidableEq, Repr

/-- Effects of a `fmt` call: the characters printed on the standard output and those written to the
destination. -/
structure Printed where
  stdout : String
  dest : String
  deriving DecidableEq, Repr

/-- `println!()` of std. -/
def Printed.println (p : Printed) : Printed := { p with stdout := p.stdout ++ "\n" }

/-- `write!(dest, …)` of core with the arguments already rendered. -/
def Printed.write (p : Printed) (parts : List String) : Printed :=
  { p with dest := p.dest ++ String.join parts }

/-- `writeln!(dest, …)` of core: `write!` with a final newline. -/
def Printed.writeln (p : Printed) (parts : List String) : Printed := p.write (parts ++ ["\n"])

variable {T : Type}

/-- `src/vector2.rs:246-250` -/
def V2.fmt (sh : FmtSpec → T → String) (self : Vec 2 T) (dest : Printed) : Printed :=
  dest.writeln ["[", sh ⟨'^', 3, 2⟩ (self 0), " ", sh ⟨'^', 3, 2⟩ (self 1), "]"]

/-- `src/vector3.rs:286-294` -/
def V3.fmt (sh : FmtSpec → T → String) (self : Vec 3 T) (dest : Printed) : Printed :=
  dest.writeln ["[", sh ⟨'^', 3, 2⟩ (self 0), " ", sh ⟨'^', 3, 2⟩ (self 1), " ",
    sh ⟨'^', 3, 2⟩ (self 2), "]"]

/-- `src/vector4.rs:254-258` -/
def V4.fmt (sh : FmtSpec → T → String) (self : Vec 4 T) (dest : Printed) : Printed :=
  dest.writeln ["[", sh ⟨'^', 3, 2⟩ (self 0), " ", sh ⟨'^', 3, 2⟩ (self 1), " ",
    sh ⟨'^', 3, 2⟩ (self 2), " ", sh ⟨'^', 3, 2⟩ (self 3), "]"]

/-- `src/vector5.rs:238-242` -/
def V5.fmt (sh : FmtSpec → T → String) (self : Vec 5 T) (dest : Printed) : Printed :=
  dest.writeln ["[", sh ⟨'^', 3, 2⟩ (self 0), " ", sh ⟨'^', 3, 2⟩ (self 1), " ",
    sh ⟨'^', 3, 2⟩ (self 2), " ", sh ⟨'^', 3, 2⟩ (self 3), " ",
    sh ⟨'^', 3, 2⟩ (self 4), "]"]

/-- `src/vector6.rs:294-299` -/
def V6.fmt (sh : FmtSpec → T → String) (self : Vec 6 T) (dest : Printed) : Printed :=
  dest.writeln ["[", sh ⟨'^', 3, 2⟩ (self 0), " ", sh ⟨'^', 3, 2⟩ (self 1), " ",
    sh ⟨'^', 3, 2⟩ (self 2), " ", sh ⟨'^', 3, 2⟩ (self 3), " ",
    sh ⟨'^', 3, 2⟩ (self 4), " ", sh ⟨'^', 3, 2⟩ (self 5), "]"]

/-- `src/matrix2x2.rs:528-534` -/
def M22.fmt (sh : FmtSpec → T → String) (self : Mat 2 T) (dest : Printed) : Printed :=
  let dest := dest.println
  let dest := dest.writeln ["|", sh ⟨'^', 3, 2⟩ (self 0 0), " ", sh ⟨'^', 3, 2⟩ (self 0 1), "|"]
  dest.writeln ["|", sh ⟨'^', 3, 2⟩ (self 1 0), " ", sh ⟨'^', 3, 2⟩ (self 1 1), "|"]

/-- `src/matrix3x3.rs:628-653` -/
def M33.fmt (sh : FmtSpec → T → String) (self : Mat 3 T) (dest : Printed) : Printed :=
  let dest := dest.println
  let dest := dest.writeln ["|", sh ⟨'<', 7, 2⟩ (self 0 0), " ", sh ⟨'^', 7, 2⟩ (self 0 1), " ",
    sh ⟨'>', 7, 2⟩ (self 0 2), "|"]
  let dest := dest.writeln ["|", sh ⟨'<', 7, 2⟩ (self 1 0), " ", sh ⟨'^', 7, 2⟩ (self 1 1), " ",
    sh ⟨'>', 7, 2⟩ (self 1 2), "|"]
  dest.writeln ["|", sh ⟨'<', 7, 2⟩ (self 2 0), " ", sh ⟨'^', 7, 2⟩ (self 2 1), " ",
    sh ⟨'>', 7, 2⟩ (self 2 2), "|"]

/-- `src/matrix4x4.rs:819-855` -/
def M44.fmt (sh : FmtSpec → T → String) (self : Mat 4 T) (dest : Printed) : Printed :=
  let dest := dest.println
  let dest := dest.writeln ["|", sh ⟨'<', 7, 2⟩ (self 0 0), " ", sh ⟨'^', 7, 2⟩ (self 0 1), " ",
    sh ⟨'^', 7, 2⟩ (self 0 2), " ", sh ⟨'>', 7, 2⟩ (self 0 3), "|"]
  let dest := dest.writeln ["|", sh ⟨'<', 7, 2⟩ (self 1 0), " ", sh ⟨'^', 7, 2⟩ (self 1 1), " ",
    sh ⟨'^', 7, 2⟩ (self 1 2), " ", sh ⟨'>', 7, 2⟩ (self 1 3), "|"]
  let dest := dest.writeln ["|", sh ⟨'<', 7, 2⟩ (self 2 0), " ", sh ⟨'^', 7, 2⟩ (self 2 1), " ",
    sh ⟨'^', 7, 2⟩ (self 2 2), " ", sh ⟨'>', 7, 2⟩ (self 2 3), "|"]
  dest.writeln ["|", sh ⟨'<', 7, 2⟩ (self 3 0), " ", sh ⟨'^', 7, 2⟩ (self 3 1), " ",
    sh ⟨'^', 7, 2⟩ (self 3 2), " ", sh ⟨'>', 7, 2⟩ (self 3 3), "|"]

/-- `src/matrix5x5.rs:1078-1127` -/
def M55.fmt (sh : FmtSpec → T → String) (self : Mat 5 T) (dest : Printed) : Printed :=
  let dest := dest.println
  let dest := dest.writeln ["|", sh ⟨'<', 7, 2⟩ (self 0 0), " ", sh ⟨'^', 7, 2⟩ (self 0 1), " ",
    sh ⟨'^', 7, 2⟩ (self 0 2), " ", sh ⟨'^', 7, 2⟩ (self 0 3), " ",
    sh ⟨'>', 7, 2⟩ (self 0 4), "|"]
  let dest := dest.writeln ["|", sh ⟨'<', 7, 2⟩ (self 1 0), " ", sh ⟨'^', 7, 2⟩ (self 1 1), " ",
    sh ⟨'^', 7, 2⟩ (self 1 2), " ", sh ⟨'^', 7, 2⟩ (self 1 3), " ",
    sh ⟨'>', 7, 2⟩ (self 1 4), "|"]
  let dest := dest.writeln ["|", sh ⟨'<', 7, 2⟩ (self 2 0), " ", sh ⟨'^', 7, 2⟩ (self 2 1), " ",
    sh ⟨'^', 7, 2⟩ (self 2 2), " ", sh ⟨'^', 7, 2⟩ (self 2 3), " ",
    sh ⟨'>', 7, 2⟩ (self 2 4), "|"]
  let dest := dest.writeln ["|", sh ⟨'<', 7, 2⟩ (self 3 0), " ", sh ⟨'^', 7, 2⟩ (self 3 1), " ",
    sh ⟨'^', 7, 2⟩ (self 3 2), " ", sh ⟨'^', 7, 2⟩ (self 3 3), " ",
    sh ⟨'>', 7, 2⟩ (self 3 4), "|"]
  dest.writeln ["|", sh ⟨'<', 7, 2⟩ (self 4 0), " ", sh ⟨'^', 7, 2⟩ (self 4 1), " ",
    sh ⟨'^', 7, 2⟩ (self 4 2), " ", sh ⟨'^', 7, 2⟩ (self 4 3), " ",
    sh ⟨'>', 7, 2⟩ (self 4 4), "|"]

/-- `src/matrix6x6.rs:1930-1994` -/
def M66.fmt (sh : FmtSpec → T → String) (self : Mat 6 T) (dest : Printed) : Printed :=
  let dest := dest.println
  let dest := dest.writeln ["|", sh ⟨'<', 7, 2⟩ (self 0 0), " ", sh ⟨'^', 7, 2⟩ (self 0 1), " ",
    sh ⟨'^', 7, 2⟩ (self 0 2), " ", sh ⟨'^', 7, 2⟩ (self 0 3), " ",
    sh ⟨'^', 7, 2⟩ (self 0 4), " ", sh ⟨'>', 7, 2⟩ (self 0 5), "|"]
  let dest := dest.writeln ["|", sh ⟨'<', 7, 2⟩ (self 1 0), " ", sh ⟨'^', 7, 2⟩ (self 1 1), " ",
    sh ⟨'^', 7, 2⟩ (self 1 2), " ", sh ⟨'^', 7, 2⟩ (self 1 3), " ",
    sh ⟨'^', 7, 2⟩ (self 1 4), " ", sh ⟨'>', 7, 2⟩ (self 1 5), "|"]
  let dest := dest.writeln ["|", sh ⟨'<', 7, 2⟩ (self 2 0), " ", sh ⟨'^', 7, 2⟩ (self 2 1), " ",
    sh ⟨'^', 7, 2⟩ (self 2 2), " ", sh ⟨'^', 7, 2⟩ (self 2 3), " ",
    sh ⟨'^', 7, 2⟩ (self 2 4), " ", sh ⟨'>', 7, 2⟩ (self 2 5), "|"]
  let dest := dest.writeln ["|", sh ⟨'<', 7, 2⟩ (self 3 0), " ", sh ⟨'^', 7, 2⟩ (self 3 1), " ",
    sh ⟨'^', 7, 2⟩ (self 3 2), " ", sh ⟨'^', 7, 2⟩ (self 3 3), " ",
    sh ⟨'^', 7, 2⟩ (self 3 4), " ", sh ⟨'>', 7, 2⟩ (self 3 5), "|"]
  let dest := dest.writeln ["|", sh ⟨'<', 7, 2⟩ (self 4 0), " ", sh ⟨'^', 7, 2⟩ (self 4 1), " ",
    sh ⟨'^', 7, 2⟩ (self 4 2), " ", sh ⟨'^', 7, 2⟩ (self 4 3), " ",
    sh ⟨'^', 7, 2⟩ (self 4 4), " ", sh ⟨'>', 7, 2⟩ (self 4 5), "|"]
  dest.writeln ["|", sh ⟨'<', 7, 2⟩ (self 5 0), " ", sh ⟨'^', 7, 2⟩ (self 5 1), " ",
    sh ⟨'^', 7, 2⟩ (self 5 2), " ", sh ⟨'^', 7, 2⟩ (self 5 3), " ",
    sh ⟨'^', 7, 2⟩ (self 5 4), " ", sh ⟨'>', 7, 2⟩ (self 5 5), "|"]

/-- `src/quaternion.rs:548-552`; formatting `self.q` calls the `fmt` of `V3`, which ignores the format
specification. -/
def Quat.fmt (sh : FmtSpec → T → String) (self : Quat T) (dest : Printed) : Printed :=
  let dest := dest.write ["q0: ", sh ⟨'^', 3, 2⟩ self.q0, ", q:"]
  V3.fmt sh self.q dest

/-- `src/dual_quaternion.rs:493-497` -/
def DQuat.fmt (sh : FmtSpec → T → String) (self : DQuat T) (dest : Printed) : Printed :=
  let dest := dest.write ["real: "]
  let dest := Quat.fmt sh self.q_real dest
  let dest := dest.write ["\ndual: "]
  Quat.fmt sh self.q_dual dest

end StaticMath
