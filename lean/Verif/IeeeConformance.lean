import Verif.Ieee.Param

/-!
# The floats of the model against the machine's

`Flt f` is a definition of IEEE 754 binary arithmetic; `BF f` is proved to compute the same results
(`Ieee/Comp.lean`). Here `BF` is run beside the hardware's `Float32` and `Float` on pseudo-random bit
patterns (with subnormals, infinities, NaN, zeros of both signs, halfway cases) and compared bit for bit, all
NaNs counted as one. These are tests of the definition, not proofs.
-/

namespace StaticMath.IeeeConformance

/-- The value of a bit pattern with `w` exponent bits. -/
def decode (f : Fmt) (w : ℕ) (bits : ℕ) : BF f :=
  let t := f.p - 1
  let m := bits % 2 ^ t
  let e := bits / 2 ^ t % 2 ^ w
  let s := decide (bits / 2 ^ (t + w) % 2 = 1)
  if e = 2 ^ w - 1 then (if m = 0 then .inf s else .nan)
  else if e = 0 then .fin s m (f.emin - t)
  else .fin s (m + 2 ^ t) (f.emin - t + (e - 1))

/-- Same float: same sign (also of zero), same magnitude; NaNs are equal. -/
def same {f : Fmt} : BF f → BF f → Bool
  | .nan, .nan => true
  | .inf s, .inf t => s == t
  | .fin s m e, .fin t n g => s == t && BF.lift m e (min e g) == BF.lift n g (min e g)
  | _, _ => false

/-- xorshift64 -/
def next (x : UInt64) : UInt64 :=
  let x := x ^^^ (x <<< 13)
  let x := x ^^^ (x >>> 7)
  x ^^^ (x <<< 17)

abbrev B32 := BF Fmt.f32
abbrev B64 := BF Fmt.f64
def d32 (x : Float32) : B32 := decode Fmt.f32 8 x.toBits.toNat
def d64 (x : Float) : B64 := decode Fmt.f64 11 x.toBits.toNat

/-- Patterns of many kinds: anything; moderate exponents; few significant bits (exact and halfway cases);
special values. -/
def pick32 (r : UInt64) : Float32 :=
  let k := (r >>> 60).toNat
  let b := r.toUInt32
  if k < 4 then .ofBits b
  else if k < 8 then .ofBits ((b &&& 0x83ffffff) ||| 0x3c000000)
  else if k < 11 then .ofBits ((b &&& 0x80ffffff) ||| 0x3f000000)
  else if k < 13 then .ofBits (b &&& 0xbff00001)
  else if k < 14 then .ofBits (b &&& 0x807fffff)
  else if k < 15 then .ofBits ((b &&& 0x8007ffff) ||| 0x7f000000)
  else #[0, -0, 1, -1, 1/0, -1/0, 0/0, .ofBits 1, .ofBits 0x7f7fffff, .ofBits 0x00800000][(b % 10).toNat]!

def pick64 (r : UInt64) (q : UInt64) : Float :=
  let k := (r >>> 60).toNat
  let b := q
  if k < 4 then .ofBits b
  else if k < 8 then .ofBits ((b &&& 0x807fffffffffffff) ||| 0x3f80000000000000)
  else if k < 11 then .ofBits ((b &&& 0x801fffffffffffff) ||| 0x3fe0000000000000)
  else if k < 13 then .ofBits (b &&& 0xbffe000000000001)
  else if k < 14 then .ofBits (b &&& 0x800fffffffffffff)
  else if k < 15 then .ofBits ((b &&& 0x8000ffffffffffff) ||| 0x7fe0000000000000)
  else #[0, -0, 1, -1, 1/0, -1/0, 0/0, .ofBits 1, .ofBits 0x7fefffffffffffff, .ofBits 0x0010000000000000][(b % 10).toNat]!

def check32 (a b : Float32) : Bool :=
  let x := d32 a
  let y := d32 b
  same (x + y) (d32 (a + b)) && same (x - y) (d32 (a - b)) && same (x * y) (d32 (a * b)) &&
  same (x / y) (d32 (a / b)) && same (RFloat.sqrt x) (d32 a.sqrt) && same (-x) (d32 (-a)) &&
  same (RAbs.abs x) (d32 a.abs) &&
  ROrd.lt x y == decide (a < b) && ROrd.le x y == decide (a ≤ b) && ROrd.beq x y == (a == b)

def check64 (a b : Float) : Bool :=
  let x := d64 a
  let y := d64 b
  same (x + y) (d64 (a + b)) && same (x - y) (d64 (a - b)) && same (x * y) (d64 (a * b)) &&
  same (x / y) (d64 (a / b)) && same (RFloat.sqrt x) (d64 a.sqrt) && same (-x) (d64 (-a)) &&
  same (RAbs.abs x) (d64 a.abs) &&
  ROrd.lt x y == decide (a < b) && ROrd.le x y == decide (a ≤ b) && ROrd.beq x y == (a == b)

/-- Number of disagreements in `n` random pairs. -/
def run32 (n : ℕ) (seed : UInt64) : ℕ := Id.run do
  let mut s := seed
  let mut bad := 0
  for _ in [0:n] do
    s := next s
    let a := pick32 s
    s := next s
    let b := pick32 s
    unless check32 a b do bad := bad + 1
  return bad

def run64 (n : ℕ) (seed : UInt64) : ℕ := Id.run do
  let mut s := seed
  let mut bad := 0
  for _ in [0:n] do
    let s1 := next s
    let s2 := next s1
    let s3 := next s2
    s := next s3
    unless check64 (pick64 s1 s2) (pick64 s3 s) do bad := bad + 1
  return bad

#guard run32 20000 88172645463325252 == 0
#guard run64 20000 88172645463325252 == 0
-- the model's constants
#guard same (RFloat.epsilon : B32) (d32 (.ofBits 0x34000000))
#guard same (RFloat.epsilon : B64) (d64 (.ofBits 0x3cb0000000000000))
#guard same (RFloat.max_value : B32) (d32 (.ofBits 0x7f7fffff))
#guard same (RFloat.max_value : B64) (d64 (.ofBits 0x7fefffffffffffff))
#guard same (0 : B32) (d32 0) && same (1 : B32) (d32 1) && same (0 : B64) (d64 0) && same (1 : B64) (d64 1)

end StaticMath.IeeeConformance
