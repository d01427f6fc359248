import Verif.Arith

/-! Model of `source/utilities.cpp`. -/

namespace Spinas

/-- `ldouble u[3]` -/
structure V3 (R : Type) where
  x : R
  y : R
  z : R
  deriving DecidableEq, Repr

namespace Util
variable {R : Type} [Scalar R]

/-- one pass of the loop source/utilities.cpp:66-67 / 82-83: `nMom[i]` starts at 0 and accumulates `R[i][j]*mom[j]` -/
def row (r : V4 R) (p : V4 R) : R := int 0 + r.t * p.t + r.x * p.x + r.y * p.y + r.z * p.z

/-- source/utilities.cpp:57-70 -/
def rotate (p : V4 R) (u : V3 R) (theta : R) : V4 R :=
  let cost := Scalar.cos theta
  let sint := Scalar.sqrt (int 1 - cost * cost)
  let o : R := int 1
  let z : R := int 0
  { t := row ⟨o, z, z, z⟩ p
    x := row ⟨z, cost + u.x * u.x * (o - cost), u.x * u.y * (o - cost) - u.z * sint, u.x * u.z * (o - cost) + u.y * sint⟩ p
    y := row ⟨z, u.x * u.y * (o - cost) + u.z * sint, cost + u.y * u.y * (o - cost), u.y * u.z * (o - cost) - u.x * sint⟩ p
    z := row ⟨z, u.z * u.x * (o - cost) - u.y * sint, u.z * u.y * (o - cost) + u.x * sint, cost + u.z * u.z * (o - cost)⟩ p }

/-- source/utilities.cpp:72-86 -/
def boost (p : V4 R) (v : V3 R) : V4 R :=
  let v2 := v.x * v.x + v.y * v.y + v.z * v.z
  let g := int 1 / Scalar.sqrt (int 1 - v2)
  let o : R := int 1
  { t := row ⟨g, -g * v.x, -g * v.y, -g * v.z⟩ p
    x := row ⟨-g * v.x, o + (g - o) * v.x * v.x / v2, (g - o) * v.x * v.y / v2, (g - o) * v.x * v.z / v2⟩ p
    y := row ⟨-g * v.y, (g - o) * v.x * v.y / v2, o + (g - o) * v.y * v.y / v2, (g - o) * v.y * v.z / v2⟩ p
    z := row ⟨-g * v.z, (g - o) * v.x * v.z / v2, (g - o) * v.z * v.y / v2, o + (g - o) * v.z * v.z / v2⟩ p }

/-- source/utilities.cpp:91-92,100-104: the random generator, as an arbitrary stream;
`ω n b e` is the value of the `n`-th draw when it is made with the range `b, e`. -/
abbrev Stream (R : Type) := Nat → R → R → R

/-- source/utilities.cpp:106-116.  Returns the momentum and the mass; uses draws `n .. n+3`. -/
def randomMomentum (ω : Stream R) (n : Nat) (b e : R) : V4 R × R :=
  let x := ω n b e
  let y := ω (n + 1) b e
  let z := ω (n + 2) b e
  let p2 := int 0 + x * x + y * y + z * z
  let mass := ω (n + 3) (int 0) e
  (⟨Scalar.sqrt (mass * mass + p2), x, y, z⟩, mass)

/-- source/utilities.cpp:118-125 -/
def randomMasslessMomentum (ω : Stream R) (n : Nat) (b e : R) : V4 R :=
  let x := ω n b e
  let y := ω (n + 1) b e
  let z := ω (n + 2) b e
  let p2 := int 0 + x * x + y * y + z * z
  ⟨Scalar.sqrt p2, x, y, z⟩

/-- `num.find("e")` and `num.replace(epos,1," 10^")`: source/utilities.cpp:46-48, on the characters of the number -/
def replaceE : List Char → List Char
  | [] => []
  | c :: cs => if c = 'e' then [' ', '1', '0', '^'] ++ cs else c :: replaceE cs

/-- source/utilities.cpp:38-52, over an arbitrary formatting `fmt` of numbers by the stream -/
def doubleToMathematica (fmt : R → List Char) (x : R) : List Char := replaceE (fmt x)

end Util
end Spinas
