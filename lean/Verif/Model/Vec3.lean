import Verif.Model.Float64
import Verif.Model.CellList

/-!
# Three-component vectors

Model of `Vec3`, `/repo/source/core/include/vecx.h` 15-220.

* A component is a double in the sense of `Model/Float64`: rational numbers, each operation rounded; no
  overflow, underflow, NaN or signed zeros. Dividing by zero is `undefined`.
* Products and sums are rounded one by one; a compiler which fuses them (`-ffp-contract`) is not modelled.
* A failed `assert` is `assertFail`.
* A program has variables with numbers; operands of one statement may be the same variable.
* `operator<<` is left out; it prints.
-/

namespace MaterSDK

/-- The variables of a program. -/
abbrev V3State := ℕ → Vec ℚ

/-- Statements. -/
inductive V3Op where
  /-- `x = Vec3();` -/
  | zero (x : ℕ)
  /-- `x = Vec3(a, b, c);` -/
  | make (x : ℕ) (a b c : ℚ)
  /-- `x = +y;` -/
  | pos (x y : ℕ)
  /-- `x = -y;` -/
  | neg (x y : ℕ)
  /-- `x = y + z;` -/
  | add (x y z : ℕ)
  /-- `x = y - z;` -/
  | sub (x y z : ℕ)
  /-- `x += y;` -/
  | addEq (x y : ℕ)
  /-- `x -= y;` -/
  | subEq (x y : ℕ)
  /-- `x = y * s;` -/
  | scale (x y : ℕ) (s : ℚ)
  /-- `x = s * y;` -/
  | scaleL (x : ℕ) (s : ℚ) (y : ℕ)
  /-- `x *= s;` -/
  | scaleEq (x : ℕ) (s : ℚ)
  /-- `x *= x[i];` - the argument is passed by value -/
  | scaleBy (x : ℕ) (i : ℤ)
  /-- `x = y / s;` -/
  | div (x y : ℕ) (s : ℚ)
  /-- `x /= s;` -/
  | divEq (x : ℕ) (s : ℚ)
  /-- `x[i] = a;` -/
  | put (x : ℕ) (i : ℤ) (a : ℚ)
  /-- show `x[i]` -/
  | get (x : ℕ) (i : ℤ)
  /-- show `x == y` -/
  | eq (x y : ℕ)
  /-- show `x != y` -/
  | ne (x y : ℕ)

/-- What a program shows. -/
inductive V3Out where
  | num (q : ℚ)
  | bool (b : Bool)
  deriving DecidableEq, Repr

/-- The index check of `operator[]`, vecx.h 38-46. -/
def v3Index (i : ℤ) : Except CErr (Fin 3) :=
  if i = 0 then .ok 0 else if i = 1 then .ok 1 else if i = 2 then .ok 2 else .error .assertFail

/-- Assignment to one component. -/
def v3Put (s : V3State) (x : ℕ) (i : Fin 3) (a : ℚ) : V3State :=
  Function.update s x (Function.update (s x) i a)

/-- `data[0] … ; data[1] … ; data[2] …`: each line sees what the lines before it wrote. -/
def v3InPlace (s : V3State) (x : ℕ) (f : V3State → Fin 3 → ℚ) : V3State :=
  let s0 := v3Put s x 0 (f s 0)
  let s1 := v3Put s0 x 1 (f s0 1)
  v3Put s1 x 2 (f s1 2)

/-- `v * s`, vecx.h 137-140. -/
def v3Scale (v : Vec ℚ) (s : ℚ) : Vec ℚ := ![fl (v 0 * s), fl (v 1 * s), fl (v 2 * s)]

/-- `v / s`, vecx.h 157-165. -/
def v3Div (v : Vec ℚ) (s : ℚ) : Except CErr (Vec ℚ) :=
  if s = 0 then .error .undefined
  else
    let f := fl (1 / s)
    .ok ![fl (v 0 * f), fl (v 1 * f), fl (v 2 * f)]

/-- `v.dot(w)`, vecx.h 183-186. -/
def v3Dot (v w : Vec ℚ) : ℚ := fl (fl (fl (v 0 * w 0) + fl (v 1 * w 1)) + fl (v 2 * w 2))

/-- `v.cross(w)`, vecx.h 192-199. -/
def v3Cross (v w : Vec ℚ) : Vec ℚ :=
  ![fl (fl (v 1 * w 2) - fl (v 2 * w 1)),
    fl (fl (v 2 * w 0) - fl (v 0 * w 2)),
    fl (fl (v 0 * w 1) - fl (v 1 * w 0))]

/-- `v == w`, vecx.h 52-59. -/
def v3Eq (v w : Vec ℚ) : Bool := v 0 == w 0 && v 1 == w 1 && v 2 == w 2

/-- `v != w`, vecx.h 67-74. -/
def v3Ne (v w : Vec ℚ) : Bool := v 0 != w 0 || v 1 != w 1 || v 2 != w 2

/-- One statement: vecx.h 22-33 (constructors), 80-83 `+v`, 90-93 `+`, 99-104 `+=`, 110-113 `-v`,
119-122 `-`, 128-133 `-=`, 137-140 `*`, 146-151 `*=`, 157-165 `/`, 171-177 `/=`, 215-217 `s * v`. -/
def v3Step (s : V3State) : V3Op → Except CErr (V3State × List V3Out)
  | .zero x => .ok (Function.update s x ![0, 0, 0], [])
  | .make x a b c => .ok (Function.update s x ![a, b, c], [])
  | .pos x y => .ok (Function.update s x ![s y 0, s y 1, s y 2], [])
  | .neg x y => .ok (Function.update s x ![-s y 0, -s y 1, -s y 2], [])
  | .add x y z => .ok (Function.update s x
      ![fl (s y 0 + s z 0), fl (s y 1 + s z 1), fl (s y 2 + s z 2)], [])
  | .sub x y z => .ok (Function.update s x
      ![fl (s y 0 - s z 0), fl (s y 1 - s z 1), fl (s y 2 - s z 2)], [])
  | .addEq x y => .ok (v3InPlace s x (fun s i => fl (s x i + s y i)), [])
  | .subEq x y => .ok (v3InPlace s x (fun s i => fl (s x i - s y i)), [])
  | .scale x y a => .ok (Function.update s x (v3Scale (s y) a), [])
  | .scaleL x a y => .ok (Function.update s x (v3Scale (s y) a), [])
  | .scaleEq x a => .ok (v3InPlace s x (fun s i => fl (s x i * a)), [])
  | .scaleBy x i => do
    let k ← v3Index i
    let a := s x k
    return (v3InPlace s x (fun s i => fl (s x i * a)), [])
  | .div x y a => do
    let v ← v3Div (s y) a
    return (Function.update s x v, [])
  | .divEq x a =>
    if a = 0 then .error .undefined
    else
      let f := fl (1 / a)
      .ok (v3InPlace s x (fun s i => fl (s x i * f)), [])
  | .put x i a => do
    let k ← v3Index i
    return (v3Put s x k a, [])
  | .get x i => do
    let k ← v3Index i
    return (s, [.num (s x k)])
  | .eq x y => .ok (s, [.bool (v3Eq (s x) (s y))])
  | .ne x y => .ok (s, [.bool (v3Ne (s x) (s y))])

/-- A program. -/
def v3Run (s : V3State) : List V3Op → Except CErr (V3State × List V3Out)
  | [] => .ok (s, [])
  | op :: ops => do
    let r ← v3Step s op
    let t ← v3Run r.1 ops
    return (t.1, r.2 ++ t.2)

end MaterSDK
