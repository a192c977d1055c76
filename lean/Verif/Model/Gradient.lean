import Verif.Model.Array

/-!
# Finite-difference gradients

`src/cpu/gradient/second-order-central.cc`, `src/cpu/gradient/third-order.cc`, `src/cpu/gradient.cc`.

`ga` is the grid of the differentiated array `alpha`, `gg` the grid of the result `grad_alpha`.
-/

namespace Gals

variable {K : Type} [Zero K] [One K] [Add K] [Sub K] [Mul K] [Div K] [Neg K] [NatCast K] [IntCast K] {d : ℕ} {T : Type}

/-- Assignment to a part of an element, `a(i, j, k)[axis] = …` or `a(i, j, k)(row, col) = …`: the reference returned by
`operator()` (`src/cpu/array.cc:96-101`) is updated in place by `f`. -/
def Arr.modify (s : IntSem) (g : Grid K d) (a : Arr T) (c : Cell) (f : T → T) : M (Arr T) := do
  let v ← a.get s g c.1 c.2.1 c.2.2
  a.set s g c.1 c.2.1 c.2.2 (f v)

/-- `alpha(i + axis_vectors(axis, 0), j + axis_vectors(axis, 1), k + axis_vectors(axis, 2))`
(`src/cpu/gradient/second-order-central.cc:60,84`, `src/cpu/gradient/third-order.cc:59,84`). -/
def Arr.plus1 (s : IntSem) (g : Grid K d) (a : Arr T) (c : Cell) (axis : Fin 3) : M T := do
  let i ← iadd s c.1 (axisVec axis 0)
  let j ← iadd s c.2.1 (axisVec axis 1)
  let k ← iadd s c.2.2 (axisVec axis 2)
  a.get s g i j k

/-- `alpha(i - axis_vectors(axis, 0), j - axis_vectors(axis, 1), k - axis_vectors(axis, 2))`
(`src/cpu/gradient/second-order-central.cc:61,85`, `src/cpu/gradient/third-order.cc:61,86`). -/
def Arr.minus1 (s : IntSem) (g : Grid K d) (a : Arr T) (c : Cell) (axis : Fin 3) : M T := do
  let i ← isub s c.1 (axisVec axis 0)
  let j ← isub s c.2.1 (axisVec axis 1)
  let k ← isub s c.2.2 (axisVec axis 2)
  a.get s g i j k

/-- `alpha(i - 2 * axis_vectors(axis, 0), j - 2 * axis_vectors(axis, 1), k - 2 * axis_vectors(axis, 2))`
(`src/cpu/gradient/third-order.cc:62,87-88`). -/
def Arr.minus2 (s : IntSem) (g : Grid K d) (a : Arr T) (c : Cell) (axis : Fin 3) : M T := do
  let i2 ← imul s 2 (axisVec axis 0)
  let i ← isub s c.1 i2
  let j2 ← imul s 2 (axisVec axis 1)
  let j ← isub s c.2.1 j2
  let k2 ← imul s 2 (axisVec axis 2)
  let k ← isub s c.2.2 k2
  a.get s g i j k

/-- `SecondOrderCentral::compute` of a scalar array (`src/cpu/gradient/second-order-central.cc:44-65`). -/
def centralScalar (s : IntSem) (ga gg : Grid K d) (alpha : Arr K) (grad : Arr (Vec3 K)) : M (Arr (Vec3 K)) :=
  loop alpha.interior grad fun grad c =>
    loop (axes d) grad fun grad axis => do
      let oneByDx : K := 1 / ga.dx.get axis
      let p ← alpha.plus1 s ga c axis
      let m ← alpha.minus1 s ga c axis
      grad.modify s gg c fun v => v.set axis ((p - m) * oneByDx * (1 / 2))

/-- `SecondOrderCentral::compute` of a vector array (`src/cpu/gradient/second-order-central.cc:67-90`). -/
def centralVector (s : IntSem) (ga gg : Grid K d) (alpha : Arr (Vec3 K)) (grad : Arr (Mat3 K)) : M (Arr (Mat3 K)) :=
  loop alpha.interior grad fun grad c =>
    loop (axes d) grad fun grad axis =>
      loop (axes d) grad fun grad cmpt => do
        let oneByDx : K := 1 / ga.dx.get cmpt
        let p ← alpha.plus1 s ga c axis
        let m ← alpha.minus1 s ga c axis
        grad.modify s gg c fun v => v.setEntry axis cmpt ((p.get axis - m.get axis) * oneByDx * (1 / 2))

/-- `ThirdOrder::compute` of a scalar array (`src/cpu/gradient/third-order.cc:44-66`). -/
def thirdScalar (s : IntSem) (ga gg : Grid K d) (alpha : Arr K) (grad : Arr (Vec3 K)) : M (Arr (Vec3 K)) :=
  loop alpha.interior grad fun grad c =>
    loop (axes d) grad fun grad axis => do
      let oneByDx : K := 1 / (6 * ga.dx.get axis)
      let p ← alpha.plus1 s ga c axis
      let z ← alpha.get s ga c.1 c.2.1 c.2.2
      let m ← alpha.minus1 s ga c axis
      let mm ← alpha.minus2 s ga c axis
      grad.modify s gg c fun v => v.set axis ((2 * p + 3 * z - 6 * m + 1 * mm) * oneByDx)

/-- `ThirdOrder::compute` of a vector array (`src/cpu/gradient/third-order.cc:68-93`). -/
def thirdVector (s : IntSem) (ga gg : Grid K d) (alpha : Arr (Vec3 K)) (grad : Arr (Mat3 K)) : M (Arr (Mat3 K)) :=
  loop alpha.interior grad fun grad c =>
    loop (axes d) grad fun grad axis =>
      loop (axes d) grad fun grad cmpt => do
        let oneByDx : K := 1 / (6 * ga.dx.get cmpt)
        let p ← alpha.plus1 s ga c axis
        let z ← alpha.get s ga c.1 c.2.1 c.2.2
        let m ← alpha.minus1 s ga c axis
        let mm ← alpha.minus2 s ga c axis
        grad.modify s gg c fun v => v.setEntry axis cmpt
          ((2 * p.get axis + 3 * z.get axis - 6 * m.get axis + 1 * mm.get axis) * oneByDx)

/-- The template argument `GRADIENT_SCHEME` of `Gradient` (`include/gals/cpu/gradient.h:49`; instantiated with two
schemes at `src/cpu/gradient.cc:58-74`). -/
inductive GradScheme
  | central | third
  deriving DecidableEq, Repr

/-- The default argument (`include/gals/cpu/gradient.h:49`). -/
def GradScheme.dflt : GradScheme := .third

/-- `Gradient::compute` of a scalar array (`src/cpu/gradient.cc:44-49`). -/
def gradScalar (sch : GradScheme) (s : IntSem) (ga gg : Grid K d) (alpha : Arr K) (grad : Arr (Vec3 K)) :
    M (Arr (Vec3 K)) :=
  match sch with
  | .central => centralScalar s ga gg alpha grad
  | .third => thirdScalar s ga gg alpha grad

/-- `Gradient::compute` of a vector array (`src/cpu/gradient.cc:51-56`). -/
def gradVector (sch : GradScheme) (s : IntSem) (ga gg : Grid K d) (alpha : Arr (Vec3 K)) (grad : Arr (Mat3 K)) :
    M (Arr (Mat3 K)) :=
  match sch with
  | .central => centralVector s ga gg alpha grad
  | .third => thirdVector s ga gg alpha grad

end Gals
