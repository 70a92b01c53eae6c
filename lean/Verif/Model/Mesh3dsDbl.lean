import Verif.Model.ConvexDbl
import Verif.Model.Mesh3ds
/-
Model of `Mesh::to_3ds` (/repo/src/lib/shadow/mesh.cpp:281-330), `Face::to_3ds` (face.cpp:204-236) and `Mesh::Mesh(Lib3dsMesh*)` (mesh.cpp:25-63) with IEEE arithmetic: coordinates and normals
are doubles, what is stored in the 3DS structures is rounded to single precision. As Model/Face3ds.lean and Model/Mesh3ds.lean otherwise.
Simplification: zeros are unsigned; a double too large for `float` becomes an infinity (undefined in C++ unless `float` is IEEE 754, as it is here).
-/
namespace City

/-- The exponent of the last binary digit of the `float` nearest to `x`: 24 digits, none below 2^-149. -/
def lastBit32 (x : ℚ) : ℤ := max (Int.log 2 |x| - 23) (-149)

/-- The number nearest to `x` with 24 binary digits, none below 2^-149: a `float` unless it is too large. -/
def fl32 (x : ℚ) : ℚ := rne (x / 2 ^ lastBit32 x) * 2 ^ lastBit32 x

/-- Conversion `double` to `float`; a `float` is seen as a double (`static_cast<double>` is exact). -/
def Dbl.toFloat : Dbl → Dbl
  | .nan => .nan
  | .ninf => .ninf
  | .pinf => .pinf
  | .fin q => if 2 ^ 128 ≤ fl32 q then .pinf else if fl32 q ≤ -2 ^ 128 then .ninf else .fin (fl32 q)

/-- Rounding of the three coordinates to single precision. -/
def V3.toFloat (p : V3 Dbl) : V3 Dbl := ⟨p.x.toFloat, p.y.toFloat, p.z.toFloat⟩

/-- `Lib3dsFace` as far as the code uses it, with `float` normals. -/
structure Face3dsF where
  a : Nat
  b : Nat
  c : Nat
  normal : V3 Dbl

/-- Name, points and faces of a mesh, with doubles as coordinates. -/
structure DMesh where
  name : Text
  points : List (V3 Dbl)
  faces : List Face

/-- `Lib3dsMesh` as far as the code uses it, with `float` coordinates. -/
structure Mesh3dsF where
  name : Text
  points : List (V3 Dbl)
  faces : List Face3dsF

/-- The lambda of `Face::to_3ds`: face.cpp:219-228. -/
noncomputable def Face.fanTriangleD (o : SumOrder) (co : List (V3 Dbl)) (p0 : Nat) (bc : Nat × Nat) : Out Face3dsF := do
  let A ← Out.atOr co p0
  let B ← Out.atOr co bc.1
  let C ← Out.atOr co bc.2
  .ok ⟨word p0, word bc.1, word bc.2, (V3.normalToD o A B C).toFloat⟩

/-- `Face::to_3ds`: face.cpp:204-236. -/
noncomputable def Face.to3dsD (o : SumOrder) (f : Face) (co : List (V3 Dbl)) : Out (List Face3dsF) :=
  if co.length < f.points.length then .thrown .outOfRange
  else do
    let convex ← Face.isConvexD o f co
    if convex then
      match f.points with
      | [] => .ok []
      | p0 :: t => Out.mapM (Face.fanTriangleD o co p0) (t.zip t.tail)
    else .thrown .logicError

/-- An entry of the zero initialised face list: `calloc`, mesh.cpp:315. -/
def Face3dsF.zero : Face3dsF := ⟨0, 0, 0, ⟨.fin 0, .fin 0, .fin 0⟩⟩

/-- The transform of mesh.cpp:317-325: slot `k` receives the FIRST triangle of face `k`; writing beyond the allocated slots is undefined. -/
noncomputable def fillSlotsD (o : SumOrder) (co : List (V3 Dbl)) (slots : Int) : Nat → List Face → Out (List Face3dsF)
  | _, [] => .ok []
  | k, f :: fs => do
    let ts ← Face.to3dsD o f co
    let t ← Out.idx ts 0
    if (k : Int) < slots then do
      let rest ← fillSlotsD o co slots (k + 1) fs
      .ok (t :: rest)
    else .ub

/-- `Mesh::to_3ds`: mesh.cpp:281-330, as `RMesh.to3ds`; the coordinates are copied into `float`s (mesh.cpp:297-299). -/
noncomputable def DMesh.to3ds (o : SumOrder) (m : DMesh) : Out Mesh3dsF :=
  if 63 ≤ (cName m.name).length then .ub
  else if 65536 ≤ m.points.length then .ub
  else do
    let ts ← fillSlotsD o m.points (faceSlots m.faces) 0 m.faces
    .ok ⟨cName m.name, m.points.map V3.toFloat, ts ++ List.replicate ((faceSlots m.faces).toNat - ts.length) Face3dsF.zero⟩

/-- The lambda of mesh.cpp:42-59: orientation from the stored normal, compared to `std::numeric_limits<double>::epsilon()`; `points[...]` is unchecked. -/
def faceOf3dsD (ps : List (V3 Dbl)) (t : Face3dsF) : Out Face := do
  let p0 ← Out.idx ps t.a
  let p1 ← Out.idx ps t.b
  let p2 ← Out.idx ps t.c
  .ok (Face.ofTriple t.a t.b t.c ((Dbl.fin (2 ^ (-52 : ℤ))).lt (V3.determinantD (V3.subD p1 p0) (V3.subD p2 p1) t.normal)))

/-- `Mesh::Mesh(Lib3dsMesh*)`: mesh.cpp:25-63. -/
def DMesh.of3ds (m : Mesh3dsF) : Out DMesh := do
  let fs ← Out.mapM (faceOf3dsD m.points) m.faces
  .ok ⟨m.name, m.points, fs⟩

end City
