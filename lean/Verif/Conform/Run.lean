import Verif.Conform.Formats
import Verif.Model.Mesh3dsDbl
/-!
The unit tests of the project on files too large for the kernel, run on the model by the compiler's interpreter: from /verif/lean,
`lake env lean --run Verif/Conform/Run.lean`. Nothing is proved here: this compares the model to the results the authors recorded in /repo/ressources/tests.
The reader of 3DS files (library lib3ds, not part of the code) is written here for the two chunks the tests need, and is not part of the model.
-/
namespace City.Conform.Run
open City City.Conform

/-- Text of a file. -/
def text (p : String) : IO Text := do return (← IO.FS.readFile p).toList

/-- Report of a test. -/
def report (n : String) (b : Bool) : IO Bool := do IO.println s!"{if b then "pass" else "FAIL"}  {n}"; return b

/-- Whether a run ends well and its result is as required. -/
def good {α : Type} (x : Out α) (p : α → Bool) : Bool := match x with | .ok a => p a | _ => false

/-- A 16 bit number of a 3DS file. -/
def u16 (b : ByteArray) (i : Nat) : Nat := b[i]!.toNat + 256 * b[i + 1]!.toNat
/-- A 32 bit number of a 3DS file. -/
def u32 (b : ByteArray) (i : Nat) : Nat := u16 b i + 65536 * u16 b (i + 2)

/-- The number of a finite `float`, from its bits. -/
def ofBits (n : Nat) : ℚ :=
  let m : Nat := n % 2 ^ 23
  let e : Nat := n / 2 ^ 23 % 256
  let v : ℚ := if e = 0 then (m : ℚ) * 2 ^ (-149 : ℤ) else ((m + 2 ^ 23 : Nat) : ℚ) * 2 ^ ((e : ℤ) - 150)
  if n / 2 ^ 31 = 1 then -v else v

/-- `float` normal of a face as lib3ds computes it when it reads the file: (c - b) × (a - b), divided by its length. -/
def normal (a b c : List Nat) : V3 Dbl :=
  let f := fun n : Nat => Float32.ofBits n.toUInt32
  let p := (c.zip b).map fun x => f x.1 - f x.2
  let q := (a.zip b).map fun x => f x.1 - f x.2
  let n := [p[1]! * q[2]! - p[2]! * q[1]!, p[2]! * q[0]! - p[0]! * q[2]!, p[0]! * q[1]! - p[1]! * q[0]!]
  let l := (n[0]! * n[0]! + n[1]! * n[1]! + n[2]! * n[2]!).sqrt
  let r := n.map fun x => Dbl.fin (if l.abs < 1e-8 then 0 else ofBits (x / l).toBits.toNat)
  ⟨r.getD 0 .nan, r.getD 1 .nan, r.getD 2 .nan⟩

/-- A mesh being read: name, words of the points, words of the faces. -/
structure Raw where
  name : Text
  points : Array (List Nat)
  faces : Array (Nat × Nat × Nat)

/-- The meshes of a 3DS file: chunks 4D4D, 3D3D, 4000 (named object) and 4100 (triangles) are entered, 4110 (points) and 4120 (faces) are read; `fuel` bounds
the steps. -/
def chunks (b : ByteArray) : Nat → Nat → Nat → Array Raw → Array Raw
  | 0, _, _, acc => acc
  | fuel + 1, i, n, acc =>
    if n < i + 6 then acc
    else
      let k := u16 b i
      let len := u32 b (i + 2)
      let acc :=
        if k = 0x4D4D ∨ k = 0x3D3D ∨ k = 0x4100 then chunks b fuel (i + 6) (i + len) acc
        else if k = 0x4000 then
          let nm := ((List.range 64).map fun j => b[i + 6 + j]!.toNat).takeWhile (· ≠ 0)
          chunks b fuel (i + 7 + nm.length) (i + len) (acc.push ⟨nm.map Char.ofNat, #[], #[]⟩)
        else if k = 0x4110 then
          acc.modify (acc.size - 1) fun r =>
            { r with points := (Array.range (u16 b (i + 6))).map fun j => (List.range 3).map fun x => u32 b (i + 8 + 12 * j + 4 * x) }
        else if k = 0x4120 then
          acc.modify (acc.size - 1) fun r => { r with faces := (Array.range (u16 b (i + 6))).map fun j =>
            (u16 b (i + 8 + 8 * j), u16 b (i + 10 + 8 * j), u16 b (i + 12 + 8 * j)) }
        else acc
      chunks b fuel (i + len) n acc

/-- What lib3ds hands to the code. -/
def lib3ds (r : Raw) : Mesh3dsF :=
  ⟨r.name, r.points.toList.map fun p => ⟨.fin (ofBits p[0]!), .fin (ofBits p[1]!), .fin (ofBits p[2]!)⟩,
    r.faces.toList.map fun t => ⟨t.1, t.2.1, t.2.2, normal r.points[t.1]! r.points[t.2.1]! r.points[t.2.2]!⟩⟩

/-- The number of a finite double. -/
def num : Dbl → ℚ
  | .fin q => q
  | _ => 0

/-- The mesh of finite coordinates that is printed. -/
def plain (m : DMesh) : Mesh :=
  let ps : List (V3 ℚ) := m.points.map fun p => ⟨num p.x, num p.y, num p.z⟩
  ⟨m.name, ps, m.faces, Mesh.computeBbox ps⟩

/-- The texts of the faces and of the points of two prints are compared as they stand. -/
def firstDiff : Nat → List Text → List Text → String
  | _, [], [] => "none"
  | k, a :: x, b :: y => if a = b then firstDiff (k + 1) x y else s!"line {k}: {String.ofList a} / {String.ofList b}"
  | k, _, _ => s!"line {k}: one text ends"

/-- The tests. -/
def main : IO Unit := do
  let d := "/repo/ressources/"
  let x ← text (d ++ "3dModels/OFF/hammerhead.off")
  let y ← text (d ++ "tests/hammerhead_shadow_mesh.txt")
  let body := fun m : Mesh => ((readlines (m.print false)).drop 1).flatMap (· ++ ['\n'])
  discard <| report "test_io_off.cpp:16-39 hammerhead.off read and printed" (good (Off.read fl true x) fun m => body m == y)
  let fs : Fs := fun p => if p = ["hammerhead.off".toList] then some (.file x) else resources p
  discard <| report "test_io_off.cpp:82-114 hammerhead.off written and read again"
    (good (do let m ← offRead fl true reading ["hammerhead.off".toList] fs; offRead fl true reading ["x.off".toList] (offWrite writing ["x.off".toList] m fs).2)
      fun m => body m == y)
  discard <| report "test_shadow_mesh.cpp:91-150 sum of nine meshes" (good (do let m ← stitched; let t ← off "building_sum_mesh.off"; m.eq t) (fun b => b))
  discard <| report "the sum is printed as building_sum_mesh.off" (good stitched fun m => m.print false == buildingSum)
  discard <| report "test_io_obj.cpp:22-50 minimal.obj" (good (objRead fl reading ["minimal.obj".toList] resources) fun ms => shownMeshes ms == minimalShown)
  discard <| report "test_io_obj.cpp:84-125 minimal.obj written and read again"
    (good (do let ms ← objRead fl reading ["minimal.obj".toList] resources; objRead fl reading ["x.obj".toList] (objWrite writing ["x.obj".toList] ms resources).2)
      fun ms => shownMeshes ms == minimalShown)
  discard <| report "test_io_obj.cpp:137-170 two.obj" (good (objRead fl reading ["two.obj".toList] resources) fun ms => shownMeshes ms == twoShown)
  let b ← IO.FS.readBinFile (d ++ "3dModels/3DS/Toy/Toy Santa Claus N180816.3DS")
  let z ← text (d ++ "tests/santa_shadow_mesh.txt")
  let ms := (chunks b 100000 0 b.size #[]).toList.filter fun r => !r.points.isEmpty
  let s := ms.map fun r => match DMesh.of3ds (lib3ds r) with | .ok m => (plain m).print false ++ ['\n'] | _ => []
  let ok := s.flatten == z
  discard <| report "test_io_3ds.cpp:16-34 meshes of a 3DS file" ok
  unless ok do IO.println (firstDiff 1 (readlines s.flatten) (readlines z))

end City.Conform.Run

/-- See `City.Conform.Run.main`. -/
def main : IO Unit := City.Conform.Run.main
