import Verif.Model.Raster
/-
Model of `operator <<` of `FacePrint` (/repo/src/lib/projection/face_projection.cpp:335-340), `BrickPrint` (brick_projection.cpp:425-431) and `FootPrint` (scene_projection.cpp:161-169) on an
ordinary output stream that accepts every character. What CGAL writes for a polygon with holes, a plane and a box, and how the stream writes numbers, are parameters.
-/
namespace City

/-- How the stream and CGAL write: `ostream << double`, `ostream << std::size_t`, and `ostream <<` of `Polygon_with_holes`, `Plane` and `CGAL::Bbox_2`. The default box is `none`. -/
structure Scribe (K : Type) where
  real : K → Text
  int : Nat → Text
  border : Pwh K → Text
  plane : Plane K → Text
  box : Option (Box2 K) → Text

section
variable {K : Type}

/-- `operator <<(ostream, FacePrint)`: face_projection.cpp:335-340. -/
def FacePrint.text (W : Scribe K) (f : FacePrint K) : Text :=
  "Id: ".toList ++ W.int f.id ++ '\n' :: ("The Polygon describing borders :".toList ++ W.border f.border ++ '\n' ::
    ("The supporting plane coefficients : ".toList ++ W.plane f.plane ++ ['\n']))

/-- `operator <<(ostream, BrickPrint)`: brick_projection.cpp:425-431; the iterator writes a line break after each face. -/
def Brick.text (W : Scribe K) (b : Brick K) : Text :=
  "Bounding box: ".toList ++ W.box b.bbox ++ '\n' :: ("Face Projections: ".toList ++ W.int b.faces.length ++ '\n' ::
    b.faces.flatMap fun f => f.text W ++ ['\n'])

/-- `operator <<(ostream, FootPrint)`: scene_projection.cpp:161-169, with `operator <<(ostream, Point)`, point.cpp:112-116. -/
def FootPrint.text (W : Scribe K) (f : FootPrint K) : Text :=
  "Name: ".toList ++ f.name ++ '\n' :: ("Reference Point: ".toList ++ (W.real f.ref.x ++ ' ' :: (W.real f.ref.y ++ ' ' :: W.real f.ref.z)) ++ '\n' ::
    ("EPSG index: ".toList ++ W.int f.epsg ++ '\n' :: f.brick.text W))

end
end City
