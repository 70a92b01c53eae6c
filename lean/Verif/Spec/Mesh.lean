import Verif.Model.Mesh
import Verif.Spec.Face
import Verif.Spec.Bbox
/-!
Specification vocabulary for meshes: what a mesh denotes is its list of polygons in space.
-/
namespace City.Spec
open City

/-- All the indexes of all the faces denote points of the mesh. -/
def Valid (m : Mesh) : Prop := ∀ f ∈ m.faces, ∀ i ∈ f.points, i < m.points.length

instance (m : Mesh) : Decidable (Valid m) := by unfold Valid; infer_instance

/-- The polygon (list of positions in space) of a face; `none` marks an index without point. -/
def polygon {α : Type} (ps : List α) (f : Face) : List (Option α) := f.points.map fun i => ps[i]?

/-- The polygons of a mesh, face by face. -/
def polygons (m : Mesh) : List (List (Option (V3 ℚ))) := m.faces.map (polygon m.points)

/-- The bounding box of the mesh is the tight box of its points. -/
def BoxFresh (m : Mesh) : Prop := TightBox m.bbox (m.points.map V3.toDbl)

/-- Two faces describe the same cyclic sequence. -/
def SameCycle (f g : Face) : Prop := f.points ~r g.points

end City.Spec
