import Verif.Model.Off
/-
Model of the `operator <<` of `shadow::Bbox` (bbox.cpp:135-139), `shadow::Vector` (vector.cpp:128-132) and `shadow::Mesh` (mesh.cpp:332-345) on an ordinary
output stream with its default precision.
-/
namespace City

/-- `os << double` with the default format: infinities are `inf` and `-inf`; a NaN is `nan` or `-nan`: its sign bit, `neg`, is not part of the model of doubles. -/
def dblWord (neg : Bool) : Dbl → Text
  | .fin q => dblText q
  | .pinf => ['i', 'n', 'f']
  | .ninf => ['-', 'i', 'n', 'f']
  | .nan => if neg then ['-', 'n', 'a', 'n'] else ['n', 'a', 'n']

/-- `operator <<(ostream, Bbox)`: bbox.cpp:135-139. -/
def Bbox.text (neg : Bool) (b : Bbox) : Text :=
  dblWord neg b.xmin ++ ' ' :: (dblWord neg b.xmax ++ ' ' :: (dblWord neg b.ymin ++ ' ' :: (dblWord neg b.ymax ++ ' ' ::
    (dblWord neg b.zmin ++ ' ' :: dblWord neg b.zmax))))

/-- `operator <<(ostream, Mesh)`: mesh.cpp:332-345. The calls `.at(idx)` are all in range. -/
def Mesh.print (neg : Bool) (m : Mesh) : Text :=
  ['#', 'N', 'a', 'm', 'e', ':', ' '] ++ m.name ++ '\n' ::
    (['#', 'B', 'o', 'u', 'n', 'd', 'i', 'n', 'g', ' ', 'b', 'o', 'x', ':', ' '] ++ m.bbox.text neg ++ '\n' ::
      ([['O', 'F', 'F'], natText m.points.length ++ ' ' :: (natText m.faces.length ++ [' ', '0'])] ++ m.points.map Off.pointText ++
        m.faces.map Off.faceText).flatMap (· ++ ['\n']))

end City
