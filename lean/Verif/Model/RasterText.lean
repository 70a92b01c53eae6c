import Verif.Model.Raster
/-
Model of `operator <<(std::ostream &, RasterPrint const&)`: /repo/src/lib/projection/raster_projection.cpp:291-321. The stream keeps its
text, its flags and its precision; how a number is written with given flags is a parameter. A stream that refuses characters is not modelled.
-/
namespace City

/-- `std::ios::fmtflags`: whether `fixed` is set, and the other flags. -/
structure FmtFlags where
  fixed : Bool
  other : Nat
  deriving DecidableEq

/-- A `std::ostream`: what was written, the flags and the precision. -/
structure OStream where
  text : Text
  flags : FmtFlags
  prec : Nat
  deriving DecidableEq

/-- `ostream << double` and `ostream << unsigned`, which depend on the flags and the precision. -/
structure NumFmt (K : Type) where
  real : FmtFlags → Nat → K → Text
  int : FmtFlags → Nat → Text

namespace OStream
variable {K : Type}

/-- `os << "text"`. -/
def put (s : OStream) (t : Text) : OStream := { s with text := s.text ++ t }

/-- `os << double`. -/
def putReal (N : NumFmt K) (s : OStream) (x : K) : OStream := s.put (N.real s.flags s.prec x)

/-- `os << unsigned`. -/
def putInt (N : NumFmt K) (s : OStream) (n : Nat) : OStream := s.put (N.int s.flags n)

/-- `operator <<(ostream, Point)`: point.cpp:112-116. -/
def putPoint (N : NumFmt K) (s : OStream) (p : V3 K) : OStream :=
  (((((s.putReal N p.x).put [' ']).putReal N p.y).put [' ']).putReal N p.z)

end OStream

namespace Raster
variable {K : Type}
open OStream

/-- The lines before the image: raster_projection.cpp:295-301. -/
def putHeader (N : NumFmt K) (r : Raster K) (s : OStream) : OStream :=
  let s := ((s.put "Name : ".toList).put r.name).put ['\n']
  let s := ((s.put "Reference (Top left) Point : ".toList).putPoint N r.ref).put ['\n']
  let s := ((s.put "EPSG code : ".toList).putInt N r.epsg).put ['\n']
  let s := ((s.put "Height : ".toList).putInt N r.height).put ['\n']
  let s := ((s.put "Width : ".toList).putInt N r.width).put ['\n']
  (s.put "Image Matrix : \n".toList).put "[[".toList

/-- `std::setprecision(6) << std::fixed`: raster_projection.cpp:303. -/
def setFixed (s : OStream) : OStream := { s with flags := { s.flags with fixed := true }, prec := 6 }

/-- What follows the pixel number `it`: raster_projection.cpp:308-315. -/
def pixelEnd (h w it : Nat) : Text :=
  if (it + 1) % w ≠ 0 then [',', ' ']
  else if it + 1 ≠ w * h then [']', ',', '\n', ' ', '['] else [']']

/-- The loop over the pixels, from `it` on with `n` rounds left: raster_projection.cpp:305-316; `at` throws out_of_range. -/
def pixelLoop (N : NumFmt K) (r : Raster K) : Nat → Nat → OStream → OStream × Out Unit
  | 0, _, s => (s, .ok ())
  | n + 1, it, s =>
    match r.image[it]? with
    | none => (s, .thrown .outOfRange)
    | some x => pixelLoop N r n (it + 1) ((s.putReal N x).put (pixelEnd r.height r.width it))

/-- `operator <<`: raster_projection.cpp:291-321: the stream after the call, also after an exception. -/
def print (N : NumFmt K) (r : Raster K) (s : OStream) : OStream × Out Unit :=
  match pixelLoop N r (r.height * r.width) 0 (setFixed (putHeader N r s)) with
  | (t, .ok _) => ({ t.put [']', '\n'] with flags := s.flags }, .ok ())
  | (t, e) => (t, e)

end Raster
end City
