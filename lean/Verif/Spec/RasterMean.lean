import Verif.Spec.Raster
/-!
Specification vocabulary for the values of pixels.
-/
namespace City.Spec
open City
variable {K : Type}

/-- The heights given to the pixel `k`, in the order in which they are given, when `H` lists all the pixels that are given a height, with the height. -/
def heightsOn (k : Nat) (H : List (Nat × K)) : List K := (H.filter fun e => e.1 == k).map Prod.snd

end City.Spec
