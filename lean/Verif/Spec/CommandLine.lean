import Verif.Model.Text
/-
The language of the command lines, as the usage texts of /repo/src/bin/orthoproject.cpp:16-31 and /repo/src/bin/cityformat.cpp:12-26 and the documentation of docopt describe it.
-/
namespace City.Spec
open City

/-- A name on the command line means an option: it is the name of the option, or the beginning of it and of no other one. `true`: the option takes an argument. -/
def Means (known : List (Text × Bool)) (x : Text) (n : Text) (takes : Bool) : Prop :=
  (n, takes) ∈ known ∧ "--".toList <+: x ∧ x ≠ "--".toList ∧ x <+: n ∧ (x = n ∨ ∀ k ∈ known, x <+: k.1 → k.1 = n)

/-- The command line consists of these words and these options, in any order: `--name`, `--name=value`, `--name value`, where names may be shortened. All that follows `--`, and `--` itself, are words. -/
inductive Spells (known : List (Text × Bool)) : List Text → List Text → List (Text × Option Text) → Prop
  | done : Spells known [] [] []
  | word {w : Text} {a ws : List Text} {os : List (Text × Option Text)} : (w.head? ≠ some '-' ∨ w = "-".toList) → Spells known a ws os → Spells known (w :: a) (w :: ws) os
  | rest (a : List Text) : Spells known ("--".toList :: a) ("--".toList :: a) []
  | switch {x n : Text} {a ws : List Text} {os : List (Text × Option Text)} : Means known x n false → Spells known a ws os → Spells known (x :: a) ws ((n, none) :: os)
  | equals {x n v : Text} {a ws : List Text} {os : List (Text × Option Text)} : Means known x n true → Spells known a ws os →
      Spells known ((x ++ '=' :: v) :: a) ws ((n, some v) :: os)
  | next {x n v : Text} {a ws : List Text} {os : List (Text × Option Text)} : Means known x n true → v ≠ [] → v ≠ "--".toList → Spells known a ws os →
      Spells known (x :: v :: a) ws ((n, some v) :: os)

/-- The options that the help of orthoproject lists, and whether they take an argument. -/
def orthoOptions : List (Text × Bool) :=
  [("--help".toList, false), ("--version".toList, false), ("--prune".toList, false), ("--cache".toList, false), ("--input-format".toList, true), ("--graphs".toList, false),
    ("--scene".toList, false), ("--labels".toList, false), ("--terrain".toList, false), ("--pixel-size".toList, true)]

/-- The options that the help of cityformat lists. -/
def formatOptions : List (Text × Bool) :=
  [("--help".toList, false), ("--version".toList, false), ("--prune".toList, false), ("--input-format".toList, true), ("--graphs".toList, false), ("--terrain".toList, false),
    ("--output-format".toList, true), ("--formats".toList, false)]

/-- The words and options of a run of orthoproject: the scene, then `save`, `rasterize`, both or none; an input format, and some of the other options, none twice. -/
structure OrthoLine (ws : List Text) (os : List (Text × Option Text)) (scene : Text) (save rasterize : Bool) : Prop where
  words : ws = scene :: ((if save then ["save".toList] else []) ++ if rasterize then ["rasterize".toList] else [])
  once : (os.map Prod.fst).Nodup
  format : "--input-format".toList ∈ os.map Prod.fst
  allowed : ∀ n ∈ os.map Prod.fst,
    n ∈ ["--input-format".toList, "--prune".toList, "--graphs".toList, "--terrain".toList, "--scene".toList, "--labels".toList, "--pixel-size".toList]

/-- The words and options of a conversion with cityformat: the scene, perhaps `output`, perhaps the path of the output; an input format, and some of the other options, none twice.
The word after the scene is the path unless it is `output`. -/
structure FormatLine (ws : List Text) (os : List (Text × Option Text)) (scene : Text) (path : Option Text) : Prop where
  words : ws = scene :: path.toList ∧ path ≠ some "output".toList ∨ ws = scene :: "output".toList :: path.toList
  once : (os.map Prod.fst).Nodup
  format : "--input-format".toList ∈ os.map Prod.fst
  allowed : ∀ n ∈ os.map Prod.fst, n ∈ ["--input-format".toList, "--prune".toList, "--graphs".toList, "--terrain".toList, "--output-format".toList]

end City.Spec
