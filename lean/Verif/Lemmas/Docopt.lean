import Verif.Model.Docopt
import Mathlib.Data.List.Basic
/-
The patterns of the two usage texts, and what matching does to the arguments and the options of a command line.
-/
namespace City.Docopt
open City

set_option linter.unusedSectionVars false

/-! ### Equality of patterns -/

mutual
/-- Equality of patterns. -/
def Pat.same : Pat → Pat → Bool
  | .arg n v, .arg m w => n == m && decide (v = w)
  | .cmd n v, .cmd m w => n == m && decide (v = w)
  | .opt o, .opt q => decide (o = q)
  | .required l, .required k => sameAll l k
  | .optional l, .optional k => sameAll l k
  | .either l, .either k => sameAll l k
  | _, _ => false

/-- Equality of lists of patterns. -/
def sameAll : List Pat → List Pat → Bool
  | [], [] => true
  | p :: ps, q :: qs => p.same q && sameAll ps qs
  | _, _ => false
end

mutual
theorem eq_of_same : ∀ (p q : Pat), p.same q = true → p = q
  | .arg n v, q, h => by
    cases q <;> simp_all [Pat.same]
  | .cmd n v, q, h => by
    cases q <;> simp_all [Pat.same]
  | .opt o, q, h => by
    cases q <;> simp_all [Pat.same]
  | .required l, q, h => by
    cases q with
    | required k => rw [eq_of_sameAll l k (by simpa [Pat.same] using h)]
    | _ => simp [Pat.same] at h
  | .optional l, q, h => by
    cases q with
    | optional k => rw [eq_of_sameAll l k (by simpa [Pat.same] using h)]
    | _ => simp [Pat.same] at h
  | .either l, q, h => by
    cases q with
    | either k => rw [eq_of_sameAll l k (by simpa [Pat.same] using h)]
    | _ => simp [Pat.same] at h

theorem eq_of_sameAll : ∀ (l k : List Pat), sameAll l k = true → l = k
  | [], [], _ => rfl
  | [], _ :: _, h => by simp [sameAll] at h
  | _ :: _, [], h => by simp [sameAll] at h
  | p :: ps, q :: qs, h => by
    simp only [sameAll, Bool.and_eq_true] at h
    rw [eq_of_same p q h.1, eq_of_sameAll ps qs h.2]
end

/-! ### The usage texts -/

set_option maxRecDepth 100000

theorem ortho_chars : orthoUsage = [
  'o', 'r', 't', 'h', 'o', 'p', 'r', 'o', 'j', 'e', 'c', 't', '.', '\n', '\n', ' ', ' ', ' ', ' ', 'U', 's', 'a', 'g', 'e', ':', '\n', ' ', ' ', ' ',
  ' ', ' ', ' ', 'o', 'r', 't', 'h', 'o', 'p', 'r', 'o', 'j', 'e', 'c', 't', ' ', '<', 's', 'c', 'e', 'n', 'e', '>', ' ', '-', '-', 'i', 'n', 'p',
  'u', 't', '-', 'f', 'o', 'r', 'm', 'a', 't', '=', '<', 'i', 'n', 'p', 'u', 't', '_', 'f', 'r', 'm', 't', '>', ' ', '[', '-', '-', 'p', 'r', 'u',
  'n', 'e', ' ', '-', '-', 'g', 'r', 'a', 'p', 'h', 's', ' ', '-', '-', 't', 'e', 'r', 'r', 'a', 'i', 'n', ']', ' ', '[', 's', 'a', 'v', 'e', ' ',
  '-', '-', 's', 'c', 'e', 'n', 'e', ' ', '-', '-', 'l', 'a', 'b', 'e', 'l', 's', ']', ' ', '[', 'r', 'a', 's', 't', 'e', 'r', 'i', 'z', 'e', ' ',
  '-', '-', 'p', 'i', 'x', 'e', 'l', '-', 's', 'i', 'z', 'e', '=', '<', 's', 'i', 'z', 'e', '>', ']', '\n', ' ', ' ', ' ', ' ', ' ', ' ', 'o', 'r',
  't', 'h', 'o', 'p', 'r', 'o', 'j', 'e', 'c', 't', ' ', '(', '-', 'h', ' ', '|', ' ', '-', '-', 'h', 'e', 'l', 'p', ')', '\n', ' ', ' ', ' ', ' ',
  ' ', ' ', 'o', 'r', 't', 'h', 'o', 'p', 'r', 'o', 'j', 'e', 'c', 't', ' ', '-', '-', 'v', 'e', 'r', 's', 'i', 'o', 'n', '\n', ' ', ' ', ' ', ' ',
  'O', 'p', 't', 'i', 'o', 'n', 's', ':', '\n', ' ', ' ', ' ', ' ', ' ', ' ', '-', 'h', ' ', '-', '-', 'h', 'e', 'l', 'p', ' ', ' ', ' ', ' ', ' ',
  ' ', ' ', ' ', ' ', ' ', ' ', ' ', ' ', ' ', ' ', ' ', ' ', ' ', ' ', ' ', ' ', ' ', ' ', ' ', ' ', ' ', ' ', ' ', ' ', 'S', 'h', 'o', 'w', ' ',
  't', 'h', 'i', 's', ' ', 's', 'c', 'r', 'e', 'e', 'n', '.', '\n', ' ', ' ', ' ', ' ', ' ', ' ', '-', '-', 'v', 'e', 'r', 's', 'i', 'o', 'n', ' ',
  ' ', ' ', ' ', ' ', ' ', ' ', ' ', ' ', ' ', ' ', ' ', ' ', ' ', ' ', ' ', ' ', ' ', ' ', ' ', ' ', ' ', ' ', ' ', ' ', ' ', ' ', ' ', ' ', 'S',
  'h', 'o', 'w', ' ', 'v', 'e', 'r', 's', 'i', 'o', 'n', '.', '\n', ' ', ' ', ' ', ' ', ' ', ' ', '-', '-', 'p', 'r', 'u', 'n', 'e', ' ', ' ', ' ',
  ' ', ' ', ' ', ' ', ' ', ' ', ' ', ' ', ' ', ' ', ' ', ' ', ' ', ' ', ' ', ' ', ' ', ' ', ' ', ' ', ' ', ' ', ' ', ' ', ' ', ' ', ' ', ' ', 'P',
  'r', 'u', 'n', 'e', ' ', 'b', 'u', 'i', 'l', 'd', 'i', 'n', 'g', ' ', 'f', 'a', 'c', 'e', 's', '.', '\n', ' ', ' ', ' ', ' ', ' ', ' ', '-', '-',
  'c', 'a', 'c', 'h', 'e', ' ', ' ', ' ', ' ', ' ', ' ', ' ', ' ', ' ', ' ', ' ', ' ', ' ', ' ', ' ', ' ', ' ', ' ', ' ', ' ', ' ', ' ', ' ', ' ',
  ' ', ' ', ' ', ' ', ' ', ' ', ' ', 'S', 'a', 'v', 'e', ' ', 'b', 'u', 'i', 'l', 'd', 'i', 'n', 'g', 's', '.', '\n', ' ', ' ', ' ', ' ', ' ', ' ',
  '-', '-', 'i', 'n', 'p', 'u', 't', '-', 'f', 'o', 'r', 'm', 'a', 't', '=', '<', 'i', 'n', 'p', 'u', 't', '_', 'f', 'r', 'm', 't', '>', ' ', ' ',
  ' ', ' ', ' ', ' ', ' ', ' ', ' ', ' ', ' ', 'S', 'p', 'e', 'c', 'i', 'f', 'y', ' ', 'i', 'n', 'p', 'u', 't', ' ', 'f', 'o', 'r', 'm', 'a', 't',
  '.', '\n', ' ', ' ', ' ', ' ', ' ', ' ', '-', '-', 'g', 'r', 'a', 'p', 'h', 's', ' ', ' ', ' ', ' ', ' ', ' ', ' ', ' ', ' ', ' ', ' ', ' ', ' ',
  ' ', ' ', ' ', ' ', ' ', ' ', ' ', ' ', ' ', ' ', ' ', ' ', ' ', ' ', ' ', ' ', ' ', 'S', 'a', 'v', 'e', ' ', 't', 'h', 'e', ' ', 'b', 'u', 'i',
  'l', 'd', 'i', 'n', 'g', ' ', 'f', 'a', 'c', 'e', 't', 's', ' ', 'd', 'u', 'a', 'l', ' ', 'g', 'r', 'a', 'p', 'h', '.', '\n', ' ', ' ', ' ', ' ',
  ' ', ' ', '-', '-', 's', 'c', 'e', 'n', 'e', ' ', ' ', ' ', ' ', ' ', ' ', ' ', ' ', ' ', ' ', ' ', ' ', ' ', ' ', ' ', ' ', ' ', ' ', ' ', ' ',
  ' ', ' ', ' ', ' ', ' ', ' ', ' ', ' ', ' ', ' ', ' ', 'S', 'u', 'm', ' ', 'a', 'n', 'd', ' ', 's', 'a', 'v', 'e', ' ', 't', 'h', 'e', ' ', 's',
  'c', 'e', 'n', 'e', ' ', 'p', 'r', 'o', 'j', 'e', 'c', 't', 'i', 'o', 'n', '.', '\n', ' ', ' ', ' ', ' ', ' ', ' ', '-', '-', 'l', 'a', 'b', 'e',
  'l', 's', ' ', ' ', ' ', ' ', ' ', ' ', ' ', ' ', ' ', ' ', ' ', ' ', ' ', ' ', ' ', ' ', ' ', ' ', ' ', ' ', ' ', ' ', ' ', ' ', ' ', ' ', ' ',
  ' ', ' ', ' ', 'S', 'a', 'v', 'e', ' ', 'v', 'e', 'c', 't', 'o', 'r', ' ', 'p', 'r', 'o', 'j', 'e', 'c', 't', 'i', 'o', 'n', 's', ' ', 'w', 'i',
  't', 'h', ' ', 'e', 'r', 'r', 'o', 'r', ' ', 'f', 'i', 'e', 'l', 'd', 's', '.', '\n', ' ', ' ', ' ', ' ', ' ', ' ', '-', '-', 't', 'e', 'r', 'r',
  'a', 'i', 'n', ' ', ' ', ' ', ' ', ' ', ' ', ' ', ' ', ' ', ' ', ' ', ' ', ' ', ' ', ' ', ' ', ' ', ' ', ' ', ' ', ' ', ' ', ' ', ' ', ' ', ' ',
  ' ', ' ', ' ', 'T', 'a', 'k', 'i', 'n', 'g', ' ', 'c', 'a', 'r', 'e', ' ', 'o', 'f', ' ', 't', 'e', 'r', 'r', 'a', 'i', 'n', '.', '\n', ' ', ' ',
  ' ', ' ', ' ', ' ', '-', '-', 'p', 'i', 'x', 'e', 'l', '-', 's', 'i', 'z', 'e', '=', '<', 's', 'i', 'z', 'e', '>', ' ', ' ', ' ', ' ', ' ', ' ',
  ' ', ' ', ' ', ' ', ' ', ' ', ' ', ' ', ' ', ' ', ' ', ' ', ' ', 'P', 'i', 'x', 'e', 'l', ' ', 's', 'i', 'z', 'e', ' ', '[', 'd', 'e', 'f', 'a',
  'u', 'l', 't', ':', ' ', '1', ']', '.', '\n'] := String.toList_ofList

theorem format_chars : formatUsage = [
  'c', 'i', 't', 'y', 'f', 'o', 'r', 'm', 'a', 't', '.', '\n', '\n', ' ', ' ', ' ', ' ', 'U', 's', 'a', 'g', 'e', ':', '\n', ' ', ' ', ' ', ' ', ' ',
  ' ', 'c', 'i', 't', 'y', 'f', 'o', 'r', 'm', 'a', 't', ' ', '<', 's', 'c', 'e', 'n', 'e', '>', ' ', '-', '-', 'i', 'n', 'p', 'u', 't', '-', 'f',
  'o', 'r', 'm', 'a', 't', '=', '<', 'i', 'n', 'p', 'u', 't', '_', 'f', 'r', 'm', 't', '>', ' ', '[', '-', '-', 'p', 'r', 'u', 'n', 'e', ' ', '-',
  '-', 'g', 'r', 'a', 'p', 'h', 's', ' ', '-', '-', 't', 'e', 'r', 'r', 'a', 'i', 'n', ']', ' ', '[', 'o', 'u', 't', 'p', 'u', 't', ' ', '<', 'p',
  'a', 't', 'h', '>', ' ', '-', '-', 'o', 'u', 't', 'p', 'u', 't', '-', 'f', 'o', 'r', 'm', 'a', 't', '=', '<', 'o', 'u', 't', 'p', 'u', 't', '_',
  'f', 'o', 'r', 'm', 'a', 't', '>', ']', '\n', ' ', ' ', ' ', ' ', ' ', ' ', 'c', 'i', 't', 'y', 'f', 'o', 'r', 'm', 'a', 't', ' ', '-', '-', 'f',
  'o', 'r', 'm', 'a', 't', 's', '\n', ' ', ' ', ' ', ' ', ' ', ' ', 'c', 'i', 't', 'y', 'f', 'o', 'r', 'm', 'a', 't', ' ', '(', '-', 'h', ' ', '|',
  ' ', '-', '-', 'h', 'e', 'l', 'p', ')', '\n', ' ', ' ', ' ', ' ', ' ', ' ', 'c', 'i', 't', 'y', 'f', 'o', 'r', 'm', 'a', 't', ' ', '-', '-', 'v',
  'e', 'r', 's', 'i', 'o', 'n', '\n', ' ', ' ', ' ', ' ', 'O', 'p', 't', 'i', 'o', 'n', 's', ':', '\n', ' ', ' ', ' ', ' ', ' ', ' ', '-', 'h', ' ',
  '-', '-', 'h', 'e', 'l', 'p', ' ', ' ', ' ', ' ', ' ', ' ', ' ', ' ', ' ', ' ', ' ', ' ', ' ', ' ', ' ', ' ', ' ', ' ', ' ', ' ', ' ', ' ', ' ',
  ' ', ' ', ' ', ' ', ' ', ' ', 'S', 'h', 'o', 'w', ' ', 't', 'h', 'i', 's', ' ', 's', 'c', 'r', 'e', 'e', 'n', '.', '\n', ' ', ' ', ' ', ' ', ' ',
  ' ', '-', '-', 'v', 'e', 'r', 's', 'i', 'o', 'n', ' ', ' ', ' ', ' ', ' ', ' ', ' ', ' ', ' ', ' ', ' ', ' ', ' ', ' ', ' ', ' ', ' ', ' ', ' ',
  ' ', ' ', ' ', ' ', ' ', ' ', ' ', ' ', ' ', ' ', 'S', 'h', 'o', 'w', ' ', 'v', 'e', 'r', 's', 'i', 'o', 'n', '.', '\n', ' ', ' ', ' ', ' ', ' ',
  ' ', '-', '-', 'p', 'r', 'u', 'n', 'e', ' ', ' ', ' ', ' ', ' ', ' ', ' ', ' ', ' ', ' ', ' ', ' ', ' ', ' ', ' ', ' ', ' ', ' ', ' ', ' ', ' ',
  ' ', ' ', ' ', ' ', ' ', ' ', ' ', ' ', ' ', ' ', 'P', 'r', 'u', 'n', 'e', ' ', 'b', 'u', 'i', 'l', 'd', 'i', 'n', 'g', ' ', 'f', 'a', 'c', 'e',
  's', '.', '\n', ' ', ' ', ' ', ' ', ' ', ' ', '-', '-', 'i', 'n', 'p', 'u', 't', '-', 'f', 'o', 'r', 'm', 'a', 't', '=', '<', 'i', 'n', 'p', 'u',
  't', '_', 'f', 'r', 'm', 't', '>', ' ', ' ', ' ', ' ', ' ', ' ', ' ', ' ', ' ', ' ', ' ', 'S', 'p', 'e', 'c', 'i', 'f', 'y', ' ', 'i', 'n', 'p',
  'u', 't', ' ', 'f', 'o', 'r', 'm', 'a', 't', '.', '\n', ' ', ' ', ' ', ' ', ' ', ' ', '-', '-', 'g', 'r', 'a', 'p', 'h', 's', ' ', ' ', ' ', ' ',
  ' ', ' ', ' ', ' ', ' ', ' ', ' ', ' ', ' ', ' ', ' ', ' ', ' ', ' ', ' ', ' ', ' ', ' ', ' ', ' ', ' ', ' ', ' ', ' ', ' ', ' ', 'S', 'a', 'v',
  'e', ' ', 't', 'h', 'e', ' ', 'b', 'u', 'i', 'l', 'd', 'i', 'n', 'g', ' ', 'f', 'a', 'c', 'e', 't', 's', ' ', 'd', 'u', 'a', 'l', ' ', 'g', 'r',
  'a', 'p', 'h', '.', '\n', ' ', ' ', ' ', ' ', ' ', ' ', '-', '-', 't', 'e', 'r', 'r', 'a', 'i', 'n', ' ', ' ', ' ', ' ', ' ', ' ', ' ', ' ', ' ',
  ' ', ' ', ' ', ' ', ' ', ' ', ' ', ' ', ' ', ' ', ' ', ' ', ' ', ' ', ' ', ' ', ' ', ' ', ' ', ' ', 'T', 'a', 'k', 'i', 'n', 'g', ' ', 'c', 'a',
  'r', 'e', ' ', 'o', 'f', ' ', 't', 'e', 'r', 'r', 'a', 'i', 'n', '.', '\n', ' ', ' ', ' ', ' ', ' ', ' ', '-', '-', 'o', 'u', 't', 'p', 'u', 't',
  '-', 'f', 'o', 'r', 'm', 'a', 't', '=', '<', 'o', 'u', 't', 'p', 'u', 't', '_', 'f', 'r', 'm', 't', '>', ' ', ' ', ' ', ' ', ' ', ' ', ' ', ' ',
  ' ', 'S', 'p', 'e', 'c', 'i', 'f', 'y', ' ', 'o', 'u', 't', 'p', 'u', 't', ' ', 'f', 'o', 'r', 'm', 'a', 't', '.', '\n', ' ', ' ', ' ', ' ', ' ',
  ' ', '-', '-', 'f', 'o', 'r', 'm', 'a', 't', 's', ' ', ' ', ' ', ' ', ' ', ' ', ' ', ' ', ' ', ' ', ' ', ' ', ' ', ' ', ' ', ' ', ' ', ' ', ' ',
  ' ', ' ', ' ', ' ', ' ', ' ', ' ', ' ', ' ', ' ', 'G', 'i', 'v', 'e', ' ', 'a', 'l', 'l', ' ', 'p', 'o', 's', 's', 'i', 'b', 'l', 'e', ' ', 'f',
  'o', 'r', 'm', 'a', 't', 's', '.', '\n'] := String.toList_ofList


/-- A switch. -/
def flagOpt (n : String) : Opt := ⟨[], n.toList, false, .bool false⟩

/-- An option with an argument. -/
def valueOpt (n : String) : Opt := ⟨[], n.toList, true, .empty⟩

/-- The help. -/
def helpOpt : Opt := ⟨"-h".toList, "--help".toList, false, .bool false⟩

/-- The pixel size. -/
def sizeOpt : Opt := ⟨[], "--pixel-size".toList, true, .str "1".toList⟩

/-- A word that has to be written. -/
def word (n : String) : Pat := .cmd n.toList (.bool false)

/-- A word that is counted. -/
def counted (n : String) : Pat := .cmd n.toList (.num 0)

/-- The options of orthoproject. -/
def orthoOpts : List Opt :=
  [helpOpt, flagOpt "--version", flagOpt "--prune", flagOpt "--cache", valueOpt "--input-format", flagOpt "--graphs", flagOpt "--scene", flagOpt "--labels",
    flagOpt "--terrain", sizeOpt]

/-- The options of cityformat. -/
def formatOpts : List Opt :=
  [helpOpt, flagOpt "--version", flagOpt "--prune", valueOpt "--input-format", flagOpt "--graphs", flagOpt "--terrain", valueOpt "--output-format", flagOpt "--formats"]

/-- The first line of the usage of orthoproject. -/
def orthoMainPat : List Pat :=
  [.arg "<scene>".toList .empty, .opt (valueOpt "--input-format"), .optional [.opt (flagOpt "--prune"), .opt (flagOpt "--graphs"), .opt (flagOpt "--terrain")],
    .optional [word "save", .opt (flagOpt "--scene"), .opt (flagOpt "--labels")], .optional [word "rasterize", .opt sizeOpt]]

/-- The help, counted: it is written twice in the last alternative. -/
def helpPat : Pat := .opt { helpOpt with value := .num 0 }

/-- The version, counted. -/
def versionPat : Pat := .opt { flagOpt "--version" with value := .num 0 }

/-- What follows `--version` in the usage of orthoproject: since no empty line separates them, the descriptions of the options belong to the last line of the usage. -/
def orthoTail : List Pat :=
  [word "Options:", helpPat, helpPat, counted "Show", word "this", word "screen.", versionPat, counted "Show", word "version.", .opt (flagOpt "--prune"), word "Prune",
    counted "building", word "faces.", .opt (flagOpt "--cache"), counted "Save", word "buildings.", .opt (valueOpt "--input-format"), word "Specify", word "input", word "format.",
    .opt (flagOpt "--graphs"), counted "Save", counted "the", counted "building", word "facets", word "dual", word "graph.", .opt (flagOpt "--scene"), word "Sum", word "and",
    word "save", counted "the", word "scene", word "projection.", .opt (flagOpt "--labels"), counted "Save", word "vector", word "projections", word "with", word "error",
    word "fields.", .opt (flagOpt "--terrain"), word "Taking", word "care", word "of", word "terrain.", .opt sizeOpt, word "Pixel", word "size",
    .optional [word "default:", word "1"], word "."]

/-- The pattern of orthoproject. -/
def orthoPat : Pat := .required [.either [.required orthoMainPat, .required [.required [.either [helpPat, helpPat]]], .required (versionPat :: orthoTail)]]

/-- The first line of the usage of cityformat. -/
def formatMainPat : List Pat :=
  [.arg "<scene>".toList .empty, .opt (valueOpt "--input-format"), .optional [.opt (flagOpt "--prune"), .opt (flagOpt "--graphs"), .opt (flagOpt "--terrain")],
    .optional [word "output", .arg "<path>".toList .empty, .opt (valueOpt "--output-format")]]

/-- What follows `--version` in the usage of cityformat. -/
def formatTail : List Pat :=
  [word "Options:", helpPat, helpPat, counted "Show", word "this", word "screen.", versionPat, counted "Show", word "version.", .opt (flagOpt "--prune"), word "Prune",
    counted "building", word "faces.", .opt (valueOpt "--input-format"), counted "Specify", word "input", counted "format.", .opt (flagOpt "--graphs"), word "Save", word "the",
    counted "building", word "facets", word "dual", word "graph.", .opt (flagOpt "--terrain"), word "Taking", word "care", word "of", word "terrain.",
    .opt (valueOpt "--output-format"), counted "Specify", word "output", counted "format.", .opt (flagOpt "--formats"), word "Give", word "all", word "possible", word "formats."]

/-- The pattern of cityformat. -/
def formatPat : Pat :=
  .required [.either [.required formatMainPat, .required [.opt (flagOpt "--formats")], .required [.required [.either [helpPat, helpPat]]], .required (versionPat :: formatTail)]]

/-- The result of `createPattern` is this one. -/
def isResult (r : Option (Pat × List Opt)) (p : Pat) (os : List Opt) : Bool :=
  match r with
  | some (q, l) => q.same p && decide (l = os)
  | none => false

theorem result_eq {r : Option (Pat × List Opt)} {p : Pat} {os : List Opt} (h : isResult r p os = true) : r = some (p, os) := by
  match r, h with
  | some (q, l), h =>
    simp only [isResult, Bool.and_eq_true, decide_eq_true_eq] at h
    rw [eq_of_same q p h.1, h.2]
  | none, h => simp [isResult] at h

theorem ortho_pattern : createPattern orthoUsage = some (orthoPat, orthoOpts) := by
  rw [ortho_chars]
  exact result_eq (by decide +kernel)

theorem format_pattern : createPattern formatUsage = some (formatPat, formatOpts) := by
  rw [format_chars]
  exact result_eq (by decide +kernel)

/-! ### Arguments and options of a command line -/

/-- The arguments. -/
def argsOf : List Item → List Text
  | [] => []
  | .arg t :: l => t :: argsOf l
  | .opt _ _ :: l => argsOf l

/-- The options. -/
def optsOf : List Item → List (Text × Arg)
  | [] => []
  | .arg _ :: l => optsOf l
  | .opt n v :: l => (n, v) :: optsOf l

/-- The items without the first argument. -/
def dropArg : List Item → List Item
  | [] => []
  | .arg _ :: l => l
  | .opt n v :: l => .opt n v :: dropArg l

/-- The items without the first option of this name. -/
def dropOpt (n : Text) : List Item → List Item
  | [] => []
  | .arg t :: l => .arg t :: dropOpt n l
  | .opt m v :: l => if m = n then l else .opt m v :: dropOpt n l

/-- The value of the first option of this name. -/
def valueOf (n : Text) : List (Text × Arg) → Option Arg
  | [] => none
  | (m, v) :: l => if m = n then some v else valueOf n l

/-- The options without the first one of this name. -/
def without (n : Text) : List (Text × Arg) → List (Text × Arg)
  | [] => []
  | (m, v) :: l => if m = n then l else (m, v) :: without n l

theorem nothing_left (l : List Item) : l = [] ↔ argsOf l = [] ∧ optsOf l = [] := by
  cases l with
  | nil => simp [argsOf, optsOf]
  | cons x l => cases x <;> simp [argsOf, optsOf]

theorem takeArg_eq (l : List Item) : takeArg l = (argsOf l).head?.map fun t => (t, dropArg l) := by
  induction l with
  | nil => rfl
  | cons x l ih =>
    cases x with
    | arg t => rfl
    | opt n v =>
      simp only [takeArg, argsOf, dropArg, ih, Option.map_map]
      rfl

theorem takeOpt_eq (n : Text) (l : List Item) : takeOpt n l = (valueOf n (optsOf l)).map fun v => (v, dropOpt n l) := by
  induction l with
  | nil => rfl
  | cons x l ih =>
    cases x with
    | arg t =>
      simp only [takeOpt, optsOf, dropOpt, ih, Option.map_map]
      rfl
    | opt m v =>
      simp only [takeOpt, optsOf, dropOpt, valueOf]
      by_cases h : m = n
      · simp [h]
      · simp only [h, if_false, ih, Option.map_map]
        rfl

theorem argsOf_dropArg (l : List Item) : argsOf (dropArg l) = (argsOf l).tail := by
  induction l with
  | nil => rfl
  | cons x l ih => cases x <;> simp [argsOf, dropArg, ih]

theorem optsOf_dropArg (l : List Item) : optsOf (dropArg l) = optsOf l := by
  induction l with
  | nil => rfl
  | cons x l ih => cases x <;> simp [optsOf, dropArg, ih]

theorem argsOf_dropOpt (n : Text) (l : List Item) : argsOf (dropOpt n l) = argsOf l := by
  induction l with
  | nil => rfl
  | cons x l ih =>
    cases x with
    | arg t => simp [argsOf, dropOpt, ih]
    | opt m v =>
      simp only [dropOpt, argsOf]
      split
      · rfl
      · simpa [argsOf] using ih

theorem optsOf_dropOpt (n : Text) (l : List Item) : optsOf (dropOpt n l) = without n (optsOf l) := by
  induction l with
  | nil => rfl
  | cons x l ih =>
    cases x with
    | arg t => simp [optsOf, dropOpt, ih]
    | opt m v =>
      simp only [dropOpt, optsOf, without]
      split
      · rfl
      · simp [optsOf, ih]

theorem valueOf_without {n m : Text} (h : n ≠ m) (l : List (Text × Arg)) : valueOf n (without m l) = valueOf n l := by
  induction l with
  | nil => rfl
  | cons x l ih =>
    obtain ⟨k, v⟩ := x
    simp only [without]
    split
    · rename_i e
      subst e
      simp [valueOf, Ne.symm h]
    · simp [valueOf, ih]

theorem without_none {n : Text} {l : List (Text × Arg)} (h : valueOf n l = none) : without n l = l := by
  induction l with
  | nil => rfl
  | cons x l ih =>
    obtain ⟨k, v⟩ := x
    simp only [valueOf] at h
    split at h
    · cases h
    · rename_i e
      simp [without, e, ih h]

theorem dropOpt_none {n : Text} {l : List Item} (h : valueOf n (optsOf l) = none) : dropOpt n l = l := by
  induction l with
  | nil => rfl
  | cons x l ih =>
    cases x with
    | arg t => simp [dropOpt, ih (by simpa [optsOf] using h)]
    | opt m v =>
      simp only [optsOf, valueOf] at h
      split at h
      · cases h
      · rename_i e
        simp [dropOpt, e, ih h]

theorem valueOf_isSome {n : Text} {l : List (Text × Arg)} : (valueOf n l).isSome = true ↔ n ∈ l.map Prod.fst := by
  induction l with
  | nil => simp [valueOf]
  | cons x l ih =>
    obtain ⟨k, v⟩ := x
    simp only [valueOf, List.map_cons, List.mem_cons]
    split
    · rename_i e
      simp [e]
    · rename_i e
      rw [ih]
      simp [Ne.symm e]

theorem valueOf_mem {n : Text} {l : List (Text × Arg)} {v : Arg} (h : valueOf n l = some v) : (n, v) ∈ l := by
  induction l with
  | nil => cases h
  | cons x l ih =>
    obtain ⟨k, w⟩ := x
    simp only [valueOf] at h
    split at h
    · rename_i e
      cases h
      simp [e]
    · exact List.mem_cons_of_mem _ (ih h)

theorem valueOf_of_mem {n : Text} {l : List (Text × Arg)} {v : Arg} (hn : (l.map Prod.fst).Nodup) (h : (n, v) ∈ l) : valueOf n l = some v := by
  induction l with
  | nil => cases h
  | cons x l ih =>
    obtain ⟨k, w⟩ := x
    simp only [List.map_cons, List.nodup_cons] at hn
    rcases List.mem_cons.1 h with e | e
    · cases e
      simp [valueOf]
    · have : k ≠ n := by
        rintro rfl
        exact hn.1 (List.mem_map_of_mem (f := Prod.fst) e)
      simp [valueOf, this, ih hn.2 e]

theorem names_without (n : Text) (l : List (Text × Arg)) : (without n l).map Prod.fst = (l.map Prod.fst).erase n := by
  induction l with
  | nil => rfl
  | cons x l ih =>
    obtain ⟨k, v⟩ := x
    simp only [without, List.map_cons]
    by_cases e : k = n
    · subst e
      simp
    · rw [if_neg e, List.erase_cons_tail (by simpa using e), List.map_cons, ih]

/-- Taking away each of some different names leaves nothing exactly if all names are among them, without repetition. -/
theorem without_all {l : List (Text × Arg)} {A : List Text} (hA : A.Nodup) :
    A.foldl (fun k n => without n k) l = [] ↔ (l.map Prod.fst).Nodup ∧ ∀ n ∈ l.map Prod.fst, n ∈ A := by
  have key : ∀ (A : List Text) (l : List (Text × Arg)), (A.foldl (fun k n => without n k) l).map Prod.fst = (l.map Prod.fst).diff A := by
    intro A
    induction A with
    | nil => intro l; simp
    | cons a A ih =>
      intro l
      rw [List.foldl_cons, ih, names_without, List.diff_cons]
  have e : A.foldl (fun k n => without n k) l = [] ↔ (l.map Prod.fst).diff A = [] := by
    rw [← key, List.map_eq_nil_iff]
  rw [e]
  constructor
  · intro h
    have hc : ∀ n, (l.map Prod.fst).count n ≤ A.count n := by
      intro n
      have := List.count_diff n (l.map Prod.fst) A
      rw [h, List.count_nil] at this
      omega
    refine ⟨List.nodup_iff_count_le_one.2 fun n => (hc n).trans (List.nodup_iff_count_le_one.1 hA n), fun n hn => ?_⟩
    have h1 : 0 < (l.map Prod.fst).count n := List.count_pos_iff.2 hn
    exact List.count_pos_iff.1 (h1.trans_le (hc n))
  · rintro ⟨h1, h2⟩
    rw [List.eq_nil_iff_forall_not_mem]
    intro n hn
    have h3 : 0 < ((l.map Prod.fst).diff A).count n := List.count_pos_iff.2 hn
    rw [List.count_diff] at h3
    have h4 := List.nodup_iff_count_le_one.1 h1 n
    have h5 : 0 < A.count n := List.count_pos_iff.2 (h2 n (List.count_pos_iff.1 (by omega)))
    omega

/-! ### One step of matching -/

/-- The value of a leaf is neither a counter nor a list. -/
def Plain (v : Arg) : Prop := (∀ k, v ≠ .num k) ∧ ∀ k, v ≠ .list k

theorem collect_plain {n : Text} {w v : Arg} (h : Plain w) (l : List (Text × Arg)) : collect n w v l = l ++ [(n, v)] := by
  cases w with
  | num k => exact absurd rfl (h.1 k)
  | list k => exact absurd rfl (h.2 k)
  | _ => rfl

theorem opt_step {o : Opt} (h : Plain o.value) (ps : List Pat) (l : List Item) (c : List (Text × Arg)) :
    matchAny (.opt o :: ps) (l, c) = matchAny ps (dropOpt o.name l, c ++ ((valueOf o.name (optsOf l)).map fun v => (o.name, v)).toList) := by
  simp only [matchAny, matchPat, takeOpt_eq]
  cases hv : valueOf o.name (optsOf l) with
  | none => simp [dropOpt_none hv]
  | some v => simp [collect_plain h]

/-- The items without the first argument, if it is this word. -/
def dropWord (n : Text) (l : List Item) : List Item := if (argsOf l).head? = some n then dropArg l else l

theorem word_step (n : String) (ps : List Pat) (l : List Item) (c : List (Text × Arg)) :
    matchAny (word n :: ps) (l, c) = matchAny ps (dropWord n.toList l, c ++ if (argsOf l).head? = some n.toList then [(n.toList, .bool true)] else []) := by
  simp only [word, matchAny, matchPat, takeArg_eq, dropWord]
  cases hv : (argsOf l).head? with
  | none => simp
  | some t =>
    by_cases e : t = n.toList
    · simp [e, collect]
    · simp [e]

theorem arg_step (n : Text) (ps : List Pat) (l : List Item) (c : List (Text × Arg)) :
    matchAny (.arg n .empty :: ps) (l, c) = matchAny ps (dropArg l, c ++ ((argsOf l).head?.map fun t => (n, Arg.str t)).toList) := by
  simp only [matchAny, matchPat, takeArg_eq]
  cases hv : (argsOf l).head? with
  | none =>
    have : dropArg l = l := by
      have h0 : argsOf l = [] := by simpa using hv
      clear hv
      induction l with
      | nil => rfl
      | cons x l ih =>
        cases x with
        | arg t => simp [argsOf] at h0
        | opt n v => simp [dropArg, ih (by simpa [argsOf] using h0)]
    simp [this]
  | some t => simp [collect]

theorem argsOf_dropWord (n : Text) (l : List Item) : argsOf (dropWord n l) = if (argsOf l).head? = some n then (argsOf l).tail else argsOf l := by
  unfold dropWord
  split <;> simp [argsOf_dropArg]

theorem optsOf_dropWord (n : Text) (l : List Item) : optsOf (dropWord n l) = optsOf l := by
  unfold dropWord
  split <;> simp [optsOf_dropArg]

/-! ### The first line of the usage of orthoproject -/

/-- The option with its value, if it is there. -/
def got (n : String) (os : List (Text × Arg)) : List (Text × Arg) := ((valueOf n.toList os).map fun v => (n.toList, v)).toList

/-- The word, if it is there. -/
def said (n : String) (b : Bool) : List (Text × Arg) := if b then [(n.toList, .bool true)] else []

/-- The options of the first line of the usage of orthoproject. -/
def orthoAllowed : List Text :=
  ["--input-format".toList, "--prune".toList, "--graphs".toList, "--terrain".toList, "--scene".toList, "--labels".toList, "--pixel-size".toList]

theorem isSet_iff (n : Text) (l : List Item) : isSet n l = false ↔ valueOf n (optsOf l) = none := by
  induction l with
  | nil => simp [isSet, optsOf, valueOf]
  | cons x l ih =>
    cases x with
    | arg t => simpa [isSet, optsOf] using ih
    | opt m v =>
      by_cases e : m = n
      · simp [isSet, optsOf, valueOf, e]
      · simpa [isSet, optsOf, valueOf, e] using ih

theorem shortest_one (x : Option Match) : shortest x.toList = x := by
  cases x <;> rfl

theorem ortho_match {l : List Item} (h1 : valueOf "--help".toList (optsOf l) = none) (h2 : valueOf "--version".toList (optsOf l) = none) :
    matchPat orthoPat (l, []) = matchAll orthoMainPat (l, []) := by
  have e1 : matchPat helpPat (l, []) = none := by
    simp only [helpPat, matchPat, takeOpt_eq]
    rw [show Opt.name { helpOpt with value := .num 0 } = "--help".toList from by decide +kernel, h1]
    rfl
  have e2 : matchPat versionPat (l, []) = none := by
    simp only [versionPat, matchPat, takeOpt_eq]
    rw [show Opt.name { flagOpt "--version" with value := .num 0 } = "--version".toList from by decide +kernel, h2]
    rfl
  have e3 : ∀ t, matchAll (versionPat :: t) (l, []) = none := fun t => by simp only [matchAll, e2]
  have e4 : matchPat (.required [.required [.either [helpPat, helpPat]]]) (l, []) = none := by
    simp [matchPat, matchAll, matchEach, e1, shortest]
  unfold orthoPat
  rw [matchPat, matchAll, matchPat, matchEach, matchEach, matchEach, matchEach, e4]
  rw [show matchPat (.required (versionPat :: orthoTail)) (l, []) = none by rw [matchPat]; exact e3 _]
  rw [show matchPat (.required orthoMainPat) (l, []) = matchAll orthoMainPat (l, []) by rw [matchPat]]
  simp only [Option.toList_none, List.append_nil, shortest_one]
  cases matchAll orthoMainPat (l, []) <;> simp [matchAll]

theorem optional_step (ps qs : List Pat) (s : Match) : matchAll (.optional ps :: qs) s = matchAll qs (matchAny ps s) := by
  simp [matchAll, matchPat]

theorem flag_name (n : String) (h : n.toList ≠ []) : (flagOpt n).name = n.toList := by
  unfold Opt.name
  exact if_neg h

theorem value_name (n : String) (h : n.toList ≠ []) : (valueOpt n).name = n.toList := by
  unfold Opt.name
  exact if_neg h

theorem flag_plain (n : String) : Plain (flagOpt n).value := ⟨by simp [flagOpt], by simp [flagOpt]⟩

theorem value_plain (n : String) : Plain (valueOpt n).value := ⟨by simp [valueOpt], by simp [valueOpt]⟩

theorem size_plain : Plain sizeOpt.value := ⟨by simp [sizeOpt], by simp [sizeOpt]⟩

theorem flag_step (n : String) (h : n.toList ≠ []) (ps : List Pat) (l : List Item) (c : List (Text × Arg)) :
    matchAny (.opt (flagOpt n) :: ps) (l, c) = matchAny ps (dropOpt n.toList l, c ++ got n (optsOf l)) := by
  rw [opt_step (flag_plain n), flag_name n h]
  rfl

theorem value_step (n : String) (h : n.toList ≠ []) (ps : List Pat) (l : List Item) (c : List (Text × Arg)) :
    matchAny (.opt (valueOpt n) :: ps) (l, c) = matchAny ps (dropOpt n.toList l, c ++ got n (optsOf l)) := by
  rw [opt_step (value_plain n), value_name n h]
  rfl

theorem got_without {n : String} {m : Text} (h : n.toList ≠ m) (l : List (Text × Arg)) : got n (without m l) = got n l := by
  unfold got
  rw [valueOf_without h]

theorem dash_ne : ∀ n ∈ ["--input-format", "--prune", "--graphs", "--terrain", "--scene", "--labels", "--pixel-size", "--output-format", "--formats"], n.toList ≠ [] := by
  decide +kernel

/-- What is left and what has been collected after the first line of the usage of orthoproject. -/
theorem ortho_line (l : List Item) : matchAll orthoMainPat (l, []) =
    match argsOf l, valueOf "--input-format".toList (optsOf l) with
    | s :: rest, some v => some
        (dropOpt "--pixel-size".toList (dropWord "rasterize".toList (dropOpt "--labels".toList (dropOpt "--scene".toList (dropWord "save".toList
          (dropOpt "--terrain".toList (dropOpt "--graphs".toList (dropOpt "--prune".toList (dropOpt "--input-format".toList (dropArg l))))))))),
        [("<scene>".toList, Arg.str s), ("--input-format".toList, v)] ++ got "--prune" (optsOf l) ++ got "--graphs" (optsOf l) ++ got "--terrain" (optsOf l) ++
          said "save" (rest.head? = some "save".toList) ++ got "--scene" (optsOf l) ++ got "--labels" (optsOf l) ++
          said "rasterize" ((if rest.head? = some "save".toList then rest.tail else rest).head? = some "rasterize".toList) ++ got "--pixel-size" (optsOf l))
    | _, _ => none := by
  have n0 : (valueOpt "--input-format").name = "--input-format".toList := value_name _ (dash_ne _ (by decide))
  unfold orthoMainPat
  rw [matchAll, matchPat, takeArg_eq]
  cases ha : argsOf l with
  | nil => simp
  | cons s rest =>
    simp only [List.head?_cons, Option.map_some]
    rw [collect_plain ⟨by simp, by simp⟩, matchAll, matchPat, takeOpt_eq, n0, optsOf_dropArg]
    cases hv : valueOf "--input-format".toList (optsOf l) with
    | none => simp
    | some v =>
      simp only [Option.map_some]
      rw [collect_plain (value_plain _), optional_step, flag_step _ (dash_ne _ (by decide)), flag_step _ (dash_ne _ (by decide)), flag_step _ (dash_ne _ (by decide)), matchAny,
        optional_step, word_step, flag_step _ (dash_ne _ (by decide)), flag_step _ (dash_ne _ (by decide)), matchAny,
        optional_step, word_step, opt_step size_plain, show sizeOpt.name = "--pixel-size".toList from by decide +kernel, matchAny, matchAll]
      simp only [argsOf_dropOpt, argsOf_dropWord, argsOf_dropArg, optsOf_dropOpt, optsOf_dropWord, optsOf_dropArg, ha, List.tail_cons, said]
      have d : ∀ (a b : String), a.toList ≠ b.toList → ∀ k, got a (without b.toList k) = got a k := fun a b h k => got_without h k
      rw [d "--prune" "--input-format" (by decide +kernel), d "--graphs" "--prune" (by decide +kernel), d "--graphs" "--input-format" (by decide +kernel),
        d "--terrain" "--graphs" (by decide +kernel), d "--terrain" "--prune" (by decide +kernel), d "--terrain" "--input-format" (by decide +kernel),
        d "--scene" "--terrain" (by decide +kernel), d "--scene" "--graphs" (by decide +kernel), d "--scene" "--prune" (by decide +kernel), d "--scene" "--input-format" (by decide +kernel),
        d "--labels" "--scene" (by decide +kernel), d "--labels" "--terrain" (by decide +kernel), d "--labels" "--graphs" (by decide +kernel), d "--labels" "--prune" (by decide +kernel),
        d "--labels" "--input-format" (by decide +kernel),
        valueOf_without (show "--pixel-size".toList ≠ "--labels".toList by decide +kernel), valueOf_without (show "--pixel-size".toList ≠ "--scene".toList by decide +kernel),
        valueOf_without (show "--pixel-size".toList ≠ "--terrain".toList by decide +kernel), valueOf_without (show "--pixel-size".toList ≠ "--graphs".toList by decide +kernel),
        valueOf_without (show "--pixel-size".toList ≠ "--prune".toList by decide +kernel), valueOf_without (show "--pixel-size".toList ≠ "--input-format".toList by decide +kernel)]
      simp only [List.nil_append, got, decide_eq_true_eq]
      rfl

end City.Docopt
