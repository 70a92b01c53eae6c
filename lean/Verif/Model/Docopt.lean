import Verif.Model.Cli
/-
Model of the use of docopt by the command line tools: the usage texts of /repo/src/bin/orthoproject.cpp:13-32 and
/repo/src/bin/cityformat.cpp:9-27, the calls of docopt in orthoproject.cpp:144-151 and cityformat.cpp:99-106, and the library itself. docopt.cpp (/repo/cmake/modules/docopt.cmake:5) is not part of the
repository: the functions below follow its published source, for usage texts without `...`, without `[options]` and without spaces inside `<>`. Exceptions of docopt end the program with
the message and a status (docopt::docopt), so they are values here.
-/
namespace City.Docopt

/-- `docopt::Option`: its two names, whether it takes an argument, its value. -/
structure Opt where
  short : Text
  long : Text
  takes : Bool
  value : Arg
  deriving DecidableEq

/-- `Option::name`: the long name if there is one. -/
def Opt.name (o : Opt) : Text := if o.long = [] then o.short else o.long

/-- The patterns of a usage: `Argument`, `Command`, `Option`, `Required`, `Optional`, `Either`. -/
inductive Pat where
  | arg (name : Text) (value : Arg)
  | cmd (name : Text) (value : Arg)
  | opt (o : Opt)
  | required (l : List Pat)
  | optional (l : List Pat)
  | either (l : List Pat)

/-- A leaf: what kind it is, its name, its value. -/
inductive Leaf where
  | arg (name : Text) (value : Arg)
  | cmd (name : Text) (value : Arg)
  | opt (o : Opt)
  deriving DecidableEq

/-! ### Text -/

/-- The separators of `docopt::split`. -/
def isGap (c : Char) : Bool := c == ' ' || c == '\t' || c == '\n' || c == '\r' || c == Char.ofNat 11 || c == Char.ofNat 12

/-- The lines of a text. -/
def linesOf : Text → List Text
  | [] => [[]]
  | c :: t =>
    if c = '\n' then [] :: linesOf t
    else match linesOf t with
      | [] => [[c]]
      | w :: ws => (c :: w) :: ws

/-- `docopt::split`: the words between gaps; `cur` is the word that has begun. -/
def wordsFrom : Text → Text → List Text
  | cur, [] => if cur = [] then [] else [cur]
  | cur, c :: t =>
    if isGap c then (if cur = [] then wordsFrom [] t else cur :: wordsFrom [] t)
    else wordsFrom (cur ++ [c]) t

/-- `docopt::split`. -/
def words (t : Text) : List Text := wordsFrom [] t

/-- A text occurs in another one. -/
def occurs (n : Text) : Text → Bool
  | [] => n.isEmpty
  | c :: t => n.isPrefixOf (c :: t) || occurs n t

/-- The line begins with a space or a tabulator. -/
def indented (l : Text) : Bool :=
  match l with
  | c :: _ => c == ' ' || c == '\t'
  | [] => false

/-- `parse_section`: every line that contains the name, upper and lower case being the same, with the indented lines that follow it; `cur` is the section that has begun. -/
def sectionsFrom (name : Text) : Option (List Text) → List Text → List (List Text)
  | cur, [] => cur.toList
  | none, l :: ls => if occurs name (l.map Char.toLower) then sectionsFrom name (some [l]) ls else sectionsFrom name none ls
  | some s, l :: ls =>
    if indented l then sectionsFrom name (some (s ++ [l])) ls
    else if occurs name (l.map Char.toLower) then s :: sectionsFrom name (some [l]) ls
    else s :: sectionsFrom name none ls

/-- `parse_section`. -/
def sections (name : String) (doc : Text) : List (List Text) := sectionsFrom name.toList none (linesOf doc)

/-- The text after the first `:`. -/
def afterColon (t : Text) : Text := (t.dropWhile (· != ':')).drop 1

/-- The lines of a section as one text. -/
def joinLines : List Text → Text
  | [] => []
  | [l] => l
  | l :: ls => l ++ '\n' :: joinLines ls

/-- `formal_usage`: the words of the usage section, the name of the program being replaced by ` ) | (`. -/
def formalUsage (sec : List Text) : List Text :=
  match words (afterColon (joinLines sec)) with
  | [] => []
  | p :: ps => ["(".toList] ++ ps.flatMap (fun w => if w = p then [")".toList, "|".toList, "(".toList] else [w]) ++ [")".toList]

/-- The characters that are tokens of their own. -/
def isMark (c : Char) : Bool := c == '[' || c == ']' || c == '(' || c == ')' || c == '|'

/-- `Tokens::from_pattern` on one word; `cur` is the token that has begun. -/
def marksFrom : Text → Text → List Text
  | cur, [] => if cur = [] then [] else [cur]
  | cur, c :: t =>
    if isMark c then (if cur = [] then [c] :: marksFrom [] t else cur :: [c] :: marksFrom [] t)
    else marksFrom (cur ++ [c]) t

/-- `Tokens::from_pattern`. -/
def patternTokens (ws : List Text) : List Text := ws.flatMap (marksFrom [])

/-! ### The list of options -/

/-- The text before the first two spaces. -/
def beforeGap : Text → Text
  | ' ' :: ' ' :: _ => []
  | c :: t => c :: beforeGap t
  | [] => []

/-- The words between `,`, `=` and spaces. -/
def optionWords (t : Text) : List Text := wordsFrom [] (t.map fun c => if c = ',' ∨ c = '=' then ' ' else c)

/-- The text after `[default: `, up to the last `]`. -/
def defaultFrom : Text → Option Text
  | [] => none
  | c :: t =>
    if "[default: ".toList.isPrefixOf (c :: t) && t.any (· == ']') then some (((t.drop 9).reverse.dropWhile (· != ']')).drop 1).reverse
    else defaultFrom t

/-- `Option::Option`: without default, an option with an argument is empty, not false. -/
def mkOpt (short long : Text) (takes : Bool) (v : Arg) : Opt := ⟨short, long, takes, if takes ∧ v = .bool false then .empty else v⟩

/-- The loop of `Option::parse` over the words. -/
def optionLoop : List Text → Text × Text × Bool → Text × Text × Bool
  | [], s => s
  | w :: ws, (sh, lo, ta) =>
    match w with
    | '-' :: '-' :: _ => optionLoop ws (sh, w, ta)
    | '-' :: _ => optionLoop ws (w, lo, ta)
    | _ => optionLoop ws (sh, lo, true)

/-- `Option::parse`. -/
def parseOption (d : Text) : Opt :=
  let s := optionLoop (optionWords (beforeGap d)) ([], [], false)
  mkOpt s.1 s.2.1 s.2.2 (if s.2.2 then (match defaultFrom (d.drop (beforeGap d).length) with
    | some v => .str v
    | none => .bool false) else .bool false)

/-- The descriptions of the options in a section: lines that begin with a hyphen after the spaces, with the lines that follow; `cur` is the description that has begun. -/
def descriptionsFrom : Option Text → List Text → List Text
  | cur, [] => cur.toList
  | cur, l :: ls =>
    if (l.dropWhile isGap).head? = some '-' then cur.toList ++ descriptionsFrom (some (l.dropWhile isGap)) ls
    else match cur with
      | some d => descriptionsFrom (some (d ++ '\n' :: l)) ls
      | none => descriptionsFrom none ls

/-- `parse_defaults`. -/
def parseDefaults (doc : Text) : List Opt :=
  (sections "options:" doc).flatMap fun s => (descriptionsFrom none (linesOf (afterColon (joinLines s)))).map parseOption

/-! ### Options of a pattern and of a command line -/

/-- `partition(token, "=")`: the part before the first `=`, and the part after it if there is one. -/
def partition (t : Text) : Text × Option Text :=
  match t.dropWhile (· != '=') with
  | [] => (t, none)
  | _ :: v => (t.takeWhile (· != '='), some v)

/-- The options that a long name means: those with this name or, on a command line, those whose names begin with it. -/
def similar (argv : Bool) (n : Text) (os : List Opt) : List Opt :=
  let same := os.filter (·.long = n)
  if argv ∧ same = [] then os.filter fun o => o.long ≠ [] ∧ n.isPrefixOf o.long else same

/-- The options that are known after a long name has been read: an unknown one is added. -/
def known (argv : Bool) (n : Text) (v : Option Text) (os : List Opt) : List Opt :=
  if similar argv n os = [] then os ++ [mkOpt [] n v.isSome (.bool false)] else os

/-! ### Patterns -/

/-- `is_argument_spec`. -/
def isArgument (t : Text) : Bool :=
  t ≠ [] && ((t.head? == some '<' && t.getLast? == some '>') || t.all Char.isUpper)

/-- `parse_long` in a pattern: the option, the tokens that are left, the options that are known. -/
def patLong (t : Text) (ts : List Text) (os : List Opt) : Option (Opt × List Text × List Opt) :=
  match similar false (partition t).1 os with
  | [] => some (mkOpt [] (partition t).1 (partition t).2.isSome (.bool false), ts, known false (partition t).1 (partition t).2 os)
  | [o] =>
    if o.takes then (match (partition t).2, ts with
      | some _, _ => some (o, ts, os)
      | none, u :: us => if u = [] ∨ u = "--".toList then none else some (o, us, os)
      | none, [] => none)
    else if (partition t).2.isSome then none else some (o, ts, os)
  | _ => none

/-- `parse_short` in a pattern, for tokens of one letter whose option takes no argument (in the two usages there is only `-h`). -/
def patShort (t : Text) (os : List Opt) : Option (Opt × List Opt) :=
  match t with
  | [_, _] =>
    match os.filter (·.short = t) with
    | [] => some (mkOpt t [] false (.bool false), os ++ [mkOpt t [] false (.bool false)])
    | [o] => if o.takes then none else some (o, os)
    | _ => none
  | _ => none

/-- `maybe_collapse_to_required`. -/
def asRequired (l : List Pat) : Pat :=
  match l with
  | [p] => p
  | l => .required l

mutual
/-- `parse_atom`. `n` bounds the depth of the recursion. -/
def parseAtom : Nat → List Text → List Opt → Option (List Pat × List Text × List Opt)
  | 0, _, _ => none
  | n + 1, ts, os =>
    match ts with
    | [] => none
    | t :: ts =>
      if t = "[".toList then
        match parseExpr n ts os with
        | some (l, u :: us, os') => if u = "]".toList then some ([.optional l], us, os') else none
        | _ => none
      else if t = "(".toList then
        match parseExpr n ts os with
        | some (l, u :: us, os') => if u = ")".toList then some ([.required l], us, os') else none
        | _ => none
      else if t = "options".toList then none
      else if "--".toList.isPrefixOf t ∧ t ≠ "--".toList then
        (patLong t ts os).map fun r => ([.opt r.1], r.2.1, r.2.2)
      else if "-".toList.isPrefixOf t ∧ t ≠ "-".toList ∧ t ≠ "--".toList then
        (patShort t os).map fun r => ([.opt r.1], ts, r.2)
      else if isArgument t then some ([.arg t .empty], ts, os)
      else some ([.cmd t (.bool false)], ts, os)

/-- `parse_seq`. -/
def parseSeq : Nat → List Text → List Opt → Option (List Pat × List Text × List Opt)
  | 0, _, _ => none
  | n + 1, ts, os =>
    match ts with
    | [] => some ([], [], os)
    | t :: _ =>
      if t = "]".toList ∨ t = ")".toList ∨ t = "|".toList then some ([], ts, os)
      else
        match parseAtom n ts os with
        | none => none
        | some (l, us, os') =>
          match us with
          | [] => some (l, [], os')
          | u :: _ =>
            if u = "...".toList then none
            else (parseSeq n us os').map fun r => (l ++ r.1, r.2)

/-- The loop of `parse_expr`: the alternatives after the first one. -/
def parseAlts : Nat → List Text → List Opt → Option (List Pat × List Text × List Opt)
  | 0, _, _ => none
  | n + 1, ts, os =>
    match ts with
    | [] => some ([], [], os)
    | t :: ts' =>
      if t = "|".toList then
        match parseSeq n ts' os with
        | none => none
        | some (l, us, os') => (parseAlts n us os').map fun r => (asRequired l :: r.1, r.2)
      else some ([], ts, os)

/-- `parse_expr`. -/
def parseExpr : Nat → List Text → List Opt → Option (List Pat × List Text × List Opt)
  | 0, _, _ => none
  | n + 1, ts, os =>
    match parseSeq n ts os with
    | none => none
    | some (l, us, os') =>
      match parseAlts n us os' with
      | none => none
      | some ([], vs, os'') => some (l, vs, os'')
      | some (r, vs, os'') => some ([.either (asRequired l :: r)], vs, os'')
end

mutual
/-- `transform`: the leaves that a command line can meet together. -/
def together : Pat → List (List Leaf)
  | .arg n v => [[.arg n v]]
  | .cmd n v => [[.cmd n v]]
  | .opt o => [[.opt o]]
  | .required l => togetherAll l
  | .optional l => togetherAll l
  | .either l => togetherEach l

/-- `transform` of patterns in a row. -/
def togetherAll : List Pat → List (List Leaf)
  | [] => [[]]
  | p :: ps => (together p).flatMap fun a => (togetherAll ps).map fun b => a ++ b

/-- `transform` of alternatives. -/
def togetherEach : List Pat → List (List Leaf)
  | [] => []
  | p :: ps => together p ++ togetherEach ps
end

/-- The leaves that occur more than once among those that are met together. -/
def repeated (p : Pat) : List Leaf := (together p).flatMap fun l => l.filter fun x => 1 < l.count x

/-- The value of a repeated leaf with an argument: a list. -/
def listValue (v : Arg) : Arg :=
  match v with
  | .str t => .list (words t)
  | .list l => .list l
  | _ => .list []

mutual
/-- `fix_repeating_arguments`: repeated leaves count, or collect their values. Equal leaves are one object (`fix_identities`). -/
def mark (r : List Leaf) : Pat → Pat
  | .arg n v => if r.contains (.arg n v) then .arg n (listValue v) else .arg n v
  | .cmd n v => if r.contains (.cmd n v) then .cmd n (.num 0) else .cmd n v
  | .opt o => if r.contains (.opt o) then (if o.takes then .opt { o with value := listValue o.value } else .opt { o with value := .num 0 }) else .opt o
  | .required l => .required (markAll r l)
  | .optional l => .optional (markAll r l)
  | .either l => .either (markAll r l)

/-- `fix_repeating_arguments` on a list of patterns. -/
def markAll (r : List Leaf) : List Pat → List Pat
  | [] => []
  | p :: ps => mark r p :: markAll r ps
end

mutual
/-- `leaves`: the names and values of the leaves. -/
def leaves : Pat → List (Text × Arg)
  | .arg n v => [(n, v)]
  | .cmd n v => [(n, v)]
  | .opt o => [(o.name, o.value)]
  | .required l => leavesAll l
  | .optional l => leavesAll l
  | .either l => leavesAll l

/-- `leaves` of a list of patterns. -/
def leavesAll : List Pat → List (Text × Arg)
  | [] => []
  | p :: ps => leaves p ++ leavesAll ps
end

/-- `create_pattern_tree`: the pattern of a usage text, marked, and its options. -/
def createPattern (doc : Text) : Option (Pat × List Opt) :=
  match sections "usage:" doc with
  | [s] =>
    let ts := patternTokens (formalUsage s)
    match parseExpr (2 * ts.length + 2) ts (parseDefaults doc) with
    | some (l, [], os) => some (mark (repeated (.required l)) (.required l), os)
    | _ => none
  | _ => none

/-! ### The command line -/

/-- What `parse_argv` makes of a command line: arguments, and options with their values. -/
inductive Item where
  | arg (t : Text)
  | opt (name : Text) (v : Arg)
  deriving DecidableEq

/-- `parse_short` on a command line: the letters after the hyphen; the name of an option that waits for its argument. -/
def shorts : Text → List Opt → Option (List Item × Option Text × List Opt)
  | [], os => some ([], none, os)
  | c :: t, os =>
    match os.filter (·.short = ['-', c]) with
    | [] => (shorts t (os ++ [mkOpt ['-', c] [] false (.bool false)])).map fun r => (.opt ['-', c] (.bool true) :: r.1, r.2)
    | [o] =>
      if o.takes then (if t = [] then some ([], some o.name, os) else some ([.opt o.name (.str t)], none, os))
      else (shorts t os).map fun r => (.opt o.name (.bool true) :: r.1, r.2)
    | _ => none

/-- `parse_long` on a command line: the name and the value; without value the option waits for its argument. -/
def long (t : Text) (os : List Opt) : Option (Text × Option Arg) :=
  match similar true (partition t).1 os with
  | [] => some ((partition t).1, some (match (partition t).2 with
    | some v => .str v
    | none => .bool true))
  | [o] =>
    if o.takes then some (o.name, (partition t).2.map .str)
    else if (partition t).2.isSome then none else some (o.name, some (.bool true))
  | _ => none

/-- `parse_argv`, with `options_first` false; the first argument is the name of an option that waits for its argument. -/
def parseArgv : Option Text → List Text → List Opt → Option (List Item)
  | none, [], _ => some []
  | some _, [], _ => none
  | some n, t :: ts, os => if t = [] ∨ t = "--".toList then none else (parseArgv none ts os).map fun r => .opt n (.str t) :: r
  | none, t :: ts, os =>
    if t = "--".toList then some ((t :: ts).map .arg)
    else if "--".toList.isPrefixOf t then
      match long t os with
      | none => none
      | some (n, some v) => (parseArgv none ts (known true (partition t).1 (partition t).2 os)).map fun r => .opt n v :: r
      | some (n, none) => parseArgv (some n) ts os
    else if t.head? = some '-' ∧ t ≠ "-".toList then
      match shorts t.tail os with
      | none => none
      | some (l, w, os') => (parseArgv w ts os').map fun r => l ++ r
    else (parseArgv none ts os).map fun r => .arg t :: r

/-! ### Matching -/

/-- What is left of the command line, and what has been collected. -/
abbrev Match := List Item × List (Text × Arg)

/-- The first argument and the others. -/
def takeArg : List Item → Option (Text × List Item)
  | [] => none
  | .arg t :: l => some (t, l)
  | .opt n v :: l => (takeArg l).map fun r => (r.1, .opt n v :: r.2)

/-- The first option with this name and the other items. -/
def takeOpt (n : Text) : List Item → Option (Arg × List Item)
  | [] => none
  | .opt m v :: l => if m = n then some (v, l) else (takeOpt n l).map fun r => (r.1, .opt m v :: r.2)
  | .arg t :: l => (takeOpt n l).map fun r => (r.1, .arg t :: r.2)

/-- Replaces the value of the first entry with this name. -/
def replace (n : Text) (v : Arg) : List (Text × Arg) → List (Text × Arg)
  | [] => []
  | e :: l => if e.1 = n then (n, v) :: l else e :: replace n v l

/-- `LeafPattern::match`: `v` is what has been found, `w` the value of the pattern. -/
def collect (n : Text) (w v : Arg) (l : List (Text × Arg)) : List (Text × Arg) :=
  match w with
  | .num _ =>
    match l.find? (·.1 = n) with
    | none => l ++ [(n, .num 1)]
    | some (_, .num k) => replace n (.num (k + 1)) l
    | some _ => replace n (.num 1) l
  | .list _ =>
    let mine := match v with
      | .str t => [t]
      | .list ts => ts
      | _ => []
    match l.find? (·.1 = n) with
    | none => l ++ [(n, .list mine)]
    | some (_, .list ts) => replace n (.list (ts ++ mine)) l
    | some _ => replace n (.list mine) l
  | _ => l ++ [(n, v)]

/-- `std::min_element` by what is left: the first of the shortest. -/
def shortest : List Match → Option Match
  | [] => none
  | m :: ms =>
    match shortest ms with
    | none => some m
    | some k => if m.1.length ≤ k.1.length then some m else some k

mutual
/-- `match` of `Argument`, `Command`, `Option`, `Required`, `Optional`, `Either`. -/
def matchPat : Pat → Match → Option Match
  | .arg n w, s => (takeArg s.1).map fun r => (r.2, collect n w (.str r.1) s.2)
  | .cmd n w, s =>
    match takeArg s.1 with
    | some (t, l) => if t = n then some (l, collect n w (.bool true) s.2) else none
    | none => none
  | .opt o, s => (takeOpt o.name s.1).map fun r => (r.2, collect o.name o.value r.1 s.2)
  | .required l, s => matchAll l s
  | .optional l, s => some (matchAny l s)
  | .either l, s => shortest (matchEach l s)

/-- `Required::match`. -/
def matchAll : List Pat → Match → Option Match
  | [], s => some s
  | p :: ps, s =>
    match matchPat p s with
    | some s' => matchAll ps s'
    | none => none

/-- `Optional::match`. -/
def matchAny : List Pat → Match → Match
  | [], s => s
  | p :: ps, s =>
    match matchPat p s with
    | some s' => matchAny ps s'
    | none => matchAny ps s

/-- The outcomes of `Either::match`. -/
def matchEach : List Pat → Match → List Match
  | [], _ => []
  | p :: ps, s => (matchPat p s).toList ++ matchEach ps s
end

/-- The last value for a name. -/
def lastOf (n : Text) (l : List (Text × Arg)) : Option Arg := (l.reverse.find? (·.1 = n)).map (·.2)

/-- `isOptionSet`. -/
def isSet (n : Text) (l : List Item) : Bool := l.any fun x =>
  match x with
  | .opt m _ => m == n
  | .arg _ => false

/-- What docopt does: it returns the arguments, or it ends the program with a status. -/
inductive Parsed where
  | args (a : Args)
  | exit (status : Nat)

/-- `docopt_parse` for a pattern and its options, and `docopt::docopt`: help and version end the program with status 0, a command line that does not match with
status 255 (`std::exit(-1)`). -/
def parseWith (p : Pat) (os : List Opt) (argv : List Text) : Parsed :=
  match parseArgv none argv os with
  | none => .exit 255
  | some items =>
    if isSet "-h".toList items || isSet "--help".toList items || isSet "--version".toList items then .exit 0
    else
      match matchPat p (items, []) with
      | some ([], c) => .args fun n => lastOf n (leaves p ++ c)
      | _ => .exit 255

/-- `docopt::docopt(doc, argv, true, version)`: a usage text that cannot be parsed ends the program with status 255. -/
def docopt (doc : Text) (argv : List Text) : Parsed :=
  match createPattern doc with
  | some (p, os) => parseWith p os argv
  | none => .exit 255

end City.Docopt

namespace City

/-- `USAGE` of orthoproject: orthoproject.cpp:13-32. -/
def orthoUsage : Text := "orthoproject.

    Usage:
      orthoproject <scene> --input-format=<input_frmt> [--prune --graphs --terrain] [save --scene --labels] [rasterize --pixel-size=<size>]
      orthoproject (-h | --help)
      orthoproject --version
    Options:
      -h --help                             Show this screen.
      --version                             Show version.
      --prune                               Prune building faces.
      --cache                               Save buildings.
      --input-format=<input_frmt>           Specify input format.
      --graphs                              Save the building facets dual graph.
      --scene                               Sum and save the scene projection.
      --labels                              Save vector projections with error fields.
      --terrain                             Taking care of terrain.
      --pixel-size=<size>                   Pixel size [default: 1].
".toList

/-- `USAGE` of cityformat: cityformat.cpp:9-27. -/
def formatUsage : Text := "cityformat.

    Usage:
      cityformat <scene> --input-format=<input_frmt> [--prune --graphs --terrain] [output <path> --output-format=<output_format>]
      cityformat --formats
      cityformat (-h | --help)
      cityformat --version
    Options:
      -h --help                             Show this screen.
      --version                             Show version.
      --prune                               Prune building faces.
      --input-format=<input_frmt>           Specify input format.
      --graphs                              Save the building facets dual graph.
      --terrain                             Taking care of terrain.
      --output-format=<output_frmt>         Specify output format.
      --formats                             Give all possible formats.
".toList

section
variable {N L K : Type} [Field K] [LinearOrder K] [FloorRing K]

/-- `docopt::docopt` ends the process itself if there is nothing to run: help, version or a command line that does not match; otherwise `main` goes on with the map: orthoproject.cpp:140-147,
cityformat.cpp:93-100. -/
def afterDocopt (main : Args → Act Nat) : Docopt.Parsed → Act Nat
  | .args a => main a
  | .exit n => fun fs => (.ok n, fs)

/-- The program orthoproject from its command line (without the name of the program): orthoproject.cpp:140-181. -/
def orthoProgram (T : Toolbox N L K) (argv : List Text) : Act Nat := afterDocopt (orthoMain T) (Docopt.docopt orthoUsage argv)

/-- The program cityformat from its command line: cityformat.cpp:95-143. -/
def formatProgram (T : Toolbox N L K) (argv : List Text) : Act Nat := afterDocopt (formatMain T) (Docopt.docopt formatUsage argv)

end
end City
