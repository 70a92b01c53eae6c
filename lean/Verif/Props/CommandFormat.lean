import Verif.Props.CommandLine
import Verif.Props.Convey
/-
C111: the command line of cityformat.
-/
namespace City.Spec
open City City.Props

/-- The program cityformat receives what has been typed. -/
structure FormatTyped (m : Args) (os : List (Text × Option Text)) (scene : Text) (path : Option Text) : Prop where
  formats : Switch m "--formats" false
  scene : Given m "<scene>" scene
  switches : ∀ n ∈ ["--prune", "--graphs", "--terrain"], Switch m n (decide (n.toList ∈ os.map Prod.fst))
  format : ∃ v, ("--input-format".toList, some v) ∈ os ∧ Given m "--input-format" v
  path : (∀ v, path = some v → Given m "<path>" v) ∧ (path = none → m "<path>".toList = some .empty)
  output : (∀ v, ("--output-format".toList, some v) ∈ os → Given m "--output-format" v) ∧ ("--output-format".toList ∉ os.map Prod.fst → m "--output-format".toList = some .empty)

end City.Spec

namespace City.Docopt
open City City.Spec

theorem docopt_format (argv : List Text) : docopt formatUsage argv = parseWith formatPat formatOpts argv := docopt_of format_pattern argv

theorem format_known : knownOf formatOpts = formatOptions := by decide +kernel

/-- The options of the first line of the usage of cityformat. -/
def formatAllowed : List Text := ["--input-format".toList, "--prune".toList, "--graphs".toList, "--terrain".toList, "--output-format".toList]

/-- The path, if it is there. -/
def pathOf (o : Option Text) : List (Text × Arg) := (o.map fun t => ("<path>".toList, Arg.str t)).toList

/-- What is left and what has been collected after the first line of the usage of cityformat. -/
theorem format_line (l : List Item) : matchAll formatMainPat (l, []) =
    match argsOf l, valueOf "--input-format".toList (optsOf l) with
    | s :: rest, some v => some
        (dropOpt "--output-format".toList (dropArg (dropWord "output".toList
          (dropOpt "--terrain".toList (dropOpt "--graphs".toList (dropOpt "--prune".toList (dropOpt "--input-format".toList (dropArg l))))))),
        [("<scene>".toList, Arg.str s), ("--input-format".toList, v)] ++ got "--prune" (optsOf l) ++ got "--graphs" (optsOf l) ++ got "--terrain" (optsOf l) ++
          said "output" (rest.head? = some "output".toList) ++
          pathOf (if rest.head? = some "output".toList then rest.tail else rest).head? ++ got "--output-format" (optsOf l))
    | _, _ => none := by
  have n0 : (valueOpt "--input-format").name = "--input-format".toList := value_name _ (dash_ne _ (by decide))
  unfold formatMainPat
  rw [matchAll, matchPat, takeArg_eq]
  cases ha : argsOf l with
  | nil => simp
  | cons s rest =>
    simp only [List.head?_cons, Option.map_some]
    rw [collect_plain ⟨by simp, by simp⟩, matchAll, matchPat, takeOpt_eq, n0, optsOf_dropArg]
    cases hv : valueOf "--input-format".toList (optsOf l) with
    | none => simp
    | some v =>
      simp only [Option.map_some]
      rw [collect_plain (value_plain _), optional_step, flag_step _ (dash_ne _ (by decide)), flag_step _ (dash_ne _ (by decide)), flag_step _ (dash_ne _ (by decide)), matchAny,
        optional_step, word_step, arg_step, value_step _ (dash_ne _ (by decide)), matchAny, matchAll]
      simp only [argsOf_dropOpt, argsOf_dropWord, argsOf_dropArg, optsOf_dropOpt, optsOf_dropWord, optsOf_dropArg, ha, List.tail_cons, said]
      have d : ∀ (a b : String), a.toList ≠ b.toList → ∀ k, got a (without b.toList k) = got a k := fun a b h k => got_without h k
      rw [d "--prune" "--input-format" (by decide +kernel), d "--graphs" "--prune" (by decide +kernel), d "--graphs" "--input-format" (by decide +kernel),
        d "--terrain" "--graphs" (by decide +kernel), d "--terrain" "--prune" (by decide +kernel), d "--terrain" "--input-format" (by decide +kernel),
        d "--output-format" "--terrain" (by decide +kernel), d "--output-format" "--graphs" (by decide +kernel), d "--output-format" "--prune" (by decide +kernel),
        d "--output-format" "--input-format" (by decide +kernel)]
      simp only [List.nil_append, got, decide_eq_true_eq, pathOf]
      rfl

theorem formats_line (l : List Item) : matchPat (.required [.opt (flagOpt "--formats")]) (l, []) =
    (valueOf "--formats".toList (optsOf l)).map fun v => (dropOpt "--formats".toList l, [("--formats".toList, v)]) := by
  have n0 : (flagOpt "--formats").name = "--formats".toList := flag_name _ (dash_ne _ (by decide))
  rw [matchPat, matchAll, matchPat, takeOpt_eq, n0]
  cases valueOf "--formats".toList (optsOf l) with
  | none => rfl
  | some v => 
    simp only [Option.map_some, matchAll]
    rw [collect_plain (flag_plain _)]
    rfl

theorem format_match {l : List Item} (h1 : valueOf "--help".toList (optsOf l) = none) (h2 : valueOf "--version".toList (optsOf l) = none) :
    matchPat formatPat (l, []) = shortest ((matchAll formatMainPat (l, [])).toList ++ (matchPat (.required [.opt (flagOpt "--formats")]) (l, [])).toList) := by
  have e1 : matchPat helpPat (l, []) = none := by
    simp only [helpPat, matchPat, takeOpt_eq]
    rw [show Opt.name { helpOpt with value := .num 0 } = "--help".toList from by decide +kernel, h1]
    rfl
  have e2 : matchPat versionPat (l, []) = none := by
    simp only [versionPat, matchPat, takeOpt_eq]
    rw [show Opt.name { flagOpt "--version" with value := .num 0 } = "--version".toList from by decide +kernel, h2]
    rfl
  have e3 : ∀ t, matchAll (versionPat :: t) (l, []) = none := fun t => by simp only [matchAll, e2]
  have e4 : matchPat (.required [.required [.either [helpPat, helpPat]]]) (l, []) = none := by
    simp [matchPat, matchAll, matchEach, e1, shortest]
  obtain ⟨a, ha⟩ : ∃ a, a = matchAll formatMainPat (l, []) := ⟨_, rfl⟩
  obtain ⟨b, hb⟩ : ∃ b, b = matchPat (.required [.opt (flagOpt "--formats")]) (l, []) := ⟨_, rfl⟩
  rw [← ha, ← hb]
  unfold formatPat
  rw [matchPat, matchAll, matchPat, matchEach, matchEach, matchEach, matchEach, matchEach, e4]
  rw [show matchPat (.required (versionPat :: formatTail)) (l, []) = none by rw [matchPat]; exact e3 _]
  rw [show matchPat (.required formatMainPat) (l, []) = matchAll formatMainPat (l, []) by rw [matchPat]]
  rw [← ha, ← hb]
  simp only [Option.toList_none, List.append_nil]
  generalize shortest _ = r
  cases r <;> simp [matchAll]

/-- The options that are left after all those of the first line have been taken. -/
theorem format_left (l : List Item) :
    optsOf (dropOpt "--output-format".toList (dropArg (dropWord "output".toList
      (dropOpt "--terrain".toList (dropOpt "--graphs".toList (dropOpt "--prune".toList (dropOpt "--input-format".toList (dropArg l)))))))) =
    formatAllowed.foldl (fun k n => without n k) (optsOf l) := by
  simp only [optsOf_dropOpt, optsOf_dropWord, optsOf_dropArg, formatAllowed, List.foldl_cons, List.foldl_nil]

theorem format_args_left (l : List Item) :
    argsOf (dropOpt "--output-format".toList (dropArg (dropWord "output".toList
      (dropOpt "--terrain".toList (dropOpt "--graphs".toList (dropOpt "--prune".toList (dropOpt "--input-format".toList (dropArg l)))))))) =
    (if (argsOf l).tail.head? = some "output".toList then (argsOf l).tail.tail else (argsOf l).tail).tail := by
  simp only [argsOf_dropOpt, argsOf_dropWord, argsOf_dropArg]

/-- What is left of the words after `output` and the path. -/
theorem path_left (rest : List Text) : (if rest.head? = some "output".toList then rest.tail else rest).tail = [] ↔
    ∃ path : Option Text, (rest = path.toList ∧ path ≠ some "output".toList) ∨ rest = "output".toList :: path.toList := by
  generalize "output".toList = ou
  constructor
  · intro h
    match rest with
    | [] => exact ⟨none, .inl ⟨rfl, by simp⟩⟩
    | [a] =>
      by_cases h1 : a = ou
      · exact ⟨none, .inr (by simp [h1])⟩
      · exact ⟨some a, .inl ⟨rfl, by simpa using h1⟩⟩
    | [a, b] =>
      by_cases h1 : a = ou
      · exact ⟨some b, .inr (by simp [h1])⟩
      · simp [h1] at h
    | a :: b :: c :: t => by_cases h1 : a = ou <;> simp [h1] at h
  · rintro ⟨p, ⟨rfl, h⟩ | rfl⟩
    · cases p with
      | none => simp
      | some a =>
        have : a ≠ ou := fun e => h (by rw [e])
        simp [this]
    · cases p <;> simp

theorem path_head {rest : List Text} {path : Option Text} (h : (rest = path.toList ∧ path ≠ some "output".toList) ∨ rest = "output".toList :: path.toList) :
    (if rest.head? = some "output".toList then rest.tail else rest).head? = path := by
  generalize "output".toList = ou at *
  rcases h with ⟨rfl, h⟩ | rfl
  · cases path with
    | none => simp
    | some a =>
      have : a ≠ ou := fun e => h (by rw [e])
      simp [this]
  · cases path <;> simp

theorem lastOf_path (n : String) (o : Option Text) : lastOf n.toList (pathOf o) = if "<path>" = n then o.map Arg.str else none := by
  cases o with
  | none => simp [pathOf, lastOf]
  | some t =>
    have := lastOf_one n "<path>" (Arg.str t)
    simpa [pathOf] using this

/-- The values of the names, the last one said first. -/
theorem format_value (L : List (Text × Arg)) (g : String → Option Arg) (o : List (Text × Arg)) (s f : Arg) (out : Bool) (path : Option Text) (hg : ∀ n, valueOf n.toList o = g n) (n : String) :
    lastOf n.toList (L ++ ([("<scene>".toList, s), ("--input-format".toList, f)] ++ got "--prune" o ++ got "--graphs" o ++ got "--terrain" o ++ said "output" out ++ pathOf path ++
      got "--output-format" o)) =
    ((if "--output-format" = n then g "--output-format" else none).or ((if "<path>" = n then path.map Arg.str else none).or
      ((if "output" = n ∧ out = true then some (.bool true) else none).or
      ((if "--terrain" = n then g "--terrain" else none).or ((if "--graphs" = n then g "--graphs" else none).or ((if "--prune" = n then g "--prune" else none).or
      (if "--input-format" = n then some f else if "<scene>" = n then some s else none))))))).or (lastOf n.toList L) := by
  simp only [lastOf_append, lastOf_pair, lastOf_got, lastOf_said, lastOf_path, hg]


theorem shortest_mem {l : List Match} {m : Match} (h : shortest l = some m) : m ∈ l := by
  induction l generalizing m with
  | nil => cases h
  | cons a l ih =>
    rw [shortest] at h
    cases hs : shortest l with
    | none => rw [hs] at h; cases h; exact List.mem_cons_self ..
    | some k =>
      rw [hs] at h
      simp only at h
      split at h
      · cases h; exact List.mem_cons_self ..
      · cases h; exact List.mem_cons_of_mem _ (ih hs)

theorem kinds_of {k : List (Text × Bool)} {argv ws : List Text} {os : List (Text × Option Text)} (h : Spells k argv ws os) : ∀ n v, (n, v) ∈ os → (n, v.isSome) ∈ k := by
  induction h with
  | done => intro n v h; cases h
  | word _ _ ih => exact ih
  | rest a => intro n v h; cases h
  | switch hm _ ih =>
    intro n v h
    rcases List.mem_cons.1 h with e | e
    · cases e; exact hm.1
    · exact ih n v e
  | equals hm _ ih =>
    intro n v h
    rcases List.mem_cons.1 h with e | e
    · cases e; exact hm.1
    · exact ih n v e
  | next hm _ _ _ ih =>
    intro n v h
    rcases List.mem_cons.1 h with e | e
    · cases e; exact hm.1
    · exact ih n v e

/-- The first line of the usage takes everything. -/
theorem format_main {items : List Item} {c : List (Text × Arg)} (h1 : valueOf "--help".toList (optsOf items) = none) (h2 : valueOf "--version".toList (optsOf items) = none)
    (h : matchAll formatMainPat (items, []) = some ([], c)) (hf : "--formats".toList ∉ (optsOf items).map Prod.fst) : matchPat formatPat (items, []) = some ([], c) := by
  have e : valueOf "--formats".toList (optsOf items) = none := by
    by_contra k
    exact hf (valueOf_isSome.1 (Option.isSome_iff_ne_none.2 k))
  rw [format_match h1 h2, formats_line, e, h]
  rfl

/-- What is collected where everything is taken. -/
theorem format_cases {items : List Item} {c : List (Text × Arg)} (h1 : valueOf "--help".toList (optsOf items) = none) (h2 : valueOf "--version".toList (optsOf items) = none)
    (h : matchPat formatPat (items, []) = some ([], c)) : matchAll formatMainPat (items, []) = some ([], c) ∨ ∃ v, items = [.opt "--formats".toList v] := by
  rw [format_match h1 h2, formats_line] at h
  rcases List.mem_append.1 (shortest_mem h) with k | k
  · exact .inl (Option.mem_toList.1 k)
  · right
    cases hv : valueOf "--formats".toList (optsOf items) with
    | none => rw [hv] at k; cases k
    | some v =>
      rw [hv] at k
      simp only [Option.map_some, Option.toList_some, List.mem_singleton, Prod.mk.injEq] at k
      have e := k.1.symm
      refine ⟨v, ?_⟩
      cases items with
      | nil => cases hv
      | cons x l =>
        cases x with
        | arg t => simp [dropOpt] at e
        | opt n w =>
          rw [dropOpt] at e
          split at e
          · rename_i hn
            subst hn
            rw [optsOf, valueOf, if_pos rfl] at hv
            cases hv
            rw [e]
          · cases e

end City.Docopt

namespace City.Props
open City City.Spec City.Docopt

set_option maxRecDepth 10000

/-- What the program receives, from the pairs that the match collects. -/
theorem format_typed (L o : List (Text × Arg)) (os : List (Text × Option Text)) (s f : Text) (out : Bool) (path : Option Text) (m : Args)
    (hm : ∀ n, m n = lastOf n (L ++ ([("<scene>".toList, Arg.str s), ("--input-format".toList, asArg (some f))] ++ got "--prune" o ++ got "--graphs" o ++ got "--terrain" o ++
      said "output" out ++ pathOf path ++ got "--output-format" o)))
    (base : ∀ n ∈ ["--formats", "--prune", "--graphs", "--terrain"], lastOf n.toList L = some (.bool false))
    (base1 : ∀ n ∈ ["<path>", "--output-format"], lastOf n.toList L = some .empty)
    (names : ∀ n, n ∈ o.map Prod.fst → n ∈ os.map Prod.fst)
    (flag : ∀ n ∈ ["--prune", "--graphs", "--terrain"], valueOf n.toList o = if n.toList ∈ os.map Prod.fst then some (.bool true) else none)
    (vals : ∀ n v, (n, v) ∈ os → valueOf n o = some (asArg v)) (hf : ("--input-format".toList, some f) ∈ os) : FormatTyped m os s path := by
  have val := fun n : String => format_value L (fun n => valueOf n.toList o) o (Arg.str s) (asArg (some f)) out path (fun _ => rfl) n
  refine ⟨?_, ?_, ?_, ⟨f, hf, ?_⟩, ⟨?_, ?_⟩, ?_, ?_⟩
  · refine ((hm _).trans (val "--formats")).trans ?_
    simp only [String.reduceEq, if_false, false_and, Option.none_or, base "--formats" (by simp only [List.mem_cons, true_or])]
  · refine ((hm _).trans (val "<scene>")).trans ?_
    simp only [String.reduceEq, if_false, if_true, false_and, Option.none_or, Option.some_or]
  · intro n hn
    have hb := base n (by simp only [List.mem_cons, List.not_mem_nil, or_false] at hn ⊢; tauto)
    have hg := flag n hn
    refine ((hm _).trans (val n)).trans ?_
    have e : (if n.toList ∈ os.map Prod.fst then some (Arg.bool true) else none).or (some (.bool false)) = some (.bool (decide (n.toList ∈ os.map Prod.fst))) := by
      split <;> rename_i h
      · rw [decide_eq_true h]; rfl
      · rw [decide_eq_false h]; rfl
    rw [← e, ← hg, ← hb]
    clear e hg hb
    generalize lastOf n.toList L = q
    simp only [List.mem_cons, List.not_mem_nil, or_false] at hn
    rcases hn with rfl | rfl | rfl <;> simp only [String.reduceEq, if_false, if_true, false_and, Option.none_or, Option.or_none]
  · refine ((hm _).trans (val "--input-format")).trans ?_
    simp only [String.reduceEq, if_false, if_true, false_and, Option.none_or, Option.some_or, asArg]
  · rintro v rfl
    refine ((hm _).trans (val "<path>")).trans ?_
    simp only [String.reduceEq, if_false, if_true, Option.none_or, Option.map_some, Option.some_or]
  · rintro rfl
    refine ((hm _).trans (val "<path>")).trans ?_
    simp only [String.reduceEq, if_false, if_true, false_and, Option.none_or, Option.map_none, base1 "<path>" (by simp only [List.mem_cons, true_or])]
  · intro v hv
    refine ((hm _).trans (val "--output-format")).trans ?_
    simp only [String.reduceEq, if_true, vals _ _ hv, Option.some_or, asArg]
  · intro hv
    have : valueOf "--output-format".toList o = none := by
      by_contra k
      exact hv (names _ (valueOf_isSome.1 (Option.isSome_iff_ne_none.2 k)))
    refine ((hm _).trans (val "--output-format")).trans ?_
    simp only [String.reduceEq, if_false, if_true, false_and, this, Option.none_or, base1 "--output-format" (by simp only [List.mem_cons, true_or, or_true])]

/-- C111: every command line that consists of the scene, perhaps `output`, perhaps a path, an input format and some of the options of the first line of the usage, is accepted by cityformat, and
the program receives what has been typed. -/
theorem C111_format_values (argv ws : List Text) (os : List (Text × Option Text)) (s : Text) (path : Option Text) (h1 : Spells formatOptions argv ws os) (h2 : FormatLine ws os s path) :
    ∃ m, docopt formatUsage argv = .args m ∧ FormatTyped m os s path := by
  rw [← format_known] at h1
  obtain ⟨items, p1, p2, p3⟩ := parse_spells format_table h1
  have names : (optsOf items).map Prod.fst = os.map Prod.fst := by rw [p3, names_asItems]
  have allowed : ∀ n ∈ (optsOf items).map Prod.fst, n ∈ formatAllowed := by
    rw [names]
    exact h2.allowed
  have gone : ∀ n, n ∉ formatAllowed → valueOf n (optsOf items) = none := by
    intro n hn
    by_contra k
    exact hn (allowed n (valueOf_isSome.1 (Option.isSome_iff_ne_none.2 k)))
  have g1 : valueOf "--help".toList (optsOf items) = none := gone _ (by decide +kernel)
  have g2 : valueOf "--version".toList (optsOf items) = none := gone _ (by decide +kernel)
  have g3 : valueOf "-h".toList (optsOf items) = none := gone _ (by decide +kernel)
  have g4 : "--formats".toList ∉ (optsOf items).map Prod.fst := fun k => (show "--formats".toList ∉ formatAllowed by decide +kernel) (allowed _ k)
  have vals : ∀ n v, (n, v) ∈ os → valueOf n (optsOf items) = some (asArg v) := by
    intro n v hv
    apply valueOf_of_mem
    · rw [names]
      exact h2.once
    · rw [p3]
      exact List.mem_map.2 ⟨(n, v), hv, rfl⟩
  obtain ⟨rest, hrest, hws⟩ : ∃ rest, ((rest = path.toList ∧ path ≠ some "output".toList) ∨ rest = "output".toList :: path.toList) ∧ argsOf items = s :: rest := by
    rcases h2.words with ⟨e, k⟩ | e
    · exact ⟨_, .inl ⟨rfl, k⟩, by rw [p2, e]⟩
    · exact ⟨_, .inr rfl, by rw [p2, e]⟩
  obtain ⟨f, hf⟩ : ∃ f, ("--input-format".toList, some f) ∈ os := by
    obtain ⟨⟨n, v⟩, hv, e⟩ := List.mem_map.1 h2.format
    simp only at e
    subst e
    cases v with
    | some f => exact ⟨f, hv⟩
    | none => exact absurd (kinds_of h1 _ _ hv) (show ("--input-format".toList, false) ∉ knownOf formatOpts by decide +kernel)
  have hm := format_line items
  rw [hws, vals _ _ hf] at hm
  simp only at hm
  have hl := nothing_left (dropOpt "--output-format".toList (dropArg (dropWord "output".toList
      (dropOpt "--terrain".toList (dropOpt "--graphs".toList (dropOpt "--prune".toList (dropOpt "--input-format".toList (dropArg items))))))))
  rw [format_left, format_args_left, hws, List.tail_cons, without_all (by decide +kernel)] at hl
  rw [hl.2 ⟨(path_left rest).2 ⟨path, hrest⟩, by rw [names]; exact h2.once, allowed⟩, path_head hrest] at hm
  have hd : docopt formatUsage argv = .args fun n => lastOf n (leaves formatPat ++ ([("<scene>".toList, Arg.str s), ("--input-format".toList, asArg (some f))] ++
      got "--prune" (optsOf items) ++ got "--graphs" (optsOf items) ++ got "--terrain" (optsOf items) ++ said "output" (rest.head? = some "output".toList) ++ pathOf path ++
      got "--output-format" (optsOf items))) := by
    rw [docopt_format, parseWith, p1]
    simp only
    rw [(isSet_iff _ _).2 g1, (isSet_iff _ _).2 g2, (isSet_iff _ _).2 g3]
    simp only [Bool.or_self, Bool.false_eq_true, if_false]
    rw [format_main g1 g2 hm g4]
  have base : ∀ n ∈ ["--formats", "--prune", "--graphs", "--terrain"], lastOf n.toList (leaves formatPat) = some (.bool false) := by decide +kernel
  have base1 : ∀ n ∈ ["<path>", "--output-format"], lastOf n.toList (leaves formatPat) = some .empty := by decide +kernel
  generalize leaves formatPat = L at base base1 hd
  refine ⟨_, hd, ?_⟩
  have flag : ∀ n ∈ ["--prune", "--graphs", "--terrain"], valueOf n.toList (optsOf items) = if n.toList ∈ os.map Prod.fst then some (.bool true) else none := by
    intro n hn
    split
    · rename_i h
      obtain ⟨⟨k, v⟩, hv, e⟩ := List.mem_map.1 h
      simp only at e
      subst e
      cases v with
      | none => exact vals _ _ hv
      | some v =>
        exfalso
        have no : ∀ n ∈ ["--prune", "--graphs", "--terrain"], (n.toList, true) ∉ knownOf formatOpts := by decide +kernel
        exact no n hn (kinds_of h1 _ _ hv)
    · rename_i h
      rw [← names] at h
      by_contra k
      exact h (valueOf_isSome.1 (Option.isSome_iff_ne_none.2 k))
  exact format_typed L _ os s f _ path _ (fun _ => rfl) base base1 (fun n h => by rwa [← names]) flag vals hf

/-- C111: `--formats` alone is accepted by cityformat. -/
theorem C111_formats_values (argv : List Text) (h : Spells formatOptions argv [] [("--formats".toList, none)]) :
    ∃ m, docopt formatUsage argv = .args m ∧ Switch m "--formats" true := by
  rw [← format_known] at h
  obtain ⟨items, p1, p2, p3⟩ := parse_spells format_table h
  have hi : items = [.opt "--formats".toList (.bool true)] := by
    cases items with
    | nil => cases p3
    | cons x l =>
      cases x with
      | arg t => cases p2
      | opt n v =>
        rw [optsOf] at p3
        obtain ⟨e1, e2⟩ := List.cons.inj p3
        cases e1
        have : l = [] := (nothing_left l).2 ⟨by rw [argsOf] at p2; exact p2, e2⟩
        rw [this]
        rfl
  have g : ∀ n, n ≠ "--formats".toList → valueOf n (optsOf items) = none := by
    intro n hn
    rw [hi, optsOf, valueOf, if_neg (Ne.symm hn)]
    rfl
  have g1 : valueOf "--help".toList (optsOf items) = none := g _ (by decide +kernel)
  have g2 : valueOf "--version".toList (optsOf items) = none := g _ (by decide +kernel)
  have g3 : valueOf "-h".toList (optsOf items) = none := g _ (by decide +kernel)
  have hm : matchPat formatPat (items, []) = some ([], [("--formats".toList, .bool true)]) := by
    have k1 : matchAll formatMainPat (items, []) = none := by
      rw [format_line, p2]
    have k2 : valueOf "--formats".toList (optsOf items) = some (.bool true) := by
      rw [hi, optsOf, valueOf, if_pos rfl]
    have k3 : dropOpt "--formats".toList items = [] := by
      rw [hi, dropOpt, if_pos rfl]
    rw [format_match g1 g2, formats_line, k1, k2, Option.map_some, k3]
    rfl
  have hd : docopt formatUsage argv = .args fun n => lastOf n (leaves formatPat ++ [("--formats".toList, .bool true)]) := by
    rw [docopt_format, parseWith, p1]
    simp only
    rw [(isSet_iff _ _).2 g1, (isSet_iff _ _).2 g2, (isSet_iff _ _).2 g3]
    simp only [Bool.or_self, Bool.false_eq_true, if_false]
    rw [hm]
  generalize leaves formatPat = L at hd
  refine ⟨_, hd, ?_⟩
  show lastOf _ _ = _
  rw [lastOf_append, lastOf_one, if_pos rfl]
  rfl

/-- C111: cityformat accepts no other command line. -/
theorem C111_format_exact (argv : List Text) : (∃ m, docopt formatUsage argv = .args m) ↔
    (∃ ws os s path, Spells formatOptions argv ws os ∧ FormatLine ws os s path) ∨ Spells formatOptions argv [] [("--formats".toList, none)] := by
  constructor
  · rintro ⟨m, h⟩
    rw [docopt_format, parseWith] at h
    cases hp : parseArgv none argv formatOpts with
    | none => simp [hp] at h
    | some items =>
      rw [hp] at h
      simp only at h
      split at h
      · cases h
      · rename_i hs
        simp only [Bool.or_eq_true, not_or, Bool.not_eq_true] at hs
        have g1 := (isSet_iff _ _).1 hs.1.2
        have g2 := (isSet_iff _ _).1 hs.2
        split at h
        · rename_i c hc
          rcases format_cases g1 g2 hc with k | ⟨v, k⟩
          · left
            rw [format_line] at k
            cases ha : argsOf items with
            | nil => rw [ha] at k; cases k
            | cons s rest =>
              cases hv : valueOf "--input-format".toList (optsOf items) with
              | none =>
                rw [ha, hv] at k
                simp only at k
                cases k
              | some v =>
                rw [ha, hv] at k
                simp only at k
                have hl := nothing_left (dropOpt "--output-format".toList (dropArg (dropWord "output".toList
                  (dropOpt "--terrain".toList (dropOpt "--graphs".toList (dropOpt "--prune".toList (dropOpt "--input-format".toList (dropArg items))))))))
                rw [format_left, format_args_left, ha, List.tail_cons, without_all (by decide +kernel), path_left] at hl
                obtain ⟨⟨path, e1⟩, e2, e3⟩ := hl.1 (Prod.mk.inj (Option.some.inj k)).1
                have e4 : ∀ n ∈ (optsOf items).map Prod.fst, n ∈ formatOpts.map Opt.long ∧ n ≠ "--help".toList := by
                  have : ∀ n ∈ formatAllowed, n ∈ formatOpts.map Opt.long ∧ n ≠ "--help".toList := by decide +kernel
                  exact fun n hn => this n (e3 n hn)
                obtain ⟨opts, s1, s2⟩ := spells_parse format_table argv items hp e4
                rw [format_known, ha] at s1
                have names : (optsOf items).map Prod.fst = opts.map Prod.fst := by rw [s2, names_asItems]
                refine ⟨s :: rest, opts, s, path, s1, ?_, by rw [← names]; exact e2, by rw [← names]; exact valueOf_isSome.1 (by rw [hv]; rfl), by rw [← names]; exact e3⟩
                rcases e1 with ⟨e, k⟩ | e
                · exact .inl ⟨by rw [e], k⟩
                · exact .inr (by rw [e])
          · right
            have e4 : ∀ n ∈ (optsOf items).map Prod.fst, n ∈ formatOpts.map Opt.long ∧ n ≠ "--help".toList := by
              rw [k]
              intro n hn
              have e : n = "--formats".toList := List.mem_singleton.1 hn
              rw [e]
              decide +kernel
            obtain ⟨opts, s1, s2⟩ := spells_parse format_table argv items hp e4
            rw [k] at s1 s2
            match opts, s2 with
            | [(n, w)], s2 =>
              obtain ⟨e1, -⟩ := List.cons.inj s2
              have en : n = "--formats".toList := (Prod.mk.inj e1).1.symm
              subst en
              have kd := kinds_of s1 _ w (List.mem_singleton_self _)
              cases w with
              | some w => exact absurd kd (show ("--formats".toList, true) ∉ knownOf formatOpts by decide +kernel)
              | none =>
                rw [format_known] at s1
                exact s1
            | [], s2 => cases s2
            | _ :: _ :: _, s2 => exact absurd (congrArg List.length s2) (by simp [asItems, optsOf])
        · cases h
  · rintro (⟨ws, os, s, path, h1, h2⟩ | h)
    · obtain ⟨m, hm, -⟩ := C111_format_values argv ws os s path h1 h2
      exact ⟨m, hm⟩
    · obtain ⟨m, hm, -⟩ := C111_formats_values argv h
      exact ⟨m, hm⟩

/-! ### The program -/

section
variable {N L K : Type} [Field K] [LinearOrder K] [FloorRing K]

/-- C111: a command line of another form leaves all files as they are, and the status is 0 (help, version) or 255. -/
theorem C111_format_refused (T : Toolbox N L K) (argv : List Text) (fs : Fs)
    (h : ¬ ((∃ ws os s path, Spells formatOptions argv ws os ∧ FormatLine ws os s path) ∨ Spells formatOptions argv [] [("--formats".toList, none)])) :
    ∃ n, formatProgram T argv fs = (.ok n, fs) ∧ (n = 0 ∨ n = 255) := by
  rw [← C111_format_exact] at h
  unfold formatProgram
  rw [docopt_format] at h ⊢
  cases hd : parseWith formatPat formatOpts argv with
  | args m => exact absurd ⟨m, hd⟩ h
  | exit n =>
    refine ⟨n, rfl, ?_⟩
    rw [parseWith] at hd
    cases hp : parseArgv none argv formatOpts with
    | none => rw [hp] at hd; cases hd; exact .inr rfl
    | some items =>
      rw [hp] at hd
      simp only at hd
      split at hd
      · cases hd; exact .inl rfl
      · split at hd
        · cases hd
        · cases hd; exact .inr rfl

/-- C111: `cityformat --formats` ends with status 0 and changes no file. -/
theorem C111_formats_program (T : Toolbox N L K) (argv : List Text) (h : Spells formatOptions argv [] [("--formats".toList, none)]) (fs : Fs) :
    formatProgram T argv fs = (.ok 0, fs) := by
  obtain ⟨m, e, hm⟩ := C111_formats_values argv h
  refine (congrArg (fun d => afterDocopt (formatMain T) d fs) e).trans ?_
  have ha : formatArgs m = .ok ⟨true, [], [], false, false, false, [], []⟩ := by
    unfold formatArgs
    rw [asBool_of hm]
    rfl
  show mainOf (formatRun T m) fs = _
  unfold mainOf formatRun Act.bind Act.reads
  rw [ha]
  rfl

/-- C111: what is done is what `main` does with the words and options that have been typed. -/
theorem C111_format_program (T : Toolbox N L K) (argv ws : List Text) (os : List (Text × Option Text)) (s : Text) (path : Option Text) (h1 : Spells formatOptions argv ws os)
    (h2 : FormatLine ws os s path) : ∃ m, FormatTyped m os s path ∧ ∀ fs, formatProgram T argv fs = formatMain T m fs := by
  obtain ⟨m, e, h⟩ := C111_format_values argv ws os s path h1 h2
  exact ⟨m, h, fun fs => congrArg (fun d => afterDocopt (formatMain T) d fs) e⟩

/-- C111: a line without a path or without an output format is accepted, the status is 0, and nothing is written, not even the dual graphs that `--graphs` asks for. -/
theorem C111_incomplete (T : Toolbox N L K) (argv ws : List Text) (os : List (Text × Option Text)) (s : Text) (path : Option Text) (h1 : Spells formatOptions argv ws os)
    (h2 : FormatLine ws os s path) (h3 : path = none ∨ "--output-format".toList ∉ os.map Prod.fst) (fs : Fs) : formatProgram T argv fs = (.ok 0, fs) := by
  obtain ⟨m, h, e⟩ := C111_format_program T argv ws os s path h1 h2
  rw [e]
  obtain ⟨f, -, hf⟩ := h.format
  have ha : ∃ x, formatArgs m = .thrown x := by
    unfold formatArgs
    rw [asBool_of h.formats, asString_of h.scene, asString_of hf, asBool_of (h.switches "--prune" (by simp only [List.mem_cons, true_or])),
      asBool_of (h.switches "--graphs" (by simp only [List.mem_cons, true_or, or_true])), asBool_of (h.switches "--terrain" (by simp only [List.mem_cons, true_or, or_true]))]
    simp only [Out.ok_bind, Bool.false_eq_true, if_false]
    have none_of : ∀ {n : String}, m n.toList = some .empty → m.asString n = .thrown .runtimeError := by
      intro n hn
      unfold Args.asString Args.get
      rw [hn]
      rfl
    cases path with
    | none =>
      rw [none_of (h.path.2 rfl)]
      exact ⟨_, rfl⟩
    | some o =>
      rw [asString_of (h.path.1 o rfl), Out.ok_bind, none_of (h.output.2 (h3.elim (fun k => by cases k) fun k => k))]
      exact ⟨_, rfl⟩
  obtain ⟨x, ha⟩ := ha
  show mainOf (formatRun T m) fs = _
  unfold mainOf formatRun Act.bind Act.reads
  rw [ha]

end

section
variable {F K : Type} [Field K] [LinearOrder K] [IsStrictOrderedRing K] [FloorRing K]

/-- The command line asks for a conversion, and for nothing else. -/
theorem typed_asks {m : Args} {os : List (Text × Option Text)} {t f o g : Text} (h : FormatTyped m os t (some o)) (hn : (os.map Prod.fst).Nodup)
    (hf : ("--input-format".toList, some f) ∈ os) (hg : ("--output-format".toList, some g) ∈ os) (hno : ∀ n ∈ ["--prune", "--graphs"], n.toList ∉ os.map Prod.fst) :
    AsksConversion m t f o g := by
  have off : ∀ n ∈ ["--prune", "--graphs"], Switch m n false := by
    intro n hn
    have := h.switches n (by simp only [List.mem_cons, List.not_mem_nil, or_false] at hn ⊢; tauto)
    rwa [decide_eq_false (hno n hn)] at this
  obtain ⟨f', hf', gf⟩ := h.format
  have ef : f' = f := Option.some.inj (Prod.mk.inj (List.inj_on_of_nodup_map hn hf' hf rfl)).2
  subst ef
  exact ⟨h.formats, h.scene, gf, off _ (by simp only [List.mem_cons, true_or]), off _ (by simp only [List.mem_cons, true_or, or_true]),
    ⟨_, h.switches _ (by simp only [List.mem_cons, true_or, or_true])⟩, h.path.1 _ rfl, h.output.1 _ hg⟩

/-- C111: from the command line `t --input-format=OBJ output o --output-format=OFF`, in any order and spelling, to the OFF files in the directory `o`: reading them gives the buildings of the
OBJ file again (C108). -/
theorem C111_convert {T : Toolbox (Out (UNode K)) F K} {lib : SoupLib K} {emb : V3 ℚ → V3 K} {rnd : V3 K → V3 ℚ} (U : UsesNodes T lib emb) (B : NodesBack T emb rnd) (hL : SoupLaw lib)
    (argv ws : List Text) (os : List (Text × Option Text)) (fs : Fs) (t x o : Text) (ms : List Mesh)
    (h1 : Spells formatOptions argv ws os) (h2 : FormatLine ws os t (some o)) (hf : ("--input-format".toList, some "OBJ".toList) ∈ os)
    (hg : ("--output-format".toList, some "OFF".toList) ∈ os) (hno : ∀ n ∈ ["--prune", "--graphs"], n.toList ∉ os.map Prod.fst)
    (hext : NamedLike (splitSlash t) "obj".toList) (hfile : fs (splitSlash t) = some (.file x))
    (hread : Obj.read T.rnd x = .ok ms) (hd : FreshDirectory fs (splitSlash o)) (hm : ∀ m ∈ ms, Convertible T.rnd emb m) (hn : (ms.map Mesh.name).Nodup) :
    ∃ fs', formatProgram T argv fs = (.ok 0, fs') ∧ ∀ names rm, OpenedRead rm → Listing fs' (splitSlash o) names → ∃ bs r,
      sceneRead T.ops T.lib T.rnd T.lf .off rm (splitSlash o) names fs' = .ok (Scene.make T.ops bs r ⟨0, 0, 0⟩ 2154) ∧ FoundAgain ms (bs ++ [r]) ∧
      r.name = "terrain".toList ∧ "terrain".toList ∉ bs.map Mesh.name := by
  obtain ⟨m, h, e⟩ := C111_format_program T argv ws os t (some o) h1 h2
  rw [e]
  exact C108_off U B hL m fs t x o ms (typed_asks h h2.once hf hg hno) hext hfile hread hd hm hn

end

/-! ### Examples -/

/-- `cityformat --input-format OBJ d/a.obj output d/out --output=OFF`. -/
def convLine : List Text := ["--input-format".toList, "OBJ".toList, "d/a.obj".toList, "output".toList, "d/out".toList, "--output=OFF".toList]

theorem conv_spells : Spells formatOptions convLine ["d/a.obj".toList, "output".toList, "d/out".toList]
    [("--input-format".toList, some "OBJ".toList), ("--output-format".toList, some "OFF".toList)] := by
  unfold convLine
  refine .next (by unfold Means; decide +kernel) (by decide +kernel) (by decide +kernel) (.word (by decide +kernel) (.word (by decide +kernel) (.word (by decide +kernel) ?_)))
  rw [show "--output=OFF".toList = "--output".toList ++ '=' :: "OFF".toList by decide +kernel]
  exact .equals (by unfold Means; decide +kernel) .done

theorem conv_line : FormatLine ["d/a.obj".toList, "output".toList, "d/out".toList]
    [("--input-format".toList, some "OBJ".toList), ("--output-format".toList, some "OFF".toList)] "d/a.obj".toList (some "d/out".toList) :=
  ⟨.inr rfl, by decide +kernel, by decide +kernel, by decide +kernel⟩

/-- C111: the hypotheses are met: the conversion of the closed block. -/
example (lib : SoupLib ℚ) (hL : SoupLaw lib) : ∃ fs', formatProgram (listTools lib) convLine (objFs blockObj) = (.ok 0, fs') ∧
    ∀ names rm, OpenedRead rm → Listing fs' ["d".toList, "out".toList] names → ∃ bs r,
      sceneRead (listTools lib).ops (listTools lib).lib _root_.id (listTools lib).lf .off rm ["d".toList, "out".toList] names fs' =
        .ok (Scene.make (listTools lib).ops bs r ⟨0, 0, 0⟩ 2154) ∧ FoundAgain [blockMesh] (bs ++ [r]) := by
  obtain ⟨fs', h1, h2⟩ := C111_convert (listTools_uses lib) (listTools_back lib) hL convLine _ _ (objFs blockObj) _ blockObj "d/out".toList [blockMesh] conv_spells conv_line
    (List.mem_cons_self ..) (List.mem_cons_of_mem _ (List.mem_cons_self ..)) (by decide +kernel) objName (by decide +kernel) blockObj_read (objFs_fresh _) (by
      intro m hm
      rw [List.mem_singleton] at hm
      subst hm
      exact block_convertible) (by decide)
  refine ⟨fs', h1, fun names rm h k => ?_⟩
  obtain ⟨bs, r, e, k, -⟩ := h2 names rm h k
  exact ⟨bs, r, e, k⟩

/-- C111: the hypotheses are met: a scene and an input format only. -/
example (T : Toolbox ℚ ℚ ℚ) (fs : Fs) : formatProgram T ["a".toList, "--graphs".toList, "--input-format=OBJ".toList] fs = (.ok 0, fs) := by
  refine C111_incomplete T _ ["a".toList] [("--graphs".toList, none), ("--input-format".toList, some "OBJ".toList)] "a".toList none (.word (by decide +kernel) (.switch (by unfold Means; decide +kernel) ?_))
    ⟨.inl ⟨rfl, by decide +kernel⟩, by decide +kernel, by decide +kernel, by decide +kernel⟩ (.inl rfl) fs
  rw [show "--input-format=OBJ".toList = "--input-format".toList ++ '=' :: "OBJ".toList by decide +kernel]
  exact .equals (by unfold Means; decide +kernel) .done

/-- C111: the hypotheses are met: `--for` is enough for `--formats`. -/
example (T : Toolbox ℚ ℚ ℚ) (fs : Fs) : formatProgram T ["--for".toList] fs = (.ok 0, fs) :=
  C111_formats_program T _ (.switch (by unfold Means; decide +kernel) .done) fs

end City.Props
