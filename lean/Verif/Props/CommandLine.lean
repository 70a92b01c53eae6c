import Verif.Lemmas.Argv
import Verif.Props.Visible
import Verif.Props.CliRun
/-
C111: the command lines of orthoproject and cityformat.
-/
namespace City.Spec
open City City.Props

/-- The program orthoproject receives what has been typed: the scene, the switches that are there, the values that are given, `1` for the pixel size if none is given. -/
structure AsTyped (m : Args) (os : List (Text × Option Text)) (scene : Text) (save rasterize : Bool) : Prop where
  scene : Given m "<scene>" scene
  save : Switch m "save" save
  rasterize : Switch m "rasterize" rasterize
  cache : Switch m "--cache" false
  switches : ∀ n ∈ ["--prune", "--graphs", "--terrain", "--scene", "--labels"], Switch m n (decide (n.toList ∈ os.map Prod.fst))
  format : ∃ v, ("--input-format".toList, some v) ∈ os ∧ Given m "--input-format" v
  size : (∀ v, ("--pixel-size".toList, some v) ∈ os → Given m "--pixel-size" v) ∧ ("--pixel-size".toList ∉ os.map Prod.fst → Given m "--pixel-size" "1".toList)

end City.Spec

namespace City.Docopt
open City City.Spec

theorem docopt_of {doc : Text} {p : Pat} {os : List Opt} (h : createPattern doc = some (p, os)) (argv : List Text) : docopt doc argv = parseWith p os argv := by
  unfold docopt
  rw [h]

theorem docopt_ortho (argv : List Text) : docopt orthoUsage argv = parseWith orthoPat orthoOpts argv := docopt_of ortho_pattern argv

theorem ortho_known : knownOf orthoOpts = orthoOptions := by decide +kernel

theorem lastOf_append (n : Text) (a b : List (Text × Arg)) : lastOf n (a ++ b) = (lastOf n b).or (lastOf n a) := by
  unfold lastOf
  rw [List.reverse_append, List.find?_append]
  cases b.reverse.find? (fun x => decide (x.1 = n)) <;> simp

theorem lastOf_one (n m : String) (v : Arg) : lastOf n.toList [(m.toList, v)] = if m = n then some v else none := by
  unfold lastOf
  by_cases h : m = n
  · simp [h]
  · simp [h, String.toList_inj]

theorem lastOf_pair (n m k : String) (v w : Arg) : lastOf n.toList [(m.toList, v), (k.toList, w)] = if k = n then some w else if m = n then some v else none := by
  rw [show [(m.toList, v), (k.toList, w)] = [(m.toList, v)] ++ [(k.toList, w)] from rfl, lastOf_append, lastOf_one, lastOf_one]
  split <;> simp

theorem lastOf_got (n m : String) (os : List (Text × Arg)) : lastOf n.toList (got m os) = if m = n then valueOf m.toList os else none := by
  unfold got
  cases valueOf m.toList os with
  | none => simp [lastOf]
  | some v => simp only [Option.map_some, Option.toList_some, lastOf_one]

theorem lastOf_said (n m : String) (b : Bool) : lastOf n.toList (said m b) = if m = n ∧ b = true then some (.bool true) else none := by
  unfold said
  cases b with
  | false => simp [lastOf]
  | true => simp [lastOf_one]

/-- The values of the names, the last one said first. -/
theorem line_value (L : List (Text × Arg)) (g : String → Option Arg) (o : List (Text × Arg)) (s f : Arg) (save rast : Bool) (hg : ∀ n, valueOf n.toList o = g n) (n : String) :
    lastOf n.toList (L ++ ([("<scene>".toList, s), ("--input-format".toList, f)] ++ got "--prune" o ++ got "--graphs" o ++ got "--terrain" o ++ said "save" save ++ got "--scene" o ++
      got "--labels" o ++ said "rasterize" rast ++ got "--pixel-size" o)) =
    ((if "--pixel-size" = n then g "--pixel-size" else none).or ((if "rasterize" = n ∧ rast = true then some (.bool true) else none).or
      ((if "--labels" = n then g "--labels" else none).or ((if "--scene" = n then g "--scene" else none).or ((if "save" = n ∧ save = true then some (.bool true) else none).or
      ((if "--terrain" = n then g "--terrain" else none).or ((if "--graphs" = n then g "--graphs" else none).or ((if "--prune" = n then g "--prune" else none).or
      (if "--input-format" = n then some f else if "<scene>" = n then some s else none))))))))).or (lastOf n.toList L) := by
  simp only [lastOf_append, lastOf_pair, lastOf_got, lastOf_said, hg]

/-- The options that are left after all those of the first line have been taken. -/
theorem ortho_left (l : List Item) :
    optsOf (dropOpt "--pixel-size".toList (dropWord "rasterize".toList (dropOpt "--labels".toList (dropOpt "--scene".toList (dropWord "save".toList
      (dropOpt "--terrain".toList (dropOpt "--graphs".toList (dropOpt "--prune".toList (dropOpt "--input-format".toList (dropArg l)))))))))) =
    orthoAllowed.foldl (fun k n => without n k) (optsOf l) := by
  simp only [optsOf_dropOpt, optsOf_dropWord, optsOf_dropArg, orthoAllowed, List.foldl_cons, List.foldl_nil]

theorem ortho_args_left (l : List Item) :
    argsOf (dropOpt "--pixel-size".toList (dropWord "rasterize".toList (dropOpt "--labels".toList (dropOpt "--scene".toList (dropWord "save".toList
      (dropOpt "--terrain".toList (dropOpt "--graphs".toList (dropOpt "--prune".toList (dropOpt "--input-format".toList (dropArg l)))))))))) =
    (let r := if (argsOf l).tail.head? = some "save".toList then (argsOf l).tail.tail else (argsOf l).tail
     if r.head? = some "rasterize".toList then r.tail else r) := by
  simp only [argsOf_dropOpt, argsOf_dropWord, argsOf_dropArg]

theorem save_rasterize : "rasterize".toList ≠ "save".toList := by decide +kernel

/-- What is left of the words after `save` and `rasterize`. -/
theorem words_left (rest : List Text) :
    (let r := if rest.head? = some "save".toList then rest.tail else rest
     if r.head? = some "rasterize".toList then r.tail else r) = [] ↔
    ∃ save rast : Bool, rest = (if save then ["save".toList] else []) ++ if rast then ["rasterize".toList] else [] := by
  have hsr := save_rasterize
  generalize "save".toList = sv at *
  generalize "rasterize".toList = ra at *
  constructor
  · intro h
    match rest with
    | [] => exact ⟨false, false, rfl⟩
    | [a] =>
      by_cases h1 : a = sv
      · exact ⟨true, false, by simp [h1]⟩
      · by_cases h2 : a = ra
        · exact ⟨false, true, by simp [h2]⟩
        · simp [h1, h2] at h
    | [a, b] =>
      by_cases h1 : a = sv
      · by_cases h2 : b = ra
        · exact ⟨true, true, by simp [h1, h2]⟩
        · simp [h1, h2] at h
      · by_cases h2 : a = ra <;> simp [h1, h2, hsr] at h
    | a :: b :: c :: t =>
      by_cases h1 : a = sv
      · by_cases h2 : b = ra <;> simp [h1, h2] at h
      · by_cases h2 : a = ra <;> simp [h1, h2, hsr] at h
  · rintro ⟨s, r, rfl⟩
    cases s <;> cases r <;> simp [hsr]

theorem words_head {rest : List Text} {save rast : Bool} (h : rest = (if save then ["save".toList] else []) ++ if rast then ["rasterize".toList] else []) :
    (decide (rest.head? = some "save".toList) = save) ∧
    (decide ((if rest.head? = some "save".toList then rest.tail else rest).head? = some "rasterize".toList) = rast) := by
  have hsr := save_rasterize
  subst h
  generalize "save".toList = sv at *
  generalize "rasterize".toList = ra at *
  cases save <;> cases rast <;> simp [hsr]

end City.Docopt

namespace City.Props
open City City.Spec City.Docopt

set_option maxRecDepth 10000

/-- What the program receives, from the pairs that the match collects. -/
theorem as_typed (L o : List (Text × Arg)) (os : List (Text × Option Text)) (s f : Text) (save rast : Bool) (m : Args)
    (hm : ∀ n, m n = lastOf n (L ++ ([("<scene>".toList, Arg.str s), ("--input-format".toList, asArg (some f))] ++ got "--prune" o ++ got "--graphs" o ++ got "--terrain" o ++ said "save" save ++
      got "--scene" o ++ got "--labels" o ++ said "rasterize" rast ++ got "--pixel-size" o)))
    (base : ∀ n ∈ ["save", "rasterize", "--cache", "--prune", "--graphs", "--terrain", "--scene", "--labels"], lastOf n.toList L = some (.bool false))
    (base1 : lastOf "--pixel-size".toList L = some (.str "1".toList))
    (names : ∀ n, n ∈ o.map Prod.fst → n ∈ os.map Prod.fst)
    (flag : ∀ n ∈ ["--prune", "--graphs", "--terrain", "--scene", "--labels"], valueOf n.toList o = if n.toList ∈ os.map Prod.fst then some (.bool true) else none)
    (vals : ∀ n v, (n, v) ∈ os → valueOf n o = some (asArg v)) (hf : ("--input-format".toList, some f) ∈ os) : AsTyped m os s save rast := by
  have val := fun n : String => line_value L (fun n => valueOf n.toList o) o (Arg.str s) (asArg (some f)) save rast (fun _ => rfl) n
  refine ⟨?_, ?_, ?_, ?_, ?_, ⟨f, hf, ?_⟩, ?_, ?_⟩
  · refine ((hm _).trans (val "<scene>")).trans ?_
    simp only [String.reduceEq, if_false, if_true, false_and, Option.none_or, Option.some_or]
  · refine ((hm _).trans (val "save")).trans ?_
    simp only [String.reduceEq, if_false, if_true, false_and, true_and, Option.none_or, base "save" (by simp only [List.mem_cons, true_or, or_true])]
    cases save <;> rfl
  · refine ((hm _).trans (val "rasterize")).trans ?_
    simp only [String.reduceEq, if_false, if_true, false_and, true_and, Option.none_or, base "rasterize" (by simp only [List.mem_cons, true_or, or_true])]
    cases rast <;> rfl
  · refine ((hm _).trans (val "--cache")).trans ?_
    simp only [String.reduceEq, if_false, false_and, Option.none_or, base "--cache" (by simp only [List.mem_cons, true_or, or_true])]
  · intro n hn
    have hb := base n (by simp only [List.mem_cons, List.not_mem_nil, or_false] at hn ⊢; tauto)
    have hg := flag n hn
    refine ((hm _).trans (val n)).trans ?_
    have e : (if n.toList ∈ os.map Prod.fst then some (Arg.bool true) else none).or (some (.bool false)) = some (.bool (decide (n.toList ∈ os.map Prod.fst))) := by
      split <;> rename_i h
      · rw [decide_eq_true h]; rfl
      · rw [decide_eq_false h]; rfl
    rw [← e, ← hg, ← hb]
    clear e hg hb
    generalize lastOf n.toList L = q
    simp only [List.mem_cons, List.not_mem_nil, or_false] at hn
    rcases hn with rfl | rfl | rfl | rfl | rfl <;> simp only [String.reduceEq, if_false, if_true, false_and, Option.none_or, Option.or_none]
  · refine ((hm _).trans (val "--input-format")).trans ?_
    simp only [String.reduceEq, if_false, if_true, false_and, Option.none_or, Option.some_or, asArg]
  · intro v hv
    refine ((hm _).trans (val "--pixel-size")).trans ?_
    simp only [String.reduceEq, if_true, vals _ _ hv, Option.some_or, asArg]
  · intro hv
    have : valueOf "--pixel-size".toList o = none := by
      by_contra k
      exact hv (names _ (valueOf_isSome.1 (Option.isSome_iff_ne_none.2 k)))
    refine ((hm _).trans (val "--pixel-size")).trans ?_
    simp only [String.reduceEq, if_false, if_true, false_and, base1, this, Option.none_or]

/-- C111: every command line that consists of the scene, perhaps `save`, perhaps `rasterize`, an input format and some of the options of the first line of the usage, is accepted, and the program
receives what has been typed. -/
theorem C111_values (argv ws : List Text) (os : List (Text × Option Text)) (s : Text) (save rast : Bool) (h1 : Spells orthoOptions argv ws os) (h2 : OrthoLine ws os s save rast) :
    ∃ m, docopt orthoUsage argv = .args m ∧ AsTyped m os s save rast := by
  rw [← ortho_known] at h1
  obtain ⟨items, p1, p2, p3⟩ := parse_spells ortho_table h1
  have names : (optsOf items).map Prod.fst = os.map Prod.fst := by rw [p3, names_asItems]
  have allowed : ∀ n ∈ (optsOf items).map Prod.fst, n ∈ orthoAllowed := by
    rw [names]
    exact h2.allowed
  have gone : ∀ n, n ∉ orthoAllowed → valueOf n (optsOf items) = none := by
    intro n hn
    by_contra k
    exact hn (allowed n (valueOf_isSome.1 (Option.isSome_iff_ne_none.2 k)))
  have g1 : valueOf "--help".toList (optsOf items) = none := gone _ (by decide +kernel)
  have g2 : valueOf "--version".toList (optsOf items) = none := gone _ (by decide +kernel)
  have g3 : valueOf "-h".toList (optsOf items) = none := gone _ (by decide +kernel)
  have vals : ∀ n v, (n, v) ∈ os → valueOf n (optsOf items) = some (asArg v) := by
    intro n v hv
    apply valueOf_of_mem
    · rw [names]
      exact h2.once
    · rw [p3]
      exact List.mem_map.2 ⟨(n, v), hv, rfl⟩
  -- the kinds of the values
  have kinds : ∀ {argv ws os}, Spells (knownOf orthoOpts) argv ws os → ∀ n v, (n, v) ∈ os → (n, v.isSome) ∈ knownOf orthoOpts := by
    intro argv ws os h
    induction h with
    | done => intro n v h; cases h
    | word _ _ ih => exact ih
    | rest a => intro n v h; cases h
    | switch hm _ ih =>
      intro n v h
      rcases List.mem_cons.1 h with e | e
      · cases e; exact hm.1
      · exact ih n v e
    | equals hm _ ih =>
      intro n v h
      rcases List.mem_cons.1 h with e | e
      · cases e; exact hm.1
      · exact ih n v e
    | next hm _ _ _ ih =>
      intro n v h
      rcases List.mem_cons.1 h with e | e
      · cases e; exact hm.1
      · exact ih n v e
  obtain ⟨rest, hrest, hws⟩ : ∃ rest, rest = ((if save then ["save".toList] else []) ++ if rast then ["rasterize".toList] else []) ∧ argsOf items = s :: rest :=
    ⟨_, rfl, by rw [p2, h2.words]⟩
  obtain ⟨f, hf⟩ : ∃ f, ("--input-format".toList, some f) ∈ os := by
    obtain ⟨⟨n, v⟩, hv, e⟩ := List.mem_map.1 h2.format
    simp only at e
    subst e
    cases v with
    | some f => exact ⟨f, hv⟩
    | none => exact absurd (kinds h1 _ _ hv) (show ("--input-format".toList, false) ∉ knownOf orthoOpts by decide +kernel)
  have hm := ortho_line items
  rw [hws, vals _ _ hf] at hm
  simp only at hm
  have hl := nothing_left (dropOpt "--pixel-size".toList (dropWord "rasterize".toList (dropOpt "--labels".toList (dropOpt "--scene".toList (dropWord "save".toList
      (dropOpt "--terrain".toList (dropOpt "--graphs".toList (dropOpt "--prune".toList (dropOpt "--input-format".toList (dropArg items))))))))))
  rw [ortho_left, ortho_args_left, hws, List.tail_cons, without_all (by decide +kernel)] at hl
  rw [hl.2 ⟨(words_left rest).2 ⟨save, rast, hrest⟩, by rw [names]; exact h2.once, allowed⟩, (words_head hrest).1, (words_head hrest).2] at hm
  have hd : docopt orthoUsage argv = .args fun n => lastOf n (leaves orthoPat ++ ([("<scene>".toList, Arg.str s), ("--input-format".toList, asArg (some f))] ++
      got "--prune" (optsOf items) ++ got "--graphs" (optsOf items) ++ got "--terrain" (optsOf items) ++ said "save" save ++ got "--scene" (optsOf items) ++ got "--labels" (optsOf items) ++
      said "rasterize" rast ++ got "--pixel-size" (optsOf items))) := by
    rw [docopt_ortho, parseWith, p1]
    simp only
    rw [(isSet_iff _ _).2 g1, (isSet_iff _ _).2 g2, (isSet_iff _ _).2 g3]
    simp only [Bool.or_self, Bool.false_eq_true, if_false]
    rw [ortho_match g1 g2, hm]
  have base : ∀ n ∈ ["save", "rasterize", "--cache", "--prune", "--graphs", "--terrain", "--scene", "--labels"], lastOf n.toList (leaves orthoPat) = some (.bool false) := by decide +kernel
  have base1 : lastOf "--pixel-size".toList (leaves orthoPat) = some (.str "1".toList) := by decide +kernel
  generalize leaves orthoPat = L at base base1 hd
  refine ⟨_, hd, ?_⟩
  have flag : ∀ n ∈ ["--prune", "--graphs", "--terrain", "--scene", "--labels"], valueOf n.toList (optsOf items) = if n.toList ∈ os.map Prod.fst then some (.bool true) else none := by
    intro n hn
    split
    · rename_i h
      obtain ⟨⟨k, v⟩, hv, e⟩ := List.mem_map.1 h
      simp only at e
      subst e
      cases v with
      | none => exact vals _ _ hv
      | some v =>
        exfalso
        have no : ∀ n ∈ ["--prune", "--graphs", "--terrain", "--scene", "--labels"], (n.toList, true) ∉ knownOf orthoOpts := by decide +kernel
        exact no n hn (kinds h1 _ _ hv)
    · rename_i h
      rw [← names] at h
      by_contra k
      exact h (valueOf_isSome.1 (Option.isSome_iff_ne_none.2 k))
  exact as_typed L _ os s f save rast _ (fun _ => rfl) base base1 (fun n h => by rwa [← names]) flag vals hf

/-- C111: no other command line is accepted. -/
theorem C111_exact (argv : List Text) : (∃ m, docopt orthoUsage argv = .args m) ↔ ∃ ws os s save rast, Spells orthoOptions argv ws os ∧ OrthoLine ws os s save rast := by
  constructor
  · rintro ⟨m, h⟩
    rw [docopt_ortho, parseWith] at h
    cases hp : parseArgv none argv orthoOpts with
    | none => simp [hp] at h
    | some items =>
      rw [hp] at h
      simp only at h
      split at h
      · cases h
      · rename_i hs
        simp only [Bool.or_eq_true, not_or, Bool.not_eq_true] at hs
        have g1 := (isSet_iff _ _).1 hs.1.2
        have g2 := (isSet_iff _ _).1 hs.2
        rw [ortho_match g1 g2, ortho_line] at h
        cases ha : argsOf items with
        | nil => simp [ha] at h
        | cons s rest =>
          cases hv : valueOf "--input-format".toList (optsOf items) with
          | none =>
            rw [ha, hv] at h
            simp only at h
            cases h
          | some v =>
            rw [ha, hv] at h
            simp only at h
            have hl := nothing_left (dropOpt "--pixel-size".toList (dropWord "rasterize".toList (dropOpt "--labels".toList (dropOpt "--scene".toList (dropWord "save".toList
                (dropOpt "--terrain".toList (dropOpt "--graphs".toList (dropOpt "--prune".toList (dropOpt "--input-format".toList (dropArg items))))))))))
            rw [ortho_left, ortho_args_left, ha, List.tail_cons, without_all (by decide +kernel), words_left] at hl
            split at h
            · rename_i c hc
              obtain ⟨⟨sv, ra, e1⟩, e2, e3⟩ := hl.1 (Prod.mk.inj (Option.some.inj hc)).1
              have e4 : ∀ n ∈ (optsOf items).map Prod.fst, n ∈ orthoOpts.map Opt.long ∧ n ≠ "--help".toList := by
                intro n hn
                have := e3 n hn
                revert n
                have : ∀ n ∈ orthoAllowed, n ∈ orthoOpts.map Opt.long ∧ n ≠ "--help".toList := by decide +kernel
                exact fun n _ k => this n k
              obtain ⟨opts, s1, s2⟩ := spells_parse ortho_table argv items hp e4
              rw [ortho_known, ha] at s1
              have names : (optsOf items).map Prod.fst = opts.map Prod.fst := by rw [s2, names_asItems]
              exact ⟨s :: rest, opts, s, sv, ra, s1, by rw [e1], by rw [← names]; exact e2,
                by rw [← names]; exact valueOf_isSome.1 (by rw [hv]; rfl), by rw [← names]; exact e3⟩
            · cases h
  · rintro ⟨ws, os, s, save, rast, h1, h2⟩
    obtain ⟨m, hm, -⟩ := C111_values argv ws os s save rast h1 h2
    exact ⟨m, hm⟩

/-! ### The program -/

section
variable {N L K : Type} [Field K] [LinearOrder K] [FloorRing K]

/-- C111: a command line of another form leaves all files as they are, and the status is 0 (help, version) or 255. -/
theorem C111_refused (T : Toolbox N L K) (argv : List Text) (fs : Fs) (h : ¬ ∃ ws os s save rast, Spells orthoOptions argv ws os ∧ OrthoLine ws os s save rast) :
    ∃ n, orthoProgram T argv fs = (.ok n, fs) ∧ (n = 0 ∨ n = 255) := by
  rw [← C111_exact] at h
  unfold orthoProgram
  rw [docopt_ortho] at h ⊢
  cases hd : parseWith orthoPat orthoOpts argv with
  | args m => exact absurd ⟨m, hd⟩ h
  | exit n =>
    refine ⟨n, rfl, ?_⟩
    rw [parseWith] at hd
    cases hp : parseArgv none argv orthoOpts with
    | none => rw [hp] at hd; cases hd; exact .inr rfl
    | some items =>
      rw [hp] at hd
      simp only at hd
      split at hd
      · cases hd; exact .inl rfl
      · split at hd
        · cases hd
        · cases hd; exact .inr rfl

/-- C111: what is done is what `main` does with the words and options that have been typed. -/
theorem C111_program (T : Toolbox N L K) (argv ws : List Text) (os : List (Text × Option Text)) (s : Text) (save rast : Bool) (h1 : Spells orthoOptions argv ws os)
    (h2 : OrthoLine ws os s save rast) : ∃ m, AsTyped m os s save rast ∧ ∀ fs, orthoProgram T argv fs = orthoMain T m fs := by
  obtain ⟨m, e, h⟩ := C111_values argv ws os s save rast h1 h2
  exact ⟨m, h, fun fs => congrArg (fun d => afterDocopt (orthoMain T) d fs) e⟩

theorem switch_asked {m : Args} {n : String} {b : Bool} (h1 : Switch m n b) (h2 : Asked m n) : b = true := by
  unfold Switch at h1
  unfold Asked at h2
  rw [h1] at h2
  exact (Arg.bool.inj (Option.some.inj h2))

/-- C111: without the word `save` and without `--graphs`, no file changes, whatever else is asked for (`rasterize` too). -/
theorem C111_idle (T : Toolbox N L K) (argv ws : List Text) (os : List (Text × Option Text)) (s : Text) (rast : Bool) (h1 : Spells orthoOptions argv ws os)
    (h2 : OrthoLine ws os s false rast) (hg : "--graphs".toList ∉ os.map Prod.fst) (fs : Fs) : (orthoProgram T argv fs).2 = fs := by
  obtain ⟨m, h, e⟩ := C111_program T argv ws os s false rast h1 h2
  rw [e]
  have g := h.switches "--graphs" (by simp only [List.mem_cons, true_or, or_true])
  rw [decide_eq_false hg] at g
  funext q
  by_contra hq
  obtain ⟨t, -, ⟨k, -⟩ | ⟨k, -⟩ | ⟨k, -, -⟩ | ⟨p, -, -, k, -⟩⟩ := C67_ortho_confined T m fs q hq
  · exact Bool.false_ne_true (switch_asked g k)
  · exact Bool.false_ne_true (switch_asked h.save k)
  · exact Bool.false_ne_true (switch_asked h.save k)
  · exact Bool.false_ne_true (switch_asked h.save k)

end

/-- The options that the help lists, other than help and version, can be given. -/
def C111_full : Prop := ∀ n takes, (n, takes) ∈ orthoOptions → n ≠ "--help".toList → n ≠ "--version".toList →
  ∃ argv ws os m, Spells orthoOptions argv ws os ∧ n ∈ os.map Prod.fst ∧ docopt orthoUsage argv = .args m

/-- A command line has one reading only. -/
theorem spells_names {argv ws ws' : List Text} {os os' : List (Text × Option Text)} (h : Spells orthoOptions argv ws os) (h' : Spells orthoOptions argv ws' os') :
    ws = ws' ∧ os.map Prod.fst = os'.map Prod.fst := by
  rw [← ortho_known] at h h'
  obtain ⟨i, p1, p2, p3⟩ := parse_spells ortho_table h
  obtain ⟨i', q1, q2, q3⟩ := parse_spells ortho_table h'
  rw [p1] at q1
  cases q1
  rw [← names_asItems, ← names_asItems, ← p3, ← q3]
  exact ⟨p2.symm.trans q2, rfl⟩

/-- C111: `--cache`, which the help lists, cannot be given: every command line with it is refused. -/
theorem C111_cache_refused {argv ws : List Text} {os : List (Text × Option Text)} (h : Spells orthoOptions argv ws os) (hc : "--cache".toList ∈ os.map Prod.fst) (m : Args) :
    docopt orthoUsage argv ≠ .args m := by
  intro e
  obtain ⟨ws', os', s, save, rast, h1, h2⟩ := (C111_exact argv).1 ⟨m, e⟩
  rw [(spells_names h h1).2] at hc
  have : ∀ n ∈ orthoAllowed, n ≠ "--cache".toList := by decide +kernel
  exact this _ (h2.allowed _ hc) rfl

/-- C111, the full statement is false: `--cache`. -/
theorem C111_refuted : ¬ C111_full := by
  intro h
  obtain ⟨argv, ws, os, m, h1, h2, h3⟩ := h "--cache".toList false (by decide +kernel) (by decide +kernel) (by decide +kernel)
  exact C111_cache_refused h1 h2 m h3

section
variable {K : Type} [Field K] [LinearOrder K] [IsStrictOrderedRing K] [FloorRing K]

/-- C111, the part that holds for the pictures: from the command line `<scene> --input-format=OBJ save rasterize --pixel-size=v`, in any order and spelling, perhaps with `--labels`, to the
pictures that C110 describes. Missing: as in C110. -/
theorem C111_pictures_partial {F : Type} {T : Toolbox (Out (UNode K)) F K} {lib : SoupLib K} {emb : V3 ℚ → V3 K} (U : UsesNodes T lib emb) (hlr : T.lr = true)
    {Ok : Pwh K → Prop} {Good : T.C.PSet → Prop} {Gen : V2 K → Prop} (hC : Lawful T.C Ok Good Gen)
    (hrev : ∀ (a : Poly K) p, T.C.side a.reverse p = T.C.side a p) (hbd : ∀ q r, ∀ s ∈ T.C.inter q r, s.outer ≠ []) (hL : SoupLaw lib)
    (argv ws : List Text) (os : List (Text × Option Text)) (fs : Fs) (t x v : Text) (p : K) (hp : 0 < p) (ms : List Mesh)
    (h1 : Spells orthoOptions argv ws os) (h2 : OrthoLine ws os t true true) (hfmt : ("--input-format".toList, some "OBJ".toList) ∈ os)
    (hsize : ("--pixel-size".toList, some v) ∈ os) (hv : T.stod v = .ok p)
    (hno : ∀ n ∈ ["--prune", "--graphs", "--terrain", "--scene"], n.toList ∉ os.map Prod.fst) (hext : NamedLike (splitSlash t) "obj".toList)
    (hfile : fs (splitSlash t) = some (.file x)) (hread : Obj.read T.rnd x = .ok ms)
    (hb : ∀ m ∈ ms, m.name ≠ "terrain".toList → Picturable T.C Ok Gen emb p m) (hn : (ms.map Mesh.name).Nodup) (hpn : ∀ m ∈ ms, PlainName m.name)
    (hr : Ready fs ((splitSlash t).dropLast ++ ["vectors".toList]) (ms.flatMap fun m => [m.name ++ ".shp".toList, m.name ++ ".txt".toList]))
    (hi : Ready fs ((splitSlash t).dropLast ++ ["rasters".toList]) (ms.map fun m => m.name ++ ".tiff".toList)) :
    ∃ fs', orthoProgram T argv fs = (.ok 0, fs') ∧ ∀ m ∈ ms, m.name ≠ "terrain".toList → ∃ r : Raster K, r.name = m.name ∧ r.epsg = 2154 ∧
      ShowsVisible T.C Ok Gen (faceShapes (m.points.map emb) (m.faces.map Face.points)) (emb ⟨0, 0, 0⟩) p r ∧
      fs' ((splitSlash t).dropLast ++ ["rasters".toList, m.name ++ ".tiff".toList]) = some (.file (T.G.tiff r.toGdal)) := by
  obtain ⟨m, h, e⟩ := C111_program T argv ws os t true true h1 h2
  rw [e]
  have off : ∀ n ∈ ["--prune", "--graphs", "--terrain", "--scene"], Switch m n false := by
    intro n hn
    have := h.switches n (by simp only [List.mem_cons, List.not_mem_nil, or_false] at hn ⊢; tauto)
    rwa [decide_eq_false (hno n hn)] at this
  obtain ⟨f, hf, gf⟩ := h.format
  have ef : f = "OBJ".toList := by
    have := List.inj_on_of_nodup_map h2.once hf hfmt rfl
    exact Option.some.inj (Prod.mk.inj this).2
  subst ef
  exact C110_visible_obj_partial U hlr hC hrev hbd hL m fs t x _ p hp ms h.scene gf hext hfile hread (off _ (by simp only [List.mem_cons, true_or]))
    (off _ (by simp only [List.mem_cons, true_or, or_true]))
    ⟨⟨_, h.cache⟩, off _ (by simp only [List.mem_cons, true_or, or_true]), h.save, off _ (by simp only [List.mem_cons, true_or, or_true]),
      h.switches _ (by simp only [List.mem_cons, true_or, or_true]), h.rasterize, v, h.size.1 v hsize, hv⟩ hb hn hpn hr hi

end

/-! ### Examples -/

/-- `orthoproject d/a.obj --in=OBJ save rasterize --pix 1`: names may be shortened. -/
def demoLine : List Text := ["d/a.obj".toList, "--in=OBJ".toList, "save".toList, "rasterize".toList, "--pix".toList, "1".toList]

theorem demo_spells : Spells orthoOptions demoLine ["d/a.obj".toList, "save".toList, "rasterize".toList] [("--input-format".toList, some "OBJ".toList), ("--pixel-size".toList, some "1".toList)] := by
  unfold demoLine
  refine .word (by decide +kernel) ?_
  rw [show "--in=OBJ".toList = "--in".toList ++ '=' :: "OBJ".toList by decide +kernel]
  exact .equals (by unfold Means; decide +kernel) (.word (by decide +kernel) (.word (by decide +kernel) (.next (by unfold Means; decide +kernel) (by decide +kernel) (by decide +kernel) .done)))

theorem demo_line : OrthoLine ["d/a.obj".toList, "save".toList, "rasterize".toList] [("--input-format".toList, some "OBJ".toList), ("--pixel-size".toList, some "1".toList)] "d/a.obj".toList true true :=
  ⟨rfl, by decide +kernel, by decide +kernel, by decide +kernel⟩

/-- C111: the hypotheses are met: the command line above gives the picture of the closed block. -/
example (lib : SoupLib ℚ) (hL : SoupLaw lib) : ∃ fs', orthoProgram (nodeTools lib) demoLine (objFs blockObj) = (.ok 0, fs') ∧ ∃ r : Raster ℚ,
    ShowsVisible rectCgal RectOk RectGen (faceShapes (blockMesh.points.map _root_.id) (blockMesh.faces.map Face.points)) ⟨0, 0, 0⟩ 1 r ∧
    fs' ["d".toList, "rasters".toList, "block.tiff".toList] = some (.file ((nodeTools lib).G.tiff r.toGdal)) := by
  obtain ⟨fs', h1, h2⟩ := C111_pictures_partial (nodeTools_uses lib) rfl (Ok := RectOk) (Good := RectGood) (Gen := RectGen) rect_lawful rect_reverse rect_bounded hL demoLine _ _
    (objFs blockObj) "d/a.obj".toList blockObj "1".toList 1 (by norm_num) [blockMesh] demo_spells demo_line (List.mem_cons_self ..) (List.mem_cons_of_mem _ (List.mem_cons_self ..)) rfl
    (by decide +kernel) objName (by decide +kernel) blockObj_read (by
      intro m hm _
      rw [List.mem_singleton] at hm
      subst hm
      exact block_picturable 1 le_rfl) (by decide) (by unfold PlainName; decide) (objFs_ready _ _) (objFs_images _ _)
  obtain ⟨r, -, -, h3, h4⟩ := h2 blockMesh (by simp) (by decide)
  exact ⟨fs', h1, r, h3, h4⟩

/-- C111: a command line that is refused: two scenes. -/
example (T : Toolbox ℚ ℚ ℚ) (fs : Fs) : (orthoProgram T ["a".toList, "b".toList, "--input-format=OBJ".toList] fs).2 = fs := by
  obtain ⟨n, h, -⟩ := C111_refused T ["a".toList, "b".toList, "--input-format=OBJ".toList] fs (by
    rintro ⟨ws, os, s, save, rast, h1, h2⟩
    have h3 : Spells orthoOptions ["a".toList, "b".toList, "--input-format=OBJ".toList] ["a".toList, "b".toList] [("--input-format".toList, some "OBJ".toList)] := by
      refine .word (by decide +kernel) (.word (by decide +kernel) ?_)
      rw [show "--input-format=OBJ".toList = "--input-format".toList ++ '=' :: "OBJ".toList by decide +kernel]
      exact .equals (by unfold Means; decide +kernel) .done
    have e := (spells_names h1 h3).1
    rw [h2.words] at e
    have e2 := (List.cons.inj e).2
    revert e2
    cases save <;> cases rast <;> decide +kernel)
  rw [h]

end City.Props
