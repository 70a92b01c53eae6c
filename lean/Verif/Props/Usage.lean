import Verif.Props.Console
/-!
C114: what the tools say when there is nothing to run: help, version, and command lines of another form.
-/
set_option linter.unusedSectionVars false
namespace City.Docopt
open City City.Spec

theorem spells_known {known : List (Text × Bool)} {argv ws : List Text} {os : List (Text × Option Text)} (h : Spells known argv ws os) : ∀ n ∈ os.map Prod.fst, n ∈ known.map Prod.fst := by
  induction h with
  | done => exact fun n h => absurd h List.not_mem_nil
  | word _ _ ih => exact ih
  | rest a => exact fun n h => absurd h List.not_mem_nil
  | switch hm _ ih => exact List.forall_mem_cons.2 ⟨List.mem_map.2 ⟨_, hm.1, rfl⟩, ih⟩
  | equals hm _ ih => exact List.forall_mem_cons.2 ⟨List.mem_map.2 ⟨_, hm.1, rfl⟩, ih⟩
  | next hm _ _ _ ih => exact List.forall_mem_cons.2 ⟨List.mem_map.2 ⟨_, hm.1, rfl⟩, ih⟩

theorem isSet_mem (n : Text) (l : List Item) : isSet n l = true ↔ n ∈ (optsOf l).map Prod.fst := by
  rw [← valueOf_isSome, ← Bool.not_eq_false, Option.isSome_iff_ne_none]
  exact not_congr (isSet_iff n l)

/-- The options of a command line are set. -/
theorem set_spells {os : List Opt} (ht : Table os) {argv ws : List Text} {opts : List (Text × Option Text)} (h : Spells (knownOf os) argv ws opts) :
    ∃ items, parseArgv none argv os = some items ∧ ∀ n, isSet n items = decide (n ∈ opts.map Prod.fst) := by
  obtain ⟨items, p1, -, p3⟩ := parse_spells ht h
  refine ⟨items, p1, fun n => ?_⟩
  have := isSet_mem n items
  rw [p3, names_asItems] at this
  rw [Bool.eq_iff_iff, this, decide_eq_true_iff]

variable {doc : Text} {p : Pat} {os : List Opt}

theorem exit_help (hd : createPattern doc = some (p, os)) (ht : Table os) (version : Text) {argv ws : List Text} {opts : List (Text × Option Text)} (h : Spells (knownOf os) argv ws opts)
    (hh : "--help".toList ∈ opts.map Prod.fst) : docopt doc argv = .exit 0 ∧ docoptSays doc version argv = [.out (doc ++ ['\n'])] := by
  obtain ⟨items, p1, p2⟩ := set_spells ht h
  have e := p2 "--help".toList
  rw [decide_eq_true hh] at e
  constructor
  · rw [docopt_of hd, parseWith, p1]
    simp only
    rw [e, Bool.or_true, Bool.true_or, if_pos rfl]
  · unfold docoptSays
    rw [hd]
    simp only
    rw [p1]
    simp only
    rw [e, Bool.or_true, if_pos rfl]

theorem exit_version (hd : createPattern doc = some (p, os)) (ht : Table os) (hs : "-h".toList ∉ (knownOf os).map Prod.fst) (version : Text) {argv ws : List Text}
    {opts : List (Text × Option Text)} (h : Spells (knownOf os) argv ws opts) (hh : "--help".toList ∉ opts.map Prod.fst) (hv : "--version".toList ∈ opts.map Prod.fst) :
    docopt doc argv = .exit 0 ∧ docoptSays doc version argv = [.out (version ++ ['\n'])] := by
  obtain ⟨items, p1, p2⟩ := set_spells ht h
  have e1 := p2 "--help".toList
  rw [decide_eq_false hh] at e1
  have e2 := p2 "-h".toList
  rw [decide_eq_false fun k => hs (spells_known h _ k)] at e2
  have e3 := p2 "--version".toList
  rw [decide_eq_true hv] at e3
  constructor
  · rw [docopt_of hd, parseWith, p1]
    simp only
    rw [e3, Bool.or_true, if_pos rfl]
  · unfold docoptSays
    rw [hd]
    simp only
    rw [p1]
    simp only
    rw [e1, e2, e3, Bool.or_false, if_neg Bool.false_ne_true, if_pos rfl]

/-- A command line that ends with a status other than 0 gets a complaint and the usage. -/
theorem exit_complaint (hd : createPattern doc = some (p, os)) (version : Text) {argv : List Text} {n : Nat} (h : docopt doc argv = .exit n) :
    (n = 0 ∧ (docoptSays doc version argv = [.out (doc ++ ['\n'])] ∨ docoptSays doc version argv = [.out (version ++ ['\n'])])) ∨
    (n = 255 ∧ docoptSays doc version argv = [.complaint, .out ['\n'], .out (doc ++ ['\n'])]) := by
  rw [docopt_of hd, parseWith] at h
  unfold docoptSays
  rw [hd]
  simp only
  cases hp : parseArgv none argv os with
  | none =>
    rw [hp] at h
    cases h
    exact .inr ⟨rfl, rfl⟩
  | some items =>
    rw [hp] at h
    simp only at h ⊢
    cases e1 : isSet "-h".toList items || isSet "--help".toList items with
    | true =>
      rw [e1, Bool.true_or, if_pos rfl] at h
      cases h
      exact .inl ⟨rfl, .inl rfl⟩
    | false =>
      rw [e1, Bool.false_or] at h
      cases e2 : isSet "--version".toList items with
      | true =>
        rw [e2, if_pos rfl] at h
        cases h
        exact .inl ⟨rfl, .inr rfl⟩
      | false =>
        rw [e2, if_neg Bool.false_ne_true] at h
        right
        refine ⟨?_, rfl⟩
        split at h
        · cases h
        · cases h; rfl

/-- Without help and version, the status is not 0. -/
theorem exit_refused (hd : createPattern doc = some (p, os)) (ht : Table os) (hs : "-h".toList ∉ (knownOf os).map Prod.fst) (version : Text) {argv ws : List Text}
    {opts : List (Text × Option Text)} (h : Spells (knownOf os) argv ws opts) (hh : "--help".toList ∉ opts.map Prod.fst) (hv : "--version".toList ∉ opts.map Prod.fst) {n : Nat}
    (he : docopt doc argv = .exit n) : n = 255 ∧ docoptSays doc version argv = [.complaint, .out ['\n'], .out (doc ++ ['\n'])] := by
  obtain ⟨items, p1, p2⟩ := set_spells ht h
  have e1 := p2 "--help".toList
  rw [decide_eq_false hh] at e1
  have e2 := p2 "-h".toList
  rw [decide_eq_false fun k => hs (spells_known h _ k)] at e2
  have e3 := p2 "--version".toList
  rw [decide_eq_false hv] at e3
  constructor
  · rw [docopt_of hd, parseWith, p1] at he
    simp only at he
    rw [e1, e2, e3, Bool.or_false, Bool.or_false, if_neg Bool.false_ne_true] at he
    split at he
    · cases he
    · cases he; rfl
  · unfold docoptSays
    rw [hd]
    simp only
    rw [p1]
    simp only
    rw [e1, e2, e3, Bool.or_false, if_neg Bool.false_ne_true, if_neg Bool.false_ne_true]

end City.Docopt

namespace City.Props
open City City.Spec City.Docopt

section
variable {N L K : Type} [Field K] [LinearOrder K] [FloorRing K]

theorem no_short_ortho : "-h".toList ∉ (knownOf orthoOpts).map Prod.fst := by decide +kernel

theorem no_short_format : "-h".toList ∉ (knownOf formatOpts).map Prod.fst := by decide +kernel

theorem after_exit (doc version : Text) (argv : List Text) (main : Args → Talk Nat) (fs : Fs) {d : Parsed} {n : Nat} (h : d = .exit n) :
    afterSays doc version argv main d fs = (.ok n, fs, docoptSays doc version argv) := by
  subst h
  rfl

/-- C114: `orthoproject --help`, alone or with anything else that can be read as words and options, shows the usage, with status 0, and does nothing else. -/
theorem C114_help (T : Toolbox N L K) (noise : SceneFormat → Bool → Path → Fs → List Text) (version : Text) (argv ws : List Text) (os : List (Text × Option Text)) (fs : Fs)
    (h : Spells orthoOptions argv ws os) (hh : "--help".toList ∈ os.map Prod.fst) : orthoConsole T noise version argv fs = (.ok 0, fs, [.out (orthoUsage ++ ['\n'])]) := by
  rw [← ortho_known] at h
  obtain ⟨h1, h2⟩ := exit_help ortho_pattern ortho_table ("orthoproject ".toList ++ version) h hh
  unfold orthoConsole
  rw [after_exit _ _ _ _ fs h1, h2]

/-- C114: `orthoproject --version` shows the name and the version. -/
theorem C114_version (T : Toolbox N L K) (noise : SceneFormat → Bool → Path → Fs → List Text) (version : Text) (argv ws : List Text) (os : List (Text × Option Text)) (fs : Fs)
    (h : Spells orthoOptions argv ws os) (hh : "--help".toList ∉ os.map Prod.fst) (hv : "--version".toList ∈ os.map Prod.fst) :
    orthoConsole T noise version argv fs = (.ok 0, fs, [.out ("orthoproject ".toList ++ version ++ ['\n'])]) := by
  rw [← ortho_known] at h
  obtain ⟨h1, h2⟩ := exit_version ortho_pattern ortho_table no_short_ortho ("orthoproject ".toList ++ version) h hh hv
  unfold orthoConsole
  rw [after_exit _ _ _ _ fs h1, h2]

/-- C114: a command line that can be read, without help and version, but does not have the form of the usage: status 255, a complaint, and the usage. -/
theorem C114_refused (T : Toolbox N L K) (noise : SceneFormat → Bool → Path → Fs → List Text) (version : Text) (argv ws : List Text) (os : List (Text × Option Text)) (fs : Fs)
    (h : Spells orthoOptions argv ws os) (hh : "--help".toList ∉ os.map Prod.fst) (hv : "--version".toList ∉ os.map Prod.fst)
    (hn : ¬ ∃ ws os s save rast, Spells orthoOptions argv ws os ∧ OrthoLine ws os s save rast) :
    orthoConsole T noise version argv fs = (.ok 255, fs, [.complaint, .out ['\n'], .out (orthoUsage ++ ['\n'])]) := by
  rw [← C111_exact] at hn
  cases hd : docopt orthoUsage argv with
  | args m => exact absurd ⟨m, hd⟩ hn
  | exit n =>
    rw [← ortho_known] at h
    obtain ⟨h1, h2⟩ := exit_refused ortho_pattern ortho_table no_short_ortho ("orthoproject ".toList ++ version) h hh hv hd
    subst h1
    unfold orthoConsole
    rw [after_exit _ _ _ _ fs hd, h2]

/-- C114: every command line of another form, whether it can be read or not: the status is 0 with the usage or the version alone, or 255 with a complaint and the usage. -/
theorem C114_other (T : Toolbox N L K) (noise : SceneFormat → Bool → Path → Fs → List Text) (version : Text) (argv : List Text) (fs : Fs)
    (hn : ¬ ∃ ws os s save rast, Spells orthoOptions argv ws os ∧ OrthoLine ws os s save rast) :
    orthoConsole T noise version argv fs = (.ok 0, fs, [.out (orthoUsage ++ ['\n'])]) ∨
    orthoConsole T noise version argv fs = (.ok 0, fs, [.out ("orthoproject ".toList ++ version ++ ['\n'])]) ∨
    orthoConsole T noise version argv fs = (.ok 255, fs, [.complaint, .out ['\n'], .out (orthoUsage ++ ['\n'])]) := by
  rw [← C111_exact] at hn
  cases hd : docopt orthoUsage argv with
  | args m => exact absurd ⟨m, hd⟩ hn
  | exit n =>
    unfold orthoConsole
    rw [after_exit _ _ _ _ fs hd]
    rcases exit_complaint ortho_pattern ("orthoproject ".toList ++ version) hd with ⟨rfl, h | h⟩ | ⟨rfl, h⟩
    · rw [h]; exact .inl rfl
    · rw [h]; exact .inr (.inl rfl)
    · rw [h]; exact .inr (.inr rfl)

/-- C114: `cityformat --help`. -/
theorem C114_format_help (T : Toolbox N L K) (noise : SceneFormat → Bool → Path → Fs → List Text) (version : Text) (argv ws : List Text) (os : List (Text × Option Text)) (fs : Fs)
    (h : Spells formatOptions argv ws os) (hh : "--help".toList ∈ os.map Prod.fst) : formatConsole T noise version argv fs = (.ok 0, fs, [.out (formatUsage ++ ['\n'])]) := by
  rw [← format_known] at h
  obtain ⟨h1, h2⟩ := exit_help format_pattern format_table ("orthoproject ".toList ++ version) h hh
  unfold formatConsole
  rw [after_exit _ _ _ _ fs h1, h2]

/-- C114, the part of the statement on versions that holds for cityformat: the version is shown. Missing: it is shown with the name of the other program. -/
theorem C114_format_version_partial (T : Toolbox N L K) (noise : SceneFormat → Bool → Path → Fs → List Text) (version : Text) (argv ws : List Text) (os : List (Text × Option Text)) (fs : Fs)
    (h : Spells formatOptions argv ws os) (hh : "--help".toList ∉ os.map Prod.fst) (hv : "--version".toList ∈ os.map Prod.fst) :
    formatConsole T noise version argv fs = (.ok 0, fs, [.out ("orthoproject ".toList ++ version ++ ['\n'])]) := by
  rw [← format_known] at h
  obtain ⟨h1, h2⟩ := exit_version format_pattern format_table no_short_format ("orthoproject ".toList ++ version) h hh hv
  unfold formatConsole
  rw [after_exit _ _ _ _ fs h1, h2]

/-- C114: every command line of another form, for cityformat. -/
theorem C114_format_other (T : Toolbox N L K) (noise : SceneFormat → Bool → Path → Fs → List Text) (version : Text) (argv : List Text) (fs : Fs)
    (hn : ¬ ((∃ ws os s path, Spells formatOptions argv ws os ∧ FormatLine ws os s path) ∨ Spells formatOptions argv [] [("--formats".toList, none)])) :
    formatConsole T noise version argv fs = (.ok 0, fs, [.out (formatUsage ++ ['\n'])]) ∨
    formatConsole T noise version argv fs = (.ok 0, fs, [.out ("orthoproject ".toList ++ version ++ ['\n'])]) ∨
    formatConsole T noise version argv fs = (.ok 255, fs, [.complaint, .out ['\n'], .out (formatUsage ++ ['\n'])]) := by
  rw [← C111_format_exact] at hn
  cases hd : docopt formatUsage argv with
  | args m => exact absurd ⟨m, hd⟩ hn
  | exit n =>
    unfold formatConsole
    rw [after_exit _ _ _ _ fs hd]
    rcases exit_complaint format_pattern ("orthoproject ".toList ++ version) hd with ⟨rfl, h | h⟩ | ⟨rfl, h⟩
    · rw [h]; exact .inl rfl
    · rw [h]; exact .inr (.inl rfl)
    · rw [h]; exact .inr (.inr rfl)

end

/-- Each tool tells its own name and its version. -/
def C114_full : Prop := ∀ (N L : Type) (T : Toolbox N L ℚ) (noise : SceneFormat → Bool → Path → Fs → List Text) (version : Text) (fs : Fs),
  (orthoConsole T noise version ["--version".toList] fs).2.2 = [.out ("orthoproject ".toList ++ version ++ ['\n'])] ∧
  (formatConsole T noise version ["--version".toList] fs).2.2 = [.out ("cityformat ".toList ++ version ++ ['\n'])]

theorem version_spells : Spells formatOptions ["--version".toList] [] [("--version".toList, none)] := .switch (by unfold Means; decide +kernel) .done

/-- C114, the full statement is false: cityformat says that it is orthoproject. -/
theorem C114_refuted : ¬ C114_full := by
  intro h
  have := (h Mesh Unit toyTools (fun _ _ _ _ => []) [] toyFs).2
  rw [C114_format_version_partial toyTools (fun _ _ _ _ => []) [] _ _ _ toyFs version_spells (by decide +kernel) (by decide +kernel)] at this
  revert this
  decide

/-! ### Examples -/

/-- C114: help is shown also for a command line that could be run, and for a shortened name. -/
example : Spells orthoOptions ["d/a.obj".toList, "--in=OBJ".toList, "--he".toList] ["d/a.obj".toList] [("--input-format".toList, some "OBJ".toList), ("--help".toList, none)] := by
  refine .word (by decide +kernel) ?_
  rw [show "--in=OBJ".toList = "--in".toList ++ '=' :: "OBJ".toList by decide +kernel]
  exact .equals (by unfold Means; decide +kernel) (.switch (by unfold Means; decide +kernel) .done)

/-- C114: a command line without the format of the file is refused. -/
example (fs : Fs) : orthoConsole toyTools (fun _ _ _ _ => []) [] ["d/a.obj".toList, "save".toList] fs = (.ok 255, fs, [.complaint, .out ['\n'], .out (orthoUsage ++ ['\n'])]) := by
  have hs : Spells orthoOptions ["d/a.obj".toList, "save".toList] ["d/a.obj".toList, "save".toList] [] := .word (by decide +kernel) (.word (by decide +kernel) .done)
  refine C114_refused toyTools _ [] _ _ _ fs hs (by decide +kernel) (by decide +kernel) ?_
  rintro ⟨ws, os, s, save, rast, h1, h2⟩
  have := h2.format
  rw [← (spells_names hs h1).2] at this
  exact absurd this List.not_mem_nil

end City.Props
