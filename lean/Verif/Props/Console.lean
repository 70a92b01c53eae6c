import Verif.Model.Console
import Verif.Props.CommandFormat
/-!
C113: what the tools say on the terminal: the settings, a message when each step begins and when it is done, and the message of the exception that ends the run.
C114: help, version and command lines that are refused.
-/
set_option linter.unusedSectionVars false
namespace City.Spec
open City City.Props

/-- A step of a program: what is said when it begins and when it is done. -/
structure Stage where
  begins : List Said
  ends : List Said

/-- A step with a message for its beginning and one for its end. -/
def stage (b e : String) : Stage := ⟨[.out b.toList], [.out e.toList]⟩

/-- What is said by steps that are done. -/
def shown (st : List Stage) : List Said := st.flatMap fun s => s.begins ++ s.ends

/-- The steps of orthoproject: the arguments; reading the scene, after the settings are shown; then what is asked for. -/
def orthoStages (settings : Text) (chat : List Said) (graphs save scene pixels : Bool) : List Stage :=
  [stage "Parsing arguments... " "Done.\n", ⟨.out settings :: chat, []⟩] ++
  (if graphs then [stage "Saving brick duals... " " Done.\n"] else []) ++
  (if save then
    [stage "Projecting... " "Done.\n", stage "Saving vector projections... " "Done.\n"] ++
    (if scene then [stage "Summing , rasterizing and saving scene projections... " "Done.\n"] else []) ++
    (if pixels then [stage "rasterizing projections... " "Done.\n", stage "Saving raster projections... " "Done.\n"] else [])
   else [])

/-- The steps of cityformat: the last one, writing the scene, says nothing. -/
def formatStages (settings : Text) (chat : List Said) (graphs : Bool) : List Stage :=
  [stage "Parsing arguments... " "Done.\n", ⟨.out settings :: chat, []⟩] ++ (if graphs then [stage "Saving brick duals... " " Done.\n"] else []) ++ [⟨[], []⟩]

/-- The status, the files and the terminal after a run with the steps `st`, in terms of how the run ends: all steps are shown as done, or those before one that has begun, and the message of the exception. -/
def Reports (st : List Stage) (run : Out Unit × Fs) (c : Out Nat × Fs × List Said) : Prop :=
  match run with
  | (.ok _, fs') => c = (.ok 0, fs', shown st)
  | (.thrown e, fs') => ∃ (k : Nat) (s : Stage), st[k]? = some s ∧ c = (.ok 0, fs', shown (st.take k) ++ s.begins ++ [.err e])
  | (.ub, _) => c.1 = .ub

/-- The messages on the standard error stream. -/
def errors (l : List Said) : List Said := l.filter fun s =>
  match s with
  | .out _ => false
  | _ => true

/-- The lines of a text. -/
def linesOf (l : List Text) : Text := l.flatMap fun t => t ++ ['\n']

/-- `true` or `false`. -/
def yesNo (b : Bool) : Text := if b then ['t', 'r', 'u', 'e'] else ['f', 'a', 'l', 's', 'e']

/-- The settings that orthoproject shows. -/
def orthoSettings (scene format : Text) (prune cache terrain graphs save sum labels raster : Bool) (size : Text) : Text :=
  linesOf ["Arguments:".toList, "  Input path: ".toList ++ quotedPath scene, "  Input format: ".toList ++ format, "  Pruning faces: ".toList ++ yesNo prune,
    "  Caching buildings: ".toList ++ yesNo cache, "  Taking care of terrain: ".toList ++ yesNo terrain, "  Saving dual graphs: ".toList ++ yesNo graphs,
    "  Saving: ".toList ++ yesNo save, "     Saving projections: ".toList ++ yesNo save, "     Summing over whole scene: ".toList ++ yesNo sum,
    "     Saving projection error fields: ".toList ++ yesNo labels, "  Rasterizing: ".toList ++ yesNo raster, "     Pixel size: ".toList ++ size, []]

/-- The settings that cityformat shows. -/
def formatSettings (scene format : Text) (prune terrain graphs : Bool) (out outFormat : Text) : Text :=
  linesOf ["Arguments:".toList, "  Input path: ".toList ++ quotedPath scene, "  Input format: ".toList ++ format, "  Pruning faces: ".toList ++ yesNo prune,
    "  Taking care of terrain: ".toList ++ yesNo terrain, "  Saving dual graphs: ".toList ++ yesNo graphs, "  Output path: ".toList ++ quotedPath out,
    "  Output format: ".toList ++ outFormat, []]

/-- An option has been typed. -/
def typed (os : List (Text × Option Text)) (n : String) : Bool := decide (n.toList ∈ os.map Prod.fst)

end City.Spec

namespace City.Props
open City City.Spec

section
variable {A B : Type}

theorem shown_append (a b : List Stage) : shown (a ++ b) = shown a ++ shown b := by
  unfold shown
  rw [List.flatMap_append]

/-- What a program that speaks has said, step by step. -/
def Tells (st : List Stage) (r : Out A × Fs × List Said) : Prop :=
  match r with
  | (.ok _, _, l) => l = shown st
  | (.thrown _, _, l) => ∃ (k : Nat) (s : Stage), st[k]? = some s ∧ l = shown (st.take k) ++ s.begins
  | (.ub, _, _) => True

/-- What a program that speaks says, for these files. -/
def TellsAt (st : List Stage) (x : Talk A) (fs : Fs) : Prop := Tells st (x fs)

/-- A program that never speaks. -/
def Mute (x : Talk A) : Prop := ∀ fs, (x fs).2.2 = []

theorem mute_quiet (x : Act A) : Mute (Talk.quiet x) := fun _ => rfl

theorem mute_bind {x : Talk A} {k : A → Talk B} (hx : Mute x) (hk : ∀ a, Mute (k a)) : Mute (Talk.bind x k) := by
  intro fs
  have h := hx fs
  unfold Talk.bind
  rcases e : x fs with ⟨_ | _ | _, fs', l⟩ <;> rw [e] at h
  · dsimp only at h ⊢
    rw [h, hk]
    rfl
  · exact h
  · exact h

theorem tells_announced (b e : String) (x : Act A) (fs : Fs) : TellsAt [stage b e] (Talk.announced b x e) fs := by
  unfold TellsAt Talk.announced
  rcases x fs with ⟨_ | _ | _, fs'⟩
  · rfl
  · exact ⟨0, _, rfl, rfl⟩
  · trivial

theorem tells_say (t : Text) (fs : Fs) : TellsAt [⟨[.out t], []⟩] (Talk.say t) fs := rfl

theorem tells_skip (fs : Fs) : TellsAt [] (Talk.quiet Act.skip) fs := rfl

theorem tells_silent {x : Talk A} (fs : Fs) (h : Mute x) : TellsAt [⟨[], []⟩] x fs := by
  have hs := h fs
  unfold TellsAt
  rcases e : x fs with ⟨a | ex | _, fs', l⟩ <;> rw [e] at hs
  · exact hs
  · exact ⟨0, _, rfl, hs⟩
  · trivial

theorem tells_bind {st st' : List Stage} {x : Talk A} {k : A → Talk B} {fs : Fs} (hx : TellsAt st x fs)
    (hk : ∀ a fs' l, x fs = (.ok a, fs', l) → TellsAt st' (k a) fs') : TellsAt (st ++ st') (Talk.bind x k) fs := by
  unfold TellsAt at hx ⊢
  unfold Talk.bind
  rcases e : x fs with ⟨a | ex | _, fs', l⟩ <;> rw [e] at hx
  · have h1 : l = shown st := hx
    have h2 := hk a fs' l e
    unfold TellsAt at h2
    show Tells (st ++ st') ((k a fs').1, (k a fs').2.1, l ++ (k a fs').2.2)
    rcases e2 : k a fs' with ⟨b | ex | _, fs2, l2⟩ <;> rw [e2] at h2
    · show l ++ l2 = _
      rw [shown_append, h1, show l2 = shown st' from h2]
    · obtain ⟨i, s, hi, hl⟩ := h2
      refine ⟨st.length + i, s, ?_, ?_⟩
      · rw [List.getElem?_append_right (by omega)]
        simpa using hi
      · show l ++ l2 = _
        rw [List.take_length_add_append, shown_append, h1, hl, List.append_assoc]
    · trivial
  · obtain ⟨i, s, hi, hl⟩ := hx
    have hlt : i < st.length := (List.getElem?_eq_some_iff.1 hi).1
    refine ⟨i, s, ?_, ?_⟩
    · rw [List.getElem?_append_left hlt, hi]
    · rw [List.take_append_of_le_length (by omega), hl]
  · trivial

/-- Statements that say nothing, after others. -/
theorem tells_mute {b : List Said} {x : Talk A} {k : A → Talk B} {fs : Fs} (hx : (x fs).2.2 = b) (hk : ∀ a, Mute (k a)) : TellsAt [⟨b, []⟩] (Talk.bind x k) fs := by
  have key : ((Talk.bind x k) fs).2.2 = b := by
    unfold Talk.bind
    rcases e : x fs with ⟨a | ex | _, fs', l⟩ <;> rw [e] at hx
    · show l ++ (k a fs').2.2 = b
      rw [hk, show l = b from hx, List.append_nil]
    · exact hx
    · exact hx
  unfold TellsAt
  rcases e : Talk.bind x k fs with ⟨a | ex | _, fs', l⟩ <;> rw [e] at key
  · show l = _
    rw [show l = b from key]
    simp [shown]
  · refine ⟨0, _, rfl, ?_⟩
    rw [show l = b from key]
    rfl
  · trivial

theorem talk_assoc {D : Type} (x : Talk A) (f : A → Talk B) (g : B → Talk D) : Talk.bind (Talk.bind x f) g = Talk.bind x fun a => Talk.bind (f a) g := by
  funext fs
  unfold Talk.bind
  rcases x fs with ⟨a | e | _, fs', l⟩
  · dsimp only
    rcases f a fs' with ⟨b | e | _, fs2, l2⟩
    · dsimp only
      rw [List.append_assoc]
    · rfl
    · rfl
  · rfl
  · rfl

/-! ### Without the messages -/

/-- Leaving out what is said. -/
def silence (x : Talk A) : Act A := fun fs => ((x fs).1, (x fs).2.1)

theorem silence_bind (x : Talk A) (k : A → Talk B) : silence (Talk.bind x k) = Act.bind (silence x) fun a => silence (k a) := by
  funext fs
  unfold silence Talk.bind Act.bind
  dsimp only
  rcases x fs with ⟨a | e | _, fs', l⟩ <;> rfl

theorem silence_quiet (x : Act A) : silence (Talk.quiet x) = x := rfl

theorem silence_say (t : Text) : silence (Talk.say t) = Act.skip := rfl

theorem silence_announced (b e : String) (x : Act A) : silence (Talk.announced b x e) = x := by
  funext fs
  unfold silence Talk.announced
  rcases x fs with ⟨a | e | _, fs'⟩ <;> rfl

theorem skip_bind (k : Unit → Act B) : Act.bind Act.skip k = k () := rfl

end

section
variable {N L K : Type} [Field K] [LinearOrder K] [FloorRing K]

theorem silence_read (T : Toolbox N L K) (noise : SceneFormat → Bool → Path → Fs → List Text) (path : Path) (format : Text) :
    silence (readTalk T noise path format) = Act.reads fun fs => (do
      let f ← sceneHandlerNamed path format
      sceneRead T.ops T.lib T.rnd T.lf f readMode path (T.listing fs path) fs) := by
  funext fs
  unfold silence readTalk Act.reads
  cases sceneHandlerNamed path format <;> rfl

theorem silence_input (T : Toolbox N L K) (noise : SceneFormat → Bool → Path → Fs → List Text) (path : Path) (format : Text) (prune terrain graphs : Bool) :
    silence (inputTalk T noise path format prune terrain graphs) = inputScene T path format prune terrain graphs := by
  unfold inputTalk inputScene
  rw [silence_bind, silence_read]
  congr 1
  funext s
  rw [silence_bind, silence_quiet]
  congr 1
  funext s
  rw [silence_bind, silence_quiet]
  congr 1
  cases graphs
  · rfl
  · exact silence_announced _ _ _

theorem silence_ortho (T : Toolbox N L K) (noise : SceneFormat → Bool → Path → Fs → List Text) (args : Args) : silence (orthoTalk T noise args) = orthoRun T args := by
  unfold orthoTalk orthoRun
  rw [silence_bind, silence_announced]
  congr 1
  funext a
  rw [silence_bind, silence_say, skip_bind, silence_bind, silence_input]
  congr 1
  funext s
  cases a.save
  · rfl
  simp only [if_true]
  rw [silence_bind, silence_announced]
  congr 1
  funext ps
  rw [silence_bind, silence_announced]
  congr 1
  funext _
  rw [silence_bind]
  congr 1
  · cases a.scene
    · rfl
    · exact silence_announced _ _ _
  · funext _
    by_cases h : a.pixel ≠ 0
    · rw [if_pos h, if_pos h, silence_bind, silence_announced]
      congr 1
      funext rs
      exact silence_announced _ _ _
    · rw [if_neg h, if_neg h]
      rfl

theorem silence_format (T : Toolbox N L K) (noise : SceneFormat → Bool → Path → Fs → List Text) (args : Args) : silence (formatTalk T noise args) = formatRun T args := by
  have first : ∀ k : FormatArgs → Act Unit, Act.bind (Act.reads fun _ => args.asBool "--formats") (fun _ => Act.bind (Act.reads fun _ => formatArgs args) k) =
      Act.bind (Act.reads fun _ => formatArgs args) k := by
    intro k
    funext fs
    unfold formatArgs
    cases args.asBool "--formats" <;> rfl
  unfold formatTalk formatRun
  rw [silence_bind, silence_quiet]
  simp only [silence_bind _ _, silence_announced, silence_say, skip_bind, silence_quiet]
  rw [first]
  congr 1
  funext a
  cases a.formats
  · simp only [Bool.false_eq_true, if_false]
    rw [silence_bind, silence_input]
    congr 1
    funext s
    rw [silence_bind]
    rfl
  · rfl

theorem silence_main (x : Talk Unit) : silence (mainTalk x) = mainOf (silence x) := by
  funext fs
  unfold silence mainTalk mainOf
  dsimp only
  rcases x fs with ⟨a | e | _, fs', l⟩ <;> rfl

/-- C113: the messages change nothing: with them, the programs have the same status and leave the same files as in the model of the other properties. -/
theorem C113_same (T : Toolbox N L K) (noise : SceneFormat → Bool → Path → Fs → List Text) (version : Text) (argv : List Text) (fs : Fs) :
    ((orthoConsole T noise version argv fs).1, (orthoConsole T noise version argv fs).2.1) = orthoProgram T argv fs ∧
    ((formatConsole T noise version argv fs).1, (formatConsole T noise version argv fs).2.1) = formatProgram T argv fs := by
  have key : ∀ (doc : Text) (m : Args → Talk Nat) (m' : Args → Act Nat), (∀ a, silence (m a) = m' a) → ∀ d : Docopt.Parsed,
      silence (afterSays doc ("orthoproject ".toList ++ version) argv m d) fs = afterDocopt m' d fs := by
    intro doc m m' h d
    cases d with
    | args a => exact congrFun (h a) fs
    | exit n => rfl
  constructor
  · unfold orthoConsole orthoProgram
    generalize Docopt.docopt orthoUsage argv = d
    exact key orthoUsage (fun a => mainTalk (orthoTalk T noise a)) (orthoMain T) (fun a => by rw [silence_main, silence_ortho, orthoMain]) d
  · unfold formatConsole formatProgram
    generalize Docopt.docopt formatUsage argv = d
    exact key formatUsage (fun a => mainTalk (formatTalk T noise a)) (formatMain T) (fun a => by rw [silence_main, silence_format, formatMain]) d

/-! ### The steps -/

/-- What is said while the scene is read. -/
def chatOf (T : Toolbox N L K) (noise : SceneFormat → Bool → Path → Fs → List Text) (path : Path) (format : Text) (fs : Fs) : List Said := (readTalk T noise path format fs).2.2

theorem tells_read (T : Toolbox N L K) (noise : SceneFormat → Bool → Path → Fs → List Text) (t : Text) (path : Path) (format : Text) (prune terrain : Bool) (fs : Fs) :
    TellsAt [⟨.out t :: chatOf T noise path format fs, []⟩] (Talk.bind (Talk.bind (Talk.say t) fun _ => readTalk T noise path format) fun s =>
      Talk.quiet (Act.reads fun _ => if prune then scenePrune T.prune terrain s else .ok s)) fs := by
  exact tells_mute (b := .out t :: chatOf T noise path format fs) rfl fun _ => mute_quiet _

theorem tells_duals (graphs : Bool) (x : Act Unit) (fs : Fs) :
    TellsAt (if graphs then [stage "Saving brick duals... " " Done.\n"] else []) (if graphs then Talk.announced "Saving brick duals... " x " Done.\n" else Talk.quiet Act.skip) fs := by
  cases graphs
  · exact tells_skip fs
  · exact tells_announced _ _ _ fs

theorem tells_input {B : Type} (T : Toolbox N L K) (noise : SceneFormat → Bool → Path → Fs → List Text) (t : Text) (path : Path) (format : Text) (prune terrain graphs : Bool) (fs : Fs)
    (k : Scene N → Talk B) (st : List Stage) (hk : ∀ s fs', TellsAt st (k s) fs') :
    TellsAt ([⟨.out t :: chatOf T noise path format fs, []⟩] ++ ((if graphs then [stage "Saving brick duals... " " Done.\n"] else []) ++ st))
      (Talk.bind (Talk.say t) fun _ => Talk.bind (inputTalk T noise path format prune terrain graphs) k) fs := by
  have e : (Talk.bind (Talk.say t) fun _ => Talk.bind (inputTalk T noise path format prune terrain graphs) k) =
      Talk.bind (Talk.bind (Talk.bind (Talk.say t) fun _ => readTalk T noise path format) fun s => Talk.quiet (Act.reads fun _ => if prune then scenePrune T.prune terrain s else .ok s)) fun s =>
        Talk.bind (if graphs then Talk.announced "Saving brick duals... " (saveBuildingDuals path.dropLast (s.buildings.map T.dual)) " Done.\n" else Talk.quiet Act.skip) fun _ =>
          Talk.bind (Talk.quiet (Act.reads fun _ => .ok s)) k := by
    unfold inputTalk
    simp only [talk_assoc]
  rw [e]
  refine tells_bind (tells_read T noise t path format prune terrain fs) fun s fs' _ _ => ?_
  refine tells_bind (tells_duals graphs _ fs') fun _ fs2 _ _ => ?_
  exact tells_bind (st := []) rfl fun s' fs3 _ _ => hk s' fs3

theorem tells_ortho (T : Toolbox N L K) (noise : SceneFormat → Bool → Path → Fs → List Text) (args : Args) (fs : Fs) (a : OrthoArgs K) (ha : orthoArgs T args = .ok a) :
    TellsAt (orthoStages (orthoHeader T.G (rawText args "<scene>") a) (chatOf T noise a.path a.format fs) a.graphs a.save a.scene (decide (a.pixel ≠ 0))) (orthoTalk T noise args) fs := by
  unfold orthoStages orthoTalk
  rw [List.append_assoc]
  refine tells_bind (st := [stage "Parsing arguments... " "Done.\n"]) (tells_announced _ _ _ fs) fun a' fs' l h => ?_
  have e : a' = a ∧ fs' = fs := by
    unfold Talk.announced Act.reads at h
    dsimp only at h
    rw [ha] at h
    cases h
    exact ⟨rfl, rfl⟩
  obtain ⟨rfl, rfl⟩ := e
  refine tells_input T noise _ _ _ _ _ _ _ _ _ fun s fs2 => ?_
  cases a'.save
  · exact tells_skip fs2
  simp only [if_true]
  rw [List.append_assoc]
  refine tells_bind (st := [stage "Projecting... " "Done.\n"]) (tells_announced _ _ _ fs2) fun ps fs3 _ _ => ?_
  refine tells_bind (st := [stage "Saving vector projections... " "Done.\n"]) (tells_announced _ _ _ fs3) fun _ fs4 _ _ => ?_
  refine tells_bind ?_ fun _ fs5 _ _ => ?_
  · cases a'.scene
    · exact tells_skip fs4
    · exact tells_announced _ _ _ fs4
  · by_cases h : a'.pixel ≠ 0
    · rw [if_pos h, if_pos (by simpa using h)]
      exact tells_bind (st := [stage "rasterizing projections... " "Done.\n"]) (tells_announced _ _ _ fs5) fun _ fs6 _ _ => tells_announced _ _ _ fs6
    · rw [if_neg h, if_neg (by simpa using h)]
      exact tells_skip fs5

theorem reports_of {st : List Stage} {x : Talk Unit} {fs : Fs} (h : TellsAt st x fs) : Reports st (silence x fs) (mainTalk x fs) := by
  unfold TellsAt at h
  unfold silence mainTalk
  rcases e : x fs with ⟨a | ex | _, fs', l⟩ <;> rw [e] at h
  · show _ = (_, _, _)
    rw [show l = shown st from h]
  · obtain ⟨k, s, hk, hl⟩ := h
    exact ⟨k, s, hk, by rw [hl]⟩
  · rfl

/-- Nothing is said while OFF and OBJ files are read. -/
theorem chat_quiet (T : Toolbox N L K) (noise : SceneFormat → Bool → Path → Fs → List Text) (path : Path) (format : Text) (fs : Fs) (h : format = "OFF".toList ∨ format = "OBJ".toList) :
    chatOf T noise path format fs = [] := by
  unfold chatOf readTalk
  have key : ∀ f, sceneHandlerNamed path format = .ok f → f = .off ∨ f = .obj := by
    intro f hf
    rcases h with h | h <;> subst h <;> unfold sceneHandlerNamed at hf <;> obtain ⟨g, h1, h2⟩ := Out.bind_eq_ok.1 hf
    · rw [show sceneFormat "OFF".toList = .ok .off by decide +kernel] at h1
      cases h1
      cases h2
      exact .inl rfl
    · rw [show sceneFormat "OBJ".toList = .ok .obj by decide +kernel] at h1
      cases h1
      obtain ⟨_, _, h2⟩ := Out.bind_eq_ok.1 h2
      cases h2
      exact .inr rfl
  cases hf : sceneHandlerNamed path format with
  | ok f => rcases key f hf with rfl | rfl <;> rfl
  | thrown e => rfl
  | ub => rfl


theorem alpha_yes (b : Bool) : alphaText b = yesNo b := by cases b <;> rfl

/-- The settings are shown as the specification says. -/
theorem ortho_settings (G : Gdal K) (raw : Text) (a : OrthoArgs K) :
    orthoHeader G raw a = orthoSettings raw a.format a.prune a.cache a.terrain a.graphs a.save a.scene a.labels (decide (a.pixel ≠ 0)) (G.num a.pixel) := by
  unfold orthoHeader orthoSettings linesOf fieldLine
  rw [show "Arguments:\n".toList = "Arguments:".toList ++ ['\n'] by decide]
  simp only [alpha_yes, List.flatMap_cons, List.flatMap_nil, List.append_assoc, List.nil_append, List.append_nil]

theorem format_settings (raw rawOut : Text) (a : FormatArgs) (h : a.formats = false) :
    formatHeader raw rawOut a = formatSettings raw a.format a.prune a.terrain a.graphs rawOut a.outFormat := by
  unfold formatHeader formatSettings linesOf fieldLine
  rw [h, show "Arguments:\n".toList = "Arguments:".toList ++ ['\n'] by decide]
  simp only [Bool.false_eq_true, if_false, alpha_yes, List.flatMap_cons, List.flatMap_nil, List.append_assoc, List.nil_append, List.append_nil]

/-- C113: a path without double quotes and without `&` is shown as it is, in double quotes; different paths are shown differently. -/
theorem C113_quoted (t u : Text) : (('"' ∉ t ∧ '&' ∉ t) → quotedPath t = '"' :: t ++ ['"']) ∧ (quotedPath t = quotedPath u → t = u) := by
  constructor
  · rintro ⟨h1, h2⟩
    unfold quotedPath
    congr 2
    induction t with
    | nil => rfl
    | cons c t ih =>
      rw [List.flatMap_cons, ih (fun h => h1 (List.mem_cons_of_mem _ h)) (fun h => h2 (List.mem_cons_of_mem _ h)), if_neg]
      · rfl
      · rintro (rfl | rfl)
        · exact h1 (List.mem_cons_self ..)
        · exact h2 (List.mem_cons_self ..)
  · intro h
    unfold quotedPath at h
    have h' := List.append_cancel_right (List.cons.inj h).2
    clear h
    induction t generalizing u with
    | nil =>
      cases u with
      | nil => rfl
      | cons d u =>
        rw [List.flatMap_nil, List.flatMap_cons] at h'
        split at h' <;> cases h'
    | cons c t ih =>
      cases u with
      | nil =>
        rw [List.flatMap_nil, List.flatMap_cons] at h'
        split at h' <;> cases h'
      | cons d u =>
        rw [List.flatMap_cons, List.flatMap_cons] at h'
        split at h' <;> split at h'
        · have := (List.cons.inj (List.cons.inj h').2)
          rw [this.1, ih u this.2]
        · rename_i h1 h2
          exact absurd (.inr (List.cons.inj h').1.symm) h2
        · rename_i h1 h2
          exact absurd (.inr (List.cons.inj h').1) h1
        · have := (List.cons.inj h')
          rw [this.1, ih u this.2]

/-- C113: the terminal of orthoproject. Whatever the arguments and the files are, once the arguments are accepted: the settings are shown, every step says when it begins and when it is done, in the order of the
specification and only if it is asked for; a run that ends well shows every step as done; an exception leaves the step in which it happened without its end, its message is the last thing said, and
the status is 0 all the same. Reading OFF and OBJ files says nothing else (`chat`). -/
theorem C113_progress (T : Toolbox N L K) (noise : SceneFormat → Bool → Path → Fs → List Text) (args : Args) (fs : Fs) (a : OrthoArgs K) (ha : orthoArgs T args = .ok a) :
    ∃ chat, (a.format = "OFF".toList ∨ a.format = "OBJ".toList → chat = []) ∧
      Reports (orthoStages (orthoSettings (rawText args "<scene>") a.format a.prune a.cache a.terrain a.graphs a.save a.scene a.labels (decide (a.pixel ≠ 0)) (T.G.num a.pixel)) chat
        a.graphs a.save a.scene (decide (a.pixel ≠ 0))) (orthoRun T args fs) (mainTalk (orthoTalk T noise args) fs) := by
  refine ⟨chatOf T noise a.path a.format fs, chat_quiet T noise a.path a.format fs, ?_⟩
  have h := reports_of (tells_ortho T noise args fs a ha)
  rw [silence_ortho, ortho_settings] at h
  exact h

/-- C113: arguments that are not accepted: only the message of the first step, and the exception. -/
theorem C113_arguments (T : Toolbox N L K) (noise : SceneFormat → Bool → Path → Fs → List Text) (args : Args) (fs : Fs) (e : Exc) (ha : orthoArgs T args = .thrown e) :
    mainTalk (orthoTalk T noise args) fs = (.ok 0, fs, [.out "Parsing arguments... ".toList, .err e]) := by
  have h : orthoTalk T noise args fs = (.thrown e, fs, [.out "Parsing arguments... ".toList]) := by
    unfold orthoTalk Talk.bind Talk.announced Act.reads
    simp only [ha]
  unfold mainTalk
  rw [h]
  rfl

theorem errors_append (a b : List Said) : errors (a ++ b) = errors a ++ errors b := List.filter_append ..

theorem errors_shown {st : List Stage} (h : ∀ s ∈ st, errors s.begins = [] ∧ errors s.ends = []) : errors (shown st) = [] := by
  induction st with
  | nil => rfl
  | cons s st ih =>
    have := h s (List.mem_cons_self ..)
    show errors (s.begins ++ s.ends ++ shown st) = []
    rw [errors_append, errors_append, this.1, this.2, ih fun s hs => h s (List.mem_cons_of_mem _ hs)]
    rfl

theorem errors_reports {st : List Stage} (h : ∀ s ∈ st, errors s.begins = [] ∧ errors s.ends = []) {r : Out Unit × Fs} {c : Out Nat × Fs × List Said} (hr : Reports st r c) :
    (r.1 = .ok () → errors c.2.2 = []) ∧ ∀ e, r.1 = .thrown e → errors c.2.2 = [.err e] ∧ c.2.2.getLast? = some (.err e) := by
  obtain ⟨o, fs'⟩ := r
  constructor
  · rintro rfl
    rw [show c = (.ok 0, fs', shown st) from hr]
    exact errors_shown h
  · rintro e rfl
    obtain ⟨k, s, hk, rfl⟩ : ∃ (k : Nat) (s : Stage), st[k]? = some s ∧ c = (.ok 0, fs', shown (st.take k) ++ s.begins ++ [Said.err e]) := hr
    constructor
    · rw [errors_append, errors_append, errors_shown fun s hs => h s (List.mem_of_mem_take hs), (h s (List.mem_of_getElem? hk)).1]
      rfl
    · exact List.getLast?_concat

theorem ortho_stages_errors (t : Text) (g s c p : Bool) : ∀ st ∈ orthoStages t [] g s c p, errors st.begins = [] ∧ errors st.ends = [] := by
  have key : ∀ b e : String, errors (stage b e).begins = [] ∧ errors (stage b e).ends = [] := fun _ _ => ⟨rfl, rfl⟩
  have none : ∀ st ∈ ([] : List Stage), errors st.begins = [] ∧ errors st.ends = [] := fun _ h => absurd h (List.not_mem_nil)
  unfold orthoStages
  refine List.forall_mem_append.2 ⟨List.forall_mem_append.2 ⟨List.forall_mem_cons.2 ⟨key _ _, List.forall_mem_cons.2 ⟨⟨rfl, rfl⟩, none⟩⟩, ?_⟩, ?_⟩
  · cases g
    · exact none
    · exact List.forall_mem_cons.2 ⟨key _ _, none⟩
  · cases s
    · exact none
    · refine List.forall_mem_append.2 ⟨List.forall_mem_append.2 ⟨List.forall_mem_cons.2 ⟨key _ _, List.forall_mem_cons.2 ⟨key _ _, none⟩⟩, ?_⟩, ?_⟩
      · cases c
        · exact none
        · exact List.forall_mem_cons.2 ⟨key _ _, none⟩
      · cases p
        · exact none
        · exact List.forall_mem_cons.2 ⟨key _ _, List.forall_mem_cons.2 ⟨key _ _, none⟩⟩

/-- C113: for OFF and OBJ files, the standard error stream tells whether the run ended well, which the status does not: it is empty after a run that ends well; otherwise it has one message, the
last thing said. -/
theorem C113_message (T : Toolbox N L K) (noise : SceneFormat → Bool → Path → Fs → List Text) (args : Args) (fs : Fs) (a : OrthoArgs K) (ha : orthoArgs T args = .ok a)
    (hf : a.format = "OFF".toList ∨ a.format = "OBJ".toList) :
    ((orthoRun T args fs).1 = .ok () → errors (mainTalk (orthoTalk T noise args) fs).2.2 = []) ∧
    ∀ e, (orthoRun T args fs).1 = .thrown e → errors (mainTalk (orthoTalk T noise args) fs).2.2 = [.err e] ∧ (mainTalk (orthoTalk T noise args) fs).2.2.getLast? = some (.err e) := by
  obtain ⟨chat, h1, h2⟩ := C113_progress T noise args fs a ha
  rw [h1 hf] at h2
  exact errors_reports (ortho_stages_errors _ _ _ _ _) h2

/-! ### From the command line -/

/-- The arguments that a command line gives. -/
theorem typed_args {T : Toolbox N L K} {m : Args} {os : List (Text × Option Text)} {s f v : Text} {save rast : Bool} (h : AsTyped m os s save rast) (hf : Given m "--input-format" f)
    (hv : Given m "--pixel-size" v) :
    orthoArgs T m = (if rast then T.stod v else .ok 0) >>= fun p => .ok ⟨splitSlash s, f, typed os "--prune", false, typed os "--graphs", typed os "--terrain", save,
      save && typed os "--scene", save && typed os "--labels", p⟩ := by
  have sw : ∀ n ∈ ["--prune", "--graphs", "--terrain", "--scene", "--labels"], m.asBool n = .ok (typed os n) := fun n hn => asBool_of (h.switches n hn)
  unfold orthoArgs
  rw [asString_of h.scene, asString_of hf, sw "--prune" (by simp only [List.mem_cons, true_or]), asBool_of h.cache, sw "--graphs" (by simp only [List.mem_cons, true_or, or_true]),
    sw "--terrain" (by simp only [List.mem_cons, true_or, or_true]), asBool_of h.save]
  simp only [Out.ok_bind]
  have e1 : m.boolIf save "--scene" = .ok (save && typed os "--scene") := by
    cases save
    · rfl
    · exact sw "--scene" (by simp only [List.mem_cons, true_or, or_true])
  have e2 : m.boolIf save "--labels" = .ok (save && typed os "--labels") := by
    cases save
    · rfl
    · exact sw "--labels" (by simp only [List.mem_cons, true_or, or_true])
  rw [e1, e2, asBool_of h.rasterize]
  simp only [Out.ok_bind]
  cases rast
  · rfl
  · unfold pixelArg
    simp only [if_true]
    rw [asString_of hv]
    rfl

theorem raw_given {m : Args} {n : String} {t : Text} (h : Given m n t) : rawText m n = t := by
  unfold rawText
  rw [asString_of h]

/-- The value of `--pixel-size`: what is typed, otherwise 1. -/
def Size (os : List (Text × Option Text)) (v : Text) : Prop :=
  ("--pixel-size".toList, some v) ∈ os ∨ ("--pixel-size".toList ∉ os.map Prod.fst ∧ v = "1".toList)

theorem typed_size {m : Args} {os : List (Text × Option Text)} {s v : Text} {save rast : Bool} (h : AsTyped m os s save rast) (hv : Size os v) : Given m "--pixel-size" v := by
  rcases hv with hv | ⟨hv, rfl⟩
  · exact h.size.1 v hv
  · exact h.size.2 hv

theorem console_line (T : Toolbox N L K) (noise : SceneFormat → Bool → Path → Fs → List Text) (version : Text) (argv ws : List Text) (os : List (Text × Option Text)) (s f : Text) (save rast : Bool)
    (h1 : Spells orthoOptions argv ws os) (h2 : OrthoLine ws os s save rast) (hf : ("--input-format".toList, some f) ∈ os) :
    ∃ m, AsTyped m os s save rast ∧ Given m "--input-format" f ∧ (∀ fs, orthoConsole T noise version argv fs = mainTalk (orthoTalk T noise m) fs) := by
  obtain ⟨m, e, h⟩ := C111_values argv ws os s save rast h1 h2
  obtain ⟨f', hf', gf⟩ := h.format
  have ef : f' = f := Option.some.inj (Prod.mk.inj (List.inj_on_of_nodup_map h2.once hf' hf rfl)).2
  subst ef
  exact ⟨m, h, gf, fun fs => congrArg (fun d => afterSays orthoUsage ("orthoproject ".toList ++ version) argv (fun a => mainTalk (orthoTalk T noise a)) d fs) e⟩

/-- C113: from the command line. For a command line that the usage allows, the settings that are shown are those that were typed, and the run reports on the steps that were asked for: dual graphs for `--graphs`;
for the word `save` the projections and their vectors, the sum of the scene for `--scene`, images if the pixel size is not zero. `--scene`, `--labels` and `rasterize` without `save` have no step. -/
theorem C113_program (T : Toolbox N L K) (noise : SceneFormat → Bool → Path → Fs → List Text) (version : Text) (argv ws : List Text) (os : List (Text × Option Text)) (s f v : Text)
    (save rast : Bool) (p : K) (fs : Fs) (h1 : Spells orthoOptions argv ws os) (h2 : OrthoLine ws os s save rast) (hf : ("--input-format".toList, some f) ∈ os) (hv : Size os v)
    (hp : if rast then T.stod v = .ok p else p = 0) :
    ∃ chat run, (f = "OFF".toList ∨ f = "OBJ".toList → chat = []) ∧
      Reports (orthoStages (orthoSettings s f (typed os "--prune") false (typed os "--terrain") (typed os "--graphs") save (save && typed os "--scene") (save && typed os "--labels")
        (decide (p ≠ 0)) (T.G.num p)) chat (typed os "--graphs") save (save && typed os "--scene") (decide (p ≠ 0))) run (orthoConsole T noise version argv fs) := by
  obtain ⟨m, h, gf, e⟩ := console_line T noise version argv ws os s f save rast h1 h2 hf
  have ha := typed_args (T := T) h gf (typed_size h hv)
  have hr : (if rast then T.stod v else .ok 0) = Out.ok p := by
    cases rast
    · simp only [Bool.false_eq_true, if_false] at hp ⊢
      rw [hp]
    · exact hp
  rw [hr, Out.ok_bind] at ha
  obtain ⟨chat, c1, c2⟩ := C113_progress T noise m fs _ ha
  rw [raw_given h.scene, ← e] at c2
  exact ⟨chat, _, c1, c2⟩

/-- C113: a pixel size that is not a number ends the program at the first step, with status 0; nothing is read. -/
theorem C113_bad_size (T : Toolbox N L K) (noise : SceneFormat → Bool → Path → Fs → List Text) (version : Text) (argv ws : List Text) (os : List (Text × Option Text)) (s f v : Text)
    (save : Bool) (x : Exc) (fs : Fs) (h1 : Spells orthoOptions argv ws os) (h2 : OrthoLine ws os s save true) (hf : ("--input-format".toList, some f) ∈ os) (hv : Size os v)
    (hx : T.stod v = .thrown x) : orthoConsole T noise version argv fs = (.ok 0, fs, [.out "Parsing arguments... ".toList, .err x]) := by
  obtain ⟨m, h, gf, e⟩ := console_line T noise version argv ws os s f save true h1 h2 hf
  have ha := typed_args (T := T) h gf (typed_size h hv)
  rw [if_pos rfl, hx, Out.thrown_bind] at ha
  rw [e, C113_arguments T noise m fs x ha]

/-! ### cityformat -/

theorem tells_format (T : Toolbox N L K) (noise : SceneFormat → Bool → Path → Fs → List Text) (args : Args) (fs : Fs) (a : FormatArgs) (ha : formatArgs args = .ok a) (hn : a.formats = false) :
    TellsAt (formatStages (formatHeader (rawText args "<scene>") (rawText args "<path>") a) (chatOf T noise a.path a.format fs) a.graphs) (formatTalk T noise args) fs := by
  have hb : ∃ b, args.asBool "--formats" = .ok b := by
    unfold formatArgs at ha
    obtain ⟨b, h, -⟩ := Out.bind_eq_ok.1 ha
    exact ⟨b, h⟩
  obtain ⟨b, hb⟩ := hb
  unfold formatStages formatTalk
  rw [List.append_assoc]
  refine tells_bind (st := []) ?_ fun b' fs1 l1 h1 => ?_
  · unfold TellsAt Talk.quiet Act.reads
    rw [hb]
    rfl
  have e1 : fs1 = fs := by
    unfold Talk.quiet Act.reads at h1
    exact (Prod.mk.inj (Prod.mk.inj h1).2).1.symm
  subst e1
  refine tells_bind (st := [stage "Parsing arguments... " "Done.\n"]) (tells_announced _ _ _ fs1) fun a' fs' l h => ?_
  have e : a' = a ∧ fs' = fs1 := by
    unfold Talk.announced Act.reads at h
    dsimp only at h
    rw [ha] at h
    cases h
    exact ⟨rfl, rfl⟩
  obtain ⟨rfl, rfl⟩ := e
  rw [hn]
  simp only [Bool.false_eq_true, if_false]
  refine tells_input T noise _ _ _ _ _ _ _ _ _ fun s fs2 => ?_
  exact tells_silent fs2 (mute_bind (mute_quiet _) fun _ => mute_quiet _)

/-- C113: the terminal of cityformat, as for orthoproject; the step that writes the scene has no message. -/
theorem C113_format (T : Toolbox N L K) (noise : SceneFormat → Bool → Path → Fs → List Text) (args : Args) (fs : Fs) (a : FormatArgs) (ha : formatArgs args = .ok a) (hn : a.formats = false) :
    ∃ chat, (a.format = "OFF".toList ∨ a.format = "OBJ".toList → chat = []) ∧
      Reports (formatStages (formatSettings (rawText args "<scene>") a.format a.prune a.terrain a.graphs (rawText args "<path>") a.outFormat) chat a.graphs)
        (formatRun T args fs) (mainTalk (formatTalk T noise args) fs) := by
  refine ⟨chatOf T noise a.path a.format fs, chat_quiet T noise a.path a.format fs, ?_⟩
  have h := reports_of (tells_format T noise args fs a ha hn)
  rw [silence_format, format_settings _ _ _ hn] at h
  exact h

theorem format_stages_errors (t : Text) (g : Bool) : ∀ st ∈ formatStages t [] g, errors st.begins = [] ∧ errors st.ends = [] := by
  have key : ∀ b e : String, errors (stage b e).begins = [] ∧ errors (stage b e).ends = [] := fun _ _ => ⟨rfl, rfl⟩
  have none : ∀ st ∈ ([] : List Stage), errors st.begins = [] ∧ errors st.ends = [] := fun _ h => absurd h (List.not_mem_nil)
  unfold formatStages
  refine List.forall_mem_append.2 ⟨List.forall_mem_append.2 ⟨List.forall_mem_cons.2 ⟨key _ _, List.forall_mem_cons.2 ⟨⟨rfl, rfl⟩, none⟩⟩, ?_⟩, List.forall_mem_cons.2 ⟨⟨rfl, rfl⟩, none⟩⟩
  cases g
  · exact none
  · exact List.forall_mem_cons.2 ⟨key _ _, none⟩

/-- C113: the same for cityformat: the standard error stream is empty if and only if the run ends well. -/
theorem C113_format_message (T : Toolbox N L K) (noise : SceneFormat → Bool → Path → Fs → List Text) (args : Args) (fs : Fs) (a : FormatArgs) (ha : formatArgs args = .ok a)
    (hn : a.formats = false) (hf : a.format = "OFF".toList ∨ a.format = "OBJ".toList) :
    ((formatRun T args fs).1 = .ok () → errors (mainTalk (formatTalk T noise args) fs).2.2 = []) ∧
    ∀ e, (formatRun T args fs).1 = .thrown e → errors (mainTalk (formatTalk T noise args) fs).2.2 = [.err e] ∧ (mainTalk (formatTalk T noise args) fs).2.2.getLast? = some (.err e) := by
  obtain ⟨chat, h1, h2⟩ := C113_format T noise args fs a ha hn
  rw [h1 hf] at h2
  exact errors_reports (format_stages_errors _ _) h2

/-- C113: from the command line of cityformat to the settings that are shown and to the report. -/
theorem C113_format_program (T : Toolbox N L K) (noise : SceneFormat → Bool → Path → Fs → List Text) (version : Text) (argv ws : List Text) (os : List (Text × Option Text)) (s f o g : Text)
    (fs : Fs) (h1 : Spells formatOptions argv ws os) (h2 : FormatLine ws os s (some o)) (hf : ("--input-format".toList, some f) ∈ os) (hg : ("--output-format".toList, some g) ∈ os) :
    ∃ chat run, (f = "OFF".toList ∨ f = "OBJ".toList → chat = []) ∧
      Reports (formatStages (formatSettings s f (typed os "--prune") (typed os "--terrain") (typed os "--graphs") o g) chat (typed os "--graphs")) run
        (formatConsole T noise version argv fs) := by
  obtain ⟨m, e, h⟩ := C111_format_values argv ws os s (some o) h1 h2
  obtain ⟨f', hf', gf⟩ := h.format
  have ef : f' = f := Option.some.inj (Prod.mk.inj (List.inj_on_of_nodup_map h2.once hf' hf rfl)).2
  subst ef
  have hm : ∀ fs, formatConsole T noise version argv fs = mainTalk (formatTalk T noise m) fs :=
    fun fs => congrArg (fun d => afterSays formatUsage ("orthoproject ".toList ++ version) argv (fun a => mainTalk (formatTalk T noise a)) d fs) e
  have sw : ∀ n ∈ ["--prune", "--graphs", "--terrain"], m.asBool n = .ok (typed os n) := fun n hn => asBool_of (h.switches n hn)
  have ha : formatArgs m = .ok ⟨false, splitSlash s, f', typed os "--prune", typed os "--graphs", typed os "--terrain", splitSlash o, g⟩ := by
    unfold formatArgs
    rw [asBool_of h.formats, asString_of h.scene, asString_of gf, sw "--prune" (by simp only [List.mem_cons, true_or]), sw "--graphs" (by simp only [List.mem_cons, true_or, or_true]),
      sw "--terrain" (by simp only [List.mem_cons, true_or, or_true]), asString_of (h.path.1 o rfl), asString_of (h.output.1 g hg)]
    rfl
  obtain ⟨chat, c1, c2⟩ := C113_format T noise m fs _ ha rfl
  rw [raw_given h.scene, raw_given (h.path.1 o rfl), ← hm] at c2
  exact ⟨chat, _, c1, c2⟩

/-- C113: `cityformat --formats` lists the formats. -/
theorem C113_formats (T : Toolbox N L K) (noise : SceneFormat → Bool → Path → Fs → List Text) (version : Text) (argv : List Text) (h : Spells formatOptions argv [] [("--formats".toList, none)])
    (fs : Fs) : formatConsole T noise version argv fs = (.ok 0, fs, [.out "Parsing arguments... ".toList, .out "Done.\n".toList, .out "Arguments:\n  Possible formats: true\n\n".toList,
      .out "Possible formats are: 3DS XML, 3DS, OFF, OBJ\n".toList]) := by
  obtain ⟨m, e, hm⟩ := C111_formats_values argv h
  refine (congrArg (fun d => afterSays formatUsage ("orthoproject ".toList ++ version) argv (fun a => mainTalk (formatTalk T noise a)) d fs) e).trans ?_
  have ha : formatArgs m = .ok ⟨true, [], [], false, false, false, [], []⟩ := by
    unfold formatArgs
    rw [asBool_of hm]
    rfl
  have e1 : formatHeader (rawText m "<scene>") (rawText m "<path>") ⟨true, [], [], false, false, false, [], []⟩ = "Arguments:\n  Possible formats: true\n\n".toList := by
    unfold formatHeader
    rw [if_pos rfl]
    decide
  have e2 : formatsText = "Possible formats are: 3DS XML, 3DS, OFF, OBJ\n".toList := by decide
  show mainTalk (formatTalk T noise m) fs = _
  unfold formatTalk Talk.bind Talk.quiet Talk.announced Act.reads
  simp only [asBool_of hm, ha, if_true, e1, e2]
  rfl

end

/-- What the settings announce is done: if they show that images will be made and the run ends well, then the terminal tells about the images. -/
def C113_full : Prop := ∀ (N L : Type) (T : Toolbox N L ℚ) (noise : SceneFormat → Bool → Path → Fs → List Text) (args : Args) (fs : Fs) (a : OrthoArgs ℚ), orthoArgs T args = .ok a →
  (orthoRun T args fs).1 = .ok () → a.pixel ≠ 0 → Said.out "Saving raster projections... ".toList ∈ (mainTalk (orthoTalk T noise args) fs).2.2

/-- C113, the full statement is false: for `rasterize` without `save` the settings say `Rasterizing: true`, and no image is made. -/
theorem C113_refuted : ¬ C113_full := by
  intro h
  have key : ∃ a : OrthoArgs ℚ, orthoArgs toyTools (toyArgs false false true) = .ok a ∧ a.pixel ≠ 0 := by
    have e : (match orthoArgs toyTools (toyArgs false false true) with | .ok a => decide (a.pixel ≠ 0) | _ => false) = true := by decide +kernel
    revert e
    cases orthoArgs toyTools (toyArgs false false true) with
    | ok a => exact fun e => ⟨a, rfl, of_decide_eq_true e⟩
    | thrown x => exact fun e => absurd e (by simp)
    | ub => exact fun e => absurd e (by simp)
  obtain ⟨a, h1, h2⟩ := key
  have := h Mesh Unit toyTools (fun _ _ _ _ => []) (toyArgs false false true) toyFs a h1 (by decide +kernel) h2
  revert this
  decide +kernel

/-! ### Examples -/

/-- C113: the terminal after a complete run; the file is in the format 3DS without scene tree: the message of the first attempt to read it is printed, the second one succeeds. -/
example : (mainTalk (orthoTalk toyTools (fun _ _ _ _ => []) (toyArgs true true true)) toyFs).2.2.map (fun s => match s with | .out t => String.ofList t | _ => "error") =
    ["Parsing arguments... ", "Done.\n",
     "Arguments:\n  Input path: \"d/a.3ds\"\n  Input format: 3DS\n  Pruning faces: true\n  Caching buildings: false\n  Taking care of terrain: false\n  Saving dual graphs: true\n  Saving: true\n     Saving projections: true\n     Summing over whole scene: true\n     Saving projection error fields: false\n  Rasterizing: true\n     Pixel size: 0\n\n",
     "error", "Saving brick duals... ", " Done.\n", "Projecting... ", "Done.\n", "Saving vector projections... ", "Done.\n", "Summing , rasterizing and saving scene projections... ", "Done.\n",
     "rasterizing projections... ", "Done.\n", "Saving raster projections... ", "Done.\n"] := by decide +kernel

/-- The files of the example, with a file in the place of the directory `vectors`. -/
def blockedFs : Fs := fun p => if p = ["d".toList, "vectors".toList] then some (.file []) else toyFs p

/-- C113: a run that fails: the directory of the vectors cannot be made. The step is left without its end, the message of the exception comes last, the status is 0. -/
example : (mainTalk (orthoTalk toyTools (fun _ _ _ _ => []) (toyArgs true true true)) blockedFs).1 = .ok 0 ∧
    (mainTalk (orthoTalk toyTools (fun _ _ _ _ => []) (toyArgs true true true)) blockedFs).2.2.drop 4 =
      [.out "Saving brick duals... ".toList, .out " Done.\n".toList, .out "Projecting... ".toList, .out "Done.\n".toList, .out "Saving vector projections... ".toList,
        .err .filesystemError] := by decide +kernel

/-- C113: the hypotheses of `C113_program` are met: the block from an OBJ file. -/
example (lib : SoupLib ℚ) (fs : Fs) : ∃ chat run, ("OBJ".toList = "OFF".toList ∨ "OBJ".toList = "OBJ".toList → chat = []) ∧
    Reports (orthoStages (orthoSettings "d/a.obj".toList "OBJ".toList false false false false true false false true ((nodeTools lib).G.num 1)) chat false true false true) run
      (orthoConsole (nodeTools lib) (fun _ _ _ _ => []) "1.0".toList demoLine fs) := by
  have h := C113_program (nodeTools lib) (fun _ _ _ _ => []) "1.0".toList demoLine _ _ "d/a.obj".toList "OBJ".toList "1".toList true true 1 fs demo_spells demo_line
    (List.mem_cons_self ..) (.inl (List.mem_cons_of_mem _ (List.mem_cons_self ..))) rfl
  have t : ∀ n ∈ ["--prune", "--terrain", "--graphs", "--scene", "--labels"], typed [("--input-format".toList, some "OBJ".toList), ("--pixel-size".toList, some "1".toList)] n = false := by decide +kernel
  rw [t "--prune" (by simp only [List.mem_cons, true_or]), t "--terrain" (by simp only [List.mem_cons, true_or, or_true]), t "--graphs" (by simp only [List.mem_cons, true_or, or_true]),
    t "--scene" (by simp only [List.mem_cons, true_or, or_true]), t "--labels" (by simp only [List.mem_cons, true_or, or_true]), decide_eq_true (show (1 : ℚ) ≠ 0 by norm_num)] at h
  exact h

end City.Props
