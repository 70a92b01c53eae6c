import Verif.Props.Console
import Verif.Props.Scene3ds
/-!
C113 for all the input formats: what is printed on the standard error stream, among which the message of the first attempt to read a scene in the format 3DS.
-/
set_option linter.unusedSectionVars false
namespace City.Spec
open City City.Props

/-- The standard error stream has the messages `before` and then, if the run was ended by an exception, the message of this one. -/
def ErrorsAre (before : List Said) (run : Out Unit × Fs) (said : List Said) : Prop :=
  (run.1 = .ok () → errors said = before) ∧ ∀ e, run.1 = .thrown e → errors said = before ++ [.err e]

/-- Beside the file `s.x` of directory `d` there is a document that states a position and a code. -/
def Documented {L : Type} (lib : Libs L) (fs : Fs) (d : Path) (s : Text) : Prop :=
  ∃ u doc pv ep, fs (d ++ [s ++ ".XML".toList]) = some (.file u) ∧ lib.xml u = some doc ∧ SceneTree.pivot lib.dbl doc = .ok pv ∧ SceneTree.epsg lib.uns doc = .ok ep

/-- Beside the file `s.x` of directory `d` there is no document that can be read: no file, not a document, or a number in it that cannot be read. -/
def Undocumented {L : Type} (lib : Libs L) (fs : Fs) (d : Path) (s : Text) : Prop :=
  ∀ u, fs (d ++ [s ++ ".XML".toList]) = some (.file u) → lib.xml u = none ∨ ∃ doc e, lib.xml u = some doc ∧ SceneTree.pivot lib.dbl doc = .thrown e

/-- The file `s.x` of directory `d` is a 3DS file that can be loaded, whose first top node has object nodes below it. -/
def Loaded {L : Type} (lib : Libs L) (fs : Fs) (d : Path) (s x : Text) : Prop :=
  '/' ∉ s ∧ '.' ∉ x ∧ NamedLike (d ++ [s ++ '.' :: x]) "3ds".toList ∧ ∃ t f rn ro kids nx, fs (d ++ [s ++ '.' :: x]) = some (.file t) ∧ lib.load t = some f ∧ Readable3ds lib.conv f ∧
    f.nodes = .cons rn ro kids nx ∧ ∀ x ∈ tops kids, x.2.1 = true

end City.Spec

namespace City.Props
open City City.Spec

section
variable {N L K : Type} [Field K] [LinearOrder K] [FloorRing K]

/-- Statements that print nothing on the standard error stream. -/
def NoErr {A : Type} (x : Talk A) : Prop := ∀ fs, errors (x fs).2.2 = []

theorem noErr_bind {A B : Type} {x : Talk A} {k : A → Talk B} (hx : NoErr x) (hk : ∀ a, NoErr (k a)) : NoErr (Talk.bind x k) := by
  intro fs
  have h := hx fs
  unfold Talk.bind
  rcases e : x fs with ⟨a | ex | _, fs', l⟩ <;> rw [e] at h <;> dsimp only at h ⊢
  · rw [errors_append, h, hk a fs']
    rfl
  · exact h
  · exact h

theorem noErr_quiet {A : Type} (x : Act A) : NoErr (Talk.quiet x) := fun _ => rfl

theorem noErr_say (t : Text) : NoErr (Talk.say t) := fun _ => rfl

theorem noErr_announced {A : Type} (b : String) (x : Act A) (e : String) : NoErr (Talk.announced b x e) := by
  intro fs
  unfold Talk.announced
  rcases x fs with ⟨a | ex | _, fs'⟩ <;> rfl

/-- After a first statement only its messages are printed on the standard error stream. -/
theorem errors_first {A B : Type} {x : Talk A} {k : A → Talk B} (hk : ∀ a, NoErr (k a)) (fs : Fs) : errors (Talk.bind x k fs).2.2 = errors (x fs).2.2 := by
  unfold Talk.bind
  rcases x fs with ⟨a | ex | _, fs', l⟩ <;> dsimp only
  rw [errors_append, hk a fs', List.append_nil]

theorem errors_after {A B : Type} {x : Talk A} {k : A → Talk B} {fs fs' : Fs} {a : A} {l : List Said} (h : x fs = (.ok a, fs', l)) (hl : errors l = []) :
    errors (Talk.bind x k fs).2.2 = errors (k a fs').2.2 := by
  unfold Talk.bind
  rw [h]
  dsimp only
  rw [errors_append, hl, List.nil_append]

theorem errors_input (T : Toolbox N L K) (noise : SceneFormat → Bool → Path → Fs → List Text) (path : Path) (format : Text) (prune terrain graphs : Bool) (fs : Fs) :
    errors (inputTalk T noise path format prune terrain graphs fs).2.2 = errors (chatOf T noise path format fs) := by
  unfold inputTalk
  refine errors_first (fun s => ?_) fs
  refine noErr_bind (noErr_quiet _) fun s => noErr_bind ?_ fun _ => noErr_quiet _
  cases graphs
  · exact noErr_quiet _
  · exact noErr_announced _ _ _

theorem errors_ortho (T : Toolbox N L K) (noise : SceneFormat → Bool → Path → Fs → List Text) (args : Args) (fs : Fs) (a : OrthoArgs K) (ha : orthoArgs T args = .ok a) :
    errors (orthoTalk T noise args fs).2.2 = errors (chatOf T noise a.path a.format fs) := by
  unfold orthoTalk
  have h1 : Talk.announced "Parsing arguments... " (Act.reads fun _ => orthoArgs T args) "Done.\n" fs =
      (.ok a, fs, [.out "Parsing arguments... ".toList, .out "Done.\n".toList]) := by
    unfold Talk.announced Act.reads
    rw [ha]
  rw [errors_after h1 rfl, errors_after (a := ()) (fs' := fs) (l := [.out (orthoHeader T.G (rawText args "<scene>") a)]) rfl rfl,
    errors_first (fun s => ?_) fs, errors_input]
  split
  · refine noErr_bind (noErr_announced _ _ _) fun ps => noErr_bind (noErr_announced _ _ _) fun _ => noErr_bind ?_ fun _ => ?_
    · split
      · exact noErr_announced _ _ _
      · exact noErr_quiet _
    · split
      · exact noErr_bind (noErr_announced _ _ _) fun _ => noErr_announced _ _ _
      · exact noErr_quiet _
  · exact noErr_quiet _

theorem errors_format (T : Toolbox N L K) (noise : SceneFormat → Bool → Path → Fs → List Text) (args : Args) (fs : Fs) (a : FormatArgs) (ha : formatArgs args = .ok a) (hn : a.formats = false) :
    errors (formatTalk T noise args fs).2.2 = errors (chatOf T noise a.path a.format fs) := by
  obtain ⟨b, hb⟩ : ∃ b, args.asBool "--formats" = .ok b := by
    unfold formatArgs at ha
    obtain ⟨b, hb, -⟩ := Out.bind_eq_ok.1 ha
    exact ⟨b, hb⟩
  unfold formatTalk
  have h0 : Talk.quiet (Act.reads fun _ => args.asBool "--formats") fs = (.ok b, fs, []) := by
    unfold Talk.quiet Act.reads
    rw [hb]
  have h1 : Talk.announced "Parsing arguments... " (Act.reads fun _ => formatArgs args) "Done.\n" fs =
      (.ok a, fs, [.out "Parsing arguments... ".toList, .out "Done.\n".toList]) := by
    unfold Talk.announced Act.reads
    rw [ha]
  rw [errors_after h0 rfl, errors_after h1 rfl,
    errors_after (a := ()) (fs' := fs) (l := [.out (formatHeader (rawText args "<scene>") (rawText args "<path>") a)]) rfl rfl, hn, if_neg (by decide),
    errors_first (fun s => noErr_bind (noErr_quiet _) fun _ => noErr_quiet _) fs, errors_input]

theorem errors_main (x : Talk Unit) (run : Act Unit) (h : silence x = run) (fs : Fs) : ErrorsAre (errors (x fs).2.2) (run fs) (mainTalk x fs).2.2 := by
  subst h
  unfold ErrorsAre silence mainTalk
  rcases x fs with ⟨a | ex | _, fs', l⟩ <;> dsimp only
  · exact ⟨fun _ => rfl, fun e h => by cases h⟩
  · refine ⟨fun h => (by cases h), fun e h => ?_⟩
    cases h
    rw [errors_append]
    rfl
  · exact ⟨fun h => (by cases h), fun e h => by cases h⟩

theorem errors_outs (l : List Text) : errors (l.map Said.out) = [] := by
  induction l with
  | nil => rfl
  | cons a l ih => exact ih

/-- What is printed on the standard error stream while a scene is read. -/
theorem chat_errors (T : Toolbox N L K) (noise : SceneFormat → Bool → Path → Fs → List Text) (path : Path) (format : Text) (fs : Fs) (hf : format ≠ "3DS".toList) :
    errors (chatOf T noise path format fs) = [] := by
  unfold chatOf readTalk
  rcases e : sceneHandlerNamed path format with f | ex | _ <;> dsimp only
  · unfold readSays
    have := ((C31_formats path format f).1.1 e)
    cases f with
    | off => rfl
    | obj => rfl
    | t3dsXml => exact errors_outs _
    | t3ds =>
      rcases this with ⟨-, h, -⟩ | ⟨h, -⟩ | ⟨-, h⟩ | ⟨-, h, -⟩
      · cases h
      · exact absurd h hf
      · cases h
      · cases h
  · rfl
  · rfl

theorem chat_3ds (T : Toolbox N L K) (noise : SceneFormat → Bool → Path → Fs → List Text) (d : Path) (s x : Text) (fs : Fs) (hl : Loaded T.lib fs d s x) :
    (Documented T.lib fs d s → errors (chatOf T noise (d ++ [s ++ '.' :: x]) "3DS".toList fs) = []) ∧
    (Undocumented T.lib fs d s → errors (chatOf T noise (d ++ [s ++ '.' :: x]) "3DS".toList fs) = [.err .runtimeError]) := by
  obtain ⟨h1, h2, h3, t, f, rn, ro, kids, nx, h4, h5, h6, h7, h8⟩ := hl
  have hF : sceneHandlerNamed (d ++ [s ++ '.' :: x]) "3DS".toList = .ok .t3ds := by
    rw [(C31_formats _ _ _).1]
    exact Or.inr (Or.inl ⟨rfl, rfl, (iequals_ext (e := "3ds".toList) (by decide)).2 h3⟩)
  obtain ⟨k1, k2⟩ := level_attempt T.ops T.lib readMode d s x fs t f rn ro kids nx h1 h2 (by unfold OpenedRead; decide) (by unfold OpenedWrite; decide) h4 h5 h6 h7 h8
  unfold chatOf readTalk
  rw [hF]
  dsimp only
  unfold readSays
  dsimp only
  constructor
  · rintro ⟨u, doc, pv, ep, e1, e2, e3, e4⟩
    obtain ⟨sc, e⟩ := k1 u doc pv ep e1 e2 e3 e4
    rw [e, errors_append, errors_outs]
    rfl
  · intro h
    rw [k2 h, errors_append, errors_outs]
    dsimp only
    rw [if_pos (show Exc.isRuntime .runtimeError = true from rfl)]
    show errors ([Said.err .runtimeError] ++ _) = _
    rw [errors_append, errors_outs]
    rfl

/-- C113: for all formats but 3DS, the standard error stream is empty after a run that ends well, and has one message after another one. -/
theorem C113_stderr (T : Toolbox N L K) (noise : SceneFormat → Bool → Path → Fs → List Text) (args : Args) (fs : Fs) (a : OrthoArgs K) (ha : orthoArgs T args = .ok a)
    (hf : a.format ≠ "3DS".toList) : ErrorsAre [] (orthoRun T args fs) (mainTalk (orthoTalk T noise args) fs).2.2 := by
  have := errors_main (orthoTalk T noise args) (orthoRun T args) (silence_ortho T noise args) fs
  rwa [errors_ortho T noise args fs a ha, chat_errors T noise a.path a.format fs hf] at this

/-- C113: the format 3DS: the same with a document beside the file; without one, a message says so even if the run ends well. -/
theorem C113_3ds (T : Toolbox N L K) (noise : SceneFormat → Bool → Path → Fs → List Text) (args : Args) (fs : Fs) (a : OrthoArgs K) (ha : orthoArgs T args = .ok a)
    (d : Path) (s x : Text) (hf : a.format = "3DS".toList) (hp : a.path = d ++ [s ++ '.' :: x]) (hl : Loaded T.lib fs d s x) :
    (Documented T.lib fs d s → ErrorsAre [] (orthoRun T args fs) (mainTalk (orthoTalk T noise args) fs).2.2) ∧
    (Undocumented T.lib fs d s → ErrorsAre [.err .runtimeError] (orthoRun T args fs) (mainTalk (orthoTalk T noise args) fs).2.2) := by
  have := errors_main (orthoTalk T noise args) (orthoRun T args) (silence_ortho T noise args) fs
  rw [errors_ortho T noise args fs a ha, hf, hp] at this
  obtain ⟨k1, k2⟩ := chat_3ds T noise d s x fs hl
  exact ⟨fun h => k1 h ▸ this, fun h => k2 h ▸ this⟩

/-- C113: the same for cityformat. -/
theorem C113_format_stderr (T : Toolbox N L K) (noise : SceneFormat → Bool → Path → Fs → List Text) (args : Args) (fs : Fs) (a : FormatArgs) (ha : formatArgs args = .ok a)
    (hn : a.formats = false) (hf : a.format ≠ "3DS".toList) : ErrorsAre [] (formatRun T args fs) (mainTalk (formatTalk T noise args) fs).2.2 := by
  have := errors_main (formatTalk T noise args) (formatRun T args) (silence_format T noise args) fs
  rwa [errors_format T noise args fs a ha hn, chat_errors T noise a.path a.format fs hf] at this

/-- C113: the same for cityformat. -/
theorem C113_format_3ds (T : Toolbox N L K) (noise : SceneFormat → Bool → Path → Fs → List Text) (args : Args) (fs : Fs) (a : FormatArgs) (ha : formatArgs args = .ok a)
    (hn : a.formats = false) (d : Path) (s x : Text) (hf : a.format = "3DS".toList) (hp : a.path = d ++ [s ++ '.' :: x]) (hl : Loaded T.lib fs d s x) :
    (Documented T.lib fs d s → ErrorsAre [] (formatRun T args fs) (mainTalk (formatTalk T noise args) fs).2.2) ∧
    (Undocumented T.lib fs d s → ErrorsAre [.err .runtimeError] (formatRun T args fs) (mainTalk (formatTalk T noise args) fs).2.2) := by
  have := errors_main (formatTalk T noise args) (formatRun T args) (silence_format T noise args) fs
  rw [errors_format T noise args fs a ha hn, hf, hp] at this
  obtain ⟨k1, k2⟩ := chat_3ds T noise d s x fs hl
  exact ⟨fun h => k1 h ▸ this, fun h => k2 h ▸ this⟩

end

/-! ### The hypotheses are met -/

/-- The libraries of the example: every file is loaded as the example of C34, every document is that of C36. -/
def demoLibs : Libs (Text × Mesh) := ⟨fun _ => some demoFile, fun l => l.1, fun l => l.2, fun _ => some demoDoc, fun _ => some 1, fun _ => some 102110⟩

/-- The file d/a.3ds, with or without d/a.XML beside it. -/
def demoFs (b : Bool) : Fs
  | [d, n] => if d = ['d'] then if n = "a.3ds".toList then some (.file []) else if n = "a.XML".toList ∧ b then some (.file []) else none else none
  | _ => none

theorem demo_loaded (b : Bool) : Loaded demoLibs (demoFs b) [['d']] ['a'] "3ds".toList := by
  refine ⟨by decide, by decide, ⟨[['d']], ['a'], "3ds".toList, rfl, ?_⟩, [], demoFile, _, _, _, _, rfl, rfl, ⟨by decide, ?_⟩, rfl, by decide⟩
  · repeat first | exact .nil | refine .cons (by decide) ?_
  · intro l hl
    have : Valid demoTri ∧ Valid demoSquare := by
      constructor <;> (unfold Valid; decide)
    have h3 : demoTri.points ≠ [] ∧ demoSquare.points ≠ [] := by decide
    simp only [demoFile, List.mem_cons, List.not_mem_nil, or_false] at hl
    rcases hl with rfl | rfl | rfl
    · exact ⟨this.1, fun h => absurd h h3.1⟩
    · exact ⟨this.2, fun h => absurd h h3.2⟩
    · exact ⟨this.1, fun h => absurd h h3.1⟩

example : Documented demoLibs (demoFs true) [['d']] ['a'] := ⟨[], demoDoc, _, _, rfl, rfl, rfl, rfl⟩

example : Undocumented demoLibs (demoFs false) [['d']] ['a'] := by
  intro u h
  cases h

end City.Props
