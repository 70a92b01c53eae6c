import Verif.Model.Cli
import Verif.Props.SaveAll
import Verif.Props.Gis
/-!
C67: the command line tools.
-/
set_option linter.unusedSectionVars false
namespace City.Props
open City City.Spec

/-- The path is the directory or below it. -/
def Within (dir q : Path) : Prop := ∃ r, q = dir ++ r

/-- Only paths in `S` are changed by the program, whatever the files are when it starts and however it ends. -/
def OnlyChanges {A : Type} (S : Path → Prop) (x : Act A) : Prop := ∀ fs q, (x fs).2 q ≠ fs q → S q

theorem only_mono {A : Type} {S S' : Path → Prop} {x : Act A} (h : OnlyChanges S x) (hs : ∀ q, S q → S' q) : OnlyChanges S' x :=
  fun fs q hq => hs q (h fs q hq)

theorem only_reads {A : Type} (S : Path → Prop) (x : Fs → Out A) : OnlyChanges S (Act.reads x) := fun _ _ h => absurd rfl h

theorem only_skip (S : Path → Prop) : OnlyChanges S Act.skip := fun _ _ h => absurd rfl h

theorem only_bind {A B : Type} {S : Path → Prop} {x : Act A} {k : A → Act B} (hx : OnlyChanges S x)
    (hk : ∀ a, (∃ fs fs', x fs = (.ok a, fs')) → OnlyChanges S (k a)) : OnlyChanges S (Act.bind x k) := by
  intro fs q hq
  unfold Act.bind at hq
  have h0 := hx fs q
  rcases h : x fs with ⟨o, fs'⟩
  rw [h] at hq h0
  cases o with
  | ok a =>
    by_cases h1 : (k a fs').2 q = fs' q
    · exact h0 (show fs' q ≠ fs q by rw [← h1]; exact hq)
    · exact hk a ⟨fs, fs', h⟩ fs' q h1
  | thrown e => exact h0 hq
  | ub => exact h0 hq

theorem andThen_eq (r : Writer) (k : Writer) : (fun fs => andThen (r fs) k) = Act.bind r fun _ => k := by
  funext fs
  unfold andThen Act.bind
  rcases r fs with ⟨o, fs'⟩
  cases o <;> rfl

theorem only_runAll {S : Path → Prop} : ∀ (ws : List Writer), (∀ w ∈ ws, OnlyChanges S w) → OnlyChanges S (runAll ws)
  | [], _ => fun _ _ h => absurd rfl h
  | w :: ws, h => by
    have := only_bind (h w List.mem_cons_self) (k := fun _ => runAll ws) (fun _ _ => only_runAll ws fun v hv => h v (List.mem_cons_of_mem _ hv))
    rw [← andThen_eq] at this
    exact this

theorem only_makeDir {S : Path → Prop} {p : Path} (hp : S p) : OnlyChanges S (makeDir p) := by
  intro fs q hq
  unfold makeDir at hq
  by_cases h : q = p
  · rw [h]; exact hp
  · exfalso
    apply hq
    cases fs p with
    | none =>
      dsimp only
      split
      · simp [Fs.set, h]
      · rfl
    | some e => cases e <;> rfl

theorem put_only {S : Path → Prop} {p : Path} (hp : S p) (t : Text) (fs : Fs) (q : Path) (hq : fs.put p t q ≠ fs q) : S q := by
  by_cases h : q = p
  · rw [h]; exact hp
  · exfalso
    apply hq
    unfold Fs.put
    split
    · simp [Fs.set, h]
    · rfl

theorem only_streamPut {S : Path → Prop} {p : Path} (hp : S p) (w : Written) : OnlyChanges S (streamPut p w) :=
  fun fs q hq => put_only hp w.1 fs q hq

section
variable {N L K : Type} [Field K] [LinearOrder K] [FloorRing K]

theorem only_vectorPut {S : Path → Prop} {p : Path} (hp : S p) (C : Cgal K) (G : Gdal K) (m : Modes) (f : FootPrint K) (l : Bool) :
    OnlyChanges S (vectorPut C G m p f l) := by
  intro fs q hq
  by_cases h : q = p
  · rw [h]; exact hp
  · exfalso
    apply hq
    unfold vectorPut
    split
    · split
      · simp [Fs.set, h]
      · rfl
    · rfl

theorem only_rasterPut {S : Path → Prop} {p : Path} (hp : S p) (G : Gdal K) (m : Modes) (r : Raster K) : OnlyChanges S (rasterPut G m p r) := by
  intro fs q hq
  by_cases h : q = p
  · rw [h]; exact hp
  · exfalso
    apply hq
    unfold rasterPut
    split
    · split
      · simp [Fs.set, h]
      · rfl
    · rfl

theorem within_join (dir : Path) (n : Text) : Within dir (joinPath dir n) := ⟨_, rfl⟩

theorem only_duals (root : Path) (bs : List (Text × Written)) : OnlyChanges (Within (root ++ ["dual_graphs".toList])) (saveBuildingDuals root bs) := by
  have := only_bind (only_makeDir (S := Within (root ++ ["dual_graphs".toList])) (p := root ++ ["dual_graphs".toList]) ⟨[], by simp⟩)
    (k := fun _ => runAll (bs.map fun b => streamPut (joinPath (root ++ ["dual_graphs".toList]) (b.1 ++ ".txt".toList)) b.2)) (fun _ _ => only_runAll _ (by
      intro w hw
      obtain ⟨b, _, rfl⟩ := List.mem_map.1 hw
      exact only_streamPut (within_join _ _) _))
  rw [← andThen_eq] at this
  exact this

theorem only_prints (C : Cgal K) (G : Gdal K) (root : Path) (ps : List (FootPrint K)) (labels : Bool) :
    OnlyChanges (Within (root ++ ["vectors".toList])) (saveBuildingPrints C G root ps labels) := by
  have := only_bind (only_makeDir (S := Within (root ++ ["vectors".toList])) (p := root ++ ["vectors".toList]) ⟨[], by simp⟩)
    (k := fun _ => runAll (ps.flatMap (printFiles C G (root ++ ["vectors".toList]) labels))) (fun _ _ => only_runAll _ (by
      intro w hw
      obtain ⟨f, _, hw⟩ := List.mem_flatMap.1 hw
      simp only [printFiles, List.mem_cons, List.not_mem_nil, or_false] at hw
      rcases hw with rfl | rfl
      · exact only_vectorPut (within_join _ _) _ _ _ _ _
      · exact only_streamPut (within_join _ _) _))
  rw [← andThen_eq] at this
  exact this

theorem only_rasters (G : Gdal K) (root : Path) (rs : List (Raster K)) :
    OnlyChanges (Within (root ++ ["rasters".toList])) (saveBuildingRasters G root rs) := by
  have := only_bind (only_makeDir (S := Within (root ++ ["rasters".toList])) (p := root ++ ["rasters".toList]) ⟨[], by simp⟩)
    (k := fun _ => runAll (rs.map fun r => rasterPut G writeMode (joinPath (root ++ ["rasters".toList]) (r.name ++ ".tiff".toList)) r)) (fun _ _ => only_runAll _ (by
      intro w hw
      obtain ⟨r, _, rfl⟩ := List.mem_map.1 hw
      exact only_rasterPut (within_join _ _) _ _ _))
  rw [← andThen_eq] at this
  exact this

theorem only_scenePrints (C : Cgal K) (lr : Bool) (G : Gdal K) (root : Path) (name : Text) (ps : List (FootPrint K)) (rast : Bool) (p : K) :
    OnlyChanges (fun q => q = joinPath root (name ++ ".shp".toList) ∨ (rast = true ∧ q = joinPath root (name ++ ".tiff".toList)))
      (saveScenePrints C lr G root name ps rast p) := by
  unfold saveScenePrints
  cases sumFootPrints C ps FootPrint.empty with
  | thrown e => exact fun _ _ h => absurd rfl h
  | ub => exact fun _ _ h => absurd rfl h
  | ok s =>
    dsimp only
    rw [andThen_eq]
    refine only_bind (only_vectorPut (Or.inl rfl) _ _ _ _ _) fun _ _ => ?_
    cases rast with
    | false => exact fun _ _ h => absurd rfl h
    | true =>
      simp only [if_true]
      cases Raster.ofFootPrint C lr s p with
      | ok r => exact only_rasterPut (Or.inr (by simp)) _ _ _
      | thrown e => exact fun _ _ h => absurd rfl h
      | ub => exact fun _ _ h => absurd rfl h

theorem only_input (T : Toolbox N L K) (path : Path) (format : Text) (prune terrain graphs : Bool) :
    OnlyChanges (fun q => graphs = true ∧ Within (path.dropLast ++ ["dual_graphs".toList]) q) (inputScene T path format prune terrain graphs) := by
  unfold inputScene
  refine only_bind (only_reads _ _) fun s _ => only_bind (only_reads _ _) fun s' _ => only_bind ?_ fun _ _ => only_reads _ _
  cases graphs with
  | false => exact only_skip _
  | true => exact only_mono (only_duals _ _) fun q h => ⟨rfl, h⟩

/-- Paths given on the command line have components without slash. -/
theorem plain_components : ∀ (t : Text), ∀ c ∈ splitSlash t, PlainName c
  | [], c, hc => by
    simp only [splitSlash, List.mem_cons, List.not_mem_nil, or_false] at hc
    subst hc
    simp [PlainName]
  | a :: t, c, hc => by
    unfold splitSlash at hc
    split at hc
    · rcases List.mem_cons.1 hc with rfl | hc
      · simp [PlainName]
      · exact plain_components t c hc
    · rename_i ha
      have ih := plain_components t
      revert hc
      cases h : splitSlash t with
      | nil =>
        intro hc
        simp only [List.mem_cons, List.not_mem_nil, or_false] at hc
        subst hc
        simpa [PlainName] using fun e : '/' = a => ha e.symm
      | cons w ws =>
        intro hc
        rw [h] at ih
        rcases List.mem_cons.1 hc with rfl | hc
        · have := ih w List.mem_cons_self
          unfold PlainName at this ⊢
          rw [List.mem_cons, not_or]
          exact ⟨fun e => ha e.symm, this⟩
        · exact ih c (List.mem_cons_of_mem _ hc)

theorem plain_stem (t : Text) : PlainName (stem (splitSlash t)) := by
  have hne : splitSlash t ≠ [] := by
    cases t with
    | nil => simp [splitSlash]
    | cons a t =>
      unfold splitSlash
      split
      · simp
      · split <;> simp
  have hl : fileName (splitSlash t) ∈ splitSlash t := by
    unfold fileName
    rw [List.getLastD_eq_getLast?, List.getLast?_eq_some_getLast hne]
    exact List.getLast_mem hne
  have hp := plain_components t _ hl
  unfold stem splitExt
  generalize fileName (splitSlash t) = n at hp
  dsimp only
  have hspan := List.takeWhile_append_dropWhile (p := fun c => c != '.') (l := n.reverse)
  rw [List.span_eq_takeWhile_dropWhile]
  cases hd : n.reverse.dropWhile (fun c => c != '.') with
  | nil => exact hp
  | cons c s =>
    dsimp only
    intro hc
    apply hp
    rw [hd] at hspan
    have : '/' ∈ n.reverse := by
      rw [← hspan]
      exact List.mem_append_right _ (List.mem_cons_of_mem _ (List.mem_reverse.1 hc))
    exact List.mem_reverse.1 this

/-! ### orthoproject -/

/-- What a command line asks for: the switch is given. -/
def Asked (args : Args) (name : String) : Prop := args name.toList = some (.bool true)

/-- The command line asks for images with pixels of size `p`. -/
def AsksPixels (T : Toolbox N L K) (args : Args) (p : K) : Prop :=
  Asked args "rasterize" ∧ ∃ t, args "--pixel-size".toList = some (.str t) ∧ T.stod t = .ok p

theorem asBool_ok {args : Args} {n : String} {b : Bool} (h : args.asBool n = .ok b) : args n.toList = some (.bool b) := by
  obtain ⟨a, h1, h2⟩ := Out.bind_eq_ok.1 h
  unfold Args.get at h1
  cases ha : args n.toList with
  | none => rw [ha] at h1; cases h1
  | some x =>
    rw [ha] at h1
    have := Out.ok.inj h1
    subst this
    cases x with
    | bool c => cases h2; rfl
    | _ => cases h2

theorem asString_ok {args : Args} {n : String} {t : Text} (h : args.asString n = .ok t) : args n.toList = some (.str t) := by
  obtain ⟨a, h1, h2⟩ := Out.bind_eq_ok.1 h
  unfold Args.get at h1
  cases ha : args n.toList with
  | none => rw [ha] at h1; cases h1
  | some x =>
    rw [ha] at h1
    have := Out.ok.inj h1
    subst this
    cases x with
    | str c => cases h2; rfl
    | _ => cases h2

/-- What the arguments are when they are accepted. -/
theorem orthoArgs_ok {T : Toolbox N L K} {args : Args} {a : OrthoArgs K} (h : orthoArgs T args = .ok a) :
    (∃ t, args "<scene>".toList = some (.str t) ∧ a.path = splitSlash t) ∧ (a.graphs = true → Asked args "--graphs") ∧ (a.save = true → Asked args "save") ∧
    (a.scene = true → Asked args "--scene") ∧ (a.pixel ≠ 0 → AsksPixels T args a.pixel) := by
  unfold orthoArgs at h
  obtain ⟨path, h1, h⟩ := Out.bind_eq_ok.1 h
  obtain ⟨format, _, h⟩ := Out.bind_eq_ok.1 h
  obtain ⟨prune, _, h⟩ := Out.bind_eq_ok.1 h
  obtain ⟨cache, _, h⟩ := Out.bind_eq_ok.1 h
  obtain ⟨graphs, h2, h⟩ := Out.bind_eq_ok.1 h
  obtain ⟨terrain, _, h⟩ := Out.bind_eq_ok.1 h
  obtain ⟨save, h3, h⟩ := Out.bind_eq_ok.1 h
  obtain ⟨scene, h4, h⟩ := Out.bind_eq_ok.1 h
  obtain ⟨labels, _, h⟩ := Out.bind_eq_ok.1 h
  obtain ⟨rast, h5, h⟩ := Out.bind_eq_ok.1 h
  obtain ⟨pixel, h6, h⟩ := Out.bind_eq_ok.1 h
  cases h
  dsimp only
  refine ⟨⟨path, asString_ok h1, rfl⟩, ?_, ?_, ?_, ?_⟩
  · intro e; subst e; exact asBool_ok h2
  · intro e; subst e; exact asBool_ok h3
  · intro e; subst e
    cases save with
    | false => cases h4
    | true => exact asBool_ok h4
  · intro e
    cases rast with
    | false => cases h6; exact absurd rfl e
    | true =>
      simp only [pixelArg, if_true] at h6
      obtain ⟨t, h7, h8⟩ := Out.bind_eq_ok.1 h6
      exact ⟨asBool_ok h5, t, asString_ok h7, h8⟩

/-- C67: orthoproject changes only what was asked for, beside the scene file: the directory `dual_graphs` if `--graphs` is given; `vectors` if `save` is; the shape file of the
scene if `save` and `--scene` are; `rasters` and the image of the scene only if a pixel size other than zero is given as well. This holds for every command line, every state of the files, and however the
program ends. -/
theorem C67_ortho_confined (T : Toolbox N L K) (args : Args) (fs : Fs) (q : Path) (hq : (orthoMain T args fs).2 q ≠ fs q) :
    ∃ t, args "<scene>".toList = some (.str t) ∧
      ((Asked args "--graphs" ∧ Within ((splitSlash t).dropLast ++ ["dual_graphs".toList]) q) ∨
       (Asked args "save" ∧ Within ((splitSlash t).dropLast ++ ["vectors".toList]) q) ∨
       (Asked args "save" ∧ Asked args "--scene" ∧ q = (splitSlash t).dropLast ++ [stem (splitSlash t) ++ ".shp".toList]) ∨
       (∃ p, p ≠ 0 ∧ AsksPixels T args p ∧ Asked args "save" ∧
         (Within ((splitSlash t).dropLast ++ ["rasters".toList]) q ∨
          (Asked args "--scene" ∧ q = (splitSlash t).dropLast ++ [stem (splitSlash t) ++ ".tiff".toList])))) := by
  have hq' : (orthoRun T args fs).2 q ≠ fs q := by
    unfold orthoMain mainOf at hq
    rcases h : orthoRun T args fs with ⟨o, fs'⟩
    rw [h] at hq
    cases o <;> exact hq
  clear hq
  revert hq'
  suffices h : OnlyChanges (fun q => ∃ t, args "<scene>".toList = some (.str t) ∧
      ((Asked args "--graphs" ∧ Within ((splitSlash t).dropLast ++ ["dual_graphs".toList]) q) ∨
       (Asked args "save" ∧ Within ((splitSlash t).dropLast ++ ["vectors".toList]) q) ∨
       (Asked args "save" ∧ Asked args "--scene" ∧ q = (splitSlash t).dropLast ++ [stem (splitSlash t) ++ ".shp".toList]) ∨
       (∃ p, p ≠ 0 ∧ AsksPixels T args p ∧ Asked args "save" ∧
         (Within ((splitSlash t).dropLast ++ ["rasters".toList]) q ∨
          (Asked args "--scene" ∧ q = (splitSlash t).dropLast ++ [stem (splitSlash t) ++ ".tiff".toList]))))) (orthoRun T args) from h fs q
  refine only_bind (only_reads _ _) fun a ha => ?_
  obtain ⟨_, _, ha⟩ := ha
  obtain ⟨⟨t, ht, hpath⟩, hg, hs, hsc, hp⟩ := orthoArgs_ok (T := T) (args := args) (a := a) (Prod.mk.inj ha).1
  have hname : ∀ e : Text, PlainName e → joinPath a.path.dropLast (stem a.path ++ e) = (splitSlash t).dropLast ++ [stem (splitSlash t) ++ e] := by
    intro e he
    rw [hpath]
    exact joinPath_plain (plain_ext (plain_stem t) he)
  refine only_bind (only_mono (only_input _ _ _ _ _ _) ?_) fun s _ => ?_
  · rintro q ⟨h1, h2⟩
    exact ⟨t, ht, Or.inl ⟨hg h1, hpath ▸ h2⟩⟩
  · split
    · rename_i hsave
      refine only_bind (only_reads _ _) fun ps _ => only_bind (only_mono (only_prints _ _ _ _ _) ?_) fun _ _ => only_bind ?_ fun _ _ => ?_
      · intro q h
        exact ⟨t, ht, Or.inr (Or.inl ⟨hs hsave, hpath ▸ h⟩)⟩
      · split
        · rename_i hscene
          refine only_mono (only_scenePrints _ _ _ _ _ _ _ _) ?_
          rintro q (h | ⟨h0, h⟩)
          · exact ⟨t, ht, Or.inr (Or.inr (Or.inl ⟨hs hsave, hsc hscene, by rw [h]; exact hname _ (by unfold PlainName; decide)⟩))⟩
          · have h0' : a.pixel ≠ 0 := of_decide_eq_true h0
            exact ⟨t, ht, Or.inr (Or.inr (Or.inr ⟨a.pixel, h0', hp h0', hs hsave, Or.inr ⟨hsc hscene, by rw [h]; exact hname _ (by unfold PlainName; decide)⟩⟩))⟩
        · exact only_skip _
      · split
        · rename_i h0
          refine only_bind (only_reads _ _) fun rs _ => only_mono (only_rasters _ _ _) ?_
          intro q h
          exact ⟨t, ht, Or.inr (Or.inr (Or.inr ⟨a.pixel, h0, hp h0, hs hsave, Or.inl (hpath ▸ h)⟩))⟩
        · exact only_skip _
    · exact only_skip _

/-- C67: without `save` and `--graphs` nothing is written, even if images are asked for. -/
theorem C67_ortho_nothing (T : Toolbox N L K) (args : Args) (fs : Fs) (h1 : ¬ Asked args "save") (h2 : ¬ Asked args "--graphs") :
    (orthoMain T args fs).2 = fs := by
  funext q
  by_contra hq
  obtain ⟨t, _, h | h | h | ⟨_, _, _, h, _⟩⟩ := C67_ortho_confined T args fs q hq
  · exact h2 h.1
  · exact h1 h.1
  · exact h1 h.1
  · exact h1 h

/-- C67: the tools never report a failure: whenever the program ends, the exit status is 0. -/
theorem C67_status (T : Toolbox N L K) (args : Args) (fs : Fs) (n : Nat) :
    ((orthoMain T args fs).1 = .ok n → n = 0) ∧ ((formatMain T args fs).1 = .ok n → n = 0) := by
  have : ∀ (x : Act Unit), (mainOf x fs).1 = .ok n → n = 0 := by
    intro x h
    unfold mainOf at h
    rcases hx : x fs with ⟨o, fs'⟩
    rw [hx] at h
    cases o <;> simp_all
  exact ⟨this _, this _⟩

/-! ### cityformat -/

theorem only_offWriteAll (modes : Modes) (p : Path) : ∀ ms : List Mesh, OnlyChanges (Within p) (offWriteAll modes p ms)
  | [] => fun _ _ h => absurd rfl h
  | m :: ms => by
    intro fs q hq
    unfold offWriteAll offWrite at hq
    cases hc : canSave modes with
    | false => rw [hc] at hq; exact absurd rfl hq
    | true =>
      rw [hc] at hq
      simp only [if_true] at hq
      by_cases h1 : fs.put (joinPath p (m.name ++ ".off".toList)) (Off.write m) q = fs q
      · exact only_offWriteAll modes p ms (fs.put (joinPath p (m.name ++ ".off".toList)) (Off.write m)) q (by rw [h1]; exact hq)
      · exact put_only (within_join _ _) _ fs q h1

theorem only_sceneWrite (ops : NodeOps N) (f : SceneFormat) (modes : Modes) (p : Path) (s : Scene N) : OnlyChanges (Within p) (sceneWrite ops f modes p s) := by
  intro fs q hq
  cases f with
  | t3dsXml => exact absurd rfl hq
  | t3ds => exact absurd rfl hq
  | obj =>
    unfold sceneWrite objWrite at hq
    dsimp only at hq
    split at hq
    · split at hq
      · exact put_only ⟨[], by simp⟩ _ fs q hq
      · exact absurd rfl hq
      · exact absurd rfl hq
    · exact absurd rfl hq
  | off =>
    unfold sceneWrite offSceneWrite at hq
    dsimp only at hq
    split at hq
    · split at hq
      · by_cases h1 : fs.set p .dir q = fs q
        · exact only_offWriteAll modes p _ (fs.set p .dir) q (by rw [h1]; exact hq)
        · by_cases h2 : q = p
          · exact ⟨[], by simp [h2]⟩
          · exact absurd (by simp [Fs.set, h2]) h1
      · exact absurd rfl hq
    · exact only_offWriteAll modes p _ _ q hq
    · exact absurd rfl hq

/-- C67: cityformat changes only the output path and, if `--graphs` is given, the directory `dual_graphs` beside the scene; with `--formats` or without `output` it changes nothing. -/
theorem C67_format_confined (T : Toolbox N L K) (args : Args) (fs : Fs) (q : Path) (hq : (formatMain T args fs).2 q ≠ fs q) :
    ∃ t o f, args "<scene>".toList = some (.str t) ∧ args "<path>".toList = some (.str o) ∧ args "--output-format".toList = some (.str f) ∧ ¬ Asked args "--formats" ∧
      ((Asked args "--graphs" ∧ Within ((splitSlash t).dropLast ++ ["dual_graphs".toList]) q) ∨ Within (splitSlash o) q) := by
  have hq' : (formatRun T args fs).2 q ≠ fs q := by
    unfold formatMain mainOf at hq
    rcases h : formatRun T args fs with ⟨o, fs'⟩
    rw [h] at hq
    cases o <;> exact hq
  clear hq
  revert hq'
  suffices h : OnlyChanges (fun q => ∃ t o f, args "<scene>".toList = some (.str t) ∧ args "<path>".toList = some (.str o) ∧
      args "--output-format".toList = some (.str f) ∧ ¬ Asked args "--formats" ∧
      ((Asked args "--graphs" ∧ Within ((splitSlash t).dropLast ++ ["dual_graphs".toList]) q) ∨ Within (splitSlash o) q)) (formatRun T args) from h fs q
  refine only_bind (only_reads _ _) fun a ha => ?_
  obtain ⟨_, _, ha⟩ := ha
  replace ha : formatArgs args = .ok a := (Prod.mk.inj ha).1
  split
  · exact only_skip _
  · rename_i hf
    unfold formatArgs at ha
    obtain ⟨formats, h0, ha⟩ := Out.bind_eq_ok.1 ha
    cases formats with
    | true =>
      simp only [if_true] at ha
      cases ha
      exact absurd rfl hf
    | false =>
      simp only [Bool.false_eq_true, if_false] at ha
      obtain ⟨path, h1, ha⟩ := Out.bind_eq_ok.1 ha
      obtain ⟨format, _, ha⟩ := Out.bind_eq_ok.1 ha
      obtain ⟨prune, _, ha⟩ := Out.bind_eq_ok.1 ha
      obtain ⟨graphs, h2, ha⟩ := Out.bind_eq_ok.1 ha
      obtain ⟨terrain, _, ha⟩ := Out.bind_eq_ok.1 ha
      obtain ⟨o, h3, ha⟩ := Out.bind_eq_ok.1 ha
      obtain ⟨of, h4, ha⟩ := Out.bind_eq_ok.1 ha
      cases ha
      have h0' : ¬ Asked args "--formats" := by
        unfold Asked
        rw [asBool_ok h0]
        decide
      refine only_bind (only_mono (only_input _ _ _ _ _ _) ?_) fun s _ => only_bind (only_reads _ _) fun f _ => ?_
      · rintro q ⟨e, h5⟩
        dsimp only at e h5
        subst e
        exact ⟨path, o, of, asString_ok h1, asString_ok h3, asString_ok h4, h0', Or.inl ⟨asBool_ok h2, h5⟩⟩
      · refine only_mono (only_sceneWrite _ _ _ _ _) ?_
        intro q h5
        exact ⟨path, o, of, asString_ok h1, asString_ok h3, asString_ok h4, h0', Or.inr h5⟩

/-! ### What fails -/

/-- C67 (full statement, false of the code): a tool that ends because of an exception has an exit status other than 0; a tool asked for images makes the images of the buildings or reports a failure; a tool asked for dual
graphs makes the directory `dual_graphs` or reports a failure. -/
def C67_full : Prop := ∀ (N L : Type) (T : Toolbox N L ℚ) (args : Args) (fs : Fs),
  (∀ e n, (orthoRun T args fs).1 = .thrown e → (orthoMain T args fs).1 = .ok n → n ≠ 0) ∧
  (∀ e n, (formatRun T args fs).1 = .thrown e → (formatMain T args fs).1 = .ok n → n ≠ 0) ∧
  (∀ t p, args "<scene>".toList = some (.str t) → p ≠ 0 → AsksPixels T args p → (orthoRun T args fs).1 = .ok () →
    (orthoMain T args fs).2 ((splitSlash t).dropLast ++ ["rasters".toList]) = some .dir) ∧
  (∀ t, args "<scene>".toList = some (.str t) → Asked args "--graphs" → (formatRun T args fs).1 = .ok () →
    (formatMain T args fs).2 ((splitSlash t).dropLast ++ ["dual_graphs".toList]) = some .dir)

/-- C67: a program that is ended by an exception has exit status 0. -/
theorem C67_failure_unreported (T : Toolbox N L K) (args : Args) (fs : Fs) (e : Exc) :
    ((orthoRun T args fs).1 = .thrown e → (orthoMain T args fs).1 = .ok 0) ∧ ((formatRun T args fs).1 = .thrown e → (formatMain T args fs).1 = .ok 0) := by
  have : ∀ (x : Act Unit), (x fs).1 = .thrown e → (mainOf x fs).1 = .ok 0 := by
    intro x h
    unfold mainOf
    rcases hx : x fs with ⟨o, fs'⟩
    rw [hx] at h
    dsimp only at h
    subst h
    rfl
  exact ⟨this _, this _⟩

/-- C67: a command line without `output` (whose `<path>` is then empty) does nothing in cityformat, whatever else it asks for; no failure is reported. -/
theorem C67_format_without_output (T : Toolbox N L K) (args : Args) (fs : Fs) (h : ∀ o, args "<path>".toList ≠ some (.str o)) :
    formatMain T args fs = (.ok 0, fs) := by
  have hfs : (formatMain T args fs).2 = fs := by
    funext q
    by_contra hq
    obtain ⟨_, o, _, _, h2, _⟩ := C67_format_confined T args fs q hq
    exact h o h2
  have hst : (formatMain T args fs).1 = .ok 0 := by
    have key : ∃ o, formatRun T args fs = (o, fs) ∧ o ≠ .ub := by
      unfold formatRun Act.bind Act.reads
      dsimp only
      have getB : ∀ n, args.asBool n ≠ .ub := by
        intro n hn
        unfold Args.asBool Args.get at hn
        cases hx : args n.toList with
        | none => rw [hx] at hn; cases hn
        | some a => rw [hx] at hn; cases a <;> cases hn
      have getS : ∀ n, args.asString n ≠ .ub := by
        intro n hn
        unfold Args.asString Args.get at hn
        cases hx : args n.toList with
        | none => rw [hx] at hn; cases hn
        | some a => rw [hx] at hn; cases a <;> cases hn
      cases ha : formatArgs args with
      | thrown e => exact ⟨_, rfl, by simp⟩
      | ok a =>
        dsimp only
        unfold formatArgs at ha
        obtain ⟨formats, h0, ha⟩ := Out.bind_eq_ok.1 ha
        cases formats with
        | true =>
          simp only [if_true] at ha
          cases ha
          exact ⟨_, rfl, by simp⟩
        | false =>
          exfalso
          simp only [Bool.false_eq_true, if_false] at ha
          obtain ⟨path, h1, ha⟩ := Out.bind_eq_ok.1 ha
          obtain ⟨format, _, ha⟩ := Out.bind_eq_ok.1 ha
          obtain ⟨prune, _, ha⟩ := Out.bind_eq_ok.1 ha
          obtain ⟨graphs, h2, ha⟩ := Out.bind_eq_ok.1 ha
          obtain ⟨terrain, _, ha⟩ := Out.bind_eq_ok.1 ha
          obtain ⟨o, h3, ha⟩ := Out.bind_eq_ok.1 ha
          exact h o (asString_ok h3)
      | ub =>
        exfalso
        unfold formatArgs at ha
        rcases Out.bind_eq_ub.1 ha with h | ⟨b, _, ha⟩
        · exact getB _ h
        cases b with
        | true => cases ha
        | false =>
          simp only [Bool.false_eq_true, if_false] at ha
          rcases Out.bind_eq_ub.1 ha with h | ⟨_, _, ha⟩
          · exact getS _ h
          rcases Out.bind_eq_ub.1 ha with h | ⟨_, _, ha⟩
          · exact getS _ h
          rcases Out.bind_eq_ub.1 ha with h | ⟨_, _, ha⟩
          · exact getB _ h
          rcases Out.bind_eq_ub.1 ha with h | ⟨_, _, ha⟩
          · exact getB _ h
          rcases Out.bind_eq_ub.1 ha with h | ⟨_, _, ha⟩
          · exact getB _ h
          rcases Out.bind_eq_ub.1 ha with h | ⟨_, _, ha⟩
          · exact getS _ h
          rcases Out.bind_eq_ub.1 ha with h | ⟨_, _, ha⟩
          · exact getS _ h
          cases ha
    obtain ⟨o, ho, hub⟩ := key
    unfold formatMain mainOf
    rw [ho]
    cases o with
    | ub => exact absurd rfl hub
    | ok _ => rfl
    | thrown _ => rfl
  exact Prod.ext hst hfs

end

/-! ### Examples -/

/-- A node is a mesh; every projection is a square. -/
def toyTools : Toolbox Mesh Unit ℚ where
  ops := ⟨fun m _ _ => m, fun m => m⟩
  lib := ⟨fun _ => some ⟨[()], .cons ['r'] true (.cons ['F', '1'] true .nil .nil) .nil⟩, fun _ => ['F', '1'], fun _ => Mesh.empty, fun _ => none, fun _ => none, fun _ => none⟩
  rnd := id
  lf := true
  listing := fun _ _ => []
  prune := .ok
  dual := fun m => (m.name, "1\n".toList, .ok ())
  proj := fun m => .ok ⟨m.name, ⟨0, 0, 0⟩, 2154, ⟨some ⟨0, 0, 1, 1⟩, [slab 1 0 0 1 1 3]⟩⟩
  C := rectCgal
  lr := true
  G := ⟨fun _ => "shp".toList, fun _ => none, fun _ => "tiff".toList, fun _ => none, fun _ => -1, fun _ => "0".toList, fun _ => 0⟩
  stod := fun t => if t = ['1'] then .ok 1 else .thrown .invalidArgument

/-- The file `d/a.3ds`, from which the library above reads a building `F1`. -/
def toyFs : Fs := fun p => if p = ["d".toList] then some .dir else
  if p = ["d".toList, "a.3ds".toList] then some (.file "MM".toList) else none

/-- `orthoproject d/a.3ds --input-format=3DS --graphs save --scene rasterize --pixel-size=1`, or without some of it. -/
def toyArgs (graphs save rast : Bool) : Args := fun n =>
  if n = "<scene>".toList then some (.str "d/a.3ds".toList) else
  if n = "--input-format".toList then some (.str "3DS".toList) else
  if n = "--prune".toList then some (.bool true) else
  if n = "--cache".toList then some (.bool false) else
  if n = "--graphs".toList then some (.bool graphs) else
  if n = "--terrain".toList then some (.bool false) else
  if n = "save".toList then some (.bool save) else
  if n = "--scene".toList then some (.bool save) else
  if n = "--labels".toList then some (.bool false) else
  if n = "rasterize".toList then some (.bool rast) else
  if n = "--pixel-size".toList then some (.str ['1']) else none

/-- All outputs of a complete run. -/
example : (orthoRun toyTools (toyArgs true true true) toyFs).1 = .ok () := by decide +kernel
example : ((orthoMain toyTools (toyArgs true true true) toyFs).2 ["d".toList, "rasters".toList, "F1.tiff".toList]) = some (.file "tiff".toList) := by decide +kernel
example : ((orthoMain toyTools (toyArgs true true true) toyFs).2 ["d".toList, "a.shp".toList]) = some (.file "shp".toList) := by decide +kernel
example : ((orthoMain toyTools (toyArgs true true true) toyFs).2 ["d".toList, "dual_graphs".toList, "F1.txt".toList]) = some (.file "1\n".toList) := by decide +kernel

/-- C67 is false, first reason: a run without any argument ends by an exception, with exit status 0. Second reason: images asked for without `save` are not made. -/
theorem C67_refuted : ¬ C67_full := by
  intro h
  exact ((h Mesh Unit toyTools (fun _ => none) toyFs).1 .outOfRange 0 rfl rfl) rfl

/-- C67: a successful run that is asked for images of size 1 and makes none. -/
theorem C67_refuted_rasterize : ∃ (T : Toolbox Mesh Unit ℚ) (args : Args) (fs : Fs), AsksPixels T args 1 ∧ (orthoRun T args fs).1 = .ok () ∧
    (orthoMain T args fs).2 = fs := by
  refine ⟨toyTools, toyArgs false false true, toyFs, ⟨by unfold Asked; decide, ['1'], by decide, by decide +kernel⟩, by decide +kernel, ?_⟩
  exact C67_ortho_nothing _ _ _ (by unfold Asked; decide) (by unfold Asked; decide)

end City.Props
