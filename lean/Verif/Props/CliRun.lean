import Verif.Props.Cli
import Verif.Props.Project
import Verif.Props.SceneObj
import Verif.Props.Extension
/-!
C86: what the command line tools leave behind when nothing goes wrong: which option has which effect.
-/
set_option linter.unusedSectionVars false
namespace City.Spec
open City

/-- The command line gives this text for this option. -/
def Given (args : Args) (n : String) (t : Text) : Prop := args n.toList = some (.str t)

/-- The command line has this switch, on or off. -/
def Switch (args : Args) (n : String) (b : Bool) : Prop := args n.toList = some (.bool b)

/-- `s'` is the scene `s` with its buildings pruned, and its terrain if `te`. -/
def Pruned {N : Type} (pr : N → Out N) (te : Bool) (s s' : Scene N) : Prop :=
  s'.pivot = s.pivot ∧ s'.epsg = s.epsg ∧ List.Forall₂ (fun n n' => pr n = .ok n') s.buildings s'.buildings ∧
  (te = true → pr s.terrain = .ok s'.terrain) ∧ (te = false → s'.terrain = s.terrain)

/-- The scene the tools work on: read from the file `<scene>` as `--input-format` says, then pruned if `--prune` is given. -/
structure InputIs {N L K : Type} (T : Toolbox N L K) (args : Args) (fs : Fs) (t : Text) (te : Bool) (s : Scene N) : Prop where
  scene : Given args "<scene>" t
  terrain : Switch args "--terrain" te
  input : ∃ f F s₀ pr, Given args "--input-format" f ∧ sceneHandlerNamed (splitSlash t) f = .ok F ∧
    sceneRead T.ops T.lib T.rnd T.lf F readMode (splitSlash t) (T.listing fs (splitSlash t)) fs = .ok s₀ ∧
    Switch args "--prune" pr ∧ (pr = true → Pruned T.prune te s₀ s) ∧ (pr = false → s = s₀)

/-- The path is the entry `a` of the directory `root`, or below it. -/
def Under (root : Path) (a : Text) (q : Path) : Prop := ∃ r, q = root ++ a :: r

/-- The results of a run of orthoproject in the directory `root`, for the scene file with stem `st`: the directories and files, with their contents, that the arguments ask for. -/
inductive OrthoResult {N L K : Type} [Field K] [LinearOrder K] (T : Toolbox N L K) (root : Path) (st : Text) (gr sc la : Bool) (px : K) (bs : List N) (ps : List (FootPrint K)) (rs : List (Raster K))
    (total : FootPrint K) (img : Raster K) : Path → Entry → Prop where
  | dualDir (hg : gr = true) : OrthoResult T root st gr sc la px bs ps rs total img (root ++ ["dual_graphs".toList]) .dir
  | dual (hg : gr = true) (b : N) (hb : b ∈ bs) :
      OrthoResult T root st gr sc la px bs ps rs total img (root ++ ["dual_graphs".toList, (T.dual b).1 ++ ".txt".toList]) (.file (T.dual b).2.1)
  | vectorDir : OrthoResult T root st gr sc la px bs ps rs total img (root ++ ["vectors".toList]) .dir
  | shape (f : FootPrint K) (hf : f ∈ ps) :
      OrthoResult T root st gr sc la px bs ps rs total img (root ++ ["vectors".toList, f.name ++ ".shp".toList]) (.file (T.G.shp (f.toOgr T.C la)))
  | attributes (f : FootPrint K) (hf : f ∈ ps) :
      OrthoResult T root st gr sc la px bs ps rs total img (root ++ ["vectors".toList, f.name ++ ".txt".toList]) (.file (attributesText T.C T.G f))
  | sceneShape (hs : sc = true) : OrthoResult T root st gr sc la px bs ps rs total img (root ++ [st ++ ".shp".toList]) (.file (T.G.shp (total.toOgr T.C true)))
  | sceneImage (hs : sc = true) (hp : px ≠ 0) : OrthoResult T root st gr sc la px bs ps rs total img (root ++ [st ++ ".tiff".toList]) (.file (T.G.tiff img.toGdal))
  | imageDir (hp : px ≠ 0) : OrthoResult T root st gr sc la px bs ps rs total img (root ++ ["rasters".toList]) .dir
  | image (hp : px ≠ 0) (r : Raster K) (hr : r ∈ rs) :
      OrthoResult T root st gr sc la px bs ps rs total img (root ++ ["rasters".toList, r.name ++ ".tiff".toList]) (.file (T.G.tiff r.toGdal))

end City.Spec

namespace City.Props
open City City.Spec

theorem asBool_of {args : Args} {n : String} {b : Bool} (h : Switch args n b) : args.asBool n = .ok b := by
  unfold Args.asBool Args.get
  rw [h]; rfl

theorem asString_of {args : Args} {n : String} {t : Text} (h : Given args n t) : args.asString n = .ok t := by
  unfold Args.asString Args.get
  rw [h]; rfl

theorem act_bind_ok {A B : Type} {x : Act A} {k : A → Act B} {fs fs' : Fs} {a : A} (h : x fs = (.ok a, fs')) : Act.bind x k fs = k a fs' := by
  unfold Act.bind
  rw [h]

section
variable {N L K : Type} [Field K] [LinearOrder K] [IsStrictOrderedRing K] [FloorRing K]

theorem prune_of {pr : N → Out N} {te : Bool} {s s' : Scene N} (h : Pruned pr te s s') : scenePrune pr te s = .ok s' := by
  obtain ⟨h1, h2, h3, h4, h5⟩ := h
  unfold scenePrune
  rw [Out.mapM_eq_ok.2 h3, Out.ok_bind]
  cases te with
  | true =>
    simp only [if_true]
    rw [h4 rfl, Out.ok_bind, ← h1, ← h2]
  | false =>
    simp only [Bool.false_eq_true, if_false]
    rw [← h1, ← h2, ← h5 rfl]

/-- The input of the tools; the dual graphs are saved first, if requested. -/
theorem input_of (T : Toolbox N L K) {fs fs1 : Fs} {t f : Text} {te pr gr : Bool} {s s₀ : Scene N} {F : SceneFormat}
    (hF : sceneHandlerNamed (splitSlash t) f = .ok F)
    (hr : sceneRead T.ops T.lib T.rnd T.lf F readMode (splitSlash t) (T.listing fs (splitSlash t)) fs = .ok s₀)
    (hp1 : pr = true → Pruned T.prune te s₀ s) (hp0 : pr = false → s = s₀)
    (hg : if gr then saveBuildingDuals (splitSlash t).dropLast (s.buildings.map T.dual) fs = (.ok (), fs1) else fs1 = fs) :
    inputScene T (splitSlash t) f pr te gr fs = (.ok s, fs1) := by
  unfold inputScene
  have e1 : (Act.reads fun fs => do
      let F ← sceneHandlerNamed (splitSlash t) f
      sceneRead T.ops T.lib T.rnd T.lf F readMode (splitSlash t) (T.listing fs (splitSlash t)) fs) fs = (.ok s₀, fs) := by
    show ((do
      let F ← sceneHandlerNamed (splitSlash t) f
      sceneRead T.ops T.lib T.rnd T.lf F readMode (splitSlash t) (T.listing fs (splitSlash t)) fs : Out (Scene N)), fs) = _
    rw [hF, Out.ok_bind, hr]
  rw [act_bind_ok e1]
  have e2 : (Act.reads fun _ => if pr then scenePrune T.prune te s₀ else .ok s₀) fs = (.ok s, fs) := by
    unfold Act.reads
    cases pr with
    | true => rw [if_pos rfl, prune_of (hp1 rfl)]
    | false => rw [if_neg (by simp), hp0 rfl]
  rw [act_bind_ok e2]
  have e3 : (if gr then saveBuildingDuals (splitSlash t).dropLast (s.buildings.map T.dual) else Act.skip) fs = (.ok (), fs1) := by
    cases gr with
    | true => simpa using hg
    | false => simp only [Bool.false_eq_true, if_false] at hg ⊢; rw [hg]; rfl
  rw [act_bind_ok e3]
  rfl

/-! ### cityformat -/

/-- The files when `cityformat` reaches its output. -/
theorem format_of (T : Toolbox N L K) {args : Args} {fs : Fs} {t o g : Text} {te : Bool} {s : Scene N} {F : SceneFormat} (hno : Switch args "--formats" false)
    (hin : InputIs T args fs t te s) (hg : Switch args "--graphs" false) (ho : Given args "<path>" o) (hof : Given args "--output-format" g)
    (hF : sceneHandlerNamed (splitSlash o) g = .ok F) : formatRun T args fs = sceneWrite T.ops F writeMode (splitSlash o) s fs := by
  obtain ⟨f, F0, s₀, pr, i1, i2, i3, i4, i5, i6⟩ := hin.input
  have ha : formatArgs args = .ok ⟨false, splitSlash t, f, pr, false, te, splitSlash o, g⟩ := by
    unfold formatArgs
    rw [asBool_of hno, Out.ok_bind]
    simp only [Bool.false_eq_true, if_false]
    rw [asString_of hin.scene, Out.ok_bind, asString_of i1, Out.ok_bind, asBool_of i4, Out.ok_bind, asBool_of hg, Out.ok_bind, asBool_of hin.terrain, Out.ok_bind,
      asString_of ho, Out.ok_bind, asString_of hof, Out.ok_bind]
  unfold formatRun
  have e0 : (Act.reads fun _ => formatArgs args) fs = (.ok ⟨false, splitSlash t, f, pr, false, te, splitSlash o, g⟩, fs) := by
    unfold Act.reads; rw [ha]
  rw [act_bind_ok e0]
  simp only [Bool.false_eq_true, if_false]
  rw [act_bind_ok (input_of T i2 i3 i5 i6 (fs1 := fs) (by simp))]
  have e1 : (Act.reads fun _ => sceneHandlerNamed (splitSlash o) g) fs = (.ok F, fs) := by
    unfold Act.reads; rw [hF]
  rw [act_bind_ok e1]

theorem openedWrite_writeMode : OpenedWrite writeMode := canSave_iff.1 (by decide)
theorem openedRead_readMode : OpenedRead readMode := canRead_iff.1 (by decide)

/-- C86: cityformat to OFF: the directory `<path>` holds exactly one OFF file for each building and one for the terrain, with the name and the text of the mesh. -/
theorem C86_format_off (T : Toolbox N L K) (args : Args) (fs : Fs) (t o : Text) (te : Bool) (s : Scene N) (hno : Switch args "--formats" false)
    (hin : InputIs T args fs t te s) (hg : Switch args "--graphs" false) (ho : Given args "<path>" o) (hof : Given args "--output-format" "OFF".toList)
    (hd : FreshDirectory fs (splitSlash o)) (hs : WritableScene (s.buildings.map T.ops.back) (T.ops.back s.terrain))
    (htn : (T.ops.back s.terrain).name ∉ (s.buildings.map T.ops.back).map (·.name)) :
    ∃ fs', formatMain T args fs = (.ok 0, fs') ∧ fs' (splitSlash o) = some .dir ∧
      (∀ m ∈ s.buildings.map T.ops.back ++ [T.ops.back s.terrain], fs' (splitSlash o ++ [m.name ++ ".off".toList]) = some (.file (Off.write m))) ∧
      (∀ n, (∀ m ∈ s.buildings.map T.ops.back ++ [T.ops.back s.terrain], n ≠ m.name ++ ".off".toList) → fs' (splitSlash o ++ [n]) = none) := by
  obtain ⟨fs', h1, h2, h3, h4⟩ := scene_written T.ops writeMode (splitSlash o) fs s openedWrite_writeMode hd _ _ rfl rfl hs htn
  refine ⟨fs', ?_, h2, h3, h4⟩
  unfold formatMain mainOf
  rw [format_of T hno hin hg ho hof (F := .off) (by rfl), h1]

/-- C86: cityformat to OBJ: the file `<path>`, with the extension obj, holds the text of the meshes of the buildings and of the terrain, which is read back as in C85; nothing else changes. -/
theorem C86_format_obj (T : Toolbox N L K) (args : Args) (fs : Fs) (t o : Text) (te : Bool) (s : Scene N) (hno : Switch args "--formats" false)
    (hin : InputIs T args fs t te s) (hg : Switch args "--graphs" false) (ho : Given args "<path>" o) (hof : Given args "--output-format" "OBJ".toList)
    (hx : NamedLike (splitSlash o) "obj".toList) (hw : Writable fs (splitSlash o)) :
    ∃ fs' x, formatMain T args fs = (.ok 0, fs') ∧ Obj.write (s.buildings.map T.ops.back ++ [T.ops.back s.terrain]) = .ok x ∧
      fs' (splitSlash o) = some (.file x) ∧ ∀ q, q ≠ splitSlash o → fs' q = fs q := by
  have hF : sceneHandlerNamed (splitSlash o) "OBJ".toList = .ok .obj := by
    rw [(C31_formats _ _ _).1]
    refine Or.inr (Or.inr (Or.inr ⟨rfl, rfl, ?_⟩))
    exact (iequals_ext (e := "obj".toList) (by decide)).2 hx
  obtain ⟨h1, h2, -⟩ := (C82_obj_partial writeMode (splitSlash o) (s.buildings.map T.ops.back ++ [T.ops.back s.terrain]) fs openedWrite_writeMode).1 (by simp)
  obtain ⟨⟨x, h3, h4⟩, h5⟩ := h2 hw
  refine ⟨_, x, ?_, h3, h4, h5⟩
  unfold formatMain mainOf
  rw [format_of T hno hin hg ho hof hF]
  have e : sceneWrite T.ops .obj writeMode (splitSlash o) s fs = (.ok (), (objWrite writeMode (splitSlash o) (s.buildings.map T.ops.back ++ [T.ops.back s.terrain]) fs).2) :=
    Prod.ext h1 rfl
  rw [e]

/-! ### orthoproject -/

theorem under_ne {root : Path} {a b : Text} (h : a ≠ b) {q : Path} (hq : Under root a q) : ¬ Under root b q := by
  obtain ⟨r, rfl⟩ := hq
  rintro ⟨r', h'⟩
  have := List.append_cancel_left h'
  injection this with h1
  exact h h1

theorem under_root {root : Path} {a : Text} : ¬ Under root a root := by
  rintro ⟨r, h⟩
  have := congrArg List.length h
  simp at this

theorem under_mk {root : Path} {a : Text} (r : Path) : Under root a (root ++ a :: r) := ⟨r, rfl⟩

theorem ready_frame {fs fs' : Fs} {root : Path} {a : Text} {names : List Text} (h : ∀ q, q = root ∨ Under root a q → fs' q = fs q)
    (hr : Ready fs (root ++ [a]) names) : Ready fs' (root ++ [a]) names := by
  refine ⟨?_, ?_⟩
  · rw [h _ (Or.inr (under_mk []))]
    rcases hr.dir_ok with h1 | ⟨h1, h2, h3⟩
    · exact Or.inl h1
    · refine Or.inr ⟨h1, h2, ?_⟩
      rw [List.dropLast_concat] at h3 ⊢
      rw [h _ (Or.inl rfl)]; exact h3
  · intro n hn
    have e : root ++ [a] ++ [n] = root ++ a :: [n] := by simp
    rw [e, h _ (Or.inr (under_mk [n])), ← e]
    exact hr.no_dir n hn

theorem writable_frame {fs fs' : Fs} {root : Path} {a : Text} (h : ∀ q, q = root ∨ Under root a q → fs' q = fs q) (hr : Writable fs (root ++ [a])) :
    Writable fs' (root ++ [a]) := by
  rcases hr with ⟨x, hx⟩ | ⟨h1, d, n, h2, h3⟩
  · exact Or.inl ⟨x, by rw [h _ (Or.inr (under_mk []))]; exact hx⟩
  · refine Or.inr ⟨by rw [h _ (Or.inr (under_mk []))]; exact h1, root, a, rfl, ?_⟩
    have : root = d := by
      have := congrArg List.dropLast h2
      simpa using this
    rw [h _ (Or.inl rfl), this]; exact h3

/-- What a complete run of orthoproject needs: everything that is requested can be computed and written. `ps` are the footprints, `rs` their images, `total` the footprint of the scene and `img` its
image. -/
structure RunOk (T : Toolbox N L K) (args : Args) (fs : Fs) (t : Text) (te gr sc la : Bool) (px : K) (s : Scene N) (ps : List (FootPrint K)) (rs : List (Raster K))
    (total : FootPrint K) (img : Raster K) : Prop where
  input : InputIs T args fs t te s
  cache : ∃ b, Switch args "--cache" b
  graphs : Switch args "--graphs" gr
  save : Switch args "save" true
  scene : Switch args "--scene" sc
  labels : Switch args "--labels" la
  pixel : (Switch args "rasterize" false ∧ px = 0) ∨ AsksPixels T args px
  prints : List.Forall₂ (fun n f => T.proj n = .ok f) (s.buildings ++ if te then [s.terrain] else []) ps
  printNames : (ps.map FootPrint.name).Nodup ∧ ∀ f ∈ ps, PlainName f.name
  dualsOk : gr = true → (s.buildings.map fun b => (T.dual b).1).Nodup ∧ (∀ b ∈ s.buildings, PlainName (T.dual b).1 ∧ (T.dual b).2.2 = .ok ()) ∧
    Ready fs ((splitSlash t).dropLast ++ ["dual_graphs".toList]) (s.buildings.map fun b => (T.dual b).1 ++ ".txt".toList)
  vectors : Ready fs ((splitSlash t).dropLast ++ ["vectors".toList]) (ps.flatMap fun f => [f.name ++ ".shp".toList, f.name ++ ".txt".toList])
  sum : sc = true → sumFootPrints T.C ps FootPrint.empty = .ok total ∧ Writable fs ((splitSlash t).dropLast ++ [stem (splitSlash t) ++ ".shp".toList])
  image : sc = true → px ≠ 0 → Raster.ofFootPrint T.C T.lr total px = .ok img ∧ img.width ≠ 0 ∧ img.height ≠ 0 ∧
    Writable fs ((splitSlash t).dropLast ++ [stem (splitSlash t) ++ ".tiff".toList])
  images : px ≠ 0 → List.Forall₂ (fun f r => Raster.ofFootPrint T.C T.lr f px = .ok r) ps rs ∧ (∀ r ∈ rs, r.width ≠ 0 ∧ r.height ≠ 0) ∧
    Ready fs ((splitSlash t).dropLast ++ ["rasters".toList]) (ps.map fun f => f.name ++ ".tiff".toList)

theorem raster_name {C : Cgal K} {lr : Bool} {f : FootPrint K} {p : K} {r : Raster K} (hr : Raster.ofFootPrint C lr f p = .ok r) : r.name = f.name := by
  unfold Raster.ofFootPrint at hr
  split at hr
  · cases hr
  · obtain ⟨_, _, hr⟩ := Out.bind_eq_ok.1 hr
    obtain ⟨_, _, hr⟩ := Out.bind_eq_ok.1 hr
    obtain ⟨_, _, hr⟩ := Out.bind_eq_ok.1 hr
    exact (offset_meta hr).1

theorem ext_ne {n e m : Text} (h : ∀ c ∈ e.getLast?, c ∉ m.getLast?) (he : e ≠ []) : n ++ e ≠ m := by
  rintro rfl
  have h1 : (n ++ e).getLast? = e.getLast? := by rw [List.getLast?_append, Option.or_of_isSome]; simpa [List.getLast?_isSome] using he
  rw [h1] at h
  obtain ⟨c, hc⟩ := Option.isSome_iff_exists.1 (List.getLast?_isSome.2 he)
  exact h c hc hc

/-- First step: the dual graphs. -/
theorem step_duals (T : Toolbox N L K) (root : Path) (gr : Bool) (bs : List N) (fs : Fs)
    (hd : gr = true → (bs.map fun b => (T.dual b).1).Nodup ∧ (∀ b ∈ bs, PlainName (T.dual b).1 ∧ (T.dual b).2.2 = .ok ()) ∧
      Ready fs (root ++ ["dual_graphs".toList]) (bs.map fun b => (T.dual b).1 ++ ".txt".toList)) :
    ∃ fs1, (if gr then saveBuildingDuals root (bs.map T.dual) fs = (.ok (), fs1) else fs1 = fs) ∧
      (∀ q, (gr = true → q ≠ root ++ ["dual_graphs".toList] ∧ ∀ b ∈ bs, q ≠ root ++ ["dual_graphs".toList, (T.dual b).1 ++ ".txt".toList]) → fs1 q = fs q) ∧
      (gr = true → fs1 (root ++ ["dual_graphs".toList]) = some .dir) ∧
      (gr = true → ∀ b ∈ bs, fs1 (root ++ ["dual_graphs".toList, (T.dual b).1 ++ ".txt".toList]) = some (.file (T.dual b).2.1)) := by
  cases gr with
  | false => exact ⟨fs, by simp, fun _ _ => rfl, by simp, by simp⟩
  | true =>
    obtain ⟨h1, h2, h3⟩ := hd rfl
    obtain ⟨fs1, a1, a2, a3, a4⟩ := C68_duals_partial root (bs.map fun b => ((T.dual b).1, (T.dual b).2.1)) fs (by rw [List.map_map]; exact h1)
      (by intro x hx; obtain ⟨b, hb, rfl⟩ := List.mem_map.1 hx; exact (h2 b hb).1) (by rw [List.map_map]; exact h3)
    refine ⟨fs1, ?_, ?_, fun _ => a2, ?_⟩
    · rw [if_pos rfl]
      rw [List.map_map] at a1
      rw [← a1]
      congr 1
      apply List.map_congr_left
      intro b hb
      show T.dual b = ((T.dual b).1, (T.dual b).2.1, .ok ())
      rw [← (h2 b hb).2]
    · intro q hq
      refine a4 q (hq rfl).1 ?_
      intro x hx
      obtain ⟨b, hb, rfl⟩ := List.mem_map.1 hx
      exact (hq rfl).2 b hb
    · intro _ b hb
      exact a3 _ (List.mem_map.2 ⟨b, hb, rfl⟩)

/-- Third step: the prints of the whole scene. -/
theorem step_scene (T : Toolbox N L K) (root : Path) (st : Text) (hst : PlainName st) (sc : Bool) (px : K) (ps : List (FootPrint K)) (total : FootPrint K) (img : Raster K) (fs : Fs)
    (hs : sc = true → sumFootPrints T.C ps FootPrint.empty = .ok total ∧ Writable fs (root ++ [st ++ ".shp".toList]))
    (hi : sc = true → px ≠ 0 → Raster.ofFootPrint T.C T.lr total px = .ok img ∧ img.width ≠ 0 ∧ img.height ≠ 0 ∧ Writable fs (root ++ [st ++ ".tiff".toList])) :
    ∃ fs1, (if sc then saveScenePrints T.C T.lr T.G root st ps (decide (px ≠ 0)) px else Act.skip) fs = (.ok (), fs1) ∧
      (∀ q, (sc = true → q ≠ root ++ [st ++ ".shp".toList] ∧ (px ≠ 0 → q ≠ root ++ [st ++ ".tiff".toList])) → fs1 q = fs q) ∧
      (sc = true → fs1 (root ++ [st ++ ".shp".toList]) = some (.file (T.G.shp (total.toOgr T.C true)))) ∧
      (sc = true → px ≠ 0 → fs1 (root ++ [st ++ ".tiff".toList]) = some (.file (T.G.tiff img.toGdal))) := by
  cases sc with
  | false => exact ⟨fs, rfl, fun _ _ => rfl, by simp, by simp⟩
  | true =>
    obtain ⟨h1, h2⟩ := hs rfl
    have j1 : joinPath root (st ++ ".shp".toList) = root ++ [st ++ ".shp".toList] := joinPath_plain (plain_ext hst (by unfold PlainName; decide))
    have j2 : joinPath root (st ++ ".tiff".toList) = root ++ [st ++ ".tiff".toList] := joinPath_plain (plain_ext hst (by unfold PlainName; decide))
    have n7 : st ++ ".shp".toList ≠ st ++ ".tiff".toList := fun e => absurd (List.append_cancel_left e) (by decide)
    have e1 := vectorPut_writes T.C T.G (root ++ [st ++ ".shp".toList]) total true fs (canWrite_iff.2 h2)
    rw [if_pos rfl]
    unfold saveScenePrints
    rw [h1]
    dsimp only
    rw [j1, j2, e1]
    unfold andThen
    dsimp only
    by_cases hp : px = 0
    · rw [if_neg (by simp [hp])]
      refine ⟨_, rfl, fun q q1 => ?_, fun _ => if_pos rfl, fun _ h => absurd hp h⟩
      exact if_neg (q1 rfl).1
    · obtain ⟨i1, i2, i3, i4⟩ := hi rfl hp
      rw [if_pos (by simp [hp]), i1]
      dsimp only
      have w : Writable (fs.set (root ++ [st ++ ".shp".toList]) (.file (T.G.shp (total.toOgr T.C true)))) (root ++ [st ++ ".tiff".toList]) := by
        refine writable_frame ?_ i4
        intro q hq
        refine if_neg ?_
        rintro rfl
        rcases hq with hq | hq
        · have := congrArg List.length hq
          simp at this
        · exact under_ne n7.symm hq (under_mk [])
      rw [rasterPut_writes T.G (root ++ [st ++ ".tiff".toList]) img i2 i3 _ (canWrite_iff.2 w)]
      refine ⟨_, rfl, fun q q1 => ?_, fun _ => ?_, fun _ _ => if_pos rfl⟩
      · unfold Fs.set
        rw [if_neg ((q1 rfl).2 hp), if_neg (q1 rfl).1]
      · unfold Fs.set
        rw [if_neg, if_pos rfl]
        intro e
        have := List.append_cancel_left e
        injection this with e
        exact n7 e

/-- Last step: the images. -/
theorem step_images (T : Toolbox N L K) (root : Path) (px : K) (ps : List (FootPrint K)) (rs : List (Raster K)) (fs : Fs)
    (hn : (ps.map FootPrint.name).Nodup ∧ ∀ f ∈ ps, PlainName f.name)
    (hi : px ≠ 0 → List.Forall₂ (fun f r => Raster.ofFootPrint T.C T.lr f px = .ok r) ps rs ∧ (∀ r ∈ rs, r.width ≠ 0 ∧ r.height ≠ 0) ∧
      Ready fs (root ++ ["rasters".toList]) (ps.map fun f => f.name ++ ".tiff".toList)) :
    ∃ fs1, (if px ≠ 0 then Act.bind (Act.reads fun _ => rasterizeScene T.C T.lr ps px) fun rs => saveBuildingRasters T.G root rs else Act.skip) fs = (.ok (), fs1) ∧
      (∀ q, (px ≠ 0 → q ≠ root ++ ["rasters".toList] ∧ ∀ r ∈ rs, q ≠ root ++ ["rasters".toList, r.name ++ ".tiff".toList]) → fs1 q = fs q) ∧
      (px ≠ 0 → fs1 (root ++ ["rasters".toList]) = some .dir) ∧
      (px ≠ 0 → ∀ r ∈ rs, fs1 (root ++ ["rasters".toList, r.name ++ ".tiff".toList]) = some (.file (T.G.tiff r.toGdal))) := by
  by_cases hp : px = 0
  · exact ⟨fs, by rw [if_neg (by simp [hp])]; rfl, fun _ _ => rfl, fun h => absurd hp h, fun h => absurd hp h⟩
  · obtain ⟨h1, h2, h3⟩ := hi hp
    have hr : rasterizeScene T.C T.lr ps px = .ok rs := by
      unfold rasterizeScene
      rw [Out.mapM_eq_ok.2 h1, Out.ok_bind]
      exact writeOver_same _ _ (by rw [List.length_replicate, h1.length_eq])
    have hnm : rs.map Raster.name = ps.map FootPrint.name := by
      clear hr hn h2 h3 hi
      induction h1 with
      | nil => rfl
      | cons h _ ih => rw [List.map_cons, List.map_cons, ih, raster_name h]
    obtain ⟨fs1, a1, a0, a2, a3⟩ := C68_rasters_partial T.G root rs fs (by rw [hnm]; exact hn.1) (by
      intro r hr'
      have : r.name ∈ ps.map FootPrint.name := hnm ▸ List.mem_map_of_mem hr'
      obtain ⟨f, hf, he⟩ := List.mem_map.1 this
      rw [← he]; exact hn.2 f hf) h2 (by
      have e : ∀ l : List Text, l.map (fun n => n ++ ".tiff".toList) = l.map (fun n => n ++ ".tiff".toList) := fun _ => rfl
      have e1 : (rs.map fun r => r.name ++ ".tiff".toList) = (rs.map Raster.name).map fun n => n ++ ".tiff".toList := by rw [List.map_map]; rfl
      have e2 : (ps.map fun r => r.name ++ ".tiff".toList) = (ps.map FootPrint.name).map fun n => n ++ ".tiff".toList := by rw [List.map_map]; rfl
      rw [e1, hnm, ← e2]; exact h3)
    refine ⟨fs1, ?_, fun q hq => a3 q (hq hp).1 (hq hp).2, fun _ => a0, fun _ => a2⟩
    rw [if_pos hp]
    have e1 : (Act.reads fun _ => rasterizeScene T.C T.lr ps px) fs = (.ok rs, fs) := by
      show (rasterizeScene T.C T.lr ps px, fs) = _
      rw [hr]
    rw [act_bind_ok e1]
    exact a1

/-- C86: a complete run of orthoproject, exactly: every result is on the disk afterwards with the right contents, and what is not a result is as it was before. -/
theorem C86_exact (T : Toolbox N L K) (args : Args) (fs : Fs) (t : Text) (te gr sc la : Bool) (px : K) (s : Scene N) (ps : List (FootPrint K)) (rs : List (Raster K))
    (total : FootPrint K) (img : Raster K) (h : RunOk T args fs t te gr sc la px s ps rs total img) :
    ∃ fs', orthoMain T args fs = (.ok 0, fs') ∧
      (∀ q e, OrthoResult T (splitSlash t).dropLast (stem (splitSlash t)) gr sc la px s.buildings ps rs total img q e → fs' q = some e) ∧
      (∀ q, (∀ e, ¬ OrthoResult T (splitSlash t).dropLast (stem (splitSlash t)) gr sc la px s.buildings ps rs total img q e) → fs' q = fs q) := by
  obtain ⟨f, F0, s₀, pr, i1, i2, i3, i4, i5, i6⟩ := h.input.input
  obtain ⟨cache, hcache⟩ := h.cache
  have ha : orthoArgs T args = .ok ⟨splitSlash t, f, pr, cache, gr, te, true, sc, la, px⟩ := by
    unfold orthoArgs
    rw [asString_of h.input.scene, Out.ok_bind, asString_of i1, Out.ok_bind, asBool_of i4, Out.ok_bind, asBool_of hcache, Out.ok_bind, asBool_of h.graphs, Out.ok_bind,
      asBool_of h.input.terrain, Out.ok_bind, asBool_of h.save, Out.ok_bind]
    unfold Args.boolIf
    rw [if_pos rfl, if_pos rfl, asBool_of h.scene, Out.ok_bind, asBool_of h.labels, Out.ok_bind]
    rcases h.pixel with ⟨h1, h2⟩ | ⟨h1, x, h2, h3⟩
    · rw [asBool_of h1, Out.ok_bind]
      unfold pixelArg
      rw [if_neg (by simp), h2]; rfl
    · rw [asBool_of h1, Out.ok_bind]
      unfold pixelArg
      rw [if_pos rfl, asString_of h2, Out.ok_bind, h3]; rfl
  have hplain := plain_stem t
  have hvec := h.vectors
  have hsum := h.sum
  have himage := h.image
  have himages := h.images
  obtain ⟨fs1, u1, u2', u0, u3⟩ := step_duals T (splitSlash t).dropLast gr s.buildings fs h.dualsOk
  have hinput := input_of T i2 i3 i5 i6 u1
  unfold orthoMain mainOf orthoRun
  have e0 : (Act.reads fun _ => orthoArgs T args) fs = (.ok ⟨splitSlash t, f, pr, cache, gr, te, true, sc, la, px⟩, fs) := by
    show (orthoArgs T args, fs) = _
    rw [ha]
  rw [act_bind_ok e0, act_bind_ok hinput, if_pos rfl]
  have e1 : (Act.reads fun _ => orthoproject T.proj s te) fs1 = (.ok ps, fs1) := by
    show (orthoproject T.proj s te, fs1) = _
    rw [C66_projection, Out.mapM_eq_ok.2 h.prints]
  dsimp only
  rw [act_bind_ok e1]
  generalize (splitSlash t).dropLast = root at *
  generalize stem (splitSlash t) = st at *
  have u2 : ∀ q, ¬ Under root "dual_graphs".toList q → fs1 q = fs q := fun q hq => u2' q fun _ => ⟨fun e => hq ⟨[], e⟩, fun b _ e => hq ⟨_, e⟩⟩
  have n1 : st ++ ".shp".toList ≠ "vectors".toList := ext_ne (by decide) (by decide)
  have n2 : st ++ ".shp".toList ≠ "dual_graphs".toList := ext_ne (by decide) (by decide)
  have n3 : st ++ ".shp".toList ≠ "rasters".toList := ext_ne (by decide) (by decide)
  have n4 : st ++ ".tiff".toList ≠ "vectors".toList := ext_ne (by decide) (by decide)
  have n5 : st ++ ".tiff".toList ≠ "dual_graphs".toList := ext_ne (by decide) (by decide)
  have n6 : st ++ ".tiff".toList ≠ "rasters".toList := ext_ne (by decide) (by decide)
  have n8 : "dual_graphs".toList ≠ "vectors".toList := by decide
  have n9 : "dual_graphs".toList ≠ "rasters".toList := by decide
  have n0 : "vectors".toList ≠ "rasters".toList := by decide
  obtain ⟨fs2, v1, v0, v2, v3⟩ := C68_prints_partial T.C T.G root ps la fs1 h.printNames.1 h.printNames.2 (ready_frame (by
    rintro q (rfl | hq)
    · exact u2 _ under_root
    · exact u2 _ (under_ne n8.symm hq)) hvec)
  have v4 : ∀ q, ¬ Under root "vectors".toList q → fs2 q = fs1 q := fun q hq => v3 q (fun e => hq ⟨[], e⟩) (fun f _ => ⟨fun e => hq ⟨_, e⟩, fun e => hq ⟨_, e⟩⟩)
  rw [act_bind_ok v1]
  obtain ⟨fs3, w1, w2', w3, w4⟩ := step_scene T root st hplain sc px ps total img fs2
    (fun hs => ⟨(hsum hs).1, writable_frame (by
      rintro q (rfl | hq)
      · rw [v4 _ under_root, u2 _ under_root]
      · rw [v4 _ (under_ne n1 hq), u2 _ (under_ne n2 hq)]) (hsum hs).2⟩)
    (fun hs hp => ⟨(himage hs hp).1, (himage hs hp).2.1, (himage hs hp).2.2.1, writable_frame (by
      rintro q (rfl | hq)
      · rw [v4 _ under_root, u2 _ under_root]
      · rw [v4 _ (under_ne n4 hq), u2 _ (under_ne n5 hq)]) (himage hs hp).2.2.2⟩)
  rw [act_bind_ok w1]
  have w2 : ∀ q, ¬ Under root (st ++ ".shp".toList) q → ¬ Under root (st ++ ".tiff".toList) q → fs3 q = fs2 q :=
    fun q q1 q2 => w2' q fun _ => ⟨fun e => q1 ⟨[], e⟩, fun _ e => q2 ⟨[], e⟩⟩
  obtain ⟨fs4, x1, x2', x0, x3⟩ := step_images T root px ps rs fs3 h.printNames
    (fun hp => ⟨(himages hp).1, (himages hp).2.1, ready_frame (by
      rintro q (rfl | hq)
      · rw [w2 _ under_root under_root, v4 _ under_root, u2 _ under_root]
      · rw [w2 _ (under_ne n3.symm hq) (under_ne n6.symm hq), v4 _ (under_ne n0.symm hq), u2 _ (under_ne n9.symm hq)]) (himages hp).2.2⟩)
  rw [x1]
  have x2 : ∀ q, ¬ Under root "rasters".toList q → fs4 q = fs3 q := fun q hq => x2' q fun _ => ⟨fun e => hq ⟨[], e⟩, fun r _ e => hq ⟨_, e⟩⟩
  have duals : ∀ q, Under root "dual_graphs".toList q → fs4 q = fs1 q := by
    intro q hq
    rw [x2 _ (under_ne n9 hq), w2 _ (under_ne n2.symm hq) (under_ne n5.symm hq), v4 _ (under_ne n8 hq)]
  have vecs : ∀ q, Under root "vectors".toList q → fs4 q = fs2 q := by
    intro q hq
    rw [x2 _ (under_ne n0 hq), w2 _ (under_ne n1.symm hq) (under_ne n4.symm hq)]
  refine ⟨fs4, rfl, ?_, ?_⟩
  · intro q e hq
    cases hq with
    | dualDir hg => rw [duals _ (under_mk [])]; exact u0 hg
    | dual hg b hb => rw [duals _ (under_mk _)]; exact u3 hg b hb
    | vectorDir => rw [vecs _ (under_mk [])]; exact v0
    | shape f hf => rw [vecs _ (under_mk _)]; exact (v2 f hf).1
    | attributes f hf => rw [vecs _ (under_mk _)]; exact (v2 f hf).2
    | sceneShape hs => rw [x2 _ (under_ne n3 (under_mk []))]; exact w3 hs
    | sceneImage hs hp => rw [x2 _ (under_ne n6 (under_mk []))]; exact w4 hs hp
    | imageDir hp => exact x0 hp
    | image hp r hr => exact x3 hp r hr
  · intro q hq
    have no : ∀ {q' : Path} {e : Entry}, OrthoResult T root st gr sc la px s.buildings ps rs total img q' e → q ≠ q' := by
      rintro q' e h rfl
      exact hq e h
    rw [x2' q fun hp => ⟨no (.imageDir hp), fun r hr => no (.image hp r hr)⟩,
      w2' q fun hs => ⟨no (.sceneShape hs), fun hp => no (.sceneImage hs hp)⟩,
      v3 q (no (.vectorDir)) (fun f hf => ⟨no (.shape f hf), no (.attributes f hf)⟩),
      u2' q fun hg => ⟨no (.dualDir hg), fun b hb => no (.dual hg b hb)⟩]

/-- C86: a complete run of orthoproject: the files of all that was requested are there, with the right contents. The dual graphs of the buildings; the shape files, with labels as requested, and the attributes
of every footprint; the shape file of the whole scene; images of the requested pixel size. -/
theorem C86_ortho (T : Toolbox N L K) (args : Args) (fs : Fs) (t : Text) (te gr sc la : Bool) (px : K) (s : Scene N) (ps : List (FootPrint K)) (rs : List (Raster K))
    (total : FootPrint K) (img : Raster K) (h : RunOk T args fs t te gr sc la px s ps rs total img) :
    ∃ fs', orthoMain T args fs = (.ok 0, fs') ∧
      (gr = true → ∀ b ∈ s.buildings, fs' ((splitSlash t).dropLast ++ ["dual_graphs".toList, (T.dual b).1 ++ ".txt".toList]) = some (.file (T.dual b).2.1)) ∧
      (∀ f ∈ ps, fs' ((splitSlash t).dropLast ++ ["vectors".toList, f.name ++ ".shp".toList]) = some (.file (T.G.shp (f.toOgr T.C la))) ∧
        fs' ((splitSlash t).dropLast ++ ["vectors".toList, f.name ++ ".txt".toList]) = some (.file (attributesText T.C T.G f))) ∧
      (sc = true → fs' ((splitSlash t).dropLast ++ [stem (splitSlash t) ++ ".shp".toList]) = some (.file (T.G.shp (total.toOgr T.C true)))) ∧
      (sc = true → px ≠ 0 → fs' ((splitSlash t).dropLast ++ [stem (splitSlash t) ++ ".tiff".toList]) = some (.file (T.G.tiff img.toGdal))) ∧
      (px ≠ 0 → ∀ r ∈ rs, fs' ((splitSlash t).dropLast ++ ["rasters".toList, r.name ++ ".tiff".toList]) = some (.file (T.G.tiff r.toGdal))) := by
  obtain ⟨fs', h1, h2, -⟩ := C86_exact T args fs t te gr sc la px s ps rs total img h
  exact ⟨fs', h1, fun hg b hb => h2 _ _ (.dual hg b hb), fun f hf => ⟨h2 _ _ (.shape f hf), h2 _ _ (.attributes f hf)⟩, fun hs => h2 _ _ (.sceneShape hs),
    fun hs hp => h2 _ _ (.sceneImage hs hp), fun hp r hr => h2 _ _ (.image hp r hr)⟩

end

/-- The building read in the example of C67. -/
def toyBuilding : Mesh := (Mesh.sumFrom Mesh.empty [Mesh.empty]).setName ['F', '1']

/-- The footprint of this building. -/
def toyPrint : FootPrint ℚ := ⟨['F', '1'], ⟨0, 0, 0⟩, 2154, ⟨some ⟨0, 0, 1, 1⟩, [slab 1 0 0 1 1 3]⟩⟩

/-- The scene read in the example of C67. -/
def toyScene : Scene Mesh := ⟨⟨0, 0, 0⟩, 2154, [toyBuilding], Mesh.empty.setName "terrain".toList⟩

theorem toy_read : sceneRead toyTools.ops toyTools.lib toyTools.rnd toyTools.lf .t3ds readMode (splitSlash "d/a.3ds".toList) (toyTools.listing toyFs (splitSlash "d/a.3ds".toList)) toyFs =
    .ok toyScene := by rfl

/-- The example of C67 meets the hypotheses of C86. -/
theorem toy_run : ∃ total img r, RunOk toyTools (toyArgs true true true) toyFs "d/a.3ds".toList false true true false 1 toyScene [toyPrint] [r] total img := by
  obtain ⟨total, h1⟩ : ∃ total, sumFootPrints toyTools.C [toyPrint] FootPrint.empty = .ok total := ⟨_, rfl⟩
  have h2 : (match Raster.ofFootPrint rectCgal true toyPrint 1 with | .ok r => decide (r.width ≠ 0 ∧ r.height ≠ 0) | _ => false) = true := by decide +kernel
  have h3 : (match (do let f ← sumFootPrints rectCgal [toyPrint] FootPrint.empty; Raster.ofFootPrint rectCgal true f 1 : Out (Raster ℚ)) with
    | .ok r => decide (r.width ≠ 0 ∧ r.height ≠ 0) | _ => false) = true := by decide +kernel
  have h1' : sumFootPrints rectCgal [toyPrint] FootPrint.empty = .ok total := h1
  rw [h1', Out.ok_bind] at h3
  cases h4 : Raster.ofFootPrint rectCgal true toyPrint 1 with
  | thrown e => rw [h4] at h2; cases h2
  | ub => rw [h4] at h2; cases h2
  | ok r =>
    cases h5 : Raster.ofFootPrint rectCgal true total 1 with
    | thrown e => rw [h5] at h3; cases h3
    | ub => rw [h5] at h3; cases h3
    | ok img =>
      rw [h4] at h2
      rw [h5] at h3
      have h2 := of_decide_eq_true h2
      have h3 := of_decide_eq_true h3
      refine ⟨total, img, r, ?_⟩
      exact
        { input := ⟨by unfold Given; decide, by unfold Switch; decide, "3DS".toList, .t3ds, toyScene, true, by unfold Given; decide, by decide, toy_read, by unfold Switch; decide,
            fun _ => ⟨rfl, rfl, List.Forall₂.cons rfl List.Forall₂.nil, by simp, fun _ => rfl⟩, by simp⟩
          cache := ⟨false, by unfold Switch; decide⟩
          graphs := by unfold Switch; decide
          save := by unfold Switch; decide
          scene := by unfold Switch; decide
          labels := by unfold Switch; decide
          pixel := Or.inr ⟨by unfold Asked; decide, ['1'], by decide, by decide +kernel⟩
          prints := List.Forall₂.cons rfl List.Forall₂.nil
          printNames := ⟨by simp, by unfold PlainName; decide⟩
          dualsOk := fun _ => ⟨by decide, by unfold PlainName; decide, Or.inr (by decide), by decide⟩
          vectors := ⟨Or.inr (by decide), by decide⟩
          sum := fun _ => ⟨h1, Or.inr ⟨by decide, ["d".toList], "a.shp".toList, by decide, by decide⟩⟩
          image := fun _ _ => ⟨h5, h3.1, h3.2, Or.inr ⟨by decide, ["d".toList], "a.tiff".toList, by decide, by decide⟩⟩
          images := fun _ => ⟨List.Forall₂.cons h4 List.Forall₂.nil, by simpa using h2, Or.inr (by decide), by decide⟩ }

/-- `cityformat d/a.3ds <path> --input-format=3DS --prune --output-format=<format>`. -/
def toyFormat (path format : Text) : Args := fun n =>
  if n = "--formats".toList then some (.bool false) else
  if n = "<path>".toList then some (.str path) else
  if n = "--output-format".toList then some (.str format) else toyArgs false false false n

/-- Conversions of the same file, to `d/o.OBJ` and to the new directory `d/out`, meet the hypotheses of C86. -/
example : InputIs toyTools (toyFormat "d/o.OBJ".toList "OBJ".toList) toyFs "d/a.3ds".toList false toyScene ∧
    NamedLike (splitSlash "d/o.OBJ".toList) "obj".toList ∧ Writable toyFs (splitSlash "d/o.OBJ".toList) :=
  ⟨⟨by unfold Given; decide, by unfold Switch; decide, "3DS".toList, .t3ds, toyScene, true, by unfold Given; decide, by decide, toy_read, by unfold Switch; decide,
    fun _ => ⟨rfl, rfl, List.Forall₂.cons rfl List.Forall₂.nil, by simp, fun _ => rfl⟩, by simp⟩,
   ⟨[['d']], ['o'], ['O', 'B', 'J'], by decide, List.Forall₂.cons (Or.inr (by decide)) (List.Forall₂.cons (Or.inr (by decide)) (List.Forall₂.cons (Or.inr (by decide)) List.Forall₂.nil))⟩,
   Or.inr ⟨by decide, [['d']], "o.OBJ".toList, by decide, by decide⟩⟩
example : FreshDirectory toyFs (splitSlash "d/out".toList) ∧ WritableScene (toyScene.buildings.map toyTools.ops.back) (toyTools.ops.back toyScene.terrain) ∧
    (toyTools.ops.back toyScene.terrain).name ∉ (toyScene.buildings.map toyTools.ops.back).map (·.name) := by
  refine ⟨⟨fun n => ?_, Or.inr ⟨by decide, by decide⟩⟩, ⟨?_, ?_, by decide, by decide⟩, by decide⟩
  · have : splitSlash "d/out".toList = ["d".toList, "out".toList] := by decide
    rw [this]
    unfold toyFs
    rw [if_neg (by simp), if_neg (by simp)]
  · intro m hm
    have : m = Mesh.empty.setName "terrain".toList ∨ m = toyBuilding := by simpa [toyScene, toyTools] using hm
    rcases this with rfl | rfl <;> refine ⟨fun p hp => absurd (show p ∈ ([] : List (V3 ℚ)) from hp) (by simp), by decide, ⟨by decide, by decide, by decide⟩, by decide⟩
  · intro m hm
    have : m = Mesh.empty.setName "terrain".toList ∨ m = toyBuilding := by simpa [toyScene, toyTools] using hm
    rcases this with rfl | rfl <;> unfold FileNameOk <;> decide

end City.Props
