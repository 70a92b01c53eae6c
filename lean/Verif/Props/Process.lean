import Verif.Model.Process
import Verif.Props.Crash
import Verif.Props.Repeat
/-!
C120: tools that run at the same time on separate scenes. First: a process that is left alone does what the functions of Model/Console say.
-/
set_option linter.unusedSectionVars false
namespace City.Props
open City City.Spec

/-! ### A process left alone -/

theorem alone_after {A B : Type} (M : Machine) (f : Out A → Prog B) : ∀ (x : Prog A) (fs : Fs),
    (x.after f).alone M fs = (((f (x.alone M fs).1).alone M (x.alone M fs).2.1).1, ((f (x.alone M fs).1).alone M (x.alone M fs).2.1).2.1,
      (x.alone M fs).2.2 ++ ((f (x.alone M fs).1).alone M (x.alone M fs).2.1).2.2) := by
  intro x
  induction x with
  | stop r => intro fs; rfl
  | say s k ih => intro fs; simp only [Prog.after, Prog.alone, ih, List.cons_append]
  | look p k ih => intro fs; exact ih _ fs
  | names p k ih => intro fs; exact ih _ fs
  | hear g b p k ih => intro fs; exact ih _ fs
  | mkdir p k ih => intro fs; exact ih _ _
  | create p k ih => intro fs; exact ih _ _
  | store p t k ih => intro fs; exact ih _

theorem alone_bind {A B : Type} (M : Machine) (x : Prog A) (k : A → Prog B) : (x.bind k).alone M = Talk.bind (x.alone M) fun a => (k a).alone M := by
  funext fs
  unfold Prog.bind Talk.bind
  rw [alone_after]
  rcases x.alone M fs with ⟨a | e | _, g, l⟩ <;> simp [Prog.alone]

theorem alone_stop {A : Type} (M : Machine) (r : Out A) : (Prog.stop r).alone M = Talk.quiet (Act.reads fun _ => r) := rfl

theorem alone_sayAll {A : Type} (M : Machine) (k : Prog A) (fs : Fs) : ∀ l, (Prog.sayAll l k).alone M fs = ((k.alone M fs).1, (k.alone M fs).2.1, l ++ (k.alone M fs).2.2)
  | [] => rfl
  | s :: l => by simp only [Prog.sayAll, Prog.alone, alone_sayAll M k fs l, List.cons_append]

theorem alone_announced {A : Type} (M : Machine) (b e : String) {x : Prog A} {y : Act A} (h : x.alone M = Talk.quiet y) :
    (Prog.announced b x e).alone M = Talk.announced b y e := by
  funext fs
  unfold Prog.announced Talk.announced
  simp only [Prog.alone, alone_bind, h, Talk.bind, Talk.quiet]
  rcases y fs with ⟨a | e | _, g⟩ <;> rfl

theorem quiet_bind {A B : Type} (x : Act A) (k : A → Act B) : Talk.bind (Talk.quiet x) (fun a => Talk.quiet (k a)) = Talk.quiet (Act.bind x k) := by
  funext fs
  unfold Talk.bind Talk.quiet Act.bind
  rcases x fs with ⟨a | e | _, g⟩ <;> rfl

theorem alone_reads {A B : Type} {M : Machine} {x : Prog A} {k : A → Prog B} {fs : Fs} {o : Out A} {h : A → Out B} (hx : x.alone M fs = (o, fs, []))
    (hk : ∀ a, (k a).alone M fs = (h a, fs, [])) : (x.bind k).alone M fs = ((do let a ← o; h a : Out B), fs, []) := by
  rw [alone_bind]
  unfold Talk.bind
  rw [hx]
  cases o with
  | ok a => dsimp only; rw [hk]; rfl
  | thrown e => rfl
  | ub => rfl

theorem alone_stores (M : Machine) (p : Path) (k : Prog Unit) : ∀ (l : List Text) (t : Text) (fs : Fs) (u : Text), fs p = some (.file u) →
    (Prog.stores p (l ++ [t]) k).alone M fs = k.alone M (fs.set p (.file t))
  | [], t, fs, u, h => by simp only [List.nil_append, Prog.stores, Prog.alone, h]
  | v :: l, t, fs, u, h => by
    simp only [List.cons_append, Prog.stores, Prog.alone, h]
    rw [alone_stores M p k l t (fs.set p (.file v)) v (by simp [Fs.set]), set_set]

variable {drafts : Path → Text → List Text}

theorem alone_file (M : Machine) (p : Path) (t : Text) (good bad : Out Unit) :
    (fileProg drafts p t good bad).alone M = Talk.quiet (Putter.put ⟨p, t, true, good, bad⟩) := by
  funext fs
  unfold fileProg Putter.put Talk.quiet
  simp only [Prog.alone, Bool.true_and]
  by_cases h : fs.canWrite p = true
  · simp only [if_pos h]
    rw [alone_stores M p _ _ _ _ [] (by simp [Fs.set]), set_set]
    rfl
  · simp only [if_neg h]
    rfl

theorem alone_stream (M : Machine) (p : Path) (w : Written) : (streamProg drafts p w).alone M = Talk.quiet (streamPut p w) := by
  unfold streamProg
  rw [alone_file, stream_putter]

theorem alone_dir (M : Machine) (p : Path) : (dirProg p).alone M = Talk.quiet (makeDir p) := rfl

theorem alone_all (M : Machine) {ι : Type} (xs : ι → Prog Unit) (ws : ι → Writer) (h : ∀ i, (xs i).alone M = Talk.quiet (ws i)) :
    ∀ l : List ι, (Prog.all (l.map xs)).alone M = Talk.quiet (runAll (l.map ws))
  | [] => rfl
  | i :: l => by
    rw [List.map_cons, List.map_cons, Prog.all, alone_bind, h, alone_all M xs ws h l, quiet_bind]
    congr 1
    funext fs
    exact (congrFun (andThen_eq (ws i) (runAll (l.map ws))) fs).symm


theorem alone_offRead (M : Machine) (rnd : ℚ → ℚ) (lf : Bool) (modes : Modes) (p : Path) :
    (offReadProg rnd lf modes p).alone M = Talk.quiet (Act.reads fun fs => offRead rnd lf modes p fs) := by
  funext fs
  unfold offReadProg offRead Talk.quiet Act.reads
  split <;> rfl

theorem alone_buildings (M : Machine) (rnd : ℚ → ℚ) (lf : Bool) (modes : Modes) (p : Path) (fs : Fs) : ∀ ns : List Text,
    (buildingsProg rnd lf modes p (ns.filter fun n => iequals (extension [n]) ".off".toList)).alone M fs =
      (Out.mapM (fun n => offRead rnd lf modes (p ++ [n]) fs) (ns.filter (isBuildingFile p fs)), fs, [])
  | [] => rfl
  | n :: ns => by
    have ih := alone_buildings M rnd lf modes p fs ns
    by_cases ho : iequals (extension [n]) ".off".toList = true
    · rw [List.filter_cons, if_pos ho]
      unfold buildingsProg
      simp only [Prog.alone]
      rcases e : fs (p ++ [n]) with _ | t | _
      · have hb : isBuildingFile p fs n = false := by unfold isBuildingFile; rw [e]; rfl
        rw [List.filter_cons, hb]
        exact ih
      · by_cases hs : (stem (p ++ [n]) != "terrain".toList) = true
        · have hb : isBuildingFile p fs n = true := by
            unfold isBuildingFile
            rw [e, hs, ext_last, ho]
            rfl
          rw [List.filter_cons, hb]
          simp only [if_pos hs, if_true, alone_bind, alone_offRead, Out.mapM_cons, Talk.bind, Talk.quiet, Act.reads, ih]
          cases offRead rnd lf modes (p ++ [n]) fs with
          | ok m =>
            dsimp only
            rw [ih]
            cases Out.mapM (fun n => offRead rnd lf modes (p ++ [n]) fs) (ns.filter (isBuildingFile p fs)) <;> rfl
          | thrown e => rfl
          | ub => rfl
        · have hb : isBuildingFile p fs n = false := by
            unfold isBuildingFile
            rw [Bool.not_eq_true] at hs
            rw [hs, Bool.and_false]
          rw [List.filter_cons, hb]
          simp only [if_neg hs]
          exact ih
      · have hb : isBuildingFile p fs n = false := by unfold isBuildingFile; rw [e]; rfl
        rw [List.filter_cons, hb]
        exact ih
    · have hb : isBuildingFile p fs n = false := by
        rw [Bool.not_eq_true] at ho
        unfold isBuildingFile
        rw [ext_last, ho, Bool.and_false, Bool.false_and]
      rw [List.filter_cons, if_neg ho, List.filter_cons, hb]
      exact ih

section
variable {N L K : Type} [Field K] [LinearOrder K] [FloorRing K]

theorem alone_offScene (M : Machine) (ops : NodeOps N) (rnd : ℚ → ℚ) (lf : Bool) (modes : Modes) (p : Path) (fs : Fs) :
    (offSceneProg ops rnd lf modes p).alone M fs = (offSceneRead ops rnd lf modes p (M.listing fs p) fs, fs, []) := by
  unfold offSceneProg offSceneRead
  simp only [Prog.alone]
  by_cases h : fs p ≠ some .dir
  · rw [if_pos h, if_pos h]; rfl
  · rw [if_neg h, if_neg h]
    simp only [Prog.alone, alone_bind, alone_offRead, Talk.bind, Talk.quiet, Act.reads, alone_buildings]
    cases Out.mapM (fun n => offRead rnd lf modes (p ++ [n]) fs) ((M.listing fs p).filter (isBuildingFile p fs)) with
    | ok bs =>
      dsimp only
      cases offRead rnd lf modes (joinPath p "terrain.off".toList) fs <;> rfl
    | thrown e => rfl
    | ub => rfl

theorem alone_objScene (M : Machine) (ops : NodeOps N) (rnd : ℚ → ℚ) (modes : Modes) (p : Path) (fs : Fs) :
    (objSceneProg ops rnd modes p).alone M fs = (objSceneRead ops rnd modes p fs, fs, []) := by
  unfold objSceneProg objSceneRead objSceneMeshes objRead
  split
  · simp only [Prog.alone]
    rcases fs p with _ | t | _
    · rfl
    · dsimp only
      cases Obj.read rnd t <;> rfl
    · rfl
  · rfl

theorem alone_t3ds (M : Machine) (load : Text → Option (File3ds L)) (p : Path) (fs : Fs) :
    (t3dsProg load p).alone M fs = (T3ds.construct load readMode p fs, fs, []) := by
  have hr : canRead readMode = true := by decide
  have hs : canSave readMode = false := by decide
  unfold t3dsProg T3ds.construct
  simp only [Prog.alone, hr, hs]
  rfl

theorem alone_tree (M : Machine) (xml : Text → Option (List Elem)) (p : Path) (fs : Fs) :
    (treeProg xml p).alone M fs = (SceneTree.construct xml p fs, fs, []) := rfl

/-- Reading a scene. -/
theorem alone_scene (T : Toolbox N L K) (noise : SceneFormat → Bool → Path → Fs → List Text) (f : SceneFormat) (p : Path) (fs : Fs) :
    (sceneProg T.ops T.lib T.rnd T.lf f p).alone ⟨T.listing, noise⟩ fs =
      (sceneRead T.ops T.lib T.rnd T.lf f readMode p (T.listing fs p) fs, fs, readSays T noise f p fs) := by
  cases f with
  | off => exact alone_offScene _ _ _ _ _ _ _
  | obj => exact alone_objScene _ _ _ _ _ _
  | t3dsXml =>
    unfold sceneProg sceneRead readSays
    have hx := alone_reads (alone_t3ds ⟨T.listing, noise⟩ T.lib.load p fs) (fun file => alone_reads (alone_tree ⟨T.listing, noise⟩ T.lib.xml (xmlPath p) fs)
      (k := fun doc => Prog.stop (t3dsSceneXml T.ops T.lib readMode file doc)) fun doc => rfl)
    simp only [Prog.alone, alone_sayAll, hx, List.append_nil]
  | t3ds =>
    unfold sceneProg sceneRead readSays
    have hx := alone_reads (alone_t3ds ⟨T.listing, noise⟩ T.lib.load p fs) (fun file => alone_reads (alone_tree ⟨T.listing, noise⟩ T.lib.xml (xmlPath p) fs)
      (k := fun doc => Prog.stop (t3dsSceneLevel T.ops T.lib readMode file doc)) fun doc => rfl)
    have hy := alone_reads (alone_t3ds ⟨T.listing, noise⟩ T.lib.load p fs) (k := fun file => Prog.stop (t3dsScenePlain T.ops T.lib readMode file)) fun file => rfl
    simp only [Prog.alone, alone_sayAll, alone_after, hx]
    generalize (do
          let file ← T3ds.construct T.lib.load readMode p fs
          let doc ← SceneTree.construct T.lib.xml (xmlPath p) fs
          t3dsSceneLevel T.ops T.lib readMode file doc : Out (Scene N)) = r
    cases r with
    | ok s => rfl
    | ub => rfl
    | thrown e =>
      dsimp only
      by_cases he : e.isRuntime = true
      · simp only [if_pos he, Prog.alone, alone_sayAll, hy, List.append_nil, List.nil_append]
      · simp only [if_neg he]
        rfl

theorem alone_offWrite (M : Machine) (modes : Modes) (p : Path) (m : Mesh) : (offWriteProg drafts modes p m).alone M = Talk.quiet (offWrite modes p m) := by
  unfold offWriteProg
  funext fs
  unfold offWrite
  split
  · rename_i h
    rw [alone_file]
    unfold Talk.quiet Putter.put Fs.put
    simp only [h, Bool.true_and, if_true, ite_self]
  · rename_i h
    unfold Talk.quiet
    simp only [if_neg h]
    rfl

theorem alone_vector (M : Machine) (C : Cgal K) (G : Gdal K) (p : Path) (f : FootPrint K) (l : Bool) :
    (vectorProg drafts C G p f l).alone M = Talk.quiet (vectorPut C G writeMode p f l) := by
  have hs : canSave writeMode = true := by decide
  unfold vectorProg
  rw [alone_file]
  congr 1
  funext fs
  unfold Putter.put vectorPut
  rw [if_pos hs]
  simp only [Bool.true_and]
  split <;> rfl

theorem alone_raster (M : Machine) (G : Gdal K) (p : Path) (r : Raster K) : (rasterProg drafts G p r).alone M = Talk.quiet (rasterPut G writeMode p r) := by
  have hs : canSave writeMode = true := by decide
  unfold rasterProg
  funext fs
  unfold rasterPut Talk.quiet
  simp only [if_pos hs]
  by_cases h : r.width ≠ 0 ∧ r.height ≠ 0
  · rw [if_pos h, alone_file]
    unfold Talk.quiet Putter.put
    simp only [Bool.true_and, h.1, h.2, ne_eq, not_false_eq_true, and_true]
    split <;> rfl
  · rw [if_neg h, if_neg fun k => h k.2]
    rfl

theorem alone_dirs (M : Machine) (dir : Path) {x : Prog Unit} {w : Writer} (h : x.alone M = Talk.quiet w) :
    ((dirProg dir).bind fun _ => x).alone M = Talk.quiet fun fs => andThen (makeDir dir fs) w := by
  rw [alone_bind, h, alone_dir, quiet_bind, ← andThen_eq]

theorem alone_duals (M : Machine) (root : Path) (bs : List (Text × Written)) : (dualsProg drafts root bs).alone M = Talk.quiet (saveBuildingDuals root bs) :=
  alone_dirs M _ (alone_all M _ _ (fun _ => alone_stream M _ _) _)

theorem alone_rasters (M : Machine) (G : Gdal K) (root : Path) (rs : List (Raster K)) : (rastersProg drafts G root rs).alone M = Talk.quiet (saveBuildingRasters G root rs) :=
  alone_dirs M _ (alone_all M _ _ (fun _ => alone_raster M _ _ _) _)

theorem alone_zip (M : Machine) : ∀ (xs : List (Prog Unit)) (ws : List Writer), List.Forall₂ (fun x w => x.alone M = Talk.quiet w) xs ws → (Prog.all xs).alone M = Talk.quiet (runAll ws)
  | _, _, .nil => rfl
  | _, _, .cons (a := x) (b := w) (l₁ := xs) (l₂ := ws) h hs => by
    rw [Prog.all, alone_bind, h, alone_zip M xs ws hs, quiet_bind]
    congr 1
    funext fs
    exact (congrFun (andThen_eq w (runAll ws)) fs).symm

theorem alone_prints (M : Machine) (C : Cgal K) (G : Gdal K) (root : Path) (ps : List (FootPrint K)) (labels : Bool) :
    (printsProg drafts C G root ps labels).alone M = Talk.quiet (saveBuildingPrints C G root ps labels) := by
  refine alone_dirs M _ (alone_zip M _ _ ?_)
  induction ps with
  | nil => exact .nil
  | cons f ps ih =>
    rw [List.flatMap_cons, List.flatMap_cons]
    exact .cons (alone_vector M _ _ _ _ _) (.cons (alone_stream M _ _) ih)

theorem alone_scenePrints (M : Machine) (C : Cgal K) (lr : Bool) (G : Gdal K) (root : Path) (name : Text) (ps : List (FootPrint K)) (rast : Bool) (p : K) :
    (scenePrintsProg drafts C lr G root name ps rast p).alone M = Talk.quiet (saveScenePrints C lr G root name ps rast p) := by
  unfold scenePrintsProg saveScenePrints
  rw [alone_bind, alone_stop]
  cases sumFootPrints C ps FootPrint.empty with
  | thrown e => rfl
  | ub => rfl
  | ok s =>
    have hq : ∀ k : FootPrint K → Talk Unit, Talk.bind (Talk.quiet (Act.reads fun _ => Out.ok s)) k = k s := fun k => by
      funext fs
      simp [Talk.bind, Talk.quiet, Act.reads]
    rw [hq, alone_bind, alone_vector]
    dsimp only
    by_cases hr : rast = true
    · simp only [if_pos hr, alone_bind, alone_stop]
      cases Raster.ofFootPrint C lr s p with
      | ok r =>
        simp only [alone_raster]
        funext fs
        simp only [Talk.bind, Talk.quiet, Act.reads, andThen]
        rcases vectorPut C G writeMode (joinPath root (name ++ ".shp".toList)) s true fs with ⟨_ | _ | _, _⟩ <;> rfl
      | thrown e =>
        funext fs
        simp only [Talk.bind, Talk.quiet, Act.reads, andThen]
        rcases vectorPut C G writeMode (joinPath root (name ++ ".shp".toList)) s true fs with ⟨_ | _ | _, _⟩ <;> rfl
      | ub =>
        funext fs
        simp only [Talk.bind, Talk.quiet, Act.reads, andThen]
        rcases vectorPut C G writeMode (joinPath root (name ++ ".shp".toList)) s true fs with ⟨_ | _ | _, _⟩ <;> rfl
    · simp only [if_neg hr]
      funext fs
      simp only [Talk.bind, Talk.quiet, Prog.alone, andThen]
      rcases vectorPut C G writeMode (joinPath root (name ++ ".shp".toList)) s true fs with ⟨_ | _ | _, _⟩ <;> rfl

theorem alone_sceneWrite (M : Machine) (ops : NodeOps N) (f : SceneFormat) (modes : Modes) (p : Path) (s : Scene N) :
    (sceneWriteProg drafts ops f modes p s).alone M = Talk.quiet (sceneWrite ops f modes p s) := by
  cases f with
  | t3dsXml => rfl
  | t3ds => rfl
  | obj =>
    unfold sceneWriteProg sceneWrite objWrite
    funext fs
    simp only [Talk.quiet]
    by_cases h : canSave modes = true
    · simp only [if_pos h]
      cases Obj.write (s.buildings.map ops.back ++ [ops.back s.terrain]) with
      | ok t =>
        dsimp only
        rw [alone_file]
        unfold Talk.quiet Putter.put Fs.put
        simp only [Bool.true_and, ite_self]
      | thrown e => rfl
      | ub => rfl
    · simp only [if_neg h]
      rfl
  | off =>
    unfold sceneWriteProg sceneWrite offSceneWriteProg offSceneWrite
    rw [alone_bind]
    have hw : (Prog.all ((s.buildings.map ops.back ++ [ops.back s.terrain]).map fun m => offWriteProg drafts modes (joinPath p (m.name ++ ".off".toList)) m)).alone M =
        Talk.quiet (offWriteAll modes p (s.buildings.map ops.back ++ [ops.back s.terrain])) := by
      rw [alone_all M _ (fun m => offWrite modes (joinPath p (m.name ++ ".off".toList)) m) (fun _ => alone_offWrite M _ _ _), offWriteAll_puts]
      congr 2
      exact List.map_congr_left fun m _ => off_putter modes p m
    rw [hw]
    funext fs
    simp only [Talk.bind, Prog.alone]
    rcases e : fs p with _ | t | _
    · simp only [if_true, alone_dir, Talk.quiet, makeDir, e]
      by_cases hd : fs p.dropLast = some .dir
      · simp only [if_pos hd, List.append_nil]
      · simp only [if_neg hd]
    · simp only [reduceCtorEq, if_false, Prog.alone, e, Option.some.injEq, Talk.quiet]
    · simp only [reduceCtorEq, if_false, Prog.alone, e, if_true, Talk.quiet]
      rfl

/-- Reading, pruning and saving the dual graphs. -/
theorem alone_input (T : Toolbox N L K) (noise : SceneFormat → Bool → Path → Fs → List Text) (p : Path) (format : Text) (prune terrain graphs : Bool) :
    (inputProg drafts T p format prune terrain graphs).alone ⟨T.listing, noise⟩ = inputTalk T noise p format prune terrain graphs := by
  unfold inputProg inputTalk
  have h1 : ∀ (k : Scene N → Prog (Scene N)), ((Prog.stop (sceneHandlerNamed p format)).bind fun f => (sceneProg T.ops T.lib T.rnd T.lf f p).bind k).alone ⟨T.listing, noise⟩ =
      Talk.bind (readTalk T noise p format) fun s => (k s).alone ⟨T.listing, noise⟩ := by
    intro k
    funext fs
    rw [alone_bind, alone_stop]
    unfold readTalk Talk.bind Talk.quiet Act.reads
    cases sceneHandlerNamed p format with
    | ok f =>
      dsimp only
      rw [alone_bind]
      unfold Talk.bind
      rw [alone_scene]
      cases sceneRead T.ops T.lib T.rnd T.lf f readMode p (T.listing fs p) fs <;> simp
    | thrown e => rfl
    | ub => rfl
  rw [h1]
  congr 1
  funext s
  rw [alone_bind, alone_stop]
  congr 1
  funext s'
  rw [alone_bind]
  cases graphs with
  | true =>
    simp only [if_true]
    rw [alone_announced _ _ _ (alone_duals _ _ _)]
    rfl
  | false => rfl

theorem alone_say {A : Type} (M : Machine) (t : Text) (k : Prog A) : (Prog.say (.out t) k).alone M = Talk.bind (Talk.say t) fun _ => k.alone M := rfl

/-- The body of orthoproject. -/
theorem alone_ortho (T : Toolbox N L K) (noise : SceneFormat → Bool → Path → Fs → List Text) (args : Args) :
    (orthoProg drafts T args).alone ⟨T.listing, noise⟩ = orthoTalk T noise args := by
  unfold orthoProg orthoTalk
  rw [alone_bind, alone_announced _ _ _ (alone_stop _ _)]
  congr 1
  funext a
  rw [alone_say, alone_bind, alone_input]
  congr 1
  funext u
  congr 1
  funext s
  by_cases hs : a.save = true
  · rw [if_pos hs, if_pos hs, alone_bind, alone_announced _ _ _ (alone_stop _ _)]
    congr 1
    funext ps
    rw [alone_bind, alone_announced _ _ _ (alone_prints _ _ _ _ _ _)]
    congr 1
    funext u
    rw [alone_bind]
    have hsc : (if a.scene then Prog.announced "Summing , rasterizing and saving scene projections... "
        (scenePrintsProg drafts T.C T.lr T.G a.path.dropLast (stem a.path) ps (decide (a.pixel ≠ 0)) a.pixel) "Done.\n" else .stop (.ok ())).alone ⟨T.listing, noise⟩ =
        if a.scene then Talk.announced "Summing , rasterizing and saving scene projections... "
        (saveScenePrints T.C T.lr T.G a.path.dropLast (stem a.path) ps (decide (a.pixel ≠ 0)) a.pixel) "Done.\n" else Talk.quiet Act.skip := by
      by_cases hc : a.scene = true
      · rw [if_pos hc, if_pos hc, alone_announced _ _ _ (alone_scenePrints _ _ _ _ _ _ _ _ _)]
      · rw [if_neg hc, if_neg hc]
        rfl
    rw [hsc]
    congr 1
    funext u
    by_cases hp : a.pixel ≠ 0
    · rw [if_pos hp, if_pos hp, alone_bind, alone_announced _ _ _ (alone_stop _ _)]
      congr 1
      funext rs
      rw [alone_announced _ _ _ (alone_rasters _ _ _ _)]
    · rw [if_neg hp, if_neg hp]
      rfl
  · rw [if_neg hs, if_neg hs]
    rfl

/-- The body of cityformat. -/
theorem alone_format (T : Toolbox N L K) (noise : SceneFormat → Bool → Path → Fs → List Text) (args : Args) :
    (formatProg drafts T args).alone ⟨T.listing, noise⟩ = formatTalk T noise args := by
  unfold formatProg formatTalk
  rw [alone_bind, alone_stop]
  congr 1
  funext b
  rw [alone_bind, alone_announced _ _ _ (alone_stop _ _)]
  congr 1
  funext a
  rw [alone_say]
  congr 1
  funext u
  by_cases hf : a.formats = true
  · rw [if_pos hf, if_pos hf]
    rfl
  · rw [if_neg hf, if_neg hf, alone_bind, alone_input]
    congr 1
    funext s
    rw [alone_bind, alone_stop]
    congr 1
    funext f
    exact alone_sceneWrite _ _ _ _ _ _

theorem alone_main (M : Machine) {x : Prog Unit} {y : Talk Unit} (h : x.alone M = y) : (mainProg x).alone M = mainTalk y := by
  funext fs
  unfold mainProg mainTalk
  rw [alone_after, h]
  rcases y fs with ⟨a | e | _, g, l⟩ <;> simp [Prog.alone]

end
end City.Props
