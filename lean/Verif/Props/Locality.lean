import Verif.Props.Console
import Verif.Props.DirRead
/-!
C117: the tools look at the scene and at the places of their results, and at nothing else.
-/
set_option linter.unusedSectionVars false
namespace City.Spec
open City City.Props

/-- The name has the extension of the OFF format. -/
def OffName (n : Text) : Prop := NamedLike [n] "off".toList

/-- The format of the scene that is asked for. -/
def AsksFormat (args : Args) (f : String) : Prop := args "--input-format".toList = some (.str f.toList)

/-- The places of the scene: its path; for the format OFF the OFF files of this directory; for the 3DS formats the document beside it. -/
def ScenePlace (args : Args) (p q : Path) : Prop :=
  q = p ∨ (AsksFormat args "OFF" ∧ ∃ n, OffName n ∧ q = p ++ [n]) ∨
  ((AsksFormat args "3DS" ∨ AsksFormat args "3DS XML") ∧ q = p.dropLast ++ [stem p ++ ".XML".toList])

section
variable {N L K : Type} [Field K] [LinearOrder K] [FloorRing K]

/-- The places orthoproject may change: as in C67. -/
def OrthoChanges (T : Toolbox N L K) (args : Args) (q : Path) : Prop :=
  ∃ t, args "<scene>".toList = some (.str t) ∧
    ((Asked args "--graphs" ∧ Within ((splitSlash t).dropLast ++ ["dual_graphs".toList]) q) ∨
     (Asked args "save" ∧ Within ((splitSlash t).dropLast ++ ["vectors".toList]) q) ∨
     (Asked args "save" ∧ Asked args "--scene" ∧ q = (splitSlash t).dropLast ++ [stem (splitSlash t) ++ ".shp".toList]) ∨
     (∃ p, p ≠ 0 ∧ AsksPixels T args p ∧ Asked args "save" ∧
       (Within ((splitSlash t).dropLast ++ ["rasters".toList]) q ∨
        (Asked args "--scene" ∧ q = (splitSlash t).dropLast ++ [stem (splitSlash t) ++ ".tiff".toList]))))

/-- The places orthoproject looks at: those of the scene, those it may change and, if there are any, the directory they are in. -/
def OrthoLooks (T : Toolbox N L K) (args : Args) (q : Path) : Prop :=
  OrthoChanges T args q ∨ ∃ t, args "<scene>".toList = some (.str t) ∧
    (ScenePlace args (splitSlash t) q ∨ ((Asked args "--graphs" ∨ Asked args "save") ∧ q = (splitSlash t).dropLast))

end

/-- The places cityformat may change: as in C67. -/
def FormatChanges (args : Args) (q : Path) : Prop :=
  ∃ t o f, args "<scene>".toList = some (.str t) ∧ args "<path>".toList = some (.str o) ∧ args "--output-format".toList = some (.str f) ∧ ¬ Asked args "--formats" ∧
    ((Asked args "--graphs" ∧ Within ((splitSlash t).dropLast ++ ["dual_graphs".toList]) q) ∨ Within (splitSlash o) q)

/-- The places cityformat looks at: those of the scene, those it may change and the directories they are in. -/
def FormatLooks (args : Args) (q : Path) : Prop :=
  FormatChanges args q ∨ (∃ o, args "<path>".toList = some (.str o) ∧ ¬ Asked args "--formats" ∧ q = (splitSlash o).dropLast) ∨
  ∃ t, args "<scene>".toList = some (.str t) ∧ ¬ Asked args "--formats" ∧
    (ScenePlace args (splitSlash t) q ∨ (Asked args "--graphs" ∧ q = (splitSlash t).dropLast))

/-- Two states of the files are the same at these places. -/
def SameAt (S : Path → Prop) (fs₁ fs₂ : Fs) : Prop := ∀ q, S q → fs₁ q = fs₂ q

open Classical in
/-- In the two states, the system lists the OFF files of the scene in the same order, if the scene is a directory. -/
def SameListing {N L K : Type} [Field K] [LinearOrder K] (T : Toolbox N L K) (args : Args) (fs₁ fs₂ : Fs) : Prop :=
  AsksFormat args "OFF" → ∀ t, args "<scene>".toList = some (.str t) →
    (T.listing fs₁ (splitSlash t)).filter (fun n => decide (OffName n)) = (T.listing fs₂ (splitSlash t)).filter (fun n => decide (OffName n))

/-- What the 3DS readers print for the scene is the same in the two states. -/
def SameNoise (noise : SceneFormat → Bool → Path → Fs → List Text) (args : Args) (fs₁ fs₂ : Fs) : Prop :=
  (AsksFormat args "3DS" ∨ AsksFormat args "3DS XML") → ∀ t, args "<scene>".toList = some (.str t) → ∀ f b, noise f b (splitSlash t) fs₁ = noise f b (splitSlash t) fs₂

/-- Two runs, each with the state it began in, that cannot be told apart by what they did: they end in the same way, they said the same, and at every place they left the same or neither of them
changed anything. -/
def SameRun {A : Type} (fs₁ fs₂ : Fs) (r₁ r₂ : Out A × Fs × List Said) : Prop :=
  r₁.1 = r₂.1 ∧ r₁.2.2 = r₂.2.2 ∧ ∀ q, r₁.2.1 q = r₂.2.1 q ∨ (r₁.2.1 q = fs₁ q ∧ r₂.2.1 q = fs₂ q)

end City.Spec

namespace City.Props
open City City.Spec

/-! ### Programs that look at some places only -/

/-- Two runs that cannot be told apart at these places. -/
def SameEnd {A : Type} (S : Path → Prop) (r₁ r₂ : Out A × Fs × List Said) : Prop :=
  r₁.1 = r₂.1 ∧ SameAt S r₁.2.1 r₂.2.1 ∧ r₁.2.2 = r₂.2.2

/-- A program that looks at these places only. -/
def LooksAt {A : Type} (S : Path → Prop) (x : Act A) : Prop :=
  ∀ fs₁ fs₂, SameAt S fs₁ fs₂ → (x fs₁).1 = (x fs₂).1 ∧ SameAt S (x fs₁).2 (x fs₂).2

theorem looks_const {A : Type} (S : Path → Prop) (x : Out A) : LooksAt S (Act.reads fun _ => x) := fun _ _ h => ⟨rfl, h⟩

theorem looks_skip (S : Path → Prop) : LooksAt S Act.skip := fun _ _ h => ⟨rfl, h⟩

theorem looks_bind {A B : Type} {S : Path → Prop} {x : Act A} {k : A → Act B} (hx : LooksAt S x) (hk : ∀ a, LooksAt S (k a)) : LooksAt S (Act.bind x k) := by
  intro fs₁ fs₂ h
  obtain ⟨h1, h2⟩ := hx fs₁ fs₂ h
  unfold Act.bind
  rcases e1 : x fs₁ with ⟨o₁, g₁⟩
  rcases e2 : x fs₂ with ⟨o₂, g₂⟩
  rw [e1, e2] at h1 h2
  dsimp only at h1 h2
  subst h1
  cases o₁ with
  | ok a => exact hk a _ _ h2
  | thrown e => exact ⟨rfl, h2⟩
  | ub => exact ⟨rfl, h2⟩

theorem looks_runAll {S : Path → Prop} : ∀ (ws : List Writer), (∀ w ∈ ws, LooksAt S w) → LooksAt S (runAll ws)
  | [], _ => looks_skip S
  | w :: ws, h => by
    have := looks_bind (h w List.mem_cons_self) (k := fun _ => runAll ws) (fun _ => looks_runAll ws fun v hv => h v (List.mem_cons_of_mem _ hv))
    rw [← andThen_eq] at this
    exact this

theorem same_set {S : Path → Prop} {fs₁ fs₂ : Fs} (h : SameAt S fs₁ fs₂) (p : Path) (e : Entry) : SameAt S (fs₁.set p e) (fs₂.set p e) := by
  intro q hq
  unfold Fs.set
  rw [h q hq]

theorem same_canWrite {S : Path → Prop} {fs₁ fs₂ : Fs} (h : SameAt S fs₁ fs₂) {p : Path} (hp : S p) (hd : S p.dropLast) : fs₁.canWrite p = fs₂.canWrite p := by
  unfold Fs.canWrite
  rw [h p hp, h _ hd]

theorem same_put {S : Path → Prop} {fs₁ fs₂ : Fs} (h : SameAt S fs₁ fs₂) {p : Path} (hp : S p) (hd : S p.dropLast) (t : Text) : SameAt S (fs₁.put p t) (fs₂.put p t) := by
  unfold Fs.put
  rw [same_canWrite h hp hd]
  split
  · exact same_set h _ _
  · exact h

theorem looks_makeDir {S : Path → Prop} {p : Path} (hp : S p) (hd : S p.dropLast) : LooksAt S (makeDir p) := by
  intro fs₁ fs₂ h
  unfold makeDir
  rw [h p hp, h _ hd]
  cases fs₂ p with
  | some e => cases e <;> exact ⟨rfl, h⟩
  | none =>
    dsimp only
    split
    · exact ⟨rfl, same_set h _ _⟩
    · exact ⟨rfl, h⟩

theorem looks_streamPut {S : Path → Prop} {p : Path} (hp : S p) (hd : S p.dropLast) (w : Written) : LooksAt S (streamPut p w) :=
  fun _ _ h => ⟨rfl, same_put h hp hd _⟩

/-- A file in a directory, and the directory it is in. -/
theorem join_places {S : Path → Prop} {dir : Path} (h : ∀ q, Within dir q → S q) (n : Text) : S (joinPath dir n) ∧ S (joinPath dir n).dropLast := by
  refine ⟨h _ (within_join _ _), h _ ⟨(splitSlash n).dropLast, ?_⟩⟩
  unfold joinPath
  rw [List.dropLast_append_of_ne_nil]
  cases n with
  | nil => simp [splitSlash]
  | cons c t =>
    unfold splitSlash
    split
    · simp
    · split <;> simp

section
variable {N L K : Type} [Field K] [LinearOrder K] [FloorRing K]

theorem looks_vectorPut {S : Path → Prop} {p : Path} (hp : S p) (hd : S p.dropLast) (C : Cgal K) (G : Gdal K) (m : Modes) (f : FootPrint K) (l : Bool) :
    LooksAt S (vectorPut C G m p f l) := by
  intro fs₁ fs₂ h
  unfold vectorPut
  rw [same_canWrite h hp hd]
  split
  · split
    · exact ⟨rfl, same_set h _ _⟩
    · exact ⟨rfl, h⟩
  · exact ⟨rfl, h⟩

theorem looks_rasterPut {S : Path → Prop} {p : Path} (hp : S p) (hd : S p.dropLast) (G : Gdal K) (m : Modes) (r : Raster K) : LooksAt S (rasterPut G m p r) := by
  intro fs₁ fs₂ h
  unfold rasterPut
  rw [same_canWrite h hp hd]
  split
  · split
    · exact ⟨rfl, same_set h _ _⟩
    · exact ⟨rfl, h⟩
  · exact ⟨rfl, h⟩

theorem looks_duals {S : Path → Prop} {root : Path} (hr : S root) (hs : ∀ q, Within (root ++ ["dual_graphs".toList]) q → S q) (bs : List (Text × Written)) :
    LooksAt S (saveBuildingDuals root bs) := by
  have := looks_bind (looks_makeDir (S := S) (p := root ++ ["dual_graphs".toList]) (hs _ ⟨[], by simp⟩) (by simpa using hr))
    (k := fun _ => runAll (bs.map fun b => streamPut (joinPath (root ++ ["dual_graphs".toList]) (b.1 ++ ".txt".toList)) b.2)) (fun _ => looks_runAll _ (by
      intro w hw
      obtain ⟨b, _, rfl⟩ := List.mem_map.1 hw
      exact looks_streamPut (join_places hs _).1 (join_places hs _).2 _))
  rw [← andThen_eq] at this
  exact this

theorem looks_prints {S : Path → Prop} {root : Path} (hr : S root) (hs : ∀ q, Within (root ++ ["vectors".toList]) q → S q) (C : Cgal K) (G : Gdal K)
    (ps : List (FootPrint K)) (labels : Bool) : LooksAt S (saveBuildingPrints C G root ps labels) := by
  have := looks_bind (looks_makeDir (S := S) (p := root ++ ["vectors".toList]) (hs _ ⟨[], by simp⟩) (by simpa using hr))
    (k := fun _ => runAll (ps.flatMap (printFiles C G (root ++ ["vectors".toList]) labels))) (fun _ => looks_runAll _ (by
      intro w hw
      obtain ⟨f, _, hw⟩ := List.mem_flatMap.1 hw
      simp only [printFiles, List.mem_cons, List.not_mem_nil, or_false] at hw
      rcases hw with rfl | rfl
      · exact looks_vectorPut (join_places hs _).1 (join_places hs _).2 _ _ _ _ _
      · exact looks_streamPut (join_places hs _).1 (join_places hs _).2 _))
  rw [← andThen_eq] at this
  exact this

theorem looks_rasters {S : Path → Prop} {root : Path} (hr : S root) (hs : ∀ q, Within (root ++ ["rasters".toList]) q → S q) (G : Gdal K)
    (rs : List (Raster K)) : LooksAt S (saveBuildingRasters G root rs) := by
  have := looks_bind (looks_makeDir (S := S) (p := root ++ ["rasters".toList]) (hs _ ⟨[], by simp⟩) (by simpa using hr))
    (k := fun _ => runAll (rs.map fun r => rasterPut G writeMode (joinPath (root ++ ["rasters".toList]) (r.name ++ ".tiff".toList)) r)) (fun _ => looks_runAll _ (by
      intro w hw
      obtain ⟨r, _, rfl⟩ := List.mem_map.1 hw
      exact looks_rasterPut (join_places hs _).1 (join_places hs _).2 _ _ _))
  rw [← andThen_eq] at this
  exact this

theorem looks_scenePrints {S : Path → Prop} {root : Path} {st : Text} (hst : PlainName st) (hr : S root) (h1 : S (root ++ [st ++ ".shp".toList])) (rast : Bool)
    (h2 : rast = true → S (root ++ [st ++ ".tiff".toList])) (C : Cgal K) (lr : Bool) (G : Gdal K) (ps : List (FootPrint K)) (p : K) :
    LooksAt S (saveScenePrints C lr G root st ps rast p) := by
  have j1 : joinPath root (st ++ ".shp".toList) = root ++ [st ++ ".shp".toList] := joinPath_plain (plain_ext hst (by unfold PlainName; decide))
  have j2 : joinPath root (st ++ ".tiff".toList) = root ++ [st ++ ".tiff".toList] := joinPath_plain (plain_ext hst (by unfold PlainName; decide))
  unfold saveScenePrints
  rw [j1, j2]
  cases sumFootPrints C ps FootPrint.empty with
  | thrown e => exact looks_const _ _
  | ub => exact looks_const _ _
  | ok s =>
    dsimp only
    rw [andThen_eq]
    refine looks_bind (looks_vectorPut h1 (by simpa using hr) _ _ _ _ _) fun _ => ?_
    cases rast with
    | false => exact looks_skip _
    | true =>
      simp only [if_true]
      cases Raster.ofFootPrint C lr s p with
      | ok r => exact looks_rasterPut (h2 rfl) (by simpa using hr) _ _ _
      | thrown e => exact looks_const _ _
      | ub => exact looks_const _ _

theorem looks_offWriteAll {S : Path → Prop} {p : Path} (hs : ∀ q, Within p q → S q) (modes : Modes) : ∀ ms : List Mesh, LooksAt S (offWriteAll modes p ms)
  | [] => looks_skip S
  | m :: ms => by
    intro fs₁ fs₂ h
    unfold offWriteAll offWrite
    cases canSave modes with
    | false => exact ⟨rfl, h⟩
    | true =>
      simp only [if_true]
      exact looks_offWriteAll hs modes ms _ _ (same_put h (join_places hs _).1 (join_places hs _).2 _)

theorem looks_sceneWrite {S : Path → Prop} {p : Path} (hs : ∀ q, Within p q → S q) (hd : S p.dropLast) (ops : NodeOps N) (f : SceneFormat) (modes : Modes) (s : Scene N) :
    LooksAt S (sceneWrite ops f modes p s) := by
  have hp : S p := hs _ ⟨[], by simp⟩
  intro fs₁ fs₂ h
  cases f with
  | t3dsXml => exact ⟨rfl, h⟩
  | t3ds => exact ⟨rfl, h⟩
  | obj =>
    unfold sceneWrite objWrite
    dsimp only
    split
    · split
      · exact ⟨rfl, same_put h hp hd _⟩
      · exact ⟨rfl, h⟩
      · exact ⟨rfl, h⟩
    · exact ⟨rfl, h⟩
  | off =>
    unfold sceneWrite offSceneWrite
    dsimp only
    rw [h p hp, h _ hd]
    cases fs₂ p with
    | some e =>
      cases e with
      | file t => exact ⟨rfl, h⟩
      | dir => exact looks_offWriteAll hs modes _ _ _ h
    | none =>
      dsimp only
      split
      · exact looks_offWriteAll hs modes _ _ _ (same_set h _ _)
      · exact ⟨rfl, h⟩

theorem mapM_same {α β : Type} {f g : α → Out β} : ∀ {l : List α}, (∀ a ∈ l, f a = g a) → Out.mapM f l = Out.mapM g l
  | [], _ => rfl
  | a :: l, h => by
    rw [Out.mapM_cons, Out.mapM_cons, h a List.mem_cons_self, mapM_same fun b hb => h b (List.mem_cons_of_mem _ hb)]

theorem offName_iff (p : Path) (n : Text) : iequals (extension (p ++ [n])) ".off".toList = true ↔ OffName n := by
  have h : extension (p ++ [n]) = extension [n] := by simp [extension, fileName]
  rw [h]
  exact iequals_ext (p := [n]) (e := "off".toList) (by decide)

open Classical in
/-- Reading looks at the places of the scene. -/
theorem scene_same (T : Toolbox N L K) {args : Args} {t format : Text} {f : SceneFormat} {fs₁ fs₂ : Fs} (ht : args "<scene>".toList = some (.str t))
    (hf : args "--input-format".toList = some (.str format)) (hh : sceneHandlerNamed (splitSlash t) format = .ok f)
    (h : SameAt (ScenePlace args (splitSlash t)) fs₁ fs₂) (hl : SameListing T args fs₁ fs₂) :
    sceneRead T.ops T.lib T.rnd T.lf f readMode (splitSlash t) (T.listing fs₁ (splitSlash t)) fs₁ =
      sceneRead T.ops T.lib T.rnd T.lf f readMode (splitSlash t) (T.listing fs₂ (splitSlash t)) fs₂ ∧
    ((f = .t3ds ∨ f = .t3dsXml) → (AsksFormat args "3DS" ∨ AsksFormat args "3DS XML") ∧ fs₁ (xmlPath (splitSlash t)) = fs₂ (xmlPath (splitSlash t))) := by
  have h0 := h _ (Or.inl rfl)
  have hx : xmlPath (splitSlash t) = (splitSlash t).dropLast ++ [stem (splitSlash t) ++ ".XML".toList] :=
    joinPath_plain (plain_ext (plain_stem t) (by unfold PlainName; decide))
  rcases ((C31_formats (splitSlash t) format f).1.1 hh) with ⟨e, rfl, -⟩ | ⟨e, rfl, -⟩ | ⟨e, rfl⟩ | ⟨e, rfl, -⟩
  · have h1 : fs₁ (xmlPath (splitSlash t)) = fs₂ (xmlPath (splitSlash t)) := h _ (Or.inr (Or.inr ⟨Or.inr (hf.trans (by rw [e])), hx⟩))
    exact ⟨((C102_files T.ops T.lib T.rnd T.lf readMode _ fs₁ fs₂ _ _ h0).2 h1).2, fun _ => ⟨Or.inr (hf.trans (by rw [e])), h1⟩⟩
  · have h1 : fs₁ (xmlPath (splitSlash t)) = fs₂ (xmlPath (splitSlash t)) := h _ (Or.inr (Or.inr ⟨Or.inl (hf.trans (by rw [e])), hx⟩))
    exact ⟨((C102_files T.ops T.lib T.rnd T.lf readMode _ fs₁ fs₂ _ _ h0).2 h1).1, fun _ => ⟨Or.inl (hf.trans (by rw [e])), h1⟩⟩
  · refine ⟨?_, fun k => by rcases k with k | k <;> cases k⟩
    have ha : AsksFormat args "OFF" := hf.trans (by rw [e])
    have h1 : ∀ n, OffName n → fs₁ (splitSlash t ++ [n]) = fs₂ (splitSlash t ++ [n]) := fun n hn => h _ (Or.inr (Or.inl ⟨ha, n, hn, rfl⟩))
    have h2 := hl ha t ht
    have key : ∀ (fs : Fs) (ns : List Text), ns.filter (isBuildingFile (splitSlash t) fs) =
        (ns.filter fun n => decide (OffName n)).filter (isBuildingFile (splitSlash t) fs) := by
      intro fs ns
      rw [List.filter_filter]
      refine List.filter_congr fun n _ => ?_
      rcases hb : isBuildingFile (splitSlash t) fs n with _ | _
      · rfl
      · have : OffName n := by
          unfold isBuildingFile at hb
          simp only [Bool.and_eq_true] at hb
          exact (offName_iff _ _).1 hb.1.2
        simp [this]
    have hfil : (T.listing fs₁ (splitSlash t)).filter (isBuildingFile (splitSlash t) fs₁) = (T.listing fs₂ (splitSlash t)).filter (isBuildingFile (splitSlash t) fs₂) := by
      rw [key fs₁, key fs₂, h2]
      refine List.filter_congr fun n hn => ?_
      have hn' : OffName n := of_decide_eq_true (List.mem_filter.1 hn).2
      unfold isBuildingFile
      rw [h1 n hn']
    unfold sceneRead
    dsimp only
    unfold offSceneRead
    have hte : OffName "terrain.off".toList := terrain_named []
    have hread : ∀ n, OffName n → offRead T.rnd T.lf readMode (splitSlash t ++ [n]) fs₁ = offRead T.rnd T.lf readMode (splitSlash t ++ [n]) fs₂ := by
      intro n hn
      unfold offRead
      rw [h1 n hn]
    rw [h0, hfil, terrain_path, hread _ hte, mapM_same (g := fun n => offRead T.rnd T.lf readMode (splitSlash t ++ [n]) fs₂)]
    intro n hn
    refine hread n ?_
    have hb := (List.mem_filter.1 hn).2
    unfold isBuildingFile at hb
    simp only [Bool.and_eq_true] at hb
    exact (offName_iff _ _).1 hb.1.2
  · exact ⟨(C102_files T.ops T.lib T.rnd T.lf readMode _ fs₁ fs₂ _ _ h0).1, fun k => by rcases k with k | k <;> cases k⟩

/-! ### With the messages -/

/-- A program with messages that looks at these places only. -/
def TalksOf {A : Type} (S : Path → Prop) (x : Talk A) : Prop := ∀ fs₁ fs₂, SameAt S fs₁ fs₂ → SameEnd S (x fs₁) (x fs₂)

theorem talks_quiet {A : Type} {S : Path → Prop} {x : Act A} (h : LooksAt S x) : TalksOf S (Talk.quiet x) :=
  fun fs₁ fs₂ hs => ⟨(h fs₁ fs₂ hs).1, (h fs₁ fs₂ hs).2, rfl⟩

theorem talks_say (S : Path → Prop) (t : Text) : TalksOf S (Talk.say t) := fun _ _ hs => ⟨rfl, hs, rfl⟩

theorem talks_announced {A : Type} {S : Path → Prop} {x : Act A} (b e : String) (h : LooksAt S x) : TalksOf S (Talk.announced b x e) := by
  intro fs₁ fs₂ hs
  obtain ⟨h1, h2⟩ := h fs₁ fs₂ hs
  unfold Talk.announced
  rcases e1 : x fs₁ with ⟨o₁, g₁⟩
  rcases e2 : x fs₂ with ⟨o₂, g₂⟩
  rw [e1, e2] at h1 h2
  dsimp only at h1 h2
  subst h1
  cases o₁ <;> exact ⟨rfl, h2, rfl⟩

theorem ends_bind {A B : Type} {S : Path → Prop} {x : Talk A} {k : A → Talk B} {fs₁ fs₂ : Fs} (hx : SameEnd S (x fs₁) (x fs₂)) (hk : ∀ a, TalksOf S (k a)) :
    SameEnd S (Talk.bind x k fs₁) (Talk.bind x k fs₂) := by
  unfold Talk.bind
  rcases e1 : x fs₁ with ⟨o₁, g₁, l₁⟩
  rcases e2 : x fs₂ with ⟨o₂, g₂, l₂⟩
  rw [e1, e2] at hx
  obtain ⟨h1, h2, h3⟩ := hx
  dsimp only at h1 h2 h3
  subst h1 h3
  cases o₁ with
  | ok a =>
    obtain ⟨k1, k2, k3⟩ := hk a _ _ h2
    exact ⟨k1, k2, by dsimp only; rw [k3]⟩
  | thrown e => exact ⟨rfl, h2, rfl⟩
  | ub => exact ⟨rfl, h2, rfl⟩

theorem talks_bind {A B : Type} {S : Path → Prop} {x : Talk A} {k : A → Talk B} (hx : TalksOf S x) (hk : ∀ a, TalksOf S (k a)) : TalksOf S (Talk.bind x k) :=
  fun fs₁ fs₂ h => ends_bind (hx fs₁ fs₂ h) hk

theorem ends_main {S : Path → Prop} {x : Talk Unit} {fs₁ fs₂ : Fs} (h : SameEnd S (x fs₁) (x fs₂)) : SameEnd S (mainTalk x fs₁) (mainTalk x fs₂) := by
  unfold mainTalk
  rcases e1 : x fs₁ with ⟨o₁, g₁, l₁⟩
  rcases e2 : x fs₂ with ⟨o₂, g₂, l₂⟩
  rw [e1, e2] at h
  obtain ⟨h1, h2, h3⟩ := h
  dsimp only at h1 h2 h3
  subst h1 h3
  cases o₁ <;> exact ⟨rfl, h2, rfl⟩

theorem ends_read (T : Toolbox N L K) (noise : SceneFormat → Bool → Path → Fs → List Text) {args : Args} {t format : Text} {fs₁ fs₂ : Fs} {S : Path → Prop}
    (ht : args "<scene>".toList = some (.str t)) (hf : args "--input-format".toList = some (.str format))
    (hp : ∀ q, ScenePlace args (splitSlash t) q → S q) (h : SameAt S fs₁ fs₂) (hl : SameListing T args fs₁ fs₂) (hn : SameNoise noise args fs₁ fs₂) :
    SameEnd S (readTalk T noise (splitSlash t) format fs₁) (readTalk T noise (splitSlash t) format fs₂) := by
  unfold readTalk
  cases hh : sceneHandlerNamed (splitSlash t) format with
  | thrown e => exact ⟨rfl, h, rfl⟩
  | ub => exact ⟨rfl, h, rfl⟩
  | ok f =>
    have h0 : SameAt (ScenePlace args (splitSlash t)) fs₁ fs₂ := fun q hq => h q (hp q hq)
    obtain ⟨h1, h2⟩ := scene_same T ht hf hh h0 hl
    refine ⟨h1, h, ?_⟩
    show readSays T noise f (splitSlash t) fs₁ = readSays T noise f (splitSlash t) fs₂
    unfold readSays
    cases f with
    | off => rfl
    | obj => rfl
    | t3dsXml => dsimp only; rw [hn (h2 (Or.inr rfl)).1 t ht]
    | t3ds =>
      dsimp only
      have hc : T3ds.construct T.lib.load readMode (splitSlash t) fs₁ = T3ds.construct T.lib.load readMode (splitSlash t) fs₂ := by
        unfold T3ds.construct
        rw [h0 _ (Or.inl rfl)]
      have hd : SceneTree.construct T.lib.xml (xmlPath (splitSlash t)) fs₁ = SceneTree.construct T.lib.xml (xmlPath (splitSlash t)) fs₂ := by
        unfold SceneTree.construct
        rw [(h2 (Or.inl rfl)).2]
      have hn' := hn (h2 (Or.inl rfl)).1 t ht
      rw [hn', hn', hc, hd]

theorem ends_input (T : Toolbox N L K) (noise : SceneFormat → Bool → Path → Fs → List Text) {args : Args} {t format : Text} {fs₁ fs₂ : Fs} {S : Path → Prop}
    (prune terrain graphs : Bool)
    (ht : args "<scene>".toList = some (.str t)) (hf : args "--input-format".toList = some (.str format))
    (hp : ∀ q, ScenePlace args (splitSlash t) q → S q) (h : SameAt S fs₁ fs₂) (hl : SameListing T args fs₁ fs₂) (hn : SameNoise noise args fs₁ fs₂)
    (hg : graphs = true → S (splitSlash t).dropLast ∧ ∀ q, Within ((splitSlash t).dropLast ++ ["dual_graphs".toList]) q → S q) :
    SameEnd S (inputTalk T noise (splitSlash t) format prune terrain graphs fs₁) (inputTalk T noise (splitSlash t) format prune terrain graphs fs₂) := by
  unfold inputTalk
  refine ends_bind (ends_read T noise ht hf hp h hl hn) fun s => talks_bind (talks_quiet (looks_const _ _)) fun s' => talks_bind ?_ fun _ => talks_quiet (looks_const _ _)
  cases graphs with
  | false => exact talks_quiet (looks_skip _)
  | true => exact talks_announced _ _ (looks_duals (hg rfl).1 (hg rfl).2 _)

theorem orthoArgs_format {T : Toolbox N L K} {args : Args} {a : OrthoArgs K} (h : orthoArgs T args = .ok a) : args "--input-format".toList = some (.str a.format) := by
  unfold orthoArgs at h
  obtain ⟨path, h1, h⟩ := Out.bind_eq_ok.1 h
  obtain ⟨format, h2, h⟩ := Out.bind_eq_ok.1 h
  obtain ⟨prune, _, h⟩ := Out.bind_eq_ok.1 h
  obtain ⟨cache, _, h⟩ := Out.bind_eq_ok.1 h
  obtain ⟨graphs, _, h⟩ := Out.bind_eq_ok.1 h
  obtain ⟨terrain, _, h⟩ := Out.bind_eq_ok.1 h
  obtain ⟨save, _, h⟩ := Out.bind_eq_ok.1 h
  obtain ⟨scene, _, h⟩ := Out.bind_eq_ok.1 h
  obtain ⟨labels, _, h⟩ := Out.bind_eq_ok.1 h
  obtain ⟨rast, _, h⟩ := Out.bind_eq_ok.1 h
  obtain ⟨pixel, _, h⟩ := Out.bind_eq_ok.1 h
  cases h
  exact asString_ok h2

theorem ends_ortho (T : Toolbox N L K) (noise : SceneFormat → Bool → Path → Fs → List Text) (args : Args) {fs₁ fs₂ : Fs}
    (h : SameAt (OrthoLooks T args) fs₁ fs₂) (hl : SameListing T args fs₁ fs₂) (hn : SameNoise noise args fs₁ fs₂) :
    SameEnd (OrthoLooks T args) (orthoTalk T noise args fs₁) (orthoTalk T noise args fs₂) := by
  unfold orthoTalk
  cases ha : orthoArgs T args with
  | thrown e => exact ⟨rfl, h, rfl⟩
  | ub => exact ⟨rfl, h, rfl⟩
  | ok a =>
  have hstart : ∀ (k : OrthoArgs K → Talk Unit) fs, Talk.bind (Talk.announced "Parsing arguments... " (Act.reads fun _ => Out.ok a) "Done.\n") k fs =
      ((k a fs).1, (k a fs).2.1, [Said.out "Parsing arguments... ".toList, Said.out "Done.\n".toList] ++ (k a fs).2.2) := fun _ _ => rfl
  have hsay : ∀ (x : Text) (k : Unit → Talk Unit) fs, Talk.bind (Talk.say x) k fs = ((k () fs).1, (k () fs).2.1, [Said.out x] ++ (k () fs).2.2) := fun _ _ _ => rfl
  rw [hstart, hstart]
  rw [hsay, hsay]
  suffices hk : SameEnd (OrthoLooks T args) (Talk.bind (inputTalk T noise a.path a.format a.prune a.terrain a.graphs) _ fs₁)
      (Talk.bind (inputTalk T noise a.path a.format a.prune a.terrain a.graphs) _ fs₂) from
    ⟨hk.1, hk.2.1, by dsimp only; rw [hk.2.2]⟩
  obtain ⟨⟨t, ht, hpath⟩, hg, hs, hsc, hpx⟩ := orthoArgs_ok (T := T) (args := args) (a := a) ha
  have hfm := orthoArgs_format ha
  rw [hpath]
  have hroot : (Asked args "--graphs" ∨ Asked args "save") → OrthoLooks T args (splitSlash t).dropLast := fun k => Or.inr ⟨t, ht, Or.inr ⟨k, rfl⟩⟩
  refine ends_bind (ends_input T noise _ _ _ ht hfm (fun q hq => Or.inr ⟨t, ht, Or.inl hq⟩) h hl hn
    fun e => ⟨hroot (Or.inl (hg e)), fun q hq => Or.inl ⟨t, ht, Or.inl ⟨hg e, hq⟩⟩⟩) fun s => ?_
  cases hsave : a.save with
  | false => exact talks_quiet (looks_skip _)
  | true =>
    have hs' := hs hsave
    simp only [if_true]
    refine talks_bind (talks_announced _ _ (looks_const _ _)) fun ps => talks_bind (talks_announced _ _ (looks_prints (hroot (Or.inr hs'))
      (fun q hq => Or.inl ⟨t, ht, Or.inr (Or.inl ⟨hs', hq⟩)⟩) _ _ _ _)) fun _ => talks_bind ?_ fun _ => ?_
    · cases hscene : a.scene with
      | false => exact talks_quiet (looks_skip _)
      | true =>
        refine talks_announced _ _ (looks_scenePrints (plain_stem t) (hroot (Or.inr hs')) (Or.inl ⟨t, ht, Or.inr (Or.inr (Or.inl ⟨hs', hsc hscene, rfl⟩))⟩) _ ?_ _ _ _ _ _)
        intro k
        have k' : a.pixel ≠ 0 := of_decide_eq_true k
        exact Or.inl ⟨t, ht, Or.inr (Or.inr (Or.inr ⟨a.pixel, k', hpx k', hs', Or.inr ⟨hsc hscene, rfl⟩⟩))⟩
    · split
      · rename_i k'
        exact talks_bind (talks_announced _ _ (looks_const _ _)) fun rs => talks_announced _ _ (looks_rasters (hroot (Or.inr hs'))
          (fun q hq => Or.inl ⟨t, ht, Or.inr (Or.inr (Or.inr ⟨a.pixel, k', hpx k', hs', Or.inl hq⟩))⟩) _ _)
      · exact talks_quiet (looks_skip _)

theorem formatArgs_ok {args : Args} {a : FormatArgs} (h : formatArgs args = .ok a) (hf : a.formats = false) :
    ∃ t o, args "<scene>".toList = some (.str t) ∧ a.path = splitSlash t ∧ args "<path>".toList = some (.str o) ∧ a.outPath = splitSlash o ∧
      args "--input-format".toList = some (.str a.format) ∧ args "--output-format".toList = some (.str a.outFormat) ∧ ¬ Asked args "--formats" ∧
      (a.graphs = true → Asked args "--graphs") := by
  unfold formatArgs at h
  obtain ⟨formats, h0, h⟩ := Out.bind_eq_ok.1 h
  cases formats with
  | true =>
    simp only [if_true] at h
    cases h
    exact absurd hf (by decide)
  | false =>
    simp only [Bool.false_eq_true, if_false] at h
    obtain ⟨path, h1, h⟩ := Out.bind_eq_ok.1 h
    obtain ⟨format, h5, h⟩ := Out.bind_eq_ok.1 h
    obtain ⟨prune, _, h⟩ := Out.bind_eq_ok.1 h
    obtain ⟨graphs, h2, h⟩ := Out.bind_eq_ok.1 h
    obtain ⟨terrain, _, h⟩ := Out.bind_eq_ok.1 h
    obtain ⟨o, h3, h⟩ := Out.bind_eq_ok.1 h
    obtain ⟨of, h4, h⟩ := Out.bind_eq_ok.1 h
    cases h
    refine ⟨path, o, asString_ok h1, rfl, asString_ok h3, rfl, asString_ok h5, asString_ok h4, ?_, ?_⟩
    · unfold Asked
      rw [asBool_ok h0]
      decide
    · intro e
      dsimp only at e
      subst e
      exact asBool_ok h2

theorem ends_format (T : Toolbox N L K) (noise : SceneFormat → Bool → Path → Fs → List Text) (args : Args) {fs₁ fs₂ : Fs}
    (h : SameAt (FormatLooks args) fs₁ fs₂) (hl : ¬ Asked args "--formats" → SameListing T args fs₁ fs₂) (hn : ¬ Asked args "--formats" → SameNoise noise args fs₁ fs₂) :
    SameEnd (FormatLooks args) (formatTalk T noise args fs₁) (formatTalk T noise args fs₂) := by
  unfold formatTalk
  have hfirst : ∀ (o : Out Bool) (k : Bool → Talk Unit), (∀ b, SameEnd (FormatLooks args) (k b fs₁) (k b fs₂)) →
      SameEnd (FormatLooks args) (Talk.bind (Talk.quiet (Act.reads fun _ => o)) k fs₁) (Talk.bind (Talk.quiet (Act.reads fun _ => o)) k fs₂) := by
    intro o k hk
    cases o with
    | ok b => exact ⟨(hk b).1, (hk b).2.1, congrArg ([] ++ ·) (hk b).2.2⟩
    | thrown e => exact ⟨rfl, h, rfl⟩
    | ub => exact ⟨rfl, h, rfl⟩
  refine hfirst _ _ fun _ => ?_
  cases ha : formatArgs args with
  | thrown e => exact ⟨rfl, h, rfl⟩
  | ub => exact ⟨rfl, h, rfl⟩
  | ok a =>
  have hstart : ∀ (k : FormatArgs → Talk Unit) fs, Talk.bind (Talk.announced "Parsing arguments... " (Act.reads fun _ => Out.ok a) "Done.\n") k fs =
      ((k a fs).1, (k a fs).2.1, [Said.out "Parsing arguments... ".toList, Said.out "Done.\n".toList] ++ (k a fs).2.2) := fun _ _ => rfl
  have hsay : ∀ (x : Text) (k : Unit → Talk Unit) fs, Talk.bind (Talk.say x) k fs = ((k () fs).1, (k () fs).2.1, [Said.out x] ++ (k () fs).2.2) := fun _ _ _ => rfl
  rw [hstart, hstart]
  rw [hsay, hsay]
  cases hf : a.formats with
  | true => exact ⟨rfl, h, rfl⟩
  | false =>
  simp only [Bool.false_eq_true, if_false]
  suffices hk : SameEnd (FormatLooks args) (Talk.bind (inputTalk T noise a.path a.format a.prune a.terrain a.graphs) _ fs₁)
      (Talk.bind (inputTalk T noise a.path a.format a.prune a.terrain a.graphs) _ fs₂) from
    ⟨hk.1, hk.2.1, by dsimp only; rw [hk.2.2]⟩
  obtain ⟨t, o, ht, hpath, ho, hout, hfm, hof, hno, hg⟩ := formatArgs_ok ha hf
  rw [hpath, hout]
  refine ends_bind (ends_input T noise _ _ _ ht hfm (fun q hq => Or.inr (Or.inr ⟨t, ht, hno, Or.inl hq⟩)) h (hl hno) (hn hno)
    fun e => ⟨Or.inr (Or.inr ⟨t, ht, hno, Or.inr ⟨hg e, rfl⟩⟩), fun q hq => Or.inl ⟨t, o, _, ht, ho, hof, hno, Or.inl ⟨hg e, hq⟩⟩⟩) fun s =>
    talks_bind (talks_quiet (looks_const _ _)) fun f => talks_quiet (looks_sceneWrite (S := FormatLooks args) (p := splitSlash o) (fun q hq => Or.inl ⟨t, o, _, ht, ho, hof, hno, Or.inr hq⟩)
      (Or.inr (Or.inl ⟨o, ho, hno, rfl⟩)) _ _ _ _)

/-! ### C117 -/

theorem silence_state {A : Type} (x : Talk A) (fs : Fs) : (x fs).2.1 = (silence x fs).2 := rfl

/-- C117: orthoproject looks at the scene and at the places of its results and at nothing else: from two states of the files that are the same at these places, it ends in the same way, says the same and leaves
the same files, and it changes nothing elsewhere. -/
theorem C117_ortho (T : Toolbox N L K) (noise : SceneFormat → Bool → Path → Fs → List Text) (args : Args) (fs₁ fs₂ : Fs)
    (h : SameAt (OrthoLooks T args) fs₁ fs₂) (hl : SameListing T args fs₁ fs₂) (hn : SameNoise noise args fs₁ fs₂) :
    SameRun fs₁ fs₂ (mainTalk (orthoTalk T noise args) fs₁) (mainTalk (orthoTalk T noise args) fs₂) := by
  obtain ⟨h1, h2, h3⟩ := ends_main (ends_ortho T noise args h hl hn)
  refine ⟨h1, h3, fun q => ?_⟩
  by_cases hq : OrthoChanges T args q
  · exact Or.inl (h2 q (Or.inl hq))
  · have key : ∀ fs, (mainTalk (orthoTalk T noise args) fs).2.1 q = fs q := by
      intro fs
      by_contra hne
      refine hq (C67_ortho_confined T args fs q ?_)
      rw [silence_state, silence_main, silence_ortho] at hne
      exact hne
    exact Or.inr ⟨key _, key _⟩

/-- C117: the same for cityformat. -/
theorem C117_format (T : Toolbox N L K) (noise : SceneFormat → Bool → Path → Fs → List Text) (args : Args) (fs₁ fs₂ : Fs)
    (h : SameAt (FormatLooks args) fs₁ fs₂) (hl : ¬ Asked args "--formats" → SameListing T args fs₁ fs₂) (hn : ¬ Asked args "--formats" → SameNoise noise args fs₁ fs₂) :
    SameRun fs₁ fs₂ (mainTalk (formatTalk T noise args) fs₁) (mainTalk (formatTalk T noise args) fs₂) := by
  obtain ⟨h1, h2, h3⟩ := ends_main (ends_format T noise args h hl hn)
  refine ⟨h1, h3, fun q => ?_⟩
  by_cases hq : FormatChanges args q
  · exact Or.inl (h2 q (Or.inl hq))
  · have key : ∀ fs, (mainTalk (formatTalk T noise args) fs).2.1 q = fs q := by
      intro fs
      by_contra hne
      refine hq (C67_format_confined T args fs q ?_)
      rw [silence_state, silence_main, silence_format] at hne
      exact hne
    exact Or.inr ⟨key _, key _⟩

/-- C117: the same for the programs, whatever is typed; when docopt ends the program no file is looked at. -/
theorem C117_programs (T : Toolbox N L K) (noise : SceneFormat → Bool → Path → Fs → List Text) (version : Text) (argv : List Text) (fs₁ fs₂ : Fs) :
    ((∀ args, Docopt.docopt orthoUsage argv = .args args → SameAt (OrthoLooks T args) fs₁ fs₂ ∧ SameListing T args fs₁ fs₂ ∧ SameNoise noise args fs₁ fs₂) →
      SameRun fs₁ fs₂ (orthoConsole T noise version argv fs₁) (orthoConsole T noise version argv fs₂)) ∧
    ((∀ args, Docopt.docopt formatUsage argv = .args args → SameAt (FormatLooks args) fs₁ fs₂ ∧ SameListing T args fs₁ fs₂ ∧ SameNoise noise args fs₁ fs₂) →
      SameRun fs₁ fs₂ (formatConsole T noise version argv fs₁) (formatConsole T noise version argv fs₂)) := by
  unfold orthoConsole formatConsole
  generalize Docopt.docopt orthoUsage argv = d
  generalize Docopt.docopt formatUsage argv = d'
  constructor
  · intro h
    cases d with
    | args a => exact C117_ortho T noise a fs₁ fs₂ (h a rfl).1 (h a rfl).2.1 (h a rfl).2.2
    | exit n => exact ⟨rfl, rfl, fun q => Or.inr ⟨rfl, rfl⟩⟩
  · intro h
    cases d' with
    | args a => exact C117_format T noise a fs₁ fs₂ (h a rfl).1 (fun _ => (h a rfl).2.1) fun _ => (h a rfl).2.2
    | exit n => exact ⟨rfl, rfl, fun q => Or.inr ⟨rfl, rfl⟩⟩

end

/-! ### The hypotheses are met -/

/-- The disk of `toyFs` with another directory and a note beside the scene. -/
def crowdedFs : Fs := (toyFs.set ["e".toList] .dir).set ["d".toList, "notes.txt".toList] (.file "x".toList)

/-- C117: nobody sees the note: all the outputs of the complete run are the same. -/
theorem crowded_same (noise : SceneFormat → Bool → Path → Fs → List Text) (hn : SameNoise noise (toyArgs true true true) toyFs crowdedFs) :
    SameRun toyFs crowdedFs (mainTalk (orthoTalk toyTools noise (toyArgs true true true)) toyFs) (mainTalk (orthoTalk toyTools noise (toyArgs true true true)) crowdedFs) := by
  have hsc : ∀ t, toyArgs true true true "<scene>".toList = some (.str t) → t = "d/a.3ds".toList := by
    intro t ht
    have : some (Arg.str "d/a.3ds".toList) = some (Arg.str t) := ht
    injection this with this
    injection this with this
    exact this.symm
  have hsp : splitSlash "d/a.3ds".toList = ["d".toList, "a.3ds".toList] := by decide
  have hst : stem ["d".toList, "a.3ds".toList] = "a".toList := by decide
  refine C117_ortho toyTools noise _ _ _ ?_ (fun _ _ _ => rfl) hn
  have key : ∀ q, q ≠ ["e".toList] → q ≠ ["d".toList, "notes.txt".toList] → toyFs q = crowdedFs q := by
    intro q h1 h2
    unfold crowdedFs
    simp only [Fs.set, if_neg h1, if_neg h2]
  intro q hq
  refine key q ?_ ?_ <;> rintro rfl <;> revert hq
  · rintro (⟨t, ht, h⟩ | ⟨t, ht, h⟩) <;> cases hsc t ht <;> rw [hsp] at h
    · rw [hst] at h
      rcases h with ⟨-, r, h⟩ | ⟨-, r, h⟩ | ⟨-, -, h⟩ | ⟨_, -, -, -, ⟨r, h⟩ | ⟨-, h⟩⟩ <;> exact absurd (List.cons.inj h).1 (by decide)
    · rcases h with (h | ⟨-, n, -, h⟩ | ⟨-, h⟩) | ⟨-, h⟩ <;> exact absurd (List.cons.inj h).1 (by decide)
  · rintro (⟨t, ht, h⟩ | ⟨t, ht, h⟩) <;> cases hsc t ht <;> rw [hsp] at h
    · rw [hst] at h
      rcases h with ⟨-, r, h⟩ | ⟨-, r, h⟩ | ⟨-, -, h⟩ | ⟨_, -, -, -, ⟨r, h⟩ | ⟨-, h⟩⟩ <;>
        exact absurd (List.cons.inj (List.cons.inj h).2).1 (by decide)
    · rcases h with (h | ⟨h, -⟩ | ⟨-, h⟩) | ⟨-, h⟩
      · exact absurd h (by decide)
      · exact absurd h (by unfold AsksFormat; decide)
      · rw [hst] at h; exact absurd h (by decide)
      · exact absurd h (by decide)

end City.Props
