import Verif.Props.Visible
import Verif.Props.Convey

/-! C107 and C110 for a scene that is a directory of OFF files. -/

namespace City.Spec
open City

/-- The letters off, small or capital. -/
def OffLetters (e : Text) : Prop := List.Forall₂ (fun c b => c = b ∨ c = b.toUpper) e "off".toList

/-- A directory that holds a city: the files `b.off` can be read, terrain.off is one of them, and no two of them differ only in small and capital letters of the
extension. What else is in the directory does not matter. -/
structure OffCity (rnd : ℚ → ℚ) (lf : Bool) (fs : Fs) (p : Path) : Prop where
  dir : fs p = some .dir
  listed : ∃ names, Listing fs p names
  terrain : ∃ x, fs (p ++ ["terrain.off".toList]) = some (.file x)
  plain : ∀ b e, OffLetters e → fs (p ++ [b ++ '.' :: e]) ≠ none → '/' ∉ b
  readable : ∀ b e x, OffLetters e → fs (p ++ [b ++ '.' :: e]) = some (.file x) → ∃ m, Off.read rnd lf x = .ok m
  distinct : ∀ b e e', OffLetters e → OffLetters e' → fs (p ++ [b ++ '.' :: e]) ≠ none → fs (p ++ [b ++ '.' :: e']) ≠ none → e = e'

/-- The building `b` of the city: the file `b.off` has the mesh `m`. The terrain is not a building. -/
def BuildingOf (rnd : ℚ → ℚ) (lf : Bool) (fs : Fs) (p : Path) (b : Text) (m : Mesh) : Prop :=
  b ≠ "terrain".toList ∧ ∃ e x, OffLetters e ∧ fs (p ++ [b ++ '.' :: e]) = some (.file x) ∧ Off.read rnd lf x = .ok m

/-- The results of the city can be put in the directory `dir`: it is there or can be made, and no file of a building is named like a directory of it. -/
structure RoomFor (rnd : ℚ → ℚ) (lf : Bool) (fs : Fs) (p dir : Path) (exts : List Text) : Prop where
  dir_ok : fs dir = some .dir ∨ (fs dir = none ∧ dir ≠ [] ∧ fs dir.dropLast = some .dir)
  no_dir : ∀ b m, BuildingOf rnd lf fs p b m → ∀ e ∈ exts, fs (dir ++ [b ++ e]) ≠ some .dir

end City.Spec

namespace City.Props
open City City.Spec City.FacePrint City.Brick

set_option linter.unusedSectionVars false

theorem letters_no_dot {e : Text} (h : OffLetters e) : '.' ∉ e := by
  unfold OffLetters at h
  have k : ∀ b ∈ "off".toList, ('.' : Char) ≠ b ∧ ('.' : Char) ≠ b.toUpper := by decide
  generalize "off".toList = o at h k
  intro hd
  induction h with
  | nil => simp at hd
  | cons hab _ ih =>
    rcases List.mem_cons.1 hd with rfl | hd
    · rcases hab with hab | hab
      · exact (k _ (by simp)).1 hab
      · exact (k _ (by simp)).2 hab
    · exact ih (fun b hb => k b (by simp [hb])) hd

theorem split_unique {s x s' x' : Text} (hx : '.' ∉ x) (hx' : '.' ∉ x') (h : s ++ '.' :: x = s' ++ '.' :: x') : s = s' ∧ x = x' := by
  have e := congrArg List.reverse h
  simp only [List.reverse_append, List.reverse_cons, List.append_assoc, List.singleton_append] at e
  have d := congrArg (fun l => l.dropWhile (fun c => c != '.')) e
  have t := congrArg (fun l => l.takeWhile (fun c => c != '.')) e
  have a : ∀ y : Text, '.' ∉ y → ∀ c ∈ y.reverse, (c != '.') = true := by
    intro y hy c hc
    simp only [bne_iff_ne, ne_eq]; rintro rfl; exact hy (List.mem_reverse.1 hc)
  simp only [List.dropWhile_append_of_pos (a x hx), List.dropWhile_append_of_pos (a x' hx'), List.takeWhile_append_of_pos (a x hx), List.takeWhile_append_of_pos (a x' hx')] at d t
  constructor
  · simpa using d
  · simpa using t

theorem stem_of {p : Path} {b e : Text} (h : '.' ∉ e) : stem (p ++ [b ++ '.' :: e]) = b := by
  have hf : fileName (p ++ [b ++ '.' :: e]) = b ++ '.' :: e := by simp [fileName]
  unfold stem
  rw [hf]
  rcases splitExt_spec (b ++ '.' :: e) with ⟨s, x, h1, h2, h3⟩ | ⟨h1, -⟩
  · rw [h3]
    exact (split_unique h h2 h1).1.symm
  · exact absurd (by simp) h1

theorem named_of {p : Path} {n : Text} (h : NamedLike (p ++ [n]) "off".toList) : ∃ b e, OffLetters e ∧ n = b ++ '.' :: e := by
  obtain ⟨d, s, x, h1, h2⟩ := h
  refine ⟨s, x, h2, ?_⟩
  have := congrArg (fun l => l.getLastD []) h1
  simpa using this

/-- The files taken as buildings. -/
theorem building_iff (p : Path) (fs : Fs) (n : Text) : isBuildingFile p fs n = true ↔ ∃ b e x, OffLetters e ∧ n = b ++ '.' :: e ∧ b ≠ "terrain".toList ∧ fs (p ++ [n]) = some (.file x) := by
  have ht : "terrain.".toList = "terrain".toList ++ ['.'] := by decide
  rw [C31_buildings]
  constructor
  · rintro ⟨⟨x, hx⟩, hn, hte⟩
    obtain ⟨b, e, he, rfl⟩ := named_of hn
    refine ⟨b, e, x, he, rfl, ?_, hx⟩
    rintro rfl
    exact hte ⟨e, letters_no_dot he, by rw [ht, List.append_assoc]; rfl⟩
  · rintro ⟨b, e, x, he, rfl, hb, hx⟩
    refine ⟨⟨x, hx⟩, ⟨p, b, e, rfl, he⟩, ?_⟩
    rintro ⟨y, hy, h⟩
    rw [ht, List.append_assoc] at h
    exact hb (split_unique (letters_no_dot he) hy h).1

section
variable {K : Type} [Field K] [LinearOrder K] [IsStrictOrderedRing K] [FloorRing K]

/-- The scene read from a directory of OFF files. -/
theorem city_input {L : Type} {T : Toolbox (Out (UNode K)) L K} (hT : Lists T) (args : Args) (fs : Fs) (t : Text)
    (hscene : Given args "<scene>" t) (hfmt : Given args "--input-format" "OFF".toList) (hcity : OffCity T.rnd T.lf fs (splitSlash t))
    (hprune : Switch args "--prune" false) (hterrain : Switch args "--terrain" false) :
    ∃ (bs : List Mesh) (tr : Mesh), InputIs T args fs t false (Scene.make T.ops bs tr ⟨0, 0, 0⟩ 2154) ∧ (bs.map Mesh.name).Nodup ∧
      (∀ m ∈ bs, ∃ b m', BuildingOf T.rnd T.lf fs (splitSlash t) b m' ∧ m = m'.setName b) ∧
      (∀ b m, BuildingOf T.rnd T.lf fs (splitSlash t) b m → m.setName b ∈ bs) := by
  classical
  generalize hq : splitSlash t = p at hcity
  obtain ⟨hnd, hmem⟩ := hT fs p hcity.listed
  generalize hnames : T.listing fs p = names at hnd hmem
  have hF : sceneHandlerNamed p "OFF".toList = .ok .off := by
    rw [(C31_formats _ _ _).1]
    exact Or.inr (Or.inr (Or.inl ⟨rfl, rfl⟩))
  have hm : canRead readMode = true := by decide
  have ho : OffLetters "off".toList := by unfold OffLetters; decide
  have hto : "terrain.off".toList = "terrain".toList ++ '.' :: "off".toList := by decide
  -- what is read from a file
  have hread : ∀ b e x m, OffLetters e → fs (p ++ [b ++ '.' :: e]) = some (.file x) → Off.read T.rnd T.lf x = .ok m →
      offRead T.rnd T.lf readMode (p ++ [b ++ '.' :: e]) fs = .ok (m.setName b) := by
    intro b e x m he hx hr
    unfold offRead
    rw [if_pos hm, hx]
    dsimp only
    rw [hr, Out.ok_bind, stem_of (letters_no_dot he)]
  obtain ⟨xt, hxt⟩ := hcity.terrain
  obtain ⟨tr, htr⟩ := hcity.readable _ _ xt ho (by rw [← hto]; exact hxt)
  let g : Text → Mesh := fun n => match offRead T.rnd T.lf readMode (p ++ [n]) fs with | .ok m => m | _ => Mesh.empty
  have hg : ∀ n ∈ names.filter (isBuildingFile p fs), ∃ b e x m, OffLetters e ∧ n = b ++ '.' :: e ∧ b ≠ "terrain".toList ∧ fs (p ++ [n]) = some (.file x) ∧
      Off.read T.rnd T.lf x = .ok m ∧ g n = m.setName b ∧ offRead T.rnd T.lf readMode (p ++ [n]) fs = .ok (g n) := by
    intro n hn
    obtain ⟨b, e, x, he, rfl, hb, hx⟩ := (building_iff p fs n).1 (List.mem_filter.1 hn).2
    obtain ⟨m, hr⟩ := hcity.readable _ _ x he hx
    have h := hread b e x m he hx hr
    have hgn : g (b ++ '.' :: e) = m.setName b := by simp only [g, h]
    exact ⟨b, e, x, m, he, rfl, hb, hx, hr, hgn, by rw [hgn]; exact h⟩
  have hscn : sceneRead T.ops T.lib T.rnd T.lf .off readMode p names fs = .ok (Scene.makeDefault T.ops ((names.filter (isBuildingFile p fs)).map g) (tr.setName "terrain".toList)) := by
    show offSceneRead T.ops T.rnd T.lf readMode p names fs = _
    unfold offSceneRead
    rw [if_neg (by simpa using hcity.dir), Out.mapM_ok_of (g := g) fun n hn => (hg n hn).choose_spec.choose_spec.choose_spec.choose_spec.2.2.2.2.2.2, Out.ok_bind]
    have : joinPath p "terrain.off".toList = p ++ ["terrain.off".toList] := by
      unfold joinPath; congr 1
    rw [this, hto, hread _ _ xt tr ho (by rw [← hto]; exact hxt) htr, Out.ok_bind]
  refine ⟨(names.filter (isBuildingFile p fs)).map g, tr.setName "terrain".toList, ⟨hscene, hterrain, "OFF".toList, .off, _, false, hfmt, by rw [hq]; exact hF, by rw [hq, hnames]; exact hscn, hprune, by simp, fun _ => rfl⟩, ?_, ?_, ?_⟩
  · rw [List.map_map]
    refine List.Nodup.map_on ?_ (hnd.filter _)
    intro n hn n' hn' h
    obtain ⟨b, e, x, m, he, rfl, -, hx, -, hgn, -⟩ := hg n hn
    obtain ⟨b', e', x', m', he', rfl, -, hx', -, hgn', -⟩ := hg n' hn'
    have hb : b = b' := by
      have := h
      simp only [Function.comp] at this
      rw [hgn, hgn'] at this
      exact this
    subst hb
    rw [hcity.distinct b e e' he he' (by rw [hx]; simp) (by rw [hx']; simp)]
  · intro m hm'
    obtain ⟨n, hn, rfl⟩ := List.mem_map.1 hm'
    obtain ⟨b, e, x, m, he, rfl, hb, hx, hr, hgn, -⟩ := hg n hn
    exact ⟨b, m, ⟨hb, e, x, he, hx, hr⟩, hgn⟩
  · rintro b m ⟨hb, e, x, he, hx, hr⟩
    refine List.mem_map.2 ⟨b ++ '.' :: e, List.mem_filter.2 ⟨(hmem _).2 (by rw [hx]; simp), (building_iff _ _ _).2 ⟨b, e, x, he, rfl, hb, hx⟩⟩, ?_⟩
    simp only [g, hread b e x m he hx hr]

theorem city_ready {rnd : ℚ → ℚ} {lf : Bool} {fs : Fs} {p dir : Path} {names : Mesh → List Text} {bs : List Mesh}
    (hbs : ∀ m ∈ bs, ∃ b m', BuildingOf rnd lf fs p b m' ∧ m = m'.setName b) (exts : List Text) (hnames : ∀ m, names m = exts.map (m.name ++ ·))
    (h : RoomFor rnd lf fs p dir exts) : Ready fs dir (bs.flatMap names) := by
  refine ⟨h.dir_ok, fun n hn => ?_⟩
  obtain ⟨m, hm, hn⟩ := List.mem_flatMap.1 hn
  obtain ⟨b, m', hb, rfl⟩ := hbs m hm
  rw [hnames] at hn
  obtain ⟨e, he, rfl⟩ := List.mem_map.1 hn
  exact h.no_dir b m' hb e he

/-- C107, the part that holds, for a directory of OFF files: every file `b.off` but the terrain becomes the vector files of `b`, beside the directory; the
reference point is the origin, the EPSG code 2154. Missing: as in C106. -/
theorem C107_off_partial {F : Type} {T : Toolbox (Out (UNode K)) F K} {lib : SoupLib K} {emb : V3 ℚ → V3 K} (U : UsesNodes T lib emb) (hT : Lists T)
    {Ok : Pwh K → Prop} {Good : T.C.PSet → Prop} {Gen : V2 K → Prop} (hC : Lawful T.C Ok Good Gen)
    (hrev : ∀ (a : Poly K) p, T.C.side a.reverse p = T.C.side a p) (hL : SoupLaw lib) (args : Args) (fs : Fs) (t : Text) (la : Bool)
    (hscene : Given args "<scene>" t) (hfmt : Given args "--input-format" "OFF".toList) (hcity : OffCity T.rnd T.lf fs (splitSlash t))
    (hprune : Switch args "--prune" false) (hterrain : Switch args "--terrain" false) (ha : AsksVectors args la)
    (hb : ∀ b m, BuildingOf T.rnd T.lf fs (splitSlash t) b m → Drawable T.C Ok Gen emb m)
    (hr : RoomFor T.rnd T.lf fs (splitSlash t) ((splitSlash t).dropLast ++ ["vectors".toList]) [".shp".toList, ".txt".toList]) :
    ∃ fs', orthoMain T args fs = (.ok 0, fs') ∧ ∀ b m, BuildingOf T.rnd T.lf fs (splitSlash t) b m → ∃ fp : FootPrint K, fp.name = b ∧ fp.ref = emb ⟨0, 0, 0⟩ ∧
      fp.epsg = 2154 ∧ HeightsOf T.C Gen (faceShapes (m.points.map emb) (m.faces.map Face.points)) (fp.brick.height T.C) ∧
      fs' ((splitSlash t).dropLast ++ ["vectors".toList, b ++ ".shp".toList]) = some (.file (T.G.shp (fp.toOgr T.C la))) := by
  obtain ⟨bs, tr, h1, h2, h3, h4⟩ := city_input hT args fs t hscene hfmt hcity hprune hterrain
  obtain ⟨fs', k1, k2⟩ := C107_scene_partial U hC hrev hL args fs t la bs tr ⟨0, 0, 0⟩ 2154 h1 ha (fun m hm => by
      obtain ⟨b, m', hm', rfl⟩ := h3 m hm
      obtain ⟨a1, a2, a3⟩ := hb b m' hm'
      exact ⟨a1, a2, a3⟩) h2 (fun m hm => by
      obtain ⟨b, m', ⟨-, e, x, he, hx, -⟩, rfl⟩ := h3 m hm
      exact hcity.plain b e he (by rw [hx]; simp)) (city_ready h3 _ (fun _ => rfl) hr)
  exact ⟨fs', k1, fun b m hbm => k2 _ (h4 b m hbm)⟩

/-- The image files of a directory of OFF files, whatever is known about the images of its meshes. -/
theorem images_off {F : Type} {T : Toolbox (Out (UNode K)) F K} {lib : SoupLib K} {emb : V3 ℚ → V3 K} (U : UsesNodes T lib emb) (hlr : T.lr = true) (hT : Lists T)
    (P : Mesh → Raster K → Prop) (args : Args) (fs : Fs) (t : Text) (la : Bool) (p : K) (hp : 0 < p)
    (hscene : Given args "<scene>" t) (hfmt : Given args "--input-format" "OFF".toList) (hcity : OffCity T.rnd T.lf fs (splitSlash t))
    (hprune : Switch args "--prune" false) (hterrain : Switch args "--terrain" false) (ha : AsksImages T args la p)
    (hb : ∀ b m, BuildingOf T.rnd T.lf fs (splitSlash t) b m → ImageOf T.C lib emb ⟨0, 0, 0⟩ 2154 p P (m.setName b))
    (hr : RoomFor T.rnd T.lf fs (splitSlash t) ((splitSlash t).dropLast ++ ["vectors".toList]) [".shp".toList, ".txt".toList])
    (hi : RoomFor T.rnd T.lf fs (splitSlash t) ((splitSlash t).dropLast ++ ["rasters".toList]) [".tiff".toList]) :
    ∃ fs', orthoMain T args fs = (.ok 0, fs') ∧ ∀ b m, BuildingOf T.rnd T.lf fs (splitSlash t) b m → ∃ r : Raster K, r.name = b ∧ r.epsg = 2154 ∧
      P (m.setName b) r ∧ fs' ((splitSlash t).dropLast ++ ["rasters".toList, b ++ ".tiff".toList]) = some (.file (T.G.tiff r.toGdal)) := by
  obtain ⟨bs, tr, h1, h2, h3, h4⟩ := city_input hT args fs t hscene hfmt hcity hprune hterrain
  have hi' := city_ready (names := fun m => [m.name ++ ".tiff".toList]) h3 _ (fun _ => rfl) hi
  rw [← List.map_eq_flatMap] at hi'
  obtain ⟨fs', k1, k2⟩ := images_written U hlr P args fs t la p hp bs tr ⟨0, 0, 0⟩ 2154 h1 ha (fun m hm => by
      obtain ⟨b, m', hm', rfl⟩ := h3 m hm
      exact hb b m' hm') h2 (fun m hm => by
      obtain ⟨b, m', ⟨-, e, x, he, hx, -⟩, rfl⟩ := h3 m hm
      exact hcity.plain b e he (by rw [hx]; simp)) (city_ready h3 _ (fun _ => rfl) hr) hi'
  exact ⟨fs', k1, fun b m hbm => k2 _ (h4 b m hbm)⟩

/-- C110, the part that holds, for a directory of OFF files. Missing: as for a mesh. -/
theorem C110_off_partial {F : Type} {T : Toolbox (Out (UNode K)) F K} {lib : SoupLib K} {emb : V3 ℚ → V3 K} (U : UsesNodes T lib emb) (hlr : T.lr = true) (hT : Lists T)
    {Ok : Pwh K → Prop} {Good : T.C.PSet → Prop} {Gen : V2 K → Prop} (hC : Lawful T.C Ok Good Gen)
    (hrev : ∀ (a : Poly K) p, T.C.side a.reverse p = T.C.side a p) (hbd : ∀ q r, ∀ s ∈ T.C.inter q r, s.outer ≠ []) (hL : SoupLaw lib)
    (args : Args) (fs : Fs) (t : Text) (la : Bool) (p : K) (hp : 0 < p)
    (hscene : Given args "<scene>" t) (hfmt : Given args "--input-format" "OFF".toList) (hcity : OffCity T.rnd T.lf fs (splitSlash t))
    (hprune : Switch args "--prune" false) (hterrain : Switch args "--terrain" false) (ha : AsksImages T args la p)
    (hb : ∀ b m, BuildingOf T.rnd T.lf fs (splitSlash t) b m → Mappable T.C Ok Gen emb p m)
    (hr : RoomFor T.rnd T.lf fs (splitSlash t) ((splitSlash t).dropLast ++ ["vectors".toList]) [".shp".toList, ".txt".toList])
    (hi : RoomFor T.rnd T.lf fs (splitSlash t) ((splitSlash t).dropLast ++ ["rasters".toList]) [".tiff".toList]) :
    ∃ fs', orthoMain T args fs = (.ok 0, fs') ∧ ∀ b m, BuildingOf T.rnd T.lf fs (splitSlash t) b m → ∃ r : Raster K, r.name = b ∧ r.epsg = 2154 ∧
      ShowsFaces T.C Ok Gen (faceShapes (m.points.map emb) (m.faces.map Face.points)) (emb ⟨0, 0, 0⟩) p (UpLeft p) r ∧
      fs' ((splitSlash t).dropLast ++ ["rasters".toList, b ++ ".tiff".toList]) = some (.file (T.G.tiff r.toGdal)) :=
  images_off U hlr hT (fun m r => ShowsFaces T.C Ok Gen (faceShapes (m.points.map emb) (m.faces.map Face.points)) (emb ⟨0, 0, 0⟩) p (UpLeft p) r) args fs t la p hp hscene hfmt hcity
    hprune hterrain ha (fun b m hm => C110_mesh_partial hC hrev hbd hL emb (m.setName b) ⟨0, 0, 0⟩ 2154 p hp
      ⟨(hb b m hm).surface, (hb b m hm).faces, (hb b m hm).apart, (hb b m hm).roof, (hb b m hm).few, (hb b m hm).fits⟩) hr hi

/-- C110, the part that holds, for a directory of OFF files whose buildings have faces one above another. Missing: as for a mesh. -/
theorem C110_visible_off_partial {F : Type} {T : Toolbox (Out (UNode K)) F K} {lib : SoupLib K} {emb : V3 ℚ → V3 K} (U : UsesNodes T lib emb) (hlr : T.lr = true) (hT : Lists T)
    {Ok : Pwh K → Prop} {Good : T.C.PSet → Prop} {Gen : V2 K → Prop} (hC : Lawful T.C Ok Good Gen)
    (hrev : ∀ (a : Poly K) p, T.C.side a.reverse p = T.C.side a p) (hbd : ∀ q r, ∀ s ∈ T.C.inter q r, s.outer ≠ []) (hL : SoupLaw lib)
    (args : Args) (fs : Fs) (t : Text) (la : Bool) (p : K) (hp : 0 < p)
    (hscene : Given args "<scene>" t) (hfmt : Given args "--input-format" "OFF".toList) (hcity : OffCity T.rnd T.lf fs (splitSlash t))
    (hprune : Switch args "--prune" false) (hterrain : Switch args "--terrain" false) (ha : AsksImages T args la p)
    (hb : ∀ b m, BuildingOf T.rnd T.lf fs (splitSlash t) b m → Picturable T.C Ok Gen emb p m)
    (hr : RoomFor T.rnd T.lf fs (splitSlash t) ((splitSlash t).dropLast ++ ["vectors".toList]) [".shp".toList, ".txt".toList])
    (hi : RoomFor T.rnd T.lf fs (splitSlash t) ((splitSlash t).dropLast ++ ["rasters".toList]) [".tiff".toList]) :
    ∃ fs', orthoMain T args fs = (.ok 0, fs') ∧ ∀ b m, BuildingOf T.rnd T.lf fs (splitSlash t) b m → ∃ r : Raster K, r.name = b ∧ r.epsg = 2154 ∧
      ShowsVisible T.C Ok Gen (faceShapes (m.points.map emb) (m.faces.map Face.points)) (emb ⟨0, 0, 0⟩) p r ∧
      fs' ((splitSlash t).dropLast ++ ["rasters".toList, b ++ ".tiff".toList]) = some (.file (T.G.tiff r.toGdal)) :=
  images_off U hlr hT (fun m r => ShowsVisible T.C Ok Gen (faceShapes (m.points.map emb) (m.faces.map Face.points)) (emb ⟨0, 0, 0⟩) p r) args fs t la p hp hscene hfmt hcity
    hprune hterrain ha (fun b m hm => C110_visible_partial hC hrev hbd hL emb (m.setName b) ⟨0, 0, 0⟩ 2154 p hp
      ⟨⟨(hb b m hm).drawable.surface, (hb b m hm).drawable.faces, (hb b m hm).drawable.order⟩, (hb b m hm).gentle, (hb b m hm).roof, (hb b m hm).fits⟩) hr hi

end

/-! ### Example -/

/-- `orthoproject d/c --input-format=OFF save rasterize --pixel-size=1`. -/
def cityArgs : Args := fun n =>
  if n = "<scene>".toList then some (.str "d/c".toList) else
  if n = "--input-format".toList then some (.str "OFF".toList) else
  if n = "save".toList then some (.bool true) else
  if n = "rasterize".toList then some (.bool true) else
  if n = "--pixel-size".toList then some (.str ['1']) else some (.bool false)

/-- A directory with the block in a file house.OFF, the terrain, and a file that is not of the scene. -/
def cityFs : Fs
  | [d] => if d = "d".toList then some .dir else none
  | [d, n] => if d = "d".toList ∧ n = "c".toList then some .dir else none
  | [d, c, n] => if d = "d".toList ∧ c = "c".toList then
      (if n = "house.OFF".toList then some (.file (Off.write blockMesh)) else if n = "terrain.off".toList then some (.file (Off.write Mesh.empty)) else
        if n = "notes.txt".toList then some (.file []) else none) else none
  | _ => none

theorem cityFs_file {n : Text} (h : cityFs ["d".toList, "c".toList, n] ≠ none) : n ∈ ["house.OFF".toList, "terrain.off".toList, "notes.txt".toList] := by
  by_contra hn
  rw [List.mem_cons, List.mem_cons, List.mem_singleton, not_or, not_or] at hn
  refine h ?_
  unfold cityFs
  dsimp only
  rw [if_pos ⟨rfl, rfl⟩, if_neg hn.1, if_neg hn.2.1, if_neg hn.2.2]

/-- The names that are OFF files. -/
theorem cityFs_off {b e : Text} (he : OffLetters e) (h : cityFs ["d".toList, "c".toList, b ++ '.' :: e] ≠ none) :
    (b = "house".toList ∧ e = "OFF".toList) ∨ (b = "terrain".toList ∧ e = "off".toList) := by
  have hm := cityFs_file h
  have s1 : "house.OFF".toList = "house".toList ++ '.' :: "OFF".toList := by decide
  have s2 : "terrain.off".toList = "terrain".toList ++ '.' :: "off".toList := by decide
  have s3 : "notes.txt".toList = "notes".toList ++ '.' :: "txt".toList := by decide
  rw [s1, s2, s3, List.mem_cons, List.mem_cons, List.mem_singleton] at hm
  have hd := letters_no_dot he
  rcases hm with hm | hm | hm
  · exact .inl (split_unique hd (by decide) hm)
  · exact .inr (split_unique hd (by decide) hm)
  · obtain ⟨-, rfl⟩ := split_unique hd (by decide) hm
    exact absurd he (by unfold OffLetters; decide)

theorem city_texts : Off.read _root_.id true (Off.write blockMesh) = .ok (blockMesh.setName []) ∧ Off.read _root_.id true (Off.write Mesh.empty) = .ok (Mesh.empty.setName []) := by
  decide +kernel

theorem cityFs_city : OffCity _root_.id true cityFs (splitSlash "d/c".toList) := by
  rw [show splitSlash "d/c".toList = ["d".toList, "c".toList] by decide]
  have t1 : cityFs (["d".toList, "c".toList] ++ ["terrain.off".toList]) = some (.file (Off.write Mesh.empty)) := by decide +kernel
  refine ⟨by decide, ⟨["house.OFF".toList, "terrain.off".toList, "notes.txt".toList], by decide, fun n => ⟨fun h => ?_, cityFs_file⟩⟩, ⟨_, t1⟩, ?_, ?_, ?_⟩
  · have : ∀ n ∈ ["house.OFF".toList, "terrain.off".toList, "notes.txt".toList], cityFs (["d".toList, "c".toList] ++ [n]) ≠ none := by decide +kernel
    exact this n h
  · intro b e he h
    rcases cityFs_off he h with ⟨rfl, -⟩ | ⟨rfl, -⟩ <;> decide
  · intro b e x he h
    have h' : cityFs ["d".toList, "c".toList, b ++ '.' :: e] ≠ none := by
      show cityFs (["d".toList, "c".toList] ++ [b ++ '.' :: e]) ≠ none
      rw [h]; simp
    rcases cityFs_off he h' with ⟨rfl, rfl⟩ | ⟨rfl, rfl⟩
    · have hx : cityFs (["d".toList, "c".toList] ++ ["house".toList ++ '.' :: "OFF".toList]) = some (.file (Off.write blockMesh)) := by decide +kernel
      rw [hx] at h
      obtain rfl := Entry.file.inj (Option.some.inj h)
      exact ⟨_, city_texts.1⟩
    · have hx : cityFs (["d".toList, "c".toList] ++ ["terrain".toList ++ '.' :: "off".toList]) = some (.file (Off.write Mesh.empty)) := by decide +kernel
      rw [hx] at h
      obtain rfl := Entry.file.inj (Option.some.inj h)
      exact ⟨_, city_texts.2⟩
  · intro b e e' he he' h h'
    rcases cityFs_off he h with ⟨rfl, rfl⟩ | ⟨rfl, rfl⟩ <;> rcases cityFs_off he' h' with ⟨h1, rfl⟩ | ⟨h1, rfl⟩ <;> first | rfl | exact absurd h1 (by decide)

/-- The only building is the block. -/
theorem city_building {b : Text} {m : Mesh} (h : BuildingOf _root_.id true cityFs (splitSlash "d/c".toList) b m) : b = "house".toList ∧ m.points = blockMesh.points ∧ m.faces = blockMesh.faces := by
  rw [show splitSlash "d/c".toList = ["d".toList, "c".toList] by decide] at h
  obtain ⟨hb, e, x, he, hx, hr⟩ := h
  have h' : cityFs ["d".toList, "c".toList, b ++ '.' :: e] ≠ none := by
    show cityFs (["d".toList, "c".toList] ++ [b ++ '.' :: e]) ≠ none
    rw [hx]; simp
  rcases cityFs_off he h' with ⟨rfl, rfl⟩ | ⟨rfl, -⟩
  · have hx' : cityFs (["d".toList, "c".toList] ++ ["house".toList ++ '.' :: "OFF".toList]) = some (.file (Off.write blockMesh)) := by decide +kernel
    rw [hx'] at hx
    obtain rfl := Entry.file.inj (Option.some.inj hx)
    rw [city_texts.1] at hr
    obtain rfl := Out.ok.inj hr
    exact ⟨rfl, rfl, rfl⟩
  · exact absurd rfl hb

theorem city_room (a : Text) (exts : List Text) (ha : a = "vectors".toList ∨ a = "rasters".toList) : RoomFor _root_.id true cityFs (splitSlash "d/c".toList) ((splitSlash "d/c".toList).dropLast ++ [a]) exts := by
  rw [show (splitSlash "d/c".toList).dropLast = ["d".toList] by decide]
  refine ⟨.inr ⟨?_, by simp, ?_⟩, fun b m _ e _ => ?_⟩
  · rcases ha with rfl | rfl <;> decide
  · rcases ha with rfl | rfl <;> decide
  · show cityFs ["d".toList, a, b ++ e] ≠ some .dir
    unfold cityFs
    dsimp only
    rw [if_neg (by rcases ha with rfl | rfl <;> decide)]
    simp

/-- C107 and C110: the hypotheses are met: the directory of the block, read, projected and rasterised. -/
example (lib : SoupLib ℚ) (hL : SoupLaw lib) : ∃ fs', orthoMain (listTools lib) cityArgs cityFs = (.ok 0, fs') ∧ ∃ r : Raster ℚ, r.name = "house".toList ∧
    ShowsVisible rectCgal RectOk RectGen (faceShapes (blockMesh.points.map _root_.id) (blockMesh.faces.map Face.points)) ⟨0, 0, 0⟩ 1 r ∧
    fs' ["d".toList, "rasters".toList, "house.tiff".toList] = some (.file ((listTools lib).G.tiff r.toGdal)) := by
  have hp := block_picturable 1 le_rfl
  obtain ⟨fs', h1, h2⟩ := C110_visible_off_partial (listTools_uses lib) rfl (listTools_lists lib) (Ok := RectOk) (Good := RectGood) (Gen := RectGen) rect_lawful rect_reverse rect_bounded hL cityArgs
    cityFs "d/c".toList false 1 (by norm_num) (by unfold Given; decide) (by unfold Given; decide) cityFs_city (by unfold Switch; decide) (by unfold Switch; decide)
    ⟨⟨false, by unfold Switch; decide⟩, by unfold Switch; decide, by unfold Switch; decide, by unfold Switch; decide, by unfold Switch; decide,
      by unfold Asked; decide, ['1'], by decide, rfl⟩ (by
      intro b m hm
      obtain ⟨-, e1, e2⟩ := city_building hm
      obtain ⟨⟨a1, a2, a3⟩, a4, a5, a6⟩ := hp
      rw [← e1, ← e2] at a1 a2 a3 a4 a5 a6
      exact ⟨⟨a1, a2, a3⟩, a4, a5, a6⟩) (city_room _ _ (.inl rfl)) (city_room _ _ (.inr rfl))
  obtain ⟨m, hm⟩ : ∃ m, BuildingOf _root_.id true cityFs (splitSlash "d/c".toList) "house".toList m := by
    have ho : OffLetters "OFF".toList := by unfold OffLetters; decide
    have hx : cityFs (splitSlash "d/c".toList ++ ["house".toList ++ '.' :: "OFF".toList]) = some (.file (Off.write blockMesh)) := by decide +kernel
    obtain ⟨m, hm⟩ := cityFs_city.readable _ _ _ ho hx
    exact ⟨m, by decide, _, _, ho, hx, hm⟩
  obtain ⟨r, r1, -, r3, r4⟩ := h2 _ m hm
  obtain ⟨-, e1, e2⟩ := city_building hm
  rw [e1, e2] at r3
  exact ⟨fs', h1, r, r1, r3, r4⟩

end City.Props
