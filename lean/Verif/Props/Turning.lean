import Verif.Props.Again

set_option linter.unusedSectionVars false

namespace City.Props
open City City.Spec

/-! C116 when a building is converted first and drawn then: examples, and the full statement, which is false. -/

/-! ### Example -/

/-- `orthoproject d/out --input-format=OFF` with vector files. -/
def outArgs : Args := fun n =>
  if n = "<scene>".toList then some (.str "d/out".toList) else
  if n = "--input-format".toList then some (.str "OFF".toList) else
  if n = "save".toList then some (.bool true) else some (.bool false)

theorem outArgs_asks : AsksVectors outArgs false :=
  ⟨⟨false, by unfold Switch; decide⟩, by unfold Switch; decide, by unfold Switch; decide, by unfold Switch; decide, by unfold Switch; decide, by unfold Switch; decide⟩

theorem outFs_ready (x : Text) (names : List Text) : Ready (objFs x) ((splitSlash "d/out".toList).dropLast ++ ["vectors".toList]) names := by
  have := objFs_ready x names
  rw [show (splitSlash "d/a.obj".toList).dropLast ++ ["vectors".toList] = ["d".toList, "vectors".toList] by decide] at this
  rw [show (splitSlash "d/out".toList).dropLast ++ ["vectors".toList] = ["d".toList, "vectors".toList] by decide]
  exact this

/-- C116: the hypotheses are met by the block, whatever the library does: its OBJ file is drawn, and converted to a directory, which is drawn as well. -/
example (lib : SoupLib ℚ) (hL : SoupLaw lib) : ∃ direct converted drawn, orthoMain (listTools lib) objArgs (objFs blockObj) = (.ok 0, direct) ∧
    formatMain (listTools lib) (convArgs "d/a.obj".toList "OBJ".toList "d/out".toList "OFF".toList) (objFs blockObj) = (.ok 0, converted) ∧
    orthoMain (listTools lib) outArgs converted = (.ok 0, drawn) ∧ ∃ f g : FootPrint ℚ, (∀ q, RectGen q → f.brick.height rectCgal q = g.brick.height rectCgal q) ∧
      direct ["d".toList, "vectors".toList, "block.shp".toList] = some (.file ((listTools lib).G.shp (f.toOgr rectCgal false))) ∧
      drawn ["d".toList, "vectors".toList, "block.shp".toList] = some (.file ((listTools lib).G.shp (g.toOgr rectCgal false))) := by
  have one : ∀ {P : Mesh → Prop}, P blockMesh → ∀ m ∈ [blockMesh], P m := by
    intro P h m hm
    rw [List.mem_singleton] at hm
    subst hm
    exact h
  obtain ⟨direct, converted, drawn, h1, h2, h3, h4⟩ := C116_same_partial (listTools_uses lib) (listTools_back lib) hL (listTools_lists lib) rect_lawful rect_reverse
    (convArgs "d/a.obj".toList "OBJ".toList "d/out".toList "OFF".toList) outArgs objArgs (objFs blockObj) "d/a.obj".toList blockObj "d/out".toList false false [blockMesh]
    (convArgs_asks _ _ _ _) objName (by decide +kernel) blockObj_read (objFs_fresh _) (one block_convertible) (by decide) (by unfold Given; decide) (by unfold Given; decide)
    (by unfold Switch; decide) (by unfold Switch; decide) outArgs_asks (one fun _ => block_drawable) (by decide) (outFs_ready _ _) (by unfold Given; decide) (by unfold Given; decide)
    (by unfold Switch; decide) (by unfold Switch; decide) objArgs_asks (objFs_ready _ _)
  obtain ⟨f, g, -, -, -, k1, k2, k3⟩ := h4 blockMesh (by simp) (by decide)
  exact ⟨direct, converted, drawn, h1, h2, h3, f, g, k1, k2, k3⟩

/-- `orthoproject d/out --input-format=OFF` with vector files and images. -/
def outPixels : Args := fun n =>
  if n = "<scene>".toList then some (.str "d/out".toList) else
  if n = "--input-format".toList then some (.str "OFF".toList) else
  if n = "save".toList then some (.bool true) else
  if n = "rasterize".toList then some (.bool true) else
  if n = "--pixel-size".toList then some (.str ['1']) else some (.bool false)

theorem outPixels_asks (lib : SoupLib ℚ) : AsksImages (listTools lib) outPixels false 1 :=
  ⟨⟨false, by unfold Switch; decide⟩, by unfold Switch; decide, by unfold Switch; decide, by unfold Switch; decide, by unfold Switch; decide,
    by unfold Asked; decide, ['1'], by decide, rfl⟩

theorem outFs_images (x : Text) (names : List Text) : Ready (objFs x) ((splitSlash "d/out".toList).dropLast ++ ["rasters".toList]) names := by
  have := objFs_images x names
  rw [show (splitSlash "d/a.obj".toList).dropLast ++ ["rasters".toList] = ["d".toList, "rasters".toList] by decide] at this
  rw [show (splitSlash "d/out".toList).dropLast ++ ["rasters".toList] = ["d".toList, "rasters".toList] by decide]
  exact this

/-- C116: the hypotheses are met, for images, by the block. -/
example (lib : SoupLib ℚ) (hL : SoupLaw lib) : ∃ converted drawn,
    formatMain (listTools lib) (convArgs "d/a.obj".toList "OBJ".toList "d/out".toList "OFF".toList) (objFs blockObj) = (.ok 0, converted) ∧
    orthoMain (listTools lib) outPixels converted = (.ok 0, drawn) ∧ ∃ r : Raster ℚ,
      ShowsVisible rectCgal RectOk RectGen (faceShapes (blockMesh.points.map _root_.id) (blockMesh.faces.map Face.points)) ⟨0, 0, 0⟩ 1 r ∧
      drawn ["d".toList, "rasters".toList, "block.tiff".toList] = some (.file ((listTools lib).G.tiff r.toGdal)) := by
  have one : ∀ {P : Mesh → Prop}, P blockMesh → ∀ m ∈ [blockMesh], P m := by
    intro P h m hm
    rw [List.mem_singleton] at hm
    subst hm
    exact h
  obtain ⟨converted, drawn, h1, h2, h3⟩ := C116_visible_partial (listTools_uses lib) (listTools_back lib) hL (listTools_lists lib) rect_lawful rect_reverse rfl rect_bounded
    (convArgs "d/a.obj".toList "OBJ".toList "d/out".toList "OFF".toList) outPixels (objFs blockObj) "d/a.obj".toList blockObj "d/out".toList false 1 (by norm_num) [blockMesh]
    (convArgs_asks _ _ _ _) objName (by decide +kernel) blockObj_read (objFs_fresh _) (one block_convertible) (by decide) (by unfold Given; decide) (by unfold Given; decide)
    (by unfold Switch; decide) (by unfold Switch; decide) (outPixels_asks lib) (one fun _ => block_picturable 1 le_rfl) (by decide) (by decide) (outFs_ready _ _) (outFs_images _ _)
  obtain ⟨r, -, -, k1, k2⟩ := h3 blockMesh (by simp) (by decide)
  exact ⟨converted, drawn, h1, h2, r, k1, k2⟩

/-! ### The full statement -/

/-- C116, as it is stated: when orthoproject draws the buildings of an OBJ file rightly, it draws them rightly from the directory that cityformat makes of the file, for all meshes with flat
faces whose shadows are regions the library can handle. -/
def C116_full : Prop := ∀ (T : Toolbox (Out (UNode ℚ)) Unit ℚ) (lib : SoupLib ℚ), UsesNodes T lib _root_.id → NodesBack T _root_.id _root_.id → SoupLaw lib → Lists T →
  ∀ (Ok : Pwh ℚ → Prop) (Good : T.C.PSet → Prop) (Gen : V2 ℚ → Prop), Lawful T.C Ok Good Gen → (∀ (a : Poly ℚ) p, T.C.side a.reverse p = T.C.side a p) →
  ∀ (args args' args'' : Args) (fs direct : Fs) (t x o : Text) (la la' : Bool) (ms : List Mesh), AsksConversion args t "OBJ".toList o "OFF".toList → NamedLike (splitSlash t) "obj".toList →
  fs (splitSlash t) = some (.file x) → Obj.read T.rnd x = .ok ms → FreshDirectory fs (splitSlash o) → (∀ m ∈ ms, Convertible T.rnd _root_.id m) → (ms.map Mesh.name).Nodup →
  Given args' "<scene>" o → Given args' "--input-format" "OFF".toList → Switch args' "--prune" false → Switch args' "--terrain" false → AsksVectors args' la →
  (∀ m ∈ ms, m.name ≠ "terrain".toList → ∀ l ∈ faceShapes m.points (m.faces.map Face.points),
    SeenAsLine l ∨ (FlatRoof l ∧ ∃ r, Ok r ∧ ∀ q, Interior T.C r q ↔ T.C.side (l.map ground) q = .bounded)) →
  (splitSlash o).getLast? ≠ some "vectors".toList →
  Ready fs ((splitSlash o).dropLast ++ ["vectors".toList]) (ms.flatMap fun m => [m.name ++ ".shp".toList, m.name ++ ".txt".toList]) →
  Given args'' "<scene>" t → Given args'' "--input-format" "OBJ".toList → Switch args'' "--prune" false → Switch args'' "--terrain" false → AsksVectors args'' la' →
  orthoMain T args'' fs = (.ok 0, direct) →
  (∀ m ∈ ms, m.name ≠ "terrain".toList → ∃ f : FootPrint ℚ, HeightsOf T.C Gen (faceShapes m.points (m.faces.map Face.points)) (f.brick.height T.C) ∧
    direct ((splitSlash t).dropLast ++ ["vectors".toList, m.name ++ ".shp".toList]) = some (.file (T.G.shp (f.toOgr T.C la')))) →
  ∃ converted drawn, formatMain T args fs = (.ok 0, converted) ∧ orthoMain T args' converted = (.ok 0, drawn) ∧ ∀ m ∈ ms, m.name ≠ "terrain".toList → ∃ g : FootPrint ℚ,
    HeightsOf T.C Gen (faceShapes m.points (m.faces.map Face.points)) (g.brick.height T.C) ∧
    drawn ((splitSlash o).dropLast ++ ["vectors".toList, m.name ++ ".shp".toList]) = some (.file (T.G.shp (g.toOgr T.C la)))

/-- A flat roof of two by two units at 3 m with a fifth corner in the middle of a side, whose face begins at the half-edge `k`. -/
def bent (k : Nat) : Surf ℚ := ofTables [1, 2, 3, 4, 0, 9, 5, 6, 7, 8] [4, 0, 1, 2, 3, 6, 7, 8, 9, 5] [5, 6, 7, 8, 9, 0, 1, 2, 3, 4] [0, 1, 2, 3, 4, 4, 0, 1, 2, 3]
  [some 0, some 0, some 0, some 0, some 0, none, none, none, none, none] [k] [⟨2, 2, 3⟩, ⟨0, 2, 3⟩, ⟨0, 0, 3⟩, ⟨1, 0, 3⟩, ⟨2, 0, 3⟩]

/-- Its corners. -/
def bentPoints : List (V3 ℚ) := [⟨2, 2, 3⟩, ⟨0, 2, 3⟩, ⟨0, 0, 3⟩, ⟨1, 0, 3⟩, ⟨2, 0, 3⟩]

/-- Its mesh. -/
def bentMesh : Mesh := Mesh.make "roof".toList bentPoints [⟨[0, 1, 2, 3, 4]⟩]

/-- Its OBJ file. -/
def bentObj : Text := "v 2 2 3\nv 0 2 3\nv 0 0 3\nv 1 0 3\nv 2 0 3\n\no roof\nf 1 2 3 4 5 \n".toList

theorem bentObj_read : Obj.read _root_.id bentObj = .ok [bentMesh] := by decide +kernel

theorem bent_first : Represents (bent 1) bentPoints [[0, 1, 2, 3, 4]] := by
  refine ⟨checkSurf_valid (by decide +kernel), by decide +kernel, rfl, by decide +kernel, ?_, ?_, by decide +kernel, by decide +kernel⟩
  · intro h hh k hk he
    have : ∀ h ∈ (bent 1).hs, ∀ k ∈ (bent 1).hs, (bent 1).vert h = (bent 1).vert k → ∃ n ∈ List.range 2, (fun x => (bent 1).opp ((bent 1).next x))^[n] h = k := by
      decide +kernel
    obtain ⟨n, _, hn⟩ := this h hh k hk he
    exact ⟨n, hn⟩
  · refine .cons ⟨[0, 1, 2, 3, 4], boundaryOf_check (by decide) (by decide) (by decide +kernel) (by decide +kernel) (by decide +kernel), ?_⟩ .nil
    simp only [List.forall₂_cons, List.Forall₂.nil, and_true]
    decide +kernel

theorem bent_second : Represents (bent 2) bentPoints [[1, 2, 3, 4, 0]] := by
  refine ⟨checkSurf_valid (by decide +kernel), by decide +kernel, rfl, by decide +kernel, ?_, ?_, by decide +kernel, by decide +kernel⟩
  · intro h hh k hk he
    have : ∀ h ∈ (bent 2).hs, ∀ k ∈ (bent 2).hs, (bent 2).vert h = (bent 2).vert k → ∃ n ∈ List.range 2, (fun x => (bent 2).opp ((bent 2).next x))^[n] h = k := by
      decide +kernel
    obtain ⟨n, _, hn⟩ := this h hh k hk he
    exact ⟨n, hn⟩
  · refine .cons ⟨[1, 2, 3, 4, 0], boundaryOf_check (by decide) (by decide) (by decide +kernel) (by decide +kernel) (by decide +kernel), ?_⟩ .nil
    simp only [List.forall₂_cons, List.Forall₂.nil, and_true]
    decide +kernel

open Classical in
/-- A library which begins the face at the second corner of the polygon. -/
noncomputable def bentLib : SoupLib ℚ :=
  ⟨demoSoup.orient, fun pts polys => if pts = bentPoints ∧ polys = [[0, 1, 2, 3, 4]] then .ok (bent 1) else if pts = bentPoints ∧ polys = [[1, 2, 3, 4, 0]] then .ok (bent 2)
    else demoSoup.build pts polys, demoSoup.outward⟩

theorem bentLib_first : bentLib.build bentPoints [[0, 1, 2, 3, 4]] = .ok (bent 1) := by
  have g : ∀ pts polys, pts = bentPoints ∧ polys = [[0, 1, 2, 3, 4]] → bentLib.build pts polys = .ok (bent 1) := by
    intro pts polys h
    unfold bentLib
    simp only
    rw [if_pos h]
  exact g _ _ ⟨rfl, rfl⟩

theorem bentLib_second : bentLib.build bentPoints [[1, 2, 3, 4, 0]] = .ok (bent 2) := by
  have g : ∀ pts polys, pts = bentPoints ∧ polys = [[1, 2, 3, 4, 0]] → bentLib.build pts polys = .ok (bent 2) := by
    intro pts polys h
    unfold bentLib
    simp only
    rw [if_neg (by rw [h.2]; simp), if_pos h]
  exact g _ _ ⟨rfl, rfl⟩

theorem bentLib_law : SoupLaw bentLib where
  orient_id := demoSoup_law.orient_id
  build_ok := by
    intro pts polys h
    by_cases e : pts = bentPoints ∧ polys = [[0, 1, 2, 3, 4]]
    · exact ⟨bent 1, by rw [e.1, e.2]; exact bentLib_first, by rw [e.1, e.2]; exact bent_first⟩
    · by_cases e' : pts = bentPoints ∧ polys = [[1, 2, 3, 4, 0]]
      · exact ⟨bent 2, by rw [e'.1, e'.2]; exact bentLib_second, by rw [e'.1, e'.2]; exact bent_second⟩
      · obtain ⟨S, h1, h2⟩ := demoSoup_law.build_ok pts polys h
        refine ⟨S, ?_, h2⟩
        unfold bentLib
        simp only
        rw [if_neg e, if_neg e', h1]
  outward_same := demoSoup_law.outward_same
  outward_reverse := demoSoup_law.outward_reverse

/-- The node of a mesh with these points. -/
theorem bent_node (k : Nat) (m : Mesh) (hn : m.name = "roof".toList) (hp : m.points = bentPoints) (hb : bentLib.build bentPoints (m.faces.map Face.points) = .ok (bent k))
    (hc : (bent k).isClosed = false) : UNode.ofMesh bentLib _root_.id m ⟨0, 0, 0⟩ 2154 = .ok (UNode.make "roof".toList ⟨0, 0, 0⟩ 2154 (bent k)) := by
  unfold UNode.ofMesh UNode.ofSoup
  have e : bentLib.orient (m.points.map _root_.id) (m.faces.map Face.points) = (bentPoints, m.faces.map Face.points) := by
    rw [List.map_id, hp]
    rfl
  rw [e, hn]
  dsimp only
  rw [hb, Out.ok_bind]
  unfold UNode.orientOutward
  rw [hc]
  rfl

/-- What is drawn for the mesh of the OBJ file. -/
def bentPrint : FacePrint ℚ := ⟨0, ⟨[⟨0, 2⟩, ⟨0, 0⟩, ⟨1, 0⟩, ⟨2, 0⟩, ⟨2, 2⟩], []⟩, ⟨0, 0, 2, -6⟩⟩

theorem bent_drawn : FootPrint.ofUNode rectCgal _root_.id (UNode.make "roof".toList ⟨0, 0, 0⟩ 2154 (bent 1)) = .ok ⟨"roof".toList, ⟨0, 0, 0⟩, 2154, ⟨some ⟨0, 0, 2, 2⟩, [bentPrint]⟩⟩ := by
  decide +kernel

theorem bent_lost : FootPrint.ofUNode rectCgal _root_.id (UNode.make "roof".toList ⟨0, 0, 0⟩ 2154 (bent 2)) = .ok ⟨"roof".toList, ⟨0, 0, 0⟩, 2154, Brick.empty⟩ := by decide +kernel

theorem bent_shapes : faceShapes bentPoints [[0, 1, 2, 3, 4]] = [bentPoints] := by decide +kernel

theorem bent_seen : ¬ SeenAsLine bentPoints := by
  rintro ⟨a, b, c, hab, hall⟩
  have e1 := hall ⟨0, 0, 3⟩ (by simp [bentPoints])
  have e2 := hall ⟨2, 0, 3⟩ (by simp [bentPoints])
  have e3 := hall ⟨0, 2, 3⟩ (by simp [bentPoints])
  simp only at e1 e2 e3
  rcases hab with h | h
  · exact h (by linarith)
  · exact h (by linarith)

theorem bent_side (q : V2 ℚ) : rectCgal.side (bentPoints.map ground) q = .bounded ↔ 0 < q.x ∧ q.x < 2 ∧ 0 < q.y ∧ q.y < 2 :=
  rect_bounded_iff (b := ⟨0, 0, 2, 2⟩) (by decide +kernel) q

theorem bent_over (q : V2 ℚ) (z : ℚ) : Over rectCgal bentPoints q z ↔ (0 < q.x ∧ q.x < 2 ∧ 0 < q.y ∧ q.y < 2) ∧ z = 3 := by
  unfold Over
  rw [bent_side]
  constructor
  · rintro ⟨-, h, n, hc, hn, hz⟩
    refine ⟨h, ?_⟩
    have e1 := hn ⟨0, 0, 3⟩ (by simp [bentPoints])
    have e2 := hn ⟨2, 0, 3⟩ (by simp [bentPoints])
    have e3 := hn ⟨0, 2, 3⟩ (by simp [bentPoints])
    unfold OnPlane at e1 e2 e3 hz
    simp only at e1 e2 e3
    have ha : n.a = 0 := by linarith
    have hb : n.b = 0 := by linarith
    rw [ha, hb] at hz
    rw [ha, hb] at e1
    have : n.c * (z - 3) = 0 := by linarith
    rcases mul_eq_zero.1 this with h | h
    · exact absurd h hc
    · linarith
  · rintro ⟨h, rfl⟩
    exact ⟨bent_seen, h, ⟨0, 0, 1, -3⟩, by norm_num, by simp [bentPoints, OnPlane], by norm_num [OnPlane]⟩

theorem bent_contains (q : V2 ℚ) (hq : RectGen q) : bentPrint.contains rectCgal q = true ↔ 0 < q.x ∧ q.x < 2 ∧ 0 < q.y ∧ q.y < 2 := by
  have hb : polyBox bentPrint.border.outer = some ⟨0, 0, 2, 2⟩ := by decide +kernel
  have hs : rectCgal.side bentPrint.border.outer q = .bounded ↔ 0 < q.x ∧ q.x < 2 ∧ 0 < q.y ∧ q.y < 2 := rect_bounded_iff hb q
  have hn : rectCgal.side bentPrint.border.outer q ≠ .boundary := by
    have rs : ∀ l q, rectCgal.side l q = rectSide l q := fun _ _ => rfl
    rw [rs]
    unfold rectSide
    rw [hb]
    simp only
    split
    · simp
    · rename_i h
      rw [if_neg]
      · simp
      · rintro ⟨h1, h2, h3, h4⟩
        apply h
        have i0 : q.x ≠ 0 := fun e => hq.1 (by rw [e]; exact ⟨0, by norm_num⟩)
        have i2 : q.x ≠ 2 := fun e => hq.1 (by rw [e]; exact ⟨2, by norm_num⟩)
        have j0 : q.y ≠ 0 := fun e => hq.2 (by rw [e]; exact ⟨0, by norm_num⟩)
        have j2 : q.y ≠ 2 := fun e => hq.2 (by rw [e]; exact ⟨2, by norm_num⟩)
        exact ⟨lt_of_le_of_ne h1 (Ne.symm i0), lt_of_le_of_ne h2 i2, lt_of_le_of_ne h3 (Ne.symm j0), lt_of_le_of_ne h4 j2⟩
  rw [← hs]
  unfold FacePrint.contains
  rw [show bentPrint.border.holes = [] from rfl]
  cases e : rectCgal.side bentPrint.border.outer q <;> simp_all

theorem bent_heights : HeightsOf rectCgal RectGen [bentPoints] ((⟨some ⟨0, 0, 2, 2⟩, [bentPrint]⟩ : Brick ℚ).height rectCgal) := by
  intro q hq
  have hc := bent_contains q hq
  have any : (⟨some ⟨0, 0, 2, 2⟩, [bentPrint]⟩ : Brick ℚ).contains rectCgal q = bentPrint.contains rectCgal q := by
    unfold Brick.contains
    simp
  constructor
  · rintro ⟨l, hl, z, h⟩
    rw [List.mem_singleton] at hl
    subst hl
    have h' := (bent_over q z).1 h
    have c := hc.2 h'.1
    refine ⟨3, ?_, ⟨_, List.mem_singleton_self _, (bent_over q 3).2 ⟨h'.1, rfl⟩⟩, fun l hl z' h => ?_⟩
    · unfold Brick.height
      rw [any, c, if_pos rfl]
      unfold Brick.sumHeights FacePrint.height FacePrint.planeHeight
      rw [c]
      rw [show FacePrint.isDegenerate rectCgal bentPrint = false by decide +kernel]
      rw [if_neg (by simp [bentPrint])]
      have : ∀ x : ℚ, rectCgal.toDouble x = x := fun _ => rfl
      simp only [this, Out.ok_bind, Brick.sumHeights, FacePrint.times, bentPrint]
      norm_num
    · rw [List.mem_singleton] at hl
      subst hl
      exact ((bent_over q z').1 h).2.le
  · intro h
    unfold Brick.height
    rw [any]
    rw [if_neg]
    intro c
    exact h ⟨_, List.mem_singleton_self _, 3, (bent_over q 3).2 ⟨hc.1 c, rfl⟩⟩

set_option exponentiation.threshold 2000 in
theorem bent_convertible : Convertible _root_.id _root_.id bentMesh := by
  have f : ∀ a : ℚ, a = 0 ∨ a = 1 ∨ a = 2 ∨ a = 3 → FewDigits a ∧ |a| ≤ dblMax := by
    rintro a (rfl | rfl | rfl | rfl)
    · exact ⟨⟨0, 0, by norm_num, by norm_num⟩, by unfold dblMax; norm_num⟩
    · exact ⟨⟨1, 0, by norm_num, by norm_num⟩, by unfold dblMax; norm_num⟩
    · exact ⟨⟨2, 0, by norm_num, by norm_num⟩, by unfold dblMax; norm_num⟩
    · exact ⟨⟨3, 0, by norm_num, by norm_num⟩, by unfold dblMax; norm_num⟩
  have hp : ∀ p ∈ bentMesh.points, (p.x = 0 ∨ p.x = 1 ∨ p.x = 2 ∨ p.x = 3) ∧ (p.y = 0 ∨ p.y = 1 ∨ p.y = 2 ∨ p.y = 3) ∧ (p.z = 0 ∨ p.z = 1 ∨ p.z = 2 ∨ p.z = 3) := by decide +kernel
  refine ⟨⟨bent 1, by rw [List.map_id]; exact bent_first⟩, ⟨fun p h => ?_, by decide +kernel, ⟨by decide +kernel, by decide +kernel, by decide +kernel⟩, by decide +kernel⟩,
    by decide +kernel, fun p h => ?_, fun _ _ => ⟨rfl, rfl, rfl⟩, by unfold FileNameOk; decide +kernel, by unfold NoBlank; decide +kernel⟩
  · obtain ⟨h1, h2, h3⟩ := hp p h
    exact ⟨(f _ h1).2, (f _ h2).2, (f _ h3).2⟩
  · obtain ⟨h1, h2, h3⟩ := hp p h
    exact ⟨(f _ h1).1, (f _ h2).1, (f _ h3).1⟩

theorem bent_roofs : ∀ l ∈ faceShapes bentPoints [[0, 1, 2, 3, 4]], SeenAsLine l ∨
    (FlatRoof l ∧ ∃ r, RectOk r ∧ ∀ q, Interior rectCgal r q ↔ rectCgal.side (l.map ground) q = .bounded) := by
  rw [bent_shapes]
  intro l hl
  rw [List.mem_singleton] at hl
  subst hl
  refine .inr ⟨level_flat 3 (by simp [bentPoints]), rect ⟨0, 0, 2, 2⟩, ⟨⟨0, 0, 2, 2⟩, by decide, ⟨0, by norm_num⟩, ⟨0, by norm_num⟩, ⟨2, by norm_num⟩, ⟨2, by norm_num⟩, isRect_rect _⟩, fun q => ?_⟩
  rw [bent_side]
  have := rect_bounded_iff (polyBox_rect (b := ⟨0, 0, 2, 2⟩) (by decide)) q
  refine ⟨fun k => this.1 k.1, fun k => ⟨this.2 k, by simp [rect]⟩⟩

/-- One building drawn. -/
theorem one_drawn (args : Args) (fs : Fs) (path : Text) (m tr : Mesh) (fp : FootPrint ℚ) (hin : InputIs (listTools bentLib) args fs path false (Scene.make (listTools bentLib).ops [m] tr ⟨0, 0, 0⟩ 2154))
    (ha : AsksVectors args false) (hp : UNode.ofMesh bentLib _root_.id m ⟨0, 0, 0⟩ 2154 >>= FootPrint.ofUNode rectCgal _root_.id = .ok fp) (hn : PlainName fp.name)
    (hr : Ready fs ((splitSlash path).dropLast ++ ["vectors".toList]) [fp.name ++ ".shp".toList, fp.name ++ ".txt".toList]) :
    ∃ fs', orthoMain (listTools bentLib) args fs = (.ok 0, fs') ∧
      fs' ((splitSlash path).dropLast ++ ["vectors".toList, fp.name ++ ".shp".toList]) = some (.file ((listTools bentLib).G.shp (fp.toOgr (listTools bentLib).C false))) := by
  have hrun : RunOk (listTools bentLib) args fs path false false false false 0
      (Scene.make (listTools bentLib).ops [m] tr ⟨0, 0, 0⟩ 2154) [fp] [] FootPrint.empty Raster.empty := by
    refine ⟨hin, ha.cache, ha.graphs, ha.save, ha.scene, ha.labels, .inl ⟨ha.rasterize, rfl⟩, ?_, ⟨by simp, ?_⟩,
      by simp, hr, by simp, by simp, by simp⟩
    · exact .cons hp .nil
    · intro f hf
      rw [List.mem_singleton] at hf
      subst hf
      exact hn
  obtain ⟨fs', e1, -, e2, -⟩ := C86_ortho _ _ _ _ _ _ _ _ _ _ _ _ _ _ hrun
  exact ⟨fs', e1, (e2 _ (List.mem_singleton_self _)).1⟩

/-- C116: false as stated: the roof is drawn when its OBJ file is drawn, and lost when the directory made of it is drawn. -/
theorem C116_refuted : ¬ C116_full := by
  intro h
  have one : ∀ {P : Mesh → Prop}, P bentMesh → ∀ m ∈ [bentMesh], P m := by
    intro P h m hm
    rw [List.mem_singleton] at hm
    subst hm
    exact h
  have hplain : PlainName "roof".toList := by unfold PlainName; decide
  have hF : sceneHandlerNamed (splitSlash "d/a.obj".toList) "OBJ".toList = .ok .obj := by decide +kernel
  have hm : OpenedRead readMode := by unfold OpenedRead; decide
  have hfile : objFs bentObj (splitSlash "d/a.obj".toList) = some (.file bentObj) := by decide +kernel
  obtain ⟨b, tr, k1, k2⟩ := C29_scene (listTools bentLib).ops (listTools bentLib).rnd readMode (splitSlash "d/a.obj".toList) (objFs bentObj) bentObj [bentMesh] hm hfile bentObj_read
  have hb : b = [bentMesh] := by
    rw [exclude_eq] at k1
    exact (congrArg Prod.fst k1).symm
  subst hb
  have hin : InputIs (listTools bentLib) objArgs (objFs bentObj) "d/a.obj".toList false (Scene.make (listTools bentLib).ops [bentMesh] tr ⟨0, 0, 0⟩ 2154) :=
    ⟨by unfold Given; decide, by unfold Switch; decide, "OBJ".toList, .obj, _, false, by unfold Given; decide, hF, k2, by unfold Switch; decide, by simp, fun _ => rfl⟩
  have node1 := bent_node 1 bentMesh rfl rfl bentLib_first (by decide +kernel)
  obtain ⟨direct, d1, d2⟩ := one_drawn objArgs _ _ bentMesh tr _ hin objArgs_asks (by rw [node1, Out.ok_bind]; exact bent_drawn) hplain (objFs_ready _ _)
  obtain ⟨fs', bs, tr', c1, c2, c3, c4, c5, c6⟩ := converted_input (listTools_uses bentLib) (listTools_back bentLib) bentLib_law (listTools_lists bentLib)
    (convArgs "d/a.obj".toList "OBJ".toList "d/out".toList "OFF".toList) outArgs (objFs bentObj) "d/a.obj".toList bentObj "d/out".toList [bentMesh]
    (convArgs_asks _ _ _ _) objName hfile bentObj_read (objFs_fresh _) (one bent_convertible) (by decide) (by unfold Given; decide) (by unfold Given; decide)
    (by unfold Switch; decide) (by unfold Switch; decide)
  obtain ⟨r, r1, r2, r3⟩ := c4 bentMesh (by simp) (by decide)
  have hbs : bs = [r] := by
    have all : ∀ s ∈ bs, s.name = "roof".toList := by
      intro s hs
      obtain ⟨m, m1, -, m2⟩ := c5 s hs
      rw [List.mem_singleton] at m1
      subst m1
      exact m2.name
    cases bs with
    | nil => simp at r1
    | cons s t =>
      cases t with
      | nil =>
        rw [List.mem_singleton] at r1
        rw [r1]
      | cons u t =>
        rw [List.map_cons, List.map_cons, List.nodup_cons] at c3
        exact absurd (by rw [all s (by simp), all u (by simp)]; simp) c3.1
  subst hbs
  have hback : Mesh.ofNode _root_.id (UNode.make "roof".toList ⟨0, 0, 0⟩ 2154 (bent 1)) = .ok (Mesh.make "roof".toList bentPoints [⟨[1, 2, 3, 4, 0]⟩]) := by decide +kernel
  have rf : r.faces = [⟨[1, 2, 3, 4, 0]⟩] := by
    have e := (listTools_back bentLib).back _ _ hback
    rw [r3, (listTools_uses bentLib).node, node1, e]
    rfl
  have node2 := bent_node 2 r r2.name r2.points (by rw [rf]; exact bentLib_second) (by decide +kernel)
  obtain ⟨drawn, e1, e2⟩ := one_drawn outArgs _ _ r tr' _ c2 outArgs_asks (by rw [node2, Out.ok_bind]; exact bent_lost) hplain (c6 _ _ (by decide) (outFs_ready _ _))
  obtain ⟨converted, drawn', f1, f2, f3⟩ := h (listTools bentLib) bentLib (listTools_uses _) (listTools_back _) bentLib_law (listTools_lists _) RectOk RectGood RectGen rect_lawful rect_reverse
    (convArgs "d/a.obj".toList "OBJ".toList "d/out".toList "OFF".toList) outArgs objArgs (objFs bentObj) direct "d/a.obj".toList bentObj "d/out".toList false false [bentMesh]
    (convArgs_asks _ _ _ _) objName hfile bentObj_read (objFs_fresh _) (one bent_convertible) (by decide) (by unfold Given; decide) (by unfold Given; decide)
    (by unfold Switch; decide) (by unfold Switch; decide) outArgs_asks (one fun _ => bent_roofs) (by decide) (outFs_ready _ _) (by unfold Given; decide) (by unfold Given; decide)
    (by unfold Switch; decide) (by unfold Switch; decide) objArgs_asks d1 (one fun _ => ⟨_, by
      rw [show faceShapes bentMesh.points (bentMesh.faces.map Face.points) = [bentPoints] from bent_shapes]
      exact bent_heights, d2⟩)
  rw [c1] at f1
  cases f1
  rw [e1] at f2
  cases f2
  obtain ⟨g, g1, g2⟩ := f3 bentMesh (by simp) (by decide)
  have hne : g.brick.faces ≠ [] := by
    intro e
    rw [show faceShapes bentMesh.points (bentMesh.faces.map Face.points) = [bentPoints] from bent_shapes] at g1
    obtain ⟨z, z1, z2, z3⟩ := (g1 ⟨1 / 2, 1 / 2⟩ (by simpa using half_gen 0 0)).1 ⟨_, List.mem_singleton_self _, 3, (bent_over _ 3).2 ⟨by norm_num, rfl⟩⟩
    have : g.brick.height rectCgal ⟨1 / 2, 1 / 2⟩ = .ok 0 := by
      unfold Brick.height
      rw [e]
      split <;> rfl
    have z4 := z3 _ (List.mem_singleton_self _) 3 ((bent_over _ 3).2 ⟨by norm_num, rfl⟩)
    rw [show (listTools bentLib).C = rectCgal from rfl, this] at z1
    cases z1
    norm_num at z4
  have e4 := g2.symm.trans e2
  cases hf : g.brick.faces with
  | nil => exact hne hf
  | cons a l =>
    have e5 : (listTools bentLib).G.shp (g.toOgr (listTools bentLib).C false) = 'f' :: (List.map (fun _ => 'f') (l.map (FacePrint.toOgr rectCgal g.ref))) := by
      show ((g.brick.faces.map (FacePrint.toOgr rectCgal g.ref)).map fun _ => 'f') = _
      rw [hf]
      rfl
    rw [e5] at e4
    cases e4

end City.Props
