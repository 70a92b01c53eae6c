import Verif.Model.Tools
import Verif.Spec.Handlers
import Verif.Props.Handlers
import Verif.Props.FacePrint
import Verif.Props.BrickPrint
import Verif.Props.RasterAccess
import Verif.Props.Measure
import Verif.Props.SaveAll
/-!
C69, C70: the handlers of shape files and GeoTIFF files. C71: the measures of a footprint.
-/
set_option linter.unusedSectionVars false
namespace City.Props
open City City.Spec

section
variable {K : Type} [Field K] [LinearOrder K] [IsStrictOrderedRing K]

/-! ### C69 -/

/-- C69 (full statement, false of the code): writing an image or a footprint either succeeds, changing the given file only, or throws, changing nothing. -/
def C69_full : Prop := ∀ (C : Cgal ℚ) (G : Gdal ℚ) (m : Modes) (p : Path) (w : World),
  (∀ (f : FootPrint ℚ) (labels : Bool),
    ((vectorWrite C G m p f labels w).1 = .ok () ∧ ∀ q, q ≠ p → (vectorWrite C G m p f labels w).2.fs q = w.fs q) ∨
    ((∃ e, (vectorWrite C G m p f labels w).1 = .thrown e) ∧ (vectorWrite C G m p f labels w).2.fs = w.fs)) ∧
  (∀ r : Raster ℚ,
    ((rasterWrite G m p r w).1 = .ok () ∧ ∀ q, q ≠ p → (rasterWrite G m p r w).2.fs q = w.fs q) ∨
    ((∃ e, (rasterWrite G m p r w).1 = .thrown e) ∧ (rasterWrite G m p r w).2.fs = w.fs))

/-- C69: the half about footprints: written exactly when the handler has the mode `write` and the file can be made, else an exception and nothing is
changed. -/
theorem C69_vector_partial (C : Cgal K) (G : Gdal K) (m : Modes) (p : Path) (f : FootPrint K) (labels : Bool) (w : World) :
    (OpenedWrite m → w.fs.canWrite p = true → (vectorWrite C G m p f labels w).1 = .ok () ∧
      (vectorWrite C G m p f labels w).2.fs p = some (.file (G.shp (f.toOgr C labels))) ∧
      (∀ q, q ≠ p → (vectorWrite C G m p f labels w).2.fs q = w.fs q) ∧ (vectorWrite C G m p f labels w).2.registered = true) ∧
    ((¬ OpenedWrite m ∨ w.fs.canWrite p = false) → (∃ e, (vectorWrite C G m p f labels w).1 = .thrown e) ∧
      (vectorWrite C G m p f labels w).2.fs = w.fs) := by
  unfold vectorWrite vectorPut
  constructor
  · intro h1 h2
    rw [canSave_iff.2 h1]
    simp only [if_true, h2, Bool.or_true, and_true, true_and]
    exact ⟨by simp [Fs.set], fun q hq => by simp [Fs.set, hq]⟩
  · intro h
    by_cases hm : OpenedWrite m
    · have h2 := h.resolve_left (not_not_intro hm)
      rw [canSave_iff.2 hm, h2]
      exact ⟨⟨_, rfl⟩, rfl⟩
    · have : canSave m = false := by
        rw [← Bool.not_eq_true]; exact fun h => hm (canSave_iff.1 h)
      rw [this]
      exact ⟨⟨_, rfl⟩, rfl⟩

/-- C69: what happens to an image: without the mode `write` an exception and no change; with it, the file is written if it can be made and the image has
pixels; in all other cases the behaviour is undefined. -/
theorem C69_raster_partial (G : Gdal K) (m : Modes) (p : Path) (r : Raster K) (w : World) :
    (OpenedWrite m → w.fs.canWrite p = true → r.width ≠ 0 → r.height ≠ 0 → (rasterWrite G m p r w).1 = .ok () ∧
      (rasterWrite G m p r w).2.fs p = some (.file (G.tiff r.toGdal)) ∧
      (∀ q, q ≠ p → (rasterWrite G m p r w).2.fs q = w.fs q) ∧ (rasterWrite G m p r w).2.registered = true) ∧
    (¬ OpenedWrite m → (∃ e, (rasterWrite G m p r w).1 = .thrown e) ∧ (rasterWrite G m p r w).2.fs = w.fs) ∧
    ((rasterWrite G m p r w).1 = .ub ↔ OpenedWrite m ∧ (w.fs.canWrite p = false ∨ r.width = 0 ∨ r.height = 0)) := by
  unfold rasterWrite rasterPut
  by_cases hm : OpenedWrite m
  · rw [canSave_iff.2 hm]
    simp only [if_true, Bool.or_true, and_true, true_and, hm, not_true_eq_false, false_implies]
    refine ⟨?_, ?_⟩
    · intro _ h1 h2 h3
      simp only [h1, h2, h3, ne_eq, not_false_eq_true, and_self, if_true, true_and]
      exact ⟨by simp [Fs.set], fun q hq => by simp [Fs.set, hq]⟩
    · by_cases hc : w.fs.canWrite p = true ∧ r.width ≠ 0 ∧ r.height ≠ 0
      · rw [if_pos hc]
        simp [hc.1, hc.2.1, hc.2.2]
      · rw [if_neg hc]
        simp only [true_iff]
        by_contra hn
        rw [not_or, not_or] at hn
        exact hc ⟨by simpa using hn.1, hn.2⟩
  · have : canSave m = false := by
      rw [← Bool.not_eq_true]; exact fun h => hm (canSave_iff.1 h)
    rw [this]
    simp [hm]

/-- C69: a file system in which the directory of the image does not exist. -/
theorem C69_refuted : ¬ C69_full := by
  intro h
  have G : Gdal ℚ := ⟨fun _ => [], fun _ => none, fun _ => [], fun _ => none, fun _ => 0, fun _ => [], fun _ => 0⟩
  have h1 := (h roughCgal G writeMode ["nowhere".toList, "a.tiff".toList] ⟨fun _ => none, true⟩).2 tile
  have h2 := (C69_raster_partial G writeMode ["nowhere".toList, "a.tiff".toList] tile ⟨fun _ => none, true⟩).2.2.2
    ⟨canSave_iff.1 (by decide), Or.inl (by decide)⟩
  rcases h1 with ⟨h1, _⟩ | ⟨⟨e, h1⟩, _⟩ <;> rw [h2] at h1 <;> cases h1

/-! ### C70 -/

/-- GDAL reads what it has written. -/
structure GdalLaw (G : Gdal K) : Prop where
  shp : ∀ l, G.readShp (G.shp l) = some l
  tiff : ∀ d, G.readTiff (G.tiff d) = some d

/-- C70 (full statement, false of the code): a file that was written by the library can be read, in any process. -/
def C70_full : Prop := ∀ (G : Gdal ℚ), GdalLaw G → ∀ (p : Path) (r : Raster ℚ) (w : World), Raster.Wf r →
  w.fs p = some (.file (G.tiff r.toGdal)) → ∀ m, OpenedRead m → ∃ o, rasterRead G m p w = .ok o

/-- C70: a process that has not written any image or footprint yet cannot read any: it throws. -/
theorem C70_fresh (G : Gdal K) (m : Modes) (p : Path) (w : World) (hw : w.registered = false) :
    (∃ e, rasterRead G m p w = .thrown e) ∧ (∃ e, vectorRead G m p w = .thrown e) := by
  unfold rasterRead vectorRead gdalOpen
  cases canRead m with
  | false => exact ⟨⟨_, rfl⟩, ⟨_, rfl⟩⟩
  | true =>
    simp only [if_true]
    cases w.fs p with
    | none => exact ⟨⟨_, rfl⟩, ⟨_, rfl⟩⟩
    | some e =>
      cases e with
      | dir => exact ⟨⟨_, rfl⟩, ⟨_, rfl⟩⟩
      | file t => simp only [hw]; exact ⟨⟨_, rfl⟩, ⟨_, rfl⟩⟩

/-- C70: reading is refused without the mode `read`, for files that do not exist and for files that GDAL does not understand. -/
theorem C70_refused (G : Gdal K) (m : Modes) (p : Path) (w : World) :
    (¬ OpenedRead m → (∃ e, rasterRead G m p w = .thrown e) ∧ (∃ e, vectorRead G m p w = .thrown e)) ∧
    ((∀ t, w.fs p ≠ some (.file t)) → (∃ e, rasterRead G m p w = .thrown e) ∧ (∃ e, vectorRead G m p w = .thrown e)) ∧
    (∀ t, w.fs p = some (.file t) → (G.readTiff t = none → ∃ e, rasterRead G m p w = .thrown e) ∧
      (G.readShp t = none → ∃ e, vectorRead G m p w = .thrown e)) := by
  unfold rasterRead vectorRead gdalOpen
  by_cases hm : OpenedRead m
  · rw [canRead_iff.2 hm]
    simp only [if_true, hm, not_true_eq_false, false_implies, true_and]
    refine ⟨?_, ?_⟩
    · intro h
      cases he : w.fs p with
      | none => exact ⟨⟨_, rfl⟩, ⟨_, rfl⟩⟩
      | some e =>
        cases e with
        | dir => exact ⟨⟨_, rfl⟩, ⟨_, rfl⟩⟩
        | file t => exact absurd he (h t)
    · intro t ht
      rw [ht]
      dsimp only
      cases w.registered with
      | false => exact ⟨fun _ => ⟨_, rfl⟩, fun _ => ⟨_, rfl⟩⟩
      | true =>
        constructor <;> intro h <;> rw [h] <;> exact ⟨_, rfl⟩
  · rw [not_canRead hm]
    exact ⟨fun _ => ⟨⟨_, rfl⟩, ⟨_, rfl⟩⟩, fun _ => ⟨⟨_, rfl⟩, ⟨_, rfl⟩⟩, fun _ _ => ⟨fun _ => ⟨_, rfl⟩, fun _ => ⟨_, rfl⟩⟩⟩

/-- C70 (partial): in a process that has written before, an image written by the library is read with the name of the file, its size, pixel size, horizontal position and pixels. -/
theorem C70_raster_partial [FloorRing K] (G : Gdal K) (hG : GdalLaw G) (m m' : Modes) (p : Path) (r : Raster K) (w : World) (hr : Raster.Wf r) (hm : OpenedWrite m) (hm' : OpenedRead m')
    (hw : w.fs.canWrite p = true) (h1 : r.width ≠ 0) (h2 : r.height ≠ 0) :
    ∃ o, rasterRead G m' p (rasterWrite G m p r w).2 = .ok o ∧ o.name = stem p ∧ o.height = r.height ∧ o.width = r.width ∧ o.pixel = r.pixel ∧
      o.ref = ⟨r.ref.x, r.ref.y, 0⟩ ∧ (∀ i j, o.at' i j = r.at' i j) := by
  obtain ⟨_, h3, _, h4⟩ := (C69_raster_partial G m p r w).1 hm hw h1 h2
  obtain ⟨o, ho, _, e1, e2, e3, e4, e5, _, e6, _⟩ := C56_partial G.geog (stem p) r hr
  refine ⟨o, ?_, e1, e2, e3, e4, e5, e6⟩
  unfold rasterRead gdalOpen
  rw [canRead_iff.2 hm', if_pos rfl, h3]
  dsimp only
  rw [h4, if_pos rfl, hG.tiff, Out.ok_bind, ho]

theorem brick_ofOgr (C : Cgal K) (hd : ∀ x, C.toDouble x = x) (r : V3 K) : ∀ (fs : List (FacePrint K)) (b : Brick K),
    (∀ f ∈ fs, ∀ p ∈ f.border.outer :: f.border.holes, OpenRing p) →
    ∃ b', Brick.ofOgr (fs.map (FacePrint.toOgr C r)) b = .ok b' ∧
      b'.faces = b.faces ++ fs.map fun f => ⟨f.id, ⟨f.border.outer.map (shift (ground r)), f.border.holes.map (List.map (shift (ground r)))⟩,
        ⟨f.plane.a, f.plane.b, f.plane.c, f.plane.d + r.z⟩⟩
  | [], b, _ => ⟨b, rfl, by simp⟩
  | f :: fs, b, h => by
    rw [List.map_cons, Brick.ofOgr, C42_round_trip_partial C hd f r (h f List.mem_cons_self), Out.ok_bind]
    obtain ⟨b', h1, h2⟩ := brick_ofOgr C hd r fs _ (fun g hg => h g (List.mem_cons_of_mem _ hg))
    refine ⟨b', h1, ?_⟩
    rw [h2]
    simp

/-- C70 (partial): in a process that has written before, a footprint written by the library is read with the name of the file; its faces are those of the footprint in the same order, with the same
identifiers, translated horizontally by the reference point, which is the origin afterwards. -/
theorem C70_vector_partial (C : Cgal K) (hd : ∀ x, C.toDouble x = x) (G : Gdal K) (hG : GdalLaw G) (m m' : Modes) (p : Path) (f : FootPrint K) (labels : Bool) (w : World)
    (hm : OpenedWrite m) (hm' : OpenedRead m') (hw : w.fs.canWrite p = true)
    (hf : ∀ g ∈ f.brick.faces, ∀ q ∈ g.border.outer :: g.border.holes, OpenRing q) :
    ∃ o, vectorRead G m' p (vectorWrite C G m p f labels w).2 = .ok o ∧ o.name = stem p ∧ o.ref = ⟨0, 0, 0⟩ ∧
      o.brick.faces.map (fun g => (g.id, g.border)) = f.brick.faces.map (fun g => (g.id,
        ⟨g.border.outer.map fun v => ⟨v.x + f.ref.x, v.y + f.ref.y⟩, g.border.holes.map fun h => h.map fun v => ⟨v.x + f.ref.x, v.y + f.ref.y⟩⟩)) ∧
      (f.ref.z = 0 → o.brick.faces.map FacePrint.plane = f.brick.faces.map FacePrint.plane) := by
  obtain ⟨_, h3, _, h4⟩ := (C69_vector_partial C G m p f labels w).1 hm hw
  obtain ⟨b, hb, hfaces⟩ := brick_ofOgr C hd f.ref f.brick.faces Brick.empty hf
  refine ⟨⟨stem p, ⟨0, 0, 0⟩, if G.geog (some f.epsg) > 0 then (G.geog (some f.epsg)).toNat % 2 ^ 16 else 2154, b⟩, ?_, rfl, rfl, ?_, ?_⟩
  · unfold vectorRead gdalOpen
    rw [canRead_iff.2 hm', if_pos rfl, h3]
    dsimp only
    rw [h4, if_pos rfl, hG.shp, Out.ok_bind]
    unfold FootPrint.ofOgr FootPrint.toOgr Brick.toOgr
    dsimp only
    rw [hb, Out.ok_bind]
  · dsimp only
    rw [hfaces]
    simp [Brick.empty, shift, ground, Function.comp_def]
  · intro hz
    dsimp only
    rw [hfaces]
    simp [Brick.empty, hz, Function.comp_def]

end

/-- A text that determines the element of a countable type. -/
theorem exists_codec (A : Type) [Countable A] : ∃ (enc : A → Text) (dec : Text → Option A), ∀ a, dec (enc a) = some a := by
  classical
  obtain ⟨g, hg⟩ := exists_injective_nat A
  refine ⟨fun a => List.replicate (g a) 'x', fun t => if h : ∃ a, List.replicate (g a) 'x' = t then some h.choose else none, ?_⟩
  intro a
  have hx : ∃ a', List.replicate (g a') 'x' = List.replicate (g a) 'x' := ⟨a, rfl⟩
  dsimp only
  rw [dif_pos hx]
  congr 1
  have := congrArg List.length hx.choose_spec
  simp only [List.length_replicate] at this
  exact hg this

instance : Countable (V2 ℚ) := Function.Injective.countable (f := fun v : V2 ℚ => (v.x, v.y)) (by
  intro a b h; cases a; cases b; simp at h; simp [h])
instance : Countable (Plane ℚ) := Function.Injective.countable (f := fun v : Plane ℚ => (v.a, v.b, v.c, v.d)) (by
  intro a b h; cases a; cases b; simp at h; simp [h])
instance : Countable (Feature ℚ) := Function.Injective.countable (f := fun v : Feature ℚ => (v.id, v.rings, v.plane)) (by
  intro a b h; cases a; cases b; simp at h; simp [h])
instance : Countable Char := Function.Injective.countable (f := Char.toNat) (fun _ _ h => Char.toNat_inj.1 h)
instance : Countable (Layer ℚ) := Function.Injective.countable (f := fun v : Layer ℚ => (v.name, v.epsg, v.labels, v.features)) (by
  intro a b h; cases a; cases b; simp at h; simp [h])
instance : Countable (Raster.Dataset ℚ) := Function.Injective.countable (f := fun v : Raster.Dataset ℚ => (v.width, v.height, v.gt, v.epsg, v.band)) (by
  intro a b h; cases a; cases b; simp at h; simp [h])

/-- There are file formats from which everything can be read back. -/
theorem exists_gdalLaw (geog : Option Nat → Int) : ∃ G : Gdal ℚ, GdalLaw G ∧ G.geog = geog := by
  obtain ⟨e, d, h⟩ := exists_codec (Layer ℚ)
  obtain ⟨e', d', h'⟩ := exists_codec (Raster.Dataset ℚ)
  exact ⟨⟨e, d, e', d', geog, fun _ => [], fun _ => 0⟩, ⟨h, h'⟩, rfl⟩

/-- C70 is false: a process that starts by reading an image cannot read it. -/
theorem C70_refuted : ¬ C70_full := by
  intro h
  obtain ⟨G, hG, _⟩ := exists_gdalLaw fun _ => -1
  obtain ⟨o, ho⟩ := h G hG ["a.tiff".toList] tile ⟨fun _ => some (.file (G.tiff tile.toGdal)), false⟩ ⟨rfl, rfl⟩ rfl
    (fun n => if n = "read".toList then some true else none) (canRead_iff.1 (by decide))
  obtain ⟨⟨e, he⟩, _⟩ := C70_fresh G (fun n => if n = "read".toList then some true else none) ["a.tiff".toList] ⟨fun _ => some (.file (G.tiff tile.toGdal)), false⟩ rfl
  rw [he] at ho
  cases ho

/-- An image and a footprint for which the hypotheses of C70 hold. -/
example : OpenedWrite writeMode ∧ (oneDir.canWrite ["d".toList, "a.tiff".toList] = true) ∧ Raster.Wf tile ∧ tile.width ≠ 0 ∧ tile.height ≠ 0 ∧
    ∀ q ∈ (slab 1 0 0 1 1 3).border.outer :: (slab 1 0 0 1 1 3).border.holes, OpenRing q := by
  refine ⟨canSave_iff.1 (by decide), by decide, ⟨rfl, rfl⟩, by decide, by decide, ?_⟩
  intro q hq
  simp only [slab, rect, List.mem_cons, List.not_mem_nil, or_false] at hq
  subst hq
  exact ⟨_, _, rfl, by simp, by decide +kernel⟩

/-! ### C71 -/

/-- The length of the boundary of a polygon with holes: all edges of all its rings, each vertex with the next one. -/
def boundaryLength {K : Type} [Field K] (len : V2 K × V2 K → K) (q : Pwh K) : K :=
  ((q.outer :: q.holes).map fun r => ((r.zip (r.rotate 1)).map len).sum).sum

/-- C71 (full statement, false of the code): the circumference of a footprint is the length of the boundary of the union of its faces. The union is what CGAL
gives; the union of one face is that face. -/
def C71_full : Prop := ∀ (C : Cgal ℚ) (len : V2 ℚ × V2 ℚ → ℚ), (∀ q, C.pieces (C.join C.emptySet q) = [q]) → ∀ b : Brick ℚ,
  b.circumference C len = ((C.pieces (b.faces.foldl (fun s f => C.join s f.border) C.emptySet)).map (boundaryLength len)).sum

theorem polyEdges_zip {K : Type} (p : Poly K) : polyEdges p = p.zip (p.rotate 1) := by
  cases p with
  | nil => rfl
  | cons a t => simp [polyEdges]

theorem foldl_sum {K : Type} [Field K] : ∀ (l : List K) (s : K), l.foldl (· + ·) s = s + l.sum
  | [], s => by simp
  | a :: l, s => by rw [List.foldl_cons, foldl_sum l, List.sum_cons, add_assoc]

/-- C71 (partial): the circumference is the length of the boundary without the courtyards: it is short by the lengths of the holes of the union. -/
theorem C71_circumference_partial {K : Type} [Field K] [LinearOrder K] (C : Cgal K) (len : V2 K × V2 K → K) (b : Brick K) :
    b.circumference C len + ((C.pieces (b.faces.foldl (fun s f => C.join s f.border) C.emptySet)).map fun q =>
        (q.holes.map fun r => ((r.zip (r.rotate 1)).map len).sum).sum).sum =
      ((C.pieces (b.faces.foldl (fun s f => C.join s f.border) C.emptySet)).map (boundaryLength len)).sum := by
  unfold Brick.circumference Brick.edgeLengths Brick.joinAll
  rw [foldl_sum, zero_add]
  generalize C.pieces _ = l
  induction l with
  | nil => simp
  | cons q l ih =>
    rw [List.flatMap_cons, List.sum_append, List.map_cons, List.map_cons, List.sum_cons, List.sum_cons, ← ih]
    unfold boundaryLength
    rw [List.map_cons, List.sum_cons, polyEdges_zip]
    ring

/-- C71 (partial): a footprint without courtyards. -/
theorem C71_simple_partial {K : Type} [Field K] [LinearOrder K] (C : Cgal K) (len : V2 K × V2 K → K) (b : Brick K)
    (h : ∀ q ∈ C.pieces (b.faces.foldl (fun s f => C.join s f.border) C.emptySet), q.holes = []) :
    b.circumference C len = ((C.pieces (b.faces.foldl (fun s f => C.join s f.border) C.emptySet)).map (boundaryLength len)).sum := by
  rw [← C71_circumference_partial]
  rw [List.sum_eq_zero (l := List.map _ _), add_zero]
  intro x hx
  obtain ⟨q, hq, rfl⟩ := List.mem_map.1 hx
  rw [h q hq]; rfl

/-- A square of side 4 with a courtyard of side 2. -/
def atrium : FacePrint ℚ := ⟨1, ⟨[⟨0, 0⟩, ⟨4, 0⟩, ⟨4, 4⟩, ⟨0, 4⟩], [[⟨1, 1⟩, ⟨1, 3⟩, ⟨3, 3⟩, ⟨3, 1⟩]]⟩, ⟨0, 0, 1, -5⟩⟩

/-- C71 is false: the courtyard is not counted: 16 instead of 24. -/
theorem C71_refuted : ¬ C71_full := by
  intro h
  have := h roughCgal (fun e => |e.1.x - e.2.x| + |e.1.y - e.2.y|) (fun q => rfl) ⟨none, [atrium]⟩
  revert this
  decide +kernel

/-- C71: with lengths that are positive, except for edges from a point to itself, the circumference is right if and only if the union of the faces has no courtyard: all
the points of a hole are one point. -/
theorem C71_exact {K : Type} [Field K] [LinearOrder K] [IsStrictOrderedRing K] (C : Cgal K) (len : V2 K × V2 K → K) (hlen : ∀ e, 0 ≤ len e)
    (hpos : ∀ e, len e = 0 ↔ e.1 = e.2) (b : Brick K) :
    (b.circumference C len = ((C.pieces (b.faces.foldl (fun s f => C.join s f.border) C.emptySet)).map (boundaryLength len)).sum) ↔
      ∀ q ∈ C.pieces (b.faces.foldl (fun s f => C.join s f.border) C.emptySet), ∀ r ∈ q.holes, ∀ e ∈ r.zip (r.rotate 1), e.1 = e.2 := by
  have h := C71_circumference_partial C len b
  generalize C.pieces (b.faces.foldl (fun s f => C.join s f.border) C.emptySet) = P at *
  have sum_zero : ∀ l : List K, (∀ x ∈ l, 0 ≤ x) → (l.sum = 0 ↔ ∀ x ∈ l, x = 0) := by
    intro l
    induction l with
    | nil => simp
    | cons a l ih =>
      intro hl
      have h1 : 0 ≤ a := hl a List.mem_cons_self
      have h2 : 0 ≤ l.sum := List.sum_nonneg fun x hx => hl x (List.mem_cons_of_mem _ hx)
      rw [List.sum_cons, add_eq_zero_iff_of_nonneg h1 h2, ih fun x hx => hl x (List.mem_cons_of_mem _ hx), List.forall_mem_cons]
  have n1 : ∀ r : Poly K, ∀ x ∈ (r.zip (r.rotate 1)).map len, 0 ≤ x := by
    intro r x hx
    obtain ⟨e, -, rfl⟩ := List.mem_map.1 hx
    exact hlen e
  have n2 : ∀ q : Pwh K, ∀ x ∈ q.holes.map (fun r => ((r.zip (r.rotate 1)).map len).sum), 0 ≤ x := by
    intro q x hx
    obtain ⟨r, -, rfl⟩ := List.mem_map.1 hx
    exact List.sum_nonneg (n1 r)
  have n3 : ∀ x ∈ P.map (fun q => (q.holes.map fun r => ((r.zip (r.rotate 1)).map len).sum).sum), 0 ≤ x := by
    intro x hx
    obtain ⟨q, -, rfl⟩ := List.mem_map.1 hx
    exact List.sum_nonneg (n2 q)
  rw [← h, left_eq_add, sum_zero _ n3]
  constructor
  · intro hz q hq r hr e he
    have h1 := hz _ (List.mem_map_of_mem hq)
    have h2 := (sum_zero _ (n2 q)).1 h1 _ (List.mem_map_of_mem hr)
    exact (hpos e).1 ((sum_zero _ (n1 r)).1 h2 _ (List.mem_map_of_mem he))
  · intro hz x hx
    obtain ⟨q, hq, rfl⟩ := List.mem_map.1 hx
    refine (sum_zero _ (n2 q)).2 fun x hx => ?_
    obtain ⟨r, hr, rfl⟩ := List.mem_map.1 hx
    refine (sum_zero _ (n1 r)).2 fun x hx => ?_
    obtain ⟨e, he, rfl⟩ := List.mem_map.1 hx
    exact (hpos e).2 (hz q hq r hr e he)

/-- The hypotheses on the lengths are met by the sum of the differences of the coordinates. -/
example : (∀ e : V2 ℚ × V2 ℚ, 0 ≤ |e.1.x - e.2.x| + |e.1.y - e.2.y|) ∧ ∀ e : V2 ℚ × V2 ℚ, |e.1.x - e.2.x| + |e.1.y - e.2.y| = 0 ↔ e.1 = e.2 := by
  refine ⟨fun e => by positivity, fun e => ?_⟩
  rw [add_eq_zero_iff_of_nonneg (abs_nonneg _) (abs_nonneg _), abs_eq_zero, abs_eq_zero, sub_eq_zero, sub_eq_zero]
  exact ⟨fun h => V2.ext h.1 h.2, fun h => by rw [h]; exact ⟨rfl, rfl⟩⟩

/-- C71: the area of a footprint is the sum of the areas of its faces, which are the numbers of `areas()`. -/
theorem C71_area {K : Type} [Field K] [LinearOrder K] (C : Cgal K) (b : Brick K) : b.area C = (b.areas C).sum ∧ (b.areas C).length = b.faces.length := by
  unfold Brick.area Brick.areas
  rw [foldl_sum, zero_add, List.length_map]
  exact ⟨rfl, rfl⟩

/-- C28 (and C70): what is known of the readers in general holds of the two readers of GIS files: they are given the text of the file and the stem of its path, once the
drivers are registered. -/
theorem C28_gis_readers {K : Type} [Field K] [LinearOrder K] (G : Gdal K) (modes : Modes) (p : Path) (fs : Fs) :
    vectorRead G modes p ⟨fs, true⟩ = gdalRead (fun n t => match G.readShp t with
      | some l => FootPrint.ofOgr G.geog n l
      | none => .thrown .runtimeError) modes p fs ∧
    rasterRead G modes p ⟨fs, true⟩ = gdalRead (fun n t => match G.readTiff t with
      | some d => Raster.ofGdal G.geog n d
      | none => .thrown .runtimeError) modes p fs := by
  unfold vectorRead rasterRead gdalRead gdalOpen
  constructor
  · by_cases h : canRead modes = true
    · simp only [if_pos h]
      rcases fs p with _ | (t | _)
      · rfl
      · cases hx : G.readShp t <;> simp [hx]
      · rfl
    · simp only [if_neg h]
  · by_cases h : canRead modes = true
    · simp only [if_pos h]
      rcases fs p with _ | (t | _)
      · rfl
      · cases hx : G.readTiff t <;> simp [hx]
      · rfl
    · simp only [if_neg h]

/-- C28: and the writers. -/
theorem C28_gis_writers {K : Type} [Field K] [LinearOrder K] (C : Cgal K) (G : Gdal K) (modes : Modes) (p : Path) (f : FootPrint K) (labels : Bool) (r : Raster K) (fs : Fs) :
    vectorPut C G modes p f labels fs = gdalWrite (fun f p fs => if fs.canWrite p then (.ok (), fs.set p (.file (G.shp (f.toOgr C labels)))) else (.thrown .filesystemError, fs))
      modes p f fs ∧
    rasterPut G modes p r fs = gdalWrite (fun r p fs => if fs.canWrite p ∧ r.width ≠ 0 ∧ r.height ≠ 0 then (.ok (), fs.set p (.file (G.tiff r.toGdal))) else (.ub, fs))
      modes p r fs := ⟨rfl, rfl⟩

end City.Props
