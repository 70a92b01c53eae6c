import Verif.Model.Tools
import Mathlib.Tactic.Ring
/-!
C68: the files written for the objects of a scene.
-/
set_option linter.unusedSectionVars false
namespace City.Props
open City

/-- A name without slash. -/
def PlainName (n : Text) : Prop := '/' ∉ n

theorem splitSlash_plainName : ∀ {n : Text}, PlainName n → splitSlash n = [n]
  | [], _ => rfl
  | c :: t, h => by
    have hc : c ≠ '/' := fun e => h (by simp [e])
    have ht : PlainName t := fun e => h (List.mem_cons_of_mem _ e)
    rw [splitSlash, if_neg hc, splitSlash_plainName ht]

theorem joinPath_plain {p : Path} {n : Text} (h : PlainName n) : joinPath p n = p ++ [n] := by
  rw [joinPath, splitSlash_plainName h]

/-- The operation writes this text to this file whenever the file can be written. -/
def Writes (w : Writer) (p : Path) (t : Text) : Prop := ∀ fs : Fs, fs.canWrite p = true → w fs = (.ok (), fs.set p (.file t))

theorem streamPut_writes (p : Path) (t : Text) : Writes (streamPut p (t, .ok ())) p t := by
  intro fs h
  simp [streamPut, Fs.put, h]

theorem vectorPut_writes {K : Type} [Field K] [LinearOrder K] (C : Cgal K) (G : Gdal K) (p : Path) (f : FootPrint K) (labels : Bool) :
    Writes (vectorPut C G writeMode p f labels) p (G.shp (f.toOgr C labels)) := by
  intro fs h
  simp [vectorPut, writeMode, canSave, h]

theorem rasterPut_writes {K : Type} [Field K] [LinearOrder K] (G : Gdal K) (p : Path) (r : Raster K) (hw : r.width ≠ 0) (hh : r.height ≠ 0) :
    Writes (rasterPut G writeMode p r) p (G.tiff r.toGdal) := by
  intro fs h
  simp [rasterPut, writeMode, canSave, h, hw, hh]

/-- Writing files with different paths whose directories exist and which are not directories: each contains its text afterwards, nothing else changed. -/
theorem runAll_spec : ∀ (ws : List (Path × Text × Writer)) (fs : Fs), (ws.map Prod.fst).Nodup → (∀ w ∈ ws, Writes w.2.2 w.1 w.2.1) →
    (∀ w ∈ ws, w.1 ≠ [] ∧ fs w.1.dropLast = some .dir ∧ fs w.1 ≠ some .dir) →
    ∃ fs', runAll (ws.map fun w => w.2.2) fs = (.ok (), fs') ∧
      (∀ w ∈ ws, fs' w.1 = some (.file w.2.1)) ∧ (∀ q, q ∉ ws.map Prod.fst → fs' q = fs q)
  | [], fs, _, _, _ => ⟨fs, rfl, by simp, fun _ _ => rfl⟩
  | (p, t, u) :: ws, fs, hn, hu, hw => by
    rw [List.map_cons, List.nodup_cons] at hn
    have hp := hw (p, t, u) List.mem_cons_self
    have hcan : fs.canWrite p = true := by
      unfold Fs.canWrite
      cases he : fs p with
      | none => simp [hp.1, hp.2.1]
      | some e =>
        cases e with
        | file _ => simp
        | dir => exact absurd he hp.2.2
    have hput := hu (p, t, u) List.mem_cons_self fs hcan
    have hset : ∀ q, q ≠ p → fs.set p (.file t) q = fs q := by
      intro q hq; simp [Fs.set, hq]
    obtain ⟨fs', h1, h2, h3⟩ := runAll_spec ws (fs.set p (.file t)) hn.2 (fun w hww => hu w (List.mem_cons_of_mem _ hww)) (by
      intro w hww
      obtain ⟨a, b, c⟩ := hw w (List.mem_cons_of_mem _ hww)
      refine ⟨a, ?_, ?_⟩
      · rw [hset]
        · exact b
        · intro e; rw [e] at b; exact hp.2.2 b
      · rw [hset]
        · exact c
        · intro e; exact hn.1 (List.mem_map.2 ⟨w, hww, e⟩))
    refine ⟨fs', ?_, ?_, ?_⟩
    · rw [List.map_cons, runAll, hput]; exact h1
    · intro w hww
      rcases List.mem_cons.1 hww with rfl | hww
      · rw [h3 _ hn.1]; simp [Fs.set]
      · exact h2 w hww
    · intro q hq
      rw [List.map_cons, List.mem_cons, not_or] at hq
      rw [h3 q hq.2, hset q hq.1]

/-- The situation in which a directory for the results can be made and used: it is there, or its parent is; and there is no directory with the name of one of the files. -/
structure Ready (fs : Fs) (dir : Path) (names : List Text) : Prop where
  dir_ok : fs dir = some .dir ∨ (fs dir = none ∧ dir ≠ [] ∧ fs dir.dropLast = some .dir)
  no_dir : ∀ n ∈ names, fs (dir ++ [n]) ≠ some .dir

/-- The directory is made, then the files are written. -/
theorem saveDir_spec (fs : Fs) (dir : Path) (ws : List (Text × Text × Writer)) (hn : (ws.map Prod.fst).Nodup)
    (hu : ∀ w ∈ ws, Writes w.2.2 (dir ++ [w.1]) w.2.1) (hr : Ready fs dir (ws.map Prod.fst)) :
    ∃ fs', andThen (makeDir dir fs) (runAll (ws.map fun w => w.2.2)) = (.ok (), fs') ∧
      fs' dir = some .dir ∧ (∀ w ∈ ws, fs' (dir ++ [w.1]) = some (.file w.2.1)) ∧
      (∀ q, q ≠ dir → (∀ w ∈ ws, q ≠ dir ++ [w.1]) → fs' q = fs q) := by
  obtain ⟨fs1, m1, m2, m3⟩ : ∃ fs1, makeDir dir fs = (.ok (), fs1) ∧ fs1 dir = some .dir ∧ ∀ q, q ≠ dir → fs1 q = fs q := by
    unfold makeDir
    rcases hr.dir_ok with h | ⟨h, h0, h1⟩
    · rw [h]; exact ⟨fs, rfl, h, fun _ _ => rfl⟩
    · rw [h]
      dsimp only
      rw [if_pos h1]
      exact ⟨_, rfl, by simp [Fs.set], fun q hq => by simp [Fs.set, hq]⟩
  have e : (ws.map fun w => w.2.2) = (ws.map fun w => (dir ++ [w.1], w.2.1, w.2.2)).map fun w => w.2.2 := by
    rw [List.map_map]; rfl
  have hmap : (ws.map fun w => (dir ++ [w.1], w.2.1, w.2.2)).map Prod.fst = (ws.map Prod.fst).map fun n => dir ++ [n] := by
    rw [List.map_map, List.map_map]; rfl
  obtain ⟨fs2, h1, h2, h3⟩ := runAll_spec (ws.map fun w => (dir ++ [w.1], w.2.1, w.2.2)) fs1 (by
    rw [hmap]
    exact hn.map fun a b h => by simpa using h) (by
    intro w hw
    obtain ⟨v, hv, rfl⟩ := List.mem_map.1 hw
    exact hu v hv) (by
    intro w hw
    obtain ⟨v, hv, rfl⟩ := List.mem_map.1 hw
    refine ⟨by simp, by simpa using m2, ?_⟩
    dsimp only
    rw [m3 _ (by simp)]
    exact hr.no_dir _ (List.mem_map_of_mem hv))
  refine ⟨fs2, ?_, ?_, ?_, ?_⟩
  · rw [m1, e]; exact h1
  · rw [h3 _ (by
      rw [hmap]
      intro h
      obtain ⟨n, _, hh⟩ := List.mem_map.1 h
      simp at hh), m2]
  · intro w hw
    exact h2 _ (List.mem_map_of_mem (f := fun w : Text × Text × Writer => (dir ++ [w.1], w.2.1, w.2.2)) hw)
  · intro q hq hq'
    rw [h3 q (by
      rw [hmap]
      intro h
      obtain ⟨n, hn, hh⟩ := List.mem_map.1 h
      obtain ⟨w, hw, rfl⟩ := List.mem_map.1 hn
      exact hq' w hw hh.symm), m3 q hq]

theorem plain_ext {n e : Text} (h : PlainName n) (he : PlainName e) : PlainName (n ++ e) := by
  intro hc
  rcases List.mem_append.1 hc with hc | hc
  · exact h hc
  · exact he hc

section
variable {K : Type} [Field K] [LinearOrder K] [FloorRing K]

/-- The full claim for the dual graphs: every building finds its dual in the file with its name. -/
def C68_full : Prop := ∀ (root : Path) (bs : List (Text × Text)) (fs fs' : Fs), (∀ b ∈ bs, PlainName b.1) →
  Ready fs (root ++ ["dual_graphs".toList]) (bs.map fun b => b.1 ++ ".txt".toList) →
  saveBuildingDuals root (bs.map fun b => (b.1, b.2, .ok ())) fs = (.ok (), fs') →
  ∀ b ∈ bs, fs' (root ++ ["dual_graphs".toList, b.1 ++ ".txt".toList]) = some (.file b.2)

/-- C68 (partial): for buildings with different names, `save_building_duals` makes the directory `dual_graphs`, writes the dual of each building to the file with its name
and touches nothing else. -/
theorem C68_duals_partial (root : Path) (bs : List (Text × Text)) (fs : Fs) (hn : (bs.map Prod.fst).Nodup) (hp : ∀ b ∈ bs, PlainName b.1)
    (hr : Ready fs (root ++ ["dual_graphs".toList]) (bs.map fun b => b.1 ++ ".txt".toList)) :
    ∃ fs', saveBuildingDuals root (bs.map fun b => (b.1, b.2, .ok ())) fs = (.ok (), fs') ∧
      fs' (root ++ ["dual_graphs".toList]) = some .dir ∧
      (∀ b ∈ bs, fs' (root ++ ["dual_graphs".toList, b.1 ++ ".txt".toList]) = some (.file b.2)) ∧
      (∀ q, q ≠ root ++ ["dual_graphs".toList] → (∀ b ∈ bs, q ≠ root ++ ["dual_graphs".toList, b.1 ++ ".txt".toList]) → fs' q = fs q) := by
  obtain ⟨fs', h1, h2, h3, h4⟩ := saveDir_spec fs (root ++ ["dual_graphs".toList]) (bs.map fun b => (b.1 ++ ".txt".toList, b.2,
      streamPut (joinPath (root ++ ["dual_graphs".toList]) (b.1 ++ ".txt".toList)) (b.2, .ok ()))) (by
      rw [List.map_map]
      exact (List.map_map (f := Prod.fst) (g := fun n : Text => n ++ ".txt".toList) ▸ hn.map fun a b h => List.append_cancel_right h)) (by
      intro w hw
      obtain ⟨b, hb, rfl⟩ := List.mem_map.1 hw
      have := joinPath_plain (p := root ++ ["dual_graphs".toList]) (plain_ext (hp b hb) (show PlainName ".txt".toList by unfold PlainName; decide))
      dsimp only
      rw [this]
      exact streamPut_writes _ _) (by
      rw [List.map_map]; exact hr)
  refine ⟨fs', ?_, h2, ?_, ?_⟩
  · unfold saveBuildingDuals
    rw [List.map_map] at h1 ⊢
    exact h1
  · intro b hb
    have := h3 _ (List.mem_map_of_mem (f := fun b : Text × Text => (b.1 ++ ".txt".toList, b.2,
      streamPut (joinPath (root ++ ["dual_graphs".toList]) (b.1 ++ ".txt".toList)) (b.2, .ok ()))) hb)
    simpa using this
  · intro q hq hq'
    refine h4 q hq ?_
    intro w hw
    obtain ⟨b, hb, rfl⟩ := List.mem_map.1 hw
    have := hq' b hb
    simpa using this

/-- C68 (partial): for footprints with different names, `save_building_prints` writes the shape file and the attributes file of each of them and touches nothing else. -/
theorem C68_prints_partial (C : Cgal K) (G : Gdal K) (root : Path) (ps : List (FootPrint K)) (labels : Bool) (fs : Fs) (hn : (ps.map FootPrint.name).Nodup)
    (hp : ∀ f ∈ ps, PlainName f.name)
    (hr : Ready fs (root ++ ["vectors".toList]) (ps.flatMap fun f => [f.name ++ ".shp".toList, f.name ++ ".txt".toList])) :
    ∃ fs', saveBuildingPrints C G root ps labels fs = (.ok (), fs') ∧ fs' (root ++ ["vectors".toList]) = some .dir ∧
      (∀ f ∈ ps, fs' (root ++ ["vectors".toList, f.name ++ ".shp".toList]) = some (.file (G.shp (f.toOgr C labels))) ∧
        fs' (root ++ ["vectors".toList, f.name ++ ".txt".toList]) = some (.file (attributesText C G f))) ∧
      (∀ q, q ≠ root ++ ["vectors".toList] → (∀ f ∈ ps, q ≠ root ++ ["vectors".toList, f.name ++ ".shp".toList] ∧
        q ≠ root ++ ["vectors".toList, f.name ++ ".txt".toList]) → fs' q = fs q) := by
  have hinj : ∀ (a b e e' : Text), a ++ e = b ++ e' → e.length = e'.length → a = b ∧ e = e' := by
    intro a b e e' h hl
    exact List.append_inj' h hl
  obtain ⟨fs', h1, h2, h3, h4⟩ := saveDir_spec fs (root ++ ["vectors".toList])
    (ps.flatMap fun f => [(f.name ++ ".shp".toList, G.shp (f.toOgr C labels),
        vectorPut C G writeMode (joinPath (root ++ ["vectors".toList]) (f.name ++ ".shp".toList)) f labels),
      (f.name ++ ".txt".toList, attributesText C G f, streamPut (joinPath (root ++ ["vectors".toList]) (f.name ++ ".txt".toList)) (attributesText C G f, .ok ()))]) (by
      rw [List.map_flatMap]
      simp only [List.map_cons, List.map_nil]
      clear hr
      induction ps with
      | nil => simp
      | cons f ps ih =>
        rw [List.map_cons, List.nodup_cons] at hn
        rw [List.flatMap_cons, List.nodup_append]
        refine ⟨?_, ih hn.2 fun g hg => hp g (List.mem_cons_of_mem _ hg), ?_⟩
        · rw [List.nodup_cons]
          refine ⟨?_, List.nodup_singleton _⟩
          intro h
          have := (hinj _ _ _ _ (List.mem_singleton.1 h) (by decide)).2
          exact absurd this (by decide)
        · intro a ha b hb hab
          subst hab
          obtain ⟨g, hg, hag⟩ := List.mem_flatMap.1 hb
          apply hn.1
          have : f.name = g.name := by
            simp only [List.mem_cons, List.not_mem_nil, or_false] at ha hag
            rcases ha with rfl | rfl <;> rcases hag with h | h <;> exact (hinj _ _ _ _ h (by decide)).1
          rw [this]
          exact List.mem_map_of_mem hg) (by
      intro w hw
      obtain ⟨f, hf, hw⟩ := List.mem_flatMap.1 hw
      simp only [List.mem_cons, List.not_mem_nil, or_false] at hw
      have h1 := joinPath_plain (p := root ++ ["vectors".toList]) (plain_ext (hp f hf) (show PlainName ".shp".toList by unfold PlainName; decide))
      have h2 := joinPath_plain (p := root ++ ["vectors".toList]) (plain_ext (hp f hf) (show PlainName ".txt".toList by unfold PlainName; decide))
      rcases hw with rfl | rfl <;> dsimp only
      · rw [h1]; exact vectorPut_writes _ _ _ _ _
      · rw [h2]; exact streamPut_writes _ _) (by
      rw [List.map_flatMap]; exact hr)
  refine ⟨fs', ?_, h2, ?_, ?_⟩
  · unfold saveBuildingPrints
    rw [List.map_flatMap] at h1
    exact h1
  · intro f hf
    constructor
    · have := h3 _ (List.mem_flatMap.2 ⟨f, hf, List.mem_cons_self⟩)
      simpa using this
    · have := h3 _ (List.mem_flatMap.2 ⟨f, hf, List.mem_cons_of_mem _ List.mem_cons_self⟩)
      simpa using this
  · intro q hq hq'
    refine h4 q hq ?_
    intro w hw
    obtain ⟨f, hf, hw⟩ := List.mem_flatMap.1 hw
    simp only [List.mem_cons, List.not_mem_nil, or_false] at hw
    rcases hw with rfl | rfl
    · simpa using (hq' f hf).1
    · simpa using (hq' f hf).2

/-- C68 (partial): for images with pixels and different names, `save_building_rasters` writes one file per image and touches nothing else. -/
theorem C68_rasters_partial (G : Gdal K) (root : Path) (rs : List (Raster K)) (fs : Fs) (hn : (rs.map Raster.name).Nodup) (hp : ∀ r ∈ rs, PlainName r.name)
    (hd : ∀ r ∈ rs, r.width ≠ 0 ∧ r.height ≠ 0) (hr : Ready fs (root ++ ["rasters".toList]) (rs.map fun r => r.name ++ ".tiff".toList)) :
    ∃ fs', saveBuildingRasters G root rs fs = (.ok (), fs') ∧ fs' (root ++ ["rasters".toList]) = some .dir ∧
      (∀ r ∈ rs, fs' (root ++ ["rasters".toList, r.name ++ ".tiff".toList]) = some (.file (G.tiff r.toGdal))) ∧
      (∀ q, q ≠ root ++ ["rasters".toList] → (∀ r ∈ rs, q ≠ root ++ ["rasters".toList, r.name ++ ".tiff".toList]) → fs' q = fs q) := by
  obtain ⟨fs', h1, h2, h3, h4⟩ := saveDir_spec fs (root ++ ["rasters".toList]) (rs.map fun r => (r.name ++ ".tiff".toList, G.tiff r.toGdal,
      rasterPut G writeMode (joinPath (root ++ ["rasters".toList]) (r.name ++ ".tiff".toList)) r)) (by
      rw [List.map_map]
      exact (List.map_map (f := Raster.name) (g := fun n : Text => n ++ ".tiff".toList) ▸ hn.map fun a b h => List.append_cancel_right h)) (by
      intro w hw
      obtain ⟨r, hr, rfl⟩ := List.mem_map.1 hw
      have := joinPath_plain (p := root ++ ["rasters".toList]) (plain_ext (hp r hr) (show PlainName ".tiff".toList by unfold PlainName; decide))
      dsimp only
      rw [this]
      exact rasterPut_writes _ _ _ (hd r hr).1 (hd r hr).2) (by
      rw [List.map_map]; exact hr)
  refine ⟨fs', ?_, h2, ?_, ?_⟩
  · unfold saveBuildingRasters
    rw [List.map_map] at h1
    exact h1
  · intro r hr
    have := h3 _ (List.mem_map_of_mem (f := fun r : Raster K => (r.name ++ ".tiff".toList, G.tiff r.toGdal,
      rasterPut G writeMode (joinPath (root ++ ["rasters".toList]) (r.name ++ ".tiff".toList)) r)) hr)
    simpa using this
  · intro q hq hq'
    refine h4 q hq ?_
    intro w hw
    obtain ⟨r, hr, rfl⟩ := List.mem_map.1 hw
    have := hq' r hr
    simpa using this

end

/-- An empty file system with the directory `d`. -/
def oneDir : Fs := fun p => if p = ["d".toList] then some .dir else none

/-- C68 is false: of two buildings with the same name only the second one is found afterwards. -/
theorem C68_refuted : ¬ C68_full := by
  intro h
  have hr : Ready oneDir (["d".toList] ++ ["dual_graphs".toList]) ((([("a".toList, "x".toList), ("a".toList, "y".toList)] : List (Text × Text))).map fun b => b.1 ++ ".txt".toList) :=
    ⟨Or.inr (by decide), by decide⟩
  obtain ⟨fs', hfs⟩ : ∃ fs', saveBuildingDuals ["d".toList] ((([("a".toList, "x".toList), ("a".toList, "y".toList)] : List (Text × Text))).map fun b => (b.1, b.2, .ok ())) oneDir
      = (.ok (), fs') := ⟨_, rfl⟩
  have h1 := h ["d".toList] [("a".toList, "x".toList), ("a".toList, "y".toList)] oneDir fs' (by unfold PlainName; decide) hr hfs
  have a := h1 ("a".toList, "x".toList) (by simp)
  have b := h1 ("a".toList, "y".toList) (by simp)
  rw [a] at b
  exact absurd b (by decide)

/-- Two buildings with different names: the hypotheses of `C68_duals_partial` hold. -/
example : Ready oneDir (["d".toList] ++ ["dual_graphs".toList]) ([("a".toList, "x".toList), ("b".toList, "y".toList)].map fun b : Text × Text => b.1 ++ ".txt".toList) ∧
    (([("a".toList, "x".toList), ("b".toList, "y".toList)] : List (Text × Text)).map Prod.fst).Nodup :=
  ⟨⟨Or.inr (by decide), by decide⟩, by decide⟩

end City.Props
