import Verif.Props.SaveAll
/-!
C68: objects with the same name. Each file holds what belongs to the last object of its name.
-/
set_option linter.unusedSectionVars false
namespace City.Props
open City

/-- `x` is in the list, and no later element has the same name. -/
def LastNamed {α : Type} (name : α → Text) (l : List α) (x : α) : Prop := ∃ a b, l = a ++ x :: b ∧ name x ∉ b.map name

/-- Writing files one after the other, with any paths: each contains the last text written to it. -/
theorem runAll_last : ∀ (ws : List (Path × Text × Writer)) (fs : Fs), (∀ w ∈ ws, Writes w.2.2 w.1 w.2.1) →
    (∀ w ∈ ws, w.1 ≠ [] ∧ fs w.1.dropLast = some .dir ∧ fs w.1 ≠ some .dir) →
    ∃ fs', runAll (ws.map fun w => w.2.2) fs = (.ok (), fs') ∧
      (∀ a w b, ws = a ++ w :: b → w.1 ∉ b.map Prod.fst → fs' w.1 = some (.file w.2.1)) ∧ (∀ q, q ∉ ws.map Prod.fst → fs' q = fs q)
  | [], fs, _, _ => ⟨fs, rfl, by simp, fun _ _ => rfl⟩
  | (p, t, u) :: ws, fs, hu, hw => by
    have hp := hw (p, t, u) List.mem_cons_self
    have hcan : fs.canWrite p = true := by
      unfold Fs.canWrite
      cases he : fs p with
      | none => simp [hp.1, hp.2.1]
      | some e =>
        cases e with
        | file _ => simp
        | dir => exact absurd he hp.2.2
    have hput := hu (p, t, u) List.mem_cons_self fs hcan
    have hset : ∀ q, q ≠ p → fs.set p (.file t) q = fs q := by
      intro q hq; simp [Fs.set, hq]
    obtain ⟨fs', h1, h2, h3⟩ := runAll_last ws (fs.set p (.file t)) (fun w hww => hu w (List.mem_cons_of_mem _ hww)) (by
      intro w hww
      obtain ⟨a, b, c⟩ := hw w (List.mem_cons_of_mem _ hww)
      refine ⟨a, ?_, ?_⟩
      · rw [hset]
        · exact b
        · intro e; rw [e] at b; exact hp.2.2 b
      · by_cases e : w.1 = p
        · rw [e]; simp [Fs.set]
        · rw [hset _ e]; exact c)
    refine ⟨fs', ?_, ?_, ?_⟩
    · rw [List.map_cons, runAll, hput]; exact h1
    · intro a w b hab hnb
      rcases a with _ | ⟨x, a⟩
      · rw [List.nil_append, List.cons.injEq] at hab
        obtain ⟨rfl, rfl⟩ := hab
        rw [h3 _ hnb]
        simp [Fs.set]
      · rw [List.cons_append, List.cons.injEq] at hab
        exact h2 a w b hab.2 hnb
    · intro q hq
      rw [List.map_cons, List.mem_cons, not_or] at hq
      rw [h3 q hq.2, hset q hq.1]

/-- The directory is made, then the files are written. -/
theorem saveDir_last (fs : Fs) (dir : Path) (ws : List (Text × Text × Writer))
    (hu : ∀ w ∈ ws, Writes w.2.2 (dir ++ [w.1]) w.2.1) (hr : Ready fs dir (ws.map Prod.fst)) :
    ∃ fs', andThen (makeDir dir fs) (runAll (ws.map fun w => w.2.2)) = (.ok (), fs') ∧
      fs' dir = some .dir ∧ (∀ w, LastNamed Prod.fst ws w → fs' (dir ++ [w.1]) = some (.file w.2.1)) ∧
      (∀ q, q ≠ dir → (∀ w ∈ ws, q ≠ dir ++ [w.1]) → fs' q = fs q) := by
  obtain ⟨fs1, m1, m2, m3⟩ : ∃ fs1, makeDir dir fs = (.ok (), fs1) ∧ fs1 dir = some .dir ∧ ∀ q, q ≠ dir → fs1 q = fs q := by
    unfold makeDir
    rcases hr.dir_ok with h | ⟨h, h0, h1⟩
    · rw [h]; exact ⟨fs, rfl, h, fun _ _ => rfl⟩
    · rw [h]
      dsimp only
      rw [if_pos h1]
      exact ⟨_, rfl, by simp [Fs.set], fun q hq => by simp [Fs.set, hq]⟩
  have e : (ws.map fun w => w.2.2) = (ws.map fun w => (dir ++ [w.1], w.2.1, w.2.2)).map fun w => w.2.2 := by
    rw [List.map_map]; rfl
  have hmap : ∀ l : List (Text × Text × Writer), (l.map fun w => (dir ++ [w.1], w.2.1, w.2.2)).map Prod.fst = (l.map Prod.fst).map fun n => dir ++ [n] := by
    intro l; rw [List.map_map, List.map_map]; rfl
  obtain ⟨fs2, h1, h2, h3⟩ := runAll_last (ws.map fun w => (dir ++ [w.1], w.2.1, w.2.2)) fs1 (by
    intro w hw
    obtain ⟨v, hv, rfl⟩ := List.mem_map.1 hw
    exact hu v hv) (by
    intro w hw
    obtain ⟨v, hv, rfl⟩ := List.mem_map.1 hw
    refine ⟨by simp, by simpa using m2, ?_⟩
    dsimp only
    rw [m3 _ (by simp)]
    exact hr.no_dir _ (List.mem_map_of_mem hv))
  refine ⟨fs2, ?_, ?_, ?_, ?_⟩
  · rw [m1, e]; exact h1
  · rw [h3 _ (by
      rw [hmap]
      intro h
      obtain ⟨n, _, hh⟩ := List.mem_map.1 h
      simp at hh), m2]
  · rintro w ⟨a, b, rfl, hb⟩
    refine h2 (a.map fun w => (dir ++ [w.1], w.2.1, w.2.2)) (dir ++ [w.1], w.2.1, w.2.2) (b.map fun w => (dir ++ [w.1], w.2.1, w.2.2)) (by simp) ?_
    rw [hmap]
    intro h
    obtain ⟨n, hn, hh⟩ := List.mem_map.1 h
    have : n = w.1 := by simpa using hh
    exact hb (this ▸ hn)
  · intro q hq hq'
    rw [h3 q (by
      rw [hmap]
      intro h
      obtain ⟨n, hn, hh⟩ := List.mem_map.1 h
      obtain ⟨w, hw, rfl⟩ := List.mem_map.1 hn
      exact hq' w hw hh.symm), m3 q hq]

theorem last_map {α β : Type} (name : α → Text) (name' : β → Text) (f : α → β) (hname : ∀ x y, name' (f x) = name' (f y) → name x = name y)
    (l : List α) (x : α) (h : LastNamed name l x) : LastNamed name' (l.map f) (f x) := by
  obtain ⟨a, b, rfl, hb⟩ := h
  refine ⟨a.map f, b.map f, by simp, fun hc => hb ?_⟩
  obtain ⟨z, hz, e⟩ := List.mem_map.1 hc
  obtain ⟨y, hy, rfl⟩ := List.mem_map.1 hz
  exact List.mem_map.2 ⟨y, hy, hname _ _ e⟩

section
variable {K : Type} [Field K] [LinearOrder K] [FloorRing K]

/-- C68: objects with equal names. After `save_building_duals` each file holds the dual of the last building of its name, whatever the names. -/
theorem C68_duals_last (root : Path) (bs : List (Text × Text)) (fs : Fs) (hp : ∀ b ∈ bs, PlainName b.1)
    (hr : Ready fs (root ++ ["dual_graphs".toList]) (bs.map fun b => b.1 ++ ".txt".toList)) :
    ∃ fs', saveBuildingDuals root (bs.map fun b => (b.1, b.2, .ok ())) fs = (.ok (), fs') ∧
      fs' (root ++ ["dual_graphs".toList]) = some .dir ∧
      (∀ b, LastNamed Prod.fst bs b → fs' (root ++ ["dual_graphs".toList, b.1 ++ ".txt".toList]) = some (.file b.2)) ∧
      (∀ q, q ≠ root ++ ["dual_graphs".toList] → (∀ b ∈ bs, q ≠ root ++ ["dual_graphs".toList, b.1 ++ ".txt".toList]) → fs' q = fs q) := by
  obtain ⟨fs', h1, h2, h3, h4⟩ := saveDir_last fs (root ++ ["dual_graphs".toList]) (bs.map fun b => (b.1 ++ ".txt".toList, b.2,
      streamPut (joinPath (root ++ ["dual_graphs".toList]) (b.1 ++ ".txt".toList)) (b.2, .ok ()))) (by
      intro w hw
      obtain ⟨b, hb, rfl⟩ := List.mem_map.1 hw
      have := joinPath_plain (p := root ++ ["dual_graphs".toList]) (plain_ext (hp b hb) (show PlainName ".txt".toList by unfold PlainName; decide))
      dsimp only
      rw [this]
      exact streamPut_writes _ _) (by
      rw [List.map_map]; exact hr)
  refine ⟨fs', ?_, h2, ?_, ?_⟩
  · unfold saveBuildingDuals
    rw [List.map_map] at h1 ⊢
    exact h1
  · intro b hb
    have := h3 _ (last_map Prod.fst Prod.fst (fun b : Text × Text => (b.1 ++ ".txt".toList, b.2,
      streamPut (joinPath (root ++ ["dual_graphs".toList]) (b.1 ++ ".txt".toList)) (b.2, .ok ()))) (fun _ _ h => List.append_cancel_right h) bs b hb)
    simpa using this
  · intro q hq hq'
    refine h4 q hq ?_
    intro w hw
    obtain ⟨b, hb, rfl⟩ := List.mem_map.1 hw
    have := hq' b hb
    simpa using this

/-- C68: the same of `save_building_rasters`. -/
theorem C68_rasters_last (G : Gdal K) (root : Path) (rs : List (Raster K)) (fs : Fs) (hp : ∀ r ∈ rs, PlainName r.name)
    (hd : ∀ r ∈ rs, r.width ≠ 0 ∧ r.height ≠ 0) (hr : Ready fs (root ++ ["rasters".toList]) (rs.map fun r => r.name ++ ".tiff".toList)) :
    ∃ fs', saveBuildingRasters G root rs fs = (.ok (), fs') ∧ fs' (root ++ ["rasters".toList]) = some .dir ∧
      (∀ r, LastNamed Raster.name rs r → fs' (root ++ ["rasters".toList, r.name ++ ".tiff".toList]) = some (.file (G.tiff r.toGdal))) ∧
      (∀ q, q ≠ root ++ ["rasters".toList] → (∀ r ∈ rs, q ≠ root ++ ["rasters".toList, r.name ++ ".tiff".toList]) → fs' q = fs q) := by
  obtain ⟨fs', h1, h2, h3, h4⟩ := saveDir_last fs (root ++ ["rasters".toList]) (rs.map fun r => (r.name ++ ".tiff".toList, G.tiff r.toGdal,
      rasterPut G writeMode (joinPath (root ++ ["rasters".toList]) (r.name ++ ".tiff".toList)) r)) (by
      intro w hw
      obtain ⟨b, hb, rfl⟩ := List.mem_map.1 hw
      have := joinPath_plain (p := root ++ ["rasters".toList]) (plain_ext (hp b hb) (show PlainName ".tiff".toList by unfold PlainName; decide))
      dsimp only
      rw [this]
      exact rasterPut_writes _ _ _ (hd b hb).1 (hd b hb).2) (by
      rw [List.map_map]; exact hr)
  refine ⟨fs', ?_, h2, ?_, ?_⟩
  · unfold saveBuildingRasters
    rw [List.map_map] at h1
    exact h1
  · intro r hr'
    have := h3 _ (last_map Raster.name Prod.fst (fun r : Raster K => (r.name ++ ".tiff".toList, G.tiff r.toGdal,
      rasterPut G writeMode (joinPath (root ++ ["rasters".toList]) (r.name ++ ".tiff".toList)) r)) (fun _ _ h => List.append_cancel_right h) rs r hr')
    simpa using this
  · intro q hq hq'
    refine h4 q hq ?_
    intro w hw
    obtain ⟨b, hb, rfl⟩ := List.mem_map.1 hw
    have := hq' b hb
    simpa using this

/-- C68: the same of `save_building_prints`: shape file and attributes are those of the last footprint of the name. -/
theorem C68_prints_last (C : Cgal K) (G : Gdal K) (root : Path) (ps : List (FootPrint K)) (labels : Bool) (fs : Fs) (hp : ∀ f ∈ ps, PlainName f.name)
    (hr : Ready fs (root ++ ["vectors".toList]) (ps.flatMap fun f => [f.name ++ ".shp".toList, f.name ++ ".txt".toList])) :
    ∃ fs', saveBuildingPrints C G root ps labels fs = (.ok (), fs') ∧ fs' (root ++ ["vectors".toList]) = some .dir ∧
      (∀ f, LastNamed FootPrint.name ps f → fs' (root ++ ["vectors".toList, f.name ++ ".shp".toList]) = some (.file (G.shp (f.toOgr C labels))) ∧
        fs' (root ++ ["vectors".toList, f.name ++ ".txt".toList]) = some (.file (attributesText C G f))) ∧
      (∀ q, q ≠ root ++ ["vectors".toList] → (∀ f ∈ ps, q ≠ root ++ ["vectors".toList, f.name ++ ".shp".toList] ∧
        q ≠ root ++ ["vectors".toList, f.name ++ ".txt".toList]) → fs' q = fs q) := by
  let two : FootPrint K → List (Text × Text × Writer) := fun f => [(f.name ++ ".shp".toList, G.shp (f.toOgr C labels),
        vectorPut C G writeMode (joinPath (root ++ ["vectors".toList]) (f.name ++ ".shp".toList)) f labels),
      (f.name ++ ".txt".toList, attributesText C G f, streamPut (joinPath (root ++ ["vectors".toList]) (f.name ++ ".txt".toList)) (attributesText C G f, .ok ()))]
  have hinj : ∀ (a b e e' : Text), a ++ e = b ++ e' → e.length = e'.length → a = b ∧ e = e' := fun a b e e' h hl => List.append_inj' h hl
  have later : ∀ (f : FootPrint K) (b : List (FootPrint K)), f.name ∉ b.map FootPrint.name → ∀ w ∈ two f, w.1 ∉ (b.flatMap two).map Prod.fst := by
    intro f b hb w hw hc
    obtain ⟨v, hv, e⟩ := List.mem_map.1 hc
    obtain ⟨g, hg, hv⟩ := List.mem_flatMap.1 hv
    apply hb
    have : g.name = f.name := by
      simp only [two, List.mem_cons, List.not_mem_nil, or_false] at hw hv
      rcases hw with rfl | rfl <;> rcases hv with rfl | rfl <;> exact (hinj _ _ _ _ e (by decide)).1
    exact List.mem_map.2 ⟨g, hg, this⟩
  obtain ⟨fs', h1, h2, h3, h4⟩ := saveDir_last fs (root ++ ["vectors".toList]) (ps.flatMap two) (by
      intro w hw
      obtain ⟨f, hf, hw⟩ := List.mem_flatMap.1 hw
      simp only [two, List.mem_cons, List.not_mem_nil, or_false] at hw
      have h1 := joinPath_plain (p := root ++ ["vectors".toList]) (plain_ext (hp f hf) (show PlainName ".shp".toList by unfold PlainName; decide))
      have h2 := joinPath_plain (p := root ++ ["vectors".toList]) (plain_ext (hp f hf) (show PlainName ".txt".toList by unfold PlainName; decide))
      rcases hw with rfl | rfl <;> dsimp only
      · rw [h1]; exact vectorPut_writes _ _ _ _ _
      · rw [h2]; exact streamPut_writes _ _) (by
      rw [List.map_flatMap]; exact hr)
  refine ⟨fs', ?_, h2, ?_, ?_⟩
  · unfold saveBuildingPrints
    rw [List.map_flatMap] at h1
    exact h1
  · rintro f ⟨a, b, rfl, hb⟩
    have hl := later f b hb
    have l1 : LastNamed Prod.fst ((a ++ f :: b).flatMap two) (f.name ++ ".shp".toList, G.shp (f.toOgr C labels),
        vectorPut C G writeMode (joinPath (root ++ ["vectors".toList]) (f.name ++ ".shp".toList)) f labels) := by
      refine ⟨a.flatMap two, (two f).tail ++ b.flatMap two, by simp [two], ?_⟩
      rw [List.map_append, List.mem_append, not_or]
      refine ⟨?_, hl _ List.mem_cons_self⟩
      intro h
      have := (hinj _ _ _ _ (List.mem_singleton.1 h) (by decide)).2
      exact absurd this (by decide)
    have l2 : LastNamed Prod.fst ((a ++ f :: b).flatMap two) (f.name ++ ".txt".toList, attributesText C G f,
        streamPut (joinPath (root ++ ["vectors".toList]) (f.name ++ ".txt".toList)) (attributesText C G f, .ok ())) := by
      refine ⟨a.flatMap two ++ [(two f).head (by simp [two])], b.flatMap two, by simp [two], ?_⟩
      exact hl _ (List.mem_cons_of_mem _ List.mem_cons_self)
    have r1 := h3 _ l1
    have r2 := h3 _ l2
    exact ⟨by simpa using r1, by simpa using r2⟩
  · intro q hq hq'
    refine h4 q hq ?_
    intro w hw
    obtain ⟨f, hf, hw⟩ := List.mem_flatMap.1 hw
    have := hq' f hf
    simp only [two, List.mem_cons, List.not_mem_nil, or_false] at hw
    rcases hw with rfl | rfl
    · simpa using this.1
    · simpa using this.2

end

/-- Two buildings of one name: the second is the last. -/
example : LastNamed Prod.fst [("a".toList, "1".toList), ("b".toList, "2".toList), ("a".toList, "3".toList)] ("a".toList, "3".toList) :=
  ⟨[("a".toList, "1".toList), ("b".toList, "2".toList)], [], rfl, by simp⟩

end City.Props
