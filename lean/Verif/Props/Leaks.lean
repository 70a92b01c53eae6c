import Verif.Props.Memory
/-
C126: what an export or an import leaves allocated: the theorems.
-/
set_option linter.unusedSectionVars false
namespace City.Spec
open City.Mem

/-- C126, in full: whatever a handler of GIS files allocates in a call, it has released when the call is over, whether it returns or throws. -/
def C126_full : Prop :=
  ∀ (h : Heap), Sound h →
    (∀ (modes : Modes) (g : Answers) (f : FootPrint ℚ) (labels : Bool), GivenBack h (Mem.vectorWrite modes g f labels h).2) ∧
    (∀ (G : Gdal ℚ) (modes : Modes) (p : Path) (w : World), GivenBack h (Mem.vectorRead G modes p w h).2) ∧
    (∀ (modes : Modes) (g : Answers), GivenBack h (Mem.rasterWrite modes g h).2) ∧
    (∀ (G : Gdal ℚ) (reads : Bool) (modes : Modes) (p : Path) (w : World), GivenBack h (Mem.rasterRead G reads modes p w h).2)

end City.Spec

namespace City.Props
open City.Spec City.Mem
section
variable {K : Type} [Field K] [LinearOrder K]

theorem mem_left {h h' : Heap} {c : Kind → Nat} (g : Grows h h' c) : LeftOver h h' c := ⟨g.kept, g.count⟩

/-- C126: an export of a footprint that succeeds closes its file and destroys its features; it leaves the descriptions of the fields, and a polygon for
every facet, a ring for every boundary and a point for every vertex. -/
theorem C126_write_partial (modes : Modes) (g : Answers) (f : FootPrint K) (labels : Bool) (hm : canSave modes = true) (hd : g.driver = true)
    (hc : g.created = true) (hl : g.layer = true) (ht : ∀ i < f.brick.faces.length, g.takes i = true) (h : Heap) (hs : Sound h) :
    (Mem.vectorWrite modes g f labels h).1 = .ok () ∧
      LeftOver h (Mem.vectorWrite modes g f labels h).2 (fields labels + geometry f.brick.faces) := by
  obtain ⟨h', e, gr⟩ := vectorWrite_ok modes g f labels hm hd hc hl ht hs
  rw [e]
  exact ⟨rfl, mem_left gr⟩

/-- C126: an export in which GDAL refuses facet `n` leaves, on top of that, the file open and the feature of that facet. -/
theorem C126_refused (modes : Modes) (g : Answers) (f : FootPrint K) (labels : Bool) (hm : canSave modes = true) (hd : g.driver = true)
    (hc : g.created = true) (hl : g.layer = true) (n : Nat) (hn : n < f.brick.faces.length) (ht : ∀ i < n, g.takes i = true) (hf : g.takes n = false)
    (h : Heap) (hs : Sound h) :
    (Mem.vectorWrite modes g f labels h).1 = .thrown .runtimeError ∧
      LeftOver h (Mem.vectorWrite modes g f labels h).2
        (fields labels + geometry (f.brick.faces.take (n + 1)) + some' .ogrFeature 1 + some' .dataset 1) := by
  obtain ⟨h', e, gr⟩ := vectorWrite_refused modes g f labels hm hd hc hl n hn ht hf hs
  rw [e]
  exact ⟨rfl, mem_left gr⟩

/-- The first facet that is refused, if any is. -/
theorem mem_first (takes : Nat → Bool) (n : Nat) :
    (∀ i < n, takes i = true) ∨ ∃ m < n, (∀ i < m, takes i = true) ∧ takes m = false := by
  induction n with
  | zero => exact Or.inl fun i hi => absurd hi (Nat.not_lt_zero _)
  | succ n ih =>
    rcases ih with h | ⟨m, hm, h1, h2⟩
    · cases hn : takes n with
      | true =>
        refine Or.inl fun i hi => ?_
        rcases Nat.lt_succ_iff_lt_or_eq.1 hi with hi | rfl
        · exact h i hi
        · exact hn
      | false => exact Or.inr ⟨n, Nat.lt_succ_self _, h, hn⟩
    · exact Or.inr ⟨m, Nat.lt_succ_of_lt hm, h1, h2⟩

/-- C126: an export gives back everything exactly when it does not even get its file: without the mode, the driver or the dataset. Of every export that
starts, something stays allocated. -/
theorem C126_write_exact (modes : Modes) (g : Answers) (f : FootPrint K) (labels : Bool) (h : Heap) (hs : Sound h) :
    GivenBack h (Mem.vectorWrite modes g f labels h).2 ↔ canSave modes = false ∨ g.driver = false ∨ g.created = false := by
  have no : ∀ (c : Kind → Nat) (h' : Heap) (k : Kind), 0 < c k → LeftOver h h' c → ¬ GivenBack h h' := by
    intro c h' k hk hl hg
    have h1 := hl.2 k
    rw [hg k] at h1
    omega
  have hf : 0 < fields labels .ogrField := by cases labels <;> decide
  cases hm : canSave modes with
  | false =>
    refine ⟨fun _ => Or.inl rfl, fun _ => ?_⟩
    unfold Mem.vectorWrite
    rw [hm]
    exact fun _ => rfl
  | true =>
    cases hd : g.driver with
    | false =>
      refine ⟨fun _ => Or.inr (Or.inl rfl), fun _ => ?_⟩
      unfold Mem.vectorWrite
      rw [hm, hd]
      exact fun _ => rfl
    | true =>
      cases hc : g.created with
      | false =>
        refine ⟨fun _ => Or.inr (Or.inr rfl), fun _ => ?_⟩
        unfold Mem.vectorWrite
        rw [hm, hd, hc]
        exact fun _ => rfl
      | true =>
        refine ⟨fun hg => absurd hg ?_, fun hx => by rcases hx with x | x | x <;> cases x⟩
        cases hl : g.layer with
        | false =>
          obtain ⟨h', e, gr⟩ := vectorWrite_noLayer modes g f labels hm hd hc hl hs
          rw [e]
          exact no _ _ .dataset (by decide) (mem_left gr)
        | true =>
          rcases mem_first g.takes f.brick.faces.length with ht | ⟨n, hn, h1, h2⟩
          · refine no _ _ .ogrField ?_ (C126_write_partial modes g f labels hm hd hc hl ht h hs).2
            rw [Pi.add_apply]
            omega
          · refine no _ _ .dataset ?_ (C126_refused modes g f labels hm hd hc hl n hn h1 h2 h hs).2
            rw [Pi.add_apply]
            exact Nat.lt_of_lt_of_le (by decide) (Nat.le_add_left _ _)

/-- The same footprints exported one after the other. -/
def exportAll (modes : Modes) (g : Answers) (labels : Bool) : List (FootPrint K) → Hm Unit
  | [] => pure ()
  | f :: fs => do
    Mem.vectorWrite modes g f labels
    exportAll modes g labels fs

/-- C126: over a whole run the objects add up: after the export of a list of footprints the fields of every file and the geometry of every facet are still
there, so that the memory in use grows with everything that has ever been written. -/
theorem C126_run (modes : Modes) (g : Answers) (labels : Bool) (hm : canSave modes = true) (hd : g.driver = true) (hc : g.created = true)
    (hl : g.layer = true) (ht : ∀ i, g.takes i = true) (fs : List (FootPrint K)) (h : Heap) (hs : Sound h) :
    (exportAll modes g labels fs h).1 = .ok () ∧
      LeftOver h (exportAll modes g labels fs h).2 (some' .ogrField (fs.length * (if labels then 8 else 5)) + geometry (fs.flatMap fun f => f.brick.faces)) := by
  suffices hh : ∃ h', exportAll modes g labels fs h = (.ok (), h') ∧
      Grows h h' (some' .ogrField (fs.length * (if labels then 8 else 5)) + geometry (fs.flatMap fun f => f.brick.faces)) by
    obtain ⟨h', e, gr⟩ := hh
    rw [e]
    exact ⟨rfl, mem_left gr⟩
  induction fs generalizing h with
  | nil => exact ⟨h, rfl, (Grows.refl hs).of_eq (by funext j; cases j <;> simp [some', geometry])⟩
  | cons f fs ih =>
    obtain ⟨h1, e1, g1⟩ := vectorWrite_ok modes g f labels hm hd hc hl (fun i _ => ht i) hs
    obtain ⟨h2, e2, g2⟩ := ih h1 g1.sound
    refine ⟨h2, ?_, (g1.trans g2).of_eq ?_⟩
    · show (Mem.vectorWrite modes g f labels >>= fun _ => exportAll modes g labels fs) h = _
      rw [hm_ok e1, e2]
    · funext j
      cases j <;> simp [some', geometry, fields]
      · rw [Nat.add_mul]; split <;> omega

/-- C126: an import of a footprint gives the footprint that it should (`City.vectorRead`); it closes the file and destroys the features, and leaves a point
for every vertex. -/
theorem C126_read_partial (G : Gdal K) (modes : Modes) (p : Path) (w : World) (f : FootPrint K) (hf : City.vectorRead G modes p w = .ok f)
    (h : Heap) (hs : Sound h) :
    (Mem.vectorRead G modes p w h).1 = .ok f ∧
      LeftOver h (Mem.vectorRead G modes p w h).2
        (some' .ogrPoint (f.brick.faces.map fun q => q.border.outer.length + (q.border.holes.map List.length).sum).sum) := by
  have hm : canRead modes = true := by
    cases hm : canRead modes with
    | true => rfl
    | false => unfold City.vectorRead at hf; rw [hm] at hf; cases hf
  have ho : ∃ l, gdalOpen G.readShp p w = .ok l := by
    unfold City.vectorRead at hf
    rw [if_pos hm] at hf
    obtain ⟨l, hl, -⟩ := Out.bind_eq_ok.1 hf
    exact ⟨l, hl⟩
  obtain ⟨l, ho⟩ := ho
  obtain ⟨n, h', e, hh⟩ := vectorRead_opened G modes p w hm ho hs
  rw [e]
  rcases hh with ⟨f', hf', hn, gr⟩ | ⟨hno, -⟩
  · rw [hf] at hf'
    cases hf'
    rw [hn] at gr
    exact ⟨hf, mem_left gr⟩
  · exact absurd hf (hno f)

/-- C126: an import that fails on a file that GDAL has opened leaves the file open and the feature in hand. -/
theorem C126_read_failed (G : Gdal K) (modes : Modes) (p : Path) (w : World) (hm : canRead modes = true) (l : Layer K)
    (ho : gdalOpen G.readShp p w = .ok l) (hf : ∀ f, City.vectorRead G modes p w ≠ .ok f) (h : Heap) (hs : Sound h) :
    (Mem.vectorRead G modes p w h).1 = City.vectorRead G modes p w ∧
      ∃ n, LeftOver h (Mem.vectorRead G modes p w h).2 (some' .ogrPoint n + some' .ogrFeature 1 + some' .dataset 1) := by
  obtain ⟨n, h', e, hh⟩ := vectorRead_opened G modes p w hm ho hs
  rw [e]
  rcases hh with ⟨f', hf', -, -⟩ | ⟨-, gr⟩
  · exact absurd hf' (hf f')
  · exact ⟨rfl, n, mem_left gr⟩

/-- C126: an import gives back everything exactly when GDAL does not open the file, or the footprint read has no vertex. -/
theorem C126_read_exact (G : Gdal K) (modes : Modes) (p : Path) (w : World) (h : Heap) (hs : Sound h) :
    GivenBack h (Mem.vectorRead G modes p w h).2 ↔
      canRead modes = false ∨ (∀ l, gdalOpen G.readShp p w ≠ .ok l) ∨
        ∃ f, City.vectorRead G modes p w = .ok f ∧ ∀ q ∈ f.brick.faces, q.border.outer = [] ∧ ∀ r ∈ q.border.holes, r = [] := by
  cases hm : canRead modes with
  | false =>
    refine ⟨fun _ => Or.inl rfl, fun _ => ?_⟩
    unfold Mem.vectorRead
    rw [hm]
    exact fun _ => rfl
  | true =>
    cases ho : gdalOpen G.readShp p w with
    | ok l =>
      constructor
      · intro hg
        refine Or.inr (Or.inr ?_)
        by_cases hf : ∃ f, City.vectorRead G modes p w = .ok f
        · obtain ⟨f, hf⟩ := hf
          refine ⟨f, hf, ?_⟩
          have h1 := (C126_read_partial G modes p w f hf h hs).2.2 .ogrPoint
          rw [hg .ogrPoint] at h1
          have h2 : (f.brick.faces.map fun q => q.border.outer.length + (q.border.holes.map List.length).sum).sum = 0 := by
            have h3 : ∀ n, some' .ogrPoint n .ogrPoint = n := fun _ => if_pos rfl
            rw [h3] at h1
            omega
          rw [List.sum_eq_zero_iff] at h2
          intro q hq
          have h3 := h2 _ (List.mem_map.2 ⟨q, hq, rfl⟩)
          refine ⟨List.length_eq_zero_iff.1 (by omega), fun r hr => ?_⟩
          have h4 : (q.border.holes.map List.length).sum = 0 := by omega
          rw [List.sum_eq_zero_iff] at h4
          exact List.length_eq_zero_iff.1 (h4 _ (List.mem_map.2 ⟨r, hr, rfl⟩))
        · exfalso
          obtain ⟨-, n, hl⟩ := C126_read_failed G modes p w hm l ho (fun f e => hf ⟨f, e⟩) h hs
          have h1 := hl.2 .dataset
          rw [hg .dataset] at h1
          have h2 : (some' .ogrPoint n + some' .ogrFeature 1 + some' .dataset 1) .dataset = 1 := by simp [some']
          omega
      · rintro (x | x | ⟨f, hf, hv⟩)
        · cases x
        · exact absurd rfl (x l)
        · intro k
          rw [(C126_read_partial G modes p w f hf h hs).2.2 k]
          have h2 : (f.brick.faces.map fun q => q.border.outer.length + (q.border.holes.map List.length).sum).sum = 0 := by
            rw [List.sum_eq_zero_iff]
            intro x hx
            obtain ⟨q, hq, rfl⟩ := List.mem_map.1 hx
            obtain ⟨h3, h4⟩ := hv q hq
            have h5 : (q.border.holes.map List.length).sum = 0 := by
              rw [List.sum_eq_zero_iff]
              intro y hy
              obtain ⟨r, hr, rfl⟩ := List.mem_map.1 hy
              rw [h4 r hr]
              rfl
            rw [h3, h5]
            rfl
          rw [h2]
          simp [some']
    | thrown t =>
      refine ⟨fun _ => Or.inr (Or.inl fun l e => by cases e), fun _ => ?_⟩
      unfold Mem.vectorRead
      rw [hm, ho]
      exact fun _ => rfl
    | ub =>
      refine ⟨fun _ => Or.inr (Or.inl fun l e => by cases e), fun _ => ?_⟩
      unfold Mem.vectorRead
      rw [hm, ho]
      exact fun _ => rfl

/-- C126: writing an image releases everything, unless GDAL refuses the band: then the file stays open. -/
theorem C126_image_write (modes : Modes) (g : Answers) (hm : canSave modes = true) (hd : g.driver = true) (hc : g.created = true) (h : Heap) (hs : Sound h) :
    LeftOver h (Mem.rasterWrite modes g h).2 (if g.takes 0 then fun _ => 0 else some' .dataset 1) := by
  have g0 := alloc_grows .dataset hs
  have g1 := alloc_grows .wkt g0.sound
  have g2 := (g0.trans g1).release (a := h.next + 1) (k := .wkt) (d := some' .dataset 1) List.mem_cons_self (Nat.le_succ _) hs rfl
  have m2 : (h.next, Kind.dataset) ∈ (without ⟨h.next + 1 + 1, (h.next + 1, .wkt) :: (h.next, .dataset) :: h.live, h.meshes⟩ (h.next + 1)).live :=
    mem_without.2 ⟨List.mem_cons_of_mem _ List.mem_cons_self, (Nat.lt_succ_self _).ne⟩
  have hu : Mem.rasterWrite modes g h = (if g.takes 0 then release h.next else raise .runtimeError)
      (without ⟨h.next + 1 + 1, (h.next + 1, .wkt) :: (h.next, .dataset) :: h.live, h.meshes⟩ (h.next + 1)) := by
    unfold Mem.rasterWrite
    rw [if_pos hm, hd, hc]
    show (alloc .dataset >>= fun d => alloc .wkt >>= fun t => touch d >>= fun _ => release t >>= fun _ =>
      if g.takes 0 then release d else raise .runtimeError) h = _
    rw [hm_ok (x := alloc .dataset) rfl, hm_ok (x := alloc .wkt) rfl,
      hm_ok (touch_ok (k := .dataset) (List.mem_cons_of_mem _ List.mem_cons_self)), hm_ok (release_ok (k := .wkt) List.mem_cons_self)]
  rw [hu]
  cases ht : g.takes 0 with
  | false => exact mem_left g2
  | true =>
    rw [if_pos rfl, if_pos rfl, release_ok m2]
    exact mem_left (g2.release m2 (le_refl _) hs (by funext j; simp [some']))

/-- C126: reading an image leaves the buffer of its pixels allocated, each time. -/
theorem C126_image_read (G : Gdal K) (modes : Modes) (p : Path) (w : World) (r : Raster K) (hr : City.rasterRead G modes p w = .ok r) (h : Heap)
    (hs : Sound h) :
    (Mem.rasterRead G true modes p w h).1 = .ok r ∧ LeftOver h (Mem.rasterRead G true modes p w h).2 (some' .buffer 1) := by
  have hm : canRead modes = true := by
    cases hm : canRead modes with
    | true => rfl
    | false => unfold City.rasterRead at hr; rw [hm] at hr; cases hr
  unfold City.rasterRead at hr
  rw [if_pos hm] at hr
  obtain ⟨l, ho, hr⟩ := Out.bind_eq_ok.1 hr
  have g0 := alloc_grows .dataset hs
  have g1 := alloc_grows .buffer g0.sound
  have m1 : (h.next, Kind.dataset) ∈ ((h.next + 1, Kind.buffer) :: (h.next, Kind.dataset) :: h.live) := List.mem_cons_of_mem _ List.mem_cons_self
  have hu : Mem.rasterRead G true modes p w h = (.ok r, without ⟨h.next + 1 + 1, (h.next + 1, .buffer) :: (h.next, .dataset) :: h.live, h.meshes⟩ h.next) := by
    unfold Mem.rasterRead
    rw [if_pos hm]
    show (lift (gdalOpen G.readTiff p w) >>= fun l => alloc .dataset >>= fun d => lift (Raster.ofGdal G.geog (stem p) l) >>= fun r =>
      alloc .buffer >>= fun b => touch b >>= fun _ => if true = true then (release d >>= fun _ => pure r) else raise .runtimeError) h = _
    rw [hm_ok (x := lift (gdalOpen G.readTiff p w)) (h' := h) (a := l) (by unfold lift; rw [ho]), hm_ok (x := alloc .dataset) rfl,
      hm_ok (x := lift (Raster.ofGdal G.geog (stem p) l)) (a := r) (by unfold lift; rw [hr]), hm_ok (x := alloc .buffer) rfl,
      hm_ok (touch_ok (k := .buffer) List.mem_cons_self), if_pos rfl, hm_ok (release_ok (k := .dataset) m1)]
    rfl
  rw [hu]
  exact ⟨rfl, mem_left ((g0.trans g1).release m1 (le_refl _) hs (by rw [add_comm]))⟩

/-- C126: the export and the import of the model of memory end as those of the model of files, from any memory. -/
theorem C126_same (C : Cgal K) (G : Gdal K) (modes : Modes) (p : Path) (w : World) (f : FootPrint K) (labels : Bool) (h : Heap) (hs : Sound h) :
    (Mem.vectorRead G modes p w h).1 = City.vectorRead G modes p w ∧
      (Mem.vectorWrite modes ⟨true, decide (w.fs.canWrite p), true, fun _ => true⟩ f labels h).1 = (vectorPut C G modes p f labels w.fs).1 := by
  constructor
  · cases hm : canRead modes with
    | false =>
      unfold Mem.vectorRead City.vectorRead
      rw [hm]
      rfl
    | true =>
      cases ho : gdalOpen G.readShp p w with
      | ok l =>
        obtain ⟨n, h', e, -⟩ := vectorRead_opened G modes p w hm ho hs
        rw [e]
      | thrown t =>
        unfold Mem.vectorRead City.vectorRead
        rw [hm, ho]
        rfl
      | ub =>
        unfold Mem.vectorRead City.vectorRead
        rw [hm, ho]
        rfl
  · unfold vectorPut
    cases hm : canSave modes with
    | false =>
      unfold Mem.vectorWrite
      rw [hm]
      rfl
    | true =>
      by_cases hc : w.fs.canWrite p
      · rw [if_pos rfl, if_pos hc, decide_eq_true hc]
        exact (C126_write_partial modes _ f labels hm rfl rfl rfl (fun _ _ => rfl) h hs).1
      · rw [if_pos rfl, if_neg hc, decide_eq_false hc]
        unfold Mem.vectorWrite
        rw [hm]
        rfl

end

/-- A memory in which nothing is allocated. -/
def bare : Heap := ⟨0, [], fun _ => []⟩

theorem bare_sound : Sound bare := ⟨fun _ hb => absurd hb List.not_mem_nil, List.nodup_nil⟩

/-- One mode. -/
def only (m : String) : Modes := fun k => if k = m.toList then some true else none

/-- C126 fails: the export of an empty footprint leaves the descriptions of five fields. -/
theorem C126_refuted : ¬ C126_full := by
  intro hc
  have h1 := ((hc bare bare_sound).1 (only "write") ⟨true, true, true, fun _ => true⟩ ⟨[], ⟨0, 0, 0⟩, 0, Brick.empty⟩ false)
  rw [C126_write_exact _ _ _ _ _ bare_sound] at h1
  revert h1
  decide

/-- A facet with a hole: a triangle in a square. -/
def holed : FacePrint ℚ := ⟨7, ⟨[⟨0, 0⟩, ⟨4, 0⟩, ⟨4, 4⟩, ⟨0, 4⟩], [[⟨1, 1⟩, ⟨1, 2⟩, ⟨2, 1⟩]]⟩, ⟨0, 0, 1, 0⟩⟩

/-- The export of one facet with a hole and labels, run: 8 fields, a polygon, two rings and seven points stay; the dataset and the feature do not. -/
example : (Mem.vectorWrite (only "write") ⟨true, true, true, fun _ => true⟩ ⟨[], ⟨0, 0, 0⟩, 0, ⟨none, [holed]⟩⟩ true bare).2.live.map (·.2)
    = [.ogrPoint, .ogrPoint, .ogrPoint, .ogrRing, .ogrPoint, .ogrPoint, .ogrPoint, .ogrPoint, .ogrRing, .ogrPolygon,
      .ogrField, .ogrField, .ogrField, .ogrField, .ogrField, .ogrField, .ogrField, .ogrField] := by decide +kernel

/-- The hypotheses of C126_write_partial are met by this export. -/
example : (Mem.vectorWrite (only "write") ⟨true, true, true, fun _ => true⟩ ⟨[], ⟨0, 0, 0⟩, 0, ⟨none, [holed]⟩⟩ true bare).1 = .ok () :=
  (C126_write_partial _ _ _ _ (by decide) rfl rfl rfl (fun _ _ => rfl) bare bare_sound).1

/-- When the second of two facets is refused, the file stays open. -/
example : (Nat.succ 0 = allocated .dataset
    (Mem.vectorWrite (only "write") ⟨true, true, true, fun i => i == 0⟩ ⟨[], ⟨0, 0, 0⟩, 0, ⟨none, [holed, holed]⟩⟩ false bare).2) := by decide +kernel

/-- A GDAL for which every shape file holds the facet with the hole, and every image is one pixel. -/
def oneFacet : Gdal ℚ :=
  ⟨fun _ => [], fun _ => some ⟨[], 2154, false, [⟨7, [[⟨0, 0⟩, ⟨4, 0⟩, ⟨4, 4⟩, ⟨0, 4⟩, ⟨0, 0⟩], [⟨1, 1⟩, ⟨1, 2⟩, ⟨2, 1⟩, ⟨1, 1⟩]], ⟨0, 0, 1, 0⟩⟩]⟩,
    fun _ => [], fun _ => some ⟨1, 1, some (0, 1, 0, 0, 0, -1), none, [5]⟩, fun _ => -1, fun _ => [], fun _ => 0⟩

/-- Files with one regular file. -/
def onePlace : World := ⟨fun q => if q = ["a".toList] then some (.file []) else none, true⟩

/-- The hypotheses of C126_read_partial are met: seven points stay. -/
example : (∃ f, City.vectorRead oneFacet (only "read") ["a".toList] onePlace = .ok f) ∧
    (Mem.vectorRead oneFacet (only "read") ["a".toList] onePlace bare).2.live.map (·.2) = List.replicate 7 .ogrPoint := by
  constructor
  · exact ⟨_, rfl⟩
  · decide +kernel

/-- The hypotheses of C126_image_read are met. -/
example : (match City.rasterRead oneFacet (only "read") ["a".toList] onePlace with | .ok _ => true | _ => false) = true := by decide +kernel

end City.Props
