import Verif.Props.Handlers
import Verif.Props.Obj
import Mathlib.Data.List.Perm.Basic
/-!
Property C30: scenes as directories of OFF files.
-/
set_option exponentiation.threshold 2000
namespace City.Props
open City Spec
variable {N L : Type}

theorem splitExt_off (n : Text) : splitExt (n ++ ".off".toList) = (n, ".off".toList) := by
  have h : (n ++ ".off".toList).reverse = 'f' :: 'f' :: 'o' :: '.' :: n.reverse := by
    rw [List.reverse_append]; rfl
  unfold splitExt
  simp only [h]
  have h2 : ('f' :: 'f' :: 'o' :: '.' :: n.reverse).span (· != '.') = (['f', 'f', 'o'], '.' :: n.reverse) := by
    rw [List.span_eq_takeWhile_dropWhile]
    rfl
  rw [h2]
  simp only [List.reverse_reverse]
  rfl

theorem stem_off (p : Path) (n : Text) : stem (p ++ [n ++ ".off".toList]) = n := by
  simp only [stem, fileName, List.getLastD_eq_getLast?, List.getLast?_append, List.getLast?_singleton, Option.some_or,
    Option.getD_some]
  rw [splitExt_off]

theorem extension_off (p : Path) (n : Text) : extension (p ++ [n ++ ".off".toList]) = ".off".toList := by
  simp only [extension, fileName, List.getLastD_eq_getLast?, List.getLast?_append, List.getLast?_singleton, Option.some_or,
    Option.getD_some]
  rw [splitExt_off]

theorem splitSlash_plain {n : Text} (h : '/' ∉ n) : splitSlash n = [n] := by
  induction n with
  | nil => rfl
  | cons c t ih =>
    simp only [List.mem_cons, not_or] at h
    unfold splitSlash
    rw [if_neg (Ne.symm h.1), ih h.2]

theorem join_off (p : Path) {n : Text} (h : '/' ∉ n) : joinPath p (n ++ ".off".toList) = p ++ [n ++ ".off".toList] := by
  unfold joinPath
  rw [splitSlash_plain]
  simp only [List.mem_append, not_or]
  exact ⟨h, by decide⟩

/-- The path of the file of a mesh. -/
def offPath (p : Path) (m : Mesh) : Path := p ++ [m.name ++ ".off".toList]

theorem offPath_inj {p : Path} {m m' : Mesh} (h : offPath p m = offPath p m') : m.name = m'.name := by
  unfold offPath at h
  have h1 := List.append_cancel_left h
  injection h1 with h2
  exact List.append_cancel_right h2

theorem offPath_ne {p : Path} {m : Mesh} : offPath p m ≠ p := by
  intro h
  have := congrArg List.length h
  simp [offPath] at this

theorem writeAll_spec (modes : Modes) (hw : canSave modes = true) (p : Path) : ∀ (ms : List Mesh) (fs : Fs),
    (∀ m ∈ ms, '/' ∉ m.name) → (ms.map (·.name)).Nodup → fs p = some .dir → (∀ m ∈ ms, fs (offPath p m) ≠ some .dir) →
    ∃ fs', offWriteAll modes p ms fs = (.ok (), fs') ∧ (∀ m ∈ ms, fs' (offPath p m) = some (.file (Off.write m))) ∧
      (∀ q, (∀ m ∈ ms, q ≠ offPath p m) → fs' q = fs q) := by
  intro ms
  induction ms with
  | nil => intro fs _ _ _ _; exact ⟨fs, rfl, by simp, by simp⟩
  | cons m ms ih =>
    intro fs hs hd hp hf
    have hcw : fs.canWrite (offPath p m) = true := by
      have := hf m (by simp)
      unfold Fs.canWrite
      cases he : fs (offPath p m) with
      | none => simp [offPath, hp]
      | some e => cases e with
        | file t => rfl
        | dir => exact absurd he this
    have hstep : offWrite modes (joinPath p (m.name ++ ".off".toList)) m fs =
        (.ok (), fs.set (offPath p m) (.file (Off.write m))) := by
      rw [join_off p (hs m (by simp))]
      unfold offWrite
      rw [if_pos hw]
      unfold Fs.put
      rw [if_pos (by exact hcw)]
      rfl
    simp only [List.map_cons, List.nodup_cons, List.mem_map, not_exists, not_and] at hd
    have hne : ∀ m' ∈ ms, offPath p m' ≠ offPath p m := fun m' hm' he => hd.1 m' hm' (offPath_inj he)
    obtain ⟨fs', h1, h2, h3⟩ := ih (fs.set (offPath p m) (.file (Off.write m))) (fun m' hm' => hs m' (by simp [hm'])) hd.2
      (by simp only [Fs.set]; rw [if_neg (Ne.symm offPath_ne)]; exact hp)
      (fun m' hm' => by simp only [Fs.set]; rw [if_neg (hne m' hm')]; exact hf m' (by simp [hm']))
    refine ⟨fs', ?_, ?_, ?_⟩
    · unfold offWriteAll; rw [hstep]; exact h1
    · intro m' hm'
      rcases List.mem_cons.1 hm' with rfl | hm'
      · rw [h3 _ (fun x hx => (hne x hx).symm)]; simp [Fs.set]
      · exact h2 m' hm'
    · intro q hq
      rw [h3 q (fun x hx => hq x (by simp [hx]))]
      simp only [Fs.set]
      rw [if_neg (hq m (by simp))]

theorem perm_map_exists {α β : Type} (g : α → β) : ∀ {l : List β} {xs : List α}, l.Perm (xs.map g) →
    ∃ ys : List α, ys.Perm xs ∧ l = ys.map g := by
  intro l
  induction l with
  | nil => intro xs h; have := h.symm.eq_nil; rw [List.map_eq_nil_iff] at this; exact ⟨[], by rw [this], rfl⟩
  | cons b l ih =>
    intro xs h
    have hb : b ∈ xs.map g := h.subset (by simp)
    obtain ⟨x, hx, rfl⟩ := List.mem_map.1 hb
    obtain ⟨s, t, rfl⟩ := List.append_of_mem hx
    have : l.Perm ((s ++ t).map g) := by
      simp only [List.map_append, List.map_cons] at h ⊢
      exact (List.perm_cons (g x)).1 (h.trans List.perm_middle)
    obtain ⟨ys, hy, rfl⟩ := ih this
    exact ⟨x :: ys, (List.Perm.cons x hy).trans List.perm_middle.symm, rfl⟩

/-- What reading back the file of a mesh gives. -/
theorem offRead_written (rnd : ℚ → ℚ) (lf : Bool) (modes : Modes) (hr : canRead modes = true) (p : Path) (m : Mesh) (fs : Fs)
    (h : Holdable m) (hn : '\n' ∉ m.name) (hf : fs (offPath p m) = some (.file (Off.write m))) :
    offRead rnd lf modes (offPath p m) fs = .ok (Mesh.make m.name (m.points.map (Off.readPt rnd)) m.faces) := by
  unfold offRead
  rw [if_pos hr, hf]
  simp only
  rw [read_write rnd lf m h hn, Out.ok_bind]
  unfold offPath
  rw [stem_off]
  rfl

theorem isBuildingFile_written (p : Path) (fs : Fs) (n : Text) (t : Text) (hf : fs (p ++ [n ++ ".off".toList]) = some (.file t)) :
    isBuildingFile p fs (n ++ ".off".toList) = (n != "terrain".toList) := by
  unfold isBuildingFile
  rw [hf, stem_off, extension_off]
  rfl

/-- C30 (full statement, false of the code): the scene written is the scene read. -/
def C30_full : Prop :=
  ∀ (N L : Type) (ops : NodeOps N) (lib : Libs L) (rnd : ℚ → ℚ) (lf : Bool) (wm rm : Modes) (p : Path) (fs : Fs) (s : Scene N),
    IsRounding rnd → OpenedWrite wm → OpenedRead rm → FreshDirectory fs p →
    WritableScene (s.buildings.map ops.back) (ops.back s.terrain) →
    ∃ fs', sceneWrite ops .off wm p s fs = (.ok (), fs') ∧
      ∀ names, Listing fs' p names → ∃ bs t, sceneRead ops lib rnd lf .off rm p names fs' = .ok (Scene.make ops bs t s.pivot s.epsg) ∧
        MeshReadBack rnd (ops.back s.terrain) t ∧
        ∃ bs₀, bs₀.Perm (s.buildings.map ops.back) ∧ List.Forall₂ (MeshReadBack rnd) bs₀ bs

theorem scene_written (ops : NodeOps N) (wm : Modes) (p : Path) (fs : Fs) (s : Scene N) (hw : OpenedWrite wm)
    (hd : FreshDirectory fs p) (bs : List Mesh) (t : Mesh) (hbs : bs = s.buildings.map ops.back) (ht : t = ops.back s.terrain)
    (h : WritableScene bs t) (htn : t.name ∉ bs.map (·.name)) :
    ∃ fs', sceneWrite ops .off wm p s fs = (.ok (), fs') ∧ fs' p = some .dir ∧
      (∀ m ∈ bs ++ [t], fs' (offPath p m) = some (.file (Off.write m))) ∧
      (∀ n, (∀ m ∈ bs ++ [t], n ≠ m.name ++ ".off".toList) → fs' (p ++ [n]) = none) := by
  have hw' := canSave_iff.2 hw
  have hmem : ∀ m, m ∈ bs ++ [t] → m ∈ t :: bs := fun m hm => by simp at hm ⊢; tauto
  have hnd : ((bs ++ [t]).map (·.name)).Nodup := by
    rw [List.map_append, List.nodup_append]
    refine ⟨h.distinct, by simp, ?_⟩
    intro a ha b hb
    simp at hb; subst hb
    intro he; subst he
    exact htn ha
  have key : ∀ fs0 : Fs, fs0 p = some .dir → (∀ n, fs0 (p ++ [n]) = none) → ∃ fs', offWriteAll wm p (bs ++ [t]) fs0 = (.ok (), fs') ∧
      fs' p = some .dir ∧ (∀ m ∈ bs ++ [t], fs' (offPath p m) = some (.file (Off.write m))) ∧
      (∀ n, (∀ m ∈ bs ++ [t], n ≠ m.name ++ ".off".toList) → fs' (p ++ [n]) = none) := by
    intro fs0 h0 hn
    obtain ⟨fs', h1, h2, h3⟩ := writeAll_spec wm hw' p (bs ++ [t]) fs0 (fun m hm => (h.names m (hmem m hm)).2.1) hnd h0
      (fun m _ => by unfold offPath; rw [hn]; simp)
    refine ⟨fs', h1, ?_, h2, ?_⟩
    · rw [h3 p (fun m _ => Ne.symm offPath_ne)]; exact h0
    · intro n hn'
      rw [h3 _ (fun m hm he => hn' m hm (by unfold offPath at he; have := List.append_cancel_left he; injection this))]
      exact hn n
  unfold sceneWrite offSceneWrite
  simp only
  rw [← hbs, ← ht]
  rcases hd.2 with hp | ⟨hp, hpar⟩
  · rw [hp]; exact key fs hp hd.1
  · rw [hp]
    simp only
    rw [if_pos hpar]
    apply key
    · simp [Fs.set]
    · intro n
      simp only [Fs.set]
      rw [if_neg (by intro he; have := congrArg List.length he; simp at this)]
      exact hd.1 n

theorem listing_perm {fs : Fs} {p : Path} {names : List Text} (hl : Listing fs p names) (ms : List Mesh)
    (hnd : (ms.map (·.name)).Nodup) (hin : ∀ m ∈ ms, fs (offPath p m) ≠ none)
    (hout : ∀ n, (∀ m ∈ ms, n ≠ m.name ++ ".off".toList) → fs (p ++ [n]) = none) :
    names.Perm (ms.map fun m => m.name ++ ".off".toList) := by
  rw [List.perm_ext_iff_of_nodup hl.1]
  · intro n
    rw [hl.2 n]
    constructor
    · intro hne
      by_contra hc
      apply hne
      apply hout
      intro m hm he
      exact hc (List.mem_map.2 ⟨m, hm, he.symm⟩)
    · intro hm
      obtain ⟨m, hm', rfl⟩ := List.mem_map.1 hm
      exact hin m hm'
  · have : (ms.map fun m => m.name ++ ".off".toList) = (ms.map (·.name)).map (· ++ ".off".toList) := by simp
    rw [this]
    exact hnd.map (fun a b hab => List.append_cancel_right hab)

/-- C30: when the terrain is named "terrain", a scene written to a fresh directory is read back, whatever the order of the
directory entries, with the same buildings up to their order and the same terrain: same names and faces, printed coordinates.
Missing from the full property: other names of the terrain; the pivot and the EPSG code, replaced by the default ones. -/
theorem C30_round_trip_partial (ops : NodeOps N) (lib : Libs L) (rnd : ℚ → ℚ) (lf : Bool) (wm rm : Modes) (p : Path) (fs : Fs)
    (s : Scene N) (hw : OpenedWrite wm) (hr : OpenedRead rm) (hd : FreshDirectory fs p)
    (h : WritableScene (s.buildings.map ops.back) (ops.back s.terrain)) (ht : (ops.back s.terrain).name = "terrain".toList) :
    ∃ fs', sceneWrite ops .off wm p s fs = (.ok (), fs') ∧
      ∀ names, Listing fs' p names → ∃ bs t, sceneRead ops lib rnd lf .off rm p names fs' =
          .ok (Scene.make ops bs t ⟨0, 0, 0⟩ 2154) ∧
        MeshReadBack rnd (ops.back s.terrain) t ∧
        ∃ bs₀, bs₀.Perm (s.buildings.map ops.back) ∧ List.Forall₂ (MeshReadBack rnd) bs₀ bs := by
  generalize hbs : s.buildings.map ops.back = bs at h ⊢
  generalize htt : ops.back s.terrain = t at h ht ⊢
  have htn : t.name ∉ bs.map (·.name) := by rw [ht]; exact h.notTerrain
  obtain ⟨fs', h1, h2, h3, h4⟩ := scene_written ops wm p fs s hw hd bs t hbs.symm htt.symm h htn
  refine ⟨fs', h1, fun names hl => ?_⟩
  have hnd : ((bs ++ [t]).map (·.name)).Nodup := by
    rw [List.map_append, List.nodup_append]
    exact ⟨h.distinct, by simp, fun a ha b hb => by simp at hb; subst hb; intro he; subst he; exact htn ha⟩
  have hperm := listing_perm hl (bs ++ [t]) hnd (fun m hm => by rw [h3 m hm]; simp) h4
  have hfil : (names.filter (isBuildingFile p fs')).Perm (bs.map fun m => m.name ++ ".off".toList) := by
    have := hperm.filter (isBuildingFile p fs')
    refine this.trans ?_
    rw [List.map_append, List.filter_append]
    have hb : (bs.map fun m => m.name ++ ".off".toList).filter (isBuildingFile p fs') =
        bs.map fun m => m.name ++ ".off".toList := by
      rw [List.filter_eq_self]
      intro n hn
      obtain ⟨m, hm, rfl⟩ := List.mem_map.1 hn
      rw [isBuildingFile_written p fs' m.name (Off.write m) (h3 m (by simp [hm]))]
      rw [bne_iff_ne]
      intro he
      exact h.notTerrain (he ▸ List.mem_map.2 ⟨m, hm, rfl⟩)
    have hte : ([t].map fun m => m.name ++ ".off".toList).filter (isBuildingFile p fs') = [] := by
      rw [List.map_singleton, List.filter_singleton,
        isBuildingFile_written p fs' t.name (Off.write t) (h3 t (by simp)), ht]
      rfl
    rw [hb, hte, List.append_nil]
  obtain ⟨bs₀, hp₀, he⟩ := perm_map_exists _ hfil
  have hr' := canRead_iff.2 hr
  have hmem : ∀ m ∈ bs₀, m ∈ bs := fun m hm => hp₀.subset hm
  let rd : Mesh → Mesh := fun m => Mesh.make m.name (m.points.map (Off.readPt rnd)) m.faces
  have hrd : ∀ m, Holdable m → MeshReadBack rnd m (rd m) := by
    intro m hm
    refine ⟨rfl, rfl, ?_, rfl⟩
    show List.Forall₂ _ _ (m.points.map (Off.readPt rnd))
    rw [List.forall₂_map_right_iff, List.forall₂_same]
    exact fun q hq => readBack_readPt rnd (hm.finite q hq)
  have hread : ∀ m ∈ bs ++ [t], offRead rnd lf rm (p ++ [m.name ++ ".off".toList]) fs' = .ok (rd m) := by
    intro m hm
    have hm' : m ∈ t :: bs := by simp at hm ⊢; tauto
    exact offRead_written rnd lf rm hr' p m fs' (h.holdable m hm') (h.names m hm').2.2 (h3 m hm)
  refine ⟨bs₀.map rd, rd t, ?_, hrd t (h.holdable t (by simp)), bs₀, hp₀, ?_⟩
  · unfold sceneRead offSceneRead
    simp only
    rw [if_neg (by rw [h2]; simp), he]
    have hm : Out.mapM (fun n => offRead rnd lf rm (p ++ [n]) fs') (bs₀.map fun m => m.name ++ ".off".toList) =
        .ok (bs₀.map rd) := by
      rw [← Obj.mapM_comp (fun n => offRead rnd lf rm (p ++ [n]) fs') (fun m : Mesh => m.name ++ ".off".toList)]
      exact Out.mapM_ok_of (fun m hm => hread m (by simp [hmem m hm]))
    rw [hm, Out.ok_bind]
    have hj : joinPath p "terrain.off".toList = p ++ [t.name ++ ".off".toList] := by
      rw [ht]; rfl
    rw [hj, hread t (by simp), Out.ok_bind]
    rfl
  · rw [List.forall₂_map_right_iff, List.forall₂_same]
    exact fun m hm => hrd m (h.holdable m (by simp [hmem m hm]))

/-- C30: when the terrain has another name, what was written cannot be read back: the reader asks for terrain.off. -/
theorem C30_terrain_name (ops : NodeOps N) (lib : Libs L) (rnd : ℚ → ℚ) (lf : Bool) (wm rm : Modes) (p : Path) (fs : Fs)
    (s : Scene N) (hw : OpenedWrite wm) (hr : OpenedRead rm) (hd : FreshDirectory fs p)
    (h : WritableScene (s.buildings.map ops.back) (ops.back s.terrain)) (ht : (ops.back s.terrain).name ≠ "terrain".toList)
    (hu : (ops.back s.terrain).name ∉ (s.buildings.map ops.back).map (·.name)) :
    ∃ fs', sceneWrite ops .off wm p s fs = (.ok (), fs') ∧
      ∀ names, Listing fs' p names → sceneRead ops lib rnd lf .off rm p names fs' = .thrown .filesystemError := by
  generalize hbs : s.buildings.map ops.back = bs at h hu ⊢
  generalize htt : ops.back s.terrain = t at h ht hu ⊢
  obtain ⟨fs', h1, h2, h3, h4⟩ := scene_written ops wm p fs s hw hd bs t hbs.symm htt.symm h hu
  refine ⟨fs', h1, fun names hl => ?_⟩
  have hnd : ((bs ++ [t]).map (·.name)).Nodup := by
    rw [List.map_append, List.nodup_append]
    exact ⟨h.distinct, by simp, fun a ha b hb => by simp at hb; subst hb; intro he; subst he; exact hu ha⟩
  have hperm := listing_perm hl (bs ++ [t]) hnd (fun m hm => by rw [h3 m hm]; simp) h4
  have hr' := canRead_iff.2 hr
  unfold sceneRead offSceneRead
  simp only
  rw [if_neg (by rw [h2]; simp)]
  have hnone : fs' (joinPath p "terrain.off".toList) = none := by
    have : joinPath p "terrain.off".toList = p ++ ["terrain.off".toList] := rfl
    rw [this]
    apply h4
    intro m hm he
    have h5 : m.name = "terrain".toList := by
      have : "terrain.off".toList = "terrain".toList ++ ".off".toList := rfl
      rw [this] at he
      exact (List.append_cancel_right he).symm
    rcases List.mem_append.1 hm with hm | hm
    · exact h.notTerrain (h5 ▸ List.mem_map.2 ⟨m, hm, rfl⟩)
    · simp only [List.mem_singleton] at hm; subst hm; exact ht h5
  have hmap : ∃ r, Out.mapM (fun n => offRead rnd lf rm (p ++ [n]) fs') (names.filter (isBuildingFile p fs')) = .ok r := by
    have hsub : ∀ n ∈ names.filter (isBuildingFile p fs'), ∃ m ∈ bs ++ [t], n = m.name ++ ".off".toList := by
      intro n hn
      obtain ⟨m, hm, he⟩ := List.mem_map.1 (hperm.subset (List.mem_filter.1 hn).1)
      exact ⟨m, hm, he.symm⟩
    generalize names.filter (isBuildingFile p fs') = ns at hsub
    induction ns with
    | nil => exact ⟨[], rfl⟩
    | cons n ns ih =>
      obtain ⟨r, hr2⟩ := ih (fun x hx => hsub x (by simp [hx]))
      obtain ⟨m, hm, rfl⟩ := hsub n (by simp)
      have hm' : m ∈ t :: bs := by simp at hm ⊢; tauto
      refine ⟨Mesh.make m.name (m.points.map (Off.readPt rnd)) m.faces :: r, ?_⟩
      rw [Out.mapM_cons]
      have := offRead_written rnd lf rm hr' p m fs' (h.holdable m hm') (h.names m hm').2.2 (h3 m hm)
      unfold offPath at this
      rw [this, Out.ok_bind, hr2, Out.ok_bind]
  obtain ⟨r, hr2⟩ := hmap
  rw [hr2, Out.ok_bind]
  unfold offRead
  rw [if_pos hr', hnone]
  rfl

/-- A scene of meshes: nodes are meshes with pivot and EPSG code. -/
def plainOps : NodeOps Mesh := ⟨fun m _ _ => m, id⟩

/-- The empty file system, but for the root directory. -/
def rootFs : Fs := fun q => if q = [] then some .dir else none

/-- A terrain and a building with coordinates of few digits, away from the origin. -/
def sceneSample (terrainName : Text) : Scene Mesh :=
  ⟨⟨1, 2, 3⟩, 4326, [sampleOff.setName "b1".toList, sampleOff.setName "b2".toList], sampleOff.setName terrainName⟩

theorem sampleOff_holdable : Holdable sampleOff := by
  refine ⟨?_, ?_, ?_, ?_⟩
  · intro p hp
    simp only [sampleOff, Mesh.make, List.mem_cons, List.not_mem_nil, or_false] at hp
    rcases hp with rfl | rfl | rfl <;> (unfold FinitePoint dblMax; norm_num)
  · decide
  · refine ⟨by decide, by decide, by decide⟩
  · decide

theorem sampleOff_rename (n : Text) : Holdable (sampleOff.setName n) :=
  ⟨sampleOff_holdable.finite, sampleOff_holdable.degree, sampleOff_holdable.small, sampleOff_holdable.index⟩

theorem sceneSample_writable (n : Text) (h : FileNameOk n) :
    WritableScene ((sceneSample n).buildings.map plainOps.back) (plainOps.back (sceneSample n).terrain) := by
  refine ⟨?_, ?_, ?_, ?_⟩
  · intro m hm
    simp only [sceneSample, plainOps, List.map_cons, id, List.map_nil, List.mem_cons, List.not_mem_nil, or_false] at hm
    rcases hm with rfl | rfl | rfl <;> exact sampleOff_rename _
  · intro m hm
    simp only [sceneSample, plainOps, List.map_cons, id, List.map_nil, List.mem_cons, List.not_mem_nil, or_false] at hm
    rcases hm with rfl | rfl | rfl
    · exact h
    · unfold FileNameOk; decide
    · unfold FileNameOk; decide
  · show ["b1".toList, "b2".toList].Nodup; decide
  · show "terrain".toList ∉ ["b1".toList, "b2".toList]; decide

theorem rootFs_fresh : FreshDirectory rootFs ["out".toList] := by
  refine ⟨fun n => by simp [rootFs], Or.inr ⟨by simp [rootFs], by simp [rootFs]⟩⟩

/-- Cases meeting the hypotheses of C30: two buildings and a terrain, in a new directory. -/
example : FreshDirectory rootFs ["out".toList] ∧
    WritableScene ((sceneSample "terrain".toList).buildings.map plainOps.back) (plainOps.back (sceneSample "terrain".toList).terrain) ∧
    (plainOps.back (sceneSample "terrain".toList).terrain).name = "terrain".toList :=
  ⟨rootFs_fresh, sceneSample_writable _ (by unfold FileNameOk; decide), rfl⟩

/-- C30 refuted: a terrain named "ground" is written to ground.off and never found again. -/
theorem C30_refuted : ¬ C30_full := by
  intro h
  have hrnd : IsRounding (id : ℚ → ℚ) :=
    ⟨fun n _ => rfl, fun v _ => by simp only [id, sub_self, abs_zero]; positivity⟩
  let lib : Libs Unit := ⟨fun _ => none, fun _ => [], fun _ => Mesh.empty, fun _ => none, fun _ => none, fun _ => none⟩
  let wm : Modes := fun k => if k = "write".toList then some true else none
  let rm : Modes := fun k => if k = "read".toList then some true else none
  have hok : FileNameOk "ground".toList := by unfold FileNameOk; decide
  have hw : OpenedWrite wm := by unfold OpenedWrite; decide
  have hr : OpenedRead rm := by unfold OpenedRead; decide
  obtain ⟨fs1, h1, h2⟩ := h Mesh Unit plainOps lib id true wm rm ["out".toList] rootFs (sceneSample "ground".toList) hrnd hw hr
    rootFs_fresh (sceneSample_writable _ hok)
  obtain ⟨fs2, h3, h4⟩ := C30_terrain_name plainOps lib id true wm rm ["out".toList] rootFs (sceneSample "ground".toList) hw hr
    rootFs_fresh (sceneSample_writable _ hok) (by decide) (by decide)
  rw [h1] at h3
  injection h3 with _ he
  subst he
  obtain ⟨fs3, h5, h6, h7, h8⟩ := scene_written plainOps wm ["out".toList] rootFs (sceneSample "ground".toList) hw rootFs_fresh _ _
    rfl rfl (sceneSample_writable _ hok) (by decide)
  rw [h1] at h5
  injection h5 with _ he
  subst he
  have hl : Listing fs1 ["out".toList] ["b1.off".toList, "b2.off".toList, "ground.off".toList] := by
    refine ⟨by decide, fun n => ⟨fun hn => ?_, fun hn => ?_⟩⟩
    · simp only [List.mem_cons, List.not_mem_nil, or_false] at hn
      rcases hn with rfl | rfl | rfl
      · have := h7 (sampleOff.setName "b1".toList) (by simp [sceneSample, plainOps])
        unfold offPath at this; intro hc; rw [show (["out".toList] ++ ["b1.off".toList] : Path) = ["out".toList] ++ [(sampleOff.setName "b1".toList).name ++ ".off".toList] from rfl, this] at hc; exact absurd hc (by simp)
      · have := h7 (sampleOff.setName "b2".toList) (by simp [sceneSample, plainOps])
        unfold offPath at this; intro hc; rw [show (["out".toList] ++ ["b2.off".toList] : Path) = ["out".toList] ++ [(sampleOff.setName "b2".toList).name ++ ".off".toList] from rfl, this] at hc; exact absurd hc (by simp)
      · have := h7 (sampleOff.setName "ground".toList) (by simp [sceneSample, plainOps])
        unfold offPath at this; intro hc; rw [show (["out".toList] ++ ["ground.off".toList] : Path) = ["out".toList] ++ [(sampleOff.setName "ground".toList).name ++ ".off".toList] from rfl, this] at hc; exact absurd hc (by simp)
    · by_contra hc
      apply hn
      apply h8
      intro m hm he
      apply hc
      simp only [sceneSample, plainOps, List.map_cons, id, List.map_nil, List.mem_append, List.mem_cons, List.not_mem_nil, or_false] at hm
      rcases hm with (rfl | rfl) | rfl
      · rw [he]; decide
      · rw [he]; decide
      · rw [he]; decide
  obtain ⟨bs, t, hb, _⟩ := h2 _ hl
  rw [h4 _ hl] at hb
  simp at hb

end City.Props
