import Verif.Props.CliRun
import Verif.Props.DirRead

/-! The order in which a directory is listed and the results of the tools (orthoproject.cpp:103-187, cityformat.cpp:96-147, io_scene.cpp:20-60). -/
set_option linter.unusedSectionVars false
open City City.Spec City.Props
namespace City.Spec

/-- C109, in full: whatever the order in which the system lists the directory of a scene, orthoproject ends in the same way and leaves the same files. -/
def C109_full : Prop := ∀ {N L : Type} (T : Toolbox N L ℚ) (listing : Fs → Path → List Text) (args : Args) (fs : Fs) (t : Text), Given args "<scene>" t →
  Given args "--input-format" "OFF".toList → Listing fs (splitSlash t) (T.listing fs (splitSlash t)) → Listing fs (splitSlash t) (listing fs (splitSlash t)) →
  orthoMain { T with listing := listing } args fs = orthoMain T args fs

end City.Spec

namespace City.Props
section
variable {N L K : Type} [Field K] [LinearOrder K] [IsStrictOrderedRing K] [FloorRing K]

theorem ready_mem {fs : Fs} {dir : Path} {l l' : List Text} (h : ∀ n ∈ l', n ∈ l) (hr : Ready fs dir l) : Ready fs dir l' :=
  ⟨hr.dir_ok, fun n hn => hr.no_dir n (h n hn)⟩

/-- The same input in another order. -/
theorem input_order (T : Toolbox N L K) (listing : Fs → Path → List Text) (args : Args) (fs : Fs) (t : Text) (te : Bool) (s : Scene N)
    (h1 : Listing fs (splitSlash t) (T.listing fs (splitSlash t))) (h2 : Listing fs (splitSlash t) (listing fs (splitSlash t))) (h : InputIs T args fs t te s) :
    ∃ s', InputIs { T with listing := listing } args fs t te s' ∧ s'.buildings.Perm s.buildings ∧ s'.terrain = s.terrain ∧ s'.pivot = s.pivot ∧ s'.epsg = s.epsg := by
  obtain ⟨f, F, s₀, pr, i1, i2, i3, i4, i5, i6⟩ := h.input
  obtain ⟨s₁, r1, r2, r3, r4, r5⟩ : ∃ s₁, sceneRead T.ops T.lib T.rnd T.lf F readMode (splitSlash t) (listing fs (splitSlash t)) fs = .ok s₁ ∧
      s₁.buildings.Perm s₀.buildings ∧ s₁.terrain = s₀.terrain ∧ s₁.pivot = s₀.pivot ∧ s₁.epsg = s₀.epsg := by
    cases F with
    | off => exact C102_directory T.ops T.lib T.rnd T.lf readMode (splitSlash t) fs fs _ _ ⟨rfl, fun _ _ => rfl⟩ h1 h2 s₀ i3
    | _ => exact ⟨s₀, i3, List.Perm.refl _, rfl, rfl, rfl⟩
  cases pr with
  | false =>
    have := i6 rfl
    subst this
    exact ⟨s₁, ⟨h.scene, h.terrain, f, F, s₁, false, i1, i2, r1, i4, by simp, fun _ => rfl⟩, r2, r3, r4, r5⟩
  | true =>
    obtain ⟨p1, p2, p3, p4, p5⟩ := i5 rfl
    obtain ⟨bs, b1, b2⟩ := List.perm_comp_forall₂ r2 p3
    refine ⟨⟨s.pivot, s.epsg, bs, s.terrain⟩, ⟨h.scene, h.terrain, f, F, s₁, true, i1, i2, r1, i4, fun _ => ⟨?_, ?_, b1, ?_, ?_⟩, by simp⟩, b2, rfl, rfl, rfl⟩
    · rw [r4]; exact p1
    · rw [r5]; exact p2
    · intro hte; rw [r3]; exact p4 hte
    · intro hte; rw [r3]; exact p5 hte

/-- A complete run in another order. -/
theorem run_order (T : Toolbox N L K) (listing : Fs → Path → List Text) (args : Args) (fs : Fs) (t : Text) (te gr la : Bool) (px : K) (s : Scene N)
    (ps : List (FootPrint K)) (rs : List (Raster K)) (total : FootPrint K) (img : Raster K)
    (h1 : Listing fs (splitSlash t) (T.listing fs (splitSlash t))) (h2 : Listing fs (splitSlash t) (listing fs (splitSlash t)))
    (h : RunOk T args fs t te gr false la px s ps rs total img) :
    ∃ s' ps' rs', RunOk { T with listing := listing } args fs t te gr false la px s' ps' rs' total img ∧ s'.buildings.Perm s.buildings ∧ ps'.Perm ps ∧ (px ≠ 0 → rs'.Perm rs) := by
  obtain ⟨s', a1, a2, a3, a4, a5⟩ := input_order T listing args fs t te s h1 h2 h.input
  obtain ⟨ps', b1, b2⟩ := List.perm_comp_forall₂ (show (s'.buildings ++ if te then [s'.terrain] else []).Perm (s.buildings ++ if te then [s.terrain] else []) by
    rw [a3]; exact a2.append_right _) h.prints
  obtain ⟨rs', c1, c2⟩ : ∃ rs', (px ≠ 0 → List.Forall₂ (fun f r => Raster.ofFootPrint T.C T.lr f px = .ok r) ps' rs') ∧ (px ≠ 0 → rs'.Perm rs) := by
    by_cases hp : px = 0
    · exact ⟨[], fun h => absurd hp h, fun h => absurd hp h⟩
    · obtain ⟨rs', c1, c2⟩ := List.perm_comp_forall₂ b2 (h.images hp).1
      exact ⟨rs', fun _ => c1, fun _ => c2⟩
  refine ⟨s', ps', rs', ⟨a1, h.cache, h.graphs, h.save, h.scene, h.labels, h.pixel, b1, ⟨(b2.map _).nodup_iff.2 h.printNames.1, fun f hf => h.printNames.2 f (b2.mem_iff.1 hf)⟩,
    fun hg => ?_, ?_, by simp, by simp, fun hp => ⟨c1 hp, fun r hr => (h.images hp).2.1 r ((c2 hp).mem_iff.1 hr), ?_⟩⟩, a2, b2, c2⟩
  · obtain ⟨d1, d2, d3⟩ := h.dualsOk hg
    exact ⟨(a2.map _).nodup_iff.2 d1, fun b hb => d2 b (a2.mem_iff.1 hb), ready_mem (fun n hn => (a2.map _).mem_iff.1 hn) d3⟩
  · exact ready_mem (fun n hn => (b2.flatMap_right _).mem_iff.1 hn) h.vectors
  · exact ready_mem (fun n hn => (b2.map _).mem_iff.1 hn) (h.images hp).2.2

/-- The results do not depend on the order, apart from the files of the whole scene. -/
theorem result_order (T : Toolbox N L K) (listing : Fs → Path → List Text) (root : Path) (st : Text) (gr sc la : Bool) (px : K) (bs bs' : List N) (ps ps' : List (FootPrint K)) (rs rs' : List (Raster K))
    (total total' : FootPrint K) (img img' : Raster K) (hb : bs'.Perm bs) (hp : ps'.Perm ps) (hr : px ≠ 0 → rs'.Perm rs) (q : Path) (e : Entry)
    (hq : sc = true → q ≠ root ++ [st ++ ".shp".toList] ∧ q ≠ root ++ [st ++ ".tiff".toList])
    (h : OrthoResult { T with listing := listing } root st gr sc la px bs' ps' rs' total' img' q e) : OrthoResult T root st gr sc la px bs ps rs total img q e := by
  cases h with
  | dualDir hg => exact .dualDir hg
  | dual hg b h => exact .dual hg b (hb.mem_iff.1 h)
  | vectorDir => exact .vectorDir
  | shape f hf => exact .shape f (hp.mem_iff.1 hf)
  | attributes f hf => exact .attributes f (hp.mem_iff.1 hf)
  | sceneShape hs => exact absurd rfl (hq hs).1
  | sceneImage hs _ => exact absurd rfl (hq hs).2
  | imageDir h => exact .imageDir h
  | image h r h' => exact .image h r ((hr h).mem_iff.1 h')

theorem forall₂_unique {α β : Type} {r : α → β → Prop} (hr : ∀ a b c, r a b → r a c → b = c) {as : List α} {bs cs : List β} (h : List.Forall₂ r as bs) (h' : List.Forall₂ r as cs) : bs = cs := by
  induction h generalizing cs with
  | nil => cases h'; rfl
  | cons h _ ih =>
    cases h' with
    | cons g gs => rw [hr _ _ _ h g, ih gs]

/-- There is one input. -/
theorem input_unique (T : Toolbox N L K) (args : Args) (fs : Fs) (t : Text) (te : Bool) (s s' : Scene N) (h : InputIs T args fs t te s) (h' : InputIs T args fs t te s') : s = s' := by
  obtain ⟨f, F, s₀, pr, i1, i2, i3, i4, i5, i6⟩ := h.input
  obtain ⟨f', F', s₀', pr', j1, j2, j3, j4, j5, j6⟩ := h'.input
  unfold Given at i1 j1
  unfold Switch at i4 j4
  rw [i1] at j1
  rw [i4] at j4
  cases j1
  cases j4
  rw [i2] at j2
  cases j2
  rw [i3] at j3
  cases j3
  cases pr with
  | false => rw [i6 rfl, j6 rfl]
  | true =>
    obtain ⟨p1, p2, p3, p4, p5⟩ := i5 rfl
    obtain ⟨q1, q2, q3, q4, q5⟩ := j5 rfl
    have e3 := forall₂_unique (fun a b c (hb : T.prune a = .ok b) (hc : T.prune a = .ok c) => by rw [hb] at hc; cases hc; rfl) p3 q3
    have e4 : s.terrain = s'.terrain := by
      cases te with
      | false => rw [p5 rfl, q5 rfl]
      | true =>
        have := p4 rfl
        rw [q4 rfl] at this
        exact (Out.ok.inj this).symm
    cases s
    cases s'
    simp_all

/-- C109 (partial): for runs in which everything asked for can be computed and written, without the footprint of the whole scene, the order in which the system lists the directory of the scene does not
matter: same end, same files. Missing: runs that fail, buildings with the same name and `--scene` (see `C109_refuted`). -/
theorem C109_order_partial (T : Toolbox N L K) (listing : Fs → Path → List Text) (args : Args) (fs : Fs) (t : Text) (te gr la : Bool) (px : K) (s : Scene N)
    (ps : List (FootPrint K)) (rs : List (Raster K)) (total : FootPrint K) (img : Raster K)
    (h1 : Listing fs (splitSlash t) (T.listing fs (splitSlash t))) (h2 : Listing fs (splitSlash t) (listing fs (splitSlash t)))
    (h : RunOk T args fs t te gr false la px s ps rs total img) :
    orthoMain { T with listing := listing } args fs = orthoMain T args fs := by
  obtain ⟨s', ps', rs', r1, r2, r3, r4⟩ := run_order T listing args fs t te gr la px s ps rs total img h1 h2 h
  obtain ⟨fs1, x1, x2, x3⟩ := C86_exact T args fs t te gr false la px s ps rs total img h
  obtain ⟨fs2, y1, y2, y3⟩ := C86_exact { T with listing := listing } args fs t te gr false la px s' ps' rs' total img r1
  rw [x1, y1]
  congr 1
  funext q
  have fwd := result_order T listing (splitSlash t).dropLast (stem (splitSlash t)) gr false la px _ _ _ _ _ _ total total img img r2 r3 r4 q
  have bwd := result_order { T with listing := listing } T.listing (splitSlash t).dropLast (stem (splitSlash t)) gr false la px _ _ _ _ _ _ total total img img r2.symm r3.symm (fun hp => (r4 hp).symm) q
  by_cases hq : ∃ e, OrthoResult T (splitSlash t).dropLast (stem (splitSlash t)) gr false la px s.buildings ps rs total img q e
  · obtain ⟨e, he⟩ := hq
    rw [x2 q e he, y2 q e (bwd e (by simp) he)]
  · push Not at hq
    rw [x3 q hq, y3 q fun e he => hq e (fwd e (by simp) he)]

/-- C109 (partial): with `--scene` as well, if the footprints of the whole scene can be computed and written in both orders: only the files of the whole scene may differ. -/
theorem C109_elsewhere_partial (T : Toolbox N L K) (listing : Fs → Path → List Text) (args : Args) (fs : Fs) (t : Text) (te gr sc la : Bool) (px : K) (s s' : Scene N)
    (ps ps' : List (FootPrint K)) (rs rs' : List (Raster K)) (total total' : FootPrint K) (img img' : Raster K)
    (h1 : Listing fs (splitSlash t) (T.listing fs (splitSlash t))) (h2 : Listing fs (splitSlash t) (listing fs (splitSlash t)))
    (h : RunOk T args fs t te gr sc la px s ps rs total img) (h' : RunOk { T with listing := listing } args fs t te gr sc la px s' ps' rs' total' img') (q : Path)
    (hq : q ≠ (splitSlash t).dropLast ++ [stem (splitSlash t) ++ ".shp".toList]) (hq' : q ≠ (splitSlash t).dropLast ++ [stem (splitSlash t) ++ ".tiff".toList]) :
    (orthoMain { T with listing := listing } args fs).1 = (orthoMain T args fs).1 ∧ (orthoMain { T with listing := listing } args fs).2 q = (orthoMain T args fs).2 q := by
  obtain ⟨s₁, a1, a2, a3, -, -⟩ := input_order T listing args fs t te s h1 h2 h.input
  have e := input_unique _ args fs t te s₁ s' a1 h'.input
  subst e
  have hps : ps'.Perm ps := by
    obtain ⟨ps₁, b1, b2⟩ := List.perm_comp_forall₂ (show (s₁.buildings ++ if te then [s₁.terrain] else []).Perm (s.buildings ++ if te then [s.terrain] else []) by
      rw [a3]; exact a2.append_right _) h.prints
    have := forall₂_unique (fun a b c (hb : T.proj a = .ok b) (hc : T.proj a = .ok c) => by rw [hb] at hc; cases hc; rfl) b1 h'.prints
    rw [← this]; exact b2
  have hrs : px ≠ 0 → rs'.Perm rs := by
    intro hp
    obtain ⟨rs₁, c1, c2⟩ := List.perm_comp_forall₂ hps (h.images hp).1
    have := forall₂_unique (fun a b c (hb : Raster.ofFootPrint T.C T.lr a px = .ok b) (hc : Raster.ofFootPrint T.C T.lr a px = .ok c) => by rw [hb] at hc; cases hc; rfl) c1 (h'.images hp).1
    rw [← this]; exact c2
  obtain ⟨fs1, x1, x2, x3⟩ := C86_exact T args fs t te gr sc la px s ps rs total img h
  obtain ⟨fs2, y1, y2, y3⟩ := C86_exact { T with listing := listing } args fs t te gr sc la px s₁ ps' rs' total' img' h'
  rw [x1, y1]
  refine ⟨rfl, ?_⟩
  have fwd := fun e => result_order T listing (splitSlash t).dropLast (stem (splitSlash t)) gr sc la px _ _ _ _ _ _ total total' img img' a2 hps hrs q e fun _ => ⟨hq, hq'⟩
  have bwd := fun e => result_order { T with listing := listing } T.listing (splitSlash t).dropLast (stem (splitSlash t)) gr sc la px _ _ _ _ _ _ total' total img' img a2.symm hps.symm
    (fun hp => (hrs hp).symm) q e fun _ => ⟨hq, hq'⟩
  by_cases hx : ∃ e, OrthoResult T (splitSlash t).dropLast (stem (splitSlash t)) gr sc la px s.buildings ps rs total img q e
  · obtain ⟨e, he⟩ := hx
    show fs2 q = fs1 q
    rw [x2 q e he, y2 q e (bwd e he)]
  · push Not at hx
    show fs2 q = fs1 q
    rw [x3 q hx, y3 q fun e he => hx e (fwd e he)]


/-- The OFF writer of scenes, exactly: the directory, the files, and nothing else. -/
theorem scene_written_exact (ops : NodeOps N) (wm : Modes) (p : Path) (fs : Fs) (s : Scene N) (hw : OpenedWrite wm)
    (hd : FreshDirectory fs p) (h : WritableScene (s.buildings.map ops.back) (ops.back s.terrain)) (htn : (ops.back s.terrain).name ∉ (s.buildings.map ops.back).map (·.name)) :
    ∃ fs', sceneWrite ops .off wm p s fs = (.ok (), fs') ∧ fs' p = some .dir ∧
      (∀ m ∈ s.buildings.map ops.back ++ [ops.back s.terrain], fs' (offPath p m) = some (.file (Off.write m))) ∧
      (∀ q, q ≠ p → (∀ m ∈ s.buildings.map ops.back ++ [ops.back s.terrain], q ≠ offPath p m) → fs' q = fs q) := by
  have hw' := canSave_iff.2 hw
  generalize hbs : s.buildings.map ops.back = bs at h htn ⊢
  generalize ht : ops.back s.terrain = t at h htn ⊢
  have hmem : ∀ m, m ∈ bs ++ [t] → m ∈ t :: bs := fun m hm => by simp at hm ⊢; tauto
  have hnd : ((bs ++ [t]).map (·.name)).Nodup := by
    rw [List.map_append, List.nodup_append]
    refine ⟨h.distinct, by simp, ?_⟩
    intro a ha b hb
    simp at hb; subst hb
    intro he; subst he
    exact htn ha
  have key : ∀ fs0 : Fs, fs0 p = some .dir → (∀ q, q ≠ p → fs0 q = fs q) → ∃ fs', offWriteAll wm p (bs ++ [t]) fs0 = (.ok (), fs') ∧
      fs' p = some .dir ∧ (∀ m ∈ bs ++ [t], fs' (offPath p m) = some (.file (Off.write m))) ∧
      (∀ q, q ≠ p → (∀ m ∈ bs ++ [t], q ≠ offPath p m) → fs' q = fs q) := by
    intro fs0 h0 hn
    obtain ⟨fs', h1, h2, h3⟩ := writeAll_spec wm hw' p (bs ++ [t]) fs0 (fun m hm => (h.names m (hmem m hm)).2.1) hnd h0
      (fun m _ => by
        rw [hn _ offPath_ne]
        unfold offPath
        rw [hd.1]; simp)
    refine ⟨fs', h1, ?_, h2, ?_⟩
    · rw [h3 p (fun m _ => Ne.symm offPath_ne)]; exact h0
    · intro q hq hq'
      rw [h3 q hq', hn q hq]
  unfold sceneWrite offSceneWrite
  simp only
  rw [hbs, ht]
  rcases hd.2 with hp | ⟨hp, hpar⟩
  · rw [hp]; exact key fs hp fun _ _ => rfl
  · rw [hp]
    simp only
    rw [if_pos hpar]
    apply key
    · simp [Fs.set]
    · intro q hq
      simp [Fs.set, hq]

/-- C109 (partial): cityformat to OFF: the order in which the system lists the directory of the scene does not matter. -/
theorem C109_format_partial (T : Toolbox N L K) (listing : Fs → Path → List Text) (args : Args) (fs : Fs) (t o : Text) (te : Bool) (s : Scene N) (hno : Switch args "--formats" false)
    (h1 : Listing fs (splitSlash t) (T.listing fs (splitSlash t))) (h2 : Listing fs (splitSlash t) (listing fs (splitSlash t)))
    (hin : InputIs T args fs t te s) (hg : Switch args "--graphs" false) (ho : Given args "<path>" o) (hof : Given args "--output-format" "OFF".toList)
    (hd : FreshDirectory fs (splitSlash o)) (hs : WritableScene (s.buildings.map T.ops.back) (T.ops.back s.terrain))
    (htn : (T.ops.back s.terrain).name ∉ (s.buildings.map T.ops.back).map (·.name)) :
    formatMain { T with listing := listing } args fs = formatMain T args fs := by
  obtain ⟨s', a1, a2, a3, -, -⟩ := input_order T listing args fs t te s h1 h2 hin
  have hm : ∀ m, m ∈ s'.buildings.map T.ops.back ↔ m ∈ s.buildings.map T.ops.back := fun m => (a2.map _).mem_iff
  have hs' : WritableScene (s'.buildings.map T.ops.back) (T.ops.back s'.terrain) := by
    rw [a3]
    have hc : ∀ m ∈ T.ops.back s.terrain :: s'.buildings.map T.ops.back, m ∈ T.ops.back s.terrain :: s.buildings.map T.ops.back := by
      intro m h
      rw [List.mem_cons, hm] at h
      exact List.mem_cons.2 h
    exact ⟨fun m h => hs.holdable m (hc m h), fun m h => hs.names m (hc m h), ((a2.map _).map _).nodup_iff.2 hs.distinct, fun h => hs.notTerrain (((a2.map _).map _).mem_iff.1 h)⟩
  have htn' : (T.ops.back s'.terrain).name ∉ (s'.buildings.map T.ops.back).map (·.name) := by
    rw [a3]
    exact fun hc => htn (((a2.map _).map _).mem_iff.1 hc)
  obtain ⟨fs1, x1, x2, x3, x4⟩ := scene_written_exact T.ops writeMode (splitSlash o) fs s openedWrite_writeMode hd hs htn
  obtain ⟨fs2, y1, y2, y3, y4⟩ := scene_written_exact T.ops writeMode (splitSlash o) fs s' openedWrite_writeMode hd hs' htn'
  have e1 : formatMain T args fs = (.ok 0, fs1) := by
    unfold formatMain mainOf
    rw [format_of T hno hin hg ho hof (F := .off) (by rfl), x1]
  have e2 : formatMain { T with listing := listing } args fs = (.ok 0, fs2) := by
    unfold formatMain mainOf
    rw [format_of _ hno a1 hg ho hof (F := .off) (by rfl)]
    show (match sceneWrite T.ops .off writeMode (splitSlash o) s' fs with | (Out.ub, fs') => (Out.ub, fs') | (_, fs') => (Out.ok 0, fs')) = _
    rw [y1]
  rw [e1, e2]
  congr 1
  funext q
  have hm' : ∀ m, m ∈ s'.buildings.map T.ops.back ++ [T.ops.back s'.terrain] ↔ m ∈ s.buildings.map T.ops.back ++ [T.ops.back s.terrain] := by
    intro m
    rw [List.mem_append, List.mem_append, hm, a3]
  by_cases hq : q = splitSlash o
  · rw [hq, x2, y2]
  by_cases hq' : ∃ m ∈ s.buildings.map T.ops.back ++ [T.ops.back s.terrain], q = offPath (splitSlash o) m
  · obtain ⟨m, hm, rfl⟩ := hq'
    rw [x3 m hm, y3 m ((hm' m).2 hm)]
  · push Not at hq'
    rw [x4 q hq hq', y4 q hq fun m hm => hq' m ((hm' m).1 hm)]


end

/-! ### Examples -/

/-- A triangle of side 1, a quadrilateral, a terrain. -/
def triOff : Text := "OFF\n3 1 0\n0 0 0\n1 0 0\n0 1 0\n3 0 1 2\n".toList
def quadOff : Text := "OFF\n4 2 0\n0 0 0\n1 0 0\n1 1 0\n0 1 0\n3 0 1 2\n3 0 2 3\n".toList

/-- The directory `d` with the building files `x` and `y` and a terrain. -/
def pairFs (x y : Text) : Fs
  | [] => some .dir
  | [d] => if d = ['d'] then some .dir else none
  | [d, n] =>
    if d = ['d'] then
      if n = x then some (.file triOff) else if n = y then some (.file quadOff) else if n = "terrain.off".toList then some (.file triOff) else none
    else none
  | _ => none

theorem pair_listing (x y : Text) (l : List Text) (hl : l.Nodup) (hm : ∀ n, n ∈ l ↔ n = x ∨ n = y ∨ n = "terrain.off".toList) : Listing (pairFs x y) (splitSlash ['d']) l := by
  refine ⟨hl, fun n => ?_⟩
  rw [hm]
  show _ ↔ pairFs x y [['d'], n] ≠ none
  unfold pairFs
  simp only [if_true]
  generalize "terrain.off".toList = z
  by_cases h1 : n = x
  · simp [h1]
  by_cases h2 : n = y
  · rw [if_neg h1, if_pos h2]; simp [h2]
  by_cases h3 : n = z
  · rw [if_neg h1, if_neg h2, if_pos h3]; simp [h3]
  rw [if_neg h1, if_neg h2, if_neg h3]
  simp [h1, h2, h3]

/-- The tools of the examples: the dual graph of a building is one letter per face. -/
def pairTools (names : List Text) : Toolbox Mesh Unit ℚ :=
  { toyTools with listing := fun _ _ => names, dual := fun m => (m.name, m.faces.map fun _ => 'f', .ok ()) }

/-- `orthoproject d --input-format=OFF --graphs`, with `save rasterize --pixel-size=1` or not. -/
def pairArgs (save : Bool) : Args := fun n =>
  if n = "<scene>".toList then some (.str ['d']) else
  if n = "--input-format".toList then some (.str "OFF".toList) else
  if n = "--graphs".toList then some (.bool true) else
  if n = "save".toList then some (.bool save) else
  if n = "rasterize".toList then some (.bool save) else
  if n = "--pixel-size".toList then some (.str ['1']) else some (.bool false)

/-- C109 is false: the files a.off and a.OFF both hold a building named a; the dual graph on the disk is the one of the building that is listed last. -/
theorem C109_refuted : ¬ C109_full := by
  intro h
  have := h (pairTools ["a.off".toList, "a.OFF".toList, "terrain.off".toList]) (fun _ _ => ["a.OFF".toList, "a.off".toList, "terrain.off".toList]) (pairArgs false)
    (pairFs "a.off".toList "a.OFF".toList) ['d'] (by unfold Given; decide) (by unfold Given; decide)
    (pair_listing _ _ _ (by decide) (fun n => by show n ∈ [_, _, _] ↔ _; simp only [List.mem_cons, List.not_mem_nil, or_false]))
    (pair_listing _ _ _ (by decide) (fun n => by show n ∈ [_, _, _] ↔ _; simp only [List.mem_cons, List.not_mem_nil, or_false]; tauto))
  have h1 := congrArg (fun r => r.2 ["dual_graphs".toList, "a.txt".toList]) this
  have h2 : (orthoMain (pairTools ["a.off".toList, "a.OFF".toList, "terrain.off".toList]) (pairArgs false) (pairFs "a.off".toList "a.OFF".toList)).2 ["dual_graphs".toList, "a.txt".toList] =
    some (.file ['f', 'f']) := by decide +kernel
  have h3 : (orthoMain (pairTools ["a.OFF".toList, "a.off".toList, "terrain.off".toList]) (pairArgs false) (pairFs "a.off".toList "a.OFF".toList)).2 ["dual_graphs".toList, "a.txt".toList] =
    some (.file ['f']) := by decide +kernel
  have h4 : some (Entry.file ['f']) = some (.file ['f', 'f']) := h3.symm.trans (h1.trans h2)
  exact absurd h4 (by decide)

/-- The footprint the tools of the examples make for the building `n`. -/
def dirPrint (n : Text) : FootPrint ℚ := { toyPrint with name := n }

/-- The hypotheses of C109 are met: a directory with the buildings A and B, dual graphs, vectors and images asked for. -/
theorem pair_run : ∃ s ra rb, RunOk (pairTools ["A.off".toList, "B.off".toList, "terrain.off".toList]) (pairArgs true) (pairFs "A.off".toList "B.off".toList) ['d'] false true false false 1 s
    [dirPrint ['A'], dirPrint ['B']] [ra, rb] FootPrint.empty ra := by
  obtain ⟨ra, a1, a2⟩ : ∃ r, Raster.ofFootPrint rectCgal true (dirPrint ['A']) 1 = .ok r ∧ r.width ≠ 0 ∧ r.height ≠ 0 := by
    have : (match Raster.ofFootPrint rectCgal true (dirPrint ['A']) 1 with | .ok r => decide (r.width ≠ 0 ∧ r.height ≠ 0) | _ => false) = true := by decide +kernel
    cases h : Raster.ofFootPrint rectCgal true (dirPrint ['A']) 1 with
    | ok r => rw [h] at this; exact ⟨r, rfl, of_decide_eq_true this⟩
    | thrown e => rw [h] at this; cases this
    | ub => rw [h] at this; cases this
  obtain ⟨rb, b1, b2⟩ : ∃ r, Raster.ofFootPrint rectCgal true (dirPrint ['B']) 1 = .ok r ∧ r.width ≠ 0 ∧ r.height ≠ 0 := by
    have : (match Raster.ofFootPrint rectCgal true (dirPrint ['B']) 1 with | .ok r => decide (r.width ≠ 0 ∧ r.height ≠ 0) | _ => false) = true := by decide +kernel
    cases h : Raster.ofFootPrint rectCgal true (dirPrint ['B']) 1 with
    | ok r => rw [h] at this; exact ⟨r, rfl, of_decide_eq_true this⟩
    | thrown e => rw [h] at this; cases this
    | ub => rw [h] at this; cases this
  have h3 : (match sceneRead toyTools.ops toyTools.lib toyTools.rnd toyTools.lf .off readMode [['d']] ["A.off".toList, "B.off".toList, "terrain.off".toList] (pairFs "A.off".toList "B.off".toList) with
    | .ok s => decide (s.buildings.map Mesh.name = [['A'], ['B']]) | _ => false) = true := by decide +kernel
  cases h4 : sceneRead toyTools.ops toyTools.lib toyTools.rnd toyTools.lf .off readMode [['d']] ["A.off".toList, "B.off".toList, "terrain.off".toList] (pairFs "A.off".toList "B.off".toList) with
  | thrown e => rw [h4] at h3; cases h3
  | ub => rw [h4] at h3; cases h3
  | ok s =>
    rw [h4] at h3
    have h5 := of_decide_eq_true h3
    obtain ⟨ma, mb, h6, h7, h8⟩ : ∃ ma mb, s.buildings = [ma, mb] ∧ ma.name = ['A'] ∧ mb.name = ['B'] := by
      cases e : s.buildings with
      | nil => rw [e] at h5; cases h5
      | cons ma l =>
        cases l with
        | nil => rw [e] at h5; simp at h5
        | cons mb l =>
          cases l with
          | nil => rw [e] at h5; simp at h5; exact ⟨ma, mb, rfl, h5.1, h5.2⟩
          | cons _ _ => rw [e] at h5; simp at h5
    refine ⟨s, ra, rb, ?_⟩
    exact
      { input := ⟨by unfold Given; decide, by unfold Switch; decide, "OFF".toList, .off, s, false, by unfold Given; decide, by decide, h4, by unfold Switch; decide, by simp, fun _ => rfl⟩
        cache := ⟨false, by unfold Switch; decide⟩
        graphs := by unfold Switch; decide
        save := by unfold Switch; decide
        scene := by unfold Switch; decide
        labels := by unfold Switch; decide
        pixel := Or.inr ⟨by unfold Asked; decide, ['1'], by decide, by decide +kernel⟩
        prints := by
          rw [h6]
          refine List.Forall₂.cons ?_ (List.Forall₂.cons ?_ List.Forall₂.nil)
          · show Out.ok _ = Out.ok (dirPrint ['A'])
            rw [h7]; rfl
          · show Out.ok _ = Out.ok (dirPrint ['B'])
            rw [h8]; rfl
        printNames := ⟨by decide, by unfold PlainName; decide⟩
        dualsOk := fun _ => by
          rw [h6]
          have e : ∀ m, ((pairTools ["A.off".toList, "B.off".toList, "terrain.off".toList]).dual m).1 = m.name := fun _ => rfl
          refine ⟨?_, ?_, ⟨Or.inr ⟨by decide, by decide, by decide⟩, ?_⟩⟩
          · simp only [List.map_cons, List.map_nil, e, h7, h8]; decide
          · intro b hb
            refine ⟨?_, rfl⟩
            rw [e]
            simp only [List.mem_cons, List.not_mem_nil, or_false] at hb
            rcases hb with rfl | rfl
            · rw [h7]; unfold PlainName; decide
            · rw [h8]; unfold PlainName; decide
          · simp only [List.map_cons, List.map_nil, e, h7, h8]; decide
        vectors := ⟨Or.inr ⟨by decide, by decide, by decide⟩, by decide⟩
        sum := by simp
        image := by simp
        images := fun _ => ⟨List.Forall₂.cons a1 (List.Forall₂.cons b1 List.Forall₂.nil), by
          intro r hr
          simp only [List.mem_cons, List.not_mem_nil, or_false] at hr
          rcases hr with rfl | rfl
          · exact a2
          · exact b2, ⟨Or.inr ⟨by decide, by decide, by decide⟩, by decide⟩⟩ }

example : orthoMain (pairTools ["terrain.off".toList, "B.off".toList, "A.off".toList]) (pairArgs true) (pairFs "A.off".toList "B.off".toList) =
    orthoMain (pairTools ["A.off".toList, "B.off".toList, "terrain.off".toList]) (pairArgs true) (pairFs "A.off".toList "B.off".toList) := by
  obtain ⟨s, ra, rb, h⟩ := pair_run
  exact C109_order_partial _ (fun _ _ => ["terrain.off".toList, "B.off".toList, "A.off".toList]) _ _ ['d'] _ _ _ _ _ _ _ _ _
    (pair_listing _ _ _ (by decide) (fun n => by show n ∈ [_, _, _] ↔ _; simp only [List.mem_cons, List.not_mem_nil, or_false]))
    (pair_listing _ _ _ (by decide) (fun n => by show n ∈ [_, _, _] ↔ _; simp only [List.mem_cons, List.not_mem_nil, or_false]; tauto)) h

/-- `cityformat d e --input-format=OFF --output-format=OFF`. -/
def pairFormat : Args := fun n =>
  if n = "<path>".toList then some (.str ['e']) else
  if n = "--output-format".toList then some (.str "OFF".toList) else
  if n = "--graphs".toList then some (.bool false) else pairArgs false n

/-- A small mesh. -/
def LittleMesh (m : Mesh) : Prop := (∀ p ∈ m.points, (-9 ≤ p.x ∧ p.x ≤ 9) ∧ (-9 ≤ p.y ∧ p.y ≤ 9) ∧ (-9 ≤ p.z ∧ p.z ≤ 9)) ∧
  (∀ f ∈ m.faces, 3 ≤ f.degree ∧ f.degree < 9 ∧ ∀ i ∈ f.points, i < 9) ∧ m.points.length < 9 ∧ m.faces.length < 9

instance (m : Mesh) : Decidable (LittleMesh m) := by unfold LittleMesh; infer_instance

set_option exponentiation.threshold 2000 in
theorem little_holdable {m : Mesh} (h : LittleMesh m) : Holdable m := by
  obtain ⟨h1, h2, h3, h4⟩ := h
  have big : (9 : ℚ) ≤ dblMax := by unfold dblMax; norm_num
  refine ⟨fun p hp => ?_, fun f hf => (h2 f hf).1, ⟨by omega, by omega, fun f hf => ?_⟩, fun f hf i hi => ?_⟩
  · obtain ⟨⟨a1, a2⟩, ⟨b1, b2⟩, ⟨c1, c2⟩⟩ := h1 p hp
    unfold FinitePoint
    exact ⟨abs_le.2 ⟨by linarith, by linarith⟩, abs_le.2 ⟨by linarith, by linarith⟩, abs_le.2 ⟨by linarith, by linarith⟩⟩
  · have := (h2 f hf).2.1; omega
  · have := (h2 f hf).2.2 i hi; omega

/-- The hypotheses of the theorem on cityformat are met. -/
example : formatMain (pairTools ["terrain.off".toList, "B.off".toList, "A.off".toList]) pairFormat (pairFs "A.off".toList "B.off".toList) =
    formatMain (pairTools ["A.off".toList, "B.off".toList, "terrain.off".toList]) pairFormat (pairFs "A.off".toList "B.off".toList) := by
  have h3 : (match sceneRead toyTools.ops toyTools.lib toyTools.rnd toyTools.lf .off readMode [['d']] ["A.off".toList, "B.off".toList, "terrain.off".toList] (pairFs "A.off".toList "B.off".toList) with
    | .ok s => decide (s.buildings.map Mesh.name = [['A'], ['B']] ∧ s.terrain.name = "terrain".toList ∧ ∀ m ∈ s.terrain :: s.buildings, LittleMesh m) | _ => false) = true := by decide +kernel
  cases h4 : sceneRead toyTools.ops toyTools.lib toyTools.rnd toyTools.lf .off readMode [['d']] ["A.off".toList, "B.off".toList, "terrain.off".toList] (pairFs "A.off".toList "B.off".toList) with
  | thrown e => rw [h4] at h3; cases h3
  | ub => rw [h4] at h3; cases h3
  | ok s =>
    rw [h4] at h3
    obtain ⟨h5, h6, h7⟩ := of_decide_eq_true h3
    have hb : s.buildings.map toyTools.ops.back = s.buildings := List.map_id _
    refine C109_format_partial (pairTools ["A.off".toList, "B.off".toList, "terrain.off".toList]) (fun _ _ => ["terrain.off".toList, "B.off".toList, "A.off".toList]) pairFormat (pairFs "A.off".toList "B.off".toList) ['d'] ['e'] false s (by unfold Switch; decide)
      (pair_listing _ _ _ (by decide) (fun n => by show n ∈ [_, _, _] ↔ _; simp only [List.mem_cons, List.not_mem_nil, or_false]))
      (pair_listing _ _ _ (by decide) (fun n => by show n ∈ [_, _, _] ↔ _; simp only [List.mem_cons, List.not_mem_nil, or_false]; tauto))
      ⟨by unfold Given; decide, by unfold Switch; decide, "OFF".toList, .off, s, false, by unfold Given; decide, by decide, h4, by unfold Switch; decide, by simp, fun _ => rfl⟩
      (by unfold Switch; decide) (by unfold Given; decide) (by unfold Given; decide) ⟨fun n => ?_, Or.inr ⟨by decide, by decide⟩⟩ ?_ ?_
    · show pairFs _ _ [['e'], n] = none
      unfold pairFs
      simp only
      rw [if_neg (by decide)]
    · show WritableScene (s.buildings.map toyTools.ops.back) s.terrain
      rw [hb]
      refine ⟨fun m hm => little_holdable (h7 m hm), fun m hm => ?_, ?_, ?_⟩
      · rcases List.mem_cons.1 hm with rfl | hm
        · rw [h6]; unfold FileNameOk; decide
        · have : m.name ∈ [['A'], ['B']] := h5 ▸ List.mem_map_of_mem hm
          revert this
          generalize m.name = n
          intro this
          simp only [List.mem_cons, List.not_mem_nil, or_false] at this
          rcases this with rfl | rfl <;> (unfold FileNameOk; decide)
      · rw [h5]; decide
      · rw [h5]; decide
    · show s.terrain.name ∉ (s.buildings.map toyTools.ops.back).map (·.name)
      rw [hb, h5, h6]; decide

/-- The hypotheses of `C109_elsewhere_partial` are met: the example of C67, with `--scene`, listed by another iterator. -/
example (q : Path) (h1 : q ≠ (splitSlash "d/a.3ds".toList).dropLast ++ [stem (splitSlash "d/a.3ds".toList) ++ ".shp".toList])
    (h2 : q ≠ (splitSlash "d/a.3ds".toList).dropLast ++ [stem (splitSlash "d/a.3ds".toList) ++ ".tiff".toList]) :
    (orthoMain { toyTools with listing := fun _ p => if p = [['e']] then [['x']] else [] } (toyArgs true true true) toyFs).2 q = (orthoMain toyTools (toyArgs true true true) toyFs).2 q := by
  obtain ⟨total, img, r, h⟩ := toy_run
  have hl : Listing toyFs (splitSlash "d/a.3ds".toList) [] := by
    refine ⟨List.nodup_nil, fun n => ?_⟩
    show _ ↔ toyFs (["d".toList, "a.3ds".toList] ++ [n]) ≠ none
    unfold toyFs
    rw [if_neg (fun e => by have := congrArg List.length e; simp at this), if_neg (fun e => by have := congrArg List.length e; simp at this)]
    simp
  have h' : RunOk { toyTools with listing := fun _ p => if p = [['e']] then [['x']] else [] } (toyArgs true true true) toyFs "d/a.3ds".toList false true true false 1 toyScene [toyPrint] [r] total img :=
    { input := ⟨h.input.scene, h.input.terrain, h.input.input⟩
      cache := h.cache
      graphs := h.graphs
      save := h.save
      scene := h.scene
      labels := h.labels
      pixel := h.pixel
      prints := h.prints
      printNames := h.printNames
      dualsOk := h.dualsOk
      vectors := h.vectors
      sum := h.sum
      image := h.image
      images := h.images }
  exact (C109_elsewhere_partial toyTools _ _ _ _ _ _ _ _ _ _ _ _ _ _ _ _ _ _ _ hl hl h h' q h1 h2).2

end City.Props
