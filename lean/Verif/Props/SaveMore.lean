import Verif.Props.SaveAll
import Verif.Props.Adjacency
import Verif.Props.FileWrite
import Verif.Model.T3ds
/-!
Further theorems for C65, C68 and C82: what happens when the results of a scene cannot all be written; what the attributes file says; writing 3DS files.
-/
set_option linter.unusedSectionVars false
namespace City.Props
open City City.Spec

section
variable {K : Type} [Field K] [LinearOrder K]

/-- A directory that can neither be found nor be made: a file has its name, or it does not exist and its parent is no directory. -/
def Blocked (fs : Fs) (dir : Path) : Prop := (∃ t, fs dir = some (.file t)) ∨ (fs dir = none ∧ fs dir.dropLast ≠ some .dir)

theorem makeDir_blocked {fs : Fs} {dir : Path} (h : Blocked fs dir) : makeDir dir fs = (.thrown .filesystemError, fs) := by
  unfold makeDir
  rcases h with ⟨t, h⟩ | ⟨h, h'⟩
  · rw [h]
  · rw [h]
    exact if_neg h'

/-- C68: when the directory of the results cannot be made this is reported, and nothing is written, whatever the scene. -/
theorem C68_blocked (C : Cgal K) (G : Gdal K) (root : Path) (fs : Fs) :
    (Blocked fs (root ++ ["dual_graphs".toList]) → ∀ bs, saveBuildingDuals root bs fs = (.thrown .filesystemError, fs)) ∧
    (Blocked fs (root ++ ["vectors".toList]) → ∀ ps labels, saveBuildingPrints C G root ps labels fs = (.thrown .filesystemError, fs)) ∧
    (Blocked fs (root ++ ["rasters".toList]) → ∀ rs, saveBuildingRasters G root rs fs = (.thrown .filesystemError, fs)) := by
  refine ⟨fun h bs => ?_, fun h ps labels => ?_, fun h rs => ?_⟩
  · unfold saveBuildingDuals; rw [makeDir_blocked h]; rfl
  · unfold saveBuildingPrints; rw [makeDir_blocked h]; rfl
  · unfold saveBuildingRasters; rw [makeDir_blocked h]; rfl

theorem runAll_append : ∀ (ws vs : List Writer) (fs fs' : Fs), runAll ws fs = (.ok (), fs') → runAll (ws ++ vs) fs = runAll vs fs'
  | [], vs, fs, fs', h => by cases h; rfl
  | w :: ws, vs, fs, fs', h => by
    have e : ∀ l : List Writer, runAll (w :: l) fs = andThen (w fs) (runAll l) := fun _ => rfl
    rw [List.cons_append, e]
    rw [e] at h
    rcases hw : w fs with ⟨o, fs1⟩
    rw [hw] at h
    cases o with
    | ok u => exact runAll_append ws vs fs1 fs' h
    | thrown x => cases h
    | ub => cases h

/-- C68: the dual of a building fails: the exception is the one of `save_building_duals`; the buildings before have their duals in their files, the file of that building has what was written
before the failure, and no other file is touched: the buildings after it get nothing. -/
theorem C68_first_failure (root : Path) (bs : List (Text × Text)) (b : Text × Text) (e : Exc) (rest : List (Text × Written)) (fs : Fs)
    (hn : ((bs ++ [b]).map Prod.fst).Nodup) (hp : ∀ x ∈ bs ++ [b], PlainName x.1)
    (hr : Ready fs (root ++ ["dual_graphs".toList]) ((bs ++ [b]).map fun b => b.1 ++ ".txt".toList)) :
    ∃ fs', saveBuildingDuals root (bs.map (fun b => (b.1, b.2, .ok ())) ++ (b.1, b.2, .thrown e) :: rest) fs = (.thrown e, fs') ∧
      fs' (root ++ ["dual_graphs".toList]) = some .dir ∧
      (∀ x ∈ bs ++ [b], fs' (root ++ ["dual_graphs".toList, x.1 ++ ".txt".toList]) = some (.file x.2)) ∧
      (∀ q, q ≠ root ++ ["dual_graphs".toList] → (∀ x ∈ bs ++ [b], q ≠ root ++ ["dual_graphs".toList, x.1 ++ ".txt".toList]) → fs' q = fs q) := by
  have hn1 : (bs.map Prod.fst).Nodup := by
    rw [List.map_append, List.nodup_append] at hn; exact hn.1
  have hb : ∀ x ∈ bs, x.1 ≠ b.1 := by
    intro x hx
    rw [List.map_append, List.nodup_append] at hn
    exact hn.2.2 x.1 (List.mem_map_of_mem hx) b.1 (by simp)
  obtain ⟨fs1, h1, h2, h3, h4⟩ := C68_duals_partial root bs fs hn1 (fun x hx => hp x (List.mem_append_left _ hx))
    ⟨hr.dir_ok, fun n hm => hr.no_dir n (by rw [List.map_append]; exact List.mem_append_left _ hm)⟩
  have hpath : joinPath (root ++ ["dual_graphs".toList]) (b.1 ++ ".txt".toList) = root ++ ["dual_graphs".toList, b.1 ++ ".txt".toList] := by
    rw [joinPath_plain (plain_ext (hp b (by simp)) (show PlainName ".txt".toList by unfold PlainName; decide))]
    simp
  have hne : ∀ x ∈ bs, root ++ ["dual_graphs".toList, b.1 ++ ".txt".toList] ≠ root ++ ["dual_graphs".toList, x.1 ++ ".txt".toList] := by
    intro x hx he
    have h5 := List.append_cancel_left he
    injection h5 with _ h5
    injection h5 with h5
    exact hb x hx (List.append_cancel_right h5).symm
  have hcan : fs1.canWrite (root ++ ["dual_graphs".toList, b.1 ++ ".txt".toList]) = true := by
    rw [canWrite_iff]
    have hold := h4 (root ++ ["dual_graphs".toList, b.1 ++ ".txt".toList]) (by intro he; have := congrArg List.length he; simp at this) hne
    have hnd := hr.no_dir (b.1 ++ ".txt".toList) (by simp)
    have hcons : root ++ ["dual_graphs".toList] ++ [b.1 ++ ".txt".toList] = root ++ ["dual_graphs".toList, b.1 ++ ".txt".toList] := by simp
    rw [hcons] at hnd
    unfold Writable
    cases hc : fs1 (root ++ ["dual_graphs".toList, b.1 ++ ".txt".toList]) with
    | none => exact Or.inr ⟨rfl, root ++ ["dual_graphs".toList], b.1 ++ ".txt".toList, hcons.symm, h2⟩
    | some x =>
      cases x with
      | file t => exact Or.inl ⟨t, rfl⟩
      | dir => rw [hc] at hold; exact absurd hold.symm hnd
  refine ⟨fs1.set (root ++ ["dual_graphs".toList, b.1 ++ ".txt".toList]) (.file b.2), ?_, ?_, ?_, ?_⟩
  · unfold saveBuildingDuals at h1 ⊢
    rcases hd : makeDir (root ++ ["dual_graphs".toList]) fs with ⟨o, fs0⟩
    rw [hd] at h1
    cases o with
    | thrown x => cases h1
    | ub => cases h1
    | ok u =>
      have h1' : runAll ((bs.map fun b => (b.1, b.2, (.ok () : Out Unit))).map fun b => streamPut (joinPath (root ++ ["dual_graphs".toList]) (b.1 ++ ".txt".toList)) b.2) fs0 = (.ok (), fs1) := h1
      show runAll _ fs0 = _
      rw [List.map_append, runAll_append _ _ _ _ h1', List.map_cons]
      show andThen (streamPut (joinPath (root ++ ["dual_graphs".toList]) (b.1 ++ ".txt".toList)) (b.2, .thrown e) fs1) _ = _
      rw [hpath]
      unfold streamPut Fs.put
      rw [if_pos hcan]
      rfl
  · have : root ++ ["dual_graphs".toList] ≠ root ++ ["dual_graphs".toList, b.1 ++ ".txt".toList] := by
      intro he; have := congrArg List.length he; simp at this
    unfold Fs.set
    rw [if_neg this]
    exact h2
  · intro x hx
    rcases List.mem_append.1 hx with hx | hx
    · unfold Fs.set
      rw [if_neg (fun he => hne x hx he.symm)]
      exact h3 x hx
    · rw [List.mem_singleton] at hx
      subst hx
      exact if_pos rfl
  · intro q hq hq'
    unfold Fs.set
    rw [if_neg (hq' b (by simp))]
    exact h4 q hq (fun x hx => hq' x (List.mem_append_left _ hx))

/-- Two duals, the second of which fails: the hypotheses of C68_first_failure hold. -/
example : Ready oneDir (["d".toList] ++ ["dual_graphs".toList]) (([("a".toList, "x".toList)] ++ [("b".toList, "y".toList)]).map fun b : Text × Text => b.1 ++ ".txt".toList) ∧
    ((([("a".toList, "x".toList)] ++ [("b".toList, "y".toList)]) : List (Text × Text)).map Prod.fst).Nodup ∧ Blocked oneDir ["e".toList, "vectors".toList] :=
  ⟨⟨Or.inr (by decide), by decide⟩, by decide, Or.inr ⟨by decide, by decide⟩⟩

/-- C68: the attributes file has two lines of numbers, each followed by a blank: the areas of the faces, in order; then the lengths of the edges of the outer boundaries of the union of the
faces. -/
theorem C68_attributes (C : Cgal K) (G : Gdal K) (f : FootPrint K) :
    ∃ l₁ l₂, attributesText C G f = l₁ ++ '\n' :: (l₂ ++ ['\n']) ∧
      l₁ = f.brick.faces.flatMap (fun a => G.num (a.area C) ++ [' ']) ∧
      l₂ = (C.pieces (f.brick.faces.foldl (fun s a => C.join s a.border) C.emptySet)).flatMap (fun q => (q.outer.zip (q.outer.rotate 1)).flatMap fun e => G.num (G.len e) ++ [' ']) := by
  refine ⟨_, _, ?_, rfl, rfl⟩
  unfold attributesText numLine Brick.areas Brick.edgeLengths Brick.joinAll
  rw [List.map_map, List.map_flatMap, List.append_assoc]
  have e : ∀ q : Pwh K, (polyEdges q.outer).map G.len = (q.outer.zip (q.outer.rotate 1)).map G.len := by
    intro q
    congr 1
    cases q.outer with
    | nil => rfl
    | cons a t => simp [polyEdges]
  simp only [e, List.map_map, List.flatMap_def, List.flatten_flatten, List.flatten_append, List.map_flatten]
  rfl

/-- C65: when the attributes of a facet cannot be written this is reported, and the lines of the facets before it have been written. -/
theorem C65_failure (S : Surf K) (attr : Nat → Out Text) (before after : List Nat) (f : Nat) (text : Nat → Text) (e : Exc)
    (hs : S.fs = before ++ f :: after) (hb : ∀ g ∈ before, attr g = .ok (text g)) (hf : attr f = .thrown e) :
    dualText attr S = (before.flatMap fun g => text g ++ ['\n'], .thrown e) := by
  have hl : facetLines attr S.fs = (before.flatMap fun g => text g ++ ['\n'], .thrown e) := by
    rw [hs]
    clear hs
    induction before with
    | nil => simp only [List.nil_append, facetLines, hf, List.flatMap_nil]
    | cons g before ih =>
      rw [List.cons_append]
      simp only [facetLines, hb g (by simp), ih (fun x hx => hb x (by simp [hx])), List.flatMap_cons, List.append_assoc, List.cons_append, List.nil_append]
  unfold dualText
  rw [hl]

end

/-- C82 (partial): 3DS files: `enc` is what lib3ds makes of the meshes. A handler opened for writing returns; the file holds this text if it can be written, and nothing changed otherwise;
without any mesh the behaviour is undefined; when the conversion throws, nothing is written. -/
theorem C82_3ds_partial (enc : List Mesh → Out Text) (modes : Modes) (p : Path) (ms : List Mesh) (fs : Fs) (h : OpenedWrite modes) :
    (ms = [] → (T3ds.writeMeshes enc modes p ms fs).1 = .ub) ∧
    (∀ t, ms ≠ [] → enc ms = .ok t → (T3ds.writeMeshes enc modes p ms fs).1 = .ok () ∧
      (Writable fs p → (T3ds.writeMeshes enc modes p ms fs).2 p = some (.file t) ∧ ∀ q, q ≠ p → (T3ds.writeMeshes enc modes p ms fs).2 q = fs q) ∧
      (¬ Writable fs p → (T3ds.writeMeshes enc modes p ms fs).2 = fs)) ∧
    (∀ e, ms ≠ [] → enc ms = .thrown e → T3ds.writeMeshes enc modes p ms fs = (.thrown e, fs)) := by
  rw [← canWrite_iff]
  unfold T3ds.writeMeshes
  rw [if_pos (canSave_iff.2 h)]
  refine ⟨fun he => by rw [if_pos he], fun t hne ht => ?_, fun e hne he => by rw [if_neg hne, he]⟩
  rw [if_neg hne, ht]
  dsimp only
  unfold Fs.put
  refine ⟨rfl, fun hw => ?_, fun hw => ?_⟩
  · rw [if_pos hw]
    exact ⟨if_pos rfl, fun q hq => if_neg hq⟩
  · rw [if_neg hw]

end City.Props
