import Verif.Props.Scene3ds
import Verif.Props.SceneObj
/-!
C84, continued: 3DS scenes whose nodes may have the same names: exactly which parts are read, and when reading is undefined.
-/
set_option linter.unusedSectionVars false
namespace City.Spec
open City City.Props

/-- The first object node of the name `n`, each node before those below it and these before the nodes beside it, has the children `ch`. -/
def FirstCalled (g : Forest) (n : Text) (ch : Forest) : Prop := (nodesIn g).find? (fun x => x.2.1 && x.1 == n) = some (n, true, ch)

/-- Some object node has the name `n`. -/
def Called (g : Forest) (n : Text) : Prop := ∃ ch, (n, true, ch) ∈ nodesIn g

/-- The meshes are valid. -/
def GoodMeshes {L : Type} (conv : L → Mesh) (f : File3ds L) : Prop := ∀ l ∈ f.meshes, Valid (conv l) ∧ ((conv l).points = [] → (conv l).faces = [])

end City.Spec

namespace City.Props
open City Spec
variable {N L : Type}

theorem called_first {g : Forest} {n : Text} (h : Called g n) : ∃ ch, FirstCalled g n ch := by
  obtain ⟨ch, h⟩ := h
  cases e : (nodesIn g).find? (fun x => x.2.1 && x.1 == n) with
  | none =>
    have := List.find?_eq_none.1 e _ h
    simp at this
  | some y =>
    have h2 := List.find?_some e
    obtain ⟨a, b, c⟩ := y
    simp only [Bool.and_eq_true, beq_iff_eq] at h2
    obtain ⟨rfl, rfl⟩ := h2
    exact ⟨c, e⟩

theorem first_lookup {g : Forest} {n : Text} {ch : Forest} (h : FirstCalled g n ch) : T3ds.nodeByName n g = some (n, ch) := by
  rw [C34_lookup, h]
  rfl

theorem not_called {g : Forest} {n : Text} (h : ¬ Called g n) : T3ds.nodeByName n g = none := by
  rw [C34_lookup]
  have : (nodesIn g).find? (fun x => x.2.1 && x.1 == n) = none := by
    rw [List.find?_eq_none]
    intro x hx k
    obtain ⟨a, b, c⟩ := x
    simp only [Bool.and_eq_true, beq_iff_eq] at k
    obtain ⟨rfl, rfl⟩ := k
    exact h ⟨c, hx⟩
  rw [this]
  rfl

/-- The objects of several names. -/
theorem called_meshes (nm : L → Text) (conv : L → Mesh) (modes : Modes) (f : File3ds L) (types : List Char) (hr : OpenedRead modes)
    (ht : types.Nodup) (hf : GoodMeshes conv f) : ∀ ns : List Text, (∀ n ∈ ns, Called f.nodes n) →
    ∃ ms, Out.mapM (fun n => T3ds.mesh nm conv modes (some f) n types) ns = .ok ms ∧
      List.Forall₂ (fun n m => ∃ ch, FirstCalled f.nodes n ch ∧ ObjectOf nm conv f types n ch m) ns ms ∧ ∀ m ∈ ms, Valid m ∧ (m.points = [] → m.faces = []) := by
  intro ns
  induction ns with
  | nil => intro _; exact ⟨[], rfl, .nil, by simp⟩
  | cons x ns ih =>
    intro h
    obtain ⟨ms, h1, h2, h3⟩ := ih fun y hy => h y (List.mem_cons_of_mem _ hy)
    obtain ⟨ch, hc⟩ := called_first (h x List.mem_cons_self)
    obtain ⟨m, h4, h5, h6, h7, h8⟩ := C34_mesh nm conv modes f x types ch hr ht (first_lookup hc) hf
    refine ⟨m :: ms, ?_, .cons ⟨ch, hc, h5, h6, h8⟩ h2, ?_⟩
    · rw [Out.mapM_cons, h4, Out.ok_bind, h1]; rfl
    · intro y hy
      rcases List.mem_cons.1 hy with rfl | hy
      · exact ⟨h6, h7⟩
      · exact h3 y hy

/-- A name that no object node has. -/
theorem uncalled_meshes (nm : L → Text) (conv : L → Mesh) (modes : Modes) (f : File3ds L) (types : List Char) (hr : OpenedRead modes) (ht : types.Nodup) (hf : GoodMeshes conv f) :
    ∀ ns : List Text, (¬ ∀ n ∈ ns, Called f.nodes n) → Out.mapM (fun n => T3ds.mesh nm conv modes (some f) n types) ns = .ub := by
  intro ns
  induction ns with
  | nil => intro h; exact absurd (fun _ k => absurd k List.not_mem_nil) h
  | cons x ns ih =>
    intro h
    rw [Out.mapM_cons]
    by_cases hx : Called f.nodes x
    · obtain ⟨ch, hc⟩ := called_first hx
      obtain ⟨m, h4, -⟩ := C34_mesh nm conv modes f x types ch hr ht (first_lookup hc) hf
      rw [h4, Out.ok_bind, ih fun k => h (List.forall_mem_cons.2 ⟨hx, k⟩)]
      rfl
    · rw [(C34_unknown_name nm conv modes f x types hr (not_called hx)).2]
      rfl

theorem level_nodes (f : File3ds L) (rn : Text) (ro : Bool) (kids nx : Forest) (hnodes : f.nodes = .cons rn ro kids nx) :
    T3ds.getNodes (some f) 1 = .ok ((tops kids).map (·.1)) := by
  simp only [T3ds.getNodes, hnodes, T3ds.levelPasses, List.nil_append]
  rw [siblings_tops]

/-- `level_attempt` for any file whose buildings and terrain can be read. -/
theorem attempt_of (ops : NodeOps N) (lib : Libs L) (modes : Modes) (d : Path) (s x : Text) (fs : Fs) (t : Text)
    (f : File3ds L) (hs : '/' ∉ s) (hx : '.' ∉ x)
    (hr : OpenedRead modes) (hw : ¬ OpenedWrite modes) (hp : fs (d ++ [s ++ '.' :: x]) = some (.file t)) (hl : lib.load t = some f) (bs : List Mesh) (tr : Mesh)
    (h1 : T3ds.levelMeshes lib.nm lib.conv modes (some f) 1 ['F', 'T'] = .ok bs) (h3 : T3ds.levelTerrain lib.nm lib.conv modes (some f) 1 = .ok tr) :
    (∀ u doc pv ep, fs (d ++ [s ++ ".XML".toList]) = some (.file u) → lib.xml u = some doc → SceneTree.pivot lib.dbl doc = .ok pv → SceneTree.epsg lib.uns doc = .ok ep →
      ∃ sc, (do
        let file ← T3ds.construct lib.load modes (d ++ [s ++ '.' :: x]) fs
        let doc ← SceneTree.construct lib.xml (xmlPath (d ++ [s ++ '.' :: x])) fs
        t3dsSceneLevel ops lib modes file doc : Out (Scene N)) = .ok sc) ∧
    ((∀ u, fs (d ++ [s ++ ".XML".toList]) = some (.file u) → lib.xml u = none ∨ ∃ doc e, lib.xml u = some doc ∧ SceneTree.pivot lib.dbl doc = .thrown e) →
      (do
        let file ← T3ds.construct lib.load modes (d ++ [s ++ '.' :: x]) fs
        let doc ← SceneTree.construct lib.xml (xmlPath (d ++ [s ++ '.' :: x])) fs
        t3dsSceneLevel ops lib modes file doc : Out (Scene N)) = .thrown .runtimeError) := by
  have hc := construct_read hr hw hp hl
  have hxp := xmlPath_eq d s x hs hx
  constructor
  · intro u doc pv ep hu hd hpv hep
    have hcon : SceneTree.construct lib.xml (xmlPath (d ++ [s ++ '.' :: x])) fs = .ok doc := by
      unfold SceneTree.construct; rw [hxp, hu]; dsimp only; rw [hd]
    rw [hc, Out.ok_bind, hcon, Out.ok_bind]
    unfold t3dsSceneLevel
    rw [h1, Out.ok_bind, h3, Out.ok_bind, hpv, Out.ok_bind, hep, Out.ok_bind]
    exact ⟨_, rfl⟩
  · intro hno
    rw [hc, Out.ok_bind]
    unfold SceneTree.construct
    rw [hxp]
    cases hu : fs (d ++ [s ++ ".XML".toList]) with
    | none => rfl
    | some e =>
      cases e with
      | dir => rfl
      | file u =>
        dsimp only
        rcases hno u hu with h | ⟨doc, e, h, hpv⟩
        · rw [h]; rfl
        · rw [h]
          dsimp only
          rw [Out.ok_bind]
          unfold t3dsSceneLevel
          rw [h1, Out.ok_bind, h3, Out.ok_bind, hpv]
          have he : e = .runtimeError := by
            have hq : ∀ (cs : List Elem) (tag : Text) e, SceneTree.query lib.dbl cs tag = .thrown e → e = .runtimeError := by
              intro cs tag e he
              unfold SceneTree.query SceneTree.first at he
              split at he
              · rename_i el _
                rw [Out.ok_bind] at he
                cases hd : lib.dbl el with
                | some q => rw [hd] at he; cases he
                | none => rw [hd] at he; cases he; rfl
              · cases he
            have hfirst : ∀ (cs : List Elem) (tag : Text) e, SceneTree.first cs tag ≠ .thrown e := by
              intro cs tag e he
              unfold SceneTree.first at he
              split at he <;> cases he
            unfold SceneTree.pivot SceneTree.root at hpv
            rcases Out.bind_eq_thrown.1 hpv with hh | ⟨r, -, hh⟩
            · exact absurd hh (hfirst _ _ _)
            · split at hh
              · rcases Out.bind_eq_thrown.1 hh with hh | ⟨_, -, hh⟩
                · exact hq _ _ _ hh
                rcases Out.bind_eq_thrown.1 hh with hh | ⟨_, -, hh⟩
                · exact hq _ _ _ hh
                rcases Out.bind_eq_thrown.1 hh with hh | ⟨_, -, hh⟩
                · exact hq _ _ _ hh
                cases hh
              · rcases Out.bind_eq_thrown.1 hh with hh | ⟨_, -, hh⟩
                · unfold SceneTree.bbox SceneTree.root at hh
                  rcases Out.bind_eq_thrown.1 hh with hh | ⟨_, -, hh⟩
                  · exact absurd hh (hfirst _ _ _)
                  rcases Out.bind_eq_thrown.1 hh with hh | ⟨_, -, hh⟩
                  · exact absurd hh (hfirst _ _ _)
                  iterate 6
                    rcases Out.bind_eq_thrown.1 hh with hh | ⟨_, -, hh⟩
                    · exact hq _ _ _ hh
                  cases hh
                · cases hh
          rw [he]; rfl

/-- C84, format "3DS", any names: one building per node below the top node, in order. Its parts are those of the first object node of its name in the whole file, which is another node if a node
before it has the same name, and the same holds for the terrain. If a node below the top node has the name of no object node, reading is undefined. -/
theorem C84_levels_exact (ops : NodeOps N) (lib : Libs L) (rnd : ℚ → ℚ) (lf : Bool) (modes : Modes) (d : Path) (s x : Text) (names : List Text) (fs : Fs) (t : Text)
    (f : File3ds L) (rn : Text) (ro : Bool) (kids nx : Forest) (hs : '/' ∉ s) (hx : '.' ∉ x)
    (hr : OpenedRead modes) (hw : ¬ OpenedWrite modes) (hp : fs (d ++ [s ++ '.' :: x]) = some (.file t)) (hl : lib.load t = some f)
    (hf : GoodMeshes lib.conv f) (hnodes : f.nodes = .cons rn ro kids nx) :
    ((∀ x ∈ tops kids, Called f.nodes x.1) → ∃ bs tr ts, List.Forall₂ (fun x m => ∃ ch, FirstCalled f.nodes x.1 ch ∧ ObjectOf lib.nm lib.conv f ['F', 'T'] x.1 ch m) (tops kids) bs ∧
      List.Forall₂ (fun x ps => ∃ ch, FirstCalled f.nodes x.1 ch ∧
        ps.Perm ((matching lib.nm f.meshes ['M'] (postOrder (.cons x.1 true ch .nil))).flatMap fun l => polygons (lib.conv l))) (tops kids) ts ∧
      tr.name = "terrain".toList ∧ Valid tr ∧ polygons tr = ts.flatten ∧
      (∀ u doc pv ep, fs (d ++ [s ++ ".XML".toList]) = some (.file u) → lib.xml u = some doc → SceneTree.pivot lib.dbl doc = .ok pv → SceneTree.epsg lib.uns doc = .ok ep →
        sceneRead ops lib rnd lf .t3ds modes (d ++ [s ++ '.' :: x]) names fs = .ok ⟨pv, ep, bs.map fun b => ops.node b pv ep, ops.node tr pv ep⟩) ∧
      ((∀ u, fs (d ++ [s ++ ".XML".toList]) = some (.file u) → lib.xml u = none ∨ ∃ doc e, lib.xml u = some doc ∧ SceneTree.pivot lib.dbl doc = .thrown e) →
        sceneRead ops lib rnd lf .t3ds modes (d ++ [s ++ '.' :: x]) names fs = .ok ⟨⟨0, 0, 0⟩, 2154, bs.map fun b => ops.node b ⟨0, 0, 0⟩ 2154, ops.node tr ⟨0, 0, 0⟩ 2154⟩)) ∧
    ((¬ ∀ x ∈ tops kids, Called f.nodes x.1) → sceneRead ops lib rnd lf .t3ds modes (d ++ [s ++ '.' :: x]) names fs = .ub) := by
  have hc := construct_read hr hw hp hl
  have hxp := xmlPath_eq d s x hs hx
  have hnd := level_nodes f rn ro kids nx hnodes
  have hiff : (∀ x ∈ tops kids, Called f.nodes x.1) ↔ ∀ n ∈ (tops kids).map (·.1), Called f.nodes n := List.forall_mem_map.symm
  constructor
  · intro hcall
    obtain ⟨bs, b1, b2, -⟩ := called_meshes lib.nm lib.conv modes f ['F', 'T'] hr (by decide) hf _ (hiff.1 hcall)
    obtain ⟨ms, m1, m2, m3⟩ := called_meshes lib.nm lib.conv modes f ['M'] hr (by decide) hf _ (hiff.1 hcall)
    have h1 : T3ds.levelMeshes lib.nm lib.conv modes (some f) 1 ['F', 'T'] = .ok bs := by
      unfold T3ds.levelMeshes
      rw [hnd, Out.ok_bind]
      exact b1
    have hss := C12_sum ms m3
    have h3 : T3ds.levelTerrain lib.nm lib.conv modes (some f) 1 = .ok ((Mesh.sumFrom Mesh.empty ms).setName "terrain".toList) := by
      unfold T3ds.levelTerrain T3ds.levelMeshes
      rw [hnd, Out.ok_bind, m1]
      rfl
    refine ⟨bs, (Mesh.sumFrom Mesh.empty ms).setName "terrain".toList, ms.map polygons, List.forall₂_map_left_iff.1 b2, ?_, rfl, hss.2.2, ?_, ?_, ?_⟩
    · exact List.forall₂_map_right_iff.2 ((List.forall₂_map_left_iff.1 m2).imp fun _ _ ⟨ch, k1, k2⟩ => ⟨ch, k1, k2.2.2⟩)
    · show polygons (Mesh.sumFrom Mesh.empty ms) = _
      rw [hss.1, List.flatMap_def]
    · intro u doc pv ep hu hd hpv hep
      have hcon : SceneTree.construct lib.xml (xmlPath (d ++ [s ++ '.' :: x])) fs = .ok doc := by
        unfold SceneTree.construct; rw [hxp, hu]; dsimp only; rw [hd]
      unfold sceneRead
      dsimp only
      rw [hc, Out.ok_bind, hcon, Out.ok_bind]
      unfold t3dsSceneLevel
      rw [h1, Out.ok_bind, h3, Out.ok_bind, hpv, Out.ok_bind, hep, Out.ok_bind]
      rfl
    · intro hno
      have key := (attempt_of ops lib modes d s x fs t f hs hx hr hw hp hl bs _ h1 h3).2 hno
      unfold sceneRead
      dsimp only
      rw [key]
      dsimp only
      rw [if_pos (show Exc.isRuntime .runtimeError = true from rfl), hc, Out.ok_bind]
      unfold t3dsScenePlain
      rw [h1, Out.ok_bind, h3, Out.ok_bind]
      rfl
  · intro hcall
    have h1 : T3ds.levelMeshes lib.nm lib.conv modes (some f) 1 ['F', 'T'] = .ub := by
      unfold T3ds.levelMeshes
      rw [hnd, Out.ok_bind]
      exact uncalled_meshes lib.nm lib.conv modes f ['F', 'T'] hr (by decide) hf _ fun k => hcall (hiff.2 k)
    have h2 : t3dsScenePlain ops lib modes (some f) = .ub := by
      unfold t3dsScenePlain
      rw [h1]
      rfl
    have h3 : ∀ doc, t3dsSceneLevel ops lib modes (some f) doc = .ub := by
      intro doc
      unfold t3dsSceneLevel
      rw [h1]
      rfl
    unfold sceneRead
    dsimp only
    rw [hc, Out.ok_bind]
    unfold SceneTree.construct
    rcases hu : fs (xmlPath (d ++ [s ++ '.' :: x])) with _ | u | _
    · exact h2
    · dsimp only
      cases hd : lib.xml u with
      | none => exact h2
      | some doc =>
        dsimp only
        rw [Out.ok_bind, h3]
    · exact h2

/-- C84, format "3DS XML", any names: the building of each identifier that the document lists has the parts of the first object node of this name. If one of the identifiers is the name of no object
node, reading is undefined. -/
theorem C84_document_exact (ops : NodeOps N) (lib : Libs L) (rnd : ℚ → ℚ) (lf : Bool) (modes : Modes) (d : Path) (s x : Text) (names : List Text) (fs : Fs) (t u : Text) (doc : List Elem)
    (f : File3ds L) (hs : '/' ∉ s) (hx : '.' ∉ x)
    (hr : OpenedRead modes) (hw : ¬ OpenedWrite modes) (hp : fs (d ++ [s ++ '.' :: x]) = some (.file t)) (hl : lib.load t = some f)
    (hf : GoodMeshes lib.conv f) (ids : List Text) (tid : Text) (hu : fs (d ++ [s ++ ".XML".toList]) = some (.file u)) (hd : lib.xml u = some doc)
    (hids : SceneTree.buildingIds doc = .ok ids) (htid : SceneTree.terrainId doc = .ok tid) :
    (∀ pv ep, (∀ n ∈ ids, Called f.nodes n) → Called f.nodes tid → SceneTree.pivot lib.dbl doc = .ok pv → SceneTree.epsg lib.uns doc = .ok ep →
      ∃ bs tr, List.Forall₂ (fun n m => ∃ ch, FirstCalled f.nodes n ch ∧ ObjectOf lib.nm lib.conv f ['F', 'T'] n ch m) ids bs ∧ tr.name = "terrain".toList ∧ Valid tr ∧
        (∃ ch, FirstCalled f.nodes tid ch ∧ (polygons tr).Perm ((matching lib.nm f.meshes ['M'] (postOrder (.cons tid true ch .nil))).flatMap fun l => polygons (lib.conv l))) ∧
        sceneRead ops lib rnd lf .t3dsXml modes (d ++ [s ++ '.' :: x]) names fs = .ok ⟨pv, ep, bs.map fun b => ops.node b pv ep, ops.node tr pv ep⟩) ∧
    ((¬ ((∀ n ∈ ids, Called f.nodes n) ∧ Called f.nodes tid)) → sceneRead ops lib rnd lf .t3dsXml modes (d ++ [s ++ '.' :: x]) names fs = .ub) := by
  have hc := construct_read hr hw hp hl
  have hxp := xmlPath_eq d s x hs hx
  have hcon : SceneTree.construct lib.xml (xmlPath (d ++ [s ++ '.' :: x])) fs = .ok doc := by
    unfold SceneTree.construct; rw [hxp, hu]; dsimp only; rw [hd]
  unfold sceneRead
  dsimp only
  rw [hc, Out.ok_bind, hcon, Out.ok_bind]
  unfold t3dsSceneXml
  rw [hids, Out.ok_bind]
  constructor
  · intro pv ep hcall htc hpv hep
    obtain ⟨bs, b1, b2, -⟩ := called_meshes lib.nm lib.conv modes f ['F', 'T'] hr (by decide) hf ids hcall
    obtain ⟨ch, hch⟩ := called_first htc
    obtain ⟨m, m1, m2, m3, m4, m5⟩ := C34_mesh lib.nm lib.conv modes f tid ['M'] ch hr (by decide) (first_lookup hch) hf
    refine ⟨bs, m.setName "terrain".toList, b2, rfl, m3, ⟨ch, hch, m5⟩, ?_⟩
    rw [b1, Out.ok_bind, htid, Out.ok_bind, m1, Out.ok_bind, hpv, Out.ok_bind, hep, Out.ok_bind]
    rfl
  · intro hno
    by_cases hcall : ∀ n ∈ ids, Called f.nodes n
    · obtain ⟨bs, b1, -⟩ := called_meshes lib.nm lib.conv modes f ['F', 'T'] hr (by decide) hf ids hcall
      rw [b1, Out.ok_bind, htid, Out.ok_bind, (C34_unknown_name lib.nm lib.conv modes f tid ['M'] hr (not_called fun k => hno ⟨hcall, k⟩)).2]
      rfl
    · rw [uncalled_meshes lib.nm lib.conv modes f ['F', 'T'] hr (by decide) hf ids hcall]
      rfl

/-- C84: the hypotheses of `C84_levels_exact` are met by a file with two nodes of the same name, and both get the children of the first one; a node that is no object, and no other one has its
name, meets those of the second part. -/
example : GoodMeshes (fun l : Text × Mesh => l.2) twinFile ∧ (∀ x ∈ tops (.cons ['b'] true (.cons ['F', '1'] true .nil .nil) (.cons ['b'] true (.cons ['F', '2'] true .nil .nil) .nil)),
      Called twinFile.nodes x.1 ∧ FirstCalled twinFile.nodes x.1 (.cons ['F', '1'] true .nil .nil)) ∧
    ¬ Called (.cons ['r'] true (.cons ['c'] false .nil .nil) .nil) ['c'] := by
  refine ⟨by unfold GoodMeshes Valid; decide, ?_, ?_⟩
  · intro x hx
    have e : x.1 = ['b'] := by
      simp only [tops, List.mem_cons, List.not_mem_nil, or_false] at hx
      rcases hx with rfl | rfl <;> rfl
    rw [e]
    have h : FirstCalled twinFile.nodes ['b'] (.cons ['F', '1'] true .nil .nil) := rfl
    exact ⟨⟨_, List.mem_of_find?_eq_some h⟩, h⟩
  · rintro ⟨ch, h⟩
    simp [nodesIn] at h

end City.Props
