import Verif.Props.T3ds
import Verif.Props.Handlers
import Verif.Props.Extension
/-!
Property C84: what is read from a 3DS file as a scene.
-/
namespace City.Spec
open City

/-- The forest has, somewhere, a node of this name and kind with these children. -/
inductive HasNode : Forest → Text → Bool → Forest → Prop
  | here (n : Text) (o : Bool) (ch nx : Forest) : HasNode (.cons n o ch nx) n o ch
  | under {ch : Forest} {n : Text} {o : Bool} {c : Forest} (m : Text) (b : Bool) (nx : Forest) : HasNode ch n o c → HasNode (.cons m b ch nx) n o c
  | next {nx : Forest} {n : Text} {o : Bool} {c : Forest} (m : Text) (b : Bool) (ch : Forest) : HasNode nx n o c → HasNode (.cons m b ch nx) n o c

/-- The first nodes of the trees of a forest, with their kind and their children. -/
def tops : Forest → List (Text × Bool × Forest)
  | .nil => []
  | .cons n o ch nx => (n, o, ch) :: tops nx

/-- `m` is the object of the node `n` with children `ch`: its name, and all the polygons of the parts of the tree of `n` whose name begins with one of the letters. -/
def ObjectOf {L : Type} (nm : L → Text) (conv : L → Mesh) (f : File3ds L) (types : List Char) (n : Text) (ch : Forest) (m : Mesh) : Prop :=
  m.name = n ∧ Valid m ∧ (polygons m).Perm ((matching nm f.meshes types (postOrder (.cons n true ch .nil))).flatMap fun l => polygons (conv l))

/-- A 3DS file that can be looked up by names: all nodes have different names, and the meshes are valid. -/
structure Readable3ds {L : Type} (conv : L → Mesh) (f : File3ds L) : Prop where
  names : (postOrder f.nodes).Nodup
  meshes : ∀ l ∈ f.meshes, Valid (conv l) ∧ ((conv l).points = [] → (conv l).faces = [])

end City.Spec

namespace City.Props
open City Spec
variable {N L : Type}

theorem hasNode_mem {g : Forest} {n : Text} {o : Bool} {c : Forest} (h : HasNode g n o c) : n ∈ postOrder g := by
  induction h with
  | here n o ch nx => simp [postOrder]
  | under m b nx _ ih => simp [postOrder, ih]
  | next m b ch _ ih => simp [postOrder, ih]

theorem nodeByName_none {g : Forest} {n : Text} (h : n ∉ postOrder g) : T3ds.nodeByName n g = none := by
  induction g with
  | nil => rfl
  | cons m o ch nx ihc ihn =>
    simp only [postOrder, List.mem_append, List.mem_cons, not_or] at h
    unfold T3ds.nodeByName
    rw [if_neg (by simp; intro _ hh; exact h.2.1 hh.symm), ihc h.1, ihn h.2.2]
    rfl

theorem nodeByName_of {g : Forest} {n : Text} {c : Forest} (hn : (postOrder g).Nodup) (h : HasNode g n true c) :
    T3ds.nodeByName n g = some (n, c) := by
  generalize ho : true = o at h
  induction h with
  | here n o ch nx => subst ho; unfold T3ds.nodeByName; simp
  | @under ch n o c m b nx h ih =>
    have hm := hasNode_mem h
    simp only [postOrder] at hn
    rw [List.nodup_append] at hn
    unfold T3ds.nodeByName
    rw [if_neg, ih hn.1 ho]
    · rfl
    · simp only [Bool.and_eq_true, beq_iff_eq, not_and]
      intro _ he
      exact hn.2.2 n hm m (by simp) he.symm
  | @next nx n o c m b ch h ih =>
    have hm := hasNode_mem h
    simp only [postOrder] at hn
    rw [List.nodup_append] at hn
    obtain ⟨h1, h2, h3⟩ := hn
    rw [List.nodup_cons] at h2
    unfold T3ds.nodeByName
    rw [if_neg, ih h2.2 ho, nodeByName_none]
    · rfl
    · intro hc; exact h3 n hc n (by simp [hm]) rfl
    · simp only [Bool.and_eq_true, beq_iff_eq, not_and]
      intro _ he
      exact h2.1 (he ▸ hm)

theorem hasNode_tops {g : Forest} {x : Text × Bool × Forest} (h : x ∈ tops g) : HasNode g x.1 x.2.1 x.2.2 := by
  induction g with
  | nil => simp [tops] at h
  | cons n o ch nx _ ih =>
    rcases List.mem_cons.1 h with rfl | h
    · exact .here _ _ _ _
    · exact .next _ _ _ (ih h)

theorem siblings_tops (g : Forest) : T3ds.siblings g = (tops g).map (·.1) := by
  induction g with
  | nil => rfl
  | cons n o ch nx _ ih => rw [T3ds.siblings, tops, List.map_cons, ih]

theorem object_mesh (nm : L → Text) (conv : L → Mesh) (modes : Modes) (f : File3ds L) (types : List Char) (hr : OpenedRead modes)
    (ht : types.Nodup) (hf : Readable3ds conv f) (n : Text) (ch : Forest) (hn : HasNode f.nodes n true ch) :
    ∃ m, T3ds.mesh nm conv modes (some f) n types = .ok m ∧ ObjectOf nm conv f types n ch m ∧ (m.points = [] → m.faces = []) := by
  obtain ⟨m, h1, h2, h3, h4, h5⟩ := C34_mesh nm conv modes f n types ch hr ht (nodeByName_of hf.names hn) hf.meshes
  exact ⟨m, h1, ⟨h2, h3, h5⟩, h4⟩

/-- The same for several nodes. -/
theorem object_meshes (nm : L → Text) (conv : L → Mesh) (modes : Modes) (f : File3ds L) (types : List Char) (hr : OpenedRead modes)
    (ht : types.Nodup) (hf : Readable3ds conv f) : ∀ ns : List (Text × Forest), (∀ x ∈ ns, HasNode f.nodes x.1 true x.2) →
    ∃ ms, Out.mapM (fun n => T3ds.mesh nm conv modes (some f) n types) (ns.map (·.1)) = .ok ms ∧
      List.Forall₂ (fun x m => ObjectOf nm conv f types x.1 x.2 m) ns ms ∧ ∀ m ∈ ms, Valid m ∧ (m.points = [] → m.faces = []) := by
  intro ns
  induction ns with
  | nil => intro _; exact ⟨[], rfl, .nil, by simp⟩
  | cons x ns ih =>
    intro h
    obtain ⟨ms, h1, h2, h3⟩ := ih fun y hy => h y (List.mem_cons_of_mem _ hy)
    obtain ⟨m, h4, h5, h6⟩ := object_mesh nm conv modes f types hr ht hf x.1 x.2 (h x List.mem_cons_self)
    refine ⟨m :: ms, ?_, .cons h5 h2, ?_⟩
    · rw [List.map_cons, Out.mapM_cons, h4, Out.ok_bind, h1]; rfl
    · intro y hy
      rcases List.mem_cons.1 hy with rfl | hy
      · exact ⟨h5.2.1, h6⟩
      · exact h3 y hy

theorem level_one (nm : L → Text) (conv : L → Mesh) (modes : Modes) (f : File3ds L) (types : List Char) (hr : OpenedRead modes)
    (ht : types.Nodup) (hf : Readable3ds conv f) (rn : Text) (ro : Bool) (kids nx : Forest) (hnodes : f.nodes = .cons rn ro kids nx)
    (hk : ∀ x ∈ tops kids, x.2.1 = true) :
    ∃ ms, T3ds.levelMeshes nm conv modes (some f) 1 types = .ok ms ∧
      List.Forall₂ (fun x m => ObjectOf nm conv f types x.1 x.2.2 m) (tops kids) ms ∧ ∀ m ∈ ms, Valid m ∧ (m.points = [] → m.faces = []) := by
  obtain ⟨ms, h1, h2, h3⟩ := object_meshes nm conv modes f types hr ht hf ((tops kids).map fun x => (x.1, x.2.2)) (by
    intro y hy
    obtain ⟨x, hx, rfl⟩ := List.mem_map.1 hy
    rw [hnodes]
    have := hasNode_tops hx
    rw [hk x hx] at this
    exact .under _ _ _ this)
  refine ⟨ms, ?_, (List.forall₂_map_left_iff.1 h2), h3⟩
  unfold T3ds.levelMeshes
  have : T3ds.getNodes (some f) 1 = .ok ((tops kids).map (·.1)) := by
    simp only [T3ds.getNodes, hnodes, T3ds.levelPasses, List.nil_append]
    rw [siblings_tops]
  rw [this, Out.ok_bind]
  rw [List.map_map] at h1
  exact h1

theorem forall₂_flatMap_perm {α β γ : Type} {R : α → β → Prop} {f : α → List γ} {g : β → List γ} (h : ∀ a b, R a b → (g b).Perm (f a)) :
    ∀ {l : List α} {m : List β}, List.Forall₂ R l m → (m.flatMap g).Perm (l.flatMap f) := by
  intro l m hl
  induction hl with
  | nil => exact .refl _
  | cons hx _ ih => rw [List.flatMap_cons, List.flatMap_cons]; exact (h _ _ hx).append ih

theorem level_terrain (nm : L → Text) (conv : L → Mesh) (modes : Modes) (f : File3ds L) (hr : OpenedRead modes)
    (hf : Readable3ds conv f) (rn : Text) (ro : Bool) (kids nx : Forest) (hnodes : f.nodes = .cons rn ro kids nx)
    (hk : ∀ x ∈ tops kids, x.2.1 = true) :
    ∃ t, T3ds.levelTerrain nm conv modes (some f) 1 = .ok t ∧ t.name = "terrain".toList ∧ Valid t ∧
      (polygons t).Perm ((tops kids).flatMap fun x => (matching nm f.meshes ['M'] (postOrder (.cons x.1 true x.2.2 .nil))).flatMap fun l => polygons (conv l)) := by
  obtain ⟨ms, h1, h2, h3⟩ := level_one nm conv modes f ['M'] hr (by decide) hf rn ro kids nx hnodes hk
  have hs := C12_sum ms h3
  refine ⟨(Mesh.sumFrom Mesh.empty ms).setName "terrain".toList, ?_, rfl, hs.2.2, ?_⟩
  · unfold T3ds.levelTerrain; rw [h1]; rfl
  · show (polygons (Mesh.sumFrom Mesh.empty ms)).Perm _
    rw [hs.1]
    exact forall₂_flatMap_perm (fun a b h => h.2.2) h2

theorem xmlPath_eq (d : Path) (s x : Text) (hs : '/' ∉ s) (hx : '.' ∉ x) : xmlPath (d ++ [s ++ '.' :: x]) = d ++ [s ++ ".XML".toList] := by
  have hst : stem (d ++ [s ++ '.' :: x]) = s := by
    have hf : fileName (d ++ [s ++ '.' :: x]) = s ++ '.' :: x := by simp [fileName]
    unfold stem
    rw [hf]
    rcases splitExt_spec (s ++ '.' :: x) with ⟨s', x', h1, h2, h3⟩ | ⟨h1, -⟩
    · rw [h3]
      have h4 := congrArg (fun l => l.reverse.dropWhile (fun c => c != '.')) h1
      simp only [List.reverse_append, List.reverse_cons, List.append_assoc, List.singleton_append] at h4
      rw [List.dropWhile_append_of_pos, List.dropWhile_append_of_pos] at h4
      · simpa using h4.symm
      · intro c hc; simp only [bne_iff_ne, ne_eq]; rintro rfl; exact h2 (List.mem_reverse.1 hc)
      · intro c hc; simp only [bne_iff_ne, ne_eq]; rintro rfl; exact hx (List.mem_reverse.1 hc)
    · exact absurd (by simp) h1
  unfold xmlPath joinPath
  rw [hst, List.dropLast_concat]
  congr 1
  have : ∀ t : Text, '/' ∉ t → splitSlash t = [t] := by
    intro t
    induction t with
    | nil => intro _; rfl
    | cons c t ih =>
      intro h
      simp only [List.mem_cons, not_or] at h
      unfold splitSlash
      rw [if_neg (fun hh => h.1 hh.symm), ih h.2]
  apply this
  rw [List.mem_append, not_or]
  exact ⟨hs, by decide⟩

/-- C84 (full statement, false of the code): reading a scene from an existing 3DS file gives a scene or throws. -/
def C84_full : Prop :=
  ∀ (N L : Type) (ops : NodeOps N) (lib : Libs L) (rnd : ℚ → ℚ) (lf : Bool) (fmt : SceneFormat) (modes : Modes) (p : Path) (fs : Fs) (t : Text),
    OpenedRead modes → fs p = some (.file t) → fmt = .t3ds ∨ fmt = .t3dsXml → sceneRead ops lib rnd lf fmt modes p [] fs ≠ .ub

/-- C84 refuted: a file that lib3ds cannot load is a null pointer, which is dereferenced. -/
theorem C84_refuted : ¬ C84_full := by
  intro h
  let lib : Libs Unit := ⟨fun _ => none, fun _ => [], fun _ => Mesh.empty, fun _ => none, fun _ => none, fun _ => none⟩
  let modes : Modes := fun k => if k = "read".toList then some true else none
  refine h Unit Unit ⟨fun _ _ _ => (), fun _ => Mesh.empty⟩ lib id true .t3ds modes [['a']] (fun q => if q = [['a']] then some (.file []) else none) []
    (by simp [OpenedRead, modes]) (by simp) (Or.inl rfl) ?_
  have hr : canRead modes = true := by decide
  have hw : canSave modes = false := by decide
  have hx : xmlPath [['a']] = [['a', '.', 'X', 'M', 'L']] := by decide
  simp [sceneRead, T3ds.construct, hr, hw, SceneTree.construct, hx, Exc.isRuntime, t3dsScenePlain, T3ds.levelMeshes, T3ds.getNodes, lib]

theorem construct_read {load : Text → Option (File3ds L)} {modes : Modes} {p : Path} {fs : Fs} {t : Text} {f : File3ds L} (hr : OpenedRead modes)
    (hw : ¬ OpenedWrite modes) (hp : fs p = some (.file t)) (hl : load t = some f) : T3ds.construct load modes p fs = .ok (some f) := by
  unfold T3ds.construct
  rw [canRead_iff.2 hr, not_canSave hw, hp]
  simp [hl]

/-- The first attempt to read a scene in the format 3DS: it ends well with a document that states the position and the code, and throws runtime_error without such a document. -/
theorem level_attempt (ops : NodeOps N) (lib : Libs L) (modes : Modes) (d : Path) (s x : Text) (fs : Fs) (t : Text)
    (f : File3ds L) (rn : Text) (ro : Bool) (kids nx : Forest) (hs : '/' ∉ s) (hx : '.' ∉ x)
    (hr : OpenedRead modes) (hw : ¬ OpenedWrite modes) (hp : fs (d ++ [s ++ '.' :: x]) = some (.file t)) (hl : lib.load t = some f)
    (hf : Readable3ds lib.conv f) (hnodes : f.nodes = .cons rn ro kids nx) (hk : ∀ x ∈ tops kids, x.2.1 = true) :
    (∀ u doc pv ep, fs (d ++ [s ++ ".XML".toList]) = some (.file u) → lib.xml u = some doc → SceneTree.pivot lib.dbl doc = .ok pv → SceneTree.epsg lib.uns doc = .ok ep →
      ∃ sc, (do
        let file ← T3ds.construct lib.load modes (d ++ [s ++ '.' :: x]) fs
        let doc ← SceneTree.construct lib.xml (xmlPath (d ++ [s ++ '.' :: x])) fs
        t3dsSceneLevel ops lib modes file doc : Out (Scene N)) = .ok sc) ∧
    ((∀ u, fs (d ++ [s ++ ".XML".toList]) = some (.file u) → lib.xml u = none ∨ ∃ doc e, lib.xml u = some doc ∧ SceneTree.pivot lib.dbl doc = .thrown e) →
      (do
        let file ← T3ds.construct lib.load modes (d ++ [s ++ '.' :: x]) fs
        let doc ← SceneTree.construct lib.xml (xmlPath (d ++ [s ++ '.' :: x])) fs
        t3dsSceneLevel ops lib modes file doc : Out (Scene N)) = .thrown .runtimeError) := by
  obtain ⟨bs, h1, h2, -⟩ := level_one lib.nm lib.conv modes f ['F', 'T'] hr (by decide) hf rn ro kids nx hnodes hk
  obtain ⟨tr, h3, h4, h5, h6⟩ := level_terrain lib.nm lib.conv modes f hr hf rn ro kids nx hnodes hk
  have hc := construct_read hr hw hp hl
  have hxp := xmlPath_eq d s x hs hx
  constructor
  · intro u doc pv ep hu hd hpv hep
    have hcon : SceneTree.construct lib.xml (xmlPath (d ++ [s ++ '.' :: x])) fs = .ok doc := by
      unfold SceneTree.construct; rw [hxp, hu]; dsimp only; rw [hd]
    rw [hc, Out.ok_bind, hcon, Out.ok_bind]
    unfold t3dsSceneLevel
    rw [h1, Out.ok_bind, h3, Out.ok_bind, hpv, Out.ok_bind, hep, Out.ok_bind]
    exact ⟨_, rfl⟩
  · intro hno
    rw [hc, Out.ok_bind]
    unfold SceneTree.construct
    rw [hxp]
    cases hu : fs (d ++ [s ++ ".XML".toList]) with
    | none => rfl
    | some e =>
      cases e with
      | dir => rfl
      | file u =>
        dsimp only
        rcases hno u hu with h | ⟨doc, e, h, hpv⟩
        · rw [h]; rfl
        · rw [h]
          dsimp only
          rw [Out.ok_bind]
          unfold t3dsSceneLevel
          rw [h1, Out.ok_bind, h3, Out.ok_bind, hpv]
          have he : e = .runtimeError := by
            have hq : ∀ (cs : List Elem) (tag : Text) e, SceneTree.query lib.dbl cs tag = .thrown e → e = .runtimeError := by
              intro cs tag e he
              unfold SceneTree.query SceneTree.first at he
              split at he
              · rename_i el _
                rw [Out.ok_bind] at he
                cases hd : lib.dbl el with
                | some q => rw [hd] at he; cases he
                | none => rw [hd] at he; cases he; rfl
              · cases he
            have hfirst : ∀ (cs : List Elem) (tag : Text) e, SceneTree.first cs tag ≠ .thrown e := by
              intro cs tag e he
              unfold SceneTree.first at he
              split at he <;> cases he
            unfold SceneTree.pivot SceneTree.root at hpv
            rcases Out.bind_eq_thrown.1 hpv with hh | ⟨r, -, hh⟩
            · exact absurd hh (hfirst _ _ _)
            · split at hh
              · rcases Out.bind_eq_thrown.1 hh with hh | ⟨_, -, hh⟩
                · exact hq _ _ _ hh
                rcases Out.bind_eq_thrown.1 hh with hh | ⟨_, -, hh⟩
                · exact hq _ _ _ hh
                rcases Out.bind_eq_thrown.1 hh with hh | ⟨_, -, hh⟩
                · exact hq _ _ _ hh
                cases hh
              · rcases Out.bind_eq_thrown.1 hh with hh | ⟨_, -, hh⟩
                · unfold SceneTree.bbox SceneTree.root at hh
                  rcases Out.bind_eq_thrown.1 hh with hh | ⟨_, -, hh⟩
                  · exact absurd hh (hfirst _ _ _)
                  rcases Out.bind_eq_thrown.1 hh with hh | ⟨_, -, hh⟩
                  · exact absurd hh (hfirst _ _ _)
                  iterate 6
                    rcases Out.bind_eq_thrown.1 hh with hh | ⟨_, -, hh⟩
                    · exact hq _ _ _ hh
                  cases hh
                · cases hh
          rw [he]; rfl

/-- C84 (partial), format "3DS": the file `s.x` of directory `d`, opened for reading only, loaded as `f`, whose first top node has the object nodes `kids` below it. One building
per node below the top node, in order, with the name of the node and all the polygons of the parts F and T of its tree; one terrain with all the polygons of the parts M.
Position and code are those of the document `s.XML` beside it if there is one that states them; without such a document, or if a number in it cannot be read, they
are (0, 0, 0) and 2154.
Missing from the full property: files that cannot be loaded, names used twice, documents without the elements looked for (undefined, see C84_refuted, C84_refuted_names). -/
theorem C84_levels_partial (ops : NodeOps N) (lib : Libs L) (rnd : ℚ → ℚ) (lf : Bool) (modes : Modes) (d : Path) (s x : Text) (names : List Text) (fs : Fs) (t : Text)
    (f : File3ds L) (rn : Text) (ro : Bool) (kids nx : Forest) (hs : '/' ∉ s) (hx : '.' ∉ x)
    (hr : OpenedRead modes) (hw : ¬ OpenedWrite modes) (hp : fs (d ++ [s ++ '.' :: x]) = some (.file t)) (hl : lib.load t = some f)
    (hf : Readable3ds lib.conv f) (hnodes : f.nodes = .cons rn ro kids nx) (hk : ∀ x ∈ tops kids, x.2.1 = true) :
    ∃ bs tr, List.Forall₂ (fun x m => ObjectOf lib.nm lib.conv f ['F', 'T'] x.1 x.2.2 m) (tops kids) bs ∧ tr.name = "terrain".toList ∧ Valid tr ∧
      (polygons tr).Perm ((tops kids).flatMap fun x => (matching lib.nm f.meshes ['M'] (postOrder (.cons x.1 true x.2.2 .nil))).flatMap fun l => polygons (lib.conv l)) ∧
      (∀ u doc pv ep, fs (d ++ [s ++ ".XML".toList]) = some (.file u) → lib.xml u = some doc → SceneTree.pivot lib.dbl doc = .ok pv → SceneTree.epsg lib.uns doc = .ok ep →
        sceneRead ops lib rnd lf .t3ds modes (d ++ [s ++ '.' :: x]) names fs = .ok ⟨pv, ep, bs.map fun b => ops.node b pv ep, ops.node tr pv ep⟩) ∧
      ((∀ u, fs (d ++ [s ++ ".XML".toList]) = some (.file u) → lib.xml u = none ∨ ∃ doc e, lib.xml u = some doc ∧ SceneTree.pivot lib.dbl doc = .thrown e) →
        sceneRead ops lib rnd lf .t3ds modes (d ++ [s ++ '.' :: x]) names fs = .ok ⟨⟨0, 0, 0⟩, 2154, bs.map fun b => ops.node b ⟨0, 0, 0⟩ 2154, ops.node tr ⟨0, 0, 0⟩ 2154⟩) := by
  obtain ⟨bs, h1, h2, -⟩ := level_one lib.nm lib.conv modes f ['F', 'T'] hr (by decide) hf rn ro kids nx hnodes hk
  obtain ⟨tr, h3, h4, h5, h6⟩ := level_terrain lib.nm lib.conv modes f hr hf rn ro kids nx hnodes hk
  have hc := construct_read hr hw hp hl
  have hxp := xmlPath_eq d s x hs hx
  refine ⟨bs, tr, h2, h4, h5, h6, ?_, ?_⟩
  · intro u doc pv ep hu hd hpv hep
    have hcon : SceneTree.construct lib.xml (xmlPath (d ++ [s ++ '.' :: x])) fs = .ok doc := by
      unfold SceneTree.construct; rw [hxp, hu]; dsimp only; rw [hd]
    unfold sceneRead
    dsimp only
    rw [hc, Out.ok_bind, hcon, Out.ok_bind]
    unfold t3dsSceneLevel
    rw [h1, Out.ok_bind, h3, Out.ok_bind, hpv, Out.ok_bind, hep, Out.ok_bind]
    rfl
  · intro hno
    have hplain : t3dsScenePlain ops lib modes (some f) = .ok ⟨⟨0, 0, 0⟩, 2154, bs.map fun b => ops.node b ⟨0, 0, 0⟩ 2154, ops.node tr ⟨0, 0, 0⟩ 2154⟩ := by
      unfold t3dsScenePlain
      rw [h1, Out.ok_bind, h3, Out.ok_bind]
      rfl
    have key := (level_attempt ops lib modes d s x fs t f rn ro kids nx hs hx hr hw hp hl hf hnodes hk).2 hno
    unfold sceneRead
    dsimp only
    rw [key]
    dsimp only
    rw [if_pos (show Exc.isRuntime .runtimeError = true from rfl), hc, Out.ok_bind]
    exact hplain

/-- C84 (partial), format "3DS XML": the buildings are those the document `s.XML` lists, in its order, each with the polygons of the parts F and T of the tree of
the node of its identifier; the terrain those of the parts M of the tree of the relief, under the name terrain; position and code are those of the document. Without a
document runtime_error is thrown.
Missing from the full property: files that cannot be loaded, names used twice, documents without the elements looked for or naming unknown nodes. -/
theorem C84_document_partial (ops : NodeOps N) (lib : Libs L) (rnd : ℚ → ℚ) (lf : Bool) (modes : Modes) (d : Path) (s x : Text) (names : List Text) (fs : Fs) (t : Text)
    (f : File3ds L) (hs : '/' ∉ s) (hx : '.' ∉ x)
    (hr : OpenedRead modes) (hw : ¬ OpenedWrite modes) (hp : fs (d ++ [s ++ '.' :: x]) = some (.file t)) (hl : lib.load t = some f)
    (hf : Readable3ds lib.conv f) :
    (∀ u doc pv ep (ids : List (Text × Forest)) tid tch, fs (d ++ [s ++ ".XML".toList]) = some (.file u) → lib.xml u = some doc →
      SceneTree.buildingIds doc = .ok (ids.map (·.1)) → (∀ y ∈ ids, HasNode f.nodes y.1 true y.2) →
      SceneTree.terrainId doc = .ok tid → HasNode f.nodes tid true tch →
      SceneTree.pivot lib.dbl doc = .ok pv → SceneTree.epsg lib.uns doc = .ok ep →
      ∃ bs tr, List.Forall₂ (fun y m => ObjectOf lib.nm lib.conv f ['F', 'T'] y.1 y.2 m) ids bs ∧ tr.name = "terrain".toList ∧ Valid tr ∧
        (polygons tr).Perm ((matching lib.nm f.meshes ['M'] (postOrder (.cons tid true tch .nil))).flatMap fun l => polygons (lib.conv l)) ∧
        sceneRead ops lib rnd lf .t3dsXml modes (d ++ [s ++ '.' :: x]) names fs = .ok ⟨pv, ep, bs.map fun b => ops.node b pv ep, ops.node tr pv ep⟩) ∧
    ((∀ u, fs (d ++ [s ++ ".XML".toList]) = some (.file u) → lib.xml u = none) →
      sceneRead ops lib rnd lf .t3dsXml modes (d ++ [s ++ '.' :: x]) names fs = .thrown .runtimeError) := by
  have hc := construct_read hr hw hp hl
  have hxp := xmlPath_eq d s x hs hx
  constructor
  · intro u doc pv ep ids tid tch hu hd hids hnode htid htn hpv hep
    obtain ⟨bs, h1, h2, -⟩ := object_meshes lib.nm lib.conv modes f ['F', 'T'] hr (by decide) hf ids hnode
    obtain ⟨m, h3, h4, -⟩ := object_mesh lib.nm lib.conv modes f ['M'] hr (by decide) hf tid tch htn
    refine ⟨bs, m.setName "terrain".toList, h2, rfl, h4.2.1, h4.2.2, ?_⟩
    have hcon : SceneTree.construct lib.xml (xmlPath (d ++ [s ++ '.' :: x])) fs = .ok doc := by
      unfold SceneTree.construct; rw [hxp, hu]; dsimp only; rw [hd]
    unfold sceneRead
    dsimp only
    rw [hc, Out.ok_bind, hcon, Out.ok_bind]
    unfold t3dsSceneXml
    rw [hids, Out.ok_bind, h1, Out.ok_bind, htid, Out.ok_bind, h3, Out.ok_bind, hpv, Out.ok_bind, hep, Out.ok_bind]
    rfl
  · intro hno
    unfold sceneRead
    dsimp only
    rw [hc, Out.ok_bind]
    unfold SceneTree.construct
    rw [hxp]
    cases hu : fs (d ++ [s ++ ".XML".toList]) with
    | none => rfl
    | some e =>
      cases e with
      | dir => rfl
      | file u => dsimp only; rw [hno u hu]; rfl

/-- C30: what is read from any directory: one building per regular file with the extension off that is not called terrain, in the order of the listing, and the terrain
from terrain.off, with the default position and code; anything but a directory is refused. -/
theorem C30_directory (ops : NodeOps N) (rnd : ℚ → ℚ) (lf : Bool) (modes : Modes) (p : Path) (names : List Text) (fs : Fs) :
    (fs p ≠ some .dir → offSceneRead ops rnd lf modes p names fs = .thrown .runtimeError) ∧
    (∀ sc, offSceneRead ops rnd lf modes p names fs = .ok sc → fs p = some .dir ∧ ∃ bn bs t, bn.Sublist names ∧
      (∀ n ∈ names, n ∈ bn ↔ (∃ t, fs (p ++ [n]) = some (.file t)) ∧ NamedLike (p ++ [n]) "off".toList ∧ ¬ (∃ x, '.' ∉ x ∧ n = "terrain.".toList ++ x)) ∧
      List.Forall₂ (fun n m => offRead rnd lf modes (p ++ [n]) fs = .ok m) bn bs ∧ offRead rnd lf modes (p ++ ["terrain.off".toList]) fs = .ok t ∧
      sc = ⟨⟨0, 0, 0⟩, 2154, bs.map fun b => ops.node b ⟨0, 0, 0⟩ 2154, ops.node t ⟨0, 0, 0⟩ 2154⟩) := by
  unfold offSceneRead
  constructor
  · intro h; rw [if_pos h]
  · intro sc h
    by_cases hd : fs p = some .dir
    · rw [if_neg (by simpa using hd)] at h
      obtain ⟨bs, h1, h⟩ := Out.bind_eq_ok.1 h
      obtain ⟨t, h2, h⟩ := Out.bind_eq_ok.1 h
      refine ⟨hd, names.filter (isBuildingFile p fs), bs, t, List.filter_sublist, ?_, Out.mapM_eq_ok.1 h1, ?_, ?_⟩
      · intro n hn
        rw [List.mem_filter, C31_buildings]
        exact ⟨fun h => h.2, fun h => ⟨hn, h⟩⟩
      · have : joinPath p "terrain.off".toList = p ++ ["terrain.off".toList] := by
          unfold joinPath; congr 1
        rw [this] at h2; exact h2
      · cases h; rfl
    · rw [if_pos hd] at h; cases h

/-- A file with two nodes of the same name below the root, with different parts below them. -/
def twinFile : File3ds (Text × Mesh) :=
  ⟨[(['F', '1'], demoTri), (['F', '2'], demoSquare)],
    .cons ['r'] true (.cons ['b'] true (.cons ['F', '1'] true .nil .nil) (.cons ['b'] true (.cons ['F', '2'] true .nil .nil) .nil)) .nil⟩

/-- C84 refuted for nodes of the same name: both buildings get the parts of the first, those of the second are lost. -/
theorem C84_refuted_names : ∃ m, T3ds.levelMeshes (·.1) (·.2) (fun _ => some true) (some twinFile) 1 ['F', 'T'] = .ok [m, m] ∧
    polygons m = polygons demoTri ∧ polygons m ≠ polygons demoSquare := by
  refine ⟨(Mesh.sumFrom Mesh.empty [Mesh.sumFrom Mesh.empty [demoTri]]).setName ['b'], ?_, ?_, ?_⟩ <;> decide

/-- A file meeting the hypotheses of C84: the forest of C33 has two nodes below its root, with three parts. -/
example : Readable3ds (fun l : Text × Mesh => l.2) demoFile ∧ (∀ x ∈ tops (.cons ['F', '1'] true (.cons ['T', '2'] true .nil .nil) (.cons ['F', '3'] true .nil .nil)), x.2.1 = true) ∧
    HasNode demoFile.nodes ['T', '2'] true .nil := by
  refine ⟨⟨by decide, ?_⟩, by decide, .under _ _ _ (.under _ _ _ (.here _ _ _ _))⟩
  intro l hl
  have : Valid demoTri ∧ Valid demoSquare := by
    constructor <;> (unfold Valid; decide)
  have h3 : demoTri.points ≠ [] ∧ demoSquare.points ≠ [] := by decide
  simp only [demoFile, List.mem_cons, List.not_mem_nil, or_false] at hl
  rcases hl with rfl | rfl | rfl
  · exact ⟨this.1, fun h => absurd h h3.1⟩
  · exact ⟨this.2, fun h => absurd h h3.2⟩
  · exact ⟨this.1, fun h => absurd h h3.1⟩

end City.Props
