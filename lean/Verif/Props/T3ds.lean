import Verif.Spec.Handlers
import Verif.Props.Mesh
import Mathlib.Data.List.Perm.Basic
import Mathlib.Data.List.Flatten
/-!
Properties C33 - C36: 3DS files and scene trees.
-/
namespace City.Props
open City Spec
variable {L : Type}

/-! ### C33 -/

/-- C33 (full statement, false of the code): `get_nodes(level)` gives the nodes at depth `level`. -/
def C33_full : Prop := ∀ (L : Type) (f : File3ds L) (level : Nat), T3ds.getNodes (some f) level = .ok (atDepth level f.nodes)

theorem siblings_eq (f : Forest) : T3ds.siblings f = atDepth 0 f := by
  induction f with
  | nil => rfl
  | cons n o ch nx _ ih => unfold T3ds.siblings atDepth; rw [ih]

theorem passes_eq (n : Text) (o : Bool) (ch nx : Forest) (l : Nat) (acc : List Text) :
    T3ds.levelPasses (.cons n o ch nx) l acc = .ok (acc ++ (List.replicate l (atDepth 0 ch)).flatten) := by
  induction l generalizing acc with
  | zero => simp [T3ds.levelPasses]
  | succ l ih =>
    rw [T3ds.levelPasses, ih, siblings_eq, List.replicate_succ, List.flatten_cons, List.append_assoc]

/-- C33: what is returned instead: the children of the first top node, as many times as the level says. -/
theorem C33_exact (f : File3ds L) (level : Nat) (n : Text) (o : Bool) (ch nx : Forest) (h : f.nodes = .cons n o ch nx) :
    T3ds.getNodes (some f) level = .ok (List.replicate level (atDepth 0 ch)).flatten := by
  simp only [T3ds.getNodes, h]
  rw [passes_eq]; rfl

/-- C33: without any node every level but 0 dereferences a null pointer. -/
theorem C33_no_node (f : File3ds L) (h : f.nodes = .nil) (level : Nat) :
    T3ds.getNodes (some f) (level + 1) = .ub ∧ T3ds.getNodes (some f) 0 = .ok [] := by
  simp [T3ds.getNodes, h, T3ds.levelPasses]

/-- C33: level 1 is right for files with one top node (the only level used for scenes).
Missing from the full property: several top nodes, all the other levels. -/
theorem C33_level_one_partial (f : File3ds L) (n : Text) (o : Bool) (ch : Forest) (h : f.nodes = .cons n o ch .nil) :
    T3ds.getNodes (some f) 1 = .ok (atDepth 1 f.nodes) := by
  rw [C33_exact f 1 n o ch .nil h, h]
  simp [atDepth]

/-- C33: for any number of top nodes, level 1 is right exactly when the other top nodes have no children. -/
theorem C33_level_one_iff (f : File3ds L) (n : Text) (o : Bool) (ch nx : Forest) (h : f.nodes = .cons n o ch nx) :
    T3ds.getNodes (some f) 1 = .ok (atDepth 1 f.nodes) ↔ atDepth 1 nx = [] := by
  rw [C33_exact f 1 n o ch nx h, h]
  simp [atDepth]

/-- C33: level 0 is right exactly when there are no nodes. -/
theorem C33_level_zero (f : File3ds L) : T3ds.getNodes (some f) 0 = .ok (atDepth 0 f.nodes) ↔ f.nodes = .nil := by
  cases h : f.nodes <;> simp [T3ds.getNodes, h, T3ds.levelPasses, atDepth]

/-- A forest with one root, two children and a grandchild. -/
def demoForest : Forest :=
  .cons ['r'] true (.cons ['F', '1'] true (.cons ['T', '2'] true .nil .nil) (.cons ['F', '3'] true .nil .nil)) .nil

/-- C33 refuted: level 2 lists the children of the root twice instead of the grandchildren. -/
theorem C33_refuted : ¬ C33_full := by
  intro h
  have := h Unit ⟨[], demoForest⟩ 2
  revert this
  decide

example : T3ds.getNodes (some (⟨[], demoForest⟩ : File3ds Unit)) 1 = .ok [['F', '1'], ['F', '3']] ∧
    atDepth 2 demoForest = [['T', '2']] := by decide

/-! ### C35 -/

theorem own_eq (nm : L → Text) (f : File3ds L) (types : List Char) (n : Text) :
    (T3ds.own nm f types n).map (·.2) = matching nm f.meshes types [n] ∧
    ∀ x ∈ T3ds.own nm f types n, x.1 = (nm x.2).headD '\x00' ∧ x.1 ∈ types := by
  unfold T3ds.own T3ds.meshByName matching
  cases hm : f.meshes.find? fun m => nm m == n with
  | none => simp [hm]
  | some m =>
    have hn : nm m = n := by
      have := List.find?_some hm
      simpa using this
    simp only [List.filterMap_cons, List.filterMap_nil, hm]
    rw [hn]
    split
    · rename_i hh
      refine ⟨rfl, fun x hx => ?_⟩
      rw [List.mem_singleton] at hx
      subst hx
      exact ⟨by rw [hn], hh⟩
    · simp

/-- C35: the pushes made for a list of siblings are the meshes of the matching nodes of the whole forest, children before
parents, each filed under the first letter of its name. -/
theorem C35_post_order (nm : L → Text) (f : File3ds L) (types : List Char) (g : Forest) :
    (T3ds.collect nm f types g).map (·.2) = matching nm f.meshes types (postOrder g) ∧
    ∀ x ∈ T3ds.collect nm f types g, x.1 = (nm x.2).headD '\x00' ∧ x.1 ∈ types := by
  induction g with
  | nil => simp [T3ds.collect, matching, postOrder]
  | cons n o ch nx ihc ihn =>
    have ho := own_eq nm f types n
    constructor
    · rw [T3ds.collect, postOrder, List.map_append, List.map_append, ihc.1, ihn.1, ho.1]
      simp only [matching]
      rw [show postOrder ch ++ n :: postOrder nx = postOrder ch ++ ([n] ++ postOrder nx) from rfl, List.filterMap_append,
        List.filterMap_append, List.append_assoc]
    · intro x hx
      rw [T3ds.collect, List.mem_append, List.mem_append] at hx
      rcases hx with (hx | hx) | hx
      · exact ihc.2 x hx
      · exact ho.2 x hx
      · exact ihn.2 x hx

/-- C35: in the subtree of a node its own mesh comes last. -/
theorem C35_subtree (nm : L → Text) (f : File3ds L) (types : List Char) (n : Text) (o : Bool) (ch : Forest) :
    (T3ds.collect nm f types ch ++ T3ds.own nm f types n).map (·.2) =
      matching nm f.meshes types (postOrder (.cons n o ch .nil)) := by
  have := (C35_post_order nm f types (.cons n o ch .nil)).1
  rw [← this]
  simp [T3ds.collect]

/-- The group of one letter: the values pushed with it, in order. -/
theorem group_mem (types : List Char) (xs : List (Char × Mesh)) (g : Char × List Mesh) :
    g ∈ T3ds.groupTypes types xs ↔ g.1 ∈ types ∧ g.2 = (xs.filter fun x => x.1 == g.1).map (·.2) ∧ g.2 ≠ [] := by
  unfold T3ds.groupTypes
  rw [List.mem_filter, List.mem_map]
  constructor
  · rintro ⟨⟨c, hc, rfl⟩, hne⟩
    exact ⟨hc, rfl, by simpa using hne⟩
  · rintro ⟨h1, h2, h3⟩
    refine ⟨⟨g.1, h1, ?_⟩, by simpa using h3⟩
    rw [← h2]

theorem flatMap_filter_nil {α β : Type} (l : List α) (q : α → Bool) (f : α → List β) (h : ∀ a ∈ l, q a = false → f a = []) :
    (l.filter q).flatMap f = l.flatMap f := by
  induction l with
  | nil => rfl
  | cons a l ih =>
    have ih := ih (fun x hx => h x (by simp [hx]))
    rw [List.filter_cons, List.flatMap_cons]
    cases hq : q a with
    | true => simp [ih]
    | false => simp [ih, h a (by simp) hq]

theorem perm_partition_keys {β : Type} (types : List Char) (xs : List (Char × β)) (hn : types.Nodup) (hx : ∀ x ∈ xs, x.1 ∈ types) :
    (types.flatMap fun c => xs.filter fun x => x.1 == c).Perm xs := by
  induction xs with
  | nil => simp
  | cons x xs ih =>
    have ih := ih (fun y hy => hx y (by simp [hy]))
    have hmem : x.1 ∈ types := hx x (by simp)
    obtain ⟨s, t, rfl⟩ := List.append_of_mem hmem
    have hns : x.1 ∉ s := by
      rw [List.nodup_append] at hn
      intro h; exact hn.2.2 _ h _ (by simp) rfl
    have hnt : x.1 ∉ t := by
      rw [List.nodup_append] at hn
      exact (List.nodup_cons.1 hn.2.1).1
    have key : ∀ l : List Char, x.1 ∉ l → (l.flatMap fun c => (x :: xs).filter fun y => y.1 == c) =
        l.flatMap fun c => xs.filter fun y => y.1 == c := by
      intro l hl
      apply List.flatMap_congr
      intro c hc
      rw [List.filter_cons_of_neg]
      intro he
      rw [beq_iff_eq] at he
      exact hl (he ▸ hc)
    rw [List.flatMap_append, List.flatMap_cons] at ih ⊢
    rw [key s hns, key t hnt, List.filter_cons_of_pos (by simp)]
    refine List.Perm.trans ?_ (List.Perm.cons x ih)
    rw [List.cons_append]
    exact List.perm_middle

theorem group_flatten (types : List Char) (xs : List (Char × Mesh)) (hn : types.Nodup) (hx : ∀ x ∈ xs, x.1 ∈ types) :
    ((T3ds.groupTypes types xs).flatMap (·.2)).Perm (xs.map (·.2)) := by
  unfold T3ds.groupTypes
  rw [flatMap_filter_nil _ _ _ (by intro a _ h; simpa using h), List.flatMap_map]
  have := (perm_partition_keys types xs hn hx).map (·.2)
  rw [List.map_flatMap] at this
  exact this

/-! ### C34 -/

/-- C34 (full statement, false of the code): the meshes under a name are, up to their order, the meshes of the matching nodes
of the subtree of that node. -/
def C34_full : Prop :=
  ∀ (L : Type) (nm : L → Text) (conv : L → Mesh) (modes : Modes) (f : File3ds L) (name : Text) (types : List Char) (ch : Forest),
    OpenedRead modes → types.Nodup → T3ds.nodeByName name f.nodes = some (name, ch) →
    ∃ ms, T3ds.nodeMeshes nm conv modes (some f) name types = .ok ms ∧
      ms.Perm ((matching nm f.meshes types (postOrder (.cons name true ch .nil))).map conv)

theorem canRead_of {m : Modes} (h : OpenedRead m) : canRead m = true := by
  unfold canRead OpenedRead at *
  rw [h]; rfl

theorem nodeByName_name (name : Text) (f : Forest) (n : Text) (ch : Forest) (h : T3ds.nodeByName name f = some (n, ch)) : n = name := by
  induction f with
  | nil => simp [T3ds.nodeByName] at h
  | cons m o c nx ihc ihn =>
    unfold T3ds.nodeByName at h
    split at h
    · rename_i hc
      simp at hc
      cases h; exact hc.2
    · cases hc : T3ds.nodeByName name c with
      | none => rw [hc, Option.none_or] at h; exact ihn h
      | some r => rw [hc, Option.some_or] at h; exact ihc (hc.trans h)

theorem foldl_lengths (g : List (Char × List Mesh)) (a : Nat) :
    g.foldl (fun t x => t + x.2.length) a = a + (g.flatMap (·.2)).length := by
  induction g generalizing a with
  | nil => simp
  | cons x g ih => rw [List.foldl_cons, ih, List.flatMap_cons, List.length_append]; omega

theorem byType_eq (nm : L → Text) (conv : L → Mesh) (modes : Modes) (f : File3ds L) (name : Text) (types : List Char) (ch : Forest)
    (hr : OpenedRead modes) (ht : types.Nodup) (hn : T3ds.nodeByName name f.nodes = some (name, ch)) :
    ∃ g, T3ds.nodeMeshesByType nm conv modes (some f) name types = .ok g ∧ (∀ x ∈ g, x.1 ∈ types ∧ x.2 ≠ []) ∧
      (g.flatMap (·.2)).Perm ((matching nm f.meshes types (postOrder (.cons name true ch .nil))).map conv) := by
  refine ⟨T3ds.groupTypes types ((T3ds.collect nm f types ch ++ T3ds.own nm f types name).map fun x => (x.1, conv x.2)),
    ?_, ?_, ?_⟩
  · unfold T3ds.nodeMeshesByType
    rw [if_pos (canRead_of hr)]
    simp only [hn]
  · intro x hx
    rw [group_mem] at hx
    exact ⟨hx.1, hx.2.2⟩
  · refine (group_flatten types _ ht ?_).trans ?_
    · intro x hx
      obtain ⟨y, hy, rfl⟩ := List.mem_map.1 hx
      rcases List.mem_append.1 hy with hy | hy
      · exact ((C35_post_order nm f types ch).2 y hy).2
      · exact ((own_eq nm f types name).2 y hy).2
    · rw [← C35_subtree nm f types name true ch, List.map_map, List.map_map]
      exact List.Perm.of_eq rfl

/-- C34: what is returned: as many empty meshes as there are matching nodes, and then their meshes.
Missing from the full property: "and nothing else". -/
theorem C34_node_meshes_partial (nm : L → Text) (conv : L → Mesh) (modes : Modes) (f : File3ds L) (name : Text) (types : List Char)
    (ch : Forest) (hr : OpenedRead modes) (ht : types.Nodup) (hn : T3ds.nodeByName name f.nodes = some (name, ch)) :
    ∃ ms, T3ds.nodeMeshes nm conv modes (some f) name types = .ok (List.replicate ms.length Mesh.empty ++ ms) ∧
      ms.Perm ((matching nm f.meshes types (postOrder (.cons name true ch .nil))).map conv) := by
  obtain ⟨g, h1, _, h3⟩ := byType_eq nm conv modes f name types ch hr ht hn
  refine ⟨g.flatMap (·.2), ?_, h3⟩
  unfold T3ds.nodeMeshes
  rw [h1, Out.ok_bind, foldl_lengths, Nat.zero_add]

/-- C34: the meshes of the nodes of a level, one list per node in the order of `get_nodes`: in each list the right meshes come after as many empty ones. -/
theorem C34_raw_levels_partial (nm : L → Text) (conv : L → Mesh) (modes : Modes) (f : File3ds L) (level : Nat) (types : List Char) (top : Text) (o : Bool) (ch nx : Forest)
    (h : f.nodes = .cons top o ch nx) (hr : OpenedRead modes) (ht : types.Nodup) (sub : Text → Forest)
    (hn : ∀ n ∈ atDepth 0 ch, T3ds.nodeByName n f.nodes = some (n, sub n)) :
    ∃ mss, T3ds.rawLevelMeshes nm conv modes (some f) level types = .ok mss ∧
      List.Forall₂ (fun n ms' => ∃ ms, ms' = List.replicate ms.length Mesh.empty ++ ms ∧
        ms.Perm ((matching nm f.meshes types (postOrder (.cons n true (sub n) .nil))).map conv)) (List.replicate level (atDepth 0 ch)).flatten mss := by
  unfold T3ds.rawLevelMeshes
  rw [C33_exact f level top o ch nx h, Out.ok_bind]
  have hall : ∀ n ∈ (List.replicate level (atDepth 0 ch)).flatten, T3ds.nodeByName n f.nodes = some (n, sub n) := by
    intro n hm
    obtain ⟨l, h1, h2⟩ := List.mem_flatten.1 hm
    rw [List.eq_of_mem_replicate h1] at h2
    exact hn n h2
  generalize (List.replicate level (atDepth 0 ch)).flatten = ns at hall
  induction ns with
  | nil => exact ⟨[], rfl, .nil⟩
  | cons n ns ih =>
    obtain ⟨mss, h1, h2⟩ := ih fun m hm => hall m (List.mem_cons_of_mem _ hm)
    obtain ⟨ms, h3, h4⟩ := C34_node_meshes_partial nm conv modes f n types (sub n) hr ht (hall n List.mem_cons_self)
    refine ⟨_ :: mss, ?_, .cons ⟨ms, rfl, h4⟩ h2⟩
    rw [Out.mapM_cons, h3, Out.ok_bind, h1, Out.ok_bind]

example : T3ds.nodeByName ['F', '1'] demoForest = some (['F', '1'], .cons ['T', '2'] true .nil .nil) := by decide

/-- A sum without points has no faces, if its terms are so. -/
theorem sum_clean (ms : List Mesh) (hv : ∀ m ∈ ms, Valid m ∧ (m.points = [] → m.faces = [])) :
    (Mesh.sumFrom Mesh.empty ms).points = [] → (Mesh.sumFrom Mesh.empty ms).faces = [] := by
  intro hp
  have h := C12_sum ms hv
  have h4 : ms.flatMap polygons = [] := by
    rw [List.flatMap_eq_nil_iff]
    intro m hm
    rw [h.2.1, List.flatMap_eq_nil_iff] at hp
    have := (hv m hm).2 (hp m hm)
    simp [polygons, this]
  have h5 := h.1
  rw [h4] at h5
  simpa [polygons] using h5

/-- C34: the single mesh of a name has this name and, up to their order, the polygons of all the matching nodes of the subtree:
none is lost, added or changed. -/
theorem C34_mesh (nm : L → Text) (conv : L → Mesh) (modes : Modes) (f : File3ds L) (name : Text) (types : List Char)
    (ch : Forest) (hr : OpenedRead modes) (ht : types.Nodup) (hn : T3ds.nodeByName name f.nodes = some (name, ch))
    (hv : ∀ l ∈ f.meshes, Valid (conv l) ∧ ((conv l).points = [] → (conv l).faces = [])) :
    ∃ m, T3ds.mesh nm conv modes (some f) name types = .ok m ∧ m.name = name ∧ Valid m ∧ (m.points = [] → m.faces = []) ∧
      (polygons m).Perm ((matching nm f.meshes types (postOrder (.cons name true ch .nil))).flatMap fun l => polygons (conv l)) := by
  obtain ⟨g, h1, h2, h3⟩ := byType_eq nm conv modes f name types ch hr ht hn
  have hin : ∀ x ∈ g, ∀ m ∈ x.2, Valid m ∧ (m.points = [] → m.faces = []) := by
    intro x hx m hm
    have : m ∈ g.flatMap (·.2) := List.mem_flatMap.2 ⟨x, hx, hm⟩
    obtain ⟨l, hl, rfl⟩ := List.mem_map.1 (h3.subset this)
    apply hv
    obtain ⟨y, _, hy⟩ := List.mem_filterMap.1 hl
    split at hy
    · exact List.mem_of_find?_eq_some hy
    · simp at hy
  have hsum : ∀ x ∈ g, polygons (Mesh.sumFrom Mesh.empty x.2) = x.2.flatMap polygons ∧
      Valid (Mesh.sumFrom Mesh.empty x.2) ∧ ((Mesh.sumFrom Mesh.empty x.2).points = [] → (Mesh.sumFrom Mesh.empty x.2).faces = []) := by
    intro x hx
    have h := C12_sum x.2 (hin x hx)
    exact ⟨h.1, h.2.2, sum_clean x.2 (hin x hx)⟩
  have htot := C12_sum (g.map fun x => Mesh.sumFrom Mesh.empty x.2) (by
    intro m hm
    obtain ⟨x, hx, rfl⟩ := List.mem_map.1 hm
    exact (hsum x hx).2)
  have hclean := sum_clean (g.map fun x => Mesh.sumFrom Mesh.empty x.2) (by
    intro m hm
    obtain ⟨x, hx, rfl⟩ := List.mem_map.1 hm
    exact (hsum x hx).2)
  refine ⟨(Mesh.sumFrom Mesh.empty (g.map fun x : Char × List Mesh => Mesh.sumFrom Mesh.empty x.2)).setName name, ?_, rfl,
    htot.2.2, hclean, ?_⟩
  · unfold T3ds.mesh T3ds.meshByType
    rw [h1, Out.ok_bind, Out.ok_bind, List.map_map]
    rfl
  · show (polygons (Mesh.sumFrom Mesh.empty _)).Perm _
    rw [htot.1, List.flatMap_map]
    have e : (g.flatMap fun x => polygons (Mesh.sumFrom Mesh.empty x.2)) = (g.flatMap (·.2)).flatMap polygons := by
      rw [List.flatMap_assoc]
      apply List.flatMap_congr
      intro x hx
      exact (hsum x hx).1
    rw [e]
    have := h3.flatMap_right polygons
    rw [List.flatMap_map] at this
    exact this

/-- C34: a name that no object node has is dereferenced as a null pointer, for all the operations by name. -/
theorem C34_unknown_name (nm : L → Text) (conv : L → Mesh) (modes : Modes) (f : File3ds L) (name : Text) (types : List Char)
    (hr : OpenedRead modes) (hn : T3ds.nodeByName name f.nodes = none) :
    T3ds.nodeMeshes nm conv modes (some f) name types = .ub ∧ T3ds.mesh nm conv modes (some f) name types = .ub := by
  have : T3ds.nodeMeshesByType nm conv modes (some f) name types = .ub := by
    unfold T3ds.nodeMeshesByType
    rw [if_pos (canRead_of hr)]
    simp only [hn]
  constructor
  · unfold T3ds.nodeMeshes; rw [this]; rfl
  · unfold T3ds.mesh T3ds.meshByType; rw [this]; rfl

/-- Library meshes given by name and mesh. -/
def demoFile : File3ds (Text × Mesh) := ⟨[(['T', '2'], demoTri), (['F', '1'], demoSquare), (['F', '3'], demoTri)], demoForest⟩

/-- C34 refuted: two meshes, four returned. -/
theorem C34_refuted : ¬ C34_full := by
  intro h
  obtain ⟨ms, h1, h2⟩ := h _ (·.1) (·.2) (fun _ => some true) demoFile ['F', '1'] ['F', 'T'] (.cons ['T', '2'] true .nil .nil)
    (by simp [OpenedRead]) (by decide) (by decide)
  obtain ⟨ms', h3, h4⟩ := C34_node_meshes_partial (·.1) (·.2) (fun _ => some true) demoFile ['F', '1'] ['F', 'T']
    (.cons ['T', '2'] true .nil .nil) (by simp [OpenedRead]) (by decide) (by decide)
  rw [h1] at h3
  injection h3 with h3
  have e1 := h2.length_eq
  have e2 := h4.length_eq
  have e3 : ((matching (fun x : Text × Mesh => x.1) demoFile.meshes ['F', 'T'] (postOrder (.cons ['F', '1'] true (.cons ['T', '2'] true .nil .nil) .nil))).map
    (·.2)).length = 2 := by decide
  rw [e3] at e1 e2
  rw [h3, List.length_append, List.length_replicate] at e1
  omega

example : (matching (fun x : Text × Mesh => x.1) demoFile.meshes ['F', 'T'] (postOrder demoForest)).map (·.1) =
      [['T', '2'], ['F', '1'], ['F', '3']] ∧
    (∀ l ∈ demoFile.meshes, Valid l.2 ∧ (l.2.points = [] → l.2.faces = [])) := by
  constructor
  · decide
  · intro l hl
    simp only [demoFile, List.mem_cons, List.not_mem_nil, or_false] at hl
    rcases hl with rfl | rfl | rfl <;> decide

/-! ### C36 -/

theorem first_ok {cs : List Elem} {tag : Text} {e : Elem} (h : Declares cs tag e) : SceneTree.first cs tag = .ok e := by
  obtain ⟨rest, h⟩ := h
  unfold SceneTree.first
  have : cs.find? (fun e => e.tag == tag) = some e := by
    rw [← List.head?_filter]
    unfold named at h
    rw [h]; rfl
  rw [this]

theorem query_ok {dbl : Elem → Option ℚ} {cs : List Elem} {tag : Text} {e : Elem} {q : ℚ} (h : Declares cs tag e)
    (hq : dbl e = some q) : SceneTree.query dbl cs tag = .ok q := by
  unfold SceneTree.query
  rw [first_ok h, Out.ok_bind, hq]

/-- C36: a declared pivot is returned. -/
theorem C36_pivot (dbl : Elem → Option ℚ) (doc : List Elem) (r p ex ey ez : Elem) (x y z : ℚ)
    (hr : Declares doc "Chantier_Bati3D".toList r) (hp : Declares r.children "Pivot".toList p)
    (hx : Declares p.children "offset_x".toList ex) (hy : Declares p.children "offset_y".toList ey)
    (hz : Declares p.children "offset_z".toList ez) (dx : dbl ex = some x) (dy : dbl ey = some y) (dz : dbl ez = some z) :
    SceneTree.pivot dbl doc = .ok ⟨x, y, z⟩ := by
  unfold SceneTree.pivot SceneTree.root
  rw [first_ok hr, Out.ok_bind]
  obtain ⟨rest, hp⟩ := hp
  have : r.children.find? (fun e => e.tag == "Pivot".toList) = some p := by
    rw [← List.head?_filter]
    unfold named at hp
    rw [hp]; rfl
  rw [this]
  simp only
  rw [query_ok hx dx, query_ok hy dy, query_ok hz dz]
  rfl

/-- C36: without pivot, the centre of the declared bounding box is returned. -/
theorem C36_pivot_of_box (dbl : Elem → Option ℚ) (doc : List Elem) (r b e1 e2 e3 e4 e5 e6 : Elem) (x0 x1 y0 y1 z0 z1 : ℚ)
    (hr : Declares doc "Chantier_Bati3D".toList r) (hp : named r.children "Pivot".toList = [])
    (hb : Declares r.children "Bbox".toList b)
    (h1 : Declares b.children "Xmin".toList e1) (h2 : Declares b.children "Xmax".toList e2)
    (h3 : Declares b.children "Ymin".toList e3) (h4 : Declares b.children "Ymax".toList e4)
    (h5 : Declares b.children "Zmin".toList e5) (h6 : Declares b.children "Zmax".toList e6)
    (d1 : dbl e1 = some x0) (d2 : dbl e2 = some x1) (d3 : dbl e3 = some y0) (d4 : dbl e4 = some y1) (d5 : dbl e5 = some z0)
    (d6 : dbl e6 = some z1) :
    SceneTree.bbox dbl doc = .ok (x0, x1, y0, y1, z0, z1) ∧
    SceneTree.pivot dbl doc = .ok ⟨(x0 + x1) / 2, (y0 + y1) / 2, (z0 + z1) / 2⟩ := by
  have hbox : SceneTree.bbox dbl doc = .ok (x0, x1, y0, y1, z0, z1) := by
    unfold SceneTree.bbox SceneTree.root
    rw [first_ok hr, Out.ok_bind, first_ok hb, Out.ok_bind, query_ok h1 d1, query_ok h2 d2, query_ok h3 d3, query_ok h4 d4,
      query_ok h5 d5, query_ok h6 d6]
    rfl
  refine ⟨hbox, ?_⟩
  unfold SceneTree.pivot SceneTree.root
  rw [first_ok hr, Out.ok_bind]
  have : r.children.find? (fun e => e.tag == "Pivot".toList) = none := by
    rw [← List.head?_filter]
    unfold named at hp
    rw [hp]; rfl
  rw [this]
  simp only
  rw [hbox, Out.ok_bind, add_comm x1, add_comm y1, add_comm z1]

/-- C36: a declared number that cannot be read throws. -/
theorem C36_bad_number (dbl : Elem → Option ℚ) (doc : List Elem) (r p ex : Elem)
    (hr : Declares doc "Chantier_Bati3D".toList r) (hp : Declares r.children "Pivot".toList p)
    (hx : Declares p.children "offset_x".toList ex) (dx : dbl ex = none) : SceneTree.pivot dbl doc = .thrown .runtimeError := by
  unfold SceneTree.pivot SceneTree.root
  rw [first_ok hr, Out.ok_bind]
  obtain ⟨rest, hp⟩ := hp
  have : r.children.find? (fun e => e.tag == "Pivot".toList) = some p := by
    rw [← List.head?_filter]
    unfold named at hp
    rw [hp]; rfl
  rw [this]
  simp only [SceneTree.query]
  rw [first_ok hx, Out.ok_bind, dx]
  rfl

/-- C36: the identifiers of the buildings are those of all the building elements, in document order, and the identifier
of the terrain is that of the first relief. -/
theorem C36_identifiers (doc : List Elem) (r c t : Elem) (ids : List Text) (tid : Text) (hr : Declares doc "Chantier_Bati3D".toList r)
    (hc : Declares r.children "CityModel".toList c)
    (hids : List.Forall₂ (fun e id => e.attrs.lookup "Id".toList = some id) (named c.children "Building".toList) ids)
    (ht : Declares c.children "TINRelief".toList t) (htid : t.attrs.lookup "Id".toList = some tid) :
    SceneTree.buildingIds doc = .ok ids ∧ SceneTree.terrainId doc = .ok tid := by
  have hlook : ∀ (e : Elem) (id : Text), e.attrs.lookup "Id".toList = some id → SceneTree.attrId e = .ok id := by
    intro e id h
    unfold SceneTree.attrId
    have : e.attrs.find? (fun a => a.1 == "Id".toList) = some ("Id".toList, id) := by
      generalize "Id".toList = k at h ⊢
      generalize e.attrs = l at h ⊢
      induction l with
      | nil => simp at h
      | cons a l ih =>
        obtain ⟨a1, a2⟩ := a
        rw [List.lookup_cons] at h
        by_cases hk : k = a1
        · subst hk; simp at h; subst h; simp
        · have : (k == a1) = false := by simpa using hk
          rw [this] at h
          rw [List.find?_cons_of_neg (by simpa using fun hh => hk hh.symm)]
          exact ih h
    rw [this]
  constructor
  · unfold SceneTree.buildingIds SceneTree.root
    rw [first_ok hr, Out.ok_bind, first_ok hc, Out.ok_bind]
    change Out.mapM _ (named c.children "Building".toList) = _
    generalize named c.children "Building".toList = l at hids
    induction hids with
    | nil => rfl
    | cons h _ ih => rw [Out.mapM_cons, hlook _ _ h, Out.ok_bind, ih]; rfl
  · unfold SceneTree.terrainId SceneTree.root
    rw [first_ok hr, Out.ok_bind, first_ok hc, Out.ok_bind, first_ok ht, Out.ok_bind, hlook _ _ htid]

/-- C36 (full statement, false of the code), EPSG code: the declared code is returned. -/
def C36_full_epsg : Prop :=
  ∀ (uns : Elem → Option Nat) (doc : List Elem) (r e : Elem) (n : Nat), Declares doc "Chantier_Bati3D".toList r →
    Declares r.children "Code_ESPG_horizontal".toList e → uns e = some n → n < 2 ^ 32 → SceneTree.epsg uns doc = .ok n

/-- C36: the declared code is returned when it has at most 16 bits; a text that is no number counts as 2154.
Missing from the full property: larger codes, which lose their upper bits. -/
theorem C36_epsg_partial (uns : Elem → Option Nat) (doc : List Elem) (r e : Elem) (hr : Declares doc "Chantier_Bati3D".toList r)
    (he : Declares r.children "Code_ESPG_horizontal".toList e) :
    (∀ n, uns e = some n → n < 2 ^ 16 → SceneTree.epsg uns doc = .ok n) ∧ (uns e = none → SceneTree.epsg uns doc = .ok 2154) ∧
    (∀ n, uns e = some n → SceneTree.epsg uns doc = .ok (n % 2 ^ 16)) := by
  have h : SceneTree.epsg uns doc = .ok ((uns e).getD 2154 % 65536) := by
    unfold SceneTree.epsg SceneTree.root
    rw [first_ok hr, Out.ok_bind, first_ok he, Out.ok_bind]
  rw [h]
  refine ⟨fun n hn hlt => ?_, fun hn => ?_, fun n hn => ?_⟩
  · rw [hn, Option.getD_some, Nat.mod_eq_of_lt (by omega)]
  · rw [hn]; rfl
  · rw [hn]; rfl

/-- A scene tree: pivot, code, two buildings and a relief. -/
def demoDoc : List Elem :=
  [.mk "Chantier_Bati3D".toList [] []
    [.mk "Pivot".toList [] []
      [.mk "offset_x".toList "1".toList [] [], .mk "offset_y".toList "2".toList [] [], .mk "offset_z".toList "3".toList [] []],
     .mk "Code_ESPG_horizontal".toList "102110".toList [] [],
     .mk "CityModel".toList [] []
      [.mk "Building".toList [] [("Id".toList, "B1".toList)] [], .mk "TINRelief".toList [] [("Id".toList, "T".toList)] [],
       .mk "Building".toList [] [("Id".toList, "B2".toList)] []]]]

/-- C36 refuted: the code 102110 (Lambert 93 at ESRI) becomes 36574. -/
theorem C36_refuted : ¬ C36_full_epsg := by
  intro h
  have h1 := h (fun _ => some 102110) demoDoc _ _ 102110 ⟨[], rfl⟩ ⟨[], rfl⟩ rfl (by decide)
  have h2 := (C36_epsg_partial (fun _ => some 102110) demoDoc _ _ ⟨[], rfl⟩ ⟨[], rfl⟩).2.2 102110 rfl
  rw [h1] at h2
  injection h2 with h2
  revert h2
  decide

example : SceneTree.buildingIds demoDoc = .ok ["B1".toList, "B2".toList] ∧ SceneTree.terrainId demoDoc = .ok "T".toList := by decide

/-- C36, element by element: a document which holds the pivot, the code, the buildings and the relief, each building and the relief with its identifier as
the first attribute of this name, is read in the order of the document; other elements before, between and after do not matter as long as their names are
different. -/
theorem C36_document (dbl : Elem → Option ℚ) (uns : Elem → Option Nat) (tx : Nat → Text) (as : Nat → List (Text × Text)) (ex ey ez : Text) (x y z : ℚ) (code : Nat)
    (ids : List (Text × List (Text × Text) × List Elem)) (tid : Text) (more : List Elem) (junk : List Elem)
    (hj : ∀ e ∈ junk, ∃ t s a c, e = .mk t s a c ∧ t ∉ ["Chantier_Bati3D".toList, "Pivot".toList, "Code_ESPG_horizontal".toList, "CityModel".toList])
    (dx : dbl (.mk "offset_x".toList ex [] []) = some x) (dy : dbl (.mk "offset_y".toList ey [] []) = some y)
    (dz : dbl (.mk "offset_z".toList ez [] []) = some z) (hc : uns (.mk "Code_ESPG_horizontal".toList (tx 0) [] []) = some code) (h16 : code < 2 ^ 16)
    (doc : List Elem)
    (hdoc : doc = junk ++ [.mk "Chantier_Bati3D".toList (tx 1) (as 1) (junk ++ [.mk "Pivot".toList (tx 2) (as 2)
        [.mk "offset_x".toList ex [] [], .mk "offset_y".toList ey [] [], .mk "offset_z".toList ez [] []],
      .mk "Code_ESPG_horizontal".toList (tx 0) [] [],
      .mk "CityModel".toList (tx 3) (as 3) (.mk "TINRelief".toList (tx 4) [("Id".toList, tid)] more ::
        ids.map fun i => .mk "Building".toList [] (("Id".toList, i.1) :: i.2.1) i.2.2)])]) :
    SceneTree.pivot dbl doc = .ok ⟨x, y, z⟩ ∧ SceneTree.epsg uns doc = .ok code ∧ SceneTree.buildingIds doc = .ok (ids.map (·.1)) ∧
      SceneTree.terrainId doc = .ok tid := by
  have skip : ∀ (tag : Text) (l : List Elem), tag ∈ ["Chantier_Bati3D".toList, "Pivot".toList, "Code_ESPG_horizontal".toList, "CityModel".toList] →
      (junk ++ l).find? (fun e => e.tag == tag) = l.find? (fun e => e.tag == tag) := by
    intro tag l ht
    rw [List.find?_append, List.find?_eq_none.2, Option.none_or]
    intro e he
    obtain ⟨t, s, a, c, rfl, hn⟩ := hj e he
    intro h
    rw [beq_iff_eq] at h
    exact hn (by rw [show t = tag from h]; exact ht)
  have n1 : ("Pivot".toList == "Code_ESPG_horizontal".toList) = false := by decide
  have n2 : ("Pivot".toList == "CityModel".toList) = false := by decide
  have n3 : ("Code_ESPG_horizontal".toList == "CityModel".toList) = false := by decide
  have n4 : ("offset_x".toList == "offset_y".toList) = false := by decide
  have n5 : ("offset_x".toList == "offset_z".toList) = false := by decide
  have n6 : ("offset_y".toList == "offset_z".toList) = false := by decide
  have n7 : ("TINRelief".toList == "Building".toList) = false := by decide
  have hroot : SceneTree.root doc = .ok (.mk "Chantier_Bati3D".toList (tx 1) (as 1) (junk ++ [.mk "Pivot".toList (tx 2) (as 2)
        [.mk "offset_x".toList ex [] [], .mk "offset_y".toList ey [] [], .mk "offset_z".toList ez [] []],
      .mk "Code_ESPG_horizontal".toList (tx 0) [] [],
      .mk "CityModel".toList (tx 3) (as 3) (.mk "TINRelief".toList (tx 4) [("Id".toList, tid)] more ::
        ids.map fun i => .mk "Building".toList [] (("Id".toList, i.1) :: i.2.1) i.2.2)])) := by
    unfold SceneTree.root SceneTree.first
    rw [hdoc, skip _ _ (by simp)]
    simp only [List.find?_cons, Elem.tag, BEq.rfl]
  refine ⟨?_, ?_, ?_, ?_⟩
  · unfold SceneTree.pivot
    rw [hroot, Out.ok_bind]
    simp only [Elem.children]
    rw [skip _ _ (by simp)]
    simp only [List.find?_cons, Elem.tag, BEq.rfl]
    simp only [SceneTree.query, SceneTree.first, List.find?_cons, Elem.tag, BEq.rfl, n4, n5, n6, Out.ok_bind, dx, dy, dz]
  · unfold SceneTree.epsg
    rw [hroot, Out.ok_bind]
    unfold SceneTree.first
    simp only [Elem.children]
    rw [skip _ _ (by simp)]
    simp only [List.find?_cons, Elem.tag, n1, BEq.rfl, Out.ok_bind, hc, Option.getD_some]
    rw [Nat.mod_eq_of_lt (by omega)]
  · unfold SceneTree.buildingIds
    rw [hroot, Out.ok_bind]
    unfold SceneTree.first
    simp only [Elem.children]
    rw [skip _ _ (by simp)]
    simp only [List.find?_cons, Elem.tag, n2, n3, BEq.rfl, Out.ok_bind, List.filter_cons, n7, Bool.false_eq_true, if_false]
    rw [List.filter_eq_self.2 (by
      intro e he
      obtain ⟨i, _, rfl⟩ := List.mem_map.1 he
      simp)]
    clear hdoc hroot
    induction ids with
    | nil => rfl
    | cons i ids ih =>
      simp only [List.map_cons, Out.mapM_cons, SceneTree.attrId, Elem.attrs, List.find?_cons, BEq.rfl, Out.ok_bind]
      rw [ih]
      rfl
  · unfold SceneTree.terrainId
    rw [hroot, Out.ok_bind]
    unfold SceneTree.first
    simp only [Elem.children]
    rw [skip _ _ (by simp)]
    simp only [List.find?_cons, Elem.tag, n2, n3, BEq.rfl, Out.ok_bind, Elem.children, SceneTree.attrId, Elem.attrs]

/-- C36: a document without the element that is asked for is not refused: the behaviour of the program is undefined, for every one of the four questions. -/
theorem C36_missing (dbl : Elem → Option ℚ) (uns : Elem → Option Nat) (doc : List Elem) :
    ((∀ t s a c, Elem.mk t s a c ∈ doc → t ≠ "Chantier_Bati3D".toList) →
      SceneTree.pivot dbl doc = .ub ∧ SceneTree.bbox dbl doc = .ub ∧ SceneTree.epsg uns doc = .ub ∧ SceneTree.buildingIds doc = .ub ∧ SceneTree.terrainId doc = .ub) ∧
    ∀ s a cs rest, doc = .mk "Chantier_Bati3D".toList s a cs :: rest →
      ((∀ t s a c, Elem.mk t s a c ∈ cs → t ≠ "Code_ESPG_horizontal".toList) → SceneTree.epsg uns doc = .ub) ∧
      ((∀ t s a c, Elem.mk t s a c ∈ cs → t ≠ "CityModel".toList) → SceneTree.buildingIds doc = .ub ∧ SceneTree.terrainId doc = .ub) ∧
      ((∀ t s a c, Elem.mk t s a c ∈ cs → t ≠ "Pivot".toList ∧ t ≠ "Bbox".toList) → SceneTree.pivot dbl doc = .ub) := by
  have none : ∀ (cs : List Elem) (tag : Text), (∀ t s a c, Elem.mk t s a c ∈ cs → t ≠ tag) → cs.find? (fun e => e.tag == tag) = none := by
    intro cs tag h
    rw [List.find?_eq_none]
    rintro ⟨t, s, a, c⟩ he hb
    rw [beq_iff_eq] at hb
    exact h t s a c he hb
  constructor
  · intro h
    have hr : SceneTree.root doc = .ub := by
      unfold SceneTree.root SceneTree.first
      rw [none _ _ h]
    refine ⟨?_, ?_, ?_, ?_, ?_⟩
    · unfold SceneTree.pivot; rw [hr]; rfl
    · unfold SceneTree.bbox; rw [hr]; rfl
    · unfold SceneTree.epsg; rw [hr]; rfl
    · unfold SceneTree.buildingIds; rw [hr]; rfl
    · unfold SceneTree.terrainId; rw [hr]; rfl
  · rintro s a cs rest rfl
    have hr : SceneTree.root (.mk "Chantier_Bati3D".toList s a cs :: rest) = .ok (.mk "Chantier_Bati3D".toList s a cs) := by
      unfold SceneTree.root SceneTree.first
      simp only [List.find?_cons, Elem.tag, BEq.rfl]
    refine ⟨fun h => ?_, fun h => ⟨?_, ?_⟩, fun h => ?_⟩
    · unfold SceneTree.epsg
      rw [hr, Out.ok_bind]
      simp only [SceneTree.first, Elem.children]
      rw [none _ _ h]; rfl
    · unfold SceneTree.buildingIds
      rw [hr, Out.ok_bind]
      simp only [SceneTree.first, Elem.children]
      rw [none _ _ h]; rfl
    · unfold SceneTree.terrainId
      rw [hr, Out.ok_bind]
      simp only [SceneTree.first, Elem.children]
      rw [none _ _ h]; rfl
    · unfold SceneTree.pivot
      rw [hr, Out.ok_bind]
      simp only [Elem.children]
      rw [none _ _ fun t s a c hm => (h t s a c hm).1]
      simp only
      unfold SceneTree.bbox
      rw [hr, Out.ok_bind]
      simp only [SceneTree.first, Elem.children]
      rw [none _ _ fun t s a c hm => (h t s a c hm).2]; rfl

/-- The hypotheses are met: an element for the date before the rest, and two buildings. -/
example : SceneTree.buildingIds ([.mk "Date".toList [] [] []] ++ [.mk "Chantier_Bati3D".toList [] [] ([.mk "Date".toList [] [] []] ++ [.mk "Pivot".toList [] []
        [.mk "offset_x".toList "1".toList [] [], .mk "offset_y".toList "2".toList [] [], .mk "offset_z".toList "3".toList [] []],
      .mk "Code_ESPG_horizontal".toList [] [] [],
      .mk "CityModel".toList [] [] (.mk "TINRelief".toList [] [("Id".toList, "T".toList)] [] ::
        [("B1".toList, [], []), ("B2".toList, [("Id".toList, "no".toList)], [])].map fun i => .mk "Building".toList [] (("Id".toList, i.1) :: i.2.1) i.2.2)])]) =
    .ok ["B1".toList, "B2".toList] :=
  (C36_document (fun _ => some 1) (fun _ => some 2154) (fun _ => []) (fun _ => []) "1".toList "2".toList "3".toList 1 1 1 2154
    [("B1".toList, [], []), ("B2".toList, [("Id".toList, "no".toList)], [])] "T".toList [] [.mk "Date".toList [] [] []]
    (fun e he => ⟨"Date".toList, [], [], [], by simpa using he, by decide⟩) rfl rfl rfl rfl (by decide) _ rfl).2.2.1

end City.Props
