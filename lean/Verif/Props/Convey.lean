import Verif.Props.EndToEnd
import Verif.Props.Scene
import Verif.Props.SceneObj
import Verif.Props.Convert

/-! C108: cityformat from OBJ to OFF and back, with nodes that are surfaces. -/

namespace City.Spec
open City
variable {K : Type}

/-- A mesh that all formats can hold: its faces form an oriented surface, its coordinates are doubles with at most six digits, its name is one word and can be
the name of a file. -/
structure Convertible (rnd : ℚ → ℚ) (emb : V3 ℚ → V3 K) (m : Mesh) : Prop where
  surface : PolygonMesh (m.points.map emb) (m.faces.map Face.points)
  holdable : Holdable m
  indexes : Valid m
  digits : FewDigitsMesh m
  doubles : ∀ p ∈ m.points, rnd p.x = p.x ∧ rnd p.y = p.y ∧ rnd p.z = p.z
  file : FileNameOk m.name
  word : NoBlank m.name

/-- The same name and the same polygons in the same order, each begun at any corner; the direction may have changed, for all of them together. -/
def SameBuilding (m r : Mesh) : Prop :=
  r.name = m.name ∧ (List.Forall₂ (fun p q => p ~r q) (polygons m) (polygons r) ∨ List.Forall₂ (fun p q => p.reverse ~r q) (polygons m) (polygons r))

/-- The way back from nodes to meshes: an exact conversion of coordinates, and the constructor of meshes from nodes. -/
structure NodesBack {L : Type} (T : Toolbox (Out (UNode K)) L K) (emb : V3 ℚ → V3 K) (rnd : V3 K → V3 ℚ) : Prop where
  inverse : ∀ p, rnd (emb p) = p
  back : ∀ n m, Mesh.ofNode rnd n = .ok m → T.ops.back (.ok n) = m

/-- The command line of cityformat asks to convert `t` in the format `f` to `o` in the format `g`, and for nothing else. -/
structure AsksConversion (args : Args) (t f o g : Text) : Prop where
  formats : Switch args "--formats" false
  scene : Given args "<scene>" t
  input : Given args "--input-format" f
  prune : Switch args "--prune" false
  graphs : Switch args "--graphs" false
  terrain : ∃ b, Switch args "--terrain" b
  path : Given args "<path>" o
  output : Given args "--output-format" g

/-- The directory iterator lists every entry of a directory once. -/
def Lists {L : Type} (T : Toolbox (Out (UNode K)) L K) : Prop := ∀ (fs : Fs) (p : Path), (∃ names, Listing fs p names) → Listing fs p (T.listing fs p)

/-- What is found again: every mesh, and nothing else except a terrain without faces. -/
def FoundAgain (ms rs : List Mesh) : Prop := (∀ m ∈ ms, ∃ r ∈ rs, SameBuilding m r) ∧
  ∀ r ∈ rs, (∃ m ∈ ms, SameBuilding m r) ∨ (polygons r = [] ∧ r.name = "terrain".toList ∧ "terrain".toList ∉ ms.map Mesh.name)

end City.Spec

namespace City.Props
open City City.Spec

set_option linter.unusedSectionVars false

/-- The same points, the faces turned. -/
structure Turned (m r : Mesh) : Prop where
  name : r.name = m.name
  points : r.points = m.points
  faces : List.Forall₂ (fun f g : Face => f.points ~r g.points) m.faces r.faces ∨ List.Forall₂ (fun f g : Face => f.points.reverse ~r g.points) m.faces r.faces

theorem turned_face {m r : Mesh} (h : Turned m r) {g : Face} (hg : g ∈ r.faces) : ∃ f ∈ m.faces, f.points.Perm g.points := by
  rcases h.faces with h | h
  · obtain ⟨f, hf, k⟩ := forall₂_mem_right h g hg
    exact ⟨f, hf, k.perm⟩
  · obtain ⟨f, hf, k⟩ := forall₂_mem_right h g hg
    exact ⟨f, hf, (List.reverse_perm _).symm.trans k.perm⟩

theorem turned_length {m r : Mesh} (h : Turned m r) : r.faces.length = m.faces.length := by
  rcases h.faces with h | h <;> exact h.length_eq.symm

theorem turned_valid {m r : Mesh} (h : Turned m r) (hm : Valid m) : Valid r := by
  intro g hg i hi
  obtain ⟨f, hf, k⟩ := turned_face h hg
  rw [h.points]
  exact hm f hf i (k.mem_iff.2 hi)

theorem turned_holdable {m r : Mesh} (h : Turned m r) (hm : Holdable m) : Holdable r := by
  refine ⟨by rw [h.points]; exact hm.finite, fun g hg => ?_, ⟨by rw [h.points]; exact hm.small.1, by rw [turned_length h]; exact hm.small.2.1, fun g hg => ?_⟩, fun g hg i hi => ?_⟩
  · obtain ⟨f, hf, k⟩ := turned_face h hg
    show 3 ≤ g.points.length
    rw [← k.length_eq]
    exact hm.degree f hf
  · obtain ⟨f, hf, k⟩ := turned_face h hg
    show g.points.length < _
    rw [← k.length_eq]
    exact hm.small.2.2 f hf
  · obtain ⟨f, hf, k⟩ := turned_face h hg
    exact hm.index f hf i (k.mem_iff.2 hi)

theorem turned_same {m r : Mesh} (h : Turned m r) : SameBuilding m r := by
  refine ⟨h.name, ?_⟩
  unfold polygons
  rw [h.points]
  refine h.faces.imp (fun k => ?_) fun k => ?_
  · rw [List.forall₂_map_left_iff, List.forall₂_map_right_iff]
    exact k.imp fun _ _ e => e.map _
  · rw [List.forall₂_map_left_iff, List.forall₂_map_right_iff]
    refine k.imp fun _ _ e => ?_
    unfold polygon
    rw [← List.map_reverse]
    exact e.map _

theorem turned_cycle {m r s : Mesh} (h : Turned m r) (h1 : s.name = r.name) (h2 : s.points = r.points) (h3 : List.Forall₂ SameCycle r.faces s.faces) : Turned m s := by
  refine ⟨h1.trans h.name, h2.trans h.points, ?_⟩
  have comp : ∀ {R : Face → Face → Prop} {a b c : List Face}, (∀ f g k, R f g → SameCycle g k → R f k) → List.Forall₂ R a b → List.Forall₂ SameCycle b c → List.Forall₂ R a c := by
    intro R a b c hR k1
    induction k1 generalizing c with
    | nil => intro k2; cases k2; exact .nil
    | cons e _ ih => intro k2; cases k2 with | cons e' t => exact .cons (hR _ _ _ e e') (ih t)
  exact h.faces.imp (fun k => comp (fun _ _ _ a b => a.trans b) k h3) fun k => comp (fun _ _ _ a b => a.trans b) k h3

variable {L : Type} {K : Type} [Field K] [LinearOrder K] [IsStrictOrderedRing K] [FloorRing K]

/-- From a mesh to a node and back, and once more. -/
theorem back_twice {T : Toolbox (Out (UNode K)) L K} {lib : SoupLib K} {emb : V3 ℚ → V3 K} {rnd : V3 K → V3 ℚ} (U : UsesNodes T lib emb) (B : NodesBack T emb rnd)
    (hL : SoupLaw lib) {m : Mesh} (hm : Convertible T.rnd emb m) (ref : V3 ℚ) (epsg : Nat) :
    Turned m (T.ops.back (T.ops.node m ref epsg)) ∧ ∀ (r : Mesh) (ref' : V3 ℚ) (epsg' : Nat), r.name = (T.ops.back (T.ops.node m ref epsg)).name →
      r.points = (T.ops.back (T.ops.node m ref epsg)).points → r.faces = (T.ops.back (T.ops.node m ref epsg)).faces → Turned m (T.ops.back (T.ops.node r ref' epsg')) := by
  obtain ⟨n, m', h1, h2, h3, h4, -, h5, h6⟩ := C73_round_trip hL B.inverse m ref epsg hm.surface
  have hT : Turned m m' := by
    refine ⟨h3, h4, ?_⟩
    by_cases e : ∃ S, Represents S (m.points.map emb) (m.faces.map Face.points) ∧ ClosedSurf S ∧ lib.outward S = false
    · exact .inr (h5 e)
    · exact .inl (h6 fun S R c => e ⟨S, R, c⟩)
  have hb : T.ops.back (T.ops.node m ref epsg) = m' := by rw [U.node, h1, B.back n m' h2]
  rw [hb]
  refine ⟨hT, fun r ref' epsg' r1 r2 r3 => ?_⟩
  obtain ⟨n', m'', k1, k2, k3, k4, k5⟩ := C73_idempotent hL B.inverse m m' n ref ref' epsg epsg' hm.surface h1 h2
  have e : UNode.ofMesh lib emb r ref' epsg' = UNode.ofMesh lib emb m' ref' epsg' := by
    unfold UNode.ofMesh
    rw [r1, r2, r3]
  rw [U.node, e, k1, B.back n' m'' k2]
  exact turned_cycle hT k3 k4 k5

/-- The surface without points. -/
def noSurf : Surf K where
  hs := []
  fs := []
  vs := []
  next := _root_.id
  prev := _root_.id
  opp := _root_.id
  vert := _root_.id
  face := fun _ => none
  start := _root_.id
  pt := fun _ => ⟨0, 0, 0⟩
  fid := _root_.id

theorem noSurf_represents : Represents (noSurf : Surf K) [] [] := by
  refine ⟨⟨?_, ?_, ?_, ?_, ?_, ?_, ?_, ?_, ?_, ?_, ?_, ?_, ?_, ?_, ?_, ?_, ?_, ?_, ?_⟩, ?_, ?_, ?_, ?_, ?_, ?_, ?_⟩ <;> simp [noSurf, Surf.points]

/-- What is made of the terrain of an OBJ file. -/
theorem terrain_of {rnd : ℚ → ℚ} {emb : V3 ℚ → V3 K} {ms : List Mesh} (hm : ∀ m ∈ ms, Convertible rnd emb m) (hn : (ms.map Mesh.name).Nodup) :
    ∃ tr, excludeMesh "terrain".toList ms = (ms.filter (fun m => m.name != "terrain".toList), tr) ∧ tr.name = "terrain".toList ∧ Convertible rnd emb tr ∧
      ((∃ m ∈ ms, m.name = "terrain".toList ∧ tr.points = m.points ∧ tr.faces = m.faces) ∨ (tr.faces = [] ∧ "terrain".toList ∉ ms.map Mesh.name)) ∧
      ((ms.filter (fun m => m.name != "terrain".toList) ++ [tr]).flatMap (·.points)).length = (ms.flatMap (·.points)).length := by
  refine ⟨_, exclude_eq _ _, rfl, ?_⟩
  have hlen : (ms.flatMap (·.points)).length = ((ms.filter (fun m => m.name != "terrain".toList)).flatMap (·.points)).length +
      ((ms.filter (fun m => m.name == "terrain".toList)).flatMap (·.points)).length := by
    clear hm hn
    induction ms with
    | nil => rfl
    | cons m ms ih =>
      by_cases e : m.name = "terrain".toList
      · rw [List.filter_cons_of_neg (by simp [e]), List.filter_cons_of_pos (by simp [e]), List.flatMap_cons, List.flatMap_cons, List.length_append, List.length_append, ih]
        omega
      · rw [List.filter_cons_of_pos (by simpa using e), List.filter_cons_of_neg (by simpa using e), List.flatMap_cons, List.flatMap_cons, List.length_append, List.length_append, ih]
        omega
  have hfile : FileNameOk "terrain".toList := by unfold FileNameOk; decide
  have hword : NoBlank "terrain".toList := by unfold NoBlank; decide
  rw [List.flatMap_append, List.length_append, hlen]
  cases hfl : ms.filter (fun m => m.name == "terrain".toList) with
  | nil =>
    refine ⟨⟨⟨noSurf, noSurf_represents⟩, ⟨?_, ?_, ⟨?_, ?_, ?_⟩, ?_⟩, ?_, ?_, ?_, hfile, hword⟩, .inr ⟨rfl, ?_⟩, ?_⟩
    · exact fun p hp => absurd hp (by simp [Mesh.sumFrom, Mesh.setName, Mesh.empty])
    · exact fun p hp => absurd hp (by simp [Mesh.sumFrom, Mesh.setName, Mesh.empty])
    · simp [Mesh.sumFrom, Mesh.setName, Mesh.empty]
    · simp [Mesh.sumFrom, Mesh.setName, Mesh.empty]
    · exact fun p hp => absurd hp (by simp [Mesh.sumFrom, Mesh.setName, Mesh.empty])
    · exact fun p hp => absurd hp (by simp [Mesh.sumFrom, Mesh.setName, Mesh.empty])
    · exact fun p hp => absurd hp (by simp [Mesh.sumFrom, Mesh.setName, Mesh.empty])
    · exact fun p hp => absurd hp (by simp [Mesh.sumFrom, Mesh.setName, Mesh.empty])
    · exact fun p hp => absurd hp (by simp [Mesh.sumFrom, Mesh.setName, Mesh.empty])
    · intro h
      obtain ⟨m, h1, h2⟩ := List.mem_map.1 h
      have : m ∈ ms.filter (fun m => m.name == "terrain".toList) := List.mem_filter.2 ⟨h1, by simp [h2]⟩
      rw [hfl] at this
      cases this
    · simp [Mesh.sumFrom, Mesh.setName, Mesh.empty]
  | cons m l =>
    have hl : l = [] := by
      cases l with
      | nil => rfl
      | cons m' l =>
        have h1 : (ms.filter (fun m => m.name == "terrain".toList)).map Mesh.name |>.Nodup := hn.sublist (List.filter_sublist.map _)
        have h2 : ∀ k ∈ ms.filter (fun m => m.name == "terrain".toList), k.name = "terrain".toList := fun k hk => by simpa using (List.mem_filter.1 hk).2
        rw [hfl] at h1 h2
        rw [List.map_cons, List.map_cons, h2 m (by simp), h2 m' (by simp)] at h1
        simp at h1
    subst hl
    have hmem : m ∈ ms.filter (fun m => m.name == "terrain".toList) := by rw [hfl]; simp
    have hms := (List.mem_filter.1 hmem).1
    have hname : m.name = "terrain".toList := by simpa using (List.mem_filter.1 hmem).2
    have hc := hm m hms
    have he : m.points = [] → m.faces = [] := by
      intro e
      by_contra hne
      obtain ⟨f, hf⟩ := List.exists_mem_of_ne_nil _ hne
      have h3 : 3 ≤ f.points.length := hc.holdable.degree f hf
      cases hp : f.points with
      | nil => rw [hp] at h3; simp at h3
      | cons i k =>
        have := hc.indexes f hf i (by rw [hp]; simp)
        rw [e] at this
        simp at this
    obtain ⟨-, e2, e3⟩ := (C13_identity m he).1
    have q2 : ((Mesh.sumFrom Mesh.empty [m]).setName "terrain".toList).points = m.points := e2
    have q3 : ((Mesh.sumFrom Mesh.empty [m]).setName "terrain".toList).faces = m.faces := e3
    have q1 : ((Mesh.sumFrom Mesh.empty [m]).setName "terrain".toList).name = m.name := hname.symm
    generalize (Mesh.sumFrom Mesh.empty [m]).setName "terrain".toList = tr at q1 q2 q3 ⊢
    have hT : Turned m tr := ⟨q1, q2, .inl (by rw [q3]; exact List.forall₂_same.2 fun _ _ => List.IsRotated.refl _)⟩
    refine ⟨⟨by rw [q2, q3]; exact hc.surface, turned_holdable hT hc.holdable, turned_valid hT hc.indexes, by unfold FewDigitsMesh; rw [q2]; exact hc.digits,
      by rw [q2]; exact hc.doubles, by rw [q1]; exact hc.file, by rw [q1]; exact hc.word⟩, .inl ⟨m, hms, hname, q2, q3⟩, ?_⟩
    simp [q2]

/-- What is read back of a mesh with few digits. -/
theorem points_back {rnd : ℚ → ℚ} {m r : Mesh} (hd : FewDigitsMesh m) (hx : ∀ p ∈ m.points, rnd p.x = p.x ∧ rnd p.y = p.y ∧ rnd p.z = p.z)
    (hf : ∀ p ∈ m.points, FinitePoint p) (h : MeshReadBack rnd m r) : r.name = m.name ∧ r.points = m.points ∧ r.faces = m.faces := by
  refine ⟨h.1, ?_, h.2.1⟩
  have key : ∀ {a b : List (V3 ℚ)}, (∀ p ∈ a, p ∈ m.points) → List.Forall₂ (ReadBack rnd) a b → b = a := by
    intro a b hs k
    induction k with
    | nil => rfl
    | @cons p q a b e _ ih =>
      rw [ih fun x hx => hs x (List.mem_cons_of_mem _ hx)]
      have hp := hs p List.mem_cons_self
      have e1 := readBack_readPt rnd (hf p hp)
      rw [readPt_exact (hd p hp) (hx p hp)] at e1
      obtain ⟨a1, a2, a3⟩ := e1
      obtain ⟨b1, b2, b3⟩ := e
      rw [a1] at b1
      rw [a2] at b2
      rw [a3] at b3
      cases p
      cases q
      simp at b1 b2 b3
      simp [b1, b2, b3]
  exact key (fun _ h => h) h.2.2.1

/-- The scene of an OBJ file, converted to OFF: a directory with the meshes, turned. -/
theorem to_off {T : Toolbox (Out (UNode K)) L K} {lib : SoupLib K} {emb : V3 ℚ → V3 K} {rnd : V3 K → V3 ℚ} (U : UsesNodes T lib emb) (B : NodesBack T emb rnd)
    (hL : SoupLaw lib) {bs : List Mesh} {tr : Mesh} (hbs : ∀ m ∈ bs ++ [tr], Convertible T.rnd emb m) (hn : (bs.map Mesh.name).Nodup)
    (hnt : "terrain".toList ∉ bs.map Mesh.name) (ref : V3 ℚ) (epsg : Nat) :
    WritableScene ((Scene.make T.ops bs tr ref epsg).buildings.map T.ops.back) (T.ops.back (Scene.make T.ops bs tr ref epsg).terrain) := by
  have hT : ∀ m ∈ bs ++ [tr], Turned m (T.ops.back (T.ops.node m ref epsg)) := fun m hm => (back_twice U B hL (hbs m hm) ref epsg).1
  have hnames : ((Scene.make T.ops bs tr ref epsg).buildings.map T.ops.back).map (·.name) = bs.map Mesh.name := by
    show ((bs.map fun b => T.ops.node b ref epsg).map T.ops.back).map _ = _
    rw [List.map_map, List.map_map]
    exact List.map_congr_left fun m hm => (hT m (List.mem_append_left _ hm)).name
  have hall : ∀ k ∈ T.ops.back (Scene.make T.ops bs tr ref epsg).terrain :: (Scene.make T.ops bs tr ref epsg).buildings.map T.ops.back,
      ∃ m ∈ bs ++ [tr], k = T.ops.back (T.ops.node m ref epsg) := by
    intro k hk
    rcases List.mem_cons.1 hk with rfl | hk
    · exact ⟨tr, by simp, rfl⟩
    · obtain ⟨n, hn', rfl⟩ := List.mem_map.1 hk
      obtain ⟨m, hm, rfl⟩ := List.mem_map.1 (show n ∈ bs.map fun b => T.ops.node b ref epsg from hn')
      exact ⟨m, List.mem_append_left _ hm, rfl⟩
  refine ⟨fun k hk => ?_, fun k hk => ?_, by rw [hnames]; exact hn, by rw [hnames]; exact hnt⟩
  · obtain ⟨m, hm, rfl⟩ := hall k hk
    exact turned_holdable (hT m hm) (hbs m hm).holdable
  · obtain ⟨m, hm, rfl⟩ := hall k hk
    rw [(hT m hm).name]
    exact (hbs m hm).file

theorem turned_points {a b : List Mesh} (h : List.Forall₂ Turned a b) : (b.flatMap (·.points)).length = (a.flatMap (·.points)).length ∧ b.map (·.name) = a.map (·.name) := by
  induction h with
  | nil => exact ⟨rfl, rfl⟩
  | cons e _ ih => exact ⟨by rw [List.flatMap_cons, List.flatMap_cons, List.length_append, List.length_append, ih.1, e.points], by rw [List.map_cons, List.map_cons, ih.2, e.name]⟩

/-- From the meshes with their terrain taken out to the meshes. -/
theorem found_of {ms rs : List Mesh} {tr : Mesh} (htr : tr.name = "terrain".toList)
    (h : (∃ m ∈ ms, m.name = "terrain".toList ∧ tr.points = m.points ∧ tr.faces = m.faces) ∨ (tr.faces = [] ∧ "terrain".toList ∉ ms.map Mesh.name))
    (h1 : ∀ m ∈ ms.filter (fun m => m.name != "terrain".toList) ++ [tr], ∃ r ∈ rs, SameBuilding m r)
    (h2 : ∀ r ∈ rs, ∃ m ∈ ms.filter (fun m => m.name != "terrain".toList) ++ [tr], SameBuilding m r) (hn : (ms.map Mesh.name).Nodup) : FoundAgain ms rs := by
  refine ⟨fun m hm => ?_, fun r hr => ?_⟩
  · by_cases e : m.name = "terrain".toList
    · rcases h with ⟨k, k1, k2, k3, k4⟩ | ⟨-, k⟩
      · have : k = m := List.inj_on_of_nodup_map hn k1 hm (k2.trans e.symm)
        subst this
        obtain ⟨r, hr, r1, r2⟩ := h1 tr (by simp)
        refine ⟨r, hr, by rw [r1, htr, k2], ?_⟩
        unfold polygons at r2 ⊢
        rw [k3, k4] at r2
        exact r2
      · exact absurd (List.mem_map.2 ⟨m, hm, e⟩) k
    · exact h1 m (List.mem_append_left _ (List.mem_filter.2 ⟨hm, by simpa using e⟩))
  · obtain ⟨m, hm, s1, s2⟩ := h2 r hr
    rcases List.mem_append.1 hm with hm | hm
    · exact .inl ⟨m, (List.mem_filter.1 hm).1, s1, s2⟩
    · rw [List.mem_singleton] at hm
      subst hm
      rcases h with ⟨k, k1, k2, k3, k4⟩ | ⟨k1, k2⟩
      · refine .inl ⟨k, k1, by rw [s1, htr, k2], ?_⟩
        unfold polygons at s2 ⊢
        rw [k3, k4] at s2
        exact s2
      · refine .inr ⟨?_, by rw [s1, htr], k2⟩
        have : polygons m = [] := by unfold polygons; rw [k1]; rfl
        rw [this] at s2
        exact s2.elim List.forall₂_nil_left_iff.1 List.forall₂_nil_left_iff.1

section
variable {T : Toolbox (Out (UNode K)) L K} {lib : SoupLib K} {emb : V3 ℚ → V3 K} {rnd : V3 K → V3 ℚ}

/-- The first run, and what the next one reads. -/
theorem first_run (U : UsesNodes T lib emb) (B : NodesBack T emb rnd) (hL : SoupLaw lib) (args : Args) (fs : Fs) (t x o : Text) (ms : List Mesh)
    (ha : AsksConversion args t "OBJ".toList o "OFF".toList) (hext : NamedLike (splitSlash t) "obj".toList) (hfile : fs (splitSlash t) = some (.file x))
    (hread : Obj.read T.rnd x = .ok ms) (hd : FreshDirectory fs (splitSlash o)) (hm : ∀ m ∈ ms, Convertible T.rnd emb m) (hn : (ms.map Mesh.name).Nodup) :
    ∃ fs' tr, formatMain T args fs = (.ok 0, fs') ∧ (∃ names, Listing fs' (splitSlash o) names) ∧ tr.name = "terrain".toList ∧ Convertible T.rnd emb tr ∧
      ((∃ m ∈ ms, m.name = "terrain".toList ∧ tr.points = m.points ∧ tr.faces = m.faces) ∨ (tr.faces = [] ∧ "terrain".toList ∉ ms.map Mesh.name)) ∧
      ((ms.filter (fun m => m.name != "terrain".toList) ++ [tr]).flatMap (·.points)).length = (ms.flatMap (·.points)).length ∧
      ∀ names rm, OpenedRead rm → Listing fs' (splitSlash o) names → ∃ bs r l, sceneRead T.ops T.lib T.rnd T.lf .off rm (splitSlash o) names fs' =
          .ok (Scene.make T.ops bs r ⟨0, 0, 0⟩ 2154) ∧ l.Perm (ms.filter (fun m => m.name != "terrain".toList)) ∧
        List.Forall₂ (fun m r => (Turned m r ∧ r.faces = (T.ops.back (T.ops.node m ⟨0, 0, 0⟩ 2154)).faces) ∧ Turned m (T.ops.back (T.ops.node r ⟨0, 0, 0⟩ 2154))) (l ++ [tr]) (bs ++ [r]) := by
  obtain ⟨tr, t1, t2, t3, t4, t5⟩ := terrain_of hm hn
  have hF : sceneHandlerNamed (splitSlash t) "OBJ".toList = .ok .obj := by
    rw [(C31_formats _ _ _).1]
    refine Or.inr (Or.inr (Or.inr ⟨rfl, rfl, ?_⟩))
    exact (iequals_ext (e := "obj".toList) (by decide)).2 hext
  obtain ⟨b, tr', h1, h2⟩ := C29_scene T.ops T.rnd readMode (splitSlash t) fs x ms (by unfold OpenedRead; decide) hfile hread
  rw [t1] at h1
  cases h1
  obtain ⟨te, hte⟩ := ha.terrain
  generalize hb : ms.filter (fun m => m.name != "terrain".toList) = b at *
  have hbm : ∀ m ∈ b, m ∈ ms ∧ m.name ≠ "terrain".toList := by
    intro m hm
    rw [← hb, List.mem_filter] at hm
    exact ⟨hm.1, by simpa using hm.2⟩
  have hin : InputIs T args fs t te (Scene.make T.ops b tr ⟨0, 0, 0⟩ 2154) :=
    ⟨ha.scene, hte, "OBJ".toList, .obj, _, false, ha.input, hF, h2, ha.prune, by simp, fun _ => rfl⟩
  have hc : ∀ m ∈ b ++ [tr], Convertible T.rnd emb m := by
    intro m hm'
    rcases List.mem_append.1 hm' with k | k
    · exact hm m (hbm m k).1
    · rw [List.mem_singleton] at k
      subst k
      exact t3
  have hbn : (b.map Mesh.name).Nodup := by rw [← hb]; exact hn.sublist (List.filter_sublist.map _)
  have hbt : "terrain".toList ∉ b.map Mesh.name := by
    intro h
    obtain ⟨m, k1, k2⟩ := List.mem_map.1 h
    exact (hbm m k1).2 k2
  have hW := to_off U B hL hc hbn hbt ⟨0, 0, 0⟩ 2154
  have hT : ∀ m ∈ b ++ [tr], Turned m (T.ops.back (T.ops.node m ⟨0, 0, 0⟩ 2154)) := fun m hm => (back_twice U B hL (hc m hm) _ _).1
  have htn : (T.ops.back (Scene.make T.ops b tr ⟨0, 0, 0⟩ 2154).terrain).name = "terrain".toList := by
    rw [show T.ops.back (Scene.make T.ops b tr ⟨0, 0, 0⟩ 2154).terrain = T.ops.back (T.ops.node tr ⟨0, 0, 0⟩ 2154) from rfl, (hT tr (by simp)).name, t2]
  obtain ⟨fs', k1, k2⟩ := C30_round_trip_partial T.ops T.lib T.rnd T.lf writeMode readMode (splitSlash o) fs _ openedWrite_writeMode (by unfold OpenedRead; decide) hd hW htn
  obtain ⟨fs₂, w1, w2, w3, w4⟩ := scene_written T.ops writeMode (splitSlash o) fs _ openedWrite_writeMode hd _ _ rfl rfl hW (by rw [htn]; exact hW.notTerrain)
  rw [k1] at w1
  cases w1
  refine ⟨fs', tr, ?_, ?_, t2, t3, t4, t5, fun names rm hrm hl => ?_⟩
  · unfold formatMain mainOf
    rw [format_of T ha.formats hin ha.graphs ha.path ha.output (F := .off) (by rfl), k1]
  · refine ⟨((Scene.make T.ops b tr ⟨0, 0, 0⟩ 2154).buildings.map T.ops.back ++ [T.ops.back (Scene.make T.ops b tr ⟨0, 0, 0⟩ 2154).terrain]).map
      (fun m => m.name ++ ".off".toList), ?_, fun n => ?_⟩
    · rw [show (fun m : Mesh => m.name ++ ".off".toList) = (fun n => n ++ ".off".toList) ∘ (·.name) from rfl, ← List.map_map]
      refine List.Nodup.map (List.append_left_injective _) ?_
      rw [List.map_append, List.nodup_append]
      refine ⟨hW.distinct, by simp, fun a h1 c h2 e => ?_⟩
      rw [List.map_singleton, List.mem_singleton, htn] at h2
      subst h2
      subst e
      exact hW.notTerrain h1
    · constructor
      · intro h
        obtain ⟨m, m1, rfl⟩ := List.mem_map.1 h
        have := w3 m m1
        show fs' (offPath (splitSlash o) m) ≠ none
        rw [this]
        simp
      · intro h
        by_contra hne
        exact h (w4 n fun m hm e => hne (List.mem_map.2 ⟨m, hm, e.symm⟩))
  · obtain ⟨fs₃, v1, v2⟩ := C30_round_trip_partial T.ops T.lib T.rnd T.lf writeMode rm (splitSlash o) fs _ openedWrite_writeMode hrm hd hW htn
    rw [k1] at v1
    cases v1
    obtain ⟨bs, r, e1, e2, bs₀, e3, e4⟩ := v2 names hl
    have e3' : bs₀.Perm (b.map fun m => T.ops.back (T.ops.node m ⟨0, 0, 0⟩ 2154)) := by
      have : (Scene.make T.ops b tr ⟨0, 0, 0⟩ 2154).buildings.map T.ops.back = b.map fun m => T.ops.back (T.ops.node m ⟨0, 0, 0⟩ 2154) := by
        show (b.map fun m => T.ops.node m ⟨0, 0, 0⟩ 2154).map T.ops.back = _
        rw [List.map_map]
        rfl
      rw [← this]
      exact e3
    obtain ⟨l, l1, rfl⟩ := perm_map_exists _ e3'
    have one : ∀ m ∈ b ++ [tr], ∀ r, MeshReadBack T.rnd (T.ops.back (T.ops.node m ⟨0, 0, 0⟩ 2154)) r →
        (Turned m r ∧ r.faces = (T.ops.back (T.ops.node m ⟨0, 0, 0⟩ 2154)).faces) ∧ Turned m (T.ops.back (T.ops.node r ⟨0, 0, 0⟩ 2154)) := by
      intro m hm' r hr
      have c := hc m hm'
      have q := hT m hm'
      obtain ⟨a1, a2, a3⟩ := points_back (by unfold FewDigitsMesh; rw [q.points]; exact c.digits) (by rw [q.points]; exact c.doubles) (by rw [q.points]; exact c.holdable.finite) hr
      exact ⟨⟨⟨a1.trans q.name, a2.trans q.points, by rw [a3]; exact q.faces⟩, a3⟩, (back_twice U B hL c _ _).2 r _ _ a1 a2 a3⟩
    refine ⟨bs, r, l, e1, l1, List.rel_append ?_ (.cons (one tr (by simp) r e2) .nil)⟩
    rw [List.forall₂_map_left_iff] at e4
    refine List.forall₂_iff_zip.2 ⟨e4.length_eq, fun {m r'} hz => ?_⟩
    exact one m (List.mem_append_left _ (l1.mem_iff.1 (List.of_mem_zip hz).1)) r' (List.forall₂_iff_zip.1 e4 |>.2 hz)

/-- C108: cityformat from OBJ to a directory of OFF files: whoever reads the directory finds the meshes of the OBJ file again. -/
theorem C108_off (U : UsesNodes T lib emb) (B : NodesBack T emb rnd) (hL : SoupLaw lib) (args : Args) (fs : Fs) (t x o : Text) (ms : List Mesh)
    (ha : AsksConversion args t "OBJ".toList o "OFF".toList) (hext : NamedLike (splitSlash t) "obj".toList) (hfile : fs (splitSlash t) = some (.file x))
    (hread : Obj.read T.rnd x = .ok ms) (hd : FreshDirectory fs (splitSlash o)) (hm : ∀ m ∈ ms, Convertible T.rnd emb m) (hn : (ms.map Mesh.name).Nodup) :
    ∃ fs', formatMain T args fs = (.ok 0, fs') ∧ ∀ names rm, OpenedRead rm → Listing fs' (splitSlash o) names → ∃ bs r,
      sceneRead T.ops T.lib T.rnd T.lf .off rm (splitSlash o) names fs' = .ok (Scene.make T.ops bs r ⟨0, 0, 0⟩ 2154) ∧ FoundAgain ms (bs ++ [r]) ∧
      r.name = "terrain".toList ∧ "terrain".toList ∉ bs.map Mesh.name := by
  obtain ⟨fs', tr, h1, -, h2, -, h3, -, h4⟩ := first_run U B hL args fs t x o ms ha hext hfile hread hd hm hn
  refine ⟨fs', h1, fun names rm hrm hl => ?_⟩
  obtain ⟨bs, r, l, k1, k2, k3⟩ := h4 names rm hrm hl
  have p : (l ++ [tr]).Perm (ms.filter (fun m => m.name != "terrain".toList) ++ [tr]) := k2.append_right _
  have names : bs.map Mesh.name = l.map Mesh.name ∧ r.name = "terrain".toList := by
    have := (turned_points (k3.imp fun _ _ h => h.1.1)).2
    rw [List.map_append, List.map_append] at this
    obtain ⟨a, b⟩ := List.append_inj' this rfl
    exact ⟨a, by rw [List.map_singleton, List.map_singleton] at b; rw [← h2]; exact List.head_eq_of_cons_eq b⟩
  refine ⟨bs, r, k1, found_of h2 h3 (fun m hm' => ?_) (fun q hq => ?_) hn, ?_, ?_⟩
  · obtain ⟨q, q1, q2⟩ := forall₂_mem_left k3 m (p.mem_iff.2 hm')
    exact ⟨q, q1, turned_same q2.1.1⟩
  · obtain ⟨m, m1, m2⟩ := forall₂_mem_right k3 q hq
    exact ⟨m, p.mem_iff.1 m1, turned_same m2.1.1⟩
  · exact names.2
  · rw [names.1]
    intro h
    obtain ⟨m, m1, m2⟩ := List.mem_map.1 h
    have := (List.mem_filter.1 (k2.mem_iff.1 m1)).2
    rw [m2] at this
    simp at this

/-- C108: and back to OBJ: the file made of the directory holds the meshes of the first file. -/
theorem C108_there_and_back (U : UsesNodes T lib emb) (B : NodesBack T emb rnd) (hL : SoupLaw lib) (hlist : Lists T) (hr : ∀ n : ℕ, n ≤ 2 ^ 53 → T.rnd n = n)
    (args args' : Args) (fs : Fs) (t x o o' : Text) (ms : List Mesh)
    (ha : AsksConversion args t "OBJ".toList o "OFF".toList) (hext : NamedLike (splitSlash t) "obj".toList) (hfile : fs (splitSlash t) = some (.file x))
    (hread : Obj.read T.rnd x = .ok ms) (hd : FreshDirectory fs (splitSlash o)) (hm : ∀ m ∈ ms, Convertible T.rnd emb m) (hn : (ms.map Mesh.name).Nodup)
    (hsmall : (ms.flatMap (·.points)).length ≤ 2 ^ 53) (ha' : AsksConversion args' o "OFF".toList o' "OBJ".toList) (hext' : NamedLike (splitSlash o') "obj".toList)
    (hw : Writable fs (splitSlash o')) (hout : ¬ Within (splitSlash o) (splitSlash o')) :
    ∃ fs' fs'' y rs, formatMain T args fs = (.ok 0, fs') ∧ formatMain T args' fs' = (.ok 0, fs'') ∧
      fs'' (splitSlash o') = some (.file y) ∧ Obj.read T.rnd y = .ok rs ∧ (rs.map Mesh.name).Nodup ∧ FoundAgain ms rs := by
  obtain ⟨fs', tr, h1, hex, h2, hct, h3, hlen, h4⟩ := first_run U B hL args fs t x o ms ha hext hfile hread hd hm hn
  have same : ∀ q, ¬ Within (splitSlash o) q → fs' q = fs q := by
    intro q hq
    by_contra hne
    obtain ⟨t', o₁, f', e1, e2, e3, -, e4⟩ := C67_format_confined T args fs q (by rw [h1]; exact hne)
    rcases e4 with ⟨e4, -⟩ | e4
    · have := ha.graphs
      unfold Asked at e4
      unfold Switch at this
      rw [e4] at this
      simp at this
    · have := ha.path
      unfold Given at this
      rw [e2] at this
      cases this
      exact hq e4
  replace hw : Writable fs' (splitSlash o') := by
    rcases hw with ⟨c, hc⟩ | ⟨e1, d, n, e2, e3⟩
    · exact .inl ⟨c, by rw [same _ hout, hc]⟩
    · refine .inr ⟨by rw [same _ hout, e1], d, n, e2, ?_⟩
      rw [same d, e3]
      rintro ⟨z, hz⟩
      exact hout ⟨z ++ [n], by rw [e2, hz, List.append_assoc]⟩
  obtain ⟨bs, r, l, k1, k2, k3⟩ := h4 _ readMode (by unfold OpenedRead; decide) (hlist fs' _ hex)
  have p : (l ++ [tr]).Perm (ms.filter (fun m => m.name != "terrain".toList) ++ [tr]) := k2.append_right _
  obtain ⟨te, hte⟩ := ha'.terrain
  have hin : InputIs T args' fs' o te (Scene.make T.ops bs r ⟨0, 0, 0⟩ 2154) :=
    ⟨ha'.scene, hte, "OFF".toList, .off, _, false, ha'.input, by rfl, k1, ha'.prune, by simp, fun _ => rfl⟩
  obtain ⟨fs'', y, e1, e2, e3, -⟩ := C86_format_obj T args' fs' o o' te _ ha'.formats hin ha'.graphs ha'.path ha'.output hext' hw
  have hW : (Scene.make T.ops bs r ⟨0, 0, 0⟩ 2154).buildings.map T.ops.back ++ [T.ops.back (Scene.make T.ops bs r ⟨0, 0, 0⟩ 2154).terrain] =
      (bs ++ [r]).map fun q => T.ops.back (T.ops.node q ⟨0, 0, 0⟩ 2154) := by
    show (bs.map fun m => T.ops.node m ⟨0, 0, 0⟩ 2154).map T.ops.back ++ [T.ops.back (T.ops.node r ⟨0, 0, 0⟩ 2154)] = _
    rw [List.map_map, List.map_append]
    rfl
  rw [hW] at e2
  have hF : List.Forall₂ Turned (l ++ [tr]) ((bs ++ [r]).map fun q => T.ops.back (T.ops.node q ⟨0, 0, 0⟩ 2154)) := by
    rw [List.forall₂_map_right_iff]
    exact k3.imp fun _ _ h => h.2
  generalize (bs ++ [r]).map (fun q => T.ops.back (T.ops.node q ⟨0, 0, 0⟩ 2154)) = W at e2 hF
  have hc : ∀ m ∈ l ++ [tr], Convertible T.rnd emb m := by
    intro m hm'
    rcases List.mem_append.1 (p.mem_iff.1 hm') with k | k
    · exact hm m (List.mem_filter.1 k).1
    · rw [List.mem_singleton] at k
      subst k
      exact hct
  have hWT : ∀ w ∈ W, ∃ m ∈ l ++ [tr], Turned m w := fun w hw => forall₂_mem_right hF w hw
  obtain ⟨q1, q2⟩ := turned_points hF
  have hnod : (W.map (·.name)).Nodup := by
    rw [q2, (p.map _).nodup_iff, List.map_append, List.nodup_append]
    refine ⟨hn.sublist (List.filter_sublist.map _), by simp, fun a h1 c h2' e => ?_⟩
    rw [List.map_singleton, List.mem_singleton, h2] at h2'
    subst h2'
    subst e
    obtain ⟨m, m1, m2⟩ := List.mem_map.1 h1
    have := (List.mem_filter.1 m1).2
    rw [m2] at this
    simp at this
  have hready : ObjReady W := by
    refine ⟨fun w hw => ?_, fun w hw => ?_, fun w hw => ?_, fun w hw => ?_, ?_⟩
    · obtain ⟨m, m1, m2⟩ := hWT w hw
      rw [m2.points]
      exact (hc m m1).holdable.finite
    · obtain ⟨m, m1, m2⟩ := hWT w hw
      exact (turned_holdable m2 (hc m m1).holdable).degree
    · obtain ⟨m, m1, m2⟩ := hWT w hw
      exact turned_valid m2 (hc m m1).indexes
    · obtain ⟨m, m1, m2⟩ := hWT w hw
      rw [m2.name]
      exact (hc m m1).word
    · rw [q1, (p.flatMap_right _).length_eq, hlen]
      exact hsmall
  have hne : W ≠ [] := by
    rintro rfl
    have := hF.length_eq
    simp at this
  obtain ⟨y', rs, g1, g2, g3, g4⟩ := C23_exact T.rnd hr W hne hready hnod (fun w hw => by
    obtain ⟨m, m1, m2⟩ := hWT w hw
    unfold FewDigitsMesh
    rw [m2.points]
    exact (hc m m1).digits) (fun w hw => by
    obtain ⟨m, m1, m2⟩ := hWT w hw
    rw [m2.points]
    exact (hc m m1).doubles)
  rw [e2] at g1
  cases g1
  refine ⟨fs', fs'', y, rs, h1, e1, e3, g2, ?_, found_of h2 h3 (fun m hm' => ?_) (fun q hq => ?_) hn⟩
  · have := (g4.map Prod.fst)
    rw [List.map_map, List.map_map] at this
    exact (this.nodup_iff).2 hnod
  · obtain ⟨w, w1, w2⟩ := forall₂_mem_left hF m (p.mem_iff.2 hm')
    have : (w.name, polygons w) ∈ rs.map fun r => (r.name, polygons r) := g4.mem_iff.2 (List.mem_map.2 ⟨w, w1, rfl⟩)
    obtain ⟨r', r1, r2⟩ := List.mem_map.1 this
    obtain ⟨s1, s2⟩ := turned_same w2
    refine ⟨r', r1, by rw [← s1]; exact congrArg Prod.fst r2, ?_⟩
    rw [show polygons r' = polygons w from congrArg Prod.snd r2]
    exact s2
  · have : (q.name, polygons q) ∈ W.map fun m => (m.name, polygons m) := g4.mem_iff.1 (List.mem_map.2 ⟨q, hq, rfl⟩)
    obtain ⟨w, w1, w2⟩ := List.mem_map.1 this
    obtain ⟨m, m1, m2⟩ := hWT w w1
    obtain ⟨s1, s2⟩ := turned_same m2
    refine ⟨m, p.mem_iff.1 m1, by rw [← s1]; exact (congrArg Prod.fst w2).symm, ?_⟩
    rw [← show polygons w = polygons q from congrArg Prod.snd w2]
    exact s2

end

/-! ### Example -/

open Classical in
/-- The tools of the example of C107 with a directory iterator. -/
noncomputable def listTools (lib : SoupLib ℚ) : Toolbox (Out (UNode ℚ)) Unit ℚ :=
  { nodeTools lib with listing := fun fs p => if h : ∃ names, Listing fs p names then h.choose else [] }

theorem listTools_uses (lib : SoupLib ℚ) : UsesNodes (listTools lib) lib _root_.id := ⟨fun _ _ _ => rfl, fun _ => rfl⟩

theorem listTools_back (lib : SoupLib ℚ) : NodesBack (listTools lib) _root_.id _root_.id := by
  refine ⟨fun _ => rfl, fun n m h => ?_⟩
  show (match Out.ok n >>= Mesh.ofNode _root_.id with | .ok m => m | _ => Mesh.empty) = m
  rw [Out.ok_bind, h]

theorem listTools_lists (lib : SoupLib ℚ) : Lists (listTools lib) := by
  intro fs p h
  unfold listTools
  simp only
  rw [dif_pos h]
  exact h.choose_spec

/-- `cityformat t --input-format=f o --output-format=g`. -/
def convArgs (t f o g : Text) : Args := fun n =>
  if n = "<scene>".toList then some (.str t) else
  if n = "--input-format".toList then some (.str f) else
  if n = "<path>".toList then some (.str o) else
  if n = "--output-format".toList then some (.str g) else some (.bool false)

theorem convArgs_asks (t f o g : Text) : AsksConversion (convArgs t f o g) t f o g := by
  refine ⟨?_, ?_, ?_, ?_, ?_, ⟨false, ?_⟩, ?_, ?_⟩ <;> rfl

set_option exponentiation.threshold 2000 in
theorem block_convertible : Convertible _root_.id _root_.id blockMesh := by
  have f0 : FewDigits 0 := ⟨0, 0, by norm_num, by norm_num⟩
  have f2 : FewDigits 2 := ⟨2, 0, by norm_num, by norm_num⟩
  have f3 : FewDigits 3 := ⟨3, 0, by norm_num, by norm_num⟩
  have p0 : |(0 : ℚ)| ≤ dblMax := by unfold dblMax; norm_num
  have p2 : |(2 : ℚ)| ≤ dblMax := by unfold dblMax; norm_num
  have p3 : |(3 : ℚ)| ≤ dblMax := by unfold dblMax; norm_num
  have hp : ∀ p ∈ blockMesh.points, (p.x = 0 ∨ p.x = 2) ∧ (p.y = 0 ∨ p.y = 2) ∧ (p.z = 0 ∨ p.z = 3) := by decide +kernel
  refine ⟨⟨block, by rw [List.map_id]; exact block_represents⟩, ⟨fun p h => ?_, by decide +kernel, ⟨by decide +kernel, by decide +kernel, by decide +kernel⟩, by decide +kernel⟩,
    by decide +kernel, fun p h => ?_, fun _ _ => ⟨rfl, rfl, rfl⟩, by unfold FileNameOk; decide +kernel, by unfold NoBlank; decide +kernel⟩
  · obtain ⟨h1, h2, h3⟩ := hp p h
    exact ⟨by rcases h1 with h | h <;> rw [h] <;> assumption, by rcases h2 with h | h <;> rw [h] <;> assumption, by rcases h3 with h | h <;> rw [h] <;> assumption⟩
  · obtain ⟨h1, h2, h3⟩ := hp p h
    exact ⟨by rcases h1 with h | h <;> rw [h] <;> assumption, by rcases h2 with h | h <;> rw [h] <;> assumption, by rcases h3 with h | h <;> rw [h] <;> assumption⟩

theorem objFs_fresh (x : Text) : FreshDirectory (objFs x) (splitSlash "d/out".toList) := by
  rw [show splitSlash "d/out".toList = ["d".toList, "out".toList] by decide]
  refine ⟨fun n => rfl, .inr ⟨?_, ?_⟩⟩
  · unfold objFs
    rfl
  · unfold objFs
    rfl

theorem objFs_free (x : Text) : Writable (objFs x) (splitSlash "d/b.obj".toList) := by
  rw [show splitSlash "d/b.obj".toList = ["d".toList, "b.obj".toList] by decide]
  refine .inr ⟨?_, ["d".toList], "b.obj".toList, rfl, ?_⟩
  · unfold objFs
    rfl
  · unfold objFs
    rfl

/-- C108: the hypotheses are met by the block: its OBJ file, a directory to be made, and another OBJ file. -/
example (lib : SoupLib ℚ) (hL : SoupLaw lib) : ∃ fs', formatMain (listTools lib) (convArgs "d/a.obj".toList "OBJ".toList "d/out".toList "OFF".toList) (objFs blockObj) = (.ok 0, fs') ∧
    ∃ fs'' y rs, formatMain (listTools lib) (convArgs "d/out".toList "OFF".toList "d/b.obj".toList "OBJ".toList) fs' = (.ok 0, fs'') ∧
      fs'' (splitSlash "d/b.obj".toList) = some (.file y) ∧ Obj.read _root_.id y = .ok rs ∧ (rs.map Mesh.name).Nodup ∧ FoundAgain [blockMesh] rs := by
  obtain ⟨fs', fs'', y, rs, h1, h2⟩ := C108_there_and_back (listTools_uses lib) (listTools_back lib) hL (listTools_lists lib) (fun _ _ => rfl) _ _ (objFs blockObj) _ blockObj _ _ [blockMesh] (convArgs_asks _ _ _ _) objName
    (by decide +kernel) blockObj_read (objFs_fresh _) (by
      intro m hm
      rw [List.mem_singleton] at hm
      subst hm
      exact block_convertible) (by decide) (by decide +kernel) (convArgs_asks _ _ _ _) ⟨["d".toList], "b".toList, "obj".toList, by decide, by decide⟩
    (objFs_free _) (by rw [show splitSlash "d/out".toList = ["d".toList, "out".toList] by decide, show splitSlash "d/b.obj".toList = ["d".toList, "b.obj".toList] by decide]; rintro ⟨r, hr⟩; simp at hr)
  exact ⟨fs', h1, fs'', y, rs, h2⟩

end City.Props
