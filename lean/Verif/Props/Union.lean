import Verif.Spec.Union
import Verif.Props.Convert
/-!
C87: a node made of several meshes.
-/
set_option linter.unusedSectionVars false
namespace City.Props
open City City.Spec
variable {K : Type} [Field K] [LinearOrder K] [IsStrictOrderedRing K] {L : SoupLib K} {N : NefLib K} {mem : N.Nef → V3 K → Prop} {emb : V3 ℚ → V3 K}

theorem fillHoles_closed {S : Surf K} (hc : ClosedSurf S) (c : Nat) : ∀ l : List Nat, (∀ h ∈ l, h ∈ S.hs) → UNode.fillHoles N l (S, c) = (S, c)
  | [], _ => rfl
  | h :: l, hl => by
    have e : UNode.fillHoles N (h :: l) (S, c) =
      UNode.fillHoles N l (if S.isBorder h then ((N.fill S h).1, c + (N.fill S h).2) else (S, c)) := rfl
    have hb : S.isBorder h = false := by
      have := hc h (hl h (by simp))
      unfold Surf.isBorder
      cases hf : S.face h with
      | none => exact absurd hf this
      | some _ => rfl
    rw [e, hb]
    exact fillHoles_closed hc c l fun k hk => hl k (by simp [hk])

theorem orientOutward_cases (S : Surf K) : UNode.orientOutward L S = S ∨ UNode.orientOutward L S = S.reverseFaces := by
  unfold UNode.orientOutward
  split
  · exact .inr rfl
  · exact .inl rfl

/-- The piece of a closed mesh is the surface of the node of this mesh alone, and no facet is added. -/
theorem closed_piece (hL : SoupLaw L) (hN : NefLaw L N mem) {m : Mesh} (hm : ClosedMesh emb m) :
    ∃ n a, UNode.ofMesh L emb m V3.zero 0 = .ok n ∧ UNode.piece L N emb m = .ok (n.surf, 0) ∧ N.ofSurf n.surf = .ok a := by
  obtain ⟨S, h1, R⟩ := hL.build_ok _ _ hm.1
  have hc : ClosedSurf S := (C73_closed R).2 hm.2
  have ho : ∃ a, N.ofSurf (UNode.orientOutward L S) = .ok a := by
    cases hout : L.outward S with
    | true =>
      have e : UNode.orientOutward L S = S := by unfold UNode.orientOutward; simp [hout]
      rw [e]
      exact hN.made S R.valid hc hout
    | false =>
      have e : UNode.orientOutward L S = S.reverseFaces := by unfold UNode.orientOutward; simp [hout, closed_iff.2 hc]
      rw [e]
      exact hN.made _ (reverse_valid R.valid) hc (hL.outward_reverse S _ _ R hc hout)
  obtain ⟨a, ha⟩ := ho
  refine ⟨UNode.make m.name V3.zero 0 (UNode.orientOutward L S), a, ?_, ?_, ha⟩
  · unfold UNode.ofMesh UNode.ofSoup
    rw [hL.orient_id _ _ hm.1, h1, Out.ok_bind]
  · unfold UNode.piece
    rw [hL.orient_id _ _ hm.1, h1, Out.ok_bind, hN.stitch_closed S R.valid hc, fillHoles_closed hc 0 _ fun h hh => hh]
    rfl

theorem joinAll_spec (hN : NefLaw L N mem) : ∀ (l : List (Surf K)) (a : N.Nef), (∀ S ∈ l, ∃ b, N.ofSurf S = .ok b) →
    ∃ c, UNode.joinAll N l a = .ok c ∧ ∀ p, mem c p ↔ mem a p ∨ ∃ S ∈ l, Encloses N mem S p
  | [], a, _ => ⟨a, rfl, fun p => by simp⟩
  | S :: l, a, h => by
    obtain ⟨b, hb⟩ := h S (by simp)
    obtain ⟨c, h1, h2⟩ := joinAll_spec hN l (N.join a b) fun T hT => h T (by simp [hT])
    refine ⟨c, ?_, fun p => ?_⟩
    · have e : UNode.joinAll N (S :: l) a = (N.ofSurf S).bind fun b => UNode.joinAll N l (N.join a b) := rfl
      rw [e, hb]
      exact h1
    · have hE : Encloses N mem S p ↔ mem b p := by
        unfold Encloses
        rw [hb]
        exact ⟨fun ⟨x, hx, hm⟩ => by cases hx; exact hm, fun hm => ⟨b, rfl, hm⟩⟩
      rw [h2, hN.join, or_assoc, ← hE]
      simp

theorem closed_pieces (hL : SoupLaw L) (hN : NefLaw L N mem) : ∀ meshes : List Mesh, (∀ m ∈ meshes, ClosedMesh emb m) →
    ∃ ps, Out.mapM (UNode.piece L N emb) meshes = .ok ps ∧ ps.map Prod.snd = meshes.map (fun _ => 0) ∧ (∀ S ∈ ps.map Prod.fst, ∃ a, N.ofSurf S = .ok a) ∧
      ∀ p, (∃ S ∈ ps.map Prod.fst, Encloses N mem S p) ↔ ∃ m ∈ meshes, MeshEncloses L N mem emb m p
  | [], _ => ⟨[], rfl, rfl, by simp, by simp⟩
  | m :: meshes, h => by
    obtain ⟨n, a, h1, h2, h3⟩ := closed_piece hL hN (h m (by simp))
    obtain ⟨ps, h4, h5, h6, h7⟩ := closed_pieces hL hN meshes fun x hx => h x (by simp [hx])
    refine ⟨(n.surf, 0) :: ps, ?_, by simp [h5], ?_, fun p => ?_⟩
    · rw [Out.mapM_cons, h2, Out.ok_bind, h4]
      rfl
    · intro S hS
      rw [List.map_cons, List.mem_cons] at hS
      rcases hS with rfl | hS
      · exact ⟨a, h3⟩
      · exact h6 S hS
    · have hE : MeshEncloses L N mem emb m p ↔ Encloses N mem n.surf p := by
        unfold MeshEncloses
        rw [h1]
        exact ⟨fun ⟨x, hx, hm⟩ => by cases hx; exact hm, fun hm => ⟨n, rfl, hm⟩⟩
      simp only [List.map_cons, List.mem_cons, exists_eq_or_imp, hE, h7]

/-- The two outcomes for closed meshes. -/
theorem ofMeshes_closed (hL : SoupLaw L) (hN : NefLaw L N mem) (name : Text) (meshes : List Mesh) (ref : V3 ℚ) (epsg : Nat)
    (hm : ∀ m ∈ meshes, ClosedMesh emb m) : ∃ a, (∀ p, mem a p ↔ ∃ m ∈ meshes, MeshEncloses L N mem emb m p) ∧
      UNode.ofMeshes L N emb name meshes ref epsg =
        .ok (UNode.make name ref epsg (if N.simple a then N.toSurf a else Surf.none), meshes.map fun _ => 0) := by
  obtain ⟨ps, h1, h2, h3, h4⟩ := closed_pieces (emb := emb) hL hN meshes hm
  obtain ⟨a, h5, h6⟩ := joinAll_spec hN (ps.map Prod.fst) N.empty h3
  refine ⟨a, fun p => ?_, ?_⟩
  · rw [h6, ← h4]
    simp [hN.empty p]
  · unfold UNode.ofMeshes
    rw [h1, Out.ok_bind, h5, Out.ok_bind, h2]

/-- The claim in full: a node made of closed meshes encloses a point when one of the meshes does. -/
def C87_full : Prop := ∀ (L : SoupLib ℚ) (N : NefLib ℚ) (mem : N.Nef → V3 ℚ → Prop), SoupLaw L → NefLaw L N mem →
  ∀ (name : Text) (meshes : List Mesh) (ref : V3 ℚ) (epsg : Nat), (∀ m ∈ meshes, ClosedMesh id m) →
    ∃ n out, UNode.ofMeshes L N id name meshes ref epsg = .ok (n, out) ∧
      ∀ p, Encloses N mem n.surf p ↔ ∃ m ∈ meshes, MeshEncloses L N mem id m p

/-- C87: closed meshes whose union is simple (its boundary is a manifold) become a node with the given name, reference point and EPSG code, whose surface is closed
and encloses a point exactly when one of the meshes, alone, does; its box is that of its points. What is missing: other unions, see `C87_pinched`. -/
theorem C87_union_partial (hL : SoupLaw L) (hN : NefLaw L N mem) (name : Text) (meshes : List Mesh) (ref : V3 ℚ) (epsg : Nat)
    (hm : ∀ m ∈ meshes, ClosedMesh emb m) (hs : ∀ a, (∀ p, mem a p ↔ ∃ m ∈ meshes, MeshEncloses L N mem emb m p) → N.simple a = true) :
    ∃ n, UNode.ofMeshes L N emb name meshes ref epsg = .ok (n, meshes.map fun _ => 0) ∧ n.name = name ∧ n.ref = ref ∧ n.epsg = epsg ∧
      ValidSurf n.surf ∧ ClosedSurf n.surf ∧ (∀ p, Encloses N mem n.surf p ↔ ∃ m ∈ meshes, MeshEncloses L N mem emb m p) ∧
      (n.surf.hs ≠ [] → ∃ b, n.bbox = some b ∧ SnugBox b n.surf.points) := by
  obtain ⟨a, h1, h2⟩ := ofMeshes_closed (emb := emb) hL hN name meshes ref epsg hm
  have hsa := hs a h1
  rw [if_pos hsa] at h2
  obtain ⟨hv, hc, b, hb1, hb2⟩ := hN.convert a hsa
  refine ⟨_, h2, rfl, rfl, rfl, hv, hc, fun p => ?_, fun hne => ?_⟩
  · rw [← h1, ← hb2]
    show Encloses N mem (N.toSurf a) p ↔ _
    unfold Encloses
    rw [hb1]
    exact ⟨fun ⟨x, hx, hm⟩ => by cases hx; exact hm, fun hm => ⟨b, rfl, hm⟩⟩
  · obtain ⟨b, hb1, hb2⟩ := ofPoints_tight (points_ne hv hne)
    refine ⟨b, ?_, hb2⟩
    show (if (N.toSurf a).hs = [] then none else Box3.ofPoints (N.toSurf a).points) = some b
    rw [if_neg (show (N.toSurf a).hs ≠ [] from hne), hb1]

/-- C87: closed meshes that touch, somewhere, along an edge only become an empty node, without box and without any report: all the geometry is lost. -/
theorem C87_pinched (hL : SoupLaw L) (hN : NefLaw L N mem) (name : Text) (meshes : List Mesh) (ref : V3 ℚ) (epsg : Nat)
    (hm : ∀ m ∈ meshes, ClosedMesh emb m) (p : V3 K) (hp : Pinched (fun q => ∃ m ∈ meshes, MeshEncloses L N mem emb m q) p) :
    ∃ n, UNode.ofMeshes L N emb name meshes ref epsg = .ok (n, meshes.map fun _ => 0) ∧ n.name = name ∧ n.surf.hs = [] ∧ n.surf.fs = [] ∧ n.surf.vs = [] ∧
      n.bbox = none ∧ ∀ q, ¬ Encloses N mem n.surf q := by
  obtain ⟨a, h1, h2⟩ := ofMeshes_closed (emb := emb) hL hN name meshes ref epsg hm
  have hsa : N.simple a = false := by
    rw [Bool.eq_false_iff]
    intro h
    apply hN.manifold a h p
    obtain ⟨δ, hδ, hd⟩ := hp
    exact ⟨δ, hδ, fun d hx hy hz => (h1 _).trans (hd d hx hy hz)⟩
  rw [hsa] at h2
  refine ⟨_, h2, rfl, rfl, rfl, rfl, rfl, ?_⟩
  rintro q ⟨b, hb, hq⟩
  exact hN.hollow _ b q rfl hb hq

/-- C87: the constructor always ends for closed meshes, and it is all or nothing: the node encloses exactly the union, or it is empty and has no box. -/
theorem C87_all_or_nothing (hL : SoupLaw L) (hN : NefLaw L N mem) (name : Text) (meshes : List Mesh) (ref : V3 ℚ) (epsg : Nat)
    (hm : ∀ m ∈ meshes, ClosedMesh emb m) : ∃ n, UNode.ofMeshes L N emb name meshes ref epsg = .ok (n, meshes.map fun _ => 0) ∧ n.name = name ∧ n.ref = ref ∧
      n.epsg = epsg ∧ ((∀ p, Encloses N mem n.surf p ↔ ∃ m ∈ meshes, MeshEncloses L N mem emb m p) ∨ (n.surf.hs = [] ∧ n.surf.fs = [] ∧ n.bbox = none)) := by
  obtain ⟨a, h1, h2⟩ := ofMeshes_closed (emb := emb) hL hN name meshes ref epsg hm
  refine ⟨_, h2, rfl, rfl, rfl, ?_⟩
  cases hs : N.simple a with
  | false => exact .inr ⟨rfl, rfl, rfl⟩
  | true =>
    left
    intro p
    obtain ⟨_, _, b, hb1, hb2⟩ := hN.convert a hs
    rw [← h1, ← hb2]
    show Encloses N mem (N.toSurf a) p ↔ _
    unfold Encloses
    rw [hb1]
    exact ⟨fun ⟨x, hx, hm⟩ => by cases hx; exact hm, fun hm => ⟨b, rfl, hm⟩⟩

/-- C87: the order of closed meshes, and how often they are given, does not matter: nodes made of the same meshes enclose the same points. -/
theorem C87_order (hL : SoupLaw L) (hN : NefLaw L N mem) (name : Text) (meshes meshes' : List Mesh) (ref : V3 ℚ) (epsg : Nat)
    (hm : ∀ m ∈ meshes, ClosedMesh emb m) (same : ∀ m, m ∈ meshes ↔ m ∈ meshes') :
    ∃ n n' out out', UNode.ofMeshes L N emb name meshes ref epsg = .ok (n, out) ∧ UNode.ofMeshes L N emb name meshes' ref epsg = .ok (n', out') ∧
      ∀ p, Encloses N mem n.surf p ↔ Encloses N mem n'.surf p := by
  obtain ⟨a, h1, h2⟩ := ofMeshes_closed (emb := emb) hL hN name meshes ref epsg hm
  obtain ⟨a', h1', h2'⟩ := ofMeshes_closed (emb := emb) hL hN name meshes' ref epsg fun m h => hm m ((same m).2 h)
  have hs : ∀ p, mem a p ↔ mem a' p := fun p => by
    rw [h1, h1']
    exact ⟨fun ⟨m, a, b⟩ => ⟨m, (same m).1 a, b⟩, fun ⟨m, a, b⟩ => ⟨m, (same m).2 a, b⟩⟩
  have he := hN.simple_same a a' hs
  refine ⟨_, _, _, _, h2, h2', fun p => ?_⟩
  show Encloses N mem (if N.simple a then N.toSurf a else Surf.none) p ↔ Encloses N mem (if N.simple a' then N.toSurf a' else Surf.none) p
  cases hx : N.simple a with
  | false => rw [hx] at he; rw [← he]; exact Iff.rfl
  | true =>
    rw [hx] at he
    rw [← he, if_pos rfl, if_pos rfl]
    obtain ⟨_, _, b, hb, hb'⟩ := hN.convert a hx
    obtain ⟨_, _, c, hc, hc'⟩ := hN.convert a' he.symm
    unfold Encloses
    rw [hb, hc]
    constructor
    · rintro ⟨x, hx, hm⟩
      cases hx
      exact ⟨c, rfl, by rwa [hc', ← hs, ← hb']⟩
    · rintro ⟨x, hx, hm⟩
      cases hx
      exact ⟨b, rfl, by rwa [hb', hs, ← hc']⟩

/-- C87: a node made of one closed mesh whose solid is simple encloses what the node of this mesh encloses. -/
theorem C87_one (hL : SoupLaw L) (hN : NefLaw L N mem) (m : Mesh) (ref : V3 ℚ) (epsg : Nat) (hm : ClosedMesh emb m)
    (hs : ∀ a, (∀ p, mem a p ↔ MeshEncloses L N mem emb m p) → N.simple a = true) :
    ∃ n n', UNode.ofMeshes L N emb m.name [m] ref epsg = .ok (n, [0]) ∧ UNode.ofMesh L emb m ref epsg = .ok n' ∧ n.name = n'.name ∧ n.ref = n'.ref ∧
      n.epsg = n'.epsg ∧ ∀ p, Encloses N mem n.surf p ↔ Encloses N mem n'.surf p := by
  obtain ⟨n, h1, h2, h3, h4, _, _, h5, _⟩ := C87_union_partial (emb := emb) hL hN m.name [m] ref epsg (by simpa using hm) (fun a ha => hs a fun p => by rw [ha]; simp)
  obtain ⟨n', S, g1, g2, g3, g4, _⟩ := C73_node (emb := emb) hL m ref epsg hm.1
  refine ⟨n, n', h1, g1, h2.trans g2.symm, h3.trans g3.symm, h4.trans g4.symm, fun p => ?_⟩
  rw [h5]
  simp only [List.mem_singleton, exists_eq_left]
  have key : ∃ k, UNode.ofMesh L emb m V3.zero 0 = .ok k ∧ k.surf = n'.surf := by
    unfold UNode.ofMesh UNode.ofSoup at g1 ⊢
    obtain ⟨T, h, h'⟩ := Out.bind_eq_ok.1 g1
    cases h'
    exact ⟨UNode.make m.name V3.zero 0 (UNode.orientOutward L T), by rw [h, Out.ok_bind], rfl⟩
  obtain ⟨k, hk, hk'⟩ := key
  unfold MeshEncloses
  rw [hk, ← hk']
  exact ⟨fun ⟨x, hx, h⟩ => by cases hx; exact h, fun h => ⟨k, rfl, h⟩⟩

/-- C87: a node made of no mesh is empty. -/
theorem C87_none (hN : NefLaw L N mem) (name : Text) (ref : V3 ℚ) (epsg : Nat) : ∃ n, UNode.ofMeshes L N emb name [] ref epsg = .ok (n, []) ∧
    n.name = name ∧ n.ref = ref ∧ n.epsg = epsg ∧ n.surf.hs = [] ∧ n.bbox = none := by
  have hh : (if N.simple N.empty then N.toSurf N.empty else Surf.none).hs = [] := by
    split
    · exact hN.convert_empty _ hN.empty
    · rfl
  refine ⟨UNode.make name ref epsg (if N.simple N.empty then N.toSurf N.empty else Surf.none), rfl, rfl, rfl, rfl, hh, ?_⟩
  show (if _ = [] then none else _) = none
  rw [if_pos hh]

theorem fillHoles_fills (hF : FillsHoles N) : ∀ (l : List Nat) (S : Surf K) (c : Nat), ValidSurf S → (∀ k ∈ l, k ∈ S.hs) →
    (∀ k ∈ S.hs, S.face k = none → k ∈ l) → ValidSurf (UNode.fillHoles N l (S, c)).1 ∧ ClosedSurf (UNode.fillHoles N l (S, c)).1 ∧
      (UNode.fillHoles N l (S, c)).1.fs.length + c = S.fs.length + (UNode.fillHoles N l (S, c)).2
  | [], S, c, hv, _, hb => ⟨hv, fun k hk he => by simpa using hb k hk he, rfl⟩
  | h :: l, S, c, hv, hl, hb => by
    have e : UNode.fillHoles N (h :: l) (S, c) =
      UNode.fillHoles N l (if S.isBorder h then ((N.fill S h).1, c + (N.fill S h).2) else (S, c)) := rfl
    rw [e]
    have hin : h ∈ S.hs := hl h (by simp)
    by_cases hn : S.face h = none
    · have hb' : S.isBorder h = true := by unfold Surf.isBorder; rw [hn]; rfl
      rw [if_pos hb']
      obtain ⟨f1, f2, f0, f4, f3⟩ := hF S h hv hin hn
      have key := fillHoles_fills hF l (N.fill S h).1 (c + (N.fill S h).2) f1 (fun k hk => f0 k (hl k (by simp [hk]))) ?_
      · exact ⟨key.1, key.2.1, by have := key.2.2; omega⟩
      intro k hk hk'
      obtain ⟨g1, g2⟩ := f3 k hk hk'
      have := hb k g1 g2
      rw [List.mem_cons] at this
      rcases this with rfl | h
      · exact absurd hk' f2
      · exact h
    · have hb' : S.isBorder h = false := by
        unfold Surf.isBorder
        cases hf : S.face h with
        | none => exact absurd hf hn
        | some _ => rfl
      rw [hb']
      refine fillHoles_fills hF l S c hv (fun k hk => hl k (by simp [hk])) fun k hk hk' => ?_
      have := hb k hk hk'
      rw [List.mem_cons] at this
      rcases this with rfl | h
      · exact absurd hk' hn
      · exact h

/-- C87: if every hole can be triangulated, a mesh whose faces form an oriented surface, with holes or not, gives a closed surface to the union; the number that
is printed is that of the facets added to the stitched surface. -/
theorem C87_holes (hL : SoupLaw L) (hN : NefLaw L N mem) (hF : FillsHoles N) (m : Mesh)
    (hm : PolygonMesh (m.points.map emb) (m.faces.map Face.points)) : ∃ S k, UNode.piece L N emb m = .ok (S, k) ∧ ValidSurf S ∧ ClosedSurf S ∧
      ∃ S₀, L.build (m.points.map emb) (m.faces.map Face.points) = .ok S₀ ∧ S.fs.length = (N.stitch S₀).fs.length + k := by
  obtain ⟨S, h1, R⟩ := hL.build_ok _ _ hm
  obtain ⟨h2, h3, h4⟩ := fillHoles_fills hF (N.stitch S).hs (N.stitch S) 0 (hN.stitch_valid S R.valid) (fun k hk => hk) fun k hk _ => hk
  refine ⟨_, _, by unfold UNode.piece; rw [hL.orient_id _ _ hm, h1, Out.ok_bind], ?_, ?_, S, h1, ?_⟩
  · rcases orientOutward_cases (L := L) (UNode.fillHoles N (N.stitch S).hs (N.stitch S, 0)).1 with e | e
    · rw [e]; exact h2
    · rw [e]; exact reverse_valid h2
  · rcases orientOutward_cases (L := L) (UNode.fillHoles N (N.stitch S).hs (N.stitch S, 0)).1 with e | e
    · rw [e]; exact h3
    · rw [e]; exact h3
  · rcases orientOutward_cases (L := L) (UNode.fillHoles N (N.stitch S).hs (N.stitch S, 0)).1 with e | e
    · rw [e]; exact h4
    · rw [e]; exact h4

/-- C87: a mesh whose faces only have to be stitched together, because points were repeated, gives the stitched surface, turned outward, to the union: no facet is
added. -/
theorem C87_stitched (hL : SoupLaw L) (hN : NefLaw L N mem) (m : Mesh) (hm : PolygonMesh (m.points.map emb) (m.faces.map Face.points)) (S : Surf K)
    (hS : L.build (m.points.map emb) (m.faces.map Face.points) = .ok S) (hc : ClosedSurf (N.stitch S)) :
    ∃ T, UNode.piece L N emb m = .ok (T, 0) ∧ ValidSurf T ∧ ClosedSurf T ∧ (L.outward (N.stitch S) = true → T = N.stitch S) ∧
      (L.outward (N.stitch S) = false → T = (N.stitch S).reverseFaces) := by
  obtain ⟨S', h1, R⟩ := hL.build_ok _ _ hm
  rw [hS] at h1
  cases h1
  have hv := hN.stitch_valid S R.valid
  refine ⟨UNode.orientOutward L (N.stitch S), ?_, ?_, ?_, ?_, ?_⟩
  · unfold UNode.piece
    rw [hL.orient_id _ _ hm, hS, Out.ok_bind, fillHoles_closed hc 0 _ fun h hh => hh]
  · rcases orientOutward_cases (L := L) (N.stitch S) with e | e
    · rw [e]; exact hv
    · rw [e]; exact reverse_valid hv
  · rcases orientOutward_cases (L := L) (N.stitch S) with e | e
    · rw [e]; exact hc
    · rw [e]; exact hc
  · intro h; unfold UNode.orientOutward; simp [h]
  · intro h; unfold UNode.orientOutward; simp [h, closed_iff.2 hc]

/-! ### a library that obeys the laws, and concrete cases -/

/-- The points between the smallest and the largest coordinates of the vertices. -/
def boxSet (S : Surf ℚ) (p : V3 ℚ) : Prop :=
  S.hs ≠ [] ∧ (∃ q ∈ S.points, q.x ≤ p.x) ∧ (∃ q ∈ S.points, p.x ≤ q.x) ∧ (∃ q ∈ S.points, q.y ≤ p.y) ∧ (∃ q ∈ S.points, p.y ≤ q.y) ∧
    (∃ q ∈ S.points, q.z ≤ p.z) ∧ ∃ q ∈ S.points, p.z ≤ q.z

/-- A box is not pinched. -/
theorem boxSet_plain (S : Surf ℚ) (p : V3 ℚ) : ¬ Pinched (boxSet S) p := by
  rintro ⟨δ, hδ, h⟩
  have hh : |δ / 2| < δ := by rw [abs_of_pos (by linarith)]; linarith
  have hm : |-(δ / 2)| < δ := by rw [abs_neg]; exact hh
  have h0 : |(0 : ℚ)| < δ := by rw [abs_zero]; exact hδ
  have h1 := (h ⟨δ / 2, δ / 2, 0⟩ hh hh h0).2 (.inl ⟨by simp only; linarith, by simp only; linarith⟩)
  have h2 := (h ⟨-(δ / 2), -(δ / 2), 0⟩ hm hm h0).2 (.inr ⟨by simp only; linarith, by simp only; linarith⟩)
  have h3 : boxSet S (V3.add p ⟨δ / 2, -(δ / 2), 0⟩) := by
    obtain ⟨a0, a1, a2, a3, a4, a5, a6⟩ := h1
    obtain ⟨b0, b1, b2, b3, b4, b5, b6⟩ := h2
    exact ⟨a0, a1, a2, b3, b4, a5, a6⟩
  rcases (h ⟨δ / 2, -(δ / 2), 0⟩ hh hm h0).1 h3 with ⟨_, h⟩ | ⟨h, _⟩
  · simp only at h; linarith
  · simp only at h; linarith

/-- A surface whose box is the set. -/
def HasBox (A : V3 ℚ → Prop) (S : Surf ℚ) : Prop := ValidSurf S ∧ ClosedSurf S ∧ boxSet S = A

open Classical in
/-- A library: surfaces stand for their boxes, and sets that are boxes are simple. -/
noncomputable def demoNef : NefLib ℚ where
  stitch S := S
  fill S _ := (S, 0)
  Nef := V3 ℚ → Prop
  empty := fun _ => False
  ofSurf S := .ok (boxSet S)
  join a b := fun p => a p ∨ b p
  simple a := decide (∃ S, HasBox a S)
  toSurf a := if (∀ p, ¬ a p) then Surf.none else if h : ∃ S, HasBox a S then h.choose else Surf.none

/-- The points of a set of the demonstration library. -/
def demoMem (a : demoNef.Nef) (p : V3 ℚ) : Prop := (show V3 ℚ → Prop from a) p

theorem none_valid : ValidSurf (Surf.none : Surf ℚ) := by
  constructor <;> simp [Surf.none]

open Classical in
theorem demoNef_law : NefLaw demoSoup demoNef demoMem where
  empty := fun _ h => h
  join := fun _ _ _ => Iff.rfl
  made := fun S _ _ _ => ⟨boxSet S, rfl⟩
  hollow := by
    intro S a p h ha hm
    cases ha
    exact hm.1 h
  simple_same := fun a b h => by
    have : a = b := funext fun p => propext (h p)
    rw [this]
  manifold := by
    intro a h p
    obtain ⟨S, _, _, hS⟩ := of_decide_eq_true h
    have : demoMem a = boxSet S := hS.symm
    rw [this]
    exact boxSet_plain S p
  convert := by
    intro a h
    have h' := of_decide_eq_true h
    by_cases he : ∀ p, ¬ (show V3 ℚ → Prop from a) p
    · have e : demoNef.toSurf a = Surf.none := if_pos he
      rw [e]
      refine ⟨none_valid, by simp [ClosedSurf, Surf.none], _, rfl, fun p => ?_⟩
      exact ⟨fun h => absurd rfl h.1, fun h => absurd h (he p)⟩
    · have e : demoNef.toSurf a = h'.choose := by
        show (if _ then _ else _) = _
        rw [if_neg he, dif_pos h']
      obtain ⟨h1, h2, h3⟩ := h'.choose_spec
      rw [e]
      exact ⟨h1, h2, _, rfl, fun p => by show boxSet _ p ↔ _; rw [h3]; rfl⟩
  convert_empty := by
    intro a h
    have e : demoNef.toSurf a = Surf.none := if_pos h
    rw [e]
    rfl
  stitch_valid := fun _ h => h
  stitch_closed := fun _ _ _ => rfl

theorem represents_transform {S : Surf ℚ} {pts : List (V3 ℚ)} {polys : List (List Nat)} (R : Represents S pts polys) (f : V3 ℚ → V3 ℚ) :
    Represents (S.transform f) (pts.map f) polys := by
  have hv := R.valid
  refine ⟨⟨hv.1, hv.2, hv.3, hv.4, hv.5, hv.6, hv.7, hv.8, hv.9, hv.10, hv.11, hv.12, hv.13, hv.14, hv.15, hv.16, hv.17, hv.18, hv.19⟩, R.vnodup, ?_, R.used, R.fan, ?_,
    R.edge, R.glued⟩
  · rw [← R.points]
    show S.vs.map (fun v => if v ∈ S.vs then f (S.pt v) else S.pt v) = (S.vs.map S.pt).map f
    rw [List.map_map]
    exact List.map_congr_left fun v hv => by rw [if_pos hv]; rfl
  · exact R.facets.imp fun g p ⟨l, hl, h⟩ => ⟨l, ⟨hl.1, hl.2, hl.3, hl.4⟩, h⟩

/-- The tetrahedron of the examples beyond the edge between the first and the last of its corners. -/
def otherTetra : Mesh := Mesh.make "other".toList [⟨0, 0, 0⟩, ⟨-2, 0, 0⟩, ⟨0, -2, 0⟩, ⟨0, 0, 2⟩] [⟨[2, 1, 0]⟩, ⟨[1, 3, 0]⟩, ⟨[3, 1, 2]⟩, ⟨[0, 3, 2]⟩]

theorem tetra_mesh_closed : ClosedMesh id tetraMesh :=
  ⟨⟨tetra, by rw [List.map_id]; exact tetra_represents⟩, (C73_closed tetra_represents).1 (by unfold ClosedSurf; decide +kernel)⟩

theorem other_represents : Represents (tetra.transform fun p => ⟨-p.x, -p.y, p.z⟩) (otherTetra.points.map id) (otherTetra.faces.map Face.points) := by
  have h := represents_transform tetra_represents fun p => ⟨-p.x, -p.y, p.z⟩
  have e : tetraMesh.points.map (fun p : V3 ℚ => (⟨-p.x, -p.y, p.z⟩ : V3 ℚ)) = otherTetra.points.map id := by decide +kernel
  rw [e] at h
  exact h

theorem other_mesh_closed : ClosedMesh id otherTetra := ⟨⟨_, other_represents⟩, tetra_mesh_closed.2⟩

/-- In the demonstration library a closed mesh encloses the box of its points. -/
theorem demo_encloses {m : Mesh} (hm : ClosedMesh id m) (hf : m.faces ≠ []) (p : V3 ℚ) : MeshEncloses demoSoup demoNef demoMem id m p ↔
    (∃ q ∈ m.points, q.x ≤ p.x) ∧ (∃ q ∈ m.points, p.x ≤ q.x) ∧ (∃ q ∈ m.points, q.y ≤ p.y) ∧ (∃ q ∈ m.points, p.y ≤ q.y) ∧
    (∃ q ∈ m.points, q.z ≤ p.z) ∧ ∃ q ∈ m.points, p.z ≤ q.z := by
  obtain ⟨n, S, h1, _, _, _, R, h2, h3, _⟩ := C73_node (emb := id) demoSoup_law m V3.zero 0 hm.1
  have hpts : n.surf.points = m.points ∧ n.surf.hs = S.hs := by
    by_cases hc : ClosedSurf S ∧ demoSoup.outward S = false
    · obtain ⟨a, b⟩ := h2 hc
      exact ⟨by rw [a.points, List.map_id], by rw [b]; rfl⟩
    · rw [h3 hc]
      exact ⟨by rw [R.points, List.map_id], rfl⟩
  have hne : S.hs ≠ [] := by
    intro he
    have hfs := R.facets.length_eq
    rw [List.length_map] at hfs
    obtain ⟨f, hfm⟩ : ∃ f, f ∈ S.fs := List.exists_mem_of_length_pos (by rw [hfs]; exact List.length_pos_iff.2 hf)
    have := R.valid.start_mem f hfm
    rw [he] at this
    simp at this
  have hE : MeshEncloses demoSoup demoNef demoMem id m p ↔ boxSet n.surf p := by
    unfold MeshEncloses
    rw [h1]
    exact ⟨fun ⟨x, hx, a, ha, h⟩ => by cases hx; cases ha; exact h, fun h => ⟨n, rfl, _, rfl, h⟩⟩
  rw [hE, boxSet, hpts.1, hpts.2]
  exact ⟨fun h => h.2, fun h => ⟨hne, h⟩⟩

theorem tetra_encloses (p : V3 ℚ) : MeshEncloses demoSoup demoNef demoMem id tetraMesh p ↔ 0 ≤ p.x ∧ p.x ≤ 2 ∧ 0 ≤ p.y ∧ p.y ≤ 2 ∧ 0 ≤ p.z ∧ p.z ≤ 2 := by
  rw [demo_encloses tetra_mesh_closed (by decide)]
  simp only [tetraMesh, Mesh.make, List.mem_cons, List.not_mem_nil, or_false, exists_eq_or_imp, exists_eq_left]
  constructor
  · rintro ⟨h1, h2, h3, h4, h5, h6⟩
    refine ⟨?_, ?_, ?_, ?_, ?_, ?_⟩ <;> first | (rcases h1 with h | h | h | h <;> linarith) | (rcases h2 with h | h | h | h <;> linarith) |
      (rcases h3 with h | h | h | h <;> linarith) | (rcases h4 with h | h | h | h <;> linarith) | (rcases h5 with h | h | h | h <;> linarith) |
      (rcases h6 with h | h | h | h <;> linarith)
  · rintro ⟨h1, h2, h3, h4, h5, h6⟩
    exact ⟨.inl h1, .inr (.inl h2), .inl h3, .inr (.inr (.inl h4)), .inl h5, .inr (.inr (.inr h6))⟩

theorem other_encloses (p : V3 ℚ) : MeshEncloses demoSoup demoNef demoMem id otherTetra p ↔ -2 ≤ p.x ∧ p.x ≤ 0 ∧ -2 ≤ p.y ∧ p.y ≤ 0 ∧ 0 ≤ p.z ∧ p.z ≤ 2 := by
  rw [demo_encloses other_mesh_closed (by decide)]
  simp only [otherTetra, Mesh.make, List.mem_cons, List.not_mem_nil, or_false, exists_eq_or_imp, exists_eq_left]
  constructor
  · rintro ⟨h1, h2, h3, h4, h5, h6⟩
    refine ⟨?_, ?_, ?_, ?_, ?_, ?_⟩ <;> first | (rcases h1 with h | h | h | h <;> linarith) | (rcases h2 with h | h | h | h <;> linarith) |
      (rcases h3 with h | h | h | h <;> linarith) | (rcases h4 with h | h | h | h <;> linarith) | (rcases h5 with h | h | h | h <;> linarith) |
      (rcases h6 with h | h | h | h <;> linarith)
  · rintro ⟨h1, h2, h3, h4, h5, h6⟩
    exact ⟨.inr (.inl h1), .inl h2, .inr (.inr (.inl h3)), .inl h4, .inl h5, .inr (.inr (.inr h6))⟩

/-- Two boxes with a vertical edge in common. -/
theorem tetras_pinched : Pinched (fun q => ∃ m ∈ [tetraMesh, otherTetra], MeshEncloses demoSoup demoNef demoMem id m q) ⟨0, 0, 1⟩ := by
  refine ⟨1, one_pos, fun d hx hy hz => ?_⟩
  rw [abs_lt] at hx hy hz
  simp only [List.mem_cons, List.not_mem_nil, or_false, exists_eq_or_imp, exists_eq_left, tetra_encloses, other_encloses, V3.add, zero_add]
  constructor
  · rintro (h | h)
    · exact .inl ⟨h.1, h.2.2.1⟩
    · exact .inr ⟨h.2.1, h.2.2.2.1⟩
  · rintro (h | h)
    · exact .inl ⟨h.1, by linarith, h.2, by linarith, by linarith, by linarith⟩
    · exact .inr ⟨by linarith, h.1, by linarith, h.2, by linarith, by linarith⟩

/-- C87 is false: two closed meshes that touch along an edge become an empty node. -/
theorem C87_refuted : ¬ C87_full := by
  intro h
  have hm : ∀ m ∈ [tetraMesh, otherTetra], ClosedMesh id m := by
    intro m hm
    simp only [List.mem_cons, List.not_mem_nil, or_false] at hm
    rcases hm with rfl | rfl
    · exact tetra_mesh_closed
    · exact other_mesh_closed
  obtain ⟨n, out, h1, h2⟩ := h demoSoup demoNef demoMem demoSoup_law demoNef_law [] [tetraMesh, otherTetra] V3.zero 0 hm
  obtain ⟨n', g1, _, _, _, _, _, g2⟩ := C87_pinched (emb := id) demoSoup_law demoNef_law [] [tetraMesh, otherTetra] V3.zero 0 hm _ tetras_pinched
  rw [h1] at g1
  cases g1
  exact g2 ⟨1, 1, 1⟩ ((h2 _).2 ⟨tetraMesh, by simp, (tetra_encloses _).2 (by norm_num)⟩)

open Classical in
/-- C87: one tetrahedron, and the same one twice: the hypotheses are met, and the node is not empty. -/
example : ∃ n, UNode.ofMeshes demoSoup demoNef id "a".toList [tetraMesh, tetraMesh] V3.zero 0 = .ok (n, [0, 0]) ∧
    Encloses demoNef demoMem n.surf ⟨1, 1, 1⟩ ∧ ¬ Encloses demoNef demoMem n.surf ⟨3, 1, 1⟩ := by
  obtain ⟨n, h1, _, _, _, _, _, h2, _⟩ := C87_union_partial (emb := id) demoSoup_law demoNef_law "a".toList [tetraMesh, tetraMesh] V3.zero 0
    (by simpa using tetra_mesh_closed) (by
      intro a ha
      refine decide_eq_true ⟨tetra, tetra_valid, by unfold ClosedSurf; decide +kernel, funext fun p => propext ?_⟩
      have h := ha p
      simp only [List.mem_cons, List.not_mem_nil, or_false, or_self, exists_eq_left, demo_encloses tetra_mesh_closed (show tetraMesh.faces ≠ [] by decide)] at h
      refine Iff.trans ?_ h.symm
      have e : tetra.points = tetraMesh.points := tetra_represents.points
      rw [boxSet, e]
      exact ⟨fun h => h.2, fun h => ⟨by decide +kernel, h⟩⟩)
  refine ⟨n, h1, (h2 _).2 ⟨tetraMesh, by simp, (tetra_encloses _).2 (by norm_num)⟩, fun h => ?_⟩
  obtain ⟨m, hm, h⟩ := (h2 _).1 h
  have : m = tetraMesh := by simpa using hm
  subst this
  have := ((tetra_encloses _).1 h).2.1
  norm_num at this

/-- A half-edge can be reached from `h` by going on along the border. -/
def Along (S : Surf ℚ) (h k : Nat) : Prop := ∃ n : Nat, S.next^[n] h = k

theorem along_next {S : Surf ℚ} (V : ValidSurf S) {h k : Nat} (hh : h ∈ S.hs) (hk : k ∈ S.hs) : Along S h (S.next k) ↔ Along S h k := by
  constructor
  · rintro ⟨n, hn⟩
    obtain ⟨m, h1, _, h2, _⟩ := V.period hh
    cases n with
    | zero =>
      refine ⟨m - 1, V.next_inj (V.iter_mem hh _) hk ?_⟩
      rw [← Function.iterate_succ_apply' S.next, Nat.succ_eq_add_one, Nat.sub_add_cancel h1, h2]
      exact hn
    | succ n =>
      rw [Function.iterate_succ_apply'] at hn
      exact ⟨n, V.next_inj (V.iter_mem hh _) hk hn⟩
  · rintro ⟨n, hn⟩
    exact ⟨n + 1, by rw [Function.iterate_succ_apply', hn]⟩

/-- A number no facet has. -/
def freshFacet (S : Surf ℚ) : Nat := S.fs.foldl max 0 + 1

theorem le_foldl_max : ∀ (l : List Nat) (a : Nat), a ≤ l.foldl max a ∧ ∀ x ∈ l, x ≤ l.foldl max a
  | [], a => ⟨le_refl _, by simp⟩
  | b :: l, a => by
    obtain ⟨h1, h2⟩ := le_foldl_max l (max a b)
    refine ⟨le_trans (le_max_left a b) h1, fun x hx => ?_⟩
    rw [List.mem_cons] at hx
    rcases hx with rfl | hx
    · exact le_trans (le_max_right a x) h1
    · exact h2 x hx

theorem fresh_not_mem (S : Surf ℚ) : freshFacet S ∉ S.fs := fun h => by
  have := (le_foldl_max S.fs 0).2 _ h
  unfold freshFacet at this
  omega

open Classical in
/-- The hole at `h` becomes one facet. -/
noncomputable def capHole (S : Surf ℚ) (h : Nat) : Surf ℚ :=
  { S with fs := S.fs ++ [freshFacet S], face := fun k => if Along S h k then some (freshFacet S) else S.face k, start := fun f => if f = freshFacet S then h else S.start f }

open Classical in
theorem capHole_valid {S : Surf ℚ} (V : ValidSurf S) {h : Nat} (hh : h ∈ S.hs) (hn : S.face h = none) : ValidSurf (capHole S h) := by
  have hal : ∀ k ∈ S.hs, ∀ f, S.face k = some f → ¬ Along S h k := by
    rintro k hk f hf ⟨n, rfl⟩
    rw [V.face_iter hh, hn] at hf
    cases hf
  refine ⟨V.nodup, ?_, V.next_mem, V.prev_mem, V.opp_mem, V.vert_mem, V.prev_next, V.next_prev, V.opp_opp, V.opp_ne, V.next_ne, V.two_ne, V.vert_ne, V.turn,
    ?_, ?_, ?_, ?_, ?_⟩
  · show (S.fs ++ [freshFacet S]).Nodup
    rw [List.nodup_append]
    refine ⟨V.fnodup, List.nodup_singleton _, fun a ha b hb => ?_⟩
    rw [List.mem_singleton] at hb
    rintro rfl
    exact fresh_not_mem S (hb ▸ ha)
  · intro k hk f hf
    change (if Along S h k then some (freshFacet S) else S.face k) = some f at hf
    show f ∈ S.fs ++ [freshFacet S]
    split at hf
    · cases hf; simp
    · exact List.mem_append_left _ (V.face_mem k hk f hf)
  · intro k hk
    show (if Along S h (S.next k) then some (freshFacet S) else S.face (S.next k)) = if Along S h k then some (freshFacet S) else S.face k
    rw [V.face_next k hk]
    simp only [along_next V hh hk]
  · intro f hf
    change f ∈ S.fs ++ [freshFacet S] at hf
    show (if f = freshFacet S then h else S.start f) ∈ S.hs
    rw [List.mem_append, List.mem_singleton] at hf
    split
    · exact hh
    · exact V.start_mem f (hf.resolve_right ‹_›)
  · intro f hf
    change f ∈ S.fs ++ [freshFacet S] at hf
    rw [List.mem_append, List.mem_singleton] at hf
    show (if Along S h (if f = freshFacet S then h else S.start f) then some (freshFacet S) else S.face (if f = freshFacet S then h else S.start f)) = some f
    by_cases e : f = freshFacet S
    · rw [if_pos e, if_pos ⟨0, rfl⟩, e]
    · rw [if_neg e]
      have hfs := hf.resolve_right e
      rw [if_neg (hal _ (V.start_mem f hfs) f (V.face_start f hfs)), V.face_start f hfs]
  · intro f hf k hk hkf
    change f ∈ S.fs ++ [freshFacet S] at hf
    rw [List.mem_append, List.mem_singleton] at hf
    change (if Along S h k then some (freshFacet S) else S.face k) = some f at hkf
    show ∃ n : Nat, S.next^[n] (if f = freshFacet S then h else S.start f) = k
    split at hkf
    · cases hkf
      rw [if_pos rfl]
      assumption
    · have hne : f ≠ freshFacet S := fun e => fresh_not_mem S (e ▸ V.face_mem k hk f hkf)
      rw [if_neg hne]
      exact V.one_cycle f (V.face_mem k hk f hkf) k hk hkf

open Classical in
/-- The demonstration library with holes that are closed by one facet. -/
noncomputable def capNef : NefLib ℚ := { demoNef with fill := fun S h => (capHole S h, 1) }

theorem capNef_law : NefLaw demoSoup capNef demoMem :=
  let h := demoNef_law
  ⟨h.empty, h.join, h.made, h.hollow, h.simple_same, h.manifold, h.convert, h.convert_empty, h.stitch_valid, h.stitch_closed⟩

open Classical in
theorem capNef_fills : FillsHoles capNef := by
  intro S h V hh hn
  refine ⟨capHole_valid V hh hn, ?_, fun k hk => hk, by show (S.fs ++ [_]).length = _; rw [List.length_append]; rfl, fun k hk hf => ⟨hk, ?_⟩⟩
  · show (if Along S h h then some (freshFacet S) else S.face h) ≠ none
    rw [if_pos ⟨0, rfl⟩]
    simp
  · change (if Along S h k then some (freshFacet S) else S.face k) = none at hf
    split at hf
    · cases hf
    · exact hf

/-- The square of the examples: a mesh with a border. -/
def panelMesh : Mesh := Mesh.make "panel".toList panel.points [⟨[0, 1, 2].map panel.vert⟩, ⟨[3, 4, 5].map panel.vert⟩]

theorem panel_represents : Represents panel panelMesh.points (panelMesh.faces.map Face.points) := by
  refine ⟨panel_valid, by decide +kernel, by decide +kernel, by decide +kernel, ?_, ?_, ?_, ?_⟩
  · intro h hh k hk he
    have : ∀ h ∈ panel.hs, ∀ k ∈ panel.hs, panel.vert h = panel.vert k → ∃ n ∈ List.range 4, (fun x => panel.opp (panel.next x))^[n] h = k := by
      decide +kernel
    obtain ⟨n, _, hn⟩ := this h hh k hk he
    exact ⟨n, hn⟩
  · refine .cons ⟨[0, 1, 2], ?_, ?_⟩ (.cons ⟨[3, 4, 5], ?_, ?_⟩ .nil)
    all_goals first
      | exact boundaryOf_check (by decide) (by decide) (by decide +kernel) (by decide +kernel) (by decide +kernel)
      | (simp only [List.map, List.forall₂_cons, List.Forall₂.nil, and_true]; decide +kernel)
  · decide +kernel
  · decide +kernel

/-- C87: an open mesh, and a library in which its hole can be closed. -/
example : ¬ ClosedSoup (panelMesh.faces.map Face.points) ∧ ∃ S k, UNode.piece demoSoup capNef id panelMesh = .ok (S, k) ∧ ValidSurf S ∧ ClosedSurf S := by
  refine ⟨fun h => ?_, ?_⟩
  swap
  · obtain ⟨S, k, h1, h2, h3, _⟩ := C87_holes demoSoup_law capNef_law capNef_fills panelMesh ⟨panel, by rw [List.map_id]; exact panel_represents⟩
    exact ⟨S, k, h1, h2, h3⟩
  have := (C73_closed panel_represents).2 h
  unfold ClosedSurf at this
  revert this
  decide +kernel

end City.Props
