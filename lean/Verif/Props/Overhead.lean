import Verif.Model.NodePrint
import Verif.Spec.Overhead
import Verif.Props.Convert
import Verif.Props.NodePrint

/-! C106: from a mesh to the heights of its footprint. -/

namespace City.Props
open City City.Spec City.FacePrint City.Brick

set_option linter.unusedSectionVars false

section
variable {K : Type}

theorem shape_of_corners {S : Surf K} {l p : List Nat} (h : List.Forall₂ (fun h i => S.vs[i]? = some (S.vert h)) l p) :
    cornerPoints S.points p = l.map fun h => S.pt (S.vert h) := by
  induction h with
  | nil => rfl
  | @cons a i l p h1 h2 ih =>
    have e : S.points[i]? = some (S.pt (S.vert a)) := by rw [Surf.points, List.getElem?_map, h1]; rfl
    unfold cornerPoints at ih ⊢
    rw [List.filterMap_cons, e, ih, List.map_cons]

/-- C106: the facets that are projected are the faces of the mesh, in order, each beginning at some corner. -/
theorem C106_facets {S : Surf K} {pts : List (V3 K)} {polys : List (List Nat)} (R : Represents S pts polys) :
    ∃ fcs, S.facets = .ok fcs ∧ List.Forall₂ (fun fc l => fc.pts ~r l ∧ 3 ≤ l.length) fcs (faceShapes pts polys) := by
  have key : ∀ (fs : List Nat) (polys : List (List Nat)), (∀ f ∈ fs, f ∈ S.fs) → List.Forall₂ (CornersOf S) fs polys →
      ∃ fcs, Out.mapM S.facet fs = .ok fcs ∧ List.Forall₂ (fun fc l => fc.pts ~r l ∧ 3 ≤ l.length) fcs (faceShapes pts polys) := by
    intro fs polys hfs h
    induction h with
    | nil => exact ⟨[], rfl, List.Forall₂.nil⟩
    | @cons f p fs polys h1 _ ih =>
      obtain ⟨fcs, k1, k2⟩ := ih fun g hg => hfs g (List.mem_cons_of_mem _ hg)
      obtain ⟨l, a1, a2⟩ := around_boundary R.valid (hfs f List.mem_cons_self)
      have hl := cornersOf_length R.valid h1
      obtain ⟨l', b1, b2⟩ := h1
      have e := shape_of_corners b2
      rw [R.points] at e
      refine ⟨⟨S.fid f, l.map fun h => S.pt (S.vert h)⟩ :: fcs, ?_, List.Forall₂.cons ⟨?_, ?_⟩ k2⟩
      · rw [Out.mapM_cons, k1]
        unfold Surf.facet
        rw [a1]
        rfl
      · rw [e]
        exact (boundaryOf_unique a2 b1).map _
      · rw [e, List.length_map, b2.length_eq]
        exact hl
  exact key S.fs polys (fun _ h => h) R.facets

end

variable {K : Type} [Field K] [LinearOrder K] [IsStrictOrderedRing K] [FloorRing K]
variable {C : Cgal K} {Ok : Pwh K → Prop} {Good : C.PSet → Prop} {Gen : V2 K → Prop}

theorem ring_of_print (C : Cgal K) {fc : Facet K} {l : List (V3 K)} (h : fc.pts ~r l) : ShadowRing l (FacePrint.ofFacet C fc).border.outer := by
  rcases (C38_border C fc).2.2.1 with e | ⟨v, t, e1, e2, -⟩
  · left; rw [e]; exact h.map _
  · right
    have : (v :: t) ~r l.map ground := e1 ▸ h.map ground
    rw [e2]
    refine List.IsRotated.trans ?_ this.reverse
    rw [List.reverse_cons]
    exact ⟨1, by simp⟩

theorem middle_rings {l : List (V3 K)} {r : Poly K} (h : ShadowRing l r) {a b c : V2 K} {t : Poly K} (e : r = a :: b :: c :: t) :
    (a :: b :: c :: t) ~r l.map ground ∨ (c :: b :: a :: t.reverse) ~r l.map ground := by
  subst e
  rcases h with h | h
  · exact .inl h
  · right
    have := h.reverse
    rw [List.reverse_reverse] at this
    refine List.IsRotated.trans ?_ this
    refine List.IsRotated.symm ⟨t.length, ?_⟩
    rw [show (a :: b :: c :: t).reverse = t.reverse ++ [c, b, a] by simp]
    rw [show t.length = t.reverse.length by simp, List.rotate_append_length_eq]
    rfl

/-- What is drawn for a face that is not vertical. -/
theorem roof_print {l : List (V3 K)} (P : PlainRoof C Ok l) (hrot : ∀ a b : Poly K, a ~r b → ∀ p, C.side a p = C.side b p)
    (hrev : ∀ (a : Poly K) p, C.side a.reverse p = C.side a p) {fc : Facet K} (h : fc.pts ~r l) :
    ValidFace Ok (FacePrint.ofFacet C fc) ∧ ∀ q z, (Interior C (FacePrint.ofFacet C fc).border q ∧ zAt (FacePrint.ofFacet C fc) q = z) ↔ Over C l q z := by
  have hring := ring_of_print C h
  have hlen : 3 ≤ fc.pts.length := by rw [h.perm.length_eq]; exact P.three
  obtain ⟨p, q, r, t, hf⟩ : ∃ p q r t, fc.pts = p :: q :: r :: t := by
    match hf : fc.pts, hlen with
    | p :: q :: r :: t, _ => exact ⟨p, q, r, t, rfl⟩
  have hc : (FacePrint.ofFacet C fc).plane = planeThrough p q r := by simp [FacePrint.ofFacet, trace, hf]
  have hsharp : ¬ InLine (ground p) (ground q) (ground r) := by
    refine P.sharp _ _ _ (t.map ground) ?_
    have := h.map ground
    rwa [hf] at this
  have hc0 : (planeThrough p q r).c ≠ 0 := by
    intro h0
    apply hsharp
    unfold planeThrough at h0
    unfold InLine ground
    simp only at h0 ⊢
    linear_combination h0
  have hline : ¬ SeenAsLine l := by
    rintro ⟨a, b, c, hab, hall⟩
    have h1 := hall p (h.mem_iff.1 (by rw [hf]; simp))
    have h2 := hall q (h.mem_iff.1 (by rw [hf]; simp))
    have h3 := hall r (h.mem_iff.1 (by rw [hf]; simp))
    apply hsharp
    unfold InLine ground
    simp only
    have e1 : a * (q.x - p.x) + b * (q.y - p.y) = 0 := by linear_combination h2 - h1
    have e2 : a * (r.x - p.x) + b * (r.y - p.y) = 0 := by linear_combination h3 - h1
    rcases hab with ha | hb
    · apply mul_left_cancel₀ ha
      linear_combination (r.y - p.y) * e1 - (q.y - p.y) * e2
    · apply mul_left_cancel₀ hb
      linear_combination (q.x - p.x) * e2 - (r.x - p.x) * e1
  have hsimple : C.simple (fc.pts.map ground) = true := P.simple _ (.inl (h.map _))
  have hholes := (C38_border C fc).2.1
  have hborder : (FacePrint.ofFacet C fc).border = ⟨(FacePrint.ofFacet C fc).border.outer, []⟩ := by
    rw [← hholes]
  have hside : ∀ x, C.side (FacePrint.ofFacet C fc).border.outer x = C.side (l.map ground) x := by
    intro x
    rcases hring with e | e
    · exact hrot _ _ e x
    · rw [hrot _ _ e x, hrev]
  refine ⟨⟨?_, by rw [hc]; exact hc0⟩, fun x z => ?_⟩
  · rw [hborder]
    exact P.ok _ hring ((C38_border C fc).2.2.2.1 hsimple)
  · have hint : Interior C (FacePrint.ofFacet C fc).border x ↔ C.side (l.map ground) x = .bounded := by
      unfold Interior
      rw [hholes, hside]
      simp
    have hz : zAt (FacePrint.ofFacet C fc) x = z ↔ OnPlane (planeThrough p q r) x.x x.y z := by
      unfold zAt OnPlane
      rw [hc, div_eq_iff hc0]
      constructor <;> intro h <;> linear_combination -h
    have hplanar : ∀ n : Plane K, n.c ≠ 0 → (∀ v ∈ l, OnPlane n v.x v.y v.z) → ∀ s : V3 K, OnPlane n s.x s.y s.z → OnPlane (planeThrough p q r) s.x s.y s.z := by
      intro n hn hall s hs
      exact planeThrough_spec p q r s n (fun h => hn h.2.2) (hall p (h.mem_iff.1 (by rw [hf]; simp))) (hall q (h.mem_iff.1 (by rw [hf]; simp)))
        (hall r (h.mem_iff.1 (by rw [hf]; simp))) hs
    rw [hint, hz]
    constructor
    · rintro ⟨h1, h2⟩
      obtain ⟨n, hn, hall⟩ := P.flat
      exact ⟨hline, h1, planeThrough p q r, hc0, fun v hv => hplanar n hn hall v (hall v hv), h2⟩
    · rintro ⟨-, h1, n, hn, hall, h2⟩
      exact ⟨h1, hplanar n hn hall ⟨x.x, x.y, z⟩ h2⟩

/-- A vertical face is not drawn. -/
theorem wall_print {l : List (V3 K)} (hl : SeenAsLine l) {fc : Facet K} (h : fc.pts ~r l) : (FacePrint.ofFacet C fc).isDegenerate C = true := by
  have hc : (FacePrint.ofFacet C fc).plane.c = 0 := by
    obtain ⟨a, b, c, hab, hall⟩ := hl
    have hall' : ∀ v ∈ fc.pts, a * v.x + b * v.y + c = 0 := fun v hv => hall v (h.mem_iff.1 hv)
    show (trace fc).2.c = 0
    unfold trace
    match hf : fc.pts with
    | p :: q :: r :: t =>
      have h1 := hall' p (by rw [hf]; simp)
      have h2 := hall' q (by rw [hf]; simp)
      have h3 := hall' r (by rw [hf]; simp)
      have e1 : a * (q.x - p.x) + b * (q.y - p.y) = 0 := by linear_combination h2 - h1
      have e2 : a * (r.x - p.x) + b * (r.y - p.y) = 0 := by linear_combination h3 - h1
      simp only [planeThrough]
      rcases hab with ha | hb
      · apply mul_left_cancel₀ ha
        linear_combination (r.y - p.y) * e1 - (q.y - p.y) * e2
      · apply mul_left_cancel₀ hb
        linear_combination (q.x - p.x) * e2 - (r.x - p.x) * e1
    | [] => rfl
    | [_] => rfl
    | [_, _] => rfl
  unfold FacePrint.isDegenerate FacePrint.isPerpendicular
  rw [hc]
  simp

/-- The print `g` is that of the face `l`. -/
def PrintOf (C : Cgal K) (Ok : Pwh K → Prop) (g : FacePrint K) (l : List (V3 K)) : Prop :=
  ValidFace Ok g ∧ g.border.holes = [] ∧ ShadowRing l g.border.outer ∧ ∀ q z, (Interior C g.border q ∧ zAt g q = z) ↔ Over C l q z

theorem prints_of (L : Lawful C Ok Good Gen) (hrev : ∀ (a : Poly K) p, C.side a.reverse p = C.side a p) {fcs : List (Facet K)} {faces : List (List (V3 K))}
    (h : List.Forall₂ (fun fc l => fc.pts ~r l ∧ 3 ≤ l.length) fcs faces) (hf : ∀ l ∈ faces, SeenAsLine l ∨ PlainRoof C Ok l) :
    ∃ roofs, roofs.Sublist faces ∧ (∀ l ∈ faces, l ∈ roofs ∨ SeenAsLine l) ∧ (∀ l ∈ roofs, PlainRoof C Ok l) ∧
      List.Forall₂ (PrintOf C Ok) (orthoprint C fcs) roofs := by
  induction h with
  | nil => exact ⟨[], List.Sublist.slnil, by simp, by simp, List.Forall₂.nil⟩
  | @cons fc l fcs faces h1 _ ih =>
    obtain ⟨roofs, k1, k2, k3, k4⟩ := ih fun l hl => hf l (List.mem_cons_of_mem _ hl)
    rcases hf l List.mem_cons_self with hl | hl
    · refine ⟨roofs, k1.cons _, ?_, k3, ?_⟩
      · intro x hx
        rcases List.mem_cons.1 hx with rfl | hx
        · exact .inr hl
        · exact k2 x hx
      · unfold orthoprint at k4 ⊢
        rw [List.map_cons, List.filter_cons_of_neg (by rw [wall_print hl h1.1]; simp)]
        exact k4
    · obtain ⟨v, r⟩ := roof_print hl L.rotation hrev h1.1
      refine ⟨l :: roofs, k1.cons_cons _, ?_, ?_, ?_⟩
      · intro x hx
        rcases List.mem_cons.1 hx with rfl | hx
        · exact .inl List.mem_cons_self
        · exact (k2 x hx).imp_left (List.mem_cons_of_mem _)
      · intro x hx
        rcases List.mem_cons.1 hx with rfl | hx
        · exact hl
        · exact k3 x hx
      · unfold orthoprint at k4 ⊢
        rw [List.map_cons, List.filter_cons_of_pos]
        · exact List.Forall₂.cons ⟨v, (C38_border C fc).2.1, ring_of_print C h1.1, r⟩ k4
        · rw [notDegenerate L v, Bool.or_false, Bool.not_eq_true']
          have h3 := L.three _ v.1
          unfold FacePrint.isEmpty
          cases e : (FacePrint.ofFacet C fc).border.outer with
          | nil => rw [e] at h3; simp at h3
          | cons a b => rfl

theorem ground_over {prints : List (FacePrint K)} {roofs faces : List (List (V3 K))} (hs : roofs.Sublist faces) (hw : ∀ l ∈ faces, l ∈ roofs ∨ SeenAsLine l)
    (h : List.Forall₂ (PrintOf C Ok) prints roofs) (q : V2 K) : Ground C prints q ↔ ∃ l ∈ faces, ∃ z, Over C l q z := by
  constructor
  · rintro ⟨g, hg, hi⟩
    obtain ⟨l, hl, k⟩ := forall₂_mem_left h g hg
    exact ⟨l, hs.subset hl, zAt g q, (k.2.2.2 q _).1 ⟨hi, rfl⟩⟩
  · rintro ⟨l, hl, z, ho⟩
    rcases hw l hl with hl | hl
    · obtain ⟨g, hg, k⟩ := forall₂_mem_right h l hl
      exact ⟨g, hg, ((k.2.2.2 q z).2 ho).1⟩
    · exact absurd hl ho.1

theorem highest_over {prints : List (FacePrint K)} {roofs faces : List (List (V3 K))} (hs : roofs.Sublist faces) (hw : ∀ l ∈ faces, l ∈ roofs ∨ SeenAsLine l)
    (h : List.Forall₂ (PrintOf C Ok) prints roofs) (q : V2 K) (z : K) : HighestAt C prints q z ↔ TopAt C faces q z := by
  unfold HighestAt TopAt
  constructor
  · rintro ⟨⟨g, hg, hi, hz⟩, hall⟩
    obtain ⟨l, hl, k⟩ := forall₂_mem_left h g hg
    refine ⟨⟨l, hs.subset hl, (k.2.2.2 q z).1 ⟨hi, hz⟩⟩, fun m hm z' ho => ?_⟩
    rcases hw m hm with hm | hm
    · obtain ⟨g', hg', k'⟩ := forall₂_mem_right h m hm
      obtain ⟨a, b⟩ := (k'.2.2.2 q z').2 ho
      rw [← b]
      exact hall g' hg' a
    · exact absurd hm ho.1
  · rintro ⟨⟨l, hl, ho⟩, hall⟩
    rcases hw l hl with hl | hl
    · obtain ⟨g, hg, k⟩ := forall₂_mem_right h l hl
      obtain ⟨a, b⟩ := (k.2.2.2 q z).2 ho
      refine ⟨⟨g, hg, a, b⟩, fun g' hg' hi => ?_⟩
      obtain ⟨m, hm, k'⟩ := forall₂_mem_left h g' hg'
      exact hall m (hs.subset hm) _ ((k'.2.2.2 q _).1 ⟨hi, rfl⟩)
    · exact absurd hl ho.1

theorem prints_apart {prints : List (FacePrint K)} {roofs : List (List (V3 K))} (h : List.Forall₂ (PrintOf C Ok) prints roofs)
    (hp : roofs.Pairwise (Lower C Gen)) : prints.Pairwise (fun g f => ∀ p, Gen p → Interior C f.border p → Interior C g.border p → zAt g p < zAt f p) := by
  induction h with
  | nil => exact List.Pairwise.nil
  | @cons g l prints roofs h1 h2 ih =>
    rw [List.pairwise_cons] at hp ⊢
    refine ⟨fun f hf p hg a b => ?_, ih hp.2⟩
    obtain ⟨m, hm, k⟩ := forall₂_mem_left h2 f hf
    exact hp.1 m hm p hg _ _ ((h1.2.2.2 p _).1 ⟨b, rfl⟩) ((k.2.2.2 p _).1 ⟨a, rfl⟩)

theorem print_sample (L : Lawful C Ok Good Gen) {g : FacePrint K} {l : List (V3 K)} (h : PrintOf C Ok g l) (hm : MiddlesInside C Gen l)
    (hrev : ∀ (a : Poly K) p, C.side a.reverse p = C.side a p) : SampleInside C Gen g := by
  have h3 := L.three _ h.1.1
  obtain ⟨a, b, c, t, e⟩ : ∃ a b c t, g.border.outer = a :: b :: c :: t := by
    match e : g.border.outer, h3 with
    | a :: b :: c :: t, _ => exact ⟨a, b, c, t, rfl⟩
  have hside : ∀ x, C.side g.border.outer x = C.side (l.map ground) x := by
    intro x
    rcases h.2.2.1 with e | e
    · exact L.rotation _ _ e x
    · rw [L.rotation _ _ e x, hrev]
  refine ⟨⟨(a.x + b.x + c.x) / 3, (a.y + b.y + c.y) / 3⟩, by unfold sample; rw [e], ?_⟩
  have key : Gen ⟨(a.x + b.x + c.x) / 3, (a.y + b.y + c.y) / 3⟩ ∧ C.side (l.map ground) ⟨(a.x + b.x + c.x) / 3, (a.y + b.y + c.y) / 3⟩ = .bounded := by
    rcases middle_rings h.2.2.1 e with k | k
    · exact hm a b c t k
    · have := hm c b a t.reverse k
      rwa [show c.x + b.x + a.x = a.x + b.x + c.x by ring, show c.y + b.y + a.y = a.y + b.y + c.y by ring] at this
  exact ⟨key.1, by rw [hside]; exact key.2, by rw [h.2.1]; simp⟩

/-- C106, the part that holds: the footprint of a node whose faces are flat, without straight angles and each above the ones before wherever both are (with
the middle of three corners inside) has the heights of the building. Missing: other orders of the faces, and faces with straight angles. -/
theorem C106_node_partial (L : Lawful C Ok Good Gen) (hrev : ∀ (a : Poly K) p, C.side a.reverse p = C.side a p) (emb : V3 ℚ → V3 K) (n : UNode K)
    {pts : List (V3 K)} {polys : List (List Nat)} (R : Represents n.surf pts polys)
    (hf : ∀ l ∈ faceShapes pts polys, SeenAsLine l ∨ (PlainRoof C Ok l ∧ MiddlesInside C Gen l))
    (hup : (faceShapes pts polys).Pairwise (Lower C Gen)) :
    ∃ fp, FootPrint.ofUNode C emb n = .ok fp ∧ fp.name = n.name ∧ fp.ref = emb n.ref ∧ fp.epsg = n.epsg ∧
      HeightsOf C Gen (faceShapes pts polys) (fp.brick.height C) := by
  obtain ⟨fcs, h1, h2⟩ := C106_facets R
  obtain ⟨roofs, k1, k2, k3, k4⟩ := prints_of L hrev h2 fun l hl => (hf l hl).imp_right And.left
  have hval : ∀ f ∈ orthoprint C fcs, ValidFace Ok f := fun f hf => by
    obtain ⟨l, -, k⟩ := forall₂_mem_left k4 f hf
    exact k.1
  have hsam : ∀ f ∈ orthoprint C fcs, SampleInside C Gen f := fun f hf' => by
    obtain ⟨l, hl, k⟩ := forall₂_mem_left k4 f hf'
    rcases hf l (k1.subset hl) with h | h
    · have h3 := L.three _ k.1.1
      obtain ⟨p, hp, hi⟩ := L.inner _ k.1.1
      exact absurd h ((k.2.2.2 p _).1 ⟨hi, rfl⟩).1
    · exact print_sample L k h.2 hrev
  obtain ⟨b, b1, -, b2⟩ := C46_stack_partial L _ hval hsam (prints_apart k4 (hup.sublist k1))
  refine ⟨⟨n.name, emb n.ref, n.epsg, b⟩, ?_, rfl, rfl, rfl, fun q hq => ⟨fun h => ?_, fun h => ?_⟩⟩
  · unfold FootPrint.ofUNode FootPrint.ofNode
    rw [h1, Out.ok_bind, sumPrints_valid L _ _ hval (by simp [Brick.empty]), b1]
    rfl
  · obtain ⟨z, z1, z2⟩ := (b2 q hq).1 ((ground_over k1 k2 k4 q).2 h)
    exact ⟨z, z1, (highest_over k1 k2 k4 q z).1 z2⟩
  · exact (b2 q hq).2 fun h' => h ((ground_over k1 k2 k4 q).1 h')

/-- C106, the part that holds: the same when the faces that are not vertical do not overlap when they are seen from above, in any order. Missing: overlapping
faces, and faces with straight angles. -/
theorem C106_apart_partial (L : Lawful C Ok Good Gen) (hrev : ∀ (a : Poly K) p, C.side a.reverse p = C.side a p) (emb : V3 ℚ → V3 K) (n : UNode K)
    {pts : List (V3 K)} {polys : List (List Nat)} (R : Represents n.surf pts polys)
    (hf : ∀ l ∈ faceShapes pts polys, SeenAsLine l ∨ PlainRoof C Ok l)
    (hno : (faceShapes pts polys).Pairwise fun l m => ∀ q, Gen q → ∀ z z', ¬ (Over C l q z ∧ Over C m q z')) :
    ∃ fp, FootPrint.ofUNode C emb n = .ok fp ∧ fp.name = n.name ∧ fp.ref = emb n.ref ∧ fp.epsg = n.epsg ∧
      HeightsOf C Gen (faceShapes pts polys) (fp.brick.height C) := by
  obtain ⟨fcs, h1, h2⟩ := C106_facets R
  obtain ⟨roofs, k1, k2, k3, k4⟩ := prints_of L hrev h2 hf
  have hval : ∀ f ∈ orthoprint C fcs, ValidFace Ok f := fun f hf => by
    obtain ⟨l, -, k⟩ := forall₂_mem_left k4 f hf
    exact k.1
  have hap : ∀ {prints : List (FacePrint K)} {roofs : List (List (V3 K))}, List.Forall₂ (PrintOf C Ok) prints roofs →
      (roofs.Pairwise fun l m => ∀ q, Gen q → ∀ z z', ¬ (Over C l q z ∧ Over C m q z')) → NoOverlap C Gen prints := by
    intro prints roofs h
    induction h with
    | nil => exact fun _ => List.Pairwise.nil
    | @cons g l prints roofs a1 a2 ih =>
      intro hp
      rw [List.pairwise_cons] at hp
      refine List.pairwise_cons.2 ⟨fun f hf p hg a => ?_, ih hp.2⟩
      obtain ⟨m, hm, k⟩ := forall₂_mem_left a2 f hf
      exact hp.1 m hm p hg _ _ ⟨(a1.2.2.2 p _).1 ⟨a.1, rfl⟩, (k.2.2.2 p _).1 ⟨a.2, rfl⟩⟩
  have hnov := hap k4 (hno.sublist k1)
  obtain ⟨b, b1, -, b2⟩ := C46_apart L _ hval hnov
  refine ⟨⟨n.name, emb n.ref, n.epsg, b⟩, ?_, rfl, rfl, rfl, fun q hq => ⟨fun h => ?_, fun h => ?_⟩⟩
  · unfold FootPrint.ofUNode FootPrint.ofNode
    rw [h1, Out.ok_bind, sumPrints_valid L _ _ hval (by simp [Brick.empty]), b1]
    rfl
  · obtain ⟨f, hf', hi⟩ := (ground_over k1 k2 k4 q).2 h
    refine ⟨zAt f q, (b2 q hq).1 f hf' hi, (highest_over k1 k2 k4 q _).1 ⟨⟨f, hf', hi, rfl⟩, fun g hg hig => ?_⟩⟩
    have e := (b2 q hq).1 g hg hig
    rw [(b2 q hq).1 f hf' hi] at e
    exact le_of_eq (Out.ok.inj e).symm
  · exact (b2 q hq).2 fun h' => h ((ground_over k1 k2 k4 q).1 h')

/-- C106: whatever the order of the faces and however they overlap, the footprint of a node with flat faces without straight angles covers ground only under
faces of the mesh, each of its faces at the height of a face of the mesh above it, and the height is 0 where no face is above. -/
theorem C106_under (L : Lawful C Ok Good Gen) (hrev : ∀ (a : Poly K) p, C.side a.reverse p = C.side a p) (emb : V3 ℚ → V3 K) (n : UNode K)
    {pts : List (V3 K)} {polys : List (List Nat)} (R : Represents n.surf pts polys)
    (hf : ∀ l ∈ faceShapes pts polys, SeenAsLine l ∨ PlainRoof C Ok l) :
    ∃ fp, FootPrint.ofUNode C emb n = .ok fp ∧ fp.name = n.name ∧ fp.ref = emb n.ref ∧ fp.epsg = n.epsg ∧
      ∀ q, Gen q → (∀ g ∈ fp.brick.faces, Interior C g.border q → ∃ l ∈ faceShapes pts polys, Over C l q (zAt g q)) ∧
        ((¬ ∃ l ∈ faceShapes pts polys, ∃ z, Over C l q z) → fp.brick.height C q = .ok 0) := by
  obtain ⟨fcs, h1, h2⟩ := C106_facets R
  obtain ⟨roofs, k1, k2, k3, k4⟩ := prints_of L hrev h2 hf
  have hval : ∀ f ∈ orthoprint C fcs, ValidFace Ok f := fun f hf => by
    obtain ⟨l, -, k⟩ := forall₂_mem_left k4 f hf
    exact k.1
  obtain ⟨b, b1, b2, -⟩ := C44_no_new_ground L (orthoprint C fcs) hval
  have hu : ∀ q, Gen q → ∀ g ∈ b.faces, Interior C g.border q → ∃ l ∈ faceShapes pts polys, Over C l q (zAt g q) := by
    intro q hq g hg hi
    obtain ⟨-, f, hf, -, e, hp⟩ := b2 g hg
    obtain ⟨l, hl, k⟩ := forall₂_mem_left k4 f hf
    exact ⟨l, k1.subset hl, (k.2.2.2 q _).1 ⟨hp q hq hi, by unfold zAt; rw [e]⟩⟩
  refine ⟨⟨n.name, emb n.ref, n.epsg, b⟩, ?_, rfl, rfl, rfl, fun q hq => ⟨hu q hq, fun h => ?_⟩⟩
  · unfold FootPrint.ofUNode FootPrint.ofNode
    rw [h1, Out.ok_bind, sumPrints_valid L _ _ hval (by simp [Brick.empty]), b1]
    rfl
  · refine brick_height_out L (fun f hf => (b2 f hf).1) hq ?_
    rintro ⟨g, hg, hi⟩
    obtain ⟨l, hl, ho⟩ := hu q hq g hg hi
    exact h ⟨l, hl, _, ho⟩

/-! ### The faces in the other direction -/

theorem shapes_reverse (pts : List (V3 K)) (polys : List (List Nat)) : faceShapes pts (polys.map List.reverse) = (faceShapes pts polys).map List.reverse := by
  unfold faceShapes
  rw [List.map_map, List.map_map]
  refine List.map_congr_left fun p _ => ?_
  simp [cornerPoints, List.filterMap_reverse]

theorem line_reverse (l : List (V3 K)) : SeenAsLine l.reverse ↔ SeenAsLine l := by
  unfold SeenAsLine
  simp

theorem over_reverse (hrev : ∀ (a : Poly K) p, C.side a.reverse p = C.side a p) (l : List (V3 K)) (q : V2 K) (z : K) : Over C l.reverse q z ↔ Over C l q z := by
  unfold Over
  rw [line_reverse, List.map_reverse, hrev]
  simp

theorem ring_reverse (l : List (V3 K)) (r : Poly K) : ShadowRing l.reverse r ↔ ShadowRing l r := by
  unfold ShadowRing
  rw [List.map_reverse, List.reverse_reverse]
  exact or_comm

theorem triple_reverse {l : List (V3 K)} {a b c : V2 K} {t : Poly K} (h : (a :: b :: c :: t) ~r l.reverse.map ground) :
    (c :: b :: a :: t.reverse) ~r l.map ground := by
  have := h.reverse
  rw [List.map_reverse, List.reverse_reverse] at this
  refine List.IsRotated.trans ?_ this
  refine List.IsRotated.symm ⟨t.length, ?_⟩
  rw [show (a :: b :: c :: t).reverse = t.reverse ++ [c, b, a] by simp]
  rw [show t.length = t.reverse.length by simp, List.rotate_append_length_eq]
  rfl

theorem plain_reverse {l : List (V3 K)} (h : PlainRoof C Ok l) : PlainRoof C Ok l.reverse where
  three := by rw [List.length_reverse]; exact h.three
  flat := by
    obtain ⟨n, h1, h2⟩ := h.flat
    exact ⟨n, h1, by simpa using h2⟩
  sharp := by
    intro a b c t hr hi
    refine h.sharp c b a t.reverse (triple_reverse hr) ?_
    unfold InLine at hi ⊢
    linear_combination -hi
  simple := fun r hr => h.simple r ((ring_reverse l r).1 hr)
  ok := fun r hr => h.ok r ((ring_reverse l r).1 hr)

theorem middles_reverse (hrev : ∀ (a : Poly K) p, C.side a.reverse p = C.side a p) {l : List (V3 K)} (h : MiddlesInside C Gen l) : MiddlesInside C Gen l.reverse := by
  intro a b c t hr
  have := h c b a t.reverse (triple_reverse hr)
  rw [show c.x + b.x + a.x = a.x + b.x + c.x by ring, show c.y + b.y + a.y = a.y + b.y + c.y by ring] at this
  exact ⟨this.1, by rw [List.map_reverse, hrev]; exact this.2⟩

theorem heights_reverse (hrev : ∀ (a : Poly K) p, C.side a.reverse p = C.side a p) {faces : List (List (V3 K))} {height : V2 K → Out K}
    (h : HeightsOf C Gen (faces.map List.reverse) height) : HeightsOf C Gen faces height := by
  intro q hq
  have := h q hq
  have ex : ∀ P : List (V3 K) → Prop, (∃ l ∈ faces.map List.reverse, P l) ↔ ∃ l ∈ faces, P l.reverse := fun P => ⟨fun ⟨l, h1, h2⟩ => by
      obtain ⟨k, hk, rfl⟩ := List.mem_map.1 h1
      exact ⟨k, hk, h2⟩, fun ⟨l, h1, h2⟩ => ⟨l.reverse, List.mem_map_of_mem h1, h2⟩⟩
  unfold TopAt at this ⊢
  simpa only [ex, List.forall_mem_map, over_reverse hrev] using this

/-- C106, the part that holds, for a mesh: the footprint of the node made of it has the heights of the mesh, in whichever direction its faces are given.
Missing: other orders of the faces, and faces with straight angles. -/
theorem C106_mesh_partial (L : Lawful C Ok Good Gen) (hrev : ∀ (a : Poly K) p, C.side a.reverse p = C.side a p) {lib : SoupLib K} (hL : SoupLaw lib)
    (emb : V3 ℚ → V3 K) (m : Mesh) (ref : V3 ℚ) (epsg : Nat) (hm : PolygonMesh (m.points.map emb) (m.faces.map Face.points))
    (hf : ∀ l ∈ faceShapes (m.points.map emb) (m.faces.map Face.points), SeenAsLine l ∨ (PlainRoof C Ok l ∧ MiddlesInside C Gen l))
    (hup : (faceShapes (m.points.map emb) (m.faces.map Face.points)).Pairwise (Lower C Gen)) :
    ∃ n fp, UNode.ofMesh lib emb m ref epsg = .ok n ∧ FootPrint.ofUNode C emb n = .ok fp ∧ fp.name = m.name ∧ fp.ref = emb ref ∧ fp.epsg = epsg ∧
      HeightsOf C Gen (faceShapes (m.points.map emb) (m.faces.map Face.points)) (fp.brick.height C) := by
  obtain ⟨n, S, h1, h2, h3, h4, R, h5, h6, -⟩ := C73_node hL m ref epsg hm
  by_cases hc : ClosedSurf S ∧ lib.outward S = false
  · have R' := (h5 hc).1
    rw [show (m.faces.map fun f => f.points.reverse) = (m.faces.map Face.points).map List.reverse by rw [List.map_map]; rfl] at R'
    obtain ⟨fp, k1, k2, k3, k4, k5⟩ := C106_node_partial L hrev emb n R' (by
        rw [shapes_reverse]
        simp only [List.forall_mem_map, line_reverse]
        exact fun l hl => (hf l hl).imp_right fun h => ⟨plain_reverse h.1, middles_reverse hrev h.2⟩) (by
        rw [shapes_reverse, List.pairwise_map]
        refine hup.imp fun {l k} h => ?_
        intro q hq z z' a b
        exact h q hq z z' ((over_reverse hrev l q z).1 a) ((over_reverse hrev k q z').1 b))
    rw [shapes_reverse] at k5
    exact ⟨n, fp, h1, k1, by rw [k2, h2], by rw [k3, h3], by rw [k4, h4], heights_reverse hrev k5⟩
  · rw [← h6 hc] at R
    obtain ⟨fp, k1, k2, k3, k4, k5⟩ := C106_node_partial L hrev emb n R hf hup
    exact ⟨n, fp, h1, k1, by rw [k2, h2], by rw [k3, h3], by rw [k4, h4], k5⟩

/-! ### Examples -/

/-- A closed block of two by two units, 3 m high: the floor comes first, the roof last. -/
def block : Surf ℚ := ofTables
  [1, 2, 3, 0, 5, 6, 7, 4, 9, 10, 11, 8, 13, 14, 15, 12, 17, 18, 19, 16, 21, 22, 23, 20]
  [3, 0, 1, 2, 7, 4, 5, 6, 11, 8, 9, 10, 15, 12, 13, 14, 19, 16, 17, 18, 23, 20, 21, 22]
  [16, 12, 8, 4, 3, 11, 20, 17, 2, 15, 21, 5, 1, 19, 22, 9, 0, 7, 23, 13, 6, 10, 14, 18]
  [1, 2, 3, 0, 3, 4, 5, 0, 2, 6, 4, 3, 1, 7, 6, 2, 0, 5, 7, 1, 4, 6, 7, 5]
  [some 0, some 0, some 0, some 0, some 1, some 1, some 1, some 1, some 2, some 2, some 2, some 2, some 3, some 3, some 3, some 3, some 4, some 4, some 4,
    some 4, some 5, some 5, some 5, some 5]
  [0, 4, 8, 12, 16, 20]
  [⟨0, 0, 0⟩, ⟨0, 2, 0⟩, ⟨2, 2, 0⟩, ⟨2, 0, 0⟩, ⟨2, 0, 3⟩, ⟨0, 0, 3⟩, ⟨2, 2, 3⟩, ⟨0, 2, 3⟩]

/-- The mesh of the block. -/
def blockMesh : Mesh := Mesh.make "block".toList block.points
  [⟨[0, 1, 2, 3]⟩, ⟨[0, 3, 4, 5]⟩, ⟨[3, 2, 6, 4]⟩, ⟨[2, 1, 7, 6]⟩, ⟨[1, 0, 5, 7]⟩, ⟨[5, 4, 6, 7]⟩]

theorem block_represents : Represents block blockMesh.points (blockMesh.faces.map Face.points) := by
  refine ⟨checkSurf_valid (by decide +kernel), by decide +kernel, by decide +kernel, by decide +kernel, ?_, ?_, ?_, ?_⟩
  · intro h hh k hk he
    have : ∀ h ∈ block.hs, ∀ k ∈ block.hs, block.vert h = block.vert k → ∃ n ∈ List.range 4, (fun x => block.opp (block.next x))^[n] h = k := by
      decide +kernel
    obtain ⟨n, _, hn⟩ := this h hh k hk he
    exact ⟨n, hn⟩
  · refine .cons ⟨[3, 0, 1, 2], ?_, ?_⟩ (.cons ⟨[7, 4, 5, 6], ?_, ?_⟩ (.cons ⟨[11, 8, 9, 10], ?_, ?_⟩ (.cons ⟨[15, 12, 13, 14], ?_, ?_⟩
      (.cons ⟨[19, 16, 17, 18], ?_, ?_⟩ (.cons ⟨[23, 20, 21, 22], ?_, ?_⟩ .nil)))))
    all_goals first
      | exact boundaryOf_check (by decide) (by decide) (by decide +kernel) (by decide +kernel) (by decide +kernel)
      | (simp only [List.forall₂_cons, List.Forall₂.nil, and_true]; decide +kernel)
  · decide +kernel
  · decide +kernel

/-- The four ways to list the corners of a rectangle. -/
theorem rect_triples {b : Box2 ℚ} {x y z : V2 ℚ} {t : Poly ℚ} (h : (x :: y :: z :: t) ~r (rect b).outer) :
    (x = ⟨b.xmin, b.ymin⟩ ∧ y = ⟨b.xmax, b.ymin⟩ ∧ z = ⟨b.xmax, b.ymax⟩) ∨ (x = ⟨b.xmax, b.ymin⟩ ∧ y = ⟨b.xmax, b.ymax⟩ ∧ z = ⟨b.xmin, b.ymax⟩) ∨
    (x = ⟨b.xmax, b.ymax⟩ ∧ y = ⟨b.xmin, b.ymax⟩ ∧ z = ⟨b.xmin, b.ymin⟩) ∨ (x = ⟨b.xmin, b.ymax⟩ ∧ y = ⟨b.xmin, b.ymin⟩ ∧ z = ⟨b.xmax, b.ymin⟩) := by
  obtain ⟨n, hn, e⟩ := List.isRotated_iff_mod.1 h.symm
  change n ≤ 4 at hn
  unfold rect at e
  interval_cases n <;> simp [List.rotate] at e <;> obtain ⟨e1, e2, e3, -⟩ := e <;> simp [← e1, ← e2, ← e3]

/-- A face over a rectangle is drawn as it is. -/
theorem rect_roof {l : List (V3 ℚ)} {b : Box2 ℚ} (h0 : Fat b) (h1 : IsInt b.xmin) (h2 : IsInt b.ymin) (h3 : IsInt b.xmax) (h4 : IsInt b.ymax)
    (hfl : FlatRoof l) (h : l.map ground ~r (rect b).outer) : PlainRoof rectCgal RectOk l where
  three := by
    have := h.perm.length_eq
    rw [List.length_map] at this
    rw [this]
    show 3 ≤ 4
    decide
  flat := hfl
  sharp := by
    intro x y z t hr hi
    have k1 := sub_pos.2 h0.1
    have k2 := sub_pos.2 h0.2
    have k3 := (mul_pos k1 k2).ne'
    rcases rect_triples (hr.trans h) with ⟨rfl, rfl, rfl⟩ | ⟨rfl, rfl, rfl⟩ | ⟨rfl, rfl, rfl⟩ | ⟨rfl, rfl, rfl⟩ <;> unfold InLine at hi <;> simp only at hi <;>
      exact k3 (by linear_combination hi)
  simple := fun _ _ => rfl
  ok := by
    intro r hr hs
    rcases hr with hr | hr
    · exact ⟨b, h0, h1, h2, h3, h4, rfl, hr.trans h⟩
    · exfalso
      rw [shoelace_isRotated (hr.trans h.reverse)] at hs
      have k1 := sub_pos.2 h0.1
      have k2 := sub_pos.2 h0.2
      have k3 := mul_pos k1 k2
      rw [← polyArea_eq] at hs
      simp [polyArea, rect, fanArea, triArea] at hs
      linarith

theorem third_gen {x y : ℚ} (hx : x = 2 / 3 ∨ x = 4 / 3) (hy : y = 2 / 3 ∨ y = 4 / 3) : RectGen ⟨x, y⟩ := by
  have key : ∀ x : ℚ, x = 2 / 3 ∨ x = 4 / 3 → ¬ IsInt x := by
    rintro x h ⟨k, rfl⟩
    rcases h with h | h
    · have : (3 * k : ℚ) = 2 := by linarith
      have : 3 * k = 2 := by exact_mod_cast this
      omega
    · have : (3 * k : ℚ) = 4 := by linarith
      have : 3 * k = 4 := by exact_mod_cast this
      omega
  exact ⟨key x hx, key y hy⟩

/-- A face over the ground of the block, seen from above. -/
theorem block_plain {l : List (V3 ℚ)} (hfl : FlatRoof l) (h : l.map ground ~r (rect ⟨0, 0, 2, 2⟩).outer) :
    PlainRoof rectCgal RectOk l ∧ MiddlesInside rectCgal RectGen l := by
  refine ⟨rect_roof (b := ⟨0, 0, 2, 2⟩) (by decide) ⟨0, by norm_num⟩ ⟨0, by norm_num⟩ ⟨2, by norm_num⟩ ⟨2, by norm_num⟩ hfl h, ?_⟩
  intro x y w t hr
  have hside : ∀ q : V2 ℚ, InRect ⟨0, 0, 2, 2⟩ q → rectCgal.side (l.map ground) q = .bounded := by
    intro q hq
    show rectSide _ q = _
    unfold rectSide
    rw [polyBox_perm h.perm, polyBox_rect (by decide)]
    simp only [hq, if_true]
  rcases rect_triples (b := ⟨0, 0, 2, 2⟩) (hr.trans h) with ⟨rfl, rfl, rfl⟩ | ⟨rfl, rfl, rfl⟩ | ⟨rfl, rfl, rfl⟩ | ⟨rfl, rfl, rfl⟩ <;>
    exact ⟨third_gen (by norm_num) (by norm_num), hside _ (by norm_num [InRect])⟩

theorem rect_reverse (a : Poly ℚ) (p : V2 ℚ) : rectCgal.side a.reverse p = rectCgal.side a p := by
  show rectSide _ _ = rectSide _ _
  unfold rectSide
  rw [polyBox_perm (List.reverse_perm a)]

theorem level_flat {l : List (V3 ℚ)} (z : ℚ) (h : ∀ v ∈ l, v.z = z) : FlatRoof l :=
  ⟨⟨0, 0, 1, -z⟩, by norm_num, fun v hv => by unfold OnPlane; rw [h v hv]; ring⟩

/-- The heights above a level face. -/
theorem level_over {l : List (V3 ℚ)} {z : ℚ} (h : ∀ v ∈ l, v.z = z) {q : V2 ℚ} {z' : ℚ} (hq : Over rectCgal l q z') (P : PlainRoof rectCgal RectOk l) : z' = z := by
  obtain ⟨-, -, n, hn, hall, ho⟩ := hq
  have h3 := P.three
  match e : l, h3 with
  | x :: y :: w :: t, _ =>
    have hs := P.sharp (ground x) (ground y) (ground w) (t.map ground) (List.IsRotated.refl _)
    have ex := hall x (by simp)
    have ey := hall y (by simp)
    have ew := hall w (by simp)
    have zx := h x (by simp)
    have zy := h y (by simp)
    have zw := h w (by simp)
    unfold OnPlane at ex ey ew ho
    rw [zx] at ex
    rw [zy] at ey
    rw [zw] at ew
    unfold InLine ground at hs
    simp only at hs
    have e1 : n.a * (y.x - x.x) + n.b * (y.y - x.y) = 0 := by linear_combination ey - ex
    have e2 : n.a * (w.x - x.x) + n.b * (w.y - x.y) = 0 := by linear_combination ew - ex
    have ha : n.a = 0 := by
      apply (mul_eq_zero.1 ?_).resolve_right hs
      linear_combination (w.y - x.y) * e1 - (y.y - x.y) * e2
    have hb : n.b = 0 := by
      apply (mul_eq_zero.1 ?_).resolve_right hs
      linear_combination (y.x - x.x) * e2 - (w.x - x.x) * e1
    rw [ha, hb] at ex ho
    have : n.c * (z' - z) = 0 := by linear_combination ho - ex
    have := (mul_eq_zero.1 this).resolve_left hn
    linarith

/-- The floor of the block, seen from above, and its roof. -/
def blockFloor : List (V3 ℚ) := [⟨2, 0, 0⟩, ⟨2, 2, 0⟩, ⟨0, 2, 0⟩, ⟨0, 0, 0⟩]
def blockRoof : List (V3 ℚ) := [⟨0, 0, 3⟩, ⟨2, 0, 3⟩, ⟨2, 2, 3⟩, ⟨0, 2, 3⟩]

theorem block_shapes : faceShapes (blockMesh.points.map id) (blockMesh.faces.map Face.points) =
    [blockFloor.reverse, [⟨0, 0, 0⟩, ⟨2, 0, 0⟩, ⟨2, 0, 3⟩, ⟨0, 0, 3⟩], [⟨2, 0, 0⟩, ⟨2, 2, 0⟩, ⟨2, 2, 3⟩, ⟨2, 0, 3⟩],
      [⟨2, 2, 0⟩, ⟨0, 2, 0⟩, ⟨0, 2, 3⟩, ⟨2, 2, 3⟩], [⟨0, 2, 0⟩, ⟨0, 0, 0⟩, ⟨0, 0, 3⟩, ⟨0, 2, 3⟩], blockRoof] := by
  decide +kernel

theorem floor_plain : PlainRoof rectCgal RectOk blockFloor ∧ MiddlesInside rectCgal RectGen blockFloor :=
  block_plain (level_flat 0 (by decide)) ⟨3, by decide +kernel⟩

theorem roof_plain : PlainRoof rectCgal RectOk blockRoof ∧ MiddlesInside rectCgal RectGen blockRoof :=
  block_plain (level_flat 3 (by decide)) ⟨0, by decide +kernel⟩

theorem block_walls : ∀ l ∈ ([[⟨0, 0, 0⟩, ⟨2, 0, 0⟩, ⟨2, 0, 3⟩, ⟨0, 0, 3⟩], [⟨2, 0, 0⟩, ⟨2, 2, 0⟩, ⟨2, 2, 3⟩, ⟨2, 0, 3⟩],
      [⟨2, 2, 0⟩, ⟨0, 2, 0⟩, ⟨0, 2, 3⟩, ⟨2, 2, 3⟩], [⟨0, 2, 0⟩, ⟨0, 0, 0⟩, ⟨0, 0, 3⟩, ⟨0, 2, 3⟩]] : List (List (V3 ℚ))), SeenAsLine l := by
  intro l hl
  simp only [List.mem_cons, List.not_mem_nil, or_false] at hl
  rcases hl with rfl | rfl | rfl | rfl
  · exact ⟨0, 1, 0, by norm_num, by simp⟩
  · exact ⟨1, 0, -2, by norm_num, by simp⟩
  · exact ⟨0, 1, -2, by norm_num, by simp⟩
  · exact ⟨1, 0, 0, by norm_num, by simp⟩

theorem block_faces : ∀ l ∈ faceShapes (blockMesh.points.map id) (blockMesh.faces.map Face.points),
    SeenAsLine l ∨ (PlainRoof rectCgal RectOk l ∧ MiddlesInside rectCgal RectGen l) := by
  rw [block_shapes]
  intro l hl
  rw [List.mem_cons] at hl
  rcases hl with rfl | hl
  · exact .inr ⟨plain_reverse floor_plain.1, middles_reverse rect_reverse floor_plain.2⟩
  · by_cases hr : l = blockRoof
    · rw [hr]; exact .inr roof_plain
    · refine .inl (block_walls l ?_)
      simp only [List.mem_cons, List.not_mem_nil, or_false, hr] at hl ⊢
      exact hl

theorem block_lower : (faceShapes (blockMesh.points.map id) (blockMesh.faces.map Face.points)).Pairwise (Lower rectCgal RectGen) := by
  have hw : ∀ l, SeenAsLine l → ∀ m, Lower rectCgal RectGen l m ∧ Lower rectCgal RectGen m l :=
    fun l hl m => ⟨fun q _ z z' a _ => absurd hl a.1, fun q _ z z' _ b => absurd hl b.1⟩
  have hfr : Lower rectCgal RectGen blockFloor.reverse blockRoof := by
    intro q _ z z' a b
    rw [level_over (z := 0) (by decide) a (plain_reverse floor_plain.1), level_over (z := 3) (by decide) b roof_plain.1]
    norm_num
  rw [block_shapes]
  have h1 := block_walls _ (List.mem_cons_self)
  have h2 := block_walls _ (List.mem_cons_of_mem _ List.mem_cons_self)
  have h3 := block_walls _ (List.mem_cons_of_mem _ (List.mem_cons_of_mem _ List.mem_cons_self))
  have h4 := block_walls _ (List.mem_cons_of_mem _ (List.mem_cons_of_mem _ (List.mem_cons_of_mem _ List.mem_cons_self)))
  simp only [List.pairwise_cons, List.mem_cons, List.not_mem_nil, or_false, forall_eq_or_imp, forall_eq, List.Pairwise.nil, and_true, IsEmpty.forall_iff, implies_true]
  exact ⟨⟨(hw _ h1 _).2, (hw _ h2 _).2, (hw _ h3 _).2, (hw _ h4 _).2, hfr⟩, ⟨(hw _ h1 _).1, (hw _ h1 _).1, (hw _ h1 _).1, (hw _ h1 _).1⟩,
    ⟨(hw _ h2 _).1, (hw _ h2 _).1, (hw _ h2 _).1⟩, ⟨(hw _ h3 _).1, (hw _ h3 _).1⟩, (hw _ h4 _).1⟩

/-- C106: the closed block, floor included: its footprint is 3 m high, whatever the library that builds the surface. -/
example (lib : SoupLib ℚ) (hL : SoupLaw lib) : ∃ n fp, UNode.ofMesh lib id blockMesh ⟨1, 2, 3⟩ 2154 = .ok n ∧ FootPrint.ofUNode rectCgal id n = .ok fp ∧
    fp.name = "block".toList ∧ fp.brick.height rectCgal ⟨1 / 2, 1 / 2⟩ = .ok 3 := by
  obtain ⟨n, fp, h1, h2, h3, -, -, h4⟩ := C106_mesh_partial rect_lawful rect_reverse hL id blockMesh ⟨1, 2, 3⟩ 2154
    ⟨block, by rw [List.map_id]; exact block_represents⟩ block_faces block_lower
  have hroof : Over rectCgal blockRoof ⟨1 / 2, 1 / 2⟩ 3 := by
    refine ⟨fun h => ?_, by decide +kernel, ⟨0, 0, 1, -3⟩, by norm_num, by simp [blockRoof, OnPlane], by norm_num [OnPlane]⟩
    obtain ⟨a, b, c, hab, hall⟩ := h
    have e1 := hall ⟨0, 0, 3⟩ (by simp [blockRoof])
    have e2 := hall ⟨2, 0, 3⟩ (by simp [blockRoof])
    have e3 := hall ⟨0, 2, 3⟩ (by simp [blockRoof])
    simp only at e1 e2 e3
    rcases hab with h | h
    · exact h (by linarith)
    · exact h (by linarith)
  have hm : blockRoof ∈ faceShapes (blockMesh.points.map id) (blockMesh.faces.map Face.points) := by rw [block_shapes]; simp
  obtain ⟨z, z1, ⟨l, hl, ho⟩, z2⟩ := (h4 ⟨1 / 2, 1 / 2⟩ (by simpa using half_gen 0 0)).1 ⟨_, hm, 3, hroof⟩
  have : (3 : ℚ) ≤ z := z2 _ hm 3 hroof
  refine ⟨n, fp, h1, h2, h3, ?_⟩
  rw [z1]
  congr 1
  rw [block_shapes, List.mem_cons] at hl
  rcases hl with rfl | hl
  · have := level_over (z := 0) (by decide) ho (plain_reverse floor_plain.1)
    linarith
  · by_cases hr : l = blockRoof
    · rw [hr] at ho
      exact level_over (z := 3) (by decide) ho roof_plain.1
    · refine absurd (block_walls l ?_) ho.1
      simp only [List.mem_cons, List.not_mem_nil, or_false, hr] at hl ⊢
      exact hl

/-- C106: the hypotheses of `C106_under` are met by the block. -/
example : ∃ fp, FootPrint.ofUNode rectCgal id ⟨[], ⟨0, 0, 0⟩, 2154, block, none⟩ = .ok fp ∧ fp.brick.height rectCgal ⟨5 / 2, 1 / 2⟩ = .ok 0 := by
  have hs : blockMesh.points = blockMesh.points.map _root_.id := (List.map_id _).symm
  have hR := block_represents
  rw [hs] at hR
  obtain ⟨fp, h1, -, -, -, h2⟩ := C106_under rect_lawful rect_reverse id ⟨[], ⟨0, 0, 0⟩, 2154, block, none⟩ hR fun l hl => (block_faces l hl).imp_right And.left
  refine ⟨fp, h1, (h2 ⟨5 / 2, 1 / 2⟩ (by convert half_gen 2 0 using 2 <;> norm_num)).2 ?_⟩
  rw [block_shapes]
  rintro ⟨l, hl, z, -, ho, -⟩
  revert ho
  revert l
  decide +kernel

/-- Two roofs with a common edge, the first level at 3 m, the second rising from there. -/
def lean2 : Surf ℚ := ofTables [1, 2, 3, 0, 5, 6, 7, 4, 10, 13, 9, 8, 11, 12]
  [3, 0, 1, 2, 7, 4, 5, 6, 11, 10, 8, 12, 13, 9]
  [8, 7, 9, 10, 11, 12, 13, 1, 0, 2, 3, 4, 5, 6]
  [1, 2, 3, 0, 4, 5, 2, 1, 0, 2, 3, 1, 4, 5]
  [some 0, some 0, some 0, some 0, some 1, some 1, some 1, some 1, none, none, none, none, none, none]
  [0, 4]
  [⟨0, 0, 3⟩, ⟨1, 0, 3⟩, ⟨1, 2, 3⟩, ⟨0, 2, 3⟩, ⟨3, 0, 5⟩, ⟨3, 2, 5⟩]

theorem lean2_represents : Represents lean2 lean2.points [[0, 1, 2, 3], [1, 4, 5, 2]] := by
  refine ⟨checkSurf_valid (by decide +kernel), by decide +kernel, rfl, by decide +kernel, ?_, ?_, by decide +kernel, by decide +kernel⟩
  · intro h hh k hk he
    have : ∀ h ∈ lean2.hs, ∀ k ∈ lean2.hs, lean2.vert h = lean2.vert k → ∃ n ∈ List.range 4, (fun x => lean2.opp (lean2.next x))^[n] h = k := by
      decide +kernel
    obtain ⟨n, _, hn⟩ := this h hh k hk he
    exact ⟨n, hn⟩
  · refine .cons ⟨[3, 0, 1, 2], ?_, ?_⟩ (.cons ⟨[7, 4, 5, 6], ?_, ?_⟩ .nil)
    all_goals first
      | exact boundaryOf_check (by decide) (by decide) (by decide +kernel) (by decide +kernel) (by decide +kernel)
      | (simp only [List.forall₂_cons, List.Forall₂.nil, and_true]; decide +kernel)

/-- C106: the hypotheses of `C106_apart_partial` are met by these roofs; the second is drawn at 4 m where it is. -/
example : ∃ fp, FootPrint.ofUNode rectCgal id ⟨[], ⟨0, 0, 0⟩, 2154, lean2, none⟩ = .ok fp ∧
    HeightsOf rectCgal RectGen (faceShapes lean2.points [[0, 1, 2, 3], [1, 4, 5, 2]]) (fp.brick.height rectCgal) := by
  have hs : faceShapes lean2.points [[0, 1, 2, 3], [1, 4, 5, 2]] =
      [[⟨0, 0, 3⟩, ⟨1, 0, 3⟩, ⟨1, 2, 3⟩, ⟨0, 2, 3⟩], [⟨1, 0, 3⟩, ⟨3, 0, 5⟩, ⟨3, 2, 5⟩, ⟨1, 2, 3⟩]] := by decide +kernel
  obtain ⟨fp, h1, -, -, -, h2⟩ := C106_apart_partial rect_lawful rect_reverse id ⟨[], ⟨0, 0, 0⟩, 2154, lean2, none⟩ lean2_represents (by
      rw [hs]
      intro l hl
      simp only [List.mem_cons, List.not_mem_nil, or_false] at hl
      rcases hl with rfl | rfl
      · exact .inr (rect_roof (b := ⟨0, 0, 1, 2⟩) (by decide) ⟨0, by norm_num⟩ ⟨0, by norm_num⟩ ⟨1, by norm_num⟩ ⟨2, by norm_num⟩ (level_flat 3 (by simp))
          (List.IsRotated.refl _))
      · exact .inr (rect_roof (b := ⟨1, 0, 3, 2⟩) (by decide) ⟨1, by norm_num⟩ ⟨0, by norm_num⟩ ⟨3, by norm_num⟩ ⟨2, by norm_num⟩
          ⟨⟨1, 0, -1, 2⟩, by norm_num, by norm_num [OnPlane]⟩ (List.IsRotated.refl _))) (by
      rw [hs]
      refine List.pairwise_cons.2 ⟨fun l hl q _ z z' h => ?_, List.pairwise_singleton _ _⟩
      rw [List.mem_singleton] at hl
      subst hl
      have a := (slab_interior 1 0 0 1 2 3 (by norm_num) (by norm_num) q).1 ⟨h.1.2.1, by simp [slab, rect]⟩
      have b := (slab_interior 2 1 0 3 2 7 (by norm_num) (by norm_num) q).1 ⟨h.2.2.1, by simp [slab, rect]⟩
      linarith [a.2.1, b.1])
  exact ⟨fp, h1, h2⟩

/-! ### The full statement -/

/-- C106, as it is stated: the footprint of a node with flat faces, whose shadows are regions the library can handle, has the heights of the building. -/
def C106_full : Prop := ∀ (C : Cgal ℚ) (Ok : Pwh ℚ → Prop) (Good : C.PSet → Prop) (Gen : V2 ℚ → Prop), Lawful C Ok Good Gen →
  (∀ (a : Poly ℚ) p, C.side a.reverse p = C.side a p) → ∀ (n : UNode ℚ) (pts : List (V3 ℚ)) (polys : List (List Nat)), Represents n.surf pts polys →
  (∀ l ∈ faceShapes pts polys, SeenAsLine l ∨ (FlatRoof l ∧ ∃ r, Ok r ∧ ∀ q, Interior C r q ↔ C.side (l.map ground) q = .bounded)) →
  ∃ fp, FootPrint.ofUNode C id n = .ok fp ∧ HeightsOf C Gen (faceShapes pts polys) (fp.brick.height C)

/-- A flat roof of two by two units at 3 m, with a fifth corner in the middle of a side. -/
def kinked : Surf ℚ := ofTables [1, 2, 3, 4, 0, 9, 5, 6, 7, 8] [4, 0, 1, 2, 3, 6, 7, 8, 9, 5] [5, 6, 7, 8, 9, 0, 1, 2, 3, 4] [0, 1, 2, 3, 4, 4, 0, 1, 2, 3]
  [some 0, some 0, some 0, some 0, some 0, none, none, none, none, none] [0] [⟨0, 0, 3⟩, ⟨1, 0, 3⟩, ⟨2, 0, 3⟩, ⟨2, 2, 3⟩, ⟨0, 2, 3⟩]

theorem kinked_represents : Represents kinked kinked.points [[0, 1, 2, 3, 4]] := by
  refine ⟨checkSurf_valid (by decide +kernel), by decide +kernel, rfl, by decide +kernel, ?_, ?_, by decide +kernel, by decide +kernel⟩
  · intro h hh k hk he
    have : ∀ h ∈ kinked.hs, ∀ k ∈ kinked.hs, kinked.vert h = kinked.vert k → ∃ n ∈ List.range 2, (fun x => kinked.opp (kinked.next x))^[n] h = k := by
      decide +kernel
    obtain ⟨n, _, hn⟩ := this h hh k hk he
    exact ⟨n, hn⟩
  · refine .cons ⟨[0, 1, 2, 3, 4], boundaryOf_check (by decide) (by decide) (by decide +kernel) (by decide +kernel) (by decide +kernel), ?_⟩ .nil
    simp only [List.forall₂_cons, List.Forall₂.nil, and_true]
    decide +kernel

theorem kinked_shapes : faceShapes kinked.points [[0, 1, 2, 3, 4]] = [[⟨0, 0, 3⟩, ⟨1, 0, 3⟩, ⟨2, 0, 3⟩, ⟨2, 2, 3⟩, ⟨0, 2, 3⟩]] := by decide +kernel

theorem kinked_seen : ¬ SeenAsLine ([⟨0, 0, 3⟩, ⟨1, 0, 3⟩, ⟨2, 0, 3⟩, ⟨2, 2, 3⟩, ⟨0, 2, 3⟩] : List (V3 ℚ)) := by
  rintro ⟨a, b, c, hab, hall⟩
  have e1 := hall ⟨0, 0, 3⟩ (by simp)
  have e2 := hall ⟨2, 0, 3⟩ (by simp)
  have e3 := hall ⟨0, 2, 3⟩ (by simp)
  simp only at e1 e2 e3
  rcases hab with h | h
  · exact h (by linarith)
  · exact h (by linarith)

theorem kinked_roofs : ∀ l ∈ faceShapes kinked.points [[0, 1, 2, 3, 4]], SeenAsLine l ∨
    (FlatRoof l ∧ ∃ r, RectOk r ∧ ∀ q, Interior rectCgal r q ↔ rectCgal.side (l.map ground) q = .bounded) := by
  have hs := kinked_shapes
  have hflat : FlatRoof ([⟨0, 0, 3⟩, ⟨1, 0, 3⟩, ⟨2, 0, 3⟩, ⟨2, 2, 3⟩, ⟨0, 2, 3⟩] : List (V3 ℚ)) := level_flat 3 (by simp)
  rw [hs]
  intro l hl
  rw [List.mem_singleton] at hl
  subst hl
  refine .inr ⟨hflat, rect ⟨0, 0, 2, 2⟩, ⟨⟨0, 0, 2, 2⟩, by decide, ⟨0, by norm_num⟩, ⟨0, by norm_num⟩, ⟨2, by norm_num⟩, ⟨2, by norm_num⟩, isRect_rect _⟩, fun q => ?_⟩
  have e : ∀ q, rectCgal.side (rect ⟨0, 0, 2, 2⟩).outer q =
      rectCgal.side (([⟨0, 0, 3⟩, ⟨1, 0, 3⟩, ⟨2, 0, 3⟩, ⟨2, 2, 3⟩, ⟨0, 2, 3⟩] : List (V3 ℚ)).map ground) q := by
    intro q
    have rs : ∀ l q, rectCgal.side l q = rectSide l q := fun _ _ => rfl
    rw [rs, rs]
    unfold rectSide
    rw [polyBox_rect (by decide),
      show polyBox (([⟨0, 0, 3⟩, ⟨1, 0, 3⟩, ⟨2, 0, 3⟩, ⟨2, 2, 3⟩, ⟨0, 2, 3⟩] : List (V3 ℚ)).map ground) = some ⟨0, 0, 2, 2⟩ by decide +kernel]
  unfold Interior
  rw [e q]
  simp [rect]

theorem kinked_heights {f : V2 ℚ → Out ℚ} (h : HeightsOf rectCgal RectGen (faceShapes kinked.points [[0, 1, 2, 3, 4]]) f) : ∃ z, f ⟨1 / 2, 1 / 2⟩ = .ok z ∧ 3 ≤ z := by
  rw [kinked_shapes] at h
  have hov : Over rectCgal [⟨0, 0, 3⟩, ⟨1, 0, 3⟩, ⟨2, 0, 3⟩, ⟨2, 2, 3⟩, ⟨0, 2, 3⟩] ⟨1 / 2, 1 / 2⟩ 3 :=
    ⟨kinked_seen, by decide +kernel, ⟨0, 0, 1, -3⟩, by norm_num, by simp [OnPlane], by norm_num [OnPlane]⟩
  obtain ⟨z, z1, -, z2⟩ := (h ⟨1 / 2, 1 / 2⟩ (by simpa using half_gen 0 0)).1 ⟨_, List.mem_singleton_self _, 3, hov⟩
  exact ⟨z, z1, z2 _ (List.mem_singleton_self _) 3 hov⟩

/-- C106 is false: a flat roof whose first three corners are on a line is not drawn. -/
theorem C106_refuted : ¬ C106_full := by
  intro h
  obtain ⟨fp, h1, h2⟩ := h rectCgal RectOk RectGood RectGen rect_lawful rect_reverse ⟨[], ⟨0, 0, 0⟩, 2154, kinked, none⟩ kinked.points [[0, 1, 2, 3, 4]]
    kinked_represents kinked_roofs
  have hfp : FootPrint.ofUNode rectCgal id ⟨[], ⟨0, 0, 0⟩, 2154, kinked, none⟩ = .ok ⟨[], ⟨0, 0, 0⟩, 2154, Brick.empty⟩ := by decide +kernel
  rw [hfp] at h1
  cases h1
  obtain ⟨z, z1, z2⟩ := kinked_heights h2
  have h4 : (Brick.empty : Brick ℚ).height rectCgal ⟨1 / 2, 1 / 2⟩ = .ok 0 := by decide +kernel
  rw [h4] at z1
  cases z1
  norm_num at z2

end City.Props
