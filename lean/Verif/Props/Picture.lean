import Verif.Props.EndToEnd
import Verif.Props.RasterShift

/-! C110: from the faces of a mesh to the pixels of the image of its building, and from an input file to the image files. -/

namespace City.Spec
open City
section
variable {K : Type} [Field K] [LinearOrder K]

/-- The left and the upper border of a polygon: the least x and the greatest y of its corners. -/
def LeftTop (l : List (V2 K)) (x y : K) : Prop := ((∀ v ∈ l, x ≤ v.x) ∧ ∃ v ∈ l, v.x = x) ∧ (∀ v ∈ l, v.y ≤ y) ∧ ∃ v ∈ l, v.y = y

/-- `r` is the rest of the division of `a` by `p`. -/
def RestOf (a p r : K) : Prop := 0 ≤ r ∧ r < p ∧ ∃ k : ℤ, a = k * p + r

/-- How far a polygon is displaced in an image whose upper left corner is (left, top): by the distance to the pixel border to the left and above of its own
upper left corner. -/
def Displaced (left top p : K) (l : List (V2 K)) (d : V2 K) : Prop := ∃ x y, LeftTop l x y ∧ RestOf (x - left) p d.x ∧ RestOf (top - y) p d.y

/-- The face has a point over the square. -/
def AboveSquare (C : Cgal K) (Gen : V2 K → Prop) (sq : Pwh K) (l : List (V3 K)) : Prop := ∃ q z, Gen q ∧ Interior C sq q ∧ Over C l q z

/-- `z` is within the heights of the face over the square. -/
def HeightWithin (C : Cgal K) (Gen : V2 K → Prop) (sq : Pwh K) (l : List (V3 K)) (z : K) : Prop :=
  ∀ lo hi, (∀ q w, Gen q → Interior C sq q → Over C l q w → lo ≤ w ∧ w ≤ hi) → lo ≤ z ∧ z ≤ hi

open Classical in
/-- The pixel of row `i` and column `j` shows the faces of a building: it counts the faces that are over its square, and its value is the mean of one
height per such face, raised by `z0`; 0 if there is none. For each face the square is that of the pixel, displaced as `d` says. -/
def PixelShows (C : Cgal K) (Gen : V2 K → Prop) (left top p : K) (d : List (V3 K) → V2 K) (i j : Nat) (faces : List (List (V3 K))) (z0 : K) (hits : Int)
    (value : K) : Prop :=
  ∃ zs, List.Forall₂ (fun l z => HeightWithin C Gen (cell (left + (d l).x) (top - (d l).y) p i j) l z)
      (faces.filter fun l => decide (AboveSquare C Gen (cell (left + (d l).x) (top - (d l).y) p i j) l)) zs ∧
    hits = zs.length ∧ value = if zs = [] then 0 else z0 + mean zs

/-- `B` is the tightest box around the shadows of the faces that are not vertical. -/
def Extent (faces : List (List (V3 K))) (B : Box2 K) : Prop :=
  (∀ l ∈ faces, ¬ SeenAsLine l → ∀ v ∈ l, B.xmin ≤ v.x ∧ v.x ≤ B.xmax ∧ B.ymin ≤ v.y ∧ v.y ≤ B.ymax) ∧
  (∃ l ∈ faces, ¬ SeenAsLine l ∧ ∃ v ∈ l, v.x = B.xmin) ∧ (∃ l ∈ faces, ¬ SeenAsLine l ∧ ∃ v ∈ l, v.x = B.xmax) ∧
  (∃ l ∈ faces, ¬ SeenAsLine l ∧ ∃ v ∈ l, v.y = B.ymin) ∧ ∃ l ∈ faces, ¬ SeenAsLine l ∧ ∃ v ∈ l, v.y = B.ymax

/-- The triangle of any three corners in a row has a shadow that is not too small (the code demands it of the first three). -/
def NotSteep (l : List (V3 K)) : Prop :=
  ∀ a b c t, (a :: b :: c :: t) ~r l.map ground → FacePrint.eps ≤ |(b.x - a.x) * (c.y - a.y) - (b.y - a.y) * (c.x - a.x)|

variable [FloorRing K]

/-- The image of a building with the given faces and reference point, in pixels of size `p`: where it is, how large it is, and what its pixels show, each
face displaced as `D` allows, the same for all pixels. Nothing is said about pixels whose squares are not polygons the library can handle. -/
def ShowsFaces (C : Cgal K) (Ok : Pwh K → Prop) (Gen : V2 K → Prop) (faces : List (List (V3 K))) (ref : V3 K) (p : K)
    (D : Box2 K → List (V3 K) → V2 K → Prop) (r : Raster K) : Prop :=
  ∃ B d, Extent faces B ∧ (∀ l ∈ faces, ¬ SeenAsLine l → D B l (d l)) ∧ r.pixel = p ∧ r.ref = ⟨ref.x + B.xmin, ref.y + B.ymax, ref.z⟩ ∧
    (r.height : ℤ) = ⌈(B.ymax - B.ymin) / p⌉ ∧ (r.width : ℤ) = ⌈(B.xmax - B.xmin) / p⌉ ∧
    ∀ i < r.height, ∀ j < r.width, (∀ l ∈ faces, ¬ SeenAsLine l → Ok (cell (B.xmin + (d l).x) (B.ymax - (d l).y) p i j)) →
      ∃ n v, r.hit i j = .ok n ∧ r.at' i j = .ok v ∧ PixelShows C Gen B.xmin B.ymax p d i j faces ref.z n v

/-- Every face is displaced as `Displaced` says of its shadow. -/
def UpLeft (p : K) : Box2 K → List (V3 K) → V2 K → Prop := fun B l d => Displaced B.xmin B.ymax p (l.map ground) d

/-- No face is displaced. -/
def InPlace : Box2 K → List (V3 K) → V2 K → Prop := fun _ _ d => d = ⟨0, 0⟩

/-- A mesh whose image can be made: its faces form an oriented surface; each is vertical, or flat without straight angle, with a valid shadow and not too
steep; those which are not vertical, at least one and at most 32767, do not overlap when they are seen from above; the image is not too large. -/
structure Mappable (C : Cgal K) (Ok : Pwh K → Prop) (Gen : V2 K → Prop) (emb : V3 ℚ → V3 K) (p : K) (m : Mesh) : Prop where
  surface : PolygonMesh (m.points.map emb) (m.faces.map Face.points)
  faces : ∀ l ∈ faceShapes (m.points.map emb) (m.faces.map Face.points), SeenAsLine l ∨ (PlainRoof C Ok l ∧ NotSteep l)
  apart : (faceShapes (m.points.map emb) (m.faces.map Face.points)).Pairwise fun l k => ∀ q, Gen q → ∀ z z', ¬ (Over C l q z ∧ Over C k q z')
  roof : ∃ l ∈ faceShapes (m.points.map emb) (m.faces.map Face.points), ¬ SeenAsLine l
  few : m.faces.length ≤ 32767
  fits : ∀ B, Extent (faceShapes (m.points.map emb) (m.faces.map Face.points)) B → ⌈(B.ymax - B.ymin) / p⌉ < 2 ^ 64 ∧ ⌈(B.xmax - B.xmin) / p⌉ < 2 ^ 64

/-- The command line asks for the vector files and the images of the buildings, in pixels of size `p`, and for nothing else. -/
structure AsksImages {N L : Type} (T : Toolbox N L K) (args : Args) (la : Bool) (p : K) : Prop where
  cache : ∃ b, Switch args "--cache" b
  graphs : Switch args "--graphs" false
  save : Switch args "save" true
  scene : Switch args "--scene" false
  labels : Switch args "--labels" la
  pixels : Props.AsksPixels T args p

end
end City.Spec

namespace City.Props
open City City.Spec City.FacePrint City.Brick

set_option linter.unusedSectionVars false

section
variable {K : Type} [Field K] [LinearOrder K] [IsStrictOrderedRing K] [FloorRing K]
variable {C : Cgal K} {Ok : Pwh K → Prop} {Good : C.PSet → Prop} {Gen : V2 K → Prop}

/-! ### Boxes -/

/-- The box is the tightest one around the points. -/
def BoxAround (l : List (V2 K)) (b : Box2 K) : Prop := (∀ v ∈ l, InBox2 b v) ∧ (∃ v ∈ l, v.x = b.xmin) ∧ (∃ v ∈ l, v.x = b.xmax) ∧ (∃ v ∈ l, v.y = b.ymin) ∧ ∃ v ∈ l, v.y = b.ymax

def OBox (l : List (V2 K)) : Option (Box2 K) → Prop
  | none => l = []
  | some b => BoxAround l b

theorem obox_union {l m : List (V2 K)} {o o' : Option (Box2 K)} (h : OBox l o) (h' : OBox m o') : OBox (l ++ m) (Box2.union o o') := by
  cases o with
  | none =>
    have : l = [] := h
    subst this
    cases o' <;> exact h'
  | some b =>
    cases o' with
    | none =>
      have : m = [] := h'
      subst this
      rw [List.append_nil]
      exact h
    | some c =>
      obtain ⟨a1, ⟨v1, i1, e1⟩, ⟨v2, i2, e2⟩, ⟨v3, i3, e3⟩, v4, i4, e4⟩ := h
      obtain ⟨b1, ⟨w1, j1, f1⟩, ⟨w2, j2, f2⟩, ⟨w3, j3, f3⟩, w4, j4, f4⟩ := h'
      refine ⟨?_, ?_, ?_, ?_, ?_⟩
      · intro v hv
        rcases List.mem_append.1 hv with hv | hv
        · obtain ⟨k1, k2, k3, k4⟩ := a1 v hv
          exact ⟨(min_le_left _ _).trans k1, k2.trans (le_max_left _ _), (min_le_left _ _).trans k3, k4.trans (le_max_left _ _)⟩
        · obtain ⟨k1, k2, k3, k4⟩ := b1 v hv
          exact ⟨(min_le_right _ _).trans k1, k2.trans (le_max_right _ _), (min_le_right _ _).trans k3, k4.trans (le_max_right _ _)⟩
      · show ∃ v ∈ l ++ m, v.x = min b.xmin c.xmin
        rcases min_choice b.xmin c.xmin with e | e <;> rw [e]
        · exact ⟨v1, List.mem_append_left _ i1, e1⟩
        · exact ⟨w1, List.mem_append_right _ j1, f1⟩
      · show ∃ v ∈ l ++ m, v.x = max b.xmax c.xmax
        rcases max_choice b.xmax c.xmax with e | e <;> rw [e]
        · exact ⟨v2, List.mem_append_left _ i2, e2⟩
        · exact ⟨w2, List.mem_append_right _ j2, f2⟩
      · show ∃ v ∈ l ++ m, v.y = min b.ymin c.ymin
        rcases min_choice b.ymin c.ymin with e | e <;> rw [e]
        · exact ⟨v3, List.mem_append_left _ i3, e3⟩
        · exact ⟨w3, List.mem_append_right _ j3, f3⟩
      · show ∃ v ∈ l ++ m, v.y = max b.ymax c.ymax
        rcases max_choice b.ymax c.ymax with e | e <;> rw [e]
        · exact ⟨v4, List.mem_append_left _ i4, e4⟩
        · exact ⟨w4, List.mem_append_right _ j4, f4⟩

theorem obox_poly (q : Poly K) : OBox q (polyBox q) := by
  have key : ∀ (q : Poly K) (l : List (V2 K)) (o : Option (Box2 K)), OBox l o → OBox (l ++ q) (q.foldl (fun b v => Box2.union b (some (Box2.point v))) o) := by
    intro q
    induction q with
    | nil => intro l o h; rw [List.append_nil]; exact h
    | cons v q ih =>
      intro l o h
      have hp : OBox [v] (some (Box2.point v)) :=
        ⟨by intro w hw; rw [List.mem_singleton.1 hw]; exact ⟨le_rfl, le_rfl, le_rfl, le_rfl⟩, ⟨v, by simp, rfl⟩, ⟨v, by simp, rfl⟩, ⟨v, by simp, rfl⟩, v, by simp, rfl⟩
      have := ih (l ++ [v]) _ (obox_union h hp)
      rwa [List.append_assoc, List.singleton_append] at this
  have := key q [] none rfl
  rw [List.nil_append] at this
  exact this

theorem obox_prints (fs : List (FacePrint K)) : OBox (fs.flatMap fun f => f.border.outer) (fs.foldl (fun o f => Box2.union o (polyBox f.border.outer)) none) := by
  have key : ∀ (fs : List (FacePrint K)) (l : List (V2 K)) (o : Option (Box2 K)), OBox l o →
      OBox (l ++ fs.flatMap fun f => f.border.outer) (fs.foldl (fun o f => Box2.union o (polyBox f.border.outer)) o) := by
    intro fs
    induction fs with
    | nil => intro l o h; rw [List.flatMap_nil, List.append_nil]; exact h
    | cons f fs ih =>
      intro l o h
      rw [List.flatMap_cons, ← List.append_assoc]
      exact ih _ _ (obox_union h (obox_poly _))
  simpa using key fs [] none rfl

/-! ### Prints and faces -/

theorem ring_mem {l : List (V3 K)} {r : Poly K} (h : ShadowRing l r) (v : V2 K) : v ∈ r ↔ ∃ w ∈ l, ground w = v := by
  have : v ∈ r ↔ v ∈ l.map ground := by
    rcases h with h | h
    · exact h.mem_iff
    · rw [h.mem_iff, List.mem_reverse]
  rw [this, List.mem_map]

theorem plain_not_line {l : List (V3 K)} (P : PlainRoof C Ok l) : ¬ SeenAsLine l := by
  rintro ⟨a, b, c, hab, hall⟩
  match hl : l, P.three with
  | p :: q :: r :: t, _ =>
    have hsharp : ¬ InLine (ground p) (ground q) (ground r) := by
      refine P.sharp _ _ _ (t.map ground) ?_
      exact List.IsRotated.refl _
    have h1 := hall p (by simp)
    have h2 := hall q (by simp)
    have h3 := hall r (by simp)
    apply hsharp
    unfold InLine ground
    simp only
    have e1 : a * (q.x - p.x) + b * (q.y - p.y) = 0 := by linear_combination h2 - h1
    have e2 : a * (r.x - p.x) + b * (r.y - p.y) = 0 := by linear_combination h3 - h1
    rcases hab with ha | hb
    · apply mul_left_cancel₀ ha
      linear_combination (r.y - p.y) * e1 - (q.y - p.y) * e2
    · apply mul_left_cancel₀ hb
      linear_combination (q.x - p.x) * e2 - (r.x - p.x) * e1

/-- The print of a face that is not too steep. -/
theorem steep_print {l : List (V3 K)} (P : NotSteep l) (hl : 3 ≤ l.length) {fc : Facet K} (h : fc.pts ~r l) : eps ≤ |(FacePrint.ofFacet C fc).plane.c| := by
  have hlen : 3 ≤ fc.pts.length := by rw [h.perm.length_eq]; exact hl
  obtain ⟨p, q, r, t, hf⟩ : ∃ p q r t, fc.pts = p :: q :: r :: t := by
    match hf : fc.pts, hlen with
    | p :: q :: r :: t, _ => exact ⟨p, q, r, t, rfl⟩
  have hc : (FacePrint.ofFacet C fc).plane = planeThrough p q r := by simp [FacePrint.ofFacet, trace, hf]
  have := P (ground p) (ground q) (ground r) (t.map ground) (by
    have := h.map ground
    rwa [hf] at this)
  rw [hc]
  have e : (planeThrough p q r).c = ((ground q).x - (ground p).x) * ((ground r).y - (ground p).y) - ((ground q).y - (ground p).y) * ((ground r).x - (ground p).x) := by
    unfold planeThrough ground
    simp only
    ring
  rw [e]; exact this

open Classical in
/-- What is drawn: one print for each face that is not vertical, in order. -/
theorem prints_exact (L : Lawful C Ok Good Gen) (hrev : ∀ (a : Poly K) p, C.side a.reverse p = C.side a p) {fcs : List (Facet K)} {faces : List (List (V3 K))}
    (h : List.Forall₂ (fun fc l => fc.pts ~r l ∧ 3 ≤ l.length) fcs faces) (hf : ∀ l ∈ faces, SeenAsLine l ∨ (PlainRoof C Ok l ∧ NotSteep l)) :
    List.Forall₂ (fun f l => PrintOf C Ok f l ∧ eps ≤ |f.plane.c|) (orthoprint C fcs) (faces.filter fun l => decide (¬ SeenAsLine l)) := by
  induction h with
  | nil => exact List.Forall₂.nil
  | @cons fc l fcs faces h1 _ ih =>
    have k4 := ih fun l hl => hf l (List.mem_cons_of_mem _ hl)
    rcases hf l List.mem_cons_self with hl | ⟨hl, hs⟩
    · rw [List.filter_cons_of_neg (by simp [hl])]
      unfold orthoprint at k4 ⊢
      rw [List.map_cons, List.filter_cons_of_neg (by rw [wall_print hl h1.1]; simp)]
      exact k4
    · obtain ⟨v, r⟩ := roof_print hl L.rotation hrev h1.1
      rw [List.filter_cons_of_pos (by simp [plain_not_line hl])]
      unfold orthoprint at k4 ⊢
      rw [List.map_cons, List.filter_cons_of_pos]
      · exact List.Forall₂.cons ⟨⟨v, (C38_border C fc).2.1, ring_of_print C h1.1, r⟩, steep_print hs h1.2 h1.1⟩ k4
      · rw [notDegenerate L v, Bool.or_false, Bool.not_eq_true']
        have h3 := L.three _ v.1
        unfold FacePrint.isEmpty
        cases e : (FacePrint.ofFacet C fc).border.outer with
        | nil => rw [e] at h3; simp at h3
        | cons a b => rfl

theorem prints_no_overlap {prints : List (FacePrint K)} {roofs : List (List (V3 K))} (h : List.Forall₂ (PrintOf C Ok) prints roofs)
    (hp : roofs.Pairwise fun l m => ∀ q, Gen q → ∀ z z', ¬ (Over C l q z ∧ Over C m q z')) : NoOverlap C Gen prints := by
  induction h with
  | nil => exact List.Pairwise.nil
  | @cons g l prints roofs a1 a2 ih =>
    rw [List.pairwise_cons] at hp
    refine List.pairwise_cons.2 ⟨fun f hf p hg a => ?_, ih hp.2⟩
    obtain ⟨m, hm, k⟩ := forall₂_mem_left a2 f hf
    exact hp.1 m hm p hg _ _ ⟨(a1.2.2.2 p _).1 ⟨a.1, rfl⟩, (k.2.2.2 p _).1 ⟨a.2, rfl⟩⟩

theorem meets_above {f : FacePrint K} {l : List (V3 K)} (h : PrintOf C Ok f l) (sq : Pwh K) : MeetsAt C Gen sq f ↔ AboveSquare C Gen sq l := by
  constructor
  · rintro ⟨v, h1, h2, h3⟩
    exact ⟨v, _, h1, h2, (h.2.2.2 v _).1 ⟨h3, rfl⟩⟩
  · rintro ⟨v, z, h1, h2, h3⟩
    exact ⟨v, h1, h2, ((h.2.2.2 v z).2 h3).1⟩

theorem height_within {f : FacePrint K} {l : List (V3 K)} (h : PrintOf C Ok f l) (sq : Pwh K) (z : K) (hz : HeightOver C Gen sq f z) : HeightWithin C Gen sq l z := by
  intro lo hi hall
  exact hz lo hi fun v h1 h2 h3 => hall v _ h1 h2 ((h.2.2.2 v _).1 ⟨h3, rfl⟩)

theorem around_unique {l m : List (V2 K)} {b c : Box2 K} (h : ∀ v, v ∈ l ↔ v ∈ m) (hb : BoxAround l b) (hc : BoxAround m c) : b = c := by
  obtain ⟨a1, ⟨v1, i1, e1⟩, ⟨v2, i2, e2⟩, ⟨v3, i3, e3⟩, v4, i4, e4⟩ := hb
  obtain ⟨b1, ⟨w1, j1, f1⟩, ⟨w2, j2, f2⟩, ⟨w3, j3, f3⟩, w4, j4, f4⟩ := hc
  rcases b with ⟨x0, y0, x1, y1⟩
  rcases c with ⟨x0', y0', x1', y1'⟩
  simp only at *
  have r1 := a1 w1 ((h _).2 j1)
  have r2 := a1 w2 ((h _).2 j2)
  have r3 := a1 w3 ((h _).2 j3)
  have r4 := a1 w4 ((h _).2 j4)
  have q1 := b1 v1 ((h _).1 i1)
  have q2 := b1 v2 ((h _).1 i2)
  have q3 := b1 v3 ((h _).1 i3)
  have q4 := b1 v4 ((h _).1 i4)
  unfold InBox2 at *
  simp only at *
  congr 1
  · exact le_antisymm (f1 ▸ r1.1) (e1 ▸ q1.1)
  · exact le_antisymm (f3 ▸ r3.2.2.1) (e3 ▸ q3.2.2.1)
  · exact le_antisymm (e2 ▸ q2.2.1) (f2 ▸ r2.2.1)
  · exact le_antisymm (e4 ▸ q4.2.2.2) (f4 ▸ r4.2.2.2)

/-- The displacement of a polygon. -/
def moveRing (left top p : K) (l : List (V2 K)) : V2 K :=
  match polyBox l with
  | none => ⟨0, 0⟩
  | some b => ⟨b.xmin - left - ⌊(b.xmin - left) / p⌋ * p, top - b.ymax - ⌊(top - b.ymax) / p⌋ * p⟩

/-- The displacement of a face with the given corners. -/
def moveFace (left top p : K) (l : List (V3 K)) : V2 K := moveRing left top p (l.map ground)

theorem moveRing_displaced {left top p : K} (hp : 0 < p) {l : List (V2 K)} (hl : l ≠ []) : Displaced left top p l (moveRing left top p l) := by
  have h := obox_poly l
  unfold moveRing
  cases hb : polyBox l with
  | none =>
    rw [hb] at h
    exact absurd h hl
  | some b =>
    rw [hb] at h
    obtain ⟨a1, ⟨v1, i1, e1⟩, -, -, v4, i4, e4⟩ := h
    refine ⟨b.xmin, b.ymax, ⟨⟨fun v hv => (a1 _ hv).1, v1, i1, e1⟩, fun v hv => (a1 _ hv).2.2.2, v4, i4, e4⟩,
      ⟨(rest_bounds hp).1, (rest_bounds hp).2, ⌊(b.xmin - left) / p⌋, ?_⟩, (rest_bounds hp).1, (rest_bounds hp).2, ⌊(top - b.ymax) / p⌋, ?_⟩ <;> dsimp only <;> ring

theorem moveFace_displaced {left top p : K} (hp : 0 < p) {l : List (V3 K)} (hl : l ≠ []) : Displaced left top p (l.map ground) (moveFace left top p l) :=
  moveRing_displaced hp fun h => hl (List.map_eq_nil_iff.1 h)

theorem moveRing_eq {left top p : K} (f : FacePrint K) :
    moveOf left top p f = ((moveRing left top p f.border.outer).x, (moveRing left top p f.border.outer).y) := by
  unfold moveOf moveRing FacePrint.bbox
  cases polyBox f.border.outer <;> rfl

theorem moveFace_eq {left top p : K} {f : FacePrint K} {l : List (V3 K)} (h : ShadowRing l f.border.outer) :
    moveOf left top p f = ((moveFace left top p l).x, (moveFace left top p l).y) := by
  have h1 := obox_poly f.border.outer
  have h2 := obox_poly (l.map ground)
  have hm : ∀ v, v ∈ f.border.outer ↔ v ∈ l.map ground := fun v => by rw [ring_mem h, List.mem_map]
  have e : f.bbox = polyBox (l.map ground) := by
    unfold FacePrint.bbox
    cases hb : polyBox f.border.outer with
    | none =>
      rw [hb] at h1
      have : f.border.outer = [] := h1
      rw [this] at hm
      have : l.map ground = [] := List.eq_nil_iff_forall_not_mem.2 fun v hv => by simpa using (hm v).2 hv
      rw [this]; rfl
    | some b =>
      cases hc : polyBox (l.map ground) with
      | none =>
        rw [hc] at h2
        have h2' : l.map ground = [] := h2
        rw [hb] at h1
        obtain ⟨-, ⟨v, hv, -⟩, -⟩ := h1
        rw [hm, h2'] at hv
        cases hv
      | some c =>
        rw [hb] at h1
        rw [hc] at h2
        rw [around_unique hm h1 h2]
  unfold moveOf moveFace moveRing
  rw [e]
  cases polyBox (l.map ground) <;> rfl

theorem steep_reverse {l : List (V3 K)} (h : NotSteep l) : NotSteep l.reverse := by
  intro a b c t hr
  have := h c b a t.reverse (triple_reverse hr)
  rw [← abs_neg]
  convert this using 2
  ring

theorem printOf_reverse (hrev : ∀ (a : Poly K) p, C.side a.reverse p = C.side a p) {f : FacePrint K} {l : List (V3 K)} (h : PrintOf C Ok f l.reverse) : PrintOf C Ok f l :=
  ⟨h.1, h.2.1, (ring_reverse l _).1 h.2.2.1, fun q z => by rw [h.2.2.2, over_reverse hrev]⟩

open Classical in
/-- The prints of the node made of a mesh. -/
theorem mesh_prints (L : Lawful C Ok Good Gen) (hrev : ∀ (a : Poly K) p, C.side a.reverse p = C.side a p) {lib : SoupLib K} (hL : SoupLaw lib)
    (emb : V3 ℚ → V3 K) (m : Mesh) (ref : V3 ℚ) (epsg : Nat) (hm : PolygonMesh (m.points.map emb) (m.faces.map Face.points))
    (hf : ∀ l ∈ faceShapes (m.points.map emb) (m.faces.map Face.points), SeenAsLine l ∨ (PlainRoof C Ok l ∧ NotSteep l)) :
    ∃ n fcs, UNode.ofMesh lib emb m ref epsg = .ok n ∧ n.name = m.name ∧ n.ref = ref ∧ n.epsg = epsg ∧ n.surf.facets = .ok fcs ∧
      List.Forall₂ (fun f l => PrintOf C Ok f l ∧ eps ≤ |f.plane.c|) (orthoprint C fcs)
        ((faceShapes (m.points.map emb) (m.faces.map Face.points)).filter fun l => decide (¬ SeenAsLine l)) := by
  obtain ⟨n, S, h1, h2, h3, h4, R, h5, h6, -⟩ := C73_node hL m ref epsg hm
  by_cases hc : ClosedSurf S ∧ lib.outward S = false
  · have R' := (h5 hc).1
    rw [show (m.faces.map fun f => f.points.reverse) = (m.faces.map Face.points).map List.reverse by rw [List.map_map]; rfl] at R'
    obtain ⟨fcs, k1, k2⟩ := C106_facets R'
    have k3 := prints_exact L hrev k2 (by
      rw [shapes_reverse]
      simp only [List.forall_mem_map, line_reverse]
      exact fun l hl => (hf l hl).imp_right fun h => ⟨plain_reverse h.1, steep_reverse h.2⟩)
    rw [shapes_reverse, List.filter_map, List.forall₂_map_right_iff] at k3
    refine ⟨n, fcs, h1, h2, h3, h4, k1, ?_⟩
    have e : ((fun l => decide (¬ SeenAsLine l)) ∘ List.reverse : List (V3 K) → Bool) = fun l => decide (¬ SeenAsLine l) := by
      funext l
      simp only [Function.comp_apply, line_reverse]
    rw [e] at k3
    exact k3.imp fun f l h => ⟨printOf_reverse hrev h.1, h.2⟩
  · rw [← h6 hc] at R
    obtain ⟨fcs, k1, k2⟩ := C106_facets R
    exact ⟨n, fcs, h1, h2, h3, h4, k1, prints_exact L hrev k2 hf⟩

theorem extent_of {prints : List (FacePrint K)} {faces : List (List (V3 K))} {B : Box2 K} (hB : BoxAround (prints.flatMap fun f => f.border.outer) B)
    (h1 : ∀ f ∈ prints, ∃ l ∈ faces, ¬ SeenAsLine l ∧ ShadowRing l f.border.outer)
    (h2 : ∀ l ∈ faces, ¬ SeenAsLine l → ∃ f ∈ prints, ShadowRing l f.border.outer) : Extent faces B := by
  have from' : ∀ v ∈ prints.flatMap fun f => f.border.outer, ∃ l ∈ faces, ¬ SeenAsLine l ∧ ∃ w ∈ l, ground w = v := by
    intro v hv
    obtain ⟨f, hf, hv⟩ := List.mem_flatMap.1 hv
    obtain ⟨l, hl, hn, hr⟩ := h1 f hf
    obtain ⟨w, hw, e⟩ := (ring_mem hr v).1 hv
    exact ⟨l, hl, hn, w, hw, e⟩
  obtain ⟨a1, ⟨v1, i1, e1⟩, ⟨v2, i2, e2⟩, ⟨v3, i3, e3⟩, v4, i4, e4⟩ := hB
  refine ⟨fun l hl hn v hv => ?_, ?_, ?_, ?_, ?_⟩
  · obtain ⟨f, hf, hr⟩ := h2 l hl hn
    exact a1 (ground v) (List.mem_flatMap.2 ⟨f, hf, (ring_mem hr _).2 ⟨v, hv, rfl⟩⟩)
  · obtain ⟨l, hl, hn, w, hw, rfl⟩ := from' v1 i1
    exact ⟨l, hl, hn, w, hw, e1⟩
  · obtain ⟨l, hl, hn, w, hw, rfl⟩ := from' v2 i2
    exact ⟨l, hl, hn, w, hw, e2⟩
  · obtain ⟨l, hl, hn, w, hw, rfl⟩ := from' v3 i3
    exact ⟨l, hl, hn, w, hw, e3⟩
  · obtain ⟨l, hl, hn, w, hw, rfl⟩ := from' v4 i4
    exact ⟨l, hl, hn, w, hw, e4⟩

theorem extent_wide {faces : List (List (V3 K))} {B : Box2 K} (h : Extent faces B) : B.xmin < B.xmax ∧ B.ymin < B.ymax := by
  obtain ⟨a, ⟨l, hl, hn, -⟩, -⟩ := h
  constructor
  · by_contra k
    refine hn ⟨1, 0, -B.xmin, Or.inl one_ne_zero, fun v hv => ?_⟩
    have := a l hl hn v hv
    linarith [le_antisymm (this.2.1.trans (not_lt.1 k)) this.1]
  · by_contra k
    refine hn ⟨0, 1, -B.ymin, Or.inr one_ne_zero, fun v hv => ?_⟩
    have := a l hl hn v hv
    linarith [le_antisymm (this.2.2.2.trans (not_lt.1 k)) this.2.2.1]

open Classical in
theorem filter_match {α β γ : Type} {R : α → β → Prop} {p : α → Prop} {q : β → Prop} {S : α → γ → Prop} {S' : β → γ → Prop} {as : List α} {bs : List β} {zs : List γ}
    (h : List.Forall₂ R as bs) (hpq : ∀ a b, R a b → (p a ↔ q b)) (hS : ∀ a b z, R a b → S a z → S' b z) (hz : List.Forall₂ S (as.filter fun a => decide (p a)) zs) :
    List.Forall₂ S' (bs.filter fun b => decide (q b)) zs := by
  induction h generalizing zs with
  | nil => simpa using hz
  | @cons a b as bs hab _ ih =>
    by_cases k : p a
    · rw [List.filter_cons_of_pos (by simpa using k)] at hz
      rw [List.filter_cons_of_pos (by simpa using (hpq a b hab).1 k)]
      cases hz with
      | cons h1 h2 => exact .cons (hS a b _ hab h1) (ih h2)
    · rw [List.filter_cons_of_neg (by simpa using k)] at hz
      rw [List.filter_cons_of_neg (by simpa using fun hq => k ((hpq a b hab).2 hq))]
      exact ih hz

/-- C110, the part that holds, for a mesh: its image shows its faces, each displaced to the left and up by less than one pixel. Missing: faces one above
another, faces with straight angles, and the displacement. -/
theorem C110_mesh_partial (L : Lawful C Ok Good Gen) (hrev : ∀ (a : Poly K) p, C.side a.reverse p = C.side a p)
    (hbd : ∀ q r, ∀ s ∈ C.inter q r, s.outer ≠ []) {lib : SoupLib K} (hL : SoupLaw lib)
    (emb : V3 ℚ → V3 K) (m : Mesh) (ref : V3 ℚ) (epsg : Nat) (p : K) (hp : 0 < p) (h : Mappable C Ok Gen emb p m) :
    ∃ n fp r, UNode.ofMesh lib emb m ref epsg = .ok n ∧ FootPrint.ofUNode C emb n = .ok fp ∧ fp.name = m.name ∧ Raster.ofFootPrint C true fp p = .ok r ∧
      r.name = m.name ∧ r.epsg = epsg ∧ r.width ≠ 0 ∧ r.height ≠ 0 ∧
      ShowsFaces C Ok Gen (faceShapes (m.points.map emb) (m.faces.map Face.points)) (emb ref) p (UpLeft p) r := by
  classical
  obtain ⟨n, fcs, h1, h2, h3, h4, h5, hpr⟩ := mesh_prints L hrev hL emb m ref epsg h.surface h.faces
  generalize hfaces : faceShapes (m.points.map emb) (m.faces.map Face.points) = faces at *
  have hlen : faces.length = m.faces.length := by rw [← hfaces]; simp [faceShapes]
  have hfa := hfaces ▸ h.faces
  have hap := hfaces ▸ h.apart
  have hro := hfaces ▸ h.roof
  have hfi := hfaces ▸ h.fits
  have mem1 : ∀ f ∈ orthoprint C fcs, ∃ l ∈ faces, ¬ SeenAsLine l ∧ PrintOf C Ok f l ∧ eps ≤ |f.plane.c| := fun f hf => by
    obtain ⟨l, hl, k⟩ := forall₂_mem_left hpr f hf
    rw [List.mem_filter, decide_eq_true_iff] at hl
    exact ⟨l, hl.1, hl.2, k⟩
  have mem2 : ∀ l ∈ faces, ¬ SeenAsLine l → ∃ f ∈ orthoprint C fcs, PrintOf C Ok f l := fun l hl hn => by
    obtain ⟨f, hf, k⟩ := forall₂_mem_right hpr l (List.mem_filter.2 ⟨hl, by simpa using hn⟩)
    exact ⟨f, hf, k.1⟩
  have hR : Roofed C Ok fcs := by
    refine ⟨fun f hf => ?_, ?_, hbd⟩
    · obtain ⟨l, -, -, k⟩ := mem1 f hf
      exact ⟨k.1.1, k.2⟩
    · obtain ⟨l, hl, hn⟩ := hro
      obtain ⟨f, hf, -⟩ := mem2 l hl hn
      exact List.ne_nil_of_mem hf
  have hno : NoOverlap C Gen (orthoprint C fcs) := prints_no_overlap (hpr.imp fun _ _ k => k.1) (hap.sublist List.filter_sublist)
  obtain ⟨fp, B, f1, f2, f3, f4, -⟩ := C51_node L n.name (emb n.ref) n.epsg fcs hR.valid hR.some_roof hR.bounded
  obtain ⟨fp', k1, k2, k3, k4, k5, -⟩ := C101_roofs L n.name (emb n.ref) n.epsg fcs hR hno
  have e : fp' = fp := by rw [f1] at k1; exact (Out.ok.inj k1).symm
  subst e
  have hbox : BoxAround ((orthoprint C fcs).flatMap fun f => f.border.outer) B := by
    have hb := f1
    unfold FootPrint.ofNode at hb
    rw [sumPrints_valid L _ _ (fun f hf => (hR.valid f hf).1) (by simp [Brick.empty])] at hb
    obtain ⟨b, hb1, hb2⟩ := Out.bind_eq_ok.1 hb
    have hbb : fp'.brick = b := by
      cases hb2; rfl
    have := obox_prints (orthoprint C fcs)
    have hh := C49_history C _ _ _ hb1
    rw [← hbb, f2] at hh
    rw [show (Brick.empty : Brick K).bbox = none from rfl] at hh
    rw [← hh] at this
    exact this
  have hE : Extent faces B := extent_of hbox (fun f hf => by
      obtain ⟨l, a, b, k⟩ := mem1 f hf
      exact ⟨l, a, b, k.1.2.2.1⟩) (fun l hl hn => by
      obtain ⟨f, hf, k⟩ := mem2 l hl hn
      exact ⟨f, hf, k.2.2.1⟩)
  have hcount : (orthoprint C fcs).length ≤ 32767 := by
    rw [hpr.length_eq]
    exact (List.length_filter_le _ _).trans (hlen ▸ h.few)
  have hr : Rasterable C Ok fp' B p := ⟨f2, f3, hp, by rw [k5]; exact hR.valid, fun f hf => (f4 f hf).2, hbd, hfi B hE, by rw [k5]; exact hcount⟩
  obtain ⟨r, r1, r2⟩ := moved_pixels L fp' B p hr
  obtain ⟨r', q1, q2, q3, -, -, q4, q5, q6, q7, -⟩ := C51_defined (C := C) fp' B f2 p hp (hr.paintable L) f3 hr.fits
  have e : r' = r := by rw [r1] at q1; exact (Out.ok.inj q1).symm
  subst e
  refine ⟨n, fp', r', h1, ?_, by rw [k2, h2], r1, by rw [q5, k2, h2], by rw [q6, k4, h4], ?_, ?_, B, moveFace B.xmin B.ymax p, hE, fun l hl hn => ?_, q4,
    by rw [q7, k3, h3], q2, q3, fun i hi j hj hq => ?_⟩
  · unfold FootPrint.ofUNode
    rw [h5, Out.ok_bind]
    exact f1
  · have : 0 < ⌈(B.xmax - B.xmin) / p⌉ := Int.ceil_pos.2 (div_pos (sub_pos.2 (extent_wide hE).1) hp)
    omega
  · have : 0 < ⌈(B.ymax - B.ymin) / p⌉ := Int.ceil_pos.2 (div_pos (sub_pos.2 (extent_wide hE).2) hp)
    omega
  · refine moveFace_displaced hp ?_
    rintro rfl
    exact hn ⟨1, 0, 0, Or.inl one_ne_zero, by simp⟩
  · have em : ∀ f l, PrintOf C Ok f l → movedCell B.xmin B.ymax p (moveOf B.xmin B.ymax p) f i j =
        cell (B.xmin + (moveFace B.xmin B.ymax p l).x) (B.ymax - (moveFace B.xmin B.ymax p l).y) p i j := by
      intro f l hfl
      unfold movedCell
      rw [moveFace_eq hfl.2.2.1]
    obtain ⟨hits, v, v1, v2, zs, z1, z2, z3⟩ := r2 i hi j hj (fun f hf => by
      rw [k5] at hf
      obtain ⟨l, hl, hn, k⟩ := mem1 f hf
      rw [em f l k.1]
      exact hq l hl hn)
    refine ⟨hits, v, v1, v2, zs, ?_, z2, by rw [z3, k3, h3]⟩
    rw [k5] at z1
    have z1' := filter_match (q := fun l => AboveSquare C Gen (cell (B.xmin + (moveFace B.xmin B.ymax p l).x) (B.ymax - (moveFace B.xmin B.ymax p l).y) p i j) l)
      (S' := fun l z => HeightWithin C Gen (cell (B.xmin + (moveFace B.xmin B.ymax p l).x) (B.ymax - (moveFace B.xmin B.ymax p l).y) p i j) l z) hpr
      (fun f l k => by rw [em f l k.1]; exact meets_above k.1 _) (fun f l z k hz => by rw [em f l k.1] at hz; exact height_within k.1 _ z hz) z1
    rw [List.filter_filter] at z1'
    convert z1' using 2
    funext l
    simp only [Bool.and_comm, ← Bool.decide_and]
    congr 1
    apply propext
    constructor
    · intro k
      have hn : ¬ SeenAsLine l := by
        obtain ⟨q, z, -, -, k⟩ := k
        exact k.1
      exact ⟨hn, k⟩
    · exact fun k => k.2

/-- C110: a face whose left and upper borders are borders of pixels is not displaced: the part of the full statement that holds. -/
theorem C110_aligned_partial (L : Lawful C Ok Good Gen) (hrev : ∀ (a : Poly K) p, C.side a.reverse p = C.side a p)
    (hbd : ∀ q r, ∀ s ∈ C.inter q r, s.outer ≠ []) {lib : SoupLib K} (hL : SoupLaw lib)
    (emb : V3 ℚ → V3 K) (m : Mesh) (ref : V3 ℚ) (epsg : Nat) (p : K) (hp : 0 < p) (h : Mappable C Ok Gen emb p m)
    (ha : ∀ B, Extent (faceShapes (m.points.map emb) (m.faces.map Face.points)) B → ∀ l ∈ faceShapes (m.points.map emb) (m.faces.map Face.points), ¬ SeenAsLine l →
      ∀ x y, LeftTop (l.map ground) x y → (∃ k : ℤ, x - B.xmin = k * p) ∧ ∃ k : ℤ, B.ymax - y = k * p) :
    ∃ n fp r, UNode.ofMesh lib emb m ref epsg = .ok n ∧ FootPrint.ofUNode C emb n = .ok fp ∧ fp.name = m.name ∧ Raster.ofFootPrint C true fp p = .ok r ∧
      r.name = m.name ∧ r.epsg = epsg ∧ r.width ≠ 0 ∧ r.height ≠ 0 ∧
      ShowsFaces C Ok Gen (faceShapes (m.points.map emb) (m.faces.map Face.points)) (emb ref) p InPlace r := by
  obtain ⟨n, fp, r, h1, h2, h3, h4, h5, h6, h7, h8, B, d, s1, s2, s3⟩ := C110_mesh_partial L hrev hbd hL emb m ref epsg p hp h
  have rest : ∀ {a q : K} {k : ℤ}, a = k * p → RestOf a p q → q = 0 := by
    rintro a q k e ⟨q1, q2, k', e'⟩
    have e2 : ((k - k' : ℤ) : K) * p = q := by
      push_cast
      linear_combination e' - e
    have l1 : (-1 : K) < ((k - k' : ℤ) : K) := by
      by_contra l
      have := mul_le_mul_of_nonneg_right (not_lt.1 l) hp.le
      linarith
    have l2 : ((k - k' : ℤ) : K) < 1 := by
      by_contra l
      have := mul_le_mul_of_nonneg_right (not_lt.1 l) hp.le
      linarith
    have l1' : -1 < k - k' := by exact_mod_cast l1
    have l2' : k - k' < 1 := by exact_mod_cast l2
    have : k - k' = 0 := by omega
    rw [this] at e2
    simpa using e2.symm
  refine ⟨n, fp, r, h1, h2, h3, h4, h5, h6, h7, h8, B, d, s1, fun l hl hn => ?_, s3⟩
  obtain ⟨x, y, hxy, r1, r2⟩ := s2 l hl hn
  obtain ⟨⟨k, hk⟩, k', hk'⟩ := ha B s1 l hl hn x y hxy
  have e1 := rest hk r1
  have e2 := rest hk' r2
  show d l = ⟨0, 0⟩
  rcases hd : d l with ⟨dx, dy⟩
  rw [hd] at e1 e2
  simp only at e1 e2
  rw [e1, e2]

/-- The footprint and the image of one mesh: what the constructors give, and that they have the property. -/
def FilesOf (C : Cgal K) (lib : SoupLib K) (emb : V3 ℚ → V3 K) (pivot : V3 ℚ) (epsg : Nat) (p : K) (P : Mesh → FootPrint K → Raster K → Prop) (m : Mesh) : Prop :=
  ∃ n fp r, UNode.ofMesh lib emb m pivot epsg = .ok n ∧ FootPrint.ofUNode C emb n = .ok fp ∧ fp.name = m.name ∧ Raster.ofFootPrint C true fp p = .ok r ∧
    r.name = m.name ∧ r.epsg = epsg ∧ r.width ≠ 0 ∧ r.height ≠ 0 ∧ P m fp r

/-- The image of one mesh: what the constructors give, and that the image has the property. -/
def ImageOf (C : Cgal K) (lib : SoupLib K) (emb : V3 ℚ → V3 K) (pivot : V3 ℚ) (epsg : Nat) (p : K) (P : Mesh → Raster K → Prop) (m : Mesh) : Prop :=
  FilesOf C lib emb pivot epsg p (fun m _ r => P m r) m

/-- The vector and image files of a scene, whatever is known about the footprints and images of its meshes. -/
theorem files_written {F : Type} {T : Toolbox (Out (UNode K)) F K} {lib : SoupLib K} {emb : V3 ℚ → V3 K} (U : UsesNodes T lib emb) (hlr : T.lr = true)
    (P : Mesh → FootPrint K → Raster K → Prop) (args : Args) (fs : Fs) (t : Text) (la : Bool) (p : K) (hp : 0 < p)
    (bs : List Mesh) (tr : Mesh) (pivot : V3 ℚ) (epsg : Nat) (hin : InputIs T args fs t false (Scene.make T.ops bs tr pivot epsg)) (ha : AsksImages T args la p)
    (hb : ∀ m ∈ bs, FilesOf T.C lib emb pivot epsg p P m) (hn : (bs.map Mesh.name).Nodup) (hpn : ∀ m ∈ bs, PlainName m.name)
    (hr : Ready fs ((splitSlash t).dropLast ++ ["vectors".toList]) (bs.flatMap fun m => [m.name ++ ".shp".toList, m.name ++ ".txt".toList]))
    (hi : Ready fs ((splitSlash t).dropLast ++ ["rasters".toList]) (bs.map fun m => m.name ++ ".tiff".toList)) :
    ∃ fs', orthoMain T args fs = (.ok 0, fs') ∧ ∀ m ∈ bs, ∃ (fp : FootPrint K) (r : Raster K), fp.name = m.name ∧ r.name = m.name ∧ r.epsg = epsg ∧ P m fp r ∧
      fs' ((splitSlash t).dropLast ++ ["vectors".toList, m.name ++ ".shp".toList]) = some (.file (T.G.shp (fp.toOgr T.C la))) ∧
      fs' ((splitSlash t).dropLast ++ ["vectors".toList, m.name ++ ".txt".toList]) = some (.file (attributesText T.C T.G fp)) ∧
      fs' ((splitSlash t).dropLast ++ ["rasters".toList, m.name ++ ".tiff".toList]) = some (.file (T.G.tiff r.toGdal)) := by
  have hex : ∀ m ∈ bs, ∃ x : FootPrint K × Raster K, T.proj (T.ops.node m pivot epsg) = .ok x.1 ∧ x.1.name = m.name ∧ Raster.ofFootPrint T.C T.lr x.1 p = .ok x.2 ∧
      x.2.name = m.name ∧ x.2.epsg = epsg ∧ x.2.width ≠ 0 ∧ x.2.height ≠ 0 ∧
      P m x.1 x.2 := by
    intro m hm
    obtain ⟨n, fp, r, h1, h2, h3, h4, h5⟩ := hb m hm
    exact ⟨⟨fp, r⟩, by rw [U.proj, U.node, h1, Out.ok_bind, h2], h3, by rw [hlr]; exact h4, h5⟩
  obtain ⟨xs, hxs⟩ : ∃ xs, List.Forall₂ (fun m (x : FootPrint K × Raster K) => T.proj (T.ops.node m pivot epsg) = .ok x.1 ∧ x.1.name = m.name ∧
      Raster.ofFootPrint T.C T.lr x.1 p = .ok x.2 ∧ x.2.name = m.name ∧ x.2.epsg = epsg ∧ x.2.width ≠ 0 ∧ x.2.height ≠ 0 ∧
      P m x.1 x.2) bs xs := by
    clear hin hn hpn hr hi hb
    induction bs with
    | nil => exact ⟨[], .nil⟩
    | cons m bs ih =>
      obtain ⟨x, hx⟩ := hex m List.mem_cons_self
      obtain ⟨xs, hxs⟩ := ih fun m hm => hex m (List.mem_cons_of_mem _ hm)
      exact ⟨x :: xs, .cons hx hxs⟩
  have hnames : (xs.map Prod.fst).map FootPrint.name = bs.map Mesh.name := by
    clear hin hn hpn hr hi hb hex
    induction hxs with
    | nil => rfl
    | cons h _ ih => rw [List.map_cons, List.map_cons, List.map_cons, h.2.1, ih]
  have hflat : ∀ g : Text → List Text, ((xs.map Prod.fst).flatMap fun f => g f.name) = bs.flatMap fun m => g m.name := by
    intro g
    have := congrArg (List.flatMap g) hnames
    simp only [List.flatMap_map] at this ⊢
    exact this
  have hmap : ((xs.map Prod.fst).map fun f => f.name ++ ".tiff".toList) = bs.map fun m => m.name ++ ".tiff".toList := by
    have := congrArg (List.map fun n => n ++ ".tiff".toList) hnames
    simp only [List.map_map] at this ⊢
    exact this
  have hrun : RunOk T args fs t false false false la p (Scene.make T.ops bs tr pivot epsg) (xs.map Prod.fst) (xs.map Prod.snd) FootPrint.empty Raster.empty := by
    refine ⟨hin, ha.cache, ha.graphs, ha.save, ha.scene, ha.labels, .inr ha.pixels, ?_, ⟨by rw [hnames]; exact hn, ?_⟩, by simp,
      by rw [hflat fun n => [n ++ ".shp".toList, n ++ ".txt".toList]]; exact hr, by simp, by simp, fun _ => ⟨?_, ?_, by rw [hmap]; exact hi⟩⟩
    · show List.Forall₂ _ ((bs.map fun b => T.ops.node b pivot epsg) ++ []) (xs.map Prod.fst)
      rw [List.append_nil, List.forall₂_map_left_iff, List.forall₂_map_right_iff]
      exact hxs.imp fun _ _ h => h.1
    · intro f hf
      have : f.name ∈ bs.map Mesh.name := by rw [← hnames]; exact List.mem_map_of_mem hf
      obtain ⟨m, hm, e⟩ := List.mem_map.1 this
      rw [← e]
      exact hpn m hm
    · rw [List.forall₂_map_left_iff, List.forall₂_map_right_iff, List.forall₂_same]
      intro x hx
      obtain ⟨m, -, k⟩ := forall₂_mem_right hxs x hx
      exact k.2.2.1
    · intro r hr
      obtain ⟨x, hx, rfl⟩ := List.mem_map.1 hr
      obtain ⟨m, -, k⟩ := forall₂_mem_right hxs x hx
      exact ⟨k.2.2.2.2.2.1, k.2.2.2.2.2.2.1⟩
  obtain ⟨fs', h1, -, h3, -, -, h2⟩ := C86_ortho T args fs t false false false la p _ _ _ FootPrint.empty _ hrun
  refine ⟨fs', h1, fun m hm => ?_⟩
  obtain ⟨x, hx, k⟩ := forall₂_mem_left hxs m hm
  have h3' := h3 x.1 (List.mem_map_of_mem hx)
  rw [k.2.1] at h3'
  refine ⟨x.1, x.2, k.2.1, k.2.2.2.1, k.2.2.2.2.1, k.2.2.2.2.2.2.2, h3'.1, h3'.2, ?_⟩
  rw [← k.2.2.2.1]
  exact h2 hp.ne' x.2 (List.mem_map_of_mem hx)

/-- The image files of a scene, whatever is known about the images of its meshes. -/
theorem images_written {F : Type} {T : Toolbox (Out (UNode K)) F K} {lib : SoupLib K} {emb : V3 ℚ → V3 K} (U : UsesNodes T lib emb) (hlr : T.lr = true)
    (P : Mesh → Raster K → Prop) (args : Args) (fs : Fs) (t : Text) (la : Bool) (p : K) (hp : 0 < p)
    (bs : List Mesh) (tr : Mesh) (pivot : V3 ℚ) (epsg : Nat) (hin : InputIs T args fs t false (Scene.make T.ops bs tr pivot epsg)) (ha : AsksImages T args la p)
    (hb : ∀ m ∈ bs, ImageOf T.C lib emb pivot epsg p P m) (hn : (bs.map Mesh.name).Nodup) (hpn : ∀ m ∈ bs, PlainName m.name)
    (hr : Ready fs ((splitSlash t).dropLast ++ ["vectors".toList]) (bs.flatMap fun m => [m.name ++ ".shp".toList, m.name ++ ".txt".toList]))
    (hi : Ready fs ((splitSlash t).dropLast ++ ["rasters".toList]) (bs.map fun m => m.name ++ ".tiff".toList)) :
    ∃ fs', orthoMain T args fs = (.ok 0, fs') ∧ ∀ m ∈ bs, ∃ r : Raster K, r.name = m.name ∧ r.epsg = epsg ∧ P m r ∧
      fs' ((splitSlash t).dropLast ++ ["rasters".toList, m.name ++ ".tiff".toList]) = some (.file (T.G.tiff r.toGdal)) := by
  obtain ⟨fs', h1, h2⟩ := files_written U hlr (fun m _ r => P m r) args fs t la p hp bs tr pivot epsg hin ha hb hn hpn hr hi
  refine ⟨fs', h1, fun m hm => ?_⟩
  obtain ⟨fp, r, -, k1, k2, k3, -, -, k4⟩ := h2 m hm
  exact ⟨r, k1, k2, k3, k4⟩

/-- C110, the part that holds, for any input format: the image file of every building shows the faces of its mesh. Missing: as for a mesh. -/
theorem C110_scene_partial {F : Type} {T : Toolbox (Out (UNode K)) F K} {lib : SoupLib K} {emb : V3 ℚ → V3 K} (U : UsesNodes T lib emb) (hlr : T.lr = true)
    {Ok : Pwh K → Prop} {Good : T.C.PSet → Prop} {Gen : V2 K → Prop} (hC : Lawful T.C Ok Good Gen)
    (hrev : ∀ (a : Poly K) p, T.C.side a.reverse p = T.C.side a p) (hbd : ∀ q r, ∀ s ∈ T.C.inter q r, s.outer ≠ []) (hL : SoupLaw lib)
    (args : Args) (fs : Fs) (t : Text) (la : Bool) (p : K) (hp : 0 < p)
    (bs : List Mesh) (tr : Mesh) (pivot : V3 ℚ) (epsg : Nat) (hin : InputIs T args fs t false (Scene.make T.ops bs tr pivot epsg)) (ha : AsksImages T args la p)
    (hb : ∀ m ∈ bs, Mappable T.C Ok Gen emb p m) (hn : (bs.map Mesh.name).Nodup) (hpn : ∀ m ∈ bs, PlainName m.name)
    (hr : Ready fs ((splitSlash t).dropLast ++ ["vectors".toList]) (bs.flatMap fun m => [m.name ++ ".shp".toList, m.name ++ ".txt".toList]))
    (hi : Ready fs ((splitSlash t).dropLast ++ ["rasters".toList]) (bs.map fun m => m.name ++ ".tiff".toList)) :
    ∃ fs', orthoMain T args fs = (.ok 0, fs') ∧ ∀ m ∈ bs, ∃ r : Raster K, r.name = m.name ∧ r.epsg = epsg ∧
      ShowsFaces T.C Ok Gen (faceShapes (m.points.map emb) (m.faces.map Face.points)) (emb pivot) p (UpLeft p) r ∧
      fs' ((splitSlash t).dropLast ++ ["rasters".toList, m.name ++ ".tiff".toList]) = some (.file (T.G.tiff r.toGdal)) :=
  images_written U hlr _ args fs t la p hp bs tr pivot epsg hin ha (fun m hm => C110_mesh_partial hC hrev hbd hL emb m pivot epsg p hp (hb m hm)) hn hpn hr hi

/-- The vector and image files of an OBJ file. -/
theorem files_obj {F : Type} {T : Toolbox (Out (UNode K)) F K} {lib : SoupLib K} {emb : V3 ℚ → V3 K} (U : UsesNodes T lib emb) (hlr : T.lr = true)
    (P : Mesh → FootPrint K → Raster K → Prop) (args : Args) (fs : Fs) (t x : Text) (la : Bool) (p : K) (hp : 0 < p) (ms : List Mesh)
    (hscene : Given args "<scene>" t) (hfmt : Given args "--input-format" "OBJ".toList) (hext : NamedLike (splitSlash t) "obj".toList)
    (hfile : fs (splitSlash t) = some (.file x)) (hread : Obj.read T.rnd x = .ok ms) (hprune : Switch args "--prune" false)
    (hterrain : Switch args "--terrain" false) (ha : AsksImages T args la p)
    (hb : ∀ m ∈ ms, m.name ≠ "terrain".toList → FilesOf T.C lib emb ⟨0, 0, 0⟩ 2154 p P m) (hn : (ms.map Mesh.name).Nodup) (hpn : ∀ m ∈ ms, PlainName m.name)
    (hr : Ready fs ((splitSlash t).dropLast ++ ["vectors".toList]) (ms.flatMap fun m => [m.name ++ ".shp".toList, m.name ++ ".txt".toList]))
    (hi : Ready fs ((splitSlash t).dropLast ++ ["rasters".toList]) (ms.map fun m => m.name ++ ".tiff".toList)) :
    ∃ fs', orthoMain T args fs = (.ok 0, fs') ∧ ∀ m ∈ ms, m.name ≠ "terrain".toList → ∃ (fp : FootPrint K) (r : Raster K),
      fp.name = m.name ∧ r.name = m.name ∧ r.epsg = 2154 ∧ P m fp r ∧
      fs' ((splitSlash t).dropLast ++ ["vectors".toList, m.name ++ ".shp".toList]) = some (.file (T.G.shp (fp.toOgr T.C la))) ∧
      fs' ((splitSlash t).dropLast ++ ["vectors".toList, m.name ++ ".txt".toList]) = some (.file (attributesText T.C T.G fp)) ∧
      fs' ((splitSlash t).dropLast ++ ["rasters".toList, m.name ++ ".tiff".toList]) = some (.file (T.G.tiff r.toGdal)) := by
  have hF : sceneHandlerNamed (splitSlash t) "OBJ".toList = .ok .obj := by
    rw [(C31_formats _ _ _).1]
    refine Or.inr (Or.inr (Or.inr ⟨rfl, rfl, ?_⟩))
    exact (iequals_ext (e := "obj".toList) (by decide)).2 hext
  have hm : OpenedRead readMode := by unfold OpenedRead; decide
  obtain ⟨b, tr, h1, h2⟩ := C29_scene T.ops T.rnd readMode (splitSlash t) fs x ms hm hfile hread
  have hbs : b = ms.filter fun m => m.name != "terrain".toList := by
    rw [exclude_eq] at h1
    exact (congrArg Prod.fst h1).symm
  have hsub : ∀ m ∈ b, m ∈ ms ∧ m.name ≠ "terrain".toList := by
    intro m hm
    rw [hbs, List.mem_filter] at hm
    exact ⟨hm.1, by simpa using hm.2⟩
  have hin : InputIs T args fs t false (Scene.make T.ops b tr ⟨0, 0, 0⟩ 2154) :=
    ⟨hscene, hterrain, "OBJ".toList, .obj, _, false, hfmt, hF, h2, hprune, by simp, fun _ => rfl⟩
  have hlist : b.Sublist ms := by rw [hbs]; exact List.filter_sublist
  obtain ⟨fs', k1, k2⟩ := files_written U hlr P args fs t la p hp b tr ⟨0, 0, 0⟩ 2154 hin ha (fun m hm => hb m (hsub m hm).1 (hsub m hm).2)
    (hn.sublist (hlist.map _)) (fun m hm => hpn m (hsub m hm).1) ⟨hr.dir_ok, fun n hn' => hr.no_dir n (by
      obtain ⟨m, hm, h⟩ := List.mem_flatMap.1 hn'
      exact List.mem_flatMap.2 ⟨m, (hsub m hm).1, h⟩)⟩ ⟨hi.dir_ok, fun n hn' => hi.no_dir n (by
      obtain ⟨m, hm, h⟩ := List.mem_map.1 hn'
      exact List.mem_map.2 ⟨m, (hsub m hm).1, h⟩)⟩
  refine ⟨fs', k1, fun m hm hne => k2 m ?_⟩
  rw [hbs, List.mem_filter]
  exact ⟨hm, by simpa using hne⟩

/-- The image files of an OBJ file. -/
theorem images_obj {F : Type} {T : Toolbox (Out (UNode K)) F K} {lib : SoupLib K} {emb : V3 ℚ → V3 K} (U : UsesNodes T lib emb) (hlr : T.lr = true)
    (P : Mesh → Raster K → Prop) (args : Args) (fs : Fs) (t x : Text) (la : Bool) (p : K) (hp : 0 < p) (ms : List Mesh)
    (hscene : Given args "<scene>" t) (hfmt : Given args "--input-format" "OBJ".toList) (hext : NamedLike (splitSlash t) "obj".toList)
    (hfile : fs (splitSlash t) = some (.file x)) (hread : Obj.read T.rnd x = .ok ms) (hprune : Switch args "--prune" false)
    (hterrain : Switch args "--terrain" false) (ha : AsksImages T args la p)
    (hb : ∀ m ∈ ms, m.name ≠ "terrain".toList → ImageOf T.C lib emb ⟨0, 0, 0⟩ 2154 p P m) (hn : (ms.map Mesh.name).Nodup) (hpn : ∀ m ∈ ms, PlainName m.name)
    (hr : Ready fs ((splitSlash t).dropLast ++ ["vectors".toList]) (ms.flatMap fun m => [m.name ++ ".shp".toList, m.name ++ ".txt".toList]))
    (hi : Ready fs ((splitSlash t).dropLast ++ ["rasters".toList]) (ms.map fun m => m.name ++ ".tiff".toList)) :
    ∃ fs', orthoMain T args fs = (.ok 0, fs') ∧ ∀ m ∈ ms, m.name ≠ "terrain".toList → ∃ r : Raster K, r.name = m.name ∧ r.epsg = 2154 ∧ P m r ∧
      fs' ((splitSlash t).dropLast ++ ["rasters".toList, m.name ++ ".tiff".toList]) = some (.file (T.G.tiff r.toGdal)) := by
  obtain ⟨fs', h1, h2⟩ := files_obj U hlr (fun m _ r => P m r) args fs t x la p hp ms hscene hfmt hext hfile hread hprune hterrain ha hb hn hpn hr hi
  refine ⟨fs', h1, fun m hm hne => ?_⟩
  obtain ⟨fp, r, -, k1, k2, k3, -, -, k4⟩ := h2 m hm hne
  exact ⟨r, k1, k2, k3, k4⟩

/-- C110, the part that holds, for an OBJ file. Missing: as for a mesh. -/
theorem C110_obj_partial {F : Type} {T : Toolbox (Out (UNode K)) F K} {lib : SoupLib K} {emb : V3 ℚ → V3 K} (U : UsesNodes T lib emb) (hlr : T.lr = true)
    {Ok : Pwh K → Prop} {Good : T.C.PSet → Prop} {Gen : V2 K → Prop} (hC : Lawful T.C Ok Good Gen)
    (hrev : ∀ (a : Poly K) p, T.C.side a.reverse p = T.C.side a p) (hbd : ∀ q r, ∀ s ∈ T.C.inter q r, s.outer ≠ []) (hL : SoupLaw lib)
    (args : Args) (fs : Fs) (t x : Text) (la : Bool) (p : K) (hp : 0 < p) (ms : List Mesh)
    (hscene : Given args "<scene>" t) (hfmt : Given args "--input-format" "OBJ".toList) (hext : NamedLike (splitSlash t) "obj".toList)
    (hfile : fs (splitSlash t) = some (.file x)) (hread : Obj.read T.rnd x = .ok ms) (hprune : Switch args "--prune" false)
    (hterrain : Switch args "--terrain" false) (ha : AsksImages T args la p)
    (hb : ∀ m ∈ ms, m.name ≠ "terrain".toList → Mappable T.C Ok Gen emb p m) (hn : (ms.map Mesh.name).Nodup) (hpn : ∀ m ∈ ms, PlainName m.name)
    (hr : Ready fs ((splitSlash t).dropLast ++ ["vectors".toList]) (ms.flatMap fun m => [m.name ++ ".shp".toList, m.name ++ ".txt".toList]))
    (hi : Ready fs ((splitSlash t).dropLast ++ ["rasters".toList]) (ms.map fun m => m.name ++ ".tiff".toList)) :
    ∃ fs', orthoMain T args fs = (.ok 0, fs') ∧ ∀ m ∈ ms, m.name ≠ "terrain".toList → ∃ r : Raster K, r.name = m.name ∧ r.epsg = 2154 ∧
      ShowsFaces T.C Ok Gen (faceShapes (m.points.map emb) (m.faces.map Face.points)) (emb ⟨0, 0, 0⟩) p (UpLeft p) r ∧
      fs' ((splitSlash t).dropLast ++ ["rasters".toList, m.name ++ ".tiff".toList]) = some (.file (T.G.tiff r.toGdal)) :=
  images_obj U hlr _ args fs t x la p hp ms hscene hfmt hext hfile hread hprune hterrain ha
    (fun m hm hne => C110_mesh_partial hC hrev hbd hL emb m ⟨0, 0, 0⟩ 2154 p hp (hb m hm hne)) hn hpn hr hi

end
/-! ### The full statement and examples -/

/-- C110, as it is stated: no face is displaced. -/
def C110_full : Prop := ∀ (C : Cgal ℚ) (Ok : Pwh ℚ → Prop) (Good : C.PSet → Prop) (Gen : V2 ℚ → Prop), Lawful C Ok Good Gen →
  (∀ (a : Poly ℚ) p, C.side a.reverse p = C.side a p) → (∀ q r, ∀ s ∈ C.inter q r, s.outer ≠ []) → ∀ lib : SoupLib ℚ, SoupLaw lib →
  ∀ (m : Mesh) (ref : V3 ℚ) (epsg : Nat) (p : ℚ), 0 < p → Mappable C Ok Gen _root_.id p m →
  ∃ n fp r, UNode.ofMesh lib _root_.id m ref epsg = .ok n ∧ FootPrint.ofUNode C _root_.id n = .ok fp ∧ Raster.ofFootPrint C true fp p = .ok r ∧
    ShowsFaces C Ok Gen (faceShapes (m.points.map _root_.id) (m.faces.map Face.points)) ref p InPlace r

/-- Two roofs of a double house: a flat one of three by two units and a rising one of two by two units. -/
def duplex : Surf ℚ := ofTables
  [1, 2, 3, 0, 5, 6, 7, 4, 10, 8, 13, 9, 11, 12]
  [3, 0, 1, 2, 7, 4, 5, 6, 9, 11, 8, 12, 13, 10]
  [8, 9, 4, 10, 2, 11, 12, 13, 0, 1, 3, 5, 6, 7]
  [0, 1, 2, 3, 1, 4, 5, 2, 3, 0, 2, 1, 4, 5]
  [some 0, some 0, some 0, some 0, some 1, some 1, some 1, some 1, none, none, none, none, none, none]
  [0, 4]
  [⟨0, 0, 3⟩, ⟨3, 0, 3⟩, ⟨3, 2, 3⟩, ⟨0, 2, 3⟩, ⟨5, 0, 4⟩, ⟨5, 2, 4⟩]

/-- Its mesh. -/
def duplexMesh : Mesh := Mesh.make "duplex".toList duplex.points [⟨[0, 1, 2, 3]⟩, ⟨[1, 4, 5, 2]⟩]

theorem duplex_represents : Represents duplex duplex.points [[0, 1, 2, 3], [1, 4, 5, 2]] := by
  refine ⟨checkSurf_valid (by decide +kernel), by decide +kernel, rfl, by decide +kernel, ?_, ?_, by decide +kernel, by decide +kernel⟩
  · intro h hh k hk he
    have : ∀ h ∈ duplex.hs, ∀ k ∈ duplex.hs, duplex.vert h = duplex.vert k → ∃ n ∈ List.range 3, (fun x => duplex.opp (duplex.next x))^[n] h = k := by
      decide +kernel
    obtain ⟨n, _, hn⟩ := this h hh k hk he
    exact ⟨n, hn⟩
  · refine .cons ⟨[0, 1, 2, 3], ?_, ?_⟩ (.cons ⟨[4, 5, 6, 7], ?_, ?_⟩ .nil)
    all_goals first
      | exact boundaryOf_check (by decide) (by decide) (by decide +kernel) (by decide +kernel) (by decide +kernel)
      | (simp only [List.forall₂_cons, List.Forall₂.nil, and_true]; decide +kernel)

/-- The flat roof. -/
def flatRoof : List (V3 ℚ) := [⟨0, 0, 3⟩, ⟨3, 0, 3⟩, ⟨3, 2, 3⟩, ⟨0, 2, 3⟩]

/-- The rising roof. -/
def risingRoof : List (V3 ℚ) := [⟨3, 0, 3⟩, ⟨5, 0, 4⟩, ⟨5, 2, 4⟩, ⟨3, 2, 3⟩]

theorem duplex_shapes : faceShapes (duplexMesh.points.map _root_.id) (duplexMesh.faces.map Face.points) = [flatRoof, risingRoof] := by decide +kernel

theorem flatRoof_plain : PlainRoof rectCgal RectOk flatRoof :=
  rect_roof (b := ⟨0, 0, 3, 2⟩) (by decide) ⟨0, by norm_num⟩ ⟨0, by norm_num⟩ ⟨3, by norm_num⟩ ⟨2, by norm_num⟩
    ⟨⟨0, 0, 1, -3⟩, by norm_num, by unfold flatRoof OnPlane; simp⟩ ⟨0, by decide +kernel⟩

theorem risingRoof_plain : PlainRoof rectCgal RectOk risingRoof :=
  rect_roof (b := ⟨3, 0, 5, 2⟩) (by decide) ⟨3, by norm_num⟩ ⟨0, by norm_num⟩ ⟨5, by norm_num⟩ ⟨2, by norm_num⟩
    ⟨⟨-1, 0, 2, -3⟩, by norm_num, by unfold risingRoof OnPlane; norm_num⟩ ⟨0, by decide +kernel⟩

/-- A roof over a rectangle of at least one unit is not too steep. -/
theorem rect_steep {l : List (V3 ℚ)} {b : Box2 ℚ} (h : l.map ground ~r (rect b).outer) (hb : eps ≤ |(b.xmax - b.xmin) * (b.ymax - b.ymin)|) : NotSteep l := by
  intro x y z t hr
  rcases rect_triples (hr.trans h) with ⟨rfl, rfl, rfl⟩ | ⟨rfl, rfl, rfl⟩ | ⟨rfl, rfl, rfl⟩ | ⟨rfl, rfl, rfl⟩ <;> refine le_of_le_of_eq hb ?_ <;> simp only <;> congr 1 <;> ring

theorem rect_bounded_iff {l : Poly ℚ} {b : Box2 ℚ} (h : polyBox l = some b) (q : V2 ℚ) : rectCgal.side l q = .bounded ↔ InRect b q := by
  show rectSide l q = _ ↔ _
  unfold rectSide
  rw [h]
  by_cases k : InRect b q
  · simp [k]
  · simp only [k, if_false, iff_false]
    by_cases k' : b.xmin ≤ q.x ∧ q.x ≤ b.xmax ∧ b.ymin ≤ q.y ∧ q.y ≤ b.ymax <;> simp [k']

theorem duplex_sides : (∀ q, rectCgal.side (flatRoof.map ground) q = .bounded ↔ 0 < q.x ∧ q.x < 3 ∧ 0 < q.y ∧ q.y < 2) ∧
    ∀ q, rectCgal.side (risingRoof.map ground) q = .bounded ↔ 3 < q.x ∧ q.x < 5 ∧ 0 < q.y ∧ q.y < 2 := by
  have e1 : polyBox (flatRoof.map ground) = some ⟨0, 0, 3, 2⟩ := by decide +kernel
  have e2 : polyBox (risingRoof.map ground) = some ⟨3, 0, 5, 2⟩ := by decide +kernel
  exact ⟨fun q => rect_bounded_iff e1 q, fun q => rect_bounded_iff e2 q⟩

theorem duplex_mappable (p : ℚ) (hp : 1 ≤ p) : Mappable rectCgal RectOk RectGen _root_.id p duplexMesh := by
  refine ⟨⟨duplex, by rw [List.map_id]; exact duplex_represents⟩, ?_, ?_, ?_, by decide, ?_⟩ <;> rw [duplex_shapes]
  · intro l hl
    simp only [List.mem_cons, List.not_mem_nil, or_false] at hl
    rcases hl with rfl | rfl
    · exact .inr ⟨flatRoof_plain, rect_steep (b := ⟨0, 0, 3, 2⟩) ⟨0, by decide +kernel⟩ (by decide +kernel)⟩
    · exact .inr ⟨risingRoof_plain, rect_steep (b := ⟨3, 0, 5, 2⟩) ⟨0, by decide +kernel⟩ (by decide +kernel)⟩
  · refine List.pairwise_cons.2 ⟨?_, List.pairwise_singleton _ _⟩
    intro k hk q _ z z' h
    rw [List.mem_singleton] at hk
    subst hk
    have h1 := (duplex_sides.1 q).1 h.1.2.1
    have h2 := (duplex_sides.2 q).1 h.2.2.1
    linarith [h1.2.1, h2.1]
  · exact ⟨flatRoof, by simp, plain_not_line flatRoof_plain⟩
  · rintro B ⟨-, ⟨l1, m1, -, v1, w1, e1⟩, ⟨l2, m2, -, v2, w2, e2⟩, ⟨l3, m3, -, v3, w3, e3⟩, l4, m4, -, v4, w4, e4⟩
    have bd : ∀ l ∈ [flatRoof, risingRoof], ∀ v ∈ l, 0 ≤ v.x ∧ v.x ≤ 5 ∧ 0 ≤ v.y ∧ v.y ≤ 2 := by decide +kernel
    have hp0 : 0 < p := by linarith
    have b1 := bd _ m1 _ w1
    have b2 := bd _ m2 _ w2
    have b3 := bd _ m3 _ w3
    have b4 := bd _ m4 _ w4
    constructor <;> refine lt_of_le_of_lt (b := 5) (Int.ceil_le.2 ?_) (by norm_num) <;> rw [div_le_iff₀ hp0] <;> push_cast <;> nlinarith

theorem duplex_extent {B : Box2 ℚ} (h : Extent [flatRoof, risingRoof] B) : B = ⟨0, 0, 5, 2⟩ := by
  obtain ⟨a, ⟨l1, m1, -, v1, w1, e1⟩, ⟨l2, m2, -, v2, w2, e2⟩, ⟨l3, m3, -, v3, w3, e3⟩, l4, m4, -, v4, w4, e4⟩ := h
  have bd : ∀ l ∈ [flatRoof, risingRoof], ∀ v ∈ l, 0 ≤ v.x ∧ v.x ≤ 5 ∧ 0 ≤ v.y ∧ v.y ≤ 2 := by decide +kernel
  have b1 := bd _ m1 _ w1
  have b2 := bd _ m2 _ w2
  have b3 := bd _ m3 _ w3
  have b4 := bd _ m4 _ w4
  have a1 := a flatRoof (by simp) (plain_not_line flatRoof_plain) ⟨0, 0, 3⟩ (by simp [flatRoof])
  have a2 := a risingRoof (by simp) (plain_not_line risingRoof_plain) ⟨5, 2, 4⟩ (by simp [risingRoof])
  rcases B with ⟨x0, y0, x1, y1⟩
  simp only at *
  congr 1 <;> linarith [a1.1, a1.2.1, a1.2.2.1, a1.2.2.2, a2.1, a2.2.1, a2.2.2.1, a2.2.2.2, b1.1, b2.2.1, b3.2.2.1, b4.2.2.2]

theorem duplex_moved {d : V2 ℚ} : (Displaced 0 2 2 (flatRoof.map ground) d → d = ⟨0, 0⟩) ∧ (Displaced 0 2 2 (risingRoof.map ground) d → d = ⟨1, 0⟩) := by
  have rest : ∀ {a q : ℚ} {k₀ : ℤ} {q₀ : ℚ}, RestOf a 2 q → a = k₀ * 2 + q₀ → 0 ≤ q₀ → q₀ < 2 → q = q₀ := by
    rintro a q k₀ q₀ ⟨q1, q2, k, e⟩ e₀ h1 h2
    have l1 : (k : ℚ) < k₀ + 1 := by linarith
    have l2 : (k₀ : ℚ) < k + 1 := by linarith
    have l1' : k < k₀ + 1 := by exact_mod_cast l1
    have l2' : k₀ < k + 1 := by exact_mod_cast l2
    have : k = k₀ := by omega
    subst this
    linarith
  have ext : ∀ {a b : ℚ}, d.x = a → d.y = b → d = ⟨a, b⟩ := by
    rintro a b rfl rfl
    rfl
  constructor
  · rintro ⟨x, y, ⟨⟨h1, v, hv, e⟩, h2, w, hw, e'⟩, r1, r2⟩
    have hx : x = 0 := by
      have b : ∀ v ∈ flatRoof.map ground, 0 ≤ v.x := by decide +kernel
      exact le_antisymm (h1 ⟨0, 0⟩ (by simp [flatRoof, ground])) (e ▸ b v hv)
    have hy : y = 2 := by
      have b : ∀ v ∈ flatRoof.map ground, v.y ≤ 2 := by decide +kernel
      exact le_antisymm (e' ▸ b w hw) (h2 ⟨0, 2⟩ (by simp [flatRoof, ground]))
    subst hx hy
    exact ext (rest (k₀ := 0) r1 (by norm_num) (by norm_num) (by norm_num)) (rest (k₀ := 0) r2 (by norm_num) (by norm_num) (by norm_num))
  · rintro ⟨x, y, ⟨⟨h1, v, hv, e⟩, h2, w, hw, e'⟩, r1, r2⟩
    have hx : x = 3 := by
      have b : ∀ v ∈ risingRoof.map ground, 3 ≤ v.x := by decide +kernel
      exact le_antisymm (h1 ⟨3, 0⟩ (by simp [risingRoof, ground])) (e ▸ b v hv)
    have hy : y = 2 := by
      have b : ∀ v ∈ risingRoof.map ground, v.y ≤ 2 := by decide +kernel
      exact le_antisymm (e' ▸ b w hw) (h2 ⟨3, 2⟩ (by simp [risingRoof, ground]))
    subst hx hy
    exact ext (rest (k₀ := 1) r1 (by norm_num) (by norm_num) (by norm_num)) (rest (k₀ := 0) r2 (by norm_num) (by norm_num) (by norm_num))

theorem cell_inside (x y : ℚ) (i j : Nat) (q : V2 ℚ) : Interior rectCgal (cell x y 2 i j) q ↔
    x + j * 2 < q.x ∧ q.x < x + j * 2 + 2 ∧ y - i * 2 - 2 < q.y ∧ q.y < y - i * 2 := by
  refine interior_isRect (b := ⟨x + j * 2, y - i * 2 - 2, x + j * 2 + 2, y - i * 2⟩) ⟨?_, ?_⟩ ⟨rfl, ⟨1, rfl⟩⟩ q
  · show x + j * 2 < x + j * 2 + 2; linarith
  · show y - i * 2 - 2 < y - i * 2; linarith

/-- C110: false as stated: in pixels of two units the rising roof, which begins in the middle of the second pixel, is not shown in the third. -/
theorem C110_refuted : ¬ C110_full := by
  classical
  intro h
  have hm := duplex_mappable 2 (by norm_num)
  obtain ⟨n, fp, r, h1, h2, h3, B, d, s1, s2, s3, s4, s5, s6, s7⟩ := h rectCgal RectOk RectGood RectGen rect_lawful rect_reverse rect_bounded demoSoup demoSoup_law duplexMesh ⟨0, 0, 0⟩
    2154 2 (by norm_num) hm
  obtain ⟨n', fp', r', k1, k2, -, k3, -, -, -, -, B', d', t1, t2, t3, t4, t5, t6, t7⟩ := C110_mesh_partial rect_lawful rect_reverse rect_bounded demoSoup_law _root_.id duplexMesh
    ⟨0, 0, 0⟩ 2154 2 (by norm_num) hm
  obtain rfl := Out.ok.inj (h1.symm.trans k1)
  obtain rfl := Out.ok.inj (h2.symm.trans k2)
  obtain rfl := Out.ok.inj (h3.symm.trans k3)
  rw [duplex_shapes] at s1 s2 s7 t1 t2 t7
  obtain rfl := duplex_extent s1
  obtain rfl := duplex_extent t1
  have d1 : d flatRoof = ⟨0, 0⟩ := s2 _ (by simp) (plain_not_line flatRoof_plain)
  have d2 : d risingRoof = ⟨0, 0⟩ := s2 _ (by simp) (plain_not_line risingRoof_plain)
  have d1' : d' flatRoof = ⟨0, 0⟩ := duplex_moved.1 (t2 _ (by simp) (plain_not_line flatRoof_plain))
  have d2' : d' risingRoof = ⟨1, 0⟩ := duplex_moved.2 (t2 _ (by simp) (plain_not_line risingRoof_plain))
  have hh : 0 < r.height := by
    have : (r.height : ℤ) = 1 := by rw [s5]; norm_num
    omega
  have hw : 2 < r.width := by
    have : (r.width : ℤ) = 3 := by rw [s6]; norm_num
    omega
  have ok : ∀ x : ℤ, RectOk (cell (x : ℚ) 2 2 0 2) := fun x => by
    have := cell_ok x 2 2 0 2 (by norm_num)
    unfold cell
    push_cast at this ⊢
    exact this
  obtain ⟨c, v, a1, -, zs, z1, z2, -⟩ := s7 0 hh 2 hw (by
    intro l hl _
    simp only [List.mem_cons, List.not_mem_nil, or_false] at hl
    rcases hl with rfl | rfl
    · rw [d1]; simpa using ok 0
    · rw [d2]; simpa using ok 0)
  obtain ⟨c', v', a1', -, zs', z1', z2', -⟩ := t7 0 hh 2 hw (by
    intro l hl _
    simp only [List.mem_cons, List.not_mem_nil, or_false] at hl
    rcases hl with rfl | rfl
    · rw [d1']; simpa using ok 0
    · rw [d2']; simpa using ok 1)
  rw [a1] at a1'
  obtain rfl := Out.ok.inj a1'
  have e' : zs' = [] := by
    rw [List.filter_eq_nil_iff.2] at z1'
    · exact List.forall₂_nil_left_iff.1 z1'
    · intro l hl
      simp only [List.mem_cons, List.not_mem_nil, or_false] at hl
      rw [decide_eq_true_iff]
      rintro ⟨q, z, -, g1, g2⟩
      rcases hl with rfl | rfl
      · rw [d1'] at g1
        have g1 := (cell_inside _ _ 0 2 q).1 g1
        have g2 := (duplex_sides.1 q).1 g2.2.1
        norm_num at g1 g2
        linarith [g1.1, g2.2.1]
      · rw [d2'] at g1
        have g1 := (cell_inside _ _ 0 2 q).1 g1
        have g2 := (duplex_sides.2 q).1 g2.2.1
        norm_num at g1 g2
        linarith [g1.1, g2.2.1]
  have hin : AboveSquare rectCgal RectGen (cell (0 + (d risingRoof).x) (2 - (d risingRoof).y) 2 0 2) risingRoof := by
    rw [d2]
    refine ⟨⟨9 / 2, 1 / 2⟩, 15 / 4, ?_, ?_, plain_not_line risingRoof_plain, ?_, ⟨-1, 0, 2, -3⟩, by norm_num, ?_, ?_⟩
    · have := half_gen 4 0
      norm_num at this
      exact this
    · rw [cell_inside]; norm_num
    · rw [duplex_sides.2]; norm_num
    · unfold risingRoof OnPlane; norm_num
    · unfold OnPlane; norm_num
  have e : zs ≠ [] := by
    rintro rfl
    have := List.forall₂_nil_right_iff.1 z1
    rw [List.filter_eq_nil_iff] at this
    exact this risingRoof (by simp) (by rw [decide_eq_true_iff]; exact hin)
  rw [e'] at z2'
  rw [z2'] at z2
  have : zs.length = 0 := by simpa using z2.symm
  exact e (List.length_eq_zero_iff.1 this)

/-- An OBJ file with the two roofs. -/
def duplexObj : Text := "v 0 0 3\nv 3 0 3\nv 3 2 3\nv 0 2 3\nv 5 0 4\nv 5 2 4\n\no duplex\nf 1 2 3 4 \nf 2 5 6 3 \n".toList

theorem duplexObj_read : Obj.read _root_.id duplexObj = .ok [duplexMesh] := by decide +kernel

/-- `orthoproject d/a.obj --input-format=OBJ save rasterize --pixel-size=1`. -/
def pixelArgs : Args := fun n =>
  if n = "<scene>".toList then some (.str "d/a.obj".toList) else
  if n = "--input-format".toList then some (.str "OBJ".toList) else
  if n = "save".toList then some (.bool true) else
  if n = "rasterize".toList then some (.bool true) else
  if n = "--pixel-size".toList then some (.str ['1']) else some (.bool false)

theorem pixelArgs_asks (lib : SoupLib ℚ) : AsksImages (nodeTools lib) pixelArgs false 1 :=
  ⟨⟨false, by unfold Switch; decide⟩, by unfold Switch; decide, by unfold Switch; decide, by unfold Switch; decide, by unfold Switch; decide,
    by unfold Asked; decide, ['1'], by decide, rfl⟩

theorem objFs_images (x : Text) (names : List Text) : Ready (objFs x) ((splitSlash "d/a.obj".toList).dropLast ++ ["rasters".toList]) names := by
  rw [show (splitSlash "d/a.obj".toList).dropLast ++ ["rasters".toList] = ["d".toList, "rasters".toList] by decide]
  refine ⟨.inr ⟨?_, by simp, ?_⟩, fun n _ => ?_⟩
  · unfold objFs
    simp
  · unfold objFs
    simp
  · show objFs x ["d".toList, "rasters".toList, n] ≠ _
    unfold objFs
    simp

/-- C110: the hypotheses are met: the file of the two roofs, read, projected and rasterised. -/
example (lib : SoupLib ℚ) (hL : SoupLaw lib) : ∃ fs', orthoMain (nodeTools lib) pixelArgs (objFs duplexObj) = (.ok 0, fs') ∧ ∃ r : Raster ℚ,
    ShowsFaces rectCgal RectOk RectGen [flatRoof, risingRoof] ⟨0, 0, 0⟩ 1 (UpLeft 1) r ∧
    fs' ["d".toList, "rasters".toList, "duplex.tiff".toList] = some (.file ((nodeTools lib).G.tiff r.toGdal)) := by
  obtain ⟨fs', h1, h2⟩ := C110_obj_partial (nodeTools_uses lib) rfl (Ok := RectOk) (Good := RectGood) (Gen := RectGen) rect_lawful rect_reverse rect_bounded hL pixelArgs
    (objFs duplexObj) "d/a.obj".toList duplexObj false 1 (by norm_num) [duplexMesh] (by unfold Given; decide) (by unfold Given; decide)
    objName (by decide +kernel) duplexObj_read (by unfold Switch; decide) (by unfold Switch; decide)
    (pixelArgs_asks lib) (by
      intro m hm _
      rw [List.mem_singleton] at hm
      subst hm
      exact duplex_mappable 1 le_rfl) (by decide) (by unfold PlainName; decide) (objFs_ready _ _) (objFs_images _ _)
  obtain ⟨r, -, -, h3, h4⟩ := h2 duplexMesh (by simp) (by decide)
  rw [duplex_shapes] at h3
  exact ⟨fs', h1, r, h3, h4⟩

/-- C110: the faces are aligned with pixels of one unit, so that none is displaced. -/
example (lib : SoupLib ℚ) (hL : SoupLaw lib) : ∃ n fp r, UNode.ofMesh lib _root_.id duplexMesh ⟨0, 0, 0⟩ 2154 = .ok n ∧ FootPrint.ofUNode rectCgal _root_.id n = .ok fp ∧
    Raster.ofFootPrint rectCgal true fp 1 = .ok r ∧ ShowsFaces rectCgal RectOk RectGen [flatRoof, risingRoof] ⟨0, 0, 0⟩ 1 InPlace r := by
  obtain ⟨n, fp, r, h1, h2, -, h4, -, -, -, -, h5⟩ := C110_aligned_partial rect_lawful rect_reverse rect_bounded hL _root_.id duplexMesh ⟨0, 0, 0⟩ 2154 1 (by norm_num)
    (duplex_mappable 1 le_rfl) (by
      rw [duplex_shapes]
      intro B hB l hl _ x y hxy
      obtain rfl := duplex_extent hB
      have b : ∀ l ∈ [flatRoof, risingRoof], ∀ v ∈ l.map ground, v.x ∈ [(0 : ℚ), 3, 5] ∧ v.y ∈ [(0 : ℚ), 2] := by decide +kernel
      obtain ⟨⟨-, v, hv, rfl⟩, -, w, hw, rfl⟩ := hxy
      have b1 := (b l hl v hv).1
      have b2 := (b l hl w hw).2
      simp only [List.mem_cons, List.not_mem_nil, or_false] at b1 b2
      constructor
      · rcases b1 with e | e | e <;> rw [e]
        · exact ⟨0, by norm_num⟩
        · exact ⟨3, by norm_num⟩
        · exact ⟨5, by norm_num⟩
      · rcases b2 with e | e <;> rw [e]
        · exact ⟨2, by norm_num⟩
        · exact ⟨0, by norm_num⟩)
  rw [duplex_shapes] at h5
  exact ⟨n, fp, r, h1, h2, h4, h5⟩

end City.Props
