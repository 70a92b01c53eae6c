import Verif.Spec.Lift
import Verif.Props.NodePrint
/-! C105: the height of the reference point does not matter. -/
namespace City.Props
open City Spec FacePrint
set_option linter.unusedSectionVars false

section
variable {K : Type} [Field K] [LinearOrder K] [IsStrictOrderedRing K] {C : Cgal K}

theorem planeThrough_lift (w : K) (p q r : V3 K) : planeThrough (Lift.pt3 w p) (Lift.pt3 w q) (Lift.pt3 w r) = Lift.plane w (planeThrough p q r) := by
  simp only [planeThrough, Lift.pt3, Lift.plane, Plane.mk.injEq]
  exact ⟨by ring, by ring, trivial, by ring⟩

theorem trace_lift (w : K) (f : Facet K) : trace (Lift.facet w f) = ((trace f).1, Lift.plane w (trace f).2) := by
  rcases f with ⟨i, ps⟩
  have h1 : (Lift.facet w ⟨i, ps⟩).pts.map (fun p => (⟨p.x, p.y⟩ : V2 K)) = ps.map fun p => ⟨p.x, p.y⟩ := by
    simp only [Lift.facet, List.map_map]
    rfl
  unfold trace
  rw [h1]
  rcases ps with _ | ⟨p, _ | ⟨q, _ | ⟨r, t⟩⟩⟩
  · simp [Lift.facet, Lift.plane]
  · simp [Lift.facet, Lift.plane]
  · simp [Lift.facet, Lift.plane]
  · simp only [Lift.facet, List.map_cons, planeThrough_lift]

theorem ofFacet_lift (w : K) (f : Facet K) : FacePrint.ofFacet C (Lift.facet w f) = Lift.face w (FacePrint.ofFacet C f) := by
  unfold FacePrint.ofFacet
  rw [trace_lift]
  rfl

theorem degenerate_lift (w : K) (f : FacePrint K) : FacePrint.isDegenerate C (Lift.face w f) = FacePrint.isDegenerate C f := rfl

theorem orthoprint_lift (w : K) (fs : List (Facet K)) : orthoprint C (fs.map (Lift.facet w)) = (orthoprint C fs).map (Lift.face w) := by
  unfold orthoprint
  rw [List.map_map, show FacePrint.ofFacet C ∘ Lift.facet w = Lift.face w ∘ FacePrint.ofFacet C from funext fun f => ofFacet_lift w f, ← List.map_map,
    List.filter_map]
  rfl

theorem inexact_lift (hd : ∀ x, C.toDouble x = x) (w : K) (f : FacePrint K) (p : V2 K) :
    FacePrint.planeHeightInexact C (Lift.face w f) p = (· + w) <$> FacePrint.planeHeightInexact C f p := by
  unfold FacePrint.planeHeightInexact
  simp only [hd, Lift.face, Lift.plane]
  by_cases h : |f.plane.c| < eps
  · rw [if_pos h, if_pos h]; rfl
  · rw [if_neg h, if_neg h, Out.map_ok]
    have h0 : f.plane.c ≠ 0 := by
      intro h0
      apply h
      rw [h0, abs_zero]
      unfold eps
      positivity
    congr 1
    field_simp
    ring

theorem partHeights_lift (hd : ∀ x, C.toDouble x = x) (w : K) (f : FacePrint K) (n : K) (qs : List (Pwh K)) : ∀ s t : K,
    FacePrint.partHeights C (Lift.face w f) n qs (s + t) = (· + (t + qs.length * (w / n))) <$> FacePrint.partHeights C f n qs s := by
  induction qs with
  | nil => intro s t; simp [FacePrint.partHeights]
  | cons q qs ih =>
    intro s t
    simp only [FacePrint.partHeights]
    cases centroid C q with
    | ok c =>
      simp only [Out.ok_bind, inexact_lift hd]
      cases FacePrint.planeHeightInexact C f c with
      | ok z =>
        simp only [Out.map_ok, Out.ok_bind]
        rw [show s + t + (z + w) / n = (s + z / n) + (t + w / n) by ring, ih]
        congr 1
        funext x
        simp only [List.length_cons]
        push_cast
        ring
      | thrown e => rfl
      | ub => rfl
    | thrown e => rfl
    | ub => rfl

theorem pixelHeight_lift (hd : ∀ x, C.toDouble x = x) (w : K) (f : FacePrint K) (x y p : K) :
    FacePrint.pixelHeight C (Lift.face w f) x y p = Option.map (· + w) <$> FacePrint.pixelHeight C f x y p := by
  unfold FacePrint.pixelHeight
  rw [show (Lift.face w f).border = f.border from rfl]
  by_cases h : (C.inter (square x y p) f.border).isEmpty = true
  · rw [if_pos h, if_pos h]; rfl
  · rw [if_neg h, if_neg h]
    have hn : ((C.inter (square x y p) f.border).length : K) ≠ 0 := by
      rw [Nat.cast_ne_zero]
      intro h0
      exact h (by rw [List.length_eq_zero_iff.1 h0]; rfl)
    have := partHeights_lift hd w f ((C.inter (square x y p) f.border).length : K) (C.inter (square x y p) f.border) 0 0
    rw [add_zero] at this
    rw [this]
    cases FacePrint.partHeights C f ((C.inter (square x y p) f.border).length : K) (C.inter (square x y p) f.border) 0 with
    | ok z =>
      simp only [Out.map_ok, Out.ok_bind, Option.map_some]
      rw [zero_add, mul_div_cancel₀ _ hn]
    | thrown e => rfl
    | ub => rfl

theorem map_then {α β γ : Type} (x : Out α) (f : α → β) (g : β → Out γ) : ((f <$> x) >>= g) = (x >>= fun a => g (f a)) := by
  cases x <;> rfl

theorem then_map {α β γ : Type} (x : Out α) (f : α → Out β) (g : β → γ) : (g <$> (x >>= f)) = (x >>= fun a => g <$> f a) := by
  cases x <;> rfl

theorem planeHeight_lift (hd : ∀ x, C.toDouble x = x) (w : K) (f : FacePrint K) (p : V2 K) :
    FacePrint.planeHeight C (Lift.face w f) p = (· + w) <$> FacePrint.planeHeight C f p := by
  unfold FacePrint.planeHeight
  simp only [hd, Lift.face, Lift.plane]
  by_cases h : f.plane.c = 0
  · rw [if_pos h, if_pos h]; rfl
  · rw [if_neg h, if_neg h, Out.map_ok]
    congr 1
    field_simp
    ring

/-- The face counts at the point when the height of a brick print is computed. -/
def Counts (C : Cgal K) (f : FacePrint K) (p : V2 K) : Bool := !FacePrint.isDegenerate C f && FacePrint.contains C f p

theorem height_lift (hd : ∀ x, C.toDouble x = x) (w : K) (f : FacePrint K) (p : V2 K) :
    FacePrint.height C (Lift.face w f) p = (· + times (Counts C f p) w) <$> FacePrint.height C f p := by
  unfold FacePrint.height
  rw [planeHeight_lift hd, map_then, then_map]
  congr 1
  funext z
  rw [Out.map_ok, degenerate_lift, show FacePrint.contains C (Lift.face w f) p = FacePrint.contains C f p from rfl]
  congr 1
  unfold Counts times
  split <;> simp

theorem sumHeights_lift (hd : ∀ x, C.toDouble x = x) (w : K) (p : V2 K) (fs : List (FacePrint K)) : ∀ z t : K,
    Brick.sumHeights C p (fs.map (Lift.face w)) (z + t) = (· + (t + (fs.countP fun f => Counts C f p : Nat) * w)) <$> Brick.sumHeights C p fs z := by
  induction fs with
  | nil => intro z t; simp [Brick.sumHeights]
  | cons f fs ih =>
    intro z t
    simp only [List.map_cons, Brick.sumHeights]
    rw [height_lift hd, map_then, then_map]
    congr 1
    funext h
    rw [show z + t + (h + times (Counts C f p) w) = (z + h) + (t + times (Counts C f p) w) by ring, ih]
    congr 1
    funext x
    rw [List.countP_cons]
    unfold times
    split
    · push_cast; ring
    · push_cast; ring

theorem brick_height_lift (hd : ∀ x, C.toDouble x = x) (w : K) (b : Brick K) (p : V2 K) (h1 : (b.faces.countP fun f => Counts C f p) = 1) :
    Brick.height C (Lift.brick w b) p = (· + w) <$> Brick.height C b p := by
  have hc : b.contains C p = true := by
    obtain ⟨f, hf, hp⟩ := List.countP_pos_iff.1 (show 0 < b.faces.countP fun f => Counts C f p by omega)
    unfold Brick.contains
    rw [List.any_eq_true]
    unfold Counts at hp
    rw [Bool.and_eq_true] at hp
    exact ⟨f, hf, hp.2⟩
  have hc' : (Lift.brick w b).contains C p = b.contains C p := by
    unfold Brick.contains
    simp only [Lift.brick, List.any_map]
    rfl
  unfold Brick.height
  rw [hc', if_pos hc, if_pos hc]
  have := sumHeights_lift hd w p b.faces 0 0
  rw [add_zero] at this
  rw [show (Lift.brick w b).faces = b.faces.map (Lift.face w) from rfl, this, h1]
  simp

theorem joinAll_lift (w : K) (fs : List (FacePrint K)) : Brick.joinAll C (fs.map (Lift.face w)) = Brick.joinAll C fs := by
  unfold Brick.joinAll
  rw [List.foldl_map]
  rfl

/-- The comparison of heights at the insertion of a face reads the height of one face of the brick print: the sample point of the face is in the face and in exactly one
face of the brick print. -/
def Clear (C : Cgal K) (b : Brick K) (l : FacePrint K) : Prop :=
  ∀ m, sample l.border = .ok m → Brick.containsFace C b l = true → Counts C l m = true ∧ (b.faces.countP fun f => Counts C f m) = 1

/-- Every insertion of a history is clear. -/
def ClearAll (C : Cgal K) : List (FacePrint K) → Brick K → Prop
  | [], _ => True
  | f :: fs, b => Clear C b f ∧ ∀ b', b.addFace C f = .ok b' → ClearAll C fs b'

theorem isUnder_lift (hd : ∀ x, C.toDouble x = x) (w : K) (b : Brick K) (l : FacePrint K) (h : Clear C b l) :
    Brick.isUnder C (Lift.brick w b) (Lift.face w l) = Brick.isUnder C b l := by
  have hcf : Brick.containsFace C (Lift.brick w b) (Lift.face w l) = Brick.containsFace C b l := by
    unfold Brick.containsFace
    rw [show (Lift.brick w b).faces = b.faces.map (Lift.face w) from rfl, joinAll_lift]
    rfl
  unfold Brick.isUnder
  rw [hcf, degenerate_lift, show (Lift.face w l).isPerpendicular = l.isPerpendicular from rfl, show (Lift.face w l).border = l.border from rfl]
  split
  · rfl
  · cases hm : sample l.border with
    | thrown e => rfl
    | ub => rfl
    | ok m =>
      simp only [Out.ok_bind]
      split
      · rename_i hc
        obtain ⟨h1, h2⟩ := h m hm hc
        rw [height_lift hd, brick_height_lift hd w b m h2, h1, map_then]
        congr 1
        funext z
        rw [map_then]
        congr 1
        funext x
        simp [times]
      · rfl

theorem carve_lift (hd : ∀ x, C.toDouble x = x) (w : K) (l r : FacePrint K) (qs : List (Pwh K)) : ∀ sl sr,
    Brick.carve C (Lift.face w l) (Lift.face w r) qs sl sr = Brick.carve C l r qs sl sr := by
  induction qs with
  | nil => intro sl sr; rfl
  | cons q qs ih =>
    intro sl sr
    simp only [Brick.carve]
    congr 1
    funext p
    rw [planeHeight_lift hd, planeHeight_lift hd, map_then]
    congr 1
    funext zl
    rw [map_then]
    congr 1
    funext zr
    simp only [gt_iff_lt, add_lt_add_iff_right, ih]

theorem occludeOne_lift (hd : ∀ x, C.toDouble x = x) (w : K) (l r : FacePrint K) : Brick.occludeOne C (Lift.face w l) (Lift.face w r) =
    (fun t => (t.1.map (Lift.face w), t.2.map (Lift.face w))) <$> Brick.occludeOne C l r := by
  have hu : ∀ s i pl, unpack C [] s i (Lift.plane w pl) = (unpack C [] s i pl).map (Lift.face w) := by
    intro s i pl
    simp only [unpack, List.nil_append, List.map_map]
    rfl
  unfold Brick.occludeOne
  rw [show (Lift.face w l).border = l.border from rfl, show (Lift.face w r).border = r.border from rfl]
  split
  · rfl
  · rw [carve_lift hd, then_map]
    congr 1
    funext t
    rw [Out.map_ok, show (Lift.face w l).plane = Lift.plane w l.plane from rfl, show (Lift.face w r).plane = Lift.plane w r.plane from rfl, hu, hu]
    rfl

theorem mapM_lift {α β : Type} (f : α → Out β) (f' : α → Out β) (g : α → α) (h : β → β) (hf : ∀ a, f' (g a) = h <$> f a) (l : List α) :
    Out.mapM f' (l.map g) = List.map h <$> Out.mapM f l := by
  induction l with
  | nil => rfl
  | cons a l ih =>
    rw [List.map_cons, Out.mapM_cons, Out.mapM_cons, hf, ih, map_then, then_map]
    congr 1
    funext b
    rw [map_then, then_map]
    rfl

theorem occlusion_lift (hd : ∀ x, C.toDouble x = x) (w : K) (fs : List (FacePrint K)) (l : FacePrint K) :
    Brick.occlusion C (fs.map (Lift.face w)) (Lift.face w l) = (fun t => (t.1.map (Lift.face w), t.2.map (Lift.face w))) <$> Brick.occlusion C fs l := by
  unfold Brick.occlusion
  rw [List.filter_map, show Brick.keep C ∘ Lift.face w = Brick.keep C from rfl,
    mapM_lift (Brick.occludeOne C l) _ (Lift.face w) _ (occludeOne_lift hd w l), map_then, then_map]
  congr 1
  funext t
  simp only [Out.map_ok, List.flatMap_map, List.map_flatMap]

theorem addLoop_lift (hd : ∀ x, C.toDouble x = x) (w : K) (rs : List (FacePrint K)) : ∀ lf,
    Brick.addLoop C (lf.map (Lift.face w)) (rs.map (Lift.face w)) = (fun t => (t.1.map (Lift.face w), t.2.map (Lift.face w))) <$> Brick.addLoop C lf rs := by
  induction rs with
  | nil => intro lf; rfl
  | cons r rs ih =>
    intro lf
    simp only [List.map_cons, Brick.addLoop]
    rw [occlusion_lift hd, map_then, then_map]
    congr 1
    funext t
    simp only
    rw [ih, map_then, then_map]
    congr 1
    funext u
    simp only [Out.map_ok, List.map_append]

theorem addFace_lift (hd : ∀ x, C.toDouble x = x) (w : K) (b : Brick K) (l : FacePrint K) (h : Clear C b l) :
    Brick.addFace C (Lift.brick w b) (Lift.face w l) = Lift.brick w <$> Brick.addFace C b l := by
  have ho : Brick.overlaps C (Lift.brick w b) l.border = Brick.overlaps C b l.border := by
    unfold Brick.overlaps
    rw [show (Lift.brick w b).faces = b.faces.map (Lift.face w) from rfl, joinAll_lift]
  unfold Brick.addFace
  rw [show (Lift.brick w b).faces = b.faces.map (Lift.face w) from rfl, List.isEmpty_map, show (Lift.face w l).border = l.border from rfl, ho,
    isUnder_lift hd w b l h]
  split
  · rfl
  · split
    · rw [Out.map_ok]
      simp only [Lift.brick, List.map_append, List.map_cons, List.map_nil]
      rfl
    · rw [then_map]
      congr 1
      funext u
      cases u
      · simp only [Bool.false_eq_true, if_false]
        rw [show [Lift.face w l] = [l].map (Lift.face w) from rfl, addLoop_lift hd, map_then, then_map]
        congr 1
        funext t
        rw [Out.map_ok]
        simp only [Lift.brick, List.map_append]
        rfl
      · rfl

/-- C105: a brick print built of raised faces is the raised brick print, if every insertion is clear. -/
theorem C105_build_partial (hd : ∀ x, C.toDouble x = x) (w : K) (fs : List (FacePrint K)) : ∀ b : Brick K, ClearAll C fs b →
    build C (fs.map (Lift.face w)) (Lift.brick w b) = Lift.brick w <$> build C fs b := by
  induction fs with
  | nil => intro b _; rfl
  | cons f fs ih =>
    intro b h
    simp only [List.map_cons, build]
    rw [addFace_lift hd w b f h.1]
    cases hb : Brick.addFace C b f with
    | ok b' => exact ih b' (h.2 b' hb)
    | thrown e => rfl
    | ub => rfl

variable [FloorRing K]

theorem reported_lift (hd : ∀ x, C.toDouble x = x) (w : K) (f : FacePrint K) (left top p : K) (i j : Nat) :
    reported C left top p i j (Lift.face w f) = (reported C left top p i j f).map (· + w) := by
  unfold reported
  rw [show (Lift.face w f).bbox = f.bbox from rfl, degenerate_lift]
  cases f.bbox with
  | none => rfl
  | some b =>
    simp only [pixelHeight_lift hd]
    split
    · rfl
    · split
      · cases FacePrint.pixelHeight C f _ _ p with
        | ok z => rfl
        | thrown e => rfl
        | ub => rfl
      · rfl

theorem seen_lift (hd : ∀ x, C.toDouble x = x) (w : K) (fs : List (FacePrint K)) (left top p : K) (i j : Nat) :
    seen C left top p i j (fs.map (Lift.face w)) = (seen C left top p i j fs).map (· + w) := by
  unfold seen
  rw [List.filterMap_map, List.map_filterMap]
  congr 1
  funext f
  exact reported_lift hd w f left top p i j

theorem mean_lift (w : K) (zs : List K) (h : zs ≠ []) : mean (zs.map (· + w)) = mean zs + w := by
  have hs : ∀ l : List K, (l.map (· + w)).sum = l.sum + l.length * w := by
    intro l
    induction l with
    | nil => simp
    | cons a t ih => simp only [List.map_cons, List.sum_cons, ih, List.length_cons]; push_cast; ring
  have hn : (zs.length : K) ≠ 0 := by
    rw [Nat.cast_ne_zero]
    simpa using h
  unfold mean
  rw [hs, List.length_map]
  field_simp

/-- Two images of the same size with the same values in all the cells are the same. -/
theorem raster_ext {r s : Raster K} (h0 : r.name = s.name ∧ r.ref = s.ref ∧ r.epsg = s.epsg ∧ r.height = s.height ∧ r.width = s.width ∧ r.pixel = s.pixel ∧
    r.offset = s.offset) (h1 : r.image.length = r.height * r.width) (h2 : r.hits.length = r.height * r.width) (h3 : s.image.length = s.height * s.width)
    (h4 : s.hits.length = s.height * s.width)
    (h : ∀ i < r.height, ∀ j < r.width, r.at' i j = s.at' i j ∧ r.hit i j = s.hit i j) : r = s := by
  rcases r with ⟨n, rf, e, H, W, p, im, hi, o⟩
  rcases s with ⟨n', rf', e', H', W', p', im', hi', o'⟩
  obtain ⟨rfl, rfl, rfl, rfl, rfl, rfl, rfl⟩ := h0
  have key : ∀ k, k < H * W → im[k]? = im'[k]? ∧ hi[k]? = hi'[k]? := by
    intro k hk
    have hW : 0 < W := by rcases Nat.eq_zero_or_pos W with rfl | h; simp at hk; exact h
    have hi0 : k / W < H := Nat.div_lt_of_lt_mul (by rw [Nat.mul_comm]; exact hk)
    have hj0 : k % W < W := Nat.mod_lt _ hW
    have hk' : k / W * W + k % W = k := by rw [Nat.mul_comm]; exact Nat.div_add_mod k W
    obtain ⟨a, b⟩ := h (k / W) hi0 (k % W) hj0
    simp only [Raster.at', Raster.hit, hk'] at a b
    rw [if_neg (fun hc => by exact absurd hc.1 (by simpa using hi0.le)), if_neg (fun hc => by exact absurd hc.1 (by simpa using hi0.le))] at a b
    obtain ⟨x, hx⟩ := getElem?_of_lt (l := im) (k := k) (by simpa [h1] using hk)
    obtain ⟨y, hy⟩ := getElem?_of_lt (l := hi) (k := k) (by simpa [h2] using hk)
    rw [Out.atOr_eq_ok.2 hx] at a
    rw [Out.atOr_eq_ok.2 hy] at b
    exact ⟨by rw [hx, Out.atOr_eq_ok.1 a.symm], by rw [hy, Out.atOr_eq_ok.1 b.symm]⟩
  have e1 : im = im' := by
    refine List.ext_getElem? fun k => ?_
    by_cases hk : k < H * W
    · exact (key k hk).1
    · rw [List.getElem?_eq_none (by simpa [h1] using hk), List.getElem?_eq_none (by simpa [h3] using hk)]
  have e2 : hi = hi' := by
    refine List.ext_getElem? fun k => ?_
    by_cases hk : k < H * W
    · exact (key k hk).2
    · rw [List.getElem?_eq_none (by simpa [h2] using hk), List.getElem?_eq_none (by simpa [h4] using hk)]
  rw [e1, e2]

/-- C105, the part that holds for every footprint: with exact doubles and the counts read before they are increased, the elevation map of a footprint whose faces are in its
box does not depend on the height of the reference point, which it keeps, up to 32767 faces. -/
theorem C105_raster_partial (hd : ∀ x, C.toDouble x = x) (w : K) (fp : FootPrint K) (B : Box2 K) (hB : fp.brick.bbox = some B) (p : K) (hp : 0 < p)
    (hf : ∀ f ∈ fp.brick.faces, Paintable C p f ∧ ∀ v ∈ f.border.outer, InBox2 B v) (hpr : ProperBox B)
    (hs : ⌈(B.ymax - B.ymin) / p⌉ < 2 ^ 64 ∧ ⌈(B.xmax - B.xmin) / p⌉ < 2 ^ 64) (hc : fp.brick.faces.length ≤ 32767) :
    ∃ r, Raster.ofFootPrint C true fp p = .ok r ∧ Raster.ofFootPrint C true (Lift.foot w fp) p = .ok { r with ref := Lift.ref w r.ref } := by
  obtain ⟨r, h1, h2, h3, h4, h5, h6, h7, h8, h9, h10, h11⟩ := C51_defined (C := C) fp B hB p hp hf hpr hs
  have hf' : ∀ f ∈ (Lift.foot w fp).brick.faces, Paintable C p f ∧ ∀ v ∈ f.border.outer, InBox2 B v := by
    intro f hf0
    obtain ⟨g, hg, rfl⟩ := List.mem_map.1 (show f ∈ fp.brick.faces.map (Lift.face w) from hf0)
    exact hf g hg
  obtain ⟨s, k1, k2, k3, k4, k5, k6, k7, k8, k9, k10, k11⟩ := C51_defined (C := C) (Lift.foot w fp) B hB p hp hf' hpr hs
  have eh : r.height = s.height := by have := h2.trans k2.symm; exact_mod_cast this
  have ew : r.width = s.width := by have := h3.trans k3.symm; exact_mod_cast this
  refine ⟨r, h1, ?_⟩
  rw [k1]
  congr 1
  refine raster_ext ⟨by rw [h7, k7]; rfl, ?_, by rw [h8, k8]; rfl, eh.symm, ew.symm, by rw [h6, k6], by rw [h10, k10]⟩ k4 k5 h4 h5 ?_
  · rw [h9, k9]; rfl
  · intro i hi j hj
    have hl : (seen C B.xmin B.ymax p i j fp.brick.faces).length ≤ 32767 := (List.length_filterMap_le _ _).trans hc
    obtain ⟨a1, a2⟩ := h11 i (by rw [eh]; exact hi) j (by rw [ew]; exact hj) _ rfl hl
    obtain ⟨b1, b2⟩ := k11 i hi j hj _ (seen_lift hd w fp.brick.faces B.xmin B.ymax p i j) (by rw [List.length_map]; exact hl)
    rw [show Raster.at' { r with ref := Lift.ref w r.ref } i j = r.at' i j from rfl, show Raster.hit { r with ref := Lift.ref w r.ref } i j = r.hit i j from rfl,
      a1, a2, b1, b2, List.length_map]
    refine ⟨?_, rfl⟩
    congr 1
    by_cases he : seen C B.xmin B.ymax p i j fp.brick.faces = []
    · rw [he]; rfl
    · rw [if_neg (by simpa using he), if_neg he, mean_lift w _ he]
      simp only [Lift.foot, Lift.ref]
      ring

variable {Ok : Pwh K → Prop} {Good : C.PSet → Prop} {Gen : V2 K → Prop}

/-- C105, the part that holds for buildings: the file with the elevation map of a building whose roofs do not overlap when seen from above does not depend on the height of the
reference point. Missing: roofs that overlap, inexact doubles, more than 32767 roofs. -/
theorem C105_map_partial (L : Lawful C Ok Good Gen) (w : K) (name : Text) (r : V3 K) (epsg : Nat) (facets : List (Facet K)) (p : K)
    (hp : 0 < p) (h : Roofed C Ok facets) (hno : NoOverlap C Gen (orthoprint C facets)) (hc : (orthoprint C facets).length ≤ 32767) :
    ∃ fp B, FootPrint.ofNode C name r epsg facets = .ok fp ∧ FootPrint.ofNode C name (Lift.ref w r) epsg (facets.map (Lift.facet w)) = .ok (Lift.foot w fp) ∧
      fp.brick.bbox = some B ∧
      (⌈(B.ymax - B.ymin) / p⌉ < 2 ^ 64 → ⌈(B.xmax - B.xmin) / p⌉ < 2 ^ 64 →
      ∃ a b, Raster.ofFootPrint C true fp p = .ok a ∧ Raster.ofFootPrint C true (Lift.foot w fp) p = .ok b ∧ a.hits = b.hits ∧ a.toGdal = b.toGdal) := by
  obtain ⟨fp, B, h1, h2, h3, h4, -⟩ := C51_node L name r epsg facets h.valid h.some_roof h.bounded
  obtain ⟨fp0, k1, k2, k3, k4, k5, -⟩ := C101_roofs L name r epsg facets h hno
  have e : fp0 = fp := by rw [h1] at k1; exact (Out.ok.inj k1).symm
  subst e
  have hw : Roofed C Ok (facets.map (Lift.facet w)) := by
    refine ⟨?_, ?_, h.bounded⟩
    · rw [orthoprint_lift]
      intro f hf
      obtain ⟨g, hg, rfl⟩ := List.mem_map.1 hf
      exact h.valid g hg
    · rw [orthoprint_lift]
      simpa using h.some_roof
  have hnw : NoOverlap C Gen (orthoprint C (facets.map (Lift.facet w))) := by
    rw [orthoprint_lift]
    unfold NoOverlap at hno ⊢
    rw [List.pairwise_map]
    exact hno
  obtain ⟨fp1, q1, q2, q3, q4, q5, -⟩ := C101_roofs L name (Lift.ref w r) epsg _ hw hnw
  have box : ∀ (fc : List (Facet K)) (rf : V3 K) (g : FootPrint K), (∀ f ∈ orthoprint C fc, ValidFace Ok f) → FootPrint.ofNode C name rf epsg fc = .ok g →
      g.brick.bbox = (orthoprint C fc).foldl (fun o f => Box2.union o (polyBox f.border.outer)) none := by
    intro fc rf g hv hg
    unfold FootPrint.ofNode at hg
    obtain ⟨b, hb, hg⟩ := Out.bind_eq_ok.1 hg
    cases hg
    rw [sumPrints_valid L _ _ hv (by simp [Brick.empty])] at hb
    exact C49_history C _ _ _ hb
  have eb : fp1.brick.bbox = fp0.brick.bbox := by
    rw [box _ _ _ (fun f hf => (hw.valid f hf).1) q1, box _ _ _ (fun f hf => (h.valid f hf).1) h1, orthoprint_lift, List.foldl_map]
    rfl
  have ef : fp1 = Lift.foot w fp0 := by
    rcases fp1 with ⟨n1, r1, e1, ⟨bb1, fs1⟩⟩
    rcases fp0 with ⟨n0, r0, e0, ⟨bb0, fs0⟩⟩
    simp only at q2 q3 q4 q5 k2 k3 k4 k5 eb
    subst q2 q3 q4 q5 k2 k3 k4 k5 eb
    simp only [Lift.foot, Lift.brick, orthoprint_lift]
  rw [ef] at q1
  refine ⟨fp0, B, h1, q1, h2, fun s1 s2 => ?_⟩
  have hr : Rasterable C Ok fp0 B p := ⟨h2, h3, hp, by rw [k5]; exact h.valid, fun f hf => (h4 f hf).2, h.bounded, ⟨s1, s2⟩, by rw [k5]; exact hc⟩
  obtain ⟨a, a1, a2⟩ := C105_raster_partial L.exact w fp0 B h2 p hp (hr.paintable L) h3 ⟨s1, s2⟩ hr.count
  exact ⟨a, _, a1, a2, rfl, rfl⟩

/-- C105, the part that holds for buildings with roofs one above the other: the same, if every insertion is clear. -/
theorem C105_overlap_partial (L : Lawful C Ok Good Gen) (w : K) (name : Text) (r : V3 K) (epsg : Nat) (facets : List (Facet K)) (p : K) (hp : 0 < p)
    (h : Roofed C Ok facets) (hcl : ClearAll C (orthoprint C facets) Brick.empty) :
    ∃ fp B, FootPrint.ofNode C name r epsg facets = .ok fp ∧ FootPrint.ofNode C name (Lift.ref w r) epsg (facets.map (Lift.facet w)) = .ok (Lift.foot w fp) ∧
      fp.brick.bbox = some B ∧
      (fp.brick.faces.length ≤ 32767 → ⌈(B.ymax - B.ymin) / p⌉ < 2 ^ 64 → ⌈(B.xmax - B.xmin) / p⌉ < 2 ^ 64 →
      ∃ a b, Raster.ofFootPrint C true fp p = .ok a ∧ Raster.ofFootPrint C true (Lift.foot w fp) p = .ok b ∧ a.hits = b.hits ∧ a.toGdal = b.toGdal) := by
  obtain ⟨fp, B, h1, h2, h3, h4, -⟩ := C51_node L name r epsg facets h.valid h.some_roof h.bounded
  have hv : ∀ f ∈ orthoprint C facets, ValidFace Ok f := fun f hf => (h.valid f hf).1
  have hv' : ∀ f ∈ orthoprint C (facets.map (Lift.facet w)), ValidFace Ok f := by
    rw [orthoprint_lift]
    intro f hf
    obtain ⟨g, hg, rfl⟩ := List.mem_map.1 hf
    exact hv g hg
  have q1 : FootPrint.ofNode C name (Lift.ref w r) epsg (facets.map (Lift.facet w)) = .ok (Lift.foot w fp) := by
    unfold FootPrint.ofNode at h1 ⊢
    obtain ⟨b, hb, hf⟩ := Out.bind_eq_ok.1 h1
    cases hf
    rw [sumPrints_valid L _ _ hv (by simp [Brick.empty])] at hb
    rw [sumPrints_valid L _ _ hv' (by simp [Brick.empty]), orthoprint_lift, show (Brick.empty : Brick K) = Lift.brick w Brick.empty from rfl,
      C105_build_partial L.exact w _ _ hcl, hb]
    rfl
  refine ⟨fp, B, h1, q1, h2, fun hc s1 s2 => ?_⟩
  have hcs : ∀ f ∈ fp.brick.faces, ValidFace Ok f ∧ eps ≤ |f.plane.c| := by
    obtain ⟨b, k1, k2, -⟩ := C44_no_new_ground L (orthoprint C facets) hv
    unfold FootPrint.ofNode at h1
    rw [sumPrints_valid L _ _ hv (by simp [Brick.empty]), k1] at h1
    cases h1
    intro f hf
    obtain ⟨k3, g, hg, -, k4, -⟩ := k2 f hf
    exact ⟨k3, by rw [k4]; exact (h.valid g hg).2⟩
  have hr : Rasterable C Ok fp B p := ⟨h2, h3, hp, hcs, fun f hf => (h4 f hf).2, h.bounded, ⟨s1, s2⟩, hc⟩
  obtain ⟨a, a1, a2⟩ := C105_raster_partial L.exact w fp B h2 p hp (hr.paintable L) h3 ⟨s1, s2⟩ hr.count
  exact ⟨a, _, a1, a2, rfl, rfl⟩

end
/-- C105 in full. -/
def C105_full : Prop := ∀ (C : Cgal ℚ) (Ok : Pwh ℚ → Prop) (Good : C.PSet → Prop) (Gen : V2 ℚ → Prop), Lawful C Ok Good Gen →
  ∀ (w : ℚ) (name : Text) (r : V3 ℚ) (epsg : Nat) (facets : List (Facet ℚ)) (p : ℚ), 0 < p → Roofed C Ok facets → (orthoprint C facets).length ≤ 32767 →
  (FootPrint.ofNode C name (Lift.ref w r) epsg (facets.map (Lift.facet w)) >>= fun fp => Raster.toGdal <$> Raster.ofFootPrint C true fp p) =
    (FootPrint.ofNode C name r epsg facets >>= fun fp => Raster.toGdal <$> Raster.ofFootPrint C true fp p)

/-- The facets of two flat roofs at 10 m, side by side, and of a terrace above them at 15 m. -/
def terraceFacets : List (Facet ℚ) := [⟨1, [⟨-1, -1, 10⟩, ⟨6, -1, 10⟩, ⟨6, 10, 10⟩, ⟨-1, 10, 10⟩]⟩, ⟨2, [⟨6, -1, 10⟩, ⟨10, -1, 10⟩, ⟨10, 10, 10⟩, ⟨6, 10, 10⟩]⟩,
  ⟨4, [⟨0, 0, 15⟩, ⟨9, 0, 15⟩, ⟨9, 9, 15⟩, ⟨0, 9, 15⟩]⟩]

/-- What is seen of them from above. -/
def terraceRoofs : List (FacePrint ℚ) := [⟨1, rect ⟨-1, -1, 6, 10⟩, ⟨0, 0, 77, -770⟩⟩, ⟨2, rect ⟨6, -1, 10, 10⟩, ⟨0, 0, 44, -440⟩⟩, ⟨4, rect ⟨0, 0, 9, 9⟩, ⟨0, 0, 81, -1215⟩⟩]

theorem terrace_prints : orthoprint rectCgal terraceFacets = terraceRoofs := by decide +kernel

theorem terrace_rects (f : FacePrint ℚ) (hf : f ∈ terraceRoofs) : ∃ (a b c d : ℤ), a < c ∧ b < d ∧ f.border = rect ⟨a, b, c, d⟩ ∧ 1 ≤ |f.plane.c| := by
  unfold terraceRoofs at hf
  simp only [List.mem_cons, List.not_mem_nil, or_false] at hf
  rcases hf with rfl | rfl | rfl
  · exact ⟨-1, -1, 6, 10, by decide, by decide, by norm_num, by norm_num⟩
  · exact ⟨6, -1, 10, 10, by decide, by decide, by norm_num, by norm_num⟩
  · exact ⟨0, 0, 9, 9, by decide, by decide, by norm_num, by norm_num⟩

theorem terrace_roofed : Roofed rectCgal RectOk terraceFacets where
  valid := by
    rw [terrace_prints]
    intro f hf
    obtain ⟨a, b, c, d, h1, h2, h3, h4⟩ := terrace_rects f hf
    refine ⟨⟨?_, fun h0 => ?_⟩, eps_le_one.trans ?_⟩
    · rw [h3]
      exact (slab_valid 1 a b c d 0 h1 h2).1
    · rw [h0, abs_zero] at h4
      norm_num at h4
    · simpa using h4
  some_roof := by rw [terrace_prints]; simp [terraceRoofs]
  bounded := rect_bounded

/-- C105 refuted: the terrace is not on the map when heights are given from the ground, and it is when they are given from the roofs: at the sample point of the terrace the heights
of both roofs are added. -/
theorem C105_refuted : ¬ C105_full := by
  intro h
  have h1 := h rectCgal RectOk RectGood RectGen rect_lawful (-10) [] ⟨0, 0, 0⟩ 2154 terraceFacets 11 (by norm_num) terrace_roofed (by rw [terrace_prints]; decide)
  have h2 := congrArg (fun o : Out (Raster.Dataset ℚ) => Raster.Dataset.band <$> o) h1
  revert h2
  decide +kernel

/-- C105: the other order of evaluation, in which a count is increased before it is read, makes the map of the shed depend on the height of the reference point. -/
theorem C105_refuted_order :
    (FootPrint.ofNode rectCgal [] ⟨100, 200, 50⟩ 2154 shedFacets >>= fun fp => Raster.image <$> Raster.ofFootPrint rectCgal false fp 2) = .ok [113 / 2, 0] ∧
    (FootPrint.ofNode rectCgal [] (Lift.ref 1 ⟨100, 200, 50⟩) 2154 (shedFacets.map (Lift.facet 1)) >>= fun fp => Raster.image <$> Raster.ofFootPrint rectCgal false fp 2) =
      .ok [57, 0] := by
  constructor <;> decide +kernel

/-- The hypotheses of C105 are met: by the shed and the house, -/
example : Roofed rectCgal RectOk shedFacets ∧ NoOverlap rectCgal RectGen (orthoprint rectCgal shedFacets) ∧ (orthoprint rectCgal shedFacets).length ≤ 32767 :=
  ⟨shed_roofed, shed_apart, by rw [shed_prints]; decide⟩

/-- and by the terrace over one roof. -/
example : ClearAll rectCgal [slab 1 (-1) (-1) 10 10 10, inside 15] Brick.empty := by
  refine ⟨?_, fun b hb => ⟨?_, fun _ _ => trivial⟩⟩
  · intro m _ hc
    exact absurd hc (by decide +kernel)
  · have e : b = Brick.ofFace (slab 1 (-1) (-1) 10 10 10) := by
      have : Brick.empty.addFace rectCgal (slab 1 (-1) (-1) 10 10 10) = .ok (Brick.ofFace (slab 1 (-1) (-1) 10 10 10)) := (C49_single _ _).1
      rw [this] at hb
      exact (Out.ok.inj hb).symm
    subst e
    intro m hm _
    have : sample (inside 15).border = .ok ⟨6, 3⟩ := by show Out.ok _ = _; norm_num
    rw [this] at hm
    cases hm
    decide +kernel

end City.Props
