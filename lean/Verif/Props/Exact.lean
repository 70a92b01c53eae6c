import Verif.Props.NodeBox
import Verif.Props.RasterAccess
import Verif.Props.NumDbl
/-!
C24, C42, C56, C61: conditions that are necessary and sufficient.
-/
set_option linter.unusedSectionVars false
namespace City.Props
open City City.Spec City.V3

section
variable {K : Type} [Field K] [LinearOrder K] [IsStrictOrderedRing K]

theorem ring_kept_iff (C : Cgal K) (hd : ∀ x, C.toDouble x = x) (r : V3 K) (p : Poly K) :
    ringFromOgr (ringToOgr C r p) = .ok (p.map (shift (ground r))) ↔ OpenRing p := by
  refine ⟨fun h => ?_, ring_round C hd r p⟩
  have hm : (p.map fun v => (⟨C.toDouble (v.x + r.x), C.toDouble (v.y + r.y)⟩ : V2 K)) = p.map (shift (ground r)) := by
    simp only [hd]
    rfl
  unfold ringToOgr at h
  rw [hm] at h
  cases p with
  | nil => cases h
  | cons v t =>
    by_contra hn
    have hl : ((v :: t).map (shift (ground r))).getLast? = some (shift (ground r) v) := by
      rw [List.getLast?_map]
      cases t with
      | nil => rfl
      | cons w t =>
        by_cases hw : (w :: t).getLast? = some v
        · rw [List.getLast?_cons_cons, hw]; rfl
        · exact absurd ⟨v, w :: t, rfl, by simp, hw⟩ hn
    have hc : closeRing ((v :: t).map (shift (ground r))) = (v :: t).map (shift (ground r)) := by
      show (if ((v :: t).map (shift (ground r))).getLast? = some (shift (ground r) v) then _ else _) = _
      rw [if_pos hl]
    rw [hc] at h
    unfold ringFromOgr at h
    rw [if_neg (by simp)] at h
    have := congrArg List.length (Out.ok.inj h)
    simp at this

theorem rings_kept_iff (C : Cgal K) (hd : ∀ x, C.toDouble x = x) (r : V3 K) : ∀ hs : List (Poly K),
    Out.mapM ringFromOgr (hs.map (ringToOgr C r)) = .ok (hs.map (List.map (shift (ground r)))) ↔ ∀ p ∈ hs, OpenRing p
  | [] => ⟨fun _ p h => absurd h (List.not_mem_nil), fun _ => rfl⟩
  | a :: hs => by
    rw [List.map_cons, Out.mapM_cons, List.map_cons]
    constructor
    · intro h
      obtain ⟨x, h1, h2⟩ := Out.bind_eq_ok.1 h
      obtain ⟨xs, h3, h4⟩ := Out.bind_eq_ok.1 h2
      have h5 := Out.ok.inj h4
      simp only [List.cons.injEq] at h5
      obtain ⟨rfl, rfl⟩ := h5
      intro p hp
      rcases List.mem_cons.1 hp with rfl | hp
      · exact (ring_kept_iff C hd r _).1 h1
      · exact (rings_kept_iff C hd r hs).1 h3 p hp
    · intro h
      rw [(ring_kept_iff C hd r a).2 (h a (by simp)), Out.ok_bind, (rings_kept_iff C hd r hs).2 fun p hp => h p (by simp [hp])]
      rfl

/-- C42, exactly: a face print that is exported with a reference point and imported is the translated one if and only if no ring is empty, a single vertex or closed by hand, and
`r.z + a r.x + b r.y + c r.z = 0`. -/
theorem C42_exact (C : Cgal K) (hd : ∀ x, C.toDouble x = x) (f : FacePrint K) (r : V3 K) :
    FacePrint.ofOgr (f.toOgr C r) =
      .ok ⟨f.id, ⟨f.border.outer.map (shift (ground r)), f.border.holes.map (List.map (shift (ground r)))⟩, movedPlane r f.plane⟩ ↔
    (∀ p ∈ f.border.outer :: f.border.holes, OpenRing p) ∧ r.z + f.plane.a * r.x + f.plane.b * r.y + f.plane.c * r.z = 0 := by
  constructor
  · intro h
    have hr : ∀ p ∈ f.border.outer :: f.border.holes, OpenRing p := by
      unfold FacePrint.ofOgr FacePrint.toOgr pwhToOgr at h
      simp only at h
      obtain ⟨hs, h1, h2⟩ := Out.bind_eq_ok.1 h
      obtain ⟨o, h3, h4⟩ := Out.bind_eq_ok.1 h2
      have h5 := Out.ok.inj h4
      simp only [FacePrint.mk.injEq, Pwh.mk.injEq] at h5
      obtain ⟨-, ⟨h6, h7⟩, -⟩ := h5
      subst h6 h7
      intro p hp
      rcases List.mem_cons.1 hp with rfl | hp
      · exact (ring_kept_iff C hd r _).1 h3
      · exact (rings_kept_iff C hd r _).1 h1 p hp
    refine ⟨hr, ?_⟩
    rw [C42_round_trip_partial C hd f r hr] at h
    have h5 := Out.ok.inj h
    simp only [FacePrint.mk.injEq, true_and, movedPlane, Plane.mk.injEq] at h5
    linarith
  · rintro ⟨hr, h0⟩
    rw [C42_round_trip_partial C hd f r hr]
    have : f.plane.d + r.z = f.plane.d - f.plane.a * r.x - f.plane.b * r.y - f.plane.c * r.z := by linarith
    rw [this]
    rfl

/-- C56, exactly: a raster print that is exported and imported under its name is the same if and only if its reference point lies at height 0, every pixel has the hit count 1, it has been offset, and its EPSG
code is the one that is read: that of the geographic system of the code written, in 16 bits, or 2154 if there is none. -/
theorem C56_exact [FloorRing K] (geog : Option Nat → Int) (r : Raster K) (hr : Raster.Wf r) :
    Raster.ofGdal geog r.name r.toGdal = .ok r ↔
      r.ref.z = 0 ∧ (∀ i < r.height, ∀ j < r.width, r.hit i j = .ok 1) ∧ r.offset = true ∧
      (if 0 < geog (some r.epsg) then (geog (some r.epsg)).toNat % 2 ^ 16 else 2154) = r.epsg := by
  have e : Raster.ofGdal geog r.name r.toGdal = .ok ⟨r.name, ⟨r.ref.x, r.ref.y, 0⟩, if geog (some r.epsg) > 0 then (geog (some r.epsg)).toNat % 2 ^ 16 else 2154, r.height, r.width,
      r.pixel, r.image, List.replicate (r.height * r.width) 1, true⟩ := by
    unfold Raster.ofGdal Raster.toGdal
    dsimp only
    rw [if_neg (by rw [add_neg_cancel, abs_zero]; exact not_lt.2 eps_pos'.le)]
  rw [e]
  obtain ⟨name, ⟨x, y, z⟩, epsg, h, w, pixel, image, hits, offset⟩ := r
  have hh : hits.length = h * w := hr.2
  simp only [Out.ok.injEq, Raster.mk.injEq, V3.mk.injEq, true_and, gt_iff_lt]
  constructor
  · rintro ⟨rfl, h1, h2, h3⟩
    refine ⟨rfl, fun i hi j hj => ?_, h3.symm, h1⟩
    have hk := key_lt hi hj
    unfold Raster.hit
    rw [if_neg (by show ¬ (i > h ∧ j > w); omega)]
    subst h2
    exact Out.atOr_eq_ok.2 (by simp [hk])
  · rintro ⟨rfl, h1, h2, h3⟩
    refine ⟨rfl, h3, ?_, h2.symm⟩
    refine (List.eq_replicate_iff.2 ⟨hh, fun a ha => ?_⟩).symm
    obtain ⟨k, hk, rfl⟩ := List.getElem_of_mem ha
    have hk' : k < h * w := hh ▸ hk
    have hw : 0 < w := Nat.pos_of_ne_zero (by rintro rfl; simp at hk')
    have hi : k / w < h := by rw [Nat.div_lt_iff_lt_mul hw]; exact hk'
    have := h1 (k / w) hi (k % w) (Nat.mod_lt _ hw)
    unfold Raster.hit at this
    rw [if_neg (by show ¬ (k / w > h ∧ k % w > w); omega)] at this
    have h4 := Out.atOr_eq_ok.1 this
    have h5 : k / w * w + k % w = k := by rw [Nat.mul_comm]; exact Nat.div_add_mod k w
    simp only [h5] at h4
    rw [List.getElem?_eq_getElem hk] at h4
    exact Option.some.inj h4

/-- C56: a raster which comes back as it was. -/
example : Raster.ofGdal (K := ℚ) (fun _ => -1) tile.name { tile with ref := ⟨100, 202, 0⟩, hits := [1, 1] }.toGdal = .ok { tile with ref := ⟨100, 202, 0⟩, hits := [1, 1] } :=
  (C56_exact (fun _ => -1) { tile with ref := ⟨100, 202, 0⟩, hits := [1, 1] } ⟨rfl, rfl⟩).2 ⟨rfl, by decide +kernel, rfl, rfl⟩

/-- C42: a triangle on a plane through the origin, moved along the plane. -/
example : FacePrint.ofOgr ((⟨7, ⟨[⟨0, 0⟩, ⟨1, 0⟩, ⟨0, 1⟩], []⟩, ⟨1, 0, -1, 0⟩⟩ : FacePrint ℚ).toOgr roughCgal ⟨0, 5, 0⟩) =
    .ok ⟨7, ⟨[⟨0, 5⟩, ⟨1, 5⟩, ⟨0, 6⟩], []⟩, ⟨1, 0, -1, 0⟩⟩ := by
  decide +kernel

/-- The bounds of numbers that are also the bounds of their multiples. -/
theorem bounds_scaled {A : Type} (ps : List A) (f : A → K) (s lo hi : K) (h1 : ∀ p ∈ ps, lo ≤ f p ∧ f p ≤ hi) (h2 : ∃ p ∈ ps, f p = lo) (h3 : ∃ p ∈ ps, f p = hi)
    (h4 : ∀ p ∈ ps, lo ≤ s * f p ∧ s * f p ≤ hi) (h5 : ∃ p ∈ ps, s * f p = lo) (h6 : ∃ p ∈ ps, s * f p = hi) : s = 1 ∨ (s = -1 ∧ lo = -hi) ∨ (lo = 0 ∧ hi = 0) := by
  obtain ⟨p2, m2, e2⟩ := h2
  obtain ⟨p3, m3, e3⟩ := h3
  obtain ⟨p5, m5, e5⟩ := h5
  obtain ⟨p6, m6, e6⟩ := h6
  rcases le_or_gt 0 s with hs | hs
  · have a1 := mul_le_mul_of_nonneg_left (h1 p5 m5).1 hs
    have a2 := (h4 p2 m2).1
    have a3 := mul_le_mul_of_nonneg_left (h1 p6 m6).2 hs
    have a4 := (h4 p3 m3).2
    rw [e2] at a2
    rw [e3] at a4
    have b1 : (s - 1) * lo = 0 := by linarith
    have b2 : (s - 1) * hi = 0 := by linarith
    rcases mul_eq_zero.1 b1 with h | h
    · exact Or.inl (by linarith)
    · rcases mul_eq_zero.1 b2 with h' | h'
      · exact Or.inl (by linarith)
      · exact Or.inr (Or.inr ⟨h, h'⟩)
  · have a1 := mul_le_mul_of_nonpos_left (h1 p6 m6).1 hs.le
    have a2 := (h4 p2 m2).2
    have a3 := mul_le_mul_of_nonpos_left (h1 p5 m5).2 hs.le
    have a4 := (h4 p3 m3).1
    rw [e2] at a2
    rw [e3] at a4
    have b1 : hi = s * lo := by linarith
    have b2 : lo = s * hi := by linarith
    have b3 : (s - 1) * ((s + 1) * lo) = 0 := by
      have : lo = s * (s * lo) := by rw [← b1]; exact b2
      linear_combination -this
    rcases mul_eq_zero.1 b3 with h | h
    · linarith
    · rcases mul_eq_zero.1 h with h | h
      · have hs1 : s = -1 := by linarith
        exact Or.inr (Or.inl ⟨hs1, by rw [b2, hs1]; ring⟩)
      · exact Or.inr (Or.inr ⟨h, by rw [b1, h, mul_zero]⟩)

/-- C61, exactly: after a scaling the box of a node is tight if and only if nothing was scaled, or all the points are the origin, or the box is symmetric about the origin and the points were reflected at it. -/
theorem C61_scale_iff (n : UNode K) (b : Box3 K) (hb : n.bbox = some b) (ht : SnugBox b n.surf.points) (s : K) :
    (∃ b', (n.scale s).bbox = some b' ∧ SnugBox b' (n.scale s).surf.points) ↔ s = 1 ∨ (s = -1 ∧ b.lo = neg b.hi) ∨ (b.lo = zero ∧ b.hi = zero) := by
  have hp : (n.scale s).surf.points = n.surf.points.map fun p => smul s p := by
    have := ((C60_maps_partial n).2.2 s)
    simp only [Surf.points, List.map_map, UNode.scale, UNode.affine, Surf.transform]
    apply List.map_congr_left
    intro w hw
    simp [hw, Aff.apply_scaling]
  have hb2 : (n.scale s).bbox = n.bbox := rfl
  rw [hb2, hb, hp]
  constructor
  · rintro ⟨b', h1, h2⟩
    cases h1
    have hin : ∀ p ∈ n.surf.points, b.lo.x ≤ s * p.x ∧ s * p.x ≤ b.hi.x ∧ b.lo.y ≤ s * p.y ∧ s * p.y ≤ b.hi.y ∧ b.lo.z ≤ s * p.z ∧ s * p.z ≤ b.hi.z :=
      fun p hp => h2.inside (smul s p) (List.mem_map_of_mem hp)
    have back : ∀ (f : V3 K → K) (c : K), (∀ p, f (smul s p) = s * f p) → (∃ q ∈ n.surf.points.map fun p => smul s p, f q = c) → ∃ p ∈ n.surf.points, s * f p = c := by
      rintro f c hf ⟨q, hq, h⟩
      obtain ⟨p, hp, rfl⟩ := List.mem_map.1 hq
      exact ⟨p, hp, (hf p).symm.trans h⟩
    have x := bounds_scaled n.surf.points (·.x) s b.lo.x b.hi.x (fun p h => ⟨(ht.inside p h).1, (ht.inside p h).2.1⟩) ht.xlo ht.xhi (fun p h => ⟨(hin p h).1, (hin p h).2.1⟩)
      (back _ _ (fun _ => rfl) h2.xlo) (back _ _ (fun _ => rfl) h2.xhi)
    have y := bounds_scaled n.surf.points (·.y) s b.lo.y b.hi.y (fun p h => ⟨(ht.inside p h).2.2.1, (ht.inside p h).2.2.2.1⟩) ht.ylo ht.yhi
      (fun p h => ⟨(hin p h).2.2.1, (hin p h).2.2.2.1⟩) (back _ _ (fun _ => rfl) h2.ylo) (back _ _ (fun _ => rfl) h2.yhi)
    have z := bounds_scaled n.surf.points (·.z) s b.lo.z b.hi.z (fun p h => (ht.inside p h).2.2.2.2) ht.zlo ht.zhi
      (fun p h => (hin p h).2.2.2.2) (back _ _ (fun _ => rfl) h2.zlo) (back _ _ (fun _ => rfl) h2.zhi)
    by_cases h1 : s = 1
    · exact Or.inl h1
    · by_cases h3 : s = -1
      · have opp : ∀ lo hi : K, (s = 1 ∨ (s = -1 ∧ lo = -hi) ∨ (lo = 0 ∧ hi = 0)) → lo = -hi := by
          rintro lo hi (h | ⟨-, h⟩ | ⟨h, h'⟩)
          · exact absurd h h1
          · exact h
          · rw [h, h', neg_zero]
        exact Or.inr (Or.inl ⟨h3, V3.ext (opp _ _ x) (opp _ _ y) (opp _ _ z)⟩)
      · have zer : ∀ lo hi : K, (s = 1 ∨ (s = -1 ∧ lo = -hi) ∨ (lo = 0 ∧ hi = 0)) → lo = 0 ∧ hi = 0 := by
          rintro lo hi (h | ⟨h, -⟩ | h)
          · exact absurd h h1
          · exact absurd h h3
          · exact h
        exact Or.inr (Or.inr ⟨V3.ext (zer _ _ x).1 (zer _ _ y).1 (zer _ _ z).1, V3.ext (zer _ _ x).2 (zer _ _ y).2 (zer _ _ z).2⟩)
  · intro h
    refine ⟨b, rfl, ?_⟩
    rcases h with rfl | ⟨rfl, h⟩ | ⟨h, h'⟩
    · have : (fun p : V3 K => smul 1 p) = _root_.id := by
        funext p
        simp [smul]
      rw [this, List.map_id]
      exact ht
    · have lx : b.lo.x = -b.hi.x := by rw [h]; rfl
      have ly : b.lo.y = -b.hi.y := by rw [h]; rfl
      have lz : b.lo.z = -b.hi.z := by rw [h]; rfl
      have make : ∀ (f : V3 K → K) (c d : K), (∀ p, f (smul (-1) p) = -1 * f p) → d = -c → (∃ p ∈ n.surf.points, f p = c) → ∃ q ∈ n.surf.points.map fun p => smul (-1) p, f q = d := by
        rintro f c d hf rfl ⟨p, hp, rfl⟩
        exact ⟨smul (-1) p, List.mem_map_of_mem hp, by rw [hf]; ring⟩
      refine ⟨?_, make (·.x) _ _ (fun _ => rfl) lx ht.xhi, make (·.x) _ _ (fun _ => rfl) (by rw [lx, neg_neg]) ht.xlo, make (·.y) _ _ (fun _ => rfl) ly ht.yhi,
        make (·.y) _ _ (fun _ => rfl) (by rw [ly, neg_neg]) ht.ylo, make (·.z) _ _ (fun _ => rfl) lz ht.zhi, make (·.z) _ _ (fun _ => rfl) (by rw [lz, neg_neg]) ht.zlo⟩
      intro q hq
      obtain ⟨p, hp, rfl⟩ := List.mem_map.1 hq
      obtain ⟨a1, a2, a3, a4, a5, a6⟩ := ht.inside p hp
      show b.lo.x ≤ -1 * p.x ∧ -1 * p.x ≤ b.hi.x ∧ b.lo.y ≤ -1 * p.y ∧ -1 * p.y ≤ b.hi.y ∧ b.lo.z ≤ -1 * p.z ∧ -1 * p.z ≤ b.hi.z
      refine ⟨?_, ?_, ?_, ?_, ?_, ?_⟩ <;> linarith
    · have all : n.surf.points.map (fun p => smul s p) = n.surf.points := by
        conv_rhs => rw [← List.map_id n.surf.points]
        apply List.map_congr_left
        intro p hp
        obtain ⟨a1, a2, a3, a4, a5, a6⟩ := ht.inside p hp
        rw [h, h'] at *
        have e : p = zero := V3.ext (le_antisymm a2 a1) (le_antisymm a4 a3) (le_antisymm a6 a5)
        rw [e]
        simp [smul, zero]
      rw [all]
      exact ht

end

/-- C61: a tetrahedron that is twice as large has not the box it is given; that of the tetrahedron itself is found. -/
example : ∃ b, (UNode.make [] ⟨0, 0, 0⟩ 2154 tetra).bbox = some b ∧ SnugBox b tetra.points ∧
    ¬ ∃ b', ((UNode.make [] ⟨0, 0, 0⟩ 2154 tetra).scale 2).bbox = some b' ∧ SnugBox b' ((UNode.make [] ⟨0, 0, 0⟩ 2154 tetra).scale 2).surf.points := by
  obtain ⟨b, h1, h2, -⟩ := C61_box_partial (K := ℚ) [] ⟨0, 0, 0⟩ 2154 tetra tetra_valid (by decide +kernel)
  refine ⟨b, h1, h2, fun h => ?_⟩
  rcases (C61_scale_iff _ b h1 h2 2).1 h with h | ⟨h, -⟩ | ⟨h, h'⟩
  · norm_num at h
  · norm_num at h
  · have e : Box3.ofPoints tetra.points = some b := h1
    have k : Box3.ofPoints tetra.points ≠ some ⟨zero, zero⟩ := by decide +kernel
    apply k
    rw [e]
    obtain ⟨lo, hi⟩ := b
    cases h
    cases h'
    rfl

/-- C24, exactly: meshes that were read from an OBJ text are unchanged by writing them and reading them again if and only if every coordinate is what is read from its own printed text. -/
theorem C24_exact (rnd : ℚ → ℚ) (hr : ∀ n : ℕ, n ≤ 2 ^ 53 → rnd n = n) (t : Text) (ms : List Mesh)
    (h : Obj.read rnd t = .ok ms) (hne : ms ≠ []) (hs : (ms.flatMap (·.points)).length ≤ 2 ^ 53) (hf : ∀ m ∈ ms, ∀ p ∈ m.points, FinitePoint p) :
    ∃ t', Obj.write ms = .ok t' ∧ (Obj.read rnd t' = .ok ms ↔ ∀ m ∈ ms, ∀ p ∈ m.points, ReadBack rnd p p) := by
  obtain ⟨hready, hsort, hcan⟩ := ready_of_read h hf hs
  obtain ⟨t', h1, h2⟩ := Obj.read_write hr hne hready
  rw [map_canon_sorted hsort fun m hm => (hcan m hm).1] at h2
  refine ⟨t', h1, ?_⟩
  rw [h2, Out.ok.injEq]
  constructor
  · intro he m hm p hp
    have e : ms.map (fun m => Mesh.make m.name (m.points.map (Off.readPt rnd)) m.faces) = ms.map _root_.id := by rw [List.map_id]; exact he
    have em := congrArg Mesh.points (List.map_inj_left.1 e m hm)
    simp only [Mesh.make, _root_.id] at em
    have e2 : m.points.map (Off.readPt rnd) = m.points.map _root_.id := by rw [List.map_id]; exact em
    have ep : Off.readPt rnd p = p := List.map_inj_left.1 e2 p hp
    have := readBack_readPt rnd (hf m hm p hp)
    rwa [ep] at this
  · intro hb
    conv_rhs => rw [← List.map_id ms]
    apply List.map_congr_left
    intro m hm
    have : m.points.map (Off.readPt rnd) = m.points := by
      conv_rhs => rw [← List.map_id m.points]
      apply List.map_congr_left
      intro p hp
      obtain ⟨a1, a2, a3⟩ := readBack_readPt rnd (hf m hm p hp)
      obtain ⟨b1, b2, b3⟩ := hb m hm p hp
      rw [a1] at b1
      rw [a2] at b2
      rw [a3] at b3
      exact V3.ext (List.cons.inj b1).1 (List.cons.inj b2).1 (List.cons.inj b3).1
    rw [this]
    have hb := (hcan m hm).2
    cases m
    simp only [Mesh.make, _root_.id] at *
    rw [hb]

end City.Props
