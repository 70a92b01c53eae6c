import Verif.Props.CommandLine

/-! C112: every building gets its files. -/

namespace City.Spec
open City
section
variable {K : Type} [Field K] [LinearOrder K]

/-- The shadow of the face is a valid polygon for the library, and the triangle of three corners in a row is a line when it is seen from above, or has a
shadow that is not too small. Nothing is said about flatness, straight angles, or other faces. -/
structure CastsShadow (C : Cgal K) (Ok : Pwh K → Prop) (l : List (V3 K)) : Prop where
  simple : ∀ r, ShadowRing l r → C.simple r = true
  ok : ∀ r, ShadowRing l r → 0 ≤ shoelace r → Ok ⟨r, []⟩
  gentle : ∀ a b c t, (a :: b :: c :: t) ~r l.map ground → InLine a b c ∨ FacePrint.eps ≤ |(b.x - a.x) * (c.y - a.y) - (b.y - a.y) * (c.x - a.x)|

/-- The face has no straight angle when it is seen from above. -/
def Sharp (l : List (V3 K)) : Prop := ∀ a b c t, (a :: b :: c :: t) ~r l.map ground → ¬ InLine a b c

/-- The box contains the shadows of the faces that are not vertical. -/
def Holds (faces : List (List (V3 K))) (B : Box2 K) : Prop :=
  ∀ l ∈ faces, ¬ SeenAsLine l → ∀ v ∈ l, B.xmin ≤ v.x ∧ v.x ≤ B.xmax ∧ B.ymin ≤ v.y ∧ v.y ≤ B.ymax

variable [FloorRing K]

/-- A building whose picture should be possible: its faces form an oriented surface; each is vertical or casts a shadow; at least one is not vertical; the
image is not too large. -/
structure HasRoof (C : Cgal K) (Ok : Pwh K → Prop) (emb : V3 ℚ → V3 K) (p : K) (m : Mesh) : Prop where
  surface : PolygonMesh (m.points.map emb) (m.faces.map Face.points)
  faces : ∀ l ∈ faceShapes (m.points.map emb) (m.faces.map Face.points), SeenAsLine l ∨ CastsShadow C Ok l
  roof : ∃ l ∈ faceShapes (m.points.map emb) (m.faces.map Face.points), ¬ SeenAsLine l
  fits : ∃ B, Holds (faceShapes (m.points.map emb) (m.faces.map Face.points)) B ∧ ⌈(B.ymax - B.ymin) / p⌉ < 2 ^ 64 ∧ ⌈(B.xmax - B.xmin) / p⌉ < 2 ^ 64

/-- One of its faces that are not vertical has no straight angle. -/
def HasSharpRoof (emb : V3 ℚ → V3 K) (m : Mesh) : Prop := ∃ l ∈ faceShapes (m.points.map emb) (m.faces.map Face.points), ¬ SeenAsLine l ∧ Sharp l

/-- The footprint has a face and the image is complete, of the demanded pixel size, not empty, and not outside of the building. -/
structure Pictured (emb : V3 ℚ → V3 K) (ref : V3 ℚ) (p : K) (m : Mesh) (fp : FootPrint K) (r : Raster K) : Prop where
  drawn : fp.brick.faces ≠ []
  pixel : r.pixel = p
  some_pixel : 0 < r.width ∧ 0 < r.height
  complete : r.image.length = r.height * r.width ∧ r.hits.length = r.height * r.width
  inside : ∀ B, Holds (faceShapes (m.points.map emb) (m.faces.map Face.points)) B →
    (emb ref).x + B.xmin ≤ r.ref.x ∧ r.ref.y ≤ (emb ref).y + B.ymax ∧ r.ref.z = (emb ref).z ∧
    (r.width : ℤ) ≤ ⌈(B.xmax - B.xmin) / p⌉ ∧ (r.height : ℤ) ≤ ⌈(B.ymax - B.ymin) / p⌉

end
end City.Spec

namespace City.Props
open City City.Spec City.FacePrint City.Brick

set_option linter.unusedSectionVars false

section
variable {K : Type} [Field K] [LinearOrder K] [IsStrictOrderedRing K] [FloorRing K]
variable {C : Cgal K} {Ok : Pwh K → Prop} {Good : C.PSet → Prop} {Gen : V2 K → Prop}

theorem casts_reverse {l : List (V3 K)} (h : CastsShadow C Ok l) : CastsShadow C Ok l.reverse where
  simple := fun r hr => h.simple r ((ring_reverse l r).1 hr)
  ok := fun r hr => h.ok r ((ring_reverse l r).1 hr)
  gentle := by
    intro a b c t hr
    rcases h.gentle c b a t.reverse (triple_reverse hr) with k | k
    · left
      unfold InLine at k ⊢
      linear_combination -k
    · right
      rw [← abs_neg]
      convert k using 2
      ring

theorem sharp_reverse {l : List (V3 K)} (h : Sharp l) : Sharp l.reverse := by
  intro a b c t hr k
  refine h c b a t.reverse (triple_reverse hr) ?_
  unfold InLine at k ⊢
  linear_combination -k

/-- The print of a face that casts a shadow: it is drawn, or its first three corners are in line. -/
theorem casts_print (L : Lawful C Ok Good Gen) {l : List (V3 K)} (P : CastsShadow C Ok l) (hl : 3 ≤ l.length) {fc : Facet K} (h : fc.pts ~r l) :
    ((FacePrint.ofFacet C fc).plane.c ≠ 0 → ValidFace Ok (FacePrint.ofFacet C fc) ∧ eps ≤ |(FacePrint.ofFacet C fc).plane.c|) ∧
      (Sharp l → (FacePrint.ofFacet C fc).plane.c ≠ 0) := by
  have hlen : 3 ≤ fc.pts.length := by rw [h.perm.length_eq]; exact hl
  obtain ⟨p, q, r, t, hf⟩ : ∃ p q r t, fc.pts = p :: q :: r :: t := by
    match hf : fc.pts, hlen with
    | p :: q :: r :: t, _ => exact ⟨p, q, r, t, rfl⟩
  have hc : (FacePrint.ofFacet C fc).plane = planeThrough p q r := by simp [FacePrint.ofFacet, trace, hf]
  have hrot : (ground p :: ground q :: ground r :: t.map ground) ~r l.map ground := by
    have := h.map ground
    rwa [hf] at this
  have e : (planeThrough p q r).c = ((ground q).x - (ground p).x) * ((ground r).y - (ground p).y) - ((ground q).y - (ground p).y) * ((ground r).x - (ground p).x) := by
    unfold planeThrough ground
    simp only
    ring
  have hborder : (FacePrint.ofFacet C fc).border = ⟨(FacePrint.ofFacet C fc).border.outer, []⟩ := by rw [← (C38_border C fc).2.1]
  constructor
  · intro h0
    refine ⟨⟨?_, h0⟩, ?_⟩
    · rw [hborder]
      exact P.ok _ (ring_of_print C h) ((C38_border C fc).2.2.2.1 (P.simple _ (.inl (h.map _))))
    · rcases P.gentle _ _ _ _ hrot with k | k
      · exfalso
        apply h0
        rw [hc, e]
        exact k
      · rw [hc, e]
        exact k
  · intro hs h0
    refine hs _ _ _ _ hrot ?_
    rw [hc, e] at h0
    exact h0

/-- What is drawn: only faces that are not vertical, and every one of them without a straight angle. -/
theorem casts_prints (L : Lawful C Ok Good Gen) {fcs : List (Facet K)} {faces : List (List (V3 K))}
    (h : List.Forall₂ (fun fc l => fc.pts ~r l ∧ 3 ≤ l.length) fcs faces) (hf : ∀ l ∈ faces, SeenAsLine l ∨ CastsShadow C Ok l) :
    (∀ f ∈ orthoprint C fcs, (ValidFace Ok f ∧ eps ≤ |f.plane.c|) ∧ ∃ l ∈ faces, ¬ SeenAsLine l ∧ ShadowRing l f.border.outer) ∧
      ∀ l ∈ faces, ¬ SeenAsLine l → Sharp l → orthoprint C fcs ≠ [] := by
  constructor
  · intro f hm
    unfold orthoprint at hm
    obtain ⟨hm, hk⟩ := List.mem_filter.1 hm
    obtain ⟨fc, hfc, rfl⟩ := List.mem_map.1 hm
    obtain ⟨l, hl, h1, h2⟩ := forall₂_mem_left h fc hfc
    rw [Bool.not_eq_true', Bool.or_eq_false_iff] at hk
    have hn : ¬ SeenAsLine l := fun k => by
      rw [wall_print k h1] at hk
      exact absurd hk.2 (by simp)
    have h0 : (FacePrint.ofFacet C fc).plane.c ≠ 0 := by
      have := hk.2
      unfold FacePrint.isDegenerate FacePrint.isPerpendicular at this
      rw [Bool.or_eq_false_iff] at this
      simpa using this.1
    have P := (hf l hl).resolve_left hn
    exact ⟨(casts_print L P h2 h1).1 h0, l, hl, hn, ring_of_print C h1⟩
  · intro l hl hn hs
    obtain ⟨fc, hfc, h1, h2⟩ := forall₂_mem_right h l hl
    have P := (hf l hl).resolve_left hn
    obtain ⟨k1, k2⟩ := casts_print L P h2 h1
    have hv := (k1 (k2 hs)).1
    refine List.ne_nil_of_mem (a := FacePrint.ofFacet C fc) ?_
    unfold orthoprint
    refine List.mem_filter.2 ⟨List.mem_map_of_mem hfc, ?_⟩
    rw [notDegenerate L hv, Bool.or_false, Bool.not_eq_true']
    have h3 := L.three _ hv.1
    unfold FacePrint.isEmpty
    cases e : (FacePrint.ofFacet C fc).border.outer with
    | nil => rw [e] at h3; simp at h3
    | cons a b => rfl

/-- The prints of the node of a mesh. -/
theorem roof_prints (L : Lawful C Ok Good Gen) {lib : SoupLib K} (hL : SoupLaw lib) (emb : V3 ℚ → V3 K) (m : Mesh) (ref : V3 ℚ) (epsg : Nat) {p : K}
    (h : HasRoof C Ok emb p m) :
    ∃ n fcs, UNode.ofMesh lib emb m ref epsg = .ok n ∧ n.name = m.name ∧ n.ref = ref ∧ n.epsg = epsg ∧ n.surf.facets = .ok fcs ∧
      (∀ f ∈ orthoprint C fcs, (ValidFace Ok f ∧ eps ≤ |f.plane.c|) ∧
        ∃ l ∈ faceShapes (m.points.map emb) (m.faces.map Face.points), ¬ SeenAsLine l ∧ ShadowRing l f.border.outer) ∧
      (HasSharpRoof emb m → orthoprint C fcs ≠ []) := by
  obtain ⟨n, S, h1, h2, h3, h4, R, h5, h6, -⟩ := C73_node hL m ref epsg h.surface
  by_cases hc : ClosedSurf S ∧ lib.outward S = false
  · have R' := (h5 hc).1
    rw [show (m.faces.map fun f => f.points.reverse) = (m.faces.map Face.points).map List.reverse by rw [List.map_map]; rfl] at R'
    obtain ⟨fcs, k1, k2⟩ := C106_facets R'
    obtain ⟨k3, k4⟩ := casts_prints L k2 (by
      rw [shapes_reverse]
      simp only [List.forall_mem_map, line_reverse]
      exact fun l hl => (h.faces l hl).imp_right casts_reverse)
    rw [shapes_reverse] at k3 k4
    refine ⟨n, fcs, h1, h2, h3, h4, k1, fun f hf => ⟨(k3 f hf).1, ?_⟩, ?_⟩
    · obtain ⟨l, hl, a, b⟩ := (k3 f hf).2
      obtain ⟨l', hl', rfl⟩ := List.mem_map.1 hl
      exact ⟨l', hl', fun k => a ((line_reverse l').2 k), (ring_reverse l' _).1 b⟩
    · rintro ⟨l, hl, a, b⟩
      exact k4 l.reverse (List.mem_map_of_mem hl) (fun k => a ((line_reverse l).1 k)) (sharp_reverse b)
  · rw [← h6 hc] at R
    obtain ⟨fcs, k1, k2⟩ := C106_facets R
    obtain ⟨k3, k4⟩ := casts_prints L k2 h.faces
    exact ⟨n, fcs, h1, h2, h3, h4, k1, k3, fun ⟨l, hl, a, b⟩ => k4 l hl a b⟩

/-- C112, the part that holds, for a mesh: the footprint and the image of a building can be made, and are those of `Pictured`, if one of the faces that are
not vertical has no straight angle; and in any case, if the footprint has a face; the image is undefined if it has none. -/
theorem C112_mesh_partial (L : Lawful C Ok Good Gen) (hbd : ∀ q r, ∀ s ∈ C.inter q r, s.outer ≠ []) {lib : SoupLib K} (hL : SoupLaw lib)
    (emb : V3 ℚ → V3 K) (m : Mesh) (ref : V3 ℚ) (epsg : Nat) (p : K) (hp : 0 < p) (h : HasRoof C Ok emb p m) :
    ∃ n fp, UNode.ofMesh lib emb m ref epsg = .ok n ∧ FootPrint.ofUNode C emb n = .ok fp ∧ fp.name = m.name ∧ fp.epsg = epsg ∧
      (HasSharpRoof emb m → fp.brick.faces ≠ []) ∧ (fp.brick.faces = [] → Raster.ofFootPrint C true fp p = .ub) ∧
      (fp.brick.faces ≠ [] → ∃ r, Raster.ofFootPrint C true fp p = .ok r ∧ r.name = m.name ∧ r.epsg = epsg ∧ Pictured emb ref p m fp r) := by
  obtain ⟨n, fcs, h1, h2, h3, h4, h5, hpr, hsh⟩ := roof_prints L hL emb m ref epsg h
  have hfoot : ∀ x, FootPrint.ofNode C n.name (emb n.ref) n.epsg fcs = x → FootPrint.ofUNode C emb n = x := by
    rintro x rfl
    unfold FootPrint.ofUNode
    rw [h5, Out.ok_bind]
  by_cases hne : orthoprint C fcs = []
  · refine ⟨n, ⟨n.name, emb n.ref, n.epsg, Brick.empty⟩, h1, hfoot _ ?_, h2, h4, fun k => absurd hne (hsh k), fun _ => ?_, fun k => absurd rfl k⟩
    · unfold FootPrint.ofNode
      rw [hne]
      rfl
    · exact (C51_undefined C _).2 rfl p
  · have hval : ∀ f ∈ orthoprint C fcs, ValidFace Ok f ∧ eps ≤ |f.plane.c| := fun f hf => (hpr f hf).1
    obtain ⟨fp, b, f1, f2, f3, f4, f5⟩ := C51_node L n.name (emb n.ref) n.epsg fcs hval hne hbd
    have hb := f1
    unfold FootPrint.ofNode at hb
    rw [sumPrints_valid L _ _ (fun f hf => (hval f hf).1) (by simp [Brick.empty])] at hb
    obtain ⟨k, hb1, hb2⟩ := Out.bind_eq_ok.1 hb
    have hk : fp = ⟨n.name, emb n.ref, n.epsg, k⟩ := by cases hb2; rfl
    have hfaces : fp.brick.faces ≠ [] := by
      rw [hk]
      exact build_ne_nil L _ _ _ (fun f hf => (hval f hf).1) (by simp [Brick.empty]) (Or.inl hne) hb1
    have hbox : BoxAround ((orthoprint C fcs).flatMap fun f => f.border.outer) b := by
      have := obox_prints (orthoprint C fcs)
      have hh := C49_history C _ _ _ hb1
      rw [show k = fp.brick by rw [hk], f2, show (Brick.empty : Brick K).bbox = none from rfl] at hh
      rw [← hh] at this
      exact this
    have hcor : ∀ v ∈ (orthoprint C fcs).flatMap fun f => f.border.outer, ∃ l ∈ faceShapes (m.points.map emb) (m.faces.map Face.points), ¬ SeenAsLine l ∧ ∃ w ∈ l, ground w = v := by
      intro v hv
      obtain ⟨f, hf, hv⟩ := List.mem_flatMap.1 hv
      obtain ⟨l, hl, hn, hr⟩ := (hpr f hf).2
      exact ⟨l, hl, hn, (ring_mem hr v).1 hv⟩
    have hwide : b.xmin < b.xmax ∧ b.ymin < b.ymax := by
      obtain ⟨f, hf⟩ := List.exists_mem_of_ne_nil _ hne
      obtain ⟨l, hl, hn, hr⟩ := (hpr f hf).2
      have hin : ∀ w ∈ l, InBox2 b (ground w) := fun w hw => hbox.1 _ (List.mem_flatMap.2 ⟨f, hf, (ring_mem hr _).2 ⟨w, hw, rfl⟩⟩)
      constructor
      · by_contra k
        refine hn ⟨1, 0, -b.xmin, Or.inl one_ne_zero, fun v hv => ?_⟩
        have := hin v hv
        have e : v.x = b.xmin := le_antisymm (this.2.1.trans (not_lt.1 k)) this.1
        rw [e]; ring
      · by_contra k
        refine hn ⟨0, 1, -b.ymin, Or.inr one_ne_zero, fun v hv => ?_⟩
        have := hin v hv
        have e : v.y = b.ymin := le_antisymm (this.2.2.2.trans (not_lt.1 k)) this.2.2.1
        rw [e]; ring
    have hsub : ∀ B, Holds (faceShapes (m.points.map emb) (m.faces.map Face.points)) B → B.xmin ≤ b.xmin ∧ b.xmax ≤ B.xmax ∧ B.ymin ≤ b.ymin ∧ b.ymax ≤ B.ymax := by
      intro B hB
      obtain ⟨-, ⟨v1, i1, e1⟩, ⟨v2, i2, e2⟩, ⟨v3, i3, e3⟩, v4, i4, e4⟩ := hbox
      have on : ∀ v ∈ (orthoprint C fcs).flatMap fun f => f.border.outer, B.xmin ≤ v.x ∧ v.x ≤ B.xmax ∧ B.ymin ≤ v.y ∧ v.y ≤ B.ymax := by
        intro v hv
        obtain ⟨l, hl, hn, w, hw, rfl⟩ := hcor v hv
        exact hB l hl hn w hw
      exact ⟨e1 ▸ (on v1 i1).1, e2 ▸ (on v2 i2).2.1, e3 ▸ (on v3 i3).2.2.1, e4 ▸ (on v4 i4).2.2.2⟩
    have hle : ∀ B, Holds (faceShapes (m.points.map emb) (m.faces.map Face.points)) B →
        ⌈(b.ymax - b.ymin) / p⌉ ≤ ⌈(B.ymax - B.ymin) / p⌉ ∧ ⌈(b.xmax - b.xmin) / p⌉ ≤ ⌈(B.xmax - B.xmin) / p⌉ := by
      intro B hB
      obtain ⟨a1, a2, a3, a4⟩ := hsub B hB
      exact ⟨Int.ceil_mono (div_le_div_of_nonneg_right (by linarith) hp.le), Int.ceil_mono (div_le_div_of_nonneg_right (by linarith) hp.le)⟩
    obtain ⟨B0, hB0, s1, s2⟩ := h.fits
    have t1 := (hle B0 hB0).1.trans_lt s1
    have t2 := (hle B0 hB0).2.trans_lt s2
    have hpaint : ∀ f ∈ fp.brick.faces, Paintable C p f ∧ ∀ v ∈ f.border.outer, InBox2 b v := by
      intro f hf
      obtain ⟨c, c1, c2, c3⟩ := build_spec L (orthoprint C fcs) Brick.empty [] (fun f hf => (hval f hf).1) (by simp [Brick.empty]) (by simp [Brick.empty])
      rw [hb1] at c1
      cases Out.ok.inj c1
      rw [hk] at hf
      obtain ⟨g, hg, hpg⟩ := c3 f hf
      rw [List.nil_append] at hg
      refine ⟨Or.inr ⟨?_, ?_, fun x y q hq => hbd _ _ q hq⟩, (f4 f (by rw [hk]; exact hf)).2⟩
      · intro hnil
        have := L.three _ (c2 f hf).1
        rw [hnil] at this
        simp at this
      · rw [L.exact, hpg.2.1]
        exact (hval g hg).2
    obtain ⟨r, r1, r2, r3, r4, r5, r6, r7, r8, r9, -⟩ := C51_defined (C := C) fp b f2 p hp hpaint f3 ⟨t1, t2⟩
    refine ⟨n, fp, h1, hfoot _ f1, by rw [hk]; exact h2, by rw [hk]; exact h4, fun _ => hfaces, fun e => absurd e hfaces, fun _ => ⟨r, r1, by rw [r7, hk]; exact h2, by rw [r8, hk]; exact h4, hfaces, r6, ⟨?_, ?_⟩, ⟨r4, r5⟩, fun B hB => ?_⟩⟩
    · have : 0 < ⌈(b.xmax - b.xmin) / p⌉ := Int.ceil_pos.2 (div_pos (sub_pos.2 hwide.1) hp)
      omega
    · have : 0 < ⌈(b.ymax - b.ymin) / p⌉ := Int.ceil_pos.2 (div_pos (sub_pos.2 hwide.2) hp)
      omega
    · obtain ⟨a1, a2, a3, a4⟩ := hsub B hB
      rw [r9, r2, r3, hk, h3]
      exact ⟨by simpa using a1, by simpa using a4, rfl, (hle B hB).2, (hle B hB).1⟩

/-- C112, the part that holds, for a run on an OBJ file: the program ends, and for every building there are its vector file, with at least one face, its
attributes, and its image. Missing: buildings all of whose faces have a straight angle. -/
theorem C112_obj_partial {F : Type} {T : Toolbox (Out (UNode K)) F K} {lib : SoupLib K} {emb : V3 ℚ → V3 K} (U : UsesNodes T lib emb) (hlr : T.lr = true)
    {Ok : Pwh K → Prop} {Good : T.C.PSet → Prop} {Gen : V2 K → Prop} (hC : Lawful T.C Ok Good Gen) (hbd : ∀ q r, ∀ s ∈ T.C.inter q r, s.outer ≠ []) (hL : SoupLaw lib)
    (args : Args) (fs : Fs) (t x : Text) (la : Bool) (p : K) (hp : 0 < p) (ms : List Mesh)
    (hscene : Given args "<scene>" t) (hfmt : Given args "--input-format" "OBJ".toList) (hext : NamedLike (splitSlash t) "obj".toList)
    (hfile : fs (splitSlash t) = some (.file x)) (hread : Obj.read T.rnd x = .ok ms) (hprune : Switch args "--prune" false)
    (hterrain : Switch args "--terrain" false) (ha : AsksImages T args la p)
    (hb : ∀ m ∈ ms, m.name ≠ "terrain".toList → HasRoof T.C Ok emb p m ∧ HasSharpRoof emb m) (hn : (ms.map Mesh.name).Nodup) (hpn : ∀ m ∈ ms, PlainName m.name)
    (hr : Ready fs ((splitSlash t).dropLast ++ ["vectors".toList]) (ms.flatMap fun m => [m.name ++ ".shp".toList, m.name ++ ".txt".toList]))
    (hi : Ready fs ((splitSlash t).dropLast ++ ["rasters".toList]) (ms.map fun m => m.name ++ ".tiff".toList)) :
    ∃ fs', orthoMain T args fs = (.ok 0, fs') ∧ ∀ m ∈ ms, m.name ≠ "terrain".toList → ∃ (fp : FootPrint K) (r : Raster K),
      fp.name = m.name ∧ r.name = m.name ∧ r.epsg = 2154 ∧ Pictured emb ⟨0, 0, 0⟩ p m fp r ∧
      fs' ((splitSlash t).dropLast ++ ["vectors".toList, m.name ++ ".shp".toList]) = some (.file (T.G.shp (fp.toOgr T.C la))) ∧
      fs' ((splitSlash t).dropLast ++ ["vectors".toList, m.name ++ ".txt".toList]) = some (.file (attributesText T.C T.G fp)) ∧
      fs' ((splitSlash t).dropLast ++ ["rasters".toList, m.name ++ ".tiff".toList]) = some (.file (T.G.tiff r.toGdal)) := by
  refine files_obj U hlr _ args fs t x la p hp ms hscene hfmt hext hfile hread hprune hterrain ha (fun m hm hne => ?_) hn hpn hr hi
  obtain ⟨h1, h2⟩ := hb m hm hne
  obtain ⟨n, fp, k1, k2, k3, k4, k5, -, k6⟩ := C112_mesh_partial hC hbd hL emb m ⟨0, 0, 0⟩ 2154 p hp h1
  obtain ⟨r, r1, r2, r3, r4⟩ := k6 (k5 h2)
  exact ⟨n, fp, r, k1, k2, k3, r1, r2, r3, r4.some_pixel.1.ne', r4.some_pixel.2.ne', r4⟩

end

section
variable {N L K : Type} [Field K] [LinearOrder K] [IsStrictOrderedRing K] [FloorRing K]

/-- C112: one building without a drawn face spoils the images of all: the vector files of all buildings are written, then the behaviour is undefined, and no
image of any building is made. -/
theorem C112_one_bad (T : Toolbox N L K) (hlr : T.lr = true) (args : Args) (fs : Fs) (t : Text) (la : Bool) (p : K) (hp : p ≠ 0) (s : Scene N) (ps : List (FootPrint K))
    (hin : InputIs T args fs t false s) (ha : AsksImages T args la p) (hps : List.Forall₂ (fun n f => T.proj n = .ok f) s.buildings ps)
    (hn : (ps.map FootPrint.name).Nodup) (hpn : ∀ f ∈ ps, PlainName f.name)
    (hr : Ready fs ((splitSlash t).dropLast ++ ["vectors".toList]) (ps.flatMap fun f => [f.name ++ ".shp".toList, f.name ++ ".txt".toList]))
    (hbad : ∃ f ∈ ps, f.brick.bbox = none) (hrest : ∀ f ∈ ps, ∀ e, Raster.ofFootPrint T.C T.lr f p ≠ .thrown e) :
    ∃ fs', orthoMain T args fs = (.ub, fs') ∧
      (∀ f ∈ ps, fs' ((splitSlash t).dropLast ++ ["vectors".toList, f.name ++ ".shp".toList]) = some (.file (T.G.shp (f.toOgr T.C la))) ∧
        fs' ((splitSlash t).dropLast ++ ["vectors".toList, f.name ++ ".txt".toList]) = some (.file (attributesText T.C T.G f))) ∧
      ∀ q, ¬ Under (splitSlash t).dropLast "vectors".toList q → fs' q = fs q := by
  obtain ⟨f, F0, s₀, pr, i1, i2, i3, i4, i5, i6⟩ := hin.input
  obtain ⟨cache, hcache⟩ := ha.cache
  obtain ⟨h1, x, h2, h3⟩ := ha.pixels
  have ha' : orthoArgs T args = .ok ⟨splitSlash t, f, pr, cache, false, false, true, false, la, p⟩ := by
    unfold orthoArgs
    rw [asString_of hin.scene, Out.ok_bind, asString_of i1, Out.ok_bind, asBool_of i4, Out.ok_bind, asBool_of hcache, Out.ok_bind, asBool_of ha.graphs, Out.ok_bind,
      asBool_of hin.terrain, Out.ok_bind, asBool_of ha.save, Out.ok_bind]
    unfold Args.boolIf
    rw [if_pos rfl, if_pos rfl, asBool_of ha.scene, Out.ok_bind, asBool_of ha.labels, Out.ok_bind]
    rw [asBool_of h1, Out.ok_bind]
    unfold pixelArg
    rw [if_pos rfl, asString_of h2, Out.ok_bind, h3]; rfl
  obtain ⟨fs1, u1, u2', -, -⟩ := step_duals T (splitSlash t).dropLast false s.buildings fs (by simp)
  have hinput := input_of T i2 i3 i5 i6 u1
  have u2 : ∀ q, fs1 q = fs q := fun q => u2' q (by simp)
  have e12 : fs1 = fs := funext u2
  subst e12
  unfold orthoMain mainOf orthoRun
  have e0 : (Act.reads fun _ => orthoArgs T args) fs1 = (.ok ⟨splitSlash t, f, pr, cache, false, false, true, false, la, p⟩, fs1) := by
    show (orthoArgs T args, fs1) = _
    rw [ha']
  rw [act_bind_ok e0, act_bind_ok hinput, if_pos rfl]
  have e1 : (Act.reads fun _ => orthoproject T.proj s false) fs1 = (.ok ps, fs1) := by
    show (orthoproject T.proj s false, fs1) = _
    rw [C66_projection]
    rw [show s.buildings ++ (if false = true then [s.terrain] else []) = s.buildings by simp, Out.mapM_eq_ok.2 hps]
  dsimp only
  rw [act_bind_ok e1]
  generalize (splitSlash t).dropLast = root at *
  obtain ⟨fs2, v1, v0, v2, v3⟩ := C68_prints_partial T.C T.G root ps la fs1 hn hpn hr
  rw [act_bind_ok v1]
  have e2 : (if false = true then saveScenePrints T.C T.lr T.G root (stem (splitSlash t)) ps (decide (p ≠ 0)) p else Act.skip) fs2 = (.ok (), fs2) := rfl
  rw [act_bind_ok e2, if_pos hp]
  have e3 : rasterizeScene T.C T.lr ps p = .ub := by
    have : Out.mapM (fun f => Raster.ofFootPrint T.C T.lr f p) ps = .ub := by
      cases hm : Out.mapM (fun f => Raster.ofFootPrint T.C T.lr f p) ps with
      | ub => rfl
      | ok rs =>
        obtain ⟨f, hf, hb⟩ := hbad
        obtain ⟨r, -, hr⟩ := forall₂_mem_left (Out.mapM_eq_ok.1 hm) f hf
        rw [hlr, (C51_undefined T.C f).2 hb p] at hr
        cases hr
      | thrown e =>
        exfalso
        clear hbad hps hn hpn hr v1 v2 v3 e1 e2
        induction ps with
        | nil => cases hm
        | cons f ps ih =>
          rw [Out.mapM_cons] at hm
          cases hf : Raster.ofFootPrint T.C T.lr f p with
          | ub => rw [hf] at hm; cases hm
          | thrown e' => exact hrest f List.mem_cons_self e' hf
          | ok r =>
            rw [hf, Out.ok_bind] at hm
            cases hg : Out.mapM (fun f => Raster.ofFootPrint T.C T.lr f p) ps with
            | ub => rw [hg] at hm; cases hm
            | ok rs => rw [hg] at hm; cases hm
            | thrown e' =>
              rw [hg] at hm
              cases hm
              exact ih (fun f hf => hrest f (List.mem_cons_of_mem _ hf)) hg
    unfold rasterizeScene
    rw [this]
    rfl
  have e4 : (Act.bind (Act.reads fun _ => rasterizeScene T.C T.lr ps p) fun rs => saveBuildingRasters T.G root rs) fs2 = (.ub, fs2) := by
    rw [e3]
    rfl
  rw [e4]
  exact ⟨fs2, rfl, v2, fun q hq => v3 q (fun e => hq ⟨[], e⟩) (fun f _ => ⟨fun e => hq ⟨_, e⟩, fun e => hq ⟨_, e⟩⟩)⟩

end
/-! ### The command line, the full statement and examples -/

section
variable {K : Type} [Field K] [LinearOrder K] [IsStrictOrderedRing K] [FloorRing K]

/-- C112, the part that holds, from the command line. Missing: as before. -/
theorem C112_program_partial {F : Type} {T : Toolbox (Out (UNode K)) F K} {lib : SoupLib K} {emb : V3 ℚ → V3 K} (U : UsesNodes T lib emb) (hlr : T.lr = true)
    {Ok : Pwh K → Prop} {Good : T.C.PSet → Prop} {Gen : V2 K → Prop} (hC : Lawful T.C Ok Good Gen) (hbd : ∀ q r, ∀ s ∈ T.C.inter q r, s.outer ≠ []) (hL : SoupLaw lib)
    (argv ws : List Text) (os : List (Text × Option Text)) (fs : Fs) (t x v : Text) (p : K) (hp : 0 < p) (ms : List Mesh)
    (h1 : Spells orthoOptions argv ws os) (h2 : OrthoLine ws os t true true) (hfmt : ("--input-format".toList, some "OBJ".toList) ∈ os)
    (hsize : ("--pixel-size".toList, some v) ∈ os) (hv : T.stod v = .ok p)
    (hno : ∀ n ∈ ["--prune", "--graphs", "--terrain", "--scene"], n.toList ∉ os.map Prod.fst) (hext : NamedLike (splitSlash t) "obj".toList)
    (hfile : fs (splitSlash t) = some (.file x)) (hread : Obj.read T.rnd x = .ok ms)
    (hb : ∀ m ∈ ms, m.name ≠ "terrain".toList → HasRoof T.C Ok emb p m ∧ HasSharpRoof emb m) (hn : (ms.map Mesh.name).Nodup) (hpn : ∀ m ∈ ms, PlainName m.name)
    (hr : Ready fs ((splitSlash t).dropLast ++ ["vectors".toList]) (ms.flatMap fun m => [m.name ++ ".shp".toList, m.name ++ ".txt".toList]))
    (hi : Ready fs ((splitSlash t).dropLast ++ ["rasters".toList]) (ms.map fun m => m.name ++ ".tiff".toList)) :
    ∃ fs', orthoProgram T argv fs = (.ok 0, fs') ∧ ∀ m ∈ ms, m.name ≠ "terrain".toList → ∃ (fp : FootPrint K) (r : Raster K),
      Pictured emb ⟨0, 0, 0⟩ p m fp r ∧
      fs' ((splitSlash t).dropLast ++ ["vectors".toList, m.name ++ ".shp".toList]) = some (.file (T.G.shp (fp.toOgr T.C (decide ("--labels".toList ∈ os.map Prod.fst))))) ∧
      fs' ((splitSlash t).dropLast ++ ["vectors".toList, m.name ++ ".txt".toList]) = some (.file (attributesText T.C T.G fp)) ∧
      fs' ((splitSlash t).dropLast ++ ["rasters".toList, m.name ++ ".tiff".toList]) = some (.file (T.G.tiff r.toGdal)) := by
  obtain ⟨m, h, e⟩ := C111_program T argv ws os t true true h1 h2
  rw [e]
  have off : ∀ n ∈ ["--prune", "--graphs", "--terrain", "--scene"], Switch m n false := by
    intro n hn
    have := h.switches n (by simp only [List.mem_cons, List.not_mem_nil, or_false] at hn ⊢; tauto)
    rwa [decide_eq_false (hno n hn)] at this
  obtain ⟨f, hf, gf⟩ := h.format
  have ef : f = "OBJ".toList := by
    have := List.inj_on_of_nodup_map h2.once hf hfmt rfl
    exact Option.some.inj (Prod.mk.inj this).2
  subst ef
  obtain ⟨fs', k1, k2⟩ := C112_obj_partial U hlr hC hbd hL m fs t x _ p hp ms h.scene gf hext hfile hread (off _ (by simp only [List.mem_cons, true_or]))
    (off _ (by simp only [List.mem_cons, true_or, or_true]))
    ⟨⟨_, h.cache⟩, off _ (by simp only [List.mem_cons, true_or, or_true]), h.save, off _ (by simp only [List.mem_cons, true_or, or_true]),
      h.switches _ (by simp only [List.mem_cons, true_or, or_true]), h.rasterize, v, h.size.1 v hsize, hv⟩ hb hn hpn hr hi
  refine ⟨fs', k1, fun m hm hne => ?_⟩
  obtain ⟨fp, r, -, -, -, a⟩ := k2 m hm hne
  exact ⟨fp, r, a⟩

end

/-- C112, as it is stated: if the faces of every building of an OBJ file form an oriented surface, each of them vertical or flat with a valid shadow, not too
steep, and one at least not vertical, then the run ends and the image of every building is there. -/
def C112_full : Prop := ∀ (T : Toolbox (Out (UNode ℚ)) Unit ℚ) (lib : SoupLib ℚ), UsesNodes T lib _root_.id → T.lr = true →
  ∀ (Ok : Pwh ℚ → Prop) (Good : T.C.PSet → Prop) (Gen : V2 ℚ → Prop), Lawful T.C Ok Good Gen → (∀ q r, ∀ s ∈ T.C.inter q r, s.outer ≠ []) →
  SoupLaw lib → ∀ (args : Args) (fs : Fs) (t x : Text) (la : Bool) (p : ℚ), 0 < p → ∀ ms : List Mesh,
  Given args "<scene>" t → Given args "--input-format" "OBJ".toList → NamedLike (splitSlash t) "obj".toList →
  fs (splitSlash t) = some (.file x) → Obj.read T.rnd x = .ok ms → Switch args "--prune" false → Switch args "--terrain" false → AsksImages T args la p →
  (∀ m ∈ ms, m.name ≠ "terrain".toList → PolygonMesh m.points (m.faces.map Face.points) ∧ (∀ l ∈ faceShapes m.points (m.faces.map Face.points),
    SeenAsLine l ∨ (FlatRoof l ∧ (∃ r, Ok r ∧ ∀ q, Interior T.C r q ↔ T.C.side (l.map ground) q = .bounded) ∧
      ∀ a b c t, (a :: b :: c :: t) ~r l.map ground → InLine a b c ∨ eps ≤ |(b.x - a.x) * (c.y - a.y) - (b.y - a.y) * (c.x - a.x)|)) ∧
    (∃ l ∈ faceShapes m.points (m.faces.map Face.points), ¬ SeenAsLine l) ∧
    ∃ B, Holds (faceShapes m.points (m.faces.map Face.points)) B ∧ ⌈(B.ymax - B.ymin) / p⌉ < 2 ^ 64 ∧ ⌈(B.xmax - B.xmin) / p⌉ < 2 ^ 64) →
  (ms.map Mesh.name).Nodup → (∀ m ∈ ms, PlainName m.name) →
  Ready fs ((splitSlash t).dropLast ++ ["vectors".toList]) (ms.flatMap fun m => [m.name ++ ".shp".toList, m.name ++ ".txt".toList]) →
  Ready fs ((splitSlash t).dropLast ++ ["rasters".toList]) (ms.map fun m => m.name ++ ".tiff".toList) →
  ∃ fs', orthoMain T args fs = (.ok 0, fs') ∧ ∀ m ∈ ms, m.name ≠ "terrain".toList → ∃ r : Raster ℚ,
    fs' ((splitSlash t).dropLast ++ ["rasters".toList, m.name ++ ".tiff".toList]) = some (.file (T.G.tiff r.toGdal))

theorem kinked_gentle : ∀ a b c t, (a :: b :: c :: t) ~r ([⟨0, 0, 3⟩, ⟨1, 0, 3⟩, ⟨2, 0, 3⟩, ⟨2, 2, 3⟩, ⟨0, 2, 3⟩] : List (V3 ℚ)).map ground →
    InLine a b c ∨ eps ≤ |(b.x - a.x) * (c.y - a.y) - (b.y - a.y) * (c.x - a.x)| := by
  intro a b c t h
  have hm := (List.mem_cyclicPermutations_iff (l := a :: b :: c :: t)).2 h
  have key : ∀ r ∈ (([⟨0, 0, 3⟩, ⟨1, 0, 3⟩, ⟨2, 0, 3⟩, ⟨2, 2, 3⟩, ⟨0, 2, 3⟩] : List (V3 ℚ)).map ground).cyclicPermutations, (match r with
      | a :: b :: c :: _ => decide ((b.x - a.x) * (c.y - a.y) - (b.y - a.y) * (c.x - a.x) = 0 ∨ (eps : ℚ) ≤ |(b.x - a.x) * (c.y - a.y) - (b.y - a.y) * (c.x - a.x)|)
      | _ => true) = true := by decide +kernel
  have := key _ hm
  simp only [decide_eq_true_eq] at this
  exact this

/-- What happens to the kinked roof: the behaviour is undefined, and there is no image. -/
theorem kinked_undefined : ∃ fs', orthoMain (nodeTools kinkedLib) pixelArgs (objFs kinkedObj) = (.ub, fs') := by
  have hF : sceneHandlerNamed (splitSlash "d/a.obj".toList) "OBJ".toList = .ok .obj := by decide +kernel
  have hm : OpenedRead readMode := by unfold OpenedRead; decide
  obtain ⟨b, tr, k1, k2⟩ := C29_scene (nodeTools kinkedLib).ops (nodeTools kinkedLib).rnd readMode (splitSlash "d/a.obj".toList) (objFs kinkedObj) kinkedObj [kinkedMesh] hm
    (by decide +kernel) kinkedObj_read
  have hb : b = [kinkedMesh] := by
    rw [exclude_eq] at k1
    exact (congrArg Prod.fst k1).symm
  subst hb
  have hin : InputIs (nodeTools kinkedLib) pixelArgs (objFs kinkedObj) "d/a.obj".toList false (Scene.make (nodeTools kinkedLib).ops [kinkedMesh] tr ⟨0, 0, 0⟩ 2154) :=
    ⟨by unfold Given; decide, by unfold Switch; decide, "OBJ".toList, .obj, _, false, by unfold Given; decide, hF, k2, by unfold Switch; decide, by simp, fun _ => rfl⟩
  have hproj : (nodeTools kinkedLib).proj ((nodeTools kinkedLib).ops.node kinkedMesh ⟨0, 0, 0⟩ 2154) = .ok ⟨"roof".toList, ⟨0, 0, 0⟩, 2154, Brick.empty⟩ := by
    rw [(nodeTools_uses kinkedLib).proj, (nodeTools_uses kinkedLib).node, kinked_node, Out.ok_bind]
    exact kinked_proj
  obtain ⟨fs', h1, -⟩ := C112_one_bad (nodeTools kinkedLib) rfl pixelArgs (objFs kinkedObj) "d/a.obj".toList false 1 one_ne_zero _ [⟨"roof".toList, ⟨0, 0, 0⟩, 2154, Brick.empty⟩] hin
    (pixelArgs_asks kinkedLib) (.cons hproj .nil) (by decide) (by unfold PlainName; decide) (objFs_ready _ _) ⟨_, List.mem_cons_self, rfl⟩ (by
      intro f hf e he
      rw [List.mem_singleton] at hf
      subst hf
      rw [show (nodeTools kinkedLib).lr = true from rfl, (C51_undefined (nodeTools kinkedLib).C _).2 rfl 1] at he
      cases he)
  exact ⟨fs', h1⟩

/-- C112, the full statement is false: the kinked roof. -/
theorem C112_refuted : ¬ C112_full := by
  intro h
  have hm : kinkedMesh.points = kinked.points := rfl
  have hf : kinkedMesh.faces.map Face.points = [[0, 1, 2, 3, 4]] := rfl
  obtain ⟨fs', h1, -⟩ := h (nodeTools kinkedLib) kinkedLib (nodeTools_uses _) rfl RectOk RectGood RectGen rect_lawful rect_bounded kinkedLib_law pixelArgs
    (objFs kinkedObj) "d/a.obj".toList kinkedObj false 1 (by norm_num) [kinkedMesh] (by unfold Given; decide) (by unfold Given; decide) objName
    (by decide +kernel) kinkedObj_read (by unfold Switch; decide) (by unfold Switch; decide) (pixelArgs_asks kinkedLib) (by
      intro m hm' _
      rw [List.mem_singleton] at hm'
      subst hm'
      rw [hm, hf]
      refine ⟨⟨kinked, kinked_represents⟩, fun l hl => ?_, ⟨_, by rw [kinked_shapes]; exact List.mem_singleton_self _, kinked_seen⟩, ⟨0, 0, 2, 2⟩, ?_, by decide +kernel, by decide +kernel⟩
      · refine (kinked_roofs l hl).imp_right fun k => ⟨k.1, k.2, ?_⟩
        rw [kinked_shapes, List.mem_singleton] at hl
        subst hl
        exact kinked_gentle
      · intro l hl _
        rw [kinked_shapes, List.mem_singleton] at hl
        subst hl
        decide) (by decide) (by unfold PlainName; decide) (objFs_ready _ _) (objFs_images _ _)
  obtain ⟨fs'', h2⟩ := kinked_undefined
  rw [h2] at h1
  cases h1

/-- The closed block meets the conditions. -/
theorem block_roof (p : ℚ) (hp : 1 ≤ p) : HasRoof rectCgal RectOk _root_.id p blockMesh ∧ HasSharpRoof _root_.id blockMesh := by
  have h := block_picturable p hp
  have hfl : ∀ a : ℚ, a ≤ 2 → ⌈a / p⌉ < 2 ^ 64 := fun a ha => by
    have : ⌈a / p⌉ ≤ 2 := by
      rw [Int.ceil_le]
      exact (div_le_of_le_mul₀ (by linarith) (by norm_num) (by push_cast; linarith))
    exact this.trans_lt (by norm_num)
  refine ⟨⟨h.drawable.surface, fun l hl => ?_, h.roof, ⟨0, 0, 2, 2⟩, ?_, hfl _ (by norm_num), hfl _ (by norm_num)⟩, ?_⟩
  · by_cases k : SeenAsLine l
    · exact .inl k
    · have P := ((h.drawable.faces l hl).resolve_left k).1
      exact .inr ⟨P.simple, P.ok, fun a b c t hr => .inr (h.gentle l hl k a b c t hr)⟩
  · have bd : ∀ l ∈ faceShapes (blockMesh.points.map _root_.id) (blockMesh.faces.map Face.points), ∀ v ∈ l, 0 ≤ v.x ∧ v.x ≤ 2 ∧ 0 ≤ v.y ∧ v.y ≤ 2 := by decide +kernel
    exact fun l hl _ v hv => bd l hl v hv
  · obtain ⟨l, hl, hn⟩ := h.roof
    exact ⟨l, hl, hn, ((h.drawable.faces l hl).resolve_left hn).1.sharp⟩

/-- C112: the hypotheses are met: a run on the closed block. -/
example (lib : SoupLib ℚ) (hL : SoupLaw lib) : ∃ fs', orthoProgram (nodeTools lib) demoLine (objFs blockObj) = (.ok 0, fs') ∧ ∃ (fp : FootPrint ℚ) (r : Raster ℚ),
    Pictured _root_.id ⟨0, 0, 0⟩ 1 blockMesh fp r ∧ fs' ["d".toList, "rasters".toList, "block.tiff".toList] = some (.file ((nodeTools lib).G.tiff r.toGdal)) := by
  obtain ⟨fs', h1, h2⟩ := C112_program_partial (nodeTools_uses lib) rfl (Ok := RectOk) (Good := RectGood) (Gen := RectGen) rect_lawful rect_bounded hL demoLine _ _
    (objFs blockObj) "d/a.obj".toList blockObj "1".toList 1 (by norm_num) [blockMesh] demo_spells demo_line (List.mem_cons_self ..) (List.mem_cons_of_mem _ (List.mem_cons_self ..)) rfl
    (by decide +kernel) objName (by decide +kernel) blockObj_read (by
      intro m hm _
      rw [List.mem_singleton] at hm
      subst hm
      exact block_roof 1 le_rfl) (by decide) (by unfold PlainName; decide) (objFs_ready _ _) (objFs_images _ _)
  obtain ⟨fp, r, h3, -, -, h4⟩ := h2 blockMesh (by simp) (by decide)
  exact ⟨fs', h1, fp, r, h3, h4⟩

end City.Props
