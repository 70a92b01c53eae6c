import Verif.Props.Picture

/-! C110 for buildings whose faces are one above another, as those of every closed building: the image shows the parts of the faces that are visible from above. -/

namespace City.Spec
open City
section
variable {K : Type} [Field K] [LinearOrder K]

/-- A part of a face: a region of the ground and the corners of the face. -/
abbrev FacePart (K : Type) := Pwh K × List (V3 K)

/-- The parts show what is visible of the faces from above: each is a region the library can handle, over which its face is the highest; they do not overlap;
and they cover the ground that the faces cover. -/
structure VisibleParts (C : Cgal K) (Ok : Pwh K → Prop) (Gen : V2 K → Prop) (faces : List (List (V3 K))) (parts : List (FacePart K)) : Prop where
  face : ∀ a ∈ parts, a.2 ∈ faces ∧ Ok a.1
  top : ∀ a ∈ parts, ∀ q, Gen q → Interior C a.1 q → ∃ z, Over C a.2 q z ∧ TopAt C faces q z
  apart : parts.Pairwise fun a b => Apart C Gen a.1 b.1
  all : ∀ q, Gen q → (∃ l ∈ faces, ∃ z, Over C l q z) → ∃ a ∈ parts, Interior C a.1 q

/-- The part has a point over the square. -/
def PartAbove (C : Cgal K) (Gen : V2 K → Prop) (sq : Pwh K) (a : FacePart K) : Prop := ∃ q, Gen q ∧ Interior C sq q ∧ Interior C a.1 q

/-- `z` is within the heights of the part over the square. -/
def PartHeight (C : Cgal K) (Gen : V2 K → Prop) (sq : Pwh K) (a : FacePart K) (z : K) : Prop :=
  ∀ lo hi, (∀ q w, Gen q → Interior C sq q → Interior C a.1 q → Over C a.2 q w → lo ≤ w ∧ w ≤ hi) → lo ≤ z ∧ z ≤ hi

open Classical in
/-- The pixel of row `i` and column `j` shows the parts: it counts those over its square, and its value is the mean of one height per such part, raised by
`z0`; 0 if there is none. For each part the square is that of the pixel, displaced as `d` says. -/
def PixelShowsParts (C : Cgal K) (Gen : V2 K → Prop) (left top p : K) (d : FacePart K → V2 K) (i j : Nat) (parts : List (FacePart K)) (z0 : K) (hits : Int) (value : K) : Prop :=
  ∃ zs, List.Forall₂ (fun a z => PartHeight C Gen (cell (left + (d a).x) (top - (d a).y) p i j) a z)
      (parts.filter fun a => decide (PartAbove C Gen (cell (left + (d a).x) (top - (d a).y) p i j) a)) zs ∧
    hits = zs.length ∧ value = if zs = [] then 0 else z0 + mean zs

variable [FloorRing K]

/-- The image of a building with the given faces and reference point, in pixels of size `p`: where it is, how large it is, and that its pixels show the visible
parts, each displaced by the distance of its own upper left corner to the pixel border to the left and above. Nothing is said about pixels whose squares
are not polygons the library can handle, nor if there are more than 32767 parts. -/
def ShowsVisible (C : Cgal K) (Ok : Pwh K → Prop) (Gen : V2 K → Prop) (faces : List (List (V3 K))) (ref : V3 K) (p : K) (r : Raster K) : Prop :=
  ∃ B parts d, Extent faces B ∧ VisibleParts C Ok Gen faces parts ∧ (∀ a ∈ parts, Displaced B.xmin B.ymax p a.1.outer (d a)) ∧
    r.pixel = p ∧ r.ref = ⟨ref.x + B.xmin, ref.y + B.ymax, ref.z⟩ ∧ (r.height : ℤ) = ⌈(B.ymax - B.ymin) / p⌉ ∧ (r.width : ℤ) = ⌈(B.xmax - B.xmin) / p⌉ ∧
    (parts.length ≤ 32767 → ∀ i < r.height, ∀ j < r.width, (∀ a ∈ parts, Ok (cell (B.xmin + (d a).x) (B.ymax - (d a).y) p i j)) →
      ∃ n v, r.hit i j = .ok n ∧ r.at' i j = .ok v ∧ PixelShowsParts C Gen B.xmin B.ymax p d i j parts ref.z n v)

/-- A mesh whose image can be made, where faces may be one above another: as `Drawable`, without faces that are too steep, with a face that is not vertical,
and not too large. -/
structure Picturable (C : Cgal K) (Ok : Pwh K → Prop) (Gen : V2 K → Prop) (emb : V3 ℚ → V3 K) (p : K) (m : Mesh) : Prop where
  drawable : Drawable C Ok Gen emb m
  gentle : ∀ l ∈ faceShapes (m.points.map emb) (m.faces.map Face.points), ¬ SeenAsLine l → NotSteep l
  roof : ∃ l ∈ faceShapes (m.points.map emb) (m.faces.map Face.points), ¬ SeenAsLine l
  fits : ∀ B, Extent (faceShapes (m.points.map emb) (m.faces.map Face.points)) B → ⌈(B.ymax - B.ymin) / p⌉ < 2 ^ 64 ∧ ⌈(B.xmax - B.xmin) / p⌉ < 2 ^ 64

end
end City.Spec

namespace City.Props
open City City.Spec City.FacePrint City.Brick

set_option linter.unusedSectionVars false

section
variable {K : Type} [Field K] [LinearOrder K] [IsStrictOrderedRing K] [FloorRing K]
variable {C : Cgal K} {Ok : Pwh K → Prop} {Good : C.PSet → Prop} {Gen : V2 K → Prop}

/-- A part for every face print of an envelope. -/
theorem parts_of {gs fs : List (FacePrint K)} {faces : List (List (V3 K))} (h : ∀ f ∈ fs, ∃ g ∈ gs, PartOf C Gen f g)
    (hg : ∀ g ∈ gs, ∃ l ∈ faces, PrintOf C Ok g l) :
    ∃ parts : List (FacePart K), List.Forall₂ (fun f a => f.border = a.1 ∧ a.2 ∈ faces ∧ ∃ g ∈ gs, PartOf C Gen f g ∧ PrintOf C Ok g a.2) fs parts := by
  induction fs with
  | nil => exact ⟨[], .nil⟩
  | cons f fs ih =>
    obtain ⟨parts, hp⟩ := ih fun f hf => h f (List.mem_cons_of_mem _ hf)
    obtain ⟨g, hg1, hg2⟩ := h f List.mem_cons_self
    obtain ⟨l, hl, hl2⟩ := hg g hg1
    exact ⟨(f.border, l) :: parts, .cons ⟨rfl, hl, g, hg1, hg2, hl2⟩ hp⟩

theorem pairwise_match {α β : Type} {R : α → β → Prop} {S : α → α → Prop} {S' : β → β → Prop} {as : List α} {bs : List β} (h : List.Forall₂ R as bs)
    (hS : ∀ a b a' b', R a b → R a' b' → S a a' → S' b b') (hp : as.Pairwise S) : bs.Pairwise S' := by
  induction h with
  | nil => exact List.Pairwise.nil
  | @cons a b as bs hab hrest ih =>
    rw [List.pairwise_cons] at hp ⊢
    refine ⟨fun b' hb' => ?_, ih hp.2⟩
    obtain ⟨a', ha', k⟩ := forall₂_mem_right hrest b' hb'
    exact hS a b a' b' hab k (hp.1 a' ha')

/-- C110, the part that holds, for a mesh with faces one above another, such as a closed building: its image shows the visible parts of its faces, each
displaced by less than one pixel. Missing: other orders of the faces, straight angles, and the displacement. -/
theorem C110_visible_partial (L : Lawful C Ok Good Gen) (hrev : ∀ (a : Poly K) p, C.side a.reverse p = C.side a p)
    (hbd : ∀ q r, ∀ s ∈ C.inter q r, s.outer ≠ []) {lib : SoupLib K} (hL : SoupLaw lib)
    (emb : V3 ℚ → V3 K) (m : Mesh) (ref : V3 ℚ) (epsg : Nat) (p : K) (hp : 0 < p) (h : Picturable C Ok Gen emb p m) :
    ∃ n fp r, UNode.ofMesh lib emb m ref epsg = .ok n ∧ FootPrint.ofUNode C emb n = .ok fp ∧ fp.name = m.name ∧ Raster.ofFootPrint C true fp p = .ok r ∧
      r.name = m.name ∧ r.epsg = epsg ∧ r.width ≠ 0 ∧ r.height ≠ 0 ∧
      ShowsVisible C Ok Gen (faceShapes (m.points.map emb) (m.faces.map Face.points)) (emb ref) p r := by
  classical
  have hfs : ∀ l ∈ faceShapes (m.points.map emb) (m.faces.map Face.points), SeenAsLine l ∨ (PlainRoof C Ok l ∧ NotSteep l) := fun l hl => by
    rcases h.drawable.faces l hl with k | k
    · exact .inl k
    · exact .inr ⟨k.1, h.gentle l hl (plain_not_line k.1)⟩
  obtain ⟨n, fcs, h1, h2, h3, h4, h5, hpr⟩ := mesh_prints L hrev hL emb m ref epsg h.drawable.surface hfs
  have hfa := h.drawable.faces
  have hup := h.drawable.order
  have hro := h.roof
  have hfi := h.fits
  generalize hfaces : faceShapes (m.points.map emb) (m.faces.map Face.points) = faces at *
  have hprints : List.Forall₂ (PrintOf C Ok) (orthoprint C fcs) (faces.filter fun l => decide (¬ SeenAsLine l)) := hpr.imp fun _ _ k => k.1
  have hsub : (faces.filter fun l => decide (¬ SeenAsLine l)).Sublist faces := List.filter_sublist
  have hcov : ∀ l ∈ faces, l ∈ (faces.filter fun l => decide (¬ SeenAsLine l)) ∨ SeenAsLine l := fun l hl => by
    by_cases k : SeenAsLine l
    · exact .inr k
    · exact .inl (List.mem_filter.2 ⟨hl, by simpa using k⟩)
  have mem1 : ∀ f ∈ orthoprint C fcs, ∃ l ∈ faces, ¬ SeenAsLine l ∧ PrintOf C Ok f l ∧ eps ≤ |f.plane.c| := fun f hf => by
    obtain ⟨l, hl, k⟩ := forall₂_mem_left hpr f hf
    rw [List.mem_filter, decide_eq_true_iff] at hl
    exact ⟨l, hl.1, hl.2, k⟩
  have mem2 : ∀ l ∈ faces, ¬ SeenAsLine l → ∃ f ∈ orthoprint C fcs, PrintOf C Ok f l := fun l hl hn => by
    obtain ⟨f, hf, k⟩ := forall₂_mem_right hpr l (List.mem_filter.2 ⟨hl, by simpa using hn⟩)
    exact ⟨f, hf, k.1⟩
  have hR : Roofed C Ok fcs := by
    refine ⟨fun f hf => ?_, ?_, hbd⟩
    · obtain ⟨l, -, -, k⟩ := mem1 f hf
      exact ⟨k.1.1, k.2⟩
    · obtain ⟨l, hl, hn⟩ := hro
      obtain ⟨f, hf, -⟩ := mem2 l hl hn
      exact List.ne_nil_of_mem hf
  have hval : ∀ f ∈ orthoprint C fcs, ValidFace Ok f := fun f hf => (hR.valid f hf).1
  have hsam : ∀ f ∈ orthoprint C fcs, SampleInside C Gen f := fun f hf' => by
    obtain ⟨l, hl, hn, k⟩ := mem1 f hf'
    rcases hfa l hl with h | h
    · exact absurd h hn
    · exact print_sample L k.1 h.2 hrev
  have hfit := fitsAll_stack L (orthoprint C fcs) [] Brick.empty hval (by simp [Brick.empty]) (by simpa [Brick.empty] using Envelope.nil) hsam (by simp)
    (prints_apart hprints (hup.sublist hsub))
  obtain ⟨b, b1, b2, env⟩ := build_empty L _ hval hfit
  obtain ⟨fp, B, f1, f2, f3, f4, -⟩ := C51_node L n.name (emb n.ref) n.epsg fcs hR.valid hR.some_roof hR.bounded
  have e : fp = ⟨n.name, emb n.ref, n.epsg, b⟩ := by
    unfold FootPrint.ofNode at f1
    rw [sumPrints_valid L _ _ hval (by simp [Brick.empty]), b1] at f1
    exact (Out.ok.inj f1).symm
  subst e
  have hbox : BoxAround ((orthoprint C fcs).flatMap fun f => f.border.outer) B := by
    have := obox_prints (orthoprint C fcs)
    have hh := C49_history C _ _ _ b1
    have f2' : b.bbox = some B := f2
    rw [f2'] at hh
    rw [show (Brick.empty : Brick K).bbox = none from rfl] at hh
    rw [← hh] at this
    exact this
  have hE : Extent faces B := extent_of hbox (fun f hf => by
      obtain ⟨l, a, b, k⟩ := mem1 f hf
      exact ⟨l, a, b, k.1.2.2.1⟩) (fun l hl hn => by
      obtain ⟨f, hf, k⟩ := mem2 l hl hn
      exact ⟨f, hf, k.2.2.1⟩)
  obtain ⟨parts, hparts⟩ := parts_of (Ok := Ok) (faces := faces) env.part (fun g hg => by
    obtain ⟨l, hl, -, k⟩ := mem1 g hg
    exact ⟨l, hl, k.1⟩)
  have hplane : ∀ f ∈ b.faces, ValidFace Ok f ∧ eps ≤ |f.plane.c| := fun f hf => by
    obtain ⟨g, hg, k⟩ := env.part f hf
    exact ⟨b2 f hf, by rw [k.2.1]; exact (hR.valid g hg).2⟩
  have hpaint : ∀ f ∈ b.faces, Paintable C p f ∧ ∀ v ∈ f.border.outer, InBox2 B v := by
    intro f hf
    refine ⟨Or.inr ⟨?_, by rw [L.exact]; exact (hplane f hf).2, fun x y q hq => hbd _ _ q hq⟩, (f4 f hf).2⟩
    intro hnil
    have := L.three _ (b2 f hf).1
    rw [hnil] at this
    simp at this
  obtain ⟨r, q1, q2, q3, -, -, q4, q5, q6, q7, -⟩ := C51_defined (C := C) ⟨n.name, emb n.ref, n.epsg, b⟩ B f2 p hp hpaint f3 (hfi B hE)
  have hover : ∀ (f : FacePrint K) (a : FacePart K), (f.border = a.1 ∧ a.2 ∈ faces ∧ ∃ g ∈ orthoprint C fcs, PartOf C Gen f g ∧ PrintOf C Ok g a.2) → ∀ q z, Gen q → Interior C f.border q →
      (Over C a.2 q z ↔ zAt f q = z) := by
    rintro f a ⟨-, -, g, -, hpo, hpr⟩ q z hq hi
    have hg := hpo.2.2 q hq hi
    rw [show zAt f q = zAt g q by unfold zAt; rw [hpo.2.1]]
    constructor
    · intro ho
      exact ((hpr.2.2.2 q z).2 ho).2
    · rintro rfl
      exact (hpr.2.2.2 q _).1 ⟨hg, rfl⟩
  refine ⟨n, _, r, h1, ?_, h2, q1, by rw [q5]; exact h2, by rw [q6]; exact h4, ?_, ?_, B, parts, fun a => moveRing B.xmin B.ymax p a.1.outer, hE, ?_, fun a ha => ?_, q4,
    by rw [q7, ← h3], q2, q3, fun hc i hi j hj hq => ?_⟩
  · unfold FootPrint.ofUNode
    rw [h5, Out.ok_bind]
    exact f1
  · have : 0 < ⌈(B.xmax - B.xmin) / p⌉ := Int.ceil_pos.2 (div_pos (sub_pos.2 (extent_wide hE).1) hp)
    omega
  · have : 0 < ⌈(B.ymax - B.ymin) / p⌉ := Int.ceil_pos.2 (div_pos (sub_pos.2 (extent_wide hE).2) hp)
    omega
  · refine ⟨fun a ha => ?_, fun a ha q hq hi => ?_, ?_, fun q hq hex => ?_⟩
    · obtain ⟨f, hf, k⟩ := forall₂_mem_right hparts a ha
      exact ⟨k.2.1, by rw [← k.1]; exact (b2 f hf).1⟩
    · obtain ⟨f, hf, k⟩ := forall₂_mem_right hparts a ha
      rw [← k.1] at hi
      refine ⟨zAt f q, (hover f a k q _ hq hi).2 rfl, (highest_over hsub hcov hprints q _).1 ⟨?_, fun g hg hgi => env.highest f hf q hq hi g hg hgi⟩⟩
      obtain ⟨g, hg, hpo⟩ := env.part f hf
      exact ⟨g, hg, hpo.2.2 q hq hi, by unfold zAt; rw [hpo.2.1]⟩
    · exact pairwise_match hparts (fun f a f' a' k k' h => by rw [← k.1, ← k'.1]; exact h) env.apart
    · obtain ⟨f, hf, hi⟩ := (env.ground q hq).2 ((ground_over hsub hcov hprints q).2 hex)
      obtain ⟨a, ha, k⟩ := forall₂_mem_left hparts f hf
      exact ⟨a, ha, by rw [← k.1]; exact hi⟩
  · obtain ⟨f, hf, k⟩ := forall₂_mem_right hparts a ha
    refine moveRing_displaced hp fun hnil => ?_
    have := L.three _ (b2 f hf).1
    rw [k.1, hnil] at this
    simp at this
  · have hcount : b.faces.length ≤ 32767 := by rw [hparts.length_eq]; exact hc
    have hr : Rasterable C Ok ⟨n.name, emb n.ref, n.epsg, b⟩ B p := ⟨f2, f3, hp, hplane, fun f hf => (f4 f hf).2, hbd, hfi B hE, hcount⟩
    obtain ⟨r', r1, r2⟩ := moved_pixels L _ B p hr
    have e : r' = r := by rw [r1] at q1; exact Out.ok.inj q1
    subst e
    have em : ∀ f (a : FacePart K), f.border = a.1 → movedCell B.xmin B.ymax p (moveOf B.xmin B.ymax p) f i j =
        cell (B.xmin + (moveRing B.xmin B.ymax p a.1.outer).x) (B.ymax - (moveRing B.xmin B.ymax p a.1.outer).y) p i j := by
      intro f a hfa
      unfold movedCell
      rw [moveRing_eq, hfa]
    obtain ⟨hits, v, v1, v2, zs, z1, z2, z3⟩ := r2 i hi j hj (fun f hf => by
      obtain ⟨a, ha, k⟩ := forall₂_mem_left hparts f hf
      rw [em f a k.1]
      exact hq a ha)
    refine ⟨hits, v, v1, v2, zs, ?_, z2, by rw [z3, ← h3]⟩
    refine filter_match (q := fun a => PartAbove C Gen (cell (B.xmin + (moveRing B.xmin B.ymax p a.1.outer).x) (B.ymax - (moveRing B.xmin B.ymax p a.1.outer).y) p i j) a)
      hparts (fun f a k => ?_) (fun f a z k hz => ?_) z1
    · rw [em f a k.1]
      unfold MeetsAt PartAbove
      rw [k.1]
    · rw [em f a k.1] at hz
      intro lo hi' hall
      refine hz lo hi' fun q g1 g2 g3 => hall q _ g1 g2 (by rw [← k.1]; exact g3) ((hover f a k q _ g1 g3).2 rfl)

/-- C110, the part that holds, for a scene in any input format whose buildings have faces one above another. Missing: as for a mesh. -/
theorem C110_visible_scene_partial {F : Type} {T : Toolbox (Out (UNode K)) F K} {lib : SoupLib K} {emb : V3 ℚ → V3 K} (U : UsesNodes T lib emb) (hlr : T.lr = true)
    {Ok : Pwh K → Prop} {Good : T.C.PSet → Prop} {Gen : V2 K → Prop} (hC : Lawful T.C Ok Good Gen)
    (hrev : ∀ (a : Poly K) p, T.C.side a.reverse p = T.C.side a p) (hbd : ∀ q r, ∀ s ∈ T.C.inter q r, s.outer ≠ []) (hL : SoupLaw lib)
    (args : Args) (fs : Fs) (t : Text) (la : Bool) (p : K) (hp : 0 < p)
    (bs : List Mesh) (tr : Mesh) (pivot : V3 ℚ) (epsg : Nat) (hin : InputIs T args fs t false (Scene.make T.ops bs tr pivot epsg)) (ha : AsksImages T args la p)
    (hb : ∀ m ∈ bs, Picturable T.C Ok Gen emb p m) (hn : (bs.map Mesh.name).Nodup) (hpn : ∀ m ∈ bs, PlainName m.name)
    (hr : Ready fs ((splitSlash t).dropLast ++ ["vectors".toList]) (bs.flatMap fun m => [m.name ++ ".shp".toList, m.name ++ ".txt".toList]))
    (hi : Ready fs ((splitSlash t).dropLast ++ ["rasters".toList]) (bs.map fun m => m.name ++ ".tiff".toList)) :
    ∃ fs', orthoMain T args fs = (.ok 0, fs') ∧ ∀ m ∈ bs, ∃ r : Raster K, r.name = m.name ∧ r.epsg = epsg ∧
      ShowsVisible T.C Ok Gen (faceShapes (m.points.map emb) (m.faces.map Face.points)) (emb pivot) p r ∧
      fs' ((splitSlash t).dropLast ++ ["rasters".toList, m.name ++ ".tiff".toList]) = some (.file (T.G.tiff r.toGdal)) :=
  images_written U hlr _ args fs t la p hp bs tr pivot epsg hin ha (fun m hm => C110_visible_partial hC hrev hbd hL emb m pivot epsg p hp (hb m hm)) hn hpn hr hi

/-- C110, the part that holds, for an OBJ file whose buildings have faces one above another. Missing: as for a mesh. -/
theorem C110_visible_obj_partial {F : Type} {T : Toolbox (Out (UNode K)) F K} {lib : SoupLib K} {emb : V3 ℚ → V3 K} (U : UsesNodes T lib emb) (hlr : T.lr = true)
    {Ok : Pwh K → Prop} {Good : T.C.PSet → Prop} {Gen : V2 K → Prop} (hC : Lawful T.C Ok Good Gen)
    (hrev : ∀ (a : Poly K) p, T.C.side a.reverse p = T.C.side a p) (hbd : ∀ q r, ∀ s ∈ T.C.inter q r, s.outer ≠ []) (hL : SoupLaw lib)
    (args : Args) (fs : Fs) (t x : Text) (la : Bool) (p : K) (hp : 0 < p) (ms : List Mesh)
    (hscene : Given args "<scene>" t) (hfmt : Given args "--input-format" "OBJ".toList) (hext : NamedLike (splitSlash t) "obj".toList)
    (hfile : fs (splitSlash t) = some (.file x)) (hread : Obj.read T.rnd x = .ok ms) (hprune : Switch args "--prune" false)
    (hterrain : Switch args "--terrain" false) (ha : AsksImages T args la p)
    (hb : ∀ m ∈ ms, m.name ≠ "terrain".toList → Picturable T.C Ok Gen emb p m) (hn : (ms.map Mesh.name).Nodup) (hpn : ∀ m ∈ ms, PlainName m.name)
    (hr : Ready fs ((splitSlash t).dropLast ++ ["vectors".toList]) (ms.flatMap fun m => [m.name ++ ".shp".toList, m.name ++ ".txt".toList]))
    (hi : Ready fs ((splitSlash t).dropLast ++ ["rasters".toList]) (ms.map fun m => m.name ++ ".tiff".toList)) :
    ∃ fs', orthoMain T args fs = (.ok 0, fs') ∧ ∀ m ∈ ms, m.name ≠ "terrain".toList → ∃ r : Raster K, r.name = m.name ∧ r.epsg = 2154 ∧
      ShowsVisible T.C Ok Gen (faceShapes (m.points.map emb) (m.faces.map Face.points)) (emb ⟨0, 0, 0⟩) p r ∧
      fs' ((splitSlash t).dropLast ++ ["rasters".toList, m.name ++ ".tiff".toList]) = some (.file (T.G.tiff r.toGdal)) :=
  images_obj U hlr _ args fs t x la p hp ms hscene hfmt hext hfile hread hprune hterrain ha
    (fun m hm hne => C110_visible_partial hC hrev hbd hL emb m ⟨0, 0, 0⟩ 2154 p hp (hb m hm hne)) hn hpn hr hi

end

/-! ### Example -/

theorem block_picturable (p : ℚ) (hp : 1 ≤ p) : Picturable rectCgal RectOk RectGen _root_.id p blockMesh := by
  have bd : ∀ l ∈ faceShapes (blockMesh.points.map _root_.id) (blockMesh.faces.map Face.points), ∀ v ∈ l, 0 ≤ v.x ∧ v.x ≤ 2 ∧ 0 ≤ v.y ∧ v.y ≤ 2 := by decide +kernel
  refine ⟨block_drawable, ?_, ?_, ?_⟩
  · rw [block_shapes]
    intro l hl hn
    rw [List.mem_cons] at hl
    rcases hl with rfl | hl
    · exact steep_reverse (rect_steep (b := ⟨0, 0, 2, 2⟩) ⟨3, by decide +kernel⟩ (by decide +kernel))
    · by_cases k : l = blockRoof
      · subst k
        exact rect_steep (b := ⟨0, 0, 2, 2⟩) ⟨0, by decide +kernel⟩ (by decide +kernel)
      · exact absurd (block_walls l (by simp_all)) hn
  · rw [block_shapes]
    exact ⟨blockRoof, by simp, plain_not_line roof_plain.1⟩
  · rintro B ⟨-, ⟨l1, m1, -, v1, w1, e1⟩, ⟨l2, m2, -, v2, w2, e2⟩, ⟨l3, m3, -, v3, w3, e3⟩, l4, m4, -, v4, w4, e4⟩
    have hp0 : 0 < p := by linarith
    have b1 := bd _ m1 _ w1
    have b2 := bd _ m2 _ w2
    have b3 := bd _ m3 _ w3
    have b4 := bd _ m4 _ w4
    constructor <;> refine lt_of_le_of_lt (b := 2) (Int.ceil_le.2 ?_) (by norm_num) <;> rw [div_le_iff₀ hp0] <;> push_cast <;> nlinarith

/-- C110: the hypotheses are met: the file of a closed block, read, projected and rasterised. -/
example (lib : SoupLib ℚ) (hL : SoupLaw lib) : ∃ fs', orthoMain (nodeTools lib) pixelArgs (objFs blockObj) = (.ok 0, fs') ∧ ∃ r : Raster ℚ,
    ShowsVisible rectCgal RectOk RectGen (faceShapes (blockMesh.points.map _root_.id) (blockMesh.faces.map Face.points)) ⟨0, 0, 0⟩ 1 r ∧
    fs' ["d".toList, "rasters".toList, "block.tiff".toList] = some (.file ((nodeTools lib).G.tiff r.toGdal)) := by
  obtain ⟨fs', h1, h2⟩ := C110_visible_obj_partial (nodeTools_uses lib) rfl (Ok := RectOk) (Good := RectGood) (Gen := RectGen) rect_lawful rect_reverse rect_bounded hL pixelArgs
    (objFs blockObj) "d/a.obj".toList blockObj false 1 (by norm_num) [blockMesh] (by unfold Given; decide) (by unfold Given; decide)
    objName (by decide +kernel) blockObj_read (by unfold Switch; decide) (by unfold Switch; decide)
    (pixelArgs_asks lib) (by
      intro m hm _
      rw [List.mem_singleton] at hm
      subst hm
      exact block_picturable 1 le_rfl) (by decide) (by unfold PlainName; decide) (objFs_ready _ _) (objFs_images _ _)
  obtain ⟨r, -, -, h3, h4⟩ := h2 blockMesh (by simp) (by decide)
  exact ⟨fs', h1, r, h3, h4⟩

end City.Props
