import Verif.Props.Measure
import Verif.Model.Raster
import Verif.Lemmas.SurfDemo
/-!
C63: the centroid of a facet; areas.
-/
set_option linter.unusedSectionVars false
namespace City.Props
open City City.Spec V3

variable {S : Surf ℝ}

/-- The mean of three points. -/
noncomputable def mean3 (p q r : V3 ℝ) : V3 ℝ := ⟨(p.x + q.x + r.x) / 3, (p.y + q.y + r.y) / 3, (p.z + q.z + r.z) / 3⟩

/-- The area vector of a triangle (twice). -/
def triangleVector (p q r : V3 ℝ) : V3 ℝ := cross (vec p q) (vec p r)

theorem triangle_identity (p q r : V3 ℝ) :
    let N := triangleVector p q r
    add (add (smul (dot (cross p q) N) (add p q)) (smul (dot (cross q r) N) (add q r))) (smul (dot (cross r p) N) (add r p)) =
      sub (smul (dot N N) (add (add p q) r)) (smul (dot N p) N) := by
  ext <;> simp only [triangleVector, add, sub, smul, dot, cross, vec] <;> ring

theorem vectorArea2_triangle (p q r : V3 ℝ) : vectorArea2 [p, q, r] = triangleVector p q r := by
  unfold vectorArea2 boundary vsum triangleVector
  ext <;> simp [add, cross, vec, zero] <;> ring

/-- A facet with three corners. -/
theorem triangle_around (V : ValidSurf S) {f : Nat} (hf : f ∈ S.fs) {p q r : V3 ℝ} (hc : S.corners f = .ok [p, q, r]) :
    ∃ a b c, S.around f = .ok [a, b, c] ∧ S.next a = b ∧ S.next b = c ∧ S.next c = a ∧
      S.pt (S.vert a) = p ∧ S.pt (S.vert b) = q ∧ S.pt (S.vert c) = r := by
  obtain ⟨l, h1, h2, h3, n, n0, hl, hp⟩ := V.around hf
  unfold Surf.corners at hc
  rw [h1, Out.ok_bind] at hc
  have hc' : l.map (fun h => S.pt (S.vert h)) = [p, q, r] := Out.ok.inj hc
  have hn : n = 3 := by
    have := congrArg List.length hc'
    rw [hl] at this
    simpa using this
  subst hn
  simp only [List.range_succ, List.range_zero, List.nil_append, List.map_cons, List.map_nil, List.cons_append,
    Function.iterate_zero, id, Function.iterate_succ, Function.comp] at hl hp
  subst hl
  simp only [List.map_cons, List.map_nil, List.cons.injEq, and_true] at hc'
  exact ⟨_, _, _, h1, rfl, rfl, hp, hc'.1, hc'.2.1, hc'.2.2⟩

/-- The full claim: the centroid of a triangular facet is the mean of its corners. -/
def C63_full : Prop := ∀ (S : Surf ℝ) (f : Nat) (p q r : V3 ℝ), ValidSurf S → f ∈ S.fs → S.corners f = .ok [p, q, r] → triangleVector p q r ≠ zero →
  S.centroid f = .ok (mean3 p q r)

theorem dot_pos_of_ne {a : V3 ℝ} (h : a ≠ zero) : 0 < dot a a := by
  rcases lt_or_eq_of_le (show 0 ≤ dot a a by unfold dot; nlinarith [mul_self_nonneg a.x, mul_self_nonneg a.y, mul_self_nonneg a.z]) with h0 | h0
  · exact h0
  · exfalso; apply h
    unfold dot at h0
    ext
    · simp only [zero]; nlinarith [mul_self_nonneg a.x, mul_self_nonneg a.y, mul_self_nonneg a.z]
    · simp only [zero]; nlinarith [mul_self_nonneg a.x, mul_self_nonneg a.y, mul_self_nonneg a.z]
    · simp only [zero]; nlinarith [mul_self_nonneg a.x, mul_self_nonneg a.y, mul_self_nonneg a.z]

/-- The foot of the perpendicular from the origin to the plane of the triangle: `(n . p) n` with the unit normal `n`. -/
noncomputable def planeFoot (p q r : V3 ℝ) : V3 ℝ :=
  smul (dot (triangleVector p q r) p / dot (triangleVector p q r) (triangleVector p q r)) (triangleVector p q r)

/-- C63 (partial): on every valid surface the centroid computed for a triangle is its mean minus a third of the foot of the perpendicular from the origin to its
plane. -/
theorem C63_centroid_partial (V : ValidSurf S) (f : Nat) (hf : f ∈ S.fs) (p q r : V3 ℝ) (hc : S.corners f = .ok [p, q, r])
    (hN : triangleVector p q r ≠ zero) : S.centroid f = .ok (sub (mean3 p q r) (smul (1 / 3) (planeFoot p q r))) := by
  obtain ⟨a, b, c, h1, h2, h3, h4, h5, h6, h7⟩ := triangle_around V hf hc
  have hnn := dot_pos_of_ne hN
  have hL : 0 < Real.sqrt (dot (triangleVector p q r) (triangleVector p q r)) := Real.sqrt_pos.2 hnn
  have hL2 : Real.sqrt (dot (triangleVector p q r) (triangleVector p q r)) ^ 2 = dot (triangleVector p q r) (triangleVector p q r) := Real.sq_sqrt hnn.le
  unfold Surf.centroid Surf.normal Surf.faceArea
  simp only [hc, Out.ok_bind, h1, vectorArea2_triangle, List.foldl_cons, List.foldl_nil, h2, h3, h4, h5, h6, h7]
  congr 1
  have id := triangle_identity p q r
  simp only at id
  rw [show cross (vec p q) (vec p r) = triangleVector p q r from rfl]
  unfold planeFoot V3.norm
  generalize triangleVector p q r = N at *
  generalize hLL : Real.sqrt (dot N N) = L at *
  have hx := congrArg V3.x id
  have hy := congrArg V3.y id
  have hz := congrArg V3.z id
  have hd : ∀ u : V3 ℝ, dot u (divs N L) = dot u N / L := by
    intro u; simp only [dot, divs]; field_simp
  have hne := hL.ne'
  unfold Surf.centroidTerm
  simp only [hd]
  rw [← hL2] at hx hy hz ⊢
  simp only [add, smul, sub] at hx hy hz
  ext
  · simp only [divs, add, smul, sub, mean3, zero]
    field_simp
    linear_combination 6 * hx
  · simp only [divs, add, smul, sub, mean3, zero]
    field_simp
    linear_combination 6 * hy
  · simp only [divs, add, smul, sub, mean3, zero]
    field_simp
    linear_combination 6 * hz

/-- C63: the centroid of a triangle is right exactly when its plane contains the origin. -/
theorem C63_iff (V : ValidSurf S) (f : Nat) (hf : f ∈ S.fs) (p q r : V3 ℝ) (hc : S.corners f = .ok [p, q, r]) (hN : triangleVector p q r ≠ zero) :
    S.centroid f = .ok (mean3 p q r) ↔ dot (triangleVector p q r) p = 0 := by
  rw [C63_centroid_partial V f hf p q r hc hN]
  have hnn := dot_pos_of_ne hN
  constructor
  · intro h
    have h' : sub (mean3 p q r) (smul (1 / 3) (planeFoot p q r)) = mean3 p q r := Out.ok.inj h
    have h0 : planeFoot p q r = zero := by
      have hx := congrArg V3.x h'
      have hy := congrArg V3.y h'
      have hz := congrArg V3.z h'
      simp only [sub, smul] at hx hy hz
      ext <;> simp only [zero] <;> linarith
    unfold planeFoot at h0
    by_contra hne
    apply hN
    have hq : dot (triangleVector p q r) p / dot (triangleVector p q r) (triangleVector p q r) ≠ 0 := div_ne_zero hne hnn.ne'
    have hx := congrArg V3.x h0
    have hy := congrArg V3.y h0
    have hz := congrArg V3.z h0
    simp only [smul, zero] at hx hy hz
    ext
    · exact (mul_eq_zero.1 hx).resolve_left hq
    · exact (mul_eq_zero.1 hy).resolve_left hq
    · exact (mul_eq_zero.1 hz).resolve_left hq
  · intro h
    congr 1
    unfold planeFoot
    rw [h, zero_div]
    ext <;> simp [sub, smul]

/-- C63: for a facet whose plane contains the origin, the centroid is inside every box that contains the corners. -/
theorem C63_inside (V : ValidSurf S) (f : Nat) (hf : f ∈ S.fs) (p q r : V3 ℝ) (hc : S.corners f = .ok [p, q, r]) (hN : triangleVector p q r ≠ zero)
    (h0 : dot (triangleVector p q r) p = 0) (b : Box3 ℝ) (hb : SnugBox b [p, q, r]) :
    ∃ c, S.centroid f = .ok c ∧ b.lo.x ≤ c.x ∧ c.x ≤ b.hi.x ∧ b.lo.y ≤ c.y ∧ c.y ≤ b.hi.y ∧ b.lo.z ≤ c.z ∧ c.z ≤ b.hi.z := by
  refine ⟨_, (C63_iff V f hf p q r hc hN).2 h0, ?_⟩
  obtain ⟨p1, p2, p3, p4, p5, p6⟩ := hb.inside p (by simp)
  obtain ⟨q1, q2, q3, q4, q5, q6⟩ := hb.inside q (by simp)
  obtain ⟨r1, r2, r3, r4, r5, r6⟩ := hb.inside r (by simp)
  simp only [mean3]
  refine ⟨?_, ?_, ?_, ?_, ?_, ?_⟩ <;> linarith

/-- C63: a translation by `v` moves the computed centroid by `v` minus a third of the part of `v` normal to the facet. -/
theorem C63_translate (V : ValidSurf S) (f : Nat) (hf : f ∈ S.fs) (p q r v : V3 ℝ) (hc : S.corners f = .ok [p, q, r]) (hN : triangleVector p q r ≠ zero) :
    ∃ c c', S.centroid f = .ok c ∧ (S.transform (Aff.translation v).apply).centroid f = .ok c' ∧
      c' = sub (add c v) (smul (dot (triangleVector p q r) v / dot (triangleVector p q r) (triangleVector p q r) / 3) (triangleVector p q r)) := by
  have V' := valid_transform (m := (Aff.translation v).apply) V
  have hc' : (S.transform (Aff.translation v).apply).corners f = .ok [add p v, add q v, add r v] := by
    obtain ⟨a, b, c, h1, h2, h3, h4, h5, h6, h7⟩ := triangle_around V hf hc
    have h1' : (S.transform (Aff.translation v).apply).around f = .ok [a, b, c] := h1
    obtain ⟨l, g1, _, g3, _⟩ := V.around hf
    rw [h1] at g1
    have gl : l = [a, b, c] := by cases g1; rfl
    subst gl
    have ma := V.vert_mem a ((g3 a).1 (by simp)).1
    have mb := V.vert_mem b ((g3 b).1 (by simp)).1
    have mc := V.vert_mem c ((g3 c).1 (by simp)).1
    have tr : ∀ p : V3 ℝ, (Aff.translation v).apply p = add p v := by
      intro p; ext <;> simp [Aff.translation, Aff.apply, dot, add]
    unfold Surf.corners
    rw [h1', Out.ok_bind]
    simp only [Surf.transform, List.map_cons, List.map_nil, ma, mb, mc, if_true, h5, h6, h7, tr]
  have hT : triangleVector (add p v) (add q v) (add r v) = triangleVector p q r := by
    ext <;> simp only [triangleVector, cross, vec, add] <;> ring
  have e := C63_centroid_partial V' f hf _ _ _ hc' (by rw [hT]; exact hN)
  refine ⟨_, _, C63_centroid_partial V f hf p q r hc hN, e, ?_⟩
  unfold planeFoot
  rw [hT]
  have hd : dot (triangleVector p q r) (add p v) = dot (triangleVector p q r) p + dot (triangleVector p q r) v := by
    simp only [dot, add]; ring
  rw [hd]
  ext <;> simp only [sub, add, smul, mean3] <;> ring

/-- C63 is false: for a triangle at height 3 the centroid is at height 2. -/
theorem C63_refuted : ¬ C63_full := by
  intro h
  have V := realSurf_valid panel_valid
  have hf : 0 ∈ (realSurf panel).fs := by decide +kernel
  have hc : (realSurf panel).corners 0 = .ok [⟨2, 0, 3⟩, ⟨2, 2, 3⟩, ⟨0, 0, 3⟩] := by
    have ha : panel.around 0 = .ok [0, 1, 2] := by decide +kernel
    have ha' : (realSurf panel).around 0 = .ok [0, 1, 2] := ha
    unfold Surf.corners
    rw [ha', Out.ok_bind]
    have e0 : panel.pt (panel.vert 0) = ⟨2, 0, 3⟩ := by decide +kernel
    have e1 : panel.pt (panel.vert 1) = ⟨2, 2, 3⟩ := by decide +kernel
    have e2 : panel.pt (panel.vert 2) = ⟨0, 0, 3⟩ := by decide +kernel
    simp only [List.map_cons, List.map_nil, realSurf, e0, e1, e2]
    norm_num
  have hN : triangleVector ⟨2, 0, 3⟩ ⟨2, 2, 3⟩ ⟨0, 0, 3⟩ = ⟨0, 0, 4⟩ := by
    ext <;> simp only [triangleVector, cross, vec] <;> norm_num
  have hN0 : triangleVector ⟨2, 0, 3⟩ ⟨2, 2, 3⟩ ⟨0, 0, 3⟩ ≠ zero := by
    rw [hN]; intro h; have := congrArg V3.z h; simp [zero] at this
  have := (C63_iff V 0 hf _ _ _ hc hN0).1 (h _ 0 _ _ _ V hf hc hN0)
  rw [hN] at this
  norm_num [dot] at this

/-- C63: the area of a triangular facet is half the length of its area vector. -/
theorem C63_area (f : Nat) (p q r : V3 ℝ) (hc : S.corners f = .ok [p, q, r]) :
    S.faceArea f = .ok (V3.norm (triangleVector p q r) / 2) := by
  unfold Surf.faceArea
  rw [hc, Out.ok_bind]
  rfl

/-- The area of a triangle is determined by the squares of its sides (Heron). -/
theorem heron (p q r : V3 ℝ) : dot (triangleVector p q r) (triangleVector p q r) =
    dist2 p q * dist2 p r - ((dist2 p q + dist2 p r - dist2 q r) / 2) ^ 2 := by
  simp only [triangleVector, dist2, dot, cross, vec]; ring

theorem corners_transform (V : ValidSurf S) (m : V3 ℝ → V3 ℝ) {f : Nat} (hf : f ∈ S.fs) {l : List (V3 ℝ)} (h : S.corners f = .ok l) :
    (S.transform m).corners f = .ok (l.map m) := by
  obtain ⟨c, h1, h2, h3, _⟩ := V.around hf
  have h1' : (S.transform m).around f = .ok c := h1
  unfold Surf.corners at h ⊢
  rw [h1, Out.ok_bind] at h
  rw [h1', Out.ok_bind]
  have := Out.ok.inj h
  rw [← this, List.map_map]
  congr 1
  refine List.map_congr_left fun x hx => ?_
  have hx' := ((h3 x).1 hx).1
  simp only [Surf.transform, V.vert_mem x hx', if_true, Function.comp]

/-- C63: when all distances are multiplied by `c` (`1` for translations and rotations, `|s|` for a scaling by `s`) the area of a triangular facet is multiplied by `c²`. -/
theorem C63_area_transform (V : ValidSurf S) (m : V3 ℝ → V3 ℝ) (c : ℝ) (hm : ∀ p q, dist2 (m p) (m q) = c ^ 2 * dist2 p q) (f : Nat) (hf : f ∈ S.fs)
    (p q r : V3 ℝ) (hc : S.corners f = .ok [p, q, r]) : (S.transform m).faceArea f = .ok (c ^ 2 * (V3.norm (triangleVector p q r) / 2)) := by
  rw [C63_area f (m p) (m q) (m r) (corners_transform V m hf hc)]
  congr 1
  unfold V3.norm
  rw [heron, heron, hm, hm, hm, show c ^ 2 * dist2 p q * (c ^ 2 * dist2 p r) - ((c ^ 2 * dist2 p q + c ^ 2 * dist2 p r - c ^ 2 * dist2 q r) / 2) ^ 2 =
    (c ^ 2) ^ 2 * (dist2 p q * dist2 p r - ((dist2 p q + dist2 p r - dist2 q r) / 2) ^ 2) by ring, Real.sqrt_mul (sq_nonneg _), Real.sqrt_sq (sq_nonneg c)]
  ring

theorem mapM_area {S' : Surf ℝ} {A : Nat → ℝ} : ∀ l : List Nat, (∀ f ∈ l, S'.faceArea f = .ok (A f)) →
    Out.mapM (fun f => S'.faceArea f) l = .ok (l.map A)
  | [], _ => rfl
  | f :: l, h => by
    rw [Out.mapM_cons, h f List.mem_cons_self, Out.ok_bind, mapM_area l fun x hx => h x (List.mem_cons_of_mem _ hx), Out.ok_bind]
    rfl

/-- C63: `area(unode)` of a triangulated surface is the sum of the areas of its triangles, every facet counted once; it is multiplied by `c²` when all distances are
multiplied by `c`. -/
theorem C63_total_area (V : ValidSurf S) (P Q R : Nat → V3 ℝ) (hT : ∀ f ∈ S.fs, S.corners f = .ok [P f, Q f, R f]) :
    S.area = .ok ((S.fs.map fun f => V3.norm (triangleVector (P f) (Q f) (R f)) / 2).sum) ∧
    ∀ (m : V3 ℝ → V3 ℝ) (c : ℝ), (∀ p q, dist2 (m p) (m q) = c ^ 2 * dist2 p q) →
      (S.transform m).area = .ok (c ^ 2 * (S.fs.map fun f => V3.norm (triangleVector (P f) (Q f) (R f)) / 2).sum) := by
  have hs : ∀ l : List ℝ, l.foldl (· + ·) 0 = l.sum := fun l => by rw [← List.sum_eq_foldl]
  constructor
  · unfold Surf.area
    rw [mapM_area S.fs fun f hf => C63_area f _ _ _ (hT f hf), Out.ok_bind, hs]
  · intro m c hm
    unfold Surf.area
    rw [mapM_area (S.transform m).fs fun f hf => C63_area_transform V m c hm f hf _ _ _ (hT f hf), Out.ok_bind, hs, ← List.sum_map_mul_left]
    rfl

/-- C63: `area` is undefined as soon as one facet is no triangle (CGAL documents `face_area` for triangles only). -/
theorem C63_total_area_ub (f : Nat) (hf : f ∈ S.fs) (h0 : ∀ g ∈ S.fs, ∃ l, S.corners g = .ok l) (l : List (V3 ℝ)) (hl : S.corners f = .ok l) (h3 : l.length ≠ 3) :
    S.area = .ub := by
  have key : ∀ fs : List Nat, (∀ g ∈ fs, ∃ l, S.corners g = .ok l) → f ∈ fs → Out.mapM (fun f => S.faceArea f) fs = .ub := by
    intro fs
    induction fs with
    | nil => intro _ h; simp at h
    | cons g fs ih =>
      intro h0 h
      rw [Out.mapM_cons]
      obtain ⟨k, hk⟩ := h0 g List.mem_cons_self
      have hg : (∃ a, S.faceArea g = .ok a) ∨ S.faceArea g = .ub := by
        unfold Surf.faceArea
        rw [hk, Out.ok_bind]
        split
        · exact .inl ⟨_, rfl⟩
        · exact .inr rfl
      rcases hg with ⟨a, ha⟩ | hu
      · rw [ha, Out.ok_bind]
        rcases List.mem_cons.1 h with rfl | h
        · exfalso
          unfold Surf.faceArea at ha
          rw [hl, Out.ok_bind] at ha
          split at ha
          · exact h3 rfl
          · cases ha
        · rw [ih (fun x hx => h0 x (List.mem_cons_of_mem _ hx)) h]; rfl
      · rw [hu]; rfl
  unfold Surf.area
  rw [key S.fs h0 hf]; rfl

theorem realSurf_corners {T : Surf ℚ} {f : Nat} {l : List (V3 ℚ)} (h : T.corners f = .ok l) :
    (realSurf T).corners f = .ok (l.map fun p => ⟨(p.x : ℝ), p.y, p.z⟩) := by
  unfold Surf.corners at h ⊢
  obtain ⟨c, h1, h2⟩ := Out.bind_eq_ok.1 h
  have h1' : (realSurf T).around f = .ok c := h1
  rw [h1', Out.ok_bind]
  have := Out.ok.inj h2
  rw [← this, List.map_map]
  rfl

/-- The hypotheses of `C63_total_area` hold for the two triangles of a square of side 2; the total area is 4. -/
example : (realSurf panel).area = .ok 4 := by
  have h0 : panel.corners 0 = .ok [⟨2, 0, 3⟩, ⟨2, 2, 3⟩, ⟨0, 0, 3⟩] := by decide +kernel
  have h1 : panel.corners 1 = .ok [⟨2, 2, 3⟩, ⟨0, 2, 3⟩, ⟨0, 0, 3⟩] := by decide +kernel
  have hfs : (realSurf panel).fs = [0, 1] := by decide +kernel
  rw [(C63_total_area (realSurf_valid panel_valid) (fun f => if f = 0 then ⟨2, 0, 3⟩ else ⟨2, 2, 3⟩) (fun f => if f = 0 then ⟨2, 2, 3⟩ else ⟨0, 2, 3⟩)
    (fun _ => ⟨0, 0, 3⟩) (by
      intro f hf
      rw [hfs] at hf
      simp only [List.mem_cons, List.not_mem_nil, or_false] at hf
      rcases hf with rfl | rfl
      · rw [realSurf_corners h0]; norm_num
      · rw [realSurf_corners h1]; norm_num)).1, hfs]
  congr 1
  have e : ∀ p q r : V3 ℝ, dot (triangleVector p q r) (triangleVector p q r) = 4 ^ 2 → V3.norm (triangleVector p q r) = 4 := fun p q r h => by
    unfold V3.norm; rw [h, Real.sqrt_sq (by norm_num)]
  simp only [List.map_cons, List.map_nil, List.sum_cons, List.sum_nil, if_true, one_ne_zero, if_false]
  rw [e _ _ _ (by norm_num [triangleVector, dot, cross, vec]),
    e _ _ _ (by norm_num [triangleVector, dot, cross, vec])]
  norm_num

/-! The centroid of a polygon -/

section
variable {K : Type} [Field K] [LinearOrder K] [IsStrictOrderedRing K]

theorem unique_mem : ∀ (l : List (V2 K)) (x : V2 K), x ∈ unique l ↔ x ∈ l
  | [], x => by simp [unique]
  | [a], x => by simp [unique]
  | a :: b :: t, x => by
    unfold unique
    split
    · rename_i h
      rw [unique_mem (a :: t) x, h]; simp
    · simp only [List.mem_cons, unique_mem (b :: t) x]
termination_by l => l.length

theorem unique_chain : ∀ l : List (V2 K), l.IsChain (· ≠ ·) → unique l = l
  | [], _ => by simp [unique]
  | [a], _ => by simp [unique]
  | a :: b :: t, h => by
    rw [List.isChain_cons_cons] at h
    unfold unique
    rw [if_neg h.1, unique_chain (b :: t) h.2]

theorem unique_repeat (a : V2 K) (t : List (V2 K)) : unique (a :: a :: t) = unique (a :: t) := by
  conv_lhs => unfold unique
  rw [if_pos rfl]

theorem mean_between (g : V2 K → K) (lo hi : K) : ∀ l : List (V2 K), l ≠ [] → (∀ p ∈ l, lo ≤ g p ∧ g p ≤ hi) →
    lo ≤ (l.map g).sum / l.length ∧ (l.map g).sum / l.length ≤ hi := by
  intro l hl h
  have hn : (0 : K) < l.length := by exact_mod_cast List.length_pos_of_ne_nil hl
  have key : ∀ l : List (V2 K), (∀ p ∈ l, lo ≤ g p ∧ g p ≤ hi) → lo * l.length ≤ (l.map g).sum ∧ (l.map g).sum ≤ hi * l.length := by
    intro l
    induction l with
    | nil => intro _; simp
    | cons p l ih =>
      intro h
      obtain ⟨a, b⟩ := ih fun q hq => h q (List.mem_cons_of_mem _ hq)
      obtain ⟨c, d⟩ := h p List.mem_cons_self
      simp only [List.map_cons, List.sum_cons, List.length_cons, Nat.cast_succ]
      constructor <;> linarith
  obtain ⟨a, b⟩ := key l h
  exact ⟨(le_div_iff₀ hn).2 a, (div_le_iff₀ hn).2 b⟩

/-- C63: the centroid of a polygon (mean of its corners, used to find the height of a pixel) exists for every polygon with a vertex and lies in every box that
contains the rounded vertices of its outer boundary; it is their mean if no two consecutive ones coincide. -/
theorem C63_polygon (C : Cgal K) (q : Pwh K) :
    (q.outer = [] → centroid C q = .ub) ∧
    (q.outer ≠ [] → ∃ c, centroid C q = .ok c ∧ ∀ x0 x1 y0 y1 : K,
      (∀ v ∈ q.outer, x0 ≤ C.toDouble v.x ∧ C.toDouble v.x ≤ x1 ∧ y0 ≤ C.toDouble v.y ∧ C.toDouble v.y ≤ y1) →
      x0 ≤ c.x ∧ c.x ≤ x1 ∧ y0 ≤ c.y ∧ c.y ≤ y1) ∧
    ((q.outer.map fun v => (⟨C.toDouble v.x, C.toDouble v.y⟩ : V2 K)).IsChain (· ≠ ·) → q.outer ≠ [] → centroid C q =
      .ok ⟨(q.outer.map fun v => C.toDouble v.x).sum / q.outer.length, (q.outer.map fun v => C.toDouble v.y).sum / q.outer.length⟩) := by
  refine ⟨?_, ?_, ?_⟩
  · intro h
    simp [centroid, h, unique]
  · intro h
    obtain ⟨l, hl⟩ : ∃ l, unique (q.outer.map fun v => (⟨C.toDouble v.x, C.toDouble v.y⟩ : V2 K)) = l := ⟨_, rfl⟩
    have hmem : ∀ x, x ∈ l ↔ x ∈ q.outer.map fun v => (⟨C.toDouble v.x, C.toDouble v.y⟩ : V2 K) := by
      intro x; rw [← hl]; exact unique_mem _ x
    have hne : l ≠ [] := by
      obtain ⟨v, hv⟩ := List.exists_mem_of_ne_nil _ h
      intro h0
      have := (hmem _).2 (List.mem_map_of_mem (f := fun v : V2 K => (⟨C.toDouble v.x, C.toDouble v.y⟩ : V2 K)) hv)
      rw [h0] at this
      simp at this
    refine ⟨⟨(l.map V2.x).sum / l.length, (l.map V2.y).sum / l.length⟩, ?_, ?_⟩
    · unfold centroid
      rw [hl]
      cases l with
      | nil => exact absurd rfl hne
      | cons _ _ => rfl
    · intro x0 x1 y0 y1 hb
      have hin : ∀ p ∈ l, x0 ≤ p.x ∧ p.x ≤ x1 ∧ y0 ≤ p.y ∧ p.y ≤ y1 := by
        intro p hp
        obtain ⟨v, hv, rfl⟩ := List.mem_map.1 ((hmem p).1 hp)
        exact hb v hv
      obtain ⟨a, b⟩ := mean_between V2.x x0 x1 l hne fun p hp => ⟨(hin p hp).1, (hin p hp).2.1⟩
      obtain ⟨c, d⟩ := mean_between V2.y y0 y1 l hne fun p hp => ⟨(hin p hp).2.2.1, (hin p hp).2.2.2⟩
      exact ⟨a, b, c, d⟩
  · intro hch hne
    unfold centroid
    rw [unique_chain _ hch]
    cases h : q.outer with
    | nil => exact absurd h hne
    | cons v t => simp [Function.comp_def]
end

end City.Props
