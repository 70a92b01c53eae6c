import Verif.Lemmas.Mesh3ds
import Verif.Props.Vec
import Mathlib.Algebra.Order.Ring.Abs
import Mathlib.Data.List.TakeWhile
/-!
Properties C16 (3DS round trip of a mesh) and C17 (16 bit limits).
-/
set_option linter.unusedSectionVars false
namespace City.Props
open City Spec V3

/-- The first three vertices of a face. -/
def firstThree (f : Face) : List Nat := f.points.take 3

/-- Twice the area of the triangle of the first three vertices of the face. -/
noncomputable def firstArea2 (co : List (V3 ℝ)) (f : Face) : ℝ :=
  norm (cross (sub (pt co (f.points.getD 1 0)) (pt co (f.points.getD 0 0)))
    (sub (pt co (f.points.getD 2 0)) (pt co (f.points.getD 1 0))))

/-- The requirements of the 3DS format on a mesh. -/
def Fits3ds (m : RMesh) : Prop := (cName m.name).length < 63 ∧ m.points.length < 65536

/-- All indexes valid, all faces of degree at least three and not larger than the number of points. -/
def ValidR (m : RMesh) : Prop :=
  ∀ f ∈ m.faces, 3 ≤ f.degree ∧ f.degree ≤ m.points.length ∧ ∀ i ∈ f.points, i < m.points.length

/-- Every face is accepted by `is_convex`. -/
def AllConvex (m : RMesh) : Prop := ∀ f ∈ m.faces, Face.isConvex f m.points = .ok true

/-- The machine epsilon of doubles, 2 to the power -52. -/
noncomputable def epsilon52 : ℝ := 1 / 2 ^ 52

theorem epsilon52_eq : dblEps = epsilon52 := rfl

open Classical in
/-- What one face becomes: the triangle of its first three vertices, kept when its doubled area exceeds the machine
epsilon, turned over otherwise. -/
noncomputable def stored (co : List (V3 ℝ)) (f : Face) : Face :=
  Face.ofTriple (f.points.getD 0 0) (f.points.getD 1 0) (f.points.getD 2 0) (decide (epsilon52 < firstArea2 co f))

/-- C16: exact behaviour of the round trip for every mesh that fits the format: points are kept, each face is
replaced by its first triangle, and one face `(0,0,0)` is added for each of the triangles that were not stored. -/
theorem C16_exact (m : RMesh) (hfit : Fits3ds m) (hv : ValidR m) (hc : AllConvex m) :
    ∃ d, m.to3ds = .ok d ∧ RMesh.of3ds d = .ok ⟨cName m.name, m.points,
      m.faces.map (stored m.points) ++
        List.replicate ((m.faces.map fun f => f.degree - 3).sum) ⟨[0, 0, 0]⟩⟩ := by
  obtain ⟨ts, hts, hF⟩ := fill_ok m.points hfit.2 (faceSlots m.faces) m.faces 0
    (by have := faceSlots_ge m.faces fun f hf => (hv f hf).1; simpa using this)
    (fun f hf => ⟨(hv f hf).1, (hv f hf).2.1, (hv f hf).2.2, hc f hf⟩)
  refine ⟨⟨cName m.name, m.points,
      ts ++ List.replicate ((faceSlots m.faces).toNat - ts.length) Face3ds.zero⟩, ?_, ?_⟩
  · unfold RMesh.to3ds
    rw [if_neg (by have := hfit.1; omega), if_neg (by have := hfit.2; omega), hts, Out.ok_bind]
  · have hcount : (faceSlots m.faces).toNat - ts.length = (m.faces.map fun f => f.degree - 3).sum := by
      rw [← hF.length_eq]
      clear hF hts hc hfit
      have hv' : ∀ f ∈ m.faces, 3 ≤ f.points.length := fun f hf => (hv f hf).1
      clear hv
      generalize m.faces = fs at *
      have : faceSlots fs = ((fs.map fun f => f.degree - 3).sum + fs.length : Nat) := by
        induction fs with
        | nil => rfl
        | cons f fs ih =>
          have h3 := hv' f (by simp)
          rw [faceSlots_cons, ih fun f hf => hv' f (by simp [hf])]
          simp only [List.map_cons, List.sum_cons, List.length_cons, Face.degree]
          push_cast
          omega
      rw [this, Int.toNat_natCast]; omega
    unfold RMesh.of3ds
    simp only [hcount]
    have h1 : Out.mapM (faceOf3ds m.points) ts = .ok (m.faces.map (stored m.points)) := by
      rw [Out.mapM_eq_ok]
      have hv' : ∀ f ∈ m.faces, 3 ≤ f.degree ∧ ∀ i ∈ f.points, i < m.points.length :=
        fun f hf => ⟨(hv f hf).1, (hv f hf).2.2⟩
      clear hcount hts hc hv
      generalize m.faces = fs at *
      induction hF with
      | nil => exact .nil
      | @cons f t fs' ts' hx _ ih =>
        refine .cons ?_ (ih fun f hf => hv' f (by simp [hf]))
        obtain ⟨htk, hn⟩ := hx
        obtain ⟨h3, hval⟩ := hv' f (by simp)
        unfold Face.degree at h3
        match hp : f.points with
        | [] => simp [hp] at h3
        | [_] => simp [hp] at h3
        | [_, _] => simp [hp] at h3
        | a :: b :: c :: r =>
          rw [hp] at htk hval
          simp only [List.take_succ_cons, List.take_zero, List.cons.injEq, and_true] at htk
          obtain ⟨ea, eb, ec⟩ := htk
          have va := hval a (by simp); have vb := hval b (by simp); have vc := hval c (by simp)
          unfold faceOf3ds
          rw [← ea, ← eb, ← ec] at hn ⊢
          rw [Out.idx_ok va, Out.ok_bind, Out.idx_ok vb, Out.ok_bind, Out.idx_ok vc, Out.ok_bind]
          have pa : m.points[a] = pt m.points a := by simp [pt, va]
          have pb : m.points[b] = pt m.points b := by simp [pt, vb]
          have pc : m.points[c] = pt m.points c := by simp [pt, vc]
          rw [hn, pa, pb, pc, det_normalTo]
          simp [stored, firstArea2, hp, epsilon52_eq]
    have h2 : ∀ n, (0 < n → 0 < m.points.length) → Out.mapM (faceOf3ds m.points) (List.replicate n Face3ds.zero)
        = .ok (List.replicate n ⟨[0, 0, 0]⟩) := by
      intro n hn
      have : ∀ x ∈ List.replicate n Face3ds.zero, faceOf3ds m.points x = .ok ((fun _ => ⟨[0, 0, 0]⟩ : Face3ds → Face) x) := by
        intro x hx
        obtain ⟨h0, rfl⟩ := List.mem_replicate.1 hx
        unfold faceOf3ds
        have hl := hn (by omega)
        simp only [Face3ds.zero]
        rw [Out.idx_ok hl, Out.ok_bind, Out.ok_bind, Out.ok_bind]
        unfold Face.ofTriple
        split <;> rfl
      rw [Out.mapM_ok_of this]
      simp
    rw [Out.mapM_append h1 (h2 _ ?_), Out.ok_bind]
    intro hpos
    cases hfs : m.faces with
    | nil => simp [hfs] at hpos
    | cons f fs =>
      have := hv f (by simp [hfs]); omega

/-- C16 (full statement, false of the code): a mesh of valid faces is read back with the triangulation of its faces:
in particular no triangle of the result is made of a single point and all polygons are covered. -/
def C16_full : Prop :=
  ∀ m : RMesh, Fits3ds m → ValidR m → AllConvex m → ∃ d r, m.to3ds = .ok d ∧ RMesh.of3ds d = .ok r ∧
    r.points = m.points ∧
    (r.faces.flatMap fun f => boundary f.points).Perm
      (m.faces.flatMap fun f => (fan (f.points.getD 0 0) f.points.tail).flatMap boundary)

/-- C16: meshes of triangles, each with a doubled area above the machine epsilon, come back unchanged.
Missing from the full property: faces of degree above three and almost degenerate triangles. -/
theorem C16_triangles_partial (m : RMesh) (hfit : Fits3ds m) (hv : ValidR m) (h3 : ∀ f ∈ m.faces, f.degree = 3)
    (hname : '\x00' ∉ m.name) (harea : ∀ f ∈ m.faces, epsilon52 < firstArea2 m.points f) :
    ∃ d, m.to3ds = .ok d ∧ RMesh.of3ds d = .ok m := by
  obtain ⟨d, hd, hr⟩ := C16_exact m hfit hv fun f hf =>
    C09_triangle f m.points (h3 f hf) (by have := hv f hf; rw [← h3 f hf]; exact this.2.1)
  refine ⟨d, hd, ?_⟩
  rw [hr]
  have e1 : cName m.name = m.name := by
    unfold cName
    rw [List.takeWhile_eq_self_iff]
    intro c hc
    simp only [bne_iff_ne, ne_eq]
    rintro rfl
    exact hname hc
  have e2 : m.faces.map (stored m.points) = m.faces := by
    conv_rhs => rw [← List.map_id m.faces]
    apply List.map_congr_left
    intro f hf
    have hl := h3 f hf
    unfold Face.degree at hl
    obtain ⟨p⟩ := f
    match p, hl with
    | [a, b, c], _ => simp [stored, Face.ofTriple, harea _ hf]
  have e3 : (m.faces.map fun f => f.degree - 3).sum = 0 := by
    have : (m.faces.map fun f => f.degree - 3) = m.faces.map fun _ => 0 := by
      apply List.map_congr_left
      intro f hf
      rw [h3 f hf]
    rw [this]; simp
  rw [e1, e2, e3]
  simp

/-- C16: a triangle with doubled area at most the machine epsilon comes back turned over. -/
theorem C16_tiny_flipped (co : List (V3 ℝ)) (a b c : Nat) (h : firstArea2 co ⟨[a, b, c]⟩ ≤ epsilon52) :
    stored co ⟨[a, b, c]⟩ = ⟨[a, c, b]⟩ := by
  simp [stored, Face.ofTriple, not_lt.2 h]

/-- The unit square as a mesh with one quadrilateral. -/
def quad : RMesh := ⟨['q'], [⟨0, 0, 0⟩, ⟨1, 0, 0⟩, ⟨1, 1, 0⟩, ⟨0, 1, 0⟩], [⟨[0, 1, 2, 3]⟩]⟩

theorem quad_ok : Fits3ds quad ∧ ValidR quad ∧ AllConvex quad := by
  refine ⟨⟨by decide, by simp [quad]⟩, ?_, ?_⟩
  · intro f hf
    simp only [quad, List.mem_singleton] at hf
    subst hf
    simp [Face.degree, quad]
  · intro f hf
    simp only [quad, List.mem_singleton] at hf
    subst hf
    rw [isConvex_eq (vs := quad.points) (by simp [Resolves, quad]) (by simp [quad]) (by simp)]
    congr 1
    rw [decide_eq_true_iff]
    intro i hi
    simp only [quad, List.length_cons, List.length_nil] at hi
    have : i = 0 ∨ i = 1 ∨ i = 2 ∨ i = 3 := by omega
    rcases this with rfl | rfl | rfl | rfl <;> simp [codeTurn, cyc, dot, cross, vec, quad]

/-- C16 refuted: the unit square comes back as one triangle and a degenerate face `(0,0,0)`: half of it is lost. -/
theorem C16_refuted : ¬ C16_full := by
  intro h
  obtain ⟨d, r, hd, hr, -, hperm⟩ := h quad quad_ok.1 quad_ok.2.1 quad_ok.2.2
  obtain ⟨d', hd', hr'⟩ := C16_exact quad quad_ok.1 quad_ok.2.1 quad_ok.2.2
  rw [hd] at hd'
  cases hd'
  rw [hr] at hr'
  cases hr'
  have hm : ((2, 3) : Nat × Nat) ∈ (quad.faces.flatMap fun f => (fan (f.points.getD 0 0) f.points.tail).flatMap boundary) := by
    decide
  have hm' := hperm.mem_iff.2 hm
  simp only [quad, Face.degree, List.map_cons, List.map_nil, List.length_cons, List.length_nil, List.sum_cons,
    List.sum_nil, stored, Face.ofTriple] at hm'
  split at hm' <;> simp [boundary] at hm'

/-- A mesh meeting the hypotheses of `C16_triangles_partial`. -/
def oneTri : RMesh := ⟨['t'], [⟨0, 0, 0⟩, ⟨1, 0, 0⟩, ⟨0, 1, 0⟩], [⟨[0, 1, 2]⟩]⟩

example : Fits3ds oneTri ∧ ValidR oneTri ∧ (∀ f ∈ oneTri.faces, f.degree = 3) ∧ '\x00' ∉ oneTri.name ∧
    ∀ f ∈ oneTri.faces, epsilon52 < firstArea2 oneTri.points f := by
  refine ⟨⟨by decide, by simp [oneTri]⟩, ?_, ?_, by decide, ?_⟩
  · intro f hf
    simp only [oneTri, List.mem_singleton] at hf; subst hf
    simp [Face.degree, oneTri]
  · intro f hf
    simp only [oneTri, List.mem_singleton] at hf; subst hf
    rfl
  · intro f hf
    simp only [oneTri, List.mem_singleton] at hf; subst hf
    have : firstArea2 oneTri.points ⟨[0, 1, 2]⟩ = 1 := by
      simp [firstArea2, oneTri, pt, norm, cross, sub, dot]
    rw [this]
    unfold epsilon52
    norm_num

/-! ### C17 -/

/-- C17 (full statement, false of the code): `to_3ds` never has undefined behaviour. -/
def C17_full : Prop := ∀ m : RMesh, ValidR m → m.to3ds ≠ .ub

/-- C17: within the limits (63 characters, 65535 points) conversion has no undefined behaviour, whatever the faces of
degree at least three (convex or not, valid indexes or not).
Missing from the full property: longer names and larger meshes, where it is undefined (`C17_undefined`). -/
theorem C17_defined_partial (m : RMesh) (hfit : Fits3ds m) (h3 : ∀ f ∈ m.faces, 3 ≤ f.degree) : m.to3ds ≠ .ub := by
  unfold RMesh.to3ds
  rw [if_neg (by have := hfit.1; omega), if_neg (by have := hfit.2; omega)]
  have key : ∀ (fs : List Face) (k : Nat), (k : Int) + fs.length ≤ faceSlots m.faces →
      fillSlots m.points (faceSlots m.faces) k fs ≠ .ub := by
    intro fs
    induction fs with
    | nil => intro k _; simp [fillSlots]
    | cons f fs ih =>
      intro k hk h
      simp only [List.length_cons] at hk
      rw [fillSlots] at h
      rcases Out.bind_eq_ub.1 h with h | ⟨ts, hts, h⟩
      · exact (C10_errors f m.points).1 h
      · obtain ⟨a, b, c, t, t0, ts', -, rfl, -⟩ := to3ds_first hts
        rcases Out.bind_eq_ub.1 h with h | ⟨t', -, h⟩
        · simp [Out.idx] at h
        · rw [if_pos (by omega)] at h
          rcases Out.bind_eq_ub.1 h with h | ⟨_, _, h⟩
          · exact ih (k + 1) (by push_cast; omega) h
          · cases h
  intro h
  rcases Out.bind_eq_ub.1 h with h | ⟨_, _, h⟩
  · exact key m.faces 0 (by have := faceSlots_ge m.faces h3; simpa using this) h
  · cases h

/-- C17: within the limits no index is changed by the conversion to 16 bit words. -/
theorem C17_indexes_kept (m : RMesh) (hfit : Fits3ds m) (hv : ValidR m) :
    ∀ f ∈ m.faces, ∀ i ∈ f.points, word i = i := by
  intro f hf i hi
  exact Nat.mod_eq_of_lt (lt_trans ((hv f hf).2.2 i hi) hfit.2)

/-- C17: beyond the limits conversion is undefined: 65536 points or more, or a name of 63 characters or more. -/
theorem C17_undefined (m : RMesh) (h : 65536 ≤ m.points.length ∨ 63 ≤ (cName m.name).length) : m.to3ds = .ub := by
  unfold RMesh.to3ds
  by_cases h' : 63 ≤ (cName m.name).length
  · rw [if_pos h']
  · rw [if_neg h', if_pos (h.resolve_right h')]

/-- C17 refuted. -/
theorem C17_refuted : ¬ C17_full := by
  intro h
  refine h ⟨[], List.replicate 65536 ⟨0, 0, 0⟩, []⟩ (by intro f hf; simp at hf) (C17_undefined _ (Or.inl ?_))
  exact le_of_eq List.length_replicate.symm

end City.Props
