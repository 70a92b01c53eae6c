import Verif.Lemmas.Mesh
/-!
Properties C12, C13, C14 and C15: concatenation, bounding boxes and equality of meshes.
-/
namespace City.Props
open City Spec

/-- C12: sizes add up (for a non empty left operand; the empty mesh copies the other one). -/
theorem C12_sizes (a b : Mesh) (h : a.points = [] → a.faces = []) :
    (a.add b).points.length = a.points.length + b.points.length ∧
    (a.add b).faces.length = a.faces.length + b.faces.length := by
  by_cases h0 : a.points = []
  · rw [Mesh.add, append_of_empty h0]
    simp [Mesh.assign, h0, h h0]
  · rw [Mesh.add, append_of_nonempty h0]; simp

/-- C12: the polygons of the sum are those of the left mesh followed by those of the right one, and the sum of valid
meshes is valid. -/
theorem C12_polygons (a b : Mesh) (ha : Valid a) (hb : Valid b) (h : a.points = [] → a.faces = []) :
    polygons (a.add b) = polygons a ++ polygons b ∧ Valid (a.add b) := by
  by_cases h0 : a.points = []
  · rw [Mesh.add, append_of_empty h0]
    refine ⟨by simp [polygons, Mesh.assign, h h0], hb⟩
  · rw [Mesh.add, append_of_nonempty h0]
    constructor
    · simp only [polygons, List.map_append, List.map_map]
      congr 1
      · apply List.map_congr_left
        intro f hf
        exact polygon_append_left (ha f hf)
      · apply List.map_congr_left
        intro f _
        exact polygon_append_offset _ _ f
    · intro f hf i hi
      simp only [List.mem_append, List.mem_map, List.length_append] at hf ⊢
      rcases hf with hf | ⟨g, hg, rfl⟩
      · have := ha f hf i hi; omega
      · simp only [Face.offset, List.mem_map] at hi
        obtain ⟨j, hj, rfl⟩ := hi
        have := hb g hg j hj; omega

/-- C12: concatenating any number of valid meshes, starting from `Mesh()`, keeps every polygon, in order. -/
theorem C12_sum (ms : List Mesh) (hv : ∀ m ∈ ms, Valid m ∧ (m.points = [] → m.faces = [])) :
    polygons (Mesh.sumFrom Mesh.empty ms) = ms.flatMap polygons ∧
    (Mesh.sumFrom Mesh.empty ms).points = ms.flatMap (·.points) ∧
    Valid (Mesh.sumFrom Mesh.empty ms) := by
  have key : ∀ (ms : List Mesh) (a : Mesh), (∀ m ∈ ms, Valid m ∧ (m.points = [] → m.faces = [])) →
      Valid a → (a.points = [] → a.faces = []) →
      polygons (Mesh.sumFrom a ms) = polygons a ++ ms.flatMap polygons ∧
      (Mesh.sumFrom a ms).points = a.points ++ ms.flatMap (·.points) ∧
      Valid (Mesh.sumFrom a ms) := by
    intro ms
    induction ms with
    | nil => intro a _ ha _; simp [Mesh.sumFrom, ha]
    | cons m ms ih =>
      intro a hms ha ha0
      have hm := hms m (by simp)
      have hp := C12_polygons a m ha hm.1 ha0
      have hpts : (a.add m).points = a.points ++ m.points := by
        by_cases h0 : a.points = []
        · rw [Mesh.add, append_of_empty h0]; simp [Mesh.assign, h0]
        · rw [Mesh.add, append_of_nonempty h0]
      have h0 : (a.add m).points = [] → (a.add m).faces = [] := by
        intro h
        rw [hpts, List.append_eq_nil_iff] at h
        have := (C12_sizes a m ha0).2
        rw [ha0 h.1, hm.2 h.2] at this
        simpa using this
      have := ih (a.add m) (fun x hx => hms x (by simp [hx])) hp.2 h0
      simp only [Mesh.sumFrom, List.foldl_cons] at this ⊢
      rw [this.1, this.2.1, hp.1, hpts]
      refine ⟨?_, ?_, this.2.2⟩ <;> simp
  have := key ms Mesh.empty hv (by intro f hf; simp [Mesh.empty] at hf) (fun _ => rfl)
  simpa [polygons, Mesh.empty] using this

/-- A triangle and a square used to show that hypotheses are met. -/
def demoTri : Mesh := Mesh.make ['t'] [⟨0, 0, 0⟩, ⟨1, 0, 0⟩, ⟨0, 1, 0⟩] [⟨[0, 1, 2]⟩]
def demoSquare : Mesh :=
  Mesh.make ['s'] [⟨0, 0, 5⟩, ⟨1, 0, 5⟩, ⟨1, 1, 5⟩, ⟨0, 1, 5⟩] [⟨[0, 1, 2, 3]⟩, ⟨[0, 2, 3]⟩]

example : Valid demoTri ∧ Valid demoSquare ∧ (demoTri.points = [] → demoTri.faces = []) := by decide
example : (demoTri.add demoSquare).faces = [⟨[0, 1, 2]⟩, ⟨[3, 4, 5, 6]⟩, ⟨[3, 5, 6]⟩] := by decide

/-- C13: concatenation is associative on points and faces (all meshes whose faces need points), and on names as soon
as the meshes are not empty. -/
theorem C13_assoc (a b c : Mesh) (hb : b.points = [] → b.faces = []) :
    ((a.add b).add c).points = (a.add (b.add c)).points ∧
    ((a.add b).add c).faces = (a.add (b.add c)).faces ∧
    (b.points ≠ [] → ((a.add b).add c).name = (a.add (b.add c)).name) := by
  unfold Mesh.add
  by_cases h0 : a.points = []
  · rw [append_of_empty h0, append_of_empty h0]
    by_cases h1 : b.points = []
    · rw [append_of_empty (m := a.assign b) (by simp [Mesh.assign, h1]), append_of_empty h1]
      simp [Mesh.assign]
    · rw [append_of_nonempty (m := a.assign b) (by simp [Mesh.assign, h1]), append_of_nonempty h1]
      simp [Mesh.assign]
  · rw [append_of_nonempty (o := b) h0, append_of_nonempty (o := b.append c) h0]
    rw [append_of_nonempty (o := c) (by simp [h0])]
    by_cases h1 : b.points = []
    · rw [append_of_empty h1]
      simp [Mesh.assign, h1, hb h1]
    · rw [append_of_nonempty h1]
      simp [Face.offset, Function.comp_def, Nat.add_assoc, Nat.add_comm b.points.length]

/-- C13: the names of both bracketings agree exactly when the first mesh has no points or the second one has some: with
points on the left and none in the middle, the left bracketing keeps the middle name and the right one drops it. -/
theorem C13_names (a b c : Mesh) :
    ((a.add b).add c).name = (a.add (b.add c)).name ↔ a.points = [] ∨ b.points ≠ [] := by
  unfold Mesh.add
  by_cases h0 : a.points = []
  · rw [append_of_empty h0, append_of_empty h0]
    by_cases h1 : b.points = []
    · rw [append_of_empty (m := a.assign b) (by simp [Mesh.assign, h1]), append_of_empty h1]
      simp [Mesh.assign, h0]
    · rw [append_of_nonempty (m := a.assign b) (by simp [Mesh.assign, h1]), append_of_nonempty h1]
      simp [Mesh.assign, h0]
  · rw [append_of_nonempty (o := b) h0, append_of_nonempty (o := b.append c) h0]
    rw [append_of_nonempty (o := c) (by simp [h0])]
    by_cases h1 : b.points = []
    · rw [append_of_empty h1]
      simp only [h0, h1, Mesh.assign, ne_eq, not_true_eq_false, or_false, iff_false]
      intro h
      have := congrArg List.length h
      simp only [List.length_append, List.length_cons, List.length_nil] at this
      omega
    · rw [append_of_nonempty h1]
      simp [h1]

example : ((demoTri.add Mesh.empty).add demoSquare).name = ['t', '_', '_', 's'] ∧
    (demoTri.add (Mesh.empty.add demoSquare)).name = ['t', '_', 's'] := by decide

/-- C13: `Mesh()` is a left identity for name, points and faces, and a right identity for points and faces (the name of
a non empty mesh gets a trailing `_`, so it is not an identity for names). -/
theorem C13_identity (a : Mesh) (ha : a.points = [] → a.faces = []) :
    ((Mesh.empty.add a).name = a.name ∧ (Mesh.empty.add a).points = a.points ∧
      (Mesh.empty.add a).faces = a.faces) ∧
    ((a.add Mesh.empty).points = a.points ∧ (a.add Mesh.empty).faces = a.faces) ∧
    (a.points ≠ [] → (a.add Mesh.empty).name = a.name ++ ['_']) := by
  unfold Mesh.add
  rw [append_of_empty (m := Mesh.empty) rfl]
  by_cases h0 : a.points = []
  · rw [append_of_empty h0]
    simp [Mesh.assign, Mesh.empty, h0, ha h0]
  · rw [append_of_nonempty h0]
    simp [Mesh.assign, Mesh.empty]

/-- C14 (full statement): every sum of freshly built meshes has the tight box of its points. -/
def C14_full : Prop :=
  ∀ ms : List Mesh, (∀ m ∈ ms, BoxFresh m) → BoxFresh (Mesh.sumFrom Mesh.empty ms)

/-- C14: every mesh built from points has a fresh box. -/
theorem C14_constructed (n : Text) (ps : List (V3 ℚ)) (fs : List Face) : BoxFresh (Mesh.make n ps fs) :=
  boxFresh_make n ps fs

/-- C14: concatenation to a non empty mesh, any number of times, keeps the box tight.
Missing from the full property: sums that start from an empty mesh, see `C14_refuted`. -/
theorem C14_bbox_partial (a : Mesh) (ms : List Mesh) (hne : a.points ≠ []) (ha : BoxFresh a)
    (hms : ∀ m ∈ ms, BoxFresh m) : BoxFresh (Mesh.sumFrom a ms) := by
  induction ms generalizing a with
  | nil => exact ha
  | cons m ms ih =>
    have hs : Mesh.sumFrom a (m :: ms) = Mesh.sumFrom (a.add m) ms := rfl
    rw [hs]
    apply ih
    · unfold Mesh.add; rw [append_of_nonempty hne]; simp [hne]
    · unfold Mesh.add BoxFresh; rw [append_of_nonempty hne]
      simp only [List.map_append]
      exact tight_union ha (hms m (by simp))
    · intro x hx; exact hms x (by simp [hx])

/-- C14: what really happens for a sum starting from `Mesh()`: the first mesh does not contribute its box, the later
ones do. -/
theorem C14_sum_from_empty (m : Mesh) (ms : List Mesh) (hne : m.points ≠ []) :
    (Mesh.sumFrom Mesh.empty (m :: ms)).bbox = ms.foldl (fun b x => b.union x.bbox) Bbox.empty := by
  have hs : Mesh.sumFrom Mesh.empty (m :: ms) = Mesh.sumFrom (Mesh.empty.append m) ms := rfl
  rw [hs, append_of_empty (m := Mesh.empty) rfl]
  have key : ∀ (ms : List Mesh) (a : Mesh), a.points ≠ [] →
      (Mesh.sumFrom a ms).bbox = ms.foldl (fun b x => b.union x.bbox) a.bbox := by
    intro ms
    induction ms with
    | nil => intro a _; rfl
    | cons x ms ih =>
      intro a ha
      have hs : Mesh.sumFrom a (x :: ms) = Mesh.sumFrom (a.append x) ms := rfl
      rw [hs, append_of_nonempty ha, ih _ (by simp [ha])]
      rfl
  rw [key ms _ (by simpa [Mesh.assign] using hne)]
  rfl

/-- C14 refuted: `Mesh() + triangle` has the triangle's points but an empty bounding box. -/
theorem C14_refuted : ¬ C14_full := by
  intro h
  have hf := h [demoTri] (by intro m hm; simp only [List.mem_singleton] at hm; subst hm; exact boxFresh_make _ _ _)
  have hb : (Mesh.sumFrom Mesh.empty [demoTri]).bbox = Bbox.empty := C14_sum_from_empty demoTri [] (by decide)
  have hp : (Mesh.sumFrom Mesh.empty [demoTri]).points = demoTri.points := rfl
  have := hf.2.1 (V3.toDbl ⟨0, 0, 0⟩) (by rw [hp]; simp [demoTri, Mesh.make])
  rw [hb] at this
  simp [InBox, Bbox.empty, Le, V3.toDbl] at this

example : demoTri.points ≠ [] ∧ BoxFresh demoTri := ⟨by decide, boxFresh_make _ _ _⟩

/-- C15: for meshes whose faces are not empty and have distinct vertices, `==` holds exactly when the points are the
same in order and the faces are pairwise the same cycles; name and bounding box play no role. -/
theorem C15_eq_iff (l r : Mesh) (hl : ∀ f ∈ l.faces, f.points ≠ []) (hr : ∀ f ∈ r.faces, f.points.Nodup) :
    (Mesh.eq l r = .ok true ↔ l.points = r.points ∧ List.Forall₂ SameCycle l.faces r.faces) ∧
    ∃ b, Mesh.eq l r = .ok b := by
  unfold Mesh.eq
  split
  · rename_i h
    split
    · rename_i hp
      have := facesEq_iff (acc := true) h.2 hl
      refine ⟨?_, this.1⟩
      rw [this.2]
      simp only [true_and, hp]
      have hr' := hr
      clear this h hp hr
      generalize l.faces = fs at *
      generalize r.faces = gs at *
      constructor
      · intro hh
        exact hh.imp fun _ _ => face_eq_isRotated
      · intro hh
        induction hh with
        | nil => exact .nil
        | cons hc _ ih =>
          refine .cons (face_eq_of_isRotated (hl _ (by simp)) (hr' _ (by simp)) hc) (ih ?_ ?_)
          · intro f hf; exact hl f (by simp [hf])
          · intro f hf; exact hr' f (by simp [hf])
    · rename_i hp
      simp [hp]
  · rename_i h
    simp only [Out.ok.injEq, Bool.false_eq_true, false_iff, not_and, exists_eq', and_true]
    intro hp hf
    exact h ⟨by rw [hp], hf.length_eq⟩

/-- C13: `==` accepts both sums of a mesh with `Mesh()`, and both bracketings of a sum of three: the names and the boxes, in
which they may differ, are not compared. -/
theorem C13_equal (a b c : Mesh) (h : ∀ m ∈ [a, b, c], (m.points = [] → m.faces = []) ∧
      ∀ f ∈ m.faces, f.points ≠ [] ∧ f.points.Nodup) :
    Mesh.eq (Mesh.empty.add a) a = .ok true ∧ Mesh.eq (a.add Mesh.empty) a = .ok true ∧
    Mesh.eq ((a.add b).add c) (a.add (b.add c)) = .ok true := by
  have ha := h a (by simp)
  have hb := h b (by simp)
  have hc := h c (by simp)
  have refl : ∀ fs : List Face, List.Forall₂ SameCycle fs fs := fun fs => by
    induction fs with
    | nil => exact .nil
    | cons f fs ih => exact .cons (List.IsRotated.refl _) ih
  have key : ∀ l r : Mesh, l.points = r.points → l.faces = r.faces →
      (∀ f ∈ r.faces, f.points ≠ [] ∧ f.points.Nodup) → Mesh.eq l r = .ok true := by
    intro l r hp hf hr
    refine (C15_eq_iff l r (fun f hm => (hr f (hf ▸ hm)).1) (fun f hm => (hr f hm).2)).1.2 ⟨hp, ?_⟩
    rw [hf]
    exact refl _
  have sum : ∀ x y : Mesh, (∀ f ∈ x.faces, f.points ≠ [] ∧ f.points.Nodup) →
      (∀ f ∈ y.faces, f.points ≠ [] ∧ f.points.Nodup) →
      ∀ f ∈ (x.add y).faces, f.points ≠ [] ∧ f.points.Nodup := by
    intro x y hx hy f hf
    unfold Mesh.add at hf
    by_cases h0 : x.points = []
    · rw [append_of_empty h0] at hf
      exact hy f hf
    · rw [append_of_nonempty h0] at hf
      simp only [List.mem_append, List.mem_map] at hf
      rcases hf with hf | ⟨g, hg, rfl⟩
      · exact hx f hf
      · refine ⟨?_, ?_⟩
        · simpa [Face.offset] using (hy g hg).1
        · simp only [Face.offset]
          exact (hy g hg).2.map fun i j hij => by simpa using hij
  have id := C13_identity a ha.1
  have as := C13_assoc a b c hb.1
  exact ⟨key _ _ id.1.2.1 id.1.2.2 ha.2, key _ _ id.2.1.1 id.2.1.2 ha.2,
    key _ _ as.1 as.2.1 (sum _ _ ha.2 (sum _ _ hb.2 hc.2))⟩

example : ∀ m ∈ [demoTri, demoSquare, Mesh.empty], (m.points = [] → m.faces = []) ∧
    ∀ f ∈ m.faces, f.points ≠ [] ∧ f.points.Nodup := by decide

/-- C15: `==` is an equivalence relation on meshes whose faces are non empty with distinct vertices.
Missing from the full property: meshes with a face that repeats an index, see `C15_refuted`. -/
theorem C15_equivalence_partial :
    let Ok := fun m : Mesh => ∀ f ∈ m.faces, f.points ≠ [] ∧ f.points.Nodup
    (∀ m, Ok m → Mesh.eq m m = .ok true) ∧
    (∀ l r, Ok l → Ok r → Mesh.eq l r = .ok true → Mesh.eq r l = .ok true) ∧
    (∀ l m r, Ok l → Ok m → Ok r → Mesh.eq l m = .ok true → Mesh.eq m r = .ok true →
      Mesh.eq l r = .ok true) ∧
    (∀ l r, Ok l → Ok r → ∀ b, Mesh.ne l r = .ok b ↔ Mesh.eq l r = .ok (!b)) := by
  intro Ok
  have ne : ∀ {m}, Ok m → ∀ f ∈ m.faces, f.points ≠ [] := fun h f hf => (h f hf).1
  have nd : ∀ {m}, Ok m → ∀ f ∈ m.faces, f.points.Nodup := fun h f hf => (h f hf).2
  refine ⟨?_, ?_, ?_, ?_⟩
  · intro m h
    refine (C15_eq_iff m m (ne h) (nd h)).1.2 ⟨rfl, ?_⟩
    exact List.forall₂_same.2 fun f _ => List.IsRotated.refl _
  · intro l r hl hr h
    obtain ⟨h1, h2⟩ := (C15_eq_iff l r (ne hl) (nd hr)).1.1 h
    refine (C15_eq_iff r l (ne hr) (nd hl)).1.2 ⟨h1.symm, h2.flip.imp fun _ _ h => List.IsRotated.symm h⟩
  · intro l m r hl hm hr h h'
    obtain ⟨h1, h2⟩ := (C15_eq_iff l m (ne hl) (nd hm)).1.1 h
    obtain ⟨h3, h4⟩ := (C15_eq_iff m r (ne hm) (nd hr)).1.1 h'
    refine (C15_eq_iff l r (ne hl) (nd hr)).1.2 ⟨h1.trans h3, ?_⟩
    have tr : ∀ (x y z : List Face), List.Forall₂ SameCycle x y → List.Forall₂ SameCycle y z →
        List.Forall₂ SameCycle x z := by
      intro x y z hxy
      induction hxy generalizing z with
      | nil => intro h; exact h
      | cons hc _ ih =>
        intro h
        cases h with
        | cons hd ht => exact .cons (List.IsRotated.trans hc hd) (ih _ ht)
    exact tr _ _ _ h2 h4
  · intro l r hl hr b
    obtain ⟨c, hc⟩ := (C15_eq_iff l r (ne hl) (nd hr)).2
    unfold Mesh.ne
    rw [hc]
    cases b <;> cases c <;> simp

/-- C15 refuted in general: with a face repeating an index, `==` is not symmetric; with an empty face it throws, even
on a mesh compared with itself. -/
theorem C15_refuted :
    (∃ l r : Mesh, Mesh.eq l r = .ok true ∧ Mesh.eq r l = .ok false) ∧
    (∃ m : Mesh, Mesh.eq m m = .thrown .outOfRange) := by
  refine ⟨⟨Mesh.make [] [⟨0, 0, 0⟩, ⟨1, 0, 0⟩] [⟨[1, 0, 0]⟩], Mesh.make [] [⟨0, 0, 0⟩, ⟨1, 0, 0⟩] [⟨[0, 1, 0]⟩],
    by decide, by decide⟩, ⟨Mesh.make [] [] [⟨[]⟩], by decide⟩⟩

example : ∀ f ∈ demoSquare.faces, f.points ≠ [] ∧ f.points.Nodup := by decide

end City.Props
