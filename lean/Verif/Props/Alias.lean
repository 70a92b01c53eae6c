import Verif.Model.Alias
import Verif.Props.Value
import Verif.Props.BrickPrint
import Verif.Props.Bbox
import Mathlib.Tactic.Ring
import Mathlib.Tactic.LinearCombination
/-!
Property C77: a compound assignment gives the left side the result of the operation on the values both sides had, and changes nothing else, also when both
sides are the same object.
-/
namespace City.Props
open City Spec

/-- `ex a b` is the compound assignment of the operation `op`, for all objects, the same ones too. -/
def Compound {R : Type} (ex : Nat → Nat → Store R → Out (Store R)) (op : R → R → Out R) : Prop :=
  ∀ (a b : Nat) (σ : Store R), ex a b σ = op (σ a) (σ b) >>= fun v => .ok (σ.put a v)

section
variable {K : Type} [CommRing K]

/-- C77: `a += b` and `a -= b` on vectors, also `a += a` and `a -= a`. -/
theorem C77_vec : Compound (R := V3 K) (fun a b σ => .ok (V3.addAt a b σ)) (fun v w => .ok (V3.add v w)) ∧
    Compound (R := V3 K) (fun a b σ => .ok (V3.subAt a b σ)) (fun v w => .ok (V3.sub v w)) := by
  constructor <;> intro a b σ <;> rw [Out.ok_bind] <;> congr 1 <;> by_cases h : b = a
  · subst h; simp only [V3.addAt, put_put, put_self, V3.add]
  · simp only [V3.addAt, put_put, put_self, put_ne _ h, V3.add]
  · subst h; simp only [V3.subAt, put_put, put_self, V3.sub]
  · simp only [V3.subAt, put_put, put_self, put_ne _ h, V3.sub]

example : V3.addAt 0 0 (fun _ => (⟨1, 2, 3⟩ : V3 ℚ)) 0 = ⟨2, 4, 6⟩ := by decide +kernel

/-- C77, the full property for `^=`. -/
def C77_full : Prop := Compound (R := V3 ℚ) (fun a b σ => .ok (V3.crossAt a b σ)) (fun v w => .ok (V3.cross v w))

/-- C77 is refuted: `v ^= v` is not zero. -/
theorem C77_refuted : ¬ C77_full := by
  intro h
  have := congrFun (Out.ok.inj (h 0 0 (fun _ => ⟨1, 0, 1⟩))) 0
  exact absurd this (by decide +kernel)

/-- C77 for `^=` between two objects. Missing: the same object on both sides. -/
theorem C77_cross_partial (a b : Nat) (h : b ≠ a) (σ : Store (V3 K)) : V3.crossAt a b σ = σ.put a (V3.cross (σ a) (σ b)) := by
  simp only [V3.crossAt, put_put, put_self, put_ne _ h, V3.cross]

/-- What `v ^= v` leaves in `v`. -/
theorem C77_cross_self_exact_partial (a : Nat) (σ : Store (V3 K)) :
    V3.crossAt a a σ = σ.put a ⟨0, - ((σ a).x * (σ a).z), - ((σ a).x * (σ a).x * (σ a).z)⟩ := by
  simp only [V3.crossAt, put_put, put_self]
  congr 1
  ext <;> simp only <;> ring

/-- `v ^= v` is the cross product exactly for the vectors of one of two coordinate planes. -/
theorem C77_cross_self_iff_partial [NoZeroDivisors K] (a : Nat) (σ : Store (V3 K)) :
    V3.crossAt a a σ = σ.put a (V3.cross (σ a) (σ a)) ↔ (σ a).x = 0 ∨ (σ a).z = 0 := by
  rw [C77_cross_self_exact_partial]
  constructor
  · intro h
    have := congrFun h a
    rw [put_self, put_self] at this
    have := congrArg V3.y this
    simp only [V3.cross] at this
    have e : (σ a).x * (σ a).z = 0 := by linear_combination -this
    exact mul_eq_zero.1 e
  · intro h
    congr 1
    rcases h with h | h <;> ext <;> simp only [V3.cross, h] <;> ring

/-- C77: the operator `^` makes a new object: its value is the cross product, also of a vector with itself, and no other object changes. -/
theorem C77_cross_new (n a b : Nat) (hb : b ≠ n) (σ : Store (V3 K)) : V3.crossNew n a b σ = σ.put n (V3.cross (σ a) (σ b)) := by
  unfold V3.crossNew
  rw [C77_cross_partial _ _ hb, put_put, put_self, put_ne _ hb]

example : V3.crossNew 5 0 0 (fun _ => (⟨1, 0, 1⟩ : V3 ℚ)) 5 = ⟨0, 0, 0⟩ ∧ V3.crossAt 0 0 (fun _ => (⟨1, 0, 1⟩ : V3 ℚ)) 0 = ⟨0, -1, -1⟩ := by decide +kernel

end

/-- C77: `a += b` on bounding boxes, also `a += a`. -/
theorem C77_bbox : Compound (fun a b σ => .ok (Bbox.unionAt a b σ)) (fun v w => .ok (Bbox.union v w)) := by
  intro a b σ
  rw [Out.ok_bind]
  congr 1
  by_cases h : b = a
  · subst h; simp only [Bbox.unionAt, put_put, put_self, Bbox.union]
  · simp only [Bbox.unionAt, put_put, put_self, put_ne _ h, Bbox.union]

/-! ### Meshes -/

/-- C77, the full property for meshes. -/
def C77_full_mesh : Prop := Compound Mesh.appendAt (fun m o => .ok (m.append o))

/-- C77 is refuted for meshes: `m += m` is undefined. -/
theorem C77_refuted_mesh : ¬ C77_full_mesh := by
  intro h
  have := h 0 0 (fun _ => Mesh.make [] [⟨1, 2, 3⟩] [])
  simp [Mesh.appendAt, Mesh.isEmpty, Mesh.make, Out.ok_bind] at this

/-- C77 for meshes: between two objects, and for an empty mesh with itself. Missing: a mesh with points that is added to itself. -/
theorem C77_mesh_partial (a b : Nat) (σ : Store Mesh) (h : b ≠ a ∨ (σ a).points = []) :
    Mesh.appendAt a b σ = .ok (σ.put a ((σ a).append (σ b))) := by
  unfold Mesh.appendAt Mesh.append
  by_cases he : (σ a).isEmpty = true
  · rw [if_pos he, if_pos he]
    congr 1
    funext x
    rw [C76_mesh_assign_exact]
    rfl
  · rw [if_neg he, if_neg he]
    have h : b ≠ a := h.resolve_right fun e => he (by unfold Mesh.isEmpty; rw [e]; rfl)
    rw [if_neg (Ne.symm h)]
    congr 1
    simp only [Mesh.appendTail, Mesh.appendHead, put_put, put_self, put_ne _ h, List.take_left, List.drop_left]

/-- A mesh with points added to itself is always undefined. -/
theorem C77_mesh_self_ub_partial (a : Nat) (σ : Store Mesh) (h : (σ a).points ≠ []) : Mesh.appendAt a a σ = .ub := by
  unfold Mesh.appendAt
  rw [if_neg (by unfold Mesh.isEmpty; simpa using h), if_pos rfl]

example : ∃ σ', Mesh.appendAt 0 1 (fun x => Mesh.make [] [⟨1, 2, x⟩] [⟨[0, 0, 0]⟩]) = .ok σ' ∧ (σ' 0).faces = [⟨[0, 0, 0]⟩, ⟨[1, 1, 1]⟩] :=
  ⟨_, C77_mesh_partial 0 1 _ (Or.inl (by decide)), by decide +kernel⟩

/-! ### Brick prints and footprints -/

section
variable {K : Type} [Field K] [LinearOrder K] [IsStrictOrderedRing K] {C : Cgal K} {Ok : Pwh K → Prop} {Good : C.PSet → Prop} {Gen : V2 K → Prop}

theorem addOwn_refines {b r : Brick K} {f : FacePrint K} (hb : b.faces ≠ []) (h : b.addOwn C f = .ok r) : b.addFace C f = .ok r ∧ r.faces = b.faces := by
  unfold Brick.addOwn at h
  split at h
  · cases h
  next hov =>
  obtain ⟨u, hu, h⟩ := Out.bind_eq_ok.1 h
  split at h
  · next hu' =>
    subst hu'
    cases h
    refine ⟨?_, rfl⟩
    unfold Brick.addFace
    rw [if_neg (by simpa using hb), if_neg hov, hu, Out.ok_bind, if_pos rfl]
  · cases h

theorem selfLoop_refines (fs : List (FacePrint K)) {b r : Brick K} (hb : (∃ f ∈ fs, (!f.isEmpty && !f.isDegenerate C) = true) → b.faces ≠ [])
    (h : Brick.selfLoop C b fs = .ok r) : Brick.addFaces C b fs = .ok r ∧ r.faces = b.faces := by
  induction fs generalizing b with
  | nil => exact ⟨h, by cases h; rfl⟩
  | cons f fs ih =>
    unfold Brick.selfLoop at h
    unfold Brick.addFaces
    split at h
    · next hk =>
      have hne := hb ⟨f, List.mem_cons_self, hk⟩
      rw [if_pos hk]
      obtain ⟨b1, h1, h2⟩ := Out.bind_eq_ok.1 h
      obtain ⟨h3, h4⟩ := addOwn_refines hne h1
      obtain ⟨h5, h6⟩ := ih (b := b1) (fun _ => by rw [h4]; exact hne) h2
      rw [h3, Out.ok_bind]
      exact ⟨h5, h6.trans h4⟩
    · next hk =>
      rw [if_neg hk]
      exact ih (fun ⟨g, hg, hk'⟩ => hb ⟨g, List.mem_cons_of_mem _ hg, hk'⟩) h

theorem addFaces_filter (fs : List (FacePrint K)) (b : Brick K) : Brick.addFaces C b (fs.filter (Brick.keep C)) = Brick.addFaces C b fs := by
  induction fs generalizing b with
  | nil => rfl
  | cons f fs ih =>
    have e : Brick.keep C f = (!f.isEmpty && !f.isDegenerate C) := by unfold Brick.keep; rw [Bool.not_or]
    by_cases hk : (!f.isEmpty && !f.isDegenerate C) = true
    · rw [List.filter_cons_of_pos (by rw [e]; exact hk)]
      unfold Brick.addFaces
      rw [if_pos hk, if_pos hk]
      congr 1
      funext b'
      exact ih b'
    · rw [List.filter_cons_of_neg (by rw [e]; exact hk), ih]
      conv_rhs => unfold Brick.addFaces
      rw [if_neg hk]

/-- Adding a print to itself, where it is defined, is adding a copy of it. -/
theorem addSelf_refines {b r : Brick K} (h : b.addSelf C = .ok r) : b.addBrick C b = .ok r ∧ r.faces = (b.filter C).faces := by
  unfold Brick.addSelf at h
  obtain ⟨b1, h1, h2⟩ := Out.bind_eq_ok.1 h
  obtain ⟨h3, h4⟩ := selfLoop_refines _ (fun ⟨f, hf, _⟩ => List.ne_nil_of_mem hf) h1
  refine ⟨?_, ?_⟩
  · unfold Brick.addBrick
    have : Brick.addFaces C (b.filter C) b.faces = .ok b1 := by rw [← addFaces_filter]; exact h3
    rw [this, Out.ok_bind]
    exact h2
  · cases h2
    unfold Brick.filter
    simp only
    rw [h4]
    unfold Brick.filter
    simp only [List.filter_filter, Bool.and_self]

/-- C77, the full property for brick prints. -/
def C77_full_brick : Prop := ∀ (K : Type) [Field K] [LinearOrder K] [IsStrictOrderedRing K] (C : Cgal K), Compound (Brick.addAt C) (fun b o => b.addBrick C o)

/-- C77 is refuted for brick prints: two faces below zero over the same ground (as they are read from a vector file) make `b += b` undefined. -/
theorem C77_refuted_brick : ¬ C77_full_brick := by
  intro h
  have := h ℚ rectCgal 0 0 (fun _ => ⟨none, [slab 1 0 0 2 2 (-1), slab 2 0 0 2 2 (-2)]⟩)
  have e1 : Brick.addAt rectCgal 0 0 (fun _ => (⟨none, [slab 1 0 0 2 2 (-1), slab 2 0 0 2 2 (-2)]⟩ : Brick ℚ)) = .ub := by
    have : Brick.addSelf rectCgal (⟨none, [slab 1 0 0 2 2 (-1), slab 2 0 0 2 2 (-2)]⟩ : Brick ℚ) = .ub := by decide +kernel
    unfold Brick.addAt Brick.addEither
    simp only [beq_self_eq_true, if_true]
    rw [this, Out.ub_bind]
  rw [e1] at this
  simp only at this
  generalize hr : Brick.addBrick rectCgal (⟨none, [slab 1 0 0 2 2 (-1), slab 2 0 0 2 2 (-2)]⟩ : Brick ℚ)
    ⟨none, [slab 1 0 0 2 2 (-1), slab 2 0 0 2 2 (-2)]⟩ = r at this
  have e2 : ¬ Brick.addBrick rectCgal (⟨none, [slab 1 0 0 2 2 (-1), slab 2 0 0 2 2 (-2)]⟩ : Brick ℚ)
    ⟨none, [slab 1 0 0 2 2 (-1), slab 2 0 0 2 2 (-2)]⟩ = .ub := by decide +kernel
  cases r with
  | ok v => cases this
  | thrown e => cases this
  | ub => exact e2 hr

/-- A print that can be added to itself: its faces are valid and do not overlap, the sample point of each is inside it and CGAL recognises each face in the union
of all. -/
structure Settled (C : Cgal K) (Ok : Pwh K → Prop) (Gen : V2 K → Prop) (b : Brick K) : Prop where
  valid : ∀ f ∈ b.faces, ValidFace Ok f
  apart : NoOverlap C Gen b.faces
  sample : ∀ f ∈ b.faces, SampleInside C Gen f
  found : ∀ f ∈ b.faces, b.containsFace C f = true

theorem addOwn_settled (L : Lawful C Ok Good Gen) {b : Brick K} (hb : Settled C Ok Gen b) {f : FacePrint K} (hf : f ∈ b.faces) :
    b.addOwn C f = .ok ⟨Box2.union b.bbox f.bbox, b.faces⟩ := by
  have hv := hb.valid f hf
  obtain ⟨m, hm, hg, hi⟩ := hb.sample f hf
  unfold Brick.addOwn
  have hov : b.overlaps C f.border = true := (overlaps_iff L hb.valid hv.1).2 ⟨m, hg, ⟨f, hf, hi⟩, hi⟩
  rw [if_neg (by rw [hov]; decide)]
  obtain ⟨m', hm', _, hiff⟩ := isUnder_ok L hb.valid hv
  rw [hm] at hm'
  cases hm'
  have hz : f.height C m = .ok (zAt f m) := by rw [height_valid L hv, if_pos ((contains_gen L hv.1 hg).2 hi)]
  have := (hiff (hb.found f hf) _ _ hz (brick_height_face L hb.valid hb.apart hg hf hi)).2 le_rfl
  rw [this, Out.ok_bind, if_pos rfl]

/-- The box of some faces together with a given one. -/
def boxWith (bb : Option (Box2 K)) (fs : List (FacePrint K)) : Option (Box2 K) := fs.foldl (fun bb f => Box2.union bb f.bbox) bb

theorem selfLoop_settled (L : Lawful C Ok Good Gen) (fs : List (FacePrint K)) {b : Brick K} (hb : Settled C Ok Gen b) (hfs : ∀ f ∈ fs, f ∈ b.faces) :
    Brick.selfLoop C b fs = .ok ⟨boxWith b.bbox fs, b.faces⟩ := by
  induction fs generalizing b with
  | nil => rfl
  | cons f fs ih =>
    unfold Brick.selfLoop
    have hs : Settled C Ok Gen ⟨Box2.union b.bbox f.bbox, b.faces⟩ := ⟨hb.valid, hb.apart, hb.sample, hb.found⟩
    have hk := keep_valid L (hb.valid f (hfs f List.mem_cons_self))
    unfold Brick.keep at hk
    rw [Bool.not_or] at hk
    rw [if_pos hk, addOwn_settled L hb (hfs f List.mem_cons_self), Out.ok_bind]
    exact ih hs fun g hg => hfs g (List.mem_cons_of_mem _ hg)

/-- C77 for brick prints: between two objects always; for one object, whenever the code is defined the result is the one with a copy, and has the same faces
(those that are not degenerate); and it is defined for the prints of faces that do not overlap, have their sample points inside and are recognised by CGAL.
Missing: prints that hold faces over one another. -/
theorem C77_brick_partial (L : Lawful C Ok Good Gen) (x y : Nat) (σ : Store (Brick K)) :
    (y ≠ x → Brick.addAt C x y σ = (σ x).addBrick C (σ y) >>= fun v => .ok (σ.put x v)) ∧
    (∀ σ', Brick.addAt C x x σ = .ok σ' → ∃ v, (σ x).addBrick C (σ x) = .ok v ∧ σ' = σ.put x v ∧ v.faces = ((σ x).filter C).faces) ∧
    (Settled C Ok Gen (σ x) → Brick.addAt C x x σ = .ok (σ.put x ⟨boxWith (σ x).bbox (σ x).faces, (σ x).faces⟩)) := by
  refine ⟨fun h => ?_, fun σ' h => ?_, fun h => ?_⟩
  · unfold Brick.addAt Brick.addEither
    rw [if_neg (by simpa using Ne.symm h)]
  · unfold Brick.addAt Brick.addEither at h
    rw [if_pos (by simp)] at h
    obtain ⟨v, h1, h2⟩ := Out.bind_eq_ok.1 h
    obtain ⟨h3, h4⟩ := addSelf_refines h1
    exact ⟨v, h3, (Out.ok.inj h2).symm, h4⟩
  · unfold Brick.addAt Brick.addEither
    rw [if_pos (by simp)]
    have hk : (σ x).faces.filter (Brick.keep C) = (σ x).faces := by
      apply List.filter_eq_self.2
      intro f hf
      exact keep_valid L (h.valid f hf)
    have hf : (σ x).filter C = σ x := by unfold Brick.filter; rw [hk]
    have hbb := selfLoop_settled L (σ x).faces h fun _ hf => hf
    unfold Brick.addSelf
    rw [hf, hbb, Out.ok_bind, Out.ok_bind]
    unfold Brick.filter
    simp only
    rw [hk]

/-- Two faces side by side, one below zero. -/
def pairPrint : Brick ℚ := ⟨some ⟨0, 0, 7, 7⟩, [slab 7 0 0 2 2 5, slab 8 5 5 7 7 (-3)]⟩

theorem pair_settled : Settled rectCgal RectOk RectGen pairPrint := by
  refine ⟨?_, ?_, ?_, ?_⟩
  · intro f hf
    simp only [pairPrint, List.mem_cons, List.not_mem_nil, or_false] at hf
    rcases hf with rfl | rfl
    · have := slab_valid 7 0 0 2 2 5 (by decide) (by decide); simpa using this
    · have := slab_valid 8 5 5 7 7 (-3) (by decide) (by decide); simpa using this
  · refine List.pairwise_cons.2 ⟨?_, List.pairwise_singleton _ _⟩
    intro f hf p _ hi
    rw [List.mem_singleton] at hf
    subst hf
    have h1 := (slab_interior 7 0 0 2 2 5 (by norm_num) (by norm_num) p).1 hi.1
    have h2 := (slab_interior 8 5 5 7 7 (-3) (by norm_num) (by norm_num) p).1 hi.2
    linarith [h1.2.1, h2.1]
  · intro f hf
    simp only [pairPrint, List.mem_cons, List.not_mem_nil, or_false] at hf
    rcases hf with rfl | rfl
    · exact sample_inside_demo 5
    · refine ⟨⟨19 / 3, 17 / 3⟩, ?_, ⟨?_, ?_⟩, (slab_interior 8 5 5 7 7 (-3) (by norm_num) (by norm_num) _).2 (by norm_num)⟩
      · show Out.ok _ = _
        norm_num
      · rintro ⟨n, hn⟩
        have : (3 : ℚ) * n = 19 := by rw [← hn]; norm_num
        have : (3 : ℤ) * n = 19 := by exact_mod_cast this
        omega
      · rintro ⟨n, hn⟩
        have : (3 : ℚ) * n = 17 := by rw [← hn]; norm_num
        have : (3 : ℤ) * n = 17 := by exact_mod_cast this
        omega
  · intro f hf
    simp only [pairPrint, List.mem_cons, List.not_mem_nil, or_false] at hf
    rcases hf with rfl | rfl <;> decide +kernel

/-- The hypotheses are met: the print is added to itself and unchanged. -/
example : ∃ σ', Brick.addAt rectCgal 0 0 (fun _ => pairPrint) = .ok σ' ∧ (σ' 0).faces = pairPrint.faces :=
  ⟨_, (C77_brick_partial rect_lawful 0 0 fun _ => pairPrint).2.2 pair_settled, rfl⟩

/-- C77 for footprints: between two objects always; for one object, whenever the code is defined the result is the one with a copy. -/
theorem C77_footprint_partial (C : Cgal K) (x y : Nat) (σ : Store (FootPrint K)) :
    (y ≠ x → FootPrint.addAt C x y σ = (σ x).add C (σ y) >>= fun v => .ok (σ.put x v)) ∧
    (∀ σ', FootPrint.addAt C x x σ = .ok σ' → ∃ v, (σ x).add C (σ x) = .ok v ∧ σ' = σ.put x v) := by
  have hcopy : ∀ y, (footPrintOps FootPrint.empty).run [.copyAssign x y] σ = σ.put x (σ y) := by
    intro y
    funext z
    refine C76_footprint _ _ σ z _ ?_
    show (if z = x then some (σ y) else some (σ z)) = some (if z = x then σ y else σ z)
    split <;> rfl
  constructor
  · intro h
    unfold FootPrint.addAt FootPrint.add
    split
    · rw [hcopy, Out.ok_bind]
    · split
      · rfl
      · unfold Brick.addEither
        rw [if_neg (by simpa using Ne.symm h)]
        cases (σ x).brick.addBrick C (σ y).brick <;> rfl
  · intro σ' h
    unfold FootPrint.addAt at h
    unfold FootPrint.add
    split at h
    · next he =>
      rw [if_pos he]
      rw [hcopy] at h
      exact ⟨_, rfl, (Out.ok.inj h).symm⟩
    · next he =>
      rw [if_neg (by simp)] at h
      rw [if_neg he, if_neg (by simp)]
      obtain ⟨v, h1, h2⟩ := Out.bind_eq_ok.1 h
      unfold Brick.addEither at h1
      rw [if_pos (by simp)] at h1
      rw [(addSelf_refines h1).1, Out.ok_bind]
      exact ⟨_, rfl, (Out.ok.inj h2).symm⟩

theorem copyCtor_put {R : Type} {C : ClassOps R} (h : Faithful C) {n a : Nat} (hn : a ≠ n) (σ : Store R) : C.run [.copyCtor n a] σ = σ.put n (σ a) := by
  funext z
  refine h _ σ z _ ?_
  show (if z = n then (if n = a then none else some (σ a)) else some (σ z)) = some (if z = n then σ a else σ z)
  rw [if_neg (Ne.symm hn)]
  split <;> rfl

/-- C77: the operator `+` on meshes, brick prints and footprints makes a new object with the sum, also of an object with itself, and changes no other object. -/
theorem C77_plus_new (C : Cgal K) (n a b : Nat) (ha : a ≠ n) (hb : b ≠ n) :
    (∀ σ, Mesh.addNew n a b σ = .ok (σ.put n ((σ a).add (σ b)))) ∧
    (∀ σ, Brick.addNew C n a b σ = (σ a).addBrick C (σ b) >>= fun v => .ok (σ.put n v)) ∧
    (∀ σ, FootPrint.addNew C n a b σ = (σ a).add C (σ b) >>= fun v => .ok (σ.put n v)) := by
  refine ⟨fun σ => ?_, fun σ => ?_, fun σ => ?_⟩
  · have hc : meshOps.run [.copyCtor n a] σ = σ.put n (σ a) := by
      funext z
      refine (C76_mesh_partial _ σ z _ ?_).2 (by simp)
      show (if z = n then (if n = a then none else some (σ a)) else some (σ z)) = some (if z = n then σ a else σ z)
      rw [if_neg (Ne.symm ha)]
      split <;> rfl
    unfold Mesh.addNew
    rw [hc, C77_mesh_partial _ _ _ (Or.inl hb), put_put, put_self, put_ne _ hb]
    rfl
  · unfold Brick.addNew Brick.addAt Brick.addEither
    rw [copyCtor_put C76_brick ha, if_neg (by simpa using Ne.symm hb), put_self, put_ne _ hb]
    congr 1
    funext v
    rw [put_put]
  · unfold FootPrint.addNew
    rw [copyCtor_put (C76_footprint _) ha, (C77_footprint_partial C n b _).1 hb, put_self, put_ne _ hb]
    congr 1
    funext v
    rw [put_put]

example (C : Cgal K) (σ : Store Mesh) : Mesh.addNew 9 0 0 σ = .ok (σ.put 9 ((σ 0).add (σ 0))) := (C77_plus_new C 9 0 0 (by decide) (by decide)).1 σ

end
end City.Props
