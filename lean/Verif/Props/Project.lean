import Verif.Model.Tools
import Verif.Props.Raster
/-!
C66: projecting, pruning and rasterising all objects of a scene.
-/
set_option linter.unusedSectionVars false
namespace City.Props
open City City.Spec

section
variable {α : Type}

theorem writeOver_same : ∀ (d v : List α), d.length = v.length → writeOver d v = .ok v
  | [], [], _ => rfl
  | [], _ :: _, h => by simp at h
  | _ :: _, [], h => by simp at h
  | _ :: d, x :: v, h => by rw [writeOver, writeOver_same d v (by simpa using h), Out.ok_bind]

theorem writeOver_longer : ∀ (d v : List α), v.length ≤ d.length → writeOver d v = .ok (v ++ d.drop v.length)
  | _, [], _ => by simp [writeOver]
  | [], _ :: _, h => by simp at h
  | _ :: d, x :: v, h => by rw [writeOver, writeOver_longer d v (by simpa using h), Out.ok_bind]; simp

theorem mapM_snoc {β : Type} (f : α → Out β) (as : List α) (a : α) :
    Out.mapM f (as ++ [a]) = (do let bs ← Out.mapM f as
                                 let b ← f a
                                 .ok (bs ++ [b])) := by
  induction as with
  | nil =>
    rw [List.nil_append, Out.mapM_cons, Out.mapM_nil, Out.ok_bind]
    cases f a <;> simp
  | cons c as ih =>
    rw [List.cons_append, Out.mapM_cons, Out.mapM_cons, ih]
    cases f c with
    | ok b =>
      simp only [Out.ok_bind]
      cases Out.mapM f as with
      | ok bs => simp only [Out.ok_bind]; cases f a <;> simp
      | thrown e => simp
      | ub => simp
    | thrown e => simp
    | ub => simp
end

section
variable {K : Type} [Field K] [LinearOrder K] [IsStrictOrderedRing K] [FloorRing K] {N : Type}

/-- C66: `orthoproject` gives the projections of the buildings in their order, and last that of the terrain when it is requested; an exception of one
projection is passed on. For all scenes. -/
theorem C66_projection (proj : N → Out (FootPrint K)) (s : Scene N) (terrain : Bool) :
    orthoproject proj s terrain = Out.mapM proj (s.buildings ++ if terrain then [s.terrain] else []) := by
  unfold orthoproject
  cases terrain with
  | false =>
    simp only [Bool.false_eq_true, if_false, List.append_nil, Nat.add_zero]
    cases h : Out.mapM proj s.buildings with
    | ok v => rw [Out.ok_bind, writeOver_same _ _ (by rw [List.length_replicate, Out.mapM_length h]), Out.ok_bind]
    | thrown e => rfl
    | ub => rfl
  | true =>
    simp only [if_true]
    rw [mapM_snoc]
    cases h : Out.mapM proj s.buildings with
    | ok v =>
      have hl := Out.mapM_length h
      rw [Out.ok_bind, Out.ok_bind, writeOver_longer _ _ (by rw [List.length_replicate]; omega), Out.ok_bind]
      cases proj s.terrain with
      | ok t =>
        rw [Out.ok_bind, Out.ok_bind]
        congr 1
        rw [List.drop_replicate, hl, ← hl, List.set_append_right _ _ (le_refl _), Nat.sub_self]
        rw [show v.length + 1 - v.length = 1 by omega]
        rfl
      | thrown e => rfl
      | ub => rfl
    | thrown e => rfl
    | ub => rfl

/-- What the projection reads of a node. -/
structure NodeView (K N : Type) where
  name : N → Text
  ref : N → V3 K
  epsg : N → Nat
  facets : N → List (Facet K)

/-- C66: there is one footprint per building (and one for the terrain if requested), in order, each with the name, the reference point and the EPSG code of its
node. Hence in a scene all have the pivot and the EPSG code of the scene. -/
theorem C66_footprints (C : Cgal K) (w : NodeView K N) (s : Scene N) (terrain : Bool) (fps : List (FootPrint K))
    (h : orthoproject (fun n => FootPrint.ofNode C (w.name n) (w.ref n) (w.epsg n) (w.facets n)) s terrain = .ok fps) :
    List.Forall₂ (fun n f => f.name = w.name n ∧ f.ref = w.ref n ∧ f.epsg = w.epsg n) (s.buildings ++ if terrain then [s.terrain] else []) fps ∧
    fps.length = s.buildings.length + (if terrain then 1 else 0) := by
  rw [C66_projection] at h
  constructor
  · refine (Out.mapM_eq_ok.1 h).imp ?_
    intro n f hf
    obtain ⟨b, _, h2⟩ := Out.bind_eq_ok.1 hf
    cases h2
    exact ⟨rfl, rfl, rfl⟩
  · rw [Out.mapM_length h]
    cases terrain <;> simp

/-- C66: in a scene made from meshes all footprints have the pivot and the EPSG code of the scene, provided the nodes keep what they are given. -/
theorem C66_scene (C : Cgal K) (w : NodeView K N) (ops : NodeOps N) (cast : V3 ℚ → V3 K) (hr : ∀ m p e, w.ref (ops.node m p e) = cast p)
    (he : ∀ m p e, w.epsg (ops.node m p e) = e) (bs : List Mesh) (t : Mesh) (pivot : V3 ℚ) (epsg : Nat) (terrain : Bool) (fps : List (FootPrint K))
    (h : orthoproject (fun n => FootPrint.ofNode C (w.name n) (w.ref n) (w.epsg n) (w.facets n)) (Scene.make ops bs t pivot epsg) terrain = .ok fps) :
    ∀ f ∈ fps, f.ref = cast pivot ∧ f.epsg = epsg := by
  have h1 := (C66_footprints C w _ terrain fps h).1
  intro f hf
  obtain ⟨n, hn, _, e1, e2⟩ : ∃ n ∈ (Scene.make ops bs t pivot epsg).buildings ++ (if terrain then [(Scene.make ops bs t pivot epsg).terrain] else []),
      f.name = w.name n ∧ f.ref = w.ref n ∧ f.epsg = w.epsg n := by
    clear h
    revert h1
    generalize (Scene.make ops bs t pivot epsg).buildings ++ (if terrain then [(Scene.make ops bs t pivot epsg).terrain] else []) = l
    intro h1
    induction h1 with
    | nil => simp at hf
    | cons hab _ ih =>
      rcases List.mem_cons.1 hf with rfl | hf
      · exact ⟨_, List.mem_cons_self, hab⟩
      · obtain ⟨n, hn, h⟩ := ih hf
        exact ⟨n, List.mem_cons_of_mem _ hn, h⟩
  have : ∃ m, n = ops.node m pivot epsg := by
    rcases List.mem_append.1 hn with hn | hn
    · obtain ⟨m, _, rfl⟩ := List.mem_map.1 hn
      exact ⟨m, rfl⟩
    · cases terrain with
      | false => simp at hn
      | true =>
        rw [if_pos rfl, List.mem_singleton] at hn
        exact ⟨t, hn⟩
  obtain ⟨m, rfl⟩ := this
  exact ⟨e1.trans (hr _ _ _), e2.trans (he _ _ _)⟩

/-- C66: the footprints of one scene can always be added up: nothing is refused because of reference points or codes. The sum has the reference point and the code of
the footprints; an exception can only come from the geometry. -/
theorem C66_sum (C : Cgal K) (r : V3 K) (e : Nat) : ∀ (fs : List (FootPrint K)) (a : FootPrint K), (∀ f ∈ fs, f.ref = r ∧ f.epsg = e) →
    (a.brick.faces = [] ∨ (a.ref = r ∧ a.epsg = e)) →
    (∀ s, sumFootPrints C fs a = .ok s → fs ≠ [] → s.ref = r ∧ s.epsg = e) ∧
    (∀ x, sumFootPrints C fs a = .thrown x → ∃ b f, f ∈ fs ∧ Brick.addBrick C b f.brick = .thrown x) ∧
    (sumFootPrints C fs a = .ub → ∃ b f, f ∈ fs ∧ Brick.addBrick C b f.brick = .ub)
  | [], a, _, _ => by
    refine ⟨?_, ?_, ?_⟩
    · intro _ _ h; exact absurd rfl h
    · intro x h; cases h
    · intro h; cases h
  | f :: fs, a, hf, ha => by
    have hff := hf f List.mem_cons_self
    have hfs : ∀ g ∈ fs, g.ref = r ∧ g.epsg = e := fun g hg => hf g (List.mem_cons_of_mem _ hg)
    -- the sum with the first footprint
    have step : (∃ a', a.add C f = .ok a' ∧ a'.ref = r ∧ a'.epsg = e) ∨ (∃ x, a.add C f = .thrown x ∧ a.brick.addBrick C f.brick = .thrown x) ∨
        (a.add C f = .ub ∧ a.brick.addBrick C f.brick = .ub) := by
      unfold FootPrint.add
      split
      · exact Or.inl ⟨f, rfl, hff⟩
      · rename_i hne
        have har : a.ref = r ∧ a.epsg = e := by
          rcases ha with ha | ha
          · exfalso; apply hne; simp [Brick.isEmpty, ha]
          · exact ha
        rw [if_neg (by rw [har.1, har.2, hff.1, hff.2]; simp)]
        cases h : a.brick.addBrick C f.brick with
        | ok b => exact Or.inl ⟨_, rfl, har⟩
        | thrown x => exact Or.inr (Or.inl ⟨x, rfl, rfl⟩)
        | ub => exact Or.inr (Or.inr ⟨rfl, rfl⟩)
    rcases step with ⟨a', h1, h2⟩ | ⟨x, h1, h2⟩ | ⟨h1, h2⟩
    · obtain ⟨i1, i2, i3⟩ := C66_sum C r e fs a' hfs (Or.inr h2)
      rw [sumFootPrints, h1, Out.ok_bind]
      refine ⟨?_, ?_, ?_⟩
      · intro s hs _
        cases fs with
        | nil => cases hs; exact h2
        | cons g gs => exact i1 s hs (by simp)
      · intro x hx
        obtain ⟨b, g, hg, hb⟩ := i2 x hx
        exact ⟨b, g, List.mem_cons_of_mem _ hg, hb⟩
      · intro hx
        obtain ⟨b, g, hg, hb⟩ := i3 hx
        exact ⟨b, g, List.mem_cons_of_mem _ hg, hb⟩
    · rw [sumFootPrints, h1]
      refine ⟨?_, ?_, ?_⟩
      · intro s hs; cases hs
      · intro y hy
        cases hy
        exact ⟨_, f, List.mem_cons_self, h2⟩
      · intro hy; cases hy
    · rw [sumFootPrints, h1]
      refine ⟨?_, ?_, ?_⟩
      · intro s hs; cases hs
      · intro y hy; cases hy
      · intro _; exact ⟨_, f, List.mem_cons_self, h2⟩

/-- C66: pruning a scene prunes every building in place, the terrain exactly when requested, and keeps the pivot, the code and the order. -/
theorem C66_prune (pr : N → Out N) (s s' : Scene N) (terrain : Bool) (h : scenePrune pr terrain s = .ok s') :
    s'.pivot = s.pivot ∧ s'.epsg = s.epsg ∧ List.Forall₂ (fun n n' => pr n = .ok n') s.buildings s'.buildings ∧
    (terrain = true → pr s.terrain = .ok s'.terrain) ∧ (terrain = false → s'.terrain = s.terrain) := by
  obtain ⟨bs, h1, h2⟩ := Out.bind_eq_ok.1 h
  cases terrain with
  | false =>
    cases h2
    exact ⟨rfl, rfl, Out.mapM_eq_ok.1 h1, by simp, fun _ => rfl⟩
  | true =>
    obtain ⟨t, h3, h4⟩ := Out.bind_eq_ok.1 h2
    cases h4
    exact ⟨rfl, rfl, Out.mapM_eq_ok.1 h1, fun _ => h3, by simp⟩

theorem offset_meta {r r' : Raster K} (h : r.verticalOffset = .ok r') : r'.name = r.name ∧ r'.epsg = r.epsg ∧ r'.pixel = r.pixel := by
  unfold Raster.verticalOffset at h
  split at h
  · cases h; exact ⟨rfl, rfl, rfl⟩
  · obtain ⟨_, _, h2⟩ := Out.bind_eq_ok.1 h
    cases h2; exact ⟨rfl, rfl, rfl⟩

/-- C66: rasterising gives one image per footprint, in order, each with the name, the code and the requested pixel size. -/
theorem C66_rasters (C : Cgal K) (lr : Bool) (fps : List (FootPrint K)) (p : K) (rs : List (Raster K)) (h : rasterizeScene C lr fps p = .ok rs) :
    List.Forall₂ (fun f r => Raster.ofFootPrint C lr f p = .ok r ∧ r.name = f.name ∧ r.epsg = f.epsg ∧ r.pixel = p) fps rs := by
  obtain ⟨v, h1, h2⟩ := Out.bind_eq_ok.1 h
  rw [writeOver_same _ _ (by rw [List.length_replicate, Out.mapM_length h1])] at h2
  cases h2
  refine (Out.mapM_eq_ok.1 h1).imp ?_
  intro f r hr
  refine ⟨hr, ?_⟩
  unfold Raster.ofFootPrint at hr
  split at hr
  · cases hr
  · obtain ⟨_, _, hr⟩ := Out.bind_eq_ok.1 hr
    obtain ⟨_, _, hr⟩ := Out.bind_eq_ok.1 hr
    obtain ⟨_, _, hr⟩ := Out.bind_eq_ok.1 hr
    obtain ⟨a, b, c⟩ := offset_meta hr
    exact ⟨a, b, c⟩

end

end City.Props
