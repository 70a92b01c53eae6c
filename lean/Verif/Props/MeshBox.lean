import Verif.Props.Bbox
import Verif.Props.Mesh
/-!
C04, C14: the box of a mesh in terms of its points, and exactly which sums of meshes have the right box.
-/
namespace City.Props
open City Spec

/-- A point is surrounded by points: in each direction one of them is at least as far. -/
def Surrounded (ps : List (V3 ℚ)) (p : V3 ℚ) : Prop :=
  (∃ q ∈ ps, q.x ≤ p.x) ∧ (∃ q ∈ ps, p.x ≤ q.x) ∧ (∃ q ∈ ps, q.y ≤ p.y) ∧ (∃ q ∈ ps, p.y ≤ q.y) ∧ (∃ q ∈ ps, q.z ≤ p.z) ∧ (∃ q ∈ ps, p.z ≤ q.z)

theorem real_points (ps : List (V3 ℚ)) : ∀ p ∈ ps.map V3.toDbl, PtReal p := by
  intro p hp
  obtain ⟨q, -, rfl⟩ := List.mem_map.1 hp
  exact ptReal_toDbl q

theorem le_fin {a b : ℚ} : Le (.fin a) (.fin b) ↔ a ≤ b := Iff.rfl

theorem inBox_iff (ps : List (V3 ℚ)) (p : V3 ℚ) : InBox p.toDbl (Bbox.ofPoints (ps.map V3.toDbl)) ↔ Surrounded ps p := by
  constructor
  · intro h
    have hne : ps.map V3.toDbl ≠ [] := by
      intro he
      rw [he] at h
      exact C04_empty.2 _ h
    obtain ⟨⟨q1, m1, e1⟩, ⟨q2, m2, e2⟩, ⟨q3, m3, e3⟩, ⟨q4, m4, e4⟩, ⟨q5, m5, e5⟩, ⟨q6, m6, e6⟩⟩ := C04_attained _ (real_points ps) hne
    obtain ⟨h1, h2, h3, h4, h5, h6⟩ := h
    rw [← e1] at h1
    rw [← e2] at h2
    rw [← e3] at h3
    rw [← e4] at h4
    rw [← e5] at h5
    rw [← e6] at h6
    obtain ⟨r1, n1, rfl⟩ := List.mem_map.1 m1
    obtain ⟨r2, n2, rfl⟩ := List.mem_map.1 m2
    obtain ⟨r3, n3, rfl⟩ := List.mem_map.1 m3
    obtain ⟨r4, n4, rfl⟩ := List.mem_map.1 m4
    obtain ⟨r5, n5, rfl⟩ := List.mem_map.1 m5
    obtain ⟨r6, n6, rfl⟩ := List.mem_map.1 m6
    exact ⟨⟨r1, n1, le_fin.1 h1⟩, ⟨r2, n2, le_fin.1 h2⟩, ⟨r3, n3, le_fin.1 h3⟩, ⟨r4, n4, le_fin.1 h4⟩, ⟨r5, n5, le_fin.1 h5⟩, ⟨r6, n6, le_fin.1 h6⟩⟩
  · rintro ⟨⟨q1, m1, e1⟩, ⟨q2, m2, e2⟩, ⟨q3, m3, e3⟩, ⟨q4, m4, e4⟩, ⟨q5, m5, e5⟩, ⟨q6, m6, e6⟩⟩
    have hin := (tight_ofPoints (real_points ps)).2.1
    have hin' : ∀ q ∈ ps, InBox q.toDbl (Bbox.ofPoints (ps.map V3.toDbl)) := fun q hq => hin _ (List.mem_map_of_mem hq)
    exact ⟨(hin' q1 m1).1.trans (le_fin.2 e1), (le_fin.2 e2 : Le p.toDbl.x q2.toDbl.x).trans (hin' q2 m2).2.1,
      (hin' q3 m3).2.2.1.trans (le_fin.2 e3), (le_fin.2 e4 : Le p.toDbl.y q4.toDbl.y).trans (hin' q4 m4).2.2.2.1,
      (hin' q5 m5).2.2.2.2.1.trans (le_fin.2 e5), (le_fin.2 e6 : Le p.toDbl.z q6.toDbl.z).trans (hin' q6 m6).2.2.2.2.2⟩

/-- C04: the box of a constructed mesh with points: its six extremes are coordinates of points, and no point goes beyond. -/
theorem C04_mesh (n : Text) (ps : List (V3 ℚ)) (fs : List Face) (hne : ps ≠ []) :
    ∃ a b c d e f : V3 ℚ, (Mesh.make n ps fs).bbox = ⟨.fin a.x, .fin b.x, .fin c.y, .fin d.y, .fin e.z, .fin f.z⟩ ∧
      (a ∈ ps ∧ b ∈ ps ∧ c ∈ ps ∧ d ∈ ps ∧ e ∈ ps ∧ f ∈ ps) ∧
      ∀ p ∈ ps, a.x ≤ p.x ∧ p.x ≤ b.x ∧ c.y ≤ p.y ∧ p.y ≤ d.y ∧ e.z ≤ p.z ∧ p.z ≤ f.z := by
  have hb : (Mesh.make n ps fs).bbox = Bbox.ofPoints (ps.map V3.toDbl) := rfl
  obtain ⟨⟨q1, m1, e1⟩, ⟨q2, m2, e2⟩, ⟨q3, m3, e3⟩, ⟨q4, m4, e4⟩, ⟨q5, m5, e5⟩, ⟨q6, m6, e6⟩⟩ := C04_attained _ (real_points ps) (by simpa using hne)
  have hin := (tight_ofPoints (real_points ps)).2.1
  obtain ⟨r1, n1, rfl⟩ := List.mem_map.1 m1
  obtain ⟨r2, n2, rfl⟩ := List.mem_map.1 m2
  obtain ⟨r3, n3, rfl⟩ := List.mem_map.1 m3
  obtain ⟨r4, n4, rfl⟩ := List.mem_map.1 m4
  obtain ⟨r5, n5, rfl⟩ := List.mem_map.1 m5
  obtain ⟨r6, n6, rfl⟩ := List.mem_map.1 m6
  refine ⟨r1, r2, r3, r4, r5, r6, ?_, ⟨n1, n2, n3, n4, n5, n6⟩, ?_⟩
  · rw [hb, Bbox.ext_iff]
    exact ⟨e1.symm, e2.symm, e3.symm, e4.symm, e5.symm, e6.symm⟩
  · intro p hp
    obtain ⟨h1, h2, h3, h4, h5, h6⟩ := hin _ (List.mem_map_of_mem hp)
    rw [← e1] at h1
    rw [← e2] at h2
    rw [← e3] at h3
    rw [← e4] at h4
    rw [← e5] at h5
    rw [← e6] at h6
    exact ⟨h1, h2, h3, h4, h5, h6⟩

theorem unions_tight : ∀ (ms : List Mesh) (b : Bbox) (ps : List (V3 Dbl)), TightBox b ps → (∀ m ∈ ms, BoxFresh m) →
    TightBox (ms.foldl (fun b x => b.union x.bbox) b) (ps ++ (ms.flatMap (·.points)).map V3.toDbl)
  | [], b, ps, hb, _ => by simpa using hb
  | m :: ms, b, ps, hb, hms => by
    have := unions_tight ms _ _ (tight_union hb (hms m List.mem_cons_self)) fun x hx => hms x (List.mem_cons_of_mem _ hx)
    simpa using this

theorem sum_points : ∀ (ms : List Mesh) (a : Mesh), (Mesh.sumFrom a ms).points = a.points ++ ms.flatMap (·.points)
  | [], a => by simp [Mesh.sumFrom]
  | m :: ms, a => by
    rw [show Mesh.sumFrom a (m :: ms) = Mesh.sumFrom (a.append m) ms from rfl, sum_points ms]
    by_cases h : a.points = []
    · rw [append_of_empty h]
      simp [Mesh.assign, h]
    · rw [append_of_nonempty h]
      simp

/-- A mesh that is empty, and reports the empty box. -/
theorem sum_nothing : ∀ (ms : List Mesh) (a : Mesh), a.points = [] → a.bbox = Bbox.empty → (∀ m ∈ ms, m.points = []) →
    (Mesh.sumFrom a ms).points = [] ∧ (Mesh.sumFrom a ms).bbox = Bbox.empty
  | [], _, h, h', _ => ⟨h, h'⟩
  | m :: ms, a, h, h', hm => by
    rw [show Mesh.sumFrom a (m :: ms) = Mesh.sumFrom (a.append m) ms from rfl, append_of_empty h]
    exact sum_nothing ms _ (hm m List.mem_cons_self) h' fun x hx => hm x (List.mem_cons_of_mem _ hx)

/-- C14: exactly which sums that start from `Mesh()` have the right box: those in which the points of the first mesh that has any are surrounded by the points of
the meshes after it. -/
theorem C14_exact (pre : List Mesh) (first : Mesh) (post : List Mesh) (hpre : ∀ m ∈ pre, m.points = []) (hne : first.points ≠ [])
    (hpost : ∀ m ∈ post, BoxFresh m) :
    BoxFresh (Mesh.sumFrom Mesh.empty (pre ++ first :: post)) ↔ ∀ p ∈ first.points, Surrounded (post.flatMap (·.points)) p := by
  obtain ⟨h1, h2⟩ := sum_nothing pre Mesh.empty rfl rfl hpre
  have hsplit : Mesh.sumFrom Mesh.empty (pre ++ first :: post) = Mesh.sumFrom ((Mesh.sumFrom Mesh.empty pre).append first) post := by
    simp [Mesh.sumFrom, Mesh.add]
  have hbox : (Mesh.sumFrom Mesh.empty (pre ++ first :: post)).bbox = post.foldl (fun b x => b.union x.bbox) Bbox.empty := by
    rw [hsplit, append_of_empty h1]
    have key : ∀ (ms : List Mesh) (a : Mesh), a.points ≠ [] →
        (Mesh.sumFrom a ms).bbox = ms.foldl (fun b x => b.union x.bbox) a.bbox := by
      intro ms
      induction ms with
      | nil => intro a _; rfl
      | cons x ms ih =>
        intro a ha
        rw [show Mesh.sumFrom a (x :: ms) = Mesh.sumFrom (a.append x) ms from rfl, append_of_nonempty ha, ih _ (by simp [ha])]
        rfl
    rw [key post _ (by simpa [Mesh.assign] using hne)]
    show post.foldl _ (Mesh.sumFrom Mesh.empty pre).bbox = _
    rw [h2]
  have hpts : (Mesh.sumFrom Mesh.empty (pre ++ first :: post)).points = first.points ++ post.flatMap (·.points) := by
    rw [hsplit, sum_points, append_of_empty h1]
    rfl
  have htight : TightBox (post.foldl (fun b x => b.union x.bbox) Bbox.empty) ((post.flatMap (·.points)).map V3.toDbl) := by
    have := unions_tight post Bbox.empty [] (tight_ofPoints (ps := []) (by simp)) hpost
    simpa using this
  have heq := tight_unique htight (tight_ofPoints (real_points (post.flatMap (·.points))))
  unfold BoxFresh
  rw [hbox, hpts, List.map_append]
  constructor
  · rintro ⟨-, h, -⟩ p hp
    rw [← inBox_iff, ← heq]
    exact h _ (List.mem_append_left _ (List.mem_map_of_mem hp))
  · intro h
    refine ⟨htight.1, fun p hp => ?_, fun c hc hin => htight.2.2 c hc fun p hp => hin p (List.mem_append_right _ hp)⟩
    rcases List.mem_append.1 hp with hp | hp
    · obtain ⟨q, hq, rfl⟩ := List.mem_map.1 hp
      rw [heq, inBox_iff]
      exact h q hq
    · exact htight.2.1 p hp

/-- C14: a sum of meshes without points has the empty box, which is right. -/
theorem C14_nothing (ms : List Mesh) (h : ∀ m ∈ ms, m.points = []) : BoxFresh (Mesh.sumFrom Mesh.empty ms) := by
  obtain ⟨h1, h2⟩ := sum_nothing ms Mesh.empty rfl rfl h
  unfold BoxFresh
  rw [h1, h2]
  exact tight_ofPoints (ps := []) (by simp)

/-- A sum whose box is right: the second triangle is larger than the first; and one whose box is wrong. -/
example : BoxFresh (Mesh.sumFrom Mesh.empty [demoTri, Mesh.make [] [⟨-5, -5, -5⟩, ⟨5, 5, 5⟩, ⟨5, -5, 0⟩] [⟨[0, 1, 2]⟩]]) ∧
    ¬ BoxFresh (Mesh.sumFrom Mesh.empty [demoTri, Mesh.make [] [⟨5, 5, 5⟩] []]) := by
  constructor
  · refine (C14_exact [] demoTri _ (by simp) (by decide) ?_).2 ?_
    · intro m hm
      rw [List.mem_singleton.1 hm]
      exact boxFresh_make _ _ _
    · simp only [List.flatMap_cons, List.flatMap_nil, List.append_nil, Mesh.make, Surrounded]
      decide +kernel
  · intro h
    have := (C14_exact [] demoTri [Mesh.make [] [⟨5, 5, 5⟩] []] (by simp) (by decide) (by
      intro m hm
      rw [List.mem_singleton.1 hm]
      exact boxFresh_make _ _ _)).1 h
    revert this
    simp only [List.flatMap_cons, List.flatMap_nil, List.append_nil, Mesh.make, Surrounded]
    decide +kernel

end City.Props
