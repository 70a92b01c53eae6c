import Verif.Props.Node
import Verif.Props.Prune
/-!
C61: the bounding box of a node.
-/
set_option linter.unusedSectionVars false
namespace City.Props
open City City.Spec V3

section
variable {K : Type} [Field K] [LinearOrder K] [IsStrictOrderedRing K]

theorem tight_union {b : Box3 K} {ps : List (V3 K)} (h : SnugBox b ps) (p : V3 K) : SnugBox (Box3.union (some b) (Box3.point p)) (ps ++ [p]) := by
  refine ⟨?_, ?_, ?_, ?_, ?_, ?_, ?_⟩
  · intro q hq
    rcases List.mem_append.1 hq with hq | hq
    · obtain ⟨h1, h2, h3, h4, h5, h6⟩ := h.inside q hq
      exact ⟨(min_le_left _ _).trans h1, h2.trans (le_max_left _ _), (min_le_left _ _).trans h3, h4.trans (le_max_left _ _),
        (min_le_left _ _).trans h5, h6.trans (le_max_left _ _)⟩
    · rw [List.mem_singleton.1 hq]
      exact ⟨min_le_right _ _, le_max_right _ _, min_le_right _ _, le_max_right _ _, min_le_right _ _, le_max_right _ _⟩
  all_goals
    simp only [Box3.union, Box3.point]
  · rcases min_choice b.lo.x p.x with e | e <;> rw [e]
    · obtain ⟨q, h1, h2⟩ := h.xlo; exact ⟨q, by simp [h1], h2⟩
    · exact ⟨p, by simp, rfl⟩
  · rcases max_choice b.hi.x p.x with e | e <;> rw [e]
    · obtain ⟨q, h1, h2⟩ := h.xhi; exact ⟨q, by simp [h1], h2⟩
    · exact ⟨p, by simp, rfl⟩
  · rcases min_choice b.lo.y p.y with e | e <;> rw [e]
    · obtain ⟨q, h1, h2⟩ := h.ylo; exact ⟨q, by simp [h1], h2⟩
    · exact ⟨p, by simp, rfl⟩
  · rcases max_choice b.hi.y p.y with e | e <;> rw [e]
    · obtain ⟨q, h1, h2⟩ := h.yhi; exact ⟨q, by simp [h1], h2⟩
    · exact ⟨p, by simp, rfl⟩
  · rcases min_choice b.lo.z p.z with e | e <;> rw [e]
    · obtain ⟨q, h1, h2⟩ := h.zlo; exact ⟨q, by simp [h1], h2⟩
    · exact ⟨p, by simp, rfl⟩
  · rcases max_choice b.hi.z p.z with e | e <;> rw [e]
    · obtain ⟨q, h1, h2⟩ := h.zhi; exact ⟨q, by simp [h1], h2⟩
    · exact ⟨p, by simp, rfl⟩

theorem tight_point (p : V3 K) : SnugBox (Box3.point p) [p] := by
  refine ⟨fun q hq => ?_, ⟨p, by simp, rfl⟩, ⟨p, by simp, rfl⟩, ⟨p, by simp, rfl⟩, ⟨p, by simp, rfl⟩, ⟨p, by simp, rfl⟩, ⟨p, by simp, rfl⟩⟩
  rw [List.mem_singleton.1 hq]
  simp [Box3.point]

theorem tight_foldl : ∀ (ps qs : List (V3 K)) (b : Box3 K), SnugBox b qs →
    ∃ b', ps.foldl (fun b p => some (Box3.union b (Box3.point p))) (some b) = some b' ∧ SnugBox b' (qs ++ ps)
  | [], qs, b, h => ⟨b, rfl, by simpa using h⟩
  | p :: ps, qs, b, h => by
    obtain ⟨b', h1, h2⟩ := tight_foldl ps (qs ++ [p]) _ (tight_union h p)
    exact ⟨b', h1, by simpa using h2⟩

theorem ofPoints_tight {ps : List (V3 K)} (h : ps ≠ []) : ∃ b, Box3.ofPoints ps = some b ∧ SnugBox b ps := by
  cases ps with
  | nil => exact absurd rfl h
  | cons p ps =>
    obtain ⟨b, h1, h2⟩ := tight_foldl ps [p] _ (tight_point p)
    exact ⟨b, h1, h2⟩

/-- There is at most one tight box. -/
theorem tight_unique {a b : Box3 K} {ps qs : List (V3 K)} (ha : SnugBox a ps) (hb : SnugBox b qs) (h : ∀ p, p ∈ ps ↔ p ∈ qs) : a = b := by
  have hb' : ∀ p ∈ ps, b.lo.x ≤ p.x ∧ p.x ≤ b.hi.x ∧ b.lo.y ≤ p.y ∧ p.y ≤ b.hi.y ∧ b.lo.z ≤ p.z ∧ p.z ≤ b.hi.z := fun p hp => hb.inside p ((h p).1 hp)
  have ha' : ∀ p ∈ qs, a.lo.x ≤ p.x ∧ p.x ≤ a.hi.x ∧ a.lo.y ≤ p.y ∧ p.y ≤ a.hi.y ∧ a.lo.z ≤ p.z ∧ p.z ≤ a.hi.z := fun p hp => ha.inside p ((h p).2 hp)
  obtain ⟨p1, m1, e1⟩ := ha.xlo
  obtain ⟨p2, m2, e2⟩ := ha.xhi
  obtain ⟨p3, m3, e3⟩ := ha.ylo
  obtain ⟨p4, m4, e4⟩ := ha.yhi
  obtain ⟨p5, m5, e5⟩ := ha.zlo
  obtain ⟨p6, m6, e6⟩ := ha.zhi
  obtain ⟨q1, n1, f1⟩ := hb.xlo
  obtain ⟨q2, n2, f2⟩ := hb.xhi
  obtain ⟨q3, n3, f3⟩ := hb.ylo
  obtain ⟨q4, n4, f4⟩ := hb.yhi
  obtain ⟨q5, n5, f5⟩ := hb.zlo
  obtain ⟨q6, n6, f6⟩ := hb.zhi
  have x1 := (hb' p1 m1).1
  have x2 := (hb' p2 m2).2.1
  have x3 := (hb' p3 m3).2.2.1
  have x4 := (hb' p4 m4).2.2.2.1
  have x5 := (hb' p5 m5).2.2.2.2.1
  have x6 := (hb' p6 m6).2.2.2.2.2
  have y1 := (ha' q1 n1).1
  have y2 := (ha' q2 n2).2.1
  have y3 := (ha' q3 n3).2.2.1
  have y4 := (ha' q4 n4).2.2.2.1
  have y5 := (ha' q5 n5).2.2.2.2.1
  have y6 := (ha' q6 n6).2.2.2.2.2
  cases a with
  | mk al ah =>
    cases b with
    | mk bl bh =>
      cases al; cases ah; cases bl; cases bh
      simp only at *
      congr 2 <;> linarith

/-- The operations that change a node. -/
inductive NodeOp (K : Type)
  | translate (v : V3 K)
  | scale (s : K)
  | affine (A : Aff K)
  | prune (nrm : List (V3 K) → V3 K) (stitch : Surf K → Surf K)
  | setFaceIds

/-- The effect of an operation. -/
def NodeOp.run : NodeOp K → UNode K → Out (UNode K)
  | .translate v, n => .ok (n.translate v)
  | .scale s, n => .ok (n.scale s)
  | .affine A, n => .ok (n.affine A)
  | .prune nrm stitch, n => n.prune nrm stitch
  | .setFaceIds, n => .ok n.setFaceIds

/-- The effect of a sequence of operations. -/
def runOps : List (NodeOp K) → UNode K → Out (UNode K)
  | [], n => .ok n
  | o :: os, n => do
    let n' ← o.run n
    runOps os n'

/-- The full claim: after any sequence of operations on a new node the box is the tight box of the points. -/
def C61_full : Prop :=
  ∀ (name : Text) (ref : V3 ℚ) (epsg : Nat) (S : Surf ℚ), ValidSurf S → S.hs ≠ [] → ∀ (ops : List (NodeOp ℚ)) (n : UNode ℚ),
    runOps ops (UNode.make name ref epsg S) = .ok n → ∃ b, n.bbox = some b ∧ SnugBox b n.surf.points

theorem op_box {o : NodeOp K} {n n' : UNode K} (h : o.run n = .ok n') : n'.bbox = n.bbox := by
  cases o with
  | prune nrm stitch =>
    simp only [NodeOp.run, UNode.prune] at h
    obtain ⟨S, _, h2⟩ := Out.bind_eq_ok.1 h
    cases h2; rfl
  | translate v => cases h; rfl
  | scale s => cases h; rfl
  | affine A => cases h; rfl
  | setFaceIds => cases h; rfl

theorem ops_box : ∀ (ops : List (NodeOp K)) {n n' : UNode K}, runOps ops n = .ok n' → n'.bbox = n.bbox
  | [], n, n', h => by cases h; rfl
  | o :: os, n, n', h => by
    obtain ⟨m, h1, h2⟩ := Out.bind_eq_ok.1 h
    rw [ops_box os h2, op_box h1]

theorem points_ne {S : Surf K} (V : ValidSurf S) (h : S.hs ≠ []) : S.points ≠ [] := by
  obtain ⟨x, hx⟩ := List.exists_mem_of_ne_nil _ h
  intro h0
  have := V.vert_mem x hx
  rw [List.map_eq_nil_iff.1 h0] at this
  simp at this

/-- C61 (partial): the box of a new node is the tight box of its points; it is never updated: after any sequence of operations it is still the box of the points
the node was made with. So it is right exactly when the points have the same extent as at the beginning. -/
theorem C61_box_partial (name : Text) (ref : V3 ℚ) (epsg : Nat) (S : Surf K) (V : ValidSurf S) (h : S.hs ≠ []) :
    ∃ b, (UNode.make name ref epsg S).bbox = some b ∧ SnugBox b S.points ∧ ∀ (ops : List (NodeOp K)) (n : UNode K),
      runOps ops (UNode.make name ref epsg S) = .ok n → n.bbox = some b := by
  obtain ⟨b, h1, h2⟩ := ofPoints_tight (points_ne V h)
  have hb : (UNode.make name ref epsg S).bbox = some b := by simp [UNode.make, UNode.bbox, h, h1]
  exact ⟨b, hb, h2, fun ops n hn => by rw [ops_box ops hn, hb]⟩

/-- An empty surface leaves the default box. -/
theorem C61_empty (name : Text) (ref : V3 ℚ) (epsg : Nat) (S : Surf K) (h : S.hs = []) : (UNode.make name ref epsg S).bbox = none := by
  simp [UNode.make, UNode.bbox, h]

/-- C61: after one translation of a node whose box was right, the box is wrong unless the translation is zero. -/
theorem C61_translate_iff (n : UNode K) (b : Box3 K) (hb : n.bbox = some b) (ht : SnugBox b n.surf.points) (v : V3 K) :
    (∃ b', (n.translate v).bbox = some b' ∧ SnugBox b' (n.translate v).surf.points) ↔ v = zero := by
  have hp : (n.translate v).surf.points = n.surf.points.map fun p => add p v := by
    simp only [Surf.points, List.map_map, UNode.translate, UNode.affine, Surf.transform]
    apply List.map_congr_left
    intro w hw
    simp [hw, Aff.apply_translation]
  constructor
  · rintro ⟨b', h1, h2⟩
    have hb2 : (n.translate v).bbox = n.bbox := rfl
    rw [hb2, hb] at h1
    cases h1
    rw [hp] at h2
    have hin : ∀ p ∈ n.surf.points, b.lo.x ≤ p.x + v.x ∧ p.x + v.x ≤ b.hi.x ∧ b.lo.y ≤ p.y + v.y ∧ p.y + v.y ≤ b.hi.y ∧ b.lo.z ≤ p.z + v.z ∧ p.z + v.z ≤ b.hi.z :=
      fun p hp => h2.inside (add p v) (List.mem_map_of_mem hp)
    obtain ⟨p1, m1, e1⟩ := ht.xlo
    obtain ⟨p2, m2, e2⟩ := ht.xhi
    obtain ⟨p3, m3, e3⟩ := ht.ylo
    obtain ⟨p4, m4, e4⟩ := ht.yhi
    obtain ⟨p5, m5, e5⟩ := ht.zlo
    obtain ⟨p6, m6, e6⟩ := ht.zhi
    have x1 := (hin p1 m1).1
    have x2 := (hin p2 m2).2.1
    have x3 := (hin p3 m3).2.2.1
    have x4 := (hin p4 m4).2.2.2.1
    have x5 := (hin p5 m5).2.2.2.2.1
    have x6 := (hin p6 m6).2.2.2.2.2
    ext <;> simp only [zero] <;> linarith
  · rintro rfl
    rw [(C60_compose n).2.2.2.2.2.2.1]
    exact ⟨b, hb, ht⟩

variable {nrm : List (V3 K) → V3 K}

theorem pruneLoop_points : ∀ (k : Nat) {S S' : Surf K}, Surf.pruneLoop nrm k S = .ok S' → S'.vs = S.vs ∧ S'.pt = S.pt
  | 0, S, S', h => by simp [Surf.pruneLoop] at h
  | k + 1, S, S', h => by
    obtain ⟨p, h1, h2⟩ := Out.bind_eq_ok.1 h
    cases p with
    | none => cases h2; exact ⟨rfl, rfl⟩
    | some x =>
      obtain ⟨S1, h3, h4⟩ := Out.bind_eq_ok.1 h2
      have e : S1.vs = S.vs ∧ S1.pt = S.pt := by
        unfold Surf.joinFacet at h3
        split at h3
        · cases h3
        · obtain ⟨fc, _, h6⟩ := Out.bind_eq_ok.1 h3
          cases h6; exact ⟨rfl, rfl⟩
      obtain ⟨a, b⟩ := pruneLoop_points k h4
      exact ⟨a.trans e.1, b.trans e.2⟩

/-- C61: pruning keeps the box right: it joins facets and moves no point (as far as stitching the borders, done by CGAL, keeps the set of points). -/
theorem C61_prune (n n' : UNode K) (stitch : Surf K → Surf K) (hst : ∀ S p, p ∈ (stitch S).points ↔ p ∈ S.points) (b : Box3 K) (hb : n.bbox = some b)
    (ht : SnugBox b n.surf.points) (h : n.prune nrm stitch = .ok n') : n'.bbox = some b ∧ SnugBox b n'.surf.points := by
  obtain ⟨S, h1, h2⟩ := Out.bind_eq_ok.1 h
  cases h2
  refine ⟨hb, ?_⟩
  obtain ⟨T, h3, h4⟩ := Out.bind_eq_ok.1 h1
  cases h4
  obtain ⟨e1, e2⟩ := pruneLoop_points _ h3
  have hpts : ∀ p, p ∈ ((stitch T).setIds).points ↔ p ∈ n.surf.points := by
    intro p
    have e3 : ((stitch T).setIds).points = (stitch T).points := rfl
    have e4 : T.points = n.surf.points := by rw [Surf.points, Surf.points, e1, e2]
    rw [e3, hst T p, e4]
  refine ⟨fun p hp => ht.inside p ((hpts p).1 hp), ?_, ?_, ?_, ?_, ?_, ?_⟩
  · obtain ⟨p, a, b⟩ := ht.xlo; exact ⟨p, (hpts p).2 a, b⟩
  · obtain ⟨p, a, b⟩ := ht.xhi; exact ⟨p, (hpts p).2 a, b⟩
  · obtain ⟨p, a, b⟩ := ht.ylo; exact ⟨p, (hpts p).2 a, b⟩
  · obtain ⟨p, a, b⟩ := ht.yhi; exact ⟨p, (hpts p).2 a, b⟩
  · obtain ⟨p, a, b⟩ := ht.zlo; exact ⟨p, (hpts p).2 a, b⟩
  · obtain ⟨p, a, b⟩ := ht.zhi; exact ⟨p, (hpts p).2 a, b⟩

/-- C61: copies, assignments and swaps carry the box with the surface. -/
theorem C61_copy (a b : UNode K) : UNode.assign a b = b ∧ UNode.swap a b = (b, a) := ⟨rfl, rfl⟩

end

/-- C61 is false: after a translation the box is that of the old points. -/
theorem C61_refuted : ¬ C61_full := by
  intro h
  have hne : tetra.hs ≠ [] := by decide +kernel
  obtain ⟨b, h1, h2, _⟩ := C61_box_partial (K := ℚ) [] ⟨0, 0, 0⟩ 2154 tetra tetra_valid hne
  obtain ⟨b', h3, h4⟩ := h [] ⟨0, 0, 0⟩ 2154 tetra tetra_valid hne [.translate ⟨1, 0, 0⟩] _ rfl
  have := (C61_translate_iff (UNode.make [] ⟨0, 0, 0⟩ 2154 tetra) b h1 h2 ⟨1, 0, 0⟩).1 ⟨b', h3, h4⟩
  exact absurd (congrArg V3.x this) (by decide +kernel)

/-- The tetrahedron has the box of its four points. -/
example : (UNode.make [] ⟨0, 0, 0⟩ 2154 tetra).bbox = Box3.ofPoints tetra.points ∧ Box3.ofPoints tetra.points ≠ none := by decide +kernel

end City.Props
