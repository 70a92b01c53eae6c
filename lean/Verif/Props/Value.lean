import Verif.Model.Value
import Verif.Lemmas.SurfDemo
import Mathlib.Tactic.NormNum
/-!
Property C76: after every history of constructions, copies, moves, assignments and swaps, with any aliasing, every object holds the value the history gives it.
-/
namespace City.Props
open City Spec

section generic
variable {R : Type}

theorem put_self (σ : Store R) (d : Nat) (v : R) : (σ.put d v) d = v := by simp [Store.put]

theorem put_ne (σ : Store R) {d x : Nat} (h : x ≠ d) (v : R) : (σ.put d v) x = σ x := by simp [Store.put, h]

theorem put_put (σ : Store R) (d : Nat) (v w : R) : (σ.put d v).put d w = σ.put d w := by
  funext x; simp only [Store.put]; split <;> rfl

theorem put_comm (σ : Store R) {d e : Nat} (h : d ≠ e) (v w : R) : (σ.put d v).put e w = (σ.put e w).put d v := by
  funext x; simp only [Store.put]
  by_cases h1 : x = d
  · subst h1; simp [h]
  · simp [h1]

theorem put_id (σ : Store R) (d : Nat) : σ.put d (σ d) = σ := by
  funext x; simp only [Store.put]; split
  · next h => rw [h]
  · rfl

/-- A copy, on the record of the target. -/
def copyRec (rs rd : R) (l : List (Member R × From)) : R :=
  l.foldl (fun r m => match m.2 with | .other => m.1.set (m.1.get rs) r | .this => m.1.set (m.1.get r) r) rd

/-- A copy of an object to itself. -/
def copySelf (r : R) (l : List (Member R × From)) : R := l.foldl (fun r m => m.1.set (m.1.get r) r) r

theorem copy_ne (l : List (Member R × From)) {d s : Nat} (h : s ≠ d) (σ : Store R) :
    l.foldl (copyMember d s) σ = σ.put d (copyRec (σ s) (σ d) l) := by
  induction l generalizing σ with
  | nil => simp [copyRec, put_id]
  | cons m l ih =>
    rw [List.foldl_cons, ih]
    obtain ⟨m, f⟩ := m
    cases f <;> simp only [copyMember, put_put, put_self, put_ne σ h, copyRec, List.foldl_cons]

theorem copy_same (l : List (Member R × From)) (d : Nat) (σ : Store R) :
    l.foldl (copyMember d d) σ = σ.put d (copySelf (σ d) l) := by
  induction l generalizing σ with
  | nil => simp [copySelf, put_id]
  | cons m l ih =>
    rw [List.foldl_cons, ih]
    obtain ⟨m, f⟩ := m
    cases f <;> simp only [copyMember, put_put, put_self, copySelf, List.foldl_cons]

/-- A move, on the records of the target and of the source. -/
def moveRec (j : R) (p : R × R) (l : List (Member R)) : R × R :=
  l.foldl (fun p m => (m.set (m.get p.2) p.1, m.set (m.get j) p.2)) p

theorem move_ne (l : List (Member R)) (j : R) {d s : Nat} (h : s ≠ d) (σ : Store R) :
    l.foldl (moveMember j d s) σ = (σ.put d (moveRec j (σ d, σ s) l).1).put s (moveRec j (σ d, σ s) l).2 := by
  induction l generalizing σ with
  | nil => simp only [List.foldl_nil, moveRec, put_id]
  | cons m l ih =>
    rw [List.foldl_cons, ih]
    have e1 : moveMember j d s σ m d = m.set (m.get (σ s)) (σ d) := by
      simp only [moveMember]; rw [put_ne _ (Ne.symm h), put_self]
    have e2 : moveMember j d s σ m s = m.set (m.get j) (σ s) := by
      simp only [moveMember]; rw [put_self, put_ne _ h]
    rw [e1, e2]
    simp only [moveRec, List.foldl_cons]
    funext x
    simp only [moveMember, Store.put]
    by_cases h1 : x = s
    · simp [h1]
    · by_cases h2 : x = d <;> simp [h1, h2]

theorem move_other (l : List (Member R)) (j : R) (d s : Nat) (σ : Store R) {x : Nat} (h : x ≠ d) (h' : x ≠ s) : l.foldl (moveMember j d s) σ x = σ x := by
  induction l generalizing σ with
  | nil => rfl
  | cons m l ih => rw [List.foldl_cons, ih]; simp only [moveMember]; rw [put_ne _ h', put_ne _ h]

/-- A swap, on the two records. -/
def swapRec (p : R × R) (l : List (Member R)) : R × R := l.foldl (fun p m => (m.set (m.get p.2) p.1, m.set (m.get p.1) p.2)) p

theorem swap_ne (l : List (Member R)) {a b : Nat} (h : b ≠ a) (σ : Store R) :
    l.foldl (swapMember a b) σ = (σ.put a (swapRec (σ a, σ b) l).1).put b (swapRec (σ a, σ b) l).2 := by
  induction l generalizing σ with
  | nil => simp only [List.foldl_nil, swapRec, put_id]
  | cons m l ih =>
    rw [List.foldl_cons, ih]
    have e1 : swapMember a b σ m a = m.set (m.get (σ b)) (σ a) := by
      simp only [swapMember]; rw [put_ne _ (Ne.symm h), put_self]
    have e2 : swapMember a b σ m b = m.set (m.get (σ a)) (σ b) := by
      simp only [swapMember]; rw [put_self, put_ne _ h]
    rw [e1, e2]
    simp only [swapRec, List.foldl_cons]
    funext x
    simp only [swapMember, Store.put]
    by_cases h1 : x = b
    · simp [h1]
    · by_cases h2 : x = a <;> simp [h1, h2]

/-- A swap of an object with itself. -/
def swapSelf (r : R) (l : List (Member R)) : R := l.foldl (fun r m => m.set (m.get r) (m.set (m.get r) r)) r

theorem swap_same (l : List (Member R)) (a : Nat) (σ : Store R) : l.foldl (swapMember a a) σ = σ.put a (swapSelf (σ a) l) := by
  induction l generalizing σ with
  | nil => simp [swapSelf, put_id]
  | cons m l ih =>
    rw [List.foldl_cons, ih]
    simp only [swapMember, put_put, put_self, swapSelf, List.foldl_cons]

variable {W : Type}

/-- The objects agree with what is known of them, in what `w` shows of them. -/
def Agrees (w : R → W) (σ : Store R) (k : Known R) : Prop := ∀ x v, k x = some v → w (σ x) = w v

/-- The special members that handle what `w` shows. -/
structure Shows (C : ClassOps R) (w : R → W) : Prop where
  copyCtor : ∀ rs, w (copyRec rs C.dflt C.copyCtor) = w rs
  moveCtor : ∀ j rs, w (moveRec j (C.dflt, rs) C.moveCtor).1 = w rs
  copyAssign : ∀ rs rd, w (copyRec rs rd C.copyAssign) = w rs
  copySelf : ∀ r, w (copySelf r C.copyAssign) = w r
  moveAssign : ∀ j rd rs, w (moveRec j (rd, rs) C.moveAssign).1 = w rs
  swap : ∀ ra rb, w (swapRec (ra, rb) C.swap).1 = w rb ∧ w (swapRec (ra, rb) C.swap).2 = w ra
  swapSelf : ∀ r, w (swapSelf r C.swap) = w r

theorem known_put_self (k : Known R) (d : Nat) (v : Option R) : (k.put d v) d = v := by simp [Known.put]
theorem known_put_ne (k : Known R) {d x : Nat} (h : x ≠ d) (v : Option R) : (k.put d v) x = k x := by simp [Known.put, h]

/-- One statement, of a class of which only the copy assignment may fail to handle what is shown. -/
theorem step_agrees {C : ClassOps R} {w : R → W} {st : Stmt R} {σ : Store R} {k : Known R} (hS : Shows C w) (h : Agrees w σ k) :
    Agrees w (C.exec σ st) (st.meaning k) := by
  intro x v hx
  cases st with
  | fresh d u =>
    simp only [Stmt.meaning] at hx
    simp only [ClassOps.exec]
    by_cases e : x = d
    · subst e; rw [known_put_self] at hx; rw [put_self]; rw [Option.some.inj hx]
    · rw [known_put_ne k e] at hx; rw [put_ne σ e]; exact h x v hx
  | copyCtor d s =>
    simp only [Stmt.meaning] at hx
    simp only [ClassOps.exec]
    by_cases ds : d = s
    · subst ds
      rw [copy_same]
      by_cases e : x = d
      · subst e; rw [known_put_self, if_pos rfl] at hx; cases hx
      · rw [known_put_ne k e] at hx; rw [put_ne _ e, put_ne _ e]; exact h x v hx
    · rw [copy_ne _ (Ne.symm ds), put_put]
      by_cases e : x = d
      · subst e; rw [known_put_self, if_neg ds] at hx; rw [put_self, put_self, put_ne _ (Ne.symm ds), hS.copyCtor]; exact h s v hx
      · rw [known_put_ne k e] at hx; rw [put_ne _ e]; exact h x v hx
  | moveCtor d s j =>
    simp only [Stmt.meaning] at hx
    simp only [ClassOps.exec]
    by_cases e' : x = s
    · subst e'; rw [known_put_self] at hx; cases hx
    rw [known_put_ne _ e'] at hx
    by_cases e : x = d
    · subst e
      rw [move_ne _ _ (Ne.symm e'), put_ne _ e', put_self, put_self, put_ne _ (Ne.symm e'), hS.moveCtor]
      rw [known_put_self] at hx
      exact h s v hx
    · rw [known_put_ne k e] at hx; rw [move_other _ _ _ _ _ e e', put_ne _ e]; exact h x v hx
  | copyAssign d s =>
    simp only [Stmt.meaning] at hx
    simp only [ClassOps.exec]
    by_cases ds : d = s
    · subst ds
      rw [copy_same]
      by_cases e : x = d
      · subst e; rw [known_put_self] at hx; rw [put_self, hS.copySelf]; exact h x v hx
      · rw [known_put_ne k e] at hx; rw [put_ne _ e]; exact h x v hx
    · rw [copy_ne _ (Ne.symm ds)]
      by_cases e : x = d
      · subst e; rw [known_put_self] at hx; rw [put_self, hS.copyAssign]; exact h s v hx
      · rw [known_put_ne k e] at hx; rw [put_ne _ e]; exact h x v hx
  | moveAssign d s j =>
    simp only [Stmt.meaning] at hx
    simp only [ClassOps.exec]
    by_cases e' : x = s
    · subst e'; rw [known_put_self] at hx; cases hx
    rw [known_put_ne _ e'] at hx
    by_cases e : x = d
    · subst e
      rw [move_ne _ _ (Ne.symm e'), put_ne _ e', put_self, hS.moveAssign]
      rw [known_put_self] at hx
      exact h s v hx
    · rw [known_put_ne k e] at hx; rw [move_other _ _ _ _ _ e e']; exact h x v hx
  | swap a b =>
    simp only [Stmt.meaning] at hx
    simp only [ClassOps.exec]
    by_cases ab : a = b
    · subst ab
      rw [swap_same]
      by_cases e : x = a
      · subst e; rw [if_pos rfl] at hx; rw [put_self, hS.swapSelf]; exact h x v hx
      · rw [if_neg e, if_neg e] at hx; rw [put_ne _ e]; exact h x v hx
    · rw [swap_ne _ (Ne.symm ab)]
      by_cases e : x = a
      · subst e; rw [if_pos rfl] at hx; rw [put_ne _ ab, put_self, (hS.swap _ _).1]; exact h b v hx
      · rw [if_neg e] at hx
        by_cases e' : x = b
        · subst e'; rw [if_pos rfl] at hx; rw [put_self, (hS.swap _ _).2]; exact h a v hx
        · rw [if_neg e'] at hx; rw [put_ne _ e', put_ne _ e]; exact h x v hx

theorem run_agrees {C : ClassOps R} {w : R → W} (hS : Shows C w) (p : List (Stmt R)) (σ : Store R) (k : Known R) (h : Agrees w σ k) :
    Agrees w (C.run p σ) (meaning p k) := by
  induction p generalizing σ k with
  | nil => exact h
  | cons st p ih =>
    simp only [ClassOps.run, meaning, List.foldl_cons]
    exact ih _ _ (step_agrees hS h)

/-- After every history, from any objects, every object whose value is specified holds that value. -/
def Faithful (C : ClassOps R) : Prop :=
  ∀ (p : List (Stmt R)) (σ : Store R) (x : Nat) (v : R), meaning p (fun y => some (σ y)) x = some v → C.run p σ x = v

theorem faithful_of {C : ClassOps R} (h : Shows C (fun r => r)) : Faithful C :=
  fun p σ x v hx => run_agrees h p σ _ (fun _ _ e => Option.some.inj e) x v hx

end generic

/-- A history with every kind of statement: objects 0 to 3. -/
def tour {R : Type} (a b j : R) : List (Stmt R) :=
  [.fresh 0 a, .fresh 1 b, .copyCtor 2 0, .swap 0 1, .swap 2 2, .copyAssign 2 2, .moveAssign 1 0 j, .copyAssign 0 2, .moveCtor 3 1 j]

/-- What the tour leaves: the fourth object is the second value, the first and third are the first value, the second is unspecified. -/
theorem tour_meaning {R : Type} (a b j : R) (k : Known R) :
    meaning (tour a b j) k 0 = some a ∧ meaning (tour a b j) k 2 = some a ∧ meaning (tour a b j) k 3 = some b ∧ meaning (tour a b j) k 1 = none := by
  exact ⟨rfl, rfl, rfl, rfl⟩

/-- C76: points and vectors. -/
theorem C76_vec : Faithful vecOps := faithful_of (by constructor <;> intros <;> first | rfl | exact ⟨rfl, rfl⟩)

/-- C76: bounding boxes. -/
theorem C76_bbox : Faithful bboxOps := faithful_of (by constructor <;> intros <;> first | rfl | exact ⟨rfl, rfl⟩)

/-- C76: faces. -/
theorem C76_face : Faithful faceOps := faithful_of (by constructor <;> intros <;> first | rfl | exact ⟨rfl, rfl⟩)

section
variable {K : Type}

/-- C76: nodes. -/
theorem C76_node (dflt : UNode K) : Faithful (nodeOps dflt) := faithful_of (by
  constructor <;> intros <;> simp only [copyRec, copySelf, moveRec, swapRec, swapSelf, nodeOps, UNode.mName, UNode.mRef, UNode.mEpsg, UNode.mSurf, UNode.mBox,
    List.foldl_cons, List.foldl_nil, and_self])

/-- C76: scenes. -/
theorem C76_scene {N : Type} (dflt : Scene N) : Faithful (sceneOps dflt) := faithful_of (by constructor <;> intros <;> first | rfl | exact ⟨rfl, rfl⟩)

/-- C76: projections of faces. -/
theorem C76_face_print (dflt : FacePrint K) : Faithful (facePrintOps dflt) := faithful_of (by constructor <;> intros <;> first | rfl | exact ⟨rfl, rfl⟩)

/-- C76: brick prints. -/
theorem C76_brick : Faithful (brickOps (K := K)) := faithful_of (by constructor <;> intros <;> first | rfl | exact ⟨rfl, rfl⟩)

/-- C76: footprints. -/
theorem C76_footprint (dflt : FootPrint K) : Faithful (footPrintOps dflt) := faithful_of (by constructor <;> intros <;> first | rfl | exact ⟨rfl, rfl⟩)

/-- C76: rasters. -/
theorem C76_raster (dflt : Raster K) : Faithful (rasterOps dflt) := faithful_of (by
  constructor <;> intros <;> simp only [copyRec, copySelf, moveRec, swapRec, swapSelf, rasterOps, Raster.mName, Raster.mRef, Raster.mEpsg, Raster.mHeight,
    Raster.mWidth, Raster.mPixel, Raster.mImage, Raster.mHits, Raster.mOffset, List.foldl_cons, List.foldl_nil, and_self])

/-- C76: cameras. -/
theorem C76_camera {A2 A3 V : Type} (dflt : Camera A2 A3 V) : Faithful (cameraOps dflt) := faithful_of (by constructor <;> intros <;> first | rfl | exact ⟨rfl, rfl⟩)

/-- The tour on rasters: the value of the fourth object is known. -/
example (dflt a b j : Raster K) (σ : Store (Raster K)) : (rasterOps dflt).run (tour a b j) σ 3 = b ∧ (rasterOps dflt).run (tour a b j) σ 0 = a :=
  ⟨C76_raster dflt _ σ 3 b (tour_meaning a b j _).2.2.1, C76_raster dflt _ σ 0 a (tour_meaning a b j _).1⟩

end

/-- C76, the full property for meshes. -/
def C76_full : Prop := Faithful meshOps

/-- C76 is refuted: a mesh that is assigned keeps its own bounding box. -/
theorem C76_refuted : ¬ C76_full := by
  intro h
  have := h [.fresh 0 (Mesh.make [] [⟨1, 2, 3⟩] []), .fresh 1 Mesh.empty, .copyAssign 1 0] (fun _ => Mesh.empty) 1 (Mesh.make [] [⟨1, 2, 3⟩] []) (by rfl)
  exact absurd (congrArg Mesh.bbox this) (by decide +kernel)

/-- What is shown of a mesh, but for its box. -/
def meshData (m : Mesh) : Text × List (V3 ℚ) × List Face := (m.name, m.points, m.faces)

/-- C76 for meshes: name, points and faces are those of the history, always; the box too in histories without copy assignments.
Missing: the box after a copy assignment (mesh.cpp:126). -/
theorem C76_mesh_partial (p : List (Stmt Mesh)) (σ : Store Mesh) (x : Nat) (v : Mesh) (h : meaning p (fun y => some (σ y)) x = some v) :
    ((meshOps.run p σ x).name = v.name ∧ (meshOps.run p σ x).points = v.points ∧ (meshOps.run p σ x).faces = v.faces) ∧
    ((∀ d s, Stmt.copyAssign d s ∉ p) → meshOps.run p σ x = v) := by
  constructor
  · have hS : Shows meshOps meshData := by constructor <;> intros <;> first | rfl | exact ⟨rfl, rfl⟩
    have := run_agrees hS p σ _ (fun _ _ e => congrArg meshData (Option.some.inj e)) x v h
    exact ⟨congrArg Prod.fst this, congrArg (fun t => t.2.1) this, congrArg (fun t => t.2.2) this⟩
  · intro hp
    have hS : Shows { meshOps with copyAssign := meshOps.copyCtor } (fun r => r) := by constructor <;> intros <;> first | rfl | exact ⟨rfl, rfl⟩
    have e : ∀ σ, meshOps.run p σ = ClassOps.run { meshOps with copyAssign := meshOps.copyCtor } p σ := by
      clear h
      intro σ
      simp only [ClassOps.run]
      induction p generalizing σ with
      | nil => rfl
      | cons st p ih =>
        simp only [List.foldl_cons]
        have : meshOps.exec σ st = ClassOps.exec { meshOps with copyAssign := meshOps.copyCtor } σ st := by
          cases st with
          | copyAssign d s => exact absurd (List.mem_cons_self ..) (hp d s)
          | _ => rfl
        rw [this]
        exact ih (fun d s hm => hp d s (List.mem_cons_of_mem _ hm)) _
    rw [e]
    exact run_agrees hS p σ _ (fun _ _ e => Option.some.inj e) x v h

/-- The exact effect of an assignment of a mesh, also to itself: the box is the one of the left side. -/
theorem C76_mesh_assign_exact (σ : Store Mesh) (d s x : Nat) :
    meshOps.run [.copyAssign d s] σ x = if x = d then (σ d).assign (σ s) else σ x := by
  simp only [ClassOps.run, List.foldl_cons, List.foldl_nil, ClassOps.exec]
  by_cases ds : d = s
  · subst ds
    rw [copy_same]
    simp only [Store.put]
    split <;> rfl
  · rw [copy_ne _ (Ne.symm ds)]
    simp only [Store.put]
    split <;> rfl

/-- The tour on meshes. -/
example (a b j : Mesh) (σ : Store Mesh) : (meshOps.run (tour a b j) σ 0).points = a.points ∧ (meshOps.run (tour a b j) σ 3).faces = b.faces :=
  ⟨(C76_mesh_partial _ σ 0 a (tour_meaning a b j _).1).1.2.1, (C76_mesh_partial _ σ 3 b (tour_meaning a b j _).2.2.1).1.2.2⟩

end City.Props
