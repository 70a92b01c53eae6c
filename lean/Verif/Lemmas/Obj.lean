import Verif.Lemmas.ObjMap
import Verif.Lemmas.ObjSeen
import Verif.Lemmas.Off
import Verif.Spec.Obj
/-! Writing an OBJ text and reading it back. -/
set_option exponentiation.threshold 2000
namespace City
open Spec
namespace Obj

theorem scanDecs_natText (rnd : ℚ → ℚ) {n : Nat} (hn : n ≤ 2 ^ 53) {rest : Text} (h : Stop rest) :
    scanDecs rnd (natText n ++ rest) = rnd n :: scanDecs rnd rest := by
  apply scanDecs_got
  have hb : (n : ℚ) ≤ 2 ^ 53 := by exact_mod_cast hn
  have := scanDec_parts false (ds := natText n) (fs := []) none (rest := rest) (natText_ne_nil n) (natText_digits n)
    (by simp) h (by
      rw [List.append_nil, natVal_natText]
      simp only [optVal, List.length_nil]
      refine lt_of_le_of_lt (b := (2 : ℚ) ^ 53) (by simpa using hb) ?_
      unfold dblOverflow; norm_num)
  simpa [optExp, fracText, optVal, natVal_natText] using this

theorem scan_fLine {rnd : ℚ → ℚ} (hr : ∀ n : ℕ, n ≤ 2 ^ 53 → rnd n = n) {s : Nat} {is : List Nat}
    (h : ∀ i ∈ is, i + s + 1 ≤ 2 ^ 53) :
    scanDecs rnd (is.flatMap fun i => natText (i + s + 1) ++ [' ']) = is.map fun i => ((i + s + 1 : ℕ) : ℚ) := by
  induction is with
  | nil => simp [scanDecs_nil]
  | cons i is ih =>
    have hi := h i (by simp)
    rw [List.flatMap_cons, List.append_assoc, List.singleton_append, scanDecs_natText rnd hi (stop_space (by decide)),
      List.map_cons, hr _ hi]
    congr 1
    rw [scanDecs_space rnd (by decide), ih fun j hj => h j (by simp [hj])]

theorem toIndex_natCast {n : Nat} (h : n ≤ 2 ^ 53) : toIndex (n : ℚ) = .ok n := by
  have h0 : (0 : ℚ) ≤ n := by positivity
  have hb : (n : ℚ) ≤ 2 ^ 53 := by exact_mod_cast h
  unfold toIndex
  rw [if_neg, Nat.floor_natCast]
  rintro (h | h)
  · linarith
  · have := le_trans h hb; norm_num at this

theorem index_fLine {rnd : ℚ → ℚ} (hr : ∀ n : ℕ, n ≤ 2 ^ 53 → rnd n = n) {s : Nat} {f : Face}
    (h : ∀ i ∈ f.points, i + s + 1 ≤ 2 ^ 53) :
    Out.mapM toIndex (scanDecs rnd (fLine s f).tail) = .ok (f.points.map fun i => i + s + 1) := by
  unfold fLine
  rw [List.tail_cons, scanDecs_space rnd (by decide), scan_fLine hr h, Out.mapM_eq_ok, List.forall₂_map_left_iff,
    List.forall₂_map_right_iff]
  exact List.forall₂_same.2 fun i hi => toIndex_natCast (h i hi)

theorem firstToken_name {n : Text} (h : ∀ c ∈ n, isSpace c = false) : firstToken (' ' :: n) = n := by
  unfold firstToken
  rw [skipWs_cons (by decide), skipWs_of_head]
  · rw [List.takeWhile_eq_self_iff]
    intro c hc
    simp [h c hc]
  · intro c hc
    exact h c (List.mem_of_mem_head? (by simp [hc]))

theorem line2pt_vLine (rnd : ℚ → ℚ) {p : V3 ℚ} (h : Off.Finite3 p) :
    line2pt rnd (vLine p).tail = .ok (Off.readPt rnd p) := by
  have := Off.scanDecs_pointText rnd h stop_nil
  rw [List.append_nil, scanDecs_nil] at this
  unfold vLine line2pt
  rw [List.tail_cons, scanDecs_space rnd (by decide), this]
  rfl

/-- Meshes with the shift of their indexes. -/
def offs : Nat → List Mesh → List (Mesh × Nat)
  | _, [] => []
  | a, m :: ms => (m, a) :: offs (a + m.points.length) ms

theorem zip_shifts (ms : List Mesh) : ms.zip (shifts ms) = offs 0 ms := by
  have : ∀ (ms : List Mesh) (a : Nat), ms.zip (partialSum a (0 :: ms.dropLast.map fun m => m.points.length)) = offs a ms := by
    intro ms
    induction ms with
    | nil => intro a; rfl
    | cons m ms ih =>
      intro a
      cases ms with
      | nil => simp [partialSum, offs]
      | cons m' ms' =>
        have := ih (a + m.points.length)
        rw [offs, ← this]
        simp [partialSum]
  exact this ms 0

theorem offs_fst (a : Nat) (ms : List Mesh) : (offs a ms).map (·.1) = ms := by
  induction ms generalizing a with
  | nil => rfl
  | cons m ms ih => simp [offs, ih]

theorem offs_getElem {ms : List Mesh} {m : Mesh} {s : Nat} :
    ∀ {pre : List (V3 ℚ)}, (m, s) ∈ offs pre.length ms → ∀ i, i < m.points.length →
      (pre ++ ms.flatMap (·.points))[s + i]? = m.points[i]? := by
  induction ms with
  | nil => intro pre h; simp [offs] at h
  | cons a ms ih =>
    intro pre h i hi
    rw [offs] at h
    rcases List.mem_cons.1 h with h | h
    · cases h
      rw [List.getElem?_append_right (by omega), List.flatMap_cons, List.getElem?_append_left (by omega)]
      congr 1; omega
    · have e : pre ++ (a :: ms).flatMap (·.points) = (pre ++ a.points) ++ ms.flatMap (·.points) := by simp
      rw [e]
      apply ih _ i hi
      simpa using h

/-- All the points of the meshes. -/
def allPts (ms : List Mesh) : List (V3 ℚ) := ms.flatMap (·.points)

/-- The indexes of all the faces. -/
def faceIdx (m : Mesh) : List Nat := (m.faces.map (·.points)).flatten

/-- What a mesh becomes: points in order of first use, faces renumbered. -/
def canon (rnd : ℚ → ℚ) (m : Mesh) : Mesh :=
  Mesh.make m.name ((addSeen [] (faceIdx m)).map fun i => Off.readPt rnd (m.points.getD i ⟨0, 0, 0⟩))
    (m.faces.map fun f => ⟨f.points.map fun i => (addSeen [] (faceIdx m)).idxOf i⟩)

/-- Reading one object from its lines. -/
def readObj (rnd : ℚ → ℚ) (ps : List (V3 ℚ)) (o : Text × List Text) : Out Mesh := do
  let r ← readFacets rnd o.2 []
  let qs ← select ps r.2
  .ok (Mesh.make o.1 qs r.1)

theorem readObject_eq (rnd : ℚ → ℚ) (lines : List Text) (ps : List (V3 ℚ)) (o : Text × Nat × Nat) :
    readObject rnd lines ps o = readObj rnd ps (o.1, (lines.drop o.2.1).take o.2.2) := rfl

theorem mapM_comp {α β γ : Type} (f : β → Out γ) (g : α → β) (l : List α) :
    Out.mapM (fun a => f (g a)) l = Out.mapM f (l.map g) := by
  induction l with
  | nil => rfl
  | cons a l ih => rw [List.map_cons, Out.mapM_cons, Out.mapM_cons, ih]

theorem readObj_mesh {rnd : ℚ → ℚ} (hr : ∀ n : ℕ, n ≤ 2 ^ 53 → rnd n = n) {ms : List Mesh} (h : ObjReady ms) {m : Mesh} {s : Nat}
    (hm : (m, s) ∈ offs 0 ms) :
    readObj rnd (⟨0, 0, 0⟩ :: (allPts ms).map (Off.readPt rnd)) (m.name, m.faces.map (fLine s)) = .ok (canon rnd m) := by
  have hmem : m ∈ ms := by
    have := List.mem_map_of_mem (f := (·.1)) hm
    rwa [offs_fst] at this
  have hget := offs_getElem (ms := ms) (pre := []) hm
  simp only [List.nil_append] at hget
  have hv := h.valid m hmem
  have hlt : ∀ i, i < m.points.length → s + i < (allPts ms).length := by
    intro i hi
    have := hget i hi
    rw [List.getElem?_eq_getElem hi] at this
    exact (List.getElem?_eq_some_iff.1 this).1
  have hsmall : ∀ i, i < m.points.length → i + s + 1 ≤ 2 ^ 53 := by
    intro i hi
    have := hlt i hi
    have := h.small
    unfold allPts at *
    omega
  have hF : List.Forall₂ (fun l is => Out.mapM toIndex (scanDecs rnd l.tail) = .ok is) (m.faces.map (fLine s))
      (m.faces.map fun f => f.points.map fun i => i + s + 1) := by
    rw [List.forall₂_map_left_iff, List.forall₂_map_right_iff]
    exact List.forall₂_same.2 fun f hf => index_fLine hr fun i hi => hsmall i (hv f hf i hi)
  have h3 : ∀ is ∈ (m.faces.map fun f => f.points.map fun i => i + s + 1), 3 ≤ is.length := by
    intro is his
    obtain ⟨f, hf, rfl⟩ := List.mem_map.1 his
    rw [List.length_map]; exact h.degree m hmem f hf
  have hfl : (m.faces.map fun f => f.points.map fun i => i + s + 1).flatten = (faceIdx m).map fun i => i + s + 1 := by
    unfold faceIdx
    rw [List.map_flatten, List.map_map]
    rfl
  have hseen : addSeen [] ((faceIdx m).map fun i => i + s + 1) = (addSeen [] (faceIdx m)).map fun i => i + s + 1 := by
    have := addSeen_map (g := fun i => i + s + 1) [] (faceIdx m) (by intro a _ b _ hab; omega)
    simpa using this
  unfold readObj
  simp only
  rw [readFacets_ok [] hF h3, Out.ok_bind]
  simp only
  rw [hfl, hseen]
  have hsel : select (⟨0, 0, 0⟩ :: (allPts ms).map (Off.readPt rnd)) ((addSeen [] (faceIdx m)).map fun i => i + s + 1) =
      .ok ((addSeen [] (faceIdx m)).map fun i => Off.readPt rnd (m.points.getD i ⟨0, 0, 0⟩)) := by
    unfold select
    rw [Out.mapM_eq_ok, List.forall₂_map_left_iff, List.forall₂_map_right_iff]
    apply List.forall₂_same.2
    intro i hi
    have hi' : i ∈ faceIdx m := by simpa using (mem_addSeen.1 hi)
    unfold faceIdx at hi'
    rw [List.mem_flatten] at hi'
    obtain ⟨l, hl, hil⟩ := hi'
    obtain ⟨f, hf, rfl⟩ := List.mem_map.1 hl
    have hilt := hv f hf i hil
    rw [Out.idx_eq_ok, List.getElem?_cons_succ, List.getElem?_map, Nat.add_comm i s]
    unfold allPts
    rw [hget i hilt]
    simp [List.getD, List.getElem?_eq_getElem hilt]
  rw [hsel, Out.ok_bind]
  unfold canon
  congr 2
  rw [List.map_map]
  apply List.map_congr_left
  intro f _
  simp only [Function.comp]
  congr 1
  rw [List.map_map]
  apply List.map_congr_left
  intro i _
  simp only [Function.comp]
  exact idxOf_map_inj (g := fun i => i + s + 1) (by intro b _ hab; omega)

/-- The lines of the file that are kept by the reader. -/
def keptLines (ms : List Mesh) : List Text :=
  (allPts ms).map vLine ++ ((offs 0 ms).map fun p => (' ' :: p.1.name, p.1.faces.map (fLine p.2))).flatMap secLines

theorem fLine_ok (s : Nat) (f : Face) : '\n' ∉ fLine s f := by
  intro h
  unfold fLine at h
  simp only [List.mem_cons, List.mem_flatMap, List.mem_append] at h
  rcases h with h | h | ⟨i, -, h | h | h⟩
  · revert h; decide
  · revert h; decide
  · exact (digit_ne_sign (natText_digits _ _ h)).2.2.2.2.2 rfl
  · revert h; decide
  · simp at h

theorem vLine_ok (p : V3 ℚ) : '\n' ∉ vLine p := by
  intro h
  unfold vLine at h
  simp only [List.mem_cons] at h
  rcases h with h | h | h
  · revert h; decide
  · revert h; decide
  · exact (Off.numLine_ok (Off.numLine_point p)).1 h

theorem parse_write {ms : List Mesh} (hn : ∀ m ∈ ms, '\n' ∉ m.name) :
    parse ((writeLines ms).flatMap (· ++ ['\n'])) = keptLines ms := by
  have hn' : ∀ p ∈ offs 0 ms, '\n' ∉ p.1.name := by
    intro p hp
    have := List.mem_map_of_mem (f := (·.1)) hp
    rw [offs_fst] at this
    exact hn _ this
  unfold parse
  have hr : readlines ((writeLines ms).flatMap (· ++ ['\n'])) = writeLines ms := by
    apply readlines_unlines
    intro l hl
    unfold writeLines at hl
    rw [zip_shifts] at hl
    rcases List.mem_append.1 hl with hl | hl
    · obtain ⟨m, -, hl⟩ := List.mem_flatMap.1 hl
      obtain ⟨p, -, rfl⟩ := List.mem_map.1 hl
      exact vLine_ok p
    · obtain ⟨p, hp, hl⟩ := List.mem_flatMap.1 hl
      unfold objLines at hl
      simp only [List.mem_cons, List.mem_map] at hl
      rcases hl with rfl | rfl | ⟨f, -, rfl⟩
      · simp
      · have := hn' p hp; simpa using this
      · exact fLine_ok _ _
  rw [hr]
  unfold writeLines keptLines
  rw [zip_shifts, List.filter_append]
  congr 1
  · have : (ms.flatMap fun m => m.points.map vLine) = (allPts ms).map vLine := by
      unfold allPts; rw [List.map_flatMap]
    rw [this, List.filter_eq_self]
    intro l hl
    obtain ⟨p, -, rfl⟩ := List.mem_map.1 hl
    rfl
  · rw [List.flatMap_map, List.filter_flatMap]
    congr 1
    funext p
    simp only [objLines, secLines, List.filter_cons]
    simp only [List.isEmpty_nil, Bool.true_or, Bool.not_true, Bool.false_eq_true, if_false, List.isEmpty_cons,
      List.head?_cons, Bool.false_or]
    rw [if_pos (by decide)]
    congr 1
    rw [List.filter_eq_self]
    intro l hl
    obtain ⟨f, -, rfl⟩ := List.mem_map.1 hl
    rfl

theorem takeWhile_kept (ms : List Mesh) : (keptLines ms).takeWhile isV = (allPts ms).map vLine := by
  unfold keptLines
  rw [List.takeWhile_append_of_pos]
  · conv_rhs => rw [← List.append_nil (List.map vLine _)]
    congr 1
    cases h : offs 0 ms with
    | nil => rfl
    | cons p ps =>
      rw [List.map_cons, List.flatMap_cons, secLines, List.cons_append, List.takeWhile_cons]
      rfl
  · intro l hl
    obtain ⟨p, -, rfl⟩ := List.mem_map.1 hl
    rfl

/-- Reading what was written. -/
theorem read_write {rnd : ℚ → ℚ} (hr : ∀ n : ℕ, n ≤ 2 ^ 53 → rnd n = n) {ms : List Mesh} (hne : ms ≠ []) (h : ObjReady ms) :
    ∃ t, write ms = .ok t ∧
      read rnd t = .ok ((emplaceAll (ms.map fun m => (m.name, m))).map fun y => canon rnd y.2) := by
  refine ⟨_, by unfold write; rw [if_neg hne], ?_⟩
  have hn : ∀ m ∈ ms, '\n' ∉ m.name := by
    intro m hm hc
    have := h.names m hm _ hc
    revert this; decide
  unfold read
  rw [parse_write hn]
  simp only
  have hk : keptLines ms ≠ [] := by
    unfold keptLines
    intro he
    rw [List.append_eq_nil_iff] at he
    have : (offs 0 ms) ≠ [] := by
      intro e
      have := offs_fst 0 ms
      rw [e] at this
      exact hne this.symm
    cases ho : offs 0 ms with
    | nil => exact this ho
    | cons p ps =>
      rw [ho] at he
      simp [secLines] at he
  rw [if_neg hk]
  have hpts : readPoints rnd (keptLines ms) = .ok (⟨0, 0, 0⟩ :: (allPts ms).map (Off.readPt rnd)) := by
    unfold readPoints
    rw [takeWhile_kept]
    have : Out.mapM (fun l => line2pt rnd (List.tail l)) ((allPts ms).map vLine) = .ok ((allPts ms).map (Off.readPt rnd)) := by
      rw [Out.mapM_eq_ok, List.forall₂_map_left_iff, List.forall₂_map_right_iff]
      apply List.forall₂_same.2
      intro p hp
      obtain ⟨m, hm, hp⟩ := List.mem_flatMap.1 hp
      exact line2pt_vLine rnd (h.finite m hm p hp)
    rw [this, Out.ok_bind]
  rw [hpts, Out.ok_bind]
  have hfun : readObject rnd (keptLines ms) (⟨0, 0, 0⟩ :: (allPts ms).map (Off.readPt rnd)) =
      fun o => readObj rnd (⟨0, 0, 0⟩ :: (allPts ms).map (Off.readPt rnd)) (o.1, ((keptLines ms).drop o.2.1).take o.2.2) := by
    funext o; exact readObject_eq ..
  rw [hfun, mapM_comp (readObj rnd (⟨0, 0, 0⟩ :: (allPts ms).map (Off.readPt rnd)))
    (fun o : Text × Nat × Nat => (o.1, ((keptLines ms).drop o.2.1).take o.2.2))]
  have hobj : (objects (keptLines ms)).map (fun o => (o.1, ((keptLines ms).drop o.2.1).take o.2.2)) =
      (emplaceAll ((offs 0 ms).map fun p => (p.1.name, p))).map fun y => (y.1, y.2.1.faces.map (fLine y.2.2)) := by
    unfold objects
    simp only
    rw [takeWhile_kept]
    have hdrop : (keptLines ms).drop ((allPts ms).map vLine).length =
        ((offs 0 ms).map fun p => (' ' :: p.1.name, p.1.faces.map (fLine p.2))).flatMap secLines := by
      unfold keptLines; rw [List.drop_left' rfl]
    rw [hdrop, ← emplaceAll_map (fun q : Nat × Nat => ((keptLines ms).drop q.1).take q.2)]
    rw [resolve_sections (keptLines ms) _ ((allPts ms).map vLine) rfl (by
      intro s hs l hl
      obtain ⟨p, -, rfl⟩ := List.mem_map.1 hs
      obtain ⟨f, -, rfl⟩ := List.mem_map.1 hl
      rfl)]
    rw [← emplaceAll_map (fun p : Mesh × Nat => p.1.faces.map (fLine p.2)), List.map_map, List.map_map]
    congr 1
    apply List.map_congr_left
    intro p hp
    simp only [Function.comp]
    have hpm : p.1 ∈ ms := by
      have := List.mem_map_of_mem (f := (·.1)) hp
      rwa [offs_fst] at this
    rw [firstToken_name (h.names _ hpm)]
  rw [hobj, ← mapM_comp]
  have : (emplaceAll (ms.map fun m => (m.name, m))).map (fun y => canon rnd y.2) =
      (emplaceAll ((offs 0 ms).map fun p => (p.1.name, p))).map fun y => canon rnd y.2.1 := by
    conv_lhs => rw [show (ms.map fun m => (m.name, m)) = ((offs 0 ms).map fun p => (p.1.name, p)).map (fun y => (y.1, y.2.1)) by
      rw [List.map_map]
      conv_lhs => rw [← offs_fst 0 ms]
      rw [List.map_map]; rfl]
    rw [emplaceAll_map (fun p : Mesh × Nat => p.1), List.map_map]
    rfl
  rw [this]
  apply Out.mapM_ok_of
  intro y hy
  have hy' := mem_emplaceAll hy
  obtain ⟨p, hp, rfl⟩ := List.mem_map.1 hy'
  exact readObj_mesh hr h hp

end Obj
end City
