import Verif.Lemmas.Obj
import Verif.Spec.Obj
/-! Canonical meshes and the second round trip. -/
set_option exponentiation.threshold 2000
namespace City
open Spec
namespace Obj

/-- Points are numbered in the order of their first use. -/
def Canonical (m : Mesh) : Prop := addSeen [] (faceIdx m) = List.range m.points.length

theorem canon_of_canonical {rnd : ℚ → ℚ} {m : Mesh} (h : Canonical m) :
    canon rnd m = Mesh.make m.name (m.points.map (Off.readPt rnd)) m.faces := by
  unfold canon
  rw [show addSeen [] (faceIdx m) = _ from h]
  congr 1
  · apply List.ext_getElem
    · simp
    · intro i h1 h2
      simp at h1
      simp [h1]
  · conv_rhs => rw [← List.map_id m.faces]
    apply List.map_congr_left
    intro f hf
    obtain ⟨p⟩ := f
    simp only [id]
    congr 1
    conv_rhs => rw [← List.map_id p]
    apply List.map_congr_left
    intro i hi
    have : i ∈ addSeen [] (faceIdx m) := by
      rw [mem_addSeen]
      right
      unfold faceIdx
      rw [List.mem_flatten]
      exact ⟨p, List.mem_map.2 ⟨_, hf, rfl⟩, hi⟩
    rw [show addSeen [] (faceIdx m) = _ from h, List.mem_range] at this
    have h2 := (List.nodup_range (n := m.points.length)).idxOf_getElem i (by simpa using this)
    simpa using h2

theorem faceIdx_make_map (name : Text) (ps : List (V3 ℚ)) (fss : List (List Nat)) (g : Nat → Nat) :
    faceIdx (Mesh.make name ps (fss.map fun is => ⟨is.map g⟩)) = fss.flatten.map g := by
  unfold faceIdx Mesh.make
  rw [List.map_map, List.map_flatten]
  rfl

theorem canonical_canon (rnd : ℚ → ℚ) (m : Mesh) : Canonical (canon rnd m) := by
  unfold Canonical
  have : faceIdx (canon rnd m) = (faceIdx m).map fun i => (addSeen [] (faceIdx m)).idxOf i := by
    unfold canon
    have := faceIdx_make_map m.name ((addSeen [] (faceIdx m)).map fun i => Off.readPt rnd (m.points.getD i ⟨0, 0, 0⟩))
      (m.faces.map (·.points)) (fun i => (addSeen [] (faceIdx m)).idxOf i)
    rw [List.map_map] at this
    exact this
  rw [this, addSeen_renumber]
  simp [canon, Mesh.make]

/-- What is known of a mesh read from a file. -/
theorem readObj_spec {rnd : ℚ → ℚ} {ps : List (V3 ℚ)} {o : Text × List Text} {m : Mesh} (h : readObj rnd ps o = .ok m) :
    ∃ seen : List Nat, seen.Nodup ∧ m.points.length = seen.length ∧ (∀ k (hk : k < seen.length), m.points[k]? = ps[seen[k]]?) ∧
      (∀ k (hk : k < seen.length), seen[k] < ps.length) ∧
      m.name = o.1 ∧ m.bbox = Mesh.computeBbox m.points ∧ Canonical m ∧ Valid m ∧ (∀ f ∈ m.faces, 3 ≤ f.degree) ∧
      (∀ k, k < m.points.length → ∃ f ∈ m.faces, k ∈ f.points) ∧ m.faces.length = o.2.length := by
  unfold readObj at h
  obtain ⟨⟨fs, seen⟩, h1, h⟩ := Out.bind_eq_ok.1 h
  obtain ⟨qs, h2, h⟩ := Out.bind_eq_ok.1 h
  cases h
  simp only at h2
  obtain ⟨idxs, hF, hs, hfs, h3⟩ := readFacets_spec h1
  have hnd : seen.Nodup := by rw [hs]; exact addSeen_nodup List.nodup_nil _
  unfold select at h2
  rw [Out.mapM_eq_ok] at h2
  have hlen : qs.length = seen.length := h2.length_eq.symm
  have hget : ∀ k (hk : k < seen.length), qs[k]? = ps[seen[k]]? ∧ seen[k] < ps.length := by
    intro k hk
    have := h2.get hk (by omega)
    simp only [List.get_eq_getElem] at this
    rw [Out.idx_eq_ok] at this
    refine ⟨?_, (List.getElem?_eq_some_iff.1 this).1⟩
    rw [this, List.getElem?_eq_getElem]
  have hcan : faceIdx (Mesh.make o.1 qs fs) = idxs.flatten.map fun i => seen.idxOf i := by
    rw [hfs]; exact faceIdx_make_map o.1 qs idxs fun i => seen.idxOf i
  have hcanon : addSeen [] (faceIdx (Mesh.make o.1 qs fs)) = List.range qs.length := by
    rw [hcan, hs, addSeen_renumber, ← hs, hlen]
  refine ⟨seen, hnd, hlen, fun k hk => (hget k hk).1, fun k hk => (hget k hk).2, rfl, rfl, hcanon, ?_, ?_, ?_, ?_⟩
  · intro f hf i hi
    have : i ∈ addSeen [] (faceIdx (Mesh.make o.1 qs fs)) := by
      rw [mem_addSeen]; right
      exact List.mem_flatten.2 ⟨f.points, List.mem_map.2 ⟨f, hf, rfl⟩, hi⟩
    rw [hcanon, List.mem_range] at this
    exact this
  · intro f hf
    simp only [Mesh.make, hfs, List.mem_map] at hf
    obtain ⟨is, his, rfl⟩ := hf
    simpa [Face.degree] using h3 is his
  · intro k hk
    have : k ∈ addSeen [] (faceIdx (Mesh.make o.1 qs fs)) := by
      rw [hcanon, List.mem_range]; exact hk
    rw [mem_addSeen] at this
    rcases this with h | h
    · simp at h
    · obtain ⟨l, hl, hk⟩ := List.mem_flatten.1 h
      obtain ⟨f, hf, rfl⟩ := List.mem_map.1 hl
      exact ⟨f, hf, hk⟩
  · simp only [Mesh.make, hfs, List.length_map]
    exact hF.length_eq.symm

/-- Structure of a successful reading. -/
theorem read_ok {rnd : ℚ → ℚ} {t : Text} {ms : List Mesh} (h : read rnd t = .ok ms) :
    ∃ ps, Out.mapM (fun l => line2pt rnd (List.tail l)) (vertexLines t) = .ok ps ∧
      ∃ objs : List (Text × List Text), Sorted objs ∧
        List.Forall₂ (fun o m => readObj rnd (⟨0, 0, 0⟩ :: ps) o = .ok m) objs ms ∧ ∀ o ∈ objs, NoBlank o.1 := by
  unfold read at h
  simp only at h
  split at h
  · cases h
  obtain ⟨ps', h1, h⟩ := Out.bind_eq_ok.1 h
  unfold readPoints at h1
  obtain ⟨ps, h1a, h1b⟩ := Out.bind_eq_ok.1 h1
  cases h1b
  refine ⟨ps, h1a, ?_⟩
  have hfun : readObject rnd (parse t) (⟨0, 0, 0⟩ :: ps) =
      fun o => readObj rnd (⟨0, 0, 0⟩ :: ps) (o.1, ((parse t).drop o.2.1).take o.2.2) := by
    funext o; exact readObject_eq ..
  rw [hfun, mapM_comp (readObj rnd (⟨0, 0, 0⟩ :: ps)) (fun o : Text × Nat × Nat => (o.1, ((parse t).drop o.2.1).take o.2.2)),
    Out.mapM_eq_ok] at h
  refine ⟨_, ?_, h, ?_⟩
  · unfold objects
    rw [← emplaceAll_map (fun q : Nat × Nat => ((parse t).drop q.1).take q.2)]
    exact sorted_emplaceAll _
  · intro o ho
    obtain ⟨x, hx, rfl⟩ := List.mem_map.1 ho
    have hx' := mem_emplaceAll hx
    have key : ∀ (n : Nat) (l : List (Text × Nat)) (x : Text × Nat × Nat), x ∈ withSizes n l → ∃ y ∈ l, y.1 = x.1 := by
      intro n l
      induction l with
      | nil => intro x hx; simp [withSizes] at hx
      | cons a l ih =>
        intro x hx
        obtain ⟨an, ai⟩ := a
        cases l with
        | nil => simp [withSizes] at hx; exact ⟨(an, ai), by simp, by rw [hx]⟩
        | cons b l =>
          obtain ⟨bn, bi⟩ := b
          rw [withSizes] at hx
          rcases List.mem_cons.1 hx with rfl | hx
          · exact ⟨(an, ai), by simp, rfl⟩
          · obtain ⟨y, hy, he⟩ := ih x hx
            exact ⟨y, by simp [List.mem_cons] at hy ⊢; tauto, he⟩
    have key2 : ∀ (l : List Text) (k : Nat) (y : Text × Nat), y ∈ objMarks k l → NoBlank y.1 := by
      intro l
      induction l with
      | nil => intro k y hy; simp [objMarks] at hy
      | cons a l ih =>
        intro k y hy
        rw [objMarks] at hy
        split at hy
        · rcases List.mem_cons.1 hy with rfl | hy
          · intro c hc
            have := List.mem_takeWhile_imp hc
            simpa using this
          · exact ih _ y hy
        · exact ih _ y hy
    obtain ⟨y, hy, he⟩ := key _ _ _ hx'
    simp only
    rw [← he]
    exact key2 _ _ y hy

theorem sorted_ext {ms : List Mesh} {objs : List (Text × List Text)} {rnd : ℚ → ℚ} {ps : List (V3 ℚ)} (hs : Sorted objs)
    (h : List.Forall₂ (fun o m => readObj rnd ps o = .ok m) objs ms) :
    Sorted (ms.map fun m => (m.name, m)) := by
  unfold Sorted at *
  rw [List.pairwise_map]
  induction h with
  | nil => exact .nil
  | @cons o m objs ms ho hF ih =>
    rw [List.pairwise_cons] at hs ⊢
    refine ⟨?_, ih hs.2⟩
    intro m' hm'
    obtain ⟨i, hi, rfl⟩ := List.mem_iff_getElem.1 hm'
    have hlen := hF.length_eq
    have hr' := hF.get (by omega) hi
    simp only [List.get_eq_getElem] at hr'
    obtain ⟨_, _, _, _, _, n1, _⟩ := readObj_spec ho
    obtain ⟨_, _, _, _, _, n2, _⟩ := readObj_spec hr'
    simp only
    rw [n1, n2]
    exact hs.1 _ (List.getElem_mem _)

end Obj
end City
