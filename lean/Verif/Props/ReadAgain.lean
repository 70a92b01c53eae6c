import Verif.Props.Rerun
import Verif.Props.SceneObj
/-!
Property C99: what is read after a scene was written again.
-/
set_option exponentiation.threshold 2000
namespace City.Props
open City Spec
variable {N L : Type}

/-- C99: a scene that is written as OFF files to a directory, interrupted at any places as often as one likes, then written without interruption, is read
back: the directory holds nothing of the interrupted attempts. -/
theorem C99_scene_read (ops : NodeOps N) (lib : Libs L) (rnd : ℚ → ℚ) (lf : Bool) (wm rm : Modes) (p : Path) (fs : Fs) (s : Scene N) (ks : List Nat)
    (hw : OpenedWrite wm) (hr : OpenedRead rm) (hd : FreshDirectory fs p) (h : WritableScene (s.buildings.map ops.back) (ops.back s.terrain))
    (ht : (ops.back s.terrain).name = "terrain".toList) :
    ∃ fs', sceneWrite ops .off wm p s (attempts (offSceneCalls ops wm p s) ks fs) = (.ok (), fs') ∧
      ∀ names, Listing fs' p names → ∃ bs t, sceneRead ops lib rnd lf .off rm p names fs' = .ok (Scene.make ops bs t ⟨0, 0, 0⟩ 2154) ∧
        MeshReadBack rnd (ops.back s.terrain) t ∧ ∃ bs₀, bs₀.Perm (s.buildings.map ops.back) ∧ List.Forall₂ (MeshReadBack rnd) bs₀ bs := by
  rw [C99_scene]
  exact C30_round_trip_partial ops lib rnd lf wm rm p fs s hw hr hd h ht

/-- C99: the same for a scene in one OBJ file. -/
theorem C99_obj_read (ops : NodeOps N) (lib : Libs L) (rnd : ℚ → ℚ) (hr : ∀ n : ℕ, n ≤ 2 ^ 53 → rnd n = n) (lf : Bool) (wm rm : Modes) (p : Path) (fs : Fs)
    (s : Scene N) (names : List Text) (ks : List Nat) (hw : OpenedWrite wm) (hm : OpenedRead rm) (hp : Writable fs p)
    (h : ObjReady (s.buildings.map ops.back ++ [ops.back s.terrain])) (hd : ((s.buildings.map ops.back ++ [ops.back s.terrain]).map (·.name)).Nodup)
    (ht : (ops.back s.terrain).name = "terrain".toList) :
    ∃ fs', sceneWrite ops .obj wm p s (attempts (fun _ => objCalls wm p (s.buildings.map ops.back ++ [ops.back s.terrain])) ks fs) = (.ok (), fs') ∧
      (∀ q, q ≠ p → fs' q = fs q) ∧
      ∃ bs t g, sceneRead ops lib rnd lf .obj rm p names fs' = .ok (Scene.make ops bs t ⟨0, 0, 0⟩ 2154) ∧
        (∀ m ∈ s.buildings.map ops.back ++ [ops.back s.terrain], ∀ q ∈ m.points, ReadBack rnd q (g q)) ∧
        (bs.map (namedPolygons id)).Perm ((s.buildings.map ops.back).map (namedPolygons g)) ∧ namedPolygons id t = namedPolygons g (ops.back s.terrain) := by
  have e : sceneWrite ops .obj wm p s (attempts (fun _ => objCalls wm p (s.buildings.map ops.back ++ [ops.back s.terrain])) ks fs) = sceneWrite ops .obj wm p s fs :=
    C99_obj wm p (s.buildings.map ops.back ++ [ops.back s.terrain]) ks fs
  obtain ⟨fs', h1, h2, bs, t, g, h3, h4, -, -, h5, -⟩ := C85_round_trip_partial ops lib rnd hr lf wm rm p fs s names hw hm hp h hd
  exact ⟨fs', e.trans h1, h2, bs, t, g, h3, h4, (h5 ht).1, (h5 ht).2⟩

/-- The scene of C85 meets the hypotheses, interrupted after 3, 0 and 40 calls. -/
example (lib : Libs L) (lf : Bool) (wm rm : Modes) (hw : OpenedWrite wm) (hm : OpenedRead rm) :
    ∃ fs', sceneWrite plainOps .obj wm ["out.obj".toList] sceneObjSample
      (attempts (fun _ => objCalls wm ["out.obj".toList] (sceneObjSample.buildings.map plainOps.back ++ [plainOps.back sceneObjSample.terrain])) [3, 0, 40] rootFs) =
      (.ok (), fs') := by
  obtain ⟨r1, r2, r3, r4⟩ := sceneObjSample_ready
  obtain ⟨fs', h, -⟩ := C99_obj_read plainOps lib id (fun _ _ => rfl) lf wm rm ["out.obj".toList] rootFs sceneObjSample [] [3, 0, 40] hw hm r4 r1 r2 r3
  exact ⟨fs', h⟩

end City.Props
