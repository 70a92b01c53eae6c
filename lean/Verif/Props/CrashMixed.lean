import Verif.Props.Crash
import Verif.Props.DirRead
import Verif.Props.CityDirectory
/-!
C94, continued: a crash while a scene is written to a directory that already holds OFF files. What is read afterwards is a mixture, and this is which one.
-/
set_option linter.unusedSectionVars false
namespace City.Spec
open City City.Props

/-- The object `b` was read from an OFF file of the directory `p` that was there before. -/
def FromBefore (rnd : ℚ → ℚ) (lf : Bool) (p : Path) (fs : Fs) (b : Mesh) : Prop :=
  ∃ n x m, fs (p ++ [n]) = some (.file x) ∧ NamedLike (p ++ [n]) "off".toList ∧ Off.read rnd lf x = .ok m ∧ b = m.setName (stem [n])

/-- `b` is what a reader sees of `m` if the last face may be wrong. -/
def ReadBackCut (rnd : ℚ → ℚ) (m b : Mesh) : Prop :=
  b.name = m.name ∧ List.Forall₂ (ReadBack rnd) m.points b.points ∧ ∃ f, b.faces = m.faces.dropLast ++ [f]

end City.Spec

namespace City.Props
open City City.Spec

variable {N L : Type}

/-- C94: a crash while a scene is written to a directory with any content. The objects are written in their order, the terrain at the end; `done` are those whose file is complete. If the
directory is then read without exception, all of `done` are there as they were written, and whatever else is there is the object that was being written up to its last face, or comes from a
file that was there before. -/
theorem C94_scene_mixed_partial (ops : NodeOps N) (lib : Libs L) (rnd : ℚ → ℚ) (lf : Bool) (wm rm : Modes) (p : Path) (fs : Fs) (s : Scene N) (k : Nat)
    (hw : OpenedWrite wm) (hr : OpenedRead rm) (hd : SceneSpot fs p (s.buildings.map ops.back ++ [ops.back s.terrain]))
    (h : WritableScene (s.buildings.map ops.back) (ops.back s.terrain)) (ht : (ops.back s.terrain).name = "terrain".toList)
    (hne : ∀ m ∈ s.buildings.map ops.back ++ [ops.back s.terrain], m.points ≠ [] ∧ m.faces ≠ [])
    (names : List Text) (hl : Listing (crashAt k (offSceneCalls ops wm p s fs) fs) p names) :
    ∃ done rest, s.buildings.map ops.back ++ [ops.back s.terrain] = done ++ rest ∧
      ∀ r, sceneRead ops lib rnd lf .off rm p names (crashAt k (offSceneCalls ops wm p s fs) fs) = .ok r →
        ∃ bs t, r = Scene.make ops bs t ⟨0, 0, 0⟩ 2154 ∧ t.name = "terrain".toList ∧
          (∀ m ∈ done, ∃ b ∈ bs ++ [t], MeshReadBack rnd m b) ∧
          ∀ b ∈ bs ++ [t], (∃ m ∈ done, MeshReadBack rnd m b) ∨ (∃ m, rest.head? = some m ∧ ReadBackCut rnd m b) ∨ FromBefore rnd lf p fs b := by
  generalize hcs : crashAt k (offSceneCalls ops wm p s fs) fs = cs at hl ⊢
  have htn : (ops.back s.terrain).name ∉ (s.buildings.map ops.back).map (·.name) := by rw [ht]; exact h.notTerrain
  have hnd : ((s.buildings.map ops.back ++ [ops.back s.terrain]).map (·.name)).Nodup := by
    rw [List.map_append, List.nodup_append]
    exact ⟨h.distinct, by simp, fun a ha b hb => by simp at hb; subst hb; intro he; subst he; exact htn ha⟩
  have hmem : ∀ m, m ∈ s.buildings.map ops.back ++ [ops.back s.terrain] → m ∈ ops.back s.terrain :: s.buildings.map ops.back :=
    fun m hm => by simp at hm ⊢; tauto
  obtain ⟨done, rest, h1, h2, h3, h4, h5, -⟩ := C94_scene_crash ops wm p s fs k hw _ rfl (fun m hm => (h.names m (hmem m hm)).2.1) hnd hd
  rw [hcs] at h2 h3 h4 h5
  refine ⟨done, rest, h1, fun r hread => ?_⟩
  obtain ⟨hdir, files, bs, tt, t, f1, f2, f3, f4, f5, ⟨mt, f6, f7⟩, f8⟩ := (C102_content ops lib rnd lf rm hr p cs names hl r).1 hread
  have hin : ∀ m, m ∈ done ∨ m ∈ rest → m ∈ s.buildings.map ops.back ++ [ops.back s.terrain] := fun m hm => by rw [h1]; exact List.mem_append.2 hm
  -- where the text of a file comes from
  have origin : ∀ n x, cs (p ++ [n]) = some (.file x) → fs (p ++ [n]) = some (.file x) ∨ (∃ m ∈ done, n = m.name ++ ".off".toList ∧ x = Off.write m) ∨
      ∃ m, rest.head? = some m ∧ n = m.name ++ ".off".toList ∧ x <+: Off.write m := by
    intro n x hx
    by_cases hc : ∃ m ∈ done ++ rest, n = m.name ++ ".off".toList
    · obtain ⟨m, hm, rfl⟩ := hc
      rcases List.mem_append.1 hm with hm | hm
      · have := h2 m hm
        rw [hx] at this
        cases this
        exact .inr (.inl ⟨m, hm, rfl, rfl⟩)
      · cases rest with
        | nil => cases hm
        | cons y ys =>
          rcases List.mem_cons.1 hm with rfl | hm
          · rcases h3 m rfl with e | ⟨u, hu, e⟩
            · exact .inl (e.symm.trans hx)
            · rw [hx] at e
              cases e
              exact .inr (.inr ⟨m, rfl, rfl, hu⟩)
          · exact .inl ((h4 m hm).symm.trans hx)
    · left
      rw [← hx]
      refine (h5 (p ++ [n]) (by intro e; simpa using congrArg List.length e) fun m hm e => ?_).symm
      exact hc ⟨m, h1 ▸ hm, (List.cons.inj (List.append_cancel_left e)).1⟩
  have whole : ∀ m, m ∈ done → ∀ m', Off.read rnd lf (Off.write m) = .ok m' → MeshReadBack rnd m (m'.setName m.name) := by
    intro m hm m' e
    have hmm := hmem m (hin m (.inl hm))
    obtain ⟨q, q1, q2, -, q3, q4⟩ := C18_round_trip rnd lf m (h.holdable m hmm) (h.names m hmm).2.2
    rw [e] at q1
    cases q1
    exact ⟨rfl, q2, q4, q3⟩
  have object : ∀ n x m', cs (p ++ [n]) = some (.file x) → NamedLike (p ++ [n]) "off".toList → Off.read rnd lf x = .ok m' →
      (∃ m ∈ done, MeshReadBack rnd m (m'.setName (stem [n]))) ∨ (∃ m, rest.head? = some m ∧ ReadBackCut rnd m (m'.setName (stem [n]))) ∨ FromBefore rnd lf p fs (m'.setName (stem [n])) := by
    intro n x m' hx hnm e
    rcases origin n x hx with ho | ⟨m, hm, rfl, rfl⟩ | ⟨m, hm, rfl, hu⟩
    · exact .inr (.inr ⟨n, x, m', ho, hnm, e, rfl⟩)
    · refine .inl ⟨m, hm, ?_⟩
      have hs : stem [m.name ++ ".off".toList] = m.name := stem_off [] m.name
      rw [hs]
      exact whole m hm m' e
    · refine .inr (.inl ⟨m, hm, ?_⟩)
      have hs : stem [m.name ++ ".off".toList] = m.name := stem_off [] m.name
      rw [hs]
      have hm' := hin m (.inr (List.mem_of_mem_head? (by rw [hm]; rfl)))
      have hmm := hmem m hm'
      rcases C92_cut_partial rnd lf m (h.holdable m hmm) (h.names m hmm).2.2 (hne m hm').1 (hne m hm').2 x hu with ⟨ex, k⟩ | ⟨full, r', f, k1, k2, k3, -, k4, k5⟩
      · rw [e] at k
        cases k
      · rw [e] at k2
        cases k2
        obtain ⟨q, q1, q2, -, q3, q4⟩ := C18_round_trip rnd lf m (h.holdable m hmm) (h.names m hmm).2.2
        rw [k1] at q1
        cases q1
        refine ⟨rfl, ?_, f, ?_⟩
        · show List.Forall₂ _ _ m'.points
          rw [k3]
          exact q4
        · show m'.faces = _
          rw [k4, k5]
  refine ⟨bs, t, f8, by rw [f7]; rfl, fun m hm => ?_, fun b hb => ?_⟩
  · by_cases hmt : m.name = "terrain".toList
    · refine ⟨t, by simp, ?_⟩
      have k := h2 m hm
      rw [hmt] at k
      have e : tt = Off.write m := by
        have := f5.symm.trans k
        cases this
        rfl
      rw [e] at f6
      rw [f7, ← hmt]
      exact whole m hm mt f6
    · have hb : BuildingFile p cs (m.name ++ ".off".toList) (Off.write m) := by
        refine ⟨h2 m hm, ⟨p, m.name, "off".toList, by simp, .cons (by decide) (.cons (by decide) (.cons (by decide) .nil))⟩, ?_⟩
        rintro ⟨x, hx, e⟩
        have a1 := stem_off [] m.name
        have a2 : stem [("terrain".toList : Text) ++ '.' :: x] = "terrain".toList := stem_of (p := []) hx
        rw [List.nil_append, e] at a1
        refine hmt (a1.symm.trans (Eq.trans ?_ a2))
        rfl
      obtain ⟨i, hi, ei⟩ := List.getElem_of_mem ((f3 _ _).2 hb)
      have hlen := f4.length_eq
      obtain ⟨m', e1, e2⟩ := List.forall₂_iff_get.1 f4 |>.2 i hi (hlen ▸ hi)
      refine ⟨bs[i]'(hlen ▸ hi), List.mem_append_left _ (List.getElem_mem _), ?_⟩
      simp only [List.get_eq_getElem] at e1 e2
      rw [ei] at e1 e2
      rw [e2]
      have hs : stem [m.name ++ ".off".toList] = m.name := stem_off [] m.name
      rw [hs]
      exact whole m hm m' e1
  · rcases List.mem_append.1 hb with hb | hb
    · obtain ⟨i, hi, rfl⟩ := List.getElem_of_mem hb
      have hlen := f4.length_eq
      obtain ⟨m', e1, e2⟩ := List.forall₂_iff_get.1 f4 |>.2 i (hlen ▸ hi) hi
      simp only [List.get_eq_getElem] at e1 e2
      have hbf := (f3 (files[i]'(hlen ▸ hi)).1 (files[i]'(hlen ▸ hi)).2).1 (List.getElem_mem _)
      rw [e2]
      exact object _ _ m' hbf.1 hbf.2.1 e1
    · rw [List.mem_singleton.1 hb, f7]
      exact object "terrain.off".toList tt mt f5 ⟨p, "terrain".toList, "off".toList, by rfl, .cons (by decide) (.cons (by decide) (.cons (by decide) .nil))⟩ f6

/-! ### Examples -/

/-- A directory `out` with a building of before and a terrain of before. -/
def stockedFs : Fs
  | [] => some .dir
  | [d] => if d = "out".toList then some .dir else none
  | [d, n] => if d = "out".toList ∧ (n = "old.off".toList ∨ n = "terrain.off".toList) then some (.file (Off.write kite)) else none
  | _ => none

/-- The hypotheses of `C94_scene_mixed_partial` are met. -/
example : OpenedWrite writeMode ∧ OpenedRead readMode ∧
    WritableScene ((sceneSample "terrain".toList).buildings.map plainOps.back) (plainOps.back (sceneSample "terrain".toList).terrain) ∧
    SceneSpot stockedFs ["out".toList] ((sceneSample "terrain".toList).buildings.map plainOps.back ++ [plainOps.back (sceneSample "terrain".toList).terrain]) :=
  ⟨canSave_iff.1 (by decide), canRead_iff.1 (by decide), sceneSample_writable _ (by unfold FileNameOk; decide), Or.inl rfl, by decide +kernel⟩

/-- A mixture: the first building is complete, nothing else has begun: it is read with the building and the terrain of before. -/
example : (match offSceneRead plainOps _root_.id false readMode ["out".toList] ["terrain.off".toList, "b1.off".toList, "old.off".toList]
      (crashAt ((Off.write (sampleOff.setName "b1".toList)).length + 2) (offSceneCalls plainOps writeMode ["out".toList] (sceneSample "terrain".toList) stockedFs) stockedFs) with
    | .ok r => decide (r.buildings.map (·.name) = ["b1".toList, "old".toList] ∧ r.buildings.map (·.points) = [sampleOff.points, kite.points] ∧ r.terrain.points = kite.points)
    | _ => false) = true := by decide +kernel

end City.Props
