import Verif.Model.Crash
import Verif.Props.Cut
import Verif.Props.FileWrite
import Verif.Props.Scene
/-!
Property C94: a crash while a mesh, a scene or the dual graphs of a scene are being written.
-/
set_option exponentiation.threshold 2000
namespace City.Props
open City Spec

theorem execute_append (a b : List Sys) (w : Running) : execute (a ++ b) w = execute b (execute a w) := by
  induction a generalizing w with
  | nil => rfl
  | cons s a ih => exact ih _

theorem set_set (fs : Fs) (p : Path) (a b : Entry) : (fs.set p a).set p b = fs.set p b := by
  funext q
  simp only [Fs.set]
  split <;> rfl

theorem execute_send (p : Path) (fs : Fs) (u : Text) : ∀ t : Text,
    execute (t.map .send) ⟨fs.set p (.file u), some p⟩ = ⟨fs.set p (.file (u ++ t)), some p⟩ := by
  intro t
  induction t generalizing u with
  | nil => simp [execute]
  | cons c t ih =>
    rw [List.map_cons, execute]
    have : Sys.run (.send c) ⟨fs.set p (.file u), some p⟩ = ⟨fs.set p (.file (u ++ [c])), some p⟩ := by
      simp only [Sys.run, Fs.set, if_true]
      rw [set_set]
    rw [this, ih, List.append_assoc]
    rfl

theorem execute_ignored (fs : Fs) : ∀ t : Text, execute (t.map .send) ⟨fs, none⟩ = ⟨fs, none⟩ := by
  intro t
  induction t with
  | nil => rfl
  | cons c t ih => rw [List.map_cons, execute]; exact ih

/-- All the calls of a stream. -/
theorem execute_file (p : Path) (t : Text) (fs : Fs) (cur : Option Path) : execute (fileCalls p t) ⟨fs, cur⟩ = ⟨fs.put p t, none⟩ := by
  unfold fileCalls Fs.put
  rw [execute]
  by_cases h : fs.canWrite p = true
  · simp only [Sys.run, if_pos h]
    rw [execute_append, execute_send]
    simp [execute, Sys.run]
  · simp only [Sys.run, if_neg h]
    rw [execute_append, execute_ignored]
    simp [execute, Sys.run]

/-- Some of the calls of a stream. -/
theorem execute_file_cut (p : Path) (t : Text) (fs : Fs) {l : List Sys} (h : l <+: fileCalls p t) :
    (execute l ⟨fs, none⟩).fs = fs ∨ ∃ u, u <+: t ∧ (execute l ⟨fs, none⟩).fs = fs.put p u := by
  unfold fileCalls at h
  rcases l with _ | ⟨s, l⟩
  · exact .inl rfl
  rw [List.cons_prefix_cons] at h
  obtain ⟨rfl, h⟩ := h
  right
  have key : ∀ u : Text, (execute (.openOut p :: u.map .send) ⟨fs, none⟩).fs = fs.put p u := by
    intro u
    unfold Fs.put
    rw [execute]
    by_cases hc : fs.canWrite p = true
    · simp only [Sys.run, if_pos hc]
      rw [execute_send]
      simp
    · simp only [Sys.run, if_neg hc]
      rw [execute_ignored]
  rcases List.prefix_concat_iff.1 h with rfl | h
  · refine ⟨t, List.prefix_refl _, ?_⟩
    have := execute_file p t fs none
    unfold fileCalls at this
    rw [this]
  · obtain ⟨u, hu, rfl⟩ : ∃ u : Text, u <+: t ∧ l = u.map .send := by
      rw [List.prefix_iff_eq_take, ← List.map_take] at h
      exact ⟨_, List.take_prefix _ _, h⟩
    exact ⟨u, hu, key u⟩

theorem prefix_append_cases {α : Type} {l a b : List α} (h : l <+: a ++ b) : l <+: a ∨ ∃ l', l = a ++ l' ∧ l' <+: b := by
  induction a generalizing l with
  | nil => exact .inr ⟨l, rfl, h⟩
  | cons x a ih =>
    rcases l with _ | ⟨y, l⟩
    · exact .inl List.nil_prefix
    · rw [List.cons_append, List.cons_prefix_cons] at h
      obtain ⟨rfl, h⟩ := h
      rcases ih h with h | ⟨l', rfl, h'⟩
      · exact .inl (List.cons_prefix_cons.2 ⟨rfl, h⟩)
      · exact .inr ⟨l', rfl, h'⟩

/-- Files written one after the other. -/
def writeFiles (files : List (Path × Text)) (fs : Fs) : Fs := files.foldl (fun fs f => fs.put f.1 f.2) fs

theorem execute_files (files : List (Path × Text)) (fs : Fs) :
    execute (files.flatMap fun f => fileCalls f.1 f.2) ⟨fs, none⟩ = ⟨writeFiles files fs, none⟩ := by
  induction files generalizing fs with
  | nil => rfl
  | cons f files ih =>
    rw [List.flatMap_cons, execute_append, execute_file, ih]
    rfl

/-- Some of the calls of several streams: the first files are complete, at most one is cut, the others are not touched. -/
theorem execute_files_cut (files : List (Path × Text)) (fs : Fs) {l : List Sys} (h : l <+: files.flatMap fun f => fileCalls f.1 f.2) :
    ∃ done rest, files = done ++ rest ∧ ((execute l ⟨fs, none⟩).fs = writeFiles done fs ∨
      ∃ f rest' u, rest = f :: rest' ∧ u <+: f.2 ∧ (execute l ⟨fs, none⟩).fs = (writeFiles done fs).put f.1 u) := by
  induction files generalizing fs l with
  | nil =>
    simp only [List.flatMap_nil, List.prefix_nil] at h
    exact ⟨[], [], rfl, .inl (by rw [h]; rfl)⟩
  | cons f files ih =>
    rw [List.flatMap_cons] at h
    rcases prefix_append_cases h with h | ⟨l', rfl, h'⟩
    · refine ⟨[], f :: files, rfl, ?_⟩
      rcases execute_file_cut f.1 f.2 fs h with h | ⟨u, hu, h⟩
      · exact .inl h
      · exact .inr ⟨f, files, u, rfl, hu, h⟩
    · obtain ⟨done, rest, h1, h2⟩ := ih (fs.put f.1 f.2) h'
      rw [execute_append, execute_file]
      refine ⟨f :: done, rest, by rw [h1]; rfl, ?_⟩
      rcases h2 with h2 | h2
      · exact .inl h2
      · exact .inr h2

/-! The sequences of calls have the effects of the writers of the other modules. -/

/-- C94: all the calls of `OFFHandler::write` have the effect of C82. -/
theorem C94_off_calls (modes : Modes) (p : Path) (m : Mesh) (fs : Fs) :
    (execute (offCalls modes p m) ⟨fs, none⟩).fs = (offWrite modes p m fs).2 := by
  unfold offCalls offWrite
  split
  · rw [execute_file]
  · rfl

/-- C94: all the calls of `WaveObjHandler::write` have the effect of C82. -/
theorem C94_obj_calls (modes : Modes) (p : Path) (ms : List Mesh) (fs : Fs) :
    (execute (objCalls modes p ms) ⟨fs, none⟩).fs = (objWrite modes p ms fs).2 := by
  unfold objCalls objWrite
  split
  · cases Obj.write ms with
    | ok t => simp only [execute_file]
    | thrown e => rfl
    | ub => rfl
  · rfl

theorem offAll_files (modes : Modes) (h : canSave modes = true) (p : Path) (ms : List Mesh) :
    offAllCalls modes p ms = (ms.map fun m => (joinPath p (m.name ++ ".off".toList), Off.write m)).flatMap fun f => fileCalls f.1 f.2 := by
  unfold offAllCalls
  rw [if_pos h, List.flatMap_map]

theorem offWriteAll_files (modes : Modes) (h : canSave modes = true) (p : Path) (ms : List Mesh) (fs : Fs) :
    offWriteAll modes p ms fs = (.ok (), writeFiles (ms.map fun m => (joinPath p (m.name ++ ".off".toList), Off.write m)) fs) := by
  induction ms generalizing fs with
  | nil => rfl
  | cons m ms ih =>
    unfold offWriteAll offWrite
    rw [if_pos h]
    simp only
    rw [ih]
    rfl

theorem offAll_calls (modes : Modes) (p : Path) (ms : List Mesh) (fs : Fs) :
    (execute (offAllCalls modes p ms) ⟨fs, none⟩).fs = (offWriteAll modes p ms fs).2 := by
  by_cases h : canSave modes = true
  · rw [offAll_files modes h, execute_files, offWriteAll_files modes h]
  · unfold offAllCalls
    rw [if_neg h]
    cases ms with
    | nil => rfl
    | cons m ms =>
      unfold offWriteAll offWrite
      rw [if_neg h]
      rfl

/-- C94: all the calls of `SceneHandler::write` for OFF have the effect of C30. -/
theorem C94_scene_calls {N : Type} (ops : NodeOps N) (modes : Modes) (p : Path) (s : Scene N) (fs : Fs) :
    (execute (offSceneCalls ops modes p s fs) ⟨fs, none⟩).fs = (sceneWrite ops .off modes p s fs).2 := by
  unfold offSceneCalls sceneWrite offSceneWrite
  simp only
  cases fs p with
  | none =>
    simp only
    split
    · rw [execute]
      exact offAll_calls _ _ _ _
    · rfl
  | some e =>
    cases e with
    | dir => exact offAll_calls _ _ _ _
    | file t => rfl

/-- C94: all the calls of `save_building_duals` have the effect of C68. -/
theorem C94_dual_calls (root : Path) (bs : List (Text × Written)) (fs : Fs) :
    (execute (dualCalls root bs fs) ⟨fs, none⟩).fs = (saveBuildingDuals root bs fs).2 := by
  have key : ∀ (dir : Path) (bs : List (Text × Written)) (fs : Fs), (execute (dualAllCalls dir bs) ⟨fs, none⟩).fs =
      (runAll (bs.map fun b => streamPut (joinPath dir (b.1 ++ ".txt".toList)) b.2) fs).2 := by
    intro dir bs
    induction bs with
    | nil => exact fun _ => rfl
    | cons b bs ih =>
      intro fs
      rw [dualAllCalls, List.map_cons, runAll, execute_append, execute_file]
      unfold streamPut
      cases b.2.2 with
      | ok u =>
        simp only [andThen]
        exact ih _
      | thrown e => rfl
      | ub => rfl
  unfold dualCalls saveBuildingDuals makeDir
  rw [List.dropLast_concat]
  cases fs (root ++ ["dual_graphs".toList]) with
  | none =>
    simp only
    split
    · rw [execute]
      simp only [andThen]
      exact key _ _ _
    · rfl
  | some e =>
    cases e with
    | dir =>
      simp only [andThen]
      exact key _ _ _
    | file t => rfl

/-! Crashes. -/

theorem put_other {fs : Fs} {p q : Path} (t : Text) (h : q ≠ p) : fs.put p t q = fs q := by
  unfold Fs.put
  split
  · simp [Fs.set, h]
  · rfl

/-- C94: after a crash of `OFFHandler::write` the file is as it was, or it holds a beginning of the text of the mesh; nothing else has changed. -/
theorem C94_off_crash (modes : Modes) (p : Path) (m : Mesh) (fs : Fs) (k : Nat) :
    (∀ q, q ≠ p → crashAt k (offCalls modes p m) fs q = fs q) ∧
    (crashAt k (offCalls modes p m) fs p = fs p ∨
      OpenedWrite modes ∧ Writable fs p ∧ ∃ u, u <+: Off.write m ∧ crashAt k (offCalls modes p m) fs p = some (.file u)) := by
  unfold crashAt offCalls
  split
  · rename_i h
    rcases execute_file_cut p (Off.write m) fs (List.take_prefix k _) with e | ⟨u, hu, e⟩
    · rw [e]; exact ⟨fun _ _ => rfl, .inl rfl⟩
    · rw [e]
      refine ⟨fun q hq => put_other u hq, ?_⟩
      by_cases hw : fs.canWrite p = true
      · refine .inr ⟨canSave_iff.1 h, canWrite_iff.1 hw, u, hu, ?_⟩
        unfold Fs.put
        rw [if_pos hw]
        exact if_pos rfl
      · left
        unfold Fs.put
        rw [if_neg hw]
  · rw [List.take_nil]
    exact ⟨fun _ _ => rfl, .inl rfl⟩

/-- C94: the same for `WaveObjHandler::write`. -/
theorem C94_obj_crash (modes : Modes) (p : Path) (ms : List Mesh) (fs : Fs) (k : Nat) :
    (∀ q, q ≠ p → crashAt k (objCalls modes p ms) fs q = fs q) ∧
    (crashAt k (objCalls modes p ms) fs p = fs p ∨
      OpenedWrite modes ∧ Writable fs p ∧ ∃ t u, Obj.write ms = .ok t ∧ u <+: t ∧ crashAt k (objCalls modes p ms) fs p = some (.file u)) := by
  unfold crashAt objCalls
  split
  · rename_i h
    cases ho : Obj.write ms with
    | ok t =>
      simp only
      rcases execute_file_cut p t fs (List.take_prefix k _) with e | ⟨u, hu, e⟩
      · rw [e]; exact ⟨fun _ _ => rfl, .inl rfl⟩
      · rw [e]
        refine ⟨fun q hq => put_other u hq, ?_⟩
        by_cases hw : fs.canWrite p = true
        · refine .inr ⟨canSave_iff.1 h, canWrite_iff.1 hw, t, u, rfl, hu, ?_⟩
          unfold Fs.put
          rw [if_pos hw]
          exact if_pos rfl
        · left
          unfold Fs.put
          rw [if_neg hw]
    | thrown e => simp [execute]
    | ub => simp [execute]
  · rw [List.take_nil]
    exact ⟨fun _ _ => rfl, .inl rfl⟩

/-- C94: reading the file of a mesh after a crash throws, or gives what it gave before, or gives the mesh that was being written, up to its last face. -/
theorem C94_off_read_partial (rnd : ℚ → ℚ) (lf : Bool) (wm rm : Modes) (p : Path) (m : Mesh) (fs : Fs) (k : Nat) (hm : Holdable m) (hn : '\n' ∉ m.name)
    (h0 : m.points ≠ []) (hf : m.faces ≠ []) :
    (∃ e, offRead rnd lf rm p (crashAt k (offCalls wm p m) fs) = .thrown e) ∨
    offRead rnd lf rm p (crashAt k (offCalls wm p m) fs) = offRead rnd lf rm p fs ∨
    ∃ r f, offRead rnd lf rm p (crashAt k (offCalls wm p m) fs) = .ok r ∧ r.name = stem p ∧ List.Forall₂ (ReadBack rnd) m.points r.points ∧
      r.faces = m.faces.dropLast ++ [f] := by
  rcases (C94_off_crash wm p m fs k).2 with h | ⟨-, -, u, hu, h⟩
  · right; left
    unfold offRead
    rw [h]
  · by_cases hr : canRead rm = true
    · rcases C92_cut_partial rnd lf m hm hn h0 hf u hu with ⟨e, he⟩ | ⟨full, r, f, h1, h2, h3, -, h5, h6⟩
      · left
        refine ⟨e, ?_⟩
        unfold offRead
        rw [if_pos hr, h]
        simp only [he]
        rfl
      · right; right
        refine ⟨r.setName (stem p), f, ?_, rfl, ?_, ?_⟩
        · unfold offRead
          rw [if_pos hr, h]
          simp only [h2]
          rfl
        · obtain ⟨r', e1, -, -, -, e5⟩ := C18_round_trip rnd lf m hm hn
          rw [h1] at e1
          cases e1
          show List.Forall₂ _ _ r.points
          rw [h3]
          exact e5
        · show r.faces = _
          rw [h5, h6]
    · left
      refine ⟨.filesystemError, ?_⟩
      unfold offRead
      rw [if_neg hr]

theorem offAll_cut (modes : Modes) (hw : canSave modes = true) (p : Path) (ms : List Mesh) (fs : Fs) {l : List Sys} (h : l <+: offAllCalls modes p ms) :
    ∃ done rest, ms = done ++ rest ∧ ((execute l ⟨fs, none⟩).fs = (offWriteAll modes p done fs).2 ∨
      ∃ m rest' u, rest = m :: rest' ∧ u <+: Off.write m ∧
        (execute l ⟨fs, none⟩).fs = ((offWriteAll modes p done fs).2).put (joinPath p (m.name ++ ".off".toList)) u) := by
  rw [offAll_files modes hw] at h
  obtain ⟨done, rest, h1, h2⟩ := execute_files_cut _ fs h
  obtain ⟨d, r, rfl, rfl, rfl⟩ := List.map_eq_append_iff.1 h1
  refine ⟨d, r, rfl, ?_⟩
  rw [offWriteAll_files modes hw]
  rcases h2 with h2 | ⟨f, rest', u, e1, e2, e3⟩
  · exact .inl h2
  · obtain ⟨m, r', rfl, rfl, -⟩ := List.map_eq_cons_iff.1 e1
    exact .inr ⟨m, r', u, rfl, e2, e3⟩

/-- Where the OFF files of a scene can be written: a directory that exists or can be made, and no directory that has the name of a file. -/
def SceneSpot (fs : Fs) (p : Path) (ms : List Mesh) : Prop :=
  (fs p = some .dir ∨ (fs p = none ∧ fs p.dropLast = some .dir)) ∧ ∀ m ∈ ms, fs (p ++ [m.name ++ ".off".toList]) ≠ some .dir

/-- C94: after a crash of `SceneHandler::write` for OFF, at any time: the files of the first buildings are complete, those of the last ones (the terrain is the
very last) are as they were, and the one in between is as it was or holds a beginning of the text of its building. Nothing else has changed, except that the
directory may have been made. -/
theorem C94_scene_crash {N : Type} (ops : NodeOps N) (modes : Modes) (p : Path) (s : Scene N) (fs : Fs) (k : Nat) (hw : OpenedWrite modes) (ms : List Mesh)
    (hms : ms = s.buildings.map ops.back ++ [ops.back s.terrain]) (hn : ∀ m ∈ ms, '/' ∉ m.name) (hd : (ms.map (·.name)).Nodup) (hs : SceneSpot fs p ms) :
    ∃ done rest, ms = done ++ rest ∧
      (∀ m ∈ done, crashAt k (offSceneCalls ops modes p s fs) fs (p ++ [m.name ++ ".off".toList]) = some (.file (Off.write m))) ∧
      (∀ m, rest.head? = some m → crashAt k (offSceneCalls ops modes p s fs) fs (p ++ [m.name ++ ".off".toList]) = fs (p ++ [m.name ++ ".off".toList]) ∨
        ∃ u, u <+: Off.write m ∧ crashAt k (offSceneCalls ops modes p s fs) fs (p ++ [m.name ++ ".off".toList]) = some (.file u)) ∧
      (∀ m ∈ rest.tail, crashAt k (offSceneCalls ops modes p s fs) fs (p ++ [m.name ++ ".off".toList]) = fs (p ++ [m.name ++ ".off".toList])) ∧
      (∀ q, q ≠ p → (∀ m ∈ ms, q ≠ p ++ [m.name ++ ".off".toList]) → crashAt k (offSceneCalls ops modes p s fs) fs q = fs q) ∧
      (crashAt k (offSceneCalls ops modes p s fs) fs p = fs p ∨ crashAt k (offSceneCalls ops modes p s fs) fs p = some .dir) := by
  have hw' := canSave_iff.2 hw
  -- inside the directory
  have key : ∀ (fs0 : Fs) (l : List Sys), fs0 p = some .dir → (∀ m ∈ ms, fs0 (offPath p m) ≠ some .dir) → l <+: offAllCalls modes p ms →
      ∃ done rest, ms = done ++ rest ∧
        (∀ m ∈ done, (execute l ⟨fs0, none⟩).fs (offPath p m) = some (.file (Off.write m))) ∧
        (∀ m, rest.head? = some m → (execute l ⟨fs0, none⟩).fs (offPath p m) = fs0 (offPath p m) ∨
          ∃ u, u <+: Off.write m ∧ (execute l ⟨fs0, none⟩).fs (offPath p m) = some (.file u)) ∧
        (∀ m ∈ rest.tail, (execute l ⟨fs0, none⟩).fs (offPath p m) = fs0 (offPath p m)) ∧
        (∀ q, (∀ m ∈ ms, q ≠ offPath p m) → (execute l ⟨fs0, none⟩).fs q = fs0 q) := by
    intro fs0 l h0 hnd hl
    obtain ⟨done, rest, e1, e2⟩ := offAll_cut modes hw' p ms fs0 hl
    rw [e1, List.map_append, List.nodup_append] at hd
    obtain ⟨fs', w1, w2, w3⟩ := writeAll_spec modes hw' p done fs0 (fun m hm => hn m (by rw [e1]; simp [hm])) hd.1 h0
      (fun m hm => hnd m (by rw [e1]; simp [hm]))
    rw [w1] at e2
    have hout : ∀ m ∈ rest, fs' (offPath p m) = fs0 (offPath p m) := by
      intro m hm
      refine w3 _ fun m' hm' he => ?_
      exact hd.2.2 m'.name (List.mem_map.2 ⟨m', hm', rfl⟩) m.name (List.mem_map.2 ⟨m, hm, rfl⟩) (offPath_inj he).symm
    refine ⟨done, rest, e1, ?_⟩
    rcases e2 with e2 | ⟨m, rest', u, rfl, e3, e4⟩
    · rw [e2]
      refine ⟨w2, fun m hm => .inl (hout m (List.mem_of_mem_head? hm)), fun m hm => hout m (List.mem_of_mem_tail hm), fun q hq => ?_⟩
      exact w3 q fun m hm => hq m (by rw [e1]; simp [hm])
    · rw [join_off p (hn m (by rw [e1]; simp))] at e4
      rw [e4]
      refine ⟨fun m' hm' => ?_, fun m' hm' => ?_, fun m' hm' => ?_, fun q hq => ?_⟩
      · rw [put_other]
        · exact w2 m' hm'
        · intro he
          exact hd.2.2 m'.name (List.mem_map.2 ⟨m', hm', rfl⟩) m.name (List.mem_map.2 ⟨m, by simp, rfl⟩) (offPath_inj he)
      · simp at hm'
        subst hm'
        by_cases hc : fs'.canWrite (offPath p m) = true
        · right
          refine ⟨u, e3, ?_⟩
          show fs'.put (offPath p m) u _ = _
          unfold Fs.put
          rw [if_pos hc]
          exact if_pos rfl
        · left
          show fs'.put (offPath p m) u _ = _
          unfold Fs.put
          rw [if_neg hc]
          exact hout m (by simp)
      · rw [put_other]
        · exact hout m' (by simpa using .inr hm')
        · intro he
          have hnm := offPath_inj he
          have := hd.2.1
          simp only [List.map_cons, List.nodup_cons] at this
          exact this.1 (List.mem_map.2 ⟨m', by simpa using hm', hnm⟩)
      · rw [put_other]
        · exact w3 q fun m' hm' => hq m' (by rw [e1]; simp [hm'])
        · exact hq m (by rw [e1]; simp)
  have hcr : crashAt k (offSceneCalls ops modes p s fs) fs = (execute ((offSceneCalls ops modes p s fs).take k) ⟨fs, none⟩).fs := rfl
  rw [hcr]
  unfold offSceneCalls
  rcases hs.1 with hp | ⟨hp, hpar⟩
  · rw [hp]
    simp only
    rw [← hms]
    obtain ⟨done, rest, h1, h2, h3, h4, h5⟩ := key fs _ hp (fun m hm => hs.2 m hm) (List.take_prefix k _)
    refine ⟨done, rest, h1, h2, h3, h4, fun q _ hq => h5 q hq, .inr ?_⟩
    rw [h5 p fun m _ => Ne.symm offPath_ne]
    exact hp
  · rw [hp]
    simp only
    rw [if_pos hpar, ← hms]
    cases k with
    | zero => exact ⟨[], ms, rfl, by simp, fun _ _ => .inl rfl, fun _ _ => rfl, fun _ _ _ => rfl, .inl hp⟩
    | succ k =>
      rw [List.take_succ_cons, execute]
      have hset : ∀ m, fs.set p .dir (offPath p m) = fs (offPath p m) := fun m => if_neg offPath_ne
      obtain ⟨done, rest, h1, h2, h3, h4, h5⟩ := key (fs.set p .dir) ((offAllCalls modes p ms).take k) (if_pos rfl)
        (fun m hm => by rw [hset]; exact hs.2 m hm) (List.take_prefix k _)
      refine ⟨done, rest, h1, h2, fun m hm => ?_, fun m hm => ?_, fun q hqp hq => ?_, .inr ?_⟩
      · rw [← show offPath p m = p ++ [m.name ++ ".off".toList] from rfl, ← hset m]
        exact h3 m hm
      · rw [← show offPath p m = p ++ [m.name ++ ".off".toList] from rfl, ← hset m]
        exact h4 m hm
      · refine (h5 q hq).trans (if_neg hqp)
      · refine (h5 p fun m _ => Ne.symm offPath_ne).trans (if_pos rfl)

theorem writeFiles_entry (files : List (Path × Text)) (fs : Fs) (q : Path) :
    writeFiles files fs q = fs q ∨ ∃ f ∈ files, f.1 = q ∧ writeFiles files fs q = some (.file f.2) := by
  induction files generalizing fs with
  | nil => exact .inl rfl
  | cons f files ih =>
    rcases ih (fs.put f.1 f.2) with h | ⟨g, hg, h⟩
    · have h' : writeFiles (f :: files) fs q = fs.put f.1 f.2 q := h
      by_cases hq : q = f.1
      · by_cases hc : fs.canWrite f.1 = true
        · right
          refine ⟨f, by simp, hq.symm, ?_⟩
          rw [h', hq]
          unfold Fs.put
          rw [if_pos hc]
          exact if_pos rfl
        · left
          rw [h']
          unfold Fs.put
          rw [if_neg hc]
      · left
        rw [h', put_other _ hq]
    · exact .inr ⟨g, by simp [hg], h⟩

theorem dualAll_files (dir : Path) (bs : List (Text × Written)) : ∃ bs', bs' <+: bs ∧
    dualAllCalls dir bs = (bs'.map fun b => (joinPath dir (b.1 ++ ".txt".toList), b.2.1)).flatMap fun f => fileCalls f.1 f.2 := by
  induction bs with
  | nil => exact ⟨[], List.nil_prefix, rfl⟩
  | cons b bs ih =>
    obtain ⟨bs', h1, h2⟩ := ih
    rw [dualAllCalls]
    cases b.2.2 with
    | ok u => exact ⟨b :: bs', List.cons_prefix_cons.2 ⟨rfl, h1⟩, by rw [h2]; rfl⟩
    | thrown e => exact ⟨[b], List.cons_prefix_cons.2 ⟨rfl, List.nil_prefix⟩, by simp⟩
    | ub => exact ⟨[b], List.cons_prefix_cons.2 ⟨rfl, List.nil_prefix⟩, by simp⟩

/-- C94: after a crash of `save_building_duals`, at any time: at most one file, `c`, holds only a beginning of the text of its building; every other file is as it
was or complete; nothing else has changed, except that the directory may have been made. -/
theorem C94_dual_crash (root : Path) (bs : List (Text × Written)) (fs : Fs) (k : Nat) :
    ∃ c : Path,
      (∀ q, q ≠ root ++ ["dual_graphs".toList] → (∀ b ∈ bs, q ≠ joinPath (root ++ ["dual_graphs".toList]) (b.1 ++ ".txt".toList)) →
        crashAt k (dualCalls root bs fs) fs q = fs q) ∧
      (∀ q, q ≠ root ++ ["dual_graphs".toList] → q ≠ c → crashAt k (dualCalls root bs fs) fs q = fs q ∨
        ∃ b ∈ bs, joinPath (root ++ ["dual_graphs".toList]) (b.1 ++ ".txt".toList) = q ∧ crashAt k (dualCalls root bs fs) fs q = some (.file b.2.1)) ∧
      (c ≠ root ++ ["dual_graphs".toList] → crashAt k (dualCalls root bs fs) fs c = fs c ∨
        ∃ b ∈ bs, joinPath (root ++ ["dual_graphs".toList]) (b.1 ++ ".txt".toList) = c ∧
          ∃ u, u <+: b.2.1 ∧ crashAt k (dualCalls root bs fs) fs c = some (.file u)) ∧
      (crashAt k (dualCalls root bs fs) fs (root ++ ["dual_graphs".toList]) = fs (root ++ ["dual_graphs".toList]) ∨
        crashAt k (dualCalls root bs fs) fs (root ++ ["dual_graphs".toList]) = some .dir) := by
  set dir := root ++ ["dual_graphs".toList] with hdir
  have hjd : ∀ n : Text, joinPath dir n ≠ dir := by
    intro n h
    unfold joinPath at h
    have hlen := congrArg List.length h
    rw [List.length_append] at hlen
    have hs : splitSlash n ≠ [] := by
      cases n with
      | nil => simp [splitSlash]
      | cons c n =>
        rw [splitSlash]
        split
        · simp
        · split <;> simp
    have := List.length_pos_iff.2 hs
    omega
  have key : ∀ (fs0 : Fs) (l : List Sys), l <+: dualAllCalls dir bs → ∃ c : Path,
      (∀ q, (∀ b ∈ bs, q ≠ joinPath dir (b.1 ++ ".txt".toList)) → (execute l ⟨fs0, none⟩).fs q = fs0 q) ∧
      (∀ q, q ≠ c → (execute l ⟨fs0, none⟩).fs q = fs0 q ∨
        ∃ b ∈ bs, joinPath dir (b.1 ++ ".txt".toList) = q ∧ (execute l ⟨fs0, none⟩).fs q = some (.file b.2.1)) ∧
      ((execute l ⟨fs0, none⟩).fs c = fs0 c ∨ ∃ b ∈ bs, joinPath dir (b.1 ++ ".txt".toList) = c ∧
        ∃ u, u <+: b.2.1 ∧ (execute l ⟨fs0, none⟩).fs c = some (.file u)) := by
    intro fs0 l hl
    obtain ⟨bs', hp, he⟩ := dualAll_files dir bs
    rw [he] at hl
    obtain ⟨done, rest, h1, h2⟩ := execute_files_cut _ fs0 hl
    obtain ⟨d, r, rfl, rfl, rfl⟩ := List.map_eq_append_iff.1 h1
    have hin : ∀ b, b ∈ d ++ r → b ∈ bs := fun b hb => hp.subset hb
    have hwf : ∀ q, writeFiles (d.map fun b => (joinPath dir (b.1 ++ ".txt".toList), b.2.1)) fs0 q = fs0 q ∨
        ∃ b ∈ bs, joinPath dir (b.1 ++ ".txt".toList) = q ∧
          writeFiles (d.map fun b => (joinPath dir (b.1 ++ ".txt".toList), b.2.1)) fs0 q = some (.file b.2.1) := by
      intro q
      rcases writeFiles_entry (d.map fun b => (joinPath dir (b.1 ++ ".txt".toList), b.2.1)) fs0 q with h | ⟨f, hf, h⟩
      · exact .inl h
      · obtain ⟨b, hb, rfl⟩ := List.mem_map.1 hf
        exact .inr ⟨b, hin b (by simp [hb]), h⟩
    rcases h2 with h2 | ⟨f, rest', u, e1, e2, e3⟩
    · refine ⟨dir, ?_, ?_, ?_⟩
      · intro q hq
        rw [h2]
        rcases hwf q with h | ⟨b, hb, h, -⟩
        · exact h
        · exact absurd h.symm (hq b hb)
      · intro q _
        rw [h2]
        exact hwf q
      · left
        rw [h2]
        rcases hwf dir with h | ⟨b, hb, h, -⟩
        · exact h
        · exact absurd h (hjd _)
    · obtain ⟨b, r', rfl, rfl, -⟩ := List.map_eq_cons_iff.1 e1
      have hb : b ∈ bs := hin b (by simp)
      refine ⟨joinPath dir (b.1 ++ ".txt".toList), ?_, ?_, ?_⟩
      · intro q hq
        rw [e3, put_other _ (hq b hb)]
        rcases hwf q with h | ⟨b', hb', h, -⟩
        · exact h
        · exact absurd h.symm (hq b' hb')
      · intro q hq
        rw [e3, put_other _ hq]
        exact hwf q
      · rw [e3]
        simp only at e2 ⊢
        by_cases hc : (writeFiles (d.map fun b => (joinPath dir (b.1 ++ ".txt".toList), b.2.1)) fs0).canWrite (joinPath dir (b.1 ++ ".txt".toList)) = true
        · right
          refine ⟨b, hb, rfl, u, e2, ?_⟩
          unfold Fs.put
          rw [if_pos hc]
          exact if_pos rfl
        · unfold Fs.put
          rw [if_neg hc]
          rcases hwf (joinPath dir (b.1 ++ ".txt".toList)) with h | ⟨b', hb', h, h'⟩
          · exact .inl h
          · exact .inr ⟨b', hb', h, b'.2.1, List.prefix_refl _, h'⟩
  have hcr : crashAt k (dualCalls root bs fs) fs = (execute ((dualCalls root bs fs).take k) ⟨fs, none⟩).fs := rfl
  rw [hcr]
  unfold dualCalls
  rw [← hdir]
  cases hp : fs dir with
  | none =>
    simp only
    split
    · cases k with
      | zero => exact ⟨dir, fun _ _ _ => rfl, fun _ _ _ => .inl rfl, fun _ => .inl rfl, .inl hp⟩
      | succ k =>
        rw [List.take_succ_cons, execute]
        obtain ⟨c, h1, h2, h3⟩ := key (fs.set dir .dir) ((dualAllCalls dir bs).take k) (List.take_prefix k _)
        have hset : ∀ q, q ≠ dir → fs.set dir .dir q = fs q := fun q hq => if_neg hq
        refine ⟨c, fun q hq hb => (h1 q hb).trans (hset q hq), fun q hq hc => ?_, fun hc => ?_, ?_⟩
        · rw [← hset q hq]; exact h2 q hc
        · rw [← hset c hc]; exact h3
        · right
          exact (h1 dir fun b _ => (hjd _).symm).trans (if_pos rfl)
    · rw [List.take_nil]
      exact ⟨dir, fun _ _ _ => rfl, fun _ _ _ => .inl rfl, fun _ => .inl rfl, .inl hp⟩
  | some e =>
    cases e with
    | dir =>
      simp only
      obtain ⟨c, h1, h2, h3⟩ := key fs ((dualAllCalls dir bs).take k) (List.take_prefix k _)
      refine ⟨c, fun q _ hb => h1 q hb, fun q _ hc => h2 q hc, fun _ => h3, .inr ?_⟩
      exact (h1 dir fun b _ => (hjd _).symm).trans hp
    | file t =>
      simp only
      rw [List.take_nil]
      exact ⟨dir, fun _ _ _ => rfl, fun _ _ _ => .inl rfl, fun _ => .inl rfl, .inl hp⟩

section
variable {N L : Type}

/-- The meshes read from a directory in which the files of all buildings are complete. -/
theorem read_buildings (rnd : ℚ → ℚ) (lf : Bool) (rm : Modes) (hr : canRead rm = true) (p : Path) (fs' : Fs) (bs : List Mesh) (t : Mesh) (v : Text)
    (h : WritableScene bs t) (ht : t.name = "terrain".toList) (h3 : ∀ m ∈ bs, fs' (offPath p m) = some (.file (Off.write m)))
    (hv : fs' (offPath p t) = some (.file v)) (h4 : ∀ n, (∀ m ∈ bs ++ [t], n ≠ m.name ++ ".off".toList) → fs' (p ++ [n]) = none)
    (names : List Text) (hl : Listing fs' p names) :
    ∃ bs' bs₀, bs₀.Perm bs ∧ List.Forall₂ (MeshReadBack rnd) bs₀ bs' ∧
      Out.mapM (fun n => offRead rnd lf rm (p ++ [n]) fs') (names.filter (isBuildingFile p fs')) = .ok bs' := by
  have htn : t.name ∉ bs.map (·.name) := by rw [ht]; exact h.notTerrain
  have hnd : ((bs ++ [t]).map (·.name)).Nodup := by
    rw [List.map_append, List.nodup_append]
    exact ⟨h.distinct, by simp, fun a ha b hb => by simp at hb; subst hb; intro he; subst he; exact htn ha⟩
  have hperm := listing_perm hl (bs ++ [t]) hnd (fun m hm => by
    rcases List.mem_append.1 hm with hm | hm
    · rw [h3 m hm]; simp
    · simp at hm; subst hm; rw [hv]; simp) h4
  have hfil : (names.filter (isBuildingFile p fs')).Perm (bs.map fun m => m.name ++ ".off".toList) := by
    have := hperm.filter (isBuildingFile p fs')
    refine this.trans ?_
    rw [List.map_append, List.filter_append]
    have hb : (bs.map fun m => m.name ++ ".off".toList).filter (isBuildingFile p fs') =
        bs.map fun m => m.name ++ ".off".toList := by
      rw [List.filter_eq_self]
      intro n hn
      obtain ⟨m, hm, rfl⟩ := List.mem_map.1 hn
      rw [isBuildingFile_written p fs' m.name (Off.write m) (h3 m hm)]
      rw [bne_iff_ne]
      intro he
      exact h.notTerrain (he ▸ List.mem_map.2 ⟨m, hm, rfl⟩)
    have hte : ([t].map fun m => m.name ++ ".off".toList).filter (isBuildingFile p fs') = [] := by
      rw [List.map_singleton, List.filter_singleton,
        isBuildingFile_written p fs' t.name v hv, ht]
      rfl
    rw [hb, hte, List.append_nil]
  obtain ⟨bs₀, hp₀, he⟩ := perm_map_exists _ hfil
  have hmem : ∀ m ∈ bs₀, m ∈ bs := fun m hm => hp₀.subset hm
  let rd : Mesh → Mesh := fun m => Mesh.make m.name (m.points.map (Off.readPt rnd)) m.faces
  have hrd : ∀ m, Holdable m → MeshReadBack rnd m (rd m) := by
    intro m hm
    refine ⟨rfl, rfl, ?_, rfl⟩
    show List.Forall₂ _ _ (m.points.map (Off.readPt rnd))
    rw [List.forall₂_map_right_iff, List.forall₂_same]
    exact fun q hq => readBack_readPt rnd (hm.finite q hq)
  refine ⟨bs₀.map rd, bs₀, hp₀, ?_, ?_⟩
  · rw [List.forall₂_map_right_iff, List.forall₂_same]
    exact fun m hm => hrd m (h.holdable m (by simp [hmem m hm]))
  · rw [he, ← Obj.mapM_comp (fun n => offRead rnd lf rm (p ++ [n]) fs') (fun m : Mesh => m.name ++ ".off".toList)]
    exact Out.mapM_ok_of (fun m hm => offRead_written rnd lf rm hr p m fs' (h.holdable m (by simp [hmem m hm])) (h.names m (by simp [hmem m hm])).2.2
      (h3 m (hmem m hm)))

/-- C94: a scene whose writing to a fresh directory was interrupted, at any time, is refused when it is read, or it is read with all its buildings, as after a complete
writing, and its terrain up to the last face: the terrain, without which a scene is not read, is written last. -/
theorem C94_scene_read_partial (ops : NodeOps N) (lib : Libs L) (rnd : ℚ → ℚ) (lf : Bool) (wm rm : Modes) (p : Path) (fs : Fs) (s : Scene N) (k : Nat)
    (hw : OpenedWrite wm) (hd : FreshDirectory fs p) (h : WritableScene (s.buildings.map ops.back) (ops.back s.terrain))
    (ht : (ops.back s.terrain).name = "terrain".toList)
    (hne : ∀ m ∈ s.buildings.map ops.back ++ [ops.back s.terrain], m.points ≠ [] ∧ m.faces ≠ [])
    (names : List Text) (hl : Listing (crashAt k (offSceneCalls ops wm p s fs) fs) p names) :
    (∃ e, sceneRead ops lib rnd lf .off rm p names (crashAt k (offSceneCalls ops wm p s fs) fs) = .thrown e) ∨
    ∃ bs t f, sceneRead ops lib rnd lf .off rm p names (crashAt k (offSceneCalls ops wm p s fs) fs) = .ok (Scene.make ops bs t ⟨0, 0, 0⟩ 2154) ∧
      (∃ bs₀, bs₀.Perm (s.buildings.map ops.back) ∧ List.Forall₂ (MeshReadBack rnd) bs₀ bs) ∧
      t.name = "terrain".toList ∧ List.Forall₂ (ReadBack rnd) (ops.back s.terrain).points t.points ∧
      t.faces = (ops.back s.terrain).faces.dropLast ++ [f] := by
  generalize hcs : crashAt k (offSceneCalls ops wm p s fs) fs = cs at hl ⊢
  have htn : (ops.back s.terrain).name ∉ (s.buildings.map ops.back).map (·.name) := by rw [ht]; exact h.notTerrain
  have hnd : ((s.buildings.map ops.back ++ [ops.back s.terrain]).map (·.name)).Nodup := by
    rw [List.map_append, List.nodup_append]
    exact ⟨h.distinct, by simp, fun a ha b hb => by simp at hb; subst hb; intro he; subst he; exact htn ha⟩
  have hmem : ∀ m, m ∈ s.buildings.map ops.back ++ [ops.back s.terrain] → m ∈ ops.back s.terrain :: s.buildings.map ops.back :=
    fun m hm => by simp at hm ⊢; tauto
  obtain ⟨done, rest, h1, h2, h3, h4, h5, -⟩ := C94_scene_crash ops wm p s fs k hw _ rfl (fun m hm => (h.names m (hmem m hm)).2.1) hnd
    ⟨hd.2, fun m _ => by rw [hd.1]; simp⟩
  rw [hcs] at h2 h3 h4 h5
  generalize s.buildings.map ops.back = bs at *
  generalize ops.back s.terrain = t at *
  unfold sceneRead offSceneRead
  simp only
  by_cases hdir : cs p = some .dir
  swap
  · left
    rw [if_pos hdir]
    exact ⟨_, rfl⟩
  rw [if_neg (by rw [hdir]; simp)]
  have hj : joinPath p "terrain.off".toList = offPath p t := by
    unfold offPath
    rw [ht]; rfl
  rw [hj]
  -- what the file of a mesh holds
  have hfile : ∀ m ∈ bs ++ [t], cs (offPath p m) = none ∨ ∃ u, u <+: Off.write m ∧ cs (offPath p m) = some (.file u) := by
    intro m hm
    rw [h1] at hm
    rcases List.mem_append.1 hm with hm | hm
    · exact .inr ⟨_, List.prefix_refl _, h2 m hm⟩
    · cases rest with
      | nil => cases hm
      | cons x r =>
        rcases List.mem_cons.1 hm with rfl | hm
        · rcases h3 m rfl with h | h
          · left; rw [← hd.1 (m.name ++ ".off".toList)]; exact h
          · exact .inr h
        · left; rw [← hd.1 (m.name ++ ".off".toList)]; exact h4 m hm
  have hread : ∀ m ∈ bs ++ [t], offRead rnd lf rm (offPath p m) cs ≠ .ub := by
    intro m hm hub
    have hmm := hmem m hm
    unfold offRead at hub
    split at hub
    · rcases hfile m hm with he | ⟨u, hu, he⟩
      · rw [he] at hub; cases hub
      · rw [he] at hub
        simp only at hub
        rcases C92_cut_partial rnd lf m (h.holdable m hmm) (h.names m hmm).2.2 (hne m hm).1 (hne m hm).2 u hu with ⟨e, hr⟩ | ⟨_, r, _, _, hr, _⟩ <;>
        · rw [hr] at hub; cases hub
    · cases hub
  have hmapub : Out.mapM (fun n => offRead rnd lf rm (p ++ [n]) cs) (names.filter (isBuildingFile p cs)) ≠ .ub := by
    apply City.mapM_ne_ub
    intro n hn
    have hb := (List.mem_filter.1 hn).2
    have hsome : cs (p ++ [n]) ≠ none := by
      intro he
      unfold isBuildingFile at hb
      rw [he] at hb
      simp at hb
    obtain ⟨m, hm, rfl⟩ : ∃ m ∈ bs ++ [t], n = m.name ++ ".off".toList := by
      by_contra hc
      push Not at hc
      apply hsome
      rw [h5 (p ++ [n]) (by simp) (fun m hm he => hc m hm (by
        have := List.append_cancel_left he
        injection this)), hd.1]
    exact hread m hm
  by_cases hrm : canRead rm = true
  swap
  · left
    cases hm : Out.mapM (fun n => offRead rnd lf rm (p ++ [n]) cs) (names.filter (isBuildingFile p cs)) with
    | ub => exact absurd hm hmapub
    | thrown e => exact ⟨e, rfl⟩
    | ok x =>
      refine ⟨.filesystemError, ?_⟩
      rw [Out.ok_bind]
      unfold offRead
      rw [if_neg hrm]
      rfl
  rcases hfile t (by simp) with hnone | ⟨v, hv, hsome⟩
  · left
    cases hm : Out.mapM (fun n => offRead rnd lf rm (p ++ [n]) cs) (names.filter (isBuildingFile p cs)) with
    | ub => exact absurd hm hmapub
    | thrown e => exact ⟨e, rfl⟩
    | ok x =>
      refine ⟨.filesystemError, ?_⟩
      rw [Out.ok_bind]
      unfold offRead
      rw [if_pos hrm, hnone]
      rfl
  · -- the terrain has been begun: all the buildings are complete
    have hall : ∀ m ∈ bs, m ∈ done := by
      rcases List.eq_nil_or_concat rest with rfl | ⟨r, x, hx⟩
      · intro m hm
        rw [List.append_nil] at h1
        rw [← h1]; simp [hm]
      · have hx' : rest = r ++ [x] := by simpa using hx
        rw [hx', ← List.append_assoc] at h1
        obtain ⟨e1, e2⟩ := List.append_inj' h1 rfl
        cases e2
        cases r with
        | nil => intro m hm; rw [e1] at hm; simpa using hm
        | cons y r =>
          exfalso
          have : t ∈ rest.tail := by rw [hx']; simp
          have := h4 t this
          rw [hd.1] at this
          rw [show cs (offPath p t) = none from this] at hsome
          cases hsome
    have hout : ∀ n, (∀ m ∈ bs ++ [t], n ≠ m.name ++ ".off".toList) → cs (p ++ [n]) = none := by
      intro n hn
      rw [h5 (p ++ [n]) (by simp) (fun m hm he => hn m hm (by
        have := List.append_cancel_left he
        injection this)), hd.1]
    obtain ⟨bs', bs₀, p1, p2, p3⟩ := read_buildings rnd lf rm hrm p cs bs t v h ht (fun m hm => h2 m (hall m hm)) hsome hout names hl
    rw [p3, Out.ok_bind]
    have htt := hmem t (by simp)
    have hor : offRead rnd lf rm (offPath p t) cs = (Off.read rnd lf v >>= fun m => .ok (m.setName "terrain".toList)) := by
      unfold offRead
      rw [if_pos hrm, hsome]
      simp only
      unfold offPath
      rw [stem_off, ht]
    rw [hor]
    rcases C92_cut_partial rnd lf t (h.holdable t htt) (h.names t htt).2.2 (hne t (by simp)).1 (hne t (by simp)).2 v hv with
      ⟨e, he⟩ | ⟨full, r, f, a1, a2, a3, -, a5, a6⟩
    · left
      rw [he]
      exact ⟨e, rfl⟩
    · right
      refine ⟨bs', r.setName "terrain".toList, f, ?_, ⟨bs₀, p1, p2⟩, rfl, ?_, ?_⟩
      · rw [a2]; rfl
      · obtain ⟨r', e1, -, -, -, e5⟩ := C18_round_trip rnd lf t (h.holdable t htt) (h.names t htt).2.2
        rw [a1] at e1
        cases e1
        show List.Forall₂ _ _ r.points
        rw [a3]
        exact e5
      · show r.faces = _
        rw [a5, a6]
end

/-- C94 (full statement, false of the code): after a crash the file is as it was, or complete. -/
def C94_full : Prop :=
  ∀ (modes : Modes) (p : Path) (m : Mesh) (fs : Fs) (k : Nat), OpenedWrite modes → Writable fs p →
    crashAt k (offCalls modes p m) fs p = fs p ∨ crashAt k (offCalls modes p m) fs p = some (.file (Off.write m))

/-- C94: from the opening of the file on, what it held is lost, before anything is written. -/
theorem C94_old_lost (modes : Modes) (p : Path) (m : Mesh) (fs : Fs) (hm : OpenedWrite modes) (hw : Writable fs p) (k : Nat) (hk : 0 < k) :
    ∃ u, u.length = min (k - 1) (Off.write m).length ∧ u <+: Off.write m ∧ crashAt k (offCalls modes p m) fs p = some (.file u) := by
  have hw' := canWrite_iff.2 hw
  unfold crashAt offCalls fileCalls
  rw [if_pos (canSave_iff.2 hm)]
  obtain ⟨k, rfl⟩ : ∃ j, k = j + 1 := ⟨k - 1, by omega⟩
  rw [List.take_succ_cons, execute]
  have hr : Sys.run (.openOut p) ⟨fs, none⟩ = ⟨fs.set p (.file []), some p⟩ := by
    simp only [Sys.run, if_pos hw']
  rw [hr, List.take_append, execute_append, ← List.map_take, execute_send]
  refine ⟨(Off.write m).take k, by simp, List.take_prefix _ _, ?_⟩
  have : ∀ l : List Sys, l <+: [.close] → ∀ w, (execute l w).fs = w.fs := by
    intro l hl w
    rcases l with _ | ⟨a, l⟩
    · rfl
    · rw [List.cons_prefix_cons] at hl
      obtain ⟨rfl, hl⟩ := hl
      rw [List.prefix_nil] at hl
      subst hl
      rfl
  rw [this _ (List.take_prefix _ _)]
  simp [Fs.set]

/-- C94 refuted: a crash between the opening of the file and the first character leaves it empty. -/
theorem C94_refuted : ¬ C94_full := by
  intro hC
  have hm : OpenedWrite writeMode := canSave_iff.1 (by decide)
  have hw : Writable (fun q => if q = [['a']] then some (.file ['o', 'l', 'd']) else none) [['a']] := Or.inl ⟨_, rfl⟩
  obtain ⟨u, h1, -, h3⟩ := C94_old_lost writeMode [['a']] kite _ hm hw 1 (by decide)
  have hu : u = [] := List.length_eq_zero_iff.1 (by omega)
  subst hu
  rcases hC writeMode [['a']] kite _ 1 hm hw with h | h
  · rw [h3] at h
    simp at h
  · rw [h3] at h
    have : Off.write kite = [] := by simpa using h.symm
    exact absurd this (by simp [Off.write, Off.headerLines])

/-- The hypotheses of `C94_scene_read_partial` and `C94_scene_crash` are met, for every crash. -/
example : OpenedWrite writeMode ∧ FreshDirectory rootFs ["out".toList] ∧
    WritableScene ((sceneSample "terrain".toList).buildings.map plainOps.back) (plainOps.back (sceneSample "terrain".toList).terrain) ∧
    (plainOps.back (sceneSample "terrain".toList).terrain).name = "terrain".toList ∧
    (∀ m ∈ (sceneSample "terrain".toList).buildings.map plainOps.back ++ [plainOps.back (sceneSample "terrain".toList).terrain], m.points ≠ [] ∧ m.faces ≠ []) ∧
    SceneSpot rootFs ["out".toList] ((sceneSample "terrain".toList).buildings.map plainOps.back ++ [plainOps.back (sceneSample "terrain".toList).terrain]) := by
  refine ⟨canSave_iff.1 (by decide), rootFs_fresh, sceneSample_writable _ (by unfold FileNameOk; decide), rfl, by decide, rootFs_fresh.2, fun m _ => ?_⟩
  rw [rootFs_fresh.1]
  simp

end City.Props
