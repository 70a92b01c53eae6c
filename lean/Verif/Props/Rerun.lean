import Verif.Props.Crash
/-
C99, C100: running a writer, the same or another one, again after crashes.
-/
namespace City.Props
open City City.Spec
set_option linter.unusedSectionVars false

/-- Attempts that are interrupted: each begins with the files that the one before has left, and ends after some number of calls. -/
def attempts (job : Fs → List Sys) : List Nat → Fs → Fs
  | [], fs => fs
  | k :: ks, fs => attempts job ks (crashAt k (job fs) fs)

/-- The second files are the first ones, except that some of the paths `P`, which can be written, hold other texts. -/
def Scribbled (P : List Path) (fs fs' : Fs) : Prop := ∀ q, fs' q = fs q ∨ q ∈ P ∧ fs.canWrite q = true ∧ ∃ u, fs' q = some (.file u)

theorem scribbled_dir {P : List Path} {fs fs' : Fs} (h : Scribbled P fs fs') (q : Path) : fs' q = some .dir ↔ fs q = some .dir := by
  rcases h q with e | ⟨_, hc, u, e⟩
  · rw [e]
  · rw [e]
    constructor
    · intro h; cases h
    · intro h
      unfold Fs.canWrite at hc
      rw [h] at hc
      cases hc

theorem canWrite_same {fs fs' : Fs} (hd : ∀ q, fs' q = some .dir ↔ fs q = some .dir) {q : Path} (h : fs' q = fs q ∨ fs.canWrite q = true ∧ ∃ u, fs' q = some (.file u)) :
    fs'.canWrite q = fs.canWrite q := by
  rcases h with e | ⟨h1, u, h2⟩
  · unfold Fs.canWrite
    rw [e]
    have : (fs' q.dropLast = some .dir) = (fs q.dropLast = some .dir) := propext (hd _)
    simp only [this]
  · rw [h1]
    unfold Fs.canWrite
    rw [h2]

theorem scribbled_canWrite {P : List Path} {fs fs' : Fs} (h : Scribbled P fs fs') (q : Path) : fs'.canWrite q = fs.canWrite q :=
  canWrite_same (scribbled_dir h) (by
    rcases h q with e | ⟨_, hc, u, e⟩
    · exact .inl e
    · exact .inr ⟨hc, u, e⟩)

theorem scribbled_put (fs : Fs) (p : Path) (t : Text) : Scribbled [p] fs (fs.put p t) := by
  intro q
  by_cases hq : q = p
  · subst hq
    by_cases hc : fs.canWrite q = true
    · exact .inr ⟨by simp, hc, t, by unfold Fs.put; rw [if_pos hc]; exact if_pos rfl⟩
    · left; unfold Fs.put; rw [if_neg hc]
  · exact .inl (put_other t hq)

theorem scribbled_trans {P Q R : List Path} {a b c : Fs} (h1 : Scribbled P a b) (h2 : Scribbled Q b c) (hP : ∀ q ∈ P, q ∈ R) (hQ : ∀ q ∈ Q, q ∈ R) : Scribbled R a c := by
  intro q
  rcases h2 q with e | ⟨m, hc, u, e⟩
  · rcases h1 q with e' | ⟨m', hc', u', e'⟩
    · exact .inl (e.trans e')
    · exact .inr ⟨hP q m', hc', u', e.trans e'⟩
  · exact .inr ⟨hQ q m, by rw [← scribbled_canWrite h1]; exact hc, u, e⟩

theorem scribbled_refl (P : List Path) (fs : Fs) : Scribbled P fs fs := fun _ => .inl rfl

theorem scribbled_files : ∀ (L : List (Path × Text)) (fs : Fs), Scribbled (L.map Prod.fst) fs (writeFiles L fs)
  | [], fs => scribbled_refl _ fs
  | f :: L, fs => scribbled_trans (scribbled_put fs f.1 f.2) (scribbled_files L _) (by simp) (by simp +contextual)

/-- Writing all the files repairs them. -/
theorem files_repair : ∀ (L : List (Path × Text)) {fs fs' : Fs}, Scribbled (L.map Prod.fst) fs fs' → writeFiles L fs' = writeFiles L fs
  | [], fs, fs', h => by
    funext q
    rcases h q with e | ⟨m, _⟩
    · exact e
    · cases m
  | f :: L, fs, fs', h => by
    show writeFiles L (fs'.put f.1 f.2) = writeFiles L (fs.put f.1 f.2)
    refine files_repair L fun q => ?_
    have hc := scribbled_canWrite h f.1
    have hcq : (fs.put f.1 f.2).canWrite q = fs.canWrite q := scribbled_canWrite (scribbled_put fs f.1 f.2) q
    by_cases hq : q = f.1
    · subst hq
      left
      unfold Fs.put
      rw [hc]
      by_cases hw : fs.canWrite f.1 = true
      · rw [if_pos hw, if_pos hw]
        simp [Fs.set]
      · rw [if_neg hw, if_neg hw]
        rcases h f.1 with e | ⟨_, k, _⟩
        · exact e
        · exact absurd k hw
    · rw [put_other _ hq, put_other _ hq, hcq]
      rcases h q with e | ⟨m, k⟩
      · exact .inl e
      · rw [List.map_cons, List.mem_cons] at m
        exact .inr ⟨m.resolve_left hq, k⟩

theorem crash_files (L : List (Path × Text)) (fs : Fs) {l : List Sys} (h : l <+: L.flatMap fun f => fileCalls f.1 f.2) :
    Scribbled (L.map Prod.fst) fs (execute l ⟨fs, none⟩).fs := by
  obtain ⟨done, rest, rfl, h2⟩ := execute_files_cut L fs h
  rcases h2 with e | ⟨f, rest', u, rfl, _, e⟩
  · rw [e]
    exact scribbled_trans (scribbled_files done fs) (scribbled_refl [] _) (by simp +contextual) (by simp)
  · rw [e]
    exact scribbled_trans (scribbled_files done fs) (scribbled_put _ _ _) (by simp +contextual) (by simp +contextual)

theorem attempts_same {α : Type} {job : Fs → List Sys} {w : Fs → α} (h : ∀ k fs, w (crashAt k (job fs) fs) = w fs) : ∀ (ks : List Nat) (fs : Fs), w (attempts job ks fs) = w fs
  | [], _ => rfl
  | k :: ks, fs => (attempts_same h ks _).trans (h k fs)

/-- C99: `OFFHandler::write` after any number of interrupted attempts: the same outcome and the same files as without them. -/
theorem C99_off (modes : Modes) (p : Path) (m : Mesh) (ks : List Nat) (fs : Fs) :
    offWrite modes p m (attempts (fun _ => offCalls modes p m) ks fs) = offWrite modes p m fs := by
  refine attempts_same (job := fun _ => offCalls modes p m) (w := fun fs => offWrite modes p m fs) (fun k fs => ?_) ks fs
  unfold offWrite crashAt offCalls
  split
  · have h := files_repair [(p, Off.write m)] (crash_files [(p, Off.write m)] fs (l := (fileCalls p (Off.write m)).take k) (by simpa using List.take_prefix _ _))
    exact congrArg (Prod.mk _) h
  · simp [execute]

/-- C99: the same for `WaveObjHandler::write`. -/
theorem C99_obj (modes : Modes) (p : Path) (ms : List Mesh) (ks : List Nat) (fs : Fs) :
    objWrite modes p ms (attempts (fun _ => objCalls modes p ms) ks fs) = objWrite modes p ms fs := by
  refine attempts_same (job := fun _ => objCalls modes p ms) (w := fun fs => objWrite modes p ms fs) (fun k fs => ?_) ks fs
  unfold objWrite crashAt objCalls
  split
  · cases Obj.write ms with
    | ok t =>
      have h := files_repair [(p, t)] (crash_files [(p, t)] fs (l := (fileCalls p t).take k) (by simpa using List.take_prefix _ _))
      exact congrArg (Prod.mk _) h
    | thrown e => simp [execute]
    | ub => simp [execute]
  · simp [execute]

theorem offWriteAll_repair (modes : Modes) (p : Path) (ms : List Mesh) {fs : Fs} {l : List Sys} (h : l <+: offAllCalls modes p ms) :
    Scribbled (ms.map fun m => joinPath p (m.name ++ ".off".toList)) fs (execute l ⟨fs, none⟩).fs ∧
      (ms ≠ [] → offWriteAll modes p ms (execute l ⟨fs, none⟩).fs = (((offWriteAll modes p ms fs).1, (offWriteAll modes p ms fs).2) : Out Unit × Fs)) := by
  by_cases hw : canSave modes = true
  · rw [offAll_files modes hw] at h
    have hs := crash_files _ fs h
    refine ⟨by rw [List.map_map] at hs; exact hs, fun _ => ?_⟩
    rw [offWriteAll_files modes hw, offWriteAll_files modes hw, files_repair _ hs]
  · have : l = [] := by
      unfold offAllCalls at h
      rw [if_neg hw] at h
      simpa using h
    subst this
    exact ⟨scribbled_refl _ _, fun _ => rfl⟩

/-- C99: `SceneHandler::write` for OFF after any number of interrupted attempts to write the same scene there: the same outcome and the same files as without them, whatever was there
before and whatever the names of the buildings. -/
theorem C99_scene {N : Type} (ops : NodeOps N) (modes : Modes) (p : Path) (s : Scene N) (ks : List Nat) (fs : Fs) :
    sceneWrite ops .off modes p s (attempts (offSceneCalls ops modes p s) ks fs) = sceneWrite ops .off modes p s fs := by
  refine attempts_same (job := offSceneCalls ops modes p s) (w := fun fs => sceneWrite ops .off modes p s fs) (fun k fs => ?_) ks fs
  show offSceneWrite ops modes p s (crashAt k (offSceneCalls ops modes p s fs) fs) = offSceneWrite ops modes p s fs
  have hne : s.buildings.map ops.back ++ [ops.back s.terrain] ≠ [] := by simp
  have keep : ∀ (fs1 fs2 : Fs) (P : List Path), fs1 p = some .dir → Scribbled P fs1 fs2 → fs2 p = some .dir := fun fs1 fs2 P h1 h2 => (scribbled_dir h2 p).2 h1
  unfold crashAt offSceneCalls
  cases hp : fs p with
  | none =>
    by_cases hd : fs p.dropLast = some .dir
    · simp only [if_pos hd]
      rcases k with _ | k
      · rfl
      · rw [List.take_succ_cons, execute, show Sys.run (.mkdir p) ⟨fs, none⟩ = ⟨fs.set p .dir, none⟩ from rfl]
        obtain ⟨h1, h2⟩ := offWriteAll_repair modes p (s.buildings.map ops.back ++ [ops.back s.terrain]) (fs := fs.set p .dir)
          (List.take_prefix k (offAllCalls modes p (s.buildings.map ops.back ++ [ops.back s.terrain])))
        have h3 := keep _ _ _ (by simp [Fs.set]) h1
        unfold offSceneWrite
        rw [hp, h3]
        simp only [if_pos hd]
        exact h2 hne
    · simp only [if_neg hd, List.take_nil]
      rfl
  | some e =>
    cases e with
    | file t => simp only [List.take_nil]; rfl
    | dir =>
      simp only
      obtain ⟨h1, h2⟩ := offWriteAll_repair modes p (s.buildings.map ops.back ++ [ops.back s.terrain]) (fs := fs)
        (List.take_prefix k (offAllCalls modes p (s.buildings.map ops.back ++ [ops.back s.terrain])))
      have h3 := keep _ _ _ hp h1
      unfold offSceneWrite
      rw [hp, h3]
      exact h2 hne

/-- The files that `save_building_duals` writes: those before the first building whose dual fails, and what is written of that one. -/
def dualFiles (dir : Path) : List (Text × Written) → List (Path × Text)
  | [] => []
  | b :: bs => (joinPath dir (b.1 ++ ".txt".toList), b.2.1) ::
    match b.2.2 with
    | .ok () => dualFiles dir bs
    | _ => []

theorem dualAll_flat (dir : Path) : ∀ bs : List (Text × Written), dualAllCalls dir bs = (dualFiles dir bs).flatMap fun f => fileCalls f.1 f.2
  | [] => rfl
  | b :: bs => by
    rw [dualAllCalls, dualFiles, List.flatMap_cons]
    congr 1
    cases b.2.2 with
    | ok u => exact dualAll_flat dir bs
    | thrown e => rfl
    | ub => rfl

theorem runAll_files (dir : Path) : ∀ (bs : List (Text × Written)) (fs fs' : Fs),
    (runAll (bs.map fun b => streamPut (joinPath dir (b.1 ++ ".txt".toList)) b.2) fs).2 = writeFiles (dualFiles dir bs) fs ∧
    (runAll (bs.map fun b => streamPut (joinPath dir (b.1 ++ ".txt".toList)) b.2) fs).1 = (runAll (bs.map fun b => streamPut (joinPath dir (b.1 ++ ".txt".toList)) b.2) fs').1
  | [], _, _ => ⟨rfl, rfl⟩
  | b :: bs, fs, fs' => by
    rw [List.map_cons, runAll, dualFiles]
    unfold streamPut
    cases b.2.2 with
    | ok u => exact runAll_files dir bs _ _
    | thrown e => exact ⟨rfl, rfl⟩
    | ub => exact ⟨rfl, rfl⟩

/-- C99: `save_building_duals` after any number of interrupted attempts: the same outcome and the same files as without them, also when a dual fails. -/
theorem C99_duals (root : Path) (bs : List (Text × Written)) (ks : List Nat) (fs : Fs) :
    saveBuildingDuals root bs (attempts (dualCalls root bs) ks fs) = saveBuildingDuals root bs fs := by
  refine attempts_same (job := dualCalls root bs) (w := fun fs => saveBuildingDuals root bs fs) (fun k fs => ?_) ks fs
  show saveBuildingDuals root bs _ = saveBuildingDuals root bs fs
  unfold crashAt dualCalls
  generalize hdir : root ++ ["dual_graphs".toList] = dir
  have hroot : dir.dropLast = root := by rw [← hdir]; simp
  have all : ∀ fs0 : Fs, ∀ l, l <+: dualAllCalls dir bs → fs0 dir = some .dir → (execute l ⟨fs0, none⟩).fs dir = some .dir ∧
      runAll (bs.map fun b => streamPut (joinPath dir (b.1 ++ ".txt".toList)) b.2) (execute l ⟨fs0, none⟩).fs =
        runAll (bs.map fun b => streamPut (joinPath dir (b.1 ++ ".txt".toList)) b.2) fs0 := by
    intro fs0 l hl h0
    rw [dualAll_flat] at hl
    have hs := crash_files _ fs0 hl
    refine ⟨(scribbled_dir hs dir).2 h0, ?_⟩
    refine Prod.ext (runAll_files dir bs _ _).2 ?_
    rw [(runAll_files dir bs _ fs0).1, (runAll_files dir bs _ fs0).1, files_repair _ hs]
  cases hp : fs dir with
  | none =>
    by_cases hd : fs root = some .dir
    · simp only [if_pos hd]
      rcases k with _ | k
      · rfl
      · rw [List.take_succ_cons, execute, show Sys.run (.mkdir dir) ⟨fs, none⟩ = ⟨fs.set dir .dir, none⟩ from rfl]
        obtain ⟨h1, h2⟩ := all (fs.set dir .dir) _ (List.take_prefix k (dualAllCalls dir bs)) (by simp [Fs.set])
        unfold saveBuildingDuals
        simp only [hdir]
        unfold makeDir
        rw [h1, hp, hroot]
        simp only [if_pos hd, andThen]
        exact h2
    · simp only [if_neg hd, List.take_nil]
      rfl
  | some e =>
    cases e with
    | file t => simp only [List.take_nil]; rfl
    | dir =>
      simp only
      obtain ⟨h1, h2⟩ := all fs _ (List.take_prefix k (dualAllCalls dir bs)) hp
      unfold saveBuildingDuals
      simp only [hdir]
      unfold makeDir
      rw [h1, hp]
      simp only [andThen]
      exact h2

/-! ### Another scene -/

theorem scribbled_step {P : List Path} {a b : Fs} (h : Scribbled P a b) (p : Path) (t : Text) : Scribbled (P.filter fun q => q ≠ p) (a.put p t) (b.put p t) := by
  intro q
  have hc := scribbled_canWrite h p
  have hcq : (a.put p t).canWrite q = a.canWrite q := scribbled_canWrite (scribbled_put a p t) q
  by_cases hq : q = p
  · subst hq
    left
    unfold Fs.put
    rw [hc]
    by_cases hw : a.canWrite q = true
    · rw [if_pos hw, if_pos hw]
      simp [Fs.set]
    · rw [if_neg hw, if_neg hw]
      rcases h q with e | ⟨_, k, _⟩
      · exact e
      · exact absurd k hw
  · rw [put_other _ hq, put_other _ hq, hcq]
    rcases h q with e | ⟨m, k⟩
    · exact .inl e
    · exact .inr ⟨List.mem_filter.2 ⟨m, by simpa using hq⟩, k⟩

theorem scribbled_after : ∀ (L : List (Path × Text)) {P : List Path} {a b : Fs}, Scribbled P a b →
    Scribbled (P.filter fun q => q ∉ L.map Prod.fst) (writeFiles L a) (writeFiles L b)
  | [], P, a, b, h => by
    intro q
    rcases h q with e | ⟨m, k⟩
    · exact .inl e
    · exact .inr ⟨by simpa using m, k⟩
  | f :: L, P, a, b, h => by
    have := scribbled_after L (scribbled_step h f.1 f.2)
    intro q
    rcases this q with e | ⟨m, k⟩
    · exact .inl e
    · refine .inr ⟨?_, k⟩
      simp only [List.mem_filter, decide_eq_true_eq] at m ⊢
      refine ⟨m.1.1, fun hq => ?_⟩
      rw [List.map_cons, List.mem_cons] at hq
      rcases hq with hq | hq
      · exact m.1.2 hq
      · exact m.2 hq

/-- The paths of the files of a scene in a directory. -/
def sceneFiles {N : Type} (ops : NodeOps N) (p : Path) (s : Scene N) : List Path :=
  (s.buildings.map ops.back ++ [ops.back s.terrain]).map fun m => joinPath p (m.name ++ ".off".toList)

/-- What interrupted attempts leave: nothing, or a directory in which some files of the scene hold some text. -/
theorem attempts_scene {N : Type} (ops : NodeOps N) (modes : Modes) (p : Path) (s : Scene N) : ∀ (ks : List Nat) (fs : Fs),
    attempts (offSceneCalls ops modes p s) ks fs = fs ∨
    (fs p = some .dir ∧ Scribbled (if canSave modes then sceneFiles ops p s else []) fs (attempts (offSceneCalls ops modes p s) ks fs)) ∨
    (fs p = none ∧ fs p.dropLast = some .dir ∧
      Scribbled (if canSave modes then sceneFiles ops p s else []) (fs.set p .dir) (attempts (offSceneCalls ops modes p s) ks fs)) := by
  have cut : ∀ (k : Nat) (fs0 : Fs), Scribbled (if canSave modes then sceneFiles ops p s else []) fs0
      (execute ((offAllCalls modes p (s.buildings.map ops.back ++ [ops.back s.terrain])).take k) ⟨fs0, none⟩).fs := by
    intro k fs0
    by_cases hw : canSave modes = true
    · rw [if_pos hw]
      exact (offWriteAll_repair modes p _ (List.take_prefix k _)).1
    · rw [if_neg hw]
      unfold offAllCalls
      rw [if_neg hw, List.take_nil]
      exact scribbled_refl _ _
  generalize hP : (if canSave modes = true then sceneFiles ops p s else []) = P at cut
  have inDir : ∀ (ks : List Nat) (fs : Fs), fs p = some .dir → Scribbled P fs (attempts (offSceneCalls ops modes p s) ks fs) := by
    intro ks
    induction ks with
    | nil => exact fun fs _ => scribbled_refl _ fs
    | cons k ks ih =>
      intro fs hp
      have h1 : Scribbled P fs (crashAt k (offSceneCalls ops modes p s fs) fs) := by
        unfold crashAt offSceneCalls
        rw [hp]
        exact cut k fs
      exact scribbled_trans h1 (ih _ ((scribbled_dir h1 p).2 hp)) (fun _ h => h) (fun _ h => h)
  intro ks
  induction ks with
  | nil => exact fun fs => .inl rfl
  | cons k ks ih =>
    intro fs
    cases hp : fs p with
    | none =>
      by_cases hd : fs p.dropLast = some .dir
      · rcases k with _ | k
        · have e : attempts (offSceneCalls ops modes p s) (0 :: ks) fs = attempts (offSceneCalls ops modes p s) ks fs := rfl
          rw [e]
          rcases ih fs with h | ⟨h, _⟩ | ⟨_, h2, h3⟩
          · exact .inl h
          · rw [hp] at h; cases h
          · exact .inr (.inr ⟨rfl, h2, h3⟩)
        · right; right
          refine ⟨rfl, hd, ?_⟩
          have h1 : Scribbled P (fs.set p .dir) (crashAt (k + 1) (offSceneCalls ops modes p s fs) fs) := by
            unfold crashAt offSceneCalls
            rw [hp]
            simp only [if_pos hd]
            rw [List.take_succ_cons, execute, show Sys.run (.mkdir p) ⟨fs, none⟩ = ⟨fs.set p .dir, none⟩ from rfl]
            exact cut k _
          exact scribbled_trans h1 (inDir ks _ ((scribbled_dir h1 p).2 (by simp [Fs.set]))) (fun _ h => h) (fun _ h => h)
      · have e : crashAt k (offSceneCalls ops modes p s fs) fs = fs := by
          unfold crashAt offSceneCalls
          rw [hp]
          simp only [if_neg hd, List.take_nil]
          rfl
        have := ih fs
        rw [hp] at this
        unfold attempts
        rw [e]
        exact this
    | some en =>
      cases en with
      | dir => exact .inr (.inl ⟨rfl, inDir (k :: ks) fs hp⟩)
      | file t =>
        have e : crashAt k (offSceneCalls ops modes p s fs) fs = fs := by
          unfold crashAt offSceneCalls
          rw [hp]
          simp only [List.take_nil]
          rfl
        have := ih fs
        rw [hp] at this
        unfold attempts
        rw [e]
        exact this

/-- C100: writing the scene `b` where attempts to write the scene `a` were interrupted: the outcome is the same as without them, and so is every file, except the files of `a` that are not files of
`b`: these keep what the attempts have left. -/
theorem C100_other_scene {N : Type} (ops : NodeOps N) (modes : Modes) (p : Path) (a b : Scene N) (ks : List Nat) (fs : Fs) :
    (sceneWrite ops .off modes p b (attempts (offSceneCalls ops modes p a) ks fs)).1 = (sceneWrite ops .off modes p b fs).1 ∧
    (∀ q, q ∈ sceneFiles ops p b ∨ q ∉ sceneFiles ops p a →
      (sceneWrite ops .off modes p b (attempts (offSceneCalls ops modes p a) ks fs)).2 q = (sceneWrite ops .off modes p b fs).2 q) ∧
    (∀ q, q ∉ sceneFiles ops p b → q ≠ p →
      (sceneWrite ops .off modes p b (attempts (offSceneCalls ops modes p a) ks fs)).2 q = attempts (offSceneCalls ops modes p a) ks fs q) := by
  show (offSceneWrite ops modes p b _).1 = (offSceneWrite ops modes p b fs).1 ∧ (∀ q, _ → (offSceneWrite ops modes p b _).2 q = (offSceneWrite ops modes p b fs).2 q) ∧
    (∀ q, _ → _ → (offSceneWrite ops modes p b _).2 q = _)
  -- inside a directory
  have inDir : ∀ (fs0 fs1 : Fs), Scribbled (if canSave modes then sceneFiles ops p a else []) fs0 fs1 →
      (offWriteAll modes p (b.buildings.map ops.back ++ [ops.back b.terrain]) fs1).1 = (offWriteAll modes p (b.buildings.map ops.back ++ [ops.back b.terrain]) fs0).1 ∧
      ∀ q, q ∈ sceneFiles ops p b ∨ q ∉ sceneFiles ops p a → (offWriteAll modes p (b.buildings.map ops.back ++ [ops.back b.terrain]) fs1).2 q =
        (offWriteAll modes p (b.buildings.map ops.back ++ [ops.back b.terrain]) fs0).2 q := by
    intro fs0 fs1 h
    by_cases hw : canSave modes = true
    · rw [if_pos hw] at h
      rw [offWriteAll_files modes hw, offWriteAll_files modes hw]
      refine ⟨rfl, fun q hq => ?_⟩
      rcases scribbled_after ((b.buildings.map ops.back ++ [ops.back b.terrain]).map fun m => (joinPath p (m.name ++ ".off".toList), Off.write m)) h q with e | ⟨m, _⟩
      · exact e
      · rw [List.mem_filter, List.map_map] at m
        rcases hq with hq | hq
        · have := of_decide_eq_true m.2
          exact absurd hq this
        · exact absurd m.1 hq
    · rw [if_neg hw] at h
      have e : fs1 = fs0 := by
        funext q
        rcases h q with e | ⟨m, _⟩
        · exact e
        · cases m
      rw [e]
      exact ⟨rfl, fun _ _ => rfl⟩
  have stay : ∀ fs0 q, q ∉ sceneFiles ops p b → (offWriteAll modes p (b.buildings.map ops.back ++ [ops.back b.terrain]) fs0).2 q = fs0 q := by
    intro fs0 q hq
    by_cases hw : canSave modes = true
    · rw [offWriteAll_files modes hw]
      rcases scribbled_files ((b.buildings.map ops.back ++ [ops.back b.terrain]).map fun m => (joinPath p (m.name ++ ".off".toList), Off.write m)) fs0 q with e | ⟨m, _⟩
      · exact e
      · rw [List.map_map] at m
        exact absurd m hq
    · cases hl : b.buildings.map ops.back ++ [ops.back b.terrain] with
      | nil => rfl
      | cons m ms =>
        unfold offWriteAll offWrite
        rw [if_neg hw]
  have out : ∀ fs0 q, q ∉ sceneFiles ops p b → q ≠ p → (offSceneWrite ops modes p b fs0).2 q = fs0 q := by
    intro fs0 q hq hqp
    unfold offSceneWrite
    cases hp : fs0 p with
    | none =>
      by_cases hd : fs0 p.dropLast = some .dir
      · simp only [if_pos hd]
        rw [stay _ q hq]
        simp [Fs.set, hqp]
      · simp only [if_neg hd]
    | some e =>
      cases e with
      | dir => exact stay _ q hq
      | file t => rfl
  refine and_assoc.1 ⟨?_, fun q hq hqp => out _ q hq hqp⟩
  rcases attempts_scene ops modes p a ks fs with h | ⟨h1, h2⟩ | ⟨h1, h2, h3⟩
  · rw [h]
    exact ⟨rfl, fun _ _ => rfl⟩
  · unfold offSceneWrite
    rw [(scribbled_dir h2 p).2 h1, h1]
    exact inDir _ _ h2
  · unfold offSceneWrite
    rw [(scribbled_dir h3 p).2 (by simp [Fs.set]), h1]
    simp only [if_pos h2]
    exact inDir _ _ h3

/-- The full claim: interrupted attempts to write one scene are made undone by writing a scene, the same or another one. False: `C100_refuted`. -/
def C100_full : Prop := ∀ (p : Path) (a b : Scene Mesh) (ks : List Nat) (fs : Fs), FreshDirectory fs p →
  sceneWrite plainOps .off writeMode p b (attempts (offSceneCalls plainOps writeMode p a) ks fs) = sceneWrite plainOps .off writeMode p b fs

/-- A scene with one building, "b9". -/
def laterScene : Scene Mesh := ⟨⟨1, 2, 3⟩, 4326, [sampleOff.setName "b9".toList], sampleOff.setName "terrain".toList⟩

/-- C100 is false: a building that an interrupted attempt to write another scene had completed stays in the directory. -/
theorem C100_refuted : ¬ C100_full := by
  intro h
  have k := congrArg (fun r => r.2 ["out".toList, "b1.off".toList]) (h ["out".toList] (sceneSample "terrain".toList) laterScene [300] rootFs rootFs_fresh)
  revert k
  decide +kernel

/-- C100: and it is read as a building of the new scene: the first of the two buildings of the other scene had been written when the attempt was interrupted. -/
theorem C100_read_extra : ∃ s, sceneRead plainOps (⟨fun _ => none, fun _ => [], fun _ => sampleOff, fun _ => none, fun _ => none, fun _ => none⟩ : Libs Unit) id true .off
      (fun n => if n = "read".toList then some true else none) ["out".toList] ["b9.off".toList, "terrain.off".toList, "b1.off".toList]
      (sceneWrite plainOps .off writeMode ["out".toList] laterScene (attempts (offSceneCalls plainOps writeMode ["out".toList] (sceneSample "terrain".toList)) [57] rootFs)).2 = .ok s ∧
    s.buildings.map (·.name) = ["b9".toList, "b1".toList] := by
  have h : (match sceneRead plainOps (⟨fun _ => none, fun _ => [], fun _ => sampleOff, fun _ => none, fun _ => none, fun _ => none⟩ : Libs Unit) id true .off
      (fun n => if n = "read".toList then some true else none) ["out".toList] ["b9.off".toList, "terrain.off".toList, "b1.off".toList]
      (sceneWrite plainOps .off writeMode ["out".toList] laterScene (attempts (offSceneCalls plainOps writeMode ["out".toList] (sceneSample "terrain".toList)) [57] rootFs)).2 with
      | .ok s => s.buildings.map (·.name)
      | _ => []) = ["b9".toList, "b1".toList] := by decide +kernel
  split at h
  · exact ⟨_, by assumption, h⟩
  · cases h

/-- The case of two interrupted attempts, the first one inside the first file: the same scene is written in the end. -/
example : (attempts (offSceneCalls plainOps writeMode ["out".toList] (sceneSample "terrain".toList)) [20, 60] rootFs) ["out".toList, "b1.off".toList] =
      some (.file (Off.write (sampleOff.setName "b1".toList))) ∧
    (attempts (offSceneCalls plainOps writeMode ["out".toList] (sceneSample "terrain".toList)) [20, 60] rootFs) ["out".toList, "terrain.off".toList] = none ∧
    sceneWrite plainOps .off writeMode ["out".toList] (sceneSample "terrain".toList) (attempts (offSceneCalls plainOps writeMode ["out".toList] (sceneSample "terrain".toList)) [20, 60] rootFs) =
      sceneWrite plainOps .off writeMode ["out".toList] (sceneSample "terrain".toList) rootFs :=
  ⟨by decide +kernel, by decide +kernel, C99_scene _ _ _ _ _ _⟩

end City.Props
