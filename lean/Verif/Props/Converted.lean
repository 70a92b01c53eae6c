import Verif.Props.Done
import Verif.Props.Batch
import Verif.Props.Messages
import Verif.Props.Crash
/-!
C123: if cityformat ends and says nothing on the standard error stream, the scene has been converted: which files are then on the disk, and with which contents.
-/
set_option linter.unusedSectionVars false
namespace City.Spec
open City City.Props

section
variable {N L K : Type} [Field K] [LinearOrder K] [FloorRing K]

/-- The scene that cityformat converts: what `<scene>` contains, pruned if that is asked for. -/
def ConvertedScene (T : Toolbox N L K) (a : FormatArgs) (fs : Fs) (s : Scene N) : Prop :=
  ∃ F s₀, sceneHandlerNamed a.path a.format = .ok F ∧ sceneRead T.ops T.lib T.rnd T.lf F readMode a.path (T.listing fs a.path) fs = .ok s₀ ∧
    (if a.prune then scenePrune T.prune a.terrain s₀ = .ok s else s = s₀)

/-- The objects of a scene: its buildings, and its terrain at the end. -/
def objectsOf (T : Toolbox N L K) (s : Scene N) : List Mesh := s.buildings.map T.ops.back ++ [T.ops.back s.terrain]

/-- `m` is the last of the objects that have the name `n`. -/
def LastCalled (ms : List Mesh) (n : Text) (m : Mesh) : Prop := ∃ before after, ms = before ++ m :: after ∧ m.name = n ∧ ∀ k ∈ after, k.name ≠ n

/-- The directory of OFF files is on the disk: for each object the file of its name, unless a directory was in its place. Of objects with the same name, it is that of the last one. -/
def OffThere (ms : List Mesh) (p : Path) (fs₀ fs : Fs) : Prop :=
  fs p = some .dir ∧ ((∀ m ∈ ms, PlainName m.name) → ∀ m ∈ ms, fs₀ (p ++ [m.name ++ ".off".toList]) ≠ some .dir →
    ∃ k, LastCalled ms m.name k ∧ fs (p ++ [m.name ++ ".off".toList]) = some (.file (Off.write k)))

/-- The OBJ file of all the objects is on the disk, unless `<path>` could not be opened; in this case nothing is there that was not there. -/
def ObjThere (ms : List Mesh) (p : Path) (fs₀ fs : Fs) : Prop :=
  (Writable fs p → ∃ x, Obj.write ms = .ok x ∧ fs p = some (.file x)) ∧ (¬ Writable fs p → fs p = fs₀ p)

end
end City.Spec

namespace City.Props
open City City.Spec

/-! ### A list of files that are written one after the other -/

/-- Texts written to paths, in order. -/
def putEach (l : List (Path × Text)) (fs : Fs) : Fs := l.foldl (fun f x => f.put x.1 x.2) fs

theorem putEach_snoc (l : List (Path × Text)) (x : Path × Text) (fs : Fs) : putEach (l ++ [x]) fs = (putEach l fs).put x.1 x.2 := by
  unfold putEach
  rw [List.foldl_append]
  rfl

theorem dir_put {fs : Fs} {p q : Path} (t : Text) (h : fs q = some .dir) : fs.put p t q = some .dir := by
  unfold Fs.put
  by_cases hc : fs.canWrite p
  · rw [if_pos hc]
    unfold Fs.set
    split
    · next e =>
      subst e
      unfold Fs.canWrite at hc
      rw [h] at hc
      cases hc
    · exact h
  · rw [if_neg hc]
    exact h

theorem not_dir_put {fs : Fs} {p q : Path} (t : Text) (h : fs q ≠ some .dir) : fs.put p t q ≠ some .dir := by
  unfold Fs.put
  split
  · unfold Fs.set
    split
    · simp
    · exact h
  · exact h

theorem putEach_dir (l : List (Path × Text)) (fs : Fs) (q : Path) : fs q = some .dir → putEach l fs q = some .dir := by
  induction l using List.reverseRecOn with
  | nil => exact id
  | append_singleton l x ih => exact fun h => by rw [putEach_snoc]; exact dir_put _ (ih h)

theorem putEach_not_dir (l : List (Path × Text)) (fs : Fs) (q : Path) : fs q ≠ some .dir → putEach l fs q ≠ some .dir := by
  induction l using List.reverseRecOn with
  | nil => exact id
  | append_singleton l x ih => exact fun h => by rw [putEach_snoc]; exact not_dir_put _ (ih h)

theorem putEach_other (l : List (Path × Text)) (fs : Fs) (q : Path) : (∀ x ∈ l, x.1 ≠ q) → putEach l fs q = fs q := by
  induction l using List.reverseRecOn with
  | nil => exact fun _ => rfl
  | append_singleton l x ih =>
    intro h
    rw [putEach_snoc, put_other _ (h x (by simp)).symm]
    exact ih fun y hy => h y (by simp [hy])

/-- A file of a directory has the text that was written last. -/
theorem putEach_last (l : List (Path × Text)) (fs : Fs) (d : Path) (n : Text) (hd : fs d = some .dir) (hn : fs (d ++ [n]) ≠ some .dir) :
    (∃ x ∈ l, x.1 = d ++ [n]) → ∃ before t after, l = before ++ (d ++ [n], t) :: after ∧ (∀ x ∈ after, x.1 ≠ d ++ [n]) ∧ putEach l fs (d ++ [n]) = some (.file t) := by
  induction l using List.reverseRecOn with
  | nil => rintro ⟨x, hx, -⟩; cases hx
  | append_singleton l x ih =>
    rintro ⟨y, hy, e⟩
    by_cases hx : x.1 = d ++ [n]
    · refine ⟨l, x.2, [], by rw [← hx], fun _ h => absurd h List.not_mem_nil, ?_⟩
      rw [putEach_snoc, hx]
      unfold Fs.put
      rw [if_pos (canWrite_in (putEach_dir l fs _ hd) (putEach_not_dir l fs _ hn))]
      simp [Fs.set]
    · have hy' : y ∈ l := by
        rcases List.mem_append.1 hy with h | h
        · exact h
        · rw [List.mem_singleton.1 h] at e
          exact absurd e hx
      obtain ⟨b, t, a, e1, e2, e3⟩ := ih ⟨y, hy', e⟩
      refine ⟨b, t, a ++ [x], by rw [e1]; simp, fun z hz => ?_, ?_⟩
      · rcases List.mem_append.1 hz with h | h
        · exact e2 z h
        · rw [List.mem_singleton.1 h]
          exact hx
      · rw [putEach_snoc, put_other _ (fun k => hx k.symm)]
        exact e3

/-! ### The files of a directory of OFF files -/

/-- The files that are written for a directory of OFF files. -/
def offFiles (p : Path) (ms : List Mesh) : List (Path × Text) := ms.map fun m => (joinPath p (m.name ++ ".off".toList), Off.write m)

theorem off_all (p : Path) : ∀ (ms : List Mesh) (fs : Fs), offWriteAll writeMode p ms fs = (.ok (), putEach (offFiles p ms) fs)
  | [], _ => rfl
  | m :: ms, fs => by
    unfold offWriteAll offWrite
    rw [if_pos (by decide)]
    dsimp only
    rw [off_all p ms]
    rfl

theorem off_scene {N : Type} {ops : NodeOps N} {p : Path} {s : Scene N} {fs fs' : Fs} (h : offSceneWrite ops writeMode p s fs = (.ok (), fs')) :
    ∃ fs1, fs1 p = some .dir ∧ (∀ q, q ≠ p → fs1 q = fs q) ∧ (∀ t, fs p ≠ some (.file t)) ∧ fs' = putEach (offFiles p (s.buildings.map ops.back ++ [ops.back s.terrain])) fs1 := by
  unfold offSceneWrite at h
  rcases e : fs p with _ | t | _ <;> rw [e] at h <;> dsimp only at h
  · split at h
    · rw [off_all] at h
      exact ⟨_, by simp [Fs.set], fun q hq => by simp [Fs.set, hq], fun t => by simp, ((Prod.mk.inj h).2).symm⟩
    · cases h
  · cases h
  · rw [off_all] at h
    exact ⟨fs, e, fun _ _ => rfl, fun t => by simp, ((Prod.mk.inj h).2).symm⟩

/-- The last component of a path that ends with an extension ends as the extension does. -/
theorem slash_last (e : Text) (he : '/' ∉ e) (hne : e ≠ []) : ∀ n : Text, ∃ ws w, splitSlash (n ++ e) = ws ++ [w] ∧ w.getLast? = e.getLast?
  | [] => ⟨[], e, splitSlash_plain he, rfl⟩
  | c :: n => by
    obtain ⟨ws, w, h1, h2⟩ := slash_last e he hne n
    show ∃ ws w, splitSlash (c :: (n ++ e)) = _ ∧ _
    unfold splitSlash
    split
    · exact ⟨[] :: ws, w, by rw [h1]; rfl, h2⟩
    · cases ws with
      | nil =>
        rw [h1]
        refine ⟨[], c :: w, rfl, ?_⟩
        have : w ≠ [] := by
          rintro rfl
          rw [List.getLast?_nil] at h2
          exact hne (List.getLast?_eq_none_iff.1 h2.symm)
        rw [List.getLast?_cons_of_ne_nil this]
        exact h2
      | cons v ws => exact ⟨(c :: v) :: ws, w, by rw [h1]; rfl, h2⟩

theorem off_path (p : Path) (n : Text) (d : Path) (m : Text) (h : joinPath p (n ++ ".off".toList) = d ++ [m]) : m.getLast? = some 'f' := by
  obtain ⟨ws, w, h1, h2⟩ := slash_last ".off".toList (by decide) (by decide) n
  unfold joinPath at h
  rw [h1, ← List.append_assoc] at h
  rw [← (List.cons.inj (List.append_inj_right' h rfl)).1, h2]
  rfl

section
variable {N L K : Type} [Field K] [LinearOrder K] [FloorRing K]

theorem off_there (T : Toolbox N L K) {p : Path} {s : Scene N} {fs₀ fs fs' : Fs} (h : offSceneWrite T.ops writeMode p s fs = (.ok (), fs'))
    (h0 : ∀ n : Text, n.getLast? = some 'f' → fs (p ++ [n]) = fs₀ (p ++ [n])) : OffThere (objectsOf T s) p fs₀ fs' := by
  obtain ⟨fs1, h1, h2, -, rfl⟩ := off_scene h
  refine ⟨putEach_dir _ _ _ h1, fun hp m hm hnd => ?_⟩
  have hpl : ∀ k ∈ objectsOf T s, joinPath p (k.name ++ ".off".toList) = p ++ [k.name ++ ".off".toList] := fun k hk =>
    joinPath_plain (plain_ext (hp k hk) (by unfold PlainName; decide))
  have hne : p ++ [m.name ++ ".off".toList] ≠ p := fun e => by simpa using congrArg List.length e
  obtain ⟨b, t, a, e1, e2, e3⟩ := putEach_last (offFiles p (objectsOf T s)) fs1 p (m.name ++ ".off".toList) h1 (by
    rw [h2 _ hne, h0 _ (by rw [List.getLast?_append]; rfl)]
    exact hnd) ⟨_, List.mem_map_of_mem hm, hpl m hm⟩
  unfold offFiles at e1
  obtain ⟨l1, l2, k1, k2, k3⟩ := List.map_eq_append_iff.1 e1
  obtain ⟨k, l3, rfl, k4, rfl⟩ := List.map_eq_cons_iff.1 k3
  obtain ⟨k5, rfl⟩ := Prod.mk.inj k4
  have hk : k ∈ objectsOf T s := by rw [k1]; simp
  rw [hpl k hk] at k5
  refine ⟨k, ⟨l1, l3, k1, List.append_cancel_right (List.cons.inj (List.append_cancel_left k5)).1, fun j hj e => ?_⟩, e3⟩
  have hj' : j ∈ objectsOf T s := by rw [k1]; simp [hj]
  refine e2 _ (List.mem_map_of_mem hj) ?_
  show joinPath p (j.name ++ ".off".toList) = _
  rw [hpl j hj', e]

/-- What is on the disk stays there while a directory of OFF files is written, except for OFF files. -/
theorem off_keeps {ops : NodeOps N} {p : Path} {s : Scene N} {fs fs' : Fs} (h : offSceneWrite ops writeMode p s fs = (.ok (), fs')) :
    (∀ q, fs q = some .dir → fs' q = some .dir) ∧ ∀ d n t, n.getLast? ≠ some 'f' → fs (d ++ [n]) = some (.file t) → fs' (d ++ [n]) = some (.file t) := by
  obtain ⟨fs1, h1, h2, h3, rfl⟩ := off_scene h
  constructor
  · intro q hq
    refine putEach_dir _ _ _ ?_
    by_cases e : q = p
    · rw [e]
      exact h1
    · rw [h2 q e]
      exact hq
  · intro d n t hn hq
    have hne : d ++ [n] ≠ p := by
      rintro e
      rw [e] at hq
      exact h3 t hq
    rw [putEach_other, h2 _ hne]
    · exact hq
    · intro x hx e
      obtain ⟨m, -, rfl⟩ := List.mem_map.1 hx
      exact hn (off_path p m.name d n e)

/-- An OBJ file. -/
theorem obj_scene (T : Toolbox N L K) {p : Path} {s : Scene N} {fs fs' : Fs} (h : objWrite writeMode p (objectsOf T s) fs = (.ok (), fs')) :
    ∃ x, Obj.write (objectsOf T s) = .ok x ∧ fs' = fs.put p x := by
  unfold objWrite at h
  rw [if_pos (by decide)] at h
  rcases e : Obj.write (objectsOf T s) with x | ex | _ <;> rw [e] at h
  · exact ⟨x, rfl, (Prod.mk.inj h).2.symm⟩
  · cases h
  · cases h

theorem obj_there (T : Toolbox N L K) {p : Path} {s : Scene N} {fs₀ fs fs' : Fs} (h : objWrite writeMode p (objectsOf T s) fs = (.ok (), fs')) (h0 : fs p = fs₀ p) :
    ObjThere (objectsOf T s) p fs₀ fs' := by
  obtain ⟨x, h1, rfl⟩ := obj_scene T h
  unfold Fs.put
  by_cases hc : fs.canWrite p = true
  · rw [if_pos hc]
    refine ⟨fun _ => ⟨x, h1, by simp [Fs.set]⟩, fun k => absurd (Or.inl ⟨x, by simp [Fs.set]⟩) k⟩
  · rw [if_neg hc]
    exact ⟨fun k => absurd (canWrite_iff.2 k) hc, fun _ => h0⟩

theorem obj_keeps (T : Toolbox N L K) {p : Path} {s : Scene N} {fs fs' : Fs} (h : objWrite writeMode p (objectsOf T s) fs = (.ok (), fs')) :
    (∀ q, fs q = some .dir → fs' q = some .dir) ∧ ∀ q, q ≠ p → fs' q = fs q := by
  obtain ⟨x, -, rfl⟩ := obj_scene T h
  exact ⟨fun q hq => dir_put _ hq, fun q hq => put_other _ hq⟩

theorem act_ok {A B : Type} {x : Act A} {k : A → Act B} {fs fs' : Fs} {b : B} (h : Act.bind x k fs = (.ok b, fs')) : ∃ a fs1, x fs = (.ok a, fs1) ∧ k a fs1 = (.ok b, fs') := by
  unfold Act.bind at h
  rcases e : x fs with ⟨a | ex | _, fs1⟩ <;> rw [e] at h
  · exact ⟨a, fs1, rfl, h⟩
  · cases h
  · cases h

/-- What a conversion that ended well has read, and what it has done. -/
theorem format_ran (T : Toolbox N L K) (args : Args) (fs fs' : Fs) (a : FormatArgs) (ha : formatArgs args = .ok a) (hn : a.formats = false) (h : formatRun T args fs = (.ok (), fs')) :
    ∃ s fs1, ConvertedScene T a fs s ∧ (if a.graphs then saveBuildingDuals a.path.dropLast (s.buildings.map T.dual) fs = (.ok (), fs1) else fs1 = fs) ∧
      ((a.outFormat = "OFF".toList ∧ offSceneWrite T.ops writeMode a.outPath s fs1 = (.ok (), fs')) ∨
       (a.outFormat = "OBJ".toList ∧ NamedLike a.outPath "obj".toList ∧ objWrite writeMode a.outPath (objectsOf T s) fs1 = (.ok (), fs'))) := by
  unfold formatRun at h
  obtain ⟨a', fs1, h1, h⟩ := act_ok h
  obtain ⟨h1, rfl⟩ := reads_ok h1
  rw [ha] at h1
  cases h1
  rw [if_neg (by rw [hn]; decide)] at h
  obtain ⟨s, fs2, h2, h⟩ := act_ok h
  obtain ⟨f, fs3, h3, h⟩ := act_ok h
  obtain ⟨g0, rfl⟩ := reads_ok h3
  unfold inputScene at h2
  obtain ⟨s₀, fs4, h4, g2⟩ := act_ok h2
  obtain ⟨g5, rfl⟩ := reads_ok h4
  obtain ⟨s', fs5, h5, g3⟩ := act_ok g2
  obtain ⟨g6, rfl⟩ := reads_ok h5
  obtain ⟨_, fs6, h6, g4⟩ := act_ok g3
  obtain ⟨h7, rfl⟩ := reads_ok g4
  cases h7
  obtain ⟨F, hF, hr⟩ := Out.bind_eq_ok.1 g5
  refine ⟨s, fs3, ⟨F, s₀, hF, hr, ?_⟩, ?_, ?_⟩
  · split at g6
    · next hp => rw [if_pos hp]; exact g6
    · next hp => rw [if_neg hp]; exact (Out.ok.inj g6).symm
  · split at h6
    · next hg => rw [if_pos hg]; exact h6
    · next hg =>
      rw [if_neg hg]
      unfold Act.skip at h6
      exact (Prod.mk.inj h6).2.symm
  · rcases (C31_formats _ _ _).1.1 g0 with ⟨-, rfl, -⟩ | ⟨-, rfl, -⟩ | ⟨e, rfl⟩ | ⟨e, rfl, hx⟩
    · cases h
    · cases h
    · exact .inl ⟨e, h⟩
    · exact .inr ⟨e, (iequals_ext (e := "obj".toList) (by decide)).1 hx, h⟩

theorem silent_ok {T : Toolbox N L K} {noise : SceneFormat → Bool → Path → Fs → List Text} {args : Args} {fs : Fs} (hr : (mainTalk (formatTalk T noise args) fs).1 ≠ .ub)
    (he : errors (mainTalk (formatTalk T noise args) fs).2.2 = []) : formatRun T args fs = (.ok (), (mainTalk (formatTalk T noise args) fs).2.1) := by
  rw [← silence_format T noise args]
  unfold silence
  revert hr he
  unfold mainTalk
  rcases formatTalk T noise args fs with ⟨_ | e | _, fs', l⟩
  · exact fun _ _ => rfl
  · intro _ he
    rw [errors_append] at he
    exact absurd (List.append_eq_nil_iff.1 he).2 (by simp [errors])
  · exact fun h => absurd rfl h

theorem kept_duals {T : Toolbox N L K} {root : Path} {s : Scene N} {fs₀ fs fs' : Fs} (h1 : ∀ q, fs q = some .dir → fs' q = some .dir)
    (h2 : ∀ d n t, n.getLast? = some 't' → fs (d ++ [n]) = some (.file t) → fs' (d ++ [n]) = some (.file t)) (k : DualsThere T root s fs₀ fs) : DualsThere T root s fs₀ fs' := by
  refine ⟨h1 _ k.1, fun hp b hb hnd => ?_⟩
  obtain ⟨b', hb', e1, e2⟩ := k.2 hp b hb hnd
  refine ⟨b', hb', e1, ?_⟩
  have ap : ∀ n : Text, root ++ ["dual_graphs".toList, n] = (root ++ ["dual_graphs".toList]) ++ [n] := fun n => by rw [List.append_assoc]; rfl
  rw [ap] at e2 ⊢
  exact h2 _ _ _ (by rw [List.getLast?_append]; rfl) e2

theorem named_end {p : Path} (h : NamedLike p "obj".toList) {d : Path} {n : Text} (e : p = d ++ [n]) : n.getLast? = some 'j' ∨ n.getLast? = some 'J' := by
  obtain ⟨d', s, x, e1, hx⟩ := h
  rw [e] at e1
  rw [(List.cons.inj (List.append_inj_right' e1 rfl)).1]
  cases hx with
  | cons _ hx => cases hx with
    | cons _ hx => cases hx with
      | cons hj hx =>
        cases hx
        rw [List.getLast?_append]
        rcases hj with rfl | rfl
        · exact .inl rfl
        · exact .inr rfl

/-- The files of the dual graphs: their directory, and files that end with `.txt`. -/
theorem duals_only (root : Path) (bs : List (Text × Written)) (fs : Fs) (q : Path) (h : (saveBuildingDuals root bs fs).2 q ≠ fs q) :
    q = root ++ ["dual_graphs".toList] ∨ ∃ d n, q = d ++ [n] ∧ n.getLast? = some 't' := by
  have key := only_bind (only_makeDir (S := fun q => q = root ++ ["dual_graphs".toList] ∨ ∃ d n, q = d ++ [n] ∧ n.getLast? = some 't') (p := root ++ ["dual_graphs".toList]) (.inl rfl))
    (k := fun _ => runAll (bs.map fun b => streamPut (joinPath (root ++ ["dual_graphs".toList]) (b.1 ++ ".txt".toList)) b.2)) (fun _ _ => only_runAll _ (by
      intro w hw
      obtain ⟨b, _, rfl⟩ := List.mem_map.1 hw
      refine only_streamPut (S := fun q => q = root ++ ["dual_graphs".toList] ∨ ∃ d n, q = d ++ [n] ∧ n.getLast? = some 't') (.inr ?_) _
      obtain ⟨ws, w, h1, h2⟩ := slash_last ".txt".toList (by decide) (by decide) b.1
      exact ⟨root ++ ["dual_graphs".toList] ++ ws, w, by unfold joinPath; rw [h1]; simp, h2⟩))
  rw [← andThen_eq] at key
  exact key fs q h

/-! ### Claims -/

/-- C123: if cityformat, asked for a conversion, ends and has said nothing on the standard error stream, then the scene could be read, the dual graphs are on the disk if they were asked for, and
the objects of the scene are on the disk in the format that was asked for, which is OFF or OBJ: each one in its OFF file unless a directory is in the place of the file, or all of them in the OBJ
file unless it cannot be opened. -/
theorem C123_silent_partial (T : Toolbox N L K) (noise : SceneFormat → Bool → Path → Fs → List Text) (args : Args) (fs : Fs) (a : FormatArgs) (ha : formatArgs args = .ok a) (hn : a.formats = false)
    (hr : (mainTalk (formatTalk T noise args) fs).1 ≠ .ub) (he : errors (mainTalk (formatTalk T noise args) fs).2.2 = []) :
    ∃ s, ConvertedScene T a fs s ∧ (a.graphs = true → DualsThere T a.path.dropLast s fs (mainTalk (formatTalk T noise args) fs).2.1) ∧
      ((a.outFormat = "OFF".toList ∧ OffThere (objectsOf T s) a.outPath fs (mainTalk (formatTalk T noise args) fs).2.1) ∨
       (a.outFormat = "OBJ".toList ∧ NamedLike a.outPath "obj".toList ∧ ObjThere (objectsOf T s) a.outPath fs (mainTalk (formatTalk T noise args) fs).2.1)) := by
  have h := silent_ok hr he
  generalize (mainTalk (formatTalk T noise args) fs).2.1 = fs' at h ⊢
  obtain ⟨s, fs1, hs, hg, hw⟩ := format_ran T args fs fs' a ha hn h
  have same : ∀ d n, n ≠ "dual_graphs".toList → n.getLast? ≠ some 't' → fs1 (d ++ [n]) = fs (d ++ [n]) := by
    intro d n h1 h2
    split at hg
    · by_contra hc
      have := duals_only a.path.dropLast (s.buildings.map T.dual) fs (d ++ [n]) (by rw [hg]; exact hc)
      rcases this with e | ⟨d', n', e, h3⟩
      · exact h1 (List.cons.inj (List.append_inj_right' e rfl)).1
      · rw [(List.cons.inj (List.append_inj_right' e rfl)).1] at h2
        exact h2 h3
    · rw [hg]
  refine ⟨s, hs, fun hgr => ?_, ?_⟩
  · rw [if_pos hgr] at hg
    have hd := duals_there T a.path.dropLast s fs fs fs1 hg fun _ _ => rfl
    rcases hw with ⟨-, hw⟩ | ⟨-, hnm, hw⟩
    · obtain ⟨k1, k2⟩ := off_keeps hw
      exact kept_duals k1 (fun d n t hl => k2 d n t (by rw [hl]; decide)) hd
    · obtain ⟨k1, k2⟩ := obj_keeps T hw
      refine kept_duals k1 (fun d n t hl e => ?_) hd
      rw [k2 _ ?_]
      · exact e
      · rintro e
        rcases named_end hnm e.symm with k | k <;> rw [hl] at k <;> exact absurd k (by decide)
  · rcases hw with ⟨e, hw⟩ | ⟨e, hnm, hw⟩
    · exact .inl ⟨e, off_there T hw fun n hl => same _ n (by rintro rfl; exact absurd hl (by decide)) (by rw [hl]; decide)⟩
    · refine .inr ⟨e, hnm, obj_there T hw ?_⟩
      obtain ⟨d, n, x, e1, -⟩ := id hnm
      have := named_end hnm e1
      rw [e1]
      refine same _ _ ?_ ?_
      · intro k
        rw [k] at this
        exact absurd this (by decide)
      · rcases this with k | k <;> rw [k] <;> decide

/-- C123: what that says of an OBJ file that could be written at the beginning: it is there, with all the objects. -/
theorem C123_obj (T : Toolbox N L K) (noise : SceneFormat → Bool → Path → Fs → List Text) (args : Args) (fs : Fs) (a : FormatArgs) (ha : formatArgs args = .ok a) (hn : a.formats = false)
    (ho : a.outFormat = "OBJ".toList) (hw : Writable fs a.outPath)
    (hr : (mainTalk (formatTalk T noise args) fs).1 ≠ .ub) (he : errors (mainTalk (formatTalk T noise args) fs).2.2 = []) :
    ∃ s x, ConvertedScene T a fs s ∧ Obj.write (objectsOf T s) = .ok x ∧ (mainTalk (formatTalk T noise args) fs).2.1 a.outPath = some (.file x) := by
  have h := silent_ok hr he
  generalize (mainTalk (formatTalk T noise args) fs).2.1 = fs' at h ⊢
  obtain ⟨s, fs1, hs, hg, ⟨e, -⟩ | ⟨-, hnm, hob⟩⟩ := format_ran T args fs fs' a ha hn h
  · rw [ho] at e
    exact absurd e (by decide)
  obtain ⟨x, hx, rfl⟩ := obj_scene T hob
  refine ⟨s, x, hs, hx, ?_⟩
  have hw1 : Writable fs1 a.outPath := by
    split at hg
    · obtain ⟨fs2, m1, m2⟩ := andThen_ok hg
      obtain ⟨d, n, ep⟩ : ∃ d n, a.outPath = d ++ [n] := by
        obtain ⟨d, n, x, e, -⟩ := hnm
        exact ⟨d, _, e⟩
      have hend := named_end hnm ep
      have stay : fs1 a.outPath = fs a.outPath := by
        by_contra hc
        have := duals_only a.path.dropLast (s.buildings.map T.dual) fs a.outPath (by rw [hg]; exact hc)
        rw [ep] at this
        rcases this with e | ⟨d', n', e, h3⟩
        · rw [(List.cons.inj (List.append_inj_right' e rfl)).1] at hend
          exact absurd hend (by decide)
        · rw [(List.cons.inj (List.append_inj_right' e rfl)).1, h3] at hend
          exact absurd hend (by decide)
      rcases hw with ⟨t, ht⟩ | ⟨h0, d', n', e', hd⟩
      · exact .inl ⟨t, stay.trans ht⟩
      · refine .inr ⟨stay.trans h0, d', n', e', ?_⟩
        have k1 : fs2 d' = some .dir := by
          obtain ⟨c1, c2⟩ := makeDir_ok m1
          by_cases e : d' = a.path.dropLast ++ ["dual_graphs".toList]
          · rw [e]; exact c1
          · rw [c2 _ e]; exact hd
        refine runAll_keeps (I := fun f => f d' = some .dir) _ fs2 fs1 ?_ k1 m2
        intro w hw' f f' hf ew
        obtain ⟨b, _, rfl⟩ := List.mem_map.1 hw'
        have := (Prod.mk.inj ew).2
        rw [← this]
        exact dir_put _ hf
    · rw [hg]
      exact hw
  unfold Fs.put
  rw [if_pos (canWrite_iff.2 hw1)]
  simp [Fs.set]

end

/-- C123, the full statement: if nothing is said on the standard error stream, every object of the scene is on the disk, in its OFF file or in the OBJ file. -/
def C123_full : Prop := ∀ (N L : Type) (T : Toolbox N L ℚ) (noise : SceneFormat → Bool → Path → Fs → List Text) (args : Args) (fs : Fs) (a : FormatArgs), formatArgs args = .ok a →
  a.formats = false → (mainTalk (formatTalk T noise args) fs).1 = .ok 0 → errors (mainTalk (formatTalk T noise args) fs).2.2 = [] → ∀ s, ConvertedScene T a fs s →
  (a.outFormat = "OBJ".toList → ∃ x, Obj.write (objectsOf T s) = .ok x ∧ (mainTalk (formatTalk T noise args) fs).2.1 a.outPath = some (.file x)) ∧
  (a.outFormat = "OFF".toList → (∀ m ∈ objectsOf T s, PlainName m.name) → ∀ m ∈ objectsOf T s, ∃ k, LastCalled (objectsOf T s) m.name k ∧
    (mainTalk (formatTalk T noise args) fs).2.1 (a.outPath ++ [m.name ++ ".off".toList]) = some (.file (Off.write k)))

/-- The arguments of the example. -/
def lostArgs : FormatArgs := ⟨false, ["d".toList, "a.obj".toList], "OBJ".toList, false, false, false, ["x".toList, "b.obj".toList], "OBJ".toList⟩

theorem lost_args : formatArgs (turnArgs "d/a.obj" "x/b.obj") = .ok lostArgs := by rfl

theorem lost_read : objSceneMeshes toyTools.rnd readMode lostArgs.path (objFs kinkedObj) = .ok ([kinkedMesh], Mesh.empty.setName "terrain".toList) := by decide +kernel

theorem lost_scene : ConvertedScene toyTools lostArgs (objFs kinkedObj) occupiedScene := by
  refine ⟨.obj, occupiedScene, by decide, ?_, rfl⟩
  show (do
    let r ← objSceneMeshes toyTools.rnd readMode lostArgs.path (objFs kinkedObj)
    Out.ok (Scene.makeDefault toyTools.ops r.1 r.2)) = _
  rw [lost_read]
  rfl

/-- C123, the full statement is false: the directory of `<path>` does not exist: the stream of the file is not opened, nobody looks, nothing is written and nothing is said. -/
theorem C123_refuted : ¬ C123_full := by
  intro h
  obtain ⟨x, -, hx⟩ := (h Mesh Unit toyTools (fun _ _ _ _ => []) (turnArgs "d/a.obj" "x/b.obj") (objFs kinkedObj) lostArgs lost_args rfl (by decide +kernel) (by decide +kernel) occupiedScene
    lost_scene).1 rfl
  have : (mainTalk (formatTalk toyTools (fun _ _ _ _ => []) (turnArgs "d/a.obj" "x/b.obj")) (objFs kinkedObj)).2.1 lostArgs.outPath = none := by decide +kernel
  rw [this] at hx
  cases hx

/-! ### Examples -/

/-- C123: the hypotheses of `C123_obj` are met by the same scene and a path in its directory; the file has two objects, the building and a terrain without faces. -/
example : formatArgs (turnArgs "d/a.obj" "d/b.obj") = .ok ⟨false, ["d".toList, "a.obj".toList], "OBJ".toList, false, false, false, ["d".toList, "b.obj".toList], "OBJ".toList⟩ ∧
    Writable (objFs kinkedObj) ["d".toList, "b.obj".toList] ∧
    (mainTalk (formatTalk toyTools (fun _ _ _ _ => []) (turnArgs "d/a.obj" "d/b.obj")) (objFs kinkedObj)).1 ≠ .ub ∧
    errors (mainTalk (formatTalk toyTools (fun _ _ _ _ => []) (turnArgs "d/a.obj" "d/b.obj")) (objFs kinkedObj)).2.2 = [] ∧
    (mainTalk (formatTalk toyTools (fun _ _ _ _ => []) (turnArgs "d/a.obj" "d/b.obj")) (objFs kinkedObj)).2.1 ["d".toList, "b.obj".toList] ≠ none :=
  ⟨by rfl, canWrite_iff.1 (by decide +kernel), by decide +kernel, by decide +kernel, by decide +kernel⟩

/-- `cityformat d/a.obj --input-format=OBJ --graphs output --output-format=OFF d`: next to the scene. -/
def besideArgs : Args := fun n => if n = "--output-format".toList then some (.str "OFF".toList) else if n = "--graphs".toList then some (.bool true) else turnArgs "d/a.obj" "d" n

/-- C123: the hypotheses of `C123_silent_partial` are met by a conversion to OFF with the dual graphs; the files of both are there. -/
example : (mainTalk (formatTalk toyTools (fun _ _ _ _ => []) besideArgs) (objFs kinkedObj)).1 ≠ .ub ∧
    errors (mainTalk (formatTalk toyTools (fun _ _ _ _ => []) besideArgs) (objFs kinkedObj)).2.2 = [] ∧
    (mainTalk (formatTalk toyTools (fun _ _ _ _ => []) besideArgs) (objFs kinkedObj)).2.1 ["d".toList, "roof.off".toList] = some (.file (Off.write kinkedMesh)) ∧
    (mainTalk (formatTalk toyTools (fun _ _ _ _ => []) besideArgs) (objFs kinkedObj)).2.1 ["d".toList, "dual_graphs".toList] = some .dir := by decide +kernel

end City.Props
