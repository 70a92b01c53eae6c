import Verif.Model.ObjHandler
import Verif.Props.Handlers
import Verif.Props.Obj
/-!
Properties C82 and C83: what writing leaves on the disk; the meshes held by a handler of OBJ files.
-/
set_option exponentiation.threshold 2000
namespace City.Spec
open City

/-- A file can be written at `p`: there is a regular file, or nothing in an existing directory. -/
def Writable (fs : Fs) (p : Path) : Prop :=
  (∃ t, fs p = some (.file t)) ∨ (fs p = none ∧ ∃ d n, p = d ++ [n] ∧ fs d = some .dir)

/-- The names given to `exclude_mesh` in a sequence of calls. -/
def excludedNames : List ObjOp → List Text
  | [] => []
  | .exclude n :: h => n :: excludedNames h
  | _ :: h => excludedNames h

/-- The meshes added in a sequence of calls and not excluded later. -/
def addedAndKept : List ObjOp → List Mesh
  | [] => []
  | .add m :: h => if m.name ∈ excludedNames h then addedAndKept h else m :: addedAndKept h
  | _ :: h => addedAndKept h

/-- The meshes added in a sequence of calls. -/
def added : List ObjOp → List Mesh
  | [] => []
  | .add m :: h => m :: added h
  | _ :: h => added h

/-- The meshes returned by a sequence of calls. -/
def returned (rs : List (Out (Option Mesh))) : List Mesh := rs.filterMap fun r => match r with | .ok x => x | _ => none

end City.Spec

namespace City.Props
open City Spec

/-! ### C82 -/

theorem canWrite_iff {fs : Fs} {p : Path} : fs.canWrite p = true ↔ Writable fs p := by
  unfold Fs.canWrite Writable
  cases h : fs p with
  | none =>
    simp only [reduceCtorEq, exists_false, true_and, false_or, ne_eq, decide_eq_true_eq]
    constructor
    · rintro ⟨h1, h2⟩
      exact ⟨p.dropLast, p.getLast h1, (List.dropLast_append_getLast h1).symm, h2⟩
    · rintro ⟨d, n, rfl, h2⟩
      exact ⟨by simp, by rw [List.dropLast_concat]; exact h2⟩
  | some e => cases e <;> simp

/-- C82 (full statement, false of the code): when `write` returns, the file holds the text of the mesh. -/
def C82_full : Prop :=
  ∀ (modes : Modes) (p : Path) (m : Mesh) (fs : Fs), (offWrite modes p m fs).1 = .ok () → (offWrite modes p m fs).2 p = some (.file (Off.write m))

/-- C82 refuted: in a directory that does not exist nothing is written and nothing is reported. -/
theorem C82_refuted : ¬ C82_full := by
  intro h
  have hm : canSave (fun k => if k = "write".toList then some true else none) = true := by decide
  have := h (fun k => if k = "write".toList then some true else none) [['d'], ['a']] Mesh.empty (fun _ => none)
    (by unfold offWrite; rw [if_pos hm])
  unfold offWrite at this
  rw [if_pos hm] at this
  have hp : Fs.put (fun _ => none) [['d'], ['a']] (Off.write Mesh.empty) = fun _ => none := by
    unfold Fs.put
    rw [if_neg (by simp [Fs.canWrite])]
  rw [hp] at this
  cases this

/-- C82 (partial): a handler opened for writing returns; the file then holds the text of the mesh and no other entry has changed if the file can be written; otherwise
nothing at all has changed. Missing from the full property: failures to write are not reported. -/
theorem C82_off_partial (modes : Modes) (p : Path) (m : Mesh) (fs : Fs) (h : OpenedWrite modes) :
    (offWrite modes p m fs).1 = .ok () ∧
    (Writable fs p → (offWrite modes p m fs).2 p = some (.file (Off.write m)) ∧ ∀ q, q ≠ p → (offWrite modes p m fs).2 q = fs q) ∧
    (¬ Writable fs p → (offWrite modes p m fs).2 = fs) := by
  rw [← canWrite_iff]
  unfold offWrite Fs.put
  rw [if_pos (canSave_iff.2 h)]
  refine ⟨rfl, fun hw => ?_, fun hw => ?_⟩
  · rw [if_pos hw]
    exact ⟨if_pos rfl, fun q hq => if_neg hq⟩
  · rw [if_neg hw]

/-- C82 (partial): the same for a list of meshes in OBJ; without any mesh the behaviour is undefined. -/
theorem C82_obj_partial (modes : Modes) (p : Path) (ms : List Mesh) (fs : Fs) (h : OpenedWrite modes) :
    (ms ≠ [] → (objWrite modes p ms fs).1 = .ok () ∧
      (Writable fs p → (∃ t, Obj.write ms = .ok t ∧ (objWrite modes p ms fs).2 p = some (.file t)) ∧ ∀ q, q ≠ p → (objWrite modes p ms fs).2 q = fs q) ∧
      (¬ Writable fs p → (objWrite modes p ms fs).2 = fs)) ∧
    (ms = [] → (objWrite modes p ms fs).1 = .ub) := by
  rw [← canWrite_iff]
  unfold objWrite Obj.write
  rw [if_pos (canSave_iff.2 h)]
  refine ⟨fun hne => ?_, fun he => by rw [if_pos he]⟩
  rw [if_neg hne]
  dsimp only
  unfold Fs.put
  refine ⟨rfl, fun hw => ?_, fun hw => ?_⟩
  · rw [if_pos hw]
    exact ⟨⟨_, rfl, if_pos rfl⟩, fun q hq => if_neg hq⟩
  · rw [if_neg hw]

/-- C82: a mesh written to a file that can be written is read from it by another handler, as its text is, with the name of the file. -/
theorem C82_off_read_back (rnd : ℚ → ℚ) (lf : Bool) (modes modes' : Modes) (p : Path) (m : Mesh) (fs : Fs) (h : OpenedWrite modes)
    (h' : OpenedRead modes') (hw : Writable fs p) (hm : Holdable m) (hn : '\n' ∉ m.name) :
    ∃ r, offRead rnd lf modes' p (offWrite modes p m fs).2 = .ok r ∧ r.name = stem p ∧ r.faces = m.faces ∧
      List.Forall₂ (ReadBack rnd) m.points r.points := by
  obtain ⟨r, h1, h2, h3, h4, h5⟩ := C18_round_trip rnd lf m hm hn
  refine ⟨r.setName (stem p), ?_, rfl, h2, h5⟩
  unfold offRead
  rw [if_pos (canRead_iff.2 h'), ((C82_off_partial modes p m fs h).2.1 hw).1]
  show (Off.read rnd lf (Off.write m) >>= fun x => .ok (x.setName (stem p))) = _
  rw [h1]
  rfl

/-- Writing in the directory `d`, where the file is new, replaces `a`, or cannot be made since `d/s` is a directory. -/
example : let fs : Fs := fun q => if q = [['d']] ∨ q = [['d'], ['s']] then some .dir else if q = [['d'], ['a']] then some (.file ['x']) else none
    Writable fs [['d'], ['n']] ∧ Writable fs [['d'], ['a']] ∧ ¬ Writable fs [['d'], ['s']] ∧ ¬ Writable fs [['e'], ['a']] := by
  intro fs
  refine ⟨Or.inr ⟨by simp [fs], [['d']], ['n'], rfl, by simp [fs]⟩, Or.inl ⟨['x'], by simp [fs]⟩, ?_, ?_⟩
  · rintro (⟨t, h⟩ | ⟨h, -⟩) <;> simp [fs] at h
  · rintro (⟨t, h⟩ | ⟨-, d, n, h, h2⟩)
    · simp [fs] at h
    · cases d with
      | nil => simp at h
      | cons a d =>
        cases d with
        | nil => simp at h; rw [← h.1] at h2; simp [fs] at h2
        | cons b d => simp at h

/-! ### C83 -/

variable {rnd : ℚ → ℚ} {modes : Modes} {p : Path}

theorem ObjOp.write_meshes (s : ObjState) : (ObjOp.write.step rnd modes p s).2.meshes = s.meshes := by
  unfold ObjOp.step; dsimp only; split <;> rfl

theorem ObjOp.read_cases (s : ObjState) :
    (∃ ms, objRead rnd modes p s.fs = .ok ms ∧ ObjOp.read.step rnd modes p s = (.ok none, ⟨ms, s.fs⟩)) ∨
    ((∀ ms, objRead rnd modes p s.fs ≠ .ok ms) ∧ (∀ x, (ObjOp.read.step rnd modes p s).1 ≠ .ok x) ∧ (ObjOp.read.step rnd modes p s).2 = s) := by
  unfold ObjOp.step; dsimp only
  cases h : objRead rnd modes p s.fs with
  | ok ms => exact Or.inl ⟨ms, rfl, rfl⟩
  | thrown e => exact Or.inr ⟨fun _ h => (by cases h), fun _ h => (by cases h), rfl⟩
  | ub => exact Or.inr ⟨fun _ h => (by cases h), fun _ h => (by cases h), rfl⟩

theorem run_cons {o : ObjOp} {os : List ObjOp} {s : ObjState} {x} (h : s.run rnd modes p (o :: os) = some x) :
    ∃ y, (o.step rnd modes p s).2.run rnd modes p os = some y ∧ x = ((o.step rnd modes p s).1 :: y.1, y.2) := by
  unfold ObjState.run at h
  split at h
  · cases h
  · obtain ⟨y, h1, h2⟩ := Option.map_eq_some_iff.1 h
    exact ⟨y, h1, h2.symm⟩

/-- C83: the meshes held after any sequence of calls in which no `read` succeeds are those held before, without those of excluded names, then those added, in order, without those
excluded later. -/
theorem C83_data (h : List ObjOp) : ∀ (s : ObjState) (x : List (Out (Option Mesh)) × ObjState), s.run rnd modes p h = some x →
    (∀ (i : ℕ) (o : Option Mesh), h[i]? = some ObjOp.read → x.1[i]? ≠ some (Out.ok o)) →
    x.2.meshes = s.meshes.filter (fun m => m.name ∉ excludedNames h) ++ addedAndKept h := by
  induction h with
  | nil =>
    intro s x hx _
    cases hx
    simp [excludedNames, addedAndKept]
  | cons o os ih =>
    intro s x hx hno
    obtain ⟨y, hy, rfl⟩ := run_cons hx
    have := ih _ y hy (fun i o' hi => hno (i + 1) o' hi)
    rw [this]
    cases o with
    | read =>
      rcases ObjOp.read_cases (rnd := rnd) (modes := modes) (p := p) s with ⟨ms, -, h2⟩ | ⟨-, -, h2⟩
      · exact absurd (by rw [h2]; rfl) (hno 0 none rfl)
      · rw [h2]; rfl
    | exclude n =>
      unfold ObjOp.step
      dsimp only
      rw [exclude_eq, List.filter_filter]
      have e1 : excludedNames (.exclude n :: os) = n :: excludedNames os := rfl
      have e2 : addedAndKept (.exclude n :: os) = addedAndKept os := rfl
      rw [e1, e2]
      congr 1
      apply List.filter_congr
      intro m _
      rw [Bool.eq_iff_iff]
      simp only [List.mem_cons, not_or, decide_eq_true_eq, Bool.and_eq_true, bne_iff_ne, ne_eq]
      exact and_comm
    | add m =>
      have e1 : excludedNames (.add m :: os) = excludedNames os := rfl
      rw [e1]
      unfold ObjOp.step
      dsimp only
      rw [List.filter_append, List.append_assoc]
      congr 1
      show [m].filter _ ++ addedAndKept os = if m.name ∈ excludedNames os then addedAndKept os else m :: addedAndKept os
      by_cases hm : m.name ∈ excludedNames os
      · rw [if_pos hm, List.filter_cons_of_neg (by simpa using hm)]; rfl
      · rw [if_neg hm, List.filter_cons_of_pos (by simpa using hm)]; rfl
    | write => rw [ObjOp.write_meshes]; rfl

/-- C83: a `read` that succeeds replaces the meshes by those of the file; one that throws changes nothing; `read` never changes the files. -/
theorem C83_read (s : ObjState) :
    (∀ x, (ObjOp.read.step rnd modes p s).1 = .ok x → OpenedRead modes ∧ ∃ t ms, s.fs p = some (.file t) ∧ Obj.read rnd t = .ok ms ∧
      (ObjOp.read.step rnd modes p s).2 = ⟨ms, s.fs⟩) ∧
    (∀ e, (ObjOp.read.step rnd modes p s).1 = .thrown e → (ObjOp.read.step rnd modes p s).2 = s) := by
  rcases ObjOp.read_cases (rnd := rnd) (modes := modes) (p := p) s with ⟨ms, h1, h2⟩ | ⟨-, h1, h2⟩
  · refine ⟨fun x _ => ?_, fun e he => by rw [h2] at he; cases he⟩
    unfold objRead at h1
    split at h1
    · rename_i hr
      refine ⟨canRead_iff.1 hr, ?_⟩
      split at h1
      · rename_i t ht; exact ⟨t, ms, ht, h1, by rw [h2]⟩
      · cases h1
    · cases h1
  · exact ⟨fun x hx => absurd hx (h1 x), fun e _ => h2⟩

/-- C83: the meshes held and those returned by `exclude_mesh` carry together all the polygons of the meshes held before and added, each as often as there. -/
theorem C83_nothing_lost (h : List ObjOp) : ∀ (s : ObjState) (x : List (Out (Option Mesh)) × ObjState), s.run rnd modes p h = some x →
    (∀ (i : ℕ) (o : Option Mesh), h[i]? = some ObjOp.read → x.1[i]? ≠ some (Out.ok o)) → (∀ m ∈ s.meshes ++ added h, Valid m ∧ (m.points = [] → m.faces = [])) →
    (x.2.meshes.flatMap polygons ++ (returned x.1).flatMap polygons).Perm ((s.meshes ++ added h).flatMap polygons) := by
  induction h with
  | nil =>
    intro s x hx _ _
    cases hx
    simp [returned, added]
  | cons o os ih =>
    intro s x hx hno hv
    obtain ⟨y, hy, rfl⟩ := run_cons hx
    have hi := ih _ y hy (fun i o' hi => hno (i + 1) o' hi)
    cases o with
    | read =>
      rcases ObjOp.read_cases (rnd := rnd) (modes := modes) (p := p) s with ⟨ms, -, h2⟩ | ⟨-, h1, h2⟩
      · exact absurd (by rw [h2]; rfl) (hno 0 none rfl)
      · have : returned ((ObjOp.read.step rnd modes p s).1 :: y.1) = returned y.1 := by
          unfold returned
          rw [List.filterMap_cons]
          cases hh : (ObjOp.read.step rnd modes p s).1 with
          | ok x => exact absurd hh (h1 x)
          | thrown e => rfl
          | ub => rfl
        rw [this]
        rw [h2] at hi
        exact hi hv
    | exclude n =>
      unfold ObjOp.step at hi ⊢
      dsimp only at hi ⊢
      have hs := C29_separation n s.meshes (fun m hm => hv m (List.mem_append_left _ hm))
      have hi := hi (by
        intro m hm
        rcases List.mem_append.1 hm with hm | hm
        · rw [hs.1] at hm; exact hv m (List.mem_append_left _ (List.mem_filter.1 hm).1)
        · exact hv m (List.mem_append_right _ hm))
      have e : returned (.ok (some (excludeMesh n s.meshes).2) :: y.1) = (excludeMesh n s.meshes).2 :: returned y.1 := rfl
      rw [e, List.flatMap_cons]
      have ea : added (.exclude n :: os) = added os := rfl
      rw [ea]
      rw [List.flatMap_append] at hi ⊢
      refine List.Perm.trans ?_ (List.Perm.append_right _ hs.2.2.2.2)
      have := List.Perm.append_left (polygons (excludeMesh n s.meshes).2) hi
      refine List.Perm.trans ?_ (this.trans ?_)
      · rw [← List.append_assoc, ← List.append_assoc]
        exact List.Perm.append_right _ List.perm_append_comm
      · rw [← List.append_assoc]
        exact List.Perm.append_right _ List.perm_append_comm
    | add m =>
      unfold ObjOp.step at hi ⊢
      dsimp only at hi ⊢
      have e : returned (.ok none :: y.1) = returned y.1 := rfl
      have ea : added (.add m :: os) = m :: added os := rfl
      rw [e, ea]
      rw [ea] at hv
      have hi := hi (by intro m' hm'; apply hv; simpa using hm')
      simpa using hi
    | write =>
      have hm := ObjOp.write_meshes (rnd := rnd) (modes := modes) (p := p) s
      rw [hm] at hi
      have e : returned ((ObjOp.write.step rnd modes p s).1 :: y.1) = returned y.1 := by
        have : ∀ x, (ObjOp.write.step rnd modes p s).1 ≠ .ok (some x) := by
          intro x; unfold ObjOp.step; dsimp only; split <;> simp
        unfold returned
        rw [List.filterMap_cons]
        cases hh : (ObjOp.write.step rnd modes p s).1 with
        | ok x =>
          cases x with
          | none => rfl
          | some x => exact absurd hh (this x)
        | thrown e => rfl
        | ub => rfl
      rw [e]
      exact hi hv

/-- C83: only the file of the handler ever changes, and only when it was opened for writing. -/
theorem C83_files (h : List ObjOp) : ∀ (s : ObjState) (x : List (Out (Option Mesh)) × ObjState), s.run rnd modes p h = some x →
    (∀ q, q ≠ p → x.2.fs q = s.fs q) ∧ (¬ OpenedWrite modes → x.2.fs = s.fs) := by
  induction h with
  | nil => intro s x hx; cases hx; exact ⟨fun _ _ => rfl, fun _ => rfl⟩
  | cons o os ih =>
    intro s x hx
    obtain ⟨y, hy, rfl⟩ := run_cons hx
    obtain ⟨i1, i2⟩ := ih _ y hy
    have key : (∀ q, q ≠ p → (o.step rnd modes p s).2.fs q = s.fs q) ∧ (¬ OpenedWrite modes → (o.step rnd modes p s).2.fs = s.fs) := by
      cases o with
      | read =>
        rcases ObjOp.read_cases (rnd := rnd) (modes := modes) (p := p) s with ⟨ms, -, h2⟩ | ⟨-, h1, h2⟩ <;> rw [h2] <;> exact ⟨fun _ _ => rfl, fun _ => rfl⟩
      | exclude n => exact ⟨fun _ _ => rfl, fun _ => rfl⟩
      | add m => exact ⟨fun _ _ => rfl, fun _ => rfl⟩
      | write =>
        have e : (ObjOp.write.step rnd modes p s).2.fs = (objWrite modes p s.meshes s.fs).2 := by
          unfold ObjOp.step; dsimp only; split <;> rename_i hh <;> rw [hh]
        rw [e]
        by_cases hw : OpenedWrite modes
        · refine ⟨fun q hq => ?_, fun h => absurd hw h⟩
          unfold objWrite
          rw [if_pos (canSave_iff.2 hw)]
          split
          · unfold Fs.put; split
            · exact if_neg hq
            · rfl
          · rfl
          · rfl
        · have : objWrite modes p s.meshes s.fs = (.thrown .filesystemError, s.fs) := by
            unfold objWrite; rw [not_canSave hw]; rfl
          rw [this]
          exact ⟨fun _ _ => rfl, fun _ => rfl⟩
    exact ⟨fun q hq => (i1 q hq).trans (key.1 q hq), fun hw => (i2 hw).trans (key.2 hw)⟩

/-- C83 (full statement, false of the code): `write` stores the meshes held, whatever they are, in a file that can be written. -/
def C83_full : Prop :=
  ∀ (rnd : ℚ → ℚ) (modes : Modes) (p : Path) (s : ObjState), OpenedWrite modes → Writable s.fs p → (ObjOp.write.step rnd modes p s).1 = .ok none

/-- C83 refuted: `write` on a handler without meshes, for instance a new one, or once its only mesh is excluded, is undefined. -/
theorem C83_refuted : ¬ C83_full := by
  intro h
  have := h id (fun k => if k = "write".toList then some true else none) [['a']] ⟨[], fun q => if q = [] then some .dir else none⟩
    (by simp [OpenedWrite]) (Or.inr ⟨by simp, [], ['a'], rfl, by simp⟩)
  have hm : canSave (fun k => if k = "write".toList then some true else none) = true := by decide
  unfold ObjOp.step objWrite at this
  dsimp only at this
  rw [if_pos hm] at this
  simp [Obj.write] at this

/-- C83 (partial): `write` stores the text of the meshes held, at least one, in the file if it can be written; the handler keeps its meshes. -/
theorem C83_write_partial (s : ObjState) (hm : OpenedWrite modes) (hw : Writable s.fs p) (hne : s.meshes ≠ []) :
    ∃ t, Obj.write s.meshes = .ok t ∧ (ObjOp.write.step rnd modes p s).1 = .ok none ∧ (ObjOp.write.step rnd modes p s).2.meshes = s.meshes ∧
      (ObjOp.write.step rnd modes p s).2.fs p = some (.file t) := by
  obtain ⟨h1, h2, -⟩ := (C82_obj_partial modes p s.meshes s.fs hm).1 hne
  obtain ⟨⟨t, h3, h4⟩, -⟩ := h2 hw
  refine ⟨t, h3, ?_, ObjOp.write_meshes s, ?_⟩
  · unfold ObjOp.step; dsimp only; split <;> rename_i hh <;> rw [hh] at h1 <;> first | rfl | cases h1
  · have e : (ObjOp.write.step rnd modes p s).2.fs = (objWrite modes p s.meshes s.fs).2 := by
      unfold ObjOp.step; dsimp only; split <;> rename_i hh <;> rw [hh]
    rw [e]; exact h4

/-- C83: a handler made from a scene holds one mesh per building, in order, and the terrain last; excluding the name "terrain" splits them again, when no building has
this name. -/
theorem C83_scene {N : Type} (ops : NodeOps N) (sc : Scene N) (fs : Fs) (ht : (ops.back sc.terrain).name = "terrain".toList)
    (hb : ∀ b ∈ sc.buildings, (ops.back b).name ≠ "terrain".toList) :
    ∃ t : Mesh, (ObjState.ofScene ops sc fs).run rnd modes p [.exclude "terrain".toList] = some ([.ok (some t)], ⟨sc.buildings.map ops.back, fs⟩) ∧
      t.name = "terrain".toList ∧ t.points = (ops.back sc.terrain).points ∧ t.faces = (ops.back sc.terrain).faces := by
  have e : excludeMesh "terrain".toList (sc.buildings.map ops.back ++ [ops.back sc.terrain]) =
      (sc.buildings.map ops.back, (Mesh.empty.add (ops.back sc.terrain)).setName "terrain".toList) := by
    rw [exclude_eq, List.filter_append, List.filter_append]
    have h1 : (sc.buildings.map ops.back).filter (fun m => m.name != "terrain".toList) = sc.buildings.map ops.back := by
      rw [List.filter_eq_self]
      intro m hm
      obtain ⟨b, hb', rfl⟩ := List.mem_map.1 hm
      simpa using hb b hb'
    have h2 : (sc.buildings.map ops.back).filter (fun m => m.name == "terrain".toList) = [] := by
      rw [List.filter_eq_nil_iff]
      intro m hm
      obtain ⟨b, hb', rfl⟩ := List.mem_map.1 hm
      simpa using hb b hb'
    rw [h1, h2, List.filter_cons_of_neg (by simp [ht]), List.filter_cons_of_pos (by simp [ht])]
    simp [Mesh.sumFrom]
  refine ⟨(Mesh.empty.add (ops.back sc.terrain)).setName "terrain".toList, ?_, rfl, rfl, rfl⟩
  unfold ObjState.run ObjState.ofScene ObjOp.step
  dsimp only
  rw [e]
  rfl

/-- A history of a handler: two meshes held, one added, one excluded; the polygons are in the meshes held and in the mesh returned. -/
example : (⟨[demoTri, demoSquare], fun _ => none⟩ : ObjState).run id (fun _ => none) [['a']] [.read, .add demoTri, .exclude demoTri.name, .add demoTri, .write] =
    some ([.thrown .filesystemError, .ok none, .ok (some ((Mesh.sumFrom Mesh.empty [demoTri, demoTri]).setName demoTri.name)), .ok none, .thrown .filesystemError],
      ⟨[demoSquare, demoTri], fun _ => none⟩) ∧
    demoTri.name ≠ demoSquare.name := by
  refine ⟨rfl, by decide⟩

end City.Props
