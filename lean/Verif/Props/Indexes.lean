import Verif.Props.Obj
import Verif.Props.Off
import Verif.Model.Alias
import Verif.Model.Mesh3ds
import Verif.Model.ObjHandler
/-
Property C103: no operation of the library invents an index that names no vertex.
-/
namespace City.Props
open City City.Spec
set_option linter.unusedSectionVars false

/-- The values a statement brings in: new objects, and what the standard library leaves in an object that was moved from. -/
def Brings : Stmt Mesh → Mesh → Prop
  | .fresh _ v, m => m = v
  | .moveCtor _ _ j, m => m = j
  | .moveAssign _ _ j, m => m = j
  | _, _ => False

/-- The meshes a program can get hold of, by any number of calls to the library in any order, when it starts from the meshes `Given`. -/
inductive Obtained (Given : Mesh → Prop) : Mesh → Prop
  /-- What the program starts from: meshes it builds from lists of its own, meshes read from OFF files that others made. -/
  | given {m : Mesh} : Given m → Obtained Given m
  /-- `Mesh()`. -/
  | none : Obtained Given Mesh.empty
  /-- `set_name`. -/
  | rename {m : Mesh} (n : Text) : Obtained Given m → Obtained Given (m.setName n)
  /-- `+`. -/
  | add {a b : Mesh} : Obtained Given a → Obtained Given b → Obtained Given (a.add b)
  /-- `a += b`, on objects that may be the same one. -/
  | append {σ τ : Store Mesh} (a b k : Nat) : (∀ i, Obtained Given (σ i)) → Mesh.appendAt a b σ = .ok τ → Obtained Given (τ k)
  /-- `+` with a temporary object, on objects that may be the same one. -/
  | sum {σ τ : Store Mesh} (n a b k : Nat) : (∀ i, Obtained Given (σ i)) → Mesh.addNew n a b σ = .ok τ → Obtained Given (τ k)
  /-- Copies, moves, assignments and swaps. -/
  | values {σ : Store Mesh} (p : List (Stmt Mesh)) (k : Nat) : (∀ i, Obtained Given (σ i)) → (∀ s ∈ p, ∀ v, Brings s v → Obtained Given v) →
      Obtained Given (meshOps.run p σ k)
  /-- Any text in OBJ notation. -/
  | readObj {ms : List Mesh} {m : Mesh} (rnd : ℚ → ℚ) (t : Text) : Obj.read rnd t = .ok ms → m ∈ ms → Obtained Given m
  /-- A history of one `WaveObjHandler`: what it returns. -/
  | handler {s s' : ObjState} {rs : List (Out (Option Mesh))} {m : Mesh} (rnd : ℚ → ℚ) (modes : Modes) (p : Path) (os : List ObjOp) :
      (∀ x ∈ s.meshes, Obtained Given x) → (∀ x, ObjOp.add x ∈ os → Obtained Given x) → s.run rnd modes p os = some (rs, s') →
      Out.ok (some m) ∈ rs → Obtained Given m
  /-- The same: the meshes it holds at the end. -/
  | handlerHolds {s s' : ObjState} {rs : List (Out (Option Mesh))} {m : Mesh} (rnd : ℚ → ℚ) (modes : Modes) (p : Path) (os : List ObjOp) :
      (∀ x ∈ s.meshes, Obtained Given x) → (∀ x, ObjOp.add x ∈ os → Obtained Given x) → s.run rnd modes p os = some (rs, s') →
      m ∈ s'.meshes → Obtained Given m
  /-- A text in OFF notation that the library has written. -/
  | readOff {m m' : Mesh} (rnd : ℚ → ℚ) (lf : Bool) : Obtained Given m → Holdable m → '\n' ∉ m.name → Off.read rnd lf (Off.write m) = .ok m' →
      Obtained Given m'
  /-- The mesh of any polyhedron, valid or not. -/
  | surface {K : Type} {m : Mesh} (rnd : V3 K → V3 ℚ) (name : Text) (S : Surf K) : Mesh.ofSurf rnd name S = .ok m → Obtained Given m
  /-- The mesh of any node. -/
  | node {K : Type} {m : Mesh} (rnd : V3 K → V3 ℚ) (n : UNode K) : Mesh.ofNode rnd n = .ok m → Obtained Given m
  /-- The mesh of a node of a 3DS file. -/
  | named3ds {L : Type} {m : Mesh} (nm : L → Text) (conv : L → Mesh) (modes : Modes) (f : File3ds L) (name : Text) (types : List Char) :
      (∀ l ∈ f.meshes, Obtained Given (conv l)) → T3ds.mesh nm conv modes (some f) name types = .ok m → Obtained Given m
  /-- The meshes below a node of a 3DS file. -/
  | below3ds {L : Type} {m : Mesh} {ms : List Mesh} (nm : L → Text) (conv : L → Mesh) (modes : Modes) (f : File3ds L) (name : Text) (types : List Char) :
      (∀ l ∈ f.meshes, Obtained Given (conv l)) → T3ds.nodeMeshes nm conv modes (some f) name types = .ok ms → m ∈ ms → Obtained Given m
  /-- The meshes of a level of a 3DS file. -/
  | level3ds {L : Type} {m : Mesh} {ms : List Mesh} (nm : L → Text) (conv : L → Mesh) (modes : Modes) (f : File3ds L) (level : Nat) (types : List Char) :
      (∀ l ∈ f.meshes, Obtained Given (conv l)) → T3ds.levelMeshes nm conv modes (some f) level types = .ok ms → m ∈ ms → Obtained Given m
  /-- The terrain of a level of a 3DS file. -/
  | terrain3ds {L : Type} {m : Mesh} (nm : L → Text) (conv : L → Mesh) (modes : Modes) (f : File3ds L) (level : Nat) :
      (∀ l ∈ f.meshes, Obtained Given (conv l)) → T3ds.levelTerrain nm conv modes (some f) level = .ok m → Obtained Given m

theorem valid_add {a b : Mesh} (ha : Valid a) (hb : Valid b) : Valid (a.add b) := by
  unfold Mesh.add Mesh.append
  by_cases h : a.isEmpty = true
  · rw [if_pos h]; exact hb
  · rw [if_neg h]
    intro f hf i hi
    simp only [List.mem_append, List.mem_map, List.length_append] at hf ⊢
    rcases hf with hf | ⟨g, hg, rfl⟩
    · have := ha f hf i hi; omega
    · simp only [Face.offset, List.mem_map] at hi
      obtain ⟨j, hj, rfl⟩ := hi
      have := hb g hg j hj; omega

theorem valid_sumFrom {ms : List Mesh} : ∀ {a : Mesh}, Valid a → (∀ m ∈ ms, Valid m) → Valid (Mesh.sumFrom a ms) := by
  induction ms with
  | nil => intro a ha _; exact ha
  | cons m ms ih => intro a ha h; exact ih (valid_add ha (h m (by simp))) fun x hx => h x (by simp [hx])

theorem valid_none : Valid Mesh.empty := by intro f hf; simp [Mesh.empty] at hf

/-- One statement. -/
theorem valid_exec {σ : Store Mesh} (h : ∀ i, Valid (σ i)) (s : Stmt Mesh) (hs : ∀ v, Brings s v → Valid v) (k : Nat) : Valid (meshOps.exec σ s k) := by
  have he : Valid Mesh.empty := valid_none
  cases s with
  | fresh d v =>
    have := hs v rfl
    have := h k
    simp only [ClassOps.exec, Store.put]
    split <;> assumption
  | copyCtor d s =>
    have h1 := h k
    have h2 := h s
    simp only [ClassOps.exec, meshOps, List.foldl_cons, List.foldl_nil, copyMember, Store.put, Mesh.mName, Mesh.mPoints, Mesh.mFaces, Mesh.mBbox]
    by_cases hk : k = d <;> by_cases hd : s = d <;> simp_all [Valid, Mesh.empty] <;> assumption
  | moveCtor d s j =>
    have h1 := h k
    have h2 := h s
    have h3 := hs j rfl
    simp only [ClassOps.exec, meshOps, List.foldl_cons, List.foldl_nil, moveMember, Store.put, Mesh.mName, Mesh.mPoints, Mesh.mFaces, Mesh.mBbox]
    by_cases hk : k = d <;> by_cases hd : s = d <;> by_cases hks : k = s <;> simp_all [Valid, Mesh.empty] <;> assumption
  | copyAssign d s =>
    have h1 := h k
    have h2 := h s
    simp only [ClassOps.exec, meshOps, List.foldl_cons, List.foldl_nil, copyMember, Store.put, Mesh.mName, Mesh.mPoints, Mesh.mFaces, Mesh.mBbox]
    by_cases hk : k = d <;> by_cases hd : s = d <;> simp_all [Valid] <;> assumption
  | moveAssign d s j =>
    have h1 := h k
    have h2 := h s
    have h3 := hs j rfl
    simp only [ClassOps.exec, meshOps, List.foldl_cons, List.foldl_nil, moveMember, Store.put, Mesh.mName, Mesh.mPoints, Mesh.mFaces, Mesh.mBbox]
    by_cases hk : k = d <;> by_cases hd : s = d <;> by_cases hks : k = s <;> simp_all [Valid] <;> assumption
  | swap a b =>
    have h1 := h k
    have h2 := h a
    have h3 := h b
    simp only [ClassOps.exec, meshOps, List.foldl_cons, List.foldl_nil, swapMember, Store.put, Mesh.mName, Mesh.mPoints, Mesh.mFaces, Mesh.mBbox]
    have hab : a = b ↔ b = a := eq_comm
    by_cases hk : k = a <;> by_cases hd : k = b <;> by_cases hks : b = a <;> simp_all [Valid] <;> assumption

theorem valid_run {p : List (Stmt Mesh)} : ∀ {σ : Store Mesh}, (∀ i, Valid (σ i)) → (∀ s ∈ p, ∀ v, Brings s v → Valid v) → ∀ k, Valid (meshOps.run p σ k) := by
  induction p with
  | nil => intro σ h _ k; exact h k
  | cons s p ih =>
    intro σ h hs k
    exact ih (valid_exec h s (hs s (by simp))) (fun x hx => hs x (by simp [hx])) k

theorem valid_appendAt {σ τ : Store Mesh} {a b : Nat} (h : ∀ i, Valid (σ i)) (hr : Mesh.appendAt a b σ = .ok τ) (k : Nat) : Valid (τ k) := by
  unfold Mesh.appendAt at hr
  split at hr
  · cases hr
    exact valid_run h (by intro s hs v hv; simp only [List.mem_singleton] at hs; subst hs; exact hv.elim) k
  · split at hr
    · cases hr
    · next hab =>
      cases hr
      by_cases hk : k = a
      · subst hk
        have ha := h k
        have hb := h b
        have hne : b ≠ k := fun e => hab e.symm
        simp only [Mesh.appendTail, Mesh.appendHead, Store.put, if_true, if_neg hne]
        intro f hf i hi
        simp only [List.take_left, List.drop_left, List.mem_append, List.mem_map, List.length_append] at hf ⊢
        rcases hf with hf | ⟨g, hg, rfl⟩
        · have := ha f hf i hi; omega
        · simp only [Face.offset, List.mem_map] at hi
          obtain ⟨j, hj, rfl⟩ := hi
          have := hb g hg j hj; omega
      · have := h k
        simp only [Mesh.appendTail, Mesh.appendHead, Store.put, if_neg hk]
        exact this

theorem valid_exclude {n : Text} {ms : List Mesh} (h : ∀ m ∈ ms, Valid m) : (∀ m ∈ (excludeMesh n ms).1, Valid m) ∧ Valid (excludeMesh n ms).2 := by
  have hp : ∀ m ∈ (stablePartition (fun m => m.name != n) ms).1, Valid m := by
    intro m hm
    simp only [stablePartition, List.mem_append, List.mem_filter] at hm
    exact h m (hm.elim (·.1) (·.1))
  refine ⟨fun m hm => hp m (List.mem_of_mem_take hm), ?_⟩
  exact valid_sumFrom valid_none fun m hm => hp m (List.mem_of_mem_drop hm)

theorem valid_objRead {rnd : ℚ → ℚ} {modes : Modes} {p : Path} {fs : Fs} {ms : List Mesh} (h : objRead rnd modes p fs = .ok ms) : ∀ m ∈ ms, Valid m := by
  unfold objRead at h
  split at h
  · split at h
    · obtain ⟨_, _, hm⟩ := C25_compact _ _ _ h
      exact fun m hx => (hm m hx).1
    · cases h
  · cases h

theorem valid_step {rnd : ℚ → ℚ} {modes : Modes} {p : Path} {o : ObjOp} {s : ObjState} (h : ∀ m ∈ s.meshes, Valid m) (ho : ∀ x, o = ObjOp.add x → Valid x) :
    (∀ m ∈ (o.step rnd modes p s).2.meshes, Valid m) ∧ ∀ m, (o.step rnd modes p s).1 = .ok (some m) → Valid m := by
  cases o with
  | read =>
    simp only [ObjOp.step]
    cases hr : objRead rnd modes p s.fs with
    | ok ms => exact ⟨valid_objRead hr, fun m hm => by cases hm⟩
    | thrown e => exact ⟨h, fun m hm => by cases hm⟩
    | ub => exact ⟨h, fun m hm => by cases hm⟩
  | exclude n => exact ⟨(valid_exclude h).1, fun m hm => by cases hm; exact (valid_exclude h).2⟩
  | add x =>
    refine ⟨?_, fun m hm => by cases hm⟩
    intro m hm
    simp only [ObjOp.step, List.mem_append, List.mem_singleton] at hm
    exact hm.elim (h m) fun e => e ▸ ho x rfl
  | write =>
    simp only [ObjOp.step]
    rcases hr : objWrite modes p s.meshes s.fs with ⟨r, fs'⟩
    cases r <;> exact ⟨h, fun m hm => by cases hm⟩

theorem valid_history {rnd : ℚ → ℚ} {modes : Modes} {p : Path} {os : List ObjOp} : ∀ {s s' : ObjState} {rs : List (Out (Option Mesh))},
    (∀ x ∈ s.meshes, Valid x) → (∀ x, ObjOp.add x ∈ os → Valid x) → s.run rnd modes p os = some (rs, s') →
    (∀ m ∈ s'.meshes, Valid m) ∧ ∀ m, Out.ok (some m) ∈ rs → Valid m := by
  induction os with
  | nil => intro s s' rs h _ hr; cases hr; exact ⟨h, fun m hm => by cases hm⟩
  | cons o os ih =>
    intro s s' rs h ho hr
    have hs := valid_step (rnd := rnd) (modes := modes) (p := p) (o := o) h (fun x e => ho x (by rw [e]; exact List.mem_cons_self))
    have key : ∀ r, (o.step rnd modes p s).1 = r → ((o.step rnd modes p s).2.run rnd modes p os).map (fun x => (r :: x.1, x.2)) = some (rs, s') →
        (∀ m ∈ s'.meshes, Valid m) ∧ ∀ m, Out.ok (some m) ∈ rs → Valid m := by
      intro r hr1 hr2
      obtain ⟨y, hy, e⟩ := Option.map_eq_some_iff.1 hr2
      cases e
      obtain ⟨h1, h2⟩ := ih hs.1 (fun x hx => ho x (by simp [hx])) hy
      refine ⟨h1, fun m hm => ?_⟩
      rcases List.mem_cons.1 hm with hm | hm
      · exact hs.2 m (hr1.trans hm.symm)
      · exact h2 m hm
    unfold ObjState.run at hr
    split at hr
    · cases hr
    · exact key _ rfl hr

theorem made_by {α β : Type} {f : α → Out β} {as : List α} {bs : List β} (h : Out.mapM f as = .ok bs) : ∀ b ∈ bs, ∃ a ∈ as, f a = .ok b := by
  rw [Out.mapM_eq_ok] at h
  induction h with
  | nil => intro b hb; cases hb
  | cons h _ ih =>
    intro b hb
    rcases List.mem_cons.1 hb with rfl | hb
    · exact ⟨_, by simp, h⟩
    · obtain ⟨a, ha, e⟩ := ih b hb
      exact ⟨a, by simp [ha], e⟩

theorem valid_surf {K : Type} {rnd : V3 K → V3 ℚ} {name : Text} {S : Surf K} {m : Mesh} (h : Mesh.ofSurf rnd name S = .ok m) : Valid m := by
  unfold Mesh.ofSurf at h
  obtain ⟨fs, hfs, h⟩ := Out.bind_eq_ok.1 h
  cases h
  intro f hf i hi
  obtain ⟨g, _, hg⟩ := made_by hfs f hf
  unfold Face.ofFacet at hg
  obtain ⟨l, _, hg⟩ := Out.bind_eq_ok.1 hg
  obtain ⟨is, his, hg⟩ := Out.bind_eq_ok.1 hg
  cases hg
  obtain ⟨x, _, hx⟩ := made_by his i hi
  unfold Surf.vertexIndex at hx
  split at hx
  · next k hk =>
    cases hx
    simp only [Mesh.make, Surf.points, List.length_map]
    rw [List.idxOf?_eq_some_iff] at hk
    exact hk.1
  · cases hx

theorem valid_byType {L : Type} {nm : L → Text} {conv : L → Mesh} {modes : Modes} {f : File3ds L} {name : Text} {types : List Char}
    {g : List (Char × List Mesh)} (h : ∀ l ∈ f.meshes, Valid (conv l)) (hr : T3ds.nodeMeshesByType nm conv modes (some f) name types = .ok g) :
    ∀ x ∈ g, ∀ m ∈ x.2, Valid m := by
  unfold T3ds.nodeMeshesByType at hr
  split at hr
  · have hown : ∀ n, ∀ y ∈ T3ds.own nm f types n, y.2 ∈ f.meshes := by
      intro n y hy
      unfold T3ds.own T3ds.meshByName at hy
      split at hy
      · cases hy
      · next l hl =>
        split at hy
        · simp only [List.mem_singleton] at hy; subst hy; exact List.mem_of_find?_eq_some hl
        · cases hy
    have hcol : ∀ F : Forest, ∀ y ∈ T3ds.collect nm f types F, y.2 ∈ f.meshes := by
      intro F
      induction F with
      | nil => intro y hy; cases hy
      | cons n o ch nx ih1 ih2 =>
        intro y hy
        simp only [T3ds.collect, List.mem_append] at hy
        rcases hy with (hy | hy) | hy
        · exact ih1 y hy
        · exact hown n y hy
        · exact ih2 y hy
    simp only at hr
    split at hr
    · cases hr
    · cases hr
      intro x hx m hm
      simp only [T3ds.groupTypes, List.mem_filter, List.mem_map] at hx
      obtain ⟨⟨c, _, rfl⟩, _⟩ := hx
      simp only [List.mem_map, List.mem_filter, List.mem_append] at hm
      obtain ⟨z, ⟨⟨y, hy, rfl⟩, _⟩, rfl⟩ := hm
      exact h _ (hy.elim (hcol _ y) (hown _ y))
  · cases hr

theorem valid_mesh {L : Type} {nm : L → Text} {conv : L → Mesh} {modes : Modes} {f : File3ds L} {name : Text} {types : List Char}
    {m : Mesh} (h : ∀ l ∈ f.meshes, Valid (conv l)) (hr : T3ds.mesh nm conv modes (some f) name types = .ok m) : Valid m := by
  unfold T3ds.mesh T3ds.meshByType at hr
  obtain ⟨g, hg, hr⟩ := Out.bind_eq_ok.1 hr
  obtain ⟨g', hg', hg⟩ := Out.bind_eq_ok.1 hg
  cases hg
  cases hr
  have := valid_byType h hg'
  refine valid_sumFrom (ms := _) valid_none ?_
  intro x hx
  simp only [List.map_map, List.mem_map, Function.comp] at hx
  obtain ⟨y, hy, rfl⟩ := hx
  exact valid_sumFrom valid_none (this y hy)

theorem valid_level {L : Type} {nm : L → Text} {conv : L → Mesh} {modes : Modes} {f : File3ds L} {level : Nat} {types : List Char}
    {ms : List Mesh} (h : ∀ l ∈ f.meshes, Valid (conv l)) (hr : T3ds.levelMeshes nm conv modes (some f) level types = .ok ms) : ∀ m ∈ ms, Valid m := by
  unfold T3ds.levelMeshes at hr
  obtain ⟨ns, _, hr⟩ := Out.bind_eq_ok.1 hr
  intro m hm
  obtain ⟨n, _, hn⟩ := made_by hr m hm
  exact valid_mesh h hn

/-- C103: whatever a program does with the library, all the indexes of the faces of the meshes it holds name vertices, if this is so for the meshes it starts from: no
operation of the library invents an index. -/
theorem C103_indexes (Given : Mesh → Prop) (hg : ∀ m, Given m → Valid m) (m : Mesh) (h : Obtained Given m) : Valid m := by
  induction h with
  | given h => exact hg _ h
  | none => exact valid_none
  | rename n _ ih => exact ih
  | add _ _ h1 h2 => exact valid_add h1 h2
  | append a b k _ hr ih => exact valid_appendAt ih hr k
  | sum n a b k _ hr ih =>
    exact valid_appendAt (valid_run ih (by intro s hs v hv; simp only [List.mem_singleton] at hs; subst hs; exact hv.elim)) hr k
  | values p k _ _ h1 h2 => exact valid_run h1 h2 k
  | readObj rnd t hr hm => obtain ⟨_, _, h⟩ := C25_compact _ _ _ hr; exact (h _ hm).1
  | handler rnd modes p os _ _ hr hm h1 h2 => exact (valid_history h1 h2 hr).2 _ hm
  | handlerHolds rnd modes p os _ _ hr hm h1 h2 => exact (valid_history h1 h2 hr).1 _ hm
  | readOff rnd lf _ hh hn hr ih =>
    rw [read_write rnd lf _ hh hn] at hr
    cases hr
    intro f hf i hi
    simpa [Mesh.makeAnon, Mesh.make] using ih f hf i hi
  | surface rnd name S hr => exact valid_surf hr
  | node rnd n hr => exact valid_surf hr
  | named3ds nm conv modes f name types _ hr ih => exact valid_mesh ih hr
  | below3ds nm conv modes f name types _ hr hm ih =>
    unfold T3ds.nodeMeshes at hr
    obtain ⟨g, hg', hr⟩ := Out.bind_eq_ok.1 hr
    cases hr
    rcases List.mem_append.1 hm with hm | hm
    · rw [List.eq_of_mem_replicate hm]; exact valid_none
    · obtain ⟨x, hx, hm⟩ := List.mem_flatMap.1 hm
      exact valid_byType ih hg' x hx _ hm
  | level3ds nm conv modes f level types _ hr hm ih => exact valid_level ih hr _ hm
  | terrain3ds nm conv modes f level _ hr ih =>
    unfold T3ds.levelTerrain at hr
    obtain ⟨ms, hms, hr⟩ := Out.bind_eq_ok.1 hr
    cases hr
    exact valid_sumFrom (ms := ms) valid_none (valid_level ih hms)

/-- C103: the door that is left open: `OFFHandler::read` accepts a text whose faces name vertices that are not there, so that `Obtained` must not contain all it reads. -/
theorem C103_off_door (lf : Bool) : ∃ (t : Text) (m : Mesh), Off.read id lf t = .ok m ∧ ¬ Valid m :=
  ⟨_, _, read_write id lf (Mesh.make [] [⟨0, 0, 0⟩] [⟨[0, 1, 2]⟩]) ⟨by simpa [Mesh.make, FinitePoint, dblMax] using pow_le_pow_right₀ (a := (2 : ℚ)) (by norm_num) (by norm_num), by decide, by decide, by decide⟩ (by decide), by decide⟩

theorem fill_made {co : List (V3 ℝ)} {n : Int} : ∀ {fs : List Face} {k : Nat} {ts : List Face3ds}, fillSlots co n k fs = .ok ts →
    (∀ t ∈ ts, ∃ f ∈ fs, ∃ us, Face.to3ds f co = .ok us ∧ t ∈ us) ∧ ∀ f ∈ fs, ∃ us, Face.to3ds f co = .ok us := by
  intro fs
  induction fs with
  | nil => intro k ts h; cases h; exact ⟨fun t ht => (by cases ht), fun t ht => (by cases ht)⟩
  | cons f fs ih =>
    intro k ts h
    unfold fillSlots at h
    obtain ⟨us, hus, h⟩ := Out.bind_eq_ok.1 h
    obtain ⟨u, hu, h⟩ := Out.bind_eq_ok.1 h
    split at h
    · obtain ⟨rest, hrest, h⟩ := Out.bind_eq_ok.1 h
      cases h
      obtain ⟨h1, h2⟩ := ih hrest
      constructor
      · intro t ht
        rcases List.mem_cons.1 ht with rfl | ht
        · exact ⟨f, by simp, us, hus, List.mem_of_getElem? (Out.idx_eq_ok.1 hu)⟩
        · obtain ⟨g, hg, x⟩ := h1 t ht
          exact ⟨g, by simp [hg], x⟩
      · intro g hg
        rcases List.mem_cons.1 hg with rfl | hg
        · exact ⟨us, hus⟩
        · exact h2 g hg
    · cases h

theorem fan_indexes {f : Face} {co : List (V3 ℝ)} {us : List Face3ds} (h : Face.to3ds f co = .ok us) :
    f.points.length ≤ co.length ∧ ∀ t ∈ us, t.a < co.length ∧ t.b < co.length ∧ t.c < co.length := by
  unfold Face.to3ds at h
  split at h
  · cases h
  · next hl =>
    refine ⟨by omega, ?_⟩
    obtain ⟨b, _, h⟩ := Out.bind_eq_ok.1 h
    split at h
    · split at h
      · cases h; intro t ht; cases ht
      · intro t ht
        obtain ⟨x, _, hx⟩ := made_by h t ht
        unfold Face.fanTriangle at hx
        obtain ⟨A, hA, hx⟩ := Out.bind_eq_ok.1 hx
        obtain ⟨B, hB, hx⟩ := Out.bind_eq_ok.1 hx
        obtain ⟨C, hC, hx⟩ := Out.bind_eq_ok.1 hx
        cases hx
        have lt : ∀ {i : Nat} {a : V3 ℝ}, Out.atOr co i = .ok a → word i < co.length := by
          intro i a hi
          rw [Out.atOr_eq_ok] at hi
          have := (List.getElem?_eq_some_iff.1 hi).1
          exact lt_of_le_of_lt (Nat.mod_le _ _) this
        exact ⟨lt hA, lt hB, lt hC⟩
    · cases h

theorem slots_nonpos {fs : List Face} (h : ∀ f ∈ fs, f.points.length = 0) : ∀ s : Int, s ≤ 0 → fs.foldl (fun s f => s + (f.points.length : Int) - 2) s ≤ 0 := by
  induction fs with
  | nil => intro s hs; exact hs
  | cons f fs ih =>
    intro s hs
    refine ih (fun g hg => h g (by simp [hg])) _ ?_
    have := h f (by simp)
    show s + (f.points.length : Int) - 2 ≤ 0
    omega

/-- C103: a mesh that is converted to 3DS, whatever its indexes, gives triangles of vertices that are there, the empty triangles of the unused places included; an index
that names no vertex is noticed. -/
theorem C103_to_3ds (m : RMesh) (d : Mesh3ds) (h : m.to3ds = .ok d) :
    ∀ t ∈ d.faces, t.a < d.points.length ∧ t.b < d.points.length ∧ t.c < d.points.length := by
  unfold RMesh.to3ds at h
  split at h
  · cases h
  · split at h
    · cases h
    · obtain ⟨ts, hts, h⟩ := Out.bind_eq_ok.1 h
      cases h
      obtain ⟨h1, h2⟩ := fill_made hts
      intro t ht
      rcases List.mem_append.1 ht with ht | ht
      · obtain ⟨f, _, us, hus, hm⟩ := h1 t ht
        exact (fan_indexes hus).2 t hm
      · rw [List.eq_of_mem_replicate ht]
        have hpos : 0 < m.points.length := by
          by_contra hn
          have h0 : ∀ f ∈ m.faces, f.points.length = 0 := by
            intro f hf
            obtain ⟨us, hus⟩ := h2 f hf
            have := (fan_indexes hus).1
            omega
          have := slots_nonpos h0 0 (le_refl _)
          rw [List.mem_replicate] at ht
          apply ht.1
          unfold faceSlots
          omega
        exact ⟨hpos, hpos, hpos⟩

/-- C103: a mesh taken from 3DS, if it can be taken at all, has indexes that name vertices. -/
theorem C103_from_3ds (d : Mesh3ds) (m : RMesh) (h : RMesh.of3ds d = .ok m) : ∀ f ∈ m.faces, ∀ i ∈ f.points, i < m.points.length := by
  unfold RMesh.of3ds at h
  obtain ⟨fs, hfs, h⟩ := Out.bind_eq_ok.1 h
  cases h
  intro f hf i hi
  obtain ⟨t, _, ht⟩ := made_by hfs f hf
  unfold faceOf3ds at ht
  obtain ⟨A, hA, ht⟩ := Out.bind_eq_ok.1 ht
  obtain ⟨B, hB, ht⟩ := Out.bind_eq_ok.1 ht
  obtain ⟨C, hC, ht⟩ := Out.bind_eq_ok.1 ht
  cases ht
  have lt : ∀ {i : Nat} {a : V3 ℝ}, Out.idx d.points i = .ok a → i < d.points.length := by
    intro i a hi
    exact (List.getElem?_eq_some_iff.1 (Out.idx_eq_ok.1 hi)).1
  have ha := lt hA
  have hb := lt hB
  have hc := lt hC
  unfold Face.ofTriple at hi
  split at hi <;> simp only [List.mem_cons, List.not_mem_nil, or_false] at hi <;> rcases hi with rfl | rfl | rfl <;> assumption

/-- C103: conversely nothing that is given is changed: a mesh with an index that names no vertex is obtained only if one was given. -/
theorem C103_only_door (Given : Mesh → Prop) (m : Mesh) (h : Obtained Given m) (hm : ¬ Valid m) : ∃ g, Given g ∧ ¬ Valid g := by
  by_contra hn
  push Not at hn
  exact hm (C103_indexes Given hn m h)

/-- The hypotheses of C103 are met by a program that reads an OBJ file, adds a mesh of its own to what it has read, and assigns the sum over an object. -/
example : Obtained (fun m => m = Mesh.make ['p'] [⟨0, 0, 0⟩, ⟨1, 0, 0⟩, ⟨0, 1, 0⟩] [⟨[0, 1, 2]⟩])
    (meshOps.run [.moveAssign 0 1 Mesh.empty, .copyAssign 2 0] (fun _ => (Mesh.make ['p'] [⟨0, 0, 0⟩, ⟨1, 0, 0⟩, ⟨0, 1, 0⟩] [⟨[0, 1, 2]⟩]).add
      (Mesh.make ['p'] [⟨0, 0, 0⟩, ⟨1, 0, 0⟩, ⟨0, 1, 0⟩] [⟨[0, 1, 2]⟩])) 2) := by
  refine .values _ _ (fun _ => .add (.given rfl) (.given rfl)) ?_
  intro s hs v hv
  simp only [List.mem_cons, List.not_mem_nil, or_false] at hs
  rcases hs with rfl | rfl
  · cases hv; exact .none
  · exact hv.elim

end City.Props
