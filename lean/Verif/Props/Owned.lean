import Verif.Props.Leaks
/-
C125: who owns a 3DS file: lemmas about single operations.
-/
set_option linter.unusedSectionVars false
namespace City.Mem
open City.Spec

/-- Nothing hangs differently, and there is no new 3DS file. -/
structure Quiet (h h' : Heap) : Prop where
  meshes : h'.meshes = h.meshes
  files : ∀ b ∈ h'.live, b.2 = .file3ds → b ∈ h.live

theorem Quiet.refl (h : Heap) : Quiet h h := ⟨rfl, fun _ hb _ => hb⟩

theorem Quiet.trans {h h1 h2 : Heap} (a : Quiet h h1) (b : Quiet h1 h2) : Quiet h h2 :=
  ⟨b.meshes.trans a.meshes, fun x hx e => a.files x (b.files x hx e) e⟩

theorem quiet_alloc {k : Kind} (hk : k ≠ .file3ds) (h : Heap) : Quiet h ⟨h.next + 1, (h.next, k) :: h.live, h.meshes⟩ := by
  refine ⟨rfl, fun b hb e => ?_⟩
  rcases List.mem_cons.1 hb with rfl | hb
  · exact absurd e hk
  · exact hb

theorem quiet_without (h : Heap) (a : Nat) : Quiet h (without h a) := ⟨rfl, fun _ hb _ => (mem_without.1 hb).1⟩

/-- The outcome without the result. -/
def void {α : Type} : Out α → Out Unit
  | .ok _ => .ok ()
  | .thrown e => .thrown e
  | .ub => .ub

theorem faceTo3ds_grows (o : SumOrder) (f : Face) (co : List (V3 Dbl)) {h : Heap} (hs : Sound h) :
    ∃ (c : Kind → Nat) (h' : Heap), Grows h h' c ∧ Quiet h h' ∧
      ((∃ ts, Face.to3dsD o f co = .ok ts ∧ faceTo3ds o f co h = (.ok (h.next, ts), h') ∧ c = some' .face3ds 1 ∧ (h.next, Kind.face3ds) ∈ h'.live) ∨
        (∃ e, Face.to3dsD o f co = .thrown e ∧ faceTo3ds o f co h = (.thrown e, h') ∧ c .mesh3ds = 0) ∨
        (Face.to3dsD o f co = .ub ∧ faceTo3ds o f co h = (.ub, h'))) := by
  by_cases hl : co.length < f.points.length
  · refine ⟨_, h, Grows.refl hs, Quiet.refl h, Or.inr (Or.inl ⟨.outOfRange, ?_, ?_, rfl⟩)⟩
    · unfold Face.to3dsD; rw [if_pos hl]
    · unfold faceTo3ds; rw [if_pos hl]; rfl
  · have g0 := alloc_grows .face3ds hs
    have q0 := quiet_alloc (k := .face3ds) (by decide) h
    have hu : faceTo3ds o f co h = (alloc .face3ds >>= fun b => lift (Face.isConvexD o f co) >>= fun convex => if convex then (alloc .scratch3ds >>= fun c =>
        lift (match f.points with
          | [] => .ok []
          | p0 :: t => Out.mapM (Face.fanTriangleD o co p0) (t.zip t.tail)) >>= fun ts => release c >>= fun _ => pure (b, ts)) else raise .logicError) h := by
      unfold faceTo3ds; rw [if_neg hl]; rfl
    have hv : Face.to3dsD o f co = (Face.isConvexD o f co >>= fun convex => if convex then
        (match f.points with
          | [] => .ok []
          | p0 :: t => Out.mapM (Face.fanTriangleD o co p0) (t.zip t.tail)) else .thrown .logicError) := by
      unfold Face.to3dsD; rw [if_neg hl]; rfl
    rw [hu, hv, hm_ok (x := alloc .face3ds) rfl]
    generalize (match f.points with
          | [] => Out.ok []
          | p0 :: t => Out.mapM (Face.fanTriangleD o co p0) (t.zip t.tail)) = tr
    cases hc : Face.isConvexD o f co with
    | ok convex =>
      cases convex with
      | true =>
        rw [hm_ok (x := lift (Out.ok true)) rfl, if_pos rfl, hm_ok (x := alloc .scratch3ds) rfl, Out.ok_bind, if_pos rfl]
        have g1 := alloc_grows .scratch3ds g0.sound
        have q1 := quiet_alloc (k := .scratch3ds) (by decide) ⟨h.next + 1, (h.next, .face3ds) :: h.live, h.meshes⟩
        cases tr with
        | ok ts =>
          refine ⟨_, _, (g0.trans g1).release (a := h.next + 1) (k := .scratch3ds) (d := some' .face3ds 1) List.mem_cons_self (Nat.le_succ _) hs rfl,
            (q0.trans q1).trans (quiet_without _ (h.next + 1)), Or.inl ⟨ts, rfl, ?_, rfl, ?_⟩⟩
          · rw [hm_ok (x := lift (Out.ok ts)) rfl, hm_ok (release_ok (k := .scratch3ds) List.mem_cons_self)]
            rfl
          · exact mem_without.2 ⟨List.mem_cons_of_mem _ List.mem_cons_self, (Nat.lt_succ_self _).ne⟩
        | thrown e =>
          refine ⟨_, _, g0.trans g1, q0.trans q1, Or.inr (Or.inl ⟨e, rfl, ?_, by decide⟩)⟩
          rw [hm_thrown (x := lift (Out.thrown e)) rfl]
        | ub =>
          refine ⟨_, _, g0.trans g1, q0.trans q1, Or.inr (Or.inr ⟨rfl, ?_⟩)⟩
          rw [hm_ub (x := lift Out.ub) rfl]
      | false =>
        refine ⟨_, _, g0, q0, Or.inr (Or.inl ⟨.logicError, rfl, ?_, by decide⟩)⟩
        rw [hm_ok (x := lift (Out.ok false)) rfl]
        rfl
    | thrown e =>
      refine ⟨_, _, g0, q0, Or.inr (Or.inl ⟨e, rfl, ?_, by decide⟩)⟩
      rw [hm_thrown (x := lift (Out.thrown e)) rfl]
    | ub =>
      refine ⟨_, _, g0, q0, Or.inr (Or.inr ⟨rfl, ?_⟩)⟩
      rw [hm_ub (x := lift Out.ub) rfl]

theorem fillFaces_grows (o : SumOrder) (co : List (V3 Dbl)) (slots : Int) (fs : List Face) (k : Nat) {h : Heap} (hs : Sound h) :
    ∃ (c : Kind → Nat) (h' : Heap), Grows h h' c ∧ Quiet h h' ∧ fillFaces o co slots k fs h = (void (fillSlotsD o co slots k fs), h') ∧
      (void (fillSlotsD o co slots k fs) = .ok () → c = some' .face3ds fs.length) ∧
      (void (fillSlotsD o co slots k fs) ≠ .ub → c .mesh3ds = 0) := by
  induction fs generalizing k h with
  | nil =>
    exact ⟨_, h, Grows.refl hs, Quiet.refl h, rfl, fun _ => by funext j; simp [some'], fun _ => rfl⟩
  | cons f fs ih =>
    obtain ⟨c, h1, g, q, hh⟩ := faceTo3ds_grows o f co hs
    have hu : fillFaces o co slots k (f :: fs) h = (faceTo3ds o f co >>= fun r => touch r.1 >>= fun _ => lift (Out.idx r.2 0) >>= fun _ =>
      if (k : Int) < slots then fillFaces o co slots (k + 1) fs else undef) h := rfl
    have hv : fillSlotsD o co slots k (f :: fs) = (Face.to3dsD o f co >>= fun ts => Out.idx ts 0 >>= fun t =>
      if (k : Int) < slots then (fillSlotsD o co slots (k + 1) fs >>= fun rest => .ok (t :: rest)) else .ub) := rfl
    rcases hh with ⟨ts, ht, e, hc, m⟩ | ⟨x, ht, e, hc⟩ | ⟨ht, e⟩
    · rw [hu, hv, ht, hm_ok e, hm_ok (touch_ok m), Out.ok_bind]
      cases hi : Out.idx ts 0 with
      | ok t =>
        rw [hm_ok (x := lift (Out.ok t)) rfl, Out.ok_bind]
        by_cases hk : (k : Int) < slots
        · rw [if_pos hk, if_pos hk]
          obtain ⟨c2, h2, g2, q2, e2, ok2, no2⟩ := ih (k + 1) g.sound
          have hvoid : void (fillSlotsD o co slots (k + 1) fs >>= fun rest => .ok (t :: rest)) = void (fillSlotsD o co slots (k + 1) fs) := by
            cases fillSlotsD o co slots (k + 1) fs <;> rfl
          rw [hvoid]
          refine ⟨_, h2, g.trans g2, q.trans q2, e2, fun hok => ?_, fun hno => ?_⟩
          · rw [ok2 hok, hc]
            funext j
            simp only [some', Pi.add_apply, List.length_cons]
            split <;> omega
          · rw [Pi.add_apply, no2 hno, hc]
            rfl
        · rw [if_neg hk, if_neg hk]
          exact ⟨c, h1, g, q, rfl, fun hx => (by cases hx), fun hx => absurd rfl hx⟩
      | thrown x =>
        refine ⟨c, h1, g, q, by rw [hm_thrown (x := lift (Out.thrown x)) rfl]; rfl, fun hx => (by cases hx), fun _ => by rw [hc]; rfl⟩
      | ub =>
        refine ⟨c, h1, g, q, by rw [hm_ub (x := lift Out.ub) rfl]; rfl, fun hx => (by cases hx), fun hx => absurd rfl hx⟩
    · rw [hu, hv, ht, hm_thrown e]
      exact ⟨c, h1, g, q, rfl, fun hx => (by cases hx), fun _ => hc⟩
    · rw [hu, hv, ht, hm_ub e]
      exact ⟨c, h1, g, q, rfl, fun hx => (by cases hx), fun hx => absurd rfl hx⟩

theorem meshTo3ds_grows (o : SumOrder) (m : DMesh) {h : Heap} (hs : Sound h) :
    ∃ (c : Kind → Nat) (h' : Heap), Grows h h' c ∧ Quiet h h' ∧
      ((void (DMesh.to3ds o m) = .ok () ∧ meshTo3ds o m h = (.ok h.next, h') ∧ c = some' .mesh3ds 1 + some' .face3ds m.faces.length ∧
          (h.next, Kind.mesh3ds) ∈ h'.live) ∨
        (∃ e, DMesh.to3ds o m = .thrown e ∧ meshTo3ds o m h = (.thrown e, h') ∧ c .mesh3ds = 1) ∨
        (DMesh.to3ds o m = .ub ∧ meshTo3ds o m h = (.ub, h'))) := by
  by_cases h1 : 63 ≤ (cName m.name).length
  · refine ⟨_, h, Grows.refl hs, Quiet.refl h, Or.inr (Or.inr ⟨?_, ?_⟩)⟩
    · unfold DMesh.to3ds; rw [if_pos h1]
    · unfold meshTo3ds; rw [if_pos h1]; rfl
  by_cases h2 : 65536 ≤ m.points.length
  · refine ⟨_, h, Grows.refl hs, Quiet.refl h, Or.inr (Or.inr ⟨?_, ?_⟩)⟩
    · unfold DMesh.to3ds; rw [if_neg h1, if_pos h2]
    · unfold meshTo3ds; rw [if_neg h1, if_pos h2]; rfl
  have g0 := alloc_grows .mesh3ds hs
  have q0 := quiet_alloc (k := .mesh3ds) (by decide) h
  obtain ⟨c, h', g, q, e, ok, no⟩ := fillFaces_grows o m.points (faceSlots m.faces) m.faces 0 g0.sound
  have hu : meshTo3ds o m h = (fillFaces o m.points (faceSlots m.faces) 0 m.faces >>= fun _ => pure h.next)
      ⟨h.next + 1, (h.next, .mesh3ds) :: h.live, h.meshes⟩ := by
    unfold meshTo3ds; rw [if_neg h1, if_neg h2]; rfl
  have hv : DMesh.to3ds o m = (fillSlotsD o m.points (faceSlots m.faces) 0 m.faces >>= fun ts =>
      .ok ⟨cName m.name, m.points.map V3.toFloat, ts ++ List.replicate ((faceSlots m.faces).toNat - ts.length) Face3dsF.zero⟩) := by
    unfold DMesh.to3ds; rw [if_neg h1, if_neg h2]
  rw [hu, hv]
  refine ⟨_, h', g0.trans g, q0.trans q, ?_⟩
  cases hf : fillSlotsD o m.points (faceSlots m.faces) 0 m.faces with
  | ok ts =>
    rw [hf] at e ok
    exact Or.inl ⟨rfl, by rw [hm_ok e]; rfl, by rw [ok rfl], g.kept _ List.mem_cons_self⟩
  | thrown x =>
    rw [hf] at e no
    refine Or.inr (Or.inl ⟨x, rfl, by rw [hm_thrown e], ?_⟩)
    rw [Pi.add_apply, no (by simp [void])]
    rfl
  | ub =>
    rw [hf] at e
    exact Or.inr (Or.inr ⟨rfl, by rw [hm_ub e]⟩)

/-- After an assignment to `file->meshes`. -/
def hung (h : Heap) (f : Nat) (l : List Nat) : Heap := ⟨h.next, h.live, Function.update h.meshes f l⟩

theorem setMeshes_ok {h : Heap} {f : Nat} {k : Kind} (hf : (f, k) ∈ h.live) (l : List Nat) : setMeshes f l h = (.ok (), hung h f l) := by
  unfold setMeshes
  exact if_pos (live_here hf)

theorem Grows.hung {h0 h : Heap} {c : Kind → Nat} (g : Grows h0 h c) (f : Nat) (l : List Nat) : Grows h0 (hung h f l) c :=
  ⟨g.sound, g.next, g.kept, g.fresh, g.count⟩

/-- What writing meshes to a file does to the memory: nothing is released; only the list of that file changes. -/
structure Wrote (f : Nat) (h h' : Heap) : Prop where
  files : ∀ b ∈ h'.live, b.2 = .file3ds → b ∈ h.live
  others : ∀ g ≠ f, h'.meshes g = h.meshes g

/-- A list of distinct meshes made since `n`. -/
structure Young (n : Nat) (h : Heap) (l : List Nat) : Prop where
  nodup : l.Nodup
  live : ∀ a ∈ l, (a, Kind.mesh3ds) ∈ h.live
  young : ∀ a ∈ l, n ≤ a

theorem linkMeshes_grows (o : SumOrder) (f : Nat) (ms : List DMesh) (hub : ∀ m ∈ ms, DMesh.to3ds o m ≠ .ub) (l : List Nat) (n : Nat) {h : Heap}
    (hs : Sound h) (hf : (f, Kind.file3ds) ∈ h.live) (hl : h.meshes f = l) (hy : Young n h l) (hn : n ≤ h.next) :
    ∃ (c : Kind → Nat) (h' : Heap), Grows h h' c ∧ Wrote f h h' ∧ Young n h' (h'.meshes f) ∧
      (((∀ m ∈ ms, void (DMesh.to3ds o m) = .ok ()) ∧ linkMeshes o f l ms h = (.ok (), h') ∧ (h'.meshes f).length = l.length + ms.length ∧
          c = some' .mesh3ds ms.length + some' .face3ds (ms.map fun m => m.faces.length).sum) ∨
        (∃ e, linkMeshes o f l ms h = (.thrown e, h') ∧ c .mesh3ds + l.length = (h'.meshes f).length + 1)) := by
  induction ms generalizing l h with
  | nil =>
    refine ⟨_, h, Grows.refl hs, ⟨fun _ hb _ => hb, fun _ _ => rfl⟩, hl ▸ hy, Or.inl ⟨fun m hm => absurd hm List.not_mem_nil, rfl, by rw [hl]; rfl, ?_⟩⟩
    funext j
    simp [some']
  | cons m ms ih =>
    have hu : ∀ y : Heap, linkMeshes o f l (m :: ms) y = (meshTo3ds o m >>= fun a => setMeshes f (l ++ [a]) >>= fun _ => linkMeshes o f (l ++ [a]) ms) y :=
      fun _ => rfl
    obtain ⟨c, h1, g, q, hh⟩ := meshTo3ds_grows o m hs
    rcases hh with ⟨hok, e, hc, hm⟩ | ⟨x, hx, e, hc⟩ | ⟨hx, -⟩
    · have g1 := g.hung f (l ++ [h.next])
      have hl1 : (hung h1 f (l ++ [h.next])).meshes f = l ++ [h.next] := Function.update_self f _ h1.meshes
      have hy1 : Young n (hung h1 f (l ++ [h.next])) (l ++ [h.next]) := by
        refine ⟨?_, fun a ha => ?_, fun a ha => ?_⟩
        · refine List.nodup_append.2 ⟨hy.nodup, List.nodup_singleton _, fun a ha b hb => ?_⟩
          rw [List.mem_singleton.1 hb]
          exact (hs.1 _ (hy.live a ha)).ne
        · rcases List.mem_append.1 ha with ha | ha
          · exact g.kept _ (hy.live a ha)
          · rw [List.mem_singleton.1 ha]; exact hm
        · rcases List.mem_append.1 ha with ha | ha
          · exact hy.young a ha
          · rw [List.mem_singleton.1 ha]; exact hn
      obtain ⟨c2, h2, g2, w2, y2, hh2⟩ := ih (fun m' hm' => hub m' (List.mem_cons_of_mem _ hm')) (l ++ [h.next]) g1.sound (g.kept _ hf) hl1 hy1 (hn.trans g.next)
      have hw : Wrote f h h2 := by
        refine ⟨fun b hb hk => q.files b (w2.files b hb hk) hk, fun y hy' => ?_⟩
        rw [w2.others y hy']
        show Function.update h1.meshes f (l ++ [h.next]) y = _
        rw [Function.update_of_ne hy', q.meshes]
      refine ⟨_, h2, g1.trans g2, hw, y2, ?_⟩
      rw [hu, hm_ok e, hm_ok (setMeshes_ok (g.kept _ hf) _)]
      rcases hh2 with ⟨hall, e2, hlen, hc2⟩ | ⟨x, e2, hlen⟩
      · refine Or.inl ⟨fun m' hm' => ?_, e2, ?_, ?_⟩
        · rcases List.mem_cons.1 hm' with rfl | hm'
          · exact hok
          · exact hall m' hm'
        · rw [hlen, List.length_append, List.length_singleton, List.length_cons]
          omega
        · rw [hc, hc2]
          funext j
          simp only [some', Pi.add_apply, List.length_cons, List.map_cons, List.sum_cons]
          split <;> split <;> omega
      · refine Or.inr ⟨x, e2, ?_⟩
        rw [Pi.add_apply, hc, ← hlen, List.length_append, List.length_singleton]
        have : (some' .mesh3ds 1 + some' .face3ds m.faces.length) .mesh3ds = 1 := by simp [some']
        omega
    · refine ⟨c, h1, g, ⟨q.files, fun y _ => by rw [q.meshes]⟩, ?_, Or.inr ⟨x, ?_, ?_⟩⟩
      · rw [q.meshes, hl]
        exact ⟨hy.nodup, fun a ha => g.kept _ (hy.live a ha), hy.young⟩
      · rw [hu, hm_thrown e]
      · rw [hc, q.meshes, hl]
        omega
    · exact absurd hx (hub m List.mem_cons_self)

theorem void_ne {α : Type} {x : Out α} (h : x ≠ .ub) : void x = .ok () ∨ ∃ e, x = .thrown e := by
  cases x with
  | ok a => exact Or.inl rfl
  | thrown e => exact Or.inr ⟨e, rfl⟩
  | ub => exact absurd rfl h

/-- `write_meshes` on a handler that has its file, with meshes whose conversion is defined. -/
theorem writeMeshes_grows (o : SumOrder) (x : Handler) (f : Nat) (hx : x.file = some f) (hw : canSave x.modes = true) (ms : List DMesh) (hne : ms ≠ [])
    (hub : ∀ m ∈ ms, DMesh.to3ds o m ≠ .ub) {h : Heap} (hs : Sound h) (hf : (f, Kind.file3ds) ∈ h.live) :
    ∃ (c : Kind → Nat) (h' : Heap), Grows h h' c ∧ Wrote f h h' ∧
      (((∀ m ∈ ms, void (DMesh.to3ds o m) = .ok ()) ∧ writeMeshes o x ms h = (.ok (), h') ∧ Young h.next h' (h'.meshes f) ∧
          (h'.meshes f).length = ms.length ∧ c = some' .mesh3ds ms.length + some' .face3ds (ms.map fun m => m.faces.length).sum) ∨
        (∃ e, writeMeshes o x ms h = (.thrown e, h') ∧ c .mesh3ds = 1 ∧ h'.meshes f = h.meshes f) ∨
        (∃ e, writeMeshes o x ms h = (.thrown e, h') ∧ Young h.next h' (h'.meshes f) ∧ c .mesh3ds = (h'.meshes f).length + 1)) := by
  cases ms with
  | nil => exact absurd rfl hne
  | cons m ms =>
    have hu : writeMeshes o x (m :: ms) h = (meshTo3ds o m >>= fun a => setMeshes f [a] >>= fun _ => linkMeshes o f [a] ms) h := by
      unfold writeMeshes
      rw [if_pos hw, hx]
    obtain ⟨c, h1, g, q, hh⟩ := meshTo3ds_grows o m hs
    rcases hh with ⟨hok, e, hc, hm⟩ | ⟨t, ht, e, hc⟩ | ⟨ht, -⟩
    · have g1 := g.hung f [h.next]
      have hl1 : (hung h1 f [h.next]).meshes f = [h.next] := Function.update_self f _ h1.meshes
      have hy1 : Young h.next (hung h1 f [h.next]) [h.next] :=
        ⟨List.nodup_singleton _, fun a ha => by rw [List.mem_singleton.1 ha]; exact hm, fun a ha => by rw [List.mem_singleton.1 ha]⟩
      obtain ⟨c2, h2, g2, w2, y2, hh2⟩ := linkMeshes_grows o f ms (fun m' hm' => hub m' (List.mem_cons_of_mem _ hm')) [h.next] h.next g1.sound (g.kept _ hf) hl1 hy1 g.next
      have hw : Wrote f h h2 := by
        refine ⟨fun b hb hk => q.files b (w2.files b hb hk) hk, fun y hy' => ?_⟩
        rw [w2.others y hy']
        show Function.update h1.meshes f [h.next] y = _
        rw [Function.update_of_ne hy', q.meshes]
      refine ⟨_, h2, g1.trans g2, hw, ?_⟩
      rw [hu, hm_ok e, hm_ok (setMeshes_ok (g.kept _ hf) _)]
      rcases hh2 with ⟨hall, e2, hlen, hc2⟩ | ⟨t, e2, hlen⟩
      · refine Or.inl ⟨fun m' hm' => ?_, e2, y2, ?_, ?_⟩
        · rcases List.mem_cons.1 hm' with rfl | hm'
          · exact hok
          · exact hall m' hm'
        · rw [hlen, List.length_singleton, List.length_cons]
          omega
        · rw [hc, hc2]
          funext j
          simp only [some', Pi.add_apply, List.length_cons, List.map_cons, List.sum_cons]
          split <;> split <;> omega
      · refine Or.inr (Or.inr ⟨t, e2, y2, ?_⟩)
        rw [Pi.add_apply, hc, ← hlen, List.length_singleton]
        have : (some' .mesh3ds 1 + some' .face3ds m.faces.length) .mesh3ds = 1 := by simp [some']
        omega
    · refine ⟨c, h1, g, ⟨q.files, fun y _ => by rw [q.meshes]⟩, Or.inr (Or.inl ⟨t, ?_, hc, by rw [q.meshes]⟩)⟩
      rw [hu, hm_thrown e]
    · exact absurd ht (hub m List.mem_cons_self)

/-- A list of blocks of one kind released. -/
theorem releaseAll_ok (l : List Nat) (k : Kind) (hn : l.Nodup) {h : Heap} (hs : Sound h) (hl : ∀ a ∈ l, (a, k) ∈ h.live) :
    ∃ h', releaseAll l h = (.ok (), h') ∧ Sound h' ∧ h'.next = h.next ∧ h'.meshes = h.meshes ∧ (∀ b, b ∈ h'.live ↔ b ∈ h.live ∧ b.1 ∉ l) ∧
      ∀ j, allocated j h = allocated j h' + some' k l.length j := by
  induction l generalizing h with
  | nil => exact ⟨h, rfl, hs, rfl, rfl, fun b => by simp, fun j => by simp [some']⟩
  | cons a t ih =>
    rw [List.nodup_cons] at hn
    have ha := hl a List.mem_cons_self
    obtain ⟨h', e, s', n', m', i', c'⟩ := ih hn.2 (sound_without hs a) (fun b hb => mem_without.2 ⟨hl b (List.mem_cons_of_mem _ hb), by
      rintro rfl; exact hn.1 hb⟩)
    refine ⟨h', ?_, s', n', m', fun b => ?_, fun j => ?_⟩
    · show (release a >>= fun _ => releaseAll t) h = _
      rw [hm_ok (release_ok ha), e]
    · rw [i', mem_without, List.mem_cons]
      tauto
    · rw [count_without hs ha j, c' j]
      simp only [some', List.length_cons]
      split <;> omega

/-- `~T3DSHandler` on a handler that has its file. -/
theorem destroy_ok (x : Handler) (f : Nat) (hx : x.file = some f) {h : Heap} (hs : Sound h) (hf : (f, Kind.file3ds) ∈ h.live)
    (hn : (h.meshes f).Nodup) (hl : ∀ a ∈ h.meshes f, (a, Kind.mesh3ds) ∈ h.live) :
    ∃ h', destroy x h = (.ok (), h') ∧ Sound h' ∧ h'.next = h.next ∧ h'.meshes = h.meshes ∧
      (∀ b, b ∈ h'.live ↔ b ∈ h.live ∧ b.1 ∉ h.meshes f ∧ b.1 ≠ f) ∧
      ∀ j, allocated j h = allocated j h' + (some' .mesh3ds (h.meshes f).length j + some' .file3ds 1 j) := by
  obtain ⟨h1, e1, s1, n1, m1, i1, c1⟩ := releaseAll_ok (h.meshes f) .mesh3ds hn hs hl
  have hfm : f ∉ h.meshes f := by
    intro hm
    have h2 := List.inj_on_of_nodup_map hs.2 (hl f hm) hf rfl
    cases h2
  have hf1 : (f, Kind.file3ds) ∈ h1.live := (i1 _).2 ⟨hf, hfm⟩
  refine ⟨without h1 f, ?_, sound_without s1 f, n1, m1, fun b => ?_, fun j => ?_⟩
  · unfold destroy
    rw [hx]
    show (touch f >>= fun _ => (fun h => releaseAll (h.meshes f) h : Hm Unit) >>= fun _ => release f) h = _
    rw [hm_ok (touch_ok hf), hm_ok (x := (fun h => releaseAll (h.meshes f) h : Hm Unit)) e1, release_ok hf1]
  · rw [mem_without, i1]
    tauto
  · rw [c1 j, count_without s1 hf1 j]
    omega

theorem allocMeshes_grows (n : Nat) {h : Heap} (hs : Sound h) :
    ∃ (l : List Nat) (h' : Heap), allocMeshes n h = (.ok l, h') ∧ Grows h h' (some' .mesh3ds n) ∧ Quiet h h' ∧ Young h.next h' l ∧ l.length = n := by
  induction n generalizing h with
  | zero =>
    refine ⟨[], h, rfl, (Grows.refl hs).of_eq (by funext j; simp [some']), Quiet.refl h, ⟨List.nodup_nil, ?_, ?_⟩, rfl⟩
    · exact fun a ha => absurd ha List.not_mem_nil
    · exact fun a ha => absurd ha List.not_mem_nil
  | succ n ih =>
    have g0 := alloc_grows .mesh3ds hs
    obtain ⟨l, h', e, g, q, y, hl⟩ := ih g0.sound
    refine ⟨h.next :: l, h', ?_, (g0.trans g).of_eq ?_, (quiet_alloc (k := .mesh3ds) (by decide) h).trans q, ⟨?_, ?_, ?_⟩, by rw [List.length_cons, hl]⟩
    · show (alloc .mesh3ds >>= fun a => allocMeshes n >>= fun l => pure (a :: l)) h = _
      rw [hm_ok (x := alloc .mesh3ds) rfl, hm_ok e]
      rfl
    · funext j
      simp only [some', Pi.add_apply]
      split <;> omega
    · refine List.nodup_cons.2 ⟨fun hm => ?_, y.nodup⟩
      have h1 : h.next + 1 ≤ h.next := y.young _ hm
      omega
    · intro a ha
      rcases List.mem_cons.1 ha with rfl | ha
      · exact g.kept _ List.mem_cons_self
      · exact y.live a ha
    · intro a ha
      rcases List.mem_cons.1 ha with rfl | ha
      · exact le_refl _
      · have h1 : h.next + 1 ≤ a := y.young a ha
        omega

/-- The constructor, when lib3ds gives a file. -/
theorem construct_ok {L : Type} (load : Text → Option (File3ds L)) (modes : Modes) (p : Path) (fs : Fs) (F : File3ds L)
    (hc : T3ds.construct load modes p fs = .ok (some F)) {h : Heap} (hs : Sound h) :
    ∃ h', construct load modes p fs h = (.ok ⟨modes, some h.next⟩, h') ∧ Grows h h' (some' .file3ds 1 + some' .mesh3ds F.meshes.length) ∧
      (h.next, Kind.file3ds) ∈ h'.live ∧ Young h.next h' (h'.meshes h.next) ∧ (h'.meshes h.next).length = F.meshes.length ∧
      (∀ b ∈ h'.live, b.2 = .file3ds → b ∈ h.live ∨ b.1 = h.next) ∧ ∀ g ≠ h.next, h'.meshes g = h.meshes g := by
  have g0 := alloc_grows .file3ds hs
  obtain ⟨l, h1, e1, g1, q1, y1, hl⟩ := allocMeshes_grows F.meshes.length g0.sound
  have m1 : (h.next, Kind.file3ds) ∈ h1.live := g1.kept _ List.mem_cons_self
  have hm : (hung h1 h.next l).meshes h.next = l := Function.update_self h.next _ h1.meshes
  refine ⟨hung h1 h.next l, ?_, (g0.trans g1).hung _ _, m1, ?_, by rw [hm, hl], fun b hb hk => ?_, fun g hg => ?_⟩
  · unfold construct
    rw [hm_ok (x := lift (T3ds.construct load modes p fs)) (a := some F) (h' := h) (by unfold lift; rw [hc])]
    show (alloc .file3ds >>= fun f => allocMeshes F.meshes.length >>= fun l => setMeshes f l >>= fun _ => pure (⟨modes, some f⟩ : Handler)) h = _
    rw [hm_ok (x := alloc .file3ds) rfl, hm_ok e1, hm_ok (setMeshes_ok m1 l)]
    rfl
  · rw [hm]
    exact ⟨y1.nodup, y1.live, fun a ha => (Nat.le_succ _).trans (y1.young a ha)⟩
  · rcases List.mem_cons.1 (q1.files b hb hk) with rfl | hb'
    · exact Or.inr rfl
    · exact Or.inl hb'
  · show Function.update h1.meshes h.next l g = _
    rw [Function.update_of_ne hg, q1.meshes]

end City.Mem
