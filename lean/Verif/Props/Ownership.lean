import Verif.Props.Owner
import Verif.Props.Mesh3dsDbl
/-
C125: a 3DS file held by a handler is released once: the theorems.
-/
set_option linter.unusedSectionVars false
namespace City.Props
open City.Spec City.Mem

/-- C125: a program that neither copies nor assigns handlers and reads only files that lib3ds loads is never undefined; at any time every handler has a file
of its own, and every 3DS file in memory belongs to a handler: when they are all gone none is left. -/
theorem C125_owned_partial {L : Type} (o : SumOrder) (ops : List (Mem.Step L)) (hp : ∀ x ∈ ops, SingleOwner x) (hc : ∀ x ∈ ops, Converts o x) :
    ∃ s, State.run o ops State.start = .ok s ∧
      (∀ v x, s.vars v = some x → ∃ f, x.file = some f ∧ (f, Kind.file3ds) ∈ s.heap.live ∧ ∀ w y, w ≠ v → s.vars w = some y → y.file ≠ some f) ∧
      (∀ f, (f, Kind.file3ds) ∈ s.heap.live → ∃ v x, s.vars v = some x ∧ x.file = some f) ∧
      ((∀ v, s.vars v = none) → allocated .file3ds s.heap = 0) := by
  obtain ⟨s, e, h⟩ := owned_run o ops hp hc State.start owned_start
  refine ⟨s, e, fun v x hv => ?_, h.owner, fun hn => ?_⟩
  · obtain ⟨f, hf, hl, -⟩ := h.has v x hv
    exact ⟨f, hf, hl, fun w y hw hy => h.apart v w x y f hw.symm hv hy hf⟩
  · refine List.countP_eq_zero.2 fun b hb hk => ?_
    have hk' : b.2 = .file3ds := of_decide_eq_true hk
    obtain ⟨v, x, hv, -⟩ := h.owner b.1 (by rw [← hk']; exact hb)
    rw [hn v] at hv
    cases hv

/-- C125: after such a program, a copy of a handler is fatal: when both are destroyed, in either order, the file is released twice. -/
theorem C125_copy {L : Type} (o : SumOrder) (ops : List (Mem.Step L)) (hp : ∀ x ∈ ops, SingleOwner x) (hc : ∀ x ∈ ops, Converts o x) (s : State)
    (hs : State.run o ops State.start = .ok s) (v w : Nat) (hv : ∃ x, s.vars v = some x) (hw : s.vars w = none) :
    State.run o (ops ++ [.copy w v, .destroy v, .destroy w]) State.start = .ub ∧
      State.run o (ops ++ [.copy w v, .destroy w, .destroy v]) State.start = .ub := by
  obtain ⟨s', e, h⟩ := owned_run o ops hp hc State.start owned_start
  rw [hs] at e
  cases e
  obtain ⟨x, hv⟩ := hv
  obtain ⟨f, hf, hl, yf⟩ := h.has v x hv
  have hvw : v ≠ w := by rintro rfl; rw [hw] at hv; cases hv
  obtain ⟨h', e, s', n', m', i', -⟩ := destroy_ok x f hf h.sound hl yf.nodup yf.live
  have hd : (destroy x h').1 = .ub := destroy_dead x f hf h' fun k hk => ((i' _).1 hk).2.2 rfl
  have h1 : s.step (L := L) o (.copy w v) = (.ok (), ⟨s.heap, Function.update s.vars w (some x)⟩) := by simp only [State.step, hv, hw]
  have e1 : (Function.update s.vars w (some x)) v = some x := by rw [Function.update_of_ne hvw, hv]
  have e2 : (Function.update s.vars w (some x)) w = some x := Function.update_self _ _ _
  constructor
  · have h2 : State.step (L := L) o ⟨s.heap, Function.update s.vars w (some x)⟩ (.destroy v) =
        (.ok (), ⟨h', Function.update (Function.update s.vars w (some x)) v none⟩) := by simp only [State.step, e1, e]
    have e3 : (Function.update (Function.update s.vars w (some x)) v none) w = some x := by rw [Function.update_of_ne hvw.symm, e2]
    have h3 : (State.step (L := L) o ⟨h', Function.update (Function.update s.vars w (some x)) v none⟩ (.destroy w)).1 = .ub := by
      simp only [State.step, e3, hd]
    rw [run_append, hs, Out.ok_bind]
    simp only [State.run, h1, h2]
    generalize State.step o _ (Mem.Step.destroy w) = r at h3
    obtain ⟨r1, r2⟩ := r
    dsimp only at h3
    rw [h3]
  · have h2 : State.step (L := L) o ⟨s.heap, Function.update s.vars w (some x)⟩ (.destroy w) =
        (.ok (), ⟨h', Function.update (Function.update s.vars w (some x)) w none⟩) := by simp only [State.step, e2, e]
    have e3 : (Function.update (Function.update s.vars w (some x)) w none) v = some x := by rw [Function.update_of_ne hvw, e1]
    have h3 : (State.step (L := L) o ⟨h', Function.update (Function.update s.vars w (some x)) w none⟩ (.destroy v)).1 = .ub := by
      simp only [State.step, e3, hd]
    rw [run_append, hs, Out.ok_bind]
    simp only [State.run, h1, h2]
    generalize State.step o _ (Mem.Step.destroy v) = r at h3
    obtain ⟨r1, r2⟩ := r
    dsimp only at h3
    rw [h3]

/-- C125: an assignment between two handlers loses the file of the one assigned to (it stays allocated and no handler has it), and destroying both releases
the other file twice. -/
theorem C125_assign {L : Type} (o : SumOrder) (ops : List (Mem.Step L)) (hp : ∀ x ∈ ops, SingleOwner x) (hc : ∀ x ∈ ops, Converts o x) (s : State)
    (hs : State.run o ops State.start = .ok s) (v w : Nat) (hvw : v ≠ w) (hv : ∃ x, s.vars v = some x) (hw : ∃ y, s.vars w = some y) :
    (∃ s' f, State.run o (ops ++ [.assign v w]) State.start = .ok s' ∧ (f, Kind.file3ds) ∈ s'.heap.live ∧
        ∀ u z, s'.vars u = some z → z.file ≠ some f) ∧
      State.run o (ops ++ [.assign v w, .destroy v, .destroy w]) State.start = .ub := by
  obtain ⟨s', e, h⟩ := owned_run o ops hp hc State.start owned_start
  rw [hs] at e
  cases e
  obtain ⟨x, hv⟩ := hv
  obtain ⟨y, hw⟩ := hw
  obtain ⟨f, hf, hl, -⟩ := h.has v x hv
  obtain ⟨g, hg, hgl, yg⟩ := h.has w y hw
  obtain ⟨h', e, s', n', m', i', -⟩ := destroy_ok y g hg h.sound hgl yg.nodup yg.live
  have hd : (destroy y h').1 = .ub := destroy_dead y g hg h' fun k hk => ((i' _).1 hk).2.2 rfl
  have h1 : s.step (L := L) o (.assign v w) = (.ok (), ⟨s.heap, Function.update s.vars v (some y)⟩) := by simp only [State.step, hv, hw]
  have e1 : (Function.update s.vars v (some y)) v = some y := Function.update_self _ _ _
  constructor
  · refine ⟨⟨s.heap, Function.update s.vars v (some y)⟩, f, ?_, hl, fun u z hu hz => ?_⟩
    · rw [run_append, hs, Out.ok_bind]
      simp only [State.run, h1]
    · by_cases e : u = v
      · subst e
        dsimp only at hu
        rw [Function.update_self] at hu
        cases hu
        exact h.apart u w x y f hvw hv hw hf hz
      · dsimp only at hu
        rw [Function.update_of_ne e] at hu
        exact h.apart v u x z f (Ne.symm e) hv hu hf hz
  · have h2 : State.step (L := L) o ⟨s.heap, Function.update s.vars v (some y)⟩ (.destroy v) =
        (.ok (), ⟨h', Function.update (Function.update s.vars v (some y)) v none⟩) := by simp only [State.step, e1, e]
    have e3 : (Function.update (Function.update s.vars v (some y)) v none) w = some y := by
      rw [Function.update_of_ne hvw.symm, Function.update_of_ne hvw.symm, hw]
    have h3 : (State.step (L := L) o ⟨h', Function.update (Function.update s.vars v (some y)) v none⟩ (.destroy w)).1 = .ub := by
      simp only [State.step, e3, hd]
    rw [run_append, hs, Out.ok_bind]
    simp only [State.run, h1, h2]
    generalize State.step o _ (Mem.Step.destroy w) = r at h3
    obtain ⟨r1, r2⟩ := r
    dsimp only at h3
    rw [h3]

/-- C125: a handler for a file that lib3ds cannot load cannot even be destroyed. -/
theorem C125_unreadable {L : Type} (o : SumOrder) (s : State) (v : Nat) (hv : s.vars v = none) (load : Text → Option (File3ds L)) (modes : Modes) (p : Path)
    (fs : Fs) (t : Text) (hm : canRead modes = true) (hw : canSave modes = false) (hp : fs p = some (.file t)) (hl : load t = none) :
    State.run o [.make v load modes p fs, .destroy v] s = .ub := by
  have hc : T3ds.construct load modes p fs = .ok none := by
    unfold T3ds.construct
    rw [hm, hw, hp, ← hl]
    rfl
  have h1 : s.step o (.make v load modes p fs) = (.ok (), ⟨s.heap, Function.update s.vars v (some ⟨modes, none⟩)⟩) := by
    simp only [State.step, hv, construct_none hc]
  have e1 : (Function.update s.vars v (some (⟨modes, none⟩ : Handler))) v = some ⟨modes, none⟩ := Function.update_self _ _ _
  have h2 : (State.step (L := L) o ⟨s.heap, Function.update s.vars v (some ⟨modes, none⟩)⟩ (.destroy v)).1 = .ub := by
    simp only [State.step, e1]
    rfl
  simp only [State.run, h1]
  generalize State.step o _ (Mem.Step.destroy v) = r at h2
  obtain ⟨r1, r2⟩ := r
  dsimp only at h2
  rw [h2]

/-- C125: reading a file that lib3ds loads, from the construction of the handler to its destruction, leaves nothing behind. -/
theorem C125_reading {L : Type} (load : Text → Option (File3ds L)) (modes : Modes) (p : Path) (fs : Fs) (t : Text) (F : File3ds L)
    (hm : canRead modes = true) (hw : canSave modes = false) (hp : fs p = some (.file t)) (hl : load t = some F) (h : Heap) (hs : Sound h) :
    ∃ h', (do let x ← construct load modes p fs; getMeshes x; destroy x : Hm Unit) h = (.ok (), h') ∧ LeftOver h h' (fun _ => 0) := by
  have hc : T3ds.construct load modes p fs = .ok (some F) := by
    unfold T3ds.construct
    rw [hm, hw, hp, ← hl]
    rfl
  obtain ⟨h1, e1, g, m, y, len, -, -⟩ := construct_ok load modes p fs F hc hs
  obtain ⟨h', e, s', n', m', i', c'⟩ := destroy_ok ⟨modes, some h.next⟩ h.next rfl g.sound m y.nodup y.live
  refine ⟨h', ?_, fun b hb => (i' b).2 ⟨g.kept b hb, fun hb' => ?_, ?_⟩, fun k => ?_⟩
  · show (construct load modes p fs >>= fun x => getMeshes x >>= fun _ => destroy x) h = _
    have e2 : getMeshes ⟨modes, some h.next⟩ h1 = (.ok (), h1) := by
      unfold getMeshes
      rw [if_pos hm]
      exact touch_ok m
    rw [hm_ok e1, hm_ok e2, e]
  · have h2 := y.young _ hb'
    have h3 := hs.1 b hb
    omega
  · exact (hs.1 b hb).ne
  · have h2 := c' k
    have h3 := g.count k
    rw [len] at h2
    rw [h2] at h3
    simp only [Pi.add_apply] at h3
    show allocated k h' = allocated k h + 0
    omega

/-- Meshes written to one handler, one list after the other. -/
noncomputable def writeAll (o : SumOrder) (x : Handler) : List (List DMesh) → Hm Unit
  | [] => pure ()
  | ms :: t => do
    writeMeshes o x ms
    writeAll o x t

theorem writeAll_grows (o : SumOrder) (x : Handler) (f : Nat) (hx : x.file = some f) (hw : canSave x.modes = true) (wss : List (List DMesh))
    (hne : ∀ ms ∈ wss, ms ≠ []) (hok : ∀ ms ∈ wss, ∀ m ∈ ms, void (DMesh.to3ds o m) = .ok ()) (n : Nat) {h : Heap} (hs : Sound h)
    (hf : (f, Kind.file3ds) ∈ h.live) (hy : Young n h (h.meshes f)) (hn : n ≤ h.next) :
    ∃ h', writeAll o x wss h = (.ok (), h') ∧
      Grows h h' (some' .mesh3ds (wss.map List.length).sum + some' .face3ds (wss.flatten.map fun m => m.faces.length).sum) ∧
      Young n h' (h'.meshes f) ∧ (h'.meshes f).length = (wss.getLast?.map List.length).getD (h.meshes f).length := by
  induction wss generalizing h with
  | nil => exact ⟨h, rfl, (Grows.refl hs).of_eq (by funext j; simp [some']), hy, rfl⟩
  | cons ms t ih =>
    have hub : ∀ m ∈ ms, DMesh.to3ds o m ≠ .ub := by
      intro m hm e
      have h1 := hok ms List.mem_cons_self m hm
      rw [e] at h1
      cases h1
    obtain ⟨c, h1, g, wr, hh⟩ := writeMeshes_grows o x f hx hw ms (hne ms List.mem_cons_self) hub hs hf
    have nothrow : ∀ e h2, writeMeshes o x ms h ≠ (.thrown e, h2) := by
      intro e h2 he
      cases ms with
      | nil => exact hne [] List.mem_cons_self rfl
      | cons m ms =>
        rcases hh with ⟨-, e', -⟩ | ⟨e', h3, h4, -⟩ | ⟨e', h3, -⟩
        · rw [e'] at he; cases he
        all_goals
          have key : ∀ (l : List Nat) (k : List DMesh) (y : Heap), (∀ m ∈ k, void (DMesh.to3ds o m) = .ok ()) → Sound y → (f, Kind.file3ds) ∈ y.live →
              ∃ y', linkMeshes o f l k y = (.ok (), y') := by
            intro l k
            induction k generalizing l with
            | nil => exact fun y _ _ _ => ⟨y, rfl⟩
            | cons m' k' ih' =>
              intro y hk sy fy
              obtain ⟨c', y1, gy, qy, hy'⟩ := meshTo3ds_grows o m' sy
              rcases hy' with ⟨-, ey, -, -⟩ | ⟨z, hz, -, -⟩ | ⟨hz, -⟩
              · obtain ⟨y', e3⟩ := ih' (l ++ [y.next]) (hung y1 f (l ++ [y.next])) (fun m hm => hk m (List.mem_cons_of_mem _ hm)) gy.sound (gy.kept _ fy)
                refine ⟨y', ?_⟩
                show (meshTo3ds o m' >>= fun a => setMeshes f (l ++ [a]) >>= fun _ => linkMeshes o f (l ++ [a]) k') y = _
                rw [hm_ok ey, hm_ok (setMeshes_ok (gy.kept _ fy) _), e3]
              · have h5 := hk m' List.mem_cons_self
                rw [hz] at h5
                cases h5
              · have h5 := hk m' List.mem_cons_self
                rw [hz] at h5
                cases h5
          have hu : writeMeshes o x (m :: ms) h = (meshTo3ds o m >>= fun a => setMeshes f [a] >>= fun _ => linkMeshes o f [a] ms) h := by
            unfold writeMeshes
            rw [if_pos hw, hx]
          obtain ⟨c', y1, gy, qy, hy'⟩ := meshTo3ds_grows o m hs
          rcases hy' with ⟨-, ey, -, -⟩ | ⟨z, hz, -, -⟩ | ⟨hz, -⟩
          · obtain ⟨y', e3⟩ := key [h.next] ms (hung y1 f [h.next]) (fun m' hm' => hok _ List.mem_cons_self m' (List.mem_cons_of_mem _ hm')) gy.sound (gy.kept _ hf)
            rw [hu, hm_ok ey, hm_ok (setMeshes_ok (gy.kept _ hf) _), e3] at he
            cases he
          · have h5 := hok _ List.mem_cons_self m List.mem_cons_self
            rw [hz] at h5
            cases h5
          · have h5 := hok _ List.mem_cons_self m List.mem_cons_self
            rw [hz] at h5
            cases h5
    rcases hh with ⟨-, e, y, len, hc⟩ | ⟨t', e, -, -⟩ | ⟨t', e, -, -⟩
    · obtain ⟨h2, e2, g2, y2, len2⟩ := ih (fun k hk => hne k (List.mem_cons_of_mem _ hk)) (fun k hk => hok k (List.mem_cons_of_mem _ hk)) g.sound
        (g.kept _ hf) (y.older hn) (hn.trans g.next)
      refine ⟨h2, ?_, (g.trans g2).of_eq ?_, y2, ?_⟩
      · show (writeMeshes o x ms >>= fun _ => writeAll o x t) h = _
        rw [hm_ok e, e2]
      · rw [hc]
        funext j
        simp only [some', Pi.add_apply, List.map_cons, List.sum_cons, List.flatten_cons, List.map_append, List.sum_append]
        split <;> split <;> omega
      · rw [len2, len]
        cases t with
        | nil => rfl
        | cons k t' => rw [List.getLast?_cons_cons]; cases hk : (k :: t').getLast? with
          | none => simp at hk
          | some z => rfl
    · exact absurd e (nothrow _ _)
    · exact absurd e (nothrow _ _)

/-- C125: a handler made for writing, to which lists of meshes are written, and destroyed: all is released that hangs from its file at the end, which are the
meshes of the last list. The meshes of the lists before stay, and so does an array for every face ever written. -/
theorem C125_writing {L : Type} (o : SumOrder) (load : Text → Option (File3ds L)) (modes : Modes) (p : Path) (fs : Fs) (hm : canRead modes = false)
    (hw : canSave modes = true) (wss : List (List DMesh)) (hne : ∀ ms ∈ wss, ms ≠ []) (hok : ∀ ms ∈ wss, ∀ m ∈ ms, void (DMesh.to3ds o m) = .ok ())
    (h : Heap) (hs : Sound h) :
    ∃ h', (do let x ← construct load modes p fs; writeAll o x wss; destroy x : Hm Unit) h = (.ok (), h') ∧
      LeftOver h h' (some' .mesh3ds (wss.dropLast.map List.length).sum + some' .face3ds (wss.flatten.map fun m => m.faces.length).sum) := by
  have hc : T3ds.construct load modes p fs = .ok (some ⟨[], .nil⟩) := by
    unfold T3ds.construct
    rw [hm, hw]
    rfl
  obtain ⟨h1, e1, g, m, y, len, -, -⟩ := construct_ok load modes p fs ⟨[], .nil⟩ hc hs
  obtain ⟨h2, e2, g2, y2, len2⟩ := writeAll_grows o ⟨modes, some h.next⟩ h.next rfl hw wss hne hok h.next g.sound m y g.next
  obtain ⟨h', e, s', n', m', i', c'⟩ := destroy_ok ⟨modes, some h.next⟩ h.next rfl g2.sound (g2.kept _ m) y2.nodup y2.live
  refine ⟨h', ?_, fun b hb => (i' b).2 ⟨g2.kept _ (g.kept b hb), fun hb' => ?_, (hs.1 b hb).ne⟩, fun k => ?_⟩
  · show (construct load modes p fs >>= fun x => writeAll o x wss >>= fun _ => destroy x) h = _
    rw [hm_ok e1, hm_ok e2, e]
  · have h2 := y2.young _ hb'
    have h3 := hs.1 b hb
    omega
  · have a1 := c' k
    have a2 := g.count k
    have a3 := g2.count k
    rw [len2, len] at a1
    rw [a3, a2] at a1
    have hlast : (wss.map List.length).sum = (wss.dropLast.map List.length).sum + (wss.getLast?.map List.length).getD 0 := by
      rcases List.eq_nil_or_concat wss with rfl | ⟨t, z, rfl⟩
      · rfl
      · simp
    simp only [some', Pi.add_apply, List.length_nil] at a1 ⊢
    rw [hlast] at a1
    split at a1 <;> split at a1 <;> split at a1 <;> simp_all <;> omega

/-- C125: a write that throws (a face that is not convex, say) loses the mesh it was working on: after the destruction of the handler one mesh is left. -/
theorem C125_failed_write {L : Type} (o : SumOrder) (load : Text → Option (File3ds L)) (modes : Modes) (p : Path) (fs : Fs) (hm : canRead modes = false)
    (hw : canSave modes = true) (ms : List DMesh) (hne : ms ≠ []) (hub : ∀ m ∈ ms, DMesh.to3ds o m ≠ .ub) (m0 : DMesh) (h0 : m0 ∈ ms) (e0 : Exc)
    (hthrow : DMesh.to3ds o m0 = .thrown e0) (h : Heap) (hs : Sound h) :
    ∃ x h1 e h2 h3, construct load modes p fs h = (.ok x, h1) ∧ writeMeshes o x ms h1 = (.thrown e, h2) ∧ destroy x h2 = (.ok (), h3) ∧
      allocated .file3ds h3 = allocated .file3ds h ∧ allocated .mesh3ds h3 = allocated .mesh3ds h + 1 := by
  have hc : T3ds.construct load modes p fs = .ok (some ⟨[], .nil⟩) := by
    unfold T3ds.construct
    rw [hm, hw]
    rfl
  obtain ⟨h1, e1, g, m, y, len, -, -⟩ := construct_ok load modes p fs ⟨[], .nil⟩ hc hs
  obtain ⟨c, h2, g2, wr, hh⟩ := writeMeshes_grows o ⟨modes, some h.next⟩ h.next rfl hw ms hne hub g.sound m
  have hfile : allocated .file3ds h2 = allocated .file3ds h1 := by
    unfold allocated
    have p1 : h1.live.filter (fun b => b.2 = .file3ds) ⊆ h2.live.filter (fun b => b.2 = .file3ds) := by
      intro b hb
      rw [List.mem_filter] at hb ⊢
      exact ⟨g2.kept b hb.1, hb.2⟩
    have p2 : h2.live.filter (fun b => b.2 = .file3ds) ⊆ h1.live.filter (fun b => b.2 = .file3ds) := by
      intro b hb
      rw [List.mem_filter] at hb ⊢
      exact ⟨wr.files b hb.1 (of_decide_eq_true hb.2), hb.2⟩
    have n1 : (h1.live.filter (fun b => b.2 = .file3ds)).Nodup := (List.Nodup.of_map _ g.sound.2).filter _
    have n2 : (h2.live.filter (fun b => b.2 = .file3ds)).Nodup := (List.Nodup.of_map _ g2.sound.2).filter _
    rw [List.countP_eq_length_filter, List.countP_eq_length_filter]
    exact Nat.le_antisymm (n2.subperm p2).length_le (n1.subperm p1).length_le
  have a0 : allocated .file3ds h1 = allocated .file3ds h + 1 := by rw [g.count]; simp [some']
  have b0 : allocated .mesh3ds h1 = allocated .mesh3ds h := by rw [g.count]; simp [some']
  rcases hh with ⟨hall, -⟩ | ⟨t, e2, hc2, hm2⟩ | ⟨t, e2, y2, hc2⟩
  · have h5 := hall m0 h0
    rw [hthrow] at h5
    cases h5
  · have hnil : h2.meshes h.next = [] := by rw [hm2]; exact List.length_eq_zero_iff.1 len
    obtain ⟨h', e, s', n', m', i', c'⟩ := destroy_ok ⟨modes, some h.next⟩ h.next rfl g2.sound (g2.kept _ m) (by rw [hnil]; exact List.nodup_nil)
      (by rw [hnil]; exact fun a ha => absurd ha List.not_mem_nil)
    refine ⟨_, h1, t, h2, h', e1, e2, e, ?_, ?_⟩
    · have a1 := c' .file3ds
      simp [some'] at a1
      omega
    · have a1 := c' .mesh3ds
      have a2 := g2.count .mesh3ds
      rw [hnil] at a1
      simp [some'] at a1
      omega
  · obtain ⟨h', e, s', n', m', i', c'⟩ := destroy_ok ⟨modes, some h.next⟩ h.next rfl g2.sound (g2.kept _ m) y2.nodup y2.live
    refine ⟨_, h1, t, h2, h', e1, e2, e, ?_, ?_⟩
    · have a1 := c' .file3ds
      simp [some'] at a1
      omega
    · have a1 := c' .mesh3ds
      have a2 := g2.count .mesh3ds
      simp [some'] at a1
      omega

/-- Files without any file. -/
def noFiles : Fs := fun _ => none

/-- A program that makes one handler for writing. -/
def oneWriter : List (Mem.Step Unit) := [.make 0 (fun _ => none) (only "write") ["a".toList] noFiles]

theorem oneWriter_single : ∀ x ∈ oneWriter, SingleOwner x := by
  intro x hx
  rw [List.mem_singleton.1 hx]
  show T3ds.construct _ _ _ _ ≠ _
  have : T3ds.construct (L := Unit) (fun _ => none) (only "write") ["a".toList] noFiles = .ok (some ⟨[], .nil⟩) := by
    unfold T3ds.construct
    rw [show canRead (only "write") = false by decide, show canSave (only "write") = true by decide]
    rfl
  rw [this]
  simp

theorem oneWriter_converts (o : SumOrder) : ∀ x ∈ oneWriter, Converts o x := by
  intro x hx
  rw [List.mem_singleton.1 hx]
  exact trivial

theorem oneWriter_run (o : SumOrder) : ∃ s, State.run o oneWriter State.start = .ok s ∧ (∃ x, s.vars 0 = some x) ∧ s.vars 1 = none := by
  have hc : T3ds.construct (L := Unit) (fun _ => none) (only "write") ["a".toList] noFiles = .ok (some ⟨[], .nil⟩) := by
    unfold T3ds.construct
    rw [show canRead (only "write") = false by decide, show canSave (only "write") = true by decide]
    rfl
  obtain ⟨h', e, -⟩ := owned_make _ _ _ _ _ 0 State.start owned_start rfl hc
  refine ⟨⟨h', Function.update State.start.vars 0 (some ⟨only "write", some State.start.heap.next⟩)⟩, ?_, ⟨⟨only "write", some State.start.heap.next⟩, Function.update_self 0 _ State.start.vars⟩, ?_⟩
  · have hv : State.start.vars 0 = none := rfl
    simp only [oneWriter, State.run, State.step, hv, e]
  · exact Function.update_of_ne (show (1 : Nat) ≠ 0 by decide) (some ⟨only "write", some State.start.heap.next⟩) State.start.vars

/-- C125 fails: a handler, its copy, and the end of both. -/
theorem C125_refuted : ¬ C125_full := by
  intro hc
  let o : SumOrder := .xyz
  obtain ⟨s, e, hv, hw⟩ := oneWriter_run o
  obtain ⟨s', e', -⟩ := hc Unit o (oneWriter ++ [.copy 1 0, .destroy 0, .destroy 1]) (by
    intro x hx
    rcases List.mem_append.1 hx with hx | hx
    · exact oneWriter_converts o x hx
    · simp only [List.mem_cons, List.not_mem_nil, or_false] at hx
      rcases hx with rfl | rfl | rfl <;> exact trivial)
  rw [(C125_copy o oneWriter oneWriter_single (oneWriter_converts o) s e 0 1 hv hw).1] at e'
  cases e'

/-- C125: in particular, writing one list of meshes of triangles to a file leaves an array for every triangle and nothing else. -/
theorem C125_triangles {L : Type} (o : SumOrder) (load : Text → Option (File3ds L)) (modes : Modes) (p : Path) (fs : Fs) (hm : canRead modes = false)
    (hw : canSave modes = true) (ms : List DMesh) (hne : ms ≠ []) (hfit : ∀ m ∈ ms, Fits3dsD m) (hv : ∀ m ∈ ms, ValidD m)
    (h3 : ∀ m ∈ ms, ∀ f ∈ m.faces, f.degree = 3) (h : Heap) (hs : Sound h) :
    ∃ h', (do let x ← construct load modes p fs; writeAll o x [ms]; destroy x : Hm Unit) h = (.ok (), h') ∧
      LeftOver h h' (some' .face3ds (ms.map fun m => m.faces.length).sum) := by
  obtain ⟨h', e, hl⟩ := C125_writing o load modes p fs hm hw [ms] (fun k hk => by rw [List.mem_singleton.1 hk]; exact hne) (fun k hk m hmem => by
    rw [List.mem_singleton.1 hk] at hmem
    obtain ⟨d, hd, -⟩ := C91_shape o m (hfit m hmem) (hv m hmem) (triangles_convex o m (hv m hmem) (h3 m hmem))
    rw [hd]
    rfl) h hs
  refine ⟨h', e, ?_⟩
  convert hl using 1
  funext j
  simp [some']

/-- A mesh of one triangle. -/
def oneTriangle : DMesh := ⟨['t'], [⟨.fin 0, .fin 0, .fin 0⟩, ⟨.fin 1, .fin 0, .fin 0⟩, ⟨.fin 0, .fin 1, .fin 0⟩], [⟨[0, 1, 2]⟩]⟩

/-- The hypotheses of C125_triangles and of C125_writing are met by it. -/
example : Fits3dsD oneTriangle ∧ ValidD oneTriangle ∧ (∀ f ∈ oneTriangle.faces, f.degree = 3) ∧ canSave (only "write") = true ∧ canRead (only "write") = false := by
  refine ⟨⟨by decide, by decide⟩, fun f hf => ?_, fun f hf => ?_, by decide, by decide⟩
  · rw [List.mem_singleton.1 hf]
    exact ⟨by decide, by decide, by decide⟩
  · rw [List.mem_singleton.1 hf]
    rfl

/-- The hypotheses of C125_failed_write are met by a mesh with a face of three vertices and no point. -/
example : DMesh.to3ds .xyz ⟨['t'], [], [⟨[0, 1, 2]⟩]⟩ = .thrown .outOfRange := by
  unfold DMesh.to3ds
  rw [if_neg (by decide), if_neg (by decide)]
  rfl

/-- The hypotheses of C125_unreadable and of C125_reading are met. -/
example : ∃ (fs : Fs) (load : Text → Option (File3ds Unit)) (F : File3ds Unit), fs ["a".toList] = some (.file []) ∧ load ['x'] = none ∧ load [] = some F ∧
    canRead (only "read") = true ∧ canSave (only "read") = false :=
  ⟨fun _ => some (.file []), fun t => if t = [] then some ⟨[(), ()], .nil⟩ else none, ⟨[(), ()], .nil⟩, rfl, rfl, rfl, by decide, by decide⟩

/-- The hypotheses of C125_owned_partial and of C125_copy are met by the program with one handler for writing. -/
example (o : SumOrder) : (∀ x ∈ oneWriter, SingleOwner x) ∧ (∀ x ∈ oneWriter, Converts o x) ∧
    ∃ s, State.run o oneWriter State.start = .ok s ∧ (∃ x, s.vars 0 = some x) ∧ s.vars 1 = none :=
  ⟨oneWriter_single, oneWriter_converts o, oneWriter_run o⟩

end City.Props
