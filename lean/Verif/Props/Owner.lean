import Verif.Props.Owned
/-
C125: a 3DS file held by a handler is released once, whatever the program does with its handlers.
-/
set_option linter.unusedSectionVars false
namespace City.Spec
open City.Mem

/-- A step that gives no undefined conversion: meshes are written, and each of them has a defined conversion. -/
def Converts {L : Type} (o : SumOrder) : Mem.Step L → Prop
  | .write _ ms => ms ≠ [] ∧ ∀ m ∈ ms, DMesh.to3ds o m ≠ .ub
  | _ => True

/-- A step of a program that neither copies nor assigns handlers, and reads only files that lib3ds can load. -/
def SingleOwner {L : Type} : Mem.Step L → Prop
  | .make _ load modes p fs => T3ds.construct load modes p fs ≠ .ok none
  | .copy _ _ => False
  | .assign _ _ => False
  | _ => True

/-- C125, in full: no program that only writes meshes with a defined conversion runs into undefined behaviour by what it does with handlers, and when all
its handlers are gone no 3DS file and no mesh of one is allocated. -/
def C125_full : Prop :=
  ∀ (L : Type) (o : SumOrder) (ops : List (Mem.Step L)), (∀ x ∈ ops, Converts o x) →
    ∃ s, State.run o ops State.start = .ok s ∧
      ((∀ v, s.vars v = none) → ∀ b ∈ s.heap.live, b.2 ≠ .file3ds ∧ b.2 ≠ .mesh3ds)

end City.Spec

namespace City.Mem
open City.Spec

/-- Every handler owns a file with its meshes, and every file has an owner. -/
structure Owned (s : State) : Prop where
  sound : Sound s.heap
  has : ∀ v x, s.vars v = some x → ∃ f, x.file = some f ∧ (f, Kind.file3ds) ∈ s.heap.live ∧ Young 0 s.heap (s.heap.meshes f)
  apart : ∀ v w x y f, v ≠ w → s.vars v = some x → s.vars w = some y → x.file = some f → y.file ≠ some f
  disjoint : ∀ v w x y f g, v ≠ w → s.vars v = some x → s.vars w = some y → x.file = some f → y.file = some g → ∀ a ∈ s.heap.meshes f, a ∉ s.heap.meshes g
  owner : ∀ f, (f, Kind.file3ds) ∈ s.heap.live → ∃ v x, s.vars v = some x ∧ x.file = some f

theorem owned_start : Owned State.start :=
  ⟨⟨fun _ hb => absurd hb List.not_mem_nil, List.nodup_nil⟩, fun _ _ h => (by cases h), fun _ _ _ _ _ _ h => (by cases h),
    fun _ _ _ _ _ _ _ h => (by cases h), fun _ hb => absurd hb List.not_mem_nil⟩

theorem Young.older {n m : Nat} {h : Heap} {l : List Nat} (y : Young n h l) (hm : m ≤ n) : Young m h l :=
  ⟨y.nodup, y.live, fun a ha => hm.trans (y.young a ha)⟩

theorem construct_none {L : Type} {load : Text → Option (File3ds L)} {modes : Modes} {p : Path} {fs : Fs} (hc : T3ds.construct load modes p fs = .ok none)
    (h : Heap) : construct load modes p fs h = (.ok ⟨modes, none⟩, h) := by
  unfold construct
  rw [hm_ok (x := lift (T3ds.construct load modes p fs)) (a := none) (h' := h) (by unfold lift; rw [hc])]
  rfl

theorem construct_thrown {L : Type} {load : Text → Option (File3ds L)} {modes : Modes} {p : Path} {fs : Fs} {e : Exc}
    (hc : T3ds.construct load modes p fs = .thrown e) (h : Heap) : construct load modes p fs h = (.thrown e, h) := by
  unfold construct
  rw [hm_thrown (x := lift (T3ds.construct load modes p fs)) (t := e) (h' := h) (by unfold lift; rw [hc])]

theorem construct_defined {L : Type} (load : Text → Option (File3ds L)) (modes : Modes) (p : Path) (fs : Fs) : T3ds.construct load modes p fs ≠ .ub := by
  unfold T3ds.construct
  split
  · simp
  · split
    · simp
    · split
      · split <;> simp
      · simp

theorem owned_make {L : Type} (load : Text → Option (File3ds L)) (modes : Modes) (p : Path) (fs : Fs) (F : File3ds L) (v : Nat) (s : State) (hs : Owned s)
    (hv : s.vars v = none) (hc : T3ds.construct load modes p fs = .ok (some F)) :
    ∃ h', construct load modes p fs s.heap = (.ok ⟨modes, some s.heap.next⟩, h') ∧
      Owned ⟨h', Function.update s.vars v (some ⟨modes, some s.heap.next⟩)⟩ := by
  obtain ⟨h', e, g, m, y, -, fl, ot⟩ := construct_ok load modes p fs F hc hs.sound
  have old : ∀ w x, (Function.update s.vars v (some ⟨modes, some s.heap.next⟩)) w = some x →
      (w = v ∧ x = ⟨modes, some s.heap.next⟩) ∨ (w ≠ v ∧ s.vars w = some x) := by
    intro w x hw
    by_cases e : w = v
    · subst e
      rw [Function.update_self] at hw
      exact Or.inl ⟨rfl, (Option.some.inj hw).symm⟩
    · rw [Function.update_of_ne e] at hw
      exact Or.inr ⟨e, hw⟩
  have lt : ∀ w x f, s.vars w = some x → x.file = some f → f < s.heap.next := by
    intro w x f hw hf
    obtain ⟨f', hf', hl, -⟩ := hs.has w x hw
    rw [hf] at hf'
    cases hf'
    exact hs.sound.1 _ hl
  have ltm : ∀ w x f, s.vars w = some x → x.file = some f → ∀ a ∈ s.heap.meshes f, a < s.heap.next := by
    intro w x f hw hf a ha
    obtain ⟨f', hf', -, y'⟩ := hs.has w x hw
    rw [hf] at hf'
    cases hf'
    exact hs.sound.1 _ (y'.live a ha)
  refine ⟨h', e, ⟨g.sound, ?_, ?_, ?_, ?_⟩⟩
  · intro w x hw
    rcases old w x hw with ⟨-, rfl⟩ | ⟨-, hw⟩
    · exact ⟨_, rfl, m, y.older (Nat.zero_le _)⟩
    · obtain ⟨f, hf, hl, yf⟩ := hs.has w x hw
      refine ⟨f, hf, g.kept _ hl, ?_⟩
      dsimp only
      rw [ot f (lt w x f hw hf).ne]
      exact ⟨yf.nodup, fun a ha => g.kept _ (yf.live a ha), yf.young⟩
  · intro u w x z f huw hu hw hf hz
    rcases old u x hu with ⟨rfl, rfl⟩ | ⟨hu', hu⟩
    · rcases old w z hw with ⟨rfl, -⟩ | ⟨-, hw⟩
      · exact huw rfl
      · have h1 := lt w z f hw hz
        have h2 : s.heap.next = f := Option.some.inj hf
        omega
    · rcases old w z hw with ⟨ew, ez⟩ | ⟨-, hw⟩
      · subst ez
        have h1 := lt u x f hu hf
        have h2 : s.heap.next = f := Option.some.inj hz
        omega
      · exact hs.apart u w x z f huw hu hw hf hz
  · intro u w x z f k huw hu hw hf hk a ha hak
    dsimp only at ha hak
    rcases old u x hu with ⟨rfl, rfl⟩ | ⟨hu', hu⟩
    · rcases old w z hw with ⟨rfl, -⟩ | ⟨-, hw⟩
      · exact huw rfl
      · have h1 := lt w z k hw hk
        rw [ot k h1.ne] at hak
        have h2 := ltm w z k hw hk a hak
        have h3 : s.heap.next = f := Option.some.inj hf
        rw [← h3] at ha
        have h4 := y.young a ha
        omega
    · have h1 := lt u x f hu hf
      rw [ot f h1.ne] at ha
      rcases old w z hw with ⟨ew, ez⟩ | ⟨-, hw⟩
      · subst ez
        have h2 := ltm u x f hu hf a ha
        have h3 : s.heap.next = k := Option.some.inj hk
        rw [← h3] at hak
        have h4 := y.young a hak
        omega
      · rw [ot k (lt w z k hw hk).ne] at hak
        exact hs.disjoint u w x z f k huw hu hw hf hk a ha hak
  · intro f hf
    rcases fl _ hf rfl with hf | hf
    · obtain ⟨w, x, hw, hx⟩ := hs.owner f hf
      refine ⟨w, x, ?_, hx⟩
      have : w ≠ v := by rintro rfl; rw [hv] at hw; cases hw
      dsimp only
      rw [Function.update_of_ne this, hw]
    · refine ⟨v, _, Function.update_self _ _ _, ?_⟩
      exact congrArg some hf.symm

theorem owned_write (o : SumOrder) (v : Nat) (x : Handler) (ms : List DMesh) (s : State) (hs : Owned s) (hv : s.vars v = some x) (hne : ms ≠ [])
    (hub : ∀ m ∈ ms, DMesh.to3ds o m ≠ .ub) :
    (writeMeshes o x ms s.heap).1 ≠ .ub ∧ Owned ⟨(writeMeshes o x ms s.heap).2, s.vars⟩ := by
  cases hw : canSave x.modes with
  | false =>
    have e : writeMeshes o x ms s.heap = (.thrown .filesystemError, s.heap) := by
      unfold writeMeshes
      rw [hw]
      rfl
    rw [e]
    exact ⟨by simp, hs⟩
  | true =>
    obtain ⟨f, hf, hl, yf⟩ := hs.has v x hv
    obtain ⟨c, h', g, wr, hh⟩ := writeMeshes_grows o x f hf hw ms hne hub hs.sound hl
    have key : (writeMeshes o x ms s.heap).1 ≠ .ub ∧ (writeMeshes o x ms s.heap).2 = h' ∧
        (h'.meshes f = s.heap.meshes f ∨ Young s.heap.next h' (h'.meshes f)) := by
      rcases hh with ⟨-, e, y, -, -⟩ | ⟨t, e, -, m⟩ | ⟨t, e, y, -⟩
      · rw [e]; exact ⟨by simp, rfl, Or.inr y⟩
      · rw [e]; exact ⟨by simp, rfl, Or.inl m⟩
      · rw [e]; exact ⟨by simp, rfl, Or.inr y⟩
    obtain ⟨k1, k2, k3⟩ := key
    rw [k2]
    have hy : Young 0 h' (h'.meshes f) := by
      rcases k3 with m | y
      · rw [m]; exact ⟨yf.nodup, fun a ha => g.kept _ (yf.live a ha), yf.young⟩
      · exact y.older (Nat.zero_le _)
    have hno : ∀ w z k, w ≠ v → s.vars w = some z → z.file = some k → k ≠ f := by
      intro w z k hwv hw' hk
      rintro rfl
      exact hs.apart w v z x k hwv hw' hv hk hf
    have hdis : ∀ w z k, w ≠ v → s.vars w = some z → z.file = some k → ∀ a ∈ s.heap.meshes k, a ∉ h'.meshes f := by
      intro w z k hwv hw' hk a ha hm
      rcases k3 with m | y
      · rw [m] at hm
        exact hs.disjoint w v z x k f hwv hw' hv hk hf a ha hm
      · obtain ⟨k', hk', hkl, yk⟩ := hs.has w z hw'
        rw [hk] at hk'
        cases hk'
        have h1 := hs.sound.1 _ (yk.live a ha)
        have h2 := y.young a hm
        dsimp only at h1
        omega
    refine ⟨k1, ⟨g.sound, ?_, hs.apart, ?_, ?_⟩⟩
    · intro w z hw'
      by_cases e : w = v
      · subst e
        rw [hv] at hw'
        cases hw'
        exact ⟨f, hf, g.kept _ hl, hy⟩
      · obtain ⟨k, hk, hkl, yk⟩ := hs.has w z hw'
        refine ⟨k, hk, g.kept _ hkl, ?_⟩
        dsimp only
        rw [wr.others k (hno w z k e hw' hk)]
        exact ⟨yk.nodup, fun a ha => g.kept _ (yk.live a ha), yk.young⟩
    · intro u w z t k j huw hu hw' hk hj a ha haj
      dsimp only at ha haj hu hw'
      by_cases eu : u = v
      · subst eu
        rw [hv] at hu
        cases hu
        rw [hf] at hk
        cases hk
        rw [wr.others j (hno w t j huw.symm hw' hj)] at haj
        exact hdis w t j huw.symm hw' hj a haj ha
      · rw [wr.others k (hno u z k eu hu hk)] at ha
        by_cases ew : w = v
        · subst ew
          rw [hv] at hw'
          cases hw'
          rw [hf] at hj
          cases hj
          exact hdis u z k eu hu hk a ha haj
        · rw [wr.others j (hno w t j ew hw' hj)] at haj
          exact hs.disjoint u w z t k j huw hu hw' hk hj a ha haj
    · intro k hk
      exact hs.owner k (wr.files _ hk rfl)

theorem owned_destroy (v : Nat) (x : Handler) (s : State) (hs : Owned s) (hv : s.vars v = some x) :
    (destroy x s.heap).1 = .ok () ∧ Owned ⟨(destroy x s.heap).2, Function.update s.vars v none⟩ := by
  obtain ⟨f, hf, hl, yf⟩ := hs.has v x hv
  obtain ⟨h', e, s', n', m', i', -⟩ := destroy_ok x f hf hs.sound hl yf.nodup yf.live
  rw [e]
  have old : ∀ w z, (Function.update s.vars v none) w = some z → w ≠ v ∧ s.vars w = some z := by
    intro w z hw
    by_cases e : w = v
    · subst e; rw [Function.update_self] at hw; cases hw
    · rw [Function.update_of_ne e] at hw; exact ⟨e, hw⟩
  have kinds : ∀ k, (k, Kind.file3ds) ∈ s.heap.live → k ∉ s.heap.meshes f := by
    intro k hk hm
    have h2 := List.inj_on_of_nodup_map hs.sound.2 (yf.live k hm) hk rfl
    cases h2
  refine ⟨rfl, ⟨s', ?_, ?_, ?_, ?_⟩⟩
  · intro w z hw
    obtain ⟨hwv, hw⟩ := old w z hw
    obtain ⟨k, hk, hkl, yk⟩ := hs.has w z hw
    have hkf : k ≠ f := by rintro rfl; exact hs.apart w v z x k hwv hw hv hk hf
    refine ⟨k, hk, (i' _).2 ⟨hkl, kinds k hkl, hkf⟩, ?_⟩
    dsimp only
    rw [m']
    refine ⟨yk.nodup, fun a ha => (i' _).2 ⟨yk.live a ha, hs.disjoint w v z x k f hwv hw hv hk hf a ha, ?_⟩, yk.young⟩
    rintro rfl
    have h2 := List.inj_on_of_nodup_map hs.sound.2 (yk.live _ ha) hl rfl
    cases h2
  · intro u w z t k huw hu hw
    exact hs.apart u w z t k huw (old u z hu).2 (old w t hw).2
  · intro u w z t k j huw hu hw
    dsimp only
    rw [m']
    exact hs.disjoint u w z t k j huw (old u z hu).2 (old w t hw).2
  · intro k hk
    obtain ⟨hkl, -, hkf⟩ := (i' _).1 hk
    obtain ⟨w, z, hw, hz⟩ := hs.owner k hkl
    refine ⟨w, z, ?_, hz⟩
    have : w ≠ v := by
      rintro rfl
      rw [hv] at hw
      cases hw
      rw [hf] at hz
      cases hz
      exact hkf rfl
    dsimp only
    rw [Function.update_of_ne this, hw]

theorem owned_step {L : Type} (o : SumOrder) (op : Mem.Step L) (hp : SingleOwner op) (hc : Converts o op) (s : State) (hs : Owned s) :
    (s.step o op).1 ≠ .ub ∧ Owned (s.step o op).2 := by
  have same : ∀ r : Out Unit × State, s.step o op = r → r.1 ≠ .ub → Owned r.2 → (s.step o op).1 ≠ .ub ∧ Owned (s.step o op).2 := by
    intro r e h1 h2
    rw [e]
    exact ⟨h1, h2⟩
  cases op with
  | make v load modes p fs =>
    cases hv : s.vars v with
    | some x => exact same (.ok (), s) (by simp only [State.step, hv]) (by simp) hs
    | none =>
      cases hcon : T3ds.construct load modes p fs with
      | ok r =>
        cases r with
        | none => exact absurd hcon hp
        | some F =>
          obtain ⟨h', e, ow⟩ := owned_make load modes p fs F v s hs hv hcon
          exact same (.ok (), ⟨h', Function.update s.vars v (some ⟨modes, some s.heap.next⟩)⟩) (by simp only [State.step, hv, e]) (by simp) ow
      | thrown t => exact same (.thrown t, s) (by simp only [State.step, hv, construct_thrown hcon]) (by simp) hs
      | ub => exact absurd hcon (construct_defined load modes p fs)
  | copy v w => exact absurd hp id
  | assign v w => exact absurd hp id
  | get v =>
    cases hv : s.vars v with
    | none => exact same (.ok (), s) (by simp only [State.step, hv]) (by simp) hs
    | some x =>
      obtain ⟨f, hf, hl, -⟩ := hs.has v x hv
      cases hr : canRead x.modes with
      | false =>
        have e : getMeshes x s.heap = (.thrown .filesystemError, s.heap) := by unfold getMeshes; rw [hr]; rfl
        exact same (.thrown .filesystemError, s) (by simp only [State.step, hv, e]) (by simp) hs
      | true =>
        have e : getMeshes x s.heap = (.ok (), s.heap) := by
          unfold getMeshes
          rw [if_pos hr, hf]
          exact touch_ok hl
        exact same (.ok (), s) (by simp only [State.step, hv, e]) (by simp) hs
  | write v ms =>
    cases hv : s.vars v with
    | none => exact same (.ok (), s) (by simp only [State.step, hv]) (by simp) hs
    | some x =>
      obtain ⟨h1, h2⟩ := owned_write o v x ms s hs hv hc.1 hc.2
      exact same _ (by simp only [State.step, hv]; rfl) h1 h2
  | destroy v =>
    cases hv : s.vars v with
    | none => exact same (.ok (), s) (by simp only [State.step, hv]) (by simp) hs
    | some x =>
      obtain ⟨e, ow⟩ := owned_destroy v x s hs hv
      exact same (.ok (), _) (by simp only [State.step, hv, e]) (by simp) ow

theorem owned_run {L : Type} (o : SumOrder) (ops : List (Mem.Step L)) (hp : ∀ x ∈ ops, SingleOwner x) (hc : ∀ x ∈ ops, Converts o x) (s : State) (hs : Owned s) :
    ∃ s', State.run o ops s = .ok s' ∧ Owned s' := by
  induction ops generalizing s with
  | nil => exact ⟨s, rfl, hs⟩
  | cons x xs ih =>
    obtain ⟨h1, h2⟩ := owned_step o x (hp x List.mem_cons_self) (hc x List.mem_cons_self) s hs
    obtain ⟨s', e, h3⟩ := ih (fun y hy => hp y (List.mem_cons_of_mem _ hy)) (fun y hy => hc y (List.mem_cons_of_mem _ hy)) _ h2
    refine ⟨s', ?_, h3⟩
    unfold State.run
    cases hx : s.step o x with
    | mk r t =>
      rw [hx] at h1 e
      cases r with
      | ok _ => exact e
      | thrown _ => exact e
      | ub => exact absurd rfl h1

theorem run_append {L : Type} (o : SumOrder) (xs ys : List (Mem.Step L)) (s : State) : State.run o (xs ++ ys) s = (State.run o xs s >>= State.run o ys) := by
  induction xs generalizing s with
  | nil => rfl
  | cons x xs ih =>
    rw [List.cons_append]
    unfold State.run
    cases hx : s.step o x with
    | mk r t =>
      cases r with
      | ok _ => exact ih t
      | thrown _ => exact ih t
      | ub => rfl

/-- A handler whose file has been released cannot be destroyed. -/
theorem destroy_dead (x : Handler) (f : Nat) (hx : x.file = some f) (h : Heap) (hd : ∀ k, (f, k) ∉ h.live) : (destroy x h).1 = .ub := by
  unfold destroy
  rw [hx]
  have : touch f h = (.ub, h) := by
    unfold touch
    refine if_neg fun hm => ?_
    obtain ⟨b, hb, e⟩ := List.mem_map.1 hm
    exact hd b.2 (by rw [← e]; exact hb)
  show ((touch f >>= fun _ => (fun h => releaseAll (h.meshes f) h : Hm Unit) >>= fun _ => release f) h).1 = _
  rw [hm_ub this]

end City.Mem
