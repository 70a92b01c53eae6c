import Verif.Props.Resume
/-!
C127: the power fails while a tool runs, or after it has run, and the disk has lost some of what was written: a tool is run again.
-/
set_option linter.unusedSectionVars false
namespace City.Spec
open City City.Props

/-- What the next call of a process may leave on the disk at a place, if it succeeds: a file that is opened for writing, or to which something is written, may hold anything from then on, a directory that is made is a directory. -/
def MayLeave {A : Type} : Prog A → Fs → Path → Option Entry → Prop
  | .create p _, fs, q, e => p = q ∧ fs.canWrite q = true ∧ ∃ u, e = some (.file u)
  | .store p _ _, fs, q, e => p = q ∧ (∃ t, fs q = some (.file t)) ∧ ∃ u, e = some (.file u)
  | .mkdir p _, fs, q, e => p = q ∧ (makeDir q fs).1 = .ok () ∧ e = some .dir
  | _, _, _, _ => False

/-- What may be on the disk after the power has failed during a run that began with the files `fs`, or after it: in each place, independently of all others, what was there before the run, or what a
call of the run may have left there. In particular a file that the run has finished may be missing, or hold what it held before, or a part of its text, or anything else; of two things that were written the
first may be lost and the second one not. -/
def AfterPowerLoss {A : Type} (M : Machine) (x : Prog A) (fs g : Fs) : Prop :=
  ∀ q, g q = fs q ∨ ∃ n, MayLeave (x.steps M n fs).1 (x.steps M n fs).2.1 q (g q)

section
variable {N L K : Type} [Field K] [LinearOrder K] [FloorRing K]

/-- The files after the tool was run a number of times, each time until the power failed, or to its end before the power failed. -/
inductive AfterFailures (T : Toolbox N L K) (noise : SceneFormat → Bool → Path → Fs → List Text) (j : Job) : Fs → Fs → Prop
  | none (fs : Fs) : AfterFailures T noise j fs fs
  | fail (drafts : Path → Text → List Text) {fs g h : Fs} (now : AfterPowerLoss (machine T noise) (j.process drafts T) fs g) (later : AfterFailures T noise j g h) :
    AfterFailures T noise j fs h

/-- What may be on the disk after the power has failed while several tools were running at the same time, in any order of their calls: in each place, what was there before, or what a call of one of them may
have left there. -/
def AfterCommonLoss (T : Toolbox N L K) (noise : SceneFormat → Bool → Path → Fs → List Text) (drafts : Path → Text → List Text) (js : List Job) (fs g : Fs) : Prop :=
  ∀ q, g q = fs q ∨ ∃ (sched : List Nat) (i : Nat) (x : Prog Nat) (said : List Said),
    ((startAll drafts T js fs).run (machine T noise) sched).procs[i]? = some (x, said) ∧ MayLeave x ((startAll drafts T js fs).run (machine T noise) sched).fs q (g q)
end

end City.Spec
namespace City.Props
open City City.Spec City.Props

/-- A call at some time of the run may leave this. -/
def Left {A : Type} (M : Machine) (x : Prog A) (fs : Fs) (q : Path) (e : Option Entry) : Prop := ∃ n, MayLeave (x.steps M n fs).1 (x.steps M n fs).2.1 q e

/-- From every state after a loss of power, the run ends in the same way, prints the same and leaves the same. -/
def PowerResumes {A : Type} (M : Machine) (x : Prog A) : Prop := ∀ fs g, AfterPowerLoss M x fs g → x.alone M g = x.alone M fs

variable {M : Machine}

theorem left_step {A : Type} {x : Prog A} {fs : Fs} {q : Path} {e : Option Entry} (h : Left M x fs q e) : MayLeave x fs q e ∨ Left M (x.step M fs).1 (x.step M fs).2.1 q e := by
  obtain ⟨n, h⟩ := h
  cases n with
  | zero => exact Or.inl h
  | succ n => exact Or.inr ⟨n, h⟩

theorem left_next {A : Type} {x : Prog A} {fs : Fs} {q : Path} {e : Option Entry} (h : Left M (x.step M fs).1 (x.step M fs).2.1 q e) : Left M x fs q e := by
  obtain ⟨n, h⟩ := h
  exact ⟨n + 1, h⟩

theorem left_here {A : Type} {x : Prog A} {fs : Fs} {q : Path} {e : Option Entry} (h : MayLeave x fs q e) : Left M x fs q e := ⟨0, h⟩

theorem left_stop {A : Type} {r : Out A} {fs : Fs} {q : Path} {e : Option Entry} : ¬ Left M (.stop r) fs q e := by
  rintro ⟨n, h⟩
  rw [steps_stop] at h
  exact h

theorem left_after {A B : Type} {f : Out A → Prog B} {q : Path} {e : Option Entry} : ∀ (x : Prog A) (fs : Fs), Left M (x.after f) fs q e →
    Left M x fs q e ∨ Left M (f (x.alone M fs).1) (x.alone M fs).2.1 q e := by
  intro x
  induction x with
  | stop r => exact fun fs h => Or.inr h
  | say s k ih => exact fun fs h => (left_step h).elim (fun h => absurd h _root_.id) fun h => (ih fs h).imp (fun h => left_next (x := .say s k) h) _root_.id
  | look p k ih => exact fun fs h => (left_step h).elim (fun h => absurd h _root_.id) fun h => (ih _ fs h).imp (fun h => left_next (x := .look p k) h) _root_.id
  | names p k ih => exact fun fs h => (left_step h).elim (fun h => absurd h _root_.id) fun h => (ih _ fs h).imp (fun h => left_next (x := .names p k) h) _root_.id
  | hear g b p k ih => exact fun fs h => (left_step h).elim (fun h => absurd h _root_.id) fun h => (ih _ fs h).imp (fun h => left_next (x := .hear g b p k) h) _root_.id
  | mkdir p k ih => exact fun fs h => (left_step h).elim (fun h => Or.inl (left_here (x := .mkdir p k) h)) fun h => (ih _ _ h).imp (fun h => left_next (x := .mkdir p k) h) _root_.id
  | create p k ih => exact fun fs h => (left_step h).elim (fun h => Or.inl (left_here (x := .create p k) h)) fun h => (ih _ _ h).imp (fun h => left_next (x := .create p k) h) _root_.id
  | store p t k ih => exact fun fs h => (left_step h).elim (fun h => Or.inl (left_here (x := .store p t k) h)) fun h => (ih _ h).imp (fun h => left_next (x := .store p t k) h) _root_.id

theorem left_dir {p q : Path} {fs : Fs} {e : Option Entry} (h : Left M (dirProg p) fs q e) : q = p ∧ (makeDir p fs).1 = .ok () ∧ e = some .dir := by
  rcases left_step h with h | h
  · obtain ⟨rfl, h⟩ := h
    exact ⟨rfl, h⟩
  · exact absurd h left_stop

theorem loss_none {A : Type} {x : Prog A} {fs g : Fs} (hn : ∀ q e, ¬ Left M x fs q e) (h : AfterPowerLoss M x fs g) : g = fs :=
  funext fun q => (h q).elim _root_.id fun h => absurd h (hn q _)

section
variable {N L K : Type} [Field K] [LinearOrder K] [FloorRing K]
variable (T : Toolbox N L K) (noise : SceneFormat → Bool → Path → Fs → List Text) (hT : ListsFiles T) (hN : NoiseOfScene noise)
include hT hN

theorem left_stays {A : Type} {C S : Path → Prop} {q : Path} {e : Option Entry} {x : Prog A} {fs : Fs} (hx : Stays C S x) (h : Left (machine T noise) x fs q e) : C q := by
  obtain ⟨n, h⟩ := h
  induction n generalizing x fs with
  | zero =>
    cases x with
    | create p k => obtain ⟨rfl, -⟩ := h; exact hx.1.1
    | mkdir p k => obtain ⟨rfl, -⟩ := h; exact hx.1.1
    | stop r => exact absurd h _root_.id
    | say s k => exact absurd h _root_.id
    | look p k => exact absurd h _root_.id
    | names p k => exact absurd h _root_.id
    | hear f b p k => exact absurd h _root_.id
    | store p t k => obtain ⟨rfl, -⟩ := h; exact hx.1.1
  | succ n ih => exact ih (step_stays T noise hT hN hx (fun _ _ => rfl : SameAt S fs fs)).2.2.2.1 h

theorem loss_stays {A : Type} {C S : Path → Prop} {x : Prog A} (hx : Stays C S x) {fs g : Fs} (h : AfterPowerLoss (machine T noise) x fs g) (q : Path) (hq : ¬ C q) : g q = fs q :=
  (h q).elim _root_.id fun h => absurd (left_stays T noise hT hN hx h) hq

theorem power_resumes_still {A : Type} {S : Path → Prop} {x : Prog A} (hx : Stays (fun _ => False) S x) : PowerResumes (machine T noise) x := by
  intro fs g h
  rw [funext fun q => loss_stays T noise hT hN hx h q _root_.id]

open Classical in
theorem power_resumes_after {A B : Type} {S S' C D : Path → Prop} {x : Prog A} {f : Out A → Prog B} (hx : Stays C S x) (hr : PowerResumes (machine T noise) x) (hcs : ∀ q, C q → S q)
    (hd : ∀ r, Stays D S' (f r)) (hsd : ∀ q, S q → ¬ D q) (hk : ∀ r, PowerResumes (machine T noise) (f r)) : PowerResumes (machine T noise) (x.after f) := by
  intro fs g hg
  rw [alone_after, alone_after]
  -- the damage done to what `x` writes
  have hC : AfterPowerLoss (machine T noise) x fs (fun q => if C q then g q else fs q) := by
    intro q
    by_cases hq : C q
    · dsimp only
      rw [if_pos hq]
      refine (hg q).imp _root_.id fun h => (left_after x fs h).resolve_right fun h => ?_
      exact hsd q (hcs q hq) (left_stays T noise hT hN (hd _) h)
    · exact Or.inl (if_neg hq)
  have h0 := hr fs _ hC
  generalize hf1 : (x.alone (machine T noise) fs).2.1 = f1 at h0
  generalize hr1 : (x.alone (machine T noise) fs).1 = r1
  have hoff : ∀ q, ¬ C q → ¬ D q → g q = fs q := fun q h1 h2 => (hg q).elim _root_.id fun h =>
    (left_after x fs h).elim (fun h => absurd (left_stays T noise hT hN hx h) h1) fun h => absurd (left_stays T noise hT hN (hd _) h) h2
  have hsame : SameAt S g (fun q => if C q then g q else fs q) := by
    intro q hq
    by_cases h : C q
    · exact (if_pos h).symm
    · exact (hoff q h (hsd q hq)).trans (if_neg h).symm
  obtain ⟨h1, h2, h4⟩ := talks_stays T noise hT hN hx _ _ hsame
  rw [h0] at h1 h2 h4
  rw [hr1] at h1
  rw [hf1] at h2
  have hx1 : ∀ q, ¬ C q → f1 q = fs q := fun q hq => by
    by_contra hne
    rw [← hf1] at hne
    exact hq (changes_stays T noise hT hN hx _ q hne)
  have hg1 : AfterPowerLoss (machine T noise) (f r1) f1 (x.alone (machine T noise) g).2.1 := by
    intro q
    by_cases hq : C q
    · exact Or.inl (h2 q (hcs q hq))
    · have e : (x.alone (machine T noise) g).2.1 q = g q := by
        by_contra hne
        exact hq (changes_stays T noise hT hN hx _ q hne)
      rw [e, hx1 q hq]
      refine (hg q).imp _root_.id fun h => ?_
      have := (left_after x fs h).resolve_left fun h => hq (left_stays T noise hT hN hx h)
      rwa [hr1, hf1] at this
  rw [h1, h4, hk r1 f1 _ hg1]

theorem power_resumes_bind {A B : Type} {S S' C D : Path → Prop} {x : Prog A} {k : A → Prog B} (hx : Stays C S x) (hr : PowerResumes (machine T noise) x) (hcs : ∀ q, C q → S q)
    (hd : ∀ a, Stays D S' (k a)) (hsd : ∀ q, S q → ¬ D q) (hk : ∀ a, PowerResumes (machine T noise) (k a)) : PowerResumes (machine T noise) (x.bind k) := by
  refine power_resumes_after T noise hT hN hx hr hcs (D := D) (S' := S') ?_ hsd ?_
  · rintro (a | e | _)
    · exact hd a
    · exact stays_stop _ _ _
    · exact stays_stop _ _ _
  · rintro (a | e | _)
    · exact hk a
    · exact power_resumes_still T noise hT hN (S := fun _ => False) (stays_stop _ _ _)
    · exact power_resumes_still T noise hT hN (S := fun _ => False) (stays_stop _ _ _)

theorem power_resumes_stop {A : Type} (r : Out A) : PowerResumes (machine T noise) (.stop r) := power_resumes_still T noise hT hN (S := fun _ => False) (stays_stop _ _ _)

omit hT hN in
theorem power_resumes_say {A : Type} (s : Said) {k : Prog A} (h : PowerResumes M k) : PowerResumes M (.say s k) := by
  intro fs g hg
  have e : k.alone M g = k.alone M fs := by
    refine h fs g fun q => (hg q).imp _root_.id fun hl => ?_
    rcases left_step hl with hl | hl
    · exact absurd hl _root_.id
    · exact hl
  simp only [Prog.alone, e]

theorem power_resumes_from {A B : Type} {r : Out A} {k : A → Prog B} (hk : ∀ a, r = .ok a → PowerResumes (machine T noise) (k a)) : PowerResumes (machine T noise) ((Prog.stop r).bind k) := by
  cases r with
  | ok a => exact hk a rfl
  | thrown e => exact power_resumes_stop T noise hT hN _
  | ub => exact power_resumes_stop T noise hT hN _

/-- After something that is done at the end nothing is changed any more. -/
theorem power_resumes_then {A B : Type} {x : Prog A} {f : Out A → Prog B} {C : Path → Prop} (hx : Stays C (fun _ => True) x) (hr : PowerResumes (machine T noise) x)
    (hd : ∀ r, Stays (fun _ => False) (fun _ => False) (f r)) : PowerResumes (machine T noise) (x.after f) :=
  power_resumes_after T noise hT hN hx hr (fun _ _ => trivial) hd (fun _ _ h => h) fun r => power_resumes_still T noise hT hN (hd r)

theorem power_resumes_announced {A : Type} (b e : String) {x : Prog A} {C : Path → Prop} (hx : Stays C (fun _ => True) x) (hr : PowerResumes (machine T noise) x) :
    PowerResumes (machine T noise) (Prog.announced b x e) := by
  refine power_resumes_say _ (power_resumes_then T noise hT hN hx hr ?_)
  rintro (a | e | _) <;> trivial
/-! ### Files -/

/-- A process that writes one file, or nothing. -/
def PowerFillsIn (M : Machine) (x : Prog Unit) (w : Putter) : Prop :=
  x.alone M = Talk.quiet w.put ∧ ∀ fs q e, Left M x fs q e → (w.on && fs.canWrite w.at_) = true ∧ q = w.at_ ∧ ∃ u, e = some (.file u)

omit hT hN in
theorem power_writes_stop (M : Machine) (r : Out Unit) : PowerFillsIn M (.stop r) ⟨[], [], false, r, r⟩ :=
  ⟨(City.Props.writes_stop M r).1, fun _ _ _ h => absurd h left_stop⟩

omit hT hN in
theorem left_stores {A : Type} {p q : Path} {r : Out A} {e : Option Entry} : ∀ (l : List Text) {fs : Fs}, Left M (Prog.stores p l (.stop r)) fs q e → q = p ∧ ∃ u, e = some (.file u)
  | [], _, h => absurd h left_stop
  | _ :: l, _, h => (left_step h).elim (fun h => ⟨h.1.symm, h.2.2⟩) (left_stores l)

omit hT hN in
theorem power_writes_file (M : Machine) (drafts : Path → Text → List Text) (p : Path) (t : Text) (good bad : Out Unit) : PowerFillsIn M (fileProg drafts p t good bad) ⟨p, t, true, good, bad⟩ := by
  refine ⟨alone_file M p t good bad, fun fs q e h => ?_⟩
  rcases left_step h with h | h
  · obtain ⟨rfl, h1, h2⟩ := h
    exact ⟨by simp [h1], rfl, h2⟩
  · change Left M (if fs.canWrite p then Prog.stores p (drafts p t ++ [t]) (.stop good) else .stop bad) _ q e at h
    split at h
    · rename_i hw
      obtain ⟨h1, h2⟩ := left_stores _ h
      exact ⟨by simp [hw], h1, h2⟩
    · exact absurd h left_stop

omit hT hN in
/-- What a list of files may leave is among the files that are written. -/
theorem left_all : ∀ (xs : List (Prog Unit)) (ws : List Putter), List.Forall₂ (PowerFillsIn M) xs ws → ∀ fs q e, Left M (Prog.all xs) fs q e →
    fs.canWrite q = true ∧ (∃ u, e = some (.file u)) ∧ ∃ t, (q, t) ∈ written fs.canWrite ws
  | _, _, .nil, fs, q, e, h => absurd h left_stop
  | _, _, .cons (a := x) (b := w) (l₁ := xs) (l₂ := ws) hw hs, fs, q, e, h => by
    rcases left_after x fs h with h | h
    · obtain ⟨hc, rfl, hu⟩ := hw.2 fs q e h
      refine ⟨(Bool.and_eq_true _ _ ▸ hc : _ ∧ _).2, hu, w.text, ?_⟩
      unfold written
      rw [if_pos hc]
      exact List.mem_append_left _ List.mem_cons_self
    · rw [hw.1] at h
      have hg := grown_put w fs
      have ho : (w.put fs).1 = if fs.canWrite w.at_ then w.good else w.bad := rfl
      unfold written
      rw [← ho]
      have hq : (Talk.quiet w.put fs).1 = (w.put fs).1 := rfl
      rw [hq] at h
      change Left M _ (w.put fs).2 q e at h
      generalize (w.put fs).1 = o at h
      rcases o with a | x | _
      · cases a
        obtain ⟨i1, i2, t, i3⟩ := left_all xs ws hs _ _ _ h
        rw [grown_write hg] at i1 i3
        exact ⟨i1, i2, t, List.mem_append_right _ i3⟩
      · exact absurd h left_stop
      · exact absurd h left_stop

omit hT hN in
theorem power_writes_list {xs : List (Prog Unit)} (h : ∀ x ∈ xs, ∃ w, PowerFillsIn M x w) : ∃ ws, List.Forall₂ (PowerFillsIn M) xs ws := by
  induction xs with
  | nil => exact ⟨[], .nil⟩
  | cons x xs ih =>
    obtain ⟨w, hw⟩ := h x List.mem_cons_self
    obtain ⟨ws, hws⟩ := ih fun y hy => h y (List.mem_cons_of_mem _ hy)
    exact ⟨w :: ws, .cons hw hws⟩

omit hT hN in
theorem power_resumes_all {xs : List (Prog Unit)} (h : ∀ x ∈ xs, ∃ w, PowerFillsIn M x w) : PowerResumes M (Prog.all xs) := by
  obtain ⟨ws, hws⟩ := power_writes_list h
  intro fs g hg
  have h1 : Grown fs g := fun q => (hg q).imp _root_.id fun h => ⟨(left_all xs ws hws fs q _ h).1, (left_all xs ws hws fs q _ h).2.1⟩
  have h2 : ∀ q, g q = fs q ∨ ∃ t, (q, t) ∈ written fs.canWrite ws := fun q => (hg q).imp _root_.id fun h => (left_all xs ws hws fs q _ h).2.2
  have e : (Prog.all xs).alone M = Talk.quiet (runAll (ws.map Putter.put)) := by
    refine alone_zip M _ _ ?_
    rw [List.forall₂_map_right_iff]
    exact hws.imp fun x w hw => hw.1
  rw [e]
  unfold Talk.quiet
  rw [(runAll_puts ws fs).1, (runAll_puts ws g).1, grown_write h1]
  refine congrArg (fun f => (_, f, _)) (funext fun q => over_at q _ _ _ ?_)
  exact (h2 q).symm

omit hT hN in
theorem power_resumes_one {x : Prog Unit} {w : Putter} (h : PowerFillsIn M x w) : PowerResumes M x := by
  intro fs g hg
  rw [h.1]
  by_cases hg' : g = fs
  · rw [hg']
  · obtain ⟨q, hq⟩ := Function.ne_iff.1 hg'
    obtain ⟨hc, rfl, u, hu⟩ := h.2 fs q _ ((hg q).resolve_left hq)
    have hgs : g = fs.set w.at_ (.file u) := by
      funext r
      by_cases hr : r = w.at_
      · subst hr; simp [Fs.set, hu]
      · rcases hg r with k | k
        · simp [Fs.set, hr, k]
        · exact absurd (h.2 fs r _ k).2.1 hr
    have hc' := hc
    rw [Bool.and_eq_true] at hc
    unfold Talk.quiet Putter.put
    rw [hgs, grown_write (grown_set hc.2 u), if_pos hc', if_pos hc', set_set]

omit hT hN in
theorem power_resumes_mkdir (p : Path) : PowerResumes M (dirProg p) := by
  intro fs g hg
  by_cases hg' : g = fs
  · rw [hg']
  · obtain ⟨q, hq⟩ := Function.ne_iff.1 hg'
    obtain ⟨rfl, h1, h2⟩ := left_dir ((hg q).resolve_left hq)
    have hgs : g = (makeDir q fs).2 := by
      funext r
      unfold makeDir at h1 ⊢
      cases e : fs q with
      | some x =>
        cases x with
        | dir => exact absurd (h2.trans e.symm) hq
        | file t => rw [e] at h1; cases h1
      | none =>
        rw [e] at h1
        dsimp only at h1 ⊢
        split at h1
        · rename_i hd
          rw [if_pos hd]
          by_cases hr : r = q
          · subst hr; simp [Fs.set, h2]
          · rcases hg r with k | k
            · simp [Fs.set, hr, k]
            · exact absurd (left_dir k).1 hr
        · cases h1
    rw [hgs, alone_dir]
    unfold Talk.quiet
    show ((makeDir q (makeDir q fs).2).1, (makeDir q (makeDir q fs).2).2, _) = _
    rw [redoes_makeDir q fs]

/-- A directory is made and files are written in it. -/
theorem power_resumes_dir {dir : Path} {xs : List (Prog Unit)} (h : ∀ x ∈ xs, (∃ w, PowerFillsIn (machine T noise) x w) ∧ Stays (fun q => ∃ n, q = joinPath dir n) (fun _ => True) x) :
    PowerResumes (machine T noise) ((dirProg dir).bind fun _ => Prog.all xs) := by
  refine power_resumes_bind T noise hT hN (S := fun q => q = dir ∨ q = dir.dropLast) (C := fun q => q = dir) (D := fun q => ∃ n, q = joinPath dir n) (S' := fun _ => True)
    (stays_dir rfl (Or.inl rfl) (Or.inr rfl)) (power_resumes_mkdir dir) (fun q hq => Or.inl hq) (fun _ => stays_all _ fun x hx => (h x hx).2) ?_
    fun _ => power_resumes_all fun x hx => (h x hx).1
  rintro q (rfl | rfl) ⟨n, e⟩
  · exact (join_below n).1 e.symm
  · exact (join_below n).2 e.symm

variable {drafts : Path → Text → List Text}

theorem power_resumes_duals (root : Path) (bs : List (Text × Written)) : PowerResumes (machine T noise) (dualsProg drafts root bs) := by
  refine power_resumes_dir T noise hT hN fun x hx => ?_
  obtain ⟨b, -, rfl⟩ := List.mem_map.1 hx
  exact ⟨⟨_, power_writes_file _ _ _ _ _ _⟩, stays_file ⟨_, rfl⟩ trivial trivial _ _ _⟩

theorem power_resumes_prints (C : Cgal K) (G : Gdal K) (root : Path) (ps : List (FootPrint K)) (labels : Bool) : PowerResumes (machine T noise) (printsProg drafts C G root ps labels) := by
  refine power_resumes_dir T noise hT hN fun x hx => ?_
  obtain ⟨f, _, hx⟩ := List.mem_flatMap.1 hx
  simp only [List.mem_cons, List.not_mem_nil, or_false] at hx
  rcases hx with rfl | rfl
  · exact ⟨⟨_, power_writes_file _ _ _ _ _ _⟩, stays_file ⟨_, rfl⟩ trivial trivial _ _ _⟩
  · exact ⟨⟨_, power_writes_file _ _ _ _ _ _⟩, stays_file ⟨_, rfl⟩ trivial trivial _ _ _⟩

omit hT hN in
theorem power_writes_raster (M : Machine) (G : Gdal K) (p : Path) (r : Raster K) : ∃ w, PowerFillsIn M (rasterProg drafts G p r) w := by
  unfold rasterProg
  split
  · exact ⟨_, power_writes_file _ _ _ _ _ _⟩
  · exact ⟨_, power_writes_stop _ _⟩

theorem power_resumes_rasters (G : Gdal K) (root : Path) (rs : List (Raster K)) : PowerResumes (machine T noise) (rastersProg drafts G root rs) := by
  refine power_resumes_dir T noise hT hN fun x hx => ?_
  obtain ⟨r, -, rfl⟩ := List.mem_map.1 hx
  exact ⟨power_writes_raster _ _ _ _, stays_raster ⟨_, rfl⟩ trivial trivial _ _⟩

theorem power_resumes_scenePrints (C : Cgal K) (lr : Bool) (G : Gdal K) (root : Path) (st : Text) (hst : PlainName st) (ps : List (FootPrint K)) (rast : Bool) (p : K) :
    PowerResumes (machine T noise) (scenePrintsProg drafts C lr G root st ps rast p) := by
  have j1 : joinPath root (st ++ ".shp".toList) = root ++ [st ++ ".shp".toList] := joinPath_plain (plain_ext hst (by unfold PlainName; decide))
  have j2 : joinPath root (st ++ ".tiff".toList) = root ++ [st ++ ".tiff".toList] := joinPath_plain (plain_ext hst (by unfold PlainName; decide))
  unfold scenePrintsProg
  rw [j1, j2]
  have hne : st ++ ".shp".toList ≠ st ++ ".tiff".toList := fun e => absurd (List.append_cancel_left e) (by decide)
  refine power_resumes_from T noise hT hN fun s _ => ?_
  refine power_resumes_bind T noise hT hN (S := fun q => q = root ++ [st ++ ".shp".toList] ∨ q = root) (C := fun q => q = root ++ [st ++ ".shp".toList])
    (D := fun q => q = root ++ [st ++ ".tiff".toList]) (S' := fun _ => True)
    ?_ (power_resumes_one (power_writes_file _ _ _ _ _ _)) (fun q hq => Or.inl hq) ?_ ?_ ?_
  · unfold vectorProg
    exact stays_file (C := fun q => q = root ++ [st ++ ".shp".toList]) rfl (Or.inl rfl) (Or.inr (by simp)) _ _ _
  · intro _
    split
    · exact stays_from fun r _ => stays_raster (C := fun q => q = root ++ [st ++ ".tiff".toList]) rfl trivial trivial _ _
    · exact stays_stop _ _ _
  · rintro q (rfl | rfl) e
    · exact hne (List.cons.inj (List.append_cancel_left e)).1
    · have := congrArg List.length e
      simp at this
  · intro _
    split
    · refine power_resumes_from T noise hT hN fun r _ => ?_
      obtain ⟨w, hw⟩ := power_writes_raster (drafts := drafts) (machine T noise) G (root ++ [st ++ ".tiff".toList]) r
      exact power_resumes_one hw
    · exact power_resumes_stop T noise hT hN _

theorem power_resumes_sceneWrite (ops : NodeOps N) (f : SceneFormat) (modes : Modes) (p : Path) (s : Scene N) : PowerResumes (machine T noise) (sceneWriteProg drafts ops f modes p s) := by
  cases f with
  | t3dsXml => exact power_resumes_stop T noise hT hN _
  | t3ds => exact power_resumes_stop T noise hT hN _
  | obj =>
    unfold sceneWriteProg
    dsimp only
    split
    · split
      · exact power_resumes_one (power_writes_file _ _ _ _ _ _)
      · exact power_resumes_stop T noise hT hN _
      · exact power_resumes_stop T noise hT hN _
    · exact power_resumes_stop T noise hT hN _
  | off =>
    show PowerResumes _ (offSceneWriteProg drafts ops modes p s)
    unfold offSceneWriteProg
    refine power_resumes_bind T noise hT hN (S := fun q => q = p ∨ q = p.dropLast) (C := fun q => q = p) (D := fun q => ∃ n, q = joinPath p n) (S' := fun _ => True)
      ?_ ?_ (fun q hq => Or.inl hq) ?_ ?_ ?_
    · refine ⟨Or.inl rfl, fun e => ?_⟩
      dsimp only
      split
      · exact stays_dir rfl (Or.inl rfl) (Or.inr rfl)
      · refine ⟨Or.inl rfl, fun e' => ?_⟩
        dsimp only
        split <;> trivial
    · intro fs g hg
      have hnew : ∀ q, Left (machine T noise) (Prog.look p fun e => if e = none then dirProg p else .look p fun e' => if e' = some .dir then .stop (.ok ()) else .stop (.thrown .runtimeError)) fs q (g q) →
          q = p ∧ fs p = none ∧ fs p.dropLast = some .dir ∧ g p = some .dir := by
        intro q h
        rcases left_step h with h | h
        · exact absurd h _root_.id
        · cases e : fs p with
          | none =>
            change Left _ (if fs p = none then dirProg p else _) fs q (g q) at h
            rw [if_pos e] at h
            obtain ⟨rfl, h1, h2⟩ := left_dir h
            refine ⟨rfl, rfl, ?_, h2⟩
            by_contra hd
            unfold makeDir at h1
            simp only [e, if_neg hd] at h1
            cases h1
          | some x =>
            change Left _ (if fs p = none then dirProg p else _) fs q (g q) at h
            rw [if_neg (by rw [e]; exact fun h => by cases h)] at h
            rcases left_step h with h | h
            · exact absurd h _root_.id
            · change Left _ (if fs p = some .dir then Prog.stop (Out.ok ()) else Prog.stop (.thrown .runtimeError)) fs q (g q) at h
              split at h <;> exact absurd h left_stop
      by_cases hc : fs p = none ∧ fs p.dropLast = some .dir ∧ g p = some .dir
      · obtain ⟨e, hd, hgp⟩ := hc
        have hg' : g = fs.set p .dir := by
          funext q
          by_cases hq : q = p
          · subst hq; simp [Fs.set, hgp]
          · rcases hg q with h | h
            · simp [Fs.set, hq, h]
            · exact absurd (hnew q h).1 hq
        have hm : makeDir p fs = (.ok (), fs.set p .dir) := by unfold makeDir; simp only [e, if_pos hd]
        rw [hg'] at hgp ⊢
        simp [Prog.alone, e, hgp, dirProg, hm]
      · have : g = fs := by
          funext q
          rcases hg q with h | h
          · exact h
          · exact absurd (hnew q h).2 hc
        rw [this]
    · refine fun _ => stays_all _ fun x hx => ?_
      obtain ⟨m, _, rfl⟩ := List.mem_map.1 hx
      unfold offWriteProg
      split
      · exact stays_file ⟨_, rfl⟩ trivial trivial _ _ _
      · trivial
    · rintro q (rfl | rfl) ⟨n, e⟩
      · exact (join_below n).1 e.symm
      · exact (join_below n).2 e.symm
    · refine fun _ => power_resumes_all fun x hx => ?_
      obtain ⟨m, _, rfl⟩ := List.mem_map.1 hx
      unfold offWriteProg
      split
      · exact ⟨_, power_writes_file _ _ _ _ _ _⟩
      · exact ⟨_, power_writes_stop _ _⟩

/-! ### The tools -/

/-- Reading, pruning and saving the dual graphs, if this does not change the scene. -/
theorem power_resumes_input {args : Args} {t format : Text} (prune terrain graphs : Bool) (hf : args "--input-format".toList = some (.str format))
    (hs : ∀ q, ScenePlace args (splitSlash t) q → ¬ (graphs = true ∧ Within ((splitSlash t).dropLast ++ ["dual_graphs".toList]) q)) :
    PowerResumes (machine T noise) (inputProg drafts T (splitSlash t) format prune terrain graphs) := by
  have hch : ∀ x : Scene N, Stays (fun q => graphs = true ∧ Within ((splitSlash t).dropLast ++ ["dual_graphs".toList]) q) (fun _ => True)
      (if graphs then Prog.announced "Saving brick duals... " (dualsProg drafts (splitSlash t).dropLast (x.buildings.map T.dual)) " Done.\n" else .stop (.ok ())) := by
    intro x
    split
    · rename_i h
      exact stays_announced _ _ (stays_duals trivial (fun q hq => ⟨h, hq⟩) (fun _ _ => trivial) _)
    · exact stays_stop _ _ _
  unfold inputProg
  refine power_resumes_from T noise hT hN fun f hh => ?_
  refine power_resumes_bind T noise hT hN (S := ScenePlace args (splitSlash t)) (C := fun _ => False)
    (D := fun q => graphs = true ∧ Within ((splitSlash t).dropLast ++ ["dual_graphs".toList]) q) (S' := fun _ => True) (stays_scene T hf hh fun _ h => h)
    (power_resumes_still T noise hT hN (stays_scene (S := ScenePlace args (splitSlash t)) T hf hh fun _ h => h)) (fun _ h => h.elim) ?_ hs ?_
  · exact fun s => stays_from fun s' _ => stays_bind (hch s') fun _ => stays_stop _ _ _
  · refine fun s => power_resumes_from T noise hT hN fun s' _ => power_resumes_then T noise hT hN (hch s') ?_ ?_
    · split
      · exact power_resumes_announced T noise hT hN _ _ (C := fun _ => True) (stays_duals trivial (fun _ _ => trivial) (fun _ _ => trivial) _) (power_resumes_duals T noise hT hN _ _)
      · exact power_resumes_stop T noise hT hN _
    · rintro (a | e | _) <;> trivial

theorem power_resumes_ortho (args : Args)
    (hoff : AsksFormat args "OFF" → ∀ t, args "<scene>".toList = some (.str t) → ∀ q, ScenePlace args (splitSlash t) q → ¬ OrthoChanges T args q) :
    PowerResumes (machine T noise) (orthoProg drafts T args) := by
  unfold orthoProg
  cases ha : orthoArgs T args with
  | thrown e => exact power_resumes_say _ (power_resumes_stop T noise hT hN _)
  | ub => exact power_resumes_say _ (power_resumes_stop T noise hT hN _)
  | ok a =>
  show PowerResumes _ (Prog.say _ (Prog.say _ (Prog.say _ ((inputProg drafts T a.path a.format a.prune a.terrain a.graphs).bind _))))
  refine power_resumes_say _ (power_resumes_say _ (power_resumes_say _ ?_))
  obtain ⟨⟨t, ht, hpath⟩, hg, hs, hsc, hpx⟩ := orthoArgs_ok (T := T) (args := args) (a := a) ha
  have hfm := orthoArgs_format ha
  rw [hpath]
  cases hh : sceneHandlerNamed (splitSlash t) a.format with
  | thrown e =>
    unfold inputProg
    rw [hh]
    exact power_resumes_stop T noise hT hN _
  | ub =>
    unfold inputProg
    rw [hh]
    exact power_resumes_stop T noise hT hN _
  | ok f =>
  have hsp := scene_spared T ht hfm hh fun ho => hoff ho t ht
  have hgr : ∀ q, a.graphs = true ∧ Within ((splitSlash t).dropLast ++ ["dual_graphs".toList]) q → OrthoChanges T args q := fun q hq => ⟨t, ht, Or.inl ⟨hg hq.1, hq.2⟩⟩
  have hin : PowerResumes (machine T noise) (inputProg drafts T (splitSlash t) a.format a.prune a.terrain a.graphs) :=
    power_resumes_input T noise hT hN _ _ _ hfm fun q hq h => hsp q hq (hgr q h)
  have hinl : Stays (fun q => a.graphs = true ∧ Within ((splitSlash t).dropLast ++ ["dual_graphs".toList]) q)
      (fun q => ScenePlace args (splitSlash t) q ∨ (a.graphs = true ∧ (q = (splitSlash t).dropLast ∨ Within ((splitSlash t).dropLast ++ ["dual_graphs".toList]) q)))
      (inputProg drafts T (splitSlash t) a.format a.prune a.terrain a.graphs) :=
    stays_input T _ _ _ hfm (fun q hq => Or.inl hq) fun e => ⟨Or.inr ⟨e, Or.inl rfl⟩, fun q hq => ⟨⟨e, hq⟩, Or.inr ⟨e, Or.inr hq⟩⟩⟩
  generalize hroot : (splitSlash t).dropLast = root at hgr hinl ⊢
  generalize hst : stem (splitSlash t) = st
  have hplain : PlainName st := hst ▸ plain_stem t
  have n1 : ∀ n : String, 'p' ≠ (n.toList.getLast?.getD 'p') → st ++ ".shp".toList ≠ n.toList := by
    intro n hn
    refine ne_dir st ".shp" n ?_ (by decide)
    intro e
    rw [← e] at hn
    exact hn (by decide)
  have n2 : ∀ n : String, 'f' ≠ (n.toList.getLast?.getD 'f') → st ++ ".tiff".toList ≠ n.toList := by
    intro n hn
    refine ne_dir st ".tiff" n ?_ (by decide)
    intro e
    rw [← e] at hn
    exact hn (by decide)
  -- what the later steps change
  let V : Path → Prop := fun q => a.save = true ∧ Within (root ++ ["vectors".toList]) q
  let P : Path → Prop := fun q => a.save = true ∧ a.scene = true ∧ (q = root ++ [st ++ ".shp".toList] ∨ (a.pixel ≠ 0 ∧ q = root ++ [st ++ ".tiff".toList]))
  let R : Path → Prop := fun q => a.save = true ∧ a.pixel ≠ 0 ∧ Within (root ++ ["rasters".toList]) q
  have hV : ∀ q, V q → OrthoChanges T args q := fun q hq => ⟨t, ht, Or.inr (Or.inl ⟨hs hq.1, hroot ▸ hq.2⟩)⟩
  have hP : ∀ q, P q → OrthoChanges T args q := by
    rintro q ⟨h1, h2, h3 | ⟨h3, h4⟩⟩
    · exact ⟨t, ht, Or.inr (Or.inr (Or.inl ⟨hs h1, hsc h2, by rw [hroot, hst]; exact h3⟩))⟩
    · exact ⟨t, ht, Or.inr (Or.inr (Or.inr ⟨a.pixel, h3, hpx h3, hs h1, Or.inr ⟨hsc h2, by rw [hroot, hst]; exact h4⟩⟩))⟩
  have hR : ∀ q, R q → OrthoChanges T args q := fun q hq => ⟨t, ht, Or.inr (Or.inr (Or.inr ⟨a.pixel, hq.2.1, hpx hq.2.1, hs hq.1, Or.inl (hroot ▸ hq.2.2)⟩))⟩
  have cV : ∀ S : Path → Prop, (∀ q, q = root ∨ Within (root ++ ["vectors".toList]) q → S q) → a.save = true → ∀ ps,
      Stays V S (Prog.announced "Saving vector projections... " (printsProg drafts T.C T.G root ps a.labels) "Done.\n") :=
    fun S hS h ps => stays_announced _ _ (stays_prints (hS _ (Or.inl rfl)) (fun q hq => ⟨h, hq⟩) (fun q hq => hS q (Or.inr hq)) _ _ _ _)
  have cP : ∀ S : Path → Prop, (∀ q, q = root ∨ q = root ++ [st ++ ".shp".toList] ∨ q = root ++ [st ++ ".tiff".toList] → S q) → a.save = true → ∀ ps,
      Stays P S (if a.scene then Prog.announced "Summing , rasterizing and saving scene projections... "
        (scenePrintsProg drafts T.C T.lr T.G root st ps (decide (a.pixel ≠ 0)) a.pixel) "Done.\n" else .stop (.ok ())) := by
    intro S hS h ps
    split
    · rename_i hscene
      exact stays_announced _ _ (stays_scenePrints hplain (hS _ (Or.inl rfl)) _ _ _ _ _ _ ⟨h, hscene, Or.inl rfl⟩ (hS _ (Or.inr (Or.inl rfl)))
        fun k => ⟨⟨h, hscene, Or.inr ⟨of_decide_eq_true k, rfl⟩⟩, hS _ (Or.inr (Or.inr rfl))⟩)
    · exact stays_stop _ _ _
  have cR : a.save = true → ∀ ps, Stays R (fun _ => True) (if a.pixel ≠ 0 then
      (Prog.announced "rasterizing projections... " (.stop (rasterizeScene T.C T.lr ps a.pixel)) "Done.\n").bind fun rs =>
      Prog.announced "Saving raster projections... " (rastersProg drafts T.G root rs) "Done.\n" else .stop (.ok ())) := by
    intro h ps
    split
    · rename_i h0
      exact stays_bind (stays_announced _ _ (stays_stop _ _ _)) fun rs => stays_announced _ _ (stays_rasters trivial (fun q hq => ⟨h, h0, hq⟩) (fun _ _ => trivial) _ _)
    · exact stays_stop _ _ _
  have dVP : ∀ q, (q = root ∨ Within (root ++ ["vectors".toList]) q) → ¬ (P q ∨ R q) := by
    rintro q (rfl | hq) (⟨-, -, e | ⟨-, e⟩⟩ | ⟨-, -, hR'⟩)
    · have := congrArg List.length e; simp at this
    · have := congrArg List.length e; simp at this
    · exact root_below hR'
    · rw [e] at hq; exact file_apart (n1 "vectors" (by decide)) hq
    · rw [e] at hq; exact file_apart (n2 "vectors" (by decide)) hq
    · exact root_apart (by decide) hq hR'
  have dG : ∀ q, (q = root ∨ Within (root ++ ["dual_graphs".toList]) q) → ¬ (V q ∨ P q ∨ R q) := by
    rintro q (rfl | hq) (⟨-, hV'⟩ | ⟨-, -, e | ⟨-, e⟩⟩ | ⟨-, -, hR'⟩)
    · exact root_below hV'
    · have := congrArg List.length e; simp at this
    · have := congrArg List.length e; simp at this
    · exact root_below hR'
    · exact root_apart (by decide) hq hV'
    · rw [e] at hq; exact file_apart (n1 "dual_graphs" (by decide)) hq
    · rw [e] at hq; exact file_apart (n2 "dual_graphs" (by decide)) hq
    · exact root_apart (by decide) hq hR'
  have dP : ∀ q, (q = root ∨ q = root ++ [st ++ ".shp".toList] ∨ q = root ++ [st ++ ".tiff".toList]) → ¬ R q := by
    rintro q (rfl | rfl | rfl) ⟨-, -, hR'⟩
    · exact root_below hR'
    · exact file_apart (n1 "rasters" (by decide)) hR'
    · exact file_apart (n2 "rasters" (by decide)) hR'
  refine power_resumes_bind T noise hT hN (D := fun q => V q ∨ P q ∨ R q) (S' := fun _ => True) hinl hin (fun q hq => Or.inr ⟨hq.1, Or.inr hq.2⟩) ?_ ?_ fun s => ?_
  · intro s
    cases hsave : a.save with
    | false => exact stays_stop _ _ _
    | true =>
      simp only [if_true]
      exact stays_bind (stays_announced _ _ (stays_stop _ _ _)) fun ps => stays_bind (stays_mono (fun q hq => Or.inl hq) (fun _ h => h) _ (cV (fun _ => True) (fun _ _ => trivial) hsave ps)) fun _ =>
        stays_bind (stays_mono (fun q hq => Or.inr (Or.inl hq)) (fun _ h => h) _ (cP (fun _ => True) (fun _ _ => trivial) hsave ps)) fun _ => stays_mono (fun q hq => Or.inr (Or.inr hq)) (fun _ h => h) _ (cR hsave ps)
  · rintro q (hq | ⟨-, hq⟩) hD
    · rcases hD with h | h | h
      · exact hsp q hq (hV q h)
      · exact hsp q hq (hP q h)
      · exact hsp q hq (hR q h)
    · exact dG q hq hD
  · cases hsave : a.save with
    | false => exact power_resumes_stop T noise hT hN _
    | true =>
      simp only [if_true]
      have hquiet : ∀ {X B : Type} (b e : String) (r : Out X) (k : X → Prog B), (∀ y, PowerResumes (machine T noise) (k y)) →
          PowerResumes (machine T noise) ((Prog.announced b (.stop r) e).bind k) := by
        intro X B b e r k hk
        cases r with
        | ok y => exact power_resumes_say _ (power_resumes_say _ (hk y))
        | thrown ex => exact power_resumes_say _ (power_resumes_stop T noise hT hN _)
        | ub => exact power_resumes_say _ (power_resumes_stop T noise hT hN _)
      refine hquiet _ _ _ _ fun ps => ?_
      refine power_resumes_bind T noise hT hN (S := fun q => q = root ∨ Within (root ++ ["vectors".toList]) q) (C := V) (D := fun q => P q ∨ R q) (S' := fun _ => True)
        (cV _ (fun _ h => h) hsave ps) (power_resumes_announced T noise hT hN _ _ (C := fun _ => True) (stays_prints trivial (fun _ _ => trivial) (fun _ _ => trivial) _ _ _ _) (power_resumes_prints T noise hT hN _ _ _ _ _))
        (fun q hq => Or.inr hq.2)
        (fun _ => stays_bind (stays_mono (fun q hq => Or.inl hq) (fun _ h => h) _ (cP (fun _ => True) (fun _ _ => trivial) hsave ps)) fun _ => stays_mono (fun q hq => Or.inr hq) (fun _ h => h) _ (cR hsave ps))
        dVP fun _ => ?_
      refine power_resumes_bind T noise hT hN (S := fun q => q = root ∨ q = root ++ [st ++ ".shp".toList] ∨ q = root ++ [st ++ ".tiff".toList]) (C := P) (D := R) (S' := fun _ => True)
        (cP _ (fun _ h => h) hsave ps) ?_ ?_ (fun _ => cR hsave ps) dP fun _ => ?_
      · split
        · exact power_resumes_announced T noise hT hN _ _ (C := fun _ => True) (stays_scenePrints hplain trivial _ _ _ _ _ _ trivial trivial fun _ => ⟨trivial, trivial⟩)
            (power_resumes_scenePrints T noise hT hN _ _ _ _ _ hplain _ _ _)
        · exact power_resumes_stop T noise hT hN _
      · rintro q ⟨-, -, h | ⟨-, h⟩⟩
        · exact Or.inr (Or.inl h)
        · exact Or.inr (Or.inr h)
      · split
        · refine hquiet _ _ _ _ fun rs => ?_
          exact power_resumes_announced T noise hT hN _ _ (C := fun _ => True) (stays_rasters trivial (fun _ _ => trivial) (fun _ _ => trivial) _ _) (power_resumes_rasters T noise hT hN _ _ _)
        · exact power_resumes_stop T noise hT hN _

theorem power_resumes_format (args : Args)
    (hs : ∀ t, args "<scene>".toList = some (.str t) → ∀ q, ScenePlace args (splitSlash t) q → ¬ FormatChanges args q)
    (hg : Asked args "--graphs" → ∀ t o, args "<scene>".toList = some (.str t) → args "<path>".toList = some (.str o) →
      ¬ Within ((splitSlash t).dropLast ++ ["dual_graphs".toList]) (splitSlash o) ∧ ¬ Within (splitSlash o) ((splitSlash t).dropLast ++ ["dual_graphs".toList])) :
    PowerResumes (machine T noise) (formatProg drafts T args) := by
  unfold formatProg
  refine power_resumes_from T noise hT hN fun _ _ => ?_
  cases ha : formatArgs args with
  | thrown e => exact power_resumes_say _ (power_resumes_stop T noise hT hN _)
  | ub => exact power_resumes_say _ (power_resumes_stop T noise hT hN _)
  | ok a =>
  show PowerResumes _ (Prog.say _ (Prog.say _ (Prog.say _ (if a.formats then _ else _))))
  refine power_resumes_say _ (power_resumes_say _ (power_resumes_say _ ?_))
  cases hf : a.formats with
  | true => exact power_resumes_say _ (power_resumes_stop T noise hT hN _)
  | false =>
  simp only [Bool.false_eq_true, if_false]
  obtain ⟨t, o, ht, hpath, ho, hout, hfm, hof, hno, hgr⟩ := formatArgs_ok ha hf
  rw [hpath, hout]
  have hsp := hs t ht
  have cG : ∀ q, a.graphs = true ∧ Within ((splitSlash t).dropLast ++ ["dual_graphs".toList]) q → FormatChanges args q :=
    fun q hq => ⟨t, o, _, ht, ho, hof, hno, Or.inl ⟨hgr hq.1, hq.2⟩⟩
  have cO : ∀ q, Within (splitSlash o) q → FormatChanges args q := fun q hq => ⟨t, o, _, ht, ho, hof, hno, Or.inr hq⟩
  have hgo : a.graphs = true → _ := fun e => hg (hgr e) t o ht ho
  have hin : PowerResumes (machine T noise) (inputProg drafts T (splitSlash t) a.format a.prune a.terrain a.graphs) :=
    power_resumes_input T noise hT hN _ _ _ hfm fun q hq h => hsp q hq (cG q h)
  have hinl : Stays (fun q => a.graphs = true ∧ Within ((splitSlash t).dropLast ++ ["dual_graphs".toList]) q)
      (fun q => ScenePlace args (splitSlash t) q ∨ (a.graphs = true ∧ (q = (splitSlash t).dropLast ∨ Within ((splitSlash t).dropLast ++ ["dual_graphs".toList]) q)))
      (inputProg drafts T (splitSlash t) a.format a.prune a.terrain a.graphs) :=
    stays_input T _ _ _ hfm (fun q hq => Or.inl hq) fun e => ⟨Or.inr ⟨e, Or.inl rfl⟩, fun q hq => ⟨⟨e, hq⟩, Or.inr ⟨e, Or.inr hq⟩⟩⟩
  refine power_resumes_bind T noise hT hN (D := Within (splitSlash o)) (S' := fun _ => True) hinl hin (fun q hq => Or.inr ⟨hq.1, Or.inr hq.2⟩) ?_ ?_ fun s => ?_
  · exact fun s => stays_from fun f _ => stays_sceneWrite trivial (fun _ h => h) (fun _ _ => trivial) _ _ _ _
  · rintro q (hq | ⟨e, hq⟩) hD
    · exact hsp q hq (cO q hD)
    · rcases hq with rfl | hq
      · obtain ⟨r, hr⟩ := hD
        exact (hgo e).2 ⟨r ++ ["dual_graphs".toList], by rw [hr]; simp⟩
      · rcases within_both hq hD with k | k
        · exact (hgo e).1 k
        · exact (hgo e).2 k
  · exact power_resumes_from T noise hT hN fun f _ => power_resumes_sceneWrite T noise hT hN _ _ _ _ _

theorem power_resumes_job (j : Job) (h : j.Tidy T) : PowerResumes (machine T noise) (j.process drafts T) := by
  cases j with
  | ortho args =>
    refine power_resumes_then T noise hT hN (C := OrthoChanges T args) (stays_mono (fun _ h => h) (fun _ _ => trivial) _ (stays_ortho T args)) (power_resumes_ortho T noise hT hN args h) ?_
    rintro (a | e | _) <;> trivial
  | format args =>
    refine power_resumes_then T noise hT hN (C := FormatChanges args) (stays_mono (fun _ h => h) (fun _ _ => trivial) _ (stays_format T args)) (power_resumes_format T noise hT hN args h.1 h.2) ?_
    rintro (a | e | _) <;> trivial

/-! ### C127 -/

/-- C127: the power fails during a run or after it, and the disk has lost any part of what was written. The tool is run again: it ends in the same way and prints the same as if nothing had happened, and
leaves the same files. -/
theorem C127_again (drafts : Path → Text → List Text) (j : Job) (h : j.Tidy T) (fs g : Fs) (hg : AfterPowerLoss (machine T noise) (j.process drafts T) fs g) :
    j.run T noise g = j.run T noise fs := by
  rw [← alone_job (drafts := drafts)]
  exact power_resumes_job T noise hT hN j h fs g hg

/-- C127: any number of failures. -/
theorem C127_failures (j : Job) (h : j.Tidy T) {fs g : Fs} (hg : AfterFailures T noise j fs g) : j.run T noise g = j.run T noise fs := by
  induction hg with
  | none fs => rfl
  | fail drafts now _ ih => rw [ih, C127_again T noise hT hN drafts j h _ _ now]

/-- C127: the same for the last run as a process: after enough calls it has stopped, with the outcome, the files and the messages of a run without failures. -/
theorem C127_process (drafts : Path → Text → List Text) (j : Job) (h : j.Tidy T) {fs g : Fs} (hg : AfterFailures T noise j fs g) :
    ∃ n, ∀ m, n ≤ m → (j.process drafts T).steps (machine T noise) m g = (.stop (j.run T noise fs).1, (j.run T noise fs).2.1, (j.run T noise fs).2.2) := by
  obtain ⟨n, hn⟩ := C120_alone drafts T noise j g
  refine ⟨n, fun m hm => ?_⟩
  obtain ⟨r, h1, h2⟩ := hn m hm
  rw [h1, h2, C127_failures T noise hT hN j h hg]

/-- C127: the failure touches nothing but the places of the results. -/
theorem C127_elsewhere (drafts : Path → Text → List Text) (j : Job) (fs g : Fs) (hg : AfterPowerLoss (machine T noise) (j.process drafts T) fs g) (q : Path) (hq : ¬ j.changes T q) : g q = fs q :=
  loss_stays T noise hT hN (stays_job T j) hg q hq

omit hT hN in
/-- What a call may leave, it has made: after the call there is something of the same kind. -/
theorem left_made {A : Type} (M : Machine) {x : Prog A} {fs : Fs} {q : Path} {e : Option Entry} (h : MayLeave x fs q e) :
    ∃ a b, (x.step M fs).2.1 q = some a ∧ e = some b ∧ (a = .dir ↔ b = .dir) := by
  cases x with
  | create p k =>
    obtain ⟨rfl, h1, u, rfl⟩ := h
    refine ⟨.file [], .file u, ?_, rfl, by simp⟩
    show (if fs.canWrite p then fs.set p (.file []) else fs) p = _
    rw [if_pos h1]
    simp [Fs.set]
  | mkdir p k =>
    obtain ⟨rfl, h1, rfl⟩ := h
    refine ⟨.dir, .dir, ?_, rfl, Iff.rfl⟩
    show (makeDir p fs).2 p = _
    unfold makeDir at h1 ⊢
    cases e : fs p with
    | some y =>
      cases y with
      | dir => exact e
      | file t => rw [e] at h1; cases h1
    | none =>
      rw [e] at h1
      dsimp only at h1 ⊢
      split at h1
      · rename_i hd
        rw [if_pos hd]
        simp [Fs.set]
      · cases h1
  | stop r => exact absurd h _root_.id
  | say s k => exact absurd h _root_.id
  | look p k => exact absurd h _root_.id
  | names p k => exact absurd h _root_.id
  | hear f b p k => exact absurd h _root_.id
  | store p t k =>
    obtain ⟨rfl, ⟨v, h1⟩, u, rfl⟩ := h
    refine ⟨.file t, .file u, ?_, rfl, by simp⟩
    show (match fs p with | some (.file _) => fs.set p (.file t) | _ => fs) p = _
    rw [h1]
    simp [Fs.set]

omit hT hN in
/-- C127: whatever the failure leaves is in a place where the complete run leaves something of the same kind: no litter. -/
theorem C127_no_litter (drafts : Path → Text → List Text) (j : Job) (fs g : Fs) (hg : AfterPowerLoss (machine T noise) (j.process drafts T) fs g) (q : Path) (b : Entry) (hb : g q = some b) :
    ∃ a, (j.run T noise fs).2.1 q = some a ∧ (b = .dir ↔ a = .dir) := by
  rcases hg q with h | ⟨n, h⟩
  · rw [← alone_job (drafts := drafts)]
    exact alone_kind _ q _ fs b (h ▸ hb)
  · obtain ⟨a, b', ha, hb', hk⟩ := left_made (machine T noise) h
    rw [hb] at hb'
    cases hb'
    obtain ⟨c, hc, hk'⟩ := alone_kind (machine T noise) q (((j.process drafts T).steps (machine T noise) n fs).1.step (machine T noise) ((j.process drafts T).steps (machine T noise) n fs).2.1).1 _ a ha
    refine ⟨c, ?_, hk.symm.trans hk'⟩
    rw [← alone_job (drafts := drafts), alone_steps (machine T noise) n, alone_step]
    exact hc

omit hT hN in
theorem mid_left {A : Type} (M : Machine) (x : Prog A) (fs : Fs) (q : Path) : ∀ n, (x.steps M n fs).2.1 q = fs q ∨ Left M x fs q ((x.steps M n fs).2.1 q) := by
  intro n
  induction n generalizing x fs with
  | zero => exact Or.inl rfl
  | succ n ih =>
    have key : (x.step M fs).2.1 q = fs q ∨ MayLeave x fs q ((x.step M fs).2.1 q) := by
      cases x with
      | create p k =>
        by_cases hq : p = q
        · subst hq
          cases hw : fs.canWrite p with
          | false => exact Or.inl (by simp [Prog.step, hw])
          | true => exact Or.inr ⟨rfl, hw, [], by simp [Prog.step, hw, Fs.set]⟩
        · refine Or.inl ?_
          show (if fs.canWrite p then fs.set p (.file []) else fs) q = _
          split
          · simp [Fs.set, Ne.symm hq]
          · rfl
      | mkdir p k =>
        by_cases hq : p = q
        · subst hq
          show (makeDir p fs).2 p = _ ∨ (p = p ∧ (makeDir p fs).1 = .ok () ∧ (makeDir p fs).2 p = some .dir)
          unfold makeDir
          cases e : fs p with
          | some y => cases y <;> exact Or.inl e
          | none =>
            dsimp only
            by_cases hd : fs p.dropLast = some .dir
            · rw [if_pos hd]
              exact Or.inr ⟨rfl, rfl, by simp [Fs.set]⟩
            · rw [if_neg hd]
              exact Or.inl e
        · refine Or.inl ?_
          show (makeDir p fs).2 q = _
          unfold makeDir
          cases fs p with
          | some y => cases y <;> rfl
          | none =>
            dsimp only
            by_cases hd : fs p.dropLast = some .dir
            · rw [if_pos hd]
              simp [Fs.set, Ne.symm hq]
            · rw [if_neg hd]
      | store p t k =>
        by_cases hq : p = q
        · subst hq
          cases e : fs p with
          | none => exact Or.inl (by simp [Prog.step, e])
          | some y =>
            cases y with
            | dir => exact Or.inl (by simp [Prog.step, e])
            | file u => exact Or.inr ⟨rfl, ⟨u, e⟩, t, by simp [Prog.step, e, Fs.set]⟩
        · refine Or.inl ?_
          cases e : fs p with
          | none => simp [Prog.step, e]
          | some y => cases y <;> simp [Prog.step, e, Fs.set, Ne.symm hq]
      | stop r => exact Or.inl rfl
      | say s k => exact Or.inl rfl
      | look p k => exact Or.inl rfl
      | names p k => exact Or.inl rfl
      | hear f b p k => exact Or.inl rfl
    have e0 : (x.steps M (n + 1) fs).2.1 = ((x.step M fs).1.steps M n (x.step M fs).2.1).2.1 := rfl
    rw [e0]
    rcases ih (x.step M fs).1 (x.step M fs).2.1 with h | h
    · rw [h]
      exact key.imp _root_.id left_here
    · exact Or.inr (left_next h)

omit hT hN in
/-- C127: a tool that is killed, while the disk loses nothing, is a special case: what C121 says follows. -/
theorem C127_killed (drafts : Path → Text → List Text) (j : Job) (n : Nat) (fs : Fs) :
    AfterPowerLoss (machine T noise) (j.process drafts T) fs ((j.process drafts T).steps (machine T noise) n fs).2.1 :=
  fun q => mid_left (machine T noise) (j.process drafts T) fs q n

open Classical in
/-- C127: several tools run on separate scenes when the power fails. Afterwards they are run one after the other: each one ends in the same way and prints the same as if there had been no failure, and the
disk is the same. -/
theorem C127_together (drafts : Path → Text → List Text) (js : List Job) (fs g : Fs) (h : js.Pairwise (Job.Separate T)) (ht : ∀ j ∈ js, j.Tidy T)
    (hg : AfterCommonLoss T noise drafts js fs g) : Job.script T noise js g = Job.script T noise js fs := by
  -- who left it
  have who : ∀ q, g q = fs q ∨ ∃ (i : Nat) (j : Job), js[i]? = some j ∧ j.changes T q ∧ Left (machine T noise) (j.process drafts T) fs q (g q) := by
    intro q
    refine (hg q).imp _root_.id ?_
    rintro ⟨sched, i, x, said, hp, hl⟩
    obtain ⟨c1, c2, -⟩ := crowd_at (drafts := drafts) T noise hT hN js fs h sched
    cases hj : js[i]? with
    | none => rw [c2 i hj] at hp; cases hp
    | some j =>
      obtain ⟨d1, d2, d3⟩ := c1 i j hj
      rw [hp] at d1
      injection d1 with d1
      injection d1 with d1 _
      rw [← d1] at d3
      have hc : j.changes T q ∧ MayLeave x ((j.process drafts T).steps (machine T noise) (sched.count i) fs).2.1 q (g q) := by
        generalize ((startAll drafts T js fs).run (machine T noise) sched).fs = f1 at hl d2
        generalize ((j.process drafts T).steps (machine T noise) (sched.count i) fs).2.1 = f2 at d2
        cases x with
        | create p k =>
          obtain ⟨rfl, h1, h2⟩ := hl
          refine ⟨d3.1.1, rfl, ?_, h2⟩
          unfold Fs.canWrite at h1 ⊢
          rw [← d2 _ d3.1.2.1, ← d2 _ d3.1.2.2]
          exact h1
        | mkdir p k =>
          obtain ⟨rfl, h1, h2⟩ := hl
          refine ⟨d3.1.1, rfl, ?_, h2⟩
          unfold makeDir at h1 ⊢
          rw [← d2 _ d3.1.2.1, ← d2 _ d3.1.2.2]
          revert h1
          cases f1 p with
          | some y => cases y <;> exact _root_.id
          | none => dsimp only; split <;> exact _root_.id
        | store p t k =>
          obtain ⟨rfl, ⟨t', h1⟩, h2⟩ := hl
          exact ⟨d3.1.1, rfl, ⟨t', by rw [← d2 _ d3.1.2]; exact h1⟩, h2⟩
        | stop r => exact absurd hl _root_.id
        | say s k => exact absurd hl _root_.id
        | look p k => exact absurd hl _root_.id
        | names p k => exact absurd hl _root_.id
        | hear f b p k => exact absurd hl _root_.id
      refine ⟨i, j, hj, hc.1, sched.count i, ?_⟩
      rw [← d1]
      exact hc.2
  have hsame : ∀ j ∈ js, SameEnd (j.looks T) (j.run T noise g) (j.run T noise fs) := by
    intro j hj
    obtain ⟨k, hk⟩ := List.getElem?_of_mem hj
    have own : ∀ (i : Nat) (j' : Job) (q : Path), js[i]? = some j' → j'.changes T q → j.looks T q → j' = j := by
      intro i j' q hi hc hl
      by_cases hik : i = k
      · subst hik
        rw [hk] at hi
        exact (Option.some.inj hi).symm
      · exact absurd ⟨hc, hl⟩ (separate_at T h hi hk hik q).1
    have hgj : AfterPowerLoss (machine T noise) (j.process drafts T) fs (fun q => if j.changes T q then g q else fs q) := by
      intro q
      by_cases hq : j.changes T q
      · dsimp only
        rw [if_pos hq]
        refine (who q).imp _root_.id ?_
        rintro ⟨i, j', hi, hc, hl⟩
        rw [own i j' q hi hc (changes_looked T j q hq)] at hl
        exact hl
      · exact Or.inl (if_neg hq)
    have hs : SameAt (j.looks T) g (fun q => if j.changes T q then g q else fs q) := by
      intro q hq
      by_cases hc : j.changes T q
      · exact (if_pos hc).symm
      · rcases who q with e | ⟨i, j', hi, hc', -⟩
        · exact e.trans (if_neg hc).symm
        · exact absurd (own i j' q hi hc' hq ▸ hc') hc
    have h3 := job_same T noise hT hN j hs
    rw [C127_again T noise hT hN drafts j (ht j hj) fs _ hgj] at h3
    exact h3
  obtain ⟨a1, a2, a3⟩ := C118_alone T noise hT hN js fs h
  obtain ⟨b1, b2, b3⟩ := C118_alone T noise hT hN js g h
  refine Prod.ext ?_ (funext fun q => ?_)
  · rw [a1, b1]
    refine List.map_congr_left fun j hj => ?_
    rw [(hsame j hj).1, (hsame j hj).2.2]
  · by_cases hq : ∃ j ∈ js, j.changes T q
    · obtain ⟨j, hj, hc⟩ := hq
      rw [a2 j hj q hc, b2 j hj q hc, (hsame j hj).2.1 q (changes_looked T j q hc)]
    · have hn : ∀ j ∈ js, ¬ j.changes T q := fun j hj hc => hq ⟨j, hj, hc⟩
      rw [a3 q hn, b3 q hn]
      exact (who q).elim _root_.id fun ⟨i, j, hi, hc, _⟩ => absurd hc (hn j (List.mem_of_getElem? hi))

end

/-! ### The hypotheses are met, and the condition is needed -/

instance {A : Type} (x : Prog A) (fs : Fs) (q : Path) (e : Option Entry) : Decidable (MayLeave x fs q e) :=
  have file : Decidable (∃ u, e = some (.file u)) := match e with
    | some (.file u) => isTrue ⟨u, rfl⟩
    | some .dir => isFalse (by rintro ⟨u, h⟩; cases h)
    | none => isFalse (by rintro ⟨u, h⟩; cases h)
  match x with
  | .create p _ => inferInstanceAs (Decidable (p = q ∧ fs.canWrite q = true ∧ ∃ u, e = some (.file u)))
  | .store p _ _ =>
    have old : Decidable (∃ t, fs q = some (.file t)) := match fs q with
      | some (.file u) => isTrue ⟨u, rfl⟩
      | some .dir => isFalse (by rintro ⟨u, h⟩; cases h)
      | none => isFalse (by rintro ⟨u, h⟩; cases h)
    inferInstanceAs (Decidable (p = q ∧ (∃ t, fs q = some (.file t)) ∧ ∃ u, e = some (.file u)))
  | .mkdir p _ => inferInstanceAs (Decidable (p = q ∧ (makeDir q fs).1 = .ok () ∧ e = some .dir))
  | .stop _ => isFalse _root_.id
  | .say _ _ => isFalse _root_.id
  | .look _ _ => isFalse _root_.id
  | .names _ _ => isFalse _root_.id
  | .hear _ _ _ _ => isFalse _root_.id

/-- Two dual graphs have been written, and the tool has ended. Then the power fails: the first graph holds other characters than were written, the second one is lost. -/
def lostGraph : Fs := (sharedFs.set ["e".toList, "dual_graphs".toList] .dir).set ["e".toList, "dual_graphs".toList, "x.txt".toList] (.file "@@@".toList)

theorem lost_graph : AfterPowerLoss (machine countTools fun _ _ _ _ => []) (Job.process halves countTools (.ortho (graphArgs "e/a.obj"))) sharedFs lostGraph := by
  intro q
  by_cases h1 : q = ["e".toList, "dual_graphs".toList, "x.txt".toList]
  · subst h1
    exact Or.inr ⟨6, by decide +kernel⟩
  · by_cases h2 : q = ["e".toList, "dual_graphs".toList]
    · subst h2
      exact Or.inr ⟨5, by decide +kernel⟩
    · refine Or.inl ?_
      unfold lostGraph
      simp only [Fs.set, if_neg h1, if_neg h2]


/-- C127: the tool is run again, and so after a second failure which leaves nothing of what it made. -/
example : Job.run countTools (fun _ _ _ _ => []) (.ortho (graphArgs "e/a.obj")) lostGraph = Job.run countTools (fun _ _ _ _ => []) (.ortho (graphArgs "e/a.obj")) sharedFs :=
  C127_again countTools _ count_lists silent_noise halves (.ortho (graphArgs "e/a.obj")) (fun ho => absurd ho (by unfold AsksFormat; decide)) _ _ lost_graph

/-- The result of a run that has ended well is lost: nothing is known to be on the disk when the tool has ended. -/
example (drafts : Path → Text → List Text) (fs : Fs) {N L K : Type} [Field K] [LinearOrder K] [FloorRing K] (T : Toolbox N L K) (noise : SceneFormat → Bool → Path → Fs → List Text) (j : Job) :
    AfterPowerLoss (machine T noise) (j.process drafts T) fs fs := fun _ => Or.inl rfl

/-- What one might expect beyond C127: any conversion can be run again after a loss of power. -/
def AnyConversionAgain : Prop := ∀ (N L : Type) (T : Toolbox N L ℚ) (noise : SceneFormat → Bool → Path → Fs → List Text), ListsFiles T → NoiseOfScene noise →
  ∀ (drafts : Path → Text → List Text) (args : Args) (fs g : Fs), AfterPowerLoss (machine T noise) (Job.process drafts T (.format args)) fs g →
    Job.run T noise (.format args) g = Job.run T noise (.format args) fs

/-- C127: the condition on cityformat is needed: a scene that is converted in its place may be lost. -/
theorem C127_in_place : ¬ AnyConversionAgain := by
  intro h
  have k := h Mesh Unit countTools (fun _ _ _ _ => []) count_lists silent_noise halves (turnArgs "e/a.obj" "e/a.obj") sharedFs _
    (C127_killed countTools (fun _ _ _ _ => []) halves (.format (turnArgs "e/a.obj" "e/a.obj")) 5 sharedFs)
  exact absurd (congrArg (fun r => r.2.1 ["e".toList, "a.obj".toList]) k) (by decide +kernel)

end City.Props
