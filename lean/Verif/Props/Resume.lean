import Verif.Props.Together
/-!
C121: a tool that was killed is run again.
-/
set_option linter.unusedSectionVars false
namespace City.Spec
open City City.Props
variable {N L K : Type} [Field K] [LinearOrder K] [FloorRing K]

/-- The files after a number of attempts: each one is killed after some calls, and the files it was writing may have had any contents in between. -/
def afterCrashes (T : Toolbox N L K) (noise : SceneFormat → Bool → Path → Fs → List Text) (j : Job) : List ((Path → Text → List Text) × Nat) → Fs → Fs
  | [], fs => fs
  | (drafts, n) :: l, fs => afterCrashes T noise j l ((j.process drafts T).steps (machine T noise) n fs).2.1

/-- What the tools need to be run again: nothing of the scene is among the places the run may change, and for cityformat the output and the directory of the dual graphs are not inside each other. -/
def Job.Tidy (T : Toolbox N L K) : Job → Prop
  | .ortho args => AsksFormat args "OFF" → ∀ t, args "<scene>".toList = some (.str t) → ∀ q, ScenePlace args (splitSlash t) q → ¬ OrthoChanges T args q
  | .format args => (∀ t, args "<scene>".toList = some (.str t) → ∀ q, ScenePlace args (splitSlash t) q → ¬ FormatChanges args q) ∧
    (Asked args "--graphs" → ∀ t o, args "<scene>".toList = some (.str t) → args "<path>".toList = some (.str o) →
      ¬ Within ((splitSlash t).dropLast ++ ["dual_graphs".toList]) (splitSlash o) ∧ ¬ Within (splitSlash o) ((splitSlash t).dropLast ++ ["dual_graphs".toList]))

end City.Spec
namespace City.Props
open City City.Spec

/-! ### States in the middle of a run -/

/-- The files at some time of the run. -/
def MidRun {A : Type} (M : Machine) (x : Prog A) (fs g : Fs) : Prop := ∃ n, g = (x.steps M n fs).2.1

/-- From every state in the middle of a run, the run ends in the same way, prints the same and leaves the same. -/
def Resumes {A : Type} (M : Machine) (x : Prog A) : Prop := ∀ fs g, MidRun M x fs g → x.alone M g = x.alone M fs

variable {M : Machine}

theorem midrun_step {A : Type} {x : Prog A} {fs g : Fs} (h : MidRun M x fs g) : g = fs ∨ MidRun M (x.step M fs).1 (x.step M fs).2.1 g := by
  obtain ⟨n, rfl⟩ := h
  cases n with
  | zero => exact Or.inl rfl
  | succ n => exact Or.inr ⟨n, rfl⟩

theorem midrun_here {A : Type} (x : Prog A) (fs : Fs) : MidRun M x fs fs := ⟨0, rfl⟩

theorem midrun_next {A : Type} {x : Prog A} {fs g : Fs} (h : MidRun M (x.step M fs).1 (x.step M fs).2.1 g) : MidRun M x fs g := by
  obtain ⟨n, rfl⟩ := h
  exact ⟨n + 1, rfl⟩

theorem midrun_stop {A : Type} {r : Out A} {fs g : Fs} (h : MidRun M (.stop r) fs g) : g = fs := by
  obtain ⟨n, rfl⟩ := h
  rw [steps_stop]

theorem midrun_end {A : Type} (x : Prog A) (fs : Fs) : MidRun M x fs (x.alone M fs).2.1 := by
  obtain ⟨n, r, h⟩ := steps_halt M x fs
  exact ⟨n, by rw [steps_end h]⟩

theorem midrun_after {A B : Type} {f : Out A → Prog B} {g : Fs} : ∀ (x : Prog A) (fs : Fs), MidRun M (x.after f) fs g →
    MidRun M x fs g ∨ MidRun M (f (x.alone M fs).1) (x.alone M fs).2.1 g := by
  intro x
  induction x with
  | stop r => exact fun fs h => Or.inr h
  | say s k ih => exact fun fs h => (midrun_step h).elim (fun e => Or.inl (e ▸ midrun_here _ _)) fun h => (ih fs h).imp (fun h => midrun_next (x := .say s k) h) _root_.id
  | look p k ih => exact fun fs h => (midrun_step h).elim (fun e => Or.inl (e ▸ midrun_here _ _)) fun h => (ih _ fs h).imp (fun h => midrun_next (x := .look p k) h) _root_.id
  | names p k ih => exact fun fs h => (midrun_step h).elim (fun e => Or.inl (e ▸ midrun_here _ _)) fun h => (ih _ fs h).imp (fun h => midrun_next (x := .names p k) h) _root_.id
  | hear g b p k ih => exact fun fs h => (midrun_step h).elim (fun e => Or.inl (e ▸ midrun_here _ _)) fun h => (ih _ fs h).imp (fun h => midrun_next (x := .hear g b p k) h) _root_.id
  | mkdir p k ih => exact fun fs h => (midrun_step h).elim (fun e => Or.inl (e ▸ midrun_here _ _)) fun h => (ih _ _ h).imp (fun h => midrun_next (x := .mkdir p k) h) _root_.id
  | create p k ih => exact fun fs h => (midrun_step h).elim (fun e => Or.inl (e ▸ midrun_here _ _)) fun h => (ih _ _ h).imp (fun h => midrun_next (x := .create p k) h) _root_.id
  | store p t k ih => exact fun fs h => (midrun_step h).elim (fun e => Or.inl (e ▸ midrun_here _ _)) fun h => (ih _ h).imp (fun h => midrun_next (x := .store p t k) h) _root_.id

section
variable {N L K : Type} [Field K] [LinearOrder K] [FloorRing K]
variable (T : Toolbox N L K) (noise : SceneFormat → Bool → Path → Fs → List Text) (hT : ListsFiles T) (hN : NoiseOfScene noise)
include hT hN

theorem steps_stays {A : Type} {C S : Path → Prop} : ∀ (n : Nat) {x : Prog A} {fs₁ fs₂ : Fs}, Stays C S x → SameAt S fs₁ fs₂ →
    (x.steps (machine T noise) n fs₁).1 = (x.steps (machine T noise) n fs₂).1 ∧ (x.steps (machine T noise) n fs₁).2.2 = (x.steps (machine T noise) n fs₂).2.2 ∧
    SameAt S (x.steps (machine T noise) n fs₁).2.1 (x.steps (machine T noise) n fs₂).2.1 ∧ ∀ q, ¬ C q → (x.steps (machine T noise) n fs₁).2.1 q = fs₁ q
  | 0, _, _, _, _, h => ⟨rfl, rfl, h, fun _ _ => rfl⟩
  | n + 1, x, fs₁, fs₂, hx, h => by
    obtain ⟨a1, a2, a3, a4, a5⟩ := step_stays T noise hT hN hx h
    obtain ⟨b1, b2, b3, b4⟩ := steps_stays n a4 a3
    rw [a1] at b1 b2 b3
    refine ⟨?_, ?_, ?_, fun q hq => (b4 q hq).trans (a5 q hq)⟩
    · show ((x.step _ fs₁).1.steps _ n _).1 = _
      rw [a1]; exact b1
    · show _ ++ ((x.step _ fs₁).1.steps _ n _).2.2 = _ ++ ((x.step _ fs₂).1.steps _ n _).2.2
      rw [a1, a2, b2]
    · show SameAt S ((x.step _ fs₁).1.steps _ n _).2.1 _
      rw [a1]; exact b3

theorem mid_stays {A : Type} {C S : Path → Prop} {x : Prog A} (hx : Stays C S x) {fs g : Fs} (h : MidRun (machine T noise) x fs g) (q : Path) (hq : ¬ C q) : g q = fs q := by
  obtain ⟨n, rfl⟩ := h
  exact (steps_stays T noise hT hN n hx (fun _ _ => rfl : SameAt S fs fs)).2.2.2 q hq

theorem talks_stays {A : Type} {C S : Path → Prop} {x : Prog A} (hx : Stays C S x) : TalksOf S (x.alone (machine T noise)) := by
  intro fs₁ fs₂ h
  obtain ⟨n, r, e⟩ := steps_halt (machine T noise) x fs₁
  obtain ⟨a1, a2, a3, -⟩ := steps_stays T noise hT hN n hx h
  rw [steps_end e, steps_end (a1 ▸ e)]
  exact ⟨rfl, a3, a2⟩

theorem changes_stays {A : Type} {C S : Path → Prop} {x : Prog A} (hx : Stays C S x) : TalkChanges C (x.alone (machine T noise)) := by
  intro fs q hq
  by_contra hc
  exact hq (mid_stays T noise hT hN hx (midrun_end x fs) q hc)

theorem resumes_still {A : Type} {S : Path → Prop} {x : Prog A} (hx : Stays (fun _ => False) S x) : Resumes (machine T noise) x := by
  intro fs g h
  rw [funext fun q => mid_stays T noise hT hN hx h q _root_.id]

theorem resumes_after {A B : Type} {S S' C D : Path → Prop} {x : Prog A} {f : Out A → Prog B} (hx : Stays C S x) (hr : Resumes (machine T noise) x) (hcs : ∀ q, C q → S q)
    (hd : ∀ r, Stays D S' (f r)) (hsd : ∀ q, S q → ¬ D q) (hk : ∀ r, Resumes (machine T noise) (f r)) : Resumes (machine T noise) (x.after f) := by
  intro fs g hg
  rw [alone_after, alone_after]
  rcases midrun_after x fs hg with h | h
  · rw [hr fs g h]
  · have h0 := hr fs _ (midrun_end x fs)
    generalize hf1 : (x.alone (machine T noise) fs).2.1 = f1 at h h0
    generalize hr1 : (x.alone (machine T noise) fs).1 = r1 at h
    have hsame : SameAt S g f1 := fun q hq => mid_stays T noise hT hN (hd r1) h q (hsd q hq)
    obtain ⟨h1, h2, h4⟩ := talks_stays T noise hT hN hx _ _ hsame
    rw [h0] at h1 h2 h4
    rw [hr1] at h1
    rw [hf1] at h2
    have h3 : (x.alone (machine T noise) g).2.1 = g := by
      funext q
      by_cases hq : C q
      · rw [h2 q (hcs q hq), hsame q (hcs q hq)]
      · by_contra hne
        exact hq (changes_stays T noise hT hN hx _ q hne)
    rw [h1, h3, h4, hk r1 f1 g h]

theorem resumes_bind {A B : Type} {S S' C D : Path → Prop} {x : Prog A} {k : A → Prog B} (hx : Stays C S x) (hr : Resumes (machine T noise) x) (hcs : ∀ q, C q → S q)
    (hd : ∀ a, Stays D S' (k a)) (hsd : ∀ q, S q → ¬ D q) (hk : ∀ a, Resumes (machine T noise) (k a)) : Resumes (machine T noise) (x.bind k) := by
  refine resumes_after T noise hT hN hx hr hcs (D := D) (S' := S') ?_ hsd ?_
  · rintro (a | e | _)
    · exact hd a
    · exact stays_stop _ _ _
    · exact stays_stop _ _ _
  · rintro (a | e | _)
    · exact hk a
    · exact resumes_still T noise hT hN (S := fun _ => False) (stays_stop _ _ _)
    · exact resumes_still T noise hT hN (S := fun _ => False) (stays_stop _ _ _)

theorem resumes_stop {A : Type} (r : Out A) : Resumes (machine T noise) (.stop r) := resumes_still T noise hT hN (S := fun _ => False) (stays_stop _ _ _)

omit hT hN in
theorem resumes_say {A : Type} (s : Said) {k : Prog A} (h : Resumes M k) : Resumes M (.say s k) := by
  intro fs g hg
  have e : k.alone M g = k.alone M fs := by
    rcases midrun_step hg with rfl | hg
    · rfl
    · exact h fs g hg
  simp only [Prog.alone, e]

theorem resumes_from {A B : Type} {r : Out A} {k : A → Prog B} (hk : ∀ a, r = .ok a → Resumes (machine T noise) (k a)) : Resumes (machine T noise) ((Prog.stop r).bind k) := by
  cases r with
  | ok a => exact hk a rfl
  | thrown e => exact resumes_stop T noise hT hN _
  | ub => exact resumes_stop T noise hT hN _

/-- After something that is done at the end nothing is changed any more. -/
theorem resumes_then {A B : Type} {x : Prog A} {f : Out A → Prog B} {C : Path → Prop} (hx : Stays C (fun _ => True) x) (hr : Resumes (machine T noise) x)
    (hd : ∀ r, Stays (fun _ => False) (fun _ => False) (f r)) : Resumes (machine T noise) (x.after f) :=
  resumes_after T noise hT hN hx hr (fun _ _ => trivial) hd (fun _ _ h => h) fun r => resumes_still T noise hT hN (hd r)

theorem resumes_announced {A : Type} (b e : String) {x : Prog A} {C : Path → Prop} (hx : Stays C (fun _ => True) x) (hr : Resumes (machine T noise) x) :
    Resumes (machine T noise) (Prog.announced b x e) := by
  refine resumes_say _ (resumes_then T noise hT hN hx hr ?_)
  rintro (a | e | _) <;> trivial

/-! ### Files -/

/-- A process that writes one file, or nothing. -/
def FillsIn (M : Machine) (x : Prog Unit) (w : Putter) : Prop :=
  x.alone M = Talk.quiet w.put ∧ ∀ fs g, MidRun M x fs g → g = fs ∨ (w.on && fs.canWrite w.at_) = true ∧ ∃ u, g = fs.set w.at_ (.file u)

omit hT hN in
theorem writes_stop (M : Machine) (r : Out Unit) : FillsIn M (.stop r) ⟨[], [], false, r, r⟩ := by
  refine ⟨?_, fun fs g h => Or.inl (midrun_stop h)⟩
  funext fs
  simp [Prog.alone, Talk.quiet, Putter.put]

omit hT hN in
theorem mid_stores {p : Path} {r : Out Unit} {g : Fs} : ∀ (l : List Text) {fs : Fs} {u : Text}, fs p = some (.file u) → MidRun M (Prog.stores p l (.stop r)) fs g →
    g = fs ∨ ∃ v, g = fs.set p (.file v)
  | [], fs, u, _, h => Or.inl (midrun_stop h)
  | t :: l, fs, u, e, h => by
    rcases midrun_step h with h | h
    · exact Or.inl h
    · have h' : MidRun M (Prog.stores p l (.stop r)) (fs.set p (.file t)) g := by
        have e2 : ((Prog.stores p (t :: l) (.stop r)).step M fs).2.1 = fs.set p (.file t) := by
          show (match fs p with | some (.file _) => fs.set p (.file t) | _ => fs) = _
          rw [e]
        rw [e2] at h
        exact h
      rcases mid_stores l (u := t) (by simp [Fs.set]) h' with rfl | ⟨v, rfl⟩
      · exact Or.inr ⟨t, rfl⟩
      · exact Or.inr ⟨v, set_set _ _ _ _⟩

omit hT hN in
theorem writes_file (M : Machine) (drafts : Path → Text → List Text) (p : Path) (t : Text) (good bad : Out Unit) : FillsIn M (fileProg drafts p t good bad) ⟨p, t, true, good, bad⟩ := by
  refine ⟨alone_file M p t good bad, fun fs g h => ?_⟩
  rcases midrun_step h with h | h
  · exact Or.inl h
  · change MidRun M (if fs.canWrite p then Prog.stores p (drafts p t ++ [t]) (.stop good) else .stop bad) (if fs.canWrite p then fs.set p (.file []) else fs) g at h
    cases hw : fs.canWrite p with
    | false =>
      rw [hw] at h
      exact Or.inl (midrun_stop h)
    | true =>
      rw [hw] at h
      refine Or.inr ⟨by simp [hw], ?_⟩
      rcases mid_stores _ (u := []) (by simp [Fs.set]) h with h | ⟨v, h⟩
      · exact ⟨[], h⟩
      · exact ⟨v, h.trans (set_set _ _ _ _)⟩

omit hT hN in
theorem grown_set {fs : Fs} {p : Path} (h : fs.canWrite p = true) (u : Text) : Grown fs (fs.set p (.file u)) := by
  intro q
  by_cases hq : q = p
  · subst hq
    exact Or.inr ⟨h, u, by simp [Fs.set]⟩
  · exact Or.inl (by simp [Fs.set, hq])

omit hT hN in
/-- In the middle of a list of files, all that is different is among the files that are written. -/
theorem midrun_all : ∀ (xs : List (Prog Unit)) (ws : List Putter), List.Forall₂ (FillsIn M) xs ws → ∀ fs g, MidRun M (Prog.all xs) fs g →
    Grown fs g ∧ ∀ q, g q = fs q ∨ ∃ t, (q, t) ∈ written fs.canWrite ws
  | _, _, .nil, fs, g, h => by
    rw [midrun_stop h]
    exact ⟨grown_refl _, fun _ => Or.inl rfl⟩
  | _, _, .cons (a := x) (b := w) (l₁ := xs) (l₂ := ws) hw hs, fs, g, h => by
    rcases midrun_after x fs h with h | h
    · rcases hw.2 fs g h with rfl | ⟨hc, u, rfl⟩
      · exact ⟨grown_refl _, fun _ => Or.inl rfl⟩
      · have hc' := hc
        rw [Bool.and_eq_true] at hc
        refine ⟨grown_set hc.2 u, fun q => ?_⟩
        by_cases hq : q = w.at_
        · refine Or.inr ⟨w.text, ?_⟩
          unfold written
          rw [if_pos hc', hq]
          exact List.mem_append_left _ List.mem_cons_self
        · exact Or.inl (by simp [Fs.set, hq])
    · rw [hw.1] at h
      have hg := grown_put w fs
      have hput : ∀ q, (w.put fs).2 q = fs q ∨ ∃ t, (q, t) ∈ (if w.on && fs.canWrite w.at_ then [(w.at_, w.text)] else []) := by
        intro q
        by_cases hc : (w.on && fs.canWrite w.at_) = true
        · by_cases hq : q = w.at_
          · exact Or.inr ⟨w.text, by rw [if_pos hc, hq]; exact List.mem_cons_self⟩
          · refine Or.inl ?_
            unfold Putter.put
            dsimp only
            rw [if_pos hc]
            simp [Fs.set, hq]
        · refine Or.inl ?_
          unfold Putter.put
          dsimp only
          rw [if_neg hc]
      have ho : (w.put fs).1 = if fs.canWrite w.at_ then w.good else w.bad := rfl
      unfold written
      rw [← ho]
      have hq : (Talk.quiet w.put fs).1 = (w.put fs).1 := rfl
      rw [hq] at h
      change MidRun M _ (w.put fs).2 g at h
      generalize (w.put fs).1 = o at h
      rcases o with a | e | _
      · cases a
        obtain ⟨i1, i2⟩ := midrun_all xs ws hs _ _ h
        refine ⟨grown_trans hg i1, fun q => ?_⟩
        rw [grown_write hg] at i2
        rcases i2 q with k | ⟨t, k⟩
        · rw [k]
          exact (hput q).imp _root_.id fun ⟨t, ht⟩ => ⟨t, List.mem_append_left _ ht⟩
        · exact Or.inr ⟨t, List.mem_append_right _ k⟩
      · rw [midrun_stop h]
        exact ⟨hg, fun q => (hput q).imp _root_.id fun ⟨t, ht⟩ => ⟨t, List.mem_append_left _ ht⟩⟩
      · rw [midrun_stop h]
        exact ⟨hg, fun q => (hput q).imp _root_.id fun ⟨t, ht⟩ => ⟨t, List.mem_append_left _ ht⟩⟩

omit hT hN in
theorem writes_list {xs : List (Prog Unit)} (h : ∀ x ∈ xs, ∃ w, FillsIn M x w) : ∃ ws, List.Forall₂ (FillsIn M) xs ws := by
  induction xs with
  | nil => exact ⟨[], .nil⟩
  | cons x xs ih =>
    obtain ⟨w, hw⟩ := h x List.mem_cons_self
    obtain ⟨ws, hws⟩ := ih fun y hy => h y (List.mem_cons_of_mem _ hy)
    exact ⟨w :: ws, .cons hw hws⟩

omit hT hN in
theorem resumes_all {xs : List (Prog Unit)} (h : ∀ x ∈ xs, ∃ w, FillsIn M x w) : Resumes M (Prog.all xs) := by
  obtain ⟨ws, hws⟩ := writes_list h
  intro fs g hg
  obtain ⟨h1, h2⟩ := midrun_all xs ws hws fs g hg
  have e : (Prog.all xs).alone M = Talk.quiet (runAll (ws.map Putter.put)) := by
    refine alone_zip M _ _ ?_
    rw [List.forall₂_map_right_iff]
    exact hws.imp fun x w hw => hw.1
  rw [e]
  unfold Talk.quiet
  rw [(runAll_puts ws fs).1, (runAll_puts ws g).1, grown_write h1]
  refine congrArg (fun f => (_, f, _)) (funext fun q => over_at q _ _ _ ?_)
  exact (h2 q).symm

omit hT hN in
theorem resumes_one {x : Prog Unit} {w : Putter} (h : FillsIn M x w) : Resumes M x := by
  intro fs g hg
  rw [h.1]
  rcases h.2 fs g hg with rfl | ⟨hc, u, rfl⟩
  · rfl
  · have hc' := hc
    rw [Bool.and_eq_true] at hc
    unfold Talk.quiet Putter.put
    rw [grown_write (grown_set hc.2 u), if_pos hc', if_pos hc', set_set]

omit hT hN in
theorem resumes_mkdir (p : Path) : Resumes M (dirProg p) := by
  intro fs g hg
  rcases midrun_step hg with rfl | hg
  · rfl
  · rw [midrun_stop hg, alone_dir]
    unfold Talk.quiet
    show ((makeDir p (makeDir p fs).2).1, (makeDir p (makeDir p fs).2).2, _) = _
    rw [redoes_makeDir p fs]

/-- A directory is made and files are written in it. -/
theorem resumes_dir {dir : Path} {xs : List (Prog Unit)} (h : ∀ x ∈ xs, (∃ w, FillsIn (machine T noise) x w) ∧ Stays (fun q => ∃ n, q = joinPath dir n) (fun _ => True) x) :
    Resumes (machine T noise) ((dirProg dir).bind fun _ => Prog.all xs) := by
  refine resumes_bind T noise hT hN (S := fun q => q = dir ∨ q = dir.dropLast) (C := fun q => q = dir) (D := fun q => ∃ n, q = joinPath dir n) (S' := fun _ => True)
    (stays_dir rfl (Or.inl rfl) (Or.inr rfl)) (resumes_mkdir dir) (fun q hq => Or.inl hq) (fun _ => stays_all _ fun x hx => (h x hx).2) ?_
    fun _ => resumes_all fun x hx => (h x hx).1
  rintro q (rfl | rfl) ⟨n, e⟩
  · exact (join_below n).1 e.symm
  · exact (join_below n).2 e.symm

variable {drafts : Path → Text → List Text}

theorem resumes_duals (root : Path) (bs : List (Text × Written)) : Resumes (machine T noise) (dualsProg drafts root bs) := by
  refine resumes_dir T noise hT hN fun x hx => ?_
  obtain ⟨b, -, rfl⟩ := List.mem_map.1 hx
  exact ⟨⟨_, writes_file _ _ _ _ _ _⟩, stays_file ⟨_, rfl⟩ trivial trivial _ _ _⟩

theorem resumes_prints (C : Cgal K) (G : Gdal K) (root : Path) (ps : List (FootPrint K)) (labels : Bool) : Resumes (machine T noise) (printsProg drafts C G root ps labels) := by
  refine resumes_dir T noise hT hN fun x hx => ?_
  obtain ⟨f, _, hx⟩ := List.mem_flatMap.1 hx
  simp only [List.mem_cons, List.not_mem_nil, or_false] at hx
  rcases hx with rfl | rfl
  · exact ⟨⟨_, writes_file _ _ _ _ _ _⟩, stays_file ⟨_, rfl⟩ trivial trivial _ _ _⟩
  · exact ⟨⟨_, writes_file _ _ _ _ _ _⟩, stays_file ⟨_, rfl⟩ trivial trivial _ _ _⟩

omit hT hN in
theorem writes_raster (M : Machine) (G : Gdal K) (p : Path) (r : Raster K) : ∃ w, FillsIn M (rasterProg drafts G p r) w := by
  unfold rasterProg
  split
  · exact ⟨_, writes_file _ _ _ _ _ _⟩
  · exact ⟨_, writes_stop _ _⟩

theorem resumes_rasters (G : Gdal K) (root : Path) (rs : List (Raster K)) : Resumes (machine T noise) (rastersProg drafts G root rs) := by
  refine resumes_dir T noise hT hN fun x hx => ?_
  obtain ⟨r, -, rfl⟩ := List.mem_map.1 hx
  exact ⟨writes_raster _ _ _ _, stays_raster ⟨_, rfl⟩ trivial trivial _ _⟩

theorem resumes_scenePrints (C : Cgal K) (lr : Bool) (G : Gdal K) (root : Path) (st : Text) (hst : PlainName st) (ps : List (FootPrint K)) (rast : Bool) (p : K) :
    Resumes (machine T noise) (scenePrintsProg drafts C lr G root st ps rast p) := by
  have j1 : joinPath root (st ++ ".shp".toList) = root ++ [st ++ ".shp".toList] := joinPath_plain (plain_ext hst (by unfold PlainName; decide))
  have j2 : joinPath root (st ++ ".tiff".toList) = root ++ [st ++ ".tiff".toList] := joinPath_plain (plain_ext hst (by unfold PlainName; decide))
  unfold scenePrintsProg
  rw [j1, j2]
  have hne : st ++ ".shp".toList ≠ st ++ ".tiff".toList := fun e => absurd (List.append_cancel_left e) (by decide)
  refine resumes_from T noise hT hN fun s _ => ?_
  refine resumes_bind T noise hT hN (S := fun q => q = root ++ [st ++ ".shp".toList] ∨ q = root) (C := fun q => q = root ++ [st ++ ".shp".toList])
    (D := fun q => q = root ++ [st ++ ".tiff".toList]) (S' := fun _ => True)
    ?_ (resumes_one (writes_file _ _ _ _ _ _)) (fun q hq => Or.inl hq) ?_ ?_ ?_
  · unfold vectorProg
    exact stays_file (C := fun q => q = root ++ [st ++ ".shp".toList]) rfl (Or.inl rfl) (Or.inr (by simp)) _ _ _
  · intro _
    split
    · exact stays_from fun r _ => stays_raster (C := fun q => q = root ++ [st ++ ".tiff".toList]) rfl trivial trivial _ _
    · exact stays_stop _ _ _
  · rintro q (rfl | rfl) e
    · exact hne (List.cons.inj (List.append_cancel_left e)).1
    · have := congrArg List.length e
      simp at this
  · intro _
    split
    · refine resumes_from T noise hT hN fun r _ => ?_
      obtain ⟨w, hw⟩ := writes_raster (drafts := drafts) (machine T noise) G (root ++ [st ++ ".tiff".toList]) r
      exact resumes_one hw
    · exact resumes_stop T noise hT hN _

theorem resumes_sceneWrite (ops : NodeOps N) (f : SceneFormat) (modes : Modes) (p : Path) (s : Scene N) : Resumes (machine T noise) (sceneWriteProg drafts ops f modes p s) := by
  cases f with
  | t3dsXml => exact resumes_stop T noise hT hN _
  | t3ds => exact resumes_stop T noise hT hN _
  | obj =>
    unfold sceneWriteProg
    dsimp only
    split
    · split
      · exact resumes_one (writes_file _ _ _ _ _ _)
      · exact resumes_stop T noise hT hN _
      · exact resumes_stop T noise hT hN _
    · exact resumes_stop T noise hT hN _
  | off =>
    show Resumes _ (offSceneWriteProg drafts ops modes p s)
    unfold offSceneWriteProg
    refine resumes_bind T noise hT hN (S := fun q => q = p ∨ q = p.dropLast) (C := fun q => q = p) (D := fun q => ∃ n, q = joinPath p n) (S' := fun _ => True)
      ?_ ?_ (fun q hq => Or.inl hq) ?_ ?_ ?_
    · refine ⟨Or.inl rfl, fun e => ?_⟩
      dsimp only
      split
      · exact stays_dir rfl (Or.inl rfl) (Or.inr rfl)
      · refine ⟨Or.inl rfl, fun e' => ?_⟩
        dsimp only
        split <;> trivial
    · intro fs g hg
      rcases midrun_step hg with rfl | hg
      · rfl
      · cases e : fs p with
        | none =>
          change MidRun _ (if fs p = none then dirProg p else _) fs g at hg
          rw [if_pos e] at hg
          rcases midrun_step hg with rfl | hg
          · rfl
          · have hg' : g = (makeDir p fs).2 := midrun_stop hg
            by_cases hd : fs p.dropLast = some .dir
            · have hm : makeDir p fs = (.ok (), fs.set p .dir) := by unfold makeDir; simp only [e, if_pos hd]
              rw [hm] at hg'
              dsimp only at hg'
              have hgp : g p = some .dir := by rw [hg']; simp [Fs.set]
              rw [hg'] at hgp ⊢
              simp [Prog.alone, e, hgp, dirProg, hm]
            · have hm : makeDir p fs = (.thrown .filesystemError, fs) := by unfold makeDir; simp only [e, if_neg hd]
              rw [hm] at hg'
              rw [hg']
        | some x =>
          change MidRun _ (if fs p = none then dirProg p else _) fs g at hg
          rw [if_neg (by rw [e]; exact fun h => by cases h)] at hg
          rcases midrun_step hg with rfl | hg
          · rfl
          · have : g = fs := by
              change MidRun _ (if fs p = some .dir then Prog.stop (Out.ok ()) else Prog.stop (.thrown .runtimeError)) fs g at hg
              split at hg <;> exact midrun_stop hg
            rw [this]
    · refine fun _ => stays_all _ fun x hx => ?_
      obtain ⟨m, _, rfl⟩ := List.mem_map.1 hx
      unfold offWriteProg
      split
      · exact stays_file ⟨_, rfl⟩ trivial trivial _ _ _
      · trivial
    · rintro q (rfl | rfl) ⟨n, e⟩
      · exact (join_below n).1 e.symm
      · exact (join_below n).2 e.symm
    · refine fun _ => resumes_all fun x hx => ?_
      obtain ⟨m, _, rfl⟩ := List.mem_map.1 hx
      unfold offWriteProg
      split
      · exact ⟨_, writes_file _ _ _ _ _ _⟩
      · exact ⟨_, writes_stop _ _⟩

/-! ### The tools -/

/-- Reading, pruning and saving the dual graphs, if this does not change the scene. -/
theorem resumes_input {args : Args} {t format : Text} (prune terrain graphs : Bool) (hf : args "--input-format".toList = some (.str format))
    (hs : ∀ q, ScenePlace args (splitSlash t) q → ¬ (graphs = true ∧ Within ((splitSlash t).dropLast ++ ["dual_graphs".toList]) q)) :
    Resumes (machine T noise) (inputProg drafts T (splitSlash t) format prune terrain graphs) := by
  have hch : ∀ x : Scene N, Stays (fun q => graphs = true ∧ Within ((splitSlash t).dropLast ++ ["dual_graphs".toList]) q) (fun _ => True)
      (if graphs then Prog.announced "Saving brick duals... " (dualsProg drafts (splitSlash t).dropLast (x.buildings.map T.dual)) " Done.\n" else .stop (.ok ())) := by
    intro x
    split
    · rename_i h
      exact stays_announced _ _ (stays_duals trivial (fun q hq => ⟨h, hq⟩) (fun _ _ => trivial) _)
    · exact stays_stop _ _ _
  unfold inputProg
  refine resumes_from T noise hT hN fun f hh => ?_
  refine resumes_bind T noise hT hN (S := ScenePlace args (splitSlash t)) (C := fun _ => False)
    (D := fun q => graphs = true ∧ Within ((splitSlash t).dropLast ++ ["dual_graphs".toList]) q) (S' := fun _ => True) (stays_scene T hf hh fun _ h => h)
    (resumes_still T noise hT hN (stays_scene (S := ScenePlace args (splitSlash t)) T hf hh fun _ h => h)) (fun _ h => h.elim) ?_ hs ?_
  · exact fun s => stays_from fun s' _ => stays_bind (hch s') fun _ => stays_stop _ _ _
  · refine fun s => resumes_from T noise hT hN fun s' _ => resumes_then T noise hT hN (hch s') ?_ ?_
    · split
      · exact resumes_announced T noise hT hN _ _ (C := fun _ => True) (stays_duals trivial (fun _ _ => trivial) (fun _ _ => trivial) _) (resumes_duals T noise hT hN _ _)
      · exact resumes_stop T noise hT hN _
    · rintro (a | e | _) <;> trivial

theorem resumes_ortho (args : Args)
    (hoff : AsksFormat args "OFF" → ∀ t, args "<scene>".toList = some (.str t) → ∀ q, ScenePlace args (splitSlash t) q → ¬ OrthoChanges T args q) :
    Resumes (machine T noise) (orthoProg drafts T args) := by
  unfold orthoProg
  cases ha : orthoArgs T args with
  | thrown e => exact resumes_say _ (resumes_stop T noise hT hN _)
  | ub => exact resumes_say _ (resumes_stop T noise hT hN _)
  | ok a =>
  show Resumes _ (Prog.say _ (Prog.say _ (Prog.say _ ((inputProg drafts T a.path a.format a.prune a.terrain a.graphs).bind _))))
  refine resumes_say _ (resumes_say _ (resumes_say _ ?_))
  obtain ⟨⟨t, ht, hpath⟩, hg, hs, hsc, hpx⟩ := orthoArgs_ok (T := T) (args := args) (a := a) ha
  have hfm := orthoArgs_format ha
  rw [hpath]
  cases hh : sceneHandlerNamed (splitSlash t) a.format with
  | thrown e =>
    unfold inputProg
    rw [hh]
    exact resumes_stop T noise hT hN _
  | ub =>
    unfold inputProg
    rw [hh]
    exact resumes_stop T noise hT hN _
  | ok f =>
  have hsp := scene_spared T ht hfm hh fun ho => hoff ho t ht
  have hgr : ∀ q, a.graphs = true ∧ Within ((splitSlash t).dropLast ++ ["dual_graphs".toList]) q → OrthoChanges T args q := fun q hq => ⟨t, ht, Or.inl ⟨hg hq.1, hq.2⟩⟩
  have hin : Resumes (machine T noise) (inputProg drafts T (splitSlash t) a.format a.prune a.terrain a.graphs) :=
    resumes_input T noise hT hN _ _ _ hfm fun q hq h => hsp q hq (hgr q h)
  have hinl : Stays (fun q => a.graphs = true ∧ Within ((splitSlash t).dropLast ++ ["dual_graphs".toList]) q)
      (fun q => ScenePlace args (splitSlash t) q ∨ (a.graphs = true ∧ (q = (splitSlash t).dropLast ∨ Within ((splitSlash t).dropLast ++ ["dual_graphs".toList]) q)))
      (inputProg drafts T (splitSlash t) a.format a.prune a.terrain a.graphs) :=
    stays_input T _ _ _ hfm (fun q hq => Or.inl hq) fun e => ⟨Or.inr ⟨e, Or.inl rfl⟩, fun q hq => ⟨⟨e, hq⟩, Or.inr ⟨e, Or.inr hq⟩⟩⟩
  generalize hroot : (splitSlash t).dropLast = root at hgr hinl ⊢
  generalize hst : stem (splitSlash t) = st
  have hplain : PlainName st := hst ▸ plain_stem t
  have n1 : ∀ n : String, 'p' ≠ (n.toList.getLast?.getD 'p') → st ++ ".shp".toList ≠ n.toList := by
    intro n hn
    refine ne_dir st ".shp" n ?_ (by decide)
    intro e
    rw [← e] at hn
    exact hn (by decide)
  have n2 : ∀ n : String, 'f' ≠ (n.toList.getLast?.getD 'f') → st ++ ".tiff".toList ≠ n.toList := by
    intro n hn
    refine ne_dir st ".tiff" n ?_ (by decide)
    intro e
    rw [← e] at hn
    exact hn (by decide)
  -- what the later steps change
  let V : Path → Prop := fun q => a.save = true ∧ Within (root ++ ["vectors".toList]) q
  let P : Path → Prop := fun q => a.save = true ∧ a.scene = true ∧ (q = root ++ [st ++ ".shp".toList] ∨ (a.pixel ≠ 0 ∧ q = root ++ [st ++ ".tiff".toList]))
  let R : Path → Prop := fun q => a.save = true ∧ a.pixel ≠ 0 ∧ Within (root ++ ["rasters".toList]) q
  have hV : ∀ q, V q → OrthoChanges T args q := fun q hq => ⟨t, ht, Or.inr (Or.inl ⟨hs hq.1, hroot ▸ hq.2⟩)⟩
  have hP : ∀ q, P q → OrthoChanges T args q := by
    rintro q ⟨h1, h2, h3 | ⟨h3, h4⟩⟩
    · exact ⟨t, ht, Or.inr (Or.inr (Or.inl ⟨hs h1, hsc h2, by rw [hroot, hst]; exact h3⟩))⟩
    · exact ⟨t, ht, Or.inr (Or.inr (Or.inr ⟨a.pixel, h3, hpx h3, hs h1, Or.inr ⟨hsc h2, by rw [hroot, hst]; exact h4⟩⟩))⟩
  have hR : ∀ q, R q → OrthoChanges T args q := fun q hq => ⟨t, ht, Or.inr (Or.inr (Or.inr ⟨a.pixel, hq.2.1, hpx hq.2.1, hs hq.1, Or.inl (hroot ▸ hq.2.2)⟩))⟩
  have cV : ∀ S : Path → Prop, (∀ q, q = root ∨ Within (root ++ ["vectors".toList]) q → S q) → a.save = true → ∀ ps,
      Stays V S (Prog.announced "Saving vector projections... " (printsProg drafts T.C T.G root ps a.labels) "Done.\n") :=
    fun S hS h ps => stays_announced _ _ (stays_prints (hS _ (Or.inl rfl)) (fun q hq => ⟨h, hq⟩) (fun q hq => hS q (Or.inr hq)) _ _ _ _)
  have cP : ∀ S : Path → Prop, (∀ q, q = root ∨ q = root ++ [st ++ ".shp".toList] ∨ q = root ++ [st ++ ".tiff".toList] → S q) → a.save = true → ∀ ps,
      Stays P S (if a.scene then Prog.announced "Summing , rasterizing and saving scene projections... "
        (scenePrintsProg drafts T.C T.lr T.G root st ps (decide (a.pixel ≠ 0)) a.pixel) "Done.\n" else .stop (.ok ())) := by
    intro S hS h ps
    split
    · rename_i hscene
      exact stays_announced _ _ (stays_scenePrints hplain (hS _ (Or.inl rfl)) _ _ _ _ _ _ ⟨h, hscene, Or.inl rfl⟩ (hS _ (Or.inr (Or.inl rfl)))
        fun k => ⟨⟨h, hscene, Or.inr ⟨of_decide_eq_true k, rfl⟩⟩, hS _ (Or.inr (Or.inr rfl))⟩)
    · exact stays_stop _ _ _
  have cR : a.save = true → ∀ ps, Stays R (fun _ => True) (if a.pixel ≠ 0 then
      (Prog.announced "rasterizing projections... " (.stop (rasterizeScene T.C T.lr ps a.pixel)) "Done.\n").bind fun rs =>
      Prog.announced "Saving raster projections... " (rastersProg drafts T.G root rs) "Done.\n" else .stop (.ok ())) := by
    intro h ps
    split
    · rename_i h0
      exact stays_bind (stays_announced _ _ (stays_stop _ _ _)) fun rs => stays_announced _ _ (stays_rasters trivial (fun q hq => ⟨h, h0, hq⟩) (fun _ _ => trivial) _ _)
    · exact stays_stop _ _ _
  have dVP : ∀ q, (q = root ∨ Within (root ++ ["vectors".toList]) q) → ¬ (P q ∨ R q) := by
    rintro q (rfl | hq) (⟨-, -, e | ⟨-, e⟩⟩ | ⟨-, -, hR'⟩)
    · have := congrArg List.length e; simp at this
    · have := congrArg List.length e; simp at this
    · exact root_below hR'
    · rw [e] at hq; exact file_apart (n1 "vectors" (by decide)) hq
    · rw [e] at hq; exact file_apart (n2 "vectors" (by decide)) hq
    · exact root_apart (by decide) hq hR'
  have dG : ∀ q, (q = root ∨ Within (root ++ ["dual_graphs".toList]) q) → ¬ (V q ∨ P q ∨ R q) := by
    rintro q (rfl | hq) (⟨-, hV'⟩ | ⟨-, -, e | ⟨-, e⟩⟩ | ⟨-, -, hR'⟩)
    · exact root_below hV'
    · have := congrArg List.length e; simp at this
    · have := congrArg List.length e; simp at this
    · exact root_below hR'
    · exact root_apart (by decide) hq hV'
    · rw [e] at hq; exact file_apart (n1 "dual_graphs" (by decide)) hq
    · rw [e] at hq; exact file_apart (n2 "dual_graphs" (by decide)) hq
    · exact root_apart (by decide) hq hR'
  have dP : ∀ q, (q = root ∨ q = root ++ [st ++ ".shp".toList] ∨ q = root ++ [st ++ ".tiff".toList]) → ¬ R q := by
    rintro q (rfl | rfl | rfl) ⟨-, -, hR'⟩
    · exact root_below hR'
    · exact file_apart (n1 "rasters" (by decide)) hR'
    · exact file_apart (n2 "rasters" (by decide)) hR'
  refine resumes_bind T noise hT hN (D := fun q => V q ∨ P q ∨ R q) (S' := fun _ => True) hinl hin (fun q hq => Or.inr ⟨hq.1, Or.inr hq.2⟩) ?_ ?_ fun s => ?_
  · intro s
    cases hsave : a.save with
    | false => exact stays_stop _ _ _
    | true =>
      simp only [if_true]
      exact stays_bind (stays_announced _ _ (stays_stop _ _ _)) fun ps => stays_bind (stays_mono (fun q hq => Or.inl hq) (fun _ h => h) _ (cV (fun _ => True) (fun _ _ => trivial) hsave ps)) fun _ =>
        stays_bind (stays_mono (fun q hq => Or.inr (Or.inl hq)) (fun _ h => h) _ (cP (fun _ => True) (fun _ _ => trivial) hsave ps)) fun _ => stays_mono (fun q hq => Or.inr (Or.inr hq)) (fun _ h => h) _ (cR hsave ps)
  · rintro q (hq | ⟨-, hq⟩) hD
    · rcases hD with h | h | h
      · exact hsp q hq (hV q h)
      · exact hsp q hq (hP q h)
      · exact hsp q hq (hR q h)
    · exact dG q hq hD
  · cases hsave : a.save with
    | false => exact resumes_stop T noise hT hN _
    | true =>
      simp only [if_true]
      have hquiet : ∀ {X B : Type} (b e : String) (r : Out X) (k : X → Prog B), (∀ y, Resumes (machine T noise) (k y)) →
          Resumes (machine T noise) ((Prog.announced b (.stop r) e).bind k) := by
        intro X B b e r k hk
        cases r with
        | ok y => exact resumes_say _ (resumes_say _ (hk y))
        | thrown ex => exact resumes_say _ (resumes_stop T noise hT hN _)
        | ub => exact resumes_say _ (resumes_stop T noise hT hN _)
      refine hquiet _ _ _ _ fun ps => ?_
      refine resumes_bind T noise hT hN (S := fun q => q = root ∨ Within (root ++ ["vectors".toList]) q) (C := V) (D := fun q => P q ∨ R q) (S' := fun _ => True)
        (cV _ (fun _ h => h) hsave ps) (resumes_announced T noise hT hN _ _ (C := fun _ => True) (stays_prints trivial (fun _ _ => trivial) (fun _ _ => trivial) _ _ _ _) (resumes_prints T noise hT hN _ _ _ _ _))
        (fun q hq => Or.inr hq.2)
        (fun _ => stays_bind (stays_mono (fun q hq => Or.inl hq) (fun _ h => h) _ (cP (fun _ => True) (fun _ _ => trivial) hsave ps)) fun _ => stays_mono (fun q hq => Or.inr hq) (fun _ h => h) _ (cR hsave ps))
        dVP fun _ => ?_
      refine resumes_bind T noise hT hN (S := fun q => q = root ∨ q = root ++ [st ++ ".shp".toList] ∨ q = root ++ [st ++ ".tiff".toList]) (C := P) (D := R) (S' := fun _ => True)
        (cP _ (fun _ h => h) hsave ps) ?_ ?_ (fun _ => cR hsave ps) dP fun _ => ?_
      · split
        · exact resumes_announced T noise hT hN _ _ (C := fun _ => True) (stays_scenePrints hplain trivial _ _ _ _ _ _ trivial trivial fun _ => ⟨trivial, trivial⟩)
            (resumes_scenePrints T noise hT hN _ _ _ _ _ hplain _ _ _)
        · exact resumes_stop T noise hT hN _
      · rintro q ⟨-, -, h | ⟨-, h⟩⟩
        · exact Or.inr (Or.inl h)
        · exact Or.inr (Or.inr h)
      · split
        · refine hquiet _ _ _ _ fun rs => ?_
          exact resumes_announced T noise hT hN _ _ (C := fun _ => True) (stays_rasters trivial (fun _ _ => trivial) (fun _ _ => trivial) _ _) (resumes_rasters T noise hT hN _ _ _)
        · exact resumes_stop T noise hT hN _

theorem resumes_format (args : Args)
    (hs : ∀ t, args "<scene>".toList = some (.str t) → ∀ q, ScenePlace args (splitSlash t) q → ¬ FormatChanges args q)
    (hg : Asked args "--graphs" → ∀ t o, args "<scene>".toList = some (.str t) → args "<path>".toList = some (.str o) →
      ¬ Within ((splitSlash t).dropLast ++ ["dual_graphs".toList]) (splitSlash o) ∧ ¬ Within (splitSlash o) ((splitSlash t).dropLast ++ ["dual_graphs".toList])) :
    Resumes (machine T noise) (formatProg drafts T args) := by
  unfold formatProg
  refine resumes_from T noise hT hN fun _ _ => ?_
  cases ha : formatArgs args with
  | thrown e => exact resumes_say _ (resumes_stop T noise hT hN _)
  | ub => exact resumes_say _ (resumes_stop T noise hT hN _)
  | ok a =>
  show Resumes _ (Prog.say _ (Prog.say _ (Prog.say _ (if a.formats then _ else _))))
  refine resumes_say _ (resumes_say _ (resumes_say _ ?_))
  cases hf : a.formats with
  | true => exact resumes_say _ (resumes_stop T noise hT hN _)
  | false =>
  simp only [Bool.false_eq_true, if_false]
  obtain ⟨t, o, ht, hpath, ho, hout, hfm, hof, hno, hgr⟩ := formatArgs_ok ha hf
  rw [hpath, hout]
  have hsp := hs t ht
  have cG : ∀ q, a.graphs = true ∧ Within ((splitSlash t).dropLast ++ ["dual_graphs".toList]) q → FormatChanges args q :=
    fun q hq => ⟨t, o, _, ht, ho, hof, hno, Or.inl ⟨hgr hq.1, hq.2⟩⟩
  have cO : ∀ q, Within (splitSlash o) q → FormatChanges args q := fun q hq => ⟨t, o, _, ht, ho, hof, hno, Or.inr hq⟩
  have hgo : a.graphs = true → _ := fun e => hg (hgr e) t o ht ho
  have hin : Resumes (machine T noise) (inputProg drafts T (splitSlash t) a.format a.prune a.terrain a.graphs) :=
    resumes_input T noise hT hN _ _ _ hfm fun q hq h => hsp q hq (cG q h)
  have hinl : Stays (fun q => a.graphs = true ∧ Within ((splitSlash t).dropLast ++ ["dual_graphs".toList]) q)
      (fun q => ScenePlace args (splitSlash t) q ∨ (a.graphs = true ∧ (q = (splitSlash t).dropLast ∨ Within ((splitSlash t).dropLast ++ ["dual_graphs".toList]) q)))
      (inputProg drafts T (splitSlash t) a.format a.prune a.terrain a.graphs) :=
    stays_input T _ _ _ hfm (fun q hq => Or.inl hq) fun e => ⟨Or.inr ⟨e, Or.inl rfl⟩, fun q hq => ⟨⟨e, hq⟩, Or.inr ⟨e, Or.inr hq⟩⟩⟩
  refine resumes_bind T noise hT hN (D := Within (splitSlash o)) (S' := fun _ => True) hinl hin (fun q hq => Or.inr ⟨hq.1, Or.inr hq.2⟩) ?_ ?_ fun s => ?_
  · exact fun s => stays_from fun f _ => stays_sceneWrite trivial (fun _ h => h) (fun _ _ => trivial) _ _ _ _
  · rintro q (hq | ⟨e, hq⟩) hD
    · exact hsp q hq (cO q hD)
    · rcases hq with rfl | hq
      · obtain ⟨r, hr⟩ := hD
        exact (hgo e).2 ⟨r ++ ["dual_graphs".toList], by rw [hr]; simp⟩
      · rcases within_both hq hD with k | k
        · exact (hgo e).1 k
        · exact (hgo e).2 k
  · exact resumes_from T noise hT hN fun f _ => resumes_sceneWrite T noise hT hN _ _ _ _ _

theorem resumes_job (j : Job) (h : j.Tidy T) : Resumes (machine T noise) (j.process drafts T) := by
  cases j with
  | ortho args =>
    refine resumes_then T noise hT hN (C := OrthoChanges T args) (stays_mono (fun _ h => h) (fun _ _ => trivial) _ (stays_ortho T args)) (resumes_ortho T noise hT hN args h) ?_
    rintro (a | e | _) <;> trivial
  | format args =>
    refine resumes_then T noise hT hN (C := FormatChanges args) (stays_mono (fun _ h => h) (fun _ _ => trivial) _ (stays_format T args)) (resumes_format T noise hT hN args h.1 h.2) ?_
    rintro (a | e | _) <;> trivial

/-! ### C121 -/

/-- C121: a tool that has been killed any number of times, at any calls, and is then run to its end: it ends in the same way and prints the same as if it had never been killed, and leaves the same
files. -/
theorem C121_crashes (j : Job) (h : j.Tidy T) : ∀ (l : List ((Path → Text → List Text) × Nat)) (fs : Fs), j.run T noise (afterCrashes T noise j l fs) = j.run T noise fs
  | [], _ => rfl
  | (d, n) :: l, fs => by
    have e : j.run T noise ((j.process d T).steps (machine T noise) n fs).2.1 = j.run T noise fs := by
      rw [← alone_job (drafts := d)]
      exact resumes_job T noise hT hN j h fs _ ⟨n, rfl⟩
    show j.run T noise (afterCrashes T noise j l _) = _
    rw [C121_crashes j h l, e]

/-- C121: the same for the run after the crashes as a process: after enough calls it has stopped, with the outcome, the files and the messages of the run that was never killed. -/
theorem C121_process (drafts : Path → Text → List Text) (j : Job) (h : j.Tidy T) (l : List ((Path → Text → List Text) × Nat)) (fs : Fs) :
    ∃ n, ∀ m, n ≤ m → (j.process drafts T).steps (machine T noise) m (afterCrashes T noise j l fs) = (.stop (j.run T noise fs).1, (j.run T noise fs).2.1, (j.run T noise fs).2.2) := by
  obtain ⟨n, hn⟩ := C120_alone drafts T noise j (afterCrashes T noise j l fs)
  refine ⟨n, fun m hm => ?_⟩
  obtain ⟨r, h1, h2⟩ := hn m hm
  rw [h1, h2, C121_crashes T noise hT hN j h]

/-- C121: orthoproject on a scene in an OBJ or 3DS file. -/
theorem C121_files (args : Args) (h : ¬ AsksFormat args "OFF") (l : List ((Path → Text → List Text) × Nat)) (fs : Fs) :
    Job.run T noise (.ortho args) (afterCrashes T noise (.ortho args) l fs) = Job.run T noise (.ortho args) fs :=
  C121_crashes T noise hT hN (.ortho args) (fun ho => absurd ho h) l fs

omit hT hN in
theorem alone_kind {A : Type} (M : Machine) (q : Path) : ∀ (x : Prog A) (fs : Fs) (e : Entry), fs q = some e → ∃ e', (x.alone M fs).2.1 q = some e' ∧ (e = .dir ↔ e' = .dir) := by
  intro x
  have hset : ∀ (fs : Fs) (p : Path) (t : Text) (e : Entry), (fs p ≠ some .dir) → fs q = some e → ∃ e', (fs.set p (.file t)) q = some e' ∧ (e = .dir ↔ e' = .dir) := by
    intro fs p t e hp he
    by_cases hq : q = p
    · subst hq
      refine ⟨.file t, by simp [Fs.set], ?_⟩
      rw [he] at hp
      constructor
      · intro k; exact absurd (congrArg some k) hp
      · intro k; cases k
    · exact ⟨e, by simp [Fs.set, hq, he], Iff.rfl⟩
  have htr : ∀ {B : Type} {y : Talk B} {fs fs' : Fs} {e : Entry}, (∃ e', fs' q = some e' ∧ (e = .dir ↔ e' = .dir)) →
      (∀ e', fs' q = some e' → ∃ e'', (y fs').2.1 q = some e'' ∧ (e' = .dir ↔ e'' = .dir)) → ∃ e'', (y fs').2.1 q = some e'' ∧ (e = .dir ↔ e'' = .dir) := by
    rintro B y fs fs' e ⟨e', h1, h2⟩ h
    obtain ⟨e'', h3, h4⟩ := h e' h1
    exact ⟨e'', h3, h2.trans h4⟩
  induction x with
  | stop r => exact fun fs e he => ⟨e, he, Iff.rfl⟩
  | say s k ih => exact ih
  | look p k ih => exact fun fs => ih _ fs
  | names p k ih => exact fun fs => ih _ fs
  | hear g b p k ih => exact fun fs => ih _ fs
  | mkdir p k ih =>
    intro fs e he
    refine htr (fs := fs) (y := (k (makeDir p fs).1).alone M) ?_ (ih _ _)
    refine ⟨e, ?_, Iff.rfl⟩
    unfold makeDir
    rcases hp : fs p with _ | t | _
    · dsimp only
      split
      · have : q ≠ p := fun k => by rw [k, hp] at he; cases he
        simp [Fs.set, this, he]
      · exact he
    · exact he
    · exact he
  | create p k ih =>
    intro fs e he
    refine htr (fs := fs) (y := (k (fs.canWrite p)).alone M) ?_ (ih _ _)
    split
    · rename_i hc
      refine hset fs p _ e ?_ he
      intro k
      unfold Fs.canWrite at hc
      rw [k] at hc
      cases hc
    · exact ⟨e, he, Iff.rfl⟩
  | store p t k ih =>
    intro fs e he
    refine htr (fs := fs) (y := k.alone M) ?_ (ih _)
    rcases hp : fs p with _ | u | _
    · exact ⟨e, he, Iff.rfl⟩
    · exact hset fs p _ e (by rw [hp]; exact fun k => by cases k) he
    · exact ⟨e, he, Iff.rfl⟩

omit hT hN in
/-- C121: a tool that is killed leaves nothing behind that the complete run would not leave: wherever there is something, the complete run leaves something of the same kind. -/
theorem C121_no_litter (drafts : Path → Text → List Text) (j : Job) (fs : Fs) (n : Nat) (q : Path) (e : Entry)
    (h : ((j.process drafts T).steps (machine T noise) n fs).2.1 q = some e) : ∃ e', (j.run T noise fs).2.1 q = some e' ∧ (e = .dir ↔ e' = .dir) := by
  rw [← alone_job (drafts := drafts), alone_steps (machine T noise) n]
  exact alone_kind _ q _ _ e h

/-- The state after a power failure in the middle of runs that take place at the same time: each run has the same outcome from there. -/
theorem failure_run (drafts : Path → Text → List Text) (js : List Job) (fs : Fs) (h : js.Pairwise (Job.Separate T)) (ht : ∀ j ∈ js, j.Tidy T) (sched : List Nat) {j : Job} (hj : j ∈ js) :
    SameEnd (j.looks T) (j.run T noise ((startAll drafts T js fs).run (machine T noise) sched).fs) (j.run T noise fs) := by
  obtain ⟨i, hi⟩ := List.getElem?_of_mem hj
  obtain ⟨-, h2, -⟩ := (crowd_at (drafts := drafts) T noise hT hN js fs h sched).1 i j hi
  have h3 := job_same T noise hT hN j h2
  have h4 : j.run T noise ((j.process drafts T).steps (machine T noise) (sched.count i) fs).2.1 = j.run T noise fs := by
    rw [← alone_job (drafts := drafts)]
    exact resumes_job T noise hT hN j (ht j hj) fs _ ⟨_, rfl⟩
  rw [h4] at h3
  exact h3

/-- C121: several runs on separate scenes take place at the same time, and are all killed by a power failure, at any moment. Afterwards they are run one after the other: each one ends in the same way
and prints the same as if there had been no failure, and the disk is the same. -/
theorem C121_power_failure (drafts : Path → Text → List Text) (js : List Job) (fs : Fs) (h : js.Pairwise (Job.Separate T)) (ht : ∀ j ∈ js, j.Tidy T) (sched : List Nat) :
    Job.script T noise js ((startAll drafts T js fs).run (machine T noise) sched).fs = Job.script T noise js fs := by
  obtain ⟨a1, a2, a3⟩ := C118_alone T noise hT hN js fs h
  obtain ⟨b1, b2, b3⟩ := C118_alone T noise hT hN js ((startAll drafts T js fs).run (machine T noise) sched).fs h
  have hsame := fun {j : Job} (hj : j ∈ js) => failure_run T noise hT hN drafts js fs h ht sched hj
  refine Prod.ext ?_ (funext fun q => ?_)
  · rw [a1, b1]
    refine List.map_congr_left fun j hj => ?_
    rw [(hsame hj).1, (hsame hj).2.2]
  · by_cases hq : ∃ j ∈ js, j.changes T q
    · obtain ⟨j, hj, hc⟩ := hq
      rw [a2 j hj q hc, b2 j hj q hc, (hsame hj).2.1 q (changes_looked T j q hc)]
    · have hn : ∀ j ∈ js, ¬ j.changes T q := fun j hj hc => hq ⟨j, hj, hc⟩
      rw [a3 q hn, b3 q hn]
      exact (crowd_at (drafts := drafts) T noise hT hN js fs h sched).2.2 q hn

end

/-! ### The hypotheses are met, and the condition is needed -/

/-- C121: a run that is killed while it writes the first of two dual graphs, and once more before it writes anything. -/
example : Job.run countTools (fun _ _ _ _ => []) (.ortho (graphArgs "e/a.obj")) (afterCrashes countTools (fun _ _ _ _ => []) (.ortho (graphArgs "e/a.obj")) [(halves, 8), (halves, 6)] sharedFs) =
    Job.run countTools (fun _ _ _ _ => []) (.ortho (graphArgs "e/a.obj")) sharedFs :=
  C121_files countTools _ count_lists silent_noise _ (by unfold AsksFormat; decide) _ _

/-- In between, the first file is there in part and the second one is not there. -/
example : (afterCrashes countTools (fun _ _ _ _ => []) (.ortho (graphArgs "e/a.obj")) [(halves, 8), (halves, 6)] sharedFs) ["e".toList, "dual_graphs".toList, "x.txt".toList] =
    some (.file "3".toList) ∧
    (afterCrashes countTools (fun _ _ _ _ => []) (.ortho (graphArgs "e/a.obj")) [(halves, 8), (halves, 6)] sharedFs) ["e".toList, "dual_graphs".toList, "y.txt".toList] = none := by
  decide +kernel

/-- C121: two runs at the same time, when the power fails. -/
example (sched : List Nat) : Job.script countTools (fun _ _ _ _ => []) [.ortho (graphArgs "d/a.obj"), .ortho (graphArgs "e/b.obj")]
      ((startAll halves countTools [.ortho (graphArgs "d/a.obj"), .ortho (graphArgs "e/b.obj")] twoFs).run (machine countTools fun _ _ _ _ => []) sched).fs =
    Job.script countTools (fun _ _ _ _ => []) [.ortho (graphArgs "d/a.obj"), .ortho (graphArgs "e/b.obj")] twoFs := by
  refine C121_power_failure countTools _ count_lists silent_noise halves _ twoFs two_separate ?_ sched
  intro j hj
  simp only [List.mem_cons, List.not_mem_nil, or_false] at hj
  rcases hj with rfl | rfl <;> exact fun h => absurd h (by unfold AsksFormat; decide)

/-- What one might expect beyond C121: any conversion can be run again after it was killed. -/
def AnyConversion : Prop := ∀ (N L : Type) (T : Toolbox N L ℚ) (noise : SceneFormat → Bool → Path → Fs → List Text), ListsFiles T → NoiseOfScene noise →
  ∀ (args : Args) (l : List ((Path → Text → List Text) × Nat)) (fs : Fs), Job.run T noise (.format args) (afterCrashes T noise (.format args) l fs) = Job.run T noise (.format args) fs

/-- C121: the condition on cityformat is needed: a scene that is converted in its place is lost when the run is killed after the file was opened. -/
theorem C121_in_place : ¬ AnyConversion := by
  intro h
  have k := h Mesh Unit countTools (fun _ _ _ _ => []) count_lists silent_noise (turnArgs "e/a.obj" "e/a.obj") [(halves, 5)] sharedFs
  exact absurd (congrArg (fun r => r.2.1 ["e".toList, "a.obj".toList]) k) (by decide +kernel)

/-- C121: a conversion of `e/a.obj` to `d/s.obj`, which is killed twice. -/
example : Job.run countTools (fun _ _ _ _ => []) (.format (turnArgs "e/a.obj" "d/s.obj"))
      (afterCrashes countTools (fun _ _ _ _ => []) (.format (turnArgs "e/a.obj" "d/s.obj")) [(halves, 6), (fun _ _ => [], 5)] twoFs) =
    Job.run countTools (fun _ _ _ _ => []) (.format (turnArgs "e/a.obj" "d/s.obj")) twoFs := by
  refine C121_crashes countTools _ count_lists silent_noise (.format (turnArgs "e/a.obj" "d/s.obj")) ⟨?_, fun h => absurd h (by unfold Asked; decide)⟩ _ _
  intro t ht q hq hc
  have h1 : some (Arg.str "e/a.obj".toList) = some (Arg.str t) := ht
  cases h1
  obtain ⟨t', o, f, -, ho, -, -, ⟨hg, -⟩ | h⟩ := hc
  · exact absurd hg (by unfold Asked; decide)
  · have h2 : some (Arg.str "d/s.obj".toList) = some (Arg.str o) := ho
    cases h2
    have e1 : splitSlash "e/a.obj".toList = ["e".toList, "a.obj".toList] := by decide
    have e3 : splitSlash "d/s.obj".toList = ["d".toList, "s.obj".toList] := by decide
    rw [e1] at hq
    rw [e3] at h
    obtain ⟨r, rfl⟩ := h
    rcases hq with h | ⟨-, n, -, h⟩ | ⟨-, h⟩ <;> exact absurd (List.cons.inj h).1 (by decide)

end City.Props
