import Verif.Props.Batch
/-!
C119: running a tool again changes nothing.
-/
set_option linter.unusedSectionVars false
namespace City.Spec
open City City.Props

/-- Running the program a second time ends in the same way, says the same and leaves all the files as they are. -/
def Repeats {A : Type} (x : Talk A) : Prop := ∀ fs, x (x fs).2.1 = x fs

end City.Spec
namespace City.Props
open City City.Spec

/-! ### Programs that can be repeated -/

/-- The same without messages. -/
def Redoes {A : Type} (x : Act A) : Prop := ∀ fs, x (x fs).2 = x fs

theorem redoes_const {A : Type} (x : Out A) : Redoes (Act.reads fun _ => x) := fun _ => rfl

theorem redoes_skip : Redoes Act.skip := fun _ => rfl

theorem redoes_bind {A B : Type} {S C D : Path → Prop} {x : Act A} {k : A → Act B} (hl : LooksAt S x) (hc : OnlyChanges C x) (hr : Redoes x) (hcs : ∀ q, C q → S q)
    (hd : ∀ a, OnlyChanges D (k a)) (hsd : ∀ q, S q → ¬ D q) (hk : ∀ a, Redoes (k a)) : Redoes (Act.bind x k) := by
  intro fs
  have h0 := hr fs
  unfold Act.bind
  rcases e : x fs with ⟨o, f1⟩
  rw [e] at h0
  cases o with
  | thrown ex => dsimp only at h0 ⊢; rw [h0]
  | ub => dsimp only at h0 ⊢; rw [h0]
  | ok a =>
    dsimp only at h0 ⊢
    have hsame : SameAt S (k a f1).2 f1 := by
      intro q hq
      by_contra hne
      exact hsd q hq (hd a f1 q hne)
    obtain ⟨h1, h2⟩ := hl _ _ hsame
    rw [h0] at h1 h2
    have h3 : (x (k a f1).2).2 = (k a f1).2 := by
      funext q
      by_cases hq : C q
      · rw [h2 q (hcs q hq), hsame q (hcs q hq)]
      · by_contra hne
        exact hq (hc _ q hne)
    rw [show x (k a f1).2 = (.ok a, (k a f1).2) from Prod.ext h1 h3]
    exact hk a f1

theorem redoes_makeDir (p : Path) : Redoes (makeDir p) := by
  intro fs
  cases e : fs p with
  | some x =>
    have h : (makeDir p fs).2 = fs := by unfold makeDir; cases x <;> simp only [e]
    rw [h]
  | none =>
    by_cases hd : fs p.dropLast = some .dir
    · have h : makeDir p fs = (.ok (), fs.set p .dir) := by unfold makeDir; simp only [e, if_pos hd]
      rw [h]
      unfold makeDir
      simp [Fs.set]
    · have h : makeDir p fs = (.thrown .filesystemError, fs) := by unfold makeDir; simp only [e, if_neg hd]
      rw [h]
      exact h

/-! ### Lists of files -/

/-- A file to be written: its place, its text, whether it is written at all, and the outcome with and without a writable place. -/
structure Putter where
  at_ : Path
  text : Text
  on : Bool
  good : Out Unit
  bad : Out Unit

/-- Writing it. -/
def Putter.put (w : Putter) : Writer := fun fs =>
  (if fs.canWrite w.at_ then w.good else w.bad, if w.on && fs.canWrite w.at_ then fs.set w.at_ (.file w.text) else fs)

/-- The state after some files have been made where it is possible. -/
def Grown (fs fs' : Fs) : Prop := ∀ q, fs' q = fs q ∨ (fs.canWrite q = true ∧ ∃ t, fs' q = some (.file t))

theorem grown_write {fs fs' : Fs} (h : Grown fs fs') : fs'.canWrite = fs.canWrite := by
  funext q
  rcases h q with e | ⟨hw, t, e⟩
  · unfold Fs.canWrite
    rw [e]
    cases eq : fs q with
    | some x => cases x <;> rfl
    | none =>
      dsimp only
      rcases h q.dropLast with e' | ⟨hw', t', e'⟩
      · rw [e']
      · rw [e']
        have : fs q.dropLast ≠ some .dir := by
          intro hdir
          unfold Fs.canWrite at hw'
          rw [hdir] at hw'
          cases hw'
        simp [this]
  · rw [hw]
    unfold Fs.canWrite
    rw [e]

theorem grown_refl (fs : Fs) : Grown fs fs := fun _ => Or.inl rfl

theorem grown_trans {a b c : Fs} (h : Grown a b) (h' : Grown b c) : Grown a c := by
  intro q
  rcases h' q with e | ⟨hw, t, e⟩
  · rcases h q with e' | k
    · exact Or.inl (e.trans e')
    · exact Or.inr ⟨k.1, k.2.imp fun t ht => e.trans ht⟩
  · rw [grown_write h] at hw
    exact Or.inr ⟨hw, t, e⟩

theorem grown_put (w : Putter) (fs : Fs) : Grown fs (w.put fs).2 := by
  intro q
  unfold Putter.put
  dsimp only
  split
  · rename_i h
    rw [Bool.and_eq_true] at h
    by_cases hq : q = w.at_
    · subst hq
      exact Or.inr ⟨h.2, w.text, by simp [Fs.set]⟩
    · exact Or.inl (by simp [Fs.set, hq])
  · exact Or.inl rfl

/-- The files that are written when these places are writable: up to the first one that fails. -/
def written (cw : Path → Bool) : List Putter → List (Path × Text)
  | [] => []
  | w :: ws => (if w.on && cw w.at_ then [(w.at_, w.text)] else []) ++
    match (if cw w.at_ then w.good else w.bad) with
    | .ok () => written cw ws
    | _ => []

/-- How it ends. -/
def ended (cw : Path → Bool) : List Putter → Out Unit
  | [] => .ok ()
  | w :: ws =>
    match (if cw w.at_ then w.good else w.bad) with
    | .ok () => ended cw ws
    | r => r

/-- The state with the files. -/
def over (fs : Fs) (l : List (Path × Text)) : Fs := l.foldl (fun f x => f.set x.1 (.file x.2)) fs

theorem over_append (fs : Fs) (l l' : List (Path × Text)) : over fs (l ++ l') = over (over fs l) l' := List.foldl_append ..

theorem over_at (q : Path) : ∀ (l : List (Path × Text)) (fs fs' : Fs), (∃ t, (q, t) ∈ l) ∨ fs q = fs' q → over fs l q = over fs' l q
  | [], fs, fs', h => by
    rcases h with ⟨t, ht⟩ | h
    · exact absurd ht List.not_mem_nil
    · exact h
  | x :: l, fs, fs', h => by
    show over (fs.set x.1 (.file x.2)) l q = over (fs'.set x.1 (.file x.2)) l q
    refine over_at q l _ _ ?_
    by_cases hx : q = x.1
    · exact Or.inr (by simp [Fs.set, hx])
    · rcases h with ⟨t, ht⟩ | h
      · rcases List.mem_cons.1 ht with e | ht
        · exact absurd (congrArg Prod.fst e) hx
        · exact Or.inl ⟨t, ht⟩
      · exact Or.inr (by simp [Fs.set, hx, h])

theorem over_else (q : Path) : ∀ (l : List (Path × Text)) (fs : Fs), (¬ ∃ t, (q, t) ∈ l) → over fs l q = fs q
  | [], _, _ => rfl
  | x :: l, fs, h => by
    show over (fs.set x.1 (.file x.2)) l q = fs q
    rw [over_else q l _ fun ⟨t, ht⟩ => h ⟨t, List.mem_cons_of_mem _ ht⟩]
    have hx : q ≠ x.1 := fun e => h ⟨x.2, e ▸ List.mem_cons_self⟩
    simp [Fs.set, hx]

theorem over_twice (fs : Fs) (l : List (Path × Text)) : over (over fs l) l = over fs l := by
  funext q
  by_cases h : ∃ t, (q, t) ∈ l
  · exact over_at q l _ _ (Or.inl h)
  · exact over_at q l _ _ (Or.inr (over_else q l fs h))

theorem runAll_puts : ∀ (ws : List Putter) (fs : Fs), runAll (ws.map Putter.put) fs = (ended fs.canWrite ws, over fs (written fs.canWrite ws)) ∧
    Grown fs (runAll (ws.map Putter.put) fs).2
  | [], fs => ⟨rfl, grown_refl fs⟩
  | w :: ws, fs => by
    have hg := grown_put w fs
    obtain ⟨h1, h2⟩ := runAll_puts ws (w.put fs).2
    have hst : (w.put fs).2 = over fs (if w.on && fs.canWrite w.at_ then [(w.at_, w.text)] else []) := by
      unfold Putter.put
      dsimp only
      split <;> rfl
    have ho : (w.put fs).1 = if fs.canWrite w.at_ then w.good else w.bad := rfl
    rw [grown_write hg] at h1
    rw [List.map_cons]
    unfold runAll ended written andThen
    rcases e : w.put fs with ⟨o, f⟩
    rw [e] at h1 h2 hst ho hg
    dsimp only at h1 h2 hst ho hg
    rw [← ho]
    cases o with
    | ok a =>
      cases a
      dsimp only
      refine ⟨?_, grown_trans hg h2⟩
      rw [h1, over_append, ← hst]
    | thrown ex =>
      dsimp only
      exact ⟨by rw [List.append_nil, ← hst], hg⟩
    | ub =>
      dsimp only
      exact ⟨by rw [List.append_nil, ← hst], hg⟩

/-- Files that are written one after the other can be written again. -/
theorem redoes_puts (ws : List Putter) : Redoes (runAll (ws.map Putter.put)) := by
  intro fs
  obtain ⟨h1, h2⟩ := runAll_puts ws fs
  obtain ⟨k1, -⟩ := runAll_puts ws (runAll (ws.map Putter.put) fs).2
  rw [k1, grown_write h2, h1, over_twice]

theorem stream_putter (p : Path) (w : Written) : streamPut p w = Putter.put ⟨p, w.1, true, w.2, w.2⟩ := by
  funext fs
  unfold streamPut Putter.put Fs.put
  cases fs.canWrite p <;> rfl

section
variable {N L K : Type} [Field K] [LinearOrder K] [FloorRing K]

theorem vector_putter (C : Cgal K) (G : Gdal K) (m : Modes) (p : Path) (f : FootPrint K) (l : Bool) :
    vectorPut C G m p f l = Putter.put ⟨p, G.shp (f.toOgr C l), canSave m, if canSave m then .ok () else .thrown .filesystemError, .thrown .filesystemError⟩ := by
  funext fs
  unfold vectorPut Putter.put
  cases canSave m <;> cases fs.canWrite p <;> rfl

theorem raster_putter (G : Gdal K) (m : Modes) (p : Path) (r : Raster K) :
    rasterPut G m p r = Putter.put ⟨p, G.tiff r.toGdal, canSave m && decide (r.width ≠ 0 ∧ r.height ≠ 0),
      if canSave m then if r.width ≠ 0 ∧ r.height ≠ 0 then .ok () else .ub else .thrown .filesystemError, if canSave m then .ub else .thrown .filesystemError⟩ := by
  funext fs
  unfold rasterPut Putter.put
  by_cases h : r.width ≠ 0 ∧ r.height ≠ 0
  · cases canSave m <;> cases fs.canWrite p <;> simp [h]
  · cases canSave m <;> cases fs.canWrite p <;> simp [h]

theorem puts_of {ws : List Writer} (h : ∀ w ∈ ws, ∃ v : Putter, w = v.put) : ∃ vs : List Putter, ws = vs.map Putter.put := by
  induction ws with
  | nil => exact ⟨[], rfl⟩
  | cons w ws ih =>
    obtain ⟨v, hv⟩ := h w List.mem_cons_self
    obtain ⟨vs, hvs⟩ := ih fun w hw => h w (List.mem_cons_of_mem _ hw)
    exact ⟨v :: vs, by rw [hv, hvs]; rfl⟩

theorem redoes_runAll {ws : List Writer} (h : ∀ w ∈ ws, ∃ v : Putter, w = v.put) : Redoes (runAll ws) := by
  obtain ⟨vs, rfl⟩ := puts_of h
  exact redoes_puts vs

theorem join_below {dir : Path} (n : Text) : joinPath dir n ≠ dir ∧ joinPath dir n ≠ dir.dropLast := by
  have hl : (joinPath dir n).length > dir.length := by
    unfold joinPath
    rw [List.length_append]
    have := List.length_pos_iff.2 (slash_ne n)
    omega
  constructor
  · intro e
    rw [e] at hl
    exact lt_irrefl _ hl
  · intro e
    rw [e, List.length_dropLast] at hl
    omega

/-- A directory is made and files are written in it. -/
theorem redoes_dir {dir : Path} {ws : List Writer} (h : ∀ w ∈ ws, (∃ v : Putter, w = v.put) ∧ OnlyChanges (fun q => ∃ n, q = joinPath dir n) w) :
    Redoes (fun fs => andThen (makeDir dir fs) (runAll ws)) := by
  rw [andThen_eq]
  refine redoes_bind (S := fun q => q = dir ∨ q = dir.dropLast) (C := fun q => q = dir) (D := fun q => ∃ n, q = joinPath dir n)
    (looks_makeDir (Or.inl rfl) (Or.inr rfl)) (only_makeDir rfl) (redoes_makeDir dir) (fun q hq => Or.inl hq) (fun _ => only_runAll _ fun w hw => (h w hw).2) ?_
    fun _ => redoes_runAll fun w hw => (h w hw).1
  rintro q (rfl | rfl) ⟨n, e⟩
  · exact (join_below n).1 e.symm
  · exact (join_below n).2 e.symm

theorem redoes_duals (root : Path) (bs : List (Text × Written)) : Redoes (saveBuildingDuals root bs) := by
  refine redoes_dir fun w hw => ?_
  obtain ⟨b, -, rfl⟩ := List.mem_map.1 hw
  exact ⟨⟨_, stream_putter _ _⟩, only_streamPut ⟨_, rfl⟩ _⟩

theorem redoes_prints (C : Cgal K) (G : Gdal K) (root : Path) (ps : List (FootPrint K)) (labels : Bool) : Redoes (saveBuildingPrints C G root ps labels) := by
  refine redoes_dir fun w hw => ?_
  obtain ⟨f, _, hw⟩ := List.mem_flatMap.1 hw
  simp only [printFiles, List.mem_cons, List.not_mem_nil, or_false] at hw
  rcases hw with rfl | rfl
  · exact ⟨⟨_, vector_putter _ _ _ _ _ _⟩, only_vectorPut ⟨_, rfl⟩ _ _ _ _ _⟩
  · exact ⟨⟨_, stream_putter _ _⟩, only_streamPut ⟨_, rfl⟩ _⟩

theorem redoes_rasters (G : Gdal K) (root : Path) (rs : List (Raster K)) : Redoes (saveBuildingRasters G root rs) := by
  refine redoes_dir fun w hw => ?_
  obtain ⟨r, -, rfl⟩ := List.mem_map.1 hw
  exact ⟨⟨_, raster_putter _ _ _ _⟩, only_rasterPut ⟨_, rfl⟩ _ _ _⟩

theorem redoes_one {w : Writer} (h : ∃ v : Putter, w = v.put) : Redoes w := by
  obtain ⟨v, rfl⟩ := h
  intro fs
  have hg := grown_write (grown_put v fs)
  unfold Putter.put at hg ⊢
  dsimp only at hg ⊢
  rw [hg]
  congr 1
  split
  · funext q
    unfold Fs.set
    split <;> rfl
  · rfl

theorem redoes_scenePrints (C : Cgal K) (lr : Bool) (G : Gdal K) (root : Path) (st : Text) (hst : PlainName st) (ps : List (FootPrint K)) (rast : Bool) (p : K) :
    Redoes (saveScenePrints C lr G root st ps rast p) := by
  have j1 : joinPath root (st ++ ".shp".toList) = root ++ [st ++ ".shp".toList] := joinPath_plain (plain_ext hst (by unfold PlainName; decide))
  have j2 : joinPath root (st ++ ".tiff".toList) = root ++ [st ++ ".tiff".toList] := joinPath_plain (plain_ext hst (by unfold PlainName; decide))
  unfold saveScenePrints
  rw [j1, j2]
  cases sumFootPrints C ps FootPrint.empty with
  | thrown e => exact redoes_const _
  | ub => exact redoes_const _
  | ok s =>
    dsimp only
    rw [andThen_eq]
    have hne : st ++ ".shp".toList ≠ st ++ ".tiff".toList := fun e => absurd (List.append_cancel_left e) (by decide)
    refine redoes_bind (S := fun q => q = root ++ [st ++ ".shp".toList] ∨ q = root) (C := fun q => q = root ++ [st ++ ".shp".toList]) (D := fun q => q = root ++ [st ++ ".tiff".toList])
      (looks_vectorPut (Or.inl rfl) (Or.inr (by simp)) _ _ _ _ _) (only_vectorPut (S := fun q => q = root ++ [st ++ ".shp".toList]) rfl _ _ _ _ _) (redoes_one ⟨_, vector_putter _ _ _ _ _ _⟩) (fun q hq => Or.inl hq) ?_ ?_ ?_
    · intro _
      cases rast with
      | false => exact only_skip _
      | true =>
        simp only [if_true]
        cases Raster.ofFootPrint C lr s p with
        | ok r => exact only_rasterPut (S := fun q => q = root ++ [st ++ ".tiff".toList]) rfl _ _ _
        | thrown e => exact only_reads _ _
        | ub => exact only_reads _ _
    · rintro q (rfl | rfl) e
      · exact hne (List.cons.inj (List.append_cancel_left e)).1
      · have := congrArg List.length e
        simp at this
    · intro _
      cases rast with
      | false => exact redoes_skip
      | true =>
        simp only [if_true]
        cases Raster.ofFootPrint C lr s p with
        | ok r => exact redoes_one ⟨_, raster_putter _ _ _ _⟩
        | thrown e => exact redoes_const _
        | ub => exact redoes_const _

/-! ### With the messages -/

/-- A program with messages that changes these places only. -/
def TalkChanges {A : Type} (C : Path → Prop) (x : Talk A) : Prop := ∀ fs q, (x fs).2.1 q ≠ fs q → C q

theorem repeats_quiet {A : Type} {x : Act A} (h : Redoes x) : Repeats (Talk.quiet x) := by
  intro fs
  show ((x (x fs).2).1, (x (x fs).2).2, ([] : List Said)) = _
  rw [h fs]
  rfl

theorem announced_state {A : Type} (b e : String) (x : Act A) (fs : Fs) : (Talk.announced b x e fs).2.1 = (x fs).2 := by
  unfold Talk.announced
  rcases x fs with ⟨o, f⟩
  cases o <;> rfl

theorem repeats_announced {A : Type} {x : Act A} (b e : String) (h : Redoes x) : Repeats (Talk.announced b x e) := by
  intro fs
  rw [announced_state]
  unfold Talk.announced
  rw [h fs]

theorem repeats_say (t : Text) : Repeats (Talk.say t) := fun _ => rfl

theorem changes_announced {A : Type} {C : Path → Prop} {x : Act A} (b e : String) (h : OnlyChanges C x) : TalkChanges C (Talk.announced b x e) := by
  intro fs q hq
  rw [announced_state] at hq
  exact h fs q hq

theorem changes_quiet {A : Type} {C : Path → Prop} {x : Act A} (h : OnlyChanges C x) : TalkChanges C (Talk.quiet x) := fun fs q hq => h fs q hq

theorem changes_bind {A B : Type} {C : Path → Prop} {x : Talk A} {k : A → Talk B} (hx : TalkChanges C x) (hk : ∀ a, TalkChanges C (k a)) : TalkChanges C (Talk.bind x k) := by
  intro fs q hq
  have h0 := hx fs q
  unfold Talk.bind at hq
  rcases e : x fs with ⟨o, f, l⟩
  rw [e] at hq h0
  cases o with
  | ok a =>
    by_cases h1 : (k a f).2.1 q = f q
    · exact h0 (show f q ≠ fs q by rw [← h1]; exact hq)
    · exact hk a f q h1
  | thrown ex => exact h0 hq
  | ub => exact h0 hq

theorem changes_mono {A : Type} {C D : Path → Prop} {x : Talk A} (h : TalkChanges C x) (hs : ∀ q, C q → D q) : TalkChanges D x := fun fs q hq => hs q (h fs q hq)

theorem repeats_bind {A B : Type} {S C D : Path → Prop} {x : Talk A} {k : A → Talk B} (hl : TalksOf S x) (hc : TalkChanges C x) (hr : Repeats x) (hcs : ∀ q, C q → S q)
    (hd : ∀ a, TalkChanges D (k a)) (hsd : ∀ q, S q → ¬ D q) (hk : ∀ a, Repeats (k a)) : Repeats (Talk.bind x k) := by
  intro fs
  have h0 := hr fs
  unfold Talk.bind
  rcases e : x fs with ⟨o, f1, l⟩
  rw [e] at h0
  cases o with
  | thrown ex => dsimp only at h0 ⊢; rw [h0]
  | ub => dsimp only at h0 ⊢; rw [h0]
  | ok a =>
    dsimp only at h0 ⊢
    have hsame : SameAt S (k a f1).2.1 f1 := by
      intro q hq
      by_contra hne
      exact hsd q hq (hd a f1 q hne)
    obtain ⟨h1, h2, h4⟩ := hl _ _ hsame
    rw [h0] at h1 h2 h4
    have h3 : (x (k a f1).2.1).2.1 = (k a f1).2.1 := by
      funext q
      by_cases hq : C q
      · rw [h2 q (hcs q hq), hsame q (hcs q hq)]
      · by_contra hne
        exact hq (hc _ q hne)
    rw [show x (k a f1).2.1 = (.ok a, (k a f1).2.1, l) from Prod.ext h1 (Prod.ext h3 h4)]
    dsimp only
    rw [hk a f1]

theorem repeats_main {x : Talk Unit} (h : Repeats x) : Repeats (mainTalk x) := by
  intro fs
  have hs : (mainTalk x fs).2.1 = (x fs).2.1 := by
    unfold mainTalk
    rcases x fs with ⟨o, f, l⟩
    cases o <;> rfl
  rw [hs]
  unfold mainTalk
  rw [h fs]


/-! ### The scene is not overwritten -/

theorem ext_shp (p : Path) (n : Text) : extension (p ++ [n ++ ".shp".toList]) = ".shp".toList := by
  simp only [extension, fileName, List.getLastD_eq_getLast?, List.getLast?_append, List.getLast?_singleton, Option.some_or, Option.getD_some]
  unfold splitExt
  simp [List.span_eq_takeWhile_dropWhile]

theorem ext_tiff (p : Path) (n : Text) : extension (p ++ [n ++ ".tiff".toList]) = ".tiff".toList := by
  simp only [extension, fileName, List.getLastD_eq_getLast?, List.getLast?_append, List.getLast?_singleton, Option.some_or, Option.getD_some]
  unfold splitExt
  simp [List.span_eq_takeWhile_dropWhile]

/-- What orthoproject may change, seen from the directory of the scene: something in one of three directories, or a file with one of two extensions. -/
theorem ortho_names (T : Toolbox N L K) {args : Args} {t : Text} (ht : args "<scene>".toList = some (.str t)) {q : Path} (h : OrthoChanges T args q) :
    (∃ n ∈ ["dual_graphs".toList, "vectors".toList, "rasters".toList], Within ((splitSlash t).dropLast ++ [n]) q) ∨
    (∃ e ∈ [".shp".toList, ".tiff".toList], q = (splitSlash t).dropLast ++ [stem (splitSlash t) ++ e]) := by
  obtain ⟨t', ht', h⟩ := h
  rw [ht] at ht'
  cases ht'
  rcases h with ⟨-, h⟩ | ⟨-, h⟩ | ⟨-, -, h⟩ | ⟨_, -, -, -, h | ⟨-, h⟩⟩
  · exact Or.inl ⟨_, by simp only [List.mem_cons, true_or], h⟩
  · exact Or.inl ⟨_, by simp only [List.mem_cons, true_or, or_true], h⟩
  · exact Or.inr ⟨_, by simp only [List.mem_cons, true_or], h⟩
  · exact Or.inl ⟨_, by simp only [List.mem_cons, true_or, or_true], h⟩
  · exact Or.inr ⟨_, by simp only [List.mem_cons, true_or, or_true], h⟩

theorem ext_last (p : Path) (n : Text) : extension (p ++ [n]) = extension [n] := by simp [extension, fileName]

/-- The file of an OBJ or 3DS scene is not changed. -/
theorem file_spared (T : Toolbox N L K) {args : Args} {t : Text} (ht : args "<scene>".toList = some (.str t))
    (he : iequals (extension (splitSlash t)) ".obj".toList = true ∨ iequals (extension (splitSlash t)) ".3ds".toList = true) : ¬ OrthoChanges T args (splitSlash t) := by
  intro h
  have hp : splitSlash t = (splitSlash t).dropLast ++ [(splitSlash t).getLast (slash_ne t)] := (List.dropLast_append_getLast _).symm
  generalize hr : (splitSlash t).dropLast = root at hp
  generalize (splitSlash t).getLast (slash_ne t) = last at hp
  rcases ortho_names T ht h with ⟨n, hn, r, h⟩ | ⟨e, he', h⟩
  · rw [hr, hp, List.append_assoc] at h
    have h1 := List.append_cancel_left h
    have : last = n := (List.cons.inj h1).1
    subst this
    rw [hp, ext_last] at he
    simp only [List.mem_cons, List.not_mem_nil, or_false] at hn
    rcases hn with rfl | rfl | rfl <;> exact absurd he (by decide)
  · rw [hr] at h
    simp only [List.mem_cons, List.not_mem_nil, or_false] at he'
    rcases he' with rfl | rfl
    · generalize stem (splitSlash t) = st at h
      rw [h, ext_shp] at he
      exact absurd he (by decide)
    · generalize stem (splitSlash t) = st at h
      rw [h, ext_tiff] at he
      exact absurd he (by decide)

/-- Nor is the document of a 3DS scene. -/
theorem document_spared (T : Toolbox N L K) {args : Args} {t : Text} (ht : args "<scene>".toList = some (.str t)) :
    ¬ OrthoChanges T args ((splitSlash t).dropLast ++ [stem (splitSlash t) ++ ".XML".toList]) := by
  intro h
  rcases ortho_names T ht h with ⟨n, hn, r, h⟩ | ⟨e, he', h⟩
  · rw [List.append_assoc] at h
    have h1 := (List.cons.inj (List.append_cancel_left h)).1
    have h2 := congrArg List.getLast? h1
    rw [List.getLast?_append, show ".XML".toList.getLast? = some 'L' by decide, Option.some_or] at h2
    simp only [List.mem_cons, List.not_mem_nil, or_false] at hn
    rcases hn with rfl | rfl | rfl <;> exact absurd h2 (by decide)
  · have h1 := List.append_cancel_left (List.cons.inj (List.append_cancel_left h)).1
    simp only [List.mem_cons, List.not_mem_nil, or_false] at he'
    rcases he' with rfl | rfl <;> exact absurd h1 (by decide)

/-- Nothing of the scene is changed, when its handler can be made; for a directory of OFF files this is a condition on its name. -/
theorem scene_spared (T : Toolbox N L K) {args : Args} {t format : Text} {f : SceneFormat} (ht : args "<scene>".toList = some (.str t))
    (hf : args "--input-format".toList = some (.str format)) (hh : sceneHandlerNamed (splitSlash t) format = .ok f)
    (hoff : AsksFormat args "OFF" → ∀ q, ScenePlace args (splitSlash t) q → ¬ OrthoChanges T args q) : ∀ q, ScenePlace args (splitSlash t) q → ¬ OrthoChanges T args q := by
  intro q hq
  rcases ((C31_formats (splitSlash t) format f).1.1 hh) with ⟨e, rfl, hx⟩ | ⟨e, rfl, hx⟩ | ⟨e, rfl⟩ | ⟨e, rfl, hx⟩
  · rcases hq with rfl | ⟨ha, -⟩ | ⟨-, rfl⟩
    · exact file_spared T ht (Or.inr hx)
    · unfold AsksFormat at ha
      rw [hf, e] at ha
      exact absurd ha (by decide)
    · exact document_spared T ht
  · rcases hq with rfl | ⟨ha, -⟩ | ⟨-, rfl⟩
    · exact file_spared T ht (Or.inr hx)
    · unfold AsksFormat at ha
      rw [hf, e] at ha
      exact absurd ha (by decide)
    · exact document_spared T ht
  · exact hoff (hf.trans (by rw [e])) q hq
  · rcases hq with rfl | ⟨ha, -⟩ | ⟨-, rfl⟩
    · exact file_spared T ht (Or.inl hx)
    · unfold AsksFormat at ha
      rw [hf, e] at ha
      exact absurd ha (by decide)
    · exact document_spared T ht


/-! ### C119 -/

theorem repeats_const {A B : Type} {x : Talk A} (k : A → Talk B) (e : Out Empty) (l : List Said)
    (h : ∀ fs, x fs = ((match e with | .thrown ex => .thrown ex | _ => .ub), fs, l)) : Repeats (Talk.bind x k) := by
  intro fs
  unfold Talk.bind
  cases e with
  | ok a => exact a.elim
  | thrown ex => simp only [h]
  | ub => simp only [h]

theorem changes_read (C : Path → Prop) (T : Toolbox N L K) (noise : SceneFormat → Bool → Path → Fs → List Text) (p : Path) (format : Text) :
    TalkChanges C (readTalk T noise p format) := by
  intro fs q hq
  exfalso
  apply hq
  unfold readTalk
  cases sceneHandlerNamed p format <;> rfl

/-- Reading, with the laws of the file system and of the readers. -/
theorem talks_read (T : Toolbox N L K) (noise : SceneFormat → Bool → Path → Fs → List Text) (hT : ListsFiles T) (hN : NoiseOfScene noise) {args : Args} {t format : Text}
    (ht : args "<scene>".toList = some (.str t)) (hf : args "--input-format".toList = some (.str format)) {S : Path → Prop} (hS : ∀ q, ScenePlace args (splitSlash t) q → S q) :
    TalksOf S (readTalk T noise (splitSlash t) format) := by
  intro fs₁ fs₂ h
  have hp : ∀ t', args "<scene>".toList = some (.str t') → ∀ q, ScenePlace args (splitSlash t') q → S q := by
    intro t' ht' q hq
    rw [ht] at ht'
    cases ht'
    exact hS q hq
  exact ends_read T noise ht hf hS h (same_listing T hT h hp) (same_noise hN h hp)

theorem repeats_read (T : Toolbox N L K) (noise : SceneFormat → Bool → Path → Fs → List Text) (p : Path) (format : Text) : Repeats (readTalk T noise p format) := by
  intro fs
  have : (readTalk T noise p format fs).2.1 = fs := by
    unfold readTalk
    cases sceneHandlerNamed p format <;> rfl
  rw [this]

theorem changes_input (T : Toolbox N L K) (noise : SceneFormat → Bool → Path → Fs → List Text) (p : Path) (format : Text) (prune terrain graphs : Bool) :
    TalkChanges (fun q => graphs = true ∧ Within (p.dropLast ++ ["dual_graphs".toList]) q) (inputTalk T noise p format prune terrain graphs) := by
  unfold inputTalk
  refine changes_bind (changes_read _ _ _ _ _) fun s => changes_bind (changes_quiet (only_reads _ _)) fun s' => changes_bind ?_ fun _ => changes_quiet (only_reads _ _)
  cases graphs with
  | false => exact changes_quiet (only_skip _)
  | true => exact changes_announced _ _ (only_mono (only_duals _ _) fun q h => ⟨rfl, h⟩)

/-- Reading, pruning and saving the dual graphs, if this does not change the scene. -/
theorem repeats_input (T : Toolbox N L K) (noise : SceneFormat → Bool → Path → Fs → List Text) (hT : ListsFiles T) (hN : NoiseOfScene noise) {args : Args} {t format : Text}
    (prune terrain graphs : Bool) (ht : args "<scene>".toList = some (.str t)) (hf : args "--input-format".toList = some (.str format))
    (hs : ∀ q, ScenePlace args (splitSlash t) q → ¬ (graphs = true ∧ Within ((splitSlash t).dropLast ++ ["dual_graphs".toList]) q)) :
    Repeats (inputTalk T noise (splitSlash t) format prune terrain graphs) := by
  have hduals : ∀ x : Scene N, Repeats (if graphs then Talk.announced "Saving brick duals... " (saveBuildingDuals (splitSlash t).dropLast (x.buildings.map T.dual)) " Done.\n"
      else Talk.quiet Act.skip) := by
    intro x
    cases graphs with
    | false => exact repeats_quiet redoes_skip
    | true => exact repeats_announced _ _ (redoes_duals _ _)
  have hch : ∀ x : Scene N, TalkChanges (fun q => graphs = true ∧ Within ((splitSlash t).dropLast ++ ["dual_graphs".toList]) q)
      (if graphs then Talk.announced "Saving brick duals... " (saveBuildingDuals (splitSlash t).dropLast (x.buildings.map T.dual)) " Done.\n" else Talk.quiet Act.skip) := by
    intro x
    cases graphs with
    | false => exact changes_quiet (only_skip _)
    | true => exact changes_announced _ _ (only_mono (only_duals _ _) fun q h => ⟨rfl, h⟩)
  unfold inputTalk
  refine repeats_bind (S := ScenePlace args (splitSlash t)) (C := fun _ => False)
    (D := fun q => graphs = true ∧ Within ((splitSlash t).dropLast ++ ["dual_graphs".toList]) q) (talks_read T noise hT hN ht hf fun _ h => h) (changes_read _ _ _ _ _)
    (repeats_read _ _ _ _) (fun _ h => h.elim) ?_ hs ?_
  · exact fun s => changes_bind (changes_quiet (only_reads _ _)) fun s' => changes_bind (hch s') fun _ => changes_quiet (only_reads _ _)
  · intro s
    refine repeats_bind (S := fun _ => False) (C := fun _ => False) (D := fun _ => True) (talks_quiet (looks_const _ _)) (changes_quiet (only_reads _ _)) (repeats_quiet (redoes_const _))
      (fun _ h => h) (fun _ _ _ _ => trivial) (fun _ h => h.elim) fun s' => ?_
    intro fs
    have h := hduals s' fs
    generalize (if graphs then Talk.announced "Saving brick duals... " (saveBuildingDuals (splitSlash t).dropLast (s'.buildings.map T.dual)) " Done.\n"
      else Talk.quiet Act.skip) = x at h
    unfold Talk.bind
    rcases e : x fs with ⟨o, f, l⟩
    rw [e] at h
    cases o <;> (dsimp only [Talk.quiet, Act.reads] at h ⊢; rw [h])

theorem root_apart {root q : Path} {n m : Text} (hnm : n ≠ m) (h : Within (root ++ [n]) q) : ¬ Within (root ++ [m]) q := by
  rintro ⟨r', e'⟩
  obtain ⟨r, e⟩ := h
  rw [e, List.append_assoc, List.append_assoc] at e'
  exact hnm (List.cons.inj (List.append_cancel_left e')).1

theorem root_below {root : Path} {n : Text} : ¬ Within (root ++ [n]) root := by
  rintro ⟨r, e⟩
  have := congrArg List.length e
  simp at this

/-- A file beside the scene is in none of the directories, if it has another name. -/
theorem file_apart {root : Path} {n m : Text} (hnm : n ≠ m) : ¬ Within (root ++ [m]) (root ++ [n]) := root_apart hnm ⟨[], by simp⟩

theorem ne_dir (st : Text) (e n : String) (h : e.toList.getLast? ≠ n.toList.getLast?) (he : e.toList ≠ []) : st ++ e.toList ≠ n.toList := by
  intro k
  apply h
  rw [← k, List.getLast?_append]
  cases hl : e.toList.getLast? with
  | none => exact absurd (List.getLast?_eq_none_iff.1 hl) he
  | some c => rfl

theorem repeats_ortho (T : Toolbox N L K) (noise : SceneFormat → Bool → Path → Fs → List Text) (hT : ListsFiles T) (hN : NoiseOfScene noise) (args : Args)
    (hoff : AsksFormat args "OFF" → ∀ t, args "<scene>".toList = some (.str t) → ∀ q, ScenePlace args (splitSlash t) q → ¬ OrthoChanges T args q) :
    Repeats (orthoTalk T noise args) := by
  unfold orthoTalk
  cases ha : orthoArgs T args with
  | thrown e => exact fun _ => rfl
  | ub => exact fun _ => rfl
  | ok a =>
  have hstart : ∀ (k : OrthoArgs K → Talk Unit), Repeats (k a) → Repeats (Talk.bind (Talk.announced "Parsing arguments... " (Act.reads fun _ => Out.ok a) "Done.\n") k) := by
    intro k hk fs
    show ((k a (k a fs).2.1).1, (k a (k a fs).2.1).2.1, _ ++ (k a (k a fs).2.1).2.2) = _
    rw [hk fs]
    rfl
  have hsay : ∀ (x : Text) (k : Unit → Talk Unit), Repeats (k ()) → Repeats (Talk.bind (Talk.say x) k) := by
    intro x k hk fs
    show ((k () (k () fs).2.1).1, (k () (k () fs).2.1).2.1, _ ++ (k () (k () fs).2.1).2.2) = _
    rw [hk fs]
    rfl
  refine hstart _ (hsay _ _ ?_)
  obtain ⟨⟨t, ht, hpath⟩, hg, hs, hsc, hpx⟩ := orthoArgs_ok (T := T) (args := args) (a := a) ha
  have hfm := orthoArgs_format ha
  rw [hpath]
  cases hh : sceneHandlerNamed (splitSlash t) a.format with
  | thrown e =>
    refine repeats_const _ (.thrown e) [] fun fs => ?_
    unfold inputTalk Talk.bind readTalk
    rw [hh]
  | ub =>
    refine repeats_const _ .ub [] fun fs => ?_
    unfold inputTalk Talk.bind readTalk
    rw [hh]
  | ok f =>
  have hsp := scene_spared T ht hfm hh fun ho => hoff ho t ht
  have hgr : ∀ q, a.graphs = true ∧ Within ((splitSlash t).dropLast ++ ["dual_graphs".toList]) q → OrthoChanges T args q := fun q hq => ⟨t, ht, Or.inl ⟨hg hq.1, hq.2⟩⟩
  generalize hroot : (splitSlash t).dropLast = root at hgr ⊢
  generalize hst : stem (splitSlash t) = st
  have hplain : PlainName st := hst ▸ plain_stem t
  have j1 : joinPath root (st ++ ".shp".toList) = root ++ [st ++ ".shp".toList] := joinPath_plain (plain_ext hplain (by unfold PlainName; decide))
  have j2 : joinPath root (st ++ ".tiff".toList) = root ++ [st ++ ".tiff".toList] := joinPath_plain (plain_ext hplain (by unfold PlainName; decide))
  have n1 : ∀ n : String, 'p' ≠ (n.toList.getLast?.getD 'p') → st ++ ".shp".toList ≠ n.toList := by
    intro n hn
    refine ne_dir st ".shp" n ?_ (by decide)
    intro e
    rw [← e] at hn
    exact hn (by decide)
  have n2 : ∀ n : String, 'f' ≠ (n.toList.getLast?.getD 'f') → st ++ ".tiff".toList ≠ n.toList := by
    intro n hn
    refine ne_dir st ".tiff" n ?_ (by decide)
    intro e
    rw [← e] at hn
    exact hn (by decide)
  -- what the later steps change
  let V : Path → Prop := fun q => a.save = true ∧ Within (root ++ ["vectors".toList]) q
  let P : Path → Prop := fun q => a.save = true ∧ a.scene = true ∧ (q = root ++ [st ++ ".shp".toList] ∨ (a.pixel ≠ 0 ∧ q = root ++ [st ++ ".tiff".toList]))
  let R : Path → Prop := fun q => a.save = true ∧ a.pixel ≠ 0 ∧ Within (root ++ ["rasters".toList]) q
  have hV : ∀ q, V q → OrthoChanges T args q := fun q hq => ⟨t, ht, Or.inr (Or.inl ⟨hs hq.1, hroot ▸ hq.2⟩)⟩
  have hP : ∀ q, P q → OrthoChanges T args q := by
    rintro q ⟨h1, h2, h3 | ⟨h3, h4⟩⟩
    · exact ⟨t, ht, Or.inr (Or.inr (Or.inl ⟨hs h1, hsc h2, by rw [hroot, hst]; exact h3⟩))⟩
    · exact ⟨t, ht, Or.inr (Or.inr (Or.inr ⟨a.pixel, h3, hpx h3, hs h1, Or.inr ⟨hsc h2, by rw [hroot, hst]; exact h4⟩⟩))⟩
  have hR : ∀ q, R q → OrthoChanges T args q := fun q hq => ⟨t, ht, Or.inr (Or.inr (Or.inr ⟨a.pixel, hq.2.1, hpx hq.2.1, hs hq.1, Or.inl (hroot ▸ hq.2.2)⟩))⟩
  have cV : a.save = true → ∀ ps, TalkChanges V (Talk.announced "Saving vector projections... " (saveBuildingPrints T.C T.G root ps a.labels) "Done.\n") :=
    fun h ps => changes_announced _ _ (only_mono (only_prints _ _ _ _ _) fun q hq => ⟨h, hq⟩)
  have cP : a.save = true → ∀ ps, TalkChanges P (if a.scene then Talk.announced "Summing , rasterizing and saving scene projections... "
      (saveScenePrints T.C T.lr T.G root st ps (decide (a.pixel ≠ 0)) a.pixel) "Done.\n" else Talk.quiet Act.skip) := by
    intro h ps
    split
    · rename_i hscene
      refine changes_announced _ _ (only_mono (only_scenePrints _ _ _ _ _ _ _ _) ?_)
      rintro q (hq | ⟨h0, hq⟩)
      · exact ⟨h, hscene, Or.inl (hq.trans j1)⟩
      · exact ⟨h, hscene, Or.inr ⟨of_decide_eq_true h0, hq.trans j2⟩⟩
    · exact changes_quiet (only_skip _)
  have cR : a.save = true → ∀ ps, TalkChanges R (if a.pixel ≠ 0 then
      Talk.bind (Talk.announced "rasterizing projections... " (Act.reads fun _ => rasterizeScene T.C T.lr ps a.pixel) "Done.\n") fun rs =>
      Talk.announced "Saving raster projections... " (saveBuildingRasters T.G root rs) "Done.\n" else Talk.quiet Act.skip) := by
    intro h ps
    split
    · rename_i h0
      exact changes_bind (changes_announced _ _ (only_reads _ _)) fun rs => changes_announced _ _ (only_mono (only_rasters _ _ _) fun q hq => ⟨h, h0, hq⟩)
    · exact changes_quiet (only_skip _)
  have dVP : ∀ q, (q = root ∨ Within (root ++ ["vectors".toList]) q) → ¬ (P q ∨ R q) := by
    rintro q (rfl | hq) (⟨-, -, e | ⟨-, e⟩⟩ | ⟨-, -, hR'⟩)
    · have := congrArg List.length e; simp at this
    · have := congrArg List.length e; simp at this
    · exact root_below hR'
    · rw [e] at hq; exact file_apart (n1 "vectors" (by decide)) hq
    · rw [e] at hq; exact file_apart (n2 "vectors" (by decide)) hq
    · exact root_apart (by decide) hq hR'
  have dG : ∀ q, (q = root ∨ Within (root ++ ["dual_graphs".toList]) q) → ¬ (V q ∨ P q ∨ R q) := by
    rintro q (rfl | hq) (⟨-, hV'⟩ | ⟨-, -, e | ⟨-, e⟩⟩ | ⟨-, -, hR'⟩)
    · exact root_below hV'
    · have := congrArg List.length e; simp at this
    · have := congrArg List.length e; simp at this
    · exact root_below hR'
    · exact root_apart (by decide) hq hV'
    · rw [e] at hq; exact file_apart (n1 "dual_graphs" (by decide)) hq
    · rw [e] at hq; exact file_apart (n2 "dual_graphs" (by decide)) hq
    · exact root_apart (by decide) hq hR'
  have dP : ∀ q, (q = root ∨ q = root ++ [st ++ ".shp".toList] ∨ q = root ++ [st ++ ".tiff".toList]) → ¬ R q := by
    rintro q (rfl | rfl | rfl) ⟨-, -, hR'⟩
    · exact root_below hR'
    · exact file_apart (n1 "rasters" (by decide)) hR'
    · exact file_apart (n2 "rasters" (by decide)) hR'
  have hin : Repeats (inputTalk T noise (splitSlash t) a.format a.prune a.terrain a.graphs) :=
    repeats_input T noise hT hN _ _ _ ht hfm fun q hq h => hsp q hq (hgr q (hroot ▸ h))
  have hinl : TalksOf (fun q => ScenePlace args (splitSlash t) q ∨ (a.graphs = true ∧ (q = root ∨ Within (root ++ ["dual_graphs".toList]) q)))
      (inputTalk T noise (splitSlash t) a.format a.prune a.terrain a.graphs) := by
    intro fs₁ fs₂ h
    have hp : ∀ t', args "<scene>".toList = some (.str t') → ∀ q, ScenePlace args (splitSlash t') q →
        (ScenePlace args (splitSlash t) q ∨ (a.graphs = true ∧ (q = root ∨ Within (root ++ ["dual_graphs".toList]) q))) := by
      intro t' ht' q hq
      rw [ht] at ht'
      cases ht'
      exact Or.inl hq
    refine ends_input T noise _ _ _ ht hfm (hp t ht) h (same_listing T hT h hp) (same_noise hN h hp) fun e => ?_
    rw [hroot]
    exact ⟨Or.inr ⟨e, Or.inl rfl⟩, fun q hq => Or.inr ⟨e, Or.inr hq⟩⟩
  have hinc := changes_input T noise (splitSlash t) a.format a.prune a.terrain a.graphs
  rw [hroot] at hinc
  refine repeats_bind (D := fun q => V q ∨ P q ∨ R q) hinl hinc hin (fun q hq => Or.inr ⟨hq.1, Or.inr hq.2⟩) ?_ ?_ fun s => ?_
  · intro s
    cases hsave : a.save with
    | false => exact changes_quiet (only_skip _)
    | true =>
      simp only [if_true]
      exact changes_bind (changes_announced _ _ (only_reads _ _)) fun ps => changes_bind (changes_mono (cV hsave ps) fun q hq => Or.inl hq) fun _ =>
        changes_bind (changes_mono (cP hsave ps) fun q hq => Or.inr (Or.inl hq)) fun _ => changes_mono (cR hsave ps) fun q hq => Or.inr (Or.inr hq)
  · rintro q (hq | ⟨-, hq⟩) hD
    · rcases hD with h | h | h
      · exact hsp q hq (hV q h)
      · exact hsp q hq (hP q h)
      · exact hsp q hq (hR q h)
    · exact dG q hq hD
  · cases hsave : a.save with
    | false => exact repeats_quiet redoes_skip
    | true =>
      simp only [if_true]
      refine repeats_bind (S := fun _ => False) (C := fun _ => False) (D := fun _ => True) (talks_announced _ _ (looks_const _ _)) (changes_announced _ _ (only_reads _ _))
        (repeats_announced _ _ (redoes_const _)) (fun _ h => h) (fun _ _ _ _ => trivial) (fun _ h => h.elim) fun ps => ?_
      refine repeats_bind (S := fun q => q = root ∨ Within (root ++ ["vectors".toList]) q) (C := V) (D := fun q => P q ∨ R q)
        (talks_announced _ _ (looks_prints (Or.inl rfl) (fun q hq => Or.inr hq) _ _ _ _)) (cV hsave ps) (repeats_announced _ _ (redoes_prints _ _ _ _ _)) (fun q hq => Or.inr hq.2)
        (fun _ => changes_bind (changes_mono (cP hsave ps) fun q hq => Or.inl hq) fun _ => changes_mono (cR hsave ps) fun q hq => Or.inr hq) dVP fun _ => ?_
      refine repeats_bind (S := fun q => q = root ∨ q = root ++ [st ++ ".shp".toList] ∨ q = root ++ [st ++ ".tiff".toList]) (C := P) (D := R) ?_ (cP hsave ps) ?_ ?_
        (fun _ => cR hsave ps) dP fun _ => ?_
      · split
        · exact talks_announced _ _ (looks_scenePrints hplain (Or.inl rfl) (Or.inr (Or.inl rfl)) _ (fun _ => Or.inr (Or.inr rfl)) _ _ _ _ _)
        · exact talks_quiet (looks_skip _)
      · split
        · exact repeats_announced _ _ (redoes_scenePrints _ _ _ _ _ hplain _ _ _)
        · exact repeats_quiet redoes_skip
      · rintro q ⟨-, -, h | ⟨-, h⟩⟩
        · exact Or.inr (Or.inl h)
        · exact Or.inr (Or.inr h)
      · split
        · exact repeats_bind (S := fun _ => False) (C := fun _ => False) (D := fun _ => True) (talks_announced _ _ (looks_const _ _)) (changes_announced _ _ (only_reads _ _))
            (repeats_announced _ _ (redoes_const _)) (fun _ h => h) (fun _ _ _ _ => trivial) (fun _ h => h.elim) fun rs => repeats_announced _ _ (redoes_rasters _ _ _)
        · exact repeats_quiet redoes_skip

/-- C119: orthoproject can be run again: the second run ends in the same way, says the same and changes no file, whatever the first one did and however it ended. For a directory of OFF files, its
name must not be the name of one of the results. -/
theorem C119_ortho (T : Toolbox N L K) (noise : SceneFormat → Bool → Path → Fs → List Text) (hT : ListsFiles T) (hN : NoiseOfScene noise) (args : Args)
    (hoff : AsksFormat args "OFF" → ∀ t, args "<scene>".toList = some (.str t) → ∀ q, ScenePlace args (splitSlash t) q → ¬ OrthoChanges T args q) :
    Repeats (mainTalk (orthoTalk T noise args)) := repeats_main (repeats_ortho T noise hT hN args hoff)

/-- C119: for scenes in OBJ and 3DS files there is no condition. -/
theorem C119_files (T : Toolbox N L K) (noise : SceneFormat → Bool → Path → Fs → List Text) (hT : ListsFiles T) (hN : NoiseOfScene noise) (args : Args)
    (h : ¬ AsksFormat args "OFF") : Repeats (mainTalk (orthoTalk T noise args)) :=
  C119_ortho T noise hT hN args fun ho => absurd ho h

/-- C119: for a directory of OFF files it is enough that it is not named `dual_graphs`, `vectors` or `rasters` and that its name does not end with `.shp` or `.tiff`. -/
theorem C119_directory (T : Toolbox N L K) (noise : SceneFormat → Bool → Path → Fs → List Text) (hT : ListsFiles T) (hN : NoiseOfScene noise) (args : Args) (t : Text)
    (ht : args "<scene>".toList = some (.str t)) (d : Path) (n : Text) (hd : splitSlash t = d ++ [n])
    (hn : n ≠ "dual_graphs".toList ∧ n ≠ "vectors".toList ∧ n ≠ "rasters".toList) (he : ∀ s, n ≠ s ++ ".shp".toList ∧ n ≠ s ++ ".tiff".toList) :
    Repeats (mainTalk (orthoTalk T noise args)) := by
  refine C119_ortho T noise hT hN args ?_
  intro ha t' ht' q hq hc
  rw [ht] at ht'
  cases ht'
  have hq' : ∃ r, q = d ++ n :: r := by
    rcases hq with rfl | ⟨-, m, -, rfl⟩ | ⟨h3, -⟩
    · exact ⟨[], hd⟩
    · exact ⟨[m], by rw [hd]; simp⟩
    · unfold AsksFormat at h3 ha
      rw [ha] at h3
      exact absurd h3 (by decide)
  obtain ⟨r, rfl⟩ := hq'
  have hdl : (splitSlash t).dropLast = d := by rw [hd]; simp
  rcases ortho_names T ht hc with ⟨m, hm, r', e⟩ | ⟨x, hx, e⟩
  · rw [hdl, List.append_assoc] at e
    have := (List.cons.inj (List.append_cancel_left e)).1
    simp only [List.mem_cons, List.not_mem_nil, or_false] at hm
    rcases hm with rfl | rfl | rfl
    · exact hn.1 this
    · exact hn.2.1 this
    · exact hn.2.2 this
  · rw [hdl] at e
    have := (List.cons.inj (List.append_cancel_left e)).1
    simp only [List.mem_cons, List.not_mem_nil, or_false] at hx
    rcases hx with rfl | rfl
    · exact (he _).1 this
    · exact (he _).2 this

/-! ### cityformat -/

/-- The file of a mesh in a directory of OFF files. -/
def offPutter (modes : Modes) (p : Path) (m : Mesh) : Putter :=
  ⟨joinPath p (m.name ++ ".off".toList), Off.write m, canSave modes, if canSave modes then .ok () else .thrown .filesystemError,
    if canSave modes then .ok () else .thrown .filesystemError⟩

theorem off_putter (modes : Modes) (p : Path) (m : Mesh) : offWrite modes (joinPath p (m.name ++ ".off".toList)) m = (offPutter modes p m).put := by
  funext fs
  unfold offWrite Putter.put Fs.put offPutter
  dsimp only
  cases canSave modes <;> cases fs.canWrite (joinPath p (m.name ++ ".off".toList)) <;> rfl

theorem offWriteAll_puts (modes : Modes) (p : Path) : ∀ ms : List Mesh, offWriteAll modes p ms = runAll (ms.map fun m => (offPutter modes p m).put)
  | [] => rfl
  | m :: ms => by
    funext fs
    have ih := offWriteAll_puts modes p ms
    unfold offWriteAll
    rw [off_putter, ih, List.map_cons]
    show _ = andThen ((offPutter modes p m).put fs) (runAll (ms.map fun m => (offPutter modes p m).put))
    unfold andThen
    rcases (offPutter modes p m).put fs with ⟨o, f⟩
    cases o <;> rfl

theorem redoes_offWriteAll (modes : Modes) (p : Path) (ms : List Mesh) : Redoes (offWriteAll modes p ms) := by
  rw [offWriteAll_puts]
  exact redoes_runAll fun w hw => by
    obtain ⟨m, -, rfl⟩ := List.mem_map.1 hw
    exact ⟨_, rfl⟩

theorem only_putter (w : Putter) : OnlyChanges (fun q => q = w.at_) w.put := by
  intro fs q hq
  by_contra hqn
  apply hq
  unfold Putter.put
  dsimp only
  split
  · exact if_neg hqn
  · rfl

theorem offWriteAll_dir (modes : Modes) (p : Path) (ms : List Mesh) (fs : Fs) : (offWriteAll modes p ms fs).2 p = fs p := by
  by_contra hne
  rw [offWriteAll_puts] at hne
  have := only_runAll (S := fun q => ∃ n, q = joinPath p n) (ms.map fun m => (offPutter modes p m).put) (by
      intro w hw
      obtain ⟨m, -, rfl⟩ := List.mem_map.1 hw
      exact only_mono (only_putter _) fun q hq => ⟨_, hq⟩) fs p hne
  obtain ⟨n, e⟩ := this
  exact (join_below n).1 e.symm

theorem redoes_sceneWrite (ops : NodeOps N) (f : SceneFormat) (modes : Modes) (p : Path) (s : Scene N) : Redoes (sceneWrite ops f modes p s) := by
  cases f with
  | t3dsXml => exact fun _ => rfl
  | t3ds => exact fun _ => rfl
  | obj =>
    intro fs
    unfold sceneWrite objWrite
    dsimp only
    cases canSave modes with
    | false => rfl
    | true =>
      simp only [if_true]
      cases Obj.write (s.buildings.map ops.back ++ [ops.back s.terrain]) with
      | thrown e => rfl
      | ub => rfl
      | ok x => exact redoes_one ⟨_, stream_putter p (x, .ok ())⟩ fs
  | off =>
    intro fs
    show offSceneWrite ops modes p s (offSceneWrite ops modes p s fs).2 = offSceneWrite ops modes p s fs
    generalize hms : s.buildings.map ops.back ++ [ops.back s.terrain] = ms
    have key : ∀ g : Fs, g p = some .dir → offSceneWrite ops modes p s g = offWriteAll modes p ms g := by
      intro g hg
      unfold offSceneWrite
      rw [hg, hms]
    cases e : fs p with
    | some x =>
      cases x with
      | file y =>
        have : offSceneWrite ops modes p s fs = (.thrown .runtimeError, fs) := by unfold offSceneWrite; rw [e]
        rw [this]
        exact this
      | dir =>
        rw [key fs e, key _ (by rw [offWriteAll_dir]; exact e)]
        exact redoes_offWriteAll modes p ms fs
    | none =>
      by_cases hd : fs p.dropLast = some .dir
      · have : offSceneWrite ops modes p s fs = offWriteAll modes p ms (fs.set p .dir) := by
          unfold offSceneWrite
          rw [e, hms]
          simp only [if_pos hd]
        rw [this, key _ (by rw [offWriteAll_dir]; simp [Fs.set])]
        exact redoes_offWriteAll modes p ms _
      · have : offSceneWrite ops modes p s fs = (.thrown .filesystemError, fs) := by
          unfold offSceneWrite
          rw [e]
          simp only [if_neg hd]
        rw [this]
        exact this

theorem repeats_format (T : Toolbox N L K) (noise : SceneFormat → Bool → Path → Fs → List Text) (hT : ListsFiles T) (hN : NoiseOfScene noise) (args : Args)
    (hs : ∀ t, args "<scene>".toList = some (.str t) → ∀ q, ScenePlace args (splitSlash t) q → ¬ FormatChanges args q)
    (hg : Asked args "--graphs" → ∀ t o, args "<scene>".toList = some (.str t) → args "<path>".toList = some (.str o) →
      ¬ Within ((splitSlash t).dropLast ++ ["dual_graphs".toList]) (splitSlash o) ∧ ¬ Within (splitSlash o) ((splitSlash t).dropLast ++ ["dual_graphs".toList])) :
    Repeats (formatTalk T noise args) := by
  unfold formatTalk
  have hfirst : ∀ (o : Out Bool) (k : Bool → Talk Unit), (∀ b, Repeats (k b)) → Repeats (Talk.bind (Talk.quiet (Act.reads fun _ => o)) k) := by
    intro o k hk
    cases o with
    | ok b =>
      intro fs
      show ((k b (k b fs).2.1).1, (k b (k b fs).2.1).2.1, _ ++ (k b (k b fs).2.1).2.2) = _
      rw [hk b fs]
      rfl
    | thrown e => exact fun _ => rfl
    | ub => exact fun _ => rfl
  refine hfirst _ _ fun _ => ?_
  cases ha : formatArgs args with
  | thrown e => exact fun _ => rfl
  | ub => exact fun _ => rfl
  | ok a =>
  have hstart : ∀ (k : FormatArgs → Talk Unit), Repeats (k a) → Repeats (Talk.bind (Talk.announced "Parsing arguments... " (Act.reads fun _ => Out.ok a) "Done.\n") k) := by
    intro k hk fs
    show ((k a (k a fs).2.1).1, (k a (k a fs).2.1).2.1, _ ++ (k a (k a fs).2.1).2.2) = _
    rw [hk fs]
    rfl
  have hsay : ∀ (x : Text) (k : Unit → Talk Unit), Repeats (k ()) → Repeats (Talk.bind (Talk.say x) k) := by
    intro x k hk fs
    show ((k () (k () fs).2.1).1, (k () (k () fs).2.1).2.1, _ ++ (k () (k () fs).2.1).2.2) = _
    rw [hk fs]
    rfl
  refine hstart _ (hsay _ _ ?_)
  cases hf : a.formats with
  | true => exact repeats_say _
  | false =>
  simp only [Bool.false_eq_true, if_false]
  obtain ⟨t, o, ht, hpath, ho, hout, hfm, hof, hno, hgr⟩ := formatArgs_ok ha hf
  rw [hpath, hout]
  have hsp := hs t ht
  have cG : ∀ q, a.graphs = true ∧ Within ((splitSlash t).dropLast ++ ["dual_graphs".toList]) q → FormatChanges args q :=
    fun q hq => ⟨t, o, _, ht, ho, hof, hno, Or.inl ⟨hgr hq.1, hq.2⟩⟩
  have cO : ∀ q, Within (splitSlash o) q → FormatChanges args q := fun q hq => ⟨t, o, _, ht, ho, hof, hno, Or.inr hq⟩
  have hgo : a.graphs = true → _ := fun e => hg (hgr e) t o ht ho
  have hin : Repeats (inputTalk T noise (splitSlash t) a.format a.prune a.terrain a.graphs) :=
    repeats_input T noise hT hN _ _ _ ht hfm fun q hq h => hsp q hq (cG q h)
  have hinc := changes_input T noise (splitSlash t) a.format a.prune a.terrain a.graphs
  generalize hroot : (splitSlash t).dropLast = root at hgo hinc
  have hinl : TalksOf (fun q => ScenePlace args (splitSlash t) q ∨ (a.graphs = true ∧ (q = root ∨ Within (root ++ ["dual_graphs".toList]) q)))
      (inputTalk T noise (splitSlash t) a.format a.prune a.terrain a.graphs) := by
    intro fs₁ fs₂ h
    have hp : ∀ t', args "<scene>".toList = some (.str t') → ∀ q, ScenePlace args (splitSlash t') q →
        (ScenePlace args (splitSlash t) q ∨ (a.graphs = true ∧ (q = root ∨ Within (root ++ ["dual_graphs".toList]) q))) := by
      intro t' ht' q hq
      rw [ht] at ht'
      cases ht'
      exact Or.inl hq
    refine ends_input T noise _ _ _ ht hfm (hp t ht) h (same_listing T hT h hp) (same_noise hN h hp) fun e => ?_
    rw [hroot]
    exact ⟨Or.inr ⟨e, Or.inl rfl⟩, fun q hq => Or.inr ⟨e, Or.inr hq⟩⟩
  refine repeats_bind (D := Within (splitSlash o)) hinl hinc hin (fun q hq => Or.inr ⟨hq.1, Or.inr hq.2⟩) ?_ ?_ fun s => ?_
  · exact fun s => changes_bind (changes_quiet (only_reads _ _)) fun f => changes_quiet (only_sceneWrite _ _ _ _ _)
  · rintro q (hq | ⟨e, hq⟩) hD
    · exact hsp q hq (cO q hD)
    · rcases hq with rfl | hq
      · obtain ⟨r, hr⟩ := hD
        exact (hgo e).2 ⟨r ++ ["dual_graphs".toList], by rw [hr]; simp⟩
      · rcases within_both hq hD with k | k
        · exact (hgo e).1 k
        · exact (hgo e).2 k
  · exact repeats_bind (S := fun _ => False) (C := fun _ => False) (D := fun _ => True) (talks_quiet (looks_const _ _)) (changes_quiet (only_reads _ _))
      (repeats_quiet (redoes_const _)) (fun _ h => h) (fun _ _ _ _ => trivial) (fun _ h => h.elim) fun f => repeats_quiet (redoes_sceneWrite _ _ _ _ _)

/-- C119: cityformat can be run again, if nothing of the scene is among the places it may change and the output and the directory of the dual graphs (if they are asked for) are not inside each
other. -/
theorem C119_format (T : Toolbox N L K) (noise : SceneFormat → Bool → Path → Fs → List Text) (hT : ListsFiles T) (hN : NoiseOfScene noise) (args : Args)
    (hs : ∀ t, args "<scene>".toList = some (.str t) → ∀ q, ScenePlace args (splitSlash t) q → ¬ FormatChanges args q)
    (hg : Asked args "--graphs" → ∀ t o, args "<scene>".toList = some (.str t) → args "<path>".toList = some (.str o) →
      ¬ Within ((splitSlash t).dropLast ++ ["dual_graphs".toList]) (splitSlash o) ∧ ¬ Within (splitSlash o) ((splitSlash t).dropLast ++ ["dual_graphs".toList])) :
    Repeats (mainTalk (formatTalk T noise args)) := repeats_main (repeats_format T noise hT hN args hs hg)

/-- C119: any number of runs after the first one leaves the files as the first one did. -/
theorem C119_times {A : Type} {x : Talk A} (h : Repeats x) (fs : Fs) : ∀ n : Nat, (fun g : Fs => (x g).2.1)^[n + 1] fs = (x fs).2.1
  | 0 => rfl
  | n + 1 => by
    rw [Function.iterate_succ_apply', C119_times h fs n]
    exact congrArg (fun r => r.2.1) (h fs)

end
/-! ### The hypotheses are met -/

/-- C119: a complete run with all the results on a 3DS scene. -/
example : Repeats (mainTalk (orthoTalk toyTools (fun _ _ _ _ => []) (toyArgs true true true))) :=
  C119_files toyTools _ (fun _ _ _ _ _ => rfl) silent_noise _ (by unfold AsksFormat; decide)

/-- C119: a directory of OFF files named `d/city`. -/
example : Repeats (mainTalk (orthoTalk toyTools (fun _ _ _ _ => []) fun n => if n = "<scene>".toList then some (.str "d/city".toList) else
    if n = "--input-format".toList then some (.str "OFF".toList) else some (.bool true))) := by
  refine C119_directory toyTools _ (fun _ _ _ _ _ => rfl) silent_noise _ "d/city".toList rfl ["d".toList] "city".toList (by decide) (by decide) ?_
  intro s
  constructor <;> intro e <;> have h := congrArg List.getLast? e <;> rw [List.getLast?_append] at h
  · rw [show ".shp".toList.getLast? = some 'p' by decide, Option.some_or] at h
    exact absurd h (by decide)
  · rw [show ".tiff".toList.getLast? = some 'f' by decide, Option.some_or] at h
    exact absurd h (by decide)

/-- C119: a conversion of `e/a.obj` to `d/s.obj`. -/
example : Repeats (mainTalk (formatTalk countTools (fun _ _ _ _ => []) (turnArgs "e/a.obj" "d/s.obj"))) := by
  refine C119_format countTools _ count_lists silent_noise _ ?_ fun h => absurd h (by unfold Asked; decide)
  intro t ht q hq hc
  have h1 : some (Arg.str "e/a.obj".toList) = some (Arg.str t) := ht
  cases h1
  obtain ⟨t', o, f, -, ho, -, -, ⟨hg, -⟩ | h⟩ := hc
  · exact absurd hg (by unfold Asked; decide)
  · have h2 : some (Arg.str "d/s.obj".toList) = some (Arg.str o) := ho
    cases h2
    have e1 : splitSlash "e/a.obj".toList = ["e".toList, "a.obj".toList] := by decide
    have e3 : splitSlash "d/s.obj".toList = ["d".toList, "s.obj".toList] := by decide
    rw [e1] at hq
    rw [e3] at h
    obtain ⟨r, rfl⟩ := h
    rcases hq with h | ⟨-, n, -, h⟩ | ⟨-, h⟩ <;> exact absurd (List.cons.inj h).1 (by decide)

/-- The first of these runs does something. -/
example : (mainTalk (formatTalk countTools (fun _ _ _ _ => []) (turnArgs "e/a.obj" "d/s.obj")) twoFs).2.1 ["d".toList, "s.obj".toList] ≠ none := by decide +kernel

end City.Props
