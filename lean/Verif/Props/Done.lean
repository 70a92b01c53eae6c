import Verif.Props.Usage
/-!
C115: a step that the terminal shows as done has left its files, whatever happens afterwards; and if nothing is said on the standard error stream, then everything that was asked for is on the disk.
-/
set_option linter.unusedSectionVars false
namespace City.Spec
open City City.Props

section
variable {N L K : Type} [Field K] [LinearOrder K] [FloorRing K]

/-- The scene that the tools work on: what the file contains, pruned if that is asked for. -/
def SceneIs (T : Toolbox N L K) (a : OrthoArgs K) (fs : Fs) (s : Scene N) : Prop :=
  ∃ F s₀, sceneHandlerNamed a.path a.format = .ok F ∧ sceneRead T.ops T.lib T.rnd T.lf F readMode a.path (T.listing fs a.path) fs = .ok s₀ ∧
    (if a.prune then scenePrune T.prune a.terrain s₀ = .ok s else s = s₀)

/-- The dual graphs of the buildings are on the disk: the directory, and a file for each building, unless there was a directory in its place. If buildings have the same name, it is that of one of them. -/
def DualsThere (T : Toolbox N L K) (root : Path) (s : Scene N) (fs₀ fs : Fs) : Prop :=
  fs (root ++ ["dual_graphs".toList]) = some .dir ∧
  ((∀ b ∈ s.buildings, PlainName (T.dual b).1) → ∀ b ∈ s.buildings, fs₀ (root ++ ["dual_graphs".toList, (T.dual b).1 ++ ".txt".toList]) ≠ some .dir →
    ∃ b' ∈ s.buildings, (T.dual b').1 = (T.dual b).1 ∧ fs (root ++ ["dual_graphs".toList, (T.dual b).1 ++ ".txt".toList]) = some (.file (T.dual b').2.1))

/-- The vectors of the projections are on the disk: for each projection a shape file, and a file of attributes unless there was a directory in its place. -/
def VectorsThere (T : Toolbox N L K) (root : Path) (labels : Bool) (ps : List (FootPrint K)) (fs₀ fs : Fs) : Prop :=
  fs (root ++ ["vectors".toList]) = some .dir ∧
  ((∀ f ∈ ps, PlainName f.name) → ∀ f ∈ ps,
    (∃ g ∈ ps, g.name = f.name ∧ fs (root ++ ["vectors".toList, f.name ++ ".shp".toList]) = some (.file (T.G.shp (g.toOgr T.C labels)))) ∧
    (fs₀ (root ++ ["vectors".toList, f.name ++ ".txt".toList]) ≠ some .dir →
      ∃ g ∈ ps, g.name = f.name ∧ fs (root ++ ["vectors".toList, f.name ++ ".txt".toList]) = some (.file (attributesText T.C T.G g))))

/-- The sum of the projections is on the disk, as a shape file, and as an image if the pixel size is not zero. -/
def SumThere (T : Toolbox N L K) (root : Path) (name : Text) (p : K) (ps : List (FootPrint K)) (fs : Fs) : Prop :=
  ∃ total, sumFootPrints T.C ps FootPrint.empty = .ok total ∧ fs (root ++ [name ++ ".shp".toList]) = some (.file (T.G.shp (total.toOgr T.C true))) ∧
    (p ≠ 0 → ∃ img, Raster.ofFootPrint T.C T.lr total p = .ok img ∧ fs (root ++ [name ++ ".tiff".toList]) = some (.file (T.G.tiff img.toGdal)))

/-- The images are on the disk. -/
def ImagesThere (T : Toolbox N L K) (root : Path) (rs : List (Raster K)) (fs : Fs) : Prop :=
  fs (root ++ ["rasters".toList]) = some .dir ∧
  ((∀ r ∈ rs, PlainName r.name) → ∀ r ∈ rs, ∃ r' ∈ rs, r'.name = r.name ∧ fs (root ++ ["rasters".toList, r.name ++ ".tiff".toList]) = some (.file (T.G.tiff r'.toGdal)))

/-- A step, and what it leaves on the disk. -/
structure Mark where
  stage : Stage
  left : Fs → Prop

/-- The steps of orthoproject, and what each of them leaves on the disk; `fs₀` are the files at the beginning. -/
def orthoMarks (T : Toolbox N L K) (a : OrthoArgs K) (fs₀ : Fs) (settings : Text) (chat : List Said) : List Mark :=
  [⟨stage "Parsing arguments... " "Done.\n", fun _ => True⟩, ⟨⟨.out settings :: chat, []⟩, fun _ => ∃ s, SceneIs T a fs₀ s⟩] ++
  (if a.graphs then [⟨stage "Saving brick duals... " " Done.\n", fun fs => ∃ s, SceneIs T a fs₀ s ∧ DualsThere T a.path.dropLast s fs₀ fs⟩] else []) ++
  (if a.save then
    [⟨stage "Projecting... " "Done.\n", fun _ => ∃ s ps, SceneIs T a fs₀ s ∧ orthoproject T.proj s a.terrain = .ok ps⟩,
     ⟨stage "Saving vector projections... " "Done.\n", fun fs => ∃ s ps, SceneIs T a fs₀ s ∧ orthoproject T.proj s a.terrain = .ok ps ∧
       VectorsThere T a.path.dropLast a.labels ps fs₀ fs⟩] ++
    (if a.scene then [⟨stage "Summing , rasterizing and saving scene projections... " "Done.\n", fun fs => ∃ s ps, SceneIs T a fs₀ s ∧ orthoproject T.proj s a.terrain = .ok ps ∧
       SumThere T a.path.dropLast (stem a.path) a.pixel ps fs⟩] else []) ++
    (if a.pixel ≠ 0 then
      [⟨stage "rasterizing projections... " "Done.\n", fun _ => ∃ s ps rs, SceneIs T a fs₀ s ∧ orthoproject T.proj s a.terrain = .ok ps ∧ rasterizeScene T.C T.lr ps a.pixel = .ok rs⟩,
       ⟨stage "Saving raster projections... " "Done.\n", fun fs => ∃ s ps rs, SceneIs T a fs₀ s ∧ orthoproject T.proj s a.terrain = .ok ps ∧
         rasterizeScene T.C T.lr ps a.pixel = .ok rs ∧ ImagesThere T a.path.dropLast rs fs⟩] else [])
   else [])

end
end City.Spec

namespace City.Props
open City City.Spec

section
variable {A B : Type}

/-- What has been said and done. -/
def Sees (st : List Mark) (r : Out A × Fs × List Said) : Prop :=
  match r with
  | (.ok _, fs, l) => l = shown (st.map Mark.stage) ∧ ∀ m ∈ st, m.left fs
  | (.thrown _, fs, l) => ∃ (k : Nat) (m : Mark), st[k]? = some m ∧ l = shown ((st.take k).map Mark.stage) ++ m.stage.begins ∧ ∀ n ∈ st.take k, n.left fs
  | (.ub, _, _) => True

theorem sees_bind {st st' : List Mark} {x : Talk A} {k : A → Talk B} {fs : Fs} (hx : Sees st (x fs))
    (hk : ∀ a fs' l, x fs = (.ok a, fs', l) → Sees st' (k a fs') ∧ ∀ m ∈ st, m.left fs' → m.left (k a fs').2.1) : Sees (st ++ st') (Talk.bind x k fs) := by
  unfold Talk.bind
  rcases e : x fs with ⟨a | ex | _, fs', l⟩ <;> rw [e] at hx
  · obtain ⟨h1, h1'⟩ := hx
    obtain ⟨h2, h3⟩ := hk a fs' l e
    show Sees (st ++ st') ((k a fs').1, (k a fs').2.1, l ++ (k a fs').2.2)
    rcases e2 : k a fs' with ⟨b | ex | _, fs2, l2⟩ <;> rw [e2] at h2 h3
    · refine ⟨?_, ?_⟩
      · show l ++ l2 = _
        rw [List.map_append, shown_append, h1, h2.1]
      · exact List.forall_mem_append.2 ⟨fun m hm => h3 m hm (h1' m hm), h2.2⟩
    · obtain ⟨i, s, hi, hl, hp⟩ := h2
      refine ⟨st.length + i, s, ?_, ?_, ?_⟩
      · rw [List.getElem?_append_right (by omega)]
        simpa using hi
      · show l ++ l2 = _
        rw [List.take_length_add_append, List.map_append, shown_append, h1, hl, List.append_assoc]
      · rw [List.take_length_add_append]
        exact List.forall_mem_append.2 ⟨fun m hm => h3 m hm (h1' m hm), hp⟩
    · trivial
  · obtain ⟨i, s, hi, hl, hp⟩ := hx
    have hlt : i < st.length := (List.getElem?_eq_some_iff.1 hi).1
    refine ⟨i, s, ?_, ?_, ?_⟩
    · rw [List.getElem?_append_left hlt, hi]
    · rw [List.take_append_of_le_length (by omega), hl]
    · rw [List.take_append_of_le_length (by omega)]
      exact hp
  · trivial

theorem sees_announced (b e : String) (x : Act A) (fs : Fs) (P : Fs → Prop) (h : ∀ a fs', x fs = (.ok a, fs') → P fs') : Sees [⟨stage b e, P⟩] (Talk.announced b x e fs) := by
  unfold Talk.announced
  rcases e : x fs with ⟨a | _ | _, fs'⟩
  · exact ⟨rfl, List.forall_mem_cons.2 ⟨h a fs' e, fun _ k => absurd k List.not_mem_nil⟩⟩
  · exact ⟨0, _, rfl, rfl, fun _ k => absurd k List.not_mem_nil⟩
  · trivial

theorem announced_ok {b e : String} {x : Act A} {fs fs' : Fs} {a : A} {l : List Said} (h : Talk.announced b x e fs = (.ok a, fs', l)) : x fs = (.ok a, fs') := by
  unfold Talk.announced at h
  rcases e : x fs with ⟨_ | _ | _, _⟩ <;> rw [e] at h <;> cases h
  rfl

/-- The paths that a program changes. -/
def Touches (S : Path → Prop) (x : Talk A) : Prop := ∀ fs q, (x fs).2.1 q ≠ fs q → S q

theorem touches_of {S : Path → Prop} {x : Talk A} (h : OnlyChanges S (silence x)) : Touches S x := h

theorem touches_bind {S : Path → Prop} {x : Talk A} {k : A → Talk B} (hx : Touches S x) (hk : ∀ a, Touches S (k a)) : Touches S (Talk.bind x k) := by
  refine touches_of ?_
  rw [silence_bind]
  exact only_bind hx fun a _ => hk a

theorem touches_announced {S : Path → Prop} (b e : String) {x : Act A} (h : OnlyChanges S x) : Touches S (Talk.announced b x e) := by
  refine touches_of ?_
  rw [silence_announced]
  exact h

theorem touches_skip (S : Path → Prop) : Touches S (Talk.quiet Act.skip) := fun _ _ h => absurd rfl h

end

/-! ### Writers one after the other -/

theorem runAll_keeps {I : Fs → Prop} : ∀ (ws : List Writer) (fs fs' : Fs), (∀ w ∈ ws, ∀ f f', I f → w f = (.ok (), f') → I f') → I fs → runAll ws fs = (.ok (), fs') → I fs'
  | [], fs, fs', _, hi, h => by
    cases h
    exact hi
  | w :: ws, fs, fs', hw, hi, h => by
    unfold runAll andThen at h
    rcases e : w fs with ⟨_ | _ | _, fs1⟩ <;> rw [e] at h
    · exact runAll_keeps ws fs1 fs' (fun v hv => hw v (List.mem_cons_of_mem _ hv)) (hw w (List.mem_cons_self ..) fs fs1 hi e) h
    · cases h
    · cases h

/-- If every operation leaves a path as it is or gives it an entry of some kind, and one of them does the latter, then the path has such an entry in the end. -/
theorem runAll_holds {I : Fs → Prop} {p : Path} {Q : Entry → Prop} : ∀ (ws : List Writer) (fs fs' : Fs),
    (∀ w ∈ ws, ∀ f f', I f → w f = (.ok (), f') → I f' ∧ (f' p = f p ∨ ∃ e, Q e ∧ f' p = some e)) → I fs → runAll ws fs = (.ok (), fs') →
    ((∃ e, Q e ∧ fs p = some e) ∨ ∃ w ∈ ws, ∀ f f', I f → w f = (.ok (), f') → ∃ e, Q e ∧ f' p = some e) → ∃ e, Q e ∧ fs' p = some e
  | [], fs, fs', _, _, h, hq => by
    cases h
    rcases hq with hq | ⟨w, hw, _⟩
    · exact hq
    · exact absurd hw List.not_mem_nil
  | w :: ws, fs, fs', hw, hi, h, hq => by
    unfold runAll andThen at h
    rcases e : w fs with ⟨_ | _ | _, fs1⟩ <;> rw [e] at h
    · obtain ⟨h1, h2⟩ := hw w (List.mem_cons_self ..) fs fs1 hi e
      refine runAll_holds ws fs1 fs' (fun v hv => hw v (List.mem_cons_of_mem _ hv)) h1 h ?_
      rcases hq with ⟨x, hx, hp⟩ | ⟨v, hv, hs⟩
      · left
        rcases h2 with h2 | h2
        · exact ⟨x, hx, h2.trans hp⟩
        · exact h2
      · rcases List.mem_cons.1 hv with rfl | hv
        · exact .inl (hs fs fs1 hi e)
        · exact .inr ⟨v, hv, hs⟩
    · cases h
    · cases h

/-- A file can be written in a directory, unless there is a directory of its name. -/
theorem canWrite_in {fs : Fs} {dir : Path} {n : Text} (h1 : fs dir = some .dir) (h2 : fs (dir ++ [n]) ≠ some .dir) : fs.canWrite (dir ++ [n]) = true := by
  unfold Fs.canWrite
  rcases e : fs (dir ++ [n]) with _ | t | _
  · simp [h1]
  · rfl
  · exact absurd e h2

theorem ne_of_last {a b x y : Text} (h : x.getLast? ≠ y.getLast?) (hx : x ≠ []) (hy : y ≠ []) : a ++ x ≠ b ++ y := by
  intro e
  have := congrArg List.getLast? e
  rw [List.getLast?_append, List.getLast?_append, Option.or_of_isSome (by simpa [List.getLast?_isSome] using hx),
    Option.or_of_isSome (by simpa [List.getLast?_isSome] using hy)] at this
  exact h this

/-- On success, the writer has put the text at the path, or the path cannot be written and nothing has changed. -/
def PutsOn (w : Writer) (p : Path) (t : Text) : Prop := ∀ f f', w f = (.ok (), f') → f' = f.set p (.file t) ∨ (f' = f ∧ f.canWrite p = false)

/-- On success, the writer has put the text at the path. -/
def PutsSurely (w : Writer) (p : Path) (t : Text) : Prop := ∀ f f', w f = (.ok (), f') → f' = f.set p (.file t)

theorem surely_on {w : Writer} {p : Path} {t : Text} (h : PutsSurely w p t) : PutsOn w p t := fun f f' k => .inl (h f f' k)

theorem stream_puts (p : Path) (x : Written) : PutsOn (streamPut p x) p x.1 := by
  intro f f' h
  unfold streamPut at h
  have := (Prod.mk.inj h).2
  subst this
  unfold Fs.put
  cases e : f.canWrite p with
  | true => exact .inl rfl
  | false => exact .inr ⟨rfl, rfl⟩

theorem vector_puts {K : Type} [Field K] [LinearOrder K] (C : Cgal K) (G : Gdal K) (p : Path) (f : FootPrint K) (labels : Bool) :
    PutsSurely (vectorPut C G writeMode p f labels) p (G.shp (f.toOgr C labels)) := by
  intro fs fs' h
  unfold vectorPut at h
  split at h
  · split at h
    · exact (Prod.mk.inj h).2.symm
    · cases h
  · cases h

theorem raster_puts {K : Type} [Field K] [LinearOrder K] (G : Gdal K) (p : Path) (r : Raster K) : PutsSurely (rasterPut G writeMode p r) p (G.tiff r.toGdal) := by
  intro fs fs' h
  unfold rasterPut at h
  split at h
  · split at h
    · exact (Prod.mk.inj h).2.symm
    · cases h
  · cases h

theorem makeDir_ok {p : Path} {fs fs' : Fs} (h : makeDir p fs = (.ok (), fs')) : fs' p = some .dir ∧ ∀ q, q ≠ p → fs' q = fs q := by
  unfold makeDir at h
  rcases e : fs p with _ | t | _ <;> rw [e] at h
  · simp only at h
    split at h
    · have := (Prod.mk.inj h).2
      subst this
      exact ⟨by simp [Fs.set], fun q hq => by simp [Fs.set, hq]⟩
    · cases h
  · cases h
  · have := (Prod.mk.inj h).2
    subst this
    exact ⟨e, fun _ _ => rfl⟩

/-- The files of a directory after a list of writers. -/
theorem dir_files (dir : Path) (ws : List (Text × Text × Writer)) (fs fs' : Fs) (hw : ∀ x ∈ ws, PutsOn x.2.2 (dir ++ [x.1]) x.2.1) (hd : fs dir = some .dir)
    (h : runAll (ws.map fun x => x.2.2) fs = (.ok (), fs')) :
    fs' dir = some .dir ∧ ∀ x ∈ ws, (PutsSurely x.2.2 (dir ++ [x.1]) x.2.1 ∨ fs (dir ++ [x.1]) ≠ some .dir) → ∃ y ∈ ws, y.1 = x.1 ∧ fs' (dir ++ [x.1]) = some (.file y.2.1) := by
  have hne : ∀ n : Text, dir ≠ dir ++ [n] := fun n e => by simpa using congrArg List.length e
  have keep : ∀ x ∈ ws, ∀ f f', f dir = some .dir → x.2.2 f = (.ok (), f') → f' dir = some .dir := by
    intro x hx f f' hf e
    rcases hw x hx f f' e with rfl | ⟨rfl, -⟩
    · simp [Fs.set, hf]
    · exact hf
  constructor
  · refine runAll_keeps (I := fun f => f dir = some .dir) _ fs fs' ?_ hd h
    intro w hw' f f' hf e
    obtain ⟨x, hx, rfl⟩ := List.mem_map.1 hw'
    exact keep x hx f f' hf e
  · intro x hx hc
    have key := runAll_holds (I := fun f => f dir = some .dir ∧ (¬ PutsSurely x.2.2 (dir ++ [x.1]) x.2.1 → f (dir ++ [x.1]) ≠ some .dir)) (p := dir ++ [x.1])
      (Q := fun e => ∃ y ∈ ws, y.1 = x.1 ∧ e = .file y.2.1) (ws.map fun x => x.2.2) fs fs' ?_ ⟨hd, fun k => hc.resolve_left k⟩ h ?_
    · obtain ⟨e, ⟨y, hy, hn, rfl⟩, he⟩ := key
      exact ⟨y, hy, hn, he⟩
    · intro w hw' f f' hf e
      obtain ⟨y, hy, rfl⟩ := List.mem_map.1 hw'
      refine ⟨⟨keep y hy f f' hf.1 e, fun k => ?_⟩, ?_⟩
      · rcases hw y hy f f' e with rfl | ⟨rfl, -⟩
        · unfold Fs.set
          split
          · simp
          · exact hf.2 k
        · exact hf.2 k
      · rcases hw y hy f f' e with rfl | ⟨rfl, -⟩
        · by_cases e2 : dir ++ [x.1] = dir ++ [y.1]
          · right
            refine ⟨.file y.2.1, ⟨y, hy, ?_, rfl⟩, by simp [Fs.set, e2]⟩
            exact (List.cons.inj (List.append_cancel_left e2)).1.symm
          · left
            unfold Fs.set
            rw [if_neg e2]
        · exact .inl rfl
    · right
      refine ⟨_, List.mem_map_of_mem hx, fun f f' hf e => ⟨.file x.2.1, ⟨x, hx, rfl, rfl⟩, ?_⟩⟩
      rcases hw x hx f f' e with rfl | ⟨rfl, hcw⟩
      · simp [Fs.set]
      · by_cases hs : PutsSurely x.2.2 (dir ++ [x.1]) x.2.1
        · have := hs f' f' e
          have h2 := congrFun this (dir ++ [x.1])
          simpa [Fs.set] using h2
        · rw [canWrite_in hf.1 (hf.2 hs)] at hcw
          cases hcw

theorem andThen_ok {r : Out Unit × Fs} {k : Fs → Out Unit × Fs} {fs' : Fs} (h : andThen r k = (.ok (), fs')) : ∃ fs1, r = (.ok (), fs1) ∧ k fs1 = (.ok (), fs') := by
  unfold andThen at h
  rcases r with ⟨_ | _ | _, fs1⟩
  · exact ⟨fs1, rfl, h⟩
  · cases h
  · cases h

theorem join_ne (dir : Path) (n : Text) : joinPath dir n ≠ dir := by
  intro e
  have h := congrArg List.length e
  have : splitSlash n ≠ [] := by
    intro e
    cases n with
    | nil => cases e
    | cons a t =>
      unfold splitSlash at e
      split at e
      · cases e
      · split at e <;> cases e
  have := List.length_pos_of_ne_nil this
  simp only [joinPath, List.length_append] at h
  omega

/-- Writers of other paths leave a directory as it is. -/
theorem dir_kept {dir : Path} {ws : List Writer} {fs fs' : Fs} (hw : ∀ w ∈ ws, OnlyChanges (fun q => q ≠ dir) w) (hd : fs dir = some .dir) (h : runAll ws fs = (.ok (), fs')) :
    fs' dir = some .dir := by
  have k := only_runAll ws hw fs dir
  by_contra hc
  rw [h] at k
  exact k (by rw [hd]; exact hc) rfl

section
variable {N L K : Type} [Field K] [LinearOrder K] [FloorRing K]

theorem plain_shp : PlainName ".shp".toList := by unfold PlainName; decide
theorem plain_txt : PlainName ".txt".toList := by unfold PlainName; decide
theorem plain_tiff : PlainName ".tiff".toList := by unfold PlainName; decide

theorem duals_there (T : Toolbox N L K) (root : Path) (s : Scene N) (fs₀ fs fs' : Fs) (h : saveBuildingDuals root (s.buildings.map T.dual) fs = (.ok (), fs'))
    (h0 : ∀ q, Under root "dual_graphs".toList q → fs q = fs₀ q) : DualsThere T root s fs₀ fs' := by
  obtain ⟨fs1, h1, h2⟩ := andThen_ok h
  obtain ⟨d1, d2⟩ := makeDir_ok h1
  rw [List.map_map] at h2
  refine ⟨dir_kept (by
    intro w hw
    obtain ⟨b, _, rfl⟩ := List.mem_map.1 hw
    exact only_streamPut (S := fun q => q ≠ _) (join_ne _ _) _) d1 h2, fun hp => ?_⟩
  have e : s.buildings.map ((fun b : Text × Written => streamPut (joinPath (root ++ ["dual_graphs".toList]) (b.1 ++ ".txt".toList)) b.2) ∘ T.dual) = (s.buildings.map fun b =>
      ((T.dual b).1 ++ ".txt".toList, (T.dual b).2.1, streamPut (root ++ ["dual_graphs".toList] ++ [(T.dual b).1 ++ ".txt".toList]) (T.dual b).2)).map fun x => x.2.2 := by
    rw [List.map_map]
    refine List.map_congr_left fun b hb => ?_
    show streamPut (joinPath _ _) _ = streamPut _ _
    rw [joinPath_plain (plain_ext (hp b hb) plain_txt)]
  rw [e] at h2
  obtain ⟨-, k⟩ := dir_files (root ++ ["dual_graphs".toList]) _ fs1 fs' (by
    intro x hx
    obtain ⟨b, _, rfl⟩ := List.mem_map.1 hx
    exact stream_puts _ _) d1 h2
  have ap : ∀ n : Text, root ++ ["dual_graphs".toList, n] = root ++ ["dual_graphs".toList] ++ [n] := fun n => by rw [List.append_assoc]; rfl
  intro b hb hnd
  obtain ⟨y, hy, hn, he⟩ := k _ (List.mem_map_of_mem hb) (.inr (by
    rw [d2 _ (by intro e; simpa using congrArg List.length e), ← ap, h0 _ ⟨_, rfl⟩]
    exact hnd))
  obtain ⟨b', hb', rfl⟩ := List.mem_map.1 hy
  exact ⟨b', hb', List.append_cancel_right hn, by rw [ap]; exact he⟩

theorem images_there (T : Toolbox N L K) (root : Path) (rs : List (Raster K)) (fs fs' : Fs) (h : saveBuildingRasters T.G root rs fs = (.ok (), fs')) : ImagesThere T root rs fs' := by
  obtain ⟨fs1, h1, h2⟩ := andThen_ok h
  obtain ⟨d1, d2⟩ := makeDir_ok h1
  refine ⟨dir_kept (by
    intro w hw
    obtain ⟨b, _, rfl⟩ := List.mem_map.1 hw
    exact only_rasterPut (K := K) (S := fun q => q ≠ _) (join_ne _ _) _ _ _) d1 h2, fun hp => ?_⟩
  have e : rs.map (fun r => rasterPut T.G writeMode (joinPath (root ++ ["rasters".toList]) (r.name ++ ".tiff".toList)) r) = (rs.map fun r =>
      (r.name ++ ".tiff".toList, T.G.tiff r.toGdal, rasterPut T.G writeMode (root ++ ["rasters".toList] ++ [r.name ++ ".tiff".toList]) r)).map fun x => x.2.2 := by
    rw [List.map_map]
    refine List.map_congr_left fun b hb => ?_
    rw [joinPath_plain (plain_ext (hp b hb) plain_tiff)]
    rfl
  rw [e] at h2
  obtain ⟨-, k⟩ := dir_files (root ++ ["rasters".toList]) _ fs1 fs' (by
    intro x hx
    obtain ⟨b, _, rfl⟩ := List.mem_map.1 hx
    exact surely_on (raster_puts _ _ _)) d1 h2
  intro b hb
  obtain ⟨y, hy, hn, he⟩ := k _ (List.mem_map_of_mem hb) (.inl (raster_puts _ _ _))
  obtain ⟨b', hb', rfl⟩ := List.mem_map.1 hy
  exact ⟨b', hb', List.append_cancel_right hn, by rw [show root ++ ["rasters".toList, b.name ++ ".tiff".toList] = root ++ ["rasters".toList] ++ [b.name ++ ".tiff".toList] by rw [List.append_assoc]; rfl]; exact he⟩

theorem sum_there (T : Toolbox N L K) (root : Path) (name : Text) (hn : PlainName name) (p : K) (ps : List (FootPrint K)) (fs fs' : Fs)
    (h : saveScenePrints T.C T.lr T.G root name ps (decide (p ≠ 0)) p fs = (.ok (), fs')) : SumThere T root name p ps fs' := by
  unfold saveScenePrints at h
  rw [joinPath_plain (plain_ext hn plain_shp), joinPath_plain (plain_ext hn plain_tiff)] at h
  rcases e : sumFootPrints T.C ps FootPrint.empty with total | _ | _ <;> rw [e] at h
  · obtain ⟨fs1, h1, h2⟩ := andThen_ok h
    have k1 := vector_puts _ _ _ _ _ _ _ h1
    by_cases hp : p ≠ 0
    · rw [if_pos (by simpa using hp)] at h2
      rcases e2 : Raster.ofFootPrint T.C T.lr total p with img | _ | _ <;> rw [e2] at h2
      · have k2 := raster_puts _ _ _ _ _ h2
        have ne : root ++ [name ++ ".shp".toList] ≠ root ++ [name ++ ".tiff".toList] := by
          intro e
          exact ne_of_last (by decide) (by decide) (by decide) (List.cons.inj (List.append_cancel_left e)).1
        subst k2
        subst k1
        exact ⟨total, e, by simp only [Fs.set, if_neg ne, if_true], fun _ => ⟨img, e2, by simp only [Fs.set, if_true]⟩⟩
      · cases h2
      · cases h2
    · rw [if_neg (by simpa using hp)] at h2
      have k2 := (Prod.mk.inj h2).2
      subst k2
      subst k1
      exact ⟨total, e, by simp only [Fs.set, if_true], fun k => absurd k hp⟩
  · cases h
  · cases h

theorem vectors_there (T : Toolbox N L K) (root : Path) (ps : List (FootPrint K)) (labels : Bool) (fs₀ fs fs' : Fs) (h : saveBuildingPrints T.C T.G root ps labels fs = (.ok (), fs'))
    (h0 : ∀ q, Under root "vectors".toList q → fs q = fs₀ q) : VectorsThere T root labels ps fs₀ fs' := by
  obtain ⟨fs1, h1, h2⟩ := andThen_ok h
  obtain ⟨d1, d2⟩ := makeDir_ok h1
  have hd : fs' (root ++ ["vectors".toList]) = some .dir := dir_kept (by
    intro w hw
    obtain ⟨f, _, hw⟩ := List.mem_flatMap.1 hw
    simp only [printFiles, List.mem_cons, List.not_mem_nil, or_false] at hw
    rcases hw with rfl | rfl
    · exact only_vectorPut (K := K) (S := fun q => q ≠ _) (join_ne _ _) _ _ _ _ _
    · exact only_streamPut (S := fun q => q ≠ _) (join_ne _ _) _) d1 h2
  refine ⟨hd, fun hp => ?_⟩
  have e : ps.flatMap (printFiles T.C T.G (root ++ ["vectors".toList]) labels) = (ps.flatMap fun f =>
      [(f.name ++ ".shp".toList, T.G.shp (f.toOgr T.C labels), vectorPut T.C T.G writeMode (root ++ ["vectors".toList] ++ [f.name ++ ".shp".toList]) f labels),
       (f.name ++ ".txt".toList, attributesText T.C T.G f, streamPut (root ++ ["vectors".toList] ++ [f.name ++ ".txt".toList]) (attributesText T.C T.G f, .ok ()))]).map fun x => x.2.2 := by
    rw [List.map_flatMap]
    refine List.flatMap_congr fun f hf => ?_
    unfold printFiles
    rw [joinPath_plain (plain_ext (hp f hf) plain_shp), joinPath_plain (plain_ext (hp f hf) plain_txt)]
    rfl
  rw [e] at h2
  obtain ⟨-, k⟩ := dir_files (root ++ ["vectors".toList]) _ fs1 fs' (by
    intro x hx
    obtain ⟨f, _, hx⟩ := List.mem_flatMap.1 hx
    rcases List.mem_cons.1 hx with rfl | hx
    · exact surely_on (vector_puts _ _ _ _ _)
    · rw [List.mem_singleton.1 hx]
      exact stream_puts _ _) d1 h2
  have ap : ∀ n : Text, root ++ ["vectors".toList, n] = root ++ ["vectors".toList] ++ [n] := fun n => by rw [List.append_assoc]; rfl
  intro f hf
  have n1 : ∀ g : FootPrint K, g.name ++ ".txt".toList ≠ f.name ++ ".shp".toList := fun g => ne_of_last (by decide) (by decide) (by decide)
  have n2 : ∀ g : FootPrint K, g.name ++ ".shp".toList ≠ f.name ++ ".txt".toList := fun g => ne_of_last (by decide) (by decide) (by decide)
  constructor
  · obtain ⟨y, hy, hn, he⟩ := k (f.name ++ ".shp".toList, T.G.shp (f.toOgr T.C labels), vectorPut T.C T.G writeMode (root ++ ["vectors".toList] ++ [f.name ++ ".shp".toList]) f labels)
      (List.mem_flatMap.2 ⟨f, hf, List.mem_cons_self ..⟩) (.inl (vector_puts _ _ _ _ _))
    obtain ⟨g, hg, hy⟩ := List.mem_flatMap.1 hy
    rcases List.mem_cons.1 hy with rfl | hy
    · exact ⟨g, hg, List.append_cancel_right hn, by rw [ap]; exact he⟩
    · rw [List.mem_singleton.1 hy] at hn
      exact absurd hn (n1 g)
  · intro hnd
    obtain ⟨y, hy, hn, he⟩ := k (f.name ++ ".txt".toList, attributesText T.C T.G f, streamPut (root ++ ["vectors".toList] ++ [f.name ++ ".txt".toList]) (attributesText T.C T.G f, .ok ()))
      (List.mem_flatMap.2 ⟨f, hf, List.mem_cons_of_mem _ (List.mem_cons_self ..)⟩) (.inr (by
        rw [d2 _ (by intro e; simpa using congrArg List.length e), ← ap, h0 _ ⟨_, rfl⟩]
        exact hnd))
    obtain ⟨g, hg, hy⟩ := List.mem_flatMap.1 hy
    rcases List.mem_cons.1 hy with rfl | hy
    · exact absurd hn (n2 g)
    · rw [List.mem_singleton.1 hy] at hn he
      exact ⟨g, hg, List.append_cancel_right hn, by rw [ap]; exact he⟩

/-! ### The steps keep what the earlier ones have left -/

theorem duals_kept {T : Toolbox N L K} {root : Path} {s : Scene N} {fs₀ fs fs' : Fs} (h : ∀ q, Under root "dual_graphs".toList q → fs' q = fs q) (k : DualsThere T root s fs₀ fs) :
    DualsThere T root s fs₀ fs' := by
  refine ⟨by rw [h _ ⟨[], rfl⟩]; exact k.1, fun hp b hb hd => ?_⟩
  obtain ⟨b', hb', e, he⟩ := k.2 hp b hb hd
  exact ⟨b', hb', e, by rw [h _ ⟨_, rfl⟩]; exact he⟩

theorem vectors_kept {T : Toolbox N L K} {root : Path} {labels : Bool} {ps : List (FootPrint K)} {fs₀ fs fs' : Fs} (h : ∀ q, Under root "vectors".toList q → fs' q = fs q)
    (k : VectorsThere T root labels ps fs₀ fs) : VectorsThere T root labels ps fs₀ fs' := by
  refine ⟨by rw [h _ ⟨[], rfl⟩]; exact k.1, fun hp f hf => ⟨?_, fun hd => ?_⟩⟩
  · obtain ⟨g, hg, e, he⟩ := (k.2 hp f hf).1
    exact ⟨g, hg, e, by rw [h _ ⟨_, rfl⟩]; exact he⟩
  · obtain ⟨g, hg, e, he⟩ := (k.2 hp f hf).2 hd
    exact ⟨g, hg, e, by rw [h _ ⟨_, rfl⟩]; exact he⟩

theorem sum_kept {T : Toolbox N L K} {root : Path} {name : Text} {p : K} {ps : List (FootPrint K)} {fs fs' : Fs}
    (h : fs' (root ++ [name ++ ".shp".toList]) = fs (root ++ [name ++ ".shp".toList])) (h' : fs' (root ++ [name ++ ".tiff".toList]) = fs (root ++ [name ++ ".tiff".toList]))
    (k : SumThere T root name p ps fs) : SumThere T root name p ps fs' := by
  obtain ⟨total, e, h1, h2⟩ := k
  refine ⟨total, e, by rw [h]; exact h1, fun hp => ?_⟩
  obtain ⟨img, e2, h3⟩ := h2 hp
  exact ⟨img, e2, by rw [h']; exact h3⟩

/-- The paths of the scene's own files. -/
def SceneFile (root : Path) (name : Text) (q : Path) : Prop := q = root ++ [name ++ ".shp".toList] ∨ q = root ++ [name ++ ".tiff".toList]

theorem within_under {root : Path} {a : Text} {q : Path} (h : Within (root ++ [a]) q) : Under root a q := by
  obtain ⟨r, rfl⟩ := h
  exact ⟨r, by simp⟩

theorem scene_under {root : Path} {name a : Text} {q : Path} (h1 : a.getLast? ≠ some 'p') (h2 : a.getLast? ≠ some 'f') (h : SceneFile root name q) : ¬ Under root a q := by
  rintro ⟨r, e⟩
  rcases h with rfl | rfl
  · have := (List.cons.inj (List.append_cancel_left e)).1
    rw [← this] at h1
    exact h1 (by rw [List.getLast?_append]; rfl)
  · have := (List.cons.inj (List.append_cancel_left e)).1
    rw [← this] at h2
    exact h2 (by rw [List.getLast?_append]; rfl)

/-- The images of the projections: orthoproject.cpp:163-167. -/
def imagesTalk (T : Toolbox N L K) (a : OrthoArgs K) (ps : List (FootPrint K)) : Talk Unit :=
  if a.pixel ≠ 0 then
    Talk.bind (Talk.announced "rasterizing projections... " (Act.reads fun _ => rasterizeScene T.C T.lr ps a.pixel) "Done.\n") fun rs =>
    Talk.announced "Saving raster projections... " (saveBuildingRasters T.G a.path.dropLast rs) "Done.\n"
  else Talk.quiet Act.skip

/-- The sum of the projections: orthoproject.cpp:157-161. -/
def sumTalk (T : Toolbox N L K) (a : OrthoArgs K) (ps : List (FootPrint K)) : Talk Unit :=
  if a.scene then Talk.announced "Summing , rasterizing and saving scene projections... "
    (saveScenePrints T.C T.lr T.G a.path.dropLast (stem a.path) ps (decide (a.pixel ≠ 0)) a.pixel) "Done.\n" else Talk.quiet Act.skip

/-- What is saved: orthoproject.cpp:148-170. -/
def saveTalk (T : Toolbox N L K) (a : OrthoArgs K) (s : Scene N) : Talk Unit :=
  if a.save then
    Talk.bind (Talk.announced "Projecting... " (Act.reads fun _ => orthoproject T.proj s a.terrain) "Done.\n") fun ps =>
    Talk.bind (Talk.announced "Saving vector projections... " (saveBuildingPrints T.C T.G a.path.dropLast ps a.labels) "Done.\n") fun _ =>
    Talk.bind (sumTalk T a ps) fun _ => imagesTalk T a ps
  else Talk.quiet Act.skip

theorem touches_images (T : Toolbox N L K) (a : OrthoArgs K) (ps : List (FootPrint K)) : Touches (Under a.path.dropLast "rasters".toList) (imagesTalk T a ps) := by
  unfold imagesTalk
  split
  · exact touches_bind (touches_announced _ _ (only_reads _ _)) fun rs => touches_announced _ _ fun fs q h => within_under (only_rasters _ _ _ fs q h)
  · exact touches_skip _

theorem touches_sum (T : Toolbox N L K) (a : OrthoArgs K) (hn : PlainName (stem a.path)) (ps : List (FootPrint K)) : Touches (SceneFile a.path.dropLast (stem a.path)) (sumTalk T a ps) := by
  unfold sumTalk
  split
  · refine touches_announced _ _ fun fs q h => ?_
    have := only_scenePrints _ _ _ _ _ _ _ _ fs q h
    rw [joinPath_plain (plain_ext hn plain_shp), joinPath_plain (plain_ext hn plain_tiff)] at this
    rcases this with h | ⟨-, h⟩
    · exact .inl h
    · exact .inr h
  · exact touches_skip _

theorem touches_or {A : Type} {S S' : Path → Prop} {x : Talk A} (h : ∀ q, S q → S' q) (k : Touches S x) : Touches S' x := fun fs q hq => h q (k fs q hq)

theorem touches_save (T : Toolbox N L K) (a : OrthoArgs K) (hn : PlainName (stem a.path)) (s : Scene N) :
    Touches (fun q => Under a.path.dropLast "vectors".toList q ∨ SceneFile a.path.dropLast (stem a.path) q ∨ Under a.path.dropLast "rasters".toList q) (saveTalk T a s) := by
  unfold saveTalk
  split
  · refine touches_bind (touches_announced _ _ (only_reads _ _)) fun ps => ?_
    refine touches_bind (touches_announced _ _ fun fs q h => .inl (within_under (only_prints _ _ _ _ _ fs q h))) fun _ => ?_
    refine touches_bind (touches_or (fun q h => .inr (.inl h)) (touches_sum T a hn ps)) fun _ => ?_
    exact touches_or (fun q h => .inr (.inr h)) (touches_images T a ps)
  · exact touches_skip _

theorem untouched {A : Type} {S : Path → Prop} {x : Talk A} (h : Touches S x) {fs : Fs} {q : Path} (hq : ¬ S q) : (x fs).2.1 q = fs q := by
  by_contra hc
  exact hq (h fs q hc)

theorem reads_ok {A : Type} {f : Fs → Out A} {fs fs' : Fs} {a : A} (h : Act.reads f fs = (.ok a, fs')) : f fs = .ok a ∧ fs' = fs := by
  unfold Act.reads at h
  exact ⟨(Prod.mk.inj h).1, (Prod.mk.inj h).2.symm⟩

theorem sees_skip (fs : Fs) : Sees [] (Talk.quiet Act.skip fs) := ⟨rfl, fun _ h => absurd h List.not_mem_nil⟩

theorem one_mark {P : Mark → Prop} {m : Mark} (h : P m) : ∀ n ∈ [m], P n := fun n hn => by
  rw [List.mem_singleton.1 hn]
  exact h

theorem sees_images (T : Toolbox N L K) (a : OrthoArgs K) (fs₀ : Fs) (s : Scene N) (hs : SceneIs T a fs₀ s) (ps : List (FootPrint K)) (hps : orthoproject T.proj s a.terrain = .ok ps) (fs : Fs) :
    Sees (if a.pixel ≠ 0 then
      [⟨stage "rasterizing projections... " "Done.\n", fun _ => ∃ s ps rs, SceneIs T a fs₀ s ∧ orthoproject T.proj s a.terrain = .ok ps ∧ rasterizeScene T.C T.lr ps a.pixel = .ok rs⟩,
       ⟨stage "Saving raster projections... " "Done.\n", fun fs => ∃ s ps rs, SceneIs T a fs₀ s ∧ orthoproject T.proj s a.terrain = .ok ps ∧
         rasterizeScene T.C T.lr ps a.pixel = .ok rs ∧ ImagesThere T a.path.dropLast rs fs⟩] else []) (imagesTalk T a ps fs) := by
  unfold imagesTalk
  by_cases h : a.pixel ≠ 0
  · rw [if_pos h, if_pos h]
    refine sees_bind (st := [_]) (st' := [_]) (sees_announced _ _ _ fs _ fun rs fs' e => ⟨s, ps, rs, hs, hps, (reads_ok e).1⟩) fun rs fs1 l e => ?_
    refine ⟨sees_announced _ _ _ fs1 _ fun _ fs' e' => ⟨s, ps, rs, hs, hps, (reads_ok (announced_ok e)).1, images_there T _ rs fs1 fs' e'⟩, one_mark fun k => k⟩
  · rw [if_neg h, if_neg h]
    exact sees_skip fs

theorem sees_sum (T : Toolbox N L K) (a : OrthoArgs K) (hn : PlainName (stem a.path)) (fs₀ : Fs) (s : Scene N) (hs : SceneIs T a fs₀ s) (ps : List (FootPrint K))
    (hps : orthoproject T.proj s a.terrain = .ok ps) (fs : Fs) :
    Sees (if a.scene then [⟨stage "Summing , rasterizing and saving scene projections... " "Done.\n", fun fs => ∃ s ps, SceneIs T a fs₀ s ∧ orthoproject T.proj s a.terrain = .ok ps ∧
       SumThere T a.path.dropLast (stem a.path) a.pixel ps fs⟩] else []) (sumTalk T a ps fs) := by
  unfold sumTalk
  by_cases h : a.scene = true
  · rw [if_pos h, if_pos h]
    exact sees_announced _ _ _ fs _ fun _ fs' e => ⟨s, ps, hs, hps, sum_there T _ _ hn _ ps fs fs' e⟩
  · rw [if_neg h, if_neg h]
    exact sees_skip fs

theorem sees_save (T : Toolbox N L K) (a : OrthoArgs K) (hn : PlainName (stem a.path)) (fs₀ : Fs) (s : Scene N) (hs : SceneIs T a fs₀ s) (fs : Fs)
    (h0 : ∀ q, Under a.path.dropLast "vectors".toList q → fs q = fs₀ q) :
    Sees (if a.save then
    [⟨stage "Projecting... " "Done.\n", fun _ => ∃ s ps, SceneIs T a fs₀ s ∧ orthoproject T.proj s a.terrain = .ok ps⟩,
     ⟨stage "Saving vector projections... " "Done.\n", fun fs => ∃ s ps, SceneIs T a fs₀ s ∧ orthoproject T.proj s a.terrain = .ok ps ∧
       VectorsThere T a.path.dropLast a.labels ps fs₀ fs⟩] ++
    (if a.scene then [⟨stage "Summing , rasterizing and saving scene projections... " "Done.\n", fun fs => ∃ s ps, SceneIs T a fs₀ s ∧ orthoproject T.proj s a.terrain = .ok ps ∧
       SumThere T a.path.dropLast (stem a.path) a.pixel ps fs⟩] else []) ++
    (if a.pixel ≠ 0 then
      [⟨stage "rasterizing projections... " "Done.\n", fun _ => ∃ s ps rs, SceneIs T a fs₀ s ∧ orthoproject T.proj s a.terrain = .ok ps ∧ rasterizeScene T.C T.lr ps a.pixel = .ok rs⟩,
       ⟨stage "Saving raster projections... " "Done.\n", fun fs => ∃ s ps rs, SceneIs T a fs₀ s ∧ orthoproject T.proj s a.terrain = .ok ps ∧
         rasterizeScene T.C T.lr ps a.pixel = .ok rs ∧ ImagesThere T a.path.dropLast rs fs⟩] else [])
   else []) (saveTalk T a s fs) := by
  unfold saveTalk
  by_cases h : a.save = true
  · rw [if_pos h, if_pos h, List.append_assoc]
    refine sees_bind (st := [_]) (st' := _ :: _) (sees_announced _ _ _ fs _ fun ps fs' e => ⟨s, ps, hs, (reads_ok e).1⟩) fun ps fs1 l e => ?_
    obtain ⟨hps, rfl⟩ := reads_ok (announced_ok e)
    refine ⟨?_, one_mark fun k => k⟩
    refine sees_bind (st := [_]) (sees_announced _ _ _ fs1 _ fun _ fs' e => ⟨s, ps, hs, hps, vectors_there T _ ps _ fs₀ fs1 fs' e h0⟩) fun _ fs2 _ _ => ⟨?_, one_mark ?_⟩
    · refine sees_bind (sees_sum T a hn fs₀ s hs ps hps fs2) fun _ fs3 _ _ => ⟨sees_images T a fs₀ s hs ps hps fs3, ?_⟩
      intro m hm
      split at hm
      · rw [List.mem_singleton.1 hm]
        rintro ⟨s, ps', h1, h2, h3⟩
        refine ⟨s, ps', h1, h2, sum_kept ?_ ?_ h3⟩
        · exact untouched (touches_images T a ps) (scene_under (by decide) (by decide) (.inl rfl))
        · exact untouched (touches_images T a ps) (scene_under (by decide) (by decide) (.inr rfl))
      · exact absurd hm List.not_mem_nil
    · rintro ⟨s, ps', h1, h2, h3⟩
      refine ⟨s, ps', h1, h2, vectors_kept (fun q hq => ?_) h3⟩
      refine untouched (S := fun q => SceneFile a.path.dropLast (stem a.path) q ∨ Under a.path.dropLast "rasters".toList q)
        (touches_bind (touches_or (fun q h => .inl h) (touches_sum T a hn ps)) fun _ => touches_or (fun q h => .inr h) (touches_images T a ps)) ?_
      rintro (k | k)
      · exact scene_under (by decide) (by decide) k hq
      · exact under_ne (by decide) k hq
  · rw [if_neg h, if_neg h]
    exact sees_skip fs

theorem sees_read (T : Toolbox N L K) (noise : SceneFormat → Bool → Path → Fs → List Text) (t : Text) (a : OrthoArgs K) (fs : Fs) :
    Sees [⟨⟨.out t :: chatOf T noise a.path a.format fs, []⟩, fun _ => ∃ s, SceneIs T a fs s⟩] ((Talk.bind (Talk.bind (Talk.say t) fun _ => readTalk T noise a.path a.format) fun s =>
      Talk.quiet (Act.reads fun _ => if a.prune then scenePrune T.prune a.terrain s else .ok s)) fs) ∧
    ∀ s fs' l, (Talk.bind (Talk.bind (Talk.say t) fun _ => readTalk T noise a.path a.format) fun s =>
      Talk.quiet (Act.reads fun _ => if a.prune then scenePrune T.prune a.terrain s else .ok s)) fs = (.ok s, fs', l) → SceneIs T a fs s ∧ fs' = fs := by
  have key : ∀ s fs' l, (Talk.bind (Talk.bind (Talk.say t) fun _ => readTalk T noise a.path a.format) fun s =>
      Talk.quiet (Act.reads fun _ => if a.prune then scenePrune T.prune a.terrain s else .ok s)) fs = (.ok s, fs', l) → SceneIs T a fs s ∧ fs' = fs := by
    intro s fs' l h
    unfold Talk.bind at h
    rcases e : Talk.bind (Talk.say t) (fun _ => readTalk T noise a.path a.format) fs with ⟨s₀ | _ | _, fs1, l1⟩
    · have e' := e
      unfold Talk.bind Talk.say readTalk at e
      dsimp only at e
      rcases eF : sceneHandlerNamed a.path a.format with F | _ | _ <;> rw [eF] at e
      · obtain ⟨e1, e2⟩ := Prod.mk.inj e
        obtain ⟨rfl, -⟩ := Prod.mk.inj e2
        unfold Talk.bind at e'
        rw [e'] at h
        unfold Talk.quiet Act.reads at h
        dsimp only at h
        obtain ⟨h1, h2⟩ := Prod.mk.inj h
        obtain ⟨h2, -⟩ := Prod.mk.inj h2
        refine ⟨⟨F, s₀, eF, e1, ?_⟩, h2.symm⟩
        split at h1
        · next hp => rw [if_pos hp]; exact h1
        · next hp => rw [if_neg hp]; exact (Out.ok.inj h1).symm
      · cases (Prod.mk.inj e).1
      · cases (Prod.mk.inj e).1
    · unfold Talk.bind at e
      rw [e] at h
      cases h
    · unfold Talk.bind at e
      rw [e] at h
      cases h
  refine ⟨?_, key⟩
  have tl := tells_read T noise t a.path a.format a.prune a.terrain fs
  unfold TellsAt at tl
  revert tl key
  generalize (Talk.bind (Talk.bind (Talk.say t) fun _ => readTalk T noise a.path a.format) fun s =>
      Talk.quiet (Act.reads fun _ => if a.prune then scenePrune T.prune a.terrain s else .ok s)) fs = r
  intro key tl
  rcases r with ⟨s | ex | _, fs', l⟩
  · exact ⟨tl, one_mark ⟨s, (key s fs' l rfl).1⟩⟩
  · obtain ⟨k, st, hk, hl⟩ := tl
    cases k with
    | zero =>
      cases hk
      exact ⟨0, _, rfl, hl, fun _ k => absurd k List.not_mem_nil⟩
    | succ k => cases hk
  · trivial

theorem sees_ortho (T : Toolbox N L K) (noise : SceneFormat → Bool → Path → Fs → List Text) (args : Args) (fs : Fs) (a : OrthoArgs K) (ha : orthoArgs T args = .ok a) :
    Sees (orthoMarks T a fs (orthoHeader T.G (rawText args "<scene>") a) (chatOf T noise a.path a.format fs)) (orthoTalk T noise args fs) := by
  have hn : PlainName (stem a.path) := by
    obtain ⟨⟨t, -, e⟩, -⟩ := orthoArgs_ok ha
    rw [e]
    exact plain_stem t
  have e : orthoTalk T noise args = Talk.bind (Talk.announced "Parsing arguments... " (Act.reads fun _ => orthoArgs T args) "Done.\n") fun a =>
      Talk.bind (Talk.bind (Talk.bind (Talk.say (orthoHeader T.G (rawText args "<scene>") a)) fun _ => readTalk T noise a.path a.format) fun s =>
        Talk.quiet (Act.reads fun _ => if a.prune then scenePrune T.prune a.terrain s else .ok s)) fun s =>
      Talk.bind (if a.graphs then Talk.announced "Saving brick duals... " (saveBuildingDuals a.path.dropLast (s.buildings.map T.dual)) " Done.\n" else Talk.quiet Act.skip) fun _ =>
      Talk.bind (Talk.quiet (Act.reads fun _ => .ok s)) fun s => saveTalk T a s := by
    unfold orthoTalk inputTalk
    simp only [talk_assoc]
    rfl
  rw [e]
  unfold orthoMarks
  rw [List.append_assoc, List.append_assoc]
  refine sees_bind (st := [_]) (st' := _ :: _) (sees_announced _ _ _ fs _ fun _ _ _ => trivial) fun a' fs1 l h => ?_
  obtain ⟨h1, rfl⟩ := reads_ok (announced_ok h)
  rw [ha] at h1
  cases h1
  refine ⟨?_, one_mark fun _ => trivial⟩
  obtain ⟨r1, r2⟩ := sees_read T noise (orthoHeader T.G (rawText args "<scene>") a) a fs1
  refine sees_bind (st := [_]) r1 fun s fs2 l h => ⟨?_, one_mark fun k => k⟩
  obtain ⟨hs, rfl⟩ := r2 s fs2 l h
  refine sees_bind ?_ fun _ fs3 l3 h3 => ⟨?_, ?_⟩
  · split
    · exact sees_announced _ _ _ fs2 _ fun _ fs' e => ⟨s, hs, duals_there T _ s fs2 fs2 fs' e fun _ _ => rfl⟩
    · exact sees_skip fs2
  · refine sees_bind (st := []) (x := Talk.quiet (Act.reads fun _ => .ok s)) ⟨rfl, fun _ h => absurd h List.not_mem_nil⟩ fun s' fs4 l4 h4 => ⟨?_, fun _ h => absurd h List.not_mem_nil⟩
    obtain ⟨rfl, rfl⟩ : s = s' ∧ fs3 = fs4 := by
      unfold Talk.quiet Act.reads at h4
      cases h4
      exact ⟨rfl, rfl⟩
    refine sees_save T a hn fs2 s hs fs3 fun q hq => ?_
    have tt : Touches (Under a.path.dropLast "dual_graphs".toList)
        (if a.graphs then Talk.announced "Saving brick duals... " (saveBuildingDuals a.path.dropLast (s.buildings.map T.dual)) " Done.\n" else Talk.quiet Act.skip) := by
      split
      · exact touches_announced _ _ fun fs q h => within_under (only_duals _ _ fs q h)
      · exact touches_skip _
    have := untouched tt (fs := fs2) (under_ne (b := "dual_graphs".toList) (by decide) hq)
    rw [h3] at this
    exact this
  · intro m hm
    split at hm
    · rw [List.mem_singleton.1 hm]
      rintro ⟨s', h1, h2⟩
      refine ⟨s', h1, duals_kept (fun q hq => ?_) h2⟩
      have tt := touches_bind (x := Talk.quiet (Act.reads fun _ => .ok s)) (k := fun s => saveTalk T a s)
        (S := fun q => Under a.path.dropLast "vectors".toList q ∨ SceneFile a.path.dropLast (stem a.path) q ∨ Under a.path.dropLast "rasters".toList q)
        (fun _ _ h => absurd rfl h) fun s => touches_save T a hn s
      refine untouched tt ?_
      rintro (k | k | k)
      · exact under_ne (by decide) k hq
      · exact scene_under (by decide) (by decide) k hq
      · exact under_ne (by decide) k hq
    · exact absurd hm List.not_mem_nil


/-! ### Claims -/

/-- The steps are those of C113. -/
theorem marks_stages (T : Toolbox N L K) (a : OrthoArgs K) (fs : Fs) (t : Text) (chat : List Said) :
    (orthoMarks T a fs t chat).map Mark.stage = orthoStages t chat a.graphs a.save a.scene (decide (a.pixel ≠ 0)) := by
  unfold orthoMarks orthoStages
  cases a.graphs <;> cases a.save <;> cases a.scene <;> by_cases h : a.pixel = 0 <;> simp [h]

/-- C115: while orthoproject runs, what a step that is shown as done has made is on the disk, and it is still there at the end, whether the later steps succeed or one of them fails:
either every step is done, or the steps before number `k` are done, number `k` is shown without its end, the message of the exception comes last, and the files of the former are on the disk. -/
theorem C115_done_partial (T : Toolbox N L K) (noise : SceneFormat → Bool → Path → Fs → List Text) (args : Args) (fs : Fs) (a : OrthoArgs K) (ha : orthoArgs T args = .ok a)
    (hr : (mainTalk (orthoTalk T noise args) fs).1 ≠ .ub) :
    ∃ chat settings, (a.format = "OFF".toList ∨ a.format = "OBJ".toList → chat = []) ∧
      (((mainTalk (orthoTalk T noise args) fs).2.2 = shown ((orthoMarks T a fs settings chat).map Mark.stage) ∧
          ∀ m ∈ orthoMarks T a fs settings chat, m.left (mainTalk (orthoTalk T noise args) fs).2.1) ∨
       ∃ (k : Nat) (m : Mark) (e : Exc), (orthoMarks T a fs settings chat)[k]? = some m ∧
          (mainTalk (orthoTalk T noise args) fs).2.2 = shown (((orthoMarks T a fs settings chat).take k).map Mark.stage) ++ m.stage.begins ++ [.err e] ∧
          ∀ n ∈ (orthoMarks T a fs settings chat).take k, n.left (mainTalk (orthoTalk T noise args) fs).2.1) := by
  refine ⟨chatOf T noise a.path a.format fs, orthoHeader T.G (rawText args "<scene>") a, chat_quiet T noise a.path a.format fs, ?_⟩
  have h := sees_ortho T noise args fs a ha
  revert h hr
  unfold mainTalk
  rcases orthoTalk T noise args fs with ⟨_ | e | _, fs', l⟩
  · exact fun _ h => .inl h
  · rintro - ⟨k, m, h1, h2, h3⟩
    exact .inr ⟨k, m, e, h1, by show l ++ _ = _; rw [h2], h3⟩
  · exact fun hr => absurd rfl hr

/-- C115: no news is good news: if orthoproject has said nothing on the standard error stream, then every step that was asked for has been done, and its files are on the disk. -/
theorem C115_silent_partial (T : Toolbox N L K) (noise : SceneFormat → Bool → Path → Fs → List Text) (args : Args) (fs : Fs) (a : OrthoArgs K) (ha : orthoArgs T args = .ok a)
    (hr : (mainTalk (orthoTalk T noise args) fs).1 ≠ .ub) (he : errors (mainTalk (orthoTalk T noise args) fs).2.2 = []) (settings : Text) (chat : List Said) :
    ∀ m ∈ orthoMarks T a fs settings chat, m.left (mainTalk (orthoTalk T noise args) fs).2.1 := by
  obtain ⟨c, t, -, h | ⟨k, m, e, -, h, -⟩⟩ := C115_done_partial T noise args fs a ha hr
  · have key : (orthoMarks T a fs settings chat).map Mark.left = (orthoMarks T a fs t c).map Mark.left := by
      unfold orthoMarks
      cases a.graphs <;> cases a.save <;> cases a.scene <;> by_cases h : a.pixel = 0 <;> simp [h]
    intro m hm
    obtain ⟨n, hn, e⟩ := List.mem_map.1 (key ▸ List.mem_map_of_mem (f := Mark.left) hm)
    rw [← e]
    exact h.2 n hn
  · rw [h] at he
    have : Said.err e ∈ errors (shown (((orthoMarks T a fs t c).take k).map Mark.stage) ++ m.stage.begins ++ [.err e]) :=
      List.mem_filter.2 ⟨List.mem_append_right _ (List.mem_singleton.2 rfl), rfl⟩
    rw [he] at this
    exact absurd this List.not_mem_nil

/-- C115: what that says of the vectors: if `save` is asked for and nothing is said, then the shape file of every projection is on the disk. -/
theorem C115_vectors_partial (T : Toolbox N L K) (noise : SceneFormat → Bool → Path → Fs → List Text) (args : Args) (fs : Fs) (a : OrthoArgs K) (ha : orthoArgs T args = .ok a) (hs : a.save = true)
    (hr : (mainTalk (orthoTalk T noise args) fs).1 ≠ .ub) (he : errors (mainTalk (orthoTalk T noise args) fs).2.2 = []) :
    ∃ s ps, SceneIs T a fs s ∧ orthoproject T.proj s a.terrain = .ok ps ∧ ((∀ f ∈ ps, PlainName f.name) → ∀ f ∈ ps, ∃ g ∈ ps, g.name = f.name ∧
      (mainTalk (orthoTalk T noise args) fs).2.1 (a.path.dropLast ++ ["vectors".toList, f.name ++ ".shp".toList]) = some (.file (T.G.shp (g.toOgr T.C a.labels)))) := by
  obtain ⟨s, ps, h1, h2, h3⟩ := C115_silent_partial T noise args fs a ha hr he [] [] ⟨stage "Saving vector projections... " "Done.\n", fun fs' => ∃ s ps, SceneIs T a fs s ∧
    orthoproject T.proj s a.terrain = .ok ps ∧ VectorsThere T a.path.dropLast a.labels ps fs fs'⟩ (by
      unfold orthoMarks
      rw [if_pos hs]
      simp only [List.mem_append, List.mem_cons, true_or, or_true])
  exact ⟨s, ps, h1, h2, fun hp f hf => (h3.2 hp f hf).1⟩

end

/-- C115, the full statement: if nothing is said on the standard error stream, then the attributes of every projection are on the disk too. -/
def C115_full : Prop := ∀ (N L : Type) (T : Toolbox N L ℚ) (noise : SceneFormat → Bool → Path → Fs → List Text) (args : Args) (fs : Fs) (a : OrthoArgs ℚ), orthoArgs T args = .ok a →
  a.save = true → (mainTalk (orthoTalk T noise args) fs).1 = .ok 0 → errors (mainTalk (orthoTalk T noise args) fs).2.2 = [] →
  ∀ s ps, SceneIs T a fs s → orthoproject T.proj s a.terrain = .ok ps → (∀ f ∈ ps, PlainName f.name) → ∀ f ∈ ps,
    ∃ t, (mainTalk (orthoTalk T noise args) fs).2.1 (a.path.dropLast ++ ["vectors".toList, f.name ++ ".txt".toList]) = some (.file t)

/-- The directory `d` with the file `a.obj`, and `vectors/roof.txt` a directory. -/
def occupiedFs : Fs
  | [d, n, m] => if d = "d".toList ∧ n = "vectors".toList ∧ m = "roof.txt".toList then some .dir else none
  | [d, n] => if d = "d".toList ∧ n = "vectors".toList then some .dir else objFs kinkedObj [d, n]
  | p => objFs kinkedObj p

/-- The arguments of the example. -/
def occupiedArgs : OrthoArgs ℚ := ⟨["d".toList, "a.obj".toList], "OBJ".toList, false, false, false, false, true, false, false, 1⟩

theorem occupied_args : orthoArgs toyTools pixelArgs = .ok occupiedArgs := by rfl

/-- The scene of the example. -/
def occupiedScene : Scene Mesh := Scene.makeDefault toyTools.ops [kinkedMesh] (Mesh.empty.setName "terrain".toList)

/-- Its projection. -/
def occupiedPrint : FootPrint ℚ := ⟨"roof".toList, ⟨0, 0, 0⟩, 2154, ⟨some ⟨0, 0, 1, 1⟩, [slab 1 0 0 1 1 3]⟩⟩

theorem occupied_read : objSceneMeshes toyTools.rnd readMode occupiedArgs.path occupiedFs = .ok ([kinkedMesh], Mesh.empty.setName "terrain".toList) := by decide +kernel

theorem occupied_scene : SceneIs toyTools occupiedArgs occupiedFs occupiedScene := by
  refine ⟨.obj, occupiedScene, by decide, ?_, rfl⟩
  show (do
    let r ← objSceneMeshes toyTools.rnd readMode occupiedArgs.path occupiedFs
    Out.ok (Scene.makeDefault toyTools.ops r.1 r.2)) = _
  rw [occupied_read]
  rfl

/-- C115, the full statement is false: a directory is in the place of the attributes of the projection: the stream of the file is not opened, and nobody looks. -/
theorem C115_refuted : ¬ C115_full := by
  intro h
  obtain ⟨t, ht⟩ := h Mesh Unit toyTools (fun _ _ _ _ => []) pixelArgs occupiedFs occupiedArgs occupied_args rfl (by decide +kernel) (by decide +kernel) occupiedScene [occupiedPrint] occupied_scene (by rfl)
    (by unfold PlainName; decide) occupiedPrint (List.mem_singleton.2 rfl)
  have : (mainTalk (orthoTalk toyTools (fun _ _ _ _ => []) pixelArgs) occupiedFs).2.1 (occupiedArgs.path.dropLast ++ ["vectors".toList, occupiedPrint.name ++ ".txt".toList]) = some .dir := by
    decide +kernel
  rw [this] at ht
  cases ht

/-! ### Examples -/

/-- C115: in the example that refutes the full statement, the hypotheses of `C115_silent_partial` are met; the image is on the disk. -/
example : (mainTalk (orthoTalk toyTools (fun _ _ _ _ => []) pixelArgs) occupiedFs).1 ≠ .ub ∧ errors (mainTalk (orthoTalk toyTools (fun _ _ _ _ => []) pixelArgs) occupiedFs).2.2 = [] ∧
    (mainTalk (orthoTalk toyTools (fun _ _ _ _ => []) pixelArgs) occupiedFs).2.1 ["d".toList, "vectors".toList, "roof.shp".toList] = some (.file "shp".toList) ∧
    (mainTalk (orthoTalk toyTools (fun _ _ _ _ => []) pixelArgs) occupiedFs).2.1 ["d".toList, "rasters".toList, "roof.tiff".toList] = some (.file "tiff".toList) := by decide +kernel

/-- The files of the example, with a file in the place of the directory `rasters`. -/
def halfFs : Fs := fun p => if p = ["d".toList, "rasters".toList] then some (.file []) else occupiedFs p

/-- C115: a run that fails at the last step, after the vectors were shown as done: their file is on the disk. -/
example : (mainTalk (orthoTalk toyTools (fun _ _ _ _ => []) pixelArgs) halfFs).2.2.drop 5 =
      [.out "Saving vector projections... ".toList, .out "Done.\n".toList, .out "rasterizing projections... ".toList, .out "Done.\n".toList, .out "Saving raster projections... ".toList,
        .err .filesystemError] ∧
    (mainTalk (orthoTalk toyTools (fun _ _ _ _ => []) pixelArgs) halfFs).2.1 ["d".toList, "vectors".toList, "roof.shp".toList] = some (.file "shp".toList) := by decide +kernel

end City.Props
