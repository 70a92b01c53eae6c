import Verif.Props.Process
/-!
C120: tools that run at the same time on separate scenes.
-/
set_option linter.unusedSectionVars false
namespace City.Spec
open City City.Props
variable {N L K : Type} [Field K] [LinearOrder K] [FloorRing K]

/-- The run as a process that makes one call to the system after the other. -/
def Job.process (drafts : Path → Text → List Text) (T : Toolbox N L K) : Job → Prog Nat
  | .ortho args => mainProg (orthoProg drafts T args)
  | .format args => mainProg (formatProg drafts T args)

/-- The machine the tools run on. -/
def machine (T : Toolbox N L K) (noise : SceneFormat → Bool → Path → Fs → List Text) : Machine := ⟨T.listing, noise⟩

/-- The runs are started at the same time. -/
def startAll (drafts : Path → Text → List Text) (T : Toolbox N L K) (js : List Job) (fs : Fs) : Crowd Nat := ⟨js.map fun j => (j.process drafts T, []), fs⟩

/-- The process has come to its end, in this way. -/
def EndedWith {A : Type} (x : Prog A) (r : Out A) : Prop := x = .stop r

end City.Spec
namespace City.Props
open City City.Spec

/-! ### Processes that keep to their places -/

/-- A process that changes nothing but `C` and looks at nothing but `S`, whatever the answers are. -/
def Stays {A : Type} (C S : Path → Prop) : Prog A → Prop
  | .stop _ => True
  | .say _ k => Stays C S k
  | .look p k => S p ∧ ∀ e, Stays C S (k e)
  | .names p k => (S p ∧ ∀ n, OffName n → S (p ++ [n])) ∧ ∀ l : List Text, (∀ n ∈ l, OffName n) → Stays C S (k l)
  | .hear _ _ p k => (S p ∧ S (xmlPath p)) ∧ ∀ l, Stays C S (k l)
  | .mkdir p k => (C p ∧ S p ∧ S p.dropLast) ∧ ∀ r, Stays C S (k r)
  | .create p k => (C p ∧ S p ∧ S p.dropLast) ∧ ∀ b, Stays C S (k b)
  | .store p _ k => (C p ∧ S p) ∧ Stays C S k

theorem stays_after {A B : Type} {C S : Path → Prop} {f : Out A → Prog B} (hf : ∀ r, Stays C S (f r)) : ∀ x : Prog A, Stays C S x → Stays C S (x.after f) := by
  intro x
  induction x with
  | stop r => exact fun _ => hf r
  | say s k ih => exact ih
  | look p k ih => exact fun h => ⟨h.1, fun e => ih e (h.2 e)⟩
  | names p k ih => exact fun h => ⟨h.1, fun l hl => ih l (h.2 l hl)⟩
  | hear g b p k ih => exact fun h => ⟨h.1, fun l => ih l (h.2 l)⟩
  | mkdir p k ih => exact fun h => ⟨h.1, fun r => ih r (h.2 r)⟩
  | create p k ih => exact fun h => ⟨h.1, fun r => ih r (h.2 r)⟩
  | store p t k ih => exact fun h => ⟨h.1, ih h.2⟩

theorem stays_bind {A B : Type} {C S : Path → Prop} {x : Prog A} {k : A → Prog B} (hx : Stays C S x) (hk : ∀ a, Stays C S (k a)) : Stays C S (x.bind k) := by
  refine stays_after ?_ x hx
  rintro (a | e | _)
  · exact hk a
  · trivial
  · trivial

theorem stays_stop {A : Type} (C S : Path → Prop) (r : Out A) : Stays C S (Prog.stop r) := trivial

theorem stays_from {A B : Type} {C S : Path → Prop} {r : Out A} {k : A → Prog B} (hk : ∀ a, r = .ok a → Stays C S (k a)) : Stays C S ((Prog.stop r).bind k) := by
  cases r with
  | ok a => exact hk a rfl
  | thrown e => exact stays_stop _ _ _
  | ub => exact stays_stop _ _ _

theorem stays_mono {A : Type} {C S C' S' : Path → Prop} (hc : ∀ q, C q → C' q) (hs : ∀ q, S q → S' q) : ∀ x : Prog A, Stays C S x → Stays C' S' x := by
  intro x
  induction x with
  | stop r => exact fun _ => trivial
  | say s k ih => exact ih
  | look p k ih => exact fun h => ⟨hs _ h.1, fun e => ih e (h.2 e)⟩
  | names p k ih => exact fun h => ⟨⟨hs _ h.1.1, fun n hn => hs _ (h.1.2 n hn)⟩, fun l hl => ih l (h.2 l hl)⟩
  | hear g b p k ih => exact fun h => ⟨⟨hs _ h.1.1, hs _ h.1.2⟩, fun l => ih l (h.2 l)⟩
  | mkdir p k ih => exact fun h => ⟨⟨hc _ h.1.1, hs _ h.1.2.1, hs _ h.1.2.2⟩, fun r => ih r (h.2 r)⟩
  | create p k ih => exact fun h => ⟨⟨hc _ h.1.1, hs _ h.1.2.1, hs _ h.1.2.2⟩, fun r => ih r (h.2 r)⟩
  | store p t k ih => exact fun h => ⟨⟨hc _ h.1.1, hs _ h.1.2⟩, ih h.2⟩

theorem stays_sayAll {A : Type} {C S : Path → Prop} {k : Prog A} (h : Stays C S k) : ∀ l, Stays C S (Prog.sayAll l k)
  | [] => h
  | _ :: l => stays_sayAll h l

theorem stays_announced {A : Type} {C S : Path → Prop} (b e : String) {x : Prog A} (h : Stays C S x) : Stays C S (Prog.announced b x e) :=
  stays_bind h fun _ => trivial

theorem stays_stores {A : Type} {C S : Path → Prop} {p : Path} (hc : C p) (hs : S p) {k : Prog A} (h : Stays C S k) : ∀ l, Stays C S (Prog.stores p l k)
  | [] => h
  | _ :: l => ⟨⟨hc, hs⟩, stays_stores hc hs h l⟩

theorem stays_all {C S : Path → Prop} : ∀ xs : List (Prog Unit), (∀ x ∈ xs, Stays C S x) → Stays C S (Prog.all xs)
  | [], _ => trivial
  | x :: xs, h => stays_bind (h x List.mem_cons_self) fun _ => stays_all xs fun y hy => h y (List.mem_cons_of_mem _ hy)

variable {drafts : Path → Text → List Text}

theorem stays_file {C S : Path → Prop} {p : Path} (hc : C p) (hs : S p) (hd : S p.dropLast) (t : Text) (good bad : Out Unit) : Stays C S (fileProg drafts p t good bad) := by
  refine ⟨⟨hc, hs, hd⟩, fun b => ?_⟩
  cases b with
  | true => exact stays_stores hc hs (stays_stop _ _ _) _
  | false => trivial

theorem stays_dir {C S : Path → Prop} {p : Path} (hc : C p) (hs : S p) (hd : S p.dropLast) : Stays C S (dirProg p) := ⟨⟨hc, hs, hd⟩, fun _ => trivial⟩

theorem stays_offRead {C S : Path → Prop} {p : Path} (hs : S p) (rnd : ℚ → ℚ) (lf : Bool) (modes : Modes) : Stays C S (offReadProg rnd lf modes p) := by
  unfold offReadProg
  split
  · exact ⟨hs, fun _ => trivial⟩
  · trivial

theorem stays_buildings {C S : Path → Prop} (rnd : ℚ → ℚ) (lf : Bool) (modes : Modes) (p : Path) (hs : ∀ n, OffName n → S (p ++ [n])) :
    ∀ ns : List Text, (∀ n ∈ ns, OffName n) → Stays C S (buildingsProg rnd lf modes p ns)
  | [], _ => trivial
  | n :: ns, h => by
    have hn := h n List.mem_cons_self
    have ih := stays_buildings (C := C) (S := S) rnd lf modes p hs ns fun m hm => h m (List.mem_cons_of_mem _ hm)
    unfold buildingsProg
    refine ⟨hs n hn, fun e => ?_⟩
    rcases e with _ | t | _
    · exact ih
    · dsimp only
      split
      · exact stays_bind (stays_offRead (hs n hn) _ _ _) fun m => stays_bind ih fun _ => trivial
      · exact ih
    · exact ih

section
variable {N L K : Type} [Field K] [LinearOrder K] [FloorRing K]

theorem stays_t3ds {C S : Path → Prop} {p : Path} (hs : S p) (load : Text → Option (File3ds L)) : Stays C S (t3dsProg load p) := ⟨hs, fun _ => trivial⟩

theorem stays_tree {C S : Path → Prop} {p : Path} (hs : S p) (xml : Text → Option (List Elem)) : Stays C S (treeProg xml p) := ⟨hs, fun _ => trivial⟩

/-- Reading a scene looks at the places of the scene. -/
theorem stays_scene {C S : Path → Prop} (T : Toolbox N L K) {args : Args} {t format : Text} {f : SceneFormat}
    (hf : args "--input-format".toList = some (.str format)) (hh : sceneHandlerNamed (splitSlash t) format = .ok f)
    (hp : ∀ q, ScenePlace args (splitSlash t) q → S q) : Stays C S (sceneProg T.ops T.lib T.rnd T.lf f (splitSlash t)) := by
  have hx : xmlPath (splitSlash t) = (splitSlash t).dropLast ++ [stem (splitSlash t) ++ ".XML".toList] :=
    joinPath_plain (plain_ext (plain_stem t) (by unfold PlainName; decide))
  have h0 : S (splitSlash t) := hp _ (Or.inl rfl)
  rcases ((C31_formats (splitSlash t) format f).1.1 hh) with ⟨e, rfl, -⟩ | ⟨e, rfl, -⟩ | ⟨e, rfl⟩ | ⟨e, rfl, -⟩
  · have hX : S (xmlPath (splitSlash t)) := hp _ (Or.inr (Or.inr ⟨Or.inr (hf.trans (by rw [e])), hx⟩))
    exact ⟨⟨h0, hX⟩, fun l => stays_sayAll (stays_bind (stays_t3ds h0 _) fun file => stays_bind (stays_tree hX _) fun _ => stays_stop _ _ _) _⟩
  · have hX : S (xmlPath (splitSlash t)) := hp _ (Or.inr (Or.inr ⟨Or.inl (hf.trans (by rw [e])), hx⟩))
    refine ⟨⟨h0, hX⟩, fun l => stays_sayAll (stays_after ?_ _ (stays_bind (stays_t3ds h0 _) fun file => stays_bind (stays_tree hX _) fun _ => stays_stop _ _ _)) _⟩
    rintro (s | e | _)
    · trivial
    · dsimp only
      split
      · exact ⟨⟨h0, hX⟩, fun l => stays_sayAll (stays_bind (stays_t3ds h0 _) fun _ => stays_stop _ _ _) _⟩
      · trivial
    · trivial
  · have hn : ∀ n, OffName n → S (splitSlash t ++ [n]) := fun n hn => hp _ (Or.inr (Or.inl ⟨hf.trans (by rw [e]), n, hn, rfl⟩))
    refine ⟨h0, fun e => ?_⟩
    dsimp only
    split
    · trivial
    · refine ⟨⟨h0, hn⟩, fun l hl => stays_bind (stays_buildings _ _ _ _ hn l hl) fun bs => stays_bind (stays_offRead ?_ _ _ _) fun _ => trivial⟩
      rw [terrain_path]
      exact hn _ (terrain_named [])
  · show Stays C S (objSceneProg _ _ _ _)
    unfold objSceneProg
    split
    · exact ⟨h0, fun _ => trivial⟩
    · trivial

/-- The files of a directory, and the directory. -/
theorem stays_files {C S : Path → Prop} {dir : Path} (hc : ∀ q, Within dir q → C q) (hs : ∀ q, Within dir q → S q) (n : Text) (t : Text) (good bad : Out Unit) :
    Stays C S (fileProg drafts (joinPath dir n) t good bad) :=
  stays_file (hc _ (within_join _ _)) (join_places hs n).1 (join_places hs n).2 _ _ _

theorem stays_saveDir {C S : Path → Prop} {root : Path} {d : Text} (hr : S root) (hc : ∀ q, Within (root ++ [d]) q → C q) (hs : ∀ q, Within (root ++ [d]) q → S q)
    (xs : List (Prog Unit)) (h : ∀ x ∈ xs, Stays C S x) : Stays C S ((dirProg (root ++ [d])).bind fun _ => Prog.all xs) :=
  stays_bind (stays_dir (hc _ ⟨[], by simp⟩) (hs _ ⟨[], by simp⟩) (by simpa using hr)) fun _ => stays_all _ h

theorem stays_duals {C S : Path → Prop} {root : Path} (hr : S root) (hc : ∀ q, Within (root ++ ["dual_graphs".toList]) q → C q)
    (hs : ∀ q, Within (root ++ ["dual_graphs".toList]) q → S q) (bs : List (Text × Written)) : Stays C S (dualsProg drafts root bs) := by
  refine stays_saveDir hr hc hs _ fun x hx => ?_
  obtain ⟨b, _, rfl⟩ := List.mem_map.1 hx
  exact stays_files hc hs _ _ _ _

theorem stays_raster {C S : Path → Prop} {p : Path} (hc : C p) (hs : S p) (hd : S p.dropLast) (G : Gdal K) (r : Raster K) : Stays C S (rasterProg drafts G p r) := by
  unfold rasterProg
  split
  · exact stays_file hc hs hd _ _ _
  · trivial

theorem stays_rasters {C S : Path → Prop} {root : Path} (hr : S root) (hc : ∀ q, Within (root ++ ["rasters".toList]) q → C q)
    (hs : ∀ q, Within (root ++ ["rasters".toList]) q → S q) (G : Gdal K) (rs : List (Raster K)) : Stays C S (rastersProg drafts G root rs) := by
  refine stays_saveDir hr hc hs _ fun x hx => ?_
  obtain ⟨r, _, rfl⟩ := List.mem_map.1 hx
  exact stays_raster (hc _ (within_join _ _)) (join_places hs _).1 (join_places hs _).2 _ _

theorem stays_prints {C S : Path → Prop} {root : Path} (hr : S root) (hc : ∀ q, Within (root ++ ["vectors".toList]) q → C q)
    (hs : ∀ q, Within (root ++ ["vectors".toList]) q → S q) (D : Cgal K) (G : Gdal K) (ps : List (FootPrint K)) (labels : Bool) :
    Stays C S (printsProg drafts D G root ps labels) := by
  refine stays_saveDir hr hc hs _ fun x hx => ?_
  obtain ⟨f, _, hx⟩ := List.mem_flatMap.1 hx
  simp only [List.mem_cons, List.not_mem_nil, or_false] at hx
  rcases hx with rfl | rfl
  · exact stays_files hc hs _ _ _ _
  · exact stays_files hc hs _ _ _ _

theorem stays_scenePrints {C S : Path → Prop} {root : Path} {st : Text} (hst : PlainName st) (hr : S root) (D : Cgal K) (lr : Bool) (G : Gdal K) (ps : List (FootPrint K))
    (rast : Bool) (p : K) (hc : C (root ++ [st ++ ".shp".toList])) (hs : S (root ++ [st ++ ".shp".toList]))
    (hc' : rast = true → C (root ++ [st ++ ".tiff".toList]) ∧ S (root ++ [st ++ ".tiff".toList])) : Stays C S (scenePrintsProg drafts D lr G root st ps rast p) := by
  unfold scenePrintsProg
  have e1 : joinPath root (st ++ ".shp".toList) = root ++ [st ++ ".shp".toList] := joinPath_plain (plain_ext hst (by unfold PlainName; decide))
  have e2 : joinPath root (st ++ ".tiff".toList) = root ++ [st ++ ".tiff".toList] := joinPath_plain (plain_ext hst (by unfold PlainName; decide))
  refine stays_bind trivial fun s => stays_bind ?_ fun _ => ?_
  · unfold vectorProg
    rw [e1]
    exact stays_file hc hs (by simpa using hr) _ _ _
  · split
    · rename_i h
      refine stays_bind trivial fun r => ?_
      rw [e2]
      exact stays_raster (hc' h).1 (hc' h).2 (by simpa using hr) _ _
    · trivial

theorem stays_sceneWrite {C S : Path → Prop} {p : Path} (hd : S p.dropLast) (hc : ∀ q, Within p q → C q) (hs : ∀ q, Within p q → S q) (ops : NodeOps N) (f : SceneFormat)
    (modes : Modes) (s : Scene N) : Stays C S (sceneWriteProg drafts ops f modes p s) := by
  have h0 : Within p p := ⟨[], by simp⟩
  cases f with
  | t3dsXml => trivial
  | t3ds => trivial
  | obj =>
    unfold sceneWriteProg
    dsimp only
    split
    · split
      · exact stays_file (hc _ h0) (hs _ h0) hd _ _ _
      · trivial
      · trivial
    · trivial
  | off =>
    refine stays_bind ⟨hs _ h0, fun e => ?_⟩ fun _ => stays_all _ fun x hx => ?_
    · dsimp only
      split
      · exact stays_dir (hc _ h0) (hs _ h0) hd
      · refine ⟨hs _ h0, fun e' => ?_⟩
        dsimp only
        split <;> trivial
    · obtain ⟨m, _, rfl⟩ := List.mem_map.1 hx
      unfold offWriteProg
      split
      · exact stays_files hc hs _ _ _ _
      · trivial

theorem stays_input {C S : Path → Prop} (T : Toolbox N L K) {args : Args} {t format : Text} (prune terrain graphs : Bool)
    (hf : args "--input-format".toList = some (.str format)) (hp : ∀ q, ScenePlace args (splitSlash t) q → S q)
    (hg : graphs = true → S (splitSlash t).dropLast ∧ ∀ q, Within ((splitSlash t).dropLast ++ ["dual_graphs".toList]) q → C q ∧ S q) :
    Stays C S (inputProg drafts T (splitSlash t) format prune terrain graphs) := by
  unfold inputProg
  refine stays_from fun f hh => stays_bind (stays_scene T hf hh hp) fun s => stays_from fun s' _ => stays_bind ?_ fun _ => stays_stop _ _ _
  split
  · rename_i h
    exact stays_announced _ _ (stays_duals (hg h).1 (fun q hq => ((hg h).2 q hq).1) (fun q hq => ((hg h).2 q hq).2) _)
  · trivial

theorem stays_ortho (T : Toolbox N L K) (args : Args) : Stays (OrthoChanges T args) (OrthoLooks T args) (orthoProg drafts T args) := by
  unfold orthoProg
  cases ha : orthoArgs T args with
  | thrown e => trivial
  | ub => trivial
  | ok a =>
  obtain ⟨⟨t, ht, hpath⟩, hg, hs, hsc, hpx⟩ := orthoArgs_ok (T := T) (args := args) (a := a) ha
  have hfm := orthoArgs_format ha
  have hroot : (Asked args "--graphs" ∨ Asked args "save") → OrthoLooks T args (splitSlash t).dropLast := fun k => Or.inr ⟨t, ht, Or.inr ⟨k, rfl⟩⟩
  have hlook : ∀ q, OrthoChanges T args q → OrthoLooks T args q := fun q hq => Or.inl hq
  show Stays _ _ ((inputProg drafts T a.path a.format a.prune a.terrain a.graphs).bind _)
  rw [hpath]
  refine stays_bind (stays_input T _ _ _ hfm (fun q hq => Or.inr ⟨t, ht, Or.inl hq⟩)
    fun e => ⟨hroot (Or.inl (hg e)), fun q hq => ⟨⟨t, ht, Or.inl ⟨hg e, hq⟩⟩, Or.inl ⟨t, ht, Or.inl ⟨hg e, hq⟩⟩⟩⟩) fun s => ?_
  cases hsave : a.save with
  | false => exact stays_stop _ _ _
  | true =>
    have hs' := hs hsave
    simp only [if_true]
    have hv : ∀ q, Within ((splitSlash t).dropLast ++ ["vectors".toList]) q → OrthoChanges T args q := fun q hq => ⟨t, ht, Or.inr (Or.inl ⟨hs', hq⟩)⟩
    refine stays_bind (stays_announced _ _ (stays_stop _ _ _)) fun ps => stays_bind (stays_announced _ _ (stays_prints (hroot (Or.inr hs')) hv (fun q hq => hlook q (hv q hq)) _ _ _ _))
      fun _ => stays_bind ?_ fun _ => ?_
    · cases hscene : a.scene with
      | false => exact stays_stop _ _ _
      | true =>
        have h1 : OrthoChanges T args ((splitSlash t).dropLast ++ [stem (splitSlash t) ++ ".shp".toList]) := ⟨t, ht, Or.inr (Or.inr (Or.inl ⟨hs', hsc hscene, rfl⟩))⟩
        refine stays_announced _ _ (stays_scenePrints (plain_stem t) (hroot (Or.inr hs')) _ _ _ _ _ _ h1 (hlook _ h1) ?_)
        intro k
        have k' : a.pixel ≠ 0 := of_decide_eq_true k
        have h2 : OrthoChanges T args ((splitSlash t).dropLast ++ [stem (splitSlash t) ++ ".tiff".toList]) :=
          ⟨t, ht, Or.inr (Or.inr (Or.inr ⟨a.pixel, k', hpx k', hs', Or.inr ⟨hsc hscene, rfl⟩⟩))⟩
        exact ⟨h2, hlook _ h2⟩
    · split
      · rename_i k'
        have hr : ∀ q, Within ((splitSlash t).dropLast ++ ["rasters".toList]) q → OrthoChanges T args q :=
          fun q hq => ⟨t, ht, Or.inr (Or.inr (Or.inr ⟨a.pixel, k', hpx k', hs', Or.inl hq⟩))⟩
        exact stays_bind (stays_announced _ _ (stays_stop _ _ _)) fun rs => stays_announced _ _ (stays_rasters (hroot (Or.inr hs')) hr (fun q hq => hlook q (hr q hq)) _ _)
      · exact stays_stop _ _ _

theorem stays_format (T : Toolbox N L K) (args : Args) : Stays (FormatChanges args) (FormatLooks args) (formatProg drafts T args) := by
  unfold formatProg
  refine stays_from fun _ _ => ?_
  cases ha : formatArgs args with
  | thrown e => trivial
  | ub => trivial
  | ok a =>
  cases hf : a.formats with
  | true =>
    show Stays _ _ (if a.formats then _ else _)
    rw [hf]
    trivial
  | false =>
    show Stays _ _ (if a.formats then _ else _)
    rw [hf]
    obtain ⟨t, o, ht, hpath, ho, hout, hfm, hofm, hnf, hg⟩ := formatArgs_ok ha hf
    rw [hpath, hout]
    have hlook : ∀ q, FormatChanges args q → FormatLooks args q := fun q hq => Or.inl hq
    have hw : ∀ q, Within (splitSlash o) q → FormatChanges args q := fun q hq => ⟨t, o, _, ht, ho, hofm, hnf, Or.inr hq⟩
    refine stays_bind (stays_input T _ _ _ hfm (fun q hq => Or.inr (Or.inr ⟨t, ht, hnf, Or.inl hq⟩)) fun e => ⟨Or.inr (Or.inr ⟨t, ht, hnf, Or.inr ⟨hg e, rfl⟩⟩), fun q hq => ?_⟩)
      fun s => stays_from fun f _ => stays_sceneWrite (Or.inr (Or.inl ⟨o, ho, hnf, rfl⟩)) hw (fun q hq => hlook q (hw q hq)) _ _ _ _
    have h1 : FormatChanges args q := ⟨t, o, _, ht, ho, hofm, hnf, Or.inl ⟨hg e, hq⟩⟩
    exact ⟨h1, hlook q h1⟩

theorem stays_main {C S : Path → Prop} {x : Prog Unit} (h : Stays C S x) : Stays C S (mainProg x) := by
  refine stays_after ?_ x h
  rintro (a | e | _) <;> trivial

theorem stays_job (T : Toolbox N L K) (j : Job) : Stays (j.changes T) (j.looks T) (j.process drafts T) := by
  cases j with
  | ortho args => exact stays_main (stays_ortho T args)
  | format args => exact stays_main (stays_format T args)

theorem alone_job (T : Toolbox N L K) (noise : SceneFormat → Bool → Path → Fs → List Text) (j : Job) : (j.process drafts T).alone (machine T noise) = j.run T noise := by
  cases j with
  | ortho args => exact alone_main _ (alone_ortho T noise args)
  | format args => exact alone_main _ (alone_format T noise args)

/-! ### A call of a process in two states -/

theorem listing_tied (T : Toolbox N L K) (hT : ListsFiles T) {fs₁ fs₂ : Fs} {p : Path} (h0 : fs₁ p = fs₂ p) (hn : ∀ n, OffName n → fs₁ (p ++ [n]) = fs₂ (p ++ [n])) :
    (T.listing fs₁ p).filter (fun n => iequals (extension [n]) ".off".toList) = (T.listing fs₂ p).filter (fun n => iequals (extension [n]) ".off".toList) := by
  classical
  have key : ∀ l : List Text, l.filter (fun n => iequals (extension [n]) ".off".toList) = l.filter (fun n => decide (OffName n)) := by
    intro l
    refine List.filter_congr fun n _ => ?_
    have := offName_iff [] n
    rw [List.nil_append] at this
    by_cases ho : OffName n
    · rw [this.2 ho, decide_eq_true ho]
    · rw [decide_eq_false ho, Bool.eq_false_iff]
      exact fun k => ho (this.1 k)
  rw [key, key]
  exact hT fs₁ fs₂ p h0 hn

theorem same_store {S : Path → Prop} {fs₁ fs₂ : Fs} (h : SameAt S fs₁ fs₂) {p : Path} (hp : S p) (t : Text) :
    SameAt S (match fs₁ p with | some (.file _) => fs₁.set p (.file t) | _ => fs₁) (match fs₂ p with | some (.file _) => fs₂.set p (.file t) | _ => fs₂) := by
  rw [h p hp]
  rcases fs₂ p with _ | u | _
  · exact h
  · exact same_set h _ _
  · exact h

/-- A call of a process that keeps to its places: from two states that are the same where it looks it goes the same way, and it changes nothing else. -/
theorem step_stays {A : Type} (T : Toolbox N L K) (noise : SceneFormat → Bool → Path → Fs → List Text) (hT : ListsFiles T) (hN : NoiseOfScene noise) {C S : Path → Prop}
    {x : Prog A} (hx : Stays C S x) {fs₁ fs₂ : Fs} (h : SameAt S fs₁ fs₂) :
    (x.step (machine T noise) fs₁).1 = (x.step (machine T noise) fs₂).1 ∧ (x.step (machine T noise) fs₁).2.2 = (x.step (machine T noise) fs₂).2.2 ∧
    SameAt S (x.step (machine T noise) fs₁).2.1 (x.step (machine T noise) fs₂).2.1 ∧ Stays C S (x.step (machine T noise) fs₁).1 ∧
    ∀ q, ¬ C q → (x.step (machine T noise) fs₁).2.1 q = fs₁ q := by
  cases x with
  | stop r => exact ⟨rfl, rfl, h, trivial, fun _ _ => rfl⟩
  | say s k => exact ⟨rfl, rfl, h, hx, fun _ _ => rfl⟩
  | look p k =>
    refine ⟨?_, rfl, h, hx.2 _, fun _ _ => rfl⟩
    show k (fs₁ p) = k (fs₂ p)
    rw [h p hx.1]
  | names p k =>
    have e := listing_tied T hT (h p hx.1.1) fun n hn => h _ (hx.1.2 n hn)
    refine ⟨congrArg k e, rfl, h, hx.2 _ fun n hn => ?_, fun _ _ => rfl⟩
    have := offName_iff [] n
    rw [List.nil_append] at this
    exact this.1 (List.mem_filter.1 hn).2
  | hear f b p k =>
    exact ⟨congrArg k (hN fs₁ fs₂ p (h p hx.1.1) (h _ hx.1.2) f b), rfl, h, hx.2 _, fun _ _ => rfl⟩
  | mkdir p k =>
    obtain ⟨e1, e2⟩ := looks_makeDir hx.1.2.1 hx.1.2.2 fs₁ fs₂ h
    refine ⟨congrArg k e1, rfl, e2, hx.2 _, fun q hq => ?_⟩
    show (makeDir p fs₁).2 q = fs₁ q
    unfold makeDir
    rcases fs₁ p with _ | t | _
    · dsimp only
      split
      · have : q ≠ p := fun e => hq (e ▸ hx.1.1)
        simp [Fs.set, this]
      · rfl
    · rfl
    · rfl
  | create p k =>
    have e := same_canWrite h hx.1.2.1 hx.1.2.2
    refine ⟨congrArg k e, rfl, ?_, hx.2 _, fun q hq => ?_⟩
    · show SameAt S (if fs₁.canWrite p then fs₁.set p (.file []) else fs₁) (if fs₂.canWrite p then fs₂.set p (.file []) else fs₂)
      rw [e]
      split
      · exact same_set h _ _
      · exact h
    · show (if fs₁.canWrite p then fs₁.set p (.file []) else fs₁) q = fs₁ q
      have : q ≠ p := fun e => hq (e ▸ hx.1.1)
      split
      · simp [Fs.set, this]
      · rfl
  | store p t k =>
    refine ⟨rfl, rfl, same_store h hx.1.2 t, hx.2, fun q hq => ?_⟩
    have : q ≠ p := fun e => hq (e ▸ hx.1.1)
    show (match fs₁ p with | some (.file _) => fs₁.set p (.file t) | _ => fs₁) q = fs₁ q
    rcases fs₁ p with _ | u | _
    · rfl
    · simp [Fs.set, this]
    · rfl

/-- One call more, at the end. -/
theorem steps_succ {A : Type} (M : Machine) : ∀ (n : Nat) (x : Prog A) (fs : Fs), x.steps M (n + 1) fs =
    (((x.steps M n fs).1.step M (x.steps M n fs).2.1).1, ((x.steps M n fs).1.step M (x.steps M n fs).2.1).2.1, (x.steps M n fs).2.2 ++ ((x.steps M n fs).1.step M (x.steps M n fs).2.1).2.2)
  | 0, x, fs => by simp [Prog.steps]
  | n + 1, x, fs => by
    have ih := steps_succ M n (x.step M fs).1 (x.step M fs).2.1
    rw [Prog.steps, ih]
    simp only [Prog.steps, List.append_assoc]

theorem crowd_last {A : Type} (M : Machine) (i : Nat) : ∀ (l : List Nat) (c : Crowd A), c.run M (l ++ [i]) = (c.run M l).step M i
  | [], _ => rfl
  | _ :: l, c => crowd_last M i l (c.step M _)

theorem separate_at (T : Toolbox N L K) {js : List Job} (h : js.Pairwise (Job.Separate T)) {i k : Nat} {a b : Job} (ha : js[i]? = some a) (hb : js[k]? = some b) (hik : i ≠ k) :
    Job.Separate T a b := by
  obtain ⟨hi, rfl⟩ := List.getElem?_eq_some_iff.1 ha
  obtain ⟨hk, rfl⟩ := List.getElem?_eq_some_iff.1 hb
  rw [List.pairwise_iff_getElem] at h
  rcases Nat.lt_or_gt_of_ne hik with hlt | hgt
  · exact h i k hi hk hlt
  · exact separate_symm T (h k i hk hi hgt)

/-- At any time, each process is where it would be alone. -/
theorem crowd_at (T : Toolbox N L K) (noise : SceneFormat → Bool → Path → Fs → List Text) (hT : ListsFiles T) (hN : NoiseOfScene noise) (js : List Job) (fs : Fs)
    (h : js.Pairwise (Job.Separate T)) (sched : List Nat) :
    (∀ (i : Nat) (j : Job), js[i]? = some j →
      ((startAll drafts T js fs).run (machine T noise) sched).procs[i]? =
        some (((j.process drafts T).steps (machine T noise) (sched.count i) fs).1, ((j.process drafts T).steps (machine T noise) (sched.count i) fs).2.2) ∧
      SameAt (j.looks T) ((startAll drafts T js fs).run (machine T noise) sched).fs ((j.process drafts T).steps (machine T noise) (sched.count i) fs).2.1 ∧
      Stays (j.changes T) (j.looks T) ((j.process drafts T).steps (machine T noise) (sched.count i) fs).1) ∧
    (∀ i : Nat, js[i]? = none → ((startAll drafts T js fs).run (machine T noise) sched).procs[i]? = none) ∧
    ∀ q, (∀ j ∈ js, ¬ j.changes T q) → ((startAll drafts T js fs).run (machine T noise) sched).fs q = fs q := by
  induction sched using List.reverseRecOn with
  | nil =>
    refine ⟨fun i j hj => ⟨?_, fun _ _ => rfl, stays_job T j⟩, fun i hi => ?_, fun _ _ => rfl⟩
    · show (js.map _)[i]? = _
      rw [List.getElem?_map, hj]
      rfl
    · show (js.map _)[i]? = _
      rw [List.getElem?_map, hi]
      rfl
  | append_singleton l k ih =>
    rw [crowd_last]
    generalize hc : (startAll drafts T js fs).run (machine T noise) l = c at ih ⊢
    obtain ⟨h1, h2, h3⟩ := ih
    unfold Crowd.step
    cases hk : js[k]? with
    | none =>
      rw [h2 k hk]
      dsimp only
      refine ⟨fun i j hj => ?_, h2, h3⟩
      have hik : i ≠ k := fun e => by rw [e, hk] at hj; cases hj
      rw [List.count_append, List.count_singleton, if_neg (by simpa using Ne.symm hik), Nat.add_zero]
      exact h1 i j hj
    | some b =>
      obtain ⟨g1, g2, g3⟩ := h1 k b hk
      rw [g1]
      dsimp only
      obtain ⟨s1, s2, s3, s4, s5⟩ := step_stays T noise hT hN g3 g2
      refine ⟨fun i j hj => ?_, fun i hi => ?_, fun q hq => ?_⟩
      · rw [List.count_append, List.count_singleton]
        by_cases hik : i = k
        · subst hik
          rw [hk] at hj
          cases hj
          rw [if_pos (by simp), steps_succ]
          refine ⟨?_, s3, by rw [← s1]; exact s4⟩
          rw [List.getElem?_set_self]
          · rw [s1, s2]
          · exact (List.getElem?_eq_some_iff.1 g1).1
        · rw [if_neg (by simpa using Ne.symm hik), Nat.add_zero]
          obtain ⟨k1, k2, k3⟩ := h1 i j hj
          refine ⟨by rw [List.getElem?_set_ne (Ne.symm hik)]; exact k1, fun q hq => ?_, k3⟩
          rw [← k2 q hq]
          exact s5 q fun hcq => (separate_at T h hk hj (Ne.symm hik) q).1 ⟨hcq, hq⟩
      · have hik : i ≠ k := fun e => by rw [e, hk] at hi; cases hi
        rw [List.getElem?_set_ne (Ne.symm hik)]
        exact h2 i hi
      · rw [s5 q (hq b (List.mem_of_getElem? hk))]
        exact h3 q hq

/-- The end of a process that was left alone. -/
theorem alone_step {A : Type} (M : Machine) (x : Prog A) (fs : Fs) : x.alone M fs =
    (((x.step M fs).1.alone M (x.step M fs).2.1).1, ((x.step M fs).1.alone M (x.step M fs).2.1).2.1, (x.step M fs).2.2 ++ ((x.step M fs).1.alone M (x.step M fs).2.1).2.2) := by
  cases x <;> rfl

theorem alone_steps {A : Type} (M : Machine) : ∀ (n : Nat) (x : Prog A) (fs : Fs), x.alone M fs =
    (((x.steps M n fs).1.alone M (x.steps M n fs).2.1).1, ((x.steps M n fs).1.alone M (x.steps M n fs).2.1).2.1, (x.steps M n fs).2.2 ++ ((x.steps M n fs).1.alone M (x.steps M n fs).2.1).2.2)
  | 0, x, fs => by simp [Prog.steps]
  | n + 1, x, fs => by
    rw [alone_step, alone_steps M n (x.step M fs).1 (x.step M fs).2.1]
    simp only [Prog.steps, List.append_assoc]

/-- A process that has stopped has done what it does alone. -/
theorem steps_end {A : Type} {M : Machine} {n : Nat} {x : Prog A} {fs : Fs} {r : Out A} (h : (x.steps M n fs).1 = .stop r) :
    x.alone M fs = (r, (x.steps M n fs).2.1, (x.steps M n fs).2.2) := by
  rw [alone_steps M n x fs, h]
  simp [Prog.alone]

theorem steps_stop {A : Type} (M : Machine) (r : Out A) (fs : Fs) : ∀ n, (Prog.stop r).steps M n fs = (.stop r, fs, [])
  | 0 => rfl
  | n + 1 => by
    have := steps_stop M r fs n
    simp only [Prog.steps, Prog.step, this, List.append_nil]

theorem steps_more {A : Type} {M : Machine} {x : Prog A} {fs : Fs} {r : Out A} {n : Nat} (h : (x.steps M n fs).1 = .stop r) : ∀ m, n ≤ m → x.steps M m fs = x.steps M n fs := by
  intro m hm
  induction m, hm using Nat.le_induction with
  | base => rfl
  | succ m _ ih =>
    rw [steps_succ, ih, h]
    simp only [Prog.step, List.append_nil]
    exact Prod.ext h.symm rfl

/-- Every process comes to an end, when it is left alone. -/
theorem steps_halt {A : Type} (M : Machine) : ∀ (x : Prog A) (fs : Fs), ∃ n r, (x.steps M n fs).1 = .stop r := by
  intro x
  induction x with
  | stop r => exact fun fs => ⟨0, r, rfl⟩
  | say s k ih => exact fun fs => let ⟨n, r, h⟩ := ih fs; ⟨n + 1, r, h⟩
  | look p k ih => exact fun fs => let ⟨n, r, h⟩ := ih _ fs; ⟨n + 1, r, h⟩
  | names p k ih => exact fun fs => let ⟨n, r, h⟩ := ih _ fs; ⟨n + 1, r, h⟩
  | hear g b p k ih => exact fun fs => let ⟨n, r, h⟩ := ih _ fs; ⟨n + 1, r, h⟩
  | mkdir p k ih => exact fun fs => let ⟨n, r, h⟩ := ih _ _; ⟨n + 1, r, h⟩
  | create p k ih => exact fun fs => let ⟨n, r, h⟩ := ih _ _; ⟨n + 1, r, h⟩
  | store p t k ih => exact fun fs => let ⟨n, r, h⟩ := ih _; ⟨n + 1, r, h⟩

/-! ### C120 -/

/-- C120: a process that is left alone does what the function of the same name says: it ends in the same way, leaves the same files and prints the same. -/
theorem C120_alone (drafts : Path → Text → List Text) (T : Toolbox N L K) (noise : SceneFormat → Bool → Path → Fs → List Text) (j : Job) (fs : Fs) :
    ∃ n, ∀ m, n ≤ m → ∃ r, (j.process drafts T).steps (machine T noise) m fs = (.stop r, (j.run T noise fs).2.1, (j.run T noise fs).2.2) ∧ r = (j.run T noise fs).1 := by
  obtain ⟨n, r, h⟩ := steps_halt (machine T noise) (j.process drafts T) fs
  refine ⟨n, fun m hm => ⟨r, ?_, ?_⟩⟩
  · rw [steps_more h m hm, ← alone_job (drafts := drafts), steps_end h]
    exact Prod.ext h rfl
  · rw [← alone_job (drafts := drafts), steps_end h]

/-- C120: runs on separate scenes that take place at the same time, in any order of their calls. At any time each of them is where it would be if it were alone and had made as many calls, has
printed the same, and has left the same at each place it may change; the rest of the disk is as before. -/
theorem C120_any_time (drafts : Path → Text → List Text) (T : Toolbox N L K) (noise : SceneFormat → Bool → Path → Fs → List Text) (hT : ListsFiles T) (hN : NoiseOfScene noise)
    (js : List Job) (fs : Fs) (h : js.Pairwise (Job.Separate T)) (sched : List Nat) (c : Crowd Nat) (hc : c = (startAll drafts T js fs).run (machine T noise) sched) :
    (∀ (i : Nat) (j : Job), js[i]? = some j → ∃ x g l, (j.process drafts T).steps (machine T noise) (sched.count i) fs = (x, g, l) ∧
      c.procs[i]? = some (x, l) ∧ ∀ q, j.changes T q → c.fs q = g q) ∧
    ∀ q, (∀ j ∈ js, ¬ j.changes T q) → c.fs q = fs q := by
  subst hc
  obtain ⟨h1, -, h3⟩ := crowd_at (drafts := drafts) T noise hT hN js fs h sched
  exact ⟨fun i j hj => ⟨_, _, _, rfl, (h1 i j hj).1, fun q hq => (h1 i j hj).2.1 q (changes_looked T j q hq)⟩, h3⟩

/-- C120: when all of them have come to their ends, each one has ended and printed as it would have alone, and the files are those that the runs leave one after the other, in any order. -/
theorem C120_end (drafts : Path → Text → List Text) (T : Toolbox N L K) (noise : SceneFormat → Bool → Path → Fs → List Text) (hT : ListsFiles T) (hN : NoiseOfScene noise)
    (js : List Job) (fs : Fs) (h : js.Pairwise (Job.Separate T)) (sched : List Nat) (c : Crowd Nat) (hc : c = (startAll drafts T js fs).run (machine T noise) sched)
    (hend : ∀ x ∈ c.procs, ∃ r, EndedWith x.1 r) :
    c.procs = js.map (fun j => (Prog.stop (j.run T noise fs).1, (j.run T noise fs).2.2)) ∧
    ∀ js', js'.Perm js → c.fs = (Job.script T noise js' fs).2 := by
  subst hc
  obtain ⟨h1, h2, h3⟩ := crowd_at (drafts := drafts) T noise hT hN js fs h sched
  have hone : ∀ (i : Nat) (j : Job), js[i]? = some j →
      ((startAll drafts T js fs).run (machine T noise) sched).procs[i]? = some (Prog.stop (j.run T noise fs).1, (j.run T noise fs).2.2) ∧
      SameAt (j.looks T) ((startAll drafts T js fs).run (machine T noise) sched).fs (j.run T noise fs).2.1 := by
    intro i j hj
    obtain ⟨g1, g2, -⟩ := h1 i j hj
    obtain ⟨r, hr⟩ := hend _ (List.mem_of_getElem? g1)
    have hr' : ((j.process drafts T).steps (machine T noise) (sched.count i) fs).1 = .stop r := hr
    have he := steps_end hr'
    rw [alone_job] at he
    rw [he]
    exact ⟨by rw [g1, hr'], g2⟩
  refine ⟨?_, fun js' hp => ?_⟩
  · refine List.ext_getElem? fun i => ?_
    rw [List.getElem?_map]
    cases hj : js[i]? with
    | none => exact h2 i hj
    | some j => exact (hone i j hj).1
  · obtain ⟨-, a2, a3⟩ := C118_alone T noise hT hN js' fs (hp.symm.pairwise h fun {a b} k => separate_symm T k)
    funext q
    by_cases hq : ∃ j ∈ js, j.changes T q
    · obtain ⟨j, hj, hcq⟩ := hq
      obtain ⟨i, hi⟩ := List.getElem?_of_mem hj
      rw [(hone i j hi).2 q (changes_looked T j q hcq), a2 j (hp.mem_iff.2 hj) q hcq]
    · have hn : ∀ j ∈ js, ¬ j.changes T q := fun j hj hcq => hq ⟨j, hj, hcq⟩
      rw [h3 q hn, a3 q fun j hj => hn j (hp.mem_iff.1 hj)]

/-- C120: they do come to their ends: there is a number of calls after which each of them has ended, whatever the others did in between. -/
theorem C120_finishes (drafts : Path → Text → List Text) (T : Toolbox N L K) (noise : SceneFormat → Bool → Path → Fs → List Text) (hT : ListsFiles T) (hN : NoiseOfScene noise)
    (js : List Job) (fs : Fs) (h : js.Pairwise (Job.Separate T)) : ∃ n, ∀ sched : List Nat, (∀ i < js.length, n ≤ sched.count i) →
      ∀ x ∈ ((startAll drafts T js fs).run (machine T noise) sched).procs, ∃ r, EndedWith x.1 r := by
  have hall : ∀ l : List Job, ∃ n, ∀ j ∈ l, ∃ m ≤ n, ∃ r, ((j.process drafts T).steps (machine T noise) m fs).1 = .stop r := by
    intro l
    induction l with
    | nil => exact ⟨0, fun j hj => absurd hj List.not_mem_nil⟩
    | cons j l ih =>
      obtain ⟨n, hn⟩ := ih
      obtain ⟨m, r, hm⟩ := steps_halt (machine T noise) (j.process drafts T) fs
      refine ⟨max n m, fun i hi => ?_⟩
      rcases List.mem_cons.1 hi with rfl | hi
      · exact ⟨m, le_max_right _ _, r, hm⟩
      · obtain ⟨k, hk, h⟩ := hn i hi
        exact ⟨k, hk.trans (le_max_left _ _), h⟩
  obtain ⟨n, hn⟩ := hall js
  refine ⟨n, fun sched hs x hx => ?_⟩
  obtain ⟨h1, h2, -⟩ := crowd_at (drafts := drafts) T noise hT hN js fs h sched
  obtain ⟨i, hi⟩ := List.getElem?_of_mem hx
  cases hj : js[i]? with
  | none =>
    rw [h2 i hj] at hi
    cases hi
  | some j =>
    rw [(h1 i j hj).1] at hi
    cases hi
    obtain ⟨m, hm, r, hr⟩ := hn j (List.mem_of_getElem? hj)
    exact ⟨r, by unfold EndedWith; rw [steps_more hr _ (hm.trans (hs i (List.getElem?_eq_some_iff.1 hj).1))]; exact hr⟩

theorem alone_program (M : Machine) {main : Args → Prog Nat} {main' : Args → Talk Nat} (h : ∀ a, (main a).alone M = main' a) (doc version : Text) (argv : List Text) (d : Docopt.Parsed) :
    (afterProg doc version argv main d).alone M = afterSays doc version argv main' d := by
  cases d with
  | args a => exact h a
  | exit n =>
    funext fs
    show (Prog.sayAll (docoptSays doc version argv) (.stop (.ok n))).alone M fs = _
    rw [alone_sayAll]
    simp [Prog.alone, afterSays]

/-- C120: the same for the whole programs, from the command line to the exit status. -/
theorem C120_programs (drafts : Path → Text → List Text) (T : Toolbox N L K) (noise : SceneFormat → Bool → Path → Fs → List Text) (version : Text) (argv : List Text) :
    (orthoProcess drafts T version argv).alone (machine T noise) = orthoConsole T noise version argv ∧
    (formatProcess drafts T version argv).alone (machine T noise) = formatConsole T noise version argv := by
  unfold orthoProcess formatProcess orthoConsole formatConsole
  generalize Docopt.docopt orthoUsage argv = d
  generalize Docopt.docopt formatUsage argv = d'
  exact ⟨alone_program _ (fun a => alone_main _ (alone_ortho T noise a)) _ _ _ _, alone_program _ (fun a => alone_main _ (alone_format T noise a)) _ _ _ _⟩

end

/-! ### The hypotheses are met, and the condition is needed -/

/-- Every file is written in two pieces. -/
def halves : Path → Text → List Text := fun _ t => [t.take (t.length / 2)]

/-- C120: two runs that take turns, on scenes that are separate. -/
example : ((startAll halves countTools [.ortho (graphArgs "d/a.obj"), .ortho (graphArgs "e/b.obj")] twoFs).run (machine countTools fun _ _ _ _ => [])
    (List.replicate 12 [0, 1]).flatten).fs ["e".toList, "dual_graphs".toList, "x.txt".toList] = some (.file "4\n".toList) := by decide +kernel

/-- One of them is interrupted in the middle of a file. -/
example : ((startAll halves countTools [.ortho (graphArgs "d/a.obj"), .ortho (graphArgs "e/b.obj")] twoFs).run (machine countTools fun _ _ _ _ => [])
    (List.replicate 8 [0, 1]).flatten).fs ["e".toList, "dual_graphs".toList, "x.txt".toList] = some (.file "4".toList) := by decide +kernel

/-- A directory with two scenes; both have buildings `x` and `y`. -/
def sharedFs : Fs
  | [d] => if d = "e".toList then some .dir else none
  | [d, n] =>
    if d = "e".toList ∧ n = "a.obj".toList then some (.file "v 0 0 0\nv 1 0 0\nv 0 1 0\n\no x\nf 1 2 3 \n\no y\nf 1 2 3 \n".toList) else
    if d = "e".toList ∧ n = "b.obj".toList then some (.file "v 0 0 0\nv 1 0 0\nv 1 1 0\nv 0 1 0\n\no x\nf 1 2 3 4 \n\no y\nf 1 2 3 4 \n".toList) else none
  | _ => none

/-- What one might expect beyond C120: runs on different scenes leave what they leave in one of the two orders. -/
def SomeOrder : Prop := ∀ (N L : Type) (T : Toolbox N L ℚ) (noise : SceneFormat → Bool → Path → Fs → List Text), ListsFiles T → NoiseOfScene noise →
  ∀ (a b : Args) (t u : Text), a "<scene>".toList = some (.str t) → b "<scene>".toList = some (.str u) → t ≠ u → ∀ (fs : Fs) (sched : List Nat),
    (∀ x ∈ ((startAll (fun _ _ => []) T [.ortho a, .ortho b] fs).run (machine T noise) sched).procs, ∃ r, EndedWith x.1 r) →
    ((startAll (fun _ _ => []) T [.ortho a, .ortho b] fs).run (machine T noise) sched).fs = (Job.script T noise [.ortho a, .ortho b] fs).2 ∨
    ((startAll (fun _ _ => []) T [.ortho a, .ortho b] fs).run (machine T noise) sched).fs = (Job.script T noise [.ortho b, .ortho a] fs).2

/-- The second run is overtaken by the first one after its file for `x`. -/
def overtaken : List Nat := List.replicate 8 1 ++ List.replicate 11 0 ++ List.replicate 3 1

/-- Whether a process has stopped. -/
def hasStopped {A : Type} : Prog A → Bool
  | .stop _ => true
  | _ => false

theorem stopped_ends {A : Type} {x : Prog A} (h : hasStopped x = true) : ∃ r, EndedWith x r := by
  cases x with
  | stop r => exact ⟨r, rfl⟩
  | _ => cases h

/-- C120: the condition that the runs are separate is needed: of two scenes of a directory one file may be left by the one run and another file by the other. -/
theorem C120_one_directory : ¬ SomeOrder := by
  intro h
  have hend : ∀ x ∈ ((startAll (fun _ _ => []) countTools [.ortho (graphArgs "e/a.obj"), .ortho (graphArgs "e/b.obj")] sharedFs).run (machine countTools fun _ _ _ _ => []) overtaken).procs,
      ∃ r, EndedWith x.1 r := by
    have hall : (((startAll (fun _ _ => []) countTools [.ortho (graphArgs "e/a.obj"), .ortho (graphArgs "e/b.obj")] sharedFs).run (machine countTools fun _ _ _ _ => []) overtaken).procs.all
      fun x => hasStopped x.1) = true := by decide +kernel
    exact fun x hx => stopped_ends (List.all_eq_true.1 hall x hx)
  rcases h Mesh Unit countTools (fun _ _ _ _ => []) count_lists silent_noise (graphArgs "e/a.obj") (graphArgs "e/b.obj") _ _ rfl rfl (by decide) sharedFs overtaken hend with k | k
  · exact absurd (congrFun k ["e".toList, "dual_graphs".toList, "x.txt".toList]) (by decide +kernel)
  · exact absurd (congrFun k ["e".toList, "dual_graphs".toList, "y.txt".toList]) (by decide +kernel)

end City.Props
