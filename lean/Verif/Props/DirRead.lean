import Verif.Props.Scene
import Verif.Props.Extension

/-! C102: what a scene is read from. -/

namespace City.Spec
open City

/-- The two file systems hold the same OFF files in the directory `p`, whatever else they hold. -/
def SameOff (p : Path) (fs fs' : Fs) : Prop := fs p = fs' p ∧ ∀ n, NamedLike (p ++ [n]) "off".toList → fs (p ++ [n]) = fs' (p ++ [n])

/-- The directory `p` holds an OFF file `n` with this text that is a building: it is not called terrain. -/
def BuildingFile (p : Path) (fs : Fs) (n t : Text) : Prop :=
  fs (p ++ [n]) = some (.file t) ∧ NamedLike (p ++ [n]) "off".toList ∧ ¬ ∃ x, '.' ∉ x ∧ n = "terrain.".toList ++ x

end City.Spec

namespace City.Props
open City Spec

variable {N L : Type}

theorem isBuilding_iff (p : Path) (fs : Fs) (n : Text) : isBuildingFile p fs n = true ↔ ∃ t, BuildingFile p fs n t := by
  rw [C31_buildings]
  constructor
  · rintro ⟨⟨t, h1⟩, h2, h3⟩
    exact ⟨t, h1, h2, h3⟩
  · rintro ⟨t, h1, h2, h3⟩
    exact ⟨⟨t, h1⟩, h2, h3⟩

theorem same_building {p : Path} {fs fs' : Fs} (h : SameOff p fs fs') (n t : Text) : BuildingFile p fs n t ↔ BuildingFile p fs' n t := by
  constructor
  · rintro ⟨h1, h2, h3⟩
    exact ⟨by rw [← h.2 n h2]; exact h1, h2, h3⟩
  · rintro ⟨h1, h2, h3⟩
    exact ⟨by rw [h.2 n h2]; exact h1, h2, h3⟩

theorem terrain_named (p : Path) : NamedLike (p ++ ["terrain.off".toList]) "off".toList :=
  ⟨p, "terrain".toList, "off".toList, by
    congr 1, by
    have : "off".toList = ['o', 'f', 'f'] := by decide
    rw [this]
    exact .cons (Or.inl rfl) (.cons (Or.inl rfl) (.cons (Or.inl rfl) .nil))⟩

theorem terrain_path (p : Path) : joinPath p "terrain.off".toList = p ++ ["terrain.off".toList] := by
  unfold joinPath
  congr 1

theorem mapM_values {α β : Type} [Inhabited β] {f : α → Out β} {as : List α} {bs : List β} (h : Out.mapM f as = .ok bs) :
    ∃ g : α → β, (∀ a ∈ as, f a = .ok (g a)) ∧ bs = as.map g := by
  refine ⟨fun a => match f a with | .ok b => b | _ => default, ?_, ?_⟩
  · intro a ha
    obtain ⟨b, hb⟩ : ∃ b, f a = Out.ok b := by
      have := Out.mapM_eq_ok.1 h
      clear h
      induction this with
      | nil => simp at ha
      | cons h0 _ ih =>
        rcases List.mem_cons.1 ha with rfl | ha
        · exact ⟨_, h0⟩
        · exact ih ha
    simp only [hb]
  · have := Out.mapM_eq_ok.1 h
    clear h
    induction this with
    | nil => rfl
    | cons h0 _ ih => rw [List.map_cons, ← ih, h0]

instance : Inhabited Mesh := ⟨Mesh.empty⟩

/-- C102: a scene read from a directory depends on the OFF files of this directory and on nothing else: not on the rest of the disk, on other files and directories
in it, or on the order in which the system lists them; only the order of the buildings follows the listing. -/
theorem C102_directory (ops : NodeOps N) (lib : Libs L) (rnd : ℚ → ℚ) (lf : Bool) (modes : Modes) (p : Path) (fs fs' : Fs) (names names' : List Text)
    (h : SameOff p fs fs') (hl : Listing fs p names) (hl' : Listing fs' p names') (s : Scene N)
    (hs : sceneRead ops lib rnd lf .off modes p names fs = .ok s) :
    ∃ s', sceneRead ops lib rnd lf .off modes p names' fs' = .ok s' ∧ s'.buildings.Perm s.buildings ∧ s'.terrain = s.terrain ∧ s'.pivot = s.pivot ∧
      s'.epsg = s.epsg := by
  have hperm : (names'.filter (isBuildingFile p fs')).Perm (names.filter (isBuildingFile p fs)) := by
    rw [List.perm_ext_iff_of_nodup (hl'.1.filter _) (hl.1.filter _)]
    intro n
    have hb : isBuildingFile p fs' n = true ↔ isBuildingFile p fs n = true := by
      rw [isBuilding_iff, isBuilding_iff]
      exact exists_congr fun t => (same_building h n t).symm
    rw [List.mem_filter, List.mem_filter, hb, hl.2, hl'.2]
    constructor
    · rintro ⟨-, k⟩
      refine ⟨?_, k⟩
      obtain ⟨t, k1, -⟩ := (isBuilding_iff p fs n).1 k
      rw [k1]
      simp
    · rintro ⟨-, k⟩
      refine ⟨?_, k⟩
      obtain ⟨t, k1, -⟩ := (isBuilding_iff p fs' n).1 (hb.2 k)
      rw [k1]
      simp
  unfold sceneRead offSceneRead at hs ⊢
  dsimp only at hs ⊢
  rw [← h.1]
  split at hs
  · cases hs
  rename_i hd
  rw [if_neg hd]
  obtain ⟨bs, h1, hs⟩ := Out.bind_eq_ok.1 hs
  obtain ⟨t, h2, hs⟩ := Out.bind_eq_ok.1 hs
  cases hs
  obtain ⟨g, hg, rfl⟩ := mapM_values h1
  have h1' : Out.mapM (fun n => offRead rnd lf modes (p ++ [n]) fs') (names'.filter (isBuildingFile p fs')) =
      .ok ((names'.filter (isBuildingFile p fs')).map g) := by
    refine Out.mapM_ok_of fun n hn => ?_
    have hn' := hperm.mem_iff.1 hn
    rw [← hg n hn']
    obtain ⟨x, k1, k2, -⟩ := (isBuilding_iff p fs n).1 (List.mem_filter.1 hn').2
    unfold offRead
    rw [← h.2 n k2]
  have h2' : offRead rnd lf modes (joinPath p "terrain.off".toList) fs' = .ok t := by
    rw [← h2, terrain_path]
    unfold offRead
    rw [← h.2 _ (terrain_named p)]
  rw [h1', Out.ok_bind, h2', Out.ok_bind]
  refine ⟨_, rfl, ?_, rfl, rfl, rfl⟩
  unfold Scene.makeDefault Scene.make
  dsimp only
  rw [List.map_map, List.map_map]
  exact hperm.map _

/-- C102: exactly what is read: one building per OFF file that is not called terrain, with the name of the file, and terrain.off; all of them must be there and be
readable. -/
theorem C102_content (ops : NodeOps N) (lib : Libs L) (rnd : ℚ → ℚ) (lf : Bool) (rm : Modes) (hr : OpenedRead rm) (p : Path) (fs : Fs) (names : List Text)
    (hl : Listing fs p names) (s : Scene N) :
    sceneRead ops lib rnd lf .off rm p names fs = .ok s ↔ fs p = some .dir ∧
      ∃ (files : List (Text × Text)) (bs : List Mesh) (tt : Text) (t : Mesh), (files.map (·.1)).Nodup ∧ (files.map (·.1)).Sublist names ∧
        (∀ n x, (n, x) ∈ files ↔ BuildingFile p fs n x) ∧
        List.Forall₂ (fun nx b => ∃ m, Off.read rnd lf nx.2 = .ok m ∧ b = m.setName (stem [nx.1])) files bs ∧
        fs (p ++ ["terrain.off".toList]) = some (.file tt) ∧ (∃ m, Off.read rnd lf tt = .ok m ∧ t = m.setName "terrain".toList) ∧
        s = Scene.make ops bs t ⟨0, 0, 0⟩ 2154 := by
  have hr' := canRead_iff.2 hr
  have stem_last : ∀ n : Text, stem (p ++ [n]) = stem [n] := by
    intro n
    simp [stem, fileName]
  have hstem : stem ["terrain.off".toList] = "terrain".toList := by decide
  have hread : ∀ (n x : Text), fs (p ++ [n]) = some (.file x) → ∀ b, offRead rnd lf rm (p ++ [n]) fs = .ok b ↔
      ∃ m, Off.read rnd lf x = .ok m ∧ b = m.setName (stem [n]) := by
    intro n x hx b
    unfold offRead
    rw [if_pos hr', hx]
    dsimp only
    rw [Out.bind_eq_ok, stem_last]
    constructor
    · rintro ⟨m, h1, h2⟩
      cases h2
      exact ⟨m, h1, rfl⟩
    · rintro ⟨m, h1, rfl⟩
      exact ⟨m, h1, rfl⟩
  unfold sceneRead offSceneRead
  dsimp only
  rw [terrain_path]
  by_cases hd : fs p = some .dir
  swap
  · rw [if_pos hd]
    constructor
    · intro h; cases h
    · rintro ⟨h, -⟩; exact absurd h hd
  rw [if_neg (not_not.2 hd)]
  have key : ∀ l : List Text, (∀ n ∈ l, ∃ x, BuildingFile p fs n x) → ∃ files : List (Text × Text), files.map (·.1) = l ∧
      (∀ nx ∈ files, BuildingFile p fs nx.1 nx.2) ∧ ∀ bs, Out.mapM (fun n => offRead rnd lf rm (p ++ [n]) fs) l = .ok bs ↔
        List.Forall₂ (fun nx b => ∃ m, Off.read rnd lf nx.2 = .ok m ∧ b = m.setName (stem [nx.1])) files bs := by
    intro l
    induction l with
    | nil => exact fun _ => ⟨[], rfl, by simp, fun bs => by rw [Out.mapM_eq_ok]; simp⟩
    | cons n l ih =>
      intro hall
      obtain ⟨files, f1, f2, f3⟩ := ih fun m hm => hall m (List.mem_cons_of_mem _ hm)
      obtain ⟨x, hx⟩ := hall n List.mem_cons_self
      refine ⟨(n, x) :: files, by rw [List.map_cons, f1], ?_, fun bs => ?_⟩
      · intro nx hnx
        rcases List.mem_cons.1 hnx with rfl | hnx
        · exact hx
        · exact f2 nx hnx
      · rw [Out.mapM_eq_ok]
        cases bs with
        | nil => simp
        | cons b bs =>
          rw [List.forall₂_cons, List.forall₂_cons, ← Out.mapM_eq_ok, f3 bs, hread n x hx.1 b]
  obtain ⟨files, f1, f2, f3⟩ := key (names.filter (isBuildingFile p fs)) fun n hn => (isBuilding_iff p fs n).1 (List.mem_filter.1 hn).2
  have hfiles : ∀ n x, (n, x) ∈ files ↔ BuildingFile p fs n x := by
    intro n x
    constructor
    · exact fun h => f2 _ h
    · intro h
      have : n ∈ files.map (·.1) := by
        rw [f1, List.mem_filter, hl.2, isBuilding_iff]
        exact ⟨by rw [h.1]; simp, x, h⟩
      obtain ⟨⟨n', x'⟩, h1, h2⟩ := List.mem_map.1 this
      dsimp only at h2
      subst h2
      have h3 := (f2 _ h1).1
      rw [h.1] at h3
      cases h3
      exact h1
  constructor
  · intro hs
    obtain ⟨bs, h1, hs⟩ := Out.bind_eq_ok.1 hs
    obtain ⟨t, h2, hs⟩ := Out.bind_eq_ok.1 hs
    cases hs
    obtain ⟨tt, htt⟩ : ∃ tt, fs (p ++ ["terrain.off".toList]) = some (.file tt) := by
      unfold offRead at h2
      rw [if_pos hr'] at h2
      split at h2
      · rename_i tt htt
        exact ⟨tt, htt⟩
      · cases h2
    refine ⟨hd, files, bs, tt, t, by rw [f1]; exact hl.1.filter _, by rw [f1]; exact List.filter_sublist, hfiles, (f3 bs).1 h1, htt, ?_, rfl⟩
    have := (hread _ tt htt t).1 h2
    rwa [hstem] at this
  · rintro ⟨-, files', bs, tt, t, g1, g2, g3, g4, g5, g6, rfl⟩
    have hsame : files' = files := by
      have e1 : files'.map (·.1) = files.map (·.1) := by
        rw [f1]
        refine List.Sublist.eq_of_length ?_ ?_
        · have : (files'.map (·.1)).filter (isBuildingFile p fs) = files'.map (·.1) := by
            rw [List.filter_eq_self]
            intro n hn
            obtain ⟨⟨n', x⟩, k1, rfl⟩ := List.mem_map.1 hn
            exact (isBuilding_iff p fs n').2 ⟨x, (g3 n' x).1 k1⟩
          rw [← this]
          exact g2.filter _
        · refine List.Perm.length_eq ((List.perm_ext_iff_of_nodup g1 (hl.1.filter _)).2 fun n => ?_)
          rw [List.mem_filter, hl.2, isBuilding_iff, List.mem_map]
          constructor
          · rintro ⟨⟨n', x⟩, k1, rfl⟩
            have k2 := (g3 n' x).1 k1
            exact ⟨by rw [k2.1]; simp, x, k2⟩
          · rintro ⟨-, x, k⟩
            exact ⟨(n, x), (g3 n x).2 k, rfl⟩
      have e2 : ∀ F : List (Text × Text), (∀ nx ∈ F, BuildingFile p fs nx.1 nx.2) →
          F = (F.map (·.1)).map fun n => (n, match fs (p ++ [n]) with | some (.file t) => t | _ => []) := by
        intro F hF
        rw [List.map_map]
        conv_lhs => rw [← List.map_id F]
        refine List.map_congr_left fun nx hnx => ?_
        obtain ⟨n, x⟩ := nx
        have := (hF _ hnx).1
        dsimp only at this
        simp only [id, Function.comp_apply, this]
      rw [e2 files' fun nx h => (g3 nx.1 nx.2).1 h, e2 files f2, e1]
    subst hsame
    rw [(f3 bs).2 g4, Out.ok_bind, (hread _ tt g5 t).2 (by rwa [hstem]), Out.ok_bind]
    rfl

/-- C102: if an OFF file of the directory (a building or terrain.off) is refused by the reader and none makes it undefined, reading the scene throws, whatever the
order of the listing; so it does if terrain.off is missing. -/
theorem C102_refused (ops : NodeOps N) (lib : Libs L) (rnd : ℚ → ℚ) (lf : Bool) (rm : Modes) (hr : OpenedRead rm) (p : Path) (fs : Fs) (names : List Text)
    (hl : Listing fs p names) (hd : fs p = some .dir) (hub : ∀ n t, NamedLike (p ++ [n]) "off".toList → fs (p ++ [n]) = some (.file t) → Off.read rnd lf t ≠ .ub)
    (hbad : (∃ n t e, BuildingFile p fs n t ∧ Off.read rnd lf t = .thrown e) ∨
      (∃ t e, fs (p ++ ["terrain.off".toList]) = some (.file t) ∧ Off.read rnd lf t = .thrown e) ∨ ∀ t, fs (p ++ ["terrain.off".toList]) ≠ some (.file t)) :
    ∃ e, sceneRead ops lib rnd lf .off rm p names fs = .thrown e := by
  have hn : ∀ s, sceneRead ops lib rnd lf .off rm p names fs ≠ .ok s := by
    intro s hs
    obtain ⟨-, files, bs, tt, t, -, -, g3, g4, g5, ⟨m, g6, -⟩, -⟩ := (C102_content ops lib rnd lf rm hr p fs names hl s).1 hs
    rcases hbad with ⟨n, x, e, h1, h2⟩ | ⟨x, e, h1, h2⟩ | h
    · have hmem := (g3 n x).2 h1
      obtain ⟨b, m, h3, -⟩ : ∃ b m, Off.read rnd lf x = .ok m ∧ b = m.setName (stem [n]) := by
        clear g3
        induction g4 with
        | nil => simp at hmem
        | cons h0 _ ih =>
          rcases List.mem_cons.1 hmem with rfl | hmem
          · exact ⟨_, h0⟩
          · exact ih hmem
      rw [h2] at h3
      cases h3
    · rw [g5] at h1
      cases h1
      rw [g6] at h2
      cases h2
    · exact h tt g5
  have hr' := canRead_iff.2 hr
  have hread : ∀ n, NamedLike (p ++ [n]) "off".toList → offRead rnd lf rm (p ++ [n]) fs ≠ .ub := by
    intro n hnl h
    unfold offRead at h
    rw [if_pos hr'] at h
    split at h
    · rename_i x hx
      rcases Out.bind_eq_ub.1 h with h | ⟨_, _, h⟩
      · exact hub n x hnl hx h
      · cases h
    · cases h
  have hnu : sceneRead ops lib rnd lf .off rm p names fs ≠ .ub := by
    intro h
    unfold sceneRead offSceneRead at h
    dsimp only at h
    rw [if_neg (not_not.2 hd), terrain_path] at h
    rcases Out.bind_eq_ub.1 h with h | ⟨_, _, h⟩
    · exact mapM_ne_ub (fun n hn => by
        obtain ⟨t, -, k, -⟩ := (isBuilding_iff p fs n).1 (List.mem_filter.1 hn).2
        exact hread n k) h
    · rcases Out.bind_eq_ub.1 h with h | ⟨_, _, h⟩
      · exact hread _ (terrain_named p) h
      · cases h
  cases h : sceneRead ops lib rnd lf .off rm p names fs with
  | ok s => exact absurd h (hn s)
  | thrown e => exact ⟨e, rfl⟩
  | ub => exact absurd h hnu

/-- C102: an OBJ scene is read from its file and nothing else; a 3DS scene from its file and the document beside it. -/
theorem C102_files (ops : NodeOps N) (lib : Libs L) (rnd : ℚ → ℚ) (lf : Bool) (modes : Modes) (p : Path) (fs fs' : Fs) (names names' : List Text) (h : fs p = fs' p) :
    sceneRead ops lib rnd lf .obj modes p names fs = sceneRead ops lib rnd lf .obj modes p names' fs' ∧
    (fs (xmlPath p) = fs' (xmlPath p) → sceneRead ops lib rnd lf .t3ds modes p names fs = sceneRead ops lib rnd lf .t3ds modes p names' fs' ∧
      sceneRead ops lib rnd lf .t3dsXml modes p names fs = sceneRead ops lib rnd lf .t3dsXml modes p names' fs') := by
  constructor
  · unfold sceneRead
    dsimp only
    unfold objSceneRead objSceneMeshes objRead
    rw [h]
  · intro hx
    unfold sceneRead
    dsimp only
    unfold T3ds.construct SceneTree.construct
    rw [h, hx]
    exact ⟨rfl, rfl⟩

/-- A directory with a building and a terrain, with or without a note: for the examples. -/
def notedFs (note : Bool) (a t : Text) : Fs
  | [d] => if d = ['d'] then some .dir else none
  | [d, n] =>
    if d = ['d'] then
      if n = "A.OFF".toList then some (.file a)
      else if n = "terrain.off".toList then some (.file t)
      else if n = "note.txt".toList then (if note then some (.file "roof to be checked".toList) else none)
      else none
    else none
  | _ => none

/-- The two directories hold the same OFF files. -/
example (a t : Text) : SameOff [['d']] (notedFs true a t) (notedFs false a t) := by
  refine ⟨rfl, ?_⟩
  rintro n ⟨d, s, x, h1, h2⟩
  have hn : n = s ++ '.' :: x := by
    have := congrArg (fun l => l.getLastD []) h1
    simpa using this
  have : n ≠ "note.txt".toList := by
    intro h
    have hx : x.length = 3 := h2.length_eq
    have h3 : s ++ '.' :: x = "note".toList ++ ".txt".toList := by rw [← hn, h]; decide
    have h4 := List.append_inj_right' h3 (by rw [List.length_cons, hx]; decide)
    have h5 : x = "txt".toList := by
      have : ".txt".toList = '.' :: "txt".toList := by decide
      rw [this] at h4
      exact List.tail_eq_of_cons_eq h4
    subst h5
    have : ¬ List.Forall₂ (fun c b => c = b ∨ c = b.toUpper) "txt".toList "off".toList := by decide
    exact this h2
  show notedFs true a t [['d'], n] = notedFs false a t [['d'], n]
  unfold notedFs
  simp only
  rw [if_neg this, if_neg this]

/-- Both are read, in different orders of the listing, and a building named A is found. -/
example : (match sceneRead (L := Unit) plainOps ⟨fun _ => none, fun _ => [], fun _ => Mesh.empty, fun _ => none, fun _ => none, fun _ => none⟩ id true .off
      (fun k => if k = "read".toList then some true else none) [['d']] ["note.txt".toList, "terrain.off".toList, "A.OFF".toList]
        (notedFs true "OFF\n3 1 0\n0 0 0\n1 0 0\n0 1 0\n3 0 1 2\n".toList "OFF\n3 1 0\n0 0 0\n9 0 0\n0 9 0\n3 0 1 2\n".toList) with
    | .ok s => decide (s.buildings.map (·.name) = ["A".toList] ∧ s.terrain.name = "terrain".toList ∧ s.terrain.points.length = 3)
    | _ => false) = true := by decide +kernel

example (a t : Text) : Listing (notedFs true a t) [['d']] ["note.txt".toList, "terrain.off".toList, "A.OFF".toList] := by
  refine ⟨by decide, fun n => ?_⟩
  show _ ↔ notedFs true a t [['d'], n] ≠ none
  unfold notedFs
  simp only [List.mem_cons, List.not_mem_nil, or_false, if_true]
  generalize "A.OFF".toList = x
  generalize "terrain.off".toList = y
  generalize "note.txt".toList = z
  by_cases h1 : n = x
  · simp [h1]
  by_cases h2 : n = y
  · rw [if_neg h1, if_pos h2]; simp [h2]
  by_cases h3 : n = z
  · rw [if_neg h1, if_neg h2, if_pos h3]; simp [h3]
  rw [if_neg h1, if_neg h2, if_neg h3]
  simp [h1, h2, h3]

end City.Props
