import Verif.Props.Locality
/-!
C118: a batch of runs on separate scenes may be done in any order.
-/
set_option linter.unusedSectionVars false
namespace City.Spec
open City City.Props

/-- A run of one of the tools with its arguments. -/
inductive Job where
  | ortho (args : Args)
  | format (args : Args)

namespace Job
variable {N L K : Type} [Field K] [LinearOrder K] [FloorRing K]

/-- The run. -/
def run (T : Toolbox N L K) (noise : SceneFormat → Bool → Path → Fs → List Text) : Job → Talk Nat
  | .ortho args => mainTalk (orthoTalk T noise args)
  | .format args => mainTalk (formatTalk T noise args)

/-- The places it may change. -/
def changes (T : Toolbox N L K) : Job → Path → Prop
  | .ortho args => OrthoChanges T args
  | .format args => FormatChanges args

/-- The places it looks at. -/
def looks (T : Toolbox N L K) : Job → Path → Prop
  | .ortho args => OrthoLooks T args
  | .format args => FormatLooks args

/-- Neither of the two runs looks at a place the other one may change. -/
def Separate (T : Toolbox N L K) (a b : Job) : Prop := ∀ q, ¬ (a.changes T q ∧ b.looks T q) ∧ ¬ (a.looks T q ∧ b.changes T q)

/-- A script: the runs one after the other; what each of them ended with and said, and the files in the end. -/
def script (T : Toolbox N L K) (noise : SceneFormat → Bool → Path → Fs → List Text) : List Job → Fs → List (Out Nat × List Said) × Fs
  | [], fs => ([], fs)
  | j :: js, fs =>
    (((j.run T noise fs).1, (j.run T noise fs).2.2) :: (script T noise js (j.run T noise fs).2.1).1, (script T noise js (j.run T noise fs).2.1).2)

end Job

open Classical in
/-- The order in which the system lists the OFF files of a directory depends on these files only. -/
def ListsFiles {N L K : Type} [Field K] [LinearOrder K] (T : Toolbox N L K) : Prop :=
  ∀ fs₁ fs₂ p, fs₁ p = fs₂ p → (∀ n, OffName n → fs₁ (p ++ [n]) = fs₂ (p ++ [n])) →
    (T.listing fs₁ p).filter (fun n => decide (OffName n)) = (T.listing fs₂ p).filter (fun n => decide (OffName n))

/-- What the 3DS readers print depends on the files they read. -/
def NoiseOfScene (noise : SceneFormat → Bool → Path → Fs → List Text) : Prop :=
  ∀ fs₁ fs₂ p, fs₁ p = fs₂ p → fs₁ (xmlPath p) = fs₂ (xmlPath p) → ∀ f b, noise f b p fs₁ = noise f b p fs₂

end City.Spec
namespace City.Props
open City City.Spec
variable {N L K : Type} [Field K] [LinearOrder K] [FloorRing K]

/-! ### One run -/

theorem job_confined (T : Toolbox N L K) (noise : SceneFormat → Bool → Path → Fs → List Text) (j : Job) (fs : Fs) (q : Path) (hq : ¬ j.changes T q) :
    (j.run T noise fs).2.1 q = fs q := by
  by_contra hne
  apply hq
  cases j with
  | ortho args =>
    refine C67_ortho_confined T args fs q ?_
    change (mainTalk (orthoTalk T noise args) fs).2.1 q ≠ fs q at hne
    rw [silence_state, silence_main, silence_ortho] at hne
    exact hne
  | format args =>
    refine C67_format_confined T args fs q ?_
    change (mainTalk (formatTalk T noise args) fs).2.1 q ≠ fs q at hne
    rw [silence_state, silence_main, silence_format] at hne
    exact hne

theorem changes_looked (T : Toolbox N L K) (j : Job) (q : Path) (h : j.changes T q) : j.looks T q := by
  cases j <;> exact Or.inl h

theorem same_listing (T : Toolbox N L K) (hT : ListsFiles T) {args : Args} {S : Path → Prop} {fs₁ fs₂ : Fs} (h : SameAt S fs₁ fs₂)
    (hp : ∀ t, args "<scene>".toList = some (.str t) → ∀ q, ScenePlace args (splitSlash t) q → S q) : SameListing T args fs₁ fs₂ := by
  intro ha t ht
  exact hT _ _ _ (h _ (hp t ht _ (Or.inl rfl))) fun n hn => h _ (hp t ht _ (Or.inr (Or.inl ⟨ha, n, hn, rfl⟩)))

theorem same_noise {noise : SceneFormat → Bool → Path → Fs → List Text} (hN : NoiseOfScene noise) {args : Args} {S : Path → Prop} {fs₁ fs₂ : Fs} (h : SameAt S fs₁ fs₂)
    (hp : ∀ t, args "<scene>".toList = some (.str t) → ∀ q, ScenePlace args (splitSlash t) q → S q) : SameNoise noise args fs₁ fs₂ := by
  intro ha t ht
  have hx : xmlPath (splitSlash t) = (splitSlash t).dropLast ++ [stem (splitSlash t) ++ ".XML".toList] :=
    joinPath_plain (plain_ext (plain_stem t) (by unfold PlainName; decide))
  exact hN _ _ _ (h _ (hp t ht _ (Or.inl rfl))) (h _ (hp t ht _ (Or.inr (Or.inr ⟨ha, hx⟩))))

/-- A run from two states that are the same where it looks. -/
theorem job_same (T : Toolbox N L K) (noise : SceneFormat → Bool → Path → Fs → List Text) (hT : ListsFiles T) (hN : NoiseOfScene noise) (j : Job) {fs₁ fs₂ : Fs}
    (h : SameAt (j.looks T) fs₁ fs₂) : SameEnd (j.looks T) (j.run T noise fs₁) (j.run T noise fs₂) := by
  cases j with
  | ortho args =>
    have hp : ∀ t, args "<scene>".toList = some (.str t) → ∀ q, ScenePlace args (splitSlash t) q → OrthoLooks T args q := fun t ht q hq => Or.inr ⟨t, ht, Or.inl hq⟩
    exact ends_main (ends_ortho T noise args h (same_listing T hT h hp) (same_noise hN h hp))
  | format args =>
    have hp : ¬ Asked args "--formats" → ∀ t, args "<scene>".toList = some (.str t) → ∀ q, ScenePlace args (splitSlash t) q → FormatLooks args q :=
      fun hf t ht q hq => Or.inr (Or.inr ⟨t, ht, hf, Or.inl hq⟩)
    exact ends_main (ends_format T noise args h (fun hf => same_listing T hT h (hp hf)) fun hf => same_noise hN h (hp hf))

/-! ### C118 -/

/-- C118: in a script of runs that are separate, each run ends in the same way and says the same as if it were the only one, at each place it may change it leaves what it would have left, and
the rest of the disk is as before. -/
theorem C118_alone (T : Toolbox N L K) (noise : SceneFormat → Bool → Path → Fs → List Text) (hT : ListsFiles T) (hN : NoiseOfScene noise) :
    ∀ (js : List Job) (fs : Fs), js.Pairwise (Job.Separate T) →
      (Job.script T noise js fs).1 = js.map (fun j => ((j.run T noise fs).1, (j.run T noise fs).2.2)) ∧
      (∀ j ∈ js, ∀ q, j.changes T q → (Job.script T noise js fs).2 q = (j.run T noise fs).2.1 q) ∧
      ∀ q, (∀ j ∈ js, ¬ j.changes T q) → (Job.script T noise js fs).2 q = fs q
  | [], fs, _ => ⟨rfl, fun j hj => absurd hj List.not_mem_nil, fun _ _ => rfl⟩
  | j :: js, fs, h => by
    obtain ⟨h0, hs⟩ := List.pairwise_cons.1 h
    obtain ⟨k1, k2, k3⟩ := C118_alone T noise hT hN js (j.run T noise fs).2.1 hs
    have hsame : ∀ i ∈ js, SameEnd (i.looks T) (i.run T noise (j.run T noise fs).2.1) (i.run T noise fs) := by
      intro i hi
      refine job_same T noise hT hN i fun q hq => job_confined T noise j fs q fun hc => (h0 i hi q).1 ⟨hc, hq⟩
    refine ⟨?_, ?_, ?_⟩
    · show _ :: (Job.script T noise js (j.run T noise fs).2.1).1 = _
      rw [k1, List.map_cons]
      congr 1
      refine List.map_congr_left fun i hi => ?_
      obtain ⟨e1, -, e3⟩ := hsame i hi
      rw [e1, e3]
    · intro i hi q hq
      show (Job.script T noise js (j.run T noise fs).2.1).2 q = _
      rcases List.mem_cons.1 hi with rfl | hi
      · exact k3 q fun i' hi' hc => (h0 i' hi' q).2 ⟨changes_looked T _ q hq, hc⟩
      · rw [k2 i hi q hq]
        exact (hsame i hi).2.1 q (changes_looked T _ q hq)
    · intro q hq
      show (Job.script T noise js (j.run T noise fs).2.1).2 q = _
      rw [k3 q fun i hi => hq i (List.mem_cons_of_mem _ hi)]
      exact job_confined T noise j fs q (hq j List.mem_cons_self)

theorem separate_symm (T : Toolbox N L K) {a b : Job} (h : Job.Separate T a b) : Job.Separate T b a :=
  fun q => ⟨fun k => (h q).2 ⟨k.2, k.1⟩, fun k => (h q).1 ⟨k.2, k.1⟩⟩

/-- C118: the order of the runs of a script does not matter: the files in the end are the same, and each run ends in the same way and says the same. -/
theorem C118_order (T : Toolbox N L K) (noise : SceneFormat → Bool → Path → Fs → List Text) (hT : ListsFiles T) (hN : NoiseOfScene noise) (js js' : List Job) (fs : Fs)
    (hp : js.Perm js') (h : js.Pairwise (Job.Separate T)) :
    (Job.script T noise js fs).2 = (Job.script T noise js' fs).2 ∧
    (js.zip (Job.script T noise js fs).1).Perm (js'.zip (Job.script T noise js' fs).1) := by
  have h' : js'.Pairwise (Job.Separate T) := hp.pairwise h fun {a b} k => separate_symm T k
  obtain ⟨a1, a2, a3⟩ := C118_alone T noise hT hN js fs h
  obtain ⟨b1, b2, b3⟩ := C118_alone T noise hT hN js' fs h'
  constructor
  · funext q
    by_cases hq : ∃ j ∈ js, j.changes T q
    · obtain ⟨j, hj, hc⟩ := hq
      rw [a2 j hj q hc, b2 j (hp.mem_iff.1 hj) q hc]
    · have hn : ∀ j ∈ js, ¬ j.changes T q := fun j hj hc => hq ⟨j, hj, hc⟩
      rw [a3 q hn, b3 q fun j hj => hn j (hp.mem_iff.2 hj)]
  · have hz : ∀ l : List Job, l.zip (l.map fun j => ((j.run T noise fs).1, (j.run T noise fs).2.2)) = l.map fun j => (j, (j.run T noise fs).1, (j.run T noise fs).2.2) := by
      intro l
      induction l with
      | nil => rfl
      | cons a l ih => simp [ih]
    rw [a1, b1, hz, hz]
    exact hp.map _

/-! ### Scenes in different directories -/

theorem slash_ne (t : Text) : splitSlash t ≠ [] := by
  cases t with
  | nil => simp [splitSlash]
  | cons c t =>
    unfold splitSlash
    split
    · simp
    · split <;> simp

theorem within_parent {p q : Path} (hp : p ≠ []) (h : Within p q) : Within p.dropLast q := by
  obtain ⟨r, rfl⟩ := h
  exact ⟨p.getLast hp :: r, by rw [← List.singleton_append, ← List.append_assoc, List.dropLast_append_getLast]⟩

theorem within_refl (p : Path) : Within p p := ⟨[], by simp⟩

theorem within_add {d q : Path} (r : Path) (h : Within (d ++ r) q) : Within d q := by
  obtain ⟨r', rfl⟩ := h
  exact ⟨r ++ r', by simp⟩

theorem scene_beside {args : Args} {t : Text} {q : Path} (h : ScenePlace args (splitSlash t) q) : Within (splitSlash t).dropLast q := by
  rcases h with rfl | ⟨-, n, -, rfl⟩ | ⟨-, rfl⟩
  · exact within_parent (slash_ne t) (within_refl _)
  · exact within_parent (slash_ne t) ⟨_, rfl⟩
  · exact ⟨_, rfl⟩

theorem ortho_beside (T : Toolbox N L K) {args : Args} {q : Path} (h : OrthoLooks T args q) :
    ∃ t, args "<scene>".toList = some (.str t) ∧ Within (splitSlash t).dropLast q := by
  rcases h with ⟨t, ht, h⟩ | ⟨t, ht, h⟩
  · refine ⟨t, ht, ?_⟩
    rcases h with ⟨-, h⟩ | ⟨-, h⟩ | ⟨-, -, rfl⟩ | ⟨_, -, -, -, h | ⟨-, rfl⟩⟩
    · exact within_add _ h
    · exact within_add _ h
    · exact ⟨_, rfl⟩
    · exact within_add _ h
    · exact ⟨_, rfl⟩
  · refine ⟨t, ht, ?_⟩
    rcases h with h | ⟨-, rfl⟩
    · exact scene_beside h
    · exact within_refl _

theorem format_beside {args : Args} {q : Path} (h : FormatLooks args q) :
    ∃ t, (args "<scene>".toList = some (.str t) ∨ args "<path>".toList = some (.str t)) ∧ Within (splitSlash t).dropLast q := by
  rcases h with ⟨t, o, f, ht, ho, -, -, ⟨-, h⟩ | h⟩ | ⟨o, ho, -, rfl⟩ | ⟨t, ht, -, h | ⟨-, rfl⟩⟩
  · exact ⟨t, Or.inl ht, within_add _ h⟩
  · exact ⟨o, Or.inr ho, within_parent (slash_ne o) h⟩
  · exact ⟨o, Or.inr ho, within_refl _⟩
  · exact ⟨t, Or.inl ht, scene_beside h⟩
  · exact ⟨t, Or.inl ht, within_refl _⟩

/-- The directory holds the scene or the output of the run. -/
def HoldsFiles : Job → Path → Prop
  | .ortho args, d => ∃ t, args "<scene>".toList = some (.str t) ∧ d = (splitSlash t).dropLast
  | .format args, d => ∃ t, (args "<scene>".toList = some (.str t) ∨ args "<path>".toList = some (.str t)) ∧ d = (splitSlash t).dropLast

theorem job_beside (T : Toolbox N L K) {j : Job} {q : Path} (h : j.looks T q) : ∃ d, HoldsFiles j d ∧ Within d q := by
  cases j with
  | ortho args =>
    obtain ⟨t, ht, hq⟩ := ortho_beside T h
    exact ⟨_, ⟨t, ht, rfl⟩, hq⟩
  | format args =>
    obtain ⟨t, ht, hq⟩ := format_beside h
    exact ⟨_, ⟨t, ht, rfl⟩, hq⟩

theorem within_both {d e q : Path} (h : Within d q) (h' : Within e q) : Within d e ∨ Within e d := by
  obtain ⟨r, rfl⟩ := h
  obtain ⟨r', h'⟩ := h'
  rcases List.prefix_or_prefix_of_prefix (⟨r, rfl⟩ : d <+: d ++ r) (⟨r', h'.symm⟩ : e <+: d ++ r) with ⟨s, hs⟩ | ⟨s, hs⟩
  · exact Or.inl ⟨s, hs.symm⟩
  · exact Or.inr ⟨s, hs.symm⟩

/-- C118: runs are separate if the directories of their scenes and outputs are different and none of them is in another one. -/
theorem C118_directories (T : Toolbox N L K) (a b : Job) (h : ∀ d e, HoldsFiles a d → HoldsFiles b e → ¬ Within d e ∧ ¬ Within e d) : Job.Separate T a b := by
  have key : ∀ q, ¬ (a.looks T q ∧ b.looks T q) := by
    rintro q ⟨h1, h2⟩
    obtain ⟨d, hd, hq⟩ := job_beside T h1
    obtain ⟨e, he, hq'⟩ := job_beside T h2
    rcases within_both hq hq' with k | k
    · exact (h d e hd he).1 k
    · exact (h d e hd he).2 k
  exact fun q => ⟨fun k => key q ⟨changes_looked T _ _ k.1, k.2⟩, fun k => key q ⟨k.1, changes_looked T _ _ k.2⟩⟩

/-- C118: conversions without dual graphs are separate if none of the outputs is in another one, or holds something of another scene; the scenes may be in the same directory, and so may
the outputs. -/
theorem C118_conversions (T : Toolbox N L K) (a b : Args) (t u o p : Text) (ha : a "<scene>".toList = some (.str t)) (hb : b "<scene>".toList = some (.str u))
    (ha' : a "<path>".toList = some (.str o)) (hb' : b "<path>".toList = some (.str p)) (hga : ¬ Asked a "--graphs") (hgb : ¬ Asked b "--graphs")
    (hop : ¬ Within (splitSlash o) (splitSlash p)) (hpo : ¬ Within (splitSlash p) (splitSlash o))
    (hs : ∀ q, ScenePlace b (splitSlash u) q → ¬ Within (splitSlash o) q) (hs' : ∀ q, ScenePlace a (splitSlash t) q → ¬ Within (splitSlash p) q) :
    Job.Separate T (.format a) (.format b) := by
  have key : ∀ (a b : Args) (u o p : Text), b "<scene>".toList = some (.str u) → a "<path>".toList = some (.str o) → b "<path>".toList = some (.str p) →
      ¬ Asked a "--graphs" → ¬ Asked b "--graphs" → ¬ Within (splitSlash o) (splitSlash p) → ¬ Within (splitSlash p) (splitSlash o) →
      (∀ q, ScenePlace b (splitSlash u) q → ¬ Within (splitSlash o) q) → ∀ q, ¬ (FormatChanges a q ∧ FormatLooks b q) := by
    rintro a b u o p hb ha' hb' hga hgb hop hpo hs q ⟨h1, h2⟩
    have hin : Within (splitSlash o) q := by
      obtain ⟨t, o', f, -, ho', -, -, ⟨hg, -⟩ | h⟩ := h1
      · exact absurd hg hga
      · rw [ha'] at ho'
        cases ho'
        exact h
    rcases h2 with ⟨t, o', f, -, ho', -, -, ⟨hg, -⟩ | h⟩ | ⟨o', ho', -, rfl⟩ | ⟨t, ht, -, h | ⟨hg, -⟩⟩
    · exact hgb hg
    · rw [hb'] at ho'
      cases ho'
      rcases within_both hin h with k | k
      · exact hop k
      · exact hpo k
    · rw [hb'] at ho'
      cases ho'
      obtain ⟨r, hr⟩ := hin
      exact hop ⟨r ++ [(splitSlash p).getLast (slash_ne p)], by
        rw [← List.append_assoc, ← hr, List.dropLast_append_getLast]⟩
    · rw [hb] at ht
      cases ht
      exact hs q h hin
    · exact hgb hg
  intro q
  exact ⟨key a b u o p hb ha' hb' hga hgb hop hpo hs q, fun k => key b a t p o ha hb' ha' hgb hga hpo hop hs' q ⟨k.2, k.1⟩⟩

/-! ### The hypotheses are met, and the condition is needed -/

/-- The dual graph tells how many points the building has. -/
def countTools : Toolbox Mesh Unit ℚ := { toyTools with dual := fun m => (m.name, natText m.points.length ++ ['\n'], .ok ()) }

/-- `orthoproject <scene> --input-format=OBJ --graphs`. -/
def graphArgs (scene : String) : Args := fun n =>
  if n = "<scene>".toList then some (.str scene.toList) else
  if n = "--input-format".toList then some (.str "OBJ".toList) else
  if n = "--graphs".toList then some (.bool true) else some (.bool false)

/-- Two directories with scenes; the second one has two of them. Each scene has a building `x`. -/
def twoFs : Fs
  | [d] => if d = "d".toList ∨ d = "e".toList then some .dir else none
  | [d, n] =>
    if d = "d".toList ∧ n = "a.obj".toList then some (.file "v 0 0 0\nv 1 0 0\nv 0 1 0\n\no x\nf 1 2 3 \n".toList) else
    if d = "e".toList ∧ n = "a.obj".toList then some (.file "v 0 0 0\nv 1 0 0\nv 0 1 0\n\no x\nf 1 2 3 \n".toList) else
    if d = "e".toList ∧ n = "b.obj".toList then some (.file "v 0 0 0\nv 1 0 0\nv 1 1 0\nv 0 1 0\n\no x\nf 1 2 3 4 \n".toList) else none
  | _ => none

theorem count_lists : ListsFiles countTools := fun _ _ _ _ _ => rfl

theorem silent_noise : NoiseOfScene fun _ _ _ _ => [] := fun _ _ _ _ _ _ _ => rfl

/-- The scenes `d/a.obj` and `e/b.obj` are separate. -/
theorem two_separate : [Job.ortho (graphArgs "d/a.obj"), Job.ortho (graphArgs "e/b.obj")].Pairwise (Job.Separate countTools) := by
  refine List.pairwise_cons.2 ⟨fun j hj => ?_, List.pairwise_singleton _ _⟩
  rw [List.mem_singleton] at hj
  subst hj
  refine C118_directories _ _ _ ?_
  rintro d e ⟨t, ht, rfl⟩ ⟨u, hu, rfl⟩
  have h1 : some (Arg.str "d/a.obj".toList) = some (Arg.str t) := ht
  have h2 : some (Arg.str "e/b.obj".toList) = some (Arg.str u) := hu
  cases h1
  cases h2
  rw [show (splitSlash "d/a.obj".toList).dropLast = ["d".toList] by decide, show (splitSlash "e/b.obj".toList).dropLast = ["e".toList] by decide]
  constructor <;> rintro ⟨r, h⟩ <;> exact absurd (List.cons.inj h).1 (by decide)

/-- Both runs do their work. -/
example : (Job.script countTools (fun _ _ _ _ => []) [.ortho (graphArgs "d/a.obj"), .ortho (graphArgs "e/b.obj")] twoFs).2 ["d".toList, "dual_graphs".toList, "x.txt".toList] =
    some (.file "3\n".toList) := by decide +kernel
example : (Job.script countTools (fun _ _ _ _ => []) [.ortho (graphArgs "d/a.obj"), .ortho (graphArgs "e/b.obj")] twoFs).2 ["e".toList, "dual_graphs".toList, "x.txt".toList] =
    some (.file "4\n".toList) := by decide +kernel

/-- What one might expect beyond C118: the order of the runs on different scenes does not matter, wherever the scenes are. -/
def OrderFree : Prop := ∀ (N L : Type) (T : Toolbox N L ℚ) (noise : SceneFormat → Bool → Path → Fs → List Text), ListsFiles T → NoiseOfScene noise →
  ∀ (a b : Args) (t u : Text), a "<scene>".toList = some (.str t) → b "<scene>".toList = some (.str u) → t ≠ u → ∀ fs,
    (Job.script T noise [.ortho a, .ortho b] fs).2 = (Job.script T noise [.ortho b, .ortho a] fs).2

/-- C118: the condition that the runs are separate is needed: the results of all the scenes of a directory go to the same places, where buildings of the same name of different scenes overwrite each other. -/
theorem C118_one_directory : ¬ OrderFree := by
  intro h
  have := congrFun (h Mesh Unit countTools (fun _ _ _ _ => []) count_lists silent_noise (graphArgs "e/a.obj") (graphArgs "e/b.obj") _ _ rfl rfl (by decide) twoFs)
    ["e".toList, "dual_graphs".toList, "x.txt".toList]
  exact absurd this (by decide +kernel)

/-- `cityformat <scene> --input-format=OBJ output --output-format=OBJ <path>`. -/
def turnArgs (scene path : String) : Args := fun n =>
  if n = "<scene>".toList then some (.str scene.toList) else
  if n = "<path>".toList then some (.str path.toList) else
  if n = "--input-format".toList then some (.str "OBJ".toList) else
  if n = "--output-format".toList then some (.str "OBJ".toList) else some (.bool false)

/-- C118: the hypotheses of `C118_conversions` are met by two scenes of a directory converted to files of another directory. -/
example : Job.Separate countTools (.format (turnArgs "e/a.obj" "d/s.obj")) (.format (turnArgs "e/b.obj" "d/t.obj")) := by
  have hnot : ∀ (x y : String), ¬ AsksFormat (turnArgs x y) "OFF" ∧ ¬ AsksFormat (turnArgs x y) "3DS" ∧ ¬ AsksFormat (turnArgs x y) "3DS XML" := by
    intro x y
    have h : turnArgs x y "--input-format".toList = some (.str "OBJ".toList) := rfl
    unfold AsksFormat
    rw [h]
    decide
  have e1 : splitSlash "e/a.obj".toList = ["e".toList, "a.obj".toList] := by decide
  have e2 : splitSlash "e/b.obj".toList = ["e".toList, "b.obj".toList] := by decide
  have e3 : splitSlash "d/s.obj".toList = ["d".toList, "s.obj".toList] := by decide
  have e4 : splitSlash "d/t.obj".toList = ["d".toList, "t.obj".toList] := by decide
  refine C118_conversions countTools _ _ _ _ _ _ rfl rfl rfl rfl (by unfold Asked; decide) (by unfold Asked; decide) ?_ ?_ ?_ ?_
  · rw [e3, e4]
    rintro ⟨r, h⟩
    exact absurd (List.cons.inj (List.cons.inj h).2).1 (by decide)
  · rw [e3, e4]
    rintro ⟨r, h⟩
    exact absurd (List.cons.inj (List.cons.inj h).2).1 (by decide)
  · rw [e3, e2]
    rintro q (rfl | ⟨h, -⟩ | ⟨h | h, -⟩) ⟨r, h'⟩
    · exact absurd (List.cons.inj h').1 (by decide)
    · exact (hnot _ _).1 h
    · exact (hnot _ _).2.1 h
    · exact (hnot _ _).2.2 h
  · rw [e4, e1]
    rintro q (rfl | ⟨h, -⟩ | ⟨h | h, -⟩) ⟨r, h'⟩
    · exact absurd (List.cons.inj h').1 (by decide)
    · exact (hnot _ _).1 h
    · exact (hnot _ _).2.1 h
    · exact (hnot _ _).2.2 h

end City.Props
