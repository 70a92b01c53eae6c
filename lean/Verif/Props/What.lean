import Verif.Model.What
import Verif.Props.Off
import Verif.Props.Scene
/-!
C128: the texts of the exceptions.
-/
set_option linter.unusedSectionVars false
namespace City.Spec
open City

/-- If there is an exception with a text of the library, the text contains the path as it was spelled. -/
def NamesThePath {A : Type} (r : Told A) (s : Text) : Prop := ∀ e w, r = .thrown e (some w) → s <:+: w

/-- The exception with this text. -/
def Says {A : Type} (r : Told A) (w : Text) : Prop := ∃ e, r = .thrown e (some w)

/-- There is no regular file. -/
def NoFile (fs : Fs) (p : Path) : Prop := ∀ t, fs p ≠ some (.file t)

end City.Spec
namespace City.Props
open City City.Spec

namespace Told
variable {A B : Type}

theorem out_ok (a : A) : (Told.ok a).out = .ok a := rfl

theorem out_bind (x : Told A) (f : A → Told B) : (x.bind f).out = x.out >>= fun a => (f a).out := by
  cases x <;> rfl

theorem bind_ok (a : A) (f : A → Told B) : (Told.ok a).bind f = f a := rfl

theorem out_named (w : Exc → Option Text) (x : Out A) : (Told.named w x).out = x := by
  cases x <;> rfl

theorem out_mapM (f : A → Told B) : ∀ l : List A, (Told.mapM f l).out = Out.mapM (fun a => (f a).out) l
  | [] => rfl
  | a :: l => by
    show ((f a).bind fun b => (Told.mapM f l).bind fun bs => Told.ok (b :: bs)).out = _
    rw [out_bind, Out.mapM_cons]
    congr 1
    funext b
    rw [out_bind, out_mapM f l]
    rfl

theorem says_bind {x : Told A} {f : A → Told B} {w : Text} : Says (x.bind f) w ↔ Says x w ∨ ∃ a, x = .ok a ∧ Says (f a) w := by
  cases x with
  | ok a => simp [Told.bind, Says]
  | thrown e w' => simp [Told.bind, Says]
  | ub => simp [Told.bind, Says]

theorem says_named {w' : Exc → Option Text} {x : Out A} {w : Text} : Says (Told.named w' x) w ↔ ∃ e, x = .thrown e ∧ w' e = some w := by
  cases x with
  | ok a => simp [Told.named, Says]
  | thrown e => simp [Told.named, Says]
  | ub => simp [Told.named, Says]

theorem says_mapM {f : A → Told B} {w : Text} : ∀ {l : List A}, Says (Told.mapM f l) w → ∃ a ∈ l, Says (f a) w
  | [], h => by obtain ⟨e, h⟩ := h; cases h
  | a :: l, h => by
    rcases says_bind.1 h with h | ⟨b, -, h⟩
    · exact ⟨a, by simp, h⟩
    · rcases says_bind.1 h with h | ⟨bs, -, h⟩
      · obtain ⟨a', h1, h2⟩ := says_mapM h
        exact ⟨a', by simp [h1], h2⟩
      · obtain ⟨e, h⟩ := h
        cases h

end Told

theorem getD_zeros (ns : List Nat) (n k : Nat) : (ns ++ List.replicate n 0).getD k 0 = ns.getD k 0 := by
  simp only [List.getD_eq_getElem?_getD]
  rcases lt_or_ge k ns.length with h | h
  · rw [List.getElem?_append_left h]
  · rw [List.getElem?_append_right h, List.getElem?_eq_none h]
    cases h' : (List.replicate n 0)[k - ns.length]? with
    | none => rfl
    | some a =>
      have := List.mem_of_getElem? h'
      rw [List.eq_of_mem_replicate this]
      rfl

theorem out_readHeader (lines : List Text) (l : Text) : (Off.readHeaderSays lines l).out = Off.readHeader lines l := by
  unfold Off.readHeaderSays Off.readHeader
  simp only [getD_zeros]
  split_ifs with h1 h2 h3 h4 h5 <;> first | rfl | (exfalso; simp at h2; omega)

theorem out_parseFace (l : Text) : (Off.parseFaceSays l).out = Off.parseFace l := by
  have fill : ∀ n ns, (Off.fillIndexesSays n ns).out = Off.fillIndexes n ns := by
    intro n ns
    unfold Off.fillIndexesSays Off.fillIndexes
    by_cases h1 : 2 ^ 60 ≤ n
    · rw [if_pos h1, if_pos h1]; rfl
    · rw [if_neg h1, if_neg h1]
      by_cases h2 : n < ns.length
      · rw [if_pos h2, if_pos h2]; rfl
      · rw [if_neg h2, if_neg h2]
        simp only
        rw [if_neg (by simp; omega), Told.out_named]
  unfold Off.parseFaceSays Off.parseFace
  cases scanNat l <;> exact fill _ _

theorem out_readFaces (lines : List Text) (a b : Nat) : (Off.readFacesSays lines a b).out = Off.readFaces lines a b := by
  unfold Off.readFacesSays Off.readFaces
  rw [Told.out_bind, Told.out_named]
  congr 1
  funext x
  rw [Told.out_mapM]
  congr 1
  funext l
  exact out_parseFace l

/-- C128: the function with the texts is the function of the other properties. -/
theorem C128_same_off (z : Suffixes) (rnd : ℚ → ℚ) (lf : Bool) (t : Text) : (Off.readSays z rnd lf t).out = Off.read rnd lf t := by
  unfold Off.readSays Off.read
  rw [Told.out_bind, Told.out_named]
  congr 1
  funext lines
  cases lines with
  | nil => rfl
  | cons l0 ls =>
    by_cases h : l0 ≠ ['O', 'F', 'F']
    · simp only [if_pos h]; rfl
    · simp only [if_neg h]
      cases ls with
      | nil => rfl
      | cons l1 ls =>
        simp only
        rw [Told.out_bind, out_readHeader]
        congr 1
        funext s
        cases lf
        · simp only [Bool.false_eq_true, if_false]
          rw [Told.out_bind, out_readFaces]
          unfold Out.both
          cases hf : Off.readFaces (l0 :: l1 :: ls) ((2 + s.1) % szMod) s.2 <;> cases hp : Off.readPoints rnd (l0 :: l1 :: ls) s.1 <;> simp [Told.out_bind, Told.out_named, hp, Told.out_ok]
        · simp only [if_true]
          rw [Told.out_bind, Told.out_named]
          unfold Out.both
          cases hp : Off.readPoints rnd (l0 :: l1 :: ls) s.1 <;> cases hf : Off.readFaces (l0 :: l1 :: ls) ((2 + s.1) % szMod) s.2 <;> simp [Told.out_bind, out_readFaces, hf, Told.out_ok]

/-- C128: the same for the reader of OBJ texts. -/
theorem C128_same_obj (z : Suffixes) (rnd : ℚ → ℚ) (t : Text) : (Obj.readSays z rnd t).out = Obj.read rnd t := by
  unfold Obj.readSays
  by_cases h : Obj.parse t = []
  · rw [if_pos h]
    unfold Obj.read
    simp only [h, if_true]
    rfl
  · rw [if_neg h, Told.out_named]

theorem out_offRead (z : Suffixes) (rnd : ℚ → ℚ) (lf : Bool) (modes : Modes) (p : Path) (s : Text) (fs : Fs) : (offReadSays z rnd lf modes p s fs).out = offRead rnd lf modes p fs := by
  unfold offReadSays offRead
  cases hm : canRead modes
  · rfl
  · simp only [if_true]
    rcases h : fs p with _ | ⟨t⟩ | _
    · rfl
    · simp only
      rw [Told.out_bind, C128_same_off]
      rfl
    · rfl

theorem out_objRead (z : Suffixes) (rnd : ℚ → ℚ) (modes : Modes) (p : Path) (s : Text) (fs : Fs) : (objReadSays z rnd modes p s fs).out = objRead rnd modes p fs := by
  unfold objReadSays objRead
  cases hm : canRead modes
  · rfl
  · simp only [if_true]
    rcases h : fs p with _ | ⟨t⟩ | _
    · rfl
    · exact C128_same_obj z rnd t
    · rfl

/-- C128: the same for the handlers of OFF, OBJ and 3DS files and scene trees, and for the readers of scenes. -/
theorem C128_same {N L : Type} (z : Suffixes) (ops : NodeOps N) (rnd : ℚ → ℚ) (lf : Bool) (modes : Modes) (p : Path) (s : Text) (fs : Fs) :
    (offReadSays z rnd lf modes p s fs).out = offRead rnd lf modes p fs ∧ (objReadSays z rnd modes p s fs).out = objRead rnd modes p fs ∧
    (∀ m, (offWriteSays z modes).out = (offWrite modes p m fs).1) ∧
    (∀ load : Text → Option (File3ds L), (t3dsOpenSays z load modes p s fs).out = T3ds.construct load modes p fs) ∧
    (∀ xml, (treeOpenSays xml p fs).out = SceneTree.construct xml p fs) ∧ (∀ f, (sceneHandlerSays p f).out = sceneHandlerNamed p f) ∧
    (∀ names, (offSceneReadSays z ops rnd lf modes p s names fs).out = offSceneRead ops rnd lf modes p names fs) ∧
    (objSceneReadSays z ops rnd modes p s fs).out = objSceneRead ops rnd modes p fs := by
  refine ⟨out_offRead z rnd lf modes p s fs, out_objRead z rnd modes p s fs, fun m => ?_, fun load => ?_, fun xml => ?_, fun f => ?_, fun names => ?_, ?_⟩
  · unfold offWriteSays offWrite
    split <;> rfl
  · unfold t3dsOpenSays T3ds.construct
    cases canRead modes <;> cases canSave modes <;> try rfl
    simp only [Bool.and_false, Bool.false_eq_true, if_false, Bool.not_true, Bool.false_and, if_true]
    rcases h : fs p with _ | ⟨t⟩ | _ <;> rfl
  · unfold treeOpenSays SceneTree.construct
    rcases h : fs p with _ | ⟨t⟩ | _
    · rfl
    · simp only
      cases xml t <;> rfl
    · rfl
  · unfold sceneHandlerSays sceneHandlerNamed
    rw [Told.out_bind, Told.out_named]
    congr 1
    funext f
    exact Told.out_named _ _
  · unfold offSceneReadSays offSceneRead
    split
    · rfl
    · rw [Told.out_bind, Told.out_mapM]
      have e : (fun n => (offReadSays z rnd lf modes (p ++ [n]) (slashed s n) fs).out) = fun n => offRead rnd lf modes (p ++ [n]) fs := by
        funext n
        exact out_offRead _ _ _ _ _ _ _
      rw [e]
      congr 1
      funext bs
      rw [Told.out_bind, out_offRead]
      rfl
  · unfold objSceneReadSays objSceneRead objSceneMeshes
    rw [Told.out_bind, out_objRead]
    cases objRead rnd modes p fs <;> rfl

section
variable {K : Type} [Field K] [LinearOrder K]

/-- C128: the same for vector files, images and the rasterization of a face. -/
theorem C128_same_gis [FloorRing K] (z : Suffixes) (C : Cgal K) (G : Gdal K) (modes : Modes) (p : Path) (s : Text) (w : World) :
    (vectorReadSays z G modes p s w).out = vectorRead G modes p w ∧ (rasterReadSays z G modes p s w).out = rasterRead G modes p w ∧
    (∀ f labels, (vectorWriteSays z modes p s w.fs).out = (vectorWrite C G modes p f labels w).1) ∧
    (∀ lr (f : FacePrint K) left top height width px im, (f.rasterizeSays C lr left top height width px im).out = f.rasterize C lr left top height width px im) := by
  have op : ∀ {A : Type} (d : Text → Option A), (gdalOpenSays z d p s w).out = gdalOpen d p w := by
    intro A d
    unfold gdalOpenSays gdalOpen
    rcases h : w.fs p with _ | ⟨t⟩ | _
    · rfl
    · simp only
      cases w.registered
      · rfl
      · simp only [if_true]
        cases d t <;> rfl
    · rfl
  refine ⟨?_, ?_, fun f labels => ?_, fun lr f left top height width px im => ?_⟩
  · unfold vectorReadSays vectorRead
    split
    · rw [Told.out_bind, op]
      congr 1
      funext x
      exact Told.out_named _ _
    · rfl
  · unfold rasterReadSays rasterRead
    split
    · rw [Told.out_bind, op]
      congr 1
      funext x
      exact Told.out_named _ _
    · rfl
  · unfold vectorWriteSays vectorWrite vectorPut
    split
    · split <;> rfl
    · rfl
  · unfold FacePrint.rasterizeSays FacePrint.rasterize
    split
    · rfl
    · cases hb : f.bbox with
      | none => rfl
      | some b =>
        simp only
        rw [Told.out_bind, Told.out_named]
        congr 1; funext i0
        rw [Told.out_bind, Told.out_named]
        congr 1; funext j0
        rw [Told.out_bind, Told.out_named]
        congr 1; funext w
        rw [Told.out_bind, Told.out_named]
        congr 1; funext h
        split
        · rfl
        · exact Told.out_named _ _
end

/-! ### The texts of the OFF reader -/

theorem says_thrown {A : Type} {e : Exc} {v : Option Text} {w : Text} : Says (Told.thrown e v : Told A) w ↔ v = some w := by
  constructor
  · rintro ⟨e', h⟩
    injection h
  · rintro rfl
    exact ⟨e, rfl⟩

theorem says_ok {A : Type} {a : A} {w : Text} : ¬ Says (Told.ok a) w := by
  rintro ⟨e, h⟩
  cases h

theorem says_ub {A : Type} {w : Text} : ¬ Says (Told.ub : Told A) w := by
  rintro ⟨e, h⟩
  cases h

theorem says_none {A : Type} {x : Out A} {w : Text} : ¬ Says (Told.named (fun _ => none) x) w := by
  rw [Told.says_named]
  rintro ⟨e, -, h⟩
  cases h

theorem says_fill {n : Nat} {ns : List Nat} {w : Text} (h : Says (Off.fillIndexesSays n ns) w) : w = fewVertices ∧ n < 3 := by
  unfold Off.fillIndexesSays at h
  split_ifs at h with h1 h2
  · rw [says_thrown] at h; cases h
  · exact (says_ub h).elim
  · simp only at h
    rw [if_neg (by simp; omega), Told.says_named] at h
    obtain ⟨e, h, h'⟩ := h
    refine ⟨(Option.some.inj h').symm, ?_⟩
    unfold Face.mk? at h
    split at h
    · rename_i h3
      simp at h3
      omega
    · cases h

theorem says_parseFace {l w : Text} (h : Says (Off.parseFaceSays l) w) : w = fewVertices ∧ (scanNats l).getD 0 0 < 3 := by
  unfold Off.parseFaceSays at h
  cases hs : scanNat l with
  | got n rest =>
    rw [hs] at h
    rw [scanNats_got hs]
    exact says_fill h
  | fail o =>
    rw [hs] at h
    rw [scanNats_fail hs]
    exact ⟨(says_fill h).1, by simp⟩

theorem says_readFaces {lines : List Text} {a b : Nat} {w : Text} (h : Says (Off.readFacesSays lines a b) w) :
    w = fewVertices ∧ ∃ l ∈ (lines.drop a).take b, (scanNats l).getD 0 0 < 3 := by
  unfold Off.readFacesSays at h
  rcases Told.says_bind.1 h with h | ⟨ls, hl, h⟩
  · exact (says_none h).elim
  · obtain ⟨l, h1, h2⟩ := Told.says_mapM h
    refine ⟨(says_parseFace h2).1, l, ?_, (says_parseFace h2).2⟩
    unfold Off.slice at hl
    split_ifs at hl
    · cases hl
    · injection hl with hl
      rw [hl]; exact h1
    · cases hl

theorem says_header {lines : List Text} {l w : Text} : Says (Off.readHeaderSays lines l) w ↔
    (w = thirdZero ∧ (scanNats l).length ≤ 3 ∧ (scanNats l).getD 2 0 ≠ 0) ∨
    (w = wrongLines ∧ (scanNats l).length ≤ 3 ∧ (scanNats l).getD 2 0 = 0 ∧ lines.length ≠ (2 + (scanNats l).getD 0 0 + (scanNats l).getD 1 0) % 2 ^ 64) := by
  have hz : szMod = 2 ^ 64 := rfl
  unfold Off.readHeaderSays
  simp only [getD_zeros]
  by_cases h1 : 3 < (scanNats l).length
  · rw [if_pos h1]
    exact ⟨fun h => (says_ub h).elim, fun h => by omega⟩
  · rw [if_neg h1, if_neg (by simp; omega)]
    by_cases h2 : (scanNats l).getD 2 0 ≠ 0
    · rw [if_pos h2, says_thrown]
      refine ⟨fun h => .inl ⟨?_, by omega, h2⟩, ?_⟩
      · exact (Option.some.inj h).symm
      · rintro (⟨h, -⟩ | ⟨-, -, h, -⟩)
        · rw [h]
        · exact (h2 h).elim
    · rw [if_neg h2]
      rw [not_not] at h2
      by_cases h3 : lines.length ≠ (2 + (scanNats l).getD 0 0 + (scanNats l).getD 1 0) % szMod
      · rw [if_pos h3, says_thrown]
        refine ⟨fun h => .inr ⟨?_, by omega, h2, by rw [hz] at h3; exact h3⟩, ?_⟩
        · exact (Option.some.inj h).symm
        · rintro (⟨-, -, h⟩ | ⟨h, -⟩)
          · exact (h h2).elim
          · rw [h]
      · rw [if_neg h3]
        refine ⟨fun h => (says_ok h).elim, ?_⟩
        rintro (⟨-, -, h⟩ | ⟨-, -, -, h⟩)
        · exact (h h2).elim
        · exact (h3 (by rw [hz]; exact h)).elim

/-- Auxiliary: what an exception with text `w` of the reader of OFF texts says about the text `t`. -/
def offCause (z : Suffixes) (t w : Text) : Prop :=
  [] ∉ readlines t ∧
    ((w = onlyComments ∧ contentLines t = []) ∨
     (w = notOff ++ z.stream ∧ ∃ l ls, contentLines t = l :: ls ∧ l ≠ "OFF".toList) ∨
     (w = onlyHeader ∧ contentLines t = ["OFF".toList]) ∨
     (∃ l ls, contentLines t = "OFF".toList :: l :: ls ∧ (scanNats l).length ≤ 3 ∧
       ((w = thirdZero ∧ (scanNats l).getD 2 0 ≠ 0) ∨
        (w = wrongLines ∧ (scanNats l).getD 2 0 = 0 ∧ (contentLines t).length ≠ (2 + (scanNats l).getD 0 0 + (scanNats l).getD 1 0) % 2 ^ 64))))

theorem says_off {z : Suffixes} {rnd : ℚ → ℚ} {lf : Bool} {t w : Text} :
    (offCause z t w → Says (Off.readSays z rnd lf t) w) ∧ (Says (Off.readSays z rnd lf t) w → offCause z t w ∨
      (w = fewVertices ∧ [] ∉ readlines t ∧ ∃ l ls, contentLines t = "OFF".toList :: l :: ls ∧ (scanNats l).getD 2 0 = 0 ∧
        ∃ f ∈ ((contentLines t).drop ((2 + (scanNats l).getD 0 0) % 2 ^ 64)).take ((scanNats l).getD 1 0), (scanNats f).getD 0 0 < 3)) := by
  have ho : "OFF".toList = ['O', 'F', 'F'] := by decide +kernel
  unfold offCause Off.readSays
  rw [parseLines_eq, ho]
  by_cases he : [] ∈ readlines t
  · rw [if_pos he]
    exact ⟨fun h => (h.1 he).elim, fun h => by
      rcases Told.says_bind.1 h with h | ⟨a, h, -⟩
      · exact (says_none h).elim
      · cases h⟩
  rw [if_neg he]
  have hc : (readlines t).filter (fun l => !isCommentLine l) = contentLines t := rfl
  rw [hc]
  show (_ → Says (Told.bind (.ok (contentLines t)) _) w) ∧ (Says (Told.bind (.ok (contentLines t)) _) w → _)
  simp only [Told.bind_ok]
  match hl : contentLines t with
  | [] =>
    simp only [says_thrown, Option.some.injEq]
    refine ⟨?_, fun h => .inl ⟨he, .inl ⟨h.symm, trivial⟩⟩⟩
    rintro ⟨-, h | ⟨-, l, ls, h, -⟩ | ⟨-, h⟩ | ⟨l, ls, h, -⟩⟩
    · exact h.1.symm
    · cases h
    · cases h
    · cases h
  | [l0] =>
    simp only
    by_cases h0 : l0 ≠ ['O', 'F', 'F']
    · rw [if_pos h0, says_thrown, Option.some.injEq]
      refine ⟨?_, fun h => .inl ⟨he, .inr (.inl ⟨h.symm, l0, [], rfl, h0⟩)⟩⟩
      rintro ⟨-, ⟨-, h⟩ | ⟨h, -⟩ | ⟨-, h⟩ | ⟨l, ls, h, -⟩⟩
      · cases h
      · exact h.symm
      · injection h with h; exact (h0 h).elim
      · cases h
    · rw [if_neg h0, says_thrown, Option.some.injEq]
      rw [not_not] at h0
      subst h0
      refine ⟨?_, fun h => .inl ⟨he, .inr (.inr (.inl ⟨h.symm, rfl⟩))⟩⟩
      rintro ⟨-, ⟨-, h⟩ | ⟨-, l, ls, h, h'⟩ | ⟨h, -⟩ | ⟨l, ls, h, -⟩⟩
      · cases h
      · injection h with h; exact (h' h.symm).elim
      · exact h.symm
      · cases h
  | l0 :: l1 :: rest =>
    simp only
    by_cases h0 : l0 ≠ ['O', 'F', 'F']
    · rw [if_pos h0, says_thrown, Option.some.injEq]
      refine ⟨?_, fun h => .inl ⟨he, .inr (.inl ⟨h.symm, l0, _, rfl, h0⟩)⟩⟩
      rintro ⟨-, ⟨-, h⟩ | ⟨h, -⟩ | ⟨-, h⟩ | ⟨l, ls, h, -⟩⟩
      · cases h
      · exact h.symm
      · cases h
      · injection h with h; exact (h0 h).elim
    · rw [if_neg h0]
      rw [not_not] at h0
      subst h0
      have hb := fun (f : Nat × Nat → Told Mesh) => Told.says_bind (x := Off.readHeaderSays (['O', 'F', 'F'] :: l1 :: rest) l1) (f := f) (w := w)
      simp only [hb, says_header]
      constructor
      · rintro ⟨-, ⟨-, h⟩ | ⟨-, l, ls, h, h'⟩ | ⟨-, h⟩ | ⟨l, ls, h, h3, h'⟩⟩
        · cases h
        · injection h with h; exact (h' h.symm).elim
        · cases h
        · injection h with _ h
          injection h with h _
          subst h
          rcases h' with ⟨a, b⟩ | ⟨a, b, c⟩
          · exact .inl (.inl ⟨a, h3, b⟩)
          · exact .inl (.inr ⟨a, h3, b, c⟩)
      · rintro (h | ⟨s, hs, h⟩)
        · refine .inl ⟨he, .inr (.inr (.inr ⟨l1, rest, rfl, ?_⟩))⟩
          rcases h with ⟨a, b, c⟩ | ⟨a, b, c, d⟩
          · exact ⟨b, .inl ⟨a, c⟩⟩
          · exact ⟨b, .inr ⟨a, c, d⟩⟩
        · right
          have hz : szMod = 2 ^ 64 := rfl
          have hs' : s = ((scanNats l1).getD 0 0, (scanNats l1).getD 1 0) ∧ (scanNats l1).getD 2 0 = 0 := by
            unfold Off.readHeaderSays at hs
            simp only [getD_zeros] at hs
            split_ifs at hs with a b c d
            · injection hs with hs
              exact ⟨hs.symm, by simpa using c⟩
          obtain ⟨rfl, h2⟩ := hs'
          have key : Says (Off.readFacesSays (['O', 'F', 'F'] :: l1 :: rest) ((2 + (scanNats l1).getD 0 0) % szMod) ((scanNats l1).getD 1 0)) w := by
            cases lf
            · simp only [Bool.false_eq_true, if_false] at h
              rcases Told.says_bind.1 h with h | ⟨a, -, h⟩
              · exact h
              · rcases Told.says_bind.1 h with h | ⟨b, -, h⟩
                · exact (says_none h).elim
                · exact (says_ok h).elim
            · simp only [if_true] at h
              rcases Told.says_bind.1 h with h | ⟨a, -, h⟩
              · exact (says_none h).elim
              · rcases Told.says_bind.1 h with h | ⟨b, -, h⟩
                · exact h
                · exact (says_ok h).elim
          obtain ⟨hw, f, hf, hf'⟩ := says_readFaces key
          exact ⟨hw, he, l1, rest, rfl, h2, f, by rw [hz] at hf; exact hf, hf'⟩

theorem textsDiffer (z : Suffixes) : onlyComments ≠ onlyHeader ∧ onlyComments ≠ thirdZero ∧ onlyComments ≠ wrongLines ∧ onlyComments ≠ fewVertices ∧
    onlyHeader ≠ thirdZero ∧ onlyHeader ≠ wrongLines ∧ onlyHeader ≠ fewVertices ∧ thirdZero ≠ wrongLines ∧ thirdZero ≠ fewVertices ∧ wrongLines ≠ fewVertices ∧
    (∀ w ∈ [onlyComments, onlyHeader, thirdZero, wrongLines, fewVertices], notOff ++ z.stream ≠ w) := by
  refine ⟨by decide +kernel, by decide +kernel, by decide +kernel, by decide +kernel, by decide +kernel, by decide +kernel, by decide +kernel, by decide +kernel,
    by decide +kernel, by decide +kernel, fun w hw h => ?_⟩
  have h1 : notOff.head? = some 'N' := by decide +kernel
  have h2 : ∀ w ∈ [onlyComments, onlyHeader, thirdZero, wrongLines, fewVertices], w.head? ≠ some 'N' := by decide +kernel
  exact h2 w hw (by rw [← h, List.head?_append, h1]; rfl)

/-- C128: if the reader of OFF texts throws with a text of the library, the text tells what is wrong with the file: there are only comments; the first line that is not a comment is
not `OFF`; nothing follows the line `OFF`; the third number of the second line is not zero; the number of lines is not the number that the second line announces, modulo 2^64; or one of the
lines of the faces begins with a number below three. The first five are given whenever this is so and no line is empty.
`threeIntegers` and `wrongFacet` are never given: the vectors that are checked have the right lengths whatever was read. -/
theorem C128_off_partial (z : Suffixes) (rnd : ℚ → ℚ) (lf : Bool) (t : Text) :
    (Says (Off.readSays z rnd lf t) onlyComments ↔ [] ∉ readlines t ∧ contentLines t = []) ∧
    (Says (Off.readSays z rnd lf t) (notOff ++ z.stream) ↔ [] ∉ readlines t ∧ ∃ l ls, contentLines t = l :: ls ∧ l ≠ "OFF".toList) ∧
    (Says (Off.readSays z rnd lf t) onlyHeader ↔ [] ∉ readlines t ∧ contentLines t = ["OFF".toList]) ∧
    (Says (Off.readSays z rnd lf t) thirdZero ↔ [] ∉ readlines t ∧ ∃ l ls, contentLines t = "OFF".toList :: l :: ls ∧ (scanNats l).length = 3 ∧ (scanNats l).getD 2 0 ≠ 0) ∧
    (Says (Off.readSays z rnd lf t) wrongLines ↔ [] ∉ readlines t ∧ ∃ l ls, contentLines t = "OFF".toList :: l :: ls ∧ (scanNats l).length ≤ 3 ∧
      (scanNats l).getD 2 0 = 0 ∧ 2 + ls.length ≠ (2 + (scanNats l).getD 0 0 + (scanNats l).getD 1 0) % 2 ^ 64) ∧
    (Says (Off.readSays z rnd lf t) fewVertices → [] ∉ readlines t ∧ ∃ l ls, contentLines t = "OFF".toList :: l :: ls ∧ (scanNats l).getD 2 0 = 0 ∧
      ∃ f ∈ ((contentLines t).drop ((2 + (scanNats l).getD 0 0) % 2 ^ 64)).take ((scanNats l).getD 1 0), (scanNats f).getD 0 0 < 3) ∧
    ∀ w, Says (Off.readSays z rnd lf t) w → w ∈ [onlyComments, notOff ++ z.stream, onlyHeader, thirdZero, wrongLines, fewVertices] := by
  obtain ⟨a1, a2, a3, a4, a5, a6, a7, a8, a9, a10, a11⟩ := textsDiffer z
  simp only [List.mem_cons, List.not_mem_nil, or_false, forall_eq_or_imp, forall_eq] at a11
  obtain ⟨b1, b2, b3, b4, b5⟩ := a11
  have key := @says_off z rnd lf t
  unfold offCause at key
  have hl : ∀ {l : Text} {ls : List Text}, contentLines t = "OFF".toList :: l :: ls → (contentLines t).length = 2 + ls.length := by
    intro l ls h
    rw [h, List.length_cons, List.length_cons]
    omega
  have len3 : ∀ {l : Text}, (scanNats l).length ≤ 3 → (scanNats l).getD 2 0 ≠ 0 → (scanNats l).length = 3 := by
    intro l h h'
    rcases Nat.lt_or_ge 2 (scanNats l).length with h2 | h2
    · omega
    · exact (h' (by rw [List.getD_eq_getElem?_getD, List.getElem?_eq_none h2]; rfl)).elim
  refine ⟨⟨fun h => ?_, fun h => key.1 ⟨h.1, .inl ⟨rfl, h.2⟩⟩⟩, ⟨fun h => ?_, fun h => key.1 ⟨h.1, .inr (.inl ⟨rfl, h.2⟩)⟩⟩,
    ⟨fun h => ?_, fun h => key.1 ⟨h.1, .inr (.inr (.inl ⟨rfl, h.2⟩))⟩⟩, ⟨fun h => ?_, fun h => ?_⟩, ⟨fun h => ?_, fun h => ?_⟩, fun h => ?_, fun w h => ?_⟩
  · rcases key.2 h with ⟨h0, ⟨-, h⟩ | ⟨h, -⟩ | ⟨h, -⟩ | ⟨l, ls, -, -, ⟨h, -⟩ | ⟨h, -⟩⟩⟩ | ⟨h, -⟩
    · exact ⟨h0, h⟩
    · exact (b1 h.symm).elim
    · exact (a1 h).elim
    · exact (a2 h).elim
    · exact (a3 h).elim
    · exact (a4 h).elim
  · rcases key.2 h with ⟨h0, ⟨h, -⟩ | ⟨-, h⟩ | ⟨h, -⟩ | ⟨l, ls, -, -, ⟨h, -⟩ | ⟨h, -⟩⟩⟩ | ⟨h, -⟩
    · exact (b1 h).elim
    · exact ⟨h0, h⟩
    · exact (b2 h).elim
    · exact (b3 h).elim
    · exact (b4 h).elim
    · exact (b5 h).elim
  · rcases key.2 h with ⟨h0, ⟨h, -⟩ | ⟨h, -⟩ | ⟨-, h⟩ | ⟨l, ls, -, -, ⟨h, -⟩ | ⟨h, -⟩⟩⟩ | ⟨h, -⟩
    · exact (a1 h.symm).elim
    · exact (b2 h.symm).elim
    · exact ⟨h0, h⟩
    · exact (a5 h).elim
    · exact (a6 h).elim
    · exact (a7 h).elim
  · rcases key.2 h with ⟨h0, ⟨h, -⟩ | ⟨h, -⟩ | ⟨h, -⟩ | ⟨l, ls, h1, h2, ⟨-, h⟩ | ⟨h, -⟩⟩⟩ | ⟨h, -⟩
    · exact (a2 h.symm).elim
    · exact (b3 h.symm).elim
    · exact (a5 h.symm).elim
    · exact ⟨h0, l, ls, h1, len3 h2 h, h⟩
    · exact (a8 h).elim
    · exact (a9 h).elim
  · obtain ⟨h0, l, ls, h1, h2, h3⟩ := h
    exact key.1 ⟨h0, .inr (.inr (.inr ⟨l, ls, h1, h2.le, .inl ⟨rfl, h3⟩⟩))⟩
  · rcases key.2 h with ⟨h0, ⟨h, -⟩ | ⟨h, -⟩ | ⟨h, -⟩ | ⟨l, ls, h1, h2, ⟨h, -⟩ | ⟨-, h3, h⟩⟩⟩ | ⟨h, -⟩
    · exact (a3 h.symm).elim
    · exact (b4 h.symm).elim
    · exact (a6 h.symm).elim
    · exact (a8 h.symm).elim
    · exact ⟨h0, l, ls, h1, h2, h3, by rw [← hl h1]; exact h⟩
    · exact (a10 h).elim
  · obtain ⟨h0, l, ls, h1, h2, h3, h4⟩ := h
    exact key.1 ⟨h0, .inr (.inr (.inr ⟨l, ls, h1, h2, .inr ⟨rfl, h3, by rw [hl h1]; exact h4⟩⟩))⟩
  · rcases key.2 h with ⟨h0, ⟨h, -⟩ | ⟨h, -⟩ | ⟨h, -⟩ | ⟨l, ls, h1, h2, ⟨h, -⟩ | ⟨h, -⟩⟩⟩ | ⟨-, h⟩
    · exact (a4 h.symm).elim
    · exact (b5 h.symm).elim
    · exact (a7 h.symm).elim
    · exact (a9 h.symm).elim
    · exact (a10 h.symm).elim
    · exact h
  · simp only [List.mem_cons, List.not_mem_nil, or_false]
    rcases key.2 h with ⟨h0, ⟨h, -⟩ | ⟨h, -⟩ | ⟨h, -⟩ | ⟨l, ls, h1, h2, ⟨h, -⟩ | ⟨h, -⟩⟩⟩ | ⟨h, -⟩ <;> simp only [h, true_or, or_true]

theorem C128_never (z : Suffixes) (rnd : ℚ → ℚ) (lf : Bool) (t : Text) :
    ¬ Says (Off.readSays z rnd lf t) threeIntegers ∧ ¬ Says (Off.readSays z rnd lf t) wrongFacet := by
  have h1 : ∀ v ∈ [threeIntegers, wrongFacet], v ∉ [onlyComments, onlyHeader, thirdZero, wrongLines, fewVertices] ∧ v.head? ≠ some 'N' := by decide +kernel
  have h2 : notOff.head? = some 'N' := by decide +kernel
  have key : ∀ v ∈ [threeIntegers, wrongFacet], ¬ Says (Off.readSays z rnd lf t) v := by
    intro v hv h
    obtain ⟨n1, n2⟩ := h1 v hv
    have := (C128_off_partial z rnd lf t).2.2.2.2.2.2 v h
    simp only [List.mem_cons, List.not_mem_nil, or_false, not_or] at this n1
    rcases this with e | e | e | e | e | e
    · exact n1.1 e
    · exact n2 (by rw [e, List.head?_append, h2]; rfl)
    · exact n1.2.1 e
    · exact n1.2.2.1 e
    · exact n1.2.2.2.1 e
    · exact n1.2.2.2.2 e
  exact ⟨key _ (by simp), key _ (by simp)⟩

/-! ### Missing files, modes, bounds -/

theorem take_of_prefix {a b : Text} {n : Nat} (h : n ≤ a.length) : (a ++ b).take n = a.take n := List.take_append_of_le_length h

/-- C128: the text about a missing file names the file, and no other. -/
theorem C128_which (z : Text) (s s' : Text) : (missingText s ++ z = missingText s' ++ z ↔ s = s') ∧ (missingQuoted s ++ z = missingQuoted s' ++ z ↔ s = s') ∧
    (cannotOpen s = cannotOpen s' ↔ s = s') ∧ (cannotMake s ++ z = cannotMake s' ++ z ↔ s = s') ∧ s <:+: missingText s ++ z ∧ s <:+: missingQuoted s ++ z ∧ s <:+: cannotOpen s ∧
    s <:+: cannotMake s ++ z := by
  unfold missingText missingQuoted cannotOpen cannotMake
  refine ⟨by simp only [List.append_assoc, List.append_cancel_left_eq, List.append_cancel_right_eq], by simp only [List.append_assoc, List.append_cancel_left_eq, List.append_cancel_right_eq],
    by simp only [List.append_cancel_left_eq], by simp only [List.append_assoc, List.append_cancel_left_eq, List.append_cancel_right_eq], ?_, ?_, ?_, ?_⟩
  · exact ⟨_, _ ++ z, by simp only [List.append_assoc]; rfl⟩
  · exact ⟨_, _ ++ z, by simp only [List.append_assoc]; rfl⟩
  · exact ⟨"GDAL could not open: ".toList, [], by simp only [List.append_nil]⟩
  · exact ⟨_, _ ++ z, by simp only [List.append_assoc]; rfl⟩


theorem take4 (z : Suffixes) (s x : Text) (k : Text) : (missingText s ++ x).take 4 = "This".toList ∧ (missingQuoted s ++ x).take 4 = "This".toList ∧ (modeText k ++ x).take 4 = "The ".toList ∧
    (cannotOpen s ++ x).take 4 = "GDAL".toList ∧ (noPoints ++ z.stream).take 4 = "Unab".toList ∧
    ∀ w ∈ [onlyComments, notOff ++ z.stream, onlyHeader, thirdZero, wrongLines, fewVertices], w.take 4 ≠ "This".toList ∧ w.take 8 ≠ "The read".toList ∧ w.take 4 ≠ "GDAL".toList := by
  have e1 : "This file: ".toList.take 4 = "This".toList ∧ 4 ≤ "This file: ".toList.length := by decide +kernel
  have e2 : "This file \"".toList.take 4 = "This".toList ∧ 4 ≤ "This file \"".toList.length := by decide +kernel
  have e3 : "The ".toList.take 4 = "The ".toList ∧ 4 ≤ "The ".toList.length := by decide +kernel
  have e4 : "GDAL could not open: ".toList.take 4 = "GDAL".toList ∧ 4 ≤ "GDAL could not open: ".toList.length := by decide +kernel
  have e5 : noPoints.take 4 = "Unab".toList ∧ 4 ≤ noPoints.length := by decide +kernel
  have e6 : notOff.take 8 = "Not iden".toList ∧ notOff.take 4 = "Not ".toList ∧ 8 ≤ notOff.length := by decide +kernel
  have e7 : ∀ w ∈ [onlyComments, onlyHeader, thirdZero, wrongLines, fewVertices], w.take 4 ≠ "This".toList ∧ w.take 8 ≠ "The read".toList ∧ w.take 4 ≠ "GDAL".toList := by decide +kernel
  have e8 : "Not ".toList ≠ "This".toList ∧ "Not iden".toList ≠ "The read".toList ∧ "Not ".toList ≠ "GDAL".toList := by decide +kernel
  unfold missingText missingQuoted modeText cannotOpen
  refine ⟨?_, ?_, ?_, ?_, ?_, fun w hw => ?_⟩
  · simp only [List.append_assoc]; rw [take_of_prefix e1.2, e1.1]
  · simp only [List.append_assoc]; rw [take_of_prefix e2.2, e2.1]
  · simp only [List.append_assoc]; rw [take_of_prefix e3.2, e3.1]
  · simp only [List.append_assoc]; rw [take_of_prefix e4.2, e4.1]
  · rw [take_of_prefix e5.2, e5.1]
  · simp only [List.mem_cons, List.not_mem_nil, or_false] at hw e7
    rcases hw with h | h | h | h | h | h
    · exact e7 w (by simp only [h, true_or])
    · rw [h, take_of_prefix (by omega), take_of_prefix e6.2.2, e6.1, e6.2.1]; exact e8
    all_goals exact e7 w (by simp only [h, true_or, or_true])

theorem mode8 (x : Text) : (modeText "read".toList ++ x).take 8 = "The read".toList := by
  have e : ("The ".toList ++ "read".toList).take 8 = "The read".toList ∧ 8 ≤ ("The ".toList ++ "read".toList).length := by decide +kernel
  unfold modeText
  simp only [List.append_assoc]
  rw [← List.append_assoc "The ".toList, take_of_prefix e.2, e.1]

theorem says_offRead {z : Suffixes} {rnd : ℚ → ℚ} {lf : Bool} {modes : Modes} {p : Path} {s : Text} {fs : Fs} {w : Text} : Says (offReadSays z rnd lf modes p s fs) w ↔
    (canRead modes = false ∧ w = modeText "read".toList ++ z.io) ∨ (canRead modes = true ∧ NoFile fs p ∧ w = missingText s ++ z.noent) ∨
    (canRead modes = true ∧ ∃ t, fs p = some (.file t) ∧ Says (Off.readSays z rnd lf t) w) := by
  unfold offReadSays NoFile
  cases hm : canRead modes
  · simp only [Bool.false_eq_true, if_false, says_thrown, Option.some.injEq, true_and, false_and, or_false]
    exact eq_comm
  · simp only [if_true, true_and]
    rcases h : fs p with _ | ⟨t⟩ | _
    · simp only [says_thrown, Option.some.injEq, reduceCtorEq, ne_eq, not_false_eq_true, implies_true, true_and, false_and, exists_false, or_false, false_or, Bool.true_eq_false]
      exact eq_comm
    · simp only [Told.says_bind, says_ok, and_false, exists_false, or_false]
      constructor
      · intro h; exact .inr (.inr ⟨t, rfl, h⟩)
      · rintro (⟨h, -⟩ | ⟨h, -⟩ | ⟨t', h, h'⟩)
        · cases h
        · exact (h t rfl).elim
        · injection h with h; injection h with h; rw [h]; exact h'
    · simp only [says_thrown, Option.some.injEq, reduceCtorEq, ne_eq, not_false_eq_true, implies_true, true_and, false_and, exists_false, or_false, false_or, Bool.true_eq_false]
      exact eq_comm

theorem says_obj {z : Suffixes} {rnd : ℚ → ℚ} {t w : Text} (h : Says (Obj.readSays z rnd t) w) : w = onlyComments ∨ w = noPoints ++ z.stream ∨ w = fewVertices := by
  unfold Obj.readSays at h
  split at h
  · exact .inl (Option.some.inj (says_thrown.1 h)).symm
  · rw [Told.says_named] at h
    obtain ⟨e, -, h⟩ := h
    split at h
    · exact .inr (.inl (Option.some.inj h).symm)
    · exact .inr (.inr (Option.some.inj h).symm)
    · cases h

theorem says_objRead {z : Suffixes} {rnd : ℚ → ℚ} {modes : Modes} {p : Path} {s : Text} {fs : Fs} {w : Text} : Says (objReadSays z rnd modes p s fs) w ↔
    (canRead modes = false ∧ w = modeText "read".toList ++ z.io) ∨ (canRead modes = true ∧ NoFile fs p ∧ w = missingText s ++ z.noent) ∨
    (canRead modes = true ∧ ∃ t, fs p = some (.file t) ∧ Says (Obj.readSays z rnd t) w) := by
  unfold objReadSays NoFile
  cases hm : canRead modes
  · simp only [Bool.false_eq_true, if_false, says_thrown, Option.some.injEq, true_and, false_and, or_false]
    exact eq_comm
  · simp only [if_true, true_and]
    rcases h : fs p with _ | ⟨t⟩ | _
    · simp only [says_thrown, Option.some.injEq, reduceCtorEq, ne_eq, not_false_eq_true, implies_true, true_and, false_and, exists_false, or_false, false_or, Bool.true_eq_false]
      exact eq_comm
    · simp only
      constructor
      · intro h; exact .inr (.inr ⟨t, rfl, h⟩)
      · rintro (⟨h, -⟩ | ⟨h, -⟩ | ⟨t', h, h'⟩)
        · cases h
        · exact (h t rfl).elim
        · injection h with h; injection h with h; rw [h]; exact h'
    · simp only [says_thrown, Option.some.injEq, reduceCtorEq, ne_eq, not_false_eq_true, implies_true, true_and, false_and, exists_false, or_false, false_or, Bool.true_eq_false]
      exact eq_comm

/-- C128: the readers of OFF and OBJ files say that the file is missing if and only if the mode permits reading and there is no regular file, and that the mode forbids it if and only if
it does. -/
theorem C128_missing_partial (z : Suffixes) (rnd : ℚ → ℚ) (lf : Bool) (modes : Modes) (p : Path) (s : Text) (fs : Fs) :
    (Says (offReadSays z rnd lf modes p s fs) (missingText s ++ z.noent) ↔ canRead modes = true ∧ NoFile fs p) ∧
    (Says (offReadSays z rnd lf modes p s fs) (modeText "read".toList ++ z.io) ↔ canRead modes = false) ∧
    (Says (objReadSays z rnd modes p s fs) (missingText s ++ z.noent) ↔ canRead modes = true ∧ NoFile fs p) ∧
    (Says (objReadSays z rnd modes p s fs) (modeText "read".toList ++ z.io) ↔ canRead modes = false) := by
  have t1 : "The ".toList ≠ "This".toList ∧ "Unab".toList ≠ "This".toList ∧ "Unab".toList ≠ "The ".toList := by decide +kernel
  have t2 : ∀ w ∈ [onlyComments, fewVertices], w.take 4 ≠ "This".toList ∧ w.take 8 ≠ "The read".toList := by decide +kernel
  obtain ⟨d1, -, d3, -, d5, d6⟩ := take4 z s z.noent "read".toList
  obtain ⟨-, -, d3, -, -, -⟩ := take4 z s z.io "read".toList
  have hne : modeText "read".toList ++ z.io ≠ missingText s ++ z.noent := fun h => t1.1 (by rw [← d3, ← d1, h])
  refine ⟨?_, ?_, ?_, ?_⟩
  · rw [says_offRead]
    refine ⟨?_, fun h => .inr (.inl ⟨h.1, h.2, rfl⟩)⟩
    rintro (⟨-, h⟩ | ⟨h, h', -⟩ | ⟨-, t, -, h⟩)
    · exact (hne h.symm).elim
    · exact ⟨h, h'⟩
    · exact ((d6 _ ((C128_off_partial z rnd lf t).2.2.2.2.2.2 _ h)).1 d1).elim
  · rw [says_offRead]
    refine ⟨?_, fun h => .inl ⟨h, rfl⟩⟩
    rintro (⟨h, -⟩ | ⟨-, -, h⟩ | ⟨-, t, -, h⟩)
    · exact h
    · exact (hne h).elim
    · exact ((d6 _ ((C128_off_partial z rnd lf t).2.2.2.2.2.2 _ h)).2.1 (mode8 _)).elim
  · rw [says_objRead]
    refine ⟨?_, fun h => .inr (.inl ⟨h.1, h.2, rfl⟩)⟩
    rintro (⟨-, h⟩ | ⟨h, h', -⟩ | ⟨-, t, -, h⟩)
    · exact (hne h.symm).elim
    · exact ⟨h, h'⟩
    · rcases says_obj h with h | h | h
      · exact ((t2 onlyComments (by simp only [List.mem_cons, true_or])).1 (by rw [← h, d1])).elim
      · exact (t1.2.1 (by rw [← d5, ← h, d1])).elim
      · exact ((t2 fewVertices (by simp only [List.mem_cons, true_or, or_true])).1 (by rw [← h, d1])).elim
  · rw [says_objRead]
    refine ⟨?_, fun h => .inl ⟨h, rfl⟩⟩
    rintro (⟨h, -⟩ | ⟨-, -, h⟩ | ⟨-, t, -, h⟩)
    · exact h
    · exact (hne h).elim
    · rcases says_obj h with h | h | h
      · exact ((t2 onlyComments (by simp only [List.mem_cons, true_or])).2 (by rw [← h, mode8])).elim
      · exact (t1.2.2 (by rw [← d5, ← h, d3])).elim
      · exact ((t2 fewVertices (by simp only [List.mem_cons, true_or, or_true])).2 (by rw [← h, mode8])).elim


/-- C128: the texts of the other handlers, in full: a 3DS, vector or raster file that does not exist, that GDAL cannot open, or that cannot be made, and forbidden modes. -/
theorem C128_handlers {K L : Type} [Field K] [LinearOrder K] (z : Suffixes) (G : Gdal K) (load : Text → Option (File3ds L)) (modes : Modes) (p : Path) (s : Text) (w : World) :
    (canRead modes = true → NoFile w.fs p →
      Says (vectorReadSays z G modes p s w) ("This file \"".toList ++ s ++ "\" cannot be found! You should check the file path".toList ++ z.noent) ∧
      Says (rasterReadSays z G modes p s w) ("This file \"".toList ++ s ++ "\" cannot be found! You should check the file path".toList ++ z.noent) ∧
      (canSave modes = false → Says (t3dsOpenSays z load modes p s w.fs) ("This file \"".toList ++ s ++ "\" cannot be found! You should check the file path".toList ++ z.noent))) ∧
    (∀ t, canRead modes = true → w.fs p = some (.file t) →
      (w.registered = false ∨ G.readShp t = none → Says (vectorReadSays z G modes p s w) ("GDAL could not open: ".toList ++ s)) ∧
      (w.registered = false ∨ G.readTiff t = none → Says (rasterReadSays z G modes p s w) ("GDAL could not open: ".toList ++ s))) ∧
    (canSave modes = true → w.fs.canWrite p = false → Says (vectorWriteSays z modes p s w.fs) ("GDAL could not open: \"".toList ++ s ++ "\" as an ESRI Shapefile".toList ++ z.io)) ∧
    (canSave modes = false → Says (vectorWriteSays z modes p s w.fs)
        ("The ".toList ++ "write".toList ++ " mode is set to:false! You should set it as follows: 'modes[\"".toList ++ "write".toList ++ "\"] = true'".toList ++ z.io) ∧
      Says (offWriteSays z modes)
        ("The ".toList ++ "write".toList ++ " mode is set to:false! You should set it as follows: 'modes[\"".toList ++ "write".toList ++ "\"] = true'".toList ++ z.io)) ∧
    (canRead modes = canSave modes → Says (t3dsOpenSays z load modes p s w.fs)
      ((if canRead modes then "Simultaneous reading and writing access is forbidden".toList else "You have to specify access type".toList) ++ z.noent)) := by
  refine ⟨fun hr hn => ⟨?_, ?_, fun hs => ?_⟩, fun t hr ht => ⟨fun h => ?_, fun h => ?_⟩, fun hs hw => ?_, fun hs => ⟨?_, ?_⟩, fun h => ?_⟩
  · unfold vectorReadSays gdalOpenSays
    rw [hr]
    rcases h : w.fs p with _ | ⟨t⟩ | _
    · exact ⟨_, rfl⟩
    · exact (hn t h).elim
    · exact ⟨_, rfl⟩
  · unfold rasterReadSays gdalOpenSays
    rw [hr]
    rcases h : w.fs p with _ | ⟨t⟩ | _
    · exact ⟨_, rfl⟩
    · exact (hn t h).elim
    · exact ⟨_, rfl⟩
  · unfold t3dsOpenSays
    rw [hr, hs]
    rcases h : w.fs p with _ | ⟨t⟩ | _
    · exact ⟨_, rfl⟩
    · exact (hn t h).elim
    · exact ⟨_, rfl⟩
  · unfold vectorReadSays gdalOpenSays
    rw [hr, ht]
    cases hw : w.registered
    · exact ⟨_, rfl⟩
    · rcases h with h | h
      · rw [hw] at h; cases h
      · simp only [if_true, h]
        exact ⟨_, rfl⟩
  · unfold rasterReadSays gdalOpenSays
    rw [hr, ht]
    cases hw : w.registered
    · exact ⟨_, rfl⟩
    · rcases h with h | h
      · rw [hw] at h; cases h
      · simp only [if_true, h]
        exact ⟨_, rfl⟩
  · unfold vectorWriteSays
    rw [hs, hw]
    exact ⟨_, rfl⟩
  · unfold vectorWriteSays
    rw [hs]
    exact ⟨_, rfl⟩
  · unfold offWriteSays
    rw [hs]
    exact ⟨_, rfl⟩
  · unfold t3dsOpenSays
    rw [← h]
    cases canRead modes <;> exact ⟨_, rfl⟩

/-- C128: what the constructor of the handler of scenes says: the format is not one of four names; or the path has not the extension of the format. A directory of OFF files needs none. -/
theorem C128_format (p : Path) (f : Text) :
    (Says (sceneHandlerSays p f) "Input format not supported!".toList ↔ f ∉ ["3DS XML".toList, "3DS".toList, "OFF".toList, "OBJ".toList]) ∧
    (Says (sceneHandlerSays p f) "The file path does not have the right extension".toList ↔
      (f = "3DS XML".toList ∧ iequals (extension p) ".3ds".toList = false) ∨ (f = "3DS".toList ∧ iequals (extension p) ".3ds".toList = false) ∨
      (f = "OBJ".toList ∧ iequals (extension p) ".obj".toList = false)) ∧
    ∀ w, Says (sceneHandlerSays p f) w → w ∈ ["Input format not supported!".toList, "The file path does not have the right extension".toList] := by
  have hne : "Input format not supported!".toList ≠ "The file path does not have the right extension".toList := by decide +kernel
  have n1 : "3DS XML".toList ≠ "3DS".toList ∧ "3DS XML".toList ≠ "OBJ".toList ∧ "3DS".toList ≠ "OBJ".toList ∧ "OFF".toList ≠ "3DS XML".toList ∧ "OFF".toList ≠ "3DS".toList ∧
    "OFF".toList ≠ "OBJ".toList := by decide +kernel
  have k1 : sceneFormat "3DS XML".toList = .ok .t3dsXml := by decide +kernel
  have k2 : sceneFormat "3DS".toList = .ok .t3ds := by decide +kernel
  have k3 : sceneFormat "OFF".toList = .ok .off := by decide +kernel
  have k4 : sceneFormat "OBJ".toList = .ok .obj := by decide +kernel
  have chk : ∀ g e, g ≠ .off → formatExt g = .ok e → ∀ w, Says (Told.named (fun _ => some "The file path does not have the right extension".toList) (sceneHandler p g)) w ↔
      w = "The file path does not have the right extension".toList ∧ iequals (extension p) e = false := by
    intro g e hg he w
    rw [Told.says_named]
    have : sceneHandler p g = if iequals (extension p) e then .ok g else .thrown .runtimeError := by
      unfold sceneHandler checkExtension
      cases g
      case off => exact (hg rfl).elim
      all_goals
        simp only
        rw [he, Out.ok_bind]
        cases iequals (extension p) e <;> rfl
    rw [this]
    cases iequals (extension p) e
    · simp only [Bool.false_eq_true, if_false, Out.thrown.injEq, and_true, exists_eq_left', Option.some.injEq]
      exact eq_comm
    · simp only [if_true, reduceCtorEq, false_and, exists_false, and_false, Bool.true_eq_false]
  have run : ∀ g w, sceneFormat f = .ok g → (Says (sceneHandlerSays p f) w ↔ Says (Told.named (fun _ => some "The file path does not have the right extension".toList) (sceneHandler p g)) w) := by
    intro g w h
    unfold sceneHandlerSays
    rw [h]
    rfl
  by_cases h1 : f = "3DS XML".toList
  · subst h1
    have c := fun w => (run _ w k1).trans (chk .t3dsXml ".3ds".toList (by decide) (by decide +kernel) w)
    simp only [c, List.mem_cons, true_or, not_true, iff_false, true_and, List.not_mem_nil, or_false, n1.1, n1.2.1, false_and]
    exact ⟨fun h => hne h.1, fun w h => .inr h.1⟩
  by_cases h2 : f = "3DS".toList
  · subst h2
    have c := fun w => (run _ w k2).trans (chk .t3ds ".3ds".toList (by decide) (by decide +kernel) w)
    simp only [c, List.mem_cons, true_or, or_true, not_true, iff_false, true_and, List.not_mem_nil, or_false, n1.1.symm, n1.2.2.1, false_and, false_or]
    exact ⟨fun h => hne h.1, fun w h => .inr h.1⟩
  by_cases h4 : f = "OBJ".toList
  · subst h4
    have c := fun w => (run _ w k4).trans (chk .obj ".obj".toList (by decide) (by decide +kernel) w)
    simp only [c, List.mem_cons, true_or, or_true, not_true, iff_false, true_and, List.not_mem_nil, or_false, n1.2.1.symm, n1.2.2.1.symm, false_and, false_or]
    exact ⟨fun h => hne h.1, fun w h => .inr h.1⟩
  by_cases h3 : f = "OFF".toList
  · subst h3
    have c : ∀ w, ¬ Says (sceneHandlerSays p "OFF".toList) w := fun w h => says_ok ((run _ w k3).1 h)
    simp only [c, List.mem_cons, true_or, or_true, not_true, iff_false, List.not_mem_nil, or_false, n1.2.2.2.1, n1.2.2.2.2.1, n1.2.2.2.2.2, false_and, false_or, false_imp_iff, implies_true,
      not_false_eq_true, and_self]
  · have k : sceneFormat f = .thrown .runtimeError := by
      unfold sceneFormat
      rw [if_neg]
      rw [List.idxOf_lt_length_iff]
      unfold supportedFormats
      simp only [List.mem_cons, List.not_mem_nil, or_false, h1, h2, h3, h4, or_self, not_false_eq_true]
    have c : ∀ w, Says (sceneHandlerSays p f) w ↔ w = "Input format not supported!".toList := by
      intro w
      unfold sceneHandlerSays
      rw [k]
      show Says (Told.thrown _ _) w ↔ _
      rw [says_thrown, Option.some.injEq]
      exact eq_comm
    simp only [c, List.mem_cons, List.not_mem_nil, or_false, h1, h2, h3, h4, or_self, not_false_eq_true, false_and, iff_false, true_and, true_iff]
    exact ⟨hne.symm, fun w h => .inl h⟩

/-- C128: the text of the exception of a face out of bounds begins with the numbers, whose sizes it gives; it never begins with the words that the program puts there, because they are overwritten. -/
theorem C128_bounds (a h b w : Nat) :
    (natText a ++ " > ".toList ++ natText h ++ " or ".toList ++ natText b ++ " > ".toList ++ natText w) <+: boundsText a h b w ∧ ¬ "Face".toList <+: boundsText a h b w ∧
    ∀ a' h' b' w', boundsText a h b w = boundsText a' h' b' w' → a = a' := by
  have e : ∀ a h b w, ∃ r, boundsText a h b w = natText a ++ ' ' :: r := by
    intro a h b w
    have : " > ".toList = ' ' :: "> ".toList := by decide +kernel
    unfold boundsText overwritten
    rw [this]
    exact ⟨_, by simp only [List.append_assoc, List.cons_append]; rfl⟩
  have tk : ∀ a h b w, (boundsText a h b w).takeWhile isDigit = natText a := by
    intro a h b w
    obtain ⟨r, hr⟩ := e a h b w
    rw [hr, List.takeWhile_append_of_pos (natText_digits a), List.takeWhile_cons_of_neg (by decide), List.append_nil]
  refine ⟨⟨_, rfl⟩, fun hf => ?_, fun a' h' b' w' heq => ?_⟩
  · obtain ⟨r, hr⟩ := hf
    have := tk a h b w
    rw [← hr] at this
    have e0 : "Face".toList = 'F' :: "ace".toList := by decide +kernel
    rw [e0, List.cons_append, List.takeWhile_cons_of_neg (by decide)] at this
    exact natText_ne_nil a this.symm
  · have := tk a h b w
    rw [heq, tk] at this
    rw [← natVal_natText a, ← this, natVal_natText]

/-- The full C128 for directories and scene trees: what is missing is named. -/
def C128_full : Prop := ∀ (z : Suffixes) (p : Path) (s : Text) (fs : Fs), NoFile fs p → fs p ≠ some .dir →
  (∀ xml, NamesThePath (treeOpenSays xml p fs) s) ∧
  ∀ (N : Type) (ops : NodeOps N) (rnd : ℚ → ℚ) (lf : Bool) (modes : Modes) (names : List Text), NamesThePath (offSceneReadSays z ops rnd lf modes p s names fs) s

/-- C128 is false of the code: "Could not read Scene Tree description!" whatever file it was, io_scene_tree.cpp:17. -/
theorem C128_refuted : ¬ C128_full := by
  intro h
  have := (h ⟨[], [], []⟩ ["town".toList] "/town".toList (fun _ => none) (by intro t; simp) (by simp)).1 (fun _ => none) _ _ rfl
  exact absurd this (by decide +kernel)

/-- C128: nor does the reader of a directory of OFF files name the path which is not a directory: the text is the same for all. -/
theorem C128_directory_refuted {N : Type} (z : Suffixes) (ops : NodeOps N) (rnd : ℚ → ℚ) (lf : Bool) (modes : Modes) (p : Path) (s : Text) (names : List Text) (fs : Fs) (h : fs p ≠ some .dir) :
    Says (offSceneReadSays z ops rnd lf modes p s names fs) "Path is not a directory".toList ∧ ¬ "/town".toList <:+: "Path is not a directory".toList := by
  refine ⟨?_, by decide +kernel⟩
  unfold offSceneReadSays
  rw [if_pos h, says_thrown]

/-- C128: if a file of the directory is missing, the text names that file: the directory, a slash and the name. -/
theorem C128_terrain {N : Type} (z : Suffixes) (ops : NodeOps N) (rnd : ℚ → ℚ) (lf : Bool) (modes : Modes) (p : Path) (s : Text) (fs : Fs) (h : fs p = some .dir) (hr : canRead modes = true)
    (hs : s ≠ [] ∧ s.getLast? ≠ some '/') (ht : NoFile fs (joinPath p "terrain.off".toList)) :
    Says (offSceneReadSays z ops rnd lf modes p s [] fs) ("This file: ".toList ++ s ++ "/terrain.off".toList ++ " cannot be found! You should check the file path.".toList ++ z.noent) := by
  unfold offSceneReadSays
  rw [if_neg (by simp [h]), List.filter_nil]
  show Says (Told.bind (.ok []) _) _
  rw [Told.bind_ok, Told.says_bind]
  left
  have e : slashed s "terrain.off".toList = s ++ "/terrain.off".toList := by
    unfold slashed
    rw [if_neg (by rintro (h | h); exacts [hs.1 h, hs.2 h])]
    have : "/terrain.off".toList = '/' :: "terrain.off".toList := by decide +kernel
    rw [this]
  rw [e, says_offRead]
  exact .inr (.inl ⟨hr, ht, by unfold missingText; simp only [List.append_assoc]⟩)

section Examples

/-- The mode to read. -/
def readMode : Modes := fun k => if k = "read".toList then some true else none

example : Says (offReadSays ⟨[], [], []⟩ _root_.id true readMode ["a.off".toList] "/a.off".toList fun _ => none) ("This file: /a.off cannot be found! You should check the file path.".toList) :=
  ⟨.filesystemError, by decide +kernel⟩
example : canRead readMode = true ∧ NoFile (fun _ => some .dir) ["a.off".toList] := ⟨by decide +kernel, fun t h => by cases h⟩
example : Says (Off.readSays ⟨[], [], []⟩ _root_.id true "# a\n# b\n".toList) onlyComments := ⟨.outOfRange, by decide +kernel⟩
example : Says (Off.readSays ⟨[], [], "!".toList⟩ _root_.id true "# a\nPLY\n".toList) (notOff ++ "!".toList) := ⟨.failure, by decide +kernel⟩
example : Says (Off.readSays ⟨[], [], []⟩ _root_.id true "OFF\n# b\n".toList) onlyHeader := ⟨.outOfRange, by decide +kernel⟩
example : Says (Off.readSays ⟨[], [], []⟩ _root_.id true "OFF\n0 0 1\n".toList) thirdZero := ⟨.rangeError, by decide +kernel⟩
example : Says (Off.readSays ⟨[], [], []⟩ _root_.id true "OFF\n1 0 0\n".toList) wrongLines := ⟨.rangeError, by decide +kernel⟩
example : Says (Off.readSays ⟨[], [], []⟩ _root_.id true "OFF\n0 1 0\n2 0 1\n".toList) fewVertices := ⟨.logicError, by decide +kernel⟩
example : boundsText 3 2 5 4 = "3 > 2 or 5 > 4unds: ".toList ∧ boundsText 1000 100 20000 10000 = "1000 > 100 or 20000 > 10000".toList := by decide +kernel
example : Says (sceneHandlerSays ["a.obj".toList] "PLY".toList) "Input format not supported!".toList := ⟨.runtimeError, by decide +kernel⟩
example : Says (sceneHandlerSays ["a.off".toList] "OBJ".toList) "The file path does not have the right extension".toList := ⟨.runtimeError, by decide +kernel⟩

example : Fs.canWrite (fun _ => none) ["d".toList, "a.shp".toList] = false ∧ canSave readMode = false := by decide +kernel

end Examples

end City.Props
