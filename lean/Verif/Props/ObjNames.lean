import Verif.Props.Obj
import Verif.Props.OffNames
/-!
Property C23 for every name of an object, also of several words or lines: what is written after `o ` (obj_stream.h:165) and
what is read of it (obj_stream.h:301-309).
-/
set_option exponentiation.threshold 2000
namespace City.Spec
open City

/-- After each line break of the name comes a comment, another line break or the end of the name. -/
def HarmlessName (n : Text) : Prop := ∀ a b : Text, n = a ++ '\n' :: b → b = [] ∨ b.head? = some '\n' ∨ b.head? = some '#'

/-- The first word of the first line of a name. -/
def wordOf (n : Text) : Text := ((n.takeWhile fun c => c != '\n').dropWhile isSpace).takeWhile fun c => !isSpace c

/-- What can be written to an OBJ file, whatever the names are. -/
structure ObjHolds (ms : List Mesh) : Prop where
  finite : ∀ m ∈ ms, ∀ p ∈ m.points, FinitePoint p
  degree : ∀ m ∈ ms, ∀ f ∈ m.faces, 3 ≤ f.degree
  valid : ∀ m ∈ ms, Valid m
  small : (ms.flatMap (·.points)).length ≤ 2 ^ 53

end City.Spec

namespace City.Props
open City Spec

/-- The mesh with another name. -/
def renamed (f : Text → Text) (m : Mesh) : Mesh := { m with name := f m.name }

/-- The lines that are kept, part by part. -/
theorem parse_unlines (ls : List Text) : Obj.parse (unlines ls) = ls.flatMap fun l => Obj.parse (l ++ ['\n']) := by
  induction ls with
  | nil => rfl
  | cons l ls ih =>
    rw [List.flatMap_cons, ← ih, unlines_cons]
    unfold Obj.parse
    rw [readlines_break, List.filter_append]

/-- One line. -/
theorem parse_line {l : Text} (h : '\n' ∉ l) : Obj.parse (l ++ ['\n']) = if l = [] ∨ l.head? = some '#' then [] else [l] := by
  unfold Obj.parse
  rw [readlines_line h, show readlines [] = ([] : List Text) from rfl]
  cases l with
  | nil => rfl
  | cons c l =>
    by_cases hc : c = '#'
    · subst hc
      rw [if_pos (by simp)]; rfl
    · rw [if_neg (by simp [hc])]
      simp [hc]

/-- Comments and empty lines leave nothing. -/
theorem harmless_parse (n : Nat) : ∀ t : Text, t.length ≤ n → (t = [] ∨ t.head? = some '\n' ∨ t.head? = some '#') → HarmlessName t →
    Obj.parse (t ++ ['\n']) = [] := by
  induction n with
  | zero =>
    intro t ht _ _
    rw [List.length_eq_zero_iff.1 (by omega : t.length = 0)]
    rfl
  | succ n ih =>
    intro t ht h0 h
    by_cases hn : '\n' ∈ t
    · obtain ⟨x, y, hxy, hx⟩ := first_break hn
      subst hxy
      have hy : y.length ≤ n := by simp at ht; omega
      have e := ih y hy (h x y rfl) (fun a b hab => h (x ++ '\n' :: a) b (by rw [hab]; simp))
      have hx' : x = [] ∨ x.head? = some '#' := by
        cases x with
        | nil => exact .inl rfl
        | cons c x =>
          rcases h0 with h0 | h0 | h0
          · cases h0
          · exact absurd (by simp at h0; simp [h0]) hx
          · exact .inr h0
      have h1 := parse_line hx
      rw [if_pos hx'] at h1
      have : Obj.parse ((x ++ '\n' :: y) ++ ['\n']) = Obj.parse (x ++ ['\n']) ++ Obj.parse (y ++ ['\n']) := by
        rw [List.append_assoc, List.cons_append]
        unfold Obj.parse
        rw [readlines_break, List.filter_append]
      rw [this, h1, e]
      rfl
    · rw [parse_line hn, if_pos]
      rcases h0 with h0 | h0 | h0
      · exact .inl h0
      · cases t with
        | nil => cases h0
        | cons c t => exact absurd (by simp at h0; simp [h0]) hn
      · exact .inr h0

/-- The first line of a text. -/
def lineOf (n : Text) : Text := n.takeWhile fun c => c != '\n'

theorem lineOf_no (n : Text) : '\n' ∉ lineOf n := by
  intro h
  have := List.mem_takeWhile_imp h
  simp at this

/-- The line of an object with a harmless name. -/
theorem parse_name {n : Text} (h : HarmlessName n) : Obj.parse (('o' :: ' ' :: n) ++ ['\n']) = ['o' :: ' ' :: lineOf n] := by
  have one : ∀ l : Text, '\n' ∉ l → Obj.parse (('o' :: ' ' :: l) ++ ['\n']) = ['o' :: ' ' :: l] := by
    intro l hl
    rw [parse_line (by simpa using hl), if_neg (by simp)]
  by_cases hn : '\n' ∈ n
  · obtain ⟨x, y, hxy, hx⟩ := first_break hn
    subst hxy
    have e : lineOf (x ++ '\n' :: y) = x := by
      unfold lineOf
      rw [List.takeWhile_append_of_pos (by
        intro c hc
        have : c ≠ '\n' := by rintro rfl; exact hx hc
        simpa using this)]
      simp
    have e2 := harmless_parse _ y le_rfl (h x y rfl) (fun a b hab => h (x ++ '\n' :: a) b (by rw [hab]; simp))
    have : Obj.parse (('o' :: ' ' :: (x ++ '\n' :: y)) ++ ['\n']) = Obj.parse (('o' :: ' ' :: x) ++ ['\n']) ++ Obj.parse (y ++ ['\n']) := by
      rw [show ('o' :: ' ' :: (x ++ '\n' :: y)) ++ ['\n'] = ('o' :: ' ' :: x) ++ '\n' :: (y ++ ['\n']) from by simp]
      unfold Obj.parse
      rw [readlines_break, List.filter_append]
    rw [this, one x hx, e2, e]
    rfl
  · have e : lineOf n = n := by
      unfold lineOf
      rw [List.takeWhile_eq_self_iff]
      intro c hc
      have : c ≠ '\n' := by rintro rfl; exact hn hc
      simpa using this
    rw [one n hn, e]

theorem offs_renamed (f : Text → Text) (ms : List Mesh) : ∀ a, Obj.offs a (ms.map (renamed f)) = (Obj.offs a ms).map fun p => (renamed f p.1, p.2) := by
  induction ms with
  | nil => intro a; rfl
  | cons m ms ih =>
    intro a
    rw [List.map_cons, Obj.offs, Obj.offs, List.map_cons, ← ih]
    rfl

theorem allPts_renamed (f : Text → Text) (ms : List Mesh) : Obj.allPts (ms.map (renamed f)) = Obj.allPts ms := by
  unfold Obj.allPts
  rw [List.flatMap_map]
  rfl

/-- The lines kept of a file with harmless names. -/
theorem parse_harmless {ms : List Mesh} (hn : ∀ m ∈ ms, HarmlessName m.name) :
    Obj.parse ((Obj.writeLines ms).flatMap (· ++ ['\n'])) = Obj.keptLines (ms.map (renamed lineOf)) := by
  show Obj.parse (unlines (Obj.writeLines ms)) = _
  rw [parse_unlines]
  unfold Obj.writeLines Obj.keptLines
  rw [Obj.zip_shifts, List.flatMap_append, allPts_renamed, offs_renamed]
  congr 1
  · rw [List.flatMap_assoc]
    unfold Obj.allPts
    rw [List.map_flatMap]
    congr 1
    funext m
    induction m.points with
    | nil => rfl
    | cons p ps ih =>
      rw [List.map_cons, List.flatMap_cons, ih, parse_line (Obj.vLine_ok p), if_neg (by simp [Obj.vLine])]
      rfl
  · rw [List.flatMap_assoc, List.map_map, List.flatMap_map]
    have hall : ∀ p ∈ Obj.offs 0 ms, HarmlessName p.1.name := by
      intro p hp
      have := List.mem_map_of_mem (f := (·.1)) hp
      rw [Obj.offs_fst] at this
      exact hn _ this
    have one : ∀ p : Mesh × ℕ, HarmlessName p.1.name →
        (Obj.objLines p.1 p.2).flatMap (fun l => Obj.parse (l ++ ['\n'])) = Obj.secLines (' ' :: lineOf p.1.name, p.1.faces.map (Obj.fLine p.2)) := by
      intro p hp
      unfold Obj.objLines Obj.secLines
      rw [List.flatMap_cons, List.flatMap_cons, parse_name hp]
      have : (p.1.faces.map (Obj.fLine p.2)).flatMap (fun l => Obj.parse (l ++ ['\n'])) = p.1.faces.map (Obj.fLine p.2) := by
        induction p.1.faces with
        | nil => rfl
        | cons f fs ih =>
          rw [List.map_cons, List.flatMap_cons, ih, parse_line (Obj.fLine_ok _ f), if_neg (by simp [Obj.fLine])]
          rfl
      rw [this]
      rfl
    generalize Obj.offs 0 ms = L at hall
    induction L with
    | nil => rfl
    | cons p L ih =>
      rw [List.flatMap_cons, List.flatMap_cons, ih (fun q hq => hall q (by simp [hq])), one p (hall p (by simp))]
      rfl

/-- Reading looks at the first word of a name only. -/
theorem kept_words (rnd : ℚ → ℚ) {t : Text} {ms : List Mesh} (ht : Obj.parse t = Obj.keptLines ms) :
    Obj.read rnd t = if Obj.keptLines ms = [] then .thrown .outOfRange else
      (Out.mapM (fun l => Obj.line2pt rnd (List.tail l)) ((Obj.allPts ms).map Obj.vLine)).bind fun ps =>
      Out.mapM (Obj.readObj rnd (⟨0, 0, 0⟩ :: ps))
        (Obj.emplaceAll ((Obj.offs 0 ms).map fun p => (Obj.firstToken (' ' :: p.1.name), p.1.faces.map (Obj.fLine p.2)))) := by
  unfold Obj.read
  rw [ht]
  dsimp only
  split
  · rfl
  · unfold Obj.readPoints
    rw [Obj.takeWhile_kept]
    have hobj : (Obj.objects (Obj.keptLines ms)).map (fun o => (o.1, ((Obj.keptLines ms).drop o.2.1).take o.2.2)) =
        Obj.emplaceAll ((Obj.offs 0 ms).map fun p => (Obj.firstToken (' ' :: p.1.name), p.1.faces.map (Obj.fLine p.2))) := by
      unfold Obj.objects
      simp only
      rw [Obj.takeWhile_kept]
      have hdrop : (Obj.keptLines ms).drop ((Obj.allPts ms).map Obj.vLine).length =
          ((Obj.offs 0 ms).map fun p => (' ' :: p.1.name, p.1.faces.map (Obj.fLine p.2))).flatMap Obj.secLines := by
        unfold Obj.keptLines; rw [List.drop_left' rfl]
      rw [hdrop, ← Obj.emplaceAll_map (fun q : Nat × Nat => ((Obj.keptLines ms).drop q.1).take q.2)]
      rw [Obj.resolve_sections (Obj.keptLines ms) _ ((Obj.allPts ms).map Obj.vLine) rfl (by
        intro s hs l hl
        obtain ⟨p, -, rfl⟩ := List.mem_map.1 hs
        obtain ⟨f, -, rfl⟩ := List.mem_map.1 hl
        rfl)]
      rw [List.map_map]
      rfl
    rcases Out.mapM (fun l => Obj.line2pt rnd (List.tail l)) ((Obj.allPts ms).map Obj.vLine) with ps | e | _
    · show Out.mapM (Obj.readObject rnd (Obj.keptLines ms) (⟨0, 0, 0⟩ :: ps)) (Obj.objects (Obj.keptLines ms)) = Out.mapM _ _
      have hfun : Obj.readObject rnd (Obj.keptLines ms) (⟨0, 0, 0⟩ :: ps) =
          fun o => Obj.readObj rnd (⟨0, 0, 0⟩ :: ps) (o.1, ((Obj.keptLines ms).drop o.2.1).take o.2.2) := by
        funext o; exact Obj.readObject_eq ..
      rw [hfun, Obj.mapM_comp (Obj.readObj rnd (⟨0, 0, 0⟩ :: ps))
        (fun o : Text × Nat × Nat => (o.1, ((Obj.keptLines ms).drop o.2.1).take o.2.2)), hobj]
    · rfl
    · rfl

theorem wordOf_noBlank (n : Text) : NoBlank (wordOf n) := by
  intro c hc
  have := List.mem_takeWhile_imp hc
  simpa using this

/-- Reading a file gives what reading the same file with the first words of the names gives. -/
theorem read_words (rnd : ℚ → ℚ) {ms : List Mesh} (hne : ms ≠ []) (hn : ∀ m ∈ ms, HarmlessName m.name) :
    ∃ t t', Obj.write ms = .ok t ∧ Obj.write (ms.map (renamed wordOf)) = .ok t' ∧ Obj.read rnd t = Obj.read rnd t' := by
  refine ⟨_, _, by unfold Obj.write; rw [if_neg hne], by unfold Obj.write; rw [if_neg (by simpa using hne)], ?_⟩
  have hw : ∀ m ∈ ms.map (renamed wordOf), '\n' ∉ m.name := by
    intro m hm hc
    obtain ⟨m', -, rfl⟩ := List.mem_map.1 hm
    have := wordOf_noBlank _ _ hc
    revert this; decide
  rw [kept_words rnd (parse_harmless hn), kept_words rnd (Obj.parse_write hw)]
  have hk : ∀ f : Text → Text, Obj.keptLines (ms.map (renamed f)) ≠ [] := by
    intro f he
    unfold Obj.keptLines at he
    rw [List.append_eq_nil_iff] at he
    cases ms with
    | nil => exact hne rfl
    | cons m ms =>
      rw [List.map_cons, Obj.offs, List.map_cons, List.flatMap_cons, Obj.secLines] at he
      exact absurd he.2 (by simp)
  rw [if_neg (hk _), if_neg (hk _), allPts_renamed, allPts_renamed, offs_renamed, offs_renamed, List.map_map, List.map_map]
  have : (fun p : Mesh × ℕ => (Obj.firstToken (' ' :: (renamed lineOf p.1).name), (renamed lineOf p.1).faces.map (Obj.fLine p.2))) =
      fun p : Mesh × ℕ => (Obj.firstToken (' ' :: (renamed wordOf p.1).name), (renamed wordOf p.1).faces.map (Obj.fLine p.2)) := by
    funext p
    have e1 : Obj.firstToken (' ' :: (renamed lineOf p.1).name) = wordOf p.1.name := rfl
    have e2 : Obj.firstToken (' ' :: (renamed wordOf p.1).name) = wordOf p.1.name := Obj.firstToken_name (wordOf_noBlank _)
    rw [e1, e2]
    rfl
  show (Out.bind _ fun ps => Out.mapM _ (Obj.emplaceAll (List.map (fun p : Mesh × ℕ => (Obj.firstToken (' ' :: (renamed lineOf p.1).name), (renamed lineOf p.1).faces.map (Obj.fLine p.2))) _))) = _
  rw [this]
  rfl

/-- C23, for names of any number of words: what is read has one mesh for each first word, with the polygons of the FIRST mesh whose name
begins with this word; the other meshes with this first word are lost. -/
theorem C23_words (rnd : ℚ → ℚ) (hr : ∀ n : ℕ, n ≤ 2 ^ 53 → rnd n = n) (ms : List Mesh) (hne : ms ≠ []) (h : ObjHolds ms)
    (hn : ∀ m ∈ ms, HarmlessName m.name) :
    ∃ t rs g, Obj.write ms = .ok t ∧ Obj.read rnd t = .ok rs ∧ rs.Pairwise (fun a b => a.name < b.name) ∧
      (∀ m ∈ ms, ∀ p ∈ m.points, ReadBack rnd p (g p)) ∧
      (∀ n, (rs.find? fun r => r.name == n).map polygons =
        (ms.find? fun m => wordOf m.name == n).map fun m => (polygons m).map (·.map (·.map g))) := by
  obtain ⟨t, t', h1, h2, h3⟩ := read_words rnd hne hn
  have hR : ObjReady (ms.map (renamed wordOf)) := by
    refine ⟨?_, ?_, ?_, ?_, ?_⟩
    · intro m hm
      obtain ⟨m', hm', rfl⟩ := List.mem_map.1 hm
      exact h.finite m' hm'
    · intro m hm
      obtain ⟨m', hm', rfl⟩ := List.mem_map.1 hm
      exact h.degree m' hm'
    · intro m hm
      obtain ⟨m', hm', rfl⟩ := List.mem_map.1 hm
      exact h.valid m' hm'
    · intro m hm
      obtain ⟨m', -, rfl⟩ := List.mem_map.1 hm
      exact wordOf_noBlank _
    · have := allPts_renamed wordOf ms
      unfold Obj.allPts at this
      rw [this]
      exact h.small
  obtain ⟨t'', rs, g, k1, k2, k3, k4, k5⟩ := C23_duplicate_names rnd hr _ (by simpa using hne) hR
  have et := Out.ok.inj (h2.symm.trans k1)
  subst et
  refine ⟨t, rs, g, h1, h3.trans k2, k3, fun m hm p hp => ?_, fun n => ?_⟩
  · exact k4 (renamed wordOf m) (List.mem_map_of_mem hm) p hp
  · rw [k5 n, List.find?_map, Option.map_map]
    rfl

/-- C23: whatever the names are, no mesh is lost if and only if the first words of the names are all different. -/
theorem C23_words_exact (rnd : ℚ → ℚ) (hr : ∀ n : ℕ, n ≤ 2 ^ 53 → rnd n = n) (ms : List Mesh) (hne : ms ≠ []) (h : ObjHolds ms)
    (hn : ∀ m ∈ ms, HarmlessName m.name) :
    (∃ t rs, Obj.write ms = .ok t ∧ Obj.read rnd t = .ok rs ∧ rs.length = ms.length) ↔ (ms.map fun m => wordOf m.name).Nodup := by
  classical
  obtain ⟨t, rs, g, h1, h2, h3, -, h5⟩ := C23_words rnd hr ms hne h hn
  have hmem : ∀ n, n ∈ rs.map Mesh.name ↔ n ∈ ms.map fun m => wordOf m.name := by
    intro n
    have := congrArg (fun o => o.isSome = true) (h5 n)
    simp only [Option.isSome_map, List.find?_isSome, beq_iff_eq] at this
    rw [List.mem_map, List.mem_map]
    exact iff_of_eq this
  have hnd : (rs.map Mesh.name).Nodup := by
    unfold List.Nodup
    rw [List.pairwise_map]
    exact h3.imp fun hlt => ne_of_lt hlt
  have hlen : rs.length = ((ms.map fun m => wordOf m.name).dedup).length := by
    have : (rs.map Mesh.name).Perm (ms.map fun m => wordOf m.name).dedup :=
      (List.perm_ext_iff_of_nodup hnd (List.nodup_dedup _)).2 fun n => by rw [hmem, List.mem_dedup]
    simpa using this.length_eq
  constructor
  · rintro ⟨t', rs', k1, k2, k3⟩
    have e := Out.ok.inj (h1.symm.trans k1)
    subst e
    have e := Out.ok.inj (h2.symm.trans k2)
    subst e
    have : (ms.map fun m => wordOf m.name).dedup.length = (ms.map fun m => wordOf m.name).length := by
      rw [← hlen, k3, List.length_map]
    rw [← List.dedup_eq_self]
    exact (List.dedup_sublist _).eq_of_length this
  · intro hd
    refine ⟨t, rs, h1, h2, ?_⟩
    rw [hlen, List.dedup_eq_self.2 hd, List.length_map]

/-- C23: a name with a line break can hold a face: the file of a mesh without this face is the file of a mesh with it. -/
theorem C23_forged (n : Text) (ps : List (V3 ℚ)) (f : Face) (fs : List Face) :
    Obj.write [Mesh.make (n ++ '\n' :: Obj.fLine 0 f) ps fs] = Obj.write [Mesh.make n ps (f :: fs)] := by
  unfold Obj.write
  rw [if_neg (by simp), if_neg (by simp)]
  simp [Obj.writeLines, Obj.shifts, Obj.partialSum, Obj.objLines, Mesh.make]

example : HarmlessName "roof of a church".toList := by
  intro a b e
  have : '\n' ∈ "roof of a church".toList := by rw [e]; simp
  exact absurd this (by decide)

example : wordOf "roof of a church".toList = "roof".toList ∧ wordOf "roof of a tower".toList = "roof".toList := by decide

end City.Props
